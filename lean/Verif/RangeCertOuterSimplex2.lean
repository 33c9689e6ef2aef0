import Verif.RangeCheck
/-! Generated by tools/rangecert/gen.py: a certificate for the checker `Verif.RangeCheck`. -/
namespace FastNoise.RangeCheck.OuterSimplex2

/-- The ramps, in skewed coordinates, times 1099511627776. -/
def gs : List (List Z) := [[(1269606668547, 0), (464708293502, 0)],
  [(0, 1269606668547), (0, 464708293502)],
  [(464708293502, 0), (1269606668547, 0)],
  [(0, 464708293502), (0, 1269606668547)],
  [(1734314962050, 0), (0, 1269606668547)],
  [(0, 1734314962050), (1269606668547, 0)],
  [(0, 1269606668547), (1734314962050, 0)],
  [(1269606668547, 0), (0, 1734314962050)],
  [(1734314962050, 0), (0, 464708293502)],
  [(0, 1734314962050), (464708293502, 0)],
  [(0, 464708293502), (1734314962050, 0)],
  [(464708293502, 0), (0, 1734314962050)]]
/-- The grid points, times 65536. -/
def st : St := [([(0, 0), (0, 0)], gs),
  ([(65536, 0), (0, 0)], gs),
  ([(65536, 0), (65536, 0)], gs)]
def par : Par := ⟨3, 2, 12884901888, 636595009289706469719272120991999745597189887298512578267, 131072⟩

end FastNoise.RangeCheck.OuterSimplex2
