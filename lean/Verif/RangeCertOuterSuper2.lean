import Verif.RangeCheck
/-! Generated by tools/rangecert/gen.py: a certificate for the checker `Verif.RangeCheck`. -/
namespace FastNoise.RangeCheck.OuterSuper2

/-- The ramps, in skewed coordinates, times 1099511627776. -/
def gs : List (List Z) := [[(1269606668547, 0), (464708293502, 0)],
  [(0, 1269606668547), (0, 464708293502)],
  [(464708293502, 0), (1269606668547, 0)],
  [(0, 464708293502), (0, 1269606668547)],
  [(1734314962050, 0), (0, 1269606668547)],
  [(0, 1734314962050), (1269606668547, 0)],
  [(0, 1269606668547), (1734314962050, 0)],
  [(1269606668547, 0), (0, 1734314962050)],
  [(1734314962050, 0), (0, 464708293502)],
  [(0, 1734314962050), (464708293502, 0)],
  [(0, 464708293502), (1734314962050, 0)],
  [(464708293502, 0), (0, 1734314962050)]]
/-- The grid points, times 65536. -/
def st : St := [([(0, 65536), (0, 65536)], gs),
  ([(0, 0), (0, 65536)], gs),
  ([(65536, 0), (0, 65536)], gs),
  ([(131072, 0), (0, 65536)], gs),
  ([(0, 65536), (0, 0)], gs),
  ([(0, 0), (0, 0)], gs),
  ([(65536, 0), (0, 0)], gs),
  ([(131072, 0), (0, 0)], gs),
  ([(0, 65536), (65536, 0)], gs),
  ([(0, 0), (65536, 0)], gs),
  ([(65536, 0), (65536, 0)], gs),
  ([(131072, 0), (65536, 0)], gs),
  ([(0, 65536), (131072, 0)], gs),
  ([(0, 0), (131072, 0)], gs),
  ([(65536, 0), (131072, 0)], gs),
  ([(131072, 0), (131072, 0)], gs)]
def par : Par := ⟨3, 1, 8589934592, 213792215159863990951492237890773408231917346744015109985, 131072⟩

end FastNoise.RangeCheck.OuterSuper2
