import Verif.RangeCheck
/-! Generated by tools/rangecert/gen.py: a certificate for the checker `Verif.RangeCheck`. -/
namespace FastNoise.RangeCheck.OuterSimplex4

/-- The ramps, in skewed coordinates, times 1. -/
def gs : List (List Z) := [[(1, 0), (0, 0), (0, 0), (0, 0)],
  [(0, 0), (1, 0), (0, 0), (0, 0)],
  [(0, 0), (0, 0), (1, 0), (0, 0)],
  [(0, 0), (0, 0), (0, 0), (1, 0)],
  [(0, 1), (1, 0), (0, 0), (0, 0)],
  [(1, 0), (0, 1), (0, 0), (0, 0)],
  [(0, 0), (0, 0), (0, 1), (1, 0)],
  [(0, 0), (0, 0), (1, 0), (0, 1)],
  [(0, 1), (0, 0), (1, 0), (0, 0)],
  [(0, 0), (0, 1), (0, 0), (1, 0)],
  [(1, 0), (0, 0), (0, 1), (0, 0)],
  [(0, 0), (1, 0), (0, 0), (0, 1)],
  [(0, 1), (0, 0), (0, 0), (1, 0)],
  [(0, 0), (0, 1), (1, 0), (0, 0)],
  [(0, 0), (1, 0), (0, 1), (0, 0)],
  [(1, 0), (0, 0), (0, 0), (0, 1)],
  [(0, 1), (0, 0), (0, 0), (0, 0)],
  [(0, 0), (0, 1), (0, 0), (0, 0)],
  [(0, 0), (0, 0), (0, 1), (0, 0)],
  [(0, 0), (0, 0), (0, 0), (0, 1)]]
/-- The grid points, times 65536. -/
def st : St := [([(0, 0), (0, 0), (0, 0), (0, 0)], gs),
  ([(65536, 0), (0, 0), (0, 0), (0, 0)], gs),
  ([(65536, 0), (65536, 0), (0, 0), (0, 0)], gs),
  ([(65536, 0), (65536, 0), (65536, 0), (0, 0)], gs),
  ([(65536, 0), (65536, 0), (65536, 0), (65536, 0)], gs)]
def par : Par := ⟨5, 1, 12884901888, 414165978488820510175689387959514857530698865, 262144⟩

end FastNoise.RangeCheck.OuterSimplex4
