import Verif.RangeCheck
/-! Generated by tools/rangecert/gen.py: a certificate for the checker `Verif.RangeCheck`. -/
namespace FastNoise.RangeCheck.OuterSuper4

/-- The ramps, in skewed coordinates, times 1. -/
def gs : List (List Z) := [[(1, 0), (0, 0), (0, 0), (0, 0)],
  [(0, 0), (1, 0), (0, 0), (0, 0)],
  [(0, 0), (0, 0), (1, 0), (0, 0)],
  [(0, 0), (0, 0), (0, 0), (1, 0)],
  [(0, 1), (1, 0), (0, 0), (0, 0)],
  [(1, 0), (0, 1), (0, 0), (0, 0)],
  [(0, 0), (0, 0), (0, 1), (1, 0)],
  [(0, 0), (0, 0), (1, 0), (0, 1)],
  [(0, 1), (0, 0), (1, 0), (0, 0)],
  [(0, 0), (0, 1), (0, 0), (1, 0)],
  [(1, 0), (0, 0), (0, 1), (0, 0)],
  [(0, 0), (1, 0), (0, 0), (0, 1)],
  [(0, 1), (0, 0), (0, 0), (1, 0)],
  [(0, 0), (0, 1), (1, 0), (0, 0)],
  [(0, 0), (1, 0), (0, 1), (0, 0)],
  [(1, 0), (0, 0), (0, 0), (0, 1)],
  [(0, 1), (0, 0), (0, 0), (0, 0)],
  [(0, 0), (0, 1), (0, 0), (0, 0)],
  [(0, 0), (0, 0), (0, 1), (0, 0)],
  [(0, 0), (0, 0), (0, 0), (0, 1)]]
/-- The grid points, times 65536. -/
def st : St := [([(0, 65536), (0, 65536), (0, 65536), (0, 65536)], gs),
  ([(0, 0), (0, 65536), (0, 65536), (0, 65536)], gs),
  ([(65536, 0), (0, 65536), (0, 65536), (0, 65536)], gs),
  ([(131072, 0), (0, 65536), (0, 65536), (0, 65536)], gs),
  ([(0, 65536), (0, 0), (0, 65536), (0, 65536)], gs),
  ([(0, 0), (0, 0), (0, 65536), (0, 65536)], gs),
  ([(65536, 0), (0, 0), (0, 65536), (0, 65536)], gs),
  ([(131072, 0), (0, 0), (0, 65536), (0, 65536)], gs),
  ([(0, 65536), (65536, 0), (0, 65536), (0, 65536)], gs),
  ([(0, 0), (65536, 0), (0, 65536), (0, 65536)], gs),
  ([(65536, 0), (65536, 0), (0, 65536), (0, 65536)], gs),
  ([(131072, 0), (65536, 0), (0, 65536), (0, 65536)], gs),
  ([(0, 65536), (131072, 0), (0, 65536), (0, 65536)], gs),
  ([(0, 0), (131072, 0), (0, 65536), (0, 65536)], gs),
  ([(65536, 0), (131072, 0), (0, 65536), (0, 65536)], gs),
  ([(131072, 0), (131072, 0), (0, 65536), (0, 65536)], gs),
  ([(0, 65536), (0, 65536), (0, 0), (0, 65536)], gs),
  ([(0, 0), (0, 65536), (0, 0), (0, 65536)], gs),
  ([(65536, 0), (0, 65536), (0, 0), (0, 65536)], gs),
  ([(131072, 0), (0, 65536), (0, 0), (0, 65536)], gs),
  ([(0, 65536), (0, 0), (0, 0), (0, 65536)], gs),
  ([(0, 0), (0, 0), (0, 0), (0, 65536)], gs),
  ([(65536, 0), (0, 0), (0, 0), (0, 65536)], gs),
  ([(131072, 0), (0, 0), (0, 0), (0, 65536)], gs),
  ([(0, 65536), (65536, 0), (0, 0), (0, 65536)], gs),
  ([(0, 0), (65536, 0), (0, 0), (0, 65536)], gs),
  ([(65536, 0), (65536, 0), (0, 0), (0, 65536)], gs),
  ([(131072, 0), (65536, 0), (0, 0), (0, 65536)], gs),
  ([(0, 65536), (131072, 0), (0, 0), (0, 65536)], gs),
  ([(0, 0), (131072, 0), (0, 0), (0, 65536)], gs),
  ([(65536, 0), (131072, 0), (0, 0), (0, 65536)], gs),
  ([(131072, 0), (131072, 0), (0, 0), (0, 65536)], gs),
  ([(0, 65536), (0, 65536), (65536, 0), (0, 65536)], gs),
  ([(0, 0), (0, 65536), (65536, 0), (0, 65536)], gs),
  ([(65536, 0), (0, 65536), (65536, 0), (0, 65536)], gs),
  ([(131072, 0), (0, 65536), (65536, 0), (0, 65536)], gs),
  ([(0, 65536), (0, 0), (65536, 0), (0, 65536)], gs),
  ([(0, 0), (0, 0), (65536, 0), (0, 65536)], gs),
  ([(65536, 0), (0, 0), (65536, 0), (0, 65536)], gs),
  ([(131072, 0), (0, 0), (65536, 0), (0, 65536)], gs),
  ([(0, 65536), (65536, 0), (65536, 0), (0, 65536)], gs),
  ([(0, 0), (65536, 0), (65536, 0), (0, 65536)], gs),
  ([(65536, 0), (65536, 0), (65536, 0), (0, 65536)], gs),
  ([(131072, 0), (65536, 0), (65536, 0), (0, 65536)], gs),
  ([(0, 65536), (131072, 0), (65536, 0), (0, 65536)], gs),
  ([(0, 0), (131072, 0), (65536, 0), (0, 65536)], gs),
  ([(65536, 0), (131072, 0), (65536, 0), (0, 65536)], gs),
  ([(131072, 0), (131072, 0), (65536, 0), (0, 65536)], gs),
  ([(0, 65536), (0, 65536), (131072, 0), (0, 65536)], gs),
  ([(0, 0), (0, 65536), (131072, 0), (0, 65536)], gs),
  ([(65536, 0), (0, 65536), (131072, 0), (0, 65536)], gs),
  ([(131072, 0), (0, 65536), (131072, 0), (0, 65536)], gs),
  ([(0, 65536), (0, 0), (131072, 0), (0, 65536)], gs),
  ([(0, 0), (0, 0), (131072, 0), (0, 65536)], gs),
  ([(65536, 0), (0, 0), (131072, 0), (0, 65536)], gs),
  ([(131072, 0), (0, 0), (131072, 0), (0, 65536)], gs),
  ([(0, 65536), (65536, 0), (131072, 0), (0, 65536)], gs),
  ([(0, 0), (65536, 0), (131072, 0), (0, 65536)], gs),
  ([(65536, 0), (65536, 0), (131072, 0), (0, 65536)], gs),
  ([(131072, 0), (65536, 0), (131072, 0), (0, 65536)], gs),
  ([(0, 65536), (131072, 0), (131072, 0), (0, 65536)], gs),
  ([(0, 0), (131072, 0), (131072, 0), (0, 65536)], gs),
  ([(65536, 0), (131072, 0), (131072, 0), (0, 65536)], gs),
  ([(131072, 0), (131072, 0), (131072, 0), (0, 65536)], gs),
  ([(0, 65536), (0, 65536), (0, 65536), (0, 0)], gs),
  ([(0, 0), (0, 65536), (0, 65536), (0, 0)], gs),
  ([(65536, 0), (0, 65536), (0, 65536), (0, 0)], gs),
  ([(131072, 0), (0, 65536), (0, 65536), (0, 0)], gs),
  ([(0, 65536), (0, 0), (0, 65536), (0, 0)], gs),
  ([(0, 0), (0, 0), (0, 65536), (0, 0)], gs),
  ([(65536, 0), (0, 0), (0, 65536), (0, 0)], gs),
  ([(131072, 0), (0, 0), (0, 65536), (0, 0)], gs),
  ([(0, 65536), (65536, 0), (0, 65536), (0, 0)], gs),
  ([(0, 0), (65536, 0), (0, 65536), (0, 0)], gs),
  ([(65536, 0), (65536, 0), (0, 65536), (0, 0)], gs),
  ([(131072, 0), (65536, 0), (0, 65536), (0, 0)], gs),
  ([(0, 65536), (131072, 0), (0, 65536), (0, 0)], gs),
  ([(0, 0), (131072, 0), (0, 65536), (0, 0)], gs),
  ([(65536, 0), (131072, 0), (0, 65536), (0, 0)], gs),
  ([(131072, 0), (131072, 0), (0, 65536), (0, 0)], gs),
  ([(0, 65536), (0, 65536), (0, 0), (0, 0)], gs),
  ([(0, 0), (0, 65536), (0, 0), (0, 0)], gs),
  ([(65536, 0), (0, 65536), (0, 0), (0, 0)], gs),
  ([(131072, 0), (0, 65536), (0, 0), (0, 0)], gs),
  ([(0, 65536), (0, 0), (0, 0), (0, 0)], gs),
  ([(0, 0), (0, 0), (0, 0), (0, 0)], gs),
  ([(65536, 0), (0, 0), (0, 0), (0, 0)], gs),
  ([(131072, 0), (0, 0), (0, 0), (0, 0)], gs),
  ([(0, 65536), (65536, 0), (0, 0), (0, 0)], gs),
  ([(0, 0), (65536, 0), (0, 0), (0, 0)], gs),
  ([(65536, 0), (65536, 0), (0, 0), (0, 0)], gs),
  ([(131072, 0), (65536, 0), (0, 0), (0, 0)], gs),
  ([(0, 65536), (131072, 0), (0, 0), (0, 0)], gs),
  ([(0, 0), (131072, 0), (0, 0), (0, 0)], gs),
  ([(65536, 0), (131072, 0), (0, 0), (0, 0)], gs),
  ([(131072, 0), (131072, 0), (0, 0), (0, 0)], gs),
  ([(0, 65536), (0, 65536), (65536, 0), (0, 0)], gs),
  ([(0, 0), (0, 65536), (65536, 0), (0, 0)], gs),
  ([(65536, 0), (0, 65536), (65536, 0), (0, 0)], gs),
  ([(131072, 0), (0, 65536), (65536, 0), (0, 0)], gs),
  ([(0, 65536), (0, 0), (65536, 0), (0, 0)], gs),
  ([(0, 0), (0, 0), (65536, 0), (0, 0)], gs),
  ([(65536, 0), (0, 0), (65536, 0), (0, 0)], gs),
  ([(131072, 0), (0, 0), (65536, 0), (0, 0)], gs),
  ([(0, 65536), (65536, 0), (65536, 0), (0, 0)], gs),
  ([(0, 0), (65536, 0), (65536, 0), (0, 0)], gs),
  ([(65536, 0), (65536, 0), (65536, 0), (0, 0)], gs),
  ([(131072, 0), (65536, 0), (65536, 0), (0, 0)], gs),
  ([(0, 65536), (131072, 0), (65536, 0), (0, 0)], gs),
  ([(0, 0), (131072, 0), (65536, 0), (0, 0)], gs),
  ([(65536, 0), (131072, 0), (65536, 0), (0, 0)], gs),
  ([(131072, 0), (131072, 0), (65536, 0), (0, 0)], gs),
  ([(0, 65536), (0, 65536), (131072, 0), (0, 0)], gs),
  ([(0, 0), (0, 65536), (131072, 0), (0, 0)], gs),
  ([(65536, 0), (0, 65536), (131072, 0), (0, 0)], gs),
  ([(131072, 0), (0, 65536), (131072, 0), (0, 0)], gs),
  ([(0, 65536), (0, 0), (131072, 0), (0, 0)], gs),
  ([(0, 0), (0, 0), (131072, 0), (0, 0)], gs),
  ([(65536, 0), (0, 0), (131072, 0), (0, 0)], gs),
  ([(131072, 0), (0, 0), (131072, 0), (0, 0)], gs),
  ([(0, 65536), (65536, 0), (131072, 0), (0, 0)], gs),
  ([(0, 0), (65536, 0), (131072, 0), (0, 0)], gs),
  ([(65536, 0), (65536, 0), (131072, 0), (0, 0)], gs),
  ([(131072, 0), (65536, 0), (131072, 0), (0, 0)], gs),
  ([(0, 65536), (131072, 0), (131072, 0), (0, 0)], gs),
  ([(0, 0), (131072, 0), (131072, 0), (0, 0)], gs),
  ([(65536, 0), (131072, 0), (131072, 0), (0, 0)], gs),
  ([(131072, 0), (131072, 0), (131072, 0), (0, 0)], gs),
  ([(0, 65536), (0, 65536), (0, 65536), (65536, 0)], gs),
  ([(0, 0), (0, 65536), (0, 65536), (65536, 0)], gs),
  ([(65536, 0), (0, 65536), (0, 65536), (65536, 0)], gs),
  ([(131072, 0), (0, 65536), (0, 65536), (65536, 0)], gs),
  ([(0, 65536), (0, 0), (0, 65536), (65536, 0)], gs),
  ([(0, 0), (0, 0), (0, 65536), (65536, 0)], gs),
  ([(65536, 0), (0, 0), (0, 65536), (65536, 0)], gs),
  ([(131072, 0), (0, 0), (0, 65536), (65536, 0)], gs),
  ([(0, 65536), (65536, 0), (0, 65536), (65536, 0)], gs),
  ([(0, 0), (65536, 0), (0, 65536), (65536, 0)], gs),
  ([(65536, 0), (65536, 0), (0, 65536), (65536, 0)], gs),
  ([(131072, 0), (65536, 0), (0, 65536), (65536, 0)], gs),
  ([(0, 65536), (131072, 0), (0, 65536), (65536, 0)], gs),
  ([(0, 0), (131072, 0), (0, 65536), (65536, 0)], gs),
  ([(65536, 0), (131072, 0), (0, 65536), (65536, 0)], gs),
  ([(131072, 0), (131072, 0), (0, 65536), (65536, 0)], gs),
  ([(0, 65536), (0, 65536), (0, 0), (65536, 0)], gs),
  ([(0, 0), (0, 65536), (0, 0), (65536, 0)], gs),
  ([(65536, 0), (0, 65536), (0, 0), (65536, 0)], gs),
  ([(131072, 0), (0, 65536), (0, 0), (65536, 0)], gs),
  ([(0, 65536), (0, 0), (0, 0), (65536, 0)], gs),
  ([(0, 0), (0, 0), (0, 0), (65536, 0)], gs),
  ([(65536, 0), (0, 0), (0, 0), (65536, 0)], gs),
  ([(131072, 0), (0, 0), (0, 0), (65536, 0)], gs),
  ([(0, 65536), (65536, 0), (0, 0), (65536, 0)], gs),
  ([(0, 0), (65536, 0), (0, 0), (65536, 0)], gs),
  ([(65536, 0), (65536, 0), (0, 0), (65536, 0)], gs),
  ([(131072, 0), (65536, 0), (0, 0), (65536, 0)], gs),
  ([(0, 65536), (131072, 0), (0, 0), (65536, 0)], gs),
  ([(0, 0), (131072, 0), (0, 0), (65536, 0)], gs),
  ([(65536, 0), (131072, 0), (0, 0), (65536, 0)], gs),
  ([(131072, 0), (131072, 0), (0, 0), (65536, 0)], gs),
  ([(0, 65536), (0, 65536), (65536, 0), (65536, 0)], gs),
  ([(0, 0), (0, 65536), (65536, 0), (65536, 0)], gs),
  ([(65536, 0), (0, 65536), (65536, 0), (65536, 0)], gs),
  ([(131072, 0), (0, 65536), (65536, 0), (65536, 0)], gs),
  ([(0, 65536), (0, 0), (65536, 0), (65536, 0)], gs),
  ([(0, 0), (0, 0), (65536, 0), (65536, 0)], gs),
  ([(65536, 0), (0, 0), (65536, 0), (65536, 0)], gs),
  ([(131072, 0), (0, 0), (65536, 0), (65536, 0)], gs),
  ([(0, 65536), (65536, 0), (65536, 0), (65536, 0)], gs),
  ([(0, 0), (65536, 0), (65536, 0), (65536, 0)], gs),
  ([(65536, 0), (65536, 0), (65536, 0), (65536, 0)], gs),
  ([(131072, 0), (65536, 0), (65536, 0), (65536, 0)], gs),
  ([(0, 65536), (131072, 0), (65536, 0), (65536, 0)], gs),
  ([(0, 0), (131072, 0), (65536, 0), (65536, 0)], gs),
  ([(65536, 0), (131072, 0), (65536, 0), (65536, 0)], gs),
  ([(131072, 0), (131072, 0), (65536, 0), (65536, 0)], gs),
  ([(0, 65536), (0, 65536), (131072, 0), (65536, 0)], gs),
  ([(0, 0), (0, 65536), (131072, 0), (65536, 0)], gs),
  ([(65536, 0), (0, 65536), (131072, 0), (65536, 0)], gs),
  ([(131072, 0), (0, 65536), (131072, 0), (65536, 0)], gs),
  ([(0, 65536), (0, 0), (131072, 0), (65536, 0)], gs),
  ([(0, 0), (0, 0), (131072, 0), (65536, 0)], gs),
  ([(65536, 0), (0, 0), (131072, 0), (65536, 0)], gs),
  ([(131072, 0), (0, 0), (131072, 0), (65536, 0)], gs),
  ([(0, 65536), (65536, 0), (131072, 0), (65536, 0)], gs),
  ([(0, 0), (65536, 0), (131072, 0), (65536, 0)], gs),
  ([(65536, 0), (65536, 0), (131072, 0), (65536, 0)], gs),
  ([(131072, 0), (65536, 0), (131072, 0), (65536, 0)], gs),
  ([(0, 65536), (131072, 0), (131072, 0), (65536, 0)], gs),
  ([(0, 0), (131072, 0), (131072, 0), (65536, 0)], gs),
  ([(65536, 0), (131072, 0), (131072, 0), (65536, 0)], gs),
  ([(131072, 0), (131072, 0), (131072, 0), (65536, 0)], gs),
  ([(0, 65536), (0, 65536), (0, 65536), (131072, 0)], gs),
  ([(0, 0), (0, 65536), (0, 65536), (131072, 0)], gs),
  ([(65536, 0), (0, 65536), (0, 65536), (131072, 0)], gs),
  ([(131072, 0), (0, 65536), (0, 65536), (131072, 0)], gs),
  ([(0, 65536), (0, 0), (0, 65536), (131072, 0)], gs),
  ([(0, 0), (0, 0), (0, 65536), (131072, 0)], gs),
  ([(65536, 0), (0, 0), (0, 65536), (131072, 0)], gs),
  ([(131072, 0), (0, 0), (0, 65536), (131072, 0)], gs),
  ([(0, 65536), (65536, 0), (0, 65536), (131072, 0)], gs),
  ([(0, 0), (65536, 0), (0, 65536), (131072, 0)], gs),
  ([(65536, 0), (65536, 0), (0, 65536), (131072, 0)], gs),
  ([(131072, 0), (65536, 0), (0, 65536), (131072, 0)], gs),
  ([(0, 65536), (131072, 0), (0, 65536), (131072, 0)], gs),
  ([(0, 0), (131072, 0), (0, 65536), (131072, 0)], gs),
  ([(65536, 0), (131072, 0), (0, 65536), (131072, 0)], gs),
  ([(131072, 0), (131072, 0), (0, 65536), (131072, 0)], gs),
  ([(0, 65536), (0, 65536), (0, 0), (131072, 0)], gs),
  ([(0, 0), (0, 65536), (0, 0), (131072, 0)], gs),
  ([(65536, 0), (0, 65536), (0, 0), (131072, 0)], gs),
  ([(131072, 0), (0, 65536), (0, 0), (131072, 0)], gs),
  ([(0, 65536), (0, 0), (0, 0), (131072, 0)], gs),
  ([(0, 0), (0, 0), (0, 0), (131072, 0)], gs),
  ([(65536, 0), (0, 0), (0, 0), (131072, 0)], gs),
  ([(131072, 0), (0, 0), (0, 0), (131072, 0)], gs),
  ([(0, 65536), (65536, 0), (0, 0), (131072, 0)], gs),
  ([(0, 0), (65536, 0), (0, 0), (131072, 0)], gs),
  ([(65536, 0), (65536, 0), (0, 0), (131072, 0)], gs),
  ([(131072, 0), (65536, 0), (0, 0), (131072, 0)], gs),
  ([(0, 65536), (131072, 0), (0, 0), (131072, 0)], gs),
  ([(0, 0), (131072, 0), (0, 0), (131072, 0)], gs),
  ([(65536, 0), (131072, 0), (0, 0), (131072, 0)], gs),
  ([(131072, 0), (131072, 0), (0, 0), (131072, 0)], gs),
  ([(0, 65536), (0, 65536), (65536, 0), (131072, 0)], gs),
  ([(0, 0), (0, 65536), (65536, 0), (131072, 0)], gs),
  ([(65536, 0), (0, 65536), (65536, 0), (131072, 0)], gs),
  ([(131072, 0), (0, 65536), (65536, 0), (131072, 0)], gs),
  ([(0, 65536), (0, 0), (65536, 0), (131072, 0)], gs),
  ([(0, 0), (0, 0), (65536, 0), (131072, 0)], gs),
  ([(65536, 0), (0, 0), (65536, 0), (131072, 0)], gs),
  ([(131072, 0), (0, 0), (65536, 0), (131072, 0)], gs),
  ([(0, 65536), (65536, 0), (65536, 0), (131072, 0)], gs),
  ([(0, 0), (65536, 0), (65536, 0), (131072, 0)], gs),
  ([(65536, 0), (65536, 0), (65536, 0), (131072, 0)], gs),
  ([(131072, 0), (65536, 0), (65536, 0), (131072, 0)], gs),
  ([(0, 65536), (131072, 0), (65536, 0), (131072, 0)], gs),
  ([(0, 0), (131072, 0), (65536, 0), (131072, 0)], gs),
  ([(65536, 0), (131072, 0), (65536, 0), (131072, 0)], gs),
  ([(131072, 0), (131072, 0), (65536, 0), (131072, 0)], gs),
  ([(0, 65536), (0, 65536), (131072, 0), (131072, 0)], gs),
  ([(0, 0), (0, 65536), (131072, 0), (131072, 0)], gs),
  ([(65536, 0), (0, 65536), (131072, 0), (131072, 0)], gs),
  ([(131072, 0), (0, 65536), (131072, 0), (131072, 0)], gs),
  ([(0, 65536), (0, 0), (131072, 0), (131072, 0)], gs),
  ([(0, 0), (0, 0), (131072, 0), (131072, 0)], gs),
  ([(65536, 0), (0, 0), (131072, 0), (131072, 0)], gs),
  ([(131072, 0), (0, 0), (131072, 0), (131072, 0)], gs),
  ([(0, 65536), (65536, 0), (131072, 0), (131072, 0)], gs),
  ([(0, 0), (65536, 0), (131072, 0), (131072, 0)], gs),
  ([(65536, 0), (65536, 0), (131072, 0), (131072, 0)], gs),
  ([(131072, 0), (65536, 0), (131072, 0), (131072, 0)], gs),
  ([(0, 65536), (131072, 0), (131072, 0), (131072, 0)], gs),
  ([(0, 0), (131072, 0), (131072, 0), (131072, 0)], gs),
  ([(65536, 0), (131072, 0), (131072, 0), (131072, 0)], gs),
  ([(131072, 0), (131072, 0), (131072, 0), (131072, 0)], gs)]
def par : Par := ⟨5, 1, 17179869184, 1954911051237951729769630709079353207388129119, 262144⟩

end FastNoise.RangeCheck.OuterSuper4
