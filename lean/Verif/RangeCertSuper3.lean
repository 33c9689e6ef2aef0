import Verif.RangeCheck
/-! Generated by tools/rangecert/gen.py: a certificate for the checker `Verif.RangeCheck`. -/
namespace FastNoise.RangeCheck.Super3

/-- The ramps, in skewed coordinates, times 2. -/
def gs : List (List Z) := [[(0, 2), (0, 0), (0, 0)],
  [(0, 0), (2, 0), (0, 2)],
  [(0, 0), (0, 2), (2, 0)],
  [(2, 0), (0, 0), (0, 0)],
  [(0, 0), (0, 2), (0, 0)],
  [(2, 0), (0, 0), (0, 2)],
  [(0, 2), (0, 0), (2, 0)],
  [(0, 0), (2, 0), (0, 0)],
  [(0, 0), (0, 0), (0, 2)],
  [(2, 0), (0, 2), (0, 0)],
  [(0, 2), (2, 0), (0, 0)],
  [(0, 0), (0, 0), (2, 0)]]
/-- The grid points, times 65536. -/
def st : St := [([(0, 65536), (0, 65536), (0, 65536)], gs),
  ([(0, 0), (0, 65536), (0, 65536)], gs),
  ([(65536, 0), (0, 65536), (0, 65536)], gs),
  ([(131072, 0), (0, 65536), (0, 65536)], gs),
  ([(0, 65536), (0, 0), (0, 65536)], gs),
  ([(0, 0), (0, 0), (0, 65536)], gs),
  ([(65536, 0), (0, 0), (0, 65536)], gs),
  ([(131072, 0), (0, 0), (0, 65536)], gs),
  ([(0, 65536), (65536, 0), (0, 65536)], gs),
  ([(0, 0), (65536, 0), (0, 65536)], gs),
  ([(65536, 0), (65536, 0), (0, 65536)], gs),
  ([(131072, 0), (65536, 0), (0, 65536)], gs),
  ([(0, 65536), (131072, 0), (0, 65536)], gs),
  ([(0, 0), (131072, 0), (0, 65536)], gs),
  ([(65536, 0), (131072, 0), (0, 65536)], gs),
  ([(131072, 0), (131072, 0), (0, 65536)], gs),
  ([(0, 65536), (0, 65536), (0, 0)], gs),
  ([(0, 0), (0, 65536), (0, 0)], gs),
  ([(65536, 0), (0, 65536), (0, 0)], gs),
  ([(131072, 0), (0, 65536), (0, 0)], gs),
  ([(0, 65536), (0, 0), (0, 0)], gs),
  ([(0, 0), (0, 0), (0, 0)], gs),
  ([(65536, 0), (0, 0), (0, 0)], gs),
  ([(131072, 0), (0, 0), (0, 0)], gs),
  ([(0, 65536), (65536, 0), (0, 0)], gs),
  ([(0, 0), (65536, 0), (0, 0)], gs),
  ([(65536, 0), (65536, 0), (0, 0)], gs),
  ([(131072, 0), (65536, 0), (0, 0)], gs),
  ([(0, 65536), (131072, 0), (0, 0)], gs),
  ([(0, 0), (131072, 0), (0, 0)], gs),
  ([(65536, 0), (131072, 0), (0, 0)], gs),
  ([(131072, 0), (131072, 0), (0, 0)], gs),
  ([(0, 65536), (0, 65536), (65536, 0)], gs),
  ([(0, 0), (0, 65536), (65536, 0)], gs),
  ([(65536, 0), (0, 65536), (65536, 0)], gs),
  ([(131072, 0), (0, 65536), (65536, 0)], gs),
  ([(0, 65536), (0, 0), (65536, 0)], gs),
  ([(0, 0), (0, 0), (65536, 0)], gs),
  ([(65536, 0), (0, 0), (65536, 0)], gs),
  ([(131072, 0), (0, 0), (65536, 0)], gs),
  ([(0, 65536), (65536, 0), (65536, 0)], gs),
  ([(0, 0), (65536, 0), (65536, 0)], gs),
  ([(65536, 0), (65536, 0), (65536, 0)], gs),
  ([(131072, 0), (65536, 0), (65536, 0)], gs),
  ([(0, 65536), (131072, 0), (65536, 0)], gs),
  ([(0, 0), (131072, 0), (65536, 0)], gs),
  ([(65536, 0), (131072, 0), (65536, 0)], gs),
  ([(131072, 0), (131072, 0), (65536, 0)], gs),
  ([(0, 65536), (0, 65536), (131072, 0)], gs),
  ([(0, 0), (0, 65536), (131072, 0)], gs),
  ([(65536, 0), (0, 65536), (131072, 0)], gs),
  ([(131072, 0), (0, 65536), (131072, 0)], gs),
  ([(0, 65536), (0, 0), (131072, 0)], gs),
  ([(0, 0), (0, 0), (131072, 0)], gs),
  ([(65536, 0), (0, 0), (131072, 0)], gs),
  ([(131072, 0), (0, 0), (131072, 0)], gs),
  ([(0, 65536), (65536, 0), (131072, 0)], gs),
  ([(0, 0), (65536, 0), (131072, 0)], gs),
  ([(65536, 0), (65536, 0), (131072, 0)], gs),
  ([(131072, 0), (65536, 0), (131072, 0)], gs),
  ([(0, 65536), (131072, 0), (131072, 0)], gs),
  ([(0, 0), (131072, 0), (131072, 0)], gs),
  ([(65536, 0), (131072, 0), (131072, 0)], gs),
  ([(131072, 0), (131072, 0), (131072, 0)], gs)]
def par : Par := ⟨4, 1, 12884901888, 1262209808972795693697774760564917116464005120, 196608⟩

end FastNoise.RangeCheck.Super3
