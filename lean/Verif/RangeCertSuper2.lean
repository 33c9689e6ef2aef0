import Verif.RangeCheck
/-! Generated by tools/rangecert/gen.py: a certificate for the checker `Verif.RangeCheck`. -/
namespace FastNoise.RangeCheck.Super2

/-- The ramps, in skewed coordinates, times 1099511627776. -/
def gs : List (List Z) := [[(1861149204653, 0), (306204948665, 0)],
  [(2325857498155, 0), (0, 1428110013385)],
  [(0, 2325857498155), (1428110013385, 0)],
  [(0, 1861149204653), (0, 306204948665)],
  [(306204948665, 0), (1861149204653, 0)],
  [(1428110013385, 0), (0, 2325857498155)],
  [(0, 1428110013385), (2325857498155, 0)],
  [(0, 306204948665), (0, 1861149204653)]]
/-- The grid points, times 65536. -/
def st : St := [([(0, 65536), (0, 65536)], gs),
  ([(0, 0), (0, 65536)], gs),
  ([(65536, 0), (0, 65536)], gs),
  ([(131072, 0), (0, 65536)], gs),
  ([(0, 65536), (0, 0)], gs),
  ([(0, 0), (0, 0)], gs),
  ([(65536, 0), (0, 0)], gs),
  ([(131072, 0), (0, 0)], gs),
  ([(0, 65536), (65536, 0)], gs),
  ([(0, 0), (65536, 0)], gs),
  ([(65536, 0), (65536, 0)], gs),
  ([(131072, 0), (65536, 0)], gs),
  ([(0, 65536), (131072, 0)], gs),
  ([(0, 0), (131072, 0)], gs),
  ([(65536, 0), (131072, 0)], gs),
  ([(131072, 0), (131072, 0)], gs)]
def par : Par := ⟨3, 1, 8589934592, 279742448912425016330593111845742793628509955986340653000, 131072⟩

end FastNoise.RangeCheck.Super2
