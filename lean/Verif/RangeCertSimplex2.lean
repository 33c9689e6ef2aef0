import Verif.RangeCheck
/-! Generated by tools/rangecert/gen.py: a certificate for the checker `Verif.RangeCheck`. -/
namespace FastNoise.RangeCheck.Simplex2

/-- The ramps, in skewed coordinates, times 1099511627776. -/
def gs : List (List Z) := [[(1861149204653, 0), (306204948665, 0)],
  [(2325857498155, 0), (0, 1428110013385)],
  [(0, 2325857498155), (1428110013385, 0)],
  [(0, 1861149204653), (0, 306204948665)],
  [(306204948665, 0), (1861149204653, 0)],
  [(1428110013385, 0), (0, 2325857498155)],
  [(0, 1428110013385), (2325857498155, 0)],
  [(0, 306204948665), (0, 1861149204653)]]
/-- The grid points, times 65536. -/
def st : St := [([(0, 0), (0, 0)], gs),
  ([(65536, 0), (0, 0)], gs),
  ([(65536, 0), (65536, 0)], gs)]
def par : Par := ⟨3, 2, 12884901888, 830062403820274123696740564013405824572550951723007638659, 131072⟩

end FastNoise.RangeCheck.Simplex2
