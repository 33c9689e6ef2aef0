import Verif.NormCheck
/-! Generated by tools/normcert/gen.py: a certificate for the checker `Verif.NormCheck`. -/
namespace FastNoise.NormCheck.Simplex3
open FastNoise.RangeCheck (Z Par)

/-- The grid points, times 20971520. -/
def st : List (List Z) := [[(0, 0), (0, 0), (0, 0)],
  [(20971520, 0), (0, 0), (0, 0)],
  [(20971520, 0), (20971520, 0), (0, 0)],
  [(20971520, 0), (20971520, 0), (20971520, 0)]]
def par : Par := ⟨4, 1, 1055531162664960, 11613570451388070284059045718207492964110690659047203110297119273826388952300963603139, 62914560⟩

end FastNoise.NormCheck.Simplex3
