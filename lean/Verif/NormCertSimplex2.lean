import Verif.NormCheck
/-! Generated by tools/normcert/gen.py: a certificate for the checker `Verif.NormCheck`. -/
namespace FastNoise.NormCheck.Simplex2
open FastNoise.RangeCheck (Z Par)

/-- The grid points, times 16777216. -/
def st : List (List Z) := [[(0, 0), (0, 0)],
  [(16777216, 0), (0, 0)],
  [(16777216, 0), (16777216, 0)]]
def par : Par := ⟨3, 1, 422212465065984, 171709465124126941479394086779412924678885439107151354280499277197482001513479408451, 33554432⟩

end FastNoise.NormCheck.Simplex2
