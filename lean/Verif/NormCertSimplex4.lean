import Verif.NormCheck
/-! Generated by tools/normcert/gen.py: a certificate for the checker `Verif.NormCheck`. -/
namespace FastNoise.NormCheck.Simplex4
open FastNoise.RangeCheck (Z Par)

/-- The grid points, times 16777216. -/
def st : List (List Z) := [[(0, 0), (0, 0), (0, 0), (0, 0)],
  [(16777216, 0), (0, 0), (0, 0), (0, 0)],
  [(16777216, 0), (16777216, 0), (0, 0), (0, 0)],
  [(16777216, 0), (16777216, 0), (16777216, 0), (0, 0)],
  [(16777216, 0), (16777216, 0), (16777216, 0), (16777216, 0)]]
def par : Par := ⟨5, 1, 844424930131968, 3924191162364894594291853515161393817036407896734438574029494514368293237434950969399, 67108864⟩

end FastNoise.NormCheck.Simplex4
