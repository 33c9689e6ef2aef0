import Verif.NormCheck
/-! Generated by tools/normcert/gen.py: a certificate for the checker `Verif.NormCheck`. -/
namespace FastNoise.NormCheck.Super2
open FastNoise.RangeCheck (Z Par)

/-- The grid points, times 16777216. -/
def st : List (List Z) := [[(0, 16777216), (0, 16777216)],
  [(0, 0), (0, 16777216)],
  [(16777216, 0), (0, 16777216)],
  [(33554432, 0), (0, 16777216)],
  [(0, 16777216), (0, 0)],
  [(0, 0), (0, 0)],
  [(16777216, 0), (0, 0)],
  [(33554432, 0), (0, 0)],
  [(0, 16777216), (16777216, 0)],
  [(0, 0), (16777216, 0)],
  [(16777216, 0), (16777216, 0)],
  [(33554432, 0), (16777216, 0)],
  [(0, 16777216), (33554432, 0)],
  [(0, 0), (33554432, 0)],
  [(16777216, 0), (33554432, 0)],
  [(33554432, 0), (33554432, 0)]]
def par : Par := ⟨3, 1, 562949953421312, 939960944918069302215121972104163389363767410316499255638609296211381950145308545716, 33554432⟩

end FastNoise.NormCheck.Super2
