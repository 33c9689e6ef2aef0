import Verif.NormCheck
/-! Generated by tools/normcert/gen.py: a certificate for the checker `Verif.NormCheck`. -/
namespace FastNoise.NormCheck.Super3
open FastNoise.RangeCheck (Z Par)

/-- The grid points, times 16777216. -/
def st : List (List Z) := [[(0, 16777216), (0, 16777216), (0, 16777216)],
  [(0, 0), (0, 16777216), (0, 16777216)],
  [(16777216, 0), (0, 16777216), (0, 16777216)],
  [(33554432, 0), (0, 16777216), (0, 16777216)],
  [(0, 16777216), (0, 0), (0, 16777216)],
  [(0, 0), (0, 0), (0, 16777216)],
  [(16777216, 0), (0, 0), (0, 16777216)],
  [(33554432, 0), (0, 0), (0, 16777216)],
  [(0, 16777216), (16777216, 0), (0, 16777216)],
  [(0, 0), (16777216, 0), (0, 16777216)],
  [(16777216, 0), (16777216, 0), (0, 16777216)],
  [(33554432, 0), (16777216, 0), (0, 16777216)],
  [(0, 16777216), (33554432, 0), (0, 16777216)],
  [(0, 0), (33554432, 0), (0, 16777216)],
  [(16777216, 0), (33554432, 0), (0, 16777216)],
  [(33554432, 0), (33554432, 0), (0, 16777216)],
  [(0, 16777216), (0, 16777216), (0, 0)],
  [(0, 0), (0, 16777216), (0, 0)],
  [(16777216, 0), (0, 16777216), (0, 0)],
  [(33554432, 0), (0, 16777216), (0, 0)],
  [(0, 16777216), (0, 0), (0, 0)],
  [(0, 0), (0, 0), (0, 0)],
  [(16777216, 0), (0, 0), (0, 0)],
  [(33554432, 0), (0, 0), (0, 0)],
  [(0, 16777216), (16777216, 0), (0, 0)],
  [(0, 0), (16777216, 0), (0, 0)],
  [(16777216, 0), (16777216, 0), (0, 0)],
  [(33554432, 0), (16777216, 0), (0, 0)],
  [(0, 16777216), (33554432, 0), (0, 0)],
  [(0, 0), (33554432, 0), (0, 0)],
  [(16777216, 0), (33554432, 0), (0, 0)],
  [(33554432, 0), (33554432, 0), (0, 0)],
  [(0, 16777216), (0, 16777216), (16777216, 0)],
  [(0, 0), (0, 16777216), (16777216, 0)],
  [(16777216, 0), (0, 16777216), (16777216, 0)],
  [(33554432, 0), (0, 16777216), (16777216, 0)],
  [(0, 16777216), (0, 0), (16777216, 0)],
  [(0, 0), (0, 0), (16777216, 0)],
  [(16777216, 0), (0, 0), (16777216, 0)],
  [(33554432, 0), (0, 0), (16777216, 0)],
  [(0, 16777216), (16777216, 0), (16777216, 0)],
  [(0, 0), (16777216, 0), (16777216, 0)],
  [(16777216, 0), (16777216, 0), (16777216, 0)],
  [(33554432, 0), (16777216, 0), (16777216, 0)],
  [(0, 16777216), (33554432, 0), (16777216, 0)],
  [(0, 0), (33554432, 0), (16777216, 0)],
  [(16777216, 0), (33554432, 0), (16777216, 0)],
  [(33554432, 0), (33554432, 0), (16777216, 0)],
  [(0, 16777216), (0, 16777216), (33554432, 0)],
  [(0, 0), (0, 16777216), (33554432, 0)],
  [(16777216, 0), (0, 16777216), (33554432, 0)],
  [(33554432, 0), (0, 16777216), (33554432, 0)],
  [(0, 16777216), (0, 0), (33554432, 0)],
  [(0, 0), (0, 0), (33554432, 0)],
  [(16777216, 0), (0, 0), (33554432, 0)],
  [(33554432, 0), (0, 0), (33554432, 0)],
  [(0, 16777216), (16777216, 0), (33554432, 0)],
  [(0, 0), (16777216, 0), (33554432, 0)],
  [(16777216, 0), (16777216, 0), (33554432, 0)],
  [(33554432, 0), (16777216, 0), (33554432, 0)],
  [(0, 16777216), (33554432, 0), (33554432, 0)],
  [(0, 0), (33554432, 0), (33554432, 0)],
  [(16777216, 0), (33554432, 0), (33554432, 0)],
  [(33554432, 0), (33554432, 0), (33554432, 0)]]
def par : Par := ⟨4, 1, 844424930131968, 5394485409035754061204857193696440215004405903722666492632748228514965276538375177807, 50331648⟩

end FastNoise.NormCheck.Super3
