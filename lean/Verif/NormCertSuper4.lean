import Verif.NormCheck
/-! Generated by tools/normcert/gen.py: a certificate for the checker `Verif.NormCheck`. -/
namespace FastNoise.NormCheck.Super4
open FastNoise.RangeCheck (Z Par)

/-- The grid points, times 16777216. -/
def st : List (List Z) := [[(0, 16777216), (0, 16777216), (0, 16777216), (0, 16777216)],
  [(0, 0), (0, 16777216), (0, 16777216), (0, 16777216)],
  [(16777216, 0), (0, 16777216), (0, 16777216), (0, 16777216)],
  [(33554432, 0), (0, 16777216), (0, 16777216), (0, 16777216)],
  [(0, 16777216), (0, 0), (0, 16777216), (0, 16777216)],
  [(0, 0), (0, 0), (0, 16777216), (0, 16777216)],
  [(16777216, 0), (0, 0), (0, 16777216), (0, 16777216)],
  [(33554432, 0), (0, 0), (0, 16777216), (0, 16777216)],
  [(0, 16777216), (16777216, 0), (0, 16777216), (0, 16777216)],
  [(0, 0), (16777216, 0), (0, 16777216), (0, 16777216)],
  [(16777216, 0), (16777216, 0), (0, 16777216), (0, 16777216)],
  [(33554432, 0), (16777216, 0), (0, 16777216), (0, 16777216)],
  [(0, 16777216), (33554432, 0), (0, 16777216), (0, 16777216)],
  [(0, 0), (33554432, 0), (0, 16777216), (0, 16777216)],
  [(16777216, 0), (33554432, 0), (0, 16777216), (0, 16777216)],
  [(33554432, 0), (33554432, 0), (0, 16777216), (0, 16777216)],
  [(0, 16777216), (0, 16777216), (0, 0), (0, 16777216)],
  [(0, 0), (0, 16777216), (0, 0), (0, 16777216)],
  [(16777216, 0), (0, 16777216), (0, 0), (0, 16777216)],
  [(33554432, 0), (0, 16777216), (0, 0), (0, 16777216)],
  [(0, 16777216), (0, 0), (0, 0), (0, 16777216)],
  [(0, 0), (0, 0), (0, 0), (0, 16777216)],
  [(16777216, 0), (0, 0), (0, 0), (0, 16777216)],
  [(33554432, 0), (0, 0), (0, 0), (0, 16777216)],
  [(0, 16777216), (16777216, 0), (0, 0), (0, 16777216)],
  [(0, 0), (16777216, 0), (0, 0), (0, 16777216)],
  [(16777216, 0), (16777216, 0), (0, 0), (0, 16777216)],
  [(33554432, 0), (16777216, 0), (0, 0), (0, 16777216)],
  [(0, 16777216), (33554432, 0), (0, 0), (0, 16777216)],
  [(0, 0), (33554432, 0), (0, 0), (0, 16777216)],
  [(16777216, 0), (33554432, 0), (0, 0), (0, 16777216)],
  [(33554432, 0), (33554432, 0), (0, 0), (0, 16777216)],
  [(0, 16777216), (0, 16777216), (16777216, 0), (0, 16777216)],
  [(0, 0), (0, 16777216), (16777216, 0), (0, 16777216)],
  [(16777216, 0), (0, 16777216), (16777216, 0), (0, 16777216)],
  [(33554432, 0), (0, 16777216), (16777216, 0), (0, 16777216)],
  [(0, 16777216), (0, 0), (16777216, 0), (0, 16777216)],
  [(0, 0), (0, 0), (16777216, 0), (0, 16777216)],
  [(16777216, 0), (0, 0), (16777216, 0), (0, 16777216)],
  [(33554432, 0), (0, 0), (16777216, 0), (0, 16777216)],
  [(0, 16777216), (16777216, 0), (16777216, 0), (0, 16777216)],
  [(0, 0), (16777216, 0), (16777216, 0), (0, 16777216)],
  [(16777216, 0), (16777216, 0), (16777216, 0), (0, 16777216)],
  [(33554432, 0), (16777216, 0), (16777216, 0), (0, 16777216)],
  [(0, 16777216), (33554432, 0), (16777216, 0), (0, 16777216)],
  [(0, 0), (33554432, 0), (16777216, 0), (0, 16777216)],
  [(16777216, 0), (33554432, 0), (16777216, 0), (0, 16777216)],
  [(33554432, 0), (33554432, 0), (16777216, 0), (0, 16777216)],
  [(0, 16777216), (0, 16777216), (33554432, 0), (0, 16777216)],
  [(0, 0), (0, 16777216), (33554432, 0), (0, 16777216)],
  [(16777216, 0), (0, 16777216), (33554432, 0), (0, 16777216)],
  [(33554432, 0), (0, 16777216), (33554432, 0), (0, 16777216)],
  [(0, 16777216), (0, 0), (33554432, 0), (0, 16777216)],
  [(0, 0), (0, 0), (33554432, 0), (0, 16777216)],
  [(16777216, 0), (0, 0), (33554432, 0), (0, 16777216)],
  [(33554432, 0), (0, 0), (33554432, 0), (0, 16777216)],
  [(0, 16777216), (16777216, 0), (33554432, 0), (0, 16777216)],
  [(0, 0), (16777216, 0), (33554432, 0), (0, 16777216)],
  [(16777216, 0), (16777216, 0), (33554432, 0), (0, 16777216)],
  [(33554432, 0), (16777216, 0), (33554432, 0), (0, 16777216)],
  [(0, 16777216), (33554432, 0), (33554432, 0), (0, 16777216)],
  [(0, 0), (33554432, 0), (33554432, 0), (0, 16777216)],
  [(16777216, 0), (33554432, 0), (33554432, 0), (0, 16777216)],
  [(33554432, 0), (33554432, 0), (33554432, 0), (0, 16777216)],
  [(0, 16777216), (0, 16777216), (0, 16777216), (0, 0)],
  [(0, 0), (0, 16777216), (0, 16777216), (0, 0)],
  [(16777216, 0), (0, 16777216), (0, 16777216), (0, 0)],
  [(33554432, 0), (0, 16777216), (0, 16777216), (0, 0)],
  [(0, 16777216), (0, 0), (0, 16777216), (0, 0)],
  [(0, 0), (0, 0), (0, 16777216), (0, 0)],
  [(16777216, 0), (0, 0), (0, 16777216), (0, 0)],
  [(33554432, 0), (0, 0), (0, 16777216), (0, 0)],
  [(0, 16777216), (16777216, 0), (0, 16777216), (0, 0)],
  [(0, 0), (16777216, 0), (0, 16777216), (0, 0)],
  [(16777216, 0), (16777216, 0), (0, 16777216), (0, 0)],
  [(33554432, 0), (16777216, 0), (0, 16777216), (0, 0)],
  [(0, 16777216), (33554432, 0), (0, 16777216), (0, 0)],
  [(0, 0), (33554432, 0), (0, 16777216), (0, 0)],
  [(16777216, 0), (33554432, 0), (0, 16777216), (0, 0)],
  [(33554432, 0), (33554432, 0), (0, 16777216), (0, 0)],
  [(0, 16777216), (0, 16777216), (0, 0), (0, 0)],
  [(0, 0), (0, 16777216), (0, 0), (0, 0)],
  [(16777216, 0), (0, 16777216), (0, 0), (0, 0)],
  [(33554432, 0), (0, 16777216), (0, 0), (0, 0)],
  [(0, 16777216), (0, 0), (0, 0), (0, 0)],
  [(0, 0), (0, 0), (0, 0), (0, 0)],
  [(16777216, 0), (0, 0), (0, 0), (0, 0)],
  [(33554432, 0), (0, 0), (0, 0), (0, 0)],
  [(0, 16777216), (16777216, 0), (0, 0), (0, 0)],
  [(0, 0), (16777216, 0), (0, 0), (0, 0)],
  [(16777216, 0), (16777216, 0), (0, 0), (0, 0)],
  [(33554432, 0), (16777216, 0), (0, 0), (0, 0)],
  [(0, 16777216), (33554432, 0), (0, 0), (0, 0)],
  [(0, 0), (33554432, 0), (0, 0), (0, 0)],
  [(16777216, 0), (33554432, 0), (0, 0), (0, 0)],
  [(33554432, 0), (33554432, 0), (0, 0), (0, 0)],
  [(0, 16777216), (0, 16777216), (16777216, 0), (0, 0)],
  [(0, 0), (0, 16777216), (16777216, 0), (0, 0)],
  [(16777216, 0), (0, 16777216), (16777216, 0), (0, 0)],
  [(33554432, 0), (0, 16777216), (16777216, 0), (0, 0)],
  [(0, 16777216), (0, 0), (16777216, 0), (0, 0)],
  [(0, 0), (0, 0), (16777216, 0), (0, 0)],
  [(16777216, 0), (0, 0), (16777216, 0), (0, 0)],
  [(33554432, 0), (0, 0), (16777216, 0), (0, 0)],
  [(0, 16777216), (16777216, 0), (16777216, 0), (0, 0)],
  [(0, 0), (16777216, 0), (16777216, 0), (0, 0)],
  [(16777216, 0), (16777216, 0), (16777216, 0), (0, 0)],
  [(33554432, 0), (16777216, 0), (16777216, 0), (0, 0)],
  [(0, 16777216), (33554432, 0), (16777216, 0), (0, 0)],
  [(0, 0), (33554432, 0), (16777216, 0), (0, 0)],
  [(16777216, 0), (33554432, 0), (16777216, 0), (0, 0)],
  [(33554432, 0), (33554432, 0), (16777216, 0), (0, 0)],
  [(0, 16777216), (0, 16777216), (33554432, 0), (0, 0)],
  [(0, 0), (0, 16777216), (33554432, 0), (0, 0)],
  [(16777216, 0), (0, 16777216), (33554432, 0), (0, 0)],
  [(33554432, 0), (0, 16777216), (33554432, 0), (0, 0)],
  [(0, 16777216), (0, 0), (33554432, 0), (0, 0)],
  [(0, 0), (0, 0), (33554432, 0), (0, 0)],
  [(16777216, 0), (0, 0), (33554432, 0), (0, 0)],
  [(33554432, 0), (0, 0), (33554432, 0), (0, 0)],
  [(0, 16777216), (16777216, 0), (33554432, 0), (0, 0)],
  [(0, 0), (16777216, 0), (33554432, 0), (0, 0)],
  [(16777216, 0), (16777216, 0), (33554432, 0), (0, 0)],
  [(33554432, 0), (16777216, 0), (33554432, 0), (0, 0)],
  [(0, 16777216), (33554432, 0), (33554432, 0), (0, 0)],
  [(0, 0), (33554432, 0), (33554432, 0), (0, 0)],
  [(16777216, 0), (33554432, 0), (33554432, 0), (0, 0)],
  [(33554432, 0), (33554432, 0), (33554432, 0), (0, 0)],
  [(0, 16777216), (0, 16777216), (0, 16777216), (16777216, 0)],
  [(0, 0), (0, 16777216), (0, 16777216), (16777216, 0)],
  [(16777216, 0), (0, 16777216), (0, 16777216), (16777216, 0)],
  [(33554432, 0), (0, 16777216), (0, 16777216), (16777216, 0)],
  [(0, 16777216), (0, 0), (0, 16777216), (16777216, 0)],
  [(0, 0), (0, 0), (0, 16777216), (16777216, 0)],
  [(16777216, 0), (0, 0), (0, 16777216), (16777216, 0)],
  [(33554432, 0), (0, 0), (0, 16777216), (16777216, 0)],
  [(0, 16777216), (16777216, 0), (0, 16777216), (16777216, 0)],
  [(0, 0), (16777216, 0), (0, 16777216), (16777216, 0)],
  [(16777216, 0), (16777216, 0), (0, 16777216), (16777216, 0)],
  [(33554432, 0), (16777216, 0), (0, 16777216), (16777216, 0)],
  [(0, 16777216), (33554432, 0), (0, 16777216), (16777216, 0)],
  [(0, 0), (33554432, 0), (0, 16777216), (16777216, 0)],
  [(16777216, 0), (33554432, 0), (0, 16777216), (16777216, 0)],
  [(33554432, 0), (33554432, 0), (0, 16777216), (16777216, 0)],
  [(0, 16777216), (0, 16777216), (0, 0), (16777216, 0)],
  [(0, 0), (0, 16777216), (0, 0), (16777216, 0)],
  [(16777216, 0), (0, 16777216), (0, 0), (16777216, 0)],
  [(33554432, 0), (0, 16777216), (0, 0), (16777216, 0)],
  [(0, 16777216), (0, 0), (0, 0), (16777216, 0)],
  [(0, 0), (0, 0), (0, 0), (16777216, 0)],
  [(16777216, 0), (0, 0), (0, 0), (16777216, 0)],
  [(33554432, 0), (0, 0), (0, 0), (16777216, 0)],
  [(0, 16777216), (16777216, 0), (0, 0), (16777216, 0)],
  [(0, 0), (16777216, 0), (0, 0), (16777216, 0)],
  [(16777216, 0), (16777216, 0), (0, 0), (16777216, 0)],
  [(33554432, 0), (16777216, 0), (0, 0), (16777216, 0)],
  [(0, 16777216), (33554432, 0), (0, 0), (16777216, 0)],
  [(0, 0), (33554432, 0), (0, 0), (16777216, 0)],
  [(16777216, 0), (33554432, 0), (0, 0), (16777216, 0)],
  [(33554432, 0), (33554432, 0), (0, 0), (16777216, 0)],
  [(0, 16777216), (0, 16777216), (16777216, 0), (16777216, 0)],
  [(0, 0), (0, 16777216), (16777216, 0), (16777216, 0)],
  [(16777216, 0), (0, 16777216), (16777216, 0), (16777216, 0)],
  [(33554432, 0), (0, 16777216), (16777216, 0), (16777216, 0)],
  [(0, 16777216), (0, 0), (16777216, 0), (16777216, 0)],
  [(0, 0), (0, 0), (16777216, 0), (16777216, 0)],
  [(16777216, 0), (0, 0), (16777216, 0), (16777216, 0)],
  [(33554432, 0), (0, 0), (16777216, 0), (16777216, 0)],
  [(0, 16777216), (16777216, 0), (16777216, 0), (16777216, 0)],
  [(0, 0), (16777216, 0), (16777216, 0), (16777216, 0)],
  [(16777216, 0), (16777216, 0), (16777216, 0), (16777216, 0)],
  [(33554432, 0), (16777216, 0), (16777216, 0), (16777216, 0)],
  [(0, 16777216), (33554432, 0), (16777216, 0), (16777216, 0)],
  [(0, 0), (33554432, 0), (16777216, 0), (16777216, 0)],
  [(16777216, 0), (33554432, 0), (16777216, 0), (16777216, 0)],
  [(33554432, 0), (33554432, 0), (16777216, 0), (16777216, 0)],
  [(0, 16777216), (0, 16777216), (33554432, 0), (16777216, 0)],
  [(0, 0), (0, 16777216), (33554432, 0), (16777216, 0)],
  [(16777216, 0), (0, 16777216), (33554432, 0), (16777216, 0)],
  [(33554432, 0), (0, 16777216), (33554432, 0), (16777216, 0)],
  [(0, 16777216), (0, 0), (33554432, 0), (16777216, 0)],
  [(0, 0), (0, 0), (33554432, 0), (16777216, 0)],
  [(16777216, 0), (0, 0), (33554432, 0), (16777216, 0)],
  [(33554432, 0), (0, 0), (33554432, 0), (16777216, 0)],
  [(0, 16777216), (16777216, 0), (33554432, 0), (16777216, 0)],
  [(0, 0), (16777216, 0), (33554432, 0), (16777216, 0)],
  [(16777216, 0), (16777216, 0), (33554432, 0), (16777216, 0)],
  [(33554432, 0), (16777216, 0), (33554432, 0), (16777216, 0)],
  [(0, 16777216), (33554432, 0), (33554432, 0), (16777216, 0)],
  [(0, 0), (33554432, 0), (33554432, 0), (16777216, 0)],
  [(16777216, 0), (33554432, 0), (33554432, 0), (16777216, 0)],
  [(33554432, 0), (33554432, 0), (33554432, 0), (16777216, 0)],
  [(0, 16777216), (0, 16777216), (0, 16777216), (33554432, 0)],
  [(0, 0), (0, 16777216), (0, 16777216), (33554432, 0)],
  [(16777216, 0), (0, 16777216), (0, 16777216), (33554432, 0)],
  [(33554432, 0), (0, 16777216), (0, 16777216), (33554432, 0)],
  [(0, 16777216), (0, 0), (0, 16777216), (33554432, 0)],
  [(0, 0), (0, 0), (0, 16777216), (33554432, 0)],
  [(16777216, 0), (0, 0), (0, 16777216), (33554432, 0)],
  [(33554432, 0), (0, 0), (0, 16777216), (33554432, 0)],
  [(0, 16777216), (16777216, 0), (0, 16777216), (33554432, 0)],
  [(0, 0), (16777216, 0), (0, 16777216), (33554432, 0)],
  [(16777216, 0), (16777216, 0), (0, 16777216), (33554432, 0)],
  [(33554432, 0), (16777216, 0), (0, 16777216), (33554432, 0)],
  [(0, 16777216), (33554432, 0), (0, 16777216), (33554432, 0)],
  [(0, 0), (33554432, 0), (0, 16777216), (33554432, 0)],
  [(16777216, 0), (33554432, 0), (0, 16777216), (33554432, 0)],
  [(33554432, 0), (33554432, 0), (0, 16777216), (33554432, 0)],
  [(0, 16777216), (0, 16777216), (0, 0), (33554432, 0)],
  [(0, 0), (0, 16777216), (0, 0), (33554432, 0)],
  [(16777216, 0), (0, 16777216), (0, 0), (33554432, 0)],
  [(33554432, 0), (0, 16777216), (0, 0), (33554432, 0)],
  [(0, 16777216), (0, 0), (0, 0), (33554432, 0)],
  [(0, 0), (0, 0), (0, 0), (33554432, 0)],
  [(16777216, 0), (0, 0), (0, 0), (33554432, 0)],
  [(33554432, 0), (0, 0), (0, 0), (33554432, 0)],
  [(0, 16777216), (16777216, 0), (0, 0), (33554432, 0)],
  [(0, 0), (16777216, 0), (0, 0), (33554432, 0)],
  [(16777216, 0), (16777216, 0), (0, 0), (33554432, 0)],
  [(33554432, 0), (16777216, 0), (0, 0), (33554432, 0)],
  [(0, 16777216), (33554432, 0), (0, 0), (33554432, 0)],
  [(0, 0), (33554432, 0), (0, 0), (33554432, 0)],
  [(16777216, 0), (33554432, 0), (0, 0), (33554432, 0)],
  [(33554432, 0), (33554432, 0), (0, 0), (33554432, 0)],
  [(0, 16777216), (0, 16777216), (16777216, 0), (33554432, 0)],
  [(0, 0), (0, 16777216), (16777216, 0), (33554432, 0)],
  [(16777216, 0), (0, 16777216), (16777216, 0), (33554432, 0)],
  [(33554432, 0), (0, 16777216), (16777216, 0), (33554432, 0)],
  [(0, 16777216), (0, 0), (16777216, 0), (33554432, 0)],
  [(0, 0), (0, 0), (16777216, 0), (33554432, 0)],
  [(16777216, 0), (0, 0), (16777216, 0), (33554432, 0)],
  [(33554432, 0), (0, 0), (16777216, 0), (33554432, 0)],
  [(0, 16777216), (16777216, 0), (16777216, 0), (33554432, 0)],
  [(0, 0), (16777216, 0), (16777216, 0), (33554432, 0)],
  [(16777216, 0), (16777216, 0), (16777216, 0), (33554432, 0)],
  [(33554432, 0), (16777216, 0), (16777216, 0), (33554432, 0)],
  [(0, 16777216), (33554432, 0), (16777216, 0), (33554432, 0)],
  [(0, 0), (33554432, 0), (16777216, 0), (33554432, 0)],
  [(16777216, 0), (33554432, 0), (16777216, 0), (33554432, 0)],
  [(33554432, 0), (33554432, 0), (16777216, 0), (33554432, 0)],
  [(0, 16777216), (0, 16777216), (33554432, 0), (33554432, 0)],
  [(0, 0), (0, 16777216), (33554432, 0), (33554432, 0)],
  [(16777216, 0), (0, 16777216), (33554432, 0), (33554432, 0)],
  [(33554432, 0), (0, 16777216), (33554432, 0), (33554432, 0)],
  [(0, 16777216), (0, 0), (33554432, 0), (33554432, 0)],
  [(0, 0), (0, 0), (33554432, 0), (33554432, 0)],
  [(16777216, 0), (0, 0), (33554432, 0), (33554432, 0)],
  [(33554432, 0), (0, 0), (33554432, 0), (33554432, 0)],
  [(0, 16777216), (16777216, 0), (33554432, 0), (33554432, 0)],
  [(0, 0), (16777216, 0), (33554432, 0), (33554432, 0)],
  [(16777216, 0), (16777216, 0), (33554432, 0), (33554432, 0)],
  [(33554432, 0), (16777216, 0), (33554432, 0), (33554432, 0)],
  [(0, 16777216), (33554432, 0), (33554432, 0), (33554432, 0)],
  [(0, 0), (33554432, 0), (33554432, 0), (33554432, 0)],
  [(16777216, 0), (33554432, 0), (33554432, 0), (33554432, 0)],
  [(33554432, 0), (33554432, 0), (33554432, 0), (33554432, 0)]]
def par : Par := ⟨5, 1, 1125899906842624, 21210643070268276009912175631907981282367291160573580394997723769563184811866382979850, 67108864⟩

end FastNoise.NormCheck.Super4
