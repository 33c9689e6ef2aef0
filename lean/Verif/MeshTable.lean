import Verif.Mesh

/-! Facts about all 256 rows of the dual marching cubes table. -/

namespace FastNoise.Mesh

/-- On a face with corners `c0 c1 c2 c3` in cyclic order (`true`: air) and points `pk` of the edge from corner k to corner k+1: crossed edges that
belong together have the same point. -/
def Paired (c0 c1 c2 c3 : Bool) (p0 p1 p2 p3 : Nat) : Bool :=
  match c0, c1, c2, c3 with
  | false, false, false, true => p2 == p3
  | false, false, true, false => p1 == p2
  | false, false, true, true => p1 == p3
  | false, true, false, false => p0 == p1
  | false, true, false, true => p0 == p1 && p2 == p3
  | false, true, true, false => p0 == p2
  | false, true, true, true => p0 == p3
  | true, false, false, false => p0 == p3
  | true, false, false, true => p0 == p2
  | true, false, true, false => p0 == p3 && p1 == p2
  | true, false, true, true => p0 == p1
  | true, true, false, false => p1 == p3
  | true, true, false, true => p1 == p2
  | true, true, true, false => p2 == p3
  | false, false, false, false => true
  | true, true, true, true => true

def facesPaired (b0 b1 b2 b3 b4 b5 b6 b7 : Bool) : Bool :=
  let p (k : Nat) := pointCode (codeOf b0 b1 b2 b3 b4 b5 b6 b7) (2 ^ k)
  Paired b0 b2 b6 b4 (p 8) (p 7) (p 11) (p 3) && Paired b1 b3 b7 b5 (p 9) (p 5) (p 10) (p 1) &&
  Paired b0 b4 b5 b1 (p 3) (p 2) (p 1) (p 0) && Paired b2 b6 b7 b3 (p 7) (p 6) (p 5) (p 4) &&
  Paired b0 b1 b3 b2 (p 0) (p 9) (p 4) (p 8) && Paired b4 b5 b7 b6 (p 2) (p 10) (p 6) (p 11)

theorem table_faces : ∀ b0 b1 b2 b3 b4 b5 b6 b7, facesPaired b0 b1 b2 b3 b4 b5 b6 b7 = true := by decide +kernel

/-- The two ends of a cell edge, as corner numbers. -/
def edgeEnds : List (Nat × Nat) := [(0, 1), (1, 5), (4, 5), (0, 4), (2, 3), (3, 7), (6, 7), (2, 6), (0, 2), (1, 3), (5, 7), (4, 6)]

/-- Edge `k` is crossed in the cell with code `c`. -/
def crossed (c k : Nat) : Bool := (edgeEnds.map fun e => c.testBit e.1 != c.testBit e.2).getD k false

def rowOk (c : Nat) (row : List Nat) : Bool :=
  row.length == 4 && row.all (· < 4096) &&
  (List.range 12).all fun k => (row.filter fun p => p &&& 2 ^ k != 0).length == if crossed c k then 1 else 0

def rowsOk : Nat → List (List Nat) → Bool
  | _, [] => true
  | c, r :: rs => rowOk c r && rowsOk (c + 1) rs

theorem table_rows : rowsOk 0 dualPointsList = true ∧ dualPointsList.length = 256 := by decide +kernel

end FastNoise.Mesh
