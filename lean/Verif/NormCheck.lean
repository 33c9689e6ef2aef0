import Verif.RangeCheck
/-!
# A checker for bounds of sums of `(R - ρ)⁴ √ρ` over grid points

A program, run by Lean's kernel, that bounds a sum over grid points `v` of `max (R - ρ) 0 ^ 4 * √ρ`, where `ρ` is the squared distance of the position from `v`, by cutting the region into
boxes.  On each box `√ρ ≤ (j ρ + b) / 2 ^ 60`, for some `4 j b ≥ 2 ^ 120`, turns a term into a polynomial in `ρ`, that is expanded at the middle.  `Verif.NormCheckLemmas` proves that it is right.
Nothing here models code of the repository: it is a proof procedure for `Verif.WarpRangeProps`.
Numbers are as in `Verif.RangeCheck`; the parameter `t` has to be 1.
-/
namespace FastNoise.NormCheck
open FastNoise.RangeCheck

noncomputable section

/-- `k x`; the kernel evaluates `x` first. -/
def force (x : Nat) (k : Nat → Bool) : Bool := Nat.rec (k 0) (fun n _ => k (Nat.succ n)) x
def forces (l : List Z) : (List Z → Bool) → Bool :=
  List.rec (fun k => k []) (fun x _ ih k => force x.1 fun a => force x.2 fun b => ih fun l' => k ((a, b) :: l')) l

/-- About the square root. -/
def root (a : Nat) (k : Nat → Bool) : Bool :=
  force (Nat.pow 2 (Nat.div (Nat.log2 a) 2)) fun x => force (Nat.succ (Nat.div (Nat.add x (Nat.div a x)) 2)) fun x =>
    force (Nat.succ (Nat.div (Nat.add x (Nat.div a x)) 2)) fun x => force (Nat.succ (Nat.div (Nat.add x (Nat.div a x)) 2)) k

/-- `j` and `b` above, for squared distances near `a`. -/
def secant (a : Nat) (k : Nat → Nat → Bool) : Bool :=
  root a fun x => force (Nat.succ (Nat.div 1152921504606846976 (Nat.mul 2 x))) fun j => force (Nat.succ (Nat.div 1329227995784915872903807060280344576 (Nat.mul 4 j))) fun b => k j b

/-- `l + p * g`, for a signed `p`. -/
def axpy (p1 p2 : Nat) (g : List Z) : List Z → (List Z → Bool) → Bool :=
  List.rec (fun _ k => k []) (fun x _ ih l k => List.rec (k []) (fun y ys _ =>
    force (Nat.add y.1 (Nat.add (Nat.mul p1 x.1) (Nat.mul p2 x.2))) fun a => force (Nat.add y.2 (Nat.add (Nat.mul p1 x.2) (Nat.mul p2 x.1))) fun b => ih ys fun l' => k ((a, b) :: l')) l) g

/-- Constant part of a term: `e` is the level of the falloff, `β = j ρ + b`; the level changes by at most `D`. -/
def constP (e β j D : Nat) : Nat :=
  Nat.add (Nat.mul (Nat.mul (Nat.mul e e) (Nat.mul e e)) β) (Nat.mul (Nat.mul D D) (Nat.add (Nat.mul (Nat.mul e e) (Nat.sub (Nat.mul 6 β) (Nat.mul 4 (Nat.mul j e))))
    (Nat.mul D (Nat.add (Nat.mul e (zabs (Nat.mul 6 (Nat.mul j e), Nat.mul 4 β))) (Nat.mul D (Nat.add (Nat.sub β (Nat.mul 4 (Nat.mul j e))) (Nat.mul D j)))))))
/-- The same if the level is `-e`. -/
def constN (e β j D : Nat) : Nat :=
  Nat.add (Nat.mul (Nat.mul (Nat.mul e e) (Nat.mul e e)) β) (Nat.mul (Nat.mul D D) (Nat.add (Nat.mul (Nat.mul e e) (Nat.add (Nat.mul 6 β) (Nat.mul 4 (Nat.mul j e))))
    (Nat.mul D (Nat.add (Nat.mul e (Nat.add (Nat.mul 6 (Nat.mul j e)) (Nat.mul 4 β))) (Nat.mul D (Nat.add (Nat.add β (Nat.mul 4 (Nat.mul j e))) (Nat.mul D j)))))))

/-- Upper bound of a term: `k` gets the constant part and the slope (in the squared distance). -/
def term (e E a K D : Nat) (k : Nat → Nat → Nat → Bool) : Bool :=
  secant (Nat.add a K) fun j b => force (Nat.add (Nat.mul j a) b) fun β =>
    cond (Nat.beq E 0)
      (force (constP e β j D) fun c => force (Nat.mul e (Nat.mul e e)) fun e3 => force (Nat.mul e3 (Nat.mul j e)) fun p1 => force (Nat.mul e3 (Nat.mul 4 β)) fun p2 => k c p1 p2)
      (force (constN E β j D) fun c => force (Nat.mul (Nat.mul E (Nat.mul E E)) (Nat.add (Nat.mul j E) (Nat.mul 4 β))) fun p1 => k c p1 0)

/-- Upper bound of the sum, on the box: `a + 2 l · δ + (p1 - p2) * κ` with `0 ≤ κ ≤ K`. -/
def leaf (q : Par) (c r : List Nat) (K : Nat) (L : List (List Z)) : Nat → List Z → Nat → Nat → Bool :=
  List.rec (fun a l p1 p2 => Nat.ble (Nat.add a (Nat.add (Nat.mul 2 (wabs r l)) (Nat.mul (Nat.sub p1 p2) K))) q.B)
    (fun v _ ih a l p1 p2 => forces (offs c v) fun d => force (lneg q d) fun ln => force (lpos q d) fun lp => forces (gram q d) fun g => force (Nat.add (Nat.mul 2 (wsum r g)) K) fun D =>
      cond (Nat.ble (Nat.add lp D) ln) (ih a l p1 p2)
        (term (Nat.sub lp ln) (Nat.sub ln lp) (Nat.sub (Nat.add q.T ln) lp) K D fun cc s1 s2 => axpy s1 s2 g l fun l' => ih (Nat.add a cc) l' (Nat.add p1 s1) (Nat.add p2 s2))) L

/-- The grid points in reach. -/
def near (q : Par) (c r : List Nat) (L : List (List Z)) : (List (List Z) → Bool) → Bool :=
  List.rec (fun k => k []) (fun v _ ih k =>
    cond (Nat.ble (Nat.add (lpos q (offs c v)) (devi q r (offs c v))) (lneg q (offs c v))) (ih k) (ih fun L' => k (v :: L'))) L

/-- The checker, for the box with middle `c` and half widths `r`. -/
def check (q : Par) (t : Tree) : List Nat → List Nat → List (List Z) → Bool :=
  Tree.rec (fun c r _ => cond (unsorted c r) true (beyond q.H c r))
    (fun c r L => force (kap q r) fun K => leaf q c r K L 0 (zeros c) 0 0)
    (fun k _ _ ih1 ih2 c r L => split k c r fun a b h => cond (ih1 a h L) (ih2 b h L) false)
    (fun _ ih c r L => near q c r L fun L' => ih c r L') t

end
end FastNoise.NormCheck
