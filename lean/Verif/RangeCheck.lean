/-!
# A checker for bounds of simplex noise

A program, run by Lean's kernel, that bounds a sum of ramps with radial falloff on a region by cutting the region into boxes; `Verif.RangeCheckLemmas` proves that it is right.
Nothing here models code of the repository: it is a proof procedure for `Verif.SimplexRangeProps`.

Numbers are scaled integers, a signed one is a pair of natural numbers (its value is the difference).  Recursors and `Nat` functions are written out because the kernel evaluates these fast.
-/
namespace FastNoise.RangeCheck

/-- A signed number: the difference of two natural numbers. -/
abbrev Z := Nat × Nat

/-- How the region is cut: `out`: the box does not meet the region; `leaf`: the bound holds on the box; `cut`: halve it along an axis; `ref`: drop vertices and ramps that do not matter on it. -/
inductive Tree where
  | out
  | leaf
  | cut (k : Nat) (a b : Tree)
  | ref (a : Tree)

noncomputable section

/-- `|z|` -/
def zabs (z : Z) : Nat := Nat.add (Nat.sub z.1 z.2) (Nat.sub z.2 z.1)
def zmul (a b : Z) : Z := (Nat.add (Nat.mul a.1 b.1) (Nat.mul a.2 b.2), Nat.add (Nat.mul a.1 b.2) (Nat.mul a.2 b.1))
def zadd (a b : Z) : Z := (Nat.add a.1 b.1, Nat.add a.2 b.2)
/-- The same number with one part 0. -/
def norm (a : Z) : Z := (Nat.sub a.1 a.2, Nat.sub a.2 a.1)

/-- `c - v` -/
def offs (c : List Nat) : List Z → List Z :=
  List.rec (fun _ => []) (fun x _ ih v => List.rec [] (fun y ys _ => (Nat.sub (Nat.add x y.2) y.1, Nat.sub y.1 (Nat.add x y.2)) :: ih ys) v) c
def zsum (d : List Z) : Z := List.rec (0, 0) (fun x _ ih => zadd x ih) d
/-- Sum of squares, of numbers with one part 0. -/
def sumSq (d : List Z) : Nat := List.rec 0 (fun x _ ih => Nat.add (Nat.add (Nat.mul x.1 x.1) (Nat.mul x.2 x.2)) ih) d
def sqN (d : List Nat) : Nat := List.rec 0 (fun x _ ih => Nat.add (Nat.mul x x) ih) d
/-- At least `∑ r * |v|`. -/
def wsum (r : List Nat) : List Z → Nat := List.rec (fun _ => 0) (fun x _ ih v => List.rec 0 (fun y ys _ => Nat.add (Nat.mul x (Nat.add y.1 y.2)) (ih ys)) v) r
/-- `∑ r * |v|` -/
def wabs (r : List Nat) : List Z → Nat := List.rec (fun _ => 0) (fun x _ ih v => List.rec 0 (fun y ys _ => Nat.add (Nat.mul x (zabs y)) (ih ys)) v) r
/-- `m * d - s` for every entry -/
def grams (m : Nat) (s : Z) (d : List Z) : List Z := List.rec [] (fun x _ ih => norm (Nat.add (Nat.mul m x.1) s.2, Nat.add (Nat.mul m x.2) s.1) :: ih) d
def dot (g : List Z) : List Z → Z := List.rec (fun _ => (0, 0)) (fun x _ ih d => List.rec (0, 0) (fun y ys _ => zadd (zmul x y) (ih ys)) d) g
/-- `∑ r * |g - d|` -/
def wdist (r : List Nat) : List Z → List Z → Nat :=
  List.rec (fun _ _ => 0) (fun w _ ih g d => List.rec 0 (fun x xs _ => List.rec 0 (fun y ys _ => Nat.add (Nat.mul w (zabs (Nat.add x.1 y.2, Nat.add x.2 y.1))) (ih xs ys)) d) g) r

/-- The ramps that are somewhere on the box greater than `b`. -/
def keep (r : List Nat) (b d : List Z) (cs : List (List Z)) : (List (List Z) → Bool) → Bool :=
  List.rec (fun k => k []) (fun g _ ih k =>
    cond (Nat.ble (Nat.add (Nat.add (dot g d).1 (dot b d).2) (wdist r b g)) (Nat.add (dot b d).1 (dot g d).2)) (ih k) (ih fun l => k (g :: l))) cs
/-- The ramp that is greatest in the middle of the box. -/
def best (d : List Z) (cs : List (List Z)) : List Z → (List Z → Bool) → Bool :=
  List.rec (fun b k => k b) (fun g _ ih b k => cond (Nat.ble (Nat.add (dot g d).1 (dot b d).2) (Nat.add (dot b d).1 (dot g d).2)) (ih b k) (ih g k)) cs

/-- The squared distance is `(m * ∑ d² - (∑ d)²) / m`; the level of the falloff, scaled, is `T - t * m * distance²`; the bound, scaled, is `B`; the region is symmetric to its points with
twice the coordinate sum `H`. -/
structure Par where
  m : Nat
  t : Nat
  T : Nat
  B : Nat
  H : Nat

/-- A linear function that is an upper bound. -/
structure Item where
  val : Z
  lin : List Z

/-- `k * (x * a - y * P * b)` -/
def comb (k x y : Nat) (P : Z) (a : List Z) : List Z → List Z :=
  List.rec (fun _ => []) (fun p _ ih b => List.rec [] (fun q qs _ =>
    (Nat.mul k (Nat.add (Nat.mul x p.1) (Nat.mul y (Nat.add (Nat.mul P.1 q.2) (Nat.mul P.2 q.1)))), Nat.mul k (Nat.add (Nat.mul x p.2) (Nat.mul y (Nat.add (Nat.mul P.1 q.1) (Nat.mul P.2 q.2))))) :: ih qs) b) a

/-- The upper bound of ramp `g` times falloff: the tangent in the middle plus a bound of the rest. -/
def item (q : Par) (r : List Nat) (A dev ka : Nat) (d e g : List Z) : Item :=
  let P := norm (dot g d)
  let Q := wsum r g
  let A2 := Nat.mul A A
  let A3 := Nat.mul A A2
  let A4 := Nat.mul A2 A2
  Item.mk (Nat.add (Nat.mul P.1 A4) (Nat.add (Nat.mul (Nat.mul 4 A3) (Nat.add (Nat.mul Q dev) (Nat.mul P.2 ka)))
    (Nat.mul (Nat.add P.1 Q) (Nat.mul (Nat.mul dev dev) (Nat.add (Nat.mul 6 A2) (Nat.mul dev (Nat.add (Nat.mul 4 A) dev)))))), Nat.mul P.2 A4)
    (comb A3 A (Nat.mul 8 q.t) P g e)
def items (q : Par) (r : List Nat) (A dev ka : Nat) (d e : List Z) (cs : List (List Z)) : List Item := List.rec [] (fun g _ ih => item q r A dev ka d e g :: ih) cs

/-- A constant upper bound of the ramps times falloff `w ^ 4`. -/
def crude (r : List Nat) (w : Nat) (d : List Z) (cs : List (List Z)) : Nat :=
  Nat.mul (Nat.mul (Nat.mul w w) (Nat.mul w w)) (List.rec 0 (fun g _ ih => (fun x => cond (Nat.ble x ih) ih x) (Nat.add (norm (dot g d)).1 (wsum r g))) cs)

/-- The vertices with the ramps they may have. -/
abbrev St := List (List Z × List (List Z))

/-- Gram vector of the offset. -/
def gram (q : Par) (d : List Z) : List Z := grams q.m (norm (zsum d)) d
/-- Bound of the quadratic part of the change of the level on the box. -/
def kap (q : Par) (r : List Nat) : Nat := Nat.mul (Nat.mul q.t q.m) (sqN r)
/-- Bound of the change of the level on the box. -/
def devi (q : Par) (r : List Nat) (d : List Z) : Nat := Nat.add (Nat.mul (Nat.mul 2 q.t) (wsum r (gram q d))) (kap q r)
/-- The level in the middle is `lpos - lneg`. -/
def lneg (q : Par) (d : List Z) : Nat := Nat.mul q.t (Nat.mul q.m (sumSq d))
def lpos (q : Par) (d : List Z) : Nat := Nat.add q.T (Nat.mul q.t (Nat.add (Nat.mul (norm (zsum d)).1 (norm (zsum d)).1) (Nat.mul (norm (zsum d)).2 (norm (zsum d)).2)))

def refine (q : Par) (c r : List Nat) (L : St) : (St → Bool) → Bool :=
  List.rec (fun k => k []) (fun x _ ih k =>
    cond (Nat.ble (Nat.add (lpos q (offs c x.1)) (devi q r (offs c x.1))) (lneg q (offs c x.1))) (ih k)
      (List.rec (ih k) (fun g gs _ => best (offs c x.1) gs g fun b => keep r b (offs c x.1) x.2 fun cs => ih fun L' => k ((x.1, b :: cs) :: L')) x.2)) L

def meas (q : Par) (c r : List Nat) (L : St) : (Nat → List (List Item) → Bool) → Bool :=
  List.rec (fun k => k 0 []) (fun x _ ih k =>
    cond (Nat.ble (Nat.add (lpos q (offs c x.1)) (devi q r (offs c x.1))) (lneg q (offs c x.1))) (ih k)
      (cond (Nat.ble (Nat.add (lneg q (offs c x.1)) (devi q r (offs c x.1))) (lpos q (offs c x.1)))
        (ih fun a its => k a (items q r (Nat.sub (lpos q (offs c x.1)) (lneg q (offs c x.1))) (devi q r (offs c x.1)) (kap q r) (offs c x.1) (gram q (offs c x.1)) x.2 :: its))
        (ih fun a its => k (Nat.add a (crude r (Nat.sub (Nat.add (lpos q (offs c x.1)) (devi q r (offs c x.1))) (lneg q (offs c x.1))) (offs c x.1) x.2)) its))) L

def zadds (a : List Z) : List Z → List Z := List.rec (fun _ => []) (fun x _ ih e => List.rec [] (fun y ys _ => zadd x y :: ih ys) e) a
/-- Every choice of one upper bound per vertex stays below the bound on the box. -/
def leaf (q : Par) (r : List Nat) (its : List (List Item)) : Z → List Z → Bool :=
  List.rec (fun v l => Nat.ble (Nat.add v.1 (wabs r l)) (Nat.add q.B v.2))
    (fun cs _ ih v l => List.rec true (fun i _ rest => cond (ih (zadd v i.val) (zadds l i.lin)) rest false) cs) its

/-- The coordinates are nowhere on the box sorted downwards. -/
def unsorted (c : List Nat) : List Nat → Bool :=
  List.rec (fun _ => false) (fun x xs ih r => List.rec false (fun p ps _ => List.rec false (fun y _ _ => List.rec false (fun p' _ _ => cond (Nat.ble y (Nat.add x (Nat.add p p'))) (ih ps) true) ps) xs) r) c
def sumN (c : List Nat) : Nat := List.rec 0 (fun x _ ih => Nat.add x ih) c
/-- The coordinate sum is on the box greater than half of `H`. -/
def beyond (H : Nat) (c r : List Nat) : Bool := Nat.blt (Nat.add H (Nat.mul 2 (sumN r))) (Nat.mul 2 (sumN c))
def zeros (c : List Nat) : List Z := List.rec [] (fun _ _ ih => (0, 0) :: ih) c

/-- Halve the box along axis `k`. -/
def split (k : Nat) : List Nat → List Nat → (List Nat → List Nat → List Nat → Bool) → Bool :=
  Nat.rec (fun c r f => List.rec false (fun x xs _ => List.rec false (fun p ps _ =>
      (fun h => cond (Nat.beq (Nat.add h h) p) (cond (Nat.ble h x) (f (Nat.sub x h :: xs) (Nat.add x h :: xs) (h :: ps)) false) false) (Nat.div p 2)) r) c)
    (fun _ ih c r f => List.rec false (fun x xs _ => List.rec false (fun p ps _ => ih xs ps fun a b h => f (x :: a) (x :: b) (p :: h)) r) c) k

/-- The checker, for the box with middle `c` and half widths `r`. -/
def check (q : Par) (t : Tree) : List Nat → List Nat → St → Bool :=
  Tree.rec (fun c r _ => cond (unsorted c r) true (beyond q.H c r))
    (fun c r L => meas q c r L fun a its => leaf q r its (a, 0) (zeros c))
    (fun k _ _ ih1 ih2 c r L => split k c r fun a b h => cond (ih1 a h L) (ih2 b h L) false)
    (fun _ ih c r L => refine q c r L fun L' => ih c r L') t

end
end FastNoise.RangeCheck
