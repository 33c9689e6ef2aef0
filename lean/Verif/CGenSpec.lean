import Verif.CGen
import Mathlib.Order.Bounds.Defs

/-!
# Specification for C57: what a generation call of the C API does to the caller's memory

`before` and `after` are the caller's floats before and after the call; `noiseOut` and `outputMinMax` the addresses
given to the call (`none` = `NULL`).
-/

namespace FastNoise.CGen

variable {F : Type} [LinearOrder F]

/-- The `T` floats from `out` on are `f 0, f 1, …`; if `mm` is an address, the two floats there are the least and the
greatest of these values; every other float is as before. -/
structure Filled (before after : List F) (out T : Nat) (f : Nat → F) (mm : Option Nat) : Prop where
  size : after.length = before.length
  values : ∀ i < T, after[out + i]? = some (f i)
  minMax : ∀ p, mm = some p → ∃ lo hi, after[p]? = some lo ∧ after[p + 1]? = some hi ∧
    IsLeast {v | ∃ i < T, f i = v} lo ∧ IsGreatest {v | ∃ i < T, f i = v} hi
  rest : ∀ j, (j < out ∨ out + T ≤ j) → (∀ p, mm = some p → j ≠ p ∧ j ≠ p + 1) → after[j]? = before[j]?

/-- What the documentation asks of the caller (FastNoise_C.h:47-64): room for `T` floats at `out`, and `mm` `NULL` or
the address of two floats apart from them. -/
def Room (mem : List F) (out T : Nat) (mm : Option Nat) : Prop :=
  out + T ≤ mem.length ∧ ∀ p, mm = some p → p + 2 ≤ mem.length ∧ (p + 2 ≤ out ∨ out + T ≤ p)

/-- A position array of `n` floats at `a`, none of them an output at `out`. -/
def Apart (mem : List F) (out n a : Nat) : Prop := a + n ≤ mem.length ∧ (a + n ≤ out ∨ out + n ≤ a)

end FastNoise.CGen
