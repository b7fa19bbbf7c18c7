import Mathlib.Data.Int.Log
import Verif.Spec.Ledger

set_option autoImplicit false

/-!
# Rounded arithmetic

Specification for C82: number arithmetic in which every operation is rounded, and the amounts by which the rounding errors
of a simulation are measured.
-/

namespace TTI.Spec

open Sim

/-- A rounding of the exact result of an operation. It keeps the order, keeps numbers that are rounded already, and its relative
error is at most `unit`. The float64 arithmetic of Python rounds like this (`unit` is 1/2^53) as long as nothing overflows or
underflows. -/
structure Rounding where
  fl : ℚ → ℚ
  unit : ℚ
  nonneg : 0 ≤ unit
  error : ∀ x, |fl x - x| ≤ unit * |x|
  mono : ∀ x y, x ≤ y → fl x ≤ fl y
  again : ∀ x, fl (fl x) = fl x

/-- Distance of two neighbouring float64 numbers of the size of `x`. -/
def ulp (x : ℚ) : ℚ := 2 ^ (Int.log 2 |x| - 52)

/-- The float64 number next to `x`: 53 binary digits, half to even, with exponents of any size. -/
def toDouble (x : ℚ) : ℚ := rint (x / ulp x) * ulp x

/-- The arithmetic of the simulator with a rounding after each operation. Comparisons are exact, and so are whole numbers
(the numbers of positions). -/
@[reducible] def Rounding.num (R : Rounding) : Num ℚ where
  add a b := R.fl (a + b)
  sub a b := R.fl (a - b)
  mul a b := R.fl (a * b)
  div a b := R.fl (a / b)
  ofInt n := n
  lt a b := decide (a < b)
  round2 := roundQ 2

/-- The simulation (`trading_simulation.py:361-627`) in rounded arithmetic. -/
def roundedRun (R : Rounding) (P : Params ℚ) (days : List (Day ℚ)) : State ℚ := @Sim.run ℚ R.num P days

/-- The rounded products with the factor keep different prices apart. -/
def KeepsApart (R : Rounding) (factor : ℚ) (days : List (Day ℚ)) : Prop :=
  ∀ d ∈ days, ∀ e ∈ days, d.1 < e.1 → R.fl (factor * d.1) < R.fl (factor * e.1)

/-- Turnover of the positions closed within a history: what was paid and what was received. -/
def turnover : List (Row ℚ) → ℚ
  | [] => 0
  | r :: later =>
    (match closingPrice r.action r.stock later with
     | none => 0
     | some p => r.stock + p) + turnover later

/-- All changes of the exposure within a history: the exposure of every position opened, and once more of every position
closed. -/
def exposureFlow (factor : ℚ) : List (Row ℚ) → ℚ
  | [] => 0
  | r :: later =>
    (match closingPrice r.action r.stock later with
     | none => entryExposure factor r.action r.stock
     | some _ => 2 * entryExposure factor r.action r.stock) + exposureFlow factor later

end TTI.Spec
