import Verif.Spec.Prices
import Mathlib.Algebra.BigOperators.Intervals

set_option autoImplicit false

/-!
# What a least squares line is

Used by C42. Nothing here refers to the model's regression code.
-/

namespace TTI.Spec

/-- The number in a cell (0 for a cell that is not a number; the properties only use it on frames of numbers). -/
def number : Val → ℚ
  | .fin q => q
  | _ => 0

/-- The squared error of the line `a + b * j` over the `p` days that end with the `i`-th day. -/
def squaredError (f : RawFrame) (p i : ℕ) (a b : ℚ) : ℚ :=
  ∑ j ∈ Finset.Ico (i + 1 - p) (i + 1), (number (f.day "close" j) - (a + b * j)) ^ 2

/-- `a + b * j` fits the last `p` closes at least as well as any other line. -/
def LeastSquares (f : RawFrame) (p i : ℕ) (a b : ℚ) : Prop := ∀ a' b', squaredError f p i a b ≤ squaredError f p i a' b'

end TTI.Spec
