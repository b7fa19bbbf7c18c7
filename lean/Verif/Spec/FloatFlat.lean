import Mathlib.Data.Rat.Init

set_option autoImplicit false

/-! Specification for C90. -/

namespace TTI.Spec

/-- The quantity has not changed for `n` days up to day `i`. -/
def Still (n : ℕ) (g : ℕ → ℚ) (i : ℕ) : Prop := n ≤ i + 1 ∧ ∀ t < n, g (i - t) = g i

end TTI.Spec
