import Verif.Spec.Formula

set_option autoImplicit false

/-!
# Vocabulary for the claim that averages forget old prices (C98)
-/

namespace TTI.Spec

/-- Two reported values are numbers that differ by at most `e`. -/
def ApartBy (e : ℚ) (v w : Val) : Prop := ∃ x y, v = .fin x ∧ w = .fin y ∧ |x - y| ≤ e

/-- The numbers of the first days, up to day `k` (counted from 0), lie between `lo` and `hi`. -/
def FirstDays (k : ℕ) (g : ℕ → ℚ) (lo hi : ℚ) : Prop := ∀ j ≤ k, lo ≤ g j ∧ g j ≤ hi

end TTI.Spec
