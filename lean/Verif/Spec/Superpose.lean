import Verif.Spec.Stricter
import Verif.Spec.Ledger

set_option autoImplicit false

/-!
# Signals put together

Small specification for C80: prices and signals day by day, and signals that are divided into two groups.
-/

namespace TTI.Spec

/-- Prices and signals of `n` days. -/
def history (n : ℕ) (p : ℕ → ℚ) (s : ℕ → Signal) : List (Sim.Day ℚ) := (List.range n).map fun i => (p i, s i)

/-- The signal of a day belongs to one of two groups; the other group holds on this day. -/
def Divided (s s₁ s₂ : Signal) : Prop := s₂ = .hold ∧ s = s₁ ∨ s₁ = .hold ∧ s = s₂

/-- Only the signals of one kind, hold instead of the others. -/
def only (k s : Signal) : Signal := if s = k then s else .hold

/-- The row of day `i` of a simulation result. -/
def RowOn (r : SimResult) (i : ℕ) (row : Sim.Row Val) : Prop := r.rows[i]? = some (some row)

end TTI.Spec
