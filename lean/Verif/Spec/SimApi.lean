import Verif.Spec.Ledger
import Verif.Spec.Formula
import Verif.Spec.Superpose

set_option autoImplicit false

/-! The simulation data that `getTiSimulation` returns, as a ledger of numbers. Specification for C01-C16. -/

namespace TTI.Spec

open Sim

/-- The numbers of a row. -/
def numbersOf (x : Row Val) : Row ℚ :=
  ⟨x.signal, x.action, number x.stock, number x.exposure, number x.portfolio, number x.earnings, number x.balance⟩

/-- The first `n` days of the simulation data. -/
def firstDays (r : SimResult) (n : ℕ) : List (Row ℚ) := (r.rows.take n).filterMap fun x => x.map numbersOf

/-- The amounts of a row are numbers. -/
def AllNumbers (x : Row Val) : Prop :=
  ∃ s e p w b : ℚ, x.stock = .fin s ∧ x.exposure = .fin e ∧ x.portfolio = .fin p ∧ x.earnings = .fin w ∧ x.balance = .fin b

/-- What a day would leave of the exposure if it opened nothing. -/
def exposureLeft (factor : ℚ) (before : List (Row ℚ)) (x : Row ℚ) : ℚ := exposure factor (before ++ [{ x with action := .none }])

end TTI.Spec
