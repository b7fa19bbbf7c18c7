import Verif.Spec.Ledger

set_option autoImplicit false

/-!
# What the short exposure factor changes (C110)
-/

namespace TTI.Spec

open Sim

/-- Two rows of a simulation agree in everything but the exposure. -/
def SameButExposure (a b : Row Val) : Prop :=
  a.signal = b.signal ∧ a.action = b.action ∧ a.stock = b.stock ∧ a.portfolio = b.portfolio ∧ a.earnings = b.earnings ∧ a.balance = b.balance

/-- The sum of the opening prices of the shorts still open at the end of a history. -/
def openShorts (h : List (Row ℚ)) : ℚ := sumOpen (fun s entry => if s = .short then entry else 0) h

end TTI.Spec
