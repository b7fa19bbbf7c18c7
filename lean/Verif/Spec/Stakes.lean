import Verif.Spec.SimApi

set_option autoImplicit false

/-! What a simulation can win and lose. Specification for C99. -/

namespace TTI.Spec

open Sim

/-- The profit of all positions, closed or open, if the open ones were closed at price `p`. -/
def total (p : ℚ) (h : List (Row ℚ)) : ℚ := realised h + unrealised p h

/-- Sum of the daily moves of the closes of the table `g` up to day `i`. -/
def path (p : ℕ → ℚ) : ℕ → ℚ
  | 0 => 0
  | i + 1 => path p i + |p (i + 1) - p i|

end TTI.Spec
