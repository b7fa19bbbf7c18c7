import Verif.Model.Sim

set_option autoImplicit false

/-!
# Ledger specification of the simulation

What the user can reconstruct from the `signal`, `open_trading_action` and `stock_value` columns alone: which positions
were opened, when each of them is closed and with what profit.  A history is a list of rows, oldest first; the row of a
position is followed by the rows of the later days.
-/

namespace TTI.Spec

open Sim

/-- The trading day that closes a position opened on side `s` at price `entry`: the first later day whose price is a
strict profit. `none` while there is no such day. -/
def closingPrice (s : Side) (entry : ℚ) (later : List (Row ℚ)) : Option ℚ :=
  match s with
  | .none => none
  | .long => (later.map (·.stock)).find? fun p => entry < p
  | .short => (later.map (·.stock)).find? fun p => p < entry

/-- Exposure a position takes when opened. -/
def entryExposure (factor : ℚ) (s : Side) (entry : ℚ) : ℚ :=
  match s with
  | .none => 0
  | .long => entry
  | .short => factor * entry

/-- Profit of selling (long) or buying back (short) at price `p`. -/
def profit (s : Side) (entry p : ℚ) : ℚ :=
  match s with
  | .none => 0
  | .long => p - entry
  | .short => entry - p

/-- Sum over the positions of a history still open at its end. -/
def sumOpen (g : Side → ℚ → ℚ) : List (Row ℚ) → ℚ
  | [] => 0
  | r :: later =>
    (if r.action ≠ .none ∧ closingPrice r.action r.stock later = none then g r.action r.stock else 0) + sumOpen g later

/-- Exposure of the open positions. -/
def exposure (factor : ℚ) (h : List (Row ℚ)) : ℚ := sumOpen (entryExposure factor) h

/-- Number of the open positions on a side. -/
def numOpen (s : Side) (h : List (Row ℚ)) : ℚ := sumOpen (fun s' _ => if s' = s then 1 else 0) h

/-- Total realised profit of the positions closed within a history. -/
def realised : List (Row ℚ) → ℚ
  | [] => 0
  | r :: later =>
    (match closingPrice r.action r.stock later with
     | none => 0
     | some p => profit r.action r.stock p) + realised later

/-- Profit of the open positions if closed at price `p`. -/
def unrealised (p : ℚ) (h : List (Row ℚ)) : ℚ := sumOpen (fun s entry => profit s entry p) h

end TTI.Spec
