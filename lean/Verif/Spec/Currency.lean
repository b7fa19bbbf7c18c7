import Verif.Model.Api

set_option autoImplicit false

/-!
# Specification: a simulation in another currency
-/

namespace TTI.Spec

/-- A row of the simulation with all amounts of money multiplied by `c`. -/
def exchanged (c : ℚ) (r : Sim.Row Val) : Sim.Row Val :=
  ⟨r.signal, r.action, Val.mul (.fin c) r.stock, Val.mul (.fin c) r.exposure, Val.mul (.fin c) r.portfolio,
    Val.mul (.fin c) r.earnings, Val.mul (.fin c) r.balance⟩

/-- The argument `m'` for `max_exposure` is `m` in the other currency: `c` times the number, or the same object if it is no
number (`None`, or an object the simulator rejects). -/
def LimitIn (c : ℚ) (m m' : PyArg) : Prop :=
  (m.asNumber = none ∧ m' = m) ∨ ∃ v, m.asNumber = some v ∧ m'.asNumber = some (Val.mul (.fin c) v)

/-- What a simulation says apart from the rounded amounts: the dates, the rows, and the seven counters. -/
structure Outcome where
  idx : List ℤ
  rows : List (Option (Sim.Row Val))
  tradingDays : ℕ
  buySignals : ℕ
  ignoredBuySignals : ℕ
  sellSignals : ℕ
  ignoredSellSignals : ℕ
  openLong : ℕ
  openShort : ℕ

/-- The outcome of a simulation, the amounts in the rows multiplied by `c`. -/
def outcomeIn (c : ℚ) (r : SimResult) : Outcome :=
  ⟨r.idx, r.rows.map (Option.map (exchanged c)), r.stats.tradingDays, r.stats.buySignals, r.stats.ignoredBuySignals,
    r.stats.sellSignals, r.stats.ignoredSellSignals, r.stats.lastOpenLong, r.stats.lastOpenShort⟩

/-- The outcome of a simulation. -/
def outcome (r : SimResult) : Outcome :=
  ⟨r.idx, r.rows, r.stats.tradingDays, r.stats.buySignals, r.stats.ignoredBuySignals,
    r.stats.sellSignals, r.stats.ignoredSellSignals, r.stats.lastOpenLong, r.stats.lastOpenShort⟩

end TTI.Spec
