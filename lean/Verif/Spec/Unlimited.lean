import Verif.Spec.Memory
import Verif.Spec.Formula
import Verif.Spec.Prices
import Verif.Lemmas.Since

set_option autoImplicit false

/-!
# Indicators that look at the whole past
-/

namespace TTI.Spec

/-- For every number of days `k` there are two tables, without gaps and equally long, that agree on the latest `k` days or more,
and the values of the column on the last day differ (C68). -/
def NeverForgets (E : Env) (c : Call) (column : String) : Prop :=
  ∀ k, ∃ f g o p n, ∃ d : ℤ, BuiltOn E c f true o AnyPrices ∧ BuiltOn E c g true p AnyPrices ∧
    f.idx.length = n + 1 ∧ g.idx.length = n + 1 ∧ f.since d = g.since d ∧ k ≤ (f.since d).idx.length ∧
    o.getTiData.day column n ≠ p.getTiData.day column n

/-- The parameters with which an average is one: with a period of 1 an exponential or a Wilder average is the latest number.
The range indicator reports numbers between 0 and 100 with four decimals: windows of three days at least, and less than a
million periods, are what the proof needs. -/
def Averages : Ind → Prop
  | .movingAverage p _ | .doubleExponentialMovingAverage p | .tripleExponentialMovingAverage p | .wildersSmoothing p
  | .relativeStrengthIndex p | .relativeVolatilityIndex p | .relativeMomentumIndex p _ | .volatilityChaikins p _ => 2 ≤ p
  | .stochasticMomentumIndex _ s d => 2 ≤ s ∨ 2 ≤ d
  | .rangeIndicator p s => 3 ≤ p ∧ 2 ≤ s ∧ s < 1000000
  | _ => True

/-- The column of the performance that repeats the parameter. -/
def Target (column : String) : Prop := column = "target_LONG" ∨ column = "target_SHORT"

end TTI.Spec
