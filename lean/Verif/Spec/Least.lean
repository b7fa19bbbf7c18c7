import Verif.Spec.Unlimited
import Verif.Spec.Indicators

set_option autoImplicit false

/-!
# The least number of days that determines a value
-/

namespace TTI.Spec

/-- `m` days, the day itself included, determine the value of the column on a day (C68): whenever two tables without gaps are
equally long and agree from a date on, the values agree on every day that has `m` such days, itself included. (The common part
must have the number of rows with which the indicator can be built.) -/
def Enough (E : Env) (c : Call) (column : String) (m : ℕ) : Prop :=
  ∀ f g o p, ∀ d : ℤ, ∀ i, BuiltOn E c f true o AnyPrices → BuiltOn E c g true p AnyPrices → f.idx.length = g.idx.length →
    f.since d = g.since d → minRows o.ind ≤ (f.since d).idx.length → rowsBefore d f.idx + m ≤ i + 1 →
    i < f.idx.length → o.getTiData.day column i = p.getTiData.day column i

/-- The least number of days that determines the value of a column: the memory, except for some least parameters. A commodity
channel index or a slope of one day is never a number, nor are infinitely wide bands around the average of one day, and a standard
deviation of one day is always 0: no data is needed. The line through two days ends at the second one, and so do the bands drawn
along it: the day itself is enough. -/
def leastDays : Ind → String → Option ℕ
  | .commodityChannelIndex 1, _ => some 0
  | .standardDeviation 1, _ => some 0
  | .linearRegressionSlope 1, _ => some 0
  | .bollingerBands 1 .pinf, column => some (if column = "middle_band" then 1 else 0)
  | .linearRegressionIndicator 2, _ => some 1
  | .projectionBands 2, _ => some 1
  | .projectionOscillator 2, column => if column = "posc" then some 1 else none
  | ind, column => memory ind column

/-- What is used of the square root and of the weights of the weighted mean. -/
structure FairEnv (E : Env) : Prop where
  zero : E.sq 0 = 0
  nonneg : ∀ q, 0 ≤ q → 0 ≤ E.sq q
  one : ∀ q, 1 ≤ q → 1 ≤ E.sq q
  length : ∀ d, (E.weights d).length = d
  total : ∀ d, 1 ≤ d → (E.weights d).sum ≠ 0

end TTI.Spec
