import Verif.Spec.Prices
import Verif.Model.Api

set_option autoImplicit false

/-!
# Missing entries that are left in the data

What a user who builds an indicator with `fill_missing_values=False` may expect of the days around a missing entry (C104).
-/

namespace TTI.Spec

/-- The entry of a column of the user's table on the `j`-th day (in the order of the dates) is missing. -/
def Missing (f : RawFrame) (name : String) (j : ℕ) : Prop := j < f.idx.length ∧ f.day name j = .nan

/-- The `n` days from day `a` on. -/
def days (a n i : ℕ) : Prop := a ≤ i ∧ i < a + n

/-- `blanks ind column source j i`: if the entry of the column `source` of the data is missing on day `j`, then the value of
the column `column` of the indicator is missing on day `i`. In most classes these are the `n` days whose window contains day
`j`, one more where changes from day to day enter; in the last five the value never comes back. -/
def blanks : Ind → String → String → ℕ → ℕ → Prop
  | .accumulationDistributionLine, _, _, j, i => i = j
  | .bollingerBands p _, _, _, j, i => days j p i
  | .chaikinMoneyFlow p, _, _, j, i => days j p i
  | .chandeMomentumOscillator p, _, _, j, i => days j (p + 1) i
  | .detrendedPriceOscillator p, _, _, j, i => i = j ∨ days j p (i + 1 + p / 2)
  | .easeOfMovement p, column, source, j, i =>
    days j ((if column = "emv" then 1 else p) + (if source = "volume" then 0 else 1)) i
  | .envelopes p _, _, _, j, i => days j p i
  | .forecastOscillator _, _, _, j, i => i = j
  | .intradayMomentumIndex p, _, _, j, i => days j p i
  | .linearRegressionSlope p, _, _, j, i => days j p i
  | .marketFacilitationIndex, _, _, j, i => i = j
  | .medianPrice _, _, source, j, i => source ≠ "close" ∧ i = j
  | .momentum p, _, _, j, i => i = j ∨ i = j + p
  | .movingAverage p t, _, _, j, i => match t with
    | .simple => days j p i
    | .triangular => days j (2 * p - 1) i
    | .variableType => 21 ≤ j ∧ j ≤ i
    | _ => False
  | .performance _ _, column, _, j, i => column = "prf" ∧ (i = j ∨ j = 0)
  | .priceChannel p, column, source, j, i =>
    (column = "highest_high" ∧ source = "high" ∨ column = "lowest_low" ∧ source = "low") ∧ days (j + 1) p i
  | .priceOscillator long short, _, _, j, i => days j (max long short) i
  | .priceRateOfChange p, _, _, j, i => i = j ∨ i = j + p
  | .projectionBands _, column, source, j, i =>
    (column = "upper_band" ∧ source = "high" ∨ column = "lower_band" ∧ source = "low") ∧ i = j
  | .projectionOscillator _, column, source, j, i => column = "posc" ∧ source = "close" ∧ i = j
  | .qstick p, _, _, j, i => days j p i
  | .standardDeviation p, _, _, j, i => days j p i
  | .stochasticOscillator k slowing d _, column, source, j, i =>
    days j ((if source = "close" then 1 else k) + (slowing - 1) + (if column = "%K" then 0 else d - 1)) i
  | .swingIndex, _, source, j, i => (source = "close" ∨ source = "open") ∧ days j 2 i
  | .ultimateOscillator, _, source, j, i => days j (if source = "close" then 29 else 28) i
  | .verticalHorizontalFilter p, _, _, j, i => days j (p + 1) i
  | .volumeOscillator long short, _, _, j, i => days j (max long short) i
  | .volumeRateOfChange p, _, _, j, i => i = j ∨ i = j + p
  | .weightedClose, _, _, j, i => i = j
  | .williamsAccumulationDistribution, _, source, j, i => source = "close" ∧ days j 2 i
  | .williamsR p, _, source, j, i => days j (if source = "close" then 1 else p) i
  | .directionalMovementIndex, column, source, j, i =>
    let k := if source = "close" then j + 1 else j
    14 ≤ k ∧ k ≤ i ∧ (column = "adx" → i ≠ 27)
  | .priceAndVolumeTrend, _, source, j, i => (source = "close" ∨ 1 ≤ j) ∧ 1 ≤ i ∧ j ≤ i
  | .relativeMomentumIndex p m, _, _, j, i => p + m ≤ j ∧ j ≤ i ∨ p ≤ j ∧ j + m ≤ i
  | .wildersSmoothing p, _, _, j, i => p ≤ j ∧ j ≤ i
  | _, _, _, _, _ => False

/-- The entry itself, or zero if it is missing. -/
def orZero (v : Val) : Val := if v = .nan then .fin 0 else v

/-- The table with a zero in the place of every missing entry. -/
def zeroed (f : RawFrame) : RawFrame := { f with cols := f.cols.map fun c => { c with data := c.data.map orZero } }

/-- The classes whose values come from an inner indicator only. -/
def fillsAnyway : Ind → Bool
  | .timeSeriesForecast _ | .chaikinOscillator => true
  | .movingAverage _ .timeSeries => true
  | _ => false

end TTI.Spec
