import Verif.Model.Ind.All

set_option autoImplicit false

/-!
# What the indicators of the close give when every close is the same number
-/

namespace TTI.Spec

/-- Every close is `K`. -/
def ConstantClose (K : ℚ) (x : String → ℚ) : Prop := x "close" = K

/-- One column on a constant close: its name, the first day (counted from 0) that has a value, and that value. -/
structure Flat where
  column : String
  first : ℕ
  value : ℚ

/-- Averages reproduce the constant, differences and deviations are 0, ratios are 100. Prices are rounded to
4 decimals. -/
def onConstant (K : ℚ) : Ind → List Flat
  | .movingAverage p .simple => [⟨"ma-simple", p - 1, roundQ 4 K⟩]
  | .movingAverage p .exponential => [⟨"ma-exponential", p - 1, roundQ 4 K⟩]
  | .movingAverage p .timeSeries => [⟨"ma-time_series", p - 1, roundQ 4 K⟩]
  | .movingAverage p .triangular => [⟨"ma-triangular", 2 * p - 2, roundQ 4 K⟩]
  | .doubleExponentialMovingAverage p => [⟨"dema", 2 * p - 2, roundQ 4 K⟩]
  | .tripleExponentialMovingAverage p => [⟨"tema", 3 * p - 3, roundQ 4 K⟩]
  | .wildersSmoothing p => [⟨"ws", p - 1, roundQ 4 K⟩]
  | .linearRegressionIndicator p => [⟨"lri", p - 1, roundQ 4 K⟩]
  | .timeSeriesForecast p => [⟨"tsf", p - 1, roundQ 4 K⟩]
  | .linearRegressionSlope p => if p = 1 then [] else [⟨"lrs", p - 1, 0⟩]
  | .movingAverageConvergenceDivergence => [⟨"macd", 25, 0⟩, ⟨"signal_line", 33, 0⟩]
  | .priceOscillator long _ => [⟨"posc", long - 1, 0⟩]
  | .priceRateOfChange p => [⟨"prc", p, 0⟩]
  | .momentum p => [⟨"mom", p, 100⟩]
  | .standardDeviation p => [⟨"sd", p - 1, 0⟩]
  | .bollingerBands p (.fin _) =>
    [⟨"middle_band", p - 1, roundQ 4 K⟩, ⟨"upper_band", p - 1, roundQ 4 K⟩, ⟨"lower_band", p - 1, roundQ 4 K⟩]
  | .envelopes p s => [⟨"upper_band", p - 1, roundQ 4 ((1 + s) * K)⟩, ⟨"lower_band", p - 1, roundQ 4 ((1 - s) * K)⟩]
  | _ => []

/-- The indicators that divide by a close or by an average of closes. -/
def DividesByClose : Ind → Prop
  | .priceOscillator _ _ => True
  | .priceRateOfChange _ => True
  | .momentum _ => True
  | _ => False

/-- The indicators that compare two or three successive days (or a deviation with 2): on a constant close they hold. -/
def ComparesDays : Ind → Prop
  | .wildersSmoothing _ => True
  | .linearRegressionIndicator _ => True
  | .timeSeriesForecast _ => True
  | .linearRegressionSlope _ => True
  | .movingAverageConvergenceDivergence => True
  | .priceOscillator _ _ => True
  | .priceRateOfChange _ => True
  | .momentum _ => True
  | .standardDeviation _ => True
  | .detrendedPriceOscillator _ => True
  | _ => False

/-- The indicators that compare the close of the day with a value rounded to 4 decimals. -/
def ComparesLevel : Ind → Prop
  | .movingAverage _ _ => True
  | .doubleExponentialMovingAverage _ => True
  | .tripleExponentialMovingAverage _ => True
  | .bollingerBands _ (.fin _) => True
  | _ => False

end TTI.Spec
