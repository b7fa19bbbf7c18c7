import Verif.Spec.Errors
import Verif.Spec.Signals

set_option autoImplicit false

/-!
# The numbers that a signal compares (C108)
-/

namespace TTI.Spec

/-- What is compared: a value of the indicator or a close, `k` days before the last one, or zero. -/
inductive Quantity where
  | value (column : String) (k : ℕ)
  | close (k : ℕ)
  | zero

/-- The number, for an indicator with the input data `F` and the indicator data `T`. -/
def Quantity.of (F T : Frame) : Quantity → Val
  | .value column k => before k (T.col column)
  | .close k => before k (F.col "close")
  | .zero => 0

/-- How far an error `e` of the prices can move the number. -/
def Quantity.margin (ind : Ind) (e : ℚ) : Quantity → Option ℚ
  | .value column _ => (errorFactor ind column).map fun x => x.1 * e + x.2 / 10000
  | .close _ => some e
  | .zero => some 0

/-- A line and the close, yesterday and today. -/
def crossing (column : String) : List (Quantity × Quantity) := [(.value column 0, .close 0), (.value column 1, .close 1)]

/-- The pairs that the signal compares; no entry for the other classes. -/
def compares : Ind → List (Quantity × Quantity)
  | .movingAverage _ t => [(.value t.column 0, .close 0)]
  | .doubleExponentialMovingAverage _ => [(.value "dema" 0, .close 0)]
  | .tripleExponentialMovingAverage _ => [(.value "tema" 0, .close 0)]
  | .wildersSmoothing _ => crossing "ws"
  | .weightedClose => crossing "wc"
  | .linearRegressionIndicator _ => crossing "lri"
  | .timeSeriesForecast _ => crossing "tsf"
  | .fibonacciRetracement => crossing "rl_61.8" ++ crossing "rl_50.0" ++ crossing "rl_38.2" ++ crossing "rl_23.6"
  | .envelopes _ _ => [(.value "upper_band" 0, .close 0), (.value "lower_band" 0, .close 0)]
  | .priceChannel _ => [(.value "highest_high" 0, .close 0), (.value "lowest_low" 0, .close 0)]
  | .linearRegressionSlope _ => [(.value "lrs" 0, .zero), (.value "lrs" 1, .zero)]
  | .movingAverageConvergenceDivergence => [(.value "macd" 0, .zero), (.value "macd" 1, .zero),
      (.value "macd" 0, .value "signal_line" 0), (.value "macd" 1, .value "signal_line" 1)]
  | .qstick _ => [(.value "qstick" 3, .value "qstick" 2), (.value "qstick" 2, .zero), (.value "qstick" 1, .zero),
      (.value "qstick" 1, .value "qstick" 0)]
  | _ => []

/-- Two numbers that differ by at most `d`. -/
def Tie (d : ℚ) (x y : Val) : Prop := ∃ a b, x = .fin a ∧ y = .fin b ∧ |a - b| ≤ d

end TTI.Spec
