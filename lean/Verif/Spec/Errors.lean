import Verif.Spec.Formula

set_option autoImplicit false

/-!
# Tables whose prices differ a little (C107)
-/

namespace TTI.Spec

/-- The tables `f` and `g` have the same number of days, and open, high, low and close of each day differ by at most `e`. -/
structure Within (e : ℚ) (f g : RawFrame) : Prop where
  days : g.idx.length = f.idx.length
  near : ∀ s ∈ ["open", "high", "low", "close"], ∀ j < f.idx.length, |price g s j - price f s j| ≤ e

/-- Both values are missing, or they are numbers that differ by at most `d`. -/
def DifferBy (d : ℚ) (x y : Val) : Prop := (x = .nan ∧ y = .nan) ∨ ∃ a b, x = .fin a ∧ y = .fin b ∧ |b - a| ≤ d

/-- By which factor an error of the prices can arrive in a column, and how many times 0.0001 the rounding can add. -/
def errorFactor : Ind → String → Option (ℚ × ℚ)
  | .movingAverage _ .simple, "ma-simple" => some (1, 1)
  | .movingAverage _ .exponential, "ma-exponential" => some (1, 1)
  | .movingAverage _ .triangular, "ma-triangular" => some (1, 1)
  | .wildersSmoothing _, "ws" => some (1, 1)
  | .doubleExponentialMovingAverage _, "dema" => some (3, 1)
  | .tripleExponentialMovingAverage _, "tema" => some (7, 1)
  | .medianPrice _, "mp" => some (1, 1)
  | .typicalPrice _, "tp" => some (1, 1)
  | .weightedClose, "wc" => some (1, 1)
  | .bollingerBands _ (.fin _), "middle_band" => some (1, 1)
  | .envelopes _ s, "upper_band" => some (|1 + s|, 1)
  | .envelopes _ s, "lower_band" => some (|1 - s|, 1)
  | .priceChannel _, "highest_high" => some (1, 1)
  | .priceChannel _, "lowest_low" => some (1, 1)
  | .ichimokuCloud, "tenkan_sen" => some (1, 1)
  | .ichimokuCloud, "kijun_sen" => some (1, 1)
  | .ichimokuCloud, "senkou_a" => some (1, 1)
  | .ichimokuCloud, "senkou_b" => some (1, 1)
  | .fibonacciRetracement, "rl_0.0" => some (1, 1)
  | .fibonacciRetracement, "rl_23.6" => some (1, 1)
  | .fibonacciRetracement, "rl_38.2" => some (1, 1)
  | .fibonacciRetracement, "rl_50.0" => some (1, 1)
  | .fibonacciRetracement, "rl_61.8" => some (1, 1)
  | .fibonacciRetracement, "rl_100.0" => some (1, 1)
  | .qstick _, "qstick" => some (2, 1)
  | .detrendedPriceOscillator _, "dpo" => some (2, 1)
  | .averageTrueRange, "atr" => some (2, 1)
  | .linearRegressionSlope (_ + 2), "lrs" => some (2, 1)
  | .linearRegressionIndicator (_ + 2), "lri" => some (2, 1)
  | .timeSeriesForecast _, "tsf" => some (3, 2)
  | .movingAverage (_ + 2) .timeSeries, "ma-time_series" => some (3, 2)
  | .movingAverageConvergenceDivergence, "macd" => some (2, 2)
  | .movingAverageConvergenceDivergence, "signal_line" => some (2, 3)
  | _, _ => none

end TTI.Spec
