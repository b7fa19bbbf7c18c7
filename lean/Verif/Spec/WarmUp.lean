import Verif.Model.Ind.All

set_option autoImplicit false

/-!
# Specification: the days before an indicator has a value or gives a signal
-/

namespace TTI.Spec

/-- The number of days at the beginning for which a column of the indicator data is missing. -/
def warmUp : Ind → String → ℕ
  | .accumulationDistributionLine, _ => 0
  | .averageTrueRange, _ => 13
  | .bollingerBands n _, _ => n - 1
  | .chaikinMoneyFlow n, _ => n - 1
  | .chaikinOscillator, _ => 9
  | .chandeMomentumOscillator n, _ => n
  | .commodityChannelIndex n, _ => n - 1
  | .detrendedPriceOscillator n, _ => n - 1 - (1 + n / 2)
  | .directionalMovementIndex, "adx" => 27
  | .directionalMovementIndex, "adxr" => 40
  | .directionalMovementIndex, _ => 14
  | .doubleExponentialMovingAverage n, _ => 2 * n - 2
  | .easeOfMovement n, "emv_ma" => n
  | .easeOfMovement _, _ => 1
  | .envelopes n _, _ => n - 1
  | .fibonacciRetracement, _ => 0
  | .forecastOscillator n, _ => n
  | .ichimokuCloud, "tenkan_sen" => 0
  | .ichimokuCloud, "kijun_sen" => 0
  | .ichimokuCloud, _ => 26
  | .intradayMomentumIndex n, _ => n - 1
  | .klingerOscillator, _ => 55
  | .linearRegressionIndicator n, _ => n - 1
  | .linearRegressionSlope n, _ => n - 1
  | .marketFacilitationIndex, _ => 0
  | .massIndex, _ => 40
  | .medianPrice _, _ => 0
  | .momentum n, _ => n
  | .movingAverage n .triangular, _ => 2 * n - 2
  | .movingAverage _ .variableType, _ => 21
  | .movingAverage n _, _ => n - 1
  | .movingAverageConvergenceDivergence, "signal_line" => 33
  | .movingAverageConvergenceDivergence, _ => 25
  | .negativeVolumeIndex, _ => 0
  | .onBalanceVolume, _ => 0
  | .parabolicSAR, _ => 0
  | .performance _ _, _ => 0
  | .positiveVolumeIndex, _ => 0
  | .priceAndVolumeTrend, _ => 0
  | .priceChannel n, _ => n
  | .priceOscillator long _, _ => long - 1
  | .priceRateOfChange n, _ => n
  | .projectionBands n, _ => n - 1
  | .projectionOscillator n, "trigger_line" => n + 1
  | .projectionOscillator n, _ => n - 1
  | .qstick n, _ => n - 1
  | .rangeIndicator n m, _ => n + m - 1
  | .relativeMomentumIndex n m, _ => n + m - 1
  | .relativeStrengthIndex n, _ => n
  | .relativeVolatilityIndex n, _ => n + 8
  | .standardDeviation n, _ => n - 1
  | .stochasticMomentumIndex n s d, _ => n + s + d - 3
  | .stochasticOscillator k s d _, "%D" => k + s + d - 3
  | .stochasticOscillator k s _ _, _ => k + s - 2
  | .swingIndex, _ => 1
  | .timeSeriesForecast n, _ => n - 1
  | .tripleExponentialMovingAverage n, _ => 3 * n - 3
  | .typicalPrice _, _ => 0
  | .ultimateOscillator, _ => 28
  | .verticalHorizontalFilter n, _ => n
  | .volatilityChaikins n m, _ => n - 1 + m
  | .volumeOscillator long _, _ => long - 1
  | .volumeRateOfChange n, _ => n
  | .weightedClose, _ => 0
  | .wildersSmoothing n, _ => n - 1
  | .williamsAccumulationDistribution, _ => 1
  | .williamsR n, _ => n - 1

/-- The number of rows of indicator data without which there is no buy or sell signal. -/
def firstSignal : Ind → ℕ
  | .accumulationDistributionLine => 2
  | .averageTrueRange => 14
  | .bollingerBands n _ => n
  | .chaikinMoneyFlow n => max 3 (n + 1)
  | .chaikinOscillator => 90
  | .chandeMomentumOscillator n => n + 2
  | .commodityChannelIndex n => n
  | .detrendedPriceOscillator n => n - 1 - (1 + n / 2) + 2
  | .directionalMovementIndex => 41
  | .doubleExponentialMovingAverage n => 2 * n - 1
  | .easeOfMovement n => n + 2
  | .envelopes n _ => n
  | .fibonacciRetracement => 2
  | .forecastOscillator n => n + 2
  | .ichimokuCloud => 11
  | .intradayMomentumIndex n => n + 1
  | .klingerOscillator => 57
  | .linearRegressionIndicator n => n + 1
  | .linearRegressionSlope n => n + 1
  | .marketFacilitationIndex => 2
  | .massIndex => 42
  | .medianPrice n => n + 1
  | .momentum n => n + 10
  | .movingAverage n .triangular => 2 * n - 1
  | .movingAverage _ .variableType => 22
  | .movingAverage n _ => n
  | .movingAverageConvergenceDivergence => 27
  | .negativeVolumeIndex => 255
  | .onBalanceVolume => 3
  | .parabolicSAR => 2
  | .performance _ _ => 1
  | .positiveVolumeIndex => 256
  | .priceAndVolumeTrend => 3
  | .priceChannel n => n + 1
  | .priceOscillator long _ => long + 1
  | .priceRateOfChange n => n + 3
  | .projectionBands n => n
  | .projectionOscillator n => max 4 (n + 1)
  | .qstick n => n + 3
  | .rangeIndicator n m => n + m + 1
  | .relativeMomentumIndex n m => n + m + 1
  | .relativeStrengthIndex n => n + 2
  | .relativeVolatilityIndex n => n + 10
  | .standardDeviation n => n
  | .stochasticMomentumIndex n s d => n + s + d - 1
  | .stochasticOscillator k s _ _ => k + s
  | .swingIndex => 3
  | .timeSeriesForecast n => n + 1
  | .tripleExponentialMovingAverage n => 3 * n - 2
  | .typicalPrice n => n
  | .ultimateOscillator => 30
  | .verticalHorizontalFilter n => max 9 (n + 3)
  | .volatilityChaikins n m => n + m + 2
  | .volumeOscillator long _ => long + 2
  | .volumeRateOfChange n => n + 3
  | .weightedClose => 2
  | .wildersSmoothing n => n + 1
  | .williamsAccumulationDistribution => 30
  | .williamsR n => n + 1

/-- The classes whose values are numbers from day `warmUp` on, whatever the numbers in the data. -/
def alwaysNumbers : Ind → Prop
  | .averageTrueRange | .detrendedPriceOscillator _ | .doubleExponentialMovingAverage _ | .envelopes _ _
  | .fibonacciRetracement | .ichimokuCloud | .linearRegressionIndicator _ | .medianPrice _
  | .movingAverageConvergenceDivergence | .onBalanceVolume | .parabolicSAR | .priceChannel _ | .projectionBands _ | .qstick _
  | .rangeIndicator _ _ | .standardDeviation _ | .timeSeriesForecast _ | .tripleExponentialMovingAverage _ | .typicalPrice _
  | .volumeOscillator _ _ | .weightedClose | .wildersSmoothing _ | .williamsAccumulationDistribution => True
  | .bollingerBands _ s => ∃ q, s = .fin q
  | .linearRegressionSlope n => 2 ≤ n
  | .movingAverage _ t => t ≠ .variableType
  | _ => False

/-- A day of ordinary data: positive prices and volume, a close within the range of the day, and a range that is not empty. -/
def Ordinary (x : String → ℚ) : Prop :=
  0 < x "low" ∧ x "low" < x "high" ∧ x "low" ≤ x "close" ∧ x "close" ≤ x "high" ∧ 0 < x "volume"

/-- The columns that are numbers from day `warmUp` on if every day is ordinary: those that divide only by prices, volumes and
ranges. -/
def numbersIfOrdinary : Ind → String → Prop
  | .accumulationDistributionLine, _ | .chaikinMoneyFlow _, _ | .chaikinOscillator, _ | .easeOfMovement _, _
  | .forecastOscillator _, _ | .klingerOscillator, _ | .marketFacilitationIndex, _ | .massIndex, _ | .momentum _, _
  | .negativeVolumeIndex, _ | .positiveVolumeIndex, _ | .priceAndVolumeTrend, _ | .priceOscillator _ _, _
  | .priceRateOfChange _, _ | .stochasticMomentumIndex _ _ _, _ | .swingIndex, _ | .ultimateOscillator, _
  | .volatilityChaikins _ _, _ | .volumeRateOfChange _, _ | .williamsR _, _ => True
  | .stochasticOscillator _ _ _ simple, name => name = "%D" → simple = true
  | .directionalMovementIndex, name => name = "+di" ∨ name = "-di"
  | .performance _ target, name => name = "prf" ∨ ∃ q, target = .fin q
  | _, _ => False

end TTI.Spec
