import Verif.Model.Ind.All

set_option autoImplicit false

/-!
# What the documentation says about sizes

Tables, written down independently of the calculations: rows needed, columns delivered, rows delivered.
-/

namespace TTI.Spec

/-- The smallest number of rows on which the indicator can be built. -/
def minRows : Ind → ℕ
  | .accumulationDistributionLine => 1
  | .averageTrueRange => 14
  | .bollingerBands p _ => p
  | .chaikinMoneyFlow p => p
  | .chaikinOscillator => 10
  | .chandeMomentumOscillator p => p
  | .commodityChannelIndex p => p
  | .detrendedPriceOscillator p => p
  | .directionalMovementIndex => 28
  | .doubleExponentialMovingAverage p => p
  | .easeOfMovement p => max p 2
  | .envelopes p _ => p
  | .fibonacciRetracement => 1
  | .forecastOscillator p => p
  | .ichimokuCloud => 1
  | .intradayMomentumIndex p => p
  | .klingerOscillator => 55
  | .linearRegressionIndicator p => p
  | .linearRegressionSlope p => p
  | .marketFacilitationIndex => 1
  | .massIndex => 25
  | .medianPrice _ => 1
  | .momentum p => p
  | .movingAverage p t => if t = .variableType then 22 else p
  | .movingAverageConvergenceDivergence => 26
  | .negativeVolumeIndex => 2
  | .onBalanceVolume => 1
  | .parabolicSAR => 2
  | .performance _ _ => 1
  | .positiveVolumeIndex => 2
  | .priceAndVolumeTrend => 2
  | .priceChannel p => p
  | .priceOscillator long _ => long
  | .priceRateOfChange p => p
  | .projectionBands p => p
  | .projectionOscillator p => p
  | .qstick p => p
  | .rangeIndicator p s => max p s
  | .relativeMomentumIndex p m => p + m
  | .relativeStrengthIndex p => p + 1
  | .relativeVolatilityIndex p => p + 10
  | .standardDeviation p => p
  | .stochasticMomentumIndex p _ _ => p
  | .stochasticOscillator k _ _ _ => k
  | .swingIndex => 1
  | .timeSeriesForecast p => p
  | .tripleExponentialMovingAverage p => p
  | .typicalPrice _ => 1
  | .ultimateOscillator => 28
  | .verticalHorizontalFilter p => p
  | .volatilityChaikins e c => max e c
  | .volumeOscillator long _ => long
  | .volumeRateOfChange p => p
  | .weightedClose => 1
  | .wildersSmoothing p => p
  | .williamsAccumulationDistribution => 1
  | .williamsR p => p

/-- The number of rows the exception claims to be required: the minimum, except for the Average True Range. -/
def reportedRows : Ind → ℕ
  | .averageTrueRange => 2
  | i => minRows i

/-- The columns of the indicator data. -/
def columns : Ind → List String
  | .accumulationDistributionLine => ["adl"]
  | .averageTrueRange => ["atr"]
  | .bollingerBands _ _ => ["middle_band", "upper_band", "lower_band"]
  | .chaikinMoneyFlow _ => ["cmf"]
  | .chaikinOscillator => ["co"]
  | .chandeMomentumOscillator _ => ["cmo"]
  | .commodityChannelIndex _ => ["cci"]
  | .detrendedPriceOscillator _ => ["dpo"]
  | .directionalMovementIndex => ["+di", "-di", "dx", "adx", "adxr"]
  | .doubleExponentialMovingAverage _ => ["dema"]
  | .easeOfMovement _ => ["emv", "emv_ma"]
  | .envelopes _ _ => ["upper_band", "lower_band"]
  | .fibonacciRetracement => ["rl_0.0", "rl_23.6", "rl_38.2", "rl_50.0", "rl_61.8", "rl_100.0"]
  | .forecastOscillator _ => ["fosc"]
  | .ichimokuCloud => ["tenkan_sen", "kijun_sen", "senkou_a", "senkou_b"]
  | .intradayMomentumIndex _ => ["imi"]
  | .klingerOscillator => ["ko"]
  | .linearRegressionIndicator _ => ["lri"]
  | .linearRegressionSlope _ => ["lrs"]
  | .marketFacilitationIndex => ["mfi"]
  | .massIndex => ["mi"]
  | .medianPrice _ => ["mp"]
  | .momentum _ => ["mom"]
  | .movingAverage _ .simple => ["ma-simple"]
  | .movingAverage _ .exponential => ["ma-exponential"]
  | .movingAverage _ .timeSeries => ["ma-time_series"]
  | .movingAverage _ .triangular => ["ma-triangular"]
  | .movingAverage _ .variableType => ["ma-variable"]
  | .movingAverageConvergenceDivergence => ["macd", "signal_line"]
  | .negativeVolumeIndex => ["nvi"]
  | .onBalanceVolume => ["obv"]
  | .parabolicSAR => ["sar"]
  | .performance true _ => ["prf", "target_LONG"]
  | .performance false _ => ["prf", "target_SHORT"]
  | .positiveVolumeIndex => ["pvi"]
  | .priceAndVolumeTrend => ["pvt"]
  | .priceChannel _ => ["highest_high", "lowest_low"]
  | .priceOscillator _ _ => ["posc"]
  | .priceRateOfChange _ => ["prc"]
  | .projectionBands _ => ["upper_band", "lower_band"]
  | .projectionOscillator _ => ["posc", "trigger_line"]
  | .qstick _ => ["qstick"]
  | .rangeIndicator _ _ => ["ri"]
  | .relativeMomentumIndex _ _ => ["rmi"]
  | .relativeStrengthIndex _ => ["rsi"]
  | .relativeVolatilityIndex _ => ["rvi"]
  | .standardDeviation _ => ["sd"]
  | .stochasticMomentumIndex _ _ _ => ["smi"]
  | .stochasticOscillator _ _ _ _ => ["%K", "%D"]
  | .swingIndex => ["swi"]
  | .timeSeriesForecast _ => ["tsf"]
  | .tripleExponentialMovingAverage _ => ["tema"]
  | .typicalPrice _ => ["tp"]
  | .ultimateOscillator => ["uosc"]
  | .verticalHorizontalFilter _ => ["vhf"]
  | .volatilityChaikins _ _ => ["vch"]
  | .volumeOscillator _ _ => ["vosc"]
  | .volumeRateOfChange _ => ["vrc"]
  | .weightedClose => ["wc"]
  | .wildersSmoothing _ => ["ws"]
  | .williamsAccumulationDistribution => ["wad"]
  | .williamsR _ => ["wr"]

/-- The number of rows of the indicator data for `n` input rows. -/
def rowsOut (n : ℕ) : Ind → ℕ
  | .detrendedPriceOscillator p => n - (1 + p / 2)
  | _ => n

/-- The indicators whose value of a day depends on that day and earlier days only. -/
def Causal : Ind → Prop
  | .detrendedPriceOscillator _ | .fibonacciRetracement | .accumulationDistributionLine | .chaikinOscillator => False
  | _ => True

/-- The indicators that build another indicator (which fills missing values) on their own input. -/
def Nested : Ind → Prop
  | .timeSeriesForecast _ | .forecastOscillator _ | .projectionOscillator _ => True
  | .movingAverage _ .timeSeries | .movingAverage _ .variableType => True
  | _ => False

end TTI.Spec
