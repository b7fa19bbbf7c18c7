import Verif.Model.Ind.All

set_option autoImplicit false

/-!
# Constructor arguments of the indicators

Each `__init__` checks its own parameters before it hands over to the base class. Simplification: a `bool` passes as an
`int` (1 or 0), as in the code; pandas itself later refuses a `bool` as a window length, which is not modelled.
-/

namespace TTI

/-- The check `isinstance(x, int)` and `x > bound`. -/
def intAbove (bound : ℤ) (a : PyArg) : Except Err ℕ :=
  match a.asInt with
  | some n => if bound < n then .ok n.toNat else .error .wrongValue
  | none => .error .wrongType

/-- `isinstance(std_number, (int, float))` and `std_number > 0.0` (`_bollinger_bands.py:65-71`). -/
def checkStdNumber (a : PyArg) : Except Err Val :=
  match a.asNumber with
  | some v => if (0 : Val) <ᵥ v then .ok v else .error .wrongValue
  | none => .error .wrongType

/-- `isinstance(shift, float)` and `1.0 > shift > 0.0` (`_envelopes.py:64-70`). -/
def checkShift (a : PyArg) : Except Err ℚ :=
  match a with
  | .float (.fin q) => if q < 1 ∧ 0 < q then .ok q else .error .wrongValue
  | .float _ => .error .wrongValue
  | _ => .error .wrongType

/-- `isinstance(ma_type, str)` and membership in the list (`_moving_average.py:75-85`). -/
def checkMaType (a : PyArg) : Except Err Ind.MaType :=
  match a with
  | .str s =>
    if s = "simple" then .ok .simple
    else if s = "exponential" then .ok .exponential
    else if s = "time_series" then .ok .timeSeries
    else if s = "triangular" then .ok .triangular
    else if s = "variable" then .ok .variableType
    else .error .wrongValue
  | _ => .error .wrongType

/-- `_moving_average.py:64-73`. -/
def checkMaPeriod (period maType : PyArg) : Except Err ℕ :=
  match period.asInt with
  | some n =>
    if maType = .str "time_series" ∧ n < 2 then .error .wrongValue
    else if 0 < n then .ok n.toNat
    else .error .wrongValue
  | none => .error .wrongType

/-- `_performance.py:57-63`: `true` is LONG. -/
def checkMode (a : PyArg) : Except Err Bool :=
  match a with
  | .str s => if s = "LONG" then .ok true else if s = "SHORT" then .ok false else .error .wrongValue
  | _ => .error .wrongType

/-- `_performance.py:65-74`. -/
def checkTarget (long : Bool) (a : PyArg) : Except Err Val :=
  match a.asNumber with
  | some v => if (long && (0 : Val) ≤ᵥ v) || (!long && v ≤ᵥ 0) then .ok v else .error .wrongValue
  | none => .error .wrongType

/-- `_stochastic_oscillator.py:84-90`. -/
def checkSlowing (a : PyArg) : Except Err ℕ :=
  match a.asInt with
  | some n => if n = 1 ∨ n = 3 then .ok n.toNat else .error .wrongValue
  | none => .error .wrongType

/-- `_stochastic_oscillator.py:100-106`: `true` is "simple". -/
def checkMethod (a : PyArg) : Except Err Bool :=
  match a with
  | .str s => if s = "simple" then .ok true else if s = "exponential" then .ok false else .error .wrongValue
  | _ => .error .wrongType

/-- A constructor call: the class and the arguments other than `input_data` and `fill_missing_values`. -/
inductive Call where
  | accumulationDistributionLine
  | averageTrueRange
  | bollingerBands (period : PyArg) (stdNumber : PyArg)
  | chaikinMoneyFlow (period : PyArg)
  | chaikinOscillator
  | chandeMomentumOscillator (period : PyArg)
  | commodityChannelIndex (period : PyArg)
  | detrendedPriceOscillator (period : PyArg)
  | directionalMovementIndex
  | doubleExponentialMovingAverage (period : PyArg)
  | easeOfMovement (period : PyArg)
  | envelopes (period : PyArg) (shiftBy : PyArg)
  | fibonacciRetracement
  | forecastOscillator (period : PyArg)
  | ichimokuCloud
  | intradayMomentumIndex (period : PyArg)
  | klingerOscillator
  | linearRegressionIndicator (period : PyArg)
  | linearRegressionSlope (period : PyArg)
  | marketFacilitationIndex
  | massIndex
  | medianPrice (period : PyArg)
  | momentum (period : PyArg)
  | movingAverage (period : PyArg) (maType : PyArg)
  | movingAverageConvergenceDivergence
  | negativeVolumeIndex
  | onBalanceVolume
  | parabolicSAR
  | performance (long : PyArg) (target : PyArg)
  | positiveVolumeIndex
  | priceAndVolumeTrend
  | priceChannel (period : PyArg)
  | priceOscillator (longMa : PyArg) (shortMa : PyArg)
  | priceRateOfChange (period : PyArg)
  | projectionBands (period : PyArg)
  | projectionOscillator (period : PyArg)
  | qstick (period : PyArg)
  | rangeIndicator (rangePeriod : PyArg) (smoothingPeriod : PyArg)
  | relativeMomentumIndex (period : PyArg) (momentumPeriod : PyArg)
  | relativeStrengthIndex (period : PyArg)
  | relativeVolatilityIndex (period : PyArg)
  | standardDeviation (period : PyArg)
  | stochasticMomentumIndex (period : PyArg) (smoothing : PyArg) (doubleSmoothing : PyArg)
  | stochasticOscillator (k : PyArg) (slowing : PyArg) (d : PyArg) (simple : PyArg)
  | swingIndex
  | timeSeriesForecast (period : PyArg)
  | tripleExponentialMovingAverage (period : PyArg)
  | typicalPrice (period : PyArg)
  | ultimateOscillator
  | verticalHorizontalFilter (period : PyArg)
  | volatilityChaikins (emaPeriod : PyArg) (changePeriod : PyArg)
  | volumeOscillator (longPeriod : PyArg) (shortPeriod : PyArg)
  | volumeRateOfChange (period : PyArg)
  | weightedClose
  | wildersSmoothing (period : PyArg)
  | williamsAccumulationDistribution
  | williamsR (period : PyArg)
  deriving DecidableEq

/-- The parameter checks of the class (file and lines at the entries). -/
def Call.check : Call → Except Err Ind
  -- `_accumulation_distribution_line.py:44-45`
  | .accumulationDistributionLine => .ok .accumulationDistributionLine
  -- `_average_true_range.py:45-46`
  | .averageTrueRange => .ok .averageTrueRange
  -- `_bollinger_bands.py:55-73`
  | .bollingerBands period stdNumber => do
    let p ← intAbove 0 period
    let s ← checkStdNumber stdNumber
    return .bollingerBands p s
  -- `_chaikin_money_flow.py:52-62`
  | .chaikinMoneyFlow period => do
    let period ← intAbove 0 period
    return .chaikinMoneyFlow period
  -- `_chaikin_oscillator.py:46-47`
  | .chaikinOscillator => .ok .chaikinOscillator
  -- `_chande_momentum_oscillator.py:51-61`
  | .chandeMomentumOscillator period => do
    let period ← intAbove 0 period
    return .chandeMomentumOscillator period
  -- `_commodity_channel_index.py:52-62`
  | .commodityChannelIndex period => do
    let period ← intAbove 0 period
    return .commodityChannelIndex period
  -- `_detrended_price_oscillator.py:51-61`
  | .detrendedPriceOscillator period => do
    let period ← intAbove 0 period
    return .detrendedPriceOscillator period
  -- `_directional_movement_index.py:47-48`
  | .directionalMovementIndex => .ok .directionalMovementIndex
  -- `_double_exponential_moving_average.py:51-61`
  | .doubleExponentialMovingAverage period => do
    let period ← intAbove 0 period
    return .doubleExponentialMovingAverage period
  -- `_ease_of_movement.py:53-63`
  | .easeOfMovement period => do
    let period ← intAbove 0 period
    return .easeOfMovement period
  -- `_envelopes.py:54-72`
  | .envelopes period shiftBy => do
    let p ← intAbove 0 period
    let s ← checkShift shiftBy
    return .envelopes p s
  -- `_fibonacci_retracement.py:45-46`
  | .fibonacciRetracement => .ok .fibonacciRetracement
  -- `_forecast_oscillator.py:52-62`
  | .forecastOscillator period => do
    let period ← intAbove 1 period
    return .forecastOscillator period
  -- `_ichimoku_cloud.py:45-46`
  | .ichimokuCloud => .ok .ichimokuCloud
  -- `_intraday_momentum_index.py:52-62`
  | .intradayMomentumIndex period => do
    let period ← intAbove 0 period
    return .intradayMomentumIndex period
  -- `_klinger_oscillator.py:45-46`
  | .klingerOscillator => .ok .klingerOscillator
  -- `_linear_regression_indicator.py:54-64`
  | .linearRegressionIndicator period => do
    let period ← intAbove 1 period
    return .linearRegressionIndicator period
  -- `_linear_regression_slope.py:51-61`
  | .linearRegressionSlope period => do
    let period ← intAbove 0 period
    return .linearRegressionSlope period
  -- `_market_facilitation_index.py:44-45`
  | .marketFacilitationIndex => .ok .marketFacilitationIndex
  -- `_mass_index.py:45-46`
  | .massIndex => .ok .massIndex
  -- `_median_price.py:48-58`
  | .medianPrice period => do
    let period ← intAbove 0 period
    return .medianPrice period
  -- `_momentum.py:51-61`
  | .momentum period => do
    let period ← intAbove 0 period
    return .momentum period
  -- `_moving_average.py:62-87`
  | .movingAverage period maType => do
    let p ← checkMaPeriod period maType
    let t ← checkMaType maType
    return .movingAverage p t
  -- `_moving_average_convergence_divergence.py:46-47`
  | .movingAverageConvergenceDivergence => .ok .movingAverageConvergenceDivergence
  -- `_negative_volume_index.py:45-46`
  | .negativeVolumeIndex => .ok .negativeVolumeIndex
  -- `_on_balance_volume.py:44-45`
  | .onBalanceVolume => .ok .onBalanceVolume
  -- `_parabolic_sar.py:45-51`
  | .parabolicSAR => .ok .parabolicSAR
  -- `_performance.py:55-76`
  | .performance long target => do
    let m ← checkMode long
    let t ← checkTarget m target
    return .performance m t
  -- `_positive_volume_index.py:45-46`
  | .positiveVolumeIndex => .ok .positiveVolumeIndex
  -- `_price_and_volume_trend.py:45-46`
  | .priceAndVolumeTrend => .ok .priceAndVolumeTrend
  -- `_price_channel.py:53-63`
  | .priceChannel period => do
    let period ← intAbove 0 period
    return .priceChannel period
  -- `_price_oscillator.py:52-73`
  | .priceOscillator longMa shortMa => do
    let l ← intAbove 0 longMa
    let s ← intAbove 0 shortMa
    if l ≤ s then throw .wrongValue
    return .priceOscillator l s
  -- `_price_rate_of_change.py:51-61`
  | .priceRateOfChange period => do
    let period ← intAbove 0 period
    return .priceRateOfChange period
  -- `_projection_bands.py:56-66`
  | .projectionBands period => do
    let period ← intAbove 1 period
    return .projectionBands period
  -- `_projection_oscillator.py:54-64`
  | .projectionOscillator period => do
    let period ← intAbove 1 period
    return .projectionOscillator period
  -- `_qstick.py:52-62`
  | .qstick period => do
    let period ← intAbove 0 period
    return .qstick period
  -- `_range_indicator.py:55-73`
  | .rangeIndicator rangePeriod smoothingPeriod => do
    let rangePeriod ← intAbove 0 rangePeriod
    let smoothingPeriod ← intAbove 0 smoothingPeriod
    return .rangeIndicator rangePeriod smoothingPeriod
  -- `_relative_momentum_index.py:54-72`
  | .relativeMomentumIndex period momentumPeriod => do
    let period ← intAbove 0 period
    let momentumPeriod ← intAbove 0 momentumPeriod
    return .relativeMomentumIndex period momentumPeriod
  -- `_relative_strength_index.py:51-61`
  | .relativeStrengthIndex period => do
    let period ← intAbove 0 period
    return .relativeStrengthIndex period
  -- `_relative_volatility_index.py:52-62`
  | .relativeVolatilityIndex period => do
    let period ← intAbove 0 period
    return .relativeVolatilityIndex period
  -- `_standard_deviation.py:49-59`
  | .standardDeviation period => do
    let period ← intAbove 0 period
    return .standardDeviation period
  -- `_stochastic_momentum_index.py:58-95`
  | .stochasticMomentumIndex period smoothing doubleSmoothing => do
    let period ← intAbove 0 period
    let smoothing ← intAbove 0 smoothing
    let doubleSmoothing ← intAbove 0 doubleSmoothing
    return .stochasticMomentumIndex period smoothing doubleSmoothing
  -- `_stochastic_oscillator.py:66-108`
  | .stochasticOscillator k slowing d simple => do
    let kp ← intAbove 0 k
    let sp ← checkSlowing slowing
    let dp ← intAbove 0 d
    let m ← checkMethod simple
    return .stochasticOscillator kp sp dp m
  -- `_swing_index.py:44-45`
  | .swingIndex => .ok .swingIndex
  -- `_time_series_forecast.py:53-63`
  | .timeSeriesForecast period => do
    let period ← intAbove 1 period
    return .timeSeriesForecast period
  -- `_triple_exponential_moving_average.py:51-61`
  | .tripleExponentialMovingAverage period => do
    let period ← intAbove 0 period
    return .tripleExponentialMovingAverage period
  -- `_typical_price.py:48-58`
  | .typicalPrice period => do
    let period ← intAbove 0 period
    return .typicalPrice period
  -- `_ultimate_oscillator.py:45-46`
  | .ultimateOscillator => .ok .ultimateOscillator
  -- `_vertical_horizontal_filter.py:53-63`
  | .verticalHorizontalFilter period => do
    let period ← intAbove 0 period
    return .verticalHorizontalFilter period
  -- `_volatility_chaikins.py:57-75`
  | .volatilityChaikins emaPeriod changePeriod => do
    let emaPeriod ← intAbove 0 emaPeriod
    let changePeriod ← intAbove 0 changePeriod
    return .volatilityChaikins emaPeriod changePeriod
  -- `_volume_oscillator.py:54-77`
  | .volumeOscillator longPeriod shortPeriod => do
    let l ← intAbove 0 longPeriod
    let s ← intAbove 0 shortPeriod
    if l ≤ s then throw .wrongValue
    return .volumeOscillator l s
  -- `_volume_rate_of_change.py:51-61`
  | .volumeRateOfChange period => do
    let period ← intAbove 0 period
    return .volumeRateOfChange period
  -- `_weighted_close.py:44-45`
  | .weightedClose => .ok .weightedClose
  -- `_wilders_smoothing.py:51-61`
  | .wildersSmoothing period => do
    let period ← intAbove 0 period
    return .wildersSmoothing period
  -- `_williams_accumulation_distribution.py:45-46`
  | .williamsAccumulationDistribution => .ok .williamsAccumulationDistribution
  -- `_williams_r.py:53-63`
  | .williamsR period => do
    let period ← intAbove 0 period
    return .williamsR period

end TTI
