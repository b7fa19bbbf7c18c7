import Verif.Model.Plot

set_option autoImplicit false

/-!
# Calling a class (`Class(data, ...)`)

How Python turns the arguments of a call into the arguments of the constructor: arguments by position first, then by
keyword, then the default values of the signature. A repeated keyword (which Python refuses before the call) is a
`TypeError` here.
-/

namespace TTI

/-- What a caller passes: data or a parameter. -/
inductive Arg where
  | data (d : InputArg)
  | param (a : PyArg)

/-- The argument used as `input_data`: a parameter is no data frame. -/
def Arg.asData : Arg → InputArg
  | .data d => d
  | .param _ => .notFrame

/-- The argument used as a parameter: data is none of the types the checks know. -/
def Arg.asParam : Arg → PyArg
  | .data _ => .other
  | .param a => a

/-- The keyword arguments after `input_data` and before `fill_missing_values` with their default values, and the call they
make. -/
structure Sig where
  cls : String
  params : List (String × PyArg)
  make : List PyArg → Option Call

/-- The signatures of the `__init__` methods. -/
def signatures : List Sig := [
  -- `_accumulation_distribution_line.py:44-45`
  ⟨"AccumulationDistributionLine", [], fun | [] => some .accumulationDistributionLine | _ => none⟩,
  -- `_average_true_range.py:45-46`
  ⟨"AverageTrueRange", [], fun | [] => some .averageTrueRange | _ => none⟩,
  -- `_bollinger_bands.py:55-56`
  ⟨"BollingerBands", [("period", .int 20), ("std_number", .int 2)], fun | [a, b] => some (.bollingerBands a b) | _ => none⟩,
  -- `_chaikin_money_flow.py:52-53`
  ⟨"ChaikinMoneyFlow", [("period", .int 5)], fun | [a] => some (.chaikinMoneyFlow a) | _ => none⟩,
  -- `_chaikin_oscillator.py:46-47`
  ⟨"ChaikinOscillator", [], fun | [] => some .chaikinOscillator | _ => none⟩,
  -- `_chande_momentum_oscillator.py:51-52`
  ⟨"ChandeMomentumOscillator", [("period", .int 5)], fun | [a] => some (.chandeMomentumOscillator a) | _ => none⟩,
  -- `_commodity_channel_index.py:52-53`
  ⟨"CommodityChannelIndex", [("period", .int 5)], fun | [a] => some (.commodityChannelIndex a) | _ => none⟩,
  -- `_detrended_price_oscillator.py:51-52`
  ⟨"DetrendedPriceOscillator", [("period", .int 6)], fun | [a] => some (.detrendedPriceOscillator a) | _ => none⟩,
  -- `_directional_movement_index.py:47-48`
  ⟨"DirectionalMovementIndex", [], fun | [] => some .directionalMovementIndex | _ => none⟩,
  -- `_double_exponential_moving_average.py:51-52`
  ⟨"DoubleExponentialMovingAverage", [("period", .int 5)], fun | [a] => some (.doubleExponentialMovingAverage a) | _ => none⟩,
  -- `_ease_of_movement.py:53-54`
  ⟨"EaseOfMovement", [("period", .int 40)], fun | [a] => some (.easeOfMovement a) | _ => none⟩,
  -- `_envelopes.py:54-55`
  ⟨"Envelopes", [("period", .int 20), ("shift", .float (.fin (1 / 10)))], fun | [a, b] => some (.envelopes a b) | _ => none⟩,
  -- `_fibonacci_retracement.py:45-46`
  ⟨"FibonacciRetracement", [], fun | [] => some .fibonacciRetracement | _ => none⟩,
  -- `_forecast_oscillator.py:52-53`
  ⟨"ForecastOscillator", [("period", .int 14)], fun | [a] => some (.forecastOscillator a) | _ => none⟩,
  -- `_ichimoku_cloud.py:45-46`
  ⟨"IchimokuCloud", [], fun | [] => some .ichimokuCloud | _ => none⟩,
  -- `_intraday_momentum_index.py:52-53`
  ⟨"IntradayMomentumIndex", [("period", .int 14)], fun | [a] => some (.intradayMomentumIndex a) | _ => none⟩,
  -- `_klinger_oscillator.py:45-46`
  ⟨"KlingerOscillator", [], fun | [] => some .klingerOscillator | _ => none⟩,
  -- `_linear_regression_indicator.py:54-55`
  ⟨"LinearRegressionIndicator", [("period", .int 14)], fun | [a] => some (.linearRegressionIndicator a) | _ => none⟩,
  -- `_linear_regression_slope.py:51-52`
  ⟨"LinearRegressionSlope", [("period", .int 14)], fun | [a] => some (.linearRegressionSlope a) | _ => none⟩,
  -- `_market_facilitation_index.py:44-45`
  ⟨"MarketFacilitationIndex", [], fun | [] => some .marketFacilitationIndex | _ => none⟩,
  -- `_mass_index.py:45-46`
  ⟨"MassIndex", [], fun | [] => some .massIndex | _ => none⟩,
  -- `_median_price.py:48-49`
  ⟨"MedianPrice", [("period", .int 20)], fun | [a] => some (.medianPrice a) | _ => none⟩,
  -- `_momentum.py:51-52`
  ⟨"Momentum", [("period", .int 12)], fun | [a] => some (.momentum a) | _ => none⟩,
  -- `_moving_average.py:62-63`
  ⟨"MovingAverage", [("period", .int 20), ("ma_type", .str "simple")], fun | [a, b] => some (.movingAverage a b) | _ => none⟩,
  -- `_moving_average_convergence_divergence.py:46-47`
  ⟨"MovingAverageConvergenceDivergence", [], fun | [] => some .movingAverageConvergenceDivergence | _ => none⟩,
  -- `_negative_volume_index.py:45-46`
  ⟨"NegativeVolumeIndex", [], fun | [] => some .negativeVolumeIndex | _ => none⟩,
  -- `_on_balance_volume.py:44-45`
  ⟨"OnBalanceVolume", [], fun | [] => some .onBalanceVolume | _ => none⟩,
  -- `_parabolic_sar.py:45-47`
  ⟨"ParabolicSAR", [], fun | [] => some .parabolicSAR | _ => none⟩,
  -- `_performance.py:55-56`
  ⟨"Performance", [("mode", .str "LONG"), ("target", .float (.fin (1 / 20)))], fun | [a, b] => some (.performance a b) | _ => none⟩,
  -- `_positive_volume_index.py:45-46`
  ⟨"PositiveVolumeIndex", [], fun | [] => some .positiveVolumeIndex | _ => none⟩,
  -- `_price_and_volume_trend.py:45-46`
  ⟨"PriceAndVolumeTrend", [], fun | [] => some .priceAndVolumeTrend | _ => none⟩,
  -- `_price_channel.py:53-54`
  ⟨"PriceChannel", [("period", .int 5)], fun | [a] => some (.priceChannel a) | _ => none⟩,
  -- `_price_oscillator.py:52-53`
  ⟨"PriceOscillator", [("long_ma", .int 30), ("short_ma", .int 10)], fun | [a, b] => some (.priceOscillator a b) | _ => none⟩,
  -- `_price_rate_of_change.py:51-52`
  ⟨"PriceRateOfChange", [("period", .int 25)], fun | [a] => some (.priceRateOfChange a) | _ => none⟩,
  -- `_projection_bands.py:56-57`
  ⟨"ProjectionBands", [("period", .int 14)], fun | [a] => some (.projectionBands a) | _ => none⟩,
  -- `_projection_oscillator.py:54-55`
  ⟨"ProjectionOscillator", [("period", .int 14)], fun | [a] => some (.projectionOscillator a) | _ => none⟩,
  -- `_qstick.py:52-53`
  ⟨"Qstick", [("period", .int 8)], fun | [a] => some (.qstick a) | _ => none⟩,
  -- `_range_indicator.py:55-56`
  ⟨"RangeIndicator", [("range_period", .int 5), ("smoothing_period", .int 3)], fun | [a, b] => some (.rangeIndicator a b) | _ => none⟩,
  -- `_relative_momentum_index.py:54-55`
  ⟨"RelativeMomentumIndex", [("period", .int 8), ("momentum_period", .int 4)], fun | [a, b] => some (.relativeMomentumIndex a b) | _ => none⟩,
  -- `_relative_strength_index.py:51-52`
  ⟨"RelativeStrengthIndex", [("period", .int 14)], fun | [a] => some (.relativeStrengthIndex a) | _ => none⟩,
  -- `_relative_volatility_index.py:52-53`
  ⟨"RelativeVolatilityIndex", [("period", .int 5)], fun | [a] => some (.relativeVolatilityIndex a) | _ => none⟩,
  -- `_standard_deviation.py:49-50`
  ⟨"StandardDeviation", [("period", .int 20)], fun | [a] => some (.standardDeviation a) | _ => none⟩,
  -- `_stochastic_momentum_index.py:58-66`
  ⟨"StochasticMomentumIndex", [("period", .int 5), ("smoothing_period", .int 3), ("double_smoothing_period", .int 3)], fun | [a, b, c] => some (.stochasticMomentumIndex a b c) | _ => none⟩,
  -- `_stochastic_oscillator.py:66-75`
  ⟨"StochasticOscillator", [("k_periods", .int 14), ("k_slowing_periods", .int 1), ("d_periods", .int 3), ("d_method", .str "simple")], fun | [a, b, c, d] => some (.stochasticOscillator a b c d) | _ => none⟩,
  -- `_swing_index.py:44-45`
  ⟨"SwingIndex", [], fun | [] => some .swingIndex | _ => none⟩,
  -- `_time_series_forecast.py:53-54`
  ⟨"TimeSeriesForecast", [("period", .int 14)], fun | [a] => some (.timeSeriesForecast a) | _ => none⟩,
  -- `_triple_exponential_moving_average.py:51-52`
  ⟨"TripleExponentialMovingAverage", [("period", .int 5)], fun | [a] => some (.tripleExponentialMovingAverage a) | _ => none⟩,
  -- `_typical_price.py:48-49`
  ⟨"TypicalPrice", [("period", .int 200)], fun | [a] => some (.typicalPrice a) | _ => none⟩,
  -- `_ultimate_oscillator.py:45-46`
  ⟨"UltimateOscillator", [], fun | [] => some .ultimateOscillator | _ => none⟩,
  -- `_vertical_horizontal_filter.py:53-54`
  ⟨"VerticalHorizontalFilter", [("period", .int 5)], fun | [a] => some (.verticalHorizontalFilter a) | _ => none⟩,
  -- `_volatility_chaikins.py:57-58`
  ⟨"VolatilityChaikins", [("ema_period", .int 10), ("change_period", .int 10)], fun | [a, b] => some (.volatilityChaikins a b) | _ => none⟩,
  -- `_volume_oscillator.py:54-55`
  ⟨"VolumeOscillator", [("long_period", .int 5), ("short_period", .int 2)], fun | [a, b] => some (.volumeOscillator a b) | _ => none⟩,
  -- `_volume_rate_of_change.py:51-52`
  ⟨"VolumeRateOfChange", [("period", .int 5)], fun | [a] => some (.volumeRateOfChange a) | _ => none⟩,
  -- `_weighted_close.py:44-45`
  ⟨"WeightedClose", [], fun | [] => some .weightedClose | _ => none⟩,
  -- `_wilders_smoothing.py:51-52`
  ⟨"WildersSmoothing", [("period", .int 5)], fun | [a] => some (.wildersSmoothing a) | _ => none⟩,
  -- `_williams_accumulation_distribution.py:45-46`
  ⟨"WilliamsAccumulationDistribution", [], fun | [] => some .williamsAccumulationDistribution | _ => none⟩,
  -- `_williams_r.py:53-54`
  ⟨"WilliamsR", [("period", .int 5)], fun | [a] => some (.williamsR a) | _ => none⟩
]

/-- All parameters of the constructor; `input_data` has no default value, `fill_missing_values` is `True` by default. -/
def Sig.all (s : Sig) : List (String × Option Arg) :=
  ("input_data", none) :: (s.params.map fun p => (p.1, some (.param p.2))) ++ [("fill_missing_values", some (.param (.bool true)))]

/-- The values of the parameters (Python's calling convention). -/
def bindFrom (kw : List (String × Arg)) : List (String × Option Arg) → List Arg → Except Err (List Arg)
  | [], [] => .ok []
  | [], _ :: _ => .error .typeError
  | (name, _) :: ps, v :: pos =>
    if name ∈ kw.map (·.1) then .error .typeError
    else
      match bindFrom kw ps pos with
      | .ok vs => .ok (v :: vs)
      | .error e => .error e
  | (name, dflt) :: ps, [] =>
    match (kw.lookup name).or dflt with
    | some v =>
      match bindFrom kw ps [] with
      | .ok vs => .ok (v :: vs)
      | .error e => .error e
    | none => .error .typeError

/-- The whole binding: no unknown and no repeated keyword. -/
def bindArgs (params : List (String × Option Arg)) (pos : List Arg) (kw : List (String × Arg)) : Except Err (List Arg) :=
  if (∀ k ∈ kw.map (·.1), k ∈ params.map (·.1)) ∧ (kw.map (·.1)).Nodup then bindFrom kw params pos
  else .error .typeError

/-- What the call of the class `cls` of `tti.indicators` with the given arguments amounts to: the constructor with its parameters,
the data and `fill_missing_values`. -/
def resolveCall (cls : String) (pos : List Arg) (kw : List (String × Arg)) : Except Err (Call × InputArg × PyArg) :=
  match signatures.find? (·.cls = cls) with
  | none => .error .attributeError
  | some s =>
    match bindArgs s.all pos kw with
    | .error e => .error e
    | .ok vs =>
      match vs with
      | [] => .error .typeError
      | d :: vs =>
        match s.make ((vs.take s.params.length).map Arg.asParam), (vs.drop s.params.length).head? with
        | some c, some fill => .ok (c, d.asData, fill.asParam)
        | _, _ => .error .typeError

/-- The call of the class `cls` of `tti.indicators` with the given arguments. The result is what `construct` gives. -/
def callClass (E : Env) (cls : String) (pos : List Arg) (kw : List (String × Arg)) : Except Err Obj :=
  match resolveCall cls pos kw with
  | .error e => .error e
  | .ok (c, d, fill) => (construct E c d fill).2

end TTI
