import Verif.Model.Bind

set_option autoImplicit false

/-!
# What the documentation says about default values, and what a call means
-/

namespace TTI.Spec

/-- The default values the docstrings of the classes tell (classes not listed have no parameters). -/
def documented : List (String × List (String × PyArg)) := [
  ("BollingerBands", [("period", .int 20), ("std_number", .int 2)]), -- `_bollinger_bands.py:27,30`
  ("ChaikinMoneyFlow", [("period", .int 5)]), -- `_chaikin_money_flow.py:28`
  ("ChandeMomentumOscillator", [("period", .int 5)]), -- `_chande_momentum_oscillator.py:27`
  ("CommodityChannelIndex", [("period", .int 5)]), -- `_commodity_channel_index.py:28`
  ("DetrendedPriceOscillator", [("period", .int 6)]), -- `_detrended_price_oscillator.py:27`
  ("DoubleExponentialMovingAverage", [("period", .int 5)]), -- `_double_exponential_moving_average.py:27`
  ("EaseOfMovement", [("period", .int 40)]), -- `_ease_of_movement.py:28`
  ("Envelopes", [("period", .int 20), ("shift", .float (.fin (1 / 10)))]), -- `_envelopes.py:27,30`
  ("ForecastOscillator", [("period", .int 14)]), -- `_forecast_oscillator.py:28`
  ("IntradayMomentumIndex", [("period", .int 14)]), -- `_intraday_momentum_index.py:28`
  ("LinearRegressionIndicator", [("period", .int 14)]), -- `_linear_regression_indicator.py:30`
  ("LinearRegressionSlope", [("period", .int 14)]), -- `_linear_regression_slope.py:27`
  ("MedianPrice", [("period", .int 20)]), -- `_median_price.py:24`
  ("Momentum", [("period", .int 12)]), -- `_momentum.py:27`
  ("MovingAverage", [("period", .int 20), ("ma_type", .str "simple")]), -- `_moving_average.py:31,37`
  ("Performance", [("mode", .str "LONG"), ("target", .float (.fin (1 / 20)))]), -- `_performance.py:23,27`
  ("PriceChannel", [("period", .int 5)]), -- `_price_channel.py:28`
  ("PriceOscillator", [("long_ma", .int 30), ("short_ma", .int 10)]), -- `_price_oscillator.py:25,28`
  ("PriceRateOfChange", [("period", .int 25)]), -- `_price_rate_of_change.py:27`
  ("ProjectionBands", [("period", .int 14)]), -- `_projection_bands.py:31`
  ("ProjectionOscillator", [("period", .int 14)]), -- `_projection_oscillator.py:29`
  ("Qstick", [("period", .int 8)]), -- `_qstick.py:28`
  ("RangeIndicator", [("range_period", .int 5), ("smoothing_period", .int 3)]), -- `_range_indicator.py:28,31`
  ("RelativeMomentumIndex", [("period", .int 8), ("momentum_period", .int 4)]), -- `_relative_momentum_index.py:27,30`
  ("RelativeStrengthIndex", [("period", .int 14)]), -- `_relative_strength_index.py:27`
  ("RelativeVolatilityIndex", [("period", .int 5)]), -- `_relative_volatility_index.py:28`
  ("StandardDeviation", [("period", .int 20)]), -- `_standard_deviation.py:25`
  ("StochasticMomentumIndex", [("period", .int 5), ("smoothing_period", .int 3), ("double_smoothing_period", .int 3)]), -- `_stochastic_momentum_index.py:28,31,34`
  ("StochasticOscillator", [("k_periods", .int 14), ("k_slowing_periods", .int 1), ("d_periods", .int 3), ("d_method", .str "simple")]), -- `_stochastic_oscillator.py:28,31,36,39`
  ("TimeSeriesForecast", [("period", .int 14)]), -- `_time_series_forecast.py:29`
  ("TripleExponentialMovingAverage", [("period", .int 5)]), -- `_triple_exponential_moving_average.py:27`
  ("TypicalPrice", [("period", .int 200)]), -- `_typical_price.py:24`
  ("VerticalHorizontalFilter", [("period", .int 5)]), -- `_vertical_horizontal_filter.py:29`
  ("VolatilityChaikins", [("ema_period", .int 10), ("change_period", .int 10)]), -- `_volatility_chaikins.py:28,32`
  ("VolumeOscillator", [("long_period", .int 5), ("short_period", .int 2)]), -- `_volume_oscillator.py:27,30`
  ("VolumeRateOfChange", [("period", .int 5)]), -- `_volume_rate_of_change.py:27`
  ("WildersSmoothing", [("period", .int 5)]), -- `_wilders_smoothing.py:27`
  ("WilliamsR", [("period", .int 5)]) -- `_williams_r.py:29`
]

/-- The value that a call with the arguments `pos` by position and `kw` by keyword gives to parameter number `i`. -/
def Gives (params : List (String × Option Arg)) (pos : List Arg) (kw : List (String × Arg)) (i : ℕ) (v : Arg) : Prop :=
  ∃ name dflt, params[i]? = some (name, dflt) ∧
    (pos[i]? = some v ∨
      (pos.length ≤ i ∧ ((name, v) ∈ kw ∨ ((∀ w, (name, w) ∉ kw) ∧ dflt = some v))))

/-- The call is well formed: not too many arguments by position, no unknown keyword, no parameter given twice, and none
without a value. -/
structure WellFormed (params : List (String × Option Arg)) (pos : List Arg) (kw : List (String × Arg)) : Prop where
  few : pos.length ≤ params.length
  known : ∀ k v, (k, v) ∈ kw → ∃ i d, params[i]? = some (k, d) ∧ pos.length ≤ i
  once : (kw.map (·.1)).Nodup
  all : ∀ i, i < params.length → ∃ v, Gives params pos kw i v

end TTI.Spec
