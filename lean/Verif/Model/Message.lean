import Verif.Model.Plot

set_option autoImplicit false

/-!
# Exception messages

The texts of the exceptions (`tti/utils/exceptions.py`) and the arguments with which they are raised. What Python prints for
objects the model does not describe (floats, foreign objects, types and dtypes) is a parameter, `Texts`.
-/

namespace TTI

/-- What Python prints for the things the model does not describe. -/
structure Texts where
  /-- `str(x)` of a float -/
  float : Val → String
  /-- `str(x)` of an object that is no int, float, bool, str or `None` -/
  other : String
  /-- `str(type(x))` of such an object -/
  otherType : String
  /-- `str(type(input_data))` of something that is no `DataFrame` -/
  dataType : String
  /-- `type(input_data.index).__name__` of an index that is no `DatetimeIndex` -/
  indexName : String
  /-- `str(type(index))` of an index that is no `DatetimeIndex` -/
  indexType : String
  /-- `str(input_data[column].dtype)` of a column that is not numeric -/
  dtype : String → String
  /-- the message of an exception raised by Python or pandas themselves -/
  foreign : Err → String

/-- `str(x)`. -/
def PyArg.shownAs (X : Texts) : PyArg → String
  | .int n => toString n
  | .float v => X.float v
  | .bool true => "True"
  | .bool false => "False"
  | .str s => s
  | .none => "None"
  | .other => X.other

/-- `str(type(x))`. -/
def PyArg.typeStr (X : Texts) : PyArg → String
  | .int _ => "<class 'int'>"
  | .float _ => "<class 'float'>"
  | .bool _ => "<class 'bool'>"
  | .str _ => "<class 'str'>"
  | .none => "<class 'NoneType'>"
  | .other => X.otherType

/-- `s.replace(pat, new)` on characters: every occurrence from the left, none overlapping. The number counts the characters
of an occurrence that are still to be skipped. Simplification: the empty pattern, which the library never uses, is not
treated as in Python. -/
def replaceFrom (pat new : List Char) : ℕ → List Char → List Char
  | _, [] => []
  | k + 1, _ :: s => replaceFrom pat new k s
  | 0, c :: s =>
    if pat.isPrefixOf (c :: s) then new ++ replaceFrom pat new (pat.length - 1) s else c :: replaceFrom pat new 0 s

/-- `s.replace(pat, new)`. -/
def pyReplace (s pat new : String) : String := String.ofList (replaceFrom pat.toList new.toList 0 s.toList)

/-- The message of `NotEnoughInputData` (`exceptions.py:9-24`). -/
def notEnoughText (name : String) (required found : ℕ) : String :=
  let m := "Not enough input data for calculating the <ti_name> technical indicator. Minimum required data are (<req_data_num>), but (<data_num>) found."
  let m := pyReplace m "<ti_name>" name
  let m := pyReplace m "<req_data_num>" (toString required)
  pyReplace m "<data_num>" (toString found)

/-- The message of `WrongValueForInputParameter` (`exceptions.py:27-40`). -/
def wrongValueText (value name supports : String) : String :=
  let m := "Wrong value (<p_value>) for input parameter (<p_name>). Supported values are (<p_supported>)."
  let m := pyReplace m "<p_value>" value
  let m := pyReplace m "<p_name>" name
  pyReplace m "<p_supported>" supports

/-- The message of `WrongTypeForInputParameter` (`exceptions.py:43-56`). -/
def wrongTypeText (type name supports : String) : String :=
  let m := "Wrong type (<p_type>) for input parameter (<p_name>). Supported type is (<p_supported>)."
  let m := pyReplace m "<p_type>" type
  let m := pyReplace m "<p_name>" name
  pyReplace m "<p_supported>" supports

/-- The message of `NotValidInputDataForSimulation` (`exceptions.py:59-69`). -/
def notValidText (argument details : String) : String :=
  let m := "Not valid input data for simulation, input argument: <p_input_argument>. "
  let m := pyReplace m "<p_input_argument>" argument
  m ++ details

/-- The arguments with which an exception about a parameter is raised: the object whose value or type is shown, the name of
the parameter and the supported values or types. -/
inductive Report where
  | wrongValue (shown : PyArg) (name supports : String)
  | wrongType (shown : PyArg) (name supports : String)
  deriving DecidableEq, Repr

namespace Report

def shown : Report → PyArg
  | wrongValue a _ _ => a
  | wrongType a _ _ => a

def name : Report → String
  | wrongValue _ n _ => n
  | wrongType _ n _ => n

def supports : Report → String
  | wrongValue _ _ s => s
  | wrongType _ _ s => s

/-- The class of the exception. -/
def kind : Report → Err
  | wrongValue _ _ _ => .wrongValue
  | wrongType _ _ _ => .wrongType

/-- The message. -/
def text (X : Texts) : Report → String
  | wrongValue a n s => wrongValueText (a.shownAs X) n s
  | wrongType a n s => wrongTypeText (a.typeStr X) n s

end Report

/-- `isinstance(x, int)` and `x > bound`, as for the `period` of most classes. -/
def badInt (bound : ℤ) (supports name : String) (a : PyArg) : Option Report :=
  match a.asInt with
  | some n => if bound < n then none else some (.wrongValue a name supports)
  | none => some (.wrongType a name "int")

/-- `_bollinger_bands.py:65-71`. -/
def badStdNumber (a : PyArg) : Option Report :=
  match a.asNumber with
  | some v => if (0 : Val) <ᵥ v then none else some (.wrongValue a "std_number" ">0")
  | none => some (.wrongType a "std_number" "int or float")

/-- `_envelopes.py:64-70`: the exceptions about `shift` show the value and the type of `period`. -/
def badShift (period a : PyArg) : Option Report :=
  match a with
  | .float (.fin q) => if q < 1 ∧ 0 < q then none else some (.wrongValue period "shift" ">0.0 and <1.0")
  | .float _ => some (.wrongValue period "shift" ">0.0 and <1.0")
  | _ => some (.wrongType period "shift" "float")

/-- `_moving_average.py:63-73`. -/
def badMaPeriod (period maType : PyArg) : Option Report :=
  match period.asInt with
  | some n =>
    if maType = .str "time_series" ∧ n < 2 then some (.wrongValue period "period" ">1")
    else if 0 < n then none
    else some (.wrongValue period "period" ">0")
  | none => some (.wrongType period "period" "int")

/-- `isinstance(x, str)` and membership in a list (`_moving_average.py:75-85`, `_performance.py:57-63`,
`_stochastic_oscillator.py:100-106`). -/
def badOneOf (names : List String) (supports name : String) (a : PyArg) : Option Report :=
  match a with
  | .str s => if s ∈ names then none else some (.wrongValue a name supports)
  | _ => some (.wrongType a name "str")

/-- `_performance.py:65-74`. -/
def badTarget (mode a : PyArg) : Option Report :=
  match a.asNumber with
  | some v =>
    if (mode = .str "LONG" ∧ (0 : Val) ≤ᵥ v) ∨ (mode = .str "SHORT" ∧ v ≤ᵥ 0) then none
    else some (.wrongValue a "target" ">=0 for mode 'LONG', <=0 for mode 'SHORT'")
  | none => some (.wrongType a "target" "int or float")

/-- `_stochastic_oscillator.py:84-90`. -/
def badSlowing (a : PyArg) : Option Report :=
  match a.asInt with
  | some n => if n = 1 ∨ n = 3 then none else some (.wrongValue a "k_slowing_periods" "1 or 3")
  | none => some (.wrongType a "k_slowing_periods" "int")

/-- The comparison of two integers (`_price_oscillator.py:70-71`, `_volume_oscillator.py:72-75`). -/
def notBelow (short long : PyArg) (r : Report) : Option Report :=
  match short.asInt, long.asInt with
  | some s, some l => if l ≤ s then some r else none
  | _, _ => none

/-- The exception a constructor raises about its own parameters, if it raises one. The code is the one of `Call.check`, read
again for the arguments of the `raise` statements. -/
def Call.report (X : Texts) : Call → Option Report
  -- `_accumulation_distribution_line.py:44-45`
  | .accumulationDistributionLine => none
  -- `_average_true_range.py:45-46`
  | .averageTrueRange => none
  -- `_bollinger_bands.py:55-73`
  | .bollingerBands period stdNumber =>
    badInt 0 ">0" "period" period <|> badStdNumber stdNumber
  -- `_chaikin_money_flow.py:52-62`
  | .chaikinMoneyFlow period =>
    badInt 0 ">0" "period" period
  -- `_chaikin_oscillator.py:46-47`
  | .chaikinOscillator => none
  -- `_chande_momentum_oscillator.py:51-61`
  | .chandeMomentumOscillator period =>
    badInt 0 ">0" "period" period
  -- `_commodity_channel_index.py:52-62`
  | .commodityChannelIndex period =>
    badInt 0 ">0" "period" period
  -- `_detrended_price_oscillator.py:51-61`
  | .detrendedPriceOscillator period =>
    badInt 0 ">0" "period" period
  -- `_directional_movement_index.py:47-48`
  | .directionalMovementIndex => none
  -- `_double_exponential_moving_average.py:51-61`
  | .doubleExponentialMovingAverage period =>
    badInt 0 ">0" "period" period
  -- `_ease_of_movement.py:53-63`
  | .easeOfMovement period =>
    badInt 0 ">0" "period" period
  -- `_envelopes.py:54-72`
  | .envelopes period shift =>
    badInt 0 ">0" "period" period <|> badShift period shift
  -- `_fibonacci_retracement.py:45-46`
  | .fibonacciRetracement => none
  -- `_forecast_oscillator.py:52-62`
  | .forecastOscillator period =>
    badInt 1 ">1" "period" period
  -- `_ichimoku_cloud.py:45-46`
  | .ichimokuCloud => none
  -- `_intraday_momentum_index.py:52-62`
  | .intradayMomentumIndex period =>
    badInt 0 ">0" "period" period
  -- `_klinger_oscillator.py:45-46`
  | .klingerOscillator => none
  -- `_linear_regression_indicator.py:54-64`
  | .linearRegressionIndicator period =>
    badInt 1 ">1" "period" period
  -- `_linear_regression_slope.py:51-61`
  | .linearRegressionSlope period =>
    badInt 0 ">0" "period" period
  -- `_market_facilitation_index.py:44-45`
  | .marketFacilitationIndex => none
  -- `_mass_index.py:45-46`
  | .massIndex => none
  -- `_median_price.py:48-58`
  | .medianPrice period =>
    badInt 0 ">0" "period" period
  -- `_momentum.py:51-61`
  | .momentum period =>
    badInt 0 ">0" "period" period
  -- `_moving_average.py:62-87`
  | .movingAverage period maType =>
    badMaPeriod period maType <|> badOneOf ["simple", "exponential", "time_series", "triangular", "variable"]
      "'simple', 'exponential', 'time_series', 'triangular' or 'variable'" "ma_type" maType
  -- `_moving_average_convergence_divergence.py:46-47`
  | .movingAverageConvergenceDivergence => none
  -- `_negative_volume_index.py:45-46`
  | .negativeVolumeIndex => none
  -- `_on_balance_volume.py:44-45`
  | .onBalanceVolume => none
  -- `_parabolic_sar.py:45-51`
  | .parabolicSAR => none
  -- `_performance.py:55-76`
  | .performance mode target =>
    badOneOf ["LONG", "SHORT"] "'LONG' or 'SHORT'" "mode" mode <|> badTarget mode target
  -- `_positive_volume_index.py:45-46`
  | .positiveVolumeIndex => none
  -- `_price_and_volume_trend.py:45-46`
  | .priceAndVolumeTrend => none
  -- `_price_channel.py:53-63`
  | .priceChannel period =>
    badInt 0 ">0" "period" period
  -- `_price_oscillator.py:52-73`
  | .priceOscillator longMa shortMa =>
    badInt 0 ">0" "long_ma" longMa <|> badInt 0 ">0" "short_ma" shortMa <|>
      notBelow shortMa longMa (.wrongValue shortMa "short_ma" "long_ma > short_ma")
  -- `_price_rate_of_change.py:51-61`
  | .priceRateOfChange period =>
    badInt 0 ">0" "period" period
  -- `_projection_bands.py:56-66`
  | .projectionBands period =>
    badInt 1 ">1" "period" period
  -- `_projection_oscillator.py:54-64`
  | .projectionOscillator period =>
    badInt 1 ">1" "period" period
  -- `_qstick.py:52-62`
  | .qstick period =>
    badInt 0 ">0" "period" period
  -- `_range_indicator.py:55-73`
  | .rangeIndicator rangePeriod smoothingPeriod =>
    badInt 0 ">0" "range_period" rangePeriod <|> badInt 0 ">0" "smoothing_period" smoothingPeriod
  -- `_relative_momentum_index.py:54-72`
  | .relativeMomentumIndex period momentumPeriod =>
    badInt 0 ">0" "period" period <|> badInt 0 ">0" "momentum_period" momentumPeriod
  -- `_relative_strength_index.py:51-61`
  | .relativeStrengthIndex period =>
    badInt 0 ">0" "period" period
  -- `_relative_volatility_index.py:52-62`
  | .relativeVolatilityIndex period =>
    badInt 0 ">0" "period" period
  -- `_standard_deviation.py:49-59`
  | .standardDeviation period =>
    badInt 0 ">0" "period" period
  -- `_stochastic_momentum_index.py:58-95`
  | .stochasticMomentumIndex period smoothingPeriod doubleSmoothingPeriod =>
    badInt 0 ">0" "period" period <|> badInt 0 ">0" "smoothing_period" smoothingPeriod <|>
      badInt 0 ">0" "double_smoothing_period" doubleSmoothingPeriod
  -- `_stochastic_oscillator.py:66-108`
  | .stochasticOscillator kPeriods kSlowingPeriods dPeriods dMethod =>
    badInt 0 ">0" "k_periods" kPeriods <|> badSlowing kSlowingPeriods <|> badInt 0 ">0" "d_periods" dPeriods <|>
      badOneOf ["simple", "exponential"] "'simple' or 'exponential'" "d_method" dMethod
  -- `_swing_index.py:44-45`
  | .swingIndex => none
  -- `_time_series_forecast.py:53-63`
  | .timeSeriesForecast period =>
    badInt 1 ">1" "period" period
  -- `_triple_exponential_moving_average.py:51-61`
  | .tripleExponentialMovingAverage period =>
    badInt 0 ">0" "period" period
  -- `_typical_price.py:48-58`
  | .typicalPrice period =>
    badInt 0 ">0" "period" period
  -- `_ultimate_oscillator.py:45-46`
  | .ultimateOscillator => none
  -- `_vertical_horizontal_filter.py:53-63`
  | .verticalHorizontalFilter period =>
    badInt 0 ">0" "period" period
  -- `_volatility_chaikins.py:57-75`
  | .volatilityChaikins emaPeriod changePeriod =>
    badInt 0 ">0" "ema_period" emaPeriod <|> badInt 0 ">0" "change_period" changePeriod
  -- `_volume_oscillator.py:54-77`
  | .volumeOscillator longPeriod shortPeriod =>
    badInt 0 ">0" "long_period" longPeriod <|> badInt 0 ">0" "short_period" shortPeriod <|>
      notBelow shortPeriod longPeriod (.wrongValue longPeriod "long_period " ("> short_period [" ++ shortPeriod.shownAs X ++ "]"))
  -- `_volume_rate_of_change.py:51-61`
  | .volumeRateOfChange period =>
    badInt 0 ">0" "period" period
  -- `_weighted_close.py:44-45`
  | .weightedClose => none
  -- `_wilders_smoothing.py:51-61`
  | .wildersSmoothing period =>
    badInt 0 ">0" "period" period
  -- `_williams_accumulation_distribution.py:45-46`
  | .williamsAccumulationDistribution => none
  -- `_williams_r.py:53-63`
  | .williamsR period =>
    badInt 0 ">0" "period" period

/-- The name `NotEnoughInputData` is raised with; the other classes do not raise it. -/
def Ind.shortageName : Ind → Option String
  | .accumulationDistributionLine => none
  | .averageTrueRange => some "Average True Range" -- `_average_true_range.py:68`
  | .bollingerBands _ _ => some "Bollinger Bands" -- `_bollinger_bands.py:96`
  | .chaikinMoneyFlow _ => some "Chaikin Money Flow" -- `_chaikin_money_flow.py:84`
  | .chaikinOscillator => some "Chaikin Oscillator" -- `_chaikin_oscillator.py:69`
  | .chandeMomentumOscillator _ => some "Chande Momentum Oscillator" -- `_chande_momentum_oscillator.py:83`
  | .commodityChannelIndex _ => some "Commodity Channel Index" -- `_commodity_channel_index.py:84`
  | .detrendedPriceOscillator _ => some "Detrended Price Oscillator" -- `_detrended_price_oscillator.py:83`
  | .directionalMovementIndex => some "Directional Movement Index" -- `_directional_movement_index.py:71`
  | .doubleExponentialMovingAverage _ => some "Double Exponential Moving Average" -- `_double_exponential_moving_average.py:83`
  | .easeOfMovement _ => some "Ease Of Movement" -- `_ease_of_movement.py:86`
  | .envelopes _ _ => some "Envelopes" -- `_envelopes.py:95`
  | .fibonacciRetracement => none
  | .forecastOscillator _ => some "Forecast Oscillator" -- `_forecast_oscillator.py:84`
  | .ichimokuCloud => none
  | .intradayMomentumIndex _ => some "Intraday Momentum Index" -- `_intraday_momentum_index.py:84`
  | .klingerOscillator => some "Klinger Oscillator" -- `_klinger_oscillator.py:68`
  | .linearRegressionIndicator _ => some "Linear Regression Indicator" -- `_linear_regression_indicator.py:86`
  | .linearRegressionSlope _ => some "Linear Regression Slope" -- `_linear_regression_slope.py:83`
  | .marketFacilitationIndex => none
  | .massIndex => some "Mass Index" -- `_mass_index.py:68`
  | .medianPrice _ => none
  | .momentum _ => some "Momentum" -- `_momentum.py:83`
  | .movingAverage _ t => some (if t = .variableType then "Moving Average (variable)" else "Moving Average") -- `_moving_average.py:108-112`
  | .movingAverageConvergenceDivergence => some "Moving Average Convergence Divergence" -- `_moving_average_convergence_divergence.py:70`
  | .negativeVolumeIndex => some "Negative Volume Index" -- `_negative_volume_index.py:68`
  | .onBalanceVolume => none
  | .parabolicSAR => some "Parabolic SAR" -- `_parabolic_sar.py:73`
  | .performance _ _ => none
  | .positiveVolumeIndex => some "Positive Volume Index" -- `_positive_volume_index.py:68`
  | .priceAndVolumeTrend => some "Price and Volume Trend" -- `_price_and_volume_trend.py:68`
  | .priceChannel _ => some "Price Channel" -- `_price_channel.py:86`
  | .priceOscillator _ _ => some "Price Oscillator" -- `_price_oscillator.py:95`
  | .priceRateOfChange _ => some "Price Rate of Change" -- `_price_rate_of_change.py:83`
  | .projectionBands _ => some "Projection Bands" -- `_projection_bands.py:89`
  | .projectionOscillator _ => some "Projection Oscillator" -- `_projection_oscillator.py:87`
  | .qstick _ => some "Qstick" -- `_qstick.py:84`
  | .rangeIndicator _ _ => some "Range Indicator" -- `_range_indicator.py:95`
  | .relativeMomentumIndex _ _ => some "Relative Momentum Index" -- `_relative_momentum_index.py:94`
  | .relativeStrengthIndex _ => some "Relative Strength Index" -- `_relative_strength_index.py:83`
  | .relativeVolatilityIndex _ => some "Relative Volatility Index" -- `_relative_volatility_index.py:84`
  | .standardDeviation _ => some "Standard Deviation" -- `_standard_deviation.py:84`
  | .stochasticMomentumIndex _ _ _ => some "Stochastic Momentum Index" -- `_stochastic_momentum_index.py:117`
  | .stochasticOscillator _ _ _ _ => some "Stochastic Oscillator" -- `_stochastic_oscillator.py:134`
  | .swingIndex => none
  | .timeSeriesForecast _ => some "Time Series Forecast" -- `_time_series_forecast.py:85`
  | .tripleExponentialMovingAverage _ => some "Triple Exponential Moving Average" -- `_triple_exponential_moving_average.py:83`
  | .typicalPrice _ => none
  | .ultimateOscillator => some "Ultimate Oscillator" -- `_ultimate_oscillator.py:68`
  | .verticalHorizontalFilter _ => some "Vertical Horizontal Filter" -- `_vertical_horizontal_filter.py:85`
  | .volatilityChaikins _ _ => some "Volatility Chaikins" -- `_volatility_chaikins.py:97`
  | .volumeOscillator _ _ => some "Volume Oscillator" -- `_volume_oscillator.py:99`
  | .volumeRateOfChange _ => some "Volume Rate of Change" -- `_volume_rate_of_change.py:83`
  | .weightedClose => none
  | .wildersSmoothing _ => some "Wilder's Smoothing" -- `_wilders_smoothing.py:83`
  | .williamsAccumulationDistribution => none
  | .williamsR _ => some "William's %R" -- `_williams_r.py:85`

/-- The message of the check of one required column (`data_validation.py:71-91`). -/
def columnText (X : Texts) (indicator : String) (cols : List (String × RawCol)) (name : String) : Option String :=
  match cols.filter fun c => c.1 == name with
  | [] =>
    some ("Required column `" ++ name ++ "` for the technical indicator `" ++ indicator ++
      "` does not exist in the input_data  pandas.DataFrame.")
  | [c] =>
    if c.2.numeric then none
    else some ("The input_data pandas.DataFrame must hold columns of numeric type, but column `" ++ name ++
      "` is of type `" ++ X.dtype name ++ "`.")
  | _ => some (X.foreign .attributeError)

/-- The message of `validateInputData` (`data_validation.py:49-104`), if it raises an exception. -/
def validateText (X : Texts) (input : InputArg) (required : List String) (indicator : String) : Option String :=
  match input with
  | .notFrame => some (wrongTypeText X.dataType "input_data" "pd.DataFrame")
  | .frame f =>
    if f.datetimeIndex = false then
      some ("Invalid input_data index type. It was expected `pd.DatetimeIndex` but `" ++ X.indexName ++ "` was found.")
    else if f.idx = [] ∨ f.cols = [] then some "The input_data cannot be an empty pandas.DataFrame."
    else
      match lowerLabels f.cols with
      | none => some (X.foreign .attributeError)
      | some cols =>
        match required.findSome? (columnText X indicator cols) with
        | some t => some t
        | none =>
          match dropExtra required (cols.map (·.1)) cols with
          | .error e => some (X.foreign e)
          | .ok _ => none

/-- The message of an exception of `_calculateTi`. -/
def Ind.calcText (X : Texts) (ind : Ind) : Err → String
  | .notEnough required found => notEnoughText (ind.shortageName.getD "") required found
  | e => X.foreign e

/-- The message of the constructor of an indicator (`_technical_indicator.py:48-69`), if it raises an exception. -/
def constructText (X : Texts) (E : Env) (c : Call) (data : InputArg) (fill : PyArg) : Option String :=
  match c.report X, c.check with
  | some r, _ => some (r.text X)
  | none, .error e => some (X.foreign e)
  | none, .ok ind =>
    match fill with
    | .bool b =>
      match validateText X data ind.required ind.className with
      | some t => some t
      | none =>
        match (validateInputData data ind.required b).2 with
        | .error e => some (X.foreign e)
        | .ok F =>
          match ind.calcTi E F with
          | .error e => some (ind.calcText X e)
          | .ok _ => none
    | a => some (wrongTypeText (a.typeStr X) "fill_missing_values" "bool")

/-- The check of `max_exposure` (`trading_simulation.py:261-270`). -/
def badExposure (a : PyArg) : Option Report :=
  match a.asNumber with
  | some v => if Val.le v 0 then some (.wrongValue a "max_exposure" ">0 or None") else none
  | none => if a = .none then none else some (.wrongType a "max_exposure" "int or float or None")

/-- The check of `short_exposure_factor` (`trading_simulation.py:273-281`). -/
def badFactor (a : PyArg) : Option Report :=
  match a.asNumber with
  | some v => if Val.lt v 1 then some (.wrongValue a "short_exposure_factor" ">=1.0") else none
  | none => some (.wrongType a "short_exposure_factor" "int or float")

/-- The message of the constructor of the simulator (`trading_simulation.py:157-281`), if it raises an exception. -/
def setupText (X : Texts) (isDatetime : Bool) (inputIdx : List ℤ) (close : InputArg) (maxExposure factor : PyArg) :
    Option String :=
  if isDatetime = false then
    some (notValidText "input_data_index" ("input_data_index should be of type pandas.DatetimeIndex but type " ++
      X.indexType ++ " found."))
  else
    match validateText X close ["close"] "TradingSimulation" with
    | some t => some (notValidText "close_values" (pyReplace t "input_data" "close_values"))
    | none =>
      match (validateInputData close ["close"] true).2 with
      | .error e => some (X.foreign e)
      | .ok F =>
        if F.idx ≠ sortIdx inputIdx then
          some (notValidText "close_values" "Index of the `close_values` DataFrame should be the same as the index of the `input_data` argument in the indicator's constructor.")
        else (badExposure maxExposure <|> badFactor factor).map (Report.text X)

end TTI
