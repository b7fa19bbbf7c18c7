import Verif.Model.Message
import Verif.Spec.Params

set_option autoImplicit false

/-!
# What the exception messages should say

The keyword arguments of the constructors and the meaning of the texts that describe supported values and types, written
down independently of the checks.
-/

namespace TTI.Spec

/-- The keyword arguments of a constructor call, in the order of the signature. -/
def arguments : Call → List (String × PyArg)
  | .accumulationDistributionLine => []
  | .averageTrueRange => []
  | .bollingerBands period stdNumber => [("period", period), ("std_number", stdNumber)]
  | .chaikinMoneyFlow period => [("period", period)]
  | .chaikinOscillator => []
  | .chandeMomentumOscillator period => [("period", period)]
  | .commodityChannelIndex period => [("period", period)]
  | .detrendedPriceOscillator period => [("period", period)]
  | .directionalMovementIndex => []
  | .doubleExponentialMovingAverage period => [("period", period)]
  | .easeOfMovement period => [("period", period)]
  | .envelopes period shift => [("period", period), ("shift", shift)]
  | .fibonacciRetracement => []
  | .forecastOscillator period => [("period", period)]
  | .ichimokuCloud => []
  | .intradayMomentumIndex period => [("period", period)]
  | .klingerOscillator => []
  | .linearRegressionIndicator period => [("period", period)]
  | .linearRegressionSlope period => [("period", period)]
  | .marketFacilitationIndex => []
  | .massIndex => []
  | .medianPrice period => [("period", period)]
  | .momentum period => [("period", period)]
  | .movingAverage period maType => [("period", period), ("ma_type", maType)]
  | .movingAverageConvergenceDivergence => []
  | .negativeVolumeIndex => []
  | .onBalanceVolume => []
  | .parabolicSAR => []
  | .performance mode target => [("mode", mode), ("target", target)]
  | .positiveVolumeIndex => []
  | .priceAndVolumeTrend => []
  | .priceChannel period => [("period", period)]
  | .priceOscillator longMa shortMa => [("long_ma", longMa), ("short_ma", shortMa)]
  | .priceRateOfChange period => [("period", period)]
  | .projectionBands period => [("period", period)]
  | .projectionOscillator period => [("period", period)]
  | .qstick period => [("period", period)]
  | .rangeIndicator rangePeriod smoothingPeriod => [("range_period", rangePeriod), ("smoothing_period", smoothingPeriod)]
  | .relativeMomentumIndex period momentumPeriod => [("period", period), ("momentum_period", momentumPeriod)]
  | .relativeStrengthIndex period => [("period", period)]
  | .relativeVolatilityIndex period => [("period", period)]
  | .standardDeviation period => [("period", period)]
  | .stochasticMomentumIndex period smoothingPeriod doubleSmoothingPeriod => [("period", period), ("smoothing_period", smoothingPeriod), ("double_smoothing_period", doubleSmoothingPeriod)]
  | .stochasticOscillator kPeriods kSlowingPeriods dPeriods dMethod => [("k_periods", kPeriods), ("k_slowing_periods", kSlowingPeriods), ("d_periods", dPeriods), ("d_method", dMethod)]
  | .swingIndex => []
  | .timeSeriesForecast period => [("period", period)]
  | .tripleExponentialMovingAverage period => [("period", period)]
  | .typicalPrice period => [("period", period)]
  | .ultimateOscillator => []
  | .verticalHorizontalFilter period => [("period", period)]
  | .volatilityChaikins emaPeriod changePeriod => [("ema_period", emaPeriod), ("change_period", changePeriod)]
  | .volumeOscillator longPeriod shortPeriod => [("long_period", longPeriod), ("short_period", shortPeriod)]
  | .volumeRateOfChange period => [("period", period)]
  | .weightedClose => []
  | .wildersSmoothing period => [("period", period)]
  | .williamsAccumulationDistribution => []
  | .williamsR period => [("period", period)]

/-- The argument passed for a keyword. -/
def Passed (c : Call) (keyword : String) (a : PyArg) : Prop := (keyword, a) ∈ arguments c

/-- `p in s` for strings. -/
def Mentions (s p : String) : Prop := ∃ before after, s = before ++ p ++ after

/-- The argument has the type that is described by the text. An unknown text would describe every type, so that nothing
could be reported with it. -/
def OfType (text : String) (a : PyArg) : Prop :=
  if text = "int" then ∃ n, IsInt a n
  else if text = "float" then ∃ v, a = .float v
  else if text = "int or float" then ∃ v, IsNumber a v
  else if text = "int or float or None" then a = .none ∨ ∃ v, IsNumber a v
  else if text = "str" then ∃ s, IsStr a s
  else if text = "bool" then ∃ b, a = .bool b
  else True

/-- The argument, passed in the call `c`, has a value that is described by the text. An unknown text would describe every
value. -/
def OfValue (c : Call) (text : String) (a : PyArg) : Prop :=
  if text = ">0" then ∃ v, IsNumber a v ∧ (0 : Val) <ᵥ v
  else if text = ">1" then ∃ v, IsNumber a v ∧ (1 : Val) <ᵥ v
  else if text = ">0.0 and <1.0" then ∃ v, IsNumber a v ∧ (0 : Val) <ᵥ v ∧ v <ᵥ 1
  else if text = "'simple', 'exponential', 'time_series', 'triangular' or 'variable'" then
    ∃ s ∈ ["simple", "exponential", "time_series", "triangular", "variable"], IsStr a s
  else if text = "'LONG' or 'SHORT'" then IsStr a "LONG" ∨ IsStr a "SHORT"
  else if text = ">=0 for mode 'LONG', <=0 for mode 'SHORT'" then
    ∃ v, IsNumber a v ∧ (Passed c "mode" (.str "LONG") ∧ (0 : Val) ≤ᵥ v ∨ Passed c "mode" (.str "SHORT") ∧ v ≤ᵥ 0)
  else if text = "1 or 3" then IsInt a 1 ∨ IsInt a 3
  else if text = "'simple' or 'exponential'" then IsStr a "simple" ∨ IsStr a "exponential"
  else if text = "long_ma > short_ma" then
    ∃ l s b d, Passed c "long_ma" l ∧ Passed c "short_ma" s ∧ IsInt l b ∧ IsInt s d ∧ d < b
  else (∃ n, text = "> short_period [" ++ n ++ "]") → ∃ s b d, Passed c "short_period" s ∧ IsInt a b ∧ IsInt s d ∧ d < b

/-- How Python prints an argument: an integer in decimal notation with its sign, a string as it is. -/
def printed (X : Texts) : PyArg → String
  | .int n => (if n < 0 then "-" else "") ++ toString n.natAbs
  | .float v => X.float v
  | .bool b => if b then "True" else "False"
  | .str s => s
  | .none => "None"
  | .other => X.other

/-- How Python prints the type of an argument. -/
def typePrinted (X : Texts) : PyArg → String
  | .int _ => "<class 'int'>"
  | .float _ => "<class 'float'>"
  | .bool _ => "<class 'bool'>"
  | .str _ => "<class 'str'>"
  | .none => "<class 'NoneType'>"
  | .other => X.otherType

/-- What the message shows: the value, or the type. -/
def shownText (X : Texts) : Report → String
  | .wrongValue a _ _ => printed X a
  | .wrongType a _ _ => typePrinted X a

/-- The letters of a name, in lower case. -/
def letters (s : String) : List Char := (s.toList.filter Char.isAlpha).map Char.toLower

end TTI.Spec
