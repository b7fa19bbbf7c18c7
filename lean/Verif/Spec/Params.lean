import Verif.Model.Call

set_option autoImplicit false

/-!
# What the documentation says about the constructor parameters

For each class the parameters in the order in which they are checked, each with its documented type and range, written down
independently of the checks.
-/

namespace TTI.Spec

/-- The argument is the integer `n` for Python (`True` and `False` are the integers 1 and 0). -/
def IsInt : PyArg → ℤ → Prop
  | .int m, n => m = n
  | .bool true, n => n = 1
  | .bool false, n => n = 0
  | _, _ => False

/-- The argument is a number for Python, with this value. -/
def IsNumber : PyArg → Val → Prop
  | .float x, v => x = v
  | a, v => ∃ n : ℤ, IsInt a n ∧ v = .fin n

/-- The argument is this string. -/
def IsStr : PyArg → String → Prop
  | .str s, t => s = t
  | _, _ => False

/-- A parameter of a constructor: does the argument have the documented type, does it have a documented value? -/
structure Param where
  typed : Prop
  valued : Prop

/-- An integer that is at least `least`. -/
def integer (a : PyArg) (least : ℤ) : Param := ⟨∃ n, IsInt a n, ∃ n, IsInt a n ∧ least ≤ n⟩

/-- A string out of a list. -/
def oneOf (a : PyArg) (names : List String) : Param := ⟨∃ s, IsStr a s, ∃ s ∈ names, IsStr a s⟩

/-- The parameters of a class, in the order in which they are checked. -/
def params : Call → List Param
  | .bollingerBands period stdNumber =>
    [integer period 1, ⟨∃ v, IsNumber stdNumber v, ∃ v, IsNumber stdNumber v ∧ (0 : Val) <ᵥ v⟩]
  | .envelopes period shiftBy =>
    [integer period 1, ⟨∃ v, shiftBy = .float v, ∃ q : ℚ, shiftBy = .float (.fin q) ∧ 0 < q ∧ q < 1⟩]
  | .movingAverage period maType =>
    [⟨∃ n, IsInt period n, ∃ n, IsInt period n ∧ 1 ≤ n ∧ (IsStr maType "time_series" → 2 ≤ n)⟩,
     oneOf maType ["simple", "exponential", "time_series", "triangular", "variable"]]
  | .performance mode target =>
    [oneOf mode ["LONG", "SHORT"],
     ⟨∃ v, IsNumber target v,
      ∃ v, IsNumber target v ∧ ((IsStr mode "LONG" ∧ (0 : Val) ≤ᵥ v) ∨ (IsStr mode "SHORT" ∧ v ≤ᵥ 0))⟩]
  | .priceOscillator longMa shortMa =>
    [integer longMa 1, integer shortMa 1, ⟨True, ∃ l s, IsInt longMa l ∧ IsInt shortMa s ∧ s < l⟩]
  | .volumeOscillator longPeriod shortPeriod =>
    [integer longPeriod 1, integer shortPeriod 1, ⟨True, ∃ l s, IsInt longPeriod l ∧ IsInt shortPeriod s ∧ s < l⟩]
  | .stochasticOscillator k slowing d method =>
    [integer k 1, ⟨∃ n, IsInt slowing n, IsInt slowing 1 ∨ IsInt slowing 3⟩, integer d 1,
     oneOf method ["simple", "exponential"]]
  | .accumulationDistributionLine => []
  | .averageTrueRange => []
  | .chaikinMoneyFlow period => [integer period 1]
  | .chaikinOscillator => []
  | .chandeMomentumOscillator period => [integer period 1]
  | .commodityChannelIndex period => [integer period 1]
  | .detrendedPriceOscillator period => [integer period 1]
  | .directionalMovementIndex => []
  | .doubleExponentialMovingAverage period => [integer period 1]
  | .easeOfMovement period => [integer period 1]
  | .fibonacciRetracement => []
  | .forecastOscillator period => [integer period 2]
  | .ichimokuCloud => []
  | .intradayMomentumIndex period => [integer period 1]
  | .klingerOscillator => []
  | .linearRegressionIndicator period => [integer period 2]
  | .linearRegressionSlope period => [integer period 1]
  | .marketFacilitationIndex => []
  | .massIndex => []
  | .medianPrice period => [integer period 1]
  | .momentum period => [integer period 1]
  | .movingAverageConvergenceDivergence => []
  | .negativeVolumeIndex => []
  | .onBalanceVolume => []
  | .parabolicSAR => []
  | .positiveVolumeIndex => []
  | .priceAndVolumeTrend => []
  | .priceChannel period => [integer period 1]
  | .priceRateOfChange period => [integer period 1]
  | .projectionBands period => [integer period 2]
  | .projectionOscillator period => [integer period 2]
  | .qstick period => [integer period 1]
  | .rangeIndicator rangePeriod smoothingPeriod => [integer rangePeriod 1, integer smoothingPeriod 1]
  | .relativeMomentumIndex period momentumPeriod => [integer period 1, integer momentumPeriod 1]
  | .relativeStrengthIndex period => [integer period 1]
  | .relativeVolatilityIndex period => [integer period 1]
  | .standardDeviation period => [integer period 1]
  | .stochasticMomentumIndex period smoothing doubleSmoothing => [integer period 1, integer smoothing 1, integer doubleSmoothing 1]
  | .swingIndex => []
  | .timeSeriesForecast period => [integer period 2]
  | .tripleExponentialMovingAverage period => [integer period 1]
  | .typicalPrice period => [integer period 1]
  | .ultimateOscillator => []
  | .verticalHorizontalFilter period => [integer period 1]
  | .volatilityChaikins emaPeriod changePeriod => [integer emaPeriod 1, integer changePeriod 1]
  | .volumeRateOfChange period => [integer period 1]
  | .weightedClose => []
  | .wildersSmoothing period => [integer period 1]
  | .williamsAccumulationDistribution => []
  | .williamsR period => [integer period 1]

/-- The indicator has the class and the parameter values of the call. -/
def Built : Call → Ind → Prop
  | .bollingerBands a b, .bollingerBands p s => IsInt a p ∧ IsNumber b s
  | .envelopes a b, .envelopes p s => IsInt a p ∧ b = .float (.fin s)
  | .movingAverage a b, .movingAverage p t => IsInt a p ∧ IsStr b t.str
  | .performance a b, .performance long t => IsStr a (if long then "LONG" else "SHORT") ∧ IsNumber b t
  | .priceOscillator a b, .priceOscillator l s => IsInt a l ∧ IsInt b s
  | .volumeOscillator a b, .volumeOscillator l s => IsInt a l ∧ IsInt b s
  | .stochasticOscillator a b c d, .stochasticOscillator k s m simple =>
    IsInt a k ∧ IsInt b s ∧ IsInt c m ∧ IsStr d (if simple then "simple" else "exponential")
  | .accumulationDistributionLine, .accumulationDistributionLine => True
  | .averageTrueRange, .averageTrueRange => True
  | .chaikinMoneyFlow period, .chaikinMoneyFlow period' => IsInt period period'
  | .chaikinOscillator, .chaikinOscillator => True
  | .chandeMomentumOscillator period, .chandeMomentumOscillator period' => IsInt period period'
  | .commodityChannelIndex period, .commodityChannelIndex period' => IsInt period period'
  | .detrendedPriceOscillator period, .detrendedPriceOscillator period' => IsInt period period'
  | .directionalMovementIndex, .directionalMovementIndex => True
  | .doubleExponentialMovingAverage period, .doubleExponentialMovingAverage period' => IsInt period period'
  | .easeOfMovement period, .easeOfMovement period' => IsInt period period'
  | .fibonacciRetracement, .fibonacciRetracement => True
  | .forecastOscillator period, .forecastOscillator period' => IsInt period period'
  | .ichimokuCloud, .ichimokuCloud => True
  | .intradayMomentumIndex period, .intradayMomentumIndex period' => IsInt period period'
  | .klingerOscillator, .klingerOscillator => True
  | .linearRegressionIndicator period, .linearRegressionIndicator period' => IsInt period period'
  | .linearRegressionSlope period, .linearRegressionSlope period' => IsInt period period'
  | .marketFacilitationIndex, .marketFacilitationIndex => True
  | .massIndex, .massIndex => True
  | .medianPrice period, .medianPrice period' => IsInt period period'
  | .momentum period, .momentum period' => IsInt period period'
  | .movingAverageConvergenceDivergence, .movingAverageConvergenceDivergence => True
  | .negativeVolumeIndex, .negativeVolumeIndex => True
  | .onBalanceVolume, .onBalanceVolume => True
  | .parabolicSAR, .parabolicSAR => True
  | .positiveVolumeIndex, .positiveVolumeIndex => True
  | .priceAndVolumeTrend, .priceAndVolumeTrend => True
  | .priceChannel period, .priceChannel period' => IsInt period period'
  | .priceRateOfChange period, .priceRateOfChange period' => IsInt period period'
  | .projectionBands period, .projectionBands period' => IsInt period period'
  | .projectionOscillator period, .projectionOscillator period' => IsInt period period'
  | .qstick period, .qstick period' => IsInt period period'
  | .rangeIndicator rangePeriod smoothingPeriod, .rangeIndicator rangePeriod' smoothingPeriod' => IsInt rangePeriod rangePeriod' ∧ IsInt smoothingPeriod smoothingPeriod'
  | .relativeMomentumIndex period momentumPeriod, .relativeMomentumIndex period' momentumPeriod' => IsInt period period' ∧ IsInt momentumPeriod momentumPeriod'
  | .relativeStrengthIndex period, .relativeStrengthIndex period' => IsInt period period'
  | .relativeVolatilityIndex period, .relativeVolatilityIndex period' => IsInt period period'
  | .standardDeviation period, .standardDeviation period' => IsInt period period'
  | .stochasticMomentumIndex period smoothing doubleSmoothing, .stochasticMomentumIndex period' smoothing' doubleSmoothing' => IsInt period period' ∧ IsInt smoothing smoothing' ∧ IsInt doubleSmoothing doubleSmoothing'
  | .swingIndex, .swingIndex => True
  | .timeSeriesForecast period, .timeSeriesForecast period' => IsInt period period'
  | .tripleExponentialMovingAverage period, .tripleExponentialMovingAverage period' => IsInt period period'
  | .typicalPrice period, .typicalPrice period' => IsInt period period'
  | .ultimateOscillator, .ultimateOscillator => True
  | .verticalHorizontalFilter period, .verticalHorizontalFilter period' => IsInt period period'
  | .volatilityChaikins emaPeriod changePeriod, .volatilityChaikins emaPeriod' changePeriod' => IsInt emaPeriod emaPeriod' ∧ IsInt changePeriod changePeriod'
  | .volumeRateOfChange period, .volumeRateOfChange period' => IsInt period period'
  | .weightedClose, .weightedClose => True
  | .wildersSmoothing period, .wildersSmoothing period' => IsInt period period'
  | .williamsAccumulationDistribution, .williamsAccumulationDistribution => True
  | .williamsR period, .williamsR period' => IsInt period period'
  | _, _ => False

/-- The parameters are checked one after the other; the first one that is not as documented decides which exception is
raised, and without one the indicator is accepted. -/
def Checked (accepted : Ind → Prop) (r : Except Err Ind) : List Param → Prop
  | [] => ∃ ind, r = .ok ind ∧ accepted ind
  | p :: ps =>
    (¬ p.typed ∧ r = .error .wrongType) ∨ (p.typed ∧ ¬ p.valued ∧ r = .error .wrongValue) ∨
      (p.typed ∧ p.valued ∧ Checked accepted r ps)

end TTI.Spec
