import Verif.Spec.Prices

set_option autoImplicit false

/-!
# Specification: data in other units
-/

namespace TTI.Spec

/-- The column is the volume column. -/
def isVolume (c : RawCol) : Bool :=
  match c.label with
  | .str s => decide (s.toLower = "volume")
  | .other => false

/-- The user's frame with all prices multiplied by `p` and all volumes by `v`. -/
def scaled (p v : ℚ) (f : RawFrame) : RawFrame :=
  { f with cols := f.cols.map fun c => { c with data := c.data.map (Val.mul (.fin (if isVolume c then v else p))) } }

/-- The classes whose values do not change when all prices are multiplied by a positive number. -/
def freeOfPriceUnit : Ind → Bool
  | .accumulationDistributionLine | .chaikinMoneyFlow _ | .chaikinOscillator | .chandeMomentumOscillator _
  | .commodityChannelIndex _ | .directionalMovementIndex | .intradayMomentumIndex _ | .klingerOscillator | .massIndex
  | .momentum _ | .negativeVolumeIndex | .onBalanceVolume | .performance _ _ | .positiveVolumeIndex
  | .priceAndVolumeTrend | .priceOscillator _ _ | .priceRateOfChange _ | .relativeMomentumIndex _ _
  | .relativeVolatilityIndex _ | .stochasticMomentumIndex _ _ _ | .stochasticOscillator _ _ _ _ | .ultimateOscillator
  | .verticalHorizontalFilter _ | .volatilityChaikins _ _ | .volumeOscillator _ _ | .volumeRateOfChange _ | .williamsR _ => true
  | _ => false

/-- The classes whose values do not change when all volumes are multiplied by a positive number: those that do not use
the volume and four that use quotients or comparisons of volumes only. -/
def freeOfVolumeUnit (ind : Ind) : Bool :=
  match ind with
  | .chaikinMoneyFlow _ | .negativeVolumeIndex | .positiveVolumeIndex | .volumeRateOfChange _ => true
  | _ => decide ("volume" ∉ ind.required)

/-- The class compares the close with an average rounded to 4 decimals. -/
def comparesRounded : Ind → Bool
  | .verticalHorizontalFilter _ => true
  | _ => false

/-- `w` is `v` counted in a unit of which the old unit has `u`, when both are only known up to an error of `t` (in units of
their own). A missing or infinite value stays what it is. -/
def Follows (t u : ℚ) : Val → Val → Prop
  | .fin a, .fin b => |b - u * a| ≤ t * (1 + u)
  | v, w => v = w

/-- What the values of a class are measured in: a product of powers of the units of prices and volumes; and how far a value
may be away from the exact one because it, or a value on the way to it, is rounded. -/
structure Dimension where
  price : ℤ
  volume : ℤ
  error : ℚ
  deriving DecidableEq

/-- The factor by which values of this dimension grow when prices grow by `p` and volumes by `v`. -/
def Dimension.factor (d : Dimension) (p v : ℚ) : ℚ := p ^ d.price * v ^ d.volume

/-- The dimensions of the classes. Five have none: the Forecast Oscillator, the Projection Oscillator and the Relative Strength
Index divide numbers that are rounded already, the Range Indicator and the Swing Index combine numbers of different units. -/
def dimension : Ind → Option Dimension
  | .averageTrueRange | .detrendedPriceOscillator _ | .doubleExponentialMovingAverage _ | .envelopes _ _
  | .fibonacciRetracement | .ichimokuCloud | .linearRegressionIndicator _ | .linearRegressionSlope _ | .medianPrice _
  | .movingAverage _ .simple | .movingAverage _ .exponential | .movingAverage _ .triangular | .movingAverage _ .variableType
  | .parabolicSAR | .priceChannel _ | .projectionBands _ | .qstick _ | .standardDeviation _
  | .tripleExponentialMovingAverage _ | .typicalPrice _ | .weightedClose | .wildersSmoothing _
  | .williamsAccumulationDistribution => some ⟨1, 0, 1 / 20000⟩
  | .bollingerBands _ _ => some ⟨1, 0, 2 / 20000⟩
  | .movingAverage _ .timeSeries | .timeSeriesForecast _ | .movingAverageConvergenceDivergence => some ⟨1, 0, 3 / 20000⟩
  | .onBalanceVolume => some ⟨0, 1, 0⟩
  | .klingerOscillator | .priceAndVolumeTrend | .volumeOscillator _ _ => some ⟨0, 1, 1 / 20000⟩
  | .accumulationDistributionLine => some ⟨0, 1, 1⟩
  | .chaikinOscillator => some ⟨0, 1, 2 + 1 / 20000⟩
  | .marketFacilitationIndex => some ⟨1, -1, 1 / 20000000000⟩
  | .easeOfMovement _ => some ⟨2, -1, 1 / 20000⟩
  | ind => if freeOfPriceUnit ind && freeOfVolumeUnit ind then some ⟨0, 0, 0⟩ else none

/-- The class takes square roots. -/
def usesRoot : Ind → Bool
  | .bollingerBands _ _ | .standardDeviation _ | .relativeVolatilityIndex _ => true
  | _ => false

/-- Two outcomes are the same exception, or values on the same days and in the same columns that are related day by day. -/
def SameUpTo (R : Val → Val → Prop) : Except Err Frame → Except Err Frame → Prop
  | .ok T, .ok T' => T'.idx = T.idx ∧ T'.cols.map Prod.fst = T.cols.map Prod.fst ∧ ∀ name i, R (T.day name i) (T'.day name i)
  | .error e, .error e' => e = e'
  | _, _ => False

end TTI.Spec
