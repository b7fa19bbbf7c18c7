import Verif.Spec.Scale
import Verif.Model.Api

set_option autoImplicit false

/-!
# Specification: all prices raised by the same amount
-/

namespace TTI.Spec

/-- A price plus `k`; a missing or infinite price stays what it is. -/
def plus (k : ℚ) (v : Val) : Val := Val.add v (.fin k)

/-- The user's frame with `k` added to all prices; the volumes are kept. -/
def raised (k : ℚ) (f : RawFrame) : RawFrame :=
  { f with cols := f.cols.map fun c => { c with data := if isVolume c then c.data else c.data.map (plus k) } }

/-- A frame with `k` added to all values. -/
def plusAll (k : ℚ) (T : Frame) : Frame := ⟨T.idx, T.cols.map fun c => (c.1, c.2.map (plus k))⟩

/-- The classes whose values are price levels: they move with the prices. -/
def isLevel : Ind → Bool
  | .bollingerBands _ _ | .doubleExponentialMovingAverage _ | .fibonacciRetracement | .ichimokuCloud
  | .linearRegressionIndicator _ | .medianPrice _ | .movingAverage _ _ | .parabolicSAR | .priceChannel _
  | .projectionBands _ | .timeSeriesForecast _ | .tripleExponentialMovingAverage _ | .typicalPrice _ | .weightedClose
  | .wildersSmoothing _ => true
  | _ => false

/-- The classes whose values depend on differences of prices only. -/
def ignoresLevel : Ind → Bool
  | .accumulationDistributionLine | .averageTrueRange | .chaikinMoneyFlow _ | .chaikinOscillator
  | .chandeMomentumOscillator _ | .commodityChannelIndex _ | .detrendedPriceOscillator _ | .directionalMovementIndex
  | .easeOfMovement _ | .intradayMomentumIndex _ | .klingerOscillator | .linearRegressionSlope _
  | .marketFacilitationIndex | .massIndex | .movingAverageConvergenceDivergence | .onBalanceVolume
  | .projectionOscillator _ | .qstick _ | .rangeIndicator _ _ | .relativeMomentumIndex _ _ | .relativeStrengthIndex _
  | .relativeVolatilityIndex _ | .standardDeviation _ | .stochasticMomentumIndex _ _ _ | .stochasticOscillator _ _ _ _
  | .swingIndex | .ultimateOscillator | .verticalHorizontalFilter _ | .volatilityChaikins _ _ | .volumeOscillator _ _
  | .volumeRateOfChange _ | .williamsAccumulationDistribution | .williamsR _ => true
  | _ => false

/-- The class treats a missing price as zero somewhere, so it reacts to the level of the prices when one is missing. -/
def zeroForMissing : Ind → Bool
  | .commodityChannelIndex _ | .klingerOscillator | .linearRegressionIndicator _ | .movingAverage _ .timeSeries
  | .projectionBands _ | .projectionOscillator _ | .timeSeriesForecast _ => true
  | _ => false

/-- The class computes with price levels that it has rounded to 4 decimals. -/
def roundsLevel (ind : Ind) : Bool :=
  isLevel ind || match ind with
    | .movingAverageConvergenceDivergence | .projectionOscillator _ => true
    | _ => false

/-- The signal compares something with a fraction of the price (Average True Range), or with the Momentum (Vertical
Horizontal Filter). -/
def signalUsesLevel : Ind → Bool
  | .averageTrueRange | .verticalHorizontalFilter _ => true
  | _ => false

/-- The signal compares the close with an average that is rounded to 4 decimals. -/
def signalRounds : Ind → Bool
  | .standardDeviation _ => true
  | _ => false

/-- The result of a call with `k` added to all indicator values in it. -/
def plusResult (k : ℚ) : ApiResult → ApiResult
  | .data T => .data (plusAll k T)
  | .value (.row vs) => .value (.row (vs.map (plus k)))
  | r => r

/-- A whole number of cents, more generally of 0.0002. -/
def WholeSteps (k : ℚ) : Prop := ∃ m : ℤ, k = m / 5000

/-- Every value of the columns is a number or, if missing values are to be filled, missing; and there is one number. -/
def NumbersFor (f : RawFrame) (required : List String) (fill : Bool) : Prop :=
  ∀ c ∈ f.cols, ∀ n ∈ required, c.label.lower = some n →
    (∀ v ∈ c.data, (∃ q, v = .fin q) ∨ (fill = true ∧ v = .nan)) ∧ ∃ q, Val.fin q ∈ c.data

end TTI.Spec
