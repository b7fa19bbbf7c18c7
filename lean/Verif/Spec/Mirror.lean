import Verif.Spec.Raise

set_option autoImplicit false

/-!
# Specification: the mirrored market

Prices `p` become `k - p`: what rose falls by the same amount, the day's high becomes its low and the other way round. The
volumes are kept.
-/

namespace TTI.Spec

/-- The label of the mirrored column: high and low change their roles. -/
def mirrorLabel : Label → Label
  | .str s => if s.toLower = "high" then .str "low" else if s.toLower = "low" then .str "high" else .str s
  | .other => .other

/-- The user's frame with all prices `p` replaced by `k - p`. -/
def mirrored (k : ℚ) (f : RawFrame) : RawFrame :=
  { f with cols := f.cols.map fun c =>
      if isVolume c then c else ⟨mirrorLabel c.label, c.numeric, c.data.map (Val.sub (.fin k))⟩ }

/-- The column whose mirror image a column is: upper and lower bands change their roles, and so do the two directional
indicators. -/
def partner (n : String) : String :=
  if n = "upper_band" then "lower_band" else if n = "lower_band" then "upper_band"
  else if n = "highest_high" then "lowest_low" else if n = "lowest_low" then "highest_high"
  else if n = "+di" then "-di" else if n = "-di" then "+di" else n

/-- How the values of the mirrored market follow from those of the market (after changing bands and so on by `partner`):
price levels become `k - v`, differences change their sign, measures of volatility or volume stay, and indices between 0
and 100 (or -100 and 0) become 100 (or -100) minus themselves. The other classes have no such law. -/
def reflect (k : ℚ) : Ind → Option (Val → Val)
  | .bollingerBands _ _ | .doubleExponentialMovingAverage _ | .ichimokuCloud | .linearRegressionIndicator _ | .medianPrice _
  | .movingAverage _ _ | .priceChannel _ | .projectionBands _ | .timeSeriesForecast _ | .tripleExponentialMovingAverage _
  | .typicalPrice _ | .weightedClose | .wildersSmoothing _ => some (Val.sub (.fin k))
  | .accumulationDistributionLine | .chaikinMoneyFlow _ | .chaikinOscillator | .chandeMomentumOscillator _
  | .commodityChannelIndex _ | .detrendedPriceOscillator _ | .easeOfMovement _ | .linearRegressionSlope _
  | .movingAverageConvergenceDivergence | .onBalanceVolume | .qstick _ | .stochasticMomentumIndex _ _ _ | .swingIndex
  | .williamsAccumulationDistribution => some Val.neg
  | .averageTrueRange | .directionalMovementIndex | .marketFacilitationIndex | .massIndex | .standardDeviation _
  | .verticalHorizontalFilter _ | .volatilityChaikins _ _ | .volumeOscillator _ _ | .volumeRateOfChange _ => some id
  | .intradayMomentumIndex _ | .projectionOscillator _ | .relativeStrengthIndex _ | .relativeVolatilityIndex _
  | .stochasticOscillator _ _ _ _ | .ultimateOscillator => some (Val.sub (.fin 100))
  | .williamsR _ => some (Val.sub (.fin (-100)))
  | _ => none

/-- A table of values of which every column is that of its partner, changed by `m`. -/
def reflected (m : Val → Val) (T : Frame) : Frame := ⟨T.idx, T.cols.map fun c => (c.1, (T.col (partner c.1)).map m)⟩

/-- The signal of the opposite direction. -/
def opposite : Signal → Signal
  | .buy => .sell
  | .sell => .buy
  | .hold => .hold

/-- The classes whose signal turns into the opposite one. -/
def signalTurns : Ind → Bool
  | .accumulationDistributionLine | .bollingerBands _ _ | .chaikinMoneyFlow _ | .chaikinOscillator
  | .chandeMomentumOscillator _ | .commodityChannelIndex _ | .detrendedPriceOscillator _ | .directionalMovementIndex
  | .easeOfMovement _ | .intradayMomentumIndex _ | .linearRegressionIndicator _ | .linearRegressionSlope _ | .massIndex
  | .medianPrice _ | .movingAverageConvergenceDivergence | .onBalanceVolume | .priceChannel _ | .projectionBands _
  | .projectionOscillator _ | .qstick _ | .relativeStrengthIndex _ | .relativeVolatilityIndex _ | .standardDeviation _
  | .stochasticMomentumIndex _ _ _ | .swingIndex | .timeSeriesForecast _ | .tripleExponentialMovingAverage _
  | .weightedClose | .wildersSmoothing _ | .williamsR _ => true
  | _ => false

/-- The classes whose signal does not see the direction of the prices at all. -/
def signalStays : Ind → Bool
  | .marketFacilitationIndex | .volatilityChaikins _ _ | .volumeOscillator _ _ | .volumeRateOfChange _ => true
  | _ => false

/-- For a class with an upper and a lower band: on the last day the upper band is not below the lower one. -/
def BandsInOrder (ind : Ind) (T : Frame) : Prop :=
  let inOrder (upper lower : String) := ∀ u l, (T.col upper).getLast? = some u → (T.col lower).getLast? = some l → Val.lt u l = false
  match ind with
  | .bollingerBands _ _ | .projectionBands _ => inOrder "upper_band" "lower_band"
  | .priceChannel _ => inOrder "highest_high" "lowest_low"
  | _ => True

end TTI.Spec
