import Verif.Spec.Formula
import Verif.Spec.Indicators

set_option autoImplicit false

/-!
# What a higher last close does to the signal
-/

namespace TTI.Spec

/-- The tables `f` and `g` have the same days and the same numbers, but the last close of `g` is higher (or the same) (C106). -/
structure LastCloseRaised (f g : RawFrame) : Prop where
  days : g.idx.length = f.idx.length
  other : ∀ s ∈ ["open", "high", "low", "volume"], ∀ j < f.idx.length, price g s j = price f s j
  before : ∀ j, j + 1 < f.idx.length → price g "close" j = price f "close" j
  last : price f "close" (f.idx.length - 1) ≤ price g "close" (f.idx.length - 1)

/-- Positive closes with at most four decimals, no low above the high, no negative volume. -/
def Quoted (x : String → ℚ) : Prop :=
  0 < x "close" ∧ (∃ m : ℤ, x "close" = m / 10000) ∧ x "low" ≤ x "high" ∧ 0 ≤ x "volume"

/-- `t` is the same signal as `s` or, in the order sell, hold, buy, a later one. -/
def TowardsBuy (s t : Signal) : Prop := s = t ∨ s = .sell ∨ t = .buy

/-- A class follows the market when a higher last close can move its signal towards buy only, it opposes the market when a higher
last close can move its signal towards sell only. -/
inductive Stance where
  | follows
  | opposes
  deriving DecidableEq

/-- The classes with a fixed direction. Not in the table: classes that look at something else than the close, and classes that go
both ways. -/
def stance : Ind → Option Stance
  | .movingAverage _ .simple | .movingAverage _ .exponential | .movingAverage _ .triangular => some .follows
  | .ichimokuCloud | .parabolicSAR | .qstick _ | .williamsR _ | .priceOscillator _ _ => some .follows
  | .negativeVolumeIndex | .positiveVolumeIndex => some .follows
  | .doubleExponentialMovingAverage _ | .tripleExponentialMovingAverage _ | .wildersSmoothing _ | .weightedClose => some .opposes
  | .linearRegressionIndicator _ | .linearRegressionSlope _ => some .opposes
  | .envelopes _ _ | .priceChannel _ | .projectionBands _ => some .opposes
  | .relativeStrengthIndex _ | .relativeMomentumIndex _ _ | .chandeMomentumOscillator _ | .intradayMomentumIndex _ => some .opposes
  | .commodityChannelIndex _ | .stochasticMomentumIndex _ _ _ | .swingIndex | .forecastOscillator _ => some .opposes
  | .momentum _ | .priceRateOfChange _ | .performance _ _ => some .opposes
  | .onBalanceVolume | .priceAndVolumeTrend => some .opposes
  | _ => none

/-- The classes whose values and signals the last close has no part in: they do not read the close, or that of the day before only. -/
def ignoresLastClose : Ind → Bool
  | .directionalMovementIndex | .easeOfMovement _ | .marketFacilitationIndex | .relativeVolatilityIndex _ => true
  | .volatilityChaikins _ _ | .volumeOscillator _ _ | .volumeRateOfChange _ => true
  | _ => false

end TTI.Spec
