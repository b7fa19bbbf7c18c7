import Verif.Spec.Formula
import Verif.Spec.Indicators

set_option autoImplicit false

/-!
# Baskets
-/

namespace TTI.Spec

/-- Day by day, the prices and the volume of `h` are `a` times those of `f` plus `b` times those of `g` (C105). -/
structure Basket (a b : ℚ) (f g h : RawFrame) : Prop where
  first : f.idx.length = h.idx.length
  second : g.idx.length = h.idx.length
  each : ∀ s ∈ ["open", "high", "low", "close", "volume"], ∀ j < h.idx.length, price h s j = a * price f s j + b * price g s j

/-- The prices of `f`, `g` and `h` are the same, the volume of `h` is `a` times that of `f` plus `b` times that of `g`: the trade in
one paper on two exchanges. -/
structure Split (a b : ℚ) (f g h : RawFrame) : Prop where
  first : f.idx.length = h.idx.length
  second : g.idx.length = h.idx.length
  same : ∀ s ∈ ["open", "high", "low", "close"], ∀ j < h.idx.length, price f s j = price h s j ∧ price g s j = price h s j
  volume : ∀ j < h.idx.length, price h "volume" j = a * price f "volume" j + b * price g "volume" j

/-- All three values are missing, or they are numbers and `w` is `a` times `u` plus `b` times `v`, up to the roundings: at most
`r` for the value itself and for each of the parts. -/
def Adds (a b r : ℚ) (u v w : Val) : Prop :=
  u = .nan ∧ v = .nan ∧ w = .nan ∨
  ∃ x y z : ℚ, u = .fin x ∧ v = .fin y ∧ w = .fin z ∧ |z - (a * x + b * y)| ≤ (1 + |a| + |b|) * r

/-- All three values are missing, or they are numbers and `w` is at most `a` times `u` plus `b` times `v`, up to the roundings. -/
def AddsAtMost (a b r : ℚ) (u v w : Val) : Prop :=
  u = .nan ∧ v = .nan ∧ w = .nan ∨
  ∃ x y z : ℚ, u = .fin x ∧ v = .fin y ∧ w = .fin z ∧ z ≤ a * x + b * y + (1 + |a| + |b|) * r

/-- The same with `w` at least the sum. -/
def AddsAtLeast (a b r : ℚ) (u v w : Val) : Prop :=
  u = .nan ∧ v = .nan ∧ w = .nan ∨
  ∃ x y z : ℚ, u = .fin x ∧ v = .fin y ∧ w = .fin z ∧ a * x + b * y - (1 + |a| + |b|) * r ≤ z

/-- The square root of a non-negative number is computed with an error of at most `e`: the root lies between `E.sq q - e` and
`E.sq q + e`. -/
def RootWithin (e : ℚ) (E : Env) : Prop :=
  ∀ q : ℚ, 0 ≤ q → 0 ≤ E.sq q + e ∧ q ≤ (E.sq q + e) ^ 2 ∧ (E.sq q - e ≤ 0 ∨ (E.sq q - e) ^ 2 ≤ q)

/-- The columns that are at most the sum of those of the parts (volatility, upper limits), and those that are at least that sum (lower
limits), with the rounding of one value; `e` is the error of the square root. -/
def basketAtMost (e : ℚ) : Ind → String → Option ℚ
  | .averageTrueRange, _ => some (1 / 20000)
  | .standardDeviation _, _ => some (e + 1 / 20000)
  | .bollingerBands _ (.fin s), column => if column = "upper_band" then some (s * e + 2 / 20000) else none
  | .priceChannel _, column => if column = "highest_high" then some (1 / 20000) else none
  | _, _ => none
def basketAtLeast (e : ℚ) : Ind → String → Option ℚ
  | .bollingerBands _ (.fin s), column => if column = "lower_band" then some (s * e + 2 / 20000) else none
  | .priceChannel _, column => if column = "lowest_low" then some (1 / 20000) else none
  | _, _ => none

/-- The columns that add up in a basket, with the rounding of one value: half of the last decimal, more often where rounded numbers
enter. -/
def basketRounding : Ind → String → Option ℚ
  | .movingAverage _ .variableType, _ => none
  | .movingAverage _ .timeSeries, _ => some (2 / 20000)
  | .movingAverage _ _, _ => some (1 / 20000)
  | .doubleExponentialMovingAverage _, _ => some (1 / 20000)
  | .tripleExponentialMovingAverage _, _ => some (1 / 20000)
  | .wildersSmoothing _, _ => some (1 / 20000)
  | .bollingerBands _ _, column => if column = "middle_band" then some (1 / 20000) else none
  | .envelopes _ _, _ => some (1 / 20000)
  | .volumeOscillator _ _, _ => some (1 / 20000)
  | .movingAverageConvergenceDivergence, column => some (if column = "macd" then 2 / 20000 else 3 / 20000)
  | .medianPrice _, _ => some (1 / 20000)
  | .typicalPrice _, _ => some (1 / 20000)
  | .weightedClose, _ => some (1 / 20000)
  | .detrendedPriceOscillator _, _ => some (1 / 20000)
  | .qstick _, _ => some (1 / 20000)
  | .linearRegressionSlope _, _ => some (1 / 20000)
  | .linearRegressionIndicator _, _ => some (1 / 20000)
  | .timeSeriesForecast _, _ => some (2 / 20000)
  | _, _ => none

end TTI.Spec
