import Verif.Model.Api

set_option autoImplicit false

/-!
# Specification: tables that differ in their prices only
-/

namespace TTI.Spec

/-- Both missing, or both numbers and the first one at most the second. -/
def atMost : Val → Val → Prop
  | .nan, .nan => True
  | .fin a, .fin b => a ≤ b
  | _, _ => False

/-- Both missing, or both numbers that differ by at most `e`. -/
def within (e : ℚ) : Val → Val → Prop
  | .nan, .nan => True
  | .fin a, .fin b => |a - b| ≤ e
  | _, _ => False

/-- Two tables of the user with the same dates and columns whose entries are related by `R`. -/
def Related (R : Val → Val → Prop) (f f' : RawFrame) : Prop :=
  f.datetimeIndex = f'.datetimeIndex ∧ f.idx = f'.idx ∧
    List.Forall₂ (fun c c' => c.label = c'.label ∧ c.numeric = c'.numeric ∧ List.Forall₂ R c.data c'.data) f.cols f'.cols

/-- Two frames of indicator values with the same dates and columns whose entries are related by `R`. -/
def RelatedValues (R : Val → Val → Prop) (T T' : Frame) : Prop :=
  T.idx = T'.idx ∧ List.Forall₂ (fun c c' => c.1 = c'.1 ∧ List.Forall₂ R c.2 c'.2) T.cols T'.cols

/-- Both constructions raise the same exception, or both succeed and the values are related by `R`. -/
def SameOutcome (R : Val → Val → Prop) : Except Err Obj → Except Err Obj → Prop
  | .ok o, .ok o' => RelatedValues R o.getTiData o'.getTiData
  | .error e, .error e' => e = e'
  | _, _ => False

/-- The classes whose values never fall when prices rise: averages with positive weights, highest and lowest prices and
combinations of these with positive weights. -/
def rising : Ind → Bool
  | .movingAverage _ t => match t with
    | .simple | .exponential | .triangular => true
    | _ => false
  | .envelopes _ _ | .fibonacciRetracement | .ichimokuCloud | .medianPrice _ | .priceChannel _ | .typicalPrice _
  | .weightedClose | .wildersSmoothing _ => true
  | _ => false

/-- By how much a class can amplify an error of the prices, and what the rounding to 4 decimals may add. -/
def amplification : Ind → Option (ℚ × ℚ)
  | .envelopes _ s => some (1 + s, 1 / 10000)
  | .movingAverage _ t => match t with
    | .simple | .exponential | .triangular => some (1, 1 / 10000)
    | _ => none
  | .fibonacciRetracement | .ichimokuCloud | .medianPrice _ | .priceChannel _ | .typicalPrice _ | .weightedClose
  | .wildersSmoothing _ => some (1, 1 / 10000)
  | .averageTrueRange | .detrendedPriceOscillator _ | .qstick _ => some (2, 1 / 10000)
  | .doubleExponentialMovingAverage _ => some (3, 1 / 10000)
  | .tripleExponentialMovingAverage _ => some (7, 1 / 10000)
  | .movingAverageConvergenceDivergence => some (2, 3 / 10000)
  | _ => none

end TTI.Spec
