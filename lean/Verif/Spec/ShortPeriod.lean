import Verif.Model.Ind.All

set_option autoImplicit false

/-!
# Specification: periods that are too short
-/

namespace TTI.Spec

/-- The averages (and Bollinger bands) of one day, each with its columns. -/
def oneDayColumns : Ind → List String
  | .movingAverage 1 .simple => ["ma-simple"]
  | .movingAverage 1 .exponential => ["ma-exponential"]
  | .movingAverage 1 .triangular => ["ma-triangular"]
  | .doubleExponentialMovingAverage 1 => ["dema"]
  | .tripleExponentialMovingAverage 1 => ["tema"]
  | .wildersSmoothing 1 => ["ws"]
  | .bollingerBands 1 (.fin _) => ["middle_band", "upper_band", "lower_band"]
  | _ => []

/-- A price with at most four decimals. -/
def FourDecimals (q : ℚ) : Prop := ∃ m : ℤ, q = m / 10000

end TTI.Spec
