import Verif.Spec.FloatCorrect

set_option autoImplicit false

/-! Specification for C92. -/

namespace TTI.Spec

/-- A rounding with a small relative error that keeps the whole numbers up to 1000000 and treats both signs alike. -/
structure Fair (R : Rounding) : Prop where
  small : 10 ^ 10 * R.unit ≤ 1
  whole : ∀ z : ℤ, |z| ≤ 10 ^ 6 → R.fl z = z
  neg : ∀ x, R.fl (-x) = -R.fl x

/-- The columns that keep their range in rounded arithmetic: name, least value, greatest value. -/
def floatRanges : Ind → List (String × ℚ × ℚ)
  | .relativeStrengthIndex _ => [("rsi", 0, 100)]
  | .relativeMomentumIndex _ _ => [("rmi", 0, 100)]
  | .stochasticOscillator _ 1 _ true => [("%K", 0, 100)]
  | .directionalMovementIndex => [("dx", 0, 100), ("adx", 0, 100), ("adxr", 0, 100)]
  | .swingIndex => [("swi", -100, 100)]
  | .williamsR _ => [("wr", -100, 0)]
  | _ => []

end TTI.Spec
