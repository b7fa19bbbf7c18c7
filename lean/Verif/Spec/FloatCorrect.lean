import Verif.Spec.Float

set_option autoImplicit false

/-! Specification for C91. -/

namespace TTI.Spec

open Flt

/-- The number is more than `d` units of the fourth decimal away from every tie between two numbers with four decimals. -/
def Clear (d q : ℚ) : Prop := ∀ m : ℤ, d < |q * 10 ^ 4 - (m + 1 / 2)|

/-- The column holds the prices `p`, each stored as the float next to it. -/
def Stored (fl : ℚ → ℚ) (f : RawFrame) (name : String) (p : ℕ → ℚ) : Prop := ∀ j < f.idx.length, price f name j = fl (p j)

/-- The classes of the float64 model that report four decimals: not the line of accumulation and distribution (whole numbers),
on-balance volume (not rounded), the market facilitation index (ten decimals), and not the classes that the float64 model leaves
out. -/
def ReportsFour : Ind → Prop
  | .accumulationDistributionLine | .onBalanceVolume | .marketFacilitationIndex => False
  | .linearRegressionIndicator _ | .timeSeriesForecast _ | .forecastOscillator _ | .projectionBands _ | .projectionOscillator _ => False
  | .movingAverage _ .timeSeries => False
  | .stochasticOscillator _ _ _ false => False
  | _ => True

/-- The float next to a number with four decimals. -/
def IsReport (A : Arith) (v : Val) : Prop := ∀ r, v = .fin r → ∃ k : ℤ, r = A.fl (k / 10 ^ 4)

end TTI.Spec
