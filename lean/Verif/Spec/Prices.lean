import Verif.Model.Ind.All

set_option autoImplicit false

/-!
# What is assumed of the prices, and ranges

Used in the statements of the numerical properties.
-/

namespace TTI

/-- The value in row `j` of the column of the user's frame whose label, in lower case, is `name`. -/
def RawFrame.cell (f : RawFrame) (name : String) (j : ℕ) : Val :=
  match f.cols.find? fun c => c.label.lower == some name with
  | some c => c.data.getD j .nan
  | none => .nan

/-- In every row of the user's frame the named columns hold (finite) numbers, and they satisfy `P`. What `P` says about
columns that are not named is about arbitrary numbers. -/
def RawFrame.EachRow (f : RawFrame) (names : List String) (P : (String → ℚ) → Prop) : Prop :=
  ∀ j < f.idx.length, ∃ x : String → ℚ, (∀ n ∈ names, f.cell n j = .fin (x n)) ∧ P x

/-- The values of a column of the user's frame in the order of the dates (rows of equal date keep their order). -/
def RawFrame.inDateOrder (f : RawFrame) (name : String) : List Val :=
  match f.cols.find? fun c => c.label.lower == some name with
  | some c => (sortRows (f.idx.zip c.data)).map (·.2)
  | none => []

/-- The value of a column on the `i`-th day, counted from 0. -/
def RawFrame.day (f : RawFrame) (name : String) (i : ℕ) : Val := (f.inDateOrder name).getD i .nan

/-- The value of a column of the indicator data on the `i`-th day, counted from 0 (the indicator data have the dates of the
input in ascending order, see C33; NaN beyond the last row). -/
def Frame.day (T : Frame) (name : String) (i : ℕ) : Val := (T.col name).getD i .nan

namespace Spec

/-- A proper price bar: open and close lie between low and high, the volume is not negative. -/
def Bar (x : String → ℚ) : Prop :=
  x "low" ≤ x "open" ∧ x "open" ≤ x "high" ∧ x "low" ≤ x "close" ∧ x "close" ≤ x "high" ∧ 0 ≤ x "volume"

/-- No condition. -/
def AnyPrices (_ : String → ℚ) : Prop := True

/-- Missing, or a number in the range; never infinite. -/
def InRange (lo hi : ℚ) (v : Val) : Prop := v = .nan ∨ ∃ q, v = .fin q ∧ lo ≤ q ∧ q ≤ hi

/-- Missing, or a number that is not negative; never infinite. -/
def NonNegative (v : Val) : Prop := v = .nan ∨ ∃ q, v = .fin q ∧ 0 ≤ q

/-- One of the two is missing, or they are numbers in order; never infinite. -/
def InOrder (v w : Val) : Prop := (v = .nan ∨ ∃ a, v = .fin a) ∧ (w = .nan ∨ ∃ b, w = .fin b) ∧
  ∀ a b, v = .fin a → w = .fin b → a ≤ b

/-- One of the two is missing, or the first is not above the second; both may be infinite. -/
def NotAbove (v w : Val) : Prop := v = .nan ∨ w = .nan ∨ Val.le v w = true

/-- The columns with a fixed range: name, least value, greatest value. -/
def ranges : Ind → List (String × ℚ × ℚ)
  | .relativeStrengthIndex _ => [("rsi", 0, 100)]
  | .relativeMomentumIndex _ _ => [("rmi", 0, 100)]
  | .intradayMomentumIndex _ => [("imi", 0, 100)]
  | .relativeVolatilityIndex _ => [("rvi", 0, 100)]
  | .stochasticOscillator _ _ _ _ => [("%K", 0, 100), ("%D", 0, 100)]
  | .rangeIndicator _ _ => [("ri", 0, 100)]
  | .directionalMovementIndex => [("+di", 0, 100), ("-di", 0, 100), ("dx", 0, 100), ("adx", 0, 100), ("adxr", 0, 100)]
  | .ultimateOscillator => [("uosc", 0, 100)]
  | .chandeMomentumOscillator _ => [("cmo", -100, 100)]
  | .stochasticMomentumIndex _ _ _ => [("smi", -100, 100)]
  | .swingIndex => [("swi", -100, 100)]
  | .williamsR _ => [("wr", -100, 0)]
  | .chaikinMoneyFlow _ => [("cmf", -1, 1)]
  | .verticalHorizontalFilter _ => [("vhf", 0, 1)]
  | _ => []

/-- The column of a moving average whose values are averages of closes. -/
def averageColumn : Ind → Option String
  | .movingAverage _ .simple => some "ma-simple"
  | .movingAverage _ .exponential => some "ma-exponential"
  | .movingAverage _ .triangular => some "ma-triangular"
  | .movingAverage _ .variableType => some "ma-variable"
  | .wildersSmoothing _ => some "ws"
  | _ => none

end Spec
end TTI
