import Verif.Spec.Formula

set_option autoImplicit false

/-!
# Markets that go one way
-/

namespace TTI.Spec

/-- A column of the user's frame never falls (never rises) from one day to the next. -/
def NeverFalls (f : RawFrame) (name : String) : Prop := ∀ j, j + 1 < f.idx.length → price f name j ≤ price f name (j + 1)
def NeverRises (f : RawFrame) (name : String) : Prop := ∀ j, j + 1 < f.idx.length → price f name (j + 1) ≤ price f name j

/-- A column rises every day (falls every day). -/
def AlwaysRises (f : RawFrame) (name : String) : Prop := ∀ j, j + 1 < f.idx.length → price f name j < price f name (j + 1)
def AlwaysFalls (f : RawFrame) (name : String) : Prop := ∀ j, j + 1 < f.idx.length → price f name (j + 1) < price f name j

/-- Every number of a column is positive. -/
def AllPositive (f : RawFrame) (name : String) : Prop := ∀ j < f.idx.length, 0 < price f name j

/-- A positive close, and a volume that is not negative. -/
def Traded (x : String → ℚ) : Prop := 0 < x "close" ∧ 0 ≤ x "volume"

/-- Missing, or a number that is not positive; never infinite. -/
def NonPositive (v : Val) : Prop := v = .nan ∨ ∃ q, v = .fin q ∧ q ≤ 0

/-- Missing, or a number that is at least (at most) `q`; never infinite. -/
def NoLessThan (q : ℚ) (v : Val) : Prop := v = .nan ∨ ∃ x, v = .fin x ∧ q ≤ x
def NoMoreThan (q : ℚ) (v : Val) : Prop := v = .nan ∨ ∃ x, v = .fin x ∧ x ≤ q

/-- The averages whose weights are positive and add up to one, with the column that holds them. -/
def plainAverage : Ind → Option String
  | .movingAverage _ .simple => some "ma-simple"
  | .movingAverage _ .exponential => some "ma-exponential"
  | .movingAverage _ .triangular => some "ma-triangular"
  | .wildersSmoothing _ => some "ws"
  | _ => none

end TTI.Spec
