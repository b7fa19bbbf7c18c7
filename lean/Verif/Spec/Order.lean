import Verif.Model.Api

set_option autoImplicit false

/-!
# Specification: reordered columns
-/

namespace TTI.Spec

/-- `g` is the user's frame `f` with its columns in another order. -/
structure Reordered (f g : RawFrame) : Prop where
  sameKind : f.datetimeIndex = g.datetimeIndex
  sameDates : f.idx = g.idx
  sameColumns : f.cols.Perm g.cols

/-- The lower-cased name of a column is one of `names`. -/
def hasName (names : List String) (c : RawCol) : Bool :=
  match c.label with
  | .str s => decide (s.toLower ∈ names)
  | .other => false

/-- The first of the user's columns that is one of `names`. -/
def firstOf (names : List String) (f : RawFrame) : Option RawCol := f.cols.find? (hasName names)

/-- The two classes whose signal looks at the first required column. -/
def looksAtFirstColumn : Ind → Bool
  | .averageTrueRange => true
  | .typicalPrice _ => true
  | _ => false

end TTI.Spec
