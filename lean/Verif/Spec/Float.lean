import Verif.Spec.Rounding
import Verif.Spec.Formula
import Verif.Model.Float

set_option autoImplicit false

/-!
# Indicators in rounded arithmetic

Specification for C85 and C86.
-/

namespace TTI.Spec

open Flt

/-- The results of adding up numbers pair by pair, in any order and any grouping, with a rounding after every addition. -/
inductive SumsTo (fl : ℚ → ℚ) : List ℚ → ℚ → Prop
  | one (x : ℚ) : SumsTo fl [x] x
  | add {l m k : List ℚ} {a b : ℚ} : SumsTo fl l a → SumsTo fl m b → (l ++ m).Perm k → SumsTo fl k (fl (a + b))

/-- The arithmetic `A` rounds every result like `R`, and adds up several numbers in some order. -/
structure Rounded (R : Rounding) (A : Arith) : Prop where
  fl : A.fl = R.fl
  sum : ∀ l, l ≠ [] → SumsTo R.fl l (A.sum l)

/-- `o` was constructed in the arithmetic `A` by the call `c` on the user's frame `f`, all of whose required cells are numbers
that satisfy `P`. -/
structure FloatBuilt (A : Arith) (E : Env) (c : Call) (f : RawFrame) (fill : Bool) (o : Obj) (P : (String → ℚ) → Prop) : Prop where
  wf : ∀ c ∈ f.cols, c.data.length = f.idx.length
  ok : (Flt.construct A E c (.frame f) (.bool fill)).2 = .ok o
  rows : f.EachRow o.ind.required P

/-- All numbers of the column are at most `M` in absolute value. -/
def AtMost (f : RawFrame) (name : String) (M : ℚ) : Prop := ∀ j < f.idx.length, |price f name j| ≤ M

/-- Missing on the first `k` days, then a number that differs from `q` by `e` at most. -/
def NearSince (k i : ℕ) (v : Val) (q e : ℚ) : Prop := if i < k then v = .nan else ∃ r, v = .fin r ∧ |r - q| ≤ e

/-- Adding up from left to right. -/
def leftSum (fl : ℚ → ℚ) : List ℚ → ℚ
  | [] => 0
  | x :: l => l.foldl (fun a b => fl (a + b)) x

/-- The float64 arithmetic, sums from left to right. -/
def doubleArith : Arith := ⟨toDouble, leftSum toDouble⟩

/-- The exact arithmetic. -/
def exactArith : Arith := ⟨id, List.sum⟩

end TTI.Spec
