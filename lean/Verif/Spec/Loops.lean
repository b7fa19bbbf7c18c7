import Verif.Model.Loops
import Verif.Lemmas.Num

set_option autoImplicit false

/-! Tables with repeated dates. -/

namespace TTI.Spec

/-- `k` is the last row with the date of row `j`. -/
def LastSame (idx : List ℤ) (j k : ℕ) : Prop :=
  k < idx.length ∧ idx[k]? = idx[j]? ∧ ∀ k', k < k' → k' < idx.length → idx[k']? ≠ idx[j]?

/-- Both calculations stop with the same exception, or the first gives every row the values that the second gives to the last
row with the same date. -/
def Repeats : Except Err Frame → Except Err Frame → Prop
  | .error a, .error b => a = b
  | .ok L, .ok T => L.idx = T.idx ∧ L.cols.map (·.1) = T.cols.map (·.1) ∧
      ∀ name j k, j < T.len → LastSame T.idx j k → val (L.col name) j = val (T.col name) k
  | _, _ => False

end TTI.Spec
