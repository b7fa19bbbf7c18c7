import Verif.Lemmas.FloatExact
import Verif.Props.Float

set_option autoImplicit false

/-!
# The float64 calculations without rounding: C88

The model of the float64 calculations follows the order of operations of pandas and of the library, with running sums that
carry a correction from row to row. Here the arithmetic rounds nothing (`exactArith`), and what is left is the exact model
that the other properties are about.
-/

namespace TTI.Props

open Spec Flt

/-- C88: with exact numbers the constructor of the float64 model is the constructor of the exact model: the same exception or
the same object, for every class, every parameter and every data. The square root of 0 has to be 0. -/
theorem C88_exact (E : Env) (hE : E.sq 0 = 0) (c : Call) (data : InputArg) (fill : PyArg) :
    Flt.construct exactArith E c data fill = TTI.construct E c data fill := by
  unfold Flt.construct TTI.construct
  cases hc : c.check with
  | error e => rfl
  | ok ind =>
    have hp := check_pos _ _ hc
    simp only
    cases fill with
    | bool b =>
      simp only
      rcases validateInputData data ind.required b with ⟨caller, r⟩
      cases r with
      | error e => rfl
      | ok F =>
        simp only [Exact.calcTi E hE F ind hp, Exact.inputAfter]
        cases ind.calcTi E F <;> rfl
    | _ => rfl

/-- C88 for an indicator built out of others, with its result; in float64 arithmetic the results of the same call differ. -/
example : Flt.construct exactArith demoEnv (.volumeRateOfChange (.int 2)) (.frame (sample 6)) (.bool true) =
      TTI.construct demoEnv (.volumeRateOfChange (.int 2)) (.frame (sample 6)) (.bool true) ∧
    ((TTI.construct demoEnv (.volumeRateOfChange (.int 2)) (.frame (sample 6)) (.bool true)).2.map fun o =>
      o.ti.len) = .ok 6 ∧
    (Flt.construct doubleArith demoEnv (.typicalPrice (.int 2)) (.frame (sample 6)) (.bool true)).2 ≠
      (TTI.construct demoEnv (.typicalPrice (.int 2)) (.frame (sample 6)) (.bool true)).2 :=
  ⟨C88_exact _ (by decide +kernel) _ _ _, by decide +kernel, by decide +kernel⟩

/-- The numbers in the `w` rows of a column up to row `day`: missing and infinite values are left out. -/
def NumbersIn (xs : List Val) (w day : ℕ) (v : List ℚ) : Prop :=
  v.map Val.fin = (((xs.take (day + 1)).drop (day + 1 - w)).filter fun x => match x with
    | .fin _ => true
    | _ => false)

theorem numbers_finVals (xs : List Val) (w day : ℕ) (v : List ℚ) (hd : day < xs.length) (h : NumbersIn xs w day v) :
    finVals (window w (xs.take (day + 1))) = v := by
  unfold NumbersIn at h
  have hl : (xs.take (day + 1)).length = day + 1 := by rw [List.length_take]; omega
  unfold window
  rw [hl]
  generalize (xs.take (day + 1)).drop (day + 1 - w) = l at h
  induction l generalizing v with
  | nil => cases v <;> simp_all [finVals]
  | cons x l ih =>
    cases x with
    | fin q =>
      cases v with
      | nil => simp at h
      | cons a v =>
        simp only [List.map_cons, List.filter_cons, if_true, List.cons.injEq, Val.fin.injEq] at h
        have := ih v h.2
        simp only [finVals, List.filterMap_cons] at this ⊢
        rw [this, h.1]
    | _ => exact ih v (by simpa using h)

/-- C88: pandas' loop for `rolling(window=w, min_periods=m).mean()`, which carries a sum from row to row, adding the row that
enters and subtracting the row that leaves, gives with exact numbers the mean of the numbers in the window, for every column,
with missing and infinite values anywhere. -/
theorem C88_window_mean (w m : ℕ) (hw : 1 ≤ w) (xs : List Val) (day : ℕ) (hd : day < xs.length) (v : List ℚ)
    (hv : NumbersIn xs w day v) :
    (exactArith.rollMean w m xs)[day]? =
      some (if m ≤ v.length ∧ v ≠ [] then .fin (v.sum / v.length) else .nan) := by
  rw [Exact.rollMean w m hw]
  unfold rolling prefixMap
  rw [List.getElem?_map, List.getElem?_range hd, Option.map_some]
  simp only [numbers_finVals xs w day v hd hv]
  by_cases h1 : m ≤ v.length <;> by_cases h2 : v = [] <;> simp [h1, h2, aggMean]

/-- C88: the same for `.sum()`. -/
theorem C88_window_sum (w m : ℕ) (hw : 1 ≤ w) (xs : List Val) (day : ℕ) (hd : day < xs.length) (v : List ℚ)
    (hv : NumbersIn xs w day v) :
    (exactArith.rollSum w m xs)[day]? = some (if m ≤ v.length then .fin v.sum else .nan) := by
  rw [Exact.rollSum w m hw]
  unfold rolling prefixMap
  rw [List.getElem?_map, List.getElem?_range hd, Option.map_some]
  simp only [numbers_finVals xs w day v hd hv]
  rfl

/-- C88: the same for `.std(ddof=0)`, which carries the mean and the sum of squared distances from row to row (Welford's
recursion, forwards for the row that enters and backwards for the row that leaves): with exact numbers it is the square root of the
mean squared distance from the mean. -/
theorem C88_window_std (sq : ℚ → ℚ) (h0 : sq 0 = 0) (w m : ℕ) (hw : 1 ≤ w) (xs : List Val) (day : ℕ) (hd : day < xs.length)
    (v : List ℚ) (hv : NumbersIn xs w day v) :
    (exactArith.rollStd sq w m xs)[day]? = some (if m ≤ v.length ∧ v ≠ [] then
      .fin (sq ((v.map fun x => (x - v.sum / v.length) ^ 2).sum / v.length)) else .nan) := by
  rw [Exact.rollStd sq h0 w m hw]
  unfold rolling prefixMap
  rw [List.getElem?_map, List.getElem?_range hd, Option.map_some]
  simp only [numbers_finVals xs w day v hd hv]
  by_cases h1 : m ≤ v.length <;> by_cases h2 : v = [] <;> simp [h1, h2, aggStd, variance, ofOption]

/-- `C88_window_std`: the variance of 1, 3, 3, 5 after a 100 has left the window (`sq` is the identity). -/
example : NumbersIn [.fin 100, .fin 1, .fin 3, .fin 3, .fin 5] 4 4 [1, 3, 3, 5] ∧
    (exactArith.rollStd id 4 4 [.fin 100, .fin 1, .fin 3, .fin 3, .fin 5])[4]? = some (.fin 2) := by
  refine ⟨?_, ?_⟩
  · unfold NumbersIn; decide +kernel
  · decide +kernel

/-- The hypotheses of `C88_window_mean` and `C88_window_sum`, with a gap and an infinity; float64 gives another sum. -/
example : NumbersIn [.fin 5, .fin (1/10), .nan, .fin (2/10), .pinf, .fin (3/10)] 5 5 [1/10, 2/10, 3/10] ∧
    (exactArith.rollSum 5 3 [.fin 5, .fin (1/10), .nan, .fin (2/10), .pinf, .fin (3/10)])[5]? = some (.fin (6/10)) ∧
    (doubleArith.rollSum 5 3 [.fin 5, .fin (1/10), .nan, .fin (2/10), .pinf, .fin (3/10)])[5]? ≠ some (.fin (6/10)) := by
  refine ⟨?_, ?_, ?_⟩
  · unfold NumbersIn; decide +kernel
  · decide +kernel
  · decide +kernel

end TTI.Props
