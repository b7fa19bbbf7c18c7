import Verif.Lemmas.FloatSample

set_option autoImplicit false

/-!
# Without rounding: lemmas for C88
-/

namespace TTI

open Spec Flt

namespace Flt.Exact

@[simp] theorem fl (q : ℚ) : exactArith.fl q = q := rfl
@[simp] theorem rd (x : Val) : exactArith.rd x = x := by cases x <;> rfl
theorem add : exactArith.add = Val.add := by funext x y; exact rd _
theorem sub : exactArith.sub = Val.sub := by funext x y; exact rd _
theorem mul : exactArith.mul = Val.mul := by funext x y; exact rd _
theorem div : exactArith.div = Val.div := by funext x y; exact rd _
theorem round (k : ℕ) : exactArith.round k = Val.round k := by funext x; cases x <;> rfl
theorem addS : exactArith.addS = TTI.addS := by unfold Arith.addS TTI.addS; rw [add]
theorem subS : exactArith.subS = TTI.subS := by unfold Arith.subS TTI.subS; rw [sub]
theorem mulS : exactArith.mulS = TTI.mulS := by unfold Arith.mulS TTI.mulS; rw [mul]
theorem divS : exactArith.divS = TTI.divS := by unfold Arith.divS TTI.divS; rw [div]
theorem scaleS (c : ℚ) : exactArith.scaleS c = TTI.scaleS c := by funext xs; unfold Arith.scaleS TTI.scaleS; rw [mul]
theorem roundS (k : ℕ) : exactArith.roundS k = TTI.roundS k := by funext xs; unfold Arith.roundS TTI.roundS; rw [round]

theorem foldl_fin (v : List Val) (h : v.all Val.isFin) (a : ℚ) : v.foldl Val.add (.fin a) = .fin (a + (finVals v).sum) := by
  induction v generalizing a with
  | nil => simp [finVals]
  | cons x l ih =>
    simp only [List.all_cons, Bool.and_eq_true] at h
    cases x with
    | fin q =>
      rw [List.foldl_cons, Val.fin_add, ih h.2]
      simp [finVals, add_assoc]
    | _ => simp [Val.isFin] at h

theorem mean : exactArith.mean = meanSkip := by
  funext xs
  unfold Arith.mean meanSkip
  simp only
  split
  · rfl
  · next h =>
    split
    · next h2 =>
      have h0 : ((xs.filter fun x => !x.isNan).length : ℚ) ≠ 0 := by
        exact_mod_cast (by simpa using h : (xs.filter fun x => !x.isNan).length ≠ 0)
      rw [show (0 : Val) = .fin 0 from rfl, foldl_fin _ h2, Val.fin_div _ _ h0, zero_add]
      rfl
    · rfl

theorem wilder (skip period : ℕ) : exactArith.wilder skip period = TTI.wilder skip period := by
  funext xs
  unfold Arith.wilder TTI.wilder
  rw [mean, add, div, sub]

theorem ewmStep (s : ℕ) : exactArith.ewmStep s = TTI.ewmStep (2 / ((s : ℚ) + 1)) := by
  have hs : (0 : ℚ) ≤ s := by positivity
  have ha : exactArith.alpha s = 2 / ((s : ℚ) + 1) := by
    unfold Arith.alpha Arith.com
    simp only [fl]
    rw [show (1 : ℚ) + ((s : ℚ) - 1) / 2 = ((s : ℚ) + 1) / 2 by ring, one_div_div]
  have ho : exactArith.oldFactor s = 1 - 2 / ((s : ℚ) + 1) := by
    unfold Arith.oldFactor
    rw [ha, fl]
  have hc : (exactArith.com s = 1) = (2 / ((s : ℚ) + 1) = 1 / 2) := by
    unfold Arith.com
    rw [fl, eq_iff_iff, div_eq_div_iff (by positivity) (by norm_num), div_eq_iff (by norm_num)]
    constructor <;> intro h <;> linarith
  funext st x
  unfold Arith.ewmStep TTI.ewmStep
  rw [ha, ho]
  rcases st with ⟨_ | ⟨w, o⟩, k⟩ <;> cases x <;> simp only [fl, hc]

theorem ewm (s m : ℕ) : exactArith.ewm s m = TTI.ewm s m := by
  funext xs
  unfold Arith.ewm TTI.ewm ewmAlpha
  rw [ewmStep]

/-! ## Windows -/

/-- What the variables of the loop hold when the values `v` are in the window and `all` have been seen. -/
structure Holds (v all : List ℚ) (st : Arith.Roll) : Prop where
  sum : st.sum = v.sum
  addRest : st.addRest = 0
  removeRest : st.removeRest = 0
  nobs : st.nobs = v.length
  negatives : st.negatives = (v.filter fun q => decide (q < 0)).length
  same : (st.same = 0 ∧ all = []) ∨ ∃ pre q, st.previous = .fin q ∧ all = pre ++ List.replicate st.same q ∧ 1 ≤ st.same
  suffix : v <:+ all

theorem Holds.add {v all : List ℚ} {st : Arith.Roll} (h : Holds v all st) (q : ℚ) :
    Holds (v ++ [q]) (all ++ [q]) (exactArith.rollAdd st (.fin q)) := by
  refine ⟨?_, ?_, h.removeRest, ?_, ?_, ?_, ?_⟩
  · simp [Arith.rollAdd, h.sum, h.addRest]
  · simp [Arith.rollAdd, h.sum, h.addRest]
  · simp [Arith.rollAdd, h.nobs]
  · simp only [Arith.rollAdd, h.negatives, List.filter_append, List.length_append]
    by_cases hq : q < 0 <;> simp [hq]
  · right
    simp only [Arith.rollAdd]
    rcases h.same with ⟨h1, h2⟩ | ⟨pre, p, h1, h2, h3⟩
    · refine ⟨[], q, rfl, ?_, ?_⟩
      · rw [h1, h2]; split <;> simp
      · split <;> omega
    · by_cases hp : st.previous = .fin q
      · have hpq : p = q := by rw [h1] at hp; exact Val.fin.inj hp
        refine ⟨pre, q, rfl, ?_, ?_⟩
        · rw [if_pos hp, h2, hpq, List.replicate_succ', List.append_assoc]
        · rw [if_pos hp]; omega
      · exact ⟨all, q, rfl, by rw [if_neg hp]; rfl, by rw [if_neg hp]⟩
  · obtain ⟨t, ht⟩ := h.suffix
    exact ⟨t, by rw [← ht, List.append_assoc]⟩

theorem Holds.remove {v all : List ℚ} {st : Arith.Roll} {q : ℚ} (h : Holds (q :: v) all st) :
    Holds v all (exactArith.rollRemove st (.fin q)) := by
  refine ⟨?_, h.addRest, ?_, ?_, ?_, h.same, ?_⟩
  · simp [Arith.rollRemove, h.sum, h.removeRest]
  · simp [Arith.rollRemove, h.sum, h.removeRest]
  · simp [Arith.rollRemove, h.nobs]
  · simp only [Arith.rollRemove, h.negatives]
    by_cases hq : q < 0 <;> simp [hq]
  · obtain ⟨t, ht⟩ := h.suffix
    exact ⟨t ++ [q], by rw [← ht]; simp⟩

theorem finVals_single (x : Val) : (∃ q, x.prep = .fin q ∧ finVals [x] = [q]) ∨ (x.prep = .nan ∧ finVals [x] = []) := by
  cases x with
  | fin q => exact .inl ⟨q, rfl, rfl⟩
  | _ => exact .inr ⟨rfl, rfl⟩

theorem Holds.next {v all : List ℚ} {st : Arith.Roll} (h : Holds v all st) (x : Val) :
    Holds (v ++ finVals [x]) (all ++ finVals [x]) (exactArith.rollAdd st x.prep) := by
  rcases finVals_single x with ⟨q, h1, h2⟩ | ⟨h1, h2⟩
  · rw [h1, h2]; exact h.add q
  · rw [h1, h2]; simpa [Arith.rollAdd] using h

theorem Holds.drop {v all : List ℚ} {st : Arith.Roll} {x : Val} (h : Holds (finVals [x] ++ v) all st) :
    Holds v all (exactArith.rollRemove st x.prep) := by
  rcases finVals_single x with ⟨q, h1, h2⟩ | ⟨h1, h2⟩
  · rw [h1]; rw [h2] at h; exact h.remove
  · rw [h1]; rw [h2] at h; simpa [Arith.rollRemove] using h

theorem holds_start (p : Val) : Holds [] [] ⟨0, 0, 0, 0, 0, 0, p⟩ :=
  ⟨rfl, rfl, rfl, rfl, rfl, .inl ⟨rfl, rfl⟩, List.suffix_refl _⟩

theorem take_next (xs : List Val) (i : ℕ) (h : i < xs.length) : xs.take (i + 1) = xs.take i ++ [xs.getD i .nan] := by
  rw [List.take_succ_eq_append_getElem h, List.getD_eq_getElem _ _ h]

/-- The variables at every row. -/
theorem holds_rows (w : ℕ) (hw : 1 ≤ w) (xs : List Val) (i : ℕ) (hi : i < xs.length) :
    ∃ all, Holds (finVals (window w (xs.take (i + 1)))) all (exactArith.rollState w xs i) ∧
      (1 < w → all = finVals (xs.take (i + 1))) := by
  induction i with
  | zero =>
    refine ⟨finVals (xs.take 1), ?_, fun _ => rfl⟩
    have e : window w (xs.take (0 + 1)) = xs.take 1 := by
      unfold window
      rw [show (xs.take (0 + 1)).length - w = 0 by simp; omega]
      rfl
    rw [e, take_next xs 0 hi, List.take_zero, List.nil_append]
    exact (holds_start ((xs.getD 0 .nan).prep)).next (xs.getD 0 .nan)
  | succ i ih =>
    obtain ⟨all, h1, h2⟩ := ih (by omega)
    have hlen : (xs.take (i + 1)).length = i + 1 := by rw [List.length_take]; omega
    have hlen' : (xs.take (i + 1 + 1)).length = i + 2 := by rw [List.length_take]; omega
    have ht := take_next xs (i + 1) hi
    by_cases hw1 : w ≤ 1
    · refine ⟨finVals [xs.getD (i + 1) .nan], ?_, fun h => by omega⟩
      have e : window w (xs.take (i + 1 + 1)) = [xs.getD (i + 1) .nan] := by
        unfold window
        rw [hlen', ht, show w = 1 by omega, List.drop_append_of_le_length (by omega), List.drop_of_length_le (by omega)]
        rfl
      rw [e]
      simp only [Arith.rollState, if_pos hw1]
      exact (holds_start ((xs.getD (i + 1) .nan).prep)).next (xs.getD (i + 1) .nan)
    · refine ⟨finVals (xs.take (i + 1 + 1)), ?_, fun _ => rfl⟩
      rw [h2 (by omega)] at h1
      simp only [Arith.rollState, if_neg hw1]
      by_cases hwi : w ≤ i + 1
      · have e1 : window w (xs.take (i + 1)) = [xs.getD (i + 1 - w) .nan] ++ (xs.take (i + 1)).drop (i + 2 - w) := by
          unfold window
          rw [hlen, List.drop_eq_getElem_cons (by omega), List.getElem_take, show i + 1 - w + 1 = i + 2 - w by omega,
            List.getD_eq_getElem _ _ (by omega)]
          rfl
        have e2 : window w (xs.take (i + 1 + 1)) = (xs.take (i + 1)).drop (i + 2 - w) ++ [xs.getD (i + 1) .nan] := by
          unfold window
          rw [hlen', ht, List.drop_append_of_le_length (by omega)]
        rw [e1, finVals_append] at h1
        rw [if_pos hwi, e2, finVals_append, ht, finVals_append]
        exact h1.drop.next _
      · have e1 : window w (xs.take (i + 1)) = xs.take (i + 1) := by
          unfold window
          rw [hlen, show i + 1 - w = 0 by omega]
          rfl
        have e2 : window w (xs.take (i + 1 + 1)) = xs.take (i + 1) ++ [xs.getD (i + 1) .nan] := by
          unfold window
          rw [hlen', show i + 2 - w = 0 by omega, ht]
          rfl
        rw [e1] at h1
        rw [if_neg hwi, e2, ht, finVals_append]
        exact h1.next _

/-- The counters do not depend on the sums. -/
theorem varState_counts (A : Arith) (w : ℕ) (xs : List Val) (i : ℕ) : (A.varState w xs i).nobs = (A.rollState w xs i).nobs ∧
    (A.varState w xs i).same = (A.rollState w xs i).same ∧ (A.varState w xs i).previous = (A.rollState w xs i).previous := by
  have ha : ∀ (s : Arith.VarRoll) (t : Arith.Roll) (x : Val), (s.nobs = t.nobs ∧ s.same = t.same ∧ s.previous = t.previous) →
      ((A.varAdd s x).nobs = (A.rollAdd t x).nobs ∧ (A.varAdd s x).same = (A.rollAdd t x).same ∧
        (A.varAdd s x).previous = (A.rollAdd t x).previous) := by
    rintro s t x ⟨h1, h2, h3⟩
    cases x <;> simp [Arith.varAdd, Arith.rollAdd, h1, h2, h3]
  have hr : ∀ (s : Arith.VarRoll) (t : Arith.Roll) (x : Val), (s.nobs = t.nobs ∧ s.same = t.same ∧ s.previous = t.previous) →
      ((A.varRemove s x).nobs = (A.rollRemove t x).nobs ∧ (A.varRemove s x).same = (A.rollRemove t x).same ∧
        (A.varRemove s x).previous = (A.rollRemove t x).previous) := by
    rintro s t x ⟨h1, h2, h3⟩
    cases x with
    | fin q =>
      simp only [Arith.varRemove, Arith.rollRemove, ← h1, ← h2, ← h3]
      split
      · next h0 => exact ⟨by simp only; omega, rfl, rfl⟩
      · exact ⟨rfl, rfl, rfl⟩
    | _ => exact ⟨h1, h2, h3⟩
  induction i with
  | zero => exact ha _ _ _ ⟨rfl, rfl, rfl⟩
  | succ i ih =>
    simp only [Arith.varState, Arith.rollState]
    split
    · exact ha _ _ _ ⟨rfl, rfl, rfl⟩
    · apply ha
      split
      · exact hr _ _ _ ih
      · exact ih

/-- If the last values were the same for the length of the window, all values of the window are. -/
theorem Holds.all_same {v all : List ℚ} {st : Arith.Roll} (h : Holds v all st) (hv : v ≠ []) (hs : st.nobs ≤ st.same) :
    ∃ q, st.previous = .fin q ∧ v = List.replicate v.length q := by
  rw [h.nobs] at hs
  rcases h.same with ⟨h1, -⟩ | ⟨pre, q, h1, h2, -⟩
  · exact absurd (List.length_eq_zero_iff.1 (by omega)) hv
  · refine ⟨q, h1, List.eq_replicate_iff.2 ⟨rfl, fun b hb => ?_⟩⟩
    have h3 := h.suffix
    rw [h2] at h3
    have h4 : v <:+ List.replicate st.same q := by
      obtain ⟨t, ht⟩ := h3
      have hl := congrArg List.length ht
      simp only [List.length_append, List.length_replicate] at hl
      refine ⟨t.drop pre.length, ?_⟩
      have := congrArg (List.drop pre.length) ht
      rwa [List.drop_append_of_le_length (by omega), List.drop_left] at this
    exact List.eq_of_mem_replicate (h4.subset hb)

theorem sum_le_zero (v : List ℚ) (h : ∀ q ∈ v, q ≤ 0) : v.sum ≤ 0 := by
  induction v with
  | nil => simp
  | cons a l ih =>
    rw [List.sum_cons]
    have h1 := h a (by simp)
    have h2 := ih fun q hq => h q (by simp [hq])
    linarith

theorem Holds.mean {v all : List ℚ} {st : Arith.Roll} (h : Holds v all st) (m : ℕ) :
    exactArith.calcMean m st = if m ≤ v.length then aggMean v else .nan := by
  unfold Arith.calcMean aggMean
  rw [h.nobs]
  by_cases hv : v = []
  · subst hv; simp
  have hl : 0 < v.length := List.length_pos_iff.2 hv
  have hl' : (0 : ℚ) < v.length := by exact_mod_cast hl
  by_cases hm : m ≤ v.length
  swap
  · rw [if_neg (by tauto), if_neg hm]
  rw [if_pos ⟨hm, hl⟩, if_pos hm, if_neg hv]
  simp only [fl, h.sum]
  split
  · next hs =>
    obtain ⟨q, h1, h2⟩ := h.all_same hv (by rw [h.nobs]; exact hs)
    rw [h1]
    congr 1
    have : v.sum = v.length * q := by
      conv_lhs => rw [h2]
      rw [List.sum_replicate, nsmul_eq_mul]
    rw [this]; field_simp
  · rw [h.negatives]
    split
    · next h1 =>
      exfalso
      have h2 : ∀ q ∈ v, 0 ≤ q := fun q hq => by
        by_contra hlt
        have := List.length_eq_zero_iff.1 h1.1
        rw [List.filter_eq_nil_iff] at this
        exact this q hq (by simpa using hlt)
      have h3 := List.sum_nonneg h2
      exact absurd h1.2 (not_lt.2 (by positivity))
    · split
      · next h1 =>
        exfalso
        have h2 : ∀ q ∈ v, q < 0 := fun q hq => by
          have := List.length_filter_eq_length_iff.1 h1.1 q hq
          simpa using this
        have h3 : v.sum ≤ 0 := sum_le_zero v fun q hq => (h2 q hq).le
        exact absurd h1.2 (not_lt.2 (div_nonpos_of_nonpos_of_nonneg h3 hl'.le))
      · rfl

theorem Holds.total {v all : List ℚ} {st : Arith.Roll} (h : Holds v all st) (m : ℕ) :
    exactArith.calcSum m st = if m ≤ v.length then aggSum v else .nan := by
  unfold Arith.calcSum aggSum
  rw [h.nobs]
  by_cases hv : v = []
  · subst hv
    by_cases hm : m = 0
    · simp [hm]
    · simp [hm]
  have hl : 0 < v.length := List.length_pos_iff.2 hv
  rw [if_neg (by omega)]
  by_cases hm : m ≤ v.length
  swap
  · rw [if_neg hm, if_neg hm]
  rw [if_pos hm, if_pos hm]
  split
  · next hs =>
    obtain ⟨q, h1, h2⟩ := h.all_same hv (by rw [h.nobs]; exact hs)
    rw [h1, mul, Val.fin_mul]
    congr 1
    conv_rhs => rw [h2]
    rw [List.sum_replicate, nsmul_eq_mul, mul_comm]
  · rw [h.sum]

theorem rows_eq (g : List Val → Val) (k : ℕ → Val) (xs : List Val) (h : ∀ i < xs.length, k i = g (xs.take (i + 1))) :
    (List.range xs.length).map k = prefixMap g xs := by
  unfold prefixMap
  exact List.map_congr_left fun i hi => h i (List.mem_range.1 hi)

theorem rollMean (w m : ℕ) (hw : 1 ≤ w) (xs : List Val) : exactArith.rollMean w m xs = rolling w m aggMean xs :=
  rows_eq _ _ xs fun i hi => by
    obtain ⟨all, h, -⟩ := holds_rows w hw xs i hi
    exact h.mean m

theorem rollSum (w m : ℕ) (hw : 1 ≤ w) (xs : List Val) : exactArith.rollSum w m xs = rolling w m aggSum xs :=
  rows_eq _ _ xs fun i hi => by
    obtain ⟨all, h, -⟩ := holds_rows w hw xs i hi
    exact h.total m

/-! ## Standard deviations -/

/-- The mean and the sum of squared distances of the numbers `v`, without corrections. -/
structure Spread (v : List ℚ) (st : Arith.VarRoll) : Prop where
  mean : st.mean = v.sum / v.length
  ssq : st.ssq = (v.map fun x => x ^ 2).sum - v.sum ^ 2 / v.length
  addRest : st.addRest = 0
  removeRest : st.removeRest = 0
  nobs : st.nobs = v.length

theorem Spread.add {v : List ℚ} {st : Arith.VarRoll} (h : Spread v st) (q : ℚ) :
    Spread (v ++ [q]) (exactArith.varAdd st (.fin q)) := by
  have hn : ((v.length : ℚ) + 1) ≠ 0 := by positivity
  rcases v.eq_nil_or_concat with rfl | hv
  · have h1 := h.mean; have h2 := h.ssq; have h3 := h.nobs
    simp at h1 h2 h3
    refine ⟨?_, ?_, ?_, h.removeRest, ?_⟩ <;> simp [Arith.varAdd, h1, h2, h3, h.addRest]
  · have hl : (v.length : ℚ) ≠ 0 := by
      obtain ⟨a, b, e⟩ := hv
      rw [e]; simp; positivity
    refine ⟨?_, ?_, ?_, h.removeRest, ?_⟩
    · simp [Arith.varAdd, h.mean, h.addRest, h.nobs]; field_simp; ring
    · simp [Arith.varAdd, h.mean, h.addRest, h.nobs, h.ssq]; field_simp; ring
    · simp [Arith.varAdd, h.mean, h.addRest]
    · simp [Arith.varAdd, h.nobs]

theorem Spread.remove {v : List ℚ} {st : Arith.VarRoll} {q : ℚ} (h : Spread (q :: v) st) :
    Spread v (exactArith.varRemove st (.fin q)) := by
  have hn := h.nobs
  simp only [List.length_cons] at hn
  unfold Arith.varRemove
  simp only [hn, Nat.add_sub_cancel]
  split
  · next h0 =>
    have : v = [] := List.length_eq_zero_iff.1 h0
    subst this
    exact ⟨by simp, by simp, h.addRest, h.removeRest, rfl⟩
  · next h0 =>
    have hl : (v.length : ℚ) ≠ 0 := by exact_mod_cast h0
    have hl' : (v.length : ℚ) + 1 ≠ 0 := by positivity
    have h1 := h.mean; have h2 := h.ssq
    simp only [List.sum_cons, List.length_cons, List.map_cons, Nat.cast_add, Nat.cast_one] at h1 h2
    refine ⟨?_, ?_, h.addRest, ?_, rfl⟩
    · simp [h1, h.removeRest]; field_simp; ring
    · simp [h1, h2, h.removeRest]; field_simp; ring
    · simp [h1, h.removeRest]

theorem Spread.next {v : List ℚ} {st : Arith.VarRoll} (h : Spread v st) (x : Val) :
    Spread (v ++ finVals [x]) (exactArith.varAdd st x.prep) := by
  rcases finVals_single x with ⟨q, h1, h2⟩ | ⟨h1, h2⟩
  · rw [h1, h2]; exact h.add q
  · rw [h1, h2]; simpa [Arith.varAdd] using h

theorem Spread.drop {v : List ℚ} {st : Arith.VarRoll} {x : Val} (h : Spread (finVals [x] ++ v) st) :
    Spread v (exactArith.varRemove st x.prep) := by
  rcases finVals_single x with ⟨q, h1, h2⟩ | ⟨h1, h2⟩
  · rw [h1]; rw [h2] at h; exact h.remove
  · rw [h1]; rw [h2] at h; simpa [Arith.varRemove] using h

theorem spread_start (p : Val) : Spread [] ⟨0, 0, 0, 0, 0, 0, p⟩ := ⟨by simp, by simp, rfl, rfl, rfl⟩

theorem spread_rows (w : ℕ) (hw : 1 ≤ w) (xs : List Val) (i : ℕ) (hi : i < xs.length) :
    Spread (finVals (window w (xs.take (i + 1)))) (exactArith.varState w xs i) := by
  induction i with
  | zero =>
    have e : window w (xs.take (0 + 1)) = xs.take 1 := by
      unfold window
      rw [show (xs.take (0 + 1)).length - w = 0 by simp; omega]
      rfl
    rw [e, take_next xs 0 hi, List.take_zero, List.nil_append]
    exact (spread_start ((xs.getD 0 .nan).prep)).next (xs.getD 0 .nan)
  | succ i ih =>
    have h1 := ih (by omega)
    have hlen : (xs.take (i + 1)).length = i + 1 := by rw [List.length_take]; omega
    have hlen' : (xs.take (i + 1 + 1)).length = i + 2 := by rw [List.length_take]; omega
    have ht := take_next xs (i + 1) hi
    by_cases hw1 : w ≤ 1
    · have e : window w (xs.take (i + 1 + 1)) = [xs.getD (i + 1) .nan] := by
        unfold window
        rw [hlen', ht, show w = 1 by omega, List.drop_append_of_le_length (by omega), List.drop_of_length_le (by omega)]
        rfl
      rw [e]
      simp only [Arith.varState, if_pos hw1]
      exact (spread_start ((xs.getD (i + 1) .nan).prep)).next (xs.getD (i + 1) .nan)
    · simp only [Arith.varState, if_neg hw1]
      by_cases hwi : w ≤ i + 1
      · have e1 : window w (xs.take (i + 1)) = [xs.getD (i + 1 - w) .nan] ++ (xs.take (i + 1)).drop (i + 2 - w) := by
          unfold window
          rw [hlen, List.drop_eq_getElem_cons (by omega), List.getElem_take, show i + 1 - w + 1 = i + 2 - w by omega,
            List.getD_eq_getElem _ _ (by omega)]
          rfl
        have e2 : window w (xs.take (i + 1 + 1)) = (xs.take (i + 1)).drop (i + 2 - w) ++ [xs.getD (i + 1) .nan] := by
          unfold window
          rw [hlen', ht, List.drop_append_of_le_length (by omega)]
        rw [e1, finVals_append] at h1
        rw [if_pos hwi, e2, finVals_append]
        exact h1.drop.next _
      · have e1 : window w (xs.take (i + 1)) = xs.take (i + 1) := by
          unfold window
          rw [hlen, show i + 1 - w = 0 by omega]
          rfl
        have e2 : window w (xs.take (i + 1 + 1)) = xs.take (i + 1) ++ [xs.getD (i + 1) .nan] := by
          unfold window
          rw [hlen', show i + 2 - w = 0 by omega, ht]
          rfl
        rw [e1] at h1
        rw [if_neg hwi, e2, finVals_append]
        exact h1.next _

theorem sum_sq_sub (v : List ℚ) (m : ℚ) :
    (v.map fun x => (x - m) ^ 2).sum = (v.map fun x => x ^ 2).sum - 2 * m * v.sum + v.length * m ^ 2 := by
  induction v with
  | nil => simp
  | cons a l ih => simp only [List.map_cons, List.sum_cons, List.length_cons, ih]; push_cast; ring

theorem Spread.variance {v : List ℚ} {st : Arith.VarRoll} (h : Spread v st) (hv : v ≠ []) :
    TTI.variance 0 v = some (st.ssq / st.nobs) := by
  have hl : 0 < v.length := List.length_pos_iff.2 hv
  have hl' : (v.length : ℚ) ≠ 0 := by positivity
  unfold TTI.variance
  rw [if_neg (by omega), sum_sq_sub, h.ssq, h.nobs]
  congr 1
  push_cast
  field_simp
  ring

theorem rollStd (sq : ℚ → ℚ) (h0 : sq 0 = 0) (w m : ℕ) (hw : 1 ≤ w) (xs : List Val) :
    exactArith.rollStd sq w m xs = rolling w m (aggStd sq 0) xs :=
  rows_eq _ _ xs fun i hi => by
    obtain ⟨all, h, -⟩ := holds_rows w hw xs i hi
    have hs := spread_rows w hw xs i hi
    obtain ⟨f1, f2, f3⟩ := varState_counts exactArith w xs i
    generalize exactArith.varState w xs i = st at *
    generalize exactArith.rollState w xs i = st' at *
    simp only
    generalize finVals (window w (xs.take (i + 1))) = v at *
    unfold Arith.calcVar
    rw [hs.nobs]
    by_cases hv : v = []
    · subst hv; simp [aggStd, TTI.variance, Arith.zsqrt, ofOption]
    have hl : 0 < v.length := List.length_pos_iff.2 hv
    by_cases hm : m ≤ v.length
    swap
    · rw [if_neg (by tauto), if_neg hm]; rfl
    rw [if_pos ⟨hm, hl⟩, if_pos hm]
    unfold aggStd
    rw [hs.variance hv]
    have hnn : 0 ≤ st.ssq / st.nobs := by
      have := hs.variance hv
      unfold TTI.variance at this
      rw [if_neg (by omega), Option.some.injEq] at this
      rw [← this]
      have : 0 ≤ (v.map fun x => (x - v.sum / v.length) ^ 2).sum := List.sum_nonneg (by
        intro x hx
        rw [List.mem_map] at hx
        obtain ⟨y, -, rfl⟩ := hx
        positivity)
      push_cast
      rw [sub_zero]
      positivity
    split
    · next hc =>
      have hz : st.ssq = 0 := by
        obtain ⟨q, hq⟩ : ∃ q, v = List.replicate v.length q := by
          rcases hc with hc | hc
          · obtain ⟨a, rfl⟩ := List.length_eq_one_iff.1 hc
            exact ⟨a, rfl⟩
          · obtain ⟨q, -, hq⟩ := h.all_same hv (by rw [← f1, ← f2, hs.nobs]; exact hc)
            exact ⟨q, hq⟩
        rw [hs.ssq]
        have hl' : (v.length : ℚ) ≠ 0 := by positivity
        generalize hn : v.length = n at *
        rw [hq]
        simp only [List.map_replicate, List.sum_replicate, nsmul_eq_mul]
        field_simp
        ring
      simp [hz, Arith.zsqrt, h0, ofOption]
    · rw [hs.nobs] at hnn ⊢
      simp [Arith.zsqrt, not_lt.2 hnn, ofOption]

theorem volatilityHalf (sq : ℚ → ℚ) (h0 : sq 0 = 0) (n : ℕ) (xs : List Val) :
    Flt.volatilityHalf exactArith sq n xs = Ind.RelativeVolatilityIndex.half sq n xs := by
  unfold Flt.volatilityHalf Ind.RelativeVolatilityIndex.half Flt.volatilitySelected Ind.RelativeVolatilityIndex.selected
  simp only [divS, scaleS, addS, wilder, subS, rollStd sq h0 10 10 (by omega)]

theorem variableMa : Flt.variableMa exactArith = Ind.MovingAverage.variableMa := by
  funext n rows; unfold Flt.variableMa Ind.MovingAverage.variableMa; rw [add, mul, sub, fl]; rfl

theorem middle (w : ℕ) (F : Frame) : Flt.middle exactArith w F = Ind.IchimokuCloud.middle w F := by
  unfold Flt.middle Ind.IchimokuCloud.middle
  rw [addS, div]
  rfl

theorem total : exactArith.total = sumSkip := by
  funext xs
  unfold Arith.total sumSkip
  split
  · next h =>
    rw [show (0 : Val) = .fin 0 from rfl, foldl_fin _ h, zero_add]
    have h2 : ∀ l : List Val, finVals (l.filter fun x => !x.isNan) = finVals l := by
      intro l
      induction l with
      | nil => rfl
      | cons x l ih => cases x <;> simp [finVals, Val.isNan] at ih ⊢ <;> exact ih
    rw [h2]
    split
    · next h3 => rw [h3]; rfl
    · rfl
  · rfl

theorem cumsum : exactArith.cumsum = TTI.cumsum := by
  funext xs
  unfold Arith.cumsum TTI.cumsum sumSkip
  rw [add]

theorem ewmAlphaStep (a : ℚ) (h : a ≠ 0) : exactArith.ewmAlphaStep a = TTI.ewmStep a := by
  have h1 : (1 : ℚ) + (1 - a) / a = 1 / a := by field_simp; ring
  have h2 : ((1 - a) / a = 1) = (a = 1 / 2) := by
    rw [eq_iff_iff, div_eq_iff h]
    constructor <;> intro h <;> linarith
  funext st x
  unfold Arith.ewmAlphaStep TTI.ewmStep
  simp only [fl, h1, one_div_one_div, h2]
  rcases st with ⟨_ | ⟨w, o⟩, k⟩ <;> cases x <;> rfl

theorem ewmAlpha (a : ℚ) (h : a ≠ 0) (m : ℕ) : exactArith.ewmAlpha a m = TTI.ewmAlpha a m := by
  funext xs
  unfold Arith.ewmAlpha TTI.ewmAlpha
  rw [ewmAlphaStep a h]

theorem moneyFlowVolume : Flt.moneyFlowVolume exactArith = Ind.moneyFlowVolume := by
  funext F; unfold Flt.moneyFlowVolume Ind.moneyFlowVolume; rw [divS, mulS, subS]

theorem volumeIndex : Flt.volumeIndex exactArith = Ind.volumeIndex := by
  funext m rows; unfold Flt.volumeIndex Ind.volumeIndex; rw [add, sub, mul, div]; rfl

theorem priceVolumeTrend : Flt.priceVolumeTrend exactArith = Ind.PriceAndVolumeTrend.trend := by
  funext rows; unfold Flt.priceVolumeTrend Ind.PriceAndVolumeTrend.trend; rw [add, sub, mul, div]; rfl

theorem trueRange : Flt.trueRange exactArith = Ind.trueRange := by
  funext pick F; unfold Flt.trueRange Ind.trueRange; rw [subS]

theorem seeText : Flt.seeText exactArith = Ind.RangeIndicator.seeText := by
  funext x y z; unfold Flt.seeText Ind.RangeIndicator.seeText; rw [sub, div]

theorem rangeScaled : Flt.rangeScaled exactArith = Ind.RangeIndicator.scaled := by
  funext x y z; unfold Flt.rangeScaled Ind.RangeIndicator.scaled; rw [sub, mul, div]

theorem momentumIndex : Flt.momentumIndex exactArith = Ind.RelativeMomentumIndex.raw := by
  funext n m c; unfold Flt.momentumIndex Ind.RelativeMomentumIndex.raw; rw [subS, divS, scaleS, add]; simp only [wilder]

theorem upward : Flt.upward exactArith = Ind.RelativeStrengthIndex.upward := by
  funext x y; unfold Flt.upward Ind.RelativeStrengthIndex.upward; rw [sub, round]

theorem downward : Flt.downward exactArith = Ind.RelativeStrengthIndex.downward := by
  funext x y; unfold Flt.downward Ind.RelativeStrengthIndex.downward; rw [sub, round]

theorem strengthSmooth : Flt.strengthSmooth exactArith = Ind.RelativeStrengthIndex.smooth := by
  funext n xs; unfold Flt.strengthSmooth Ind.RelativeStrengthIndex.smooth; rw [sub, round, add, div, mean]

theorem strengthIndex : Flt.strengthIndex exactArith = Ind.RelativeStrengthIndex.raw := by
  funext n xs; unfold Flt.strengthIndex Ind.RelativeStrengthIndex.raw
  rw [strengthSmooth, upward, downward, divS, sub, div, add]

theorem cumulative : Flt.cumulative exactArith = Ind.KlingerOscillator.cumulative := by
  funext rows; unfold Flt.cumulative Ind.KlingerOscillator.cumulative; rw [add]; rfl

theorem wadRow : Flt.wadRow exactArith = Ind.WilliamsAccumulationDistribution.row := by
  funext a b c d; unfold Flt.wadRow Ind.WilliamsAccumulationDistribution.row; rw [sub]

theorem differences : Flt.differences exactArith = Ind.CommodityChannelIndex.differences := by
  funext n rows; unfold Flt.differences Ind.CommodityChannelIndex.differences; rw [sub, add]; rfl

theorem plusDm : Flt.plusDm exactArith = Ind.DirectionalMovementIndex.plusDm := by
  funext a b c d; unfold Flt.plusDm Ind.DirectionalMovementIndex.plusDm; rw [sub]

theorem minusDm : Flt.minusDm exactArith = Ind.DirectionalMovementIndex.minusDm := by
  funext a b c d; unfold Flt.minusDm Ind.DirectionalMovementIndex.minusDm; rw [sub]

theorem smooth14 : Flt.smooth14 exactArith = Ind.DirectionalMovementIndex.smooth14 := by
  funext xs; unfold Flt.smooth14 Ind.DirectionalMovementIndex.smooth14; rw [sub, add, div, total]

theorem adxOf : Flt.adxOf exactArith = Ind.DirectionalMovementIndex.adxOf := by
  funext xs; unfold Flt.adxOf Ind.DirectionalMovementIndex.adxOf; rw [mul, add, div, total]

theorem sarOf : Flt.sarOf exactArith = Ind.ParabolicSAR.sarOf := by
  funext h l i p; unfold Flt.sarOf Ind.ParabolicSAR.sarOf; rw [add, mul, sub]

theorem sarFirst (h l : List Val) : Flt.sarFirst exactArith h l = Ind.ParabolicSAR.firstRow h l := by
  unfold Flt.sarFirst Ind.ParabolicSAR.firstRow Flt.sarStart
  simp only [fl]
  split <;> rfl

theorem sarReversed (h l : List Val) (i : ℕ) (p : Ind.ParabolicSAR.Row) :
    Flt.sarReversed exactArith h l i p = Ind.ParabolicSAR.reversed h l i p := by
  unfold Flt.sarReversed Ind.ParabolicSAR.reversed Flt.sarStart
  simp only [fl]
  split <;> rfl

theorem sarNext (h l : List Val) (i : ℕ) (p : Ind.ParabolicSAR.Row) :
    Flt.sarNext exactArith h l i p = Ind.ParabolicSAR.nextRow h l i p := by
  unfold Flt.sarNext Ind.ParabolicSAR.nextRow Flt.sarPenetrated Ind.ParabolicSAR.penetrated Flt.sarAccel Ind.ParabolicSAR.accel
    Flt.sarStart
  simp only [sarReversed, sarOf, fl]

theorem sarRow (h l : List Val) (i : ℕ) : Flt.sarRow exactArith h l i = Ind.ParabolicSAR.rowAt h l i := by
  induction i with
  | zero => exact sarFirst h l
  | succ i ih => simp only [Flt.sarRow, Ind.ParabolicSAR.rowAt, ih, sarNext]

theorem unitRatio (w : ℕ) (hw : 1 ≤ w) (xs ys : List Val) :
    Flt.unitRatio exactArith w xs ys = Ind.UltimateOscillator.ratio w xs ys := by
  unfold Flt.unitRatio Ind.UltimateOscillator.ratio; rw [divS, rollSum _ _ hw, rollSum _ _ hw]

theorem cmo_nine (F : Frame) (h : ¬ F.len < 9) : Ind.ChandeMomentumOscillator.calcTi 9 F = .ok ⟨F.idx, [("cmo",
    exactArith.roundS 4 (exactArith.divS (exactArith.scaleS 100 (exactArith.subS (exactArith.rollSum 9 9 (zeroBelow (exactArith.subS (F.col "close") (shift 1 (F.col "close")))))
      ((exactArith.rollSum 9 9 (zeroAbove (exactArith.subS (F.col "close") (shift 1 (F.col "close"))))).map Val.abs)))
      (exactArith.addS (exactArith.rollSum 9 9 (zeroBelow (exactArith.subS (F.col "close") (shift 1 (F.col "close")))))
        ((exactArith.rollSum 9 9 (zeroAbove (exactArith.subS (F.col "close") (shift 1 (F.col "close"))))).map Val.abs))))]⟩ := by
  unfold Ind.ChandeMomentumOscillator.calcTi
  rw [if_neg h]
  simp only [roundS, subS, divS, scaleS, addS, rollSum _ _ (show 1 ≤ 9 by omega), diffS]

theorem calcTi (E : Env) (hE : E.sq 0 = 0) (F : Frame) (ind : Ind) (hp : ind.Pos) : Flt.calcTi exactArith E F ind = ind.calcTi E F := by
  cases ind
  case movingAverage n t =>
    have hn : 1 ≤ n := hp.1
    cases t
    case variableType =>
      by_cases hlt : F.len < 22
      · simp [Flt.calcTi, Ind.calcTi, Ind.MovingAverage.calcTi, hlt, bind, Except.bind, throw, throwThe, MonadExceptOf.throw]
      · have h9 : ¬ (F.sub ["close"]).len < 9 := by rw [show (F.sub ["close"]).len = F.len from rfl]; omega
        have hC := cmo_nine (F.sub ["close"]) h9
        simp only [Flt.calcTi, Ind.calcTi, Ind.MovingAverage.calcTi, hC, if_neg hlt, hlt, false_and, and_false, if_false, ne_eq,
          not_true_eq_false, pure, Except.pure, bind, Except.bind, Frame.col_single, roundS, variableMa, Flt.volatilityRatio, div]
        rfl
    all_goals
      by_cases hlt : F.len < n <;>
      simp [Flt.calcTi, Ind.calcTi, Ind.MovingAverage.calcTi, roundS, rollMean _ _ hn, ewm, hlt, bind, Except.bind, pure, Except.pure,
        throw, throwThe, MonadExceptOf.throw] <;> rfl
  case standardDeviation n =>
    simp only [Flt.calcTi, Ind.calcTi, Ind.StandardDeviation.calcTi, roundS, rollStd _ hE _ _ (show 1 ≤ n from hp)]
  case bollingerBands n s =>
    have hn : 1 ≤ n := by simp only [Ind.Pos] at hp; omega
    simp only [Flt.calcTi, Ind.calcTi, Ind.BollingerBands.calcTi, roundS, addS, subS, mul, rollMean _ _ hn, rollStd _ hE _ _ hn]
  case relativeVolatilityIndex n =>
    simp only [Flt.calcTi, Ind.calcTi, Ind.RelativeVolatilityIndex.calcTi, roundS, addS, div, volatilityHalf _ hE]
    rfl
  case volumeOscillator long short =>
    simp only [Ind.Pos] at hp
    simp only [Flt.calcTi, Ind.calcTi, Ind.VolumeOscillator.calcTi, roundS, subS, rollMean _ _ (show 1 ≤ long by omega),
      rollMean _ _ (show 1 ≤ short by omega)]
  case envelopes n s =>
    simp only [Flt.calcTi, Ind.calcTi, Ind.Envelopes.calcTi, roundS, scaleS, rollMean _ _ hp.1, fl]
  case qstick n =>
    simp only [Flt.calcTi, Ind.calcTi, Ind.Qstick.calcTi, roundS, subS, div, rollSum _ _ (show 1 ≤ n from hp)]
  case detrendedPriceOscillator n =>
    simp only [Flt.calcTi, Ind.calcTi, Ind.DetrendedPriceOscillator.calcTi, roundS, subS, rollMean _ _ (show 1 ≤ n from hp)]
  case performance long target =>
    simp only [Flt.calcTi, Ind.calcTi, Ind.Performance.calcTi, roundS, sub, div, round]
    cases (F.col "close").head? <;> rfl
  case priceOscillator long short =>
    simp only [Ind.Pos] at hp
    simp only [Flt.calcTi, Ind.calcTi, Ind.PriceOscillator.calcTi, roundS, subS, divS, scaleS, rollMean _ _ (show 1 ≤ long by omega),
      rollMean _ _ (show 1 ≤ short by omega)]
  case linearRegressionSlope n =>
    have hn : 1 ≤ n := by simp only [Ind.Pos] at hp; omega
    simp only [Flt.calcTi, Ind.calcTi, Ind.LinearRegressionSlope.calcTi, roundS, subS, divS, scaleS, mulS, mul, rollSum _ _ hn]
  case chandeMomentumOscillator n =>
    have hn : 1 ≤ n := by simp only [Ind.Pos] at hp; omega
    simp only [Flt.calcTi, Ind.calcTi, Ind.ChandeMomentumOscillator.calcTi, roundS, subS, divS, scaleS, addS, rollSum _ _ hn, diffS]
  case intradayMomentumIndex n =>
    have hn : 1 ≤ n := by simp only [Ind.Pos] at hp; omega
    simp only [Flt.calcTi, Ind.calcTi, Ind.IntradayMomentumIndex.calcTi, roundS, subS, divS, scaleS, addS, rollSum _ _ hn]
  case chaikinMoneyFlow n =>
    have hn : 1 ≤ n := by simp only [Ind.Pos] at hp; omega
    simp only [Flt.calcTi, Ind.calcTi, Ind.ChaikinMoneyFlow.calcTi, roundS, divS, moneyFlowVolume, rollSum _ _ hn]
  case verticalHorizontalFilter n =>
    have hn : 1 ≤ n := by simp only [Ind.Pos] at hp; omega
    simp only [Flt.calcTi, Ind.calcTi, Ind.VerticalHorizontalFilter.calcTi, roundS, subS, divS, rollSum _ _ hn]
  case easeOfMovement n =>
    have hn : 1 ≤ n := by simp only [Ind.Pos] at hp; omega
    simp only [Flt.calcTi, Ind.calcTi, Ind.EaseOfMovement.calcTi, roundS, subS, addS, divS, scaleS, rollMean _ _ hn]
  case commodityChannelIndex n =>
    have hn : 1 ≤ n := by simp only [Ind.Pos] at hp; omega
    simp only [Flt.calcTi, Ind.calcTi, Ind.CommodityChannelIndex.calcTi, roundS, subS, divS, rollMean _ _ hn, total, div, mul, differences,
      fl]
  case stochasticOscillator k s d simple =>
    simp only [Ind.Pos] at hp
    cases simple
    · rfl
    · simp only [Flt.calcTi, Ind.calcTi, Ind.StochasticOscillator.calcTi, roundS, subS, divS, scaleS,
        rollSum _ _ (show 1 ≤ s by omega), rollMean _ _ (show 1 ≤ d by omega), if_true]
  case ultimateOscillator =>
    simp only [Flt.calcTi, Ind.calcTi, Ind.UltimateOscillator.calcTi, roundS, subS, addS, scaleS, div, unitRatio _ (show 1 ≤ 7 by omega),
      unitRatio _ (show 1 ≤ 14 by omega), unitRatio _ (show 1 ≤ 28 by omega)]
  case massIndex =>
    simp only [Flt.calcTi, Ind.calcTi, Ind.MassIndex.calcTi, roundS, subS, divS, ewm, rollSum _ _ (show 1 ≤ 25 by omega)]
  case averageTrueRange =>
    simp only [Flt.calcTi, Ind.calcTi, Ind.AverageTrueRange.calcTi, roundS, mean, trueRange, ewmAlpha (1 / 14) (by norm_num)]
  case chaikinOscillator =>
    simp only [Flt.calcTi, Ind.calcTi, Ind.ChaikinOscillator.calcTi, Ind.AccumulationDistributionLine.calcTi, roundS, subS, ewm, cumsum,
      moneyFlowVolume]
    split <;> rfl
  case parabolicSAR =>
    simp only [Flt.calcTi, Ind.calcTi, Ind.ParabolicSAR.calcTi, round, sarRow]
  all_goals first
    | rfl
    | (simp only [Flt.calcTi, Ind.calcTi, Ind.DoubleExponentialMovingAverage.calcTi, Ind.TripleExponentialMovingAverage.calcTi,
        Ind.MovingAverageConvergenceDivergence.calcTi, Ind.WildersSmoothing.calcTi, Ind.MedianPrice.calcTi, Ind.TypicalPrice.calcTi,
        Ind.WeightedClose.calcTi, Ind.PriceChannel.calcTi, Ind.IchimokuCloud.calcTi, Ind.FibonacciRetracement.calcTi, Ind.Momentum.calcTi,
        Ind.PriceRateOfChange.calcTi, Ind.VolumeRateOfChange.calcTi, Ind.WilliamsR.calcTi, Ind.MarketFacilitationIndex.calcTi,
        Ind.RangeIndicator.calcTi, Ind.RelativeMomentumIndex.calcTi, Ind.RelativeStrengthIndex.calcTi,
        Ind.StochasticMomentumIndex.calcTi, Ind.SwingIndex.calcTi, Ind.VolatilityChaikins.calcTi,
        Ind.AccumulationDistributionLine.calcTi, Ind.NegativeVolumeIndex.calcTi, Ind.PositiveVolumeIndex.calcTi,
        Ind.OnBalanceVolume.calcTi, Ind.PriceAndVolumeTrend.calcTi, Ind.KlingerOscillator.calcTi,
        Ind.WilliamsAccumulationDistribution.calcTi, Ind.DirectionalMovementIndex.calcTi,
        roundS, round, addS, subS, mulS, divS, scaleS, ewm, wilder, mean, middle, add, sub, mul, div, fl, total, cumsum, seeText,
        rangeScaled, trueRange, momentumIndex, strengthIndex, moneyFlowVolume, volumeIndex, priceVolumeTrend, cumulative, wadRow,
        plusDm, minusDm, smooth14, adxOf] <;> rfl)

theorem inputAfter (ind : Ind) (F : Frame) : Flt.inputAfter exactArith ind F = ind.inputAfter F := by
  cases ind <;> first | rfl | (simp only [Flt.inputAfter, ewm]; rfl)

end Flt.Exact

end TTI
