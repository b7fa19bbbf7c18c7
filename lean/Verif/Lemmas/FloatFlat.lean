import Verif.Lemmas.FloatExact
import Verif.Lemmas.FloatReport
import Verif.Spec.FloatFlat

set_option autoImplicit false

/-!
# Windows of equal values: lemmas for C90

The counters of pandas' loop do not depend on the arithmetic.
-/

namespace TTI

open Spec Flt

/-- The variables of the loop that are not rounded. -/
structure SameCounts (a b : Arith.Roll) : Prop where
  nobs : a.nobs = b.nobs
  negatives : a.negatives = b.negatives
  same : a.same = b.same
  previous : a.previous = b.previous

theorem SameCounts.add {a b : Arith.Roll} (h : SameCounts a b) (A B : Arith) (x : Val) : SameCounts (A.rollAdd a x) (B.rollAdd b x) := by
  obtain ⟨h1, h2, h3, h4⟩ := h
  cases x <;> first
    | exact ⟨h1, h2, h3, h4⟩
    | exact ⟨by simp [Arith.rollAdd, h1], by simp [Arith.rollAdd, h2], by simp [Arith.rollAdd, h3, h4], rfl⟩

theorem SameCounts.remove {a b : Arith.Roll} (h : SameCounts a b) (A B : Arith) (x : Val) :
    SameCounts (A.rollRemove a x) (B.rollRemove b x) := by
  obtain ⟨h1, h2, h3, h4⟩ := h
  cases x <;> first
    | exact ⟨h1, h2, h3, h4⟩
    | exact ⟨by simp [Arith.rollRemove, h1], by simp [Arith.rollRemove, h2], h3, h4⟩

theorem sameCounts (A B : Arith) (w : ℕ) (xs : List Val) (i : ℕ) : SameCounts (A.rollState w xs i) (B.rollState w xs i) := by
  induction i with
  | zero => exact SameCounts.add ⟨rfl, rfl, rfl, rfl⟩ A B _
  | succ i ih =>
    simp only [Arith.rollState]
    split
    · exact SameCounts.add ⟨rfl, rfl, rfl, rfl⟩ A B _
    · split
      · exact (ih.remove A B _).add A B _
      · exact ih.add A B _

theorem rollAdd_run (A : Arith) (st : Arith.Roll) (v : ℚ) (k : ℕ) (h : 0 < k → st.previous = .fin v ∧ k ≤ st.same) :
    (A.rollAdd st (.fin v)).previous = .fin v ∧ k + 1 ≤ (A.rollAdd st (.fin v)).same := by
  refine ⟨rfl, ?_⟩
  simp only [Arith.rollAdd]
  rcases Nat.eq_zero_or_pos k with rfl | hk
  · split <;> omega
  · obtain ⟨h1, h2⟩ := h hk
    rw [if_pos h1]; omega

/-- After `k` rows with the value `v` the counter of equal values is `k` at least. -/
theorem run_of_equal (A : Arith) (w : ℕ) (xs : List Val) (v : ℚ) (i k : ℕ) (hk : 0 < k) (hkw : k ≤ w) (hki : k ≤ i + 1)
    (hv : ∀ t < k, Arith.rollState.val xs (i - t) = .fin v) :
    (A.rollState w xs i).previous = .fin v ∧ k ≤ (A.rollState w xs i).same := by
  induction i generalizing k with
  | zero =>
    have h0 := hv 0 hk
    simp only [Arith.rollState, Nat.sub_zero] at h0 ⊢
    rw [h0]
    have := rollAdd_run A ⟨0, 0, 0, 0, 0, 0, .fin v⟩ v 0 (by omega)
    exact ⟨this.1, by omega⟩
  | succ i ih =>
    have h0 := hv 0 hk
    simp only [Nat.sub_zero] at h0
    simp only [Arith.rollState]
    rw [h0]
    split
    · have := rollAdd_run A ⟨0, 0, 0, 0, 0, 0, .fin v⟩ v 0 (by omega)
      exact ⟨this.1, by omega⟩
    · obtain ⟨k, rfl⟩ : ∃ k', k = k' + 1 := ⟨k - 1, by omega⟩
      have hst : 0 < k → (A.rollState w xs i).previous = .fin v ∧ k ≤ (A.rollState w xs i).same := fun h =>
        ih k h (by omega) (by omega) fun t ht => by
          have := hv (t + 1) (by omega)
          rwa [show i + 1 - (t + 1) = i - t by omega] at this
      apply rollAdd_run
      intro h
      split
      · have hr : ∀ x, (A.rollRemove (A.rollState w xs i) x).previous = (A.rollState w xs i).previous ∧
            (A.rollRemove (A.rollState w xs i) x).same = (A.rollState w xs i).same := by
          intro x; cases x <;> exact ⟨rfl, rfl⟩
        rw [(hr _).1, (hr _).2]
        exact hst h
      · exact hst h

/-- The numbers in the window at row `i`. -/
def inWindow (w : ℕ) (xs : List Val) (i : ℕ) : List ℚ := finVals (window w (xs.take (i + 1)))

theorem inWindow_length_le (w : ℕ) (xs : List Val) (i : ℕ) : (inWindow w xs i).length ≤ w := by
  refine (finVals_length_le _).trans ?_
  unfold window
  rw [List.length_drop]; omega

theorem roll_counts (A : Arith) (w : ℕ) (hw : 1 ≤ w) (xs : List Val) (i : ℕ) (hi : i < xs.length) :
    (A.rollState w xs i).nobs = (inWindow w xs i).length ∧
    (A.rollState w xs i).negatives = ((inWindow w xs i).filter fun q => decide (q < 0)).length ∧
    (inWindow w xs i ≠ [] → (A.rollState w xs i).nobs ≤ (A.rollState w xs i).same →
      ∃ q ∈ inWindow w xs i, (A.rollState w xs i).previous = .fin q) := by
  obtain ⟨all, h, -⟩ := Exact.holds_rows w hw xs i hi
  have hs := sameCounts A exactArith w xs i
  refine ⟨by rw [hs.nobs, h.nobs]; rfl, by rw [hs.negatives, h.negatives]; rfl, fun hne hsame => ?_⟩
  rw [hs.nobs, hs.same] at hsame
  obtain ⟨q, h1, h2⟩ := h.all_same hne hsame
  refine ⟨q, ?_, by rw [hs.previous, h1]⟩
  unfold inWindow at hne ⊢
  rw [h2, List.mem_replicate]
  exact ⟨by rw [Ne, List.length_eq_zero_iff]; exact hne, rfl⟩

theorem window_of_equal (w : ℕ) (xs : List Val) (v : ℚ) (i : ℕ) (hi : i < xs.length) (hw : w ≤ i + 1)
    (hv : ∀ t < w, Arith.rollState.val xs (i - t) = .fin v) : inWindow w xs i = List.replicate w v := by
  have e : window w (xs.take (i + 1)) = List.replicate w (Val.fin v) := by
    apply List.ext_getElem
    · unfold window; rw [List.length_drop, List.length_take, List.length_replicate]; omega
    · intro j h1 h2
      rw [List.length_replicate] at h2
      have ew : window w (xs.take (i + 1)) = (xs.take (i + 1)).drop ((xs.take (i + 1)).length - w) := rfl
      rw [List.getElem_of_eq ew, List.getElem_drop, List.getElem_take, List.getElem_replicate]
      have := hv (w - 1 - j) (by omega)
      unfold Arith.rollState.val at this
      have hl : (xs.take (i + 1)).length = i + 1 := by rw [List.length_take]; omega
      rw [show i - (w - 1 - j) = i + 1 - w + j by omega, List.getD_eq_getElem _ _ (by omega)] at this
      simp only [hl]
      revert this
      generalize xs[i + 1 - w + j] = x
      cases x <;> simp [Val.prep]
  unfold inWindow
  rw [e]
  clear e hv hw
  induction w with
  | zero => rfl
  | succ w ih => simp only [List.replicate_succ, finVals, List.filterMap_cons] at ih ⊢; rw [ih]

theorem rollState_val (xs : List Val) (i : ℕ) : Arith.rollState.val xs i = (val xs i).prep := rfl

/-- The mean of `w` equal values. -/
theorem flat_mean (A : Arith) (w m : ℕ) (hw : 1 ≤ w) (hm : m ≤ w) (xs : List Val) (v : ℚ) (i : ℕ) (hi : i < xs.length) (hwi : w ≤ i + 1)
    (hv : ∀ t < w, val xs (i - t) = .fin v) : val (A.rollMean w m xs) i = .fin v := by
  have hv' : ∀ t < w, Arith.rollState.val xs (i - t) = .fin v := fun t ht => by rw [rollState_val, hv t ht]; rfl
  obtain ⟨h1, h2⟩ := run_of_equal A w xs v i w hw (le_refl _) hwi hv'
  have hn := (roll_counts A w hw xs i hi).1
  rw [window_of_equal w xs v i hi hwi hv', List.length_replicate] at hn
  unfold val Arith.rollMean
  rw [List.getD_eq_getElem _ _ (by simpa using hi), List.getElem_map, List.getElem_range]
  unfold Arith.calcMean
  rw [hn, if_pos ⟨hm, hw⟩]
  simp only
  rw [if_pos h2, h1]

/-- The sum of `w` equal values. -/
theorem flat_sum (A : Arith) (w m : ℕ) (hw : 1 ≤ w) (hm : m ≤ w) (xs : List Val) (v : ℚ) (i : ℕ) (hi : i < xs.length) (hwi : w ≤ i + 1)
    (hv : ∀ t < w, val xs (i - t) = .fin v) : val (A.rollSum w m xs) i = .fin (A.fl (v * w)) := by
  have hv' : ∀ t < w, Arith.rollState.val xs (i - t) = .fin v := fun t ht => by rw [rollState_val, hv t ht]; rfl
  obtain ⟨h1, h2⟩ := run_of_equal A w xs v i w hw (le_refl _) hwi hv'
  have hn := (roll_counts A w hw xs i hi).1
  rw [window_of_equal w xs v i hi hwi hv', List.length_replicate] at hn
  unfold val Arith.rollSum
  rw [List.getD_eq_getElem _ _ (by simpa using hi), List.getElem_map, List.getElem_range]
  unfold Arith.calcSum
  rw [hn, if_neg (by omega), if_pos hm, if_pos h2, h1]
  rfl

/-- The sign of a mean. -/
theorem mean_sign (A : Arith) (w m : ℕ) (hw : 1 ≤ w) (xs : List Val) (i : ℕ) (hi : i < xs.length) (q : ℚ)
    (hq : val (A.rollMean w m xs) i = .fin q) :
    ((∀ x ∈ inWindow w xs i, 0 ≤ x) → 0 ≤ q) ∧ ((∀ x ∈ inWindow w xs i, x < 0) → q ≤ 0) := by
  obtain ⟨h1, h2, h3⟩ := roll_counts A w hw xs i hi
  unfold val Arith.rollMean at hq
  rw [List.getD_eq_getElem _ _ (by simpa using hi), List.getElem_map, List.getElem_range] at hq
  unfold Arith.calcMean at hq
  simp only at hq
  split at hq
  swap
  · simp at hq
  next hm =>
  have hne : inWindow w xs i ≠ [] := by
    intro h0; rw [h0] at h1; simp at h1; omega
  split at hq
  · next hs =>
    obtain ⟨p, hp, hpp⟩ := h3 hne hs
    rw [hpp] at hq
    simp only [Val.fin.injEq] at hq
    subst hq
    exact ⟨fun h => h p hp, fun h => (h p hp).le⟩
  · split at hq
    · simp only [Val.fin.injEq] at hq; subst hq
      exact ⟨fun _ => le_refl _, fun _ => le_refl _⟩
    · next hA =>
      split at hq
      · simp only [Val.fin.injEq] at hq; subst hq
        exact ⟨fun _ => le_refl _, fun _ => le_refl _⟩
      · next hB =>
        simp only [Val.fin.injEq] at hq
        subst hq
        constructor
        · intro h
          have : (A.rollState w xs i).negatives = 0 := by
            rw [h2, List.length_eq_zero_iff, List.filter_eq_nil_iff]
            intro x hx
            simpa using h x hx
          by_contra hlt
          exact hA ⟨this, not_le.1 hlt⟩
        · intro h
          have : (A.rollState w xs i).negatives = (A.rollState w xs i).nobs := by
            rw [h2, h1, List.length_filter_eq_length_iff]
            intro x hx
            simpa using h x hx
          by_contra hlt
          exact hB ⟨this, not_le.1 hlt⟩

theorem Spec.Still.mono {n m i : ℕ} {g : ℕ → ℚ} (h : Still n g i) (hm : m ≤ n) : Still m g i :=
  ⟨hm.trans h.1, fun t ht => h.2 t (lt_of_lt_of_le ht hm)⟩

/-- A quantity that has not changed for `n + m - 1` days had not changed for `n` days on each of the last `m`. -/
theorem Spec.Still.back {n m i : ℕ} {g : ℕ → ℚ} (h : Still (n + m - 1) g i) (hn : 1 ≤ n) (t : ℕ) (ht : t < m) :
    Still n g (i - t) ∧ g (i - t) = g i := by
  have e := h.2 t (by omega)
  refine ⟨⟨by have := h.1; omega, fun u hu => ?_⟩, e⟩
  rw [show i - t - u = i - (t + u) by omega, h.2 (t + u) (by omega), e]

namespace Nums

variable {n k : ℕ} {g : ℕ → ℚ} {xs : List Val} (A : Arith)

theorem flat_mean (h : Nums n k g xs) (w : ℕ) (hw : 1 ≤ w) (i : ℕ) (hi : i < n) (hs : Still w g i) (hk : k + w ≤ i + 1) :
    TTI.val (A.rollMean w w xs) i = .fin (g i) :=
  TTI.flat_mean A w w hw (le_refl _) xs (g i) i (by rw [h.len]; exact hi) hs.1 fun t ht => by
    rw [h.val _ (by omega), if_neg (by omega), hs.2 t ht]

theorem flat_sum (h : Nums n k g xs) (w : ℕ) (hw : 1 ≤ w) (i : ℕ) (hi : i < n) (hs : Still w g i) (hk : k + w ≤ i + 1) :
    TTI.val (A.rollSum w w xs) i = .fin (A.fl (g i * w)) :=
  TTI.flat_sum A w w hw (le_refl _) xs (g i) i (by rw [h.len]; exact hi) hs.1 fun t ht => by
    rw [h.val _ (by omega), if_neg (by omega), hs.2 t ht]

end Nums

theorem highest_still {w : ℕ} (hw : 1 ≤ w) {g : ℕ → ℚ} {i : ℕ} (h : Still w g i) : highest w g i = g i := by
  obtain ⟨-, t, ht, e⟩ := Nums.highest_spec w hw g i
  rw [e, h.2 t ht]

theorem lowest_still {w : ℕ} (hw : 1 ≤ w) {g : ℕ → ℚ} {i : ℕ} (h : Still w g i) : lowest w g i = g i := by
  obtain ⟨-, t, ht, e⟩ := Nums.lowest_spec w hw g i
  rw [e, h.2 t ht]

/-- An exponential average of values that have never changed. -/
theorem ema_still (A : Arith) (s k : ℕ) (g : ℕ → ℚ) (i : ℕ) (hk : k ≤ i) (h : ∀ j, k ≤ j → j ≤ i → g j = g i) : A.ema s k g i = g i := by
  have key : ∀ j, k ≤ j → j ≤ i → A.ema s k g j = g i := by
    intro j h1 h2
    induction j with
    | zero =>
      have : k = 0 := by omega
      subst this
      show g 0 = g i
      exact h 0 h1 h2
    | succ j ih =>
      rcases Nat.lt_or_ge j k with hj | hj
      · have e : k = j + 1 := by omega
        subst e
        show running (j + 1) (g (j + 1)) (A.emaNext s) g (j + 1) = g i
        rw [running_start _ _ _ _ _ (le_refl _)]
        exact h _ h1 h2
      · show running k (g k) (A.emaNext s) g (j + 1) = g i
        rw [running_next _ _ _ _ _ hj]
        have := ih hj (by omega)
        unfold Arith.ema at this
        rw [this, h (j + 1) h1 h2]
        simp [Arith.emaNext]
  exact key i hk (le_refl _)

theorem round_zero (A : Arith) (h0 : A.fl 0 = 0) (k : ℕ) : A.round k (.fin 0) = .fin 0 := by
  have e : rint 0 = 0 := by decide +kernel
  simp [Arith.round, h0, e]

/-- A row of the price columns, added up. -/
theorem total_fin (A : Arith) (l : List Val) (h : ∀ x ∈ l, ∃ q, x = .fin q) : ∃ q, A.total l = .fin q := by
  unfold Arith.total
  rw [if_pos]
  · split_ifs <;> exact ⟨_, rfl⟩
  · rw [List.all_eq_true]
    intro x hx
    obtain ⟨q, rfl⟩ := h x (List.mem_filter.1 hx).1
    rfl

theorem val_fadd (A : Arith) (xs ys : List Val) (i : ℕ) : val (A.addS xs ys) i = A.add (val xs i) (val ys i) :=
  val_zipV_nan _ (fun y => by simp [Arith.add, Arith.rd]) (fun x => by simp [Arith.add, Arith.rd]) _ _ _

/-- The operations on numbers. -/
theorem fl_sub (A : Arith) (a b : ℚ) : A.sub (.fin a) (.fin b) = .fin (A.fl (a - b)) := by simp [Arith.sub, Arith.rd]
theorem fl_add (A : Arith) (a b : ℚ) : A.add (.fin a) (.fin b) = .fin (A.fl (a + b)) := by simp [Arith.add, Arith.rd]
theorem fl_mul (A : Arith) (a b : ℚ) : A.mul (.fin a) (.fin b) = .fin (A.fl (a * b)) := by simp [Arith.mul, Arith.rd]
theorem fl_div (A : Arith) (a b : ℚ) (h : b ≠ 0) : A.div (.fin a) (.fin b) = .fin (A.fl (a / b)) := by
  simp [Arith.div, Arith.rd, quotient_eq, quotient_ne _ _ h]
theorem fl_zero_div_zero (A : Arith) : A.div (.fin 0) (.fin 0) = .nan := by
  simp [Arith.div, Arith.rd, quotient_eq, quotient]

end TTI
