import Verif.Lemmas.FloatErr

set_option autoImplicit false

/-! Rolling sums and means in rounded arithmetic. -/

namespace TTI

open Spec Flt Sim

variable {R : Rounding}

/-- One compensated addition. -/
theorem kahan (hu : R.unit ≤ 1 / 10000) (s S c v E B : ℚ) (hs : |s - S| ≤ E) (hE : E ≤ 1 / 20 * B) (hc : |c| ≤ 3 * R.unit * B)
    (hv : |v| ≤ B) (hS : |S + v| ≤ B) :
    |R.fl (s + R.fl (v - c)) - (S + v)| ≤ E + 11 / 2 * R.unit * B ∧
      |R.fl (R.fl (R.fl (s + R.fl (v - c)) - s) - R.fl (v - c))| ≤ 3 * R.unit * B := by
  have hu0 := R.nonneg
  have hB : 0 ≤ B := (abs_nonneg v).trans hv
  have huB : R.unit * B ≤ 1 / 10000 * B := mul_le_mul_of_nonneg_right hu hB
  have huB0 := mul_nonneg hu0 hB
  have y1 := R.error (v - c)
  have hvc : |v - c| ≤ 101 / 100 * B := by
    have := abs_sub v c
    linarith
  have y2 : |R.fl (v - c) - v| ≤ 402 / 100 * R.unit * B := by
    have h1 := abs_add_le (R.fl (v - c) - (v - c)) (-c)
    rw [abs_neg, show R.fl (v - c) - (v - c) + -c = R.fl (v - c) - v by ring] at h1
    have h2 := mul_le_mul_of_nonneg_left hvc hu0
    linarith
  generalize R.fl (v - c) = y at *
  have t1 : |s + y| ≤ 106 / 100 * B := by
    have h1 := abs_add_le (s - S + (y - v)) (S + v)
    rw [show s - S + (y - v) + (S + v) = s + y by ring] at h1
    have h2 := abs_add_le (s - S) (y - v)
    linarith
  have t2 := R.error (s + y)
  have t3 : |R.fl (s + y) - (s + y)| ≤ 106 / 100 * R.unit * B := by
    have := mul_le_mul_of_nonneg_left t1 hu0
    linarith
  generalize R.fl (s + y) = t at *
  constructor
  · have h1 := abs_add_le (t - (s + y)) (s - S + (y - v))
    rw [show t - (s + y) + (s - S + (y - v)) = t - (S + v) by ring] at h1
    have h2 := abs_add_le (s - S) (y - v)
    linarith
  · have hy : |y| ≤ 101 / 100 * B := by
      have := abs_add_le (y - v) v
      rw [sub_add_cancel] at this
      linarith
    have d1 : |t - s| ≤ 102 / 100 * B := by
      have := abs_add_le (t - (s + y)) y
      rw [show t - (s + y) + y = t - s by ring] at this
      linarith
    have d2 := R.error (t - s)
    have d3 : |R.fl (t - s) - (t - s)| ≤ 102 / 100 * R.unit * B := by
      have := mul_le_mul_of_nonneg_left d1 hu0
      linarith
    generalize R.fl (t - s) = q at *
    have r1 : |q - y| ≤ 208 / 100 * R.unit * B := by
      have := abs_add_le (q - (t - s)) (t - (s + y))
      rw [show q - (t - s) + (t - (s + y)) = q - y by ring] at this
      linarith
    have r2 := R.error (q - y)
    have r3 := abs_add_le (R.fl (q - y) - (q - y)) (q - y)
    rw [sub_add_cancel] at r3
    have r4 : R.unit * |q - y| ≤ 1 / 10000 * |q - y| := mul_le_mul_of_nonneg_right hu (abs_nonneg _)
    linarith

/-- What holds of the variables of the loop at row `i`. -/
structure RollInv (R : Rounding) (w k : ℕ) (g : ℕ → ℚ) (M : ℚ) (i : ℕ) (st : Arith.Roll) : Prop where
  sum : |st.sum - ∑ j ∈ Finset.Ico (max k (i + 1 - w)) (i + 1), g j| ≤ 11 * R.unit * (i + 1) * (w * M)
  addRest : |st.addRest| ≤ 3 * R.unit * (w * M)
  removeRest : |st.removeRest| ≤ 3 * R.unit * (w * M)
  nobs : st.nobs = i + 1 - max k (i + 1 - w)
  negatives : st.negatives = ((Finset.Ico (max k (i + 1 - w)) (i + 1)).filter fun j => g j < 0).card
  same : ∀ j, k ≤ j → j ≤ i → i < j + st.same → st.previous = .fin (g j)

theorem ico_abs (g : ℕ → ℚ) (M : ℚ) (a b w : ℕ) (hM : 0 ≤ M) (hg : ∀ j, a ≤ j → j < b → |g j| ≤ M) (hw : b ≤ a + w) :
    |∑ j ∈ Finset.Ico a b, g j| ≤ w * M := by
  calc _ ≤ ∑ j ∈ Finset.Ico a b, |g j| := Finset.abs_sum_le_sum_abs _ _
    _ ≤ ∑ _j ∈ Finset.Ico a b, M := Finset.sum_le_sum fun j hj => by
      rw [Finset.mem_Ico] at hj; exact hg j hj.1 hj.2
    _ = ((b - a : ℕ) : ℚ) * M := by simp
    _ ≤ _ := mul_le_mul_of_nonneg_right (by exact_mod_cast (by omega : b - a ≤ w)) hM

variable {n k : ℕ} {g : ℕ → ℚ} {xs : List Val}

theorem rollVal (h : Nums n k g xs) (i : ℕ) (hi : i < n) :
    Arith.rollState.val xs i = if i < k then .nan else .fin (g i) := by
  have := h.val i hi
  unfold TTI.val at this
  unfold Arith.rollState.val
  rw [this]
  split <;> rfl

/-- Adding the new row. -/
theorem RollInv.add (A : Arith) (hA : A.fl = R.fl) (hu : R.unit ≤ 1 / 10000) {w : ℕ} {M : ℚ} {i : ℕ} (hw : 1 ≤ w) (hM : 0 ≤ M)
    (hg : ∀ j, k ≤ j → j ≤ i → |g j| ≤ M) (hk : k ≤ i) (st : Arith.Roll) (E : ℚ) (a : ℕ) (hka : k ≤ a) (hai : a ≤ i) (haw : i < a + w)
    (hs : |st.sum - ∑ j ∈ Finset.Ico a i, g j| ≤ E) (hE : E ≤ 1 / 20 * (w * M)) (hr : |st.addRest| ≤ 3 * R.unit * (w * M))
    (hn : st.nobs = i - a) (hneg : st.negatives = ((Finset.Ico a i).filter fun j => g j < 0).card)
    (hsame : ∀ j, k ≤ j → j < i → i ≤ j + st.same → st.previous = .fin (g j)) :
    |(A.rollAdd st (.fin (g i))).sum - ∑ j ∈ Finset.Ico a (i + 1), g j| ≤ E + 11 / 2 * R.unit * (w * M) ∧
    |(A.rollAdd st (.fin (g i))).addRest| ≤ 3 * R.unit * (w * M) ∧
    (A.rollAdd st (.fin (g i))).removeRest = st.removeRest ∧
    (A.rollAdd st (.fin (g i))).nobs = i + 1 - a ∧
    (A.rollAdd st (.fin (g i))).negatives = ((Finset.Ico a (i + 1)).filter fun j => g j < 0).card ∧
    ∀ j, k ≤ j → j ≤ i → i < j + (A.rollAdd st (.fin (g i))).same → (A.rollAdd st (.fin (g i))).previous = .fin (g j) := by
  have hw' : (1 : ℚ) ≤ w := by exact_mod_cast hw
  have e1 : ∑ j ∈ Finset.Ico a (i + 1), g j = ∑ j ∈ Finset.Ico a i, g j + g i := Finset.sum_Ico_succ_top hai g
  have hb : |∑ j ∈ Finset.Ico a (i + 1), g j| ≤ w * M :=
    ico_abs g M a (i + 1) w hM (fun j h1 h2 => hg j (by omega) (by omega)) (by omega)
  have hgi : |g i| ≤ w * M := (hg i hk (le_refl _)).trans (by nlinarith)
  rw [e1] at hb
  obtain ⟨h1, h2⟩ := kahan hu st.sum _ st.addRest (g i) E (w * M) hs hE hr hgi hb
  unfold Arith.rollAdd
  simp only [hA]
  refine ⟨by rw [e1]; exact h1, h2, trivial, by rw [hn]; omega, ?_, ?_⟩
  · have e2 : Finset.Ico a (i + 1) = insert i (Finset.Ico a i) := by
      rw [Finset.insert_Ico_right_eq_Ico_add_one hai]
    rw [e2, Finset.filter_insert]
    split
    · rw [Finset.card_insert_of_notMem (by simp), hneg]
    · exact hneg
  · intro j hj hji hlt
    by_cases hji' : j = i
    · rw [hji']
    · split at hlt
      · next hp => rw [← hsame j hj (by omega) (by omega), hp]
      · omega

/-- Removing the row that leaves. -/
theorem RollInv.remove (A : Arith) (hA : A.fl = R.fl) (hu : R.unit ≤ 1 / 10000) {w : ℕ} {M : ℚ} {i : ℕ} (hM : 0 ≤ M)
    (hw : 1 ≤ w) (a : ℕ) (hai : a < i) (haw : i ≤ a + w) (hg : ∀ j, a ≤ j → j < i → |g j| ≤ M) (st : Arith.Roll) (E : ℚ)
    (hs : |st.sum - ∑ j ∈ Finset.Ico a i, g j| ≤ E) (hE : E ≤ 1 / 20 * (w * M)) (hr : |st.removeRest| ≤ 3 * R.unit * (w * M))
    (hn : st.nobs = i - a) (hneg : st.negatives = ((Finset.Ico a i).filter fun j => g j < 0).card) :
    |(A.rollRemove st (.fin (g a))).sum - ∑ j ∈ Finset.Ico (a + 1) i, g j| ≤ E + 11 / 2 * R.unit * (w * M) ∧
    |(A.rollRemove st (.fin (g a))).removeRest| ≤ 3 * R.unit * (w * M) ∧
    (A.rollRemove st (.fin (g a))).addRest = st.addRest ∧
    (A.rollRemove st (.fin (g a))).nobs = i - (a + 1) ∧
    (A.rollRemove st (.fin (g a))).negatives = ((Finset.Ico (a + 1) i).filter fun j => g j < 0).card ∧
    (A.rollRemove st (.fin (g a))).same = st.same ∧ (A.rollRemove st (.fin (g a))).previous = st.previous := by
  have hw' : (1 : ℚ) ≤ w := by exact_mod_cast hw
  have e1 : ∑ j ∈ Finset.Ico (a + 1) i, g j = ∑ j ∈ Finset.Ico a i, g j + -g a := by
    rw [Finset.sum_eq_sum_Ico_succ_bot hai]; ring
  have hb : |∑ j ∈ Finset.Ico (a + 1) i, g j| ≤ w * M :=
    ico_abs g M (a + 1) i w hM (fun j h1 h2 => hg j (by omega) (by omega)) (by omega)
  have hga : |-g a| ≤ w * M := by
    rw [abs_neg]
    exact (hg a (le_refl _) hai).trans (by nlinarith)
  rw [e1] at hb
  obtain ⟨h1, h2⟩ := kahan hu st.sum _ st.removeRest (-g a) E (w * M) hs hE hr hga hb
  unfold Arith.rollRemove
  simp only [hA]
  refine ⟨by rw [e1]; exact h1, h2, trivial, by rw [hn]; omega, ?_, trivial, trivial⟩
  have e2 : Finset.Ico a i = insert a (Finset.Ico (a + 1) i) := by
    rw [Finset.insert_Ico_add_one_left_eq_Ico hai]
  rw [e2, Finset.filter_insert] at hneg
  split
  · next h =>
    rw [if_pos h, Finset.card_insert_of_notMem (by simp)] at hneg
    omega
  · next h => rw [if_neg h] at hneg; exact hneg

theorem rollInv (A : Arith) (hA : A.fl = R.fl) (h : Nums n k g xs) (w : ℕ) (hw : 1 ≤ w) (M : ℚ) (hM : 0 ≤ M)
    (hg : ∀ j < n, k ≤ j → |g j| ≤ M) (hu : R.unit ≤ 1 / 10000) (hn : 220 * R.unit * n ≤ 1) (i : ℕ) (hi : i < n) :
    RollInv R w k g M i (A.rollState w xs i) := by
  have hu0 := R.nonneg
  have hw' : (1 : ℚ) ≤ w := by exact_mod_cast hw
  have hwM : 0 ≤ (w : ℚ) * M := by positivity
  have huw : 0 ≤ R.unit * (w * M) := mul_nonneg hu0 hwM
  -- a fresh sum of one row
  have fresh : ∀ i < n, (w = 1 ∨ i = 0) → RollInv R w k g M i (A.rollAdd ⟨0, 0, 0, 0, 0, 0, Arith.rollState.val xs i⟩ (Arith.rollState.val xs i)) := by
    intro i hi hwi
    rw [rollVal h i hi]
    split
    · next hik =>
      refine ⟨?_, ?_, ?_, ?_, ?_, ?_⟩ <;> unfold Arith.rollAdd <;> simp only
      · rw [Finset.Ico_eq_empty (by omega)]
        simp only [Finset.sum_empty, sub_self, abs_zero]; positivity
      · simp only [abs_zero]; positivity
      · simp only [abs_zero]; positivity
      · omega
      · rw [Finset.Ico_eq_empty (by omega)]; simp
      · intro j hj hji; omega
    · next hik =>
      obtain ⟨h1, h2, h3, h4, h5, h6⟩ := RollInv.add (k := i) A hA hu (i := i) hw hM (g := g) (fun j _ _ => by
        have : j = i := by omega
        subst this
        exact hg j hi (by omega)) (le_refl _) ⟨0, 0, 0, 0, 0, 0, .fin (g i)⟩ 0 i (le_refl _) (le_refl _) (by omega) (by simp)
        (by positivity) (by simp only [abs_zero]; positivity) (by simp) (by simp) (fun j _ _ => by omega)
      have e : max k (i + 1 - w) = i := by omega
      refine ⟨?_, h2, by rw [h3]; simp only [abs_zero]; positivity, by rw [h4, e], by rw [h5, e], ?_⟩
      · rw [e]
        refine h1.trans ?_
        have : (0 : ℚ) ≤ (i : ℚ) * (R.unit * (w * M)) := by positivity
        nlinarith
      · intro j hj hji hlt
        have hs : (A.rollAdd ⟨0, 0, 0, 0, 0, 0, .fin (g i)⟩ (.fin (g i))).same = 1 := by simp [Arith.rollAdd]
        rw [hs] at hlt
        have : j = i := by omega
        subst this
        rfl
  induction i with
  | zero => exact fresh 0 hi (Or.inr rfl)
  | succ i ih =>
    unfold Arith.rollState
    by_cases hw1 : w ≤ 1
    · rw [if_pos hw1]
      exact fresh (i + 1) hi (Or.inl (by omega))
    rw [if_neg hw1]
    have I := ih (by omega)
    simp only
    obtain ⟨st, hst⟩ : ∃ st, st = A.rollState w xs i := ⟨_, rfl⟩
    rw [← hst] at I ⊢
    -- the error so far is small
    have hin : ((i : ℚ) + 1) + 1 ≤ n := by exact_mod_cast (by omega : i + 1 + 1 ≤ n)
    have hEs : 11 * R.unit * ((i : ℚ) + 1 + 1) * (w * M) ≤ 1 / 20 * (w * M) := by
      apply mul_le_mul_of_nonneg_right _ hwM
      have := mul_le_mul_of_nonneg_left hin hu0
      linarith
    have key : ∃ E : ℚ, E ≤ 11 * R.unit * ((i : ℚ) + 1) * (w * M) + 11 / 2 * R.unit * (w * M) ∧
        ∃ s2, s2 = (if w ≤ i + 1 then A.rollRemove st (Arith.rollState.val xs (i + 1 - w)) else st) ∧
        |s2.sum - ∑ j ∈ Finset.Ico (max k (i + 2 - w)) (i + 1), g j| ≤ E ∧ |s2.addRest| ≤ 3 * R.unit * (w * M) ∧
        |s2.removeRest| ≤ 3 * R.unit * (w * M) ∧ s2.nobs = i + 1 - max k (i + 2 - w) ∧
        s2.negatives = ((Finset.Ico (max k (i + 2 - w)) (i + 1)).filter fun j => g j < 0).card ∧
        s2.same = st.same ∧ s2.previous = st.previous := by
      have keep : max k (i + 2 - w) = max k (i + 1 - w) → ∃ E : ℚ, E ≤ 11 * R.unit * ((i : ℚ) + 1) * (w * M) + 11 / 2 * R.unit * (w * M) ∧
          ∃ s2, s2 = st ∧
          |s2.sum - ∑ j ∈ Finset.Ico (max k (i + 2 - w)) (i + 1), g j| ≤ E ∧ |s2.addRest| ≤ 3 * R.unit * (w * M) ∧
          |s2.removeRest| ≤ 3 * R.unit * (w * M) ∧ s2.nobs = i + 1 - max k (i + 2 - w) ∧
          s2.negatives = ((Finset.Ico (max k (i + 2 - w)) (i + 1)).filter fun j => g j < 0).card ∧
          s2.same = st.same ∧ s2.previous = st.previous := by
        intro e
        rw [e]
        exact ⟨11 * R.unit * ((i : ℚ) + 1) * (w * M), by nlinarith, st, rfl, I.sum, I.addRest, I.removeRest, I.nobs, I.negatives, rfl, rfl⟩
      by_cases hwi : w ≤ i + 1
      · rw [if_pos hwi, rollVal h _ (by omega)]
        split
        · next hlt => exact keep (by omega)
        · next hlt =>
          have e : max k (i + 1 - w) = i + 1 - w := by omega
          have e' : max k (i + 2 - w) = i + 1 - w + 1 := by omega
          have I1 := I.sum
          have I2 := I.nobs
          have I3 := I.negatives
          rw [e] at I1 I2 I3
          rw [e']
          obtain ⟨h1, h2, h3, h4, h5, h6, h7⟩ := RollInv.remove A hA hu (i := i + 1) hM hw (i + 1 - w) (by omega) (by omega)
            (fun j _ _ => hg j (by omega) (by omega)) st _ I1 (by
              refine le_trans ?_ hEs
              nlinarith) I.removeRest I2 I3
          exact ⟨_, le_refl _, _, rfl, h1, by rw [h3]; exact I.addRest, h2, h4, h5, h6, h7⟩
      · rw [if_neg hwi]
        exact keep (by omega)
    obtain ⟨E, hE, s2, hs2, k1, k2, k3, k4, k5, k6, k7⟩ := key
    rw [← hs2, rollVal h _ hi]
    split
    · next hlt =>
      refine ⟨?_, k2, k3, ?_, ?_, ?_⟩
      · rw [Finset.Ico_eq_empty (by omega)]
        rw [Finset.Ico_eq_empty (by omega)] at k1
        refine k1.trans ?_
        push_cast
        nlinarith
      · show s2.nobs = _
        omega
      · show s2.negatives = _
        rw [k5, Finset.Ico_eq_empty (by omega), Finset.Ico_eq_empty (by omega)]
      · intro j hj hji; omega
    · next hlt =>
      obtain ⟨h1, h2, h3, h4, h5, h6⟩ := RollInv.add (k := k) A hA hu (i := i + 1) hw hM (g := g) (fun j h1 h2 => hg j (by omega) h1)
        (by omega) s2 E (max k (i + 2 - w)) (by omega) (by omega) (by omega) k1 (by
          refine hE.trans (le_trans ?_ hEs)
          nlinarith) k2 k4 k5 (fun j hj hji hlt => by
            rw [k7]
            exact I.same j hj (by omega) (by rw [k6] at hlt; omega))
      refine ⟨?_, h2, by rw [h3]; exact k3, h4, h5, h6⟩
      refine h1.trans ?_
      push_cast
      linarith

theorem sumLast_Ico (w : ℕ) (g : ℕ → ℚ) (i : ℕ) (hi : w ≤ i + 1) : ∑ j ∈ Finset.Ico (i + 1 - w) (i + 1), g j = sumLast w g i := by
  unfold sumLast
  rw [Finset.sum_Ico_eq_sum_range, show i + 1 - (i + 1 - w) = w by omega, ← Finset.sum_range_reflect]
  refine Finset.sum_congr rfl fun t ht => ?_
  rw [Finset.mem_range] at ht
  congr 1
  omega

theorem meanLast_abs (w : ℕ) (hw : 1 ≤ w) (g : ℕ → ℚ) (i : ℕ) (M : ℚ) (h : ∀ t < w, |g (i - t)| ≤ M) : |meanLast w g i| ≤ M := by
  have hw' : (0 : ℚ) < w := by exact_mod_cast hw
  unfold meanLast sumLast
  rw [abs_div, abs_of_pos hw', div_le_iff₀ hw']
  calc _ ≤ ∑ t ∈ Finset.range w, |g (i - t)| := Finset.abs_sum_le_sum_abs _ _
    _ ≤ ∑ _t ∈ Finset.range w, M := Finset.sum_le_sum fun t ht => h t (Finset.mem_range.1 ht)
    _ = _ := by simp; ring

theorem meanLast_sub (w : ℕ) (g x : ℕ → ℚ) (i : ℕ) : meanLast w g i - meanLast w x i = meanLast w (fun j => g j - x j) i := by
  unfold meanLast sumLast
  rw [Finset.sum_sub_distrib]; ring

/-- The rows of a window that has been equal for its whole length. -/
theorem RollInv.all_same {w i : ℕ} {M : ℚ} {st : Arith.Roll} (h : RollInv R w k g M i st) (hw : 1 ≤ w) (hi : k + w ≤ i + 1)
    (hs : st.nobs ≤ st.same) : st.previous = .fin (g i) ∧ sumLast w g i = w * g i := by
  have hn := h.nobs
  have h1 := h.same i (by omega) (le_refl _) (by omega)
  refine ⟨h1, ?_⟩
  unfold sumLast
  have : ∀ t ∈ Finset.range w, g (i - t) = g i := fun t ht => by
    rw [Finset.mem_range] at ht
    have := h.same (i - t) (by omega) (by omega) (by omega)
    rw [h1] at this
    exact (Val.fin.inj this).symm
  rw [Finset.sum_congr rfl this]
  simp

/-- The signs of the rows of a window. -/
theorem RollInv.signs {w i : ℕ} {M : ℚ} {st : Arith.Roll} (h : RollInv R w k g M i st) (hi : k + w ≤ i + 1) :
    (st.negatives = 0 → 0 ≤ sumLast w g i) ∧ (st.negatives = st.nobs → sumLast w g i ≤ 0) := by
  have e : max k (i + 1 - w) = i + 1 - w := by omega
  have hg := h.negatives
  have hn := h.nobs
  rw [e] at hg hn
  rw [← sumLast_Ico w g i (by omega)]
  constructor
  · intro h0
    rw [h0] at hg
    rw [eq_comm, Finset.card_eq_zero, Finset.filter_eq_empty_iff] at hg
    exact Finset.sum_nonneg fun j hj => not_lt.1 (hg hj)
  · intro h0
    rw [h0, hn] at hg
    have hc : (Finset.Ico (i + 1 - w) (i + 1)).card = i + 1 - (i + 1 - w) := Nat.card_Ico _ _
    rw [← hc, eq_comm, Finset.card_filter_eq_iff] at hg
    exact Finset.sum_nonpos fun j hj => (hg j hj).le

/-- Rolling means. -/
theorem Nums.frollMean (A : Arith) (hA : A.fl = R.fl) (h : Nums n k g xs) (w : ℕ) (hw : 1 ≤ w) (M : ℚ) (hM : 0 ≤ M)
    (hg : ∀ j < n, k ≤ j → |g j| ≤ M) (hu : R.unit ≤ 1 / 10000) (hn : 220 * R.unit * n ≤ 1) :
    ∃ gm : ℕ → ℚ, Nums n (k + w - 1) gm (A.rollMean w w xs) ∧
      ∀ i < n, k + w - 1 ≤ i → |gm i - meanLast w g i| ≤ 13 * R.unit * n * M := by
  have hw' : (1 : ℚ) ≤ w := by exact_mod_cast hw
  have hu0 := R.nonneg
  have key : ∀ i < n, TTI.val (A.rollMean w w xs) i = A.calcMean w (A.rollState w xs i) := by
    intro i hi
    unfold Arith.rollMean
    rw [val_lt _ _ (by simp [h.len]; exact hi)]
    simp
  have all : ∀ i, ∃ r : ℚ, i < n → (if i < k + w - 1 then TTI.val (A.rollMean w w xs) i = .nan else
      TTI.val (A.rollMean w w xs) i = .fin r ∧ |r - meanLast w g i| ≤ 13 * R.unit * n * M) := by
    intro i
    by_cases hi : i < n
    swap
    · exact ⟨0, fun h => absurd h hi⟩
    rw [key i hi]
    have I := rollInv A hA h w hw M hM hg hu hn i hi
    by_cases hlt : i < k + w - 1
    · refine ⟨0, fun _ => ?_⟩
      rw [if_pos hlt, Arith.calcMean, if_neg]
      rintro ⟨h1, h2⟩
      have := I.nobs
      omega
    · simp only [if_neg hlt]
      have e : max k (i + 1 - w) = i + 1 - w := by omega
      have hno : (A.rollState w xs i).nobs = w := by have := I.nobs; omega
      have hs := I.sum
      rw [e, sumLast_Ico w g i (by omega)] at hs
      have hi1 : (1 : ℚ) ≤ n := by exact_mod_cast (by omega : 1 ≤ n)
      have hin : ((i : ℚ) + 1) ≤ n := by exact_mod_cast (by omega : i + 1 ≤ n)
      have huM : 0 ≤ R.unit * M := mul_nonneg hu0 hM
      have hmean : |meanLast w g i| ≤ M := meanLast_abs w hw g i M fun t ht => hg _ (by omega) (by omega)
      obtain ⟨q, hq⟩ : ∃ q, q = (A.rollState w xs i).sum / (w : ℚ) := ⟨_, rfl⟩
      have h1 : |q - meanLast w g i| ≤ 11 * R.unit * n * M := by
        rw [hq]
        unfold meanLast
        rw [← sub_div, abs_div, abs_of_pos (show (0 : ℚ) < w by linarith), div_le_iff₀ (by linarith)]
        refine hs.trans ?_
        have : R.unit * M * w * ((i : ℚ) + 1) ≤ R.unit * M * w * n :=
          mul_le_mul_of_nonneg_left hin (mul_nonneg huM (by linarith))
        linarith
      have h2 : |A.fl q - meanLast w g i| ≤ 13 * R.unit * n * M := by
        rw [hA]
        have e1 := R.error q
        have e2 := abs_add_le (R.fl q - q) (q - meanLast w g i)
        rw [sub_add_sub_cancel] at e2
        have e3 := abs_add_le (q - meanLast w g i) (meanLast w g i)
        rw [sub_add_cancel] at e3
        have e4 : 11 * R.unit * n * M ≤ M := by
          have := mul_le_mul_of_nonneg_right hn hM
          have : 0 ≤ R.unit * n * M := by positivity
          linarith
        have e5 : R.unit * |q| ≤ R.unit * (2 * M) := mul_le_mul_of_nonneg_left (by linarith) hu0
        have e6 : R.unit * M * 1 ≤ R.unit * M * n := mul_le_mul_of_nonneg_left hi1 huM
        linarith
      have h0 : (0 : ℚ) ≤ 13 * R.unit * n * M := by positivity
      rw [Arith.calcMean, hno, if_pos ⟨le_refl _, hw⟩]
      simp only [← hq]
      split
      · next hsame =>
        obtain ⟨p1, p2⟩ := I.all_same hw (by omega) (by rw [hno]; exact hsame)
        refine ⟨g i, fun _ => ⟨p1, ?_⟩⟩
        unfold meanLast
        rw [p2, mul_div_cancel_left₀ _ (by linarith), sub_self, abs_zero]
        exact h0
      · have hsg := I.signs (by omega)
        have hm : meanLast w g i = sumLast w g i / w := rfl
        split
        · next hz =>
          refine ⟨0, fun _ => ⟨rfl, ?_⟩⟩
          have : 0 ≤ meanLast w g i := div_nonneg (hsg.1 hz.1) (by linarith)
          rw [zero_sub, abs_neg, abs_of_nonneg this]
          rw [abs_of_nonpos (by linarith [hz.2])] at h2
          linarith [hz.2]
        · split
          · next hz =>
            refine ⟨0, fun _ => ⟨rfl, ?_⟩⟩
            have : meanLast w g i ≤ 0 := div_nonpos_of_nonpos_of_nonneg (hsg.2 (by rw [hno]; exact hz.1)) (by linarith)
            rw [zero_sub, abs_neg, abs_of_nonpos this]
            rw [abs_of_nonneg (by linarith [hz.2])] at h2
            linarith [hz.2]
          · exact ⟨_, fun _ => ⟨rfl, h2⟩⟩
  choose gm hgm using all
  refine ⟨gm, ⟨by simp [Arith.rollMean, h.len], fun i hi => ?_⟩, fun i hi hk => ?_⟩
  · have := hgm i hi
    split at this
    · next hlt => rw [if_pos hlt, this]
    · next hlt => rw [if_neg hlt, this.1]
  · have := hgm i hi
    rw [if_neg (by omega)] at this
    exact this.2

/-- Rolling sums. -/
theorem Nums.frollSum (A : Arith) (hA : A.fl = R.fl) (h : Nums n k g xs) (w : ℕ) (hw : 1 ≤ w) (M : ℚ) (hM : 0 ≤ M)
    (hg : ∀ j < n, k ≤ j → |g j| ≤ M) (hu : R.unit ≤ 1 / 10000) (hn : 220 * R.unit * n ≤ 1) :
    ∃ gs : ℕ → ℚ, Nums n (k + w - 1) gs (A.rollSum w w xs) ∧
      ∀ i < n, k + w - 1 ≤ i → |gs i - sumLast w g i| ≤ 11 * R.unit * n * (w * M) := by
  have hw' : (1 : ℚ) ≤ w := by exact_mod_cast hw
  have hu0 := R.nonneg
  have key : ∀ i < n, TTI.val (A.rollSum w w xs) i = A.calcSum w (A.rollState w xs i) := by
    intro i hi
    unfold Arith.rollSum
    rw [val_lt _ _ (by simp [h.len]; exact hi)]
    simp
  have all : ∀ i, ∃ r : ℚ, i < n → (if i < k + w - 1 then TTI.val (A.rollSum w w xs) i = .nan else
      TTI.val (A.rollSum w w xs) i = .fin r ∧ |r - sumLast w g i| ≤ 11 * R.unit * n * (w * M)) := by
    intro i
    by_cases hi : i < n
    swap
    · exact ⟨0, fun h => absurd h hi⟩
    rw [key i hi]
    have I := rollInv A hA h w hw M hM hg hu hn i hi
    by_cases hlt : i < k + w - 1
    · refine ⟨0, fun _ => ?_⟩
      have := I.nobs
      rw [if_pos hlt, Arith.calcSum, if_neg (by omega), if_neg (by omega)]
    · simp only [if_neg hlt]
      have e : max k (i + 1 - w) = i + 1 - w := by omega
      have hno : (A.rollState w xs i).nobs = w := by have := I.nobs; omega
      have hs := I.sum
      rw [e, sumLast_Ico w g i (by omega)] at hs
      have hi1 : (1 : ℚ) ≤ n := by exact_mod_cast (by omega : 1 ≤ n)
      have hin : ((i : ℚ) + 1) ≤ n := by exact_mod_cast (by omega : i + 1 ≤ n)
      have hwM : 0 ≤ (w : ℚ) * M := by positivity
      have huM : 0 ≤ R.unit * (w * M) := mul_nonneg hu0 hwM
      rw [Arith.calcSum, hno, if_neg (by omega), if_pos (le_refl _)]
      split
      · next hsame =>
        obtain ⟨p1, p2⟩ := I.all_same hw (by omega) (by rw [hno]; exact hsame)
        refine ⟨A.fl (g i * w), fun _ => ⟨by rw [p1]; rfl, ?_⟩⟩
        rw [p2, hA, mul_comm]
        refine (R.error _).trans ?_
        rw [abs_mul, abs_of_nonneg (show (0 : ℚ) ≤ w by linarith)]
        have e1 := hg i hi (by omega)
        have e2 : (w : ℚ) * |g i| ≤ w * M := mul_le_mul_of_nonneg_left e1 (by linarith)
        have e3 := mul_le_mul_of_nonneg_left e2 hu0
        have e4 : R.unit * (w * M) * 1 ≤ R.unit * (w * M) * n := mul_le_mul_of_nonneg_left hi1 huM
        linarith
      · refine ⟨_, fun _ => ⟨rfl, hs.trans ?_⟩⟩
        have e4 : R.unit * (w * M) * ((i : ℚ) + 1) ≤ R.unit * (w * M) * n := mul_le_mul_of_nonneg_left hin huM
        linarith
  choose gm hgm using all
  refine ⟨gm, ⟨by simp [Arith.rollSum, h.len], fun i hi => ?_⟩, fun i hi hk => ?_⟩
  · have := hgm i hi
    split at this
    · next hlt => rw [if_pos hlt, this]
    · next hlt => rw [if_neg hlt, this.1]
  · have := hgm i hi
    rw [if_neg (by omega)] at this
    exact this.2

/-- Rolling means of numbers that carry an error already. -/
theorem Nums.frollMean_near (A : Arith) (hA : A.fl = R.fl) (h : Nums n k g xs) (x : ℕ → ℚ) (w : ℕ) (hw : 1 ≤ w) (M : ℚ) (hM : 0 ≤ M) (m : ℕ)
    (hg : ∀ j < n, k ≤ j → Near R m (g j) (x j) M) (hm : (1 + R.unit) ^ m ≤ 14 / 13) (hu : R.unit ≤ 1 / 10000) (hn : 220 * R.unit * n ≤ 1) :
    ∃ gm : ℕ → ℚ, Nums n (k + w - 1) gm (A.rollMean w w xs) ∧
      ∀ i < n, k + w - 1 ≤ i → Near R (m + 14 * n) (gm i) (meanLast w x i) M := by
  have hu0 := R.nonneg
  obtain ⟨gm, h1, h2⟩ := h.frollMean A hA w hw (14 / 13 * M) (by positivity)
    (fun j hj hk => ((hg j hj hk).size.trans (mul_le_mul_of_nonneg_right hm hM))) hu hn
  refine ⟨gm, h1, fun i hi hk => ?_⟩
  have e1 := h2 i hi hk
  have e2 : |meanLast w g i - meanLast w x i| ≤ ((1 + R.unit) ^ m - 1) * M := by
    rw [meanLast_sub]
    exact meanLast_abs w hw _ i _ fun t ht => (hg _ (by omega) (by omega)).2
  refine near_of_le (meanLast_abs w hw x i M fun t ht => (hg _ (by omega) (by omega)).1) ?_
  have e3 := abs_add_le (gm i - meanLast w g i) (meanLast w g i - meanLast w x i)
  rw [sub_add_sub_cancel] at e3
  push_cast
  linarith

theorem sumLast_abs (w : ℕ) (g : ℕ → ℚ) (i : ℕ) (M : ℚ) (h : ∀ t < w, |g (i - t)| ≤ M) : |sumLast w g i| ≤ w * M := by
  unfold sumLast
  calc _ ≤ ∑ t ∈ Finset.range w, |g (i - t)| := Finset.abs_sum_le_sum_abs _ _
    _ ≤ ∑ _t ∈ Finset.range w, M := Finset.sum_le_sum fun t ht => h t (Finset.mem_range.1 ht)
    _ = w * M := by simp

/-- Rolling sums of numbers that carry an error already. -/
theorem Nums.frollSum_near (A : Arith) (hA : A.fl = R.fl) (h : Nums n k g xs) (x : ℕ → ℚ) (w : ℕ) (hw : 1 ≤ w) (M : ℚ) (hM : 0 ≤ M) (m : ℕ)
    (hg : ∀ j < n, k ≤ j → Near R m (g j) (x j) M) (hm : (1 + R.unit) ^ m ≤ 14 / 13) (hu : R.unit ≤ 1 / 10000) (hn : 220 * R.unit * n ≤ 1) :
    ∃ gm : ℕ → ℚ, Nums n (k + w - 1) gm (A.rollSum w w xs) ∧
      ∀ i < n, k + w - 1 ≤ i → Near R (m + 14 * n) (gm i) (sumLast w x i) (w * M) := by
  have hu0 := R.nonneg
  obtain ⟨gm, h1, h2⟩ := h.frollSum A hA w hw (14 / 13 * M) (by positivity)
    (fun j hj hk => ((hg j hj hk).size.trans (mul_le_mul_of_nonneg_right hm hM))) hu hn
  refine ⟨gm, h1, fun i hi hk => ?_⟩
  have e1 := h2 i hi hk
  have e2 : |sumLast w g i - sumLast w x i| ≤ w * (((1 + R.unit) ^ m - 1) * M) := by
    have : sumLast w g i - sumLast w x i = sumLast w (fun j => g j - x j) i := by
      unfold sumLast
      rw [Finset.sum_sub_distrib]
    rw [this]
    exact sumLast_abs w _ i _ fun t ht => (hg _ (by omega) (by omega)).2
  refine near_of_le (sumLast_abs w x i M fun t ht => (hg _ (by omega) (by omega)).1) ?_
  have e3 := abs_add_le (gm i - sumLast w g i) (sumLast w g i - sumLast w x i)
  rw [sub_add_sub_cancel] at e3
  have e4 : 0 ≤ R.unit * n * (w * M) := by positivity
  push_cast
  nlinarith

end TTI
