import Verif.Lemmas.Col5

set_option autoImplicit false

/-!
# Columns of the strength, momentum and volatility indices
-/

namespace TTI

open Spec

variable {n k l : ℕ} {v : ℕ → Val} {g : ℕ → ℚ} {xs : List Val}

theorem roundQ_nonneg (k : ℕ) {q : ℚ} (h : 0 ≤ q) : 0 ≤ roundQ k q := by
  have := roundQ_mono k h
  rwa [roundQ_zero] at this

theorem sumLast_nonneg (w : ℕ) {g : ℕ → ℚ} (h : ∀ i, 0 ≤ g i) (i : ℕ) : 0 ≤ sumLast w g i := Finset.sum_nonneg fun _ _ => h _

theorem running_nonneg (s : ℕ) {seed : ℚ} (hs : 0 ≤ seed) {q : ℚ → ℚ → ℚ} (hq : ∀ a b, 0 ≤ a → 0 ≤ b → 0 ≤ q a b) {g : ℕ → ℚ}
    (hg : ∀ i, 0 ≤ g i) (i : ℕ) : 0 ≤ running s seed q g i := by
  induction i with
  | zero => exact hs
  | succ i ih =>
    unfold running
    split
    · exact hs
    · exact hq _ _ ih (hg _)

theorem average_step_nonneg (n : ℕ) (hn : 1 ≤ n) {b x : ℚ} (hb : 0 ≤ b) (hx : 0 ≤ x) : 0 ≤ b + (x - b) / n := by
  have h1 : (1 : ℚ) ≤ n := by exact_mod_cast hn
  have h2 : (0 : ℚ) < n := by linarith
  have : b + (x - b) / n = (b * (n - 1) + x) / n := by field_simp; ring
  rw [this]
  exact div_nonneg (add_nonneg (mul_nonneg hb (by linarith)) hx) h2.le

theorem roundedAverage_nonneg (n : ℕ) (hn : 1 ≤ n) {g : ℕ → ℚ} (hg : ∀ i, 0 ≤ g i) (i : ℕ) : 0 ≤ roundedAverage n g i :=
  running_nonneg n (div_nonneg (sumLast_nonneg n hg n) (by positivity))
    (fun _ _ ha hb => roundQ_nonneg 4 (average_step_nonneg n hn ha hb)) hg i

theorem wilderAverage_nonneg (n s : ℕ) (hn : 1 ≤ n) {g : ℕ → ℚ} (hg : ∀ i, 0 ≤ g i) (i : ℕ) : 0 ≤ wilderAverage n s g i := by
  unfold wilderAverage
  rw [smoothed_eq_running]
  refine running_nonneg _ (div_nonneg (sumLast_nonneg n hg _) (by positivity)) (fun a b ha hb => ?_) hg i
  have := average_step_nonneg n hn ha hb
  rwa [div_eq_inv_mul, ← one_div] at this

/-! ## Relative strength -/

theorem Nums.smooth (h : Nums n 1 g xs) (p : ℕ) (hp : 1 ≤ p) :
    Nums n p (roundedAverage p g) (Ind.RelativeStrengthIndex.smooth p xs) :=
  h.scan (p + 1) (by omega) (by omega) _ (fun b x => roundQ 4 (b + (x - b) / p)) (fun a x => by
    rw [Val.fin_sub, Val.fin_div _ _ (by positivity), Val.fin_add, Val.fin_round]) meanSkip (meanLast p g p) fun hs => by
      rw [h.take_one p hs, meanSkip_nan_cons, meanSkip_fin _ (by simp; omega)]
      have e := window_sum p g p (by omega)
      rw [show p + 1 - p = 1 by omega] at e
      rw [List.length_map, List.length_range]
      unfold meanLast
      rw [← e]
      congr 4
      funext t
      congr 1
      omega

theorem Nums.upward (h : Nums n 0 g xs) : Nums n 1 (fun j => roundQ 4 (gain g j))
    (maskBefore 1 (zipV Ind.RelativeStrengthIndex.upward xs (TTI.shift 1 xs))) :=
  ⟨by simp [h.len], fun i hi => by
    rw [val_maskBefore]
    split
    · rfl
    · have h1 := h.shift 1
      rw [val_zipV _ _ _ _ (by rw [h.len]; exact hi) (by rw [h1.len]; exact hi), h.fin hi (by omega), h1.fin hi (by omega)]
      unfold Ind.RelativeStrengthIndex.upward gain
      rw [Val.fin_lt, Val.fin_sub, Val.zero_eq]
      split
      · next h2 => rw [Val.fin_round, max_eq_left (by simp at h2; linarith)]
      · next h2 => rw [Val.fin_round, max_eq_right (by simp at h2; linarith)]⟩

theorem Nums.downward (h : Nums n 0 g xs) : Nums n 1 (fun j => roundQ 4 (loss g j))
    (maskBefore 1 (zipV Ind.RelativeStrengthIndex.downward xs (TTI.shift 1 xs))) :=
  ⟨by simp [h.len], fun i hi => by
    rw [val_maskBefore]
    split
    · rfl
    · have h1 := h.shift 1
      rw [val_zipV _ _ _ _ (by rw [h.len]; exact hi) (by rw [h1.len]; exact hi), h.fin hi (by omega), h1.fin hi (by omega)]
      unfold Ind.RelativeStrengthIndex.downward loss
      rw [Val.fin_lt, Val.fin_sub, Val.zero_eq]
      split
      · next h2 => rw [Val.fin_round, max_eq_left (by simp at h2; linarith)]
      · next h2 => rw [Val.fin_round, max_eq_right (by simp at h2; linarith)]⟩

/-- `100 - 100 / (up / down + 1)` of two numbers that are not negative. -/
theorem strength_quotient {a b : ℚ} (ha : 0 ≤ a) (hb : 0 ≤ b) :
    Val.sub 100 (Val.div 100 (Val.add (quotient a b) 1)) = quotient (100 * a) (a + b) := by
  show Val.sub (.fin 100) (Val.div (.fin 100) (Val.add (quotient a b) (.fin 1))) = _
  rcases hb.eq_or_lt with rfl | hb
  · rcases ha.eq_or_lt with rfl | ha
    · simp [quotient]
    · rw [add_zero, quotient_ne _ _ ha.ne', mul_div_cancel_right₀ _ ha.ne']
      simp only [quotient, ne_eq, not_true, if_false, ha, if_true]
      show Val.sub (.fin 100) (.fin 0) = _
      rw [Val.fin_sub, sub_zero]
  · have h1 : a + b ≠ 0 := by positivity
    have h2 : a / b + 1 ≠ 0 := by positivity
    rw [quotient_ne _ _ hb.ne', quotient_ne _ _ h1, Val.fin_add, Val.fin_div _ _ h2, Val.fin_sub]
    congr 1
    field_simp; ring

/-- `100 * (up / down) / (1 + up / down)` of two numbers that are not negative. -/
theorem momentum_quotient {a b : ℚ} (ha : 0 ≤ a) (hb : 0 ≤ b) :
    Val.div (Val.mul (.fin 100) (quotient a b)) (Val.add 1 (quotient a b)) =
      if b = 0 then .nan else .fin (100 * a / (a + b)) := by
  show Val.div (Val.mul (.fin 100) (quotient a b)) (Val.add (.fin 1) (quotient a b)) = _
  rcases hb.eq_or_lt with rfl | hb
  · rw [if_pos rfl]
    simp only [quotient, ne_eq, not_true, if_false]
    rcases ha.eq_or_lt with rfl | ha
    · simp
    · rw [if_pos ha]
      simp [Val.mul, Val.infMul, Val.add, Val.div]
  · have h1 : a + b ≠ 0 := by positivity
    have h2 : 1 + a / b ≠ 0 := by positivity
    rw [if_neg hb.ne', quotient_ne _ _ hb.ne', Val.fin_mul, Val.fin_add, Val.fin_div _ _ h2]
    congr 1
    field_simp; ring

/-! ## Relative momentum -/

theorem Nums.gainOver (h : Nums n 0 g xs) (m : ℕ) : Nums n m (gainOver m g)
    ((subS xs (TTI.shift m xs)).map Ind.RelativeMomentumIndex.upward) :=
  ((h.sub (h.shift m)).mapV _ (fun q => max q 0) rfl fun a => by
    unfold Ind.RelativeMomentumIndex.upward
    rw [Val.zero_eq]
    by_cases h1 : a ≤ 0
    · simp [Val.le, h1]
    · simp [Val.le, h1, not_le.1 h1, (not_le.1 h1).le]).congr (by omega) fun _ _ _ => rfl

theorem Nums.lossOver (h : Nums n 0 g xs) (m : ℕ) : Nums n m (lossOver m g)
    ((subS xs (TTI.shift m xs)).map Ind.RelativeMomentumIndex.downward) :=
  ((h.sub (h.shift m)).mapV _ (fun q => max (-q) 0) rfl fun a => by
    unfold Ind.RelativeMomentumIndex.downward
    rw [Val.zero_eq]
    by_cases h1 : 0 ≤ a
    · simp [Val.le, h1]
    · simp [Val.le, h1, not_le.1 h1, (not_le.1 h1).le, Val.abs, abs_of_neg (not_le.1 h1)]).congr (by omega) fun _ _ _ => by
      simp only [Spec.lossOver, neg_sub]

/-! ## Relative volatility -/

/-- Wilder's average does not look at the rows it skips. -/
theorem wilder_mask (skip p : ℕ) (xs : List Val) : wilder skip p xs = wilder skip p (maskBefore skip xs) := by
  have hlen : (maskBefore skip xs).length = xs.length := by simp
  have hd : ∀ m, skip ≤ m → ∀ t, (xs.take t).drop m = ((maskBefore skip xs).take t).drop m := by
    intro m hm t
    refine List.ext_getElem (by simp) fun j h1 h2 => ?_
    rw [List.getElem_drop, List.getElem_drop, List.getElem_take, List.getElem_take]
    simp only [List.length_drop, List.length_take] at h1 h2
    rw [← val_lt _ _ (by omega), ← val_lt _ _ (by omega), val_maskBefore, if_neg (by omega)]
  refine List.ext_getElem (by simp) fun i h1 h2 => ?_
  rw [← val_lt _ _ h1, ← val_lt _ _ h2]
  have hi : i < xs.length := by simpa using h1
  unfold wilder
  rw [val_prefixMap _ _ _ hi, val_prefixMap _ _ _ (by omega), hd skip (le_refl _), hd (skip + p) (by omega)]
  simp only [List.length_take, hlen]

theorem Nums.selected (h : Nums n 0 g xs) (sq : ℚ → ℚ) (sel : Val → Bool) (d : ℕ → ℚ)
    (hd : ∀ j, (if sel (.fin (g j - g (j - 1))) then sq (varianceLast 10 g j) else 0) = d j) (p : ℕ) (hp : 1 ≤ p) :
    Nums n (9 + p - 1) (wilderAverage p 9 d) (TTI.wilder 9 p (Ind.RelativeVolatilityIndex.selected sq sel xs)) := by
  rw [wilder_mask]
  refine Nums.wilder (k := 9) ⟨by simp [Ind.RelativeVolatilityIndex.selected, h.len], fun i hi => ?_⟩ 9 p (le_refl _) hp
  rw [val_maskBefore]
  split
  · rfl
  · have h1 := h.sub (h.shift 1)
    have h2 := h.rollStd 10 (by norm_num) sq
    unfold Ind.RelativeVolatilityIndex.selected
    rw [val_zipV _ _ _ _ (by rw [h1.len]; exact hi) (by rw [h2.len]; exact hi), h1.fin hi (by omega), h2.fin hi (by omega), ← hd i]
    show (if _ then _ else Val.fin 0) = _
    split <;> rfl

theorem varianceLast_nonneg (w : ℕ) (g : ℕ → ℚ) (i : ℕ) : 0 ≤ varianceLast w g i :=
  div_nonneg (sumLast_nonneg w (fun _ => sq_nonneg _) i) (by positivity)

/-- The share of the rising days as floats compute it. -/
def shareVal (sq : ℚ → ℚ) (n : ℕ) (g : ℕ → ℚ) (i : ℕ) : Val :=
  quotient (100 * wilderAverage n 9 (risingDeviation sq g) i) (averagedDeviation sq n g i)

theorem shareVal_eq {sq : ℚ → ℚ} (hsq : ∀ q, 0 ≤ q → 0 ≤ sq q) (n : ℕ) (hn : 1 ≤ n) (g : ℕ → ℚ) (i : ℕ) :
    shareVal sq n g i = if averagedDeviation sq n g i = 0 then .nan else .fin (risingShare sq n g i) := by
  have h1 : 0 ≤ wilderAverage n 9 (risingDeviation sq g) i :=
    wilderAverage_nonneg n 9 hn (fun j => by unfold risingDeviation; split <;> [exact hsq _ (varianceLast_nonneg 10 g j); exact le_refl _]) i
  have h2 : 0 ≤ wilderAverage n 9 (fallingDeviation sq g) i :=
    wilderAverage_nonneg n 9 hn (fun j => by unfold fallingDeviation; split <;> [exact hsq _ (varianceLast_nonneg 10 g j); exact le_refl _]) i
  unfold shareVal
  split
  · next h =>
    have : wilderAverage n 9 (risingDeviation sq g) i = 0 := by unfold averagedDeviation at h; linarith
    rw [h, this]; simp [quotient]
  · next h => exact quotient_ne _ _ h

theorem Nums.half (h : Nums n 0 g xs) (sq : ℚ → ℚ) (p : ℕ) (hp : 1 ≤ p) :
    Col n (p + 8) (shareVal sq p g) (Ind.RelativeVolatilityIndex.half sq p xs) := by
  have h1 := h.selected sq (fun x => (0 : Val) <ᵥ x) (risingDeviation sq g) (fun j => by
    unfold risingDeviation; rw [Val.zero_eq]; simp) p hp
  have h2 := h.selected sq (fun x => x <ᵥ 0) (fallingDeviation sq g) (fun j => by
    unfold fallingDeviation; rw [Val.zero_eq]; simp) p hp
  exact ((h1.scale 100).quot (h1.add h2)).congr (by omega) fun _ _ _ => rfl

end TTI
