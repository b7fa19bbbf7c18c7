import Verif.Lemmas.Unlimited4
import Verif.Props.FormulaProjection

set_option autoImplicit false

/-!
# The other averages that never forget (C68)
-/

namespace TTI.Past

open Spec Props

variable (E : Env) (c : Call)

/-- Klinger's oscillator: volume on the second day only. -/
theorem never_klinger (hc : c.check = .ok .klingerOscillator) : NeverForgets E c "ko" := by
  let x : ℚ → String → ℕ → ℚ := fun V s j =>
    if s = "high" then (if j = 0 then 3 else 1) else if s = "volume" then (if j = 1 then V else 0) else 0
  have hhigh : ∀ V : ℚ, ∀ n j, j ≤ n → high (table (n + 1) (x V)) j = if j = 0 then 3 else 1 :=
    fun V n j hj => (table_price _ _ _ high_ohlcv _ (by omega)).trans (by simp [x])
  have hlow : ∀ V : ℚ, ∀ n j, j ≤ n → low (table (n + 1) (x V)) j = 0 :=
    fun V n j hj => (table_price _ _ _ low_ohlcv _ (by omega)).trans (by simp [x])
  have hclose : ∀ V : ℚ, ∀ n j, j ≤ n → close (table (n + 1) (x V)) j = 0 :=
    fun V n j hj => (table_price _ _ _ close_ohlcv _ (by omega)).trans (by simp [x])
  have hvol : ∀ V : ℚ, ∀ n j, j ≤ n → volume (table (n + 1) (x V)) j = if j = 1 then V else 0 :=
    fun V n j hj => (table_price _ _ _ volume_ohlcv _ (by omega)).trans (by simp [x])
  have hrange : ∀ V : ℚ, ∀ n j, j ≤ n → dayRange (table (n + 1) (x V)) j = if j = 0 then 3 else 1 := by
    intro V n j hj
    rw [dayRange, hhigh _ _ _ hj, hlow _ _ _ hj, sub_zero]
  have hhead : ∀ V : ℚ, ∀ n j, j ≤ n → 1 ≤ j → heading (table (n + 1) (x V)) j = -1 := by
    intro V n j hj h1
    rw [heading, if_neg]
    rw [priceSum, priceSum, hhigh _ _ _ hj, hlow _ _ _ hj, hclose _ _ _ hj, hhigh _ _ _ (by omega), hlow _ _ _ (by omega),
      hclose _ _ _ (by omega), if_neg (show ¬ j = 0 by omega)]
    split <;> norm_num
  have hrun : ∀ V : ℚ, ∀ n j, j + 1 ≤ n → rangeRun (table (n + 1) (x V)) (j + 1) = j + 4 := by
    intro V n j
    induction j with
    | zero =>
      intro hj
      rw [rangeRun, if_neg (by simp), hrange _ _ _ (by omega), hrange _ _ _ (by omega)]
      norm_num
    | succ j ih =>
      intro hj
      rw [rangeRun, if_pos ⟨by omega, by rw [hhead _ _ _ (by omega) (by omega), hhead _ _ _ (by omega) (by omega)]⟩, ih (by omega),
        hrange _ _ _ (by omega), if_neg (by omega)]
      push_cast
      ring
  have hforce : ∀ V : ℚ, ∀ n j, j ≤ n → 1 < j → volumeForce (table (n + 1) (x V)) j = 0 := by
    intro V n j hj h1
    rw [volumeForce, hvol _ _ _ hj, if_neg (by omega)]
    simp
  have hfirst : ∀ V : ℚ, ∀ n, 1 ≤ n → volumeForce (table (n + 1) (x V)) 1 = -50 * V := by
    intro V n hn
    rw [volumeForce, hvol _ _ _ hn, if_pos rfl, hrange _ _ _ hn, if_neg (by omega), hrun V n 0 hn, hhead _ _ _ hn (le_refl _)]
    norm_num
    ring
  have hv : ∀ V : ℚ, ∀ k, Shows E c .klingerOscillator "ko" (k + 55) (x V)
      (to4 ((((1 - 2 / (((55 : ℕ) : ℚ) + 1)) ^ (k + 55 - 1) - (1 - 2 / (((34 : ℕ) : ℚ) + 1)) ^ (k + 55 - 1)) * 50) * V)) := by
    intro V k o ho hi
    rw [C59_klinger ho hi _ (by rw [table_length]; omega), since, if_neg (by omega), ema_fade 34 1 _ _ (by omega) fun j h1 h2 => hforce _ _ _ h2 h1,
      ema_fade 55 1 _ _ (by omega) fun j h1 h2 => hforce _ _ _ h2 h1, hfirst _ _ (by omega)]
    · congr 1
      ring
    · intro j hj h1
      obtain ⟨j, rfl⟩ : ∃ t, j = t + 1 := ⟨j - 1, by omega⟩
      rw [hrun _ _ _ hj]
      positivity
  refine neverForgets E c _ hc _ fun k => ⟨k + 55, 2,
    x (((1 - 2 / (((55 : ℕ) : ℚ) + 1)) ^ (k + 55 - 1) - (1 - 2 / (((34 : ℕ) : ℚ) + 1)) ^ (k + 55 - 1)) * 50)⁻¹, x 0, to4 1, to4 0,
    by simp only [minRows]; omega, by omega, fun s j hj => ?_, one_to4, fun o ho hi => ?_, fun o ho hi => ?_⟩
  · simp only [x, if_neg (show ¬ j = 1 by omega)]
  · rw [hv _ k o ho hi, mul_inv_cancel₀]
    refine mul_ne_zero (sub_ne_zero.2 (ne_of_gt ?_)) (by norm_num)
    exact pow_lt_pow_left₀ (by norm_num) (by norm_num) (by omega)
  · rw [hv _ k o ho hi, mul_zero]

/-- The variable average while the close rises every day moves like an exponential one. -/
theorem variable_rising (n : ℕ) (g : ℕ → ℚ) (i : ℕ) (hi : 21 ≤ i) (h : ∀ j, 13 < j → j ≤ i → g (j - 1) < g j) :
    variableAverage n g i = smoothed (2 / ((n : ℚ) + 1)) 21 (g 21) g i ∧
      ∀ j ≤ i, 21 < j → sumLast 9 (gain g) j + sumLast 9 (loss g) j ≠ 0 := by
  have hgain : ∀ j, 13 < j → j ≤ i → gain g j = g j - g (j - 1) ∧ loss g j = 0 := by
    intro j h1 h2
    have := h j h1 h2
    exact ⟨max_eq_left (by linarith), max_eq_right (by linarith)⟩
  have hs : ∀ j, 21 < j → j ≤ i → 0 < sumLast 9 (gain g) j ∧ sumLast 9 (loss g) j = 0 := by
    intro j h1 h2
    constructor
    · refine Finset.sum_pos (fun t ht => ?_) ⟨0, by simp⟩
      rw [Finset.mem_range] at ht
      rw [(hgain (j - t) (by omega) (by omega)).1]
      linarith [h (j - t) (by omega) (by omega)]
    · refine Finset.sum_eq_zero fun t ht => ?_
      rw [Finset.mem_range] at ht
      exact (hgain (j - t) (by omega) (by omega)).2
  refine ⟨?_, fun j hj h1 => by rw [(hs j h1 hj).2, add_zero]; exact (hs j h1 hj).1.ne'⟩
  have key : ∀ j, 21 ≤ j → j ≤ i → variableAverage n g j = smoothed (2 / ((n : ℚ) + 1)) 21 (g 21) g j := by
    intro j hj
    induction j, hj using Nat.le_induction with
    | base => intro _; rw [Nums.smoothed_start _ _ _ _ _ (le_refl _), variableAverage, if_pos (le_refl _)]
    | succ j hj ih =>
      intro hji
      obtain ⟨h1, h2⟩ := hs (j + 1) (by omega) hji
      rw [Nums.smoothed_next _ _ _ _ _ hj, variableAverage, if_neg (by omega), h2, sub_zero, add_zero]
      simp only
      rw [mul_div_assoc, div_self h1.ne', mul_one, ih (by omega)]
      have : roundQ 4 100 = 100 := by exact_mod_cast roundQ_natCast 4 100
      rw [this]
      norm_num
  exact key i hi (le_refl _)

theorem never_variable (n : ℕ) (hc : c.check = .ok (.movingAverage n .variableType)) (hn : 2 ≤ n) : NeverForgets E c "ma-variable" := by
  let x : ℚ → ℚ → String → ℕ → ℚ := fun A b _ j => if j < 21 then j else if j = 21 then b + 21 else A + j
  have hx : ∀ A b : ℚ, ∀ N j, j ≤ N → close (table (N + 1) (x A b)) j = if j < 21 then (j : ℚ) else if j = 21 then b + 21 else A + j :=
    fun A b N j hj => table_price _ _ _ close_ohlcv _ (by omega)
  have hup : ∀ A b : ℚ, 0 ≤ b → b ≤ A → ∀ N j, 13 < j → j ≤ N → close (table (N + 1) (x A b)) (j - 1) < close (table (N + 1) (x A b)) j := by
    intro A b h0 h1 N j h2 h3
    rw [hx _ _ _ _ h3, hx _ _ _ _ (by omega)]
    obtain ⟨j, rfl⟩ : ∃ t, j = t + 1 := ⟨j - 1, by omega⟩
    rw [Nat.add_sub_cancel]
    rcases lt_trichotomy j 20 with h | h | h
    · rw [if_pos (by omega), if_pos (by omega)]; push_cast; linarith
    · subst h; norm_num; linarith
    · rcases Nat.lt_or_ge j 22 with h4 | h4
      · obtain rfl : j = 21 := by omega
        norm_num; linarith
      · rw [if_neg (by omega), if_neg (by omega), if_neg (by omega), if_neg (by omega)]; push_cast; linarith
  have hv : ∀ A b : ℚ, 0 ≤ b → b ≤ A → ∀ k, Shows E c (.movingAverage n .variableType) "ma-variable" (k + 22) (x A b)
      (to4 (smoothed (2 / ((n : ℚ) + 1)) 21 (close (table (k + 22 + 1) (x A b)) 21) (close (table (k + 22 + 1) (x A b))) (k + 22))) := by
    intro A b h0 h1 k o ho hi
    obtain ⟨e1, e2⟩ := variable_rising n (close (table (k + 22 + 1) (x A b))) (k + 22) (by omega) fun j h2 h3 => hup A b h0 h1 _ j h2 h3
    rw [C52_variable ho n hi _ (by rw [table_length]; omega) e2, since, if_neg (by omega), e1]
  refine neverForgets E c _ hc _ fun k => ?_
  obtain ⟨A, hA⟩ : ∃ A : ℚ, A = ((1 - 2 / ((n : ℚ) + 1)) ^ (k + 22 - 21))⁻¹ := ⟨_, rfl⟩
  have hA0 : 0 ≤ A := by rw [hA]; exact inv_nonneg.2 (pow_pos (rest_pos hn) _).le
  refine ⟨k + 22, 22, x A A, x A 0, _, _, by simp [minRows], by omega, fun s j hj => ?_, ?_, hv A A hA0 (le_refl _) k,
    hv A 0 (le_refl _) hA0 k⟩
  · simp only [x, if_neg (show ¬ j < 21 by omega), if_neg (show ¬ j = 21 by omega)]
  · have hd := smoothed_apart (2 / ((n : ℚ) + 1)) 21 (close (table (k + 22 + 1) (x A A)) 21) (close (table (k + 22 + 1) (x A 0)) 21)
      (close (table (k + 22 + 1) (x A A))) (close (table (k + 22 + 1) (x A 0))) (k + 22) (by omega) fun j h1 h2 => by
        rw [hx _ _ _ _ h2, hx _ _ _ _ h2, if_neg (by omega), if_neg (by omega), if_neg (by omega), if_neg (by omega)]
    have e : close (table (k + 22 + 1) (x A A)) 21 - close (table (k + 22 + 1) (x A 0)) 21 = A := by
      rw [hx _ _ _ _ (by omega), hx _ _ _ _ (by omega)]
      norm_num
    rw [e, hA, mul_inv_cancel₀ (pow_pos (rest_pos hn) _).ne', ← hA, sub_eq_iff_eq_add'] at hd
    rw [hd]
    simp only [to4, ne_eq, Val.fin.injEq]
    have := roundQ_add_int 4 (by norm_num) (smoothed (2 / ((n : ℚ) + 1)) 21 (close (table (k + 22 + 1) (x A 0)) 21)
      (close (table (k + 22 + 1) (x A 0))) (k + 22)) 1
    rw [Int.cast_one] at this
    rw [this]
    simp

/-- The trigger line: one close far outside, later closes on the lower band. -/
theorem never_trigger (p : ℕ) (hc : c.check = .ok (.projectionOscillator p)) (hp : 2 ≤ p) : NeverForgets E c "trigger_line" := by
  let x : ℚ → String → ℕ → ℚ := fun C s j => if s = "high" then 1 else if s = "close" then (if j = p - 1 then C else 0) else 0
  have hhigh : ∀ C : ℚ, ∀ n j, j ≤ n → high (table (n + 1) (x C)) j = 1 :=
    fun C n j hj => (table_price _ _ _ high_ohlcv _ (by omega)).trans (by simp [x])
  have hlow : ∀ C : ℚ, ∀ n j, j ≤ n → low (table (n + 1) (x C)) j = 0 :=
    fun C n j hj => (table_price _ _ _ low_ohlcv _ (by omega)).trans (by simp [x])
  have hclose : ∀ C : ℚ, ∀ n j, j ≤ n → close (table (n + 1) (x C)) j = if j = p - 1 then C else 0 :=
    fun C n j hj => (table_price _ _ _ close_ohlcv _ (by omega)).trans (by simp [x])
  have hslope : ∀ (g : ℕ → ℚ) (a : ℚ) (j : ℕ), (∀ t ≤ j, g t = a) → BestSlope g p j 0 := by
    intro g a j hg
    refine ⟨a, fun a' b' => ?_⟩
    have : fitError g p j a 0 = 0 := by
      unfold fitError
      refine Finset.sum_eq_zero fun t _ => ?_
      rw [hg _ (by omega)]
      ring
    rw [this]
    exact Finset.sum_nonneg fun t _ => sq_nonneg _
  have hv : ∀ C : ℚ, ∀ k, Shows E c (.projectionOscillator p) "trigger_line" (k + p + 1) (x C)
      (to4 ((1 - 2 / (((3 : ℕ) : ℚ) + 1)) ^ (k + p + 1 - (p - 1)) * (100 * C))) := by
    intro C k o ho hi
    rw [C61_projection_trigger ho p hi _ (by rw [table_length]; omega) (fun j => if j = p - 1 then 100 * C else 0), since,
      if_neg (by omega), ema_fade 3 (p - 1) _ _ (by omega) fun j h1 h2 => if_neg (by omega), if_pos rfl]
    intro j hj hpj
    refine ⟨0, 0, hslope _ 1 j fun t ht => hhigh _ _ _ (by omega), hslope _ 0 j fun t ht => hlow _ _ _ (by omega), ?_⟩
    have e1 : upperProjection (table (k + p + 1 + 1) (x C)) p 0 j = 1 := by
      obtain ⟨-, t, ht, h⟩ := Nums.highest_spec p (by omega) (fun i => high (table (k + p + 1 + 1) (x C)) i + (j - i : ℕ) * (0 : ℚ)) j
      rw [upperProjection, h, hhigh _ _ _ (by omega)]
      ring
    have e2 : lowerProjection (table (k + p + 1 + 1) (x C)) p 0 j = 0 := by
      obtain ⟨-, t, ht, h⟩ := Nums.lowest_spec p (by omega) (fun i => low (table (k + p + 1 + 1) (x C)) i + (j - i : ℕ) * (0 : ℚ)) j
      rw [lowerProjection, h, hlow _ _ _ (by omega)]
      ring
    rw [projectionPlace, e1, e2, hclose _ _ _ hj, roundQ_zero, roundQ_one, quotient, if_pos (by norm_num)]
    split <;> simp
  have hr : (0 : ℚ) < 1 - 2 / (((3 : ℕ) : ℚ) + 1) := rest_pos (by norm_num)
  refine neverForgets E c _ hc _ fun k => ⟨k + p + 1, p, x (100 * (1 - 2 / (((3 : ℕ) : ℚ) + 1)) ^ (k + p + 1 - (p - 1)))⁻¹, x 0,
    to4 1, to4 0, by simp only [minRows]; omega, by omega, fun s j hj => ?_, one_to4, fun o ho hi => ?_, fun o ho hi => ?_⟩
  · simp only [x, if_neg (show ¬ j = p - 1 by omega)]
  · rw [hv _ k o ho hi]
    congr 1
    have := pow_pos hr (k + p + 1 - (p - 1))
    rw [← mul_assoc, mul_comm _ (100 : ℚ), mul_inv_cancel₀ (by positivity)]
  · rw [hv _ k o ho hi]
    simp

end TTI.Past
