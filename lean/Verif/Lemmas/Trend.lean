import Verif.Spec.Trend
import Mathlib.Algebra.Order.BigOperators.Group.Finset
import Mathlib.Tactic.Linarith
import Mathlib.Tactic.FieldSimp
import Mathlib.Tactic.Ring
import Mathlib.Tactic.GCongr

set_option autoImplicit false

/-!
# Averages and sums of numbers that never fall
-/

namespace TTI

open Spec

/-- The numbers of the days before day `n` never fall. -/
def Up (n : ℕ) (g : ℕ → ℚ) : Prop := ∀ j, j + 1 < n → g j ≤ g (j + 1)

variable {n : ℕ} {g : ℕ → ℚ}

theorem Up.le (h : Up n g) {i j : ℕ} (hij : i ≤ j) (hj : j < n) : g i ≤ g j := by
  induction j with
  | zero => rw [Nat.le_zero.1 hij]
  | succ j ih =>
    rcases Nat.lt_or_ge i (j + 1) with h1 | h1
    · exact (ih (by omega) (by omega)).trans (h j hj)
    · rw [show i = j + 1 by omega]

theorem Up.neg (h : ∀ j, j + 1 < n → g (j + 1) ≤ g j) : Up n fun j => -g j := fun j hj => neg_le_neg (h j hj)

theorem sumLast_neg (w : ℕ) (i : ℕ) : sumLast w (fun j => -g j) i = -sumLast w g i := by
  simp [sumLast, Finset.sum_neg_distrib]

theorem meanLast_neg (w : ℕ) (i : ℕ) : meanLast w (fun j => -g j) i = -meanLast w g i := by
  rw [meanLast, sumLast_neg, meanLast]; ring

theorem smoothed_neg (a : ℚ) (s : ℕ) (seed : ℚ) (i : ℕ) : smoothed a s (-seed) (fun j => -g j) i = -smoothed a s seed g i := by
  induction i with
  | zero => rfl
  | succ i ih =>
    simp only [smoothed]
    split
    · rfl
    · rw [ih]; ring

theorem meanLast_le (w : ℕ) (hw : 1 ≤ w) (i : ℕ) (c : ℚ) (h : ∀ t < w, g (i - t) ≤ c) : meanLast w g i ≤ c := by
  have hw0 : (0 : ℚ) < w := by exact_mod_cast hw
  unfold meanLast sumLast
  rw [div_le_iff₀ hw0]
  calc _ ≤ ∑ t ∈ Finset.range w, c := Finset.sum_le_sum fun t ht => h t (Finset.mem_range.1 ht)
    _ = c * w := by rw [Finset.sum_const, Finset.card_range, nsmul_eq_mul, mul_comm]

theorem le_meanLast (w : ℕ) (hw : 1 ≤ w) (i : ℕ) (c : ℚ) (h : ∀ t < w, c ≤ g (i - t)) : c ≤ meanLast w g i := by
  have := meanLast_le (g := fun j => -g j) w hw i (-c) fun t ht => neg_le_neg (h t ht)
  rw [meanLast_neg] at this
  exact neg_le_neg_iff.1 this

theorem Up.mean_le (h : Up n g) (w : ℕ) (hw : 1 ≤ w) {i : ℕ} (hi : i < n) : meanLast w g i ≤ g i :=
  meanLast_le w hw i _ fun _ _ => h.le (by omega) hi

theorem Up.mean_up (h : Up n g) (w : ℕ) (hw : 1 ≤ w) : Up n (meanLast w g) := fun j hj => by
  have hw0 : (0 : ℚ) < w := by exact_mod_cast hw
  unfold meanLast sumLast
  gcongr with t
  exact h.le (by omega) (by omega)

/-- The mean of fewer days is the higher one. -/
theorem Up.mean_short (h : Up n g) (short long : ℕ) (h1 : 1 ≤ short) (hs : short ≤ long) {i : ℕ} (hi : i < n) :
    meanLast long g i ≤ meanLast short g i := by
  have hl0 : (0 : ℚ) < long := by exact_mod_cast (by omega : 0 < long)
  have hs0 : (0 : ℚ) < short := by exact_mod_cast h1
  have hrest : ∀ t, short ≤ t → g (i - t) ≤ meanLast short g i := fun t ht =>
    le_meanLast short h1 i _ fun s hs => h.le (by omega) (by omega)
  have hsum : sumLast long g i ≤ long * meanLast short g i := by
    unfold sumLast
    rw [← Finset.sum_range_add_sum_Ico _ hs]
    have e1 : ∑ t ∈ Finset.range short, g (i - t) = short * meanLast short g i := by
      unfold meanLast sumLast; field_simp
    have e2 : ∑ t ∈ Finset.Ico short long, g (i - t) ≤ ∑ _t ∈ Finset.Ico short long, meanLast short g i :=
      Finset.sum_le_sum fun t ht => hrest t (Finset.mem_Ico.1 ht).1
    rw [Finset.sum_const, Nat.card_Ico, nsmul_eq_mul, Nat.cast_sub hs] at e2
    rw [e1]
    nlinarith [e2]
  rw [show meanLast long g i = sumLast long g i / long from rfl, div_le_iff₀ hl0]
  linarith

/-- A smoothed average of numbers that never fall stays below them. -/
theorem Up.smoothed_le (h : Up n g) (a : ℚ) (h0 : 0 ≤ a) (h1 : a ≤ 1) (s : ℕ) (seed : ℚ) (hs : seed ≤ g s) {i : ℕ} (hi : i < n)
    (hsi : s ≤ i) : smoothed a s seed g i ≤ g i := by
  induction i with
  | zero =>
    rw [Nat.le_zero.1 hsi] at hs
    exact hs
  | succ i ih =>
    simp only [smoothed]
    split
    · rw [show i + 1 = s by omega]; exact hs
    · have e := ih (by omega) (by omega)
      have e2 := h i hi
      nlinarith

theorem Up.smoothed_up (h : Up n g) (a : ℚ) (h0 : 0 ≤ a) (h1 : a ≤ 1) (s : ℕ) (seed : ℚ) (hs : seed ≤ g s) :
    Up n (smoothed a s seed g) := fun j hj => by
  simp only [smoothed]
  split
  · next hle =>
    have : smoothed a s seed g j = seed := by
      cases j with
      | zero => rfl
      | succ j => simp only [smoothed]; rw [if_pos (by omega)]
    rw [this]
  · have e := h.smoothed_le a h0 h1 s seed hs (by omega) (show s ≤ j by omega)
    have e2 := h j hj
    nlinarith

/-- The faster of two averages of numbers that never fall is the higher one. -/
theorem Up.smoothed_fast (h : Up n g) (a b : ℚ) (h0 : 0 ≤ a) (hab : a ≤ b) (h1 : b ≤ 1) {i : ℕ} (hi : i < n) :
    smoothed a 0 (g 0) g i ≤ smoothed b 0 (g 0) g i := by
  induction i with
  | zero => exact le_refl _
  | succ i ih =>
    simp only [smoothed, Nat.le_zero, Nat.succ_ne_zero, if_false]
    have e := ih (by omega)
    have e1 := h.smoothed_le b (h0.trans hab) h1 0 (g 0) le_rfl (show i < n by omega) (Nat.zero_le _)
    have e2 := h i hi
    nlinarith [mul_nonneg (sub_nonneg.2 hab) (sub_nonneg.2 (e1.trans e2)), mul_nonneg (sub_nonneg.2 (hab.trans h1)) (sub_nonneg.2 e)]

theorem Up.ema_le (h : Up n g) (p s : ℕ) (hp : 1 ≤ p) {i : ℕ} (hi : i < n) (hsi : s ≤ i) : ema p s g i ≤ g i := by
  have hp0 : (1 : ℚ) ≤ p := by exact_mod_cast hp
  exact h.smoothed_le _ (by positivity) (by rw [div_le_one (by positivity)]; linarith) s _ le_rfl hi hsi

theorem Up.ema_up (h : Up n g) (p s : ℕ) (hp : 1 ≤ p) : Up n (ema p s g) := by
  have hp0 : (1 : ℚ) ≤ p := by exact_mod_cast hp
  exact h.smoothed_up _ (by positivity) (by rw [div_le_one (by positivity)]; linarith) s _ le_rfl

theorem Up.ema_fast (h : Up n g) (p q : ℕ) (hp : 1 ≤ p) (hpq : p ≤ q) {i : ℕ} (hi : i < n) : ema q 0 g i ≤ ema p 0 g i := by
  have hp0 : (1 : ℚ) ≤ p := by exact_mod_cast hp
  have hq0 : (p : ℚ) ≤ q := by exact_mod_cast hpq
  exact h.smoothed_fast _ _ (by positivity) (by gcongr) (by rw [div_le_one (by positivity)]; linarith) hi

theorem Up.wilder_le (h : Up n g) (p s : ℕ) (hp : 1 ≤ p) {i : ℕ} (hi : i < n) (hsi : s + p - 1 ≤ i) : wilderAverage p s g i ≤ g i := by
  have hp0 : (1 : ℚ) ≤ p := by exact_mod_cast hp
  exact h.smoothed_le _ (by positivity) (by rw [div_le_one (by positivity)]; exact hp0) _ _ (h.mean_le p hp (by omega)) hi hsi

theorem Up.wilder_up (h : Up n g) (p s : ℕ) (hp : 1 ≤ p) (hs : s + p - 1 < n) : Up n (wilderAverage p s g) := by
  have hp0 : (1 : ℚ) ≤ p := by exact_mod_cast hp
  exact h.smoothed_up _ (by positivity) (by rw [div_le_one (by positivity)]; exact hp0) _ _ (h.mean_le p hp hs)

theorem ema_neg (p s i : ℕ) : ema p s (fun j => -g j) i = -ema p s g i := smoothed_neg _ _ _ _

theorem wilder_neg (p s i : ℕ) : wilderAverage p s (fun j => -g j) i = -wilderAverage p s g i := by
  unfold wilderAverage
  rw [meanLast_neg]
  exact smoothed_neg _ _ _ _

end TTI
