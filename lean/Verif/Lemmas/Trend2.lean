import Verif.Lemmas.Trend
import Verif.Lemmas.Col
import Verif.Lemmas.Identities
import Verif.Lemmas.Mirror
import Verif.Lemmas.Regression
import Mathlib.Algebra.Order.Chebyshev

set_option autoImplicit false

/-!
# Gains, losses and slopes of numbers that never fall
-/

namespace TTI

open Spec

theorem le_fin {a b : ℚ} (h : a ≤ b) : NotAbove (.fin a) (.fin b) := Or.inr (Or.inr (by simpa [Val.le] using h))

theorem since_notAbove {k i : ℕ} {v w : Val} (h : k ≤ i → NotAbove v w) : NotAbove (since k i v) w := by
  unfold since; split
  · exact Or.inl rfl
  · exact h (by omega)

theorem notAbove_since {k i : ℕ} {v w : Val} (h : k ≤ i → NotAbove v w) : NotAbove v (since k i w) := by
  unfold since; split
  · exact Or.inr (Or.inl rfl)
  · exact h (by omega)

theorem meanLast_pos {n : ℕ} {g : ℕ → ℚ} (h : ∀ j < n, 0 < g j) (w : ℕ) (hw : 1 ≤ w) {i : ℕ} (hi : i < n) : 0 < meanLast w g i := by
  have : 0 < sumLast w g i := Finset.sum_pos (fun t _ => h _ (by omega)) ⟨0, by simp; omega⟩
  have hw' : (0 : ℚ) < w := by exact_mod_cast hw
  exact div_pos this hw'

theorem at_least_zero {v : Val} (h : NoLessThan 0 v) : NonNegative v := h
theorem at_most_zero {v : Val} (h : NoMoreThan 0 v) : NonPositive v := h

theorem since_atLeast {k i : ℕ} {q x : ℚ} (h : k ≤ i → q ≤ x) : NoLessThan q (since k i (.fin x)) := by
  unfold since; split
  · exact Or.inl rfl
  · exact Or.inr ⟨_, rfl, h (by omega)⟩

theorem since_atMost {k i : ℕ} {q x : ℚ} (h : k ≤ i → x ≤ q) : NoMoreThan q (since k i (.fin x)) := by
  unfold since; split
  · exact Or.inl rfl
  · exact Or.inr ⟨_, rfl, h (by omega)⟩

theorem roundQ_nonpos (k : ℕ) {q : ℚ} (h : q ≤ 0) : roundQ k q ≤ 0 := by simpa using roundQ_mono k h

theorem smoothed_nonneg (a : ℚ) (h0 : 0 ≤ a) (h1 : a ≤ 1) (s : ℕ) (seed : ℚ) (hs : 0 ≤ seed) (g : ℕ → ℚ) (i : ℕ)
    (hg : ∀ j, s ≤ j → j ≤ i → 0 ≤ g j) : 0 ≤ smoothed a s seed g i := by
  induction i with
  | zero => exact hs
  | succ i ih =>
    rw [smoothed]
    split
    · exact hs
    · have := ih fun j h1 h2 => hg j h1 (by omega)
      have := hg (i + 1) (by omega) (le_refl _)
      have : 0 ≤ 1 - a := by linarith
      nlinarith [mul_nonneg h0 (hg (i + 1) (by omega) (le_refl _)), mul_nonneg this (ih fun j h1 h2 => hg j h1 (by omega))]

theorem Up.gain_eq {n : ℕ} {g : ℕ → ℚ} (h : Up n g) {j : ℕ} (hj : j < n) : gain g j = g j - g (j - 1) :=
  max_eq_left (by linarith [h.le (show j - 1 ≤ j by omega) hj])

theorem Up.loss_eq {n : ℕ} {g : ℕ → ℚ} (h : Up n g) {j : ℕ} (hj : j < n) : loss g j = 0 :=
  max_eq_right (by linarith [h.le (show j - 1 ≤ j by omega) hj])

theorem telescope (g : ℕ → ℚ) (n i : ℕ) (h : n ≤ i) : ∑ t ∈ Finset.range n, (g (i - t) - g (i - t - 1)) = g i - g (i - n) := by
  induction n with
  | zero => simp
  | succ n ih => rw [Finset.sum_range_succ, ih (by omega), show i - (n + 1) = i - n - 1 by omega]; ring

theorem Up.sum_gain {n : ℕ} {g : ℕ → ℚ} (h : Up n g) (w : ℕ) {i : ℕ} (hw : w ≤ i) (hi : i < n) :
    sumLast w (gain g) i = g i - g (i - w) := by
  rw [← telescope g w i hw]
  exact Finset.sum_congr rfl fun t _ => h.gain_eq (by omega)

theorem Up.sum_loss {n : ℕ} {g : ℕ → ℚ} (h : Up n g) (w : ℕ) {i : ℕ} (hi : i < n) : sumLast w (loss g) i = 0 :=
  Finset.sum_eq_zero fun t _ => h.loss_eq (by omega)

theorem gain_neg (g : ℕ → ℚ) : gain (fun j => -g j) = loss g := funext fun j => by
  unfold gain loss; congr 1; ring

theorem loss_neg (g : ℕ → ℚ) : loss (fun j => -g j) = gain g := funext fun j => by
  unfold gain loss; congr 1; ring

theorem Up.chande_eq {n : ℕ} {g : ℕ → ℚ} (h : Up n g) (w : ℕ) {i : ℕ} (hw : w ≤ i) (hi : i < n) :
    round4 (chande w g i) = if g (i - w) = g i then .nan else .fin 100 := by
  unfold chande
  rw [h.sum_gain w hw hi, h.sum_loss w hi]
  split
  · next e => simp [e, quotient, round4, Val.round]
  · next e =>
    have hD : g i - g (i - w) ≠ 0 := fun h => e (by linarith)
    rw [quotient_ne _ _ (by simpa using hD)]
    simp only [sub_zero, add_zero]
    rw [mul_div_assoc, div_self hD]
    simp [round4, Val.round]

theorem roundedAverage_zero (n : ℕ) (g : ℕ → ℚ) (i : ℕ) (hn : n ≤ i) (hg : ∀ j ≤ i, g j = 0) : roundedAverage n g i = 0 := by
  have h0 : meanLast n g n = 0 := by
    unfold meanLast sumLast
    rw [Finset.sum_eq_zero fun t _ => hg _ (by omega), zero_div]
  unfold roundedAverage
  rw [h0]
  clear hn h0
  induction i with
  | zero => rfl
  | succ i ih =>
    rw [running]
    split
    · rfl
    · rw [ih fun j hj => hg j (by omega), hg (i + 1) (le_refl _)]; simp

theorem smoothed_zero (a : ℚ) (s : ℕ) (g : ℕ → ℚ) (i : ℕ) (hg : ∀ j ≤ i, g j = 0) : smoothed a s 0 g i = 0 := by
  induction i with
  | zero => rfl
  | succ i ih =>
    rw [smoothed]
    split
    · rfl
    · rw [ih fun j hj => hg j (by omega), hg (i + 1) (le_refl _)]; ring

theorem wilder_zero (n s : ℕ) (g : ℕ → ℚ) (i : ℕ) (hs : s + n - 1 ≤ i) (hg : ∀ j ≤ i, g j = 0) : wilderAverage n s g i = 0 := by
  have h0 : meanLast n g (s + n - 1) = 0 := by
    unfold meanLast sumLast
    rw [Finset.sum_eq_zero fun t _ => hg _ (by omega), zero_div]
  unfold wilderAverage
  rw [h0]
  exact smoothed_zero _ _ _ _ hg

theorem slope_nonneg (y : ℕ → ℚ) (s p : ℕ) (hp : 2 ≤ p) (h : ∀ t u, t ≤ u → u < p → y (s + t) ≤ y (s + u)) : 0 ≤ slopeQ y s p := by
  unfold slopeQ
  refine div_nonneg ?_ (det_pos s p hp).le
  have hm : MonovaryOn (fun t => y (s + t)) (fun t => ((s + t : ℕ) : ℚ)) (Finset.range p : Finset ℕ) := by
    intro t ht u hu htu
    have : t < u := by
      have : ((s + t : ℕ) : ℚ) < ((s + u : ℕ) : ℚ) := htu
      have := Nat.cast_lt.1 this
      omega
    exact h t u this.le (by simpa using hu)
  have := hm.sum_mul_sum_le_card_mul_sum
  simp only [Finset.card_range] at this
  linarith

theorem slope_neg (y : ℕ → ℚ) (s p : ℕ) : slopeQ (fun j => -y j) s p = -slopeQ y s p := by
  unfold slopeQ
  rw [← neg_div]
  congr 1
  simp only [neg_mul, Finset.sum_neg_distrib]
  ring

end TTI
