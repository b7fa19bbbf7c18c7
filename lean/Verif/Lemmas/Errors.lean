import Verif.Spec.Errors
import Verif.Lemmas.Forget
import Verif.Lemmas.Col
import Verif.Lemmas.Basket
import Verif.Lemmas.Regression

set_option autoImplicit false

/-!
# Errors of numbers in averages and extremes (C107)
-/

namespace TTI.Errors

open Spec

/-- The numbers of the first `n` days differ by at most `e`. -/
def CloseBy (n : ℕ) (e : ℚ) (u v : ℕ → ℚ) : Prop := ∀ j < n, |v j - u j| ≤ e

variable {n : ℕ} {e d : ℚ} {u v x y : ℕ → ℚ}

theorem CloseBy.mean (h : CloseBy n e u v) (w : ℕ) (hw : 1 ≤ w) : CloseBy n e (meanLast w u) (meanLast w v) := fun i hi => by
  have hq : (0 : ℚ) < w := by exact_mod_cast hw
  unfold meanLast sumLast
  rw [← sub_div, ← Finset.sum_sub_distrib, abs_div, abs_of_pos hq, div_le_iff₀ hq]
  refine (Finset.abs_sum_le_sum_abs _ _).trans ?_
  refine (Finset.sum_le_sum fun t _ => h (i - t) (by omega)).trans ?_
  simp [mul_comm]

theorem CloseBy.highest (h : CloseBy n e u v) (w : ℕ) (hw : 1 ≤ w) : CloseBy n e (highest w u) (highest w v) := fun i hi => by
  obtain ⟨a1, t1, b1, e1⟩ := Nums.highest_spec w hw u i
  obtain ⟨a2, t2, b2, e2⟩ := Nums.highest_spec w hw v i
  have h1 := abs_le.1 (h (i - t1) (by omega))
  have h2 := abs_le.1 (h (i - t2) (by omega))
  have := a1 t2 b2
  have := a2 t1 b1
  rw [abs_le]
  constructor <;> linarith

theorem CloseBy.lowest (h : CloseBy n e u v) (w : ℕ) (hw : 1 ≤ w) : CloseBy n e (lowest w u) (lowest w v) := fun i hi => by
  obtain ⟨a1, t1, b1, e1⟩ := Nums.lowest_spec w hw u i
  obtain ⟨a2, t2, b2, e2⟩ := Nums.lowest_spec w hw v i
  have h1 := abs_le.1 (h (i - t1) (by omega))
  have h2 := abs_le.1 (h (i - t2) (by omega))
  have := a1 t2 b2
  have := a2 t1 b1
  rw [abs_le]
  constructor <;> linarith

theorem CloseBy.smoothed (h : CloseBy n e u v) {a : ℚ} (h0 : 0 ≤ a) (h1 : a ≤ 1) (s : ℕ) {p q : ℚ} (hs : |q - p| ≤ e) :
    CloseBy n e (smoothed a s p u) (smoothed a s q v) := fun i hi => by
  induction i with
  | zero => simpa [Spec.smoothed] using hs
  | succ i ih =>
    simp only [Spec.smoothed]
    split
    · exact hs
    · have a1 := abs_le.1 (ih (by omega))
      have a2 := abs_le.1 (h (i + 1) hi)
      rw [abs_le]
      constructor <;> nlinarith

theorem CloseBy.ema (h : CloseBy n e u v) (k s : ℕ) (hk : 1 ≤ k) (hs : s < n) : CloseBy n e (ema k s u) (ema k s v) := by
  have hq : (1 : ℚ) ≤ k := by exact_mod_cast hk
  exact h.smoothed (by positivity) (by rw [div_le_one (by linarith)]; linarith) s (h s hs)

theorem CloseBy.wilder (h : CloseBy n e u v) (k s : ℕ) (hk : 1 ≤ k) (hs : s + k - 1 < n) :
    CloseBy n e (wilderAverage k s u) (wilderAverage k s v) := by
  have hq : (1 : ℚ) ≤ k := by exact_mod_cast hk
  exact h.smoothed (by positivity) (by rw [div_le_one (by linarith)]; linarith) _ (h.mean k hk _ hs)

theorem CloseBy.sub (h : CloseBy n e u v) (k : CloseBy n d x y) : CloseBy n (e + d) (fun j => u j - x j) fun j => v j - y j := fun j hj => by
  have a1 := abs_le.1 (h j hj)
  have a2 := abs_le.1 (k j hj)
  rw [abs_le]
  constructor <;> linarith

theorem CloseBy.round (h : CloseBy n e u v) : CloseBy n (e + 1 / 10000) (fun j => roundQ 4 (u j)) fun j => roundQ 4 (v j) := fun j hj =>
  round_apart (h j hj)

theorem apart_since {k i : ℕ} {p q : ℚ} (hk : k ≤ i → |q - p| ≤ e) : DifferBy (e + 1 / 10000) (since k i (to4 p)) (since k i (to4 q)) := by
  unfold since
  split
  · exact .inl ⟨rfl, rfl⟩
  · exact .inr ⟨_, _, rfl, rfl, round_apart (hk (by omega))⟩

theorem apart_to4 {p q : ℚ} (h : |q - p| ≤ e) : DifferBy (e + 1 / 10000) (to4 p) (to4 q) :=
  .inr ⟨_, _, rfl, rfl, round_apart h⟩

/-- The slope of small numbers is small: each deviation from the middle of the window is 0 or at least a half. -/
theorem slope_small (y : ℕ → ℚ) (s p : ℕ) (hp : 2 ≤ p) (h : ∀ t < p, |y (s + t)| ≤ e) : |slopeQ y s p| ≤ 2 * e := by
  have he : 0 ≤ e := (abs_nonneg _).trans (h 0 (by omega))
  have hpq : (0 : ℚ) < p := by exact_mod_cast (by omega : 0 < p)
  unfold slopeQ
  have hD := det_pos s p hp
  rw [abs_div, abs_of_pos hD, div_le_iff₀ hD]
  set S := ∑ t ∈ Finset.range p, ((s + t : ℕ) : ℚ) with hS
  have hz : ∀ t : ℕ, (p : ℚ) * ((s + t : ℕ) : ℚ) - S = p * ((2 * (t : ℤ) - ((p : ℤ) - 1) : ℤ) : ℚ) / 2 := fun t => by
    rw [hS, sum_x]; push_cast; ring
  have hN : (p : ℚ) * (∑ t ∈ Finset.range p, y (s + t) * ((s + t : ℕ) : ℚ)) - S * ∑ t ∈ Finset.range p, y (s + t) =
      ∑ t ∈ Finset.range p, y (s + t) * ((p : ℚ) * ((s + t : ℕ) : ℚ) - S) := by
    rw [Finset.mul_sum, Finset.mul_sum, ← Finset.sum_sub_distrib]
    exact Finset.sum_congr rfl fun t _ => by ring
  have hQ : (p : ℚ) * ((p : ℚ) * (∑ t ∈ Finset.range p, ((s + t : ℕ) : ℚ) * ((s + t : ℕ) : ℚ)) - S * S) =
      ∑ t ∈ Finset.range p, ((p : ℚ) * ((s + t : ℕ) : ℚ) - S) ^ 2 := by
    have : ∀ t, ((p : ℚ) * ((s + t : ℕ) : ℚ) - S) ^ 2 =
      p ^ 2 * (((s + t : ℕ) : ℚ) * ((s + t : ℕ) : ℚ)) - 2 * p * S * ((s + t : ℕ) : ℚ) + S ^ 2 := fun t => by ring
    rw [Finset.sum_congr rfl fun t _ => this t, Finset.sum_add_distrib, Finset.sum_sub_distrib, ← Finset.mul_sum, ← Finset.mul_sum, ← hS]
    simp
    ring
  have step : ∀ t ∈ Finset.range p, |y (s + t) * ((p : ℚ) * ((s + t : ℕ) : ℚ) - S)| ≤ 2 * e * (((p : ℚ) * ((s + t : ℕ) : ℚ) - S) ^ 2 / p) := by
    intro t ht
    rw [abs_mul]
    have h1 := h t (by simpa using ht)
    have h2 : |(p : ℚ) * ((s + t : ℕ) : ℚ) - S| ≤ 2 * (((p : ℚ) * ((s + t : ℕ) : ℚ) - S) ^ 2 / p) := by
      rw [hz]
      generalize (2 * (t : ℤ) - ((p : ℤ) - 1) : ℤ) = k
      have hk : |(k : ℚ)| ≤ (k : ℚ) ^ 2 := by
        have : |k| ≤ k ^ 2 := by
          rw [← sq_abs]
          rcases eq_or_ne k 0 with rfl | hk
          · simp
          · have := Int.one_le_abs hk
            nlinarith
        exact_mod_cast this
      rw [abs_div, abs_mul, abs_of_pos hpq]
      have e1 : 2 * (((p : ℚ) * k / 2) ^ 2 / p) = p * (k : ℚ) ^ 2 / 2 := by field_simp
      rw [e1]
      norm_num
      nlinarith
    calc |y (s + t)| * |(p : ℚ) * ((s + t : ℕ) : ℚ) - S| ≤ e * (2 * (((p : ℚ) * ((s + t : ℕ) : ℚ) - S) ^ 2 / p)) :=
          mul_le_mul h1 h2 (abs_nonneg _) he
      _ = _ := by ring
  rw [hN]
  refine (Finset.abs_sum_le_sum_abs _ _).trans ((Finset.sum_le_sum step).trans ?_)
  simp only [div_eq_mul_inv]
  rw [← Finset.mul_sum, ← Finset.sum_mul, ← hQ, ← div_eq_mul_inv, mul_div_cancel_left₀ _ hpq.ne']

theorem CloseBy.slope (h : CloseBy n e u v) (s p : ℕ) (hp : 2 ≤ p) (hs : s + p ≤ n) : |slopeQ v s p - slopeQ u s p| ≤ 2 * e := by
  have q := Basket.slope_lin (a := 1) (b := -1) v u s p
  have := slope_small (fun j => 1 * v j + -1 * u j) s p hp fun t ht => by
    have := h (s + t) (by omega)
    rwa [show 1 * v (s + t) + -1 * u (s + t) = v (s + t) - u (s + t) by ring]
  rwa [q, show 1 * slopeQ v s p + -1 * slopeQ u s p = slopeQ v s p - slopeQ u s p by ring] at this

/-- The squares of the values of the least squares line add up to at most the squares of the numbers. -/
theorem line_squares (y : ℕ → ℚ) (s p : ℕ) (hp : 2 ≤ p) (h : ∀ t < p, |y (s + t)| ≤ e) :
    (interceptQ y s p + slopeQ y s p * (s + ((p : ℚ) - 1) / 2)) ^ 2 + slopeQ y s p ^ 2 * (((p : ℚ) ^ 2 - 1) / 12) ≤ e ^ 2 := by
  have hpq : (0 : ℚ) < p := by exact_mod_cast (by omega : 0 < p)
  have h1 := sq_error y s p hp 0 0
  have h2 : ∑ t ∈ Finset.range p, (y (s + t) - (0 + 0 * ((s + t : ℕ) : ℚ))) ^ 2 ≤ p * e ^ 2 := by
    have : ∀ t ∈ Finset.range p, (y (s + t) - (0 + 0 * ((s + t : ℕ) : ℚ))) ^ 2 ≤ e ^ 2 := fun t ht => by
      rw [zero_mul, add_zero, sub_zero]
      exact sq_le_sq' (abs_le.1 (h t (by simpa using ht))).1 (abs_le.1 (h t (by simpa using ht))).2
    refine (Finset.sum_le_sum this).trans ?_
    simp
  have h3 : 0 ≤ ∑ t ∈ Finset.range p, (y (s + t) - (interceptQ y s p + slopeQ y s p * ((s + t : ℕ) : ℚ))) ^ 2 :=
    Finset.sum_nonneg fun t _ => sq_nonneg _
  generalize interceptQ y s p = a at *
  generalize slopeQ y s p = b at *
  have h4 : ∑ t ∈ Finset.range p, ((a - 0) + (b - 0) * ((s + t : ℕ) : ℚ)) ^ 2 =
      p * ((a + b * (s + ((p : ℚ) - 1) / 2)) ^ 2 + b ^ 2 * (((p : ℚ) ^ 2 - 1) / 12)) := by
    have : ∀ t, ((a - 0) + (b - 0) * ((s + t : ℕ) : ℚ)) ^ 2 =
        a ^ 2 + 2 * a * b * ((s + t : ℕ) : ℚ) + b ^ 2 * (((s + t : ℕ) : ℚ) * ((s + t : ℕ) : ℚ)) := fun t => by ring
    rw [Finset.sum_congr rfl fun t _ => this t, Finset.sum_add_distrib, Finset.sum_add_distrib, ← Finset.mul_sum, ← Finset.mul_sum,
      sum_x, sum_xx, Finset.sum_const, Finset.card_range, nsmul_eq_mul]
    ring
  rw [h4] at h1
  exact le_of_mul_le_mul_left (by linarith) hpq

/-- The value of the line on the last day. -/
theorem line_small (y : ℕ → ℚ) (s p : ℕ) (hp : 2 ≤ p) (h : ∀ t < p, |y (s + t)| ≤ e) :
    |interceptQ y s p + slopeQ y s p * (s + ((p : ℚ) - 1))| ≤ 2 * e := by
  have he : 0 ≤ e := (abs_nonneg _).trans (h 0 (by omega))
  have hpq : (2 : ℚ) ≤ p := by exact_mod_cast hp
  have hs := line_squares y s p hp h
  generalize interceptQ y s p = a at *
  generalize slopeQ y s p = b at *
  refine abs_le_of_sq_le_sq ?_ (by linarith)
  obtain ⟨m, hm⟩ : ∃ m, m = a + b * (s + ((p : ℚ) - 1) / 2) := ⟨_, rfl⟩
  rw [← hm] at hs
  rw [show a + b * (s + ((p : ℚ) - 1)) = m + b * (((p : ℚ) - 1) / 2) by rw [hm]; ring]
  nlinarith [sq_nonneg (3 * m - b * (((p : ℚ) - 1) / 2)), mul_nonneg (sq_nonneg b) (by linarith : (0 : ℚ) ≤ p - 1)]

/-- The value of the line on the next day. -/
theorem next_small (y : ℕ → ℚ) (s p : ℕ) (hp : 2 ≤ p) (h : ∀ t < p, |y (s + t)| ≤ e) :
    |interceptQ y s p + slopeQ y s p * (s + (p : ℚ))| ≤ 3 * e := by
  have he : 0 ≤ e := (abs_nonneg _).trans (h 0 (by omega))
  rcases Nat.lt_or_ge 2 p with hp3 | hp2
  · have hpq : (3 : ℚ) ≤ p := by exact_mod_cast hp3
    have hs := line_squares y s p hp h
    generalize interceptQ y s p = a at *
    generalize slopeQ y s p = b at *
    refine abs_le_of_sq_le_sq ?_ (by linarith)
    obtain ⟨m, hm⟩ : ∃ m, m = a + b * (s + ((p : ℚ) - 1) / 2) := ⟨_, rfl⟩
    rw [← hm] at hs
    rw [show a + b * (s + (p : ℚ)) = m + b * (((p : ℚ) + 1) / 2) by rw [hm]; ring]
    have h6 : (((p : ℚ) + 1) / 2) ^ 2 ≤ 6 * (((p : ℚ) ^ 2 - 1) / 12) := by nlinarith
    nlinarith [sq_nonneg (6 * m - b * (((p : ℚ) + 1) / 2)), mul_le_mul_of_nonneg_left h6 (sq_nonneg b), sq_nonneg e]
  · obtain rfl : p = 2 := by omega
    obtain ⟨n1, n2⟩ := normal_eqs y s 2 hp
    have a0 := abs_le.1 (h 0 (by omega))
    have a1 := abs_le.1 (h 1 (by omega))
    generalize interceptQ y s 2 = a at *
    generalize slopeQ y s 2 = b at *
    simp only [Finset.sum_range_succ, Finset.sum_range_zero, Nat.add_zero] at n1 n2 a0
    push_cast at n1 n2 ⊢
    have e1 : y (s + 1) = a + b * (s + 1) := by linear_combination n2 - s * n1
    have e0 : y s = a + b * s := by linear_combination n1 - e1
    rw [e1] at a1
    rw [e0] at a0
    rw [abs_le]
    constructor <;> linarith

theorem CloseBy.line (h : CloseBy n e u v) (s p : ℕ) (hp : 2 ≤ p) (hs : s + p ≤ n) (i : ℕ) (hi : s + p = i + 1) :
    |(interceptQ v s p + slopeQ v s p * i) - (interceptQ u s p + slopeQ u s p * i)| ≤ 2 * e ∧
      |(slopeQ v s p + (interceptQ v s p + slopeQ v s p * i)) - (slopeQ u s p + (interceptQ u s p + slopeQ u s p * i))| ≤ 3 * e := by
  have q := Basket.slope_lin (a := 1) (b := -1) v u s p
  have q' := Basket.intercept_lin (a := 1) (b := -1) v u s p
  have hs' : ∀ t < p, |1 * v (s + t) + -1 * u (s + t)| ≤ e := fun t ht => by
    have := h (s + t) (by omega)
    rwa [show v (s + t) - u (s + t) = 1 * v (s + t) + -1 * u (s + t) by ring] at this
  have h1 := line_small (fun j => 1 * v j + -1 * u j) s p hp hs'
  have h2 := next_small (fun j => 1 * v j + -1 * u j) s p hp hs'
  rw [q, q'] at h1 h2
  have hi' : (s : ℚ) + p = i + 1 := by exact_mod_cast hi
  rw [show (s : ℚ) + ((p : ℚ) - 1) = i by linarith] at h1
  rw [hi'] at h2
  clear q q' hs'
  generalize interceptQ u s p = a at *
  generalize slopeQ u s p = b at *
  generalize interceptQ v s p = a' at *
  generalize slopeQ v s p = b' at *
  constructor
  · rwa [show 1 * a' + -1 * a + (1 * b' + -1 * b) * i = (a' + b' * i) - (a + b * i) by ring] at h1
  · rwa [show 1 * a' + -1 * a + (1 * b' + -1 * b) * (i + 1) = (b' + (a' + b' * i)) - (b + (a + b * i)) by ring] at h2

/-- The sum of two rounded numbers. -/
theorem apart_sum {k i : ℕ} {p q x y : ℚ} (h : k ≤ i → |(q + y) - (p + x)| ≤ e) :
    DifferBy (e + 2 / 10000) (since k i (.fin (roundQ 4 p + roundQ 4 x))) (since k i (.fin (roundQ 4 q + roundQ 4 y))) := by
  unfold since
  split
  · exact .inl ⟨rfl, rfl⟩
  · refine .inr ⟨_, _, rfl, rfl, ?_⟩
    have a0 := abs_le.1 (h (by omega))
    have a1 := abs_le.1 (round4_close p)
    have a2 := abs_le.1 (round4_close q)
    have a3 := abs_le.1 (round4_close x)
    have a4 := abs_le.1 (round4_close y)
    rw [abs_le]
    constructor <;> linarith

end TTI.Errors
