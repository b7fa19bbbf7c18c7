import Verif.Lemmas.Basket
import Mathlib.Algebra.Order.BigOperators.Ring.Finset

set_option autoImplicit false

/-!
# Deviations, ranges and limits of sums (C105)
-/

namespace TTI.Basket

open Spec Props

variable {a b : ℚ}

/-! ## Deviations -/

/-- The mean of the products of the deviations. -/
def covariance (w : ℕ) (u v : ℕ → ℚ) (i : ℕ) : ℚ := meanLast w (fun j => (u j - meanLast w u i) * (v j - meanLast w v i)) i

theorem variance_sum (w : ℕ) (u v : ℕ → ℚ) (i : ℕ) : varianceLast w (fun j => a * u j + b * v j) i =
    a ^ 2 * varianceLast w u i + 2 * a * b * covariance w u v i + b ^ 2 * varianceLast w v i := by
  unfold varianceLast covariance
  rw [mean_lin]
  generalize meanLast w u i = mu
  generalize meanLast w v i = mv
  unfold meanLast sumLast
  rw [mul_div_assoc', mul_div_assoc', mul_div_assoc', ← add_div, ← add_div, Finset.mul_sum, Finset.mul_sum, Finset.mul_sum,
    ← Finset.sum_add_distrib, ← Finset.sum_add_distrib]
  congr 1
  exact Finset.sum_congr rfl fun t _ => by ring

theorem covariance_le (w : ℕ) (u v : ℕ → ℚ) (i : ℕ) : covariance w u v i ^ 2 ≤ varianceLast w u i * varianceLast w v i := by
  unfold varianceLast covariance
  generalize meanLast w u i = mu
  generalize meanLast w v i = mv
  unfold meanLast sumLast
  have h := Finset.sum_mul_sq_le_sq_mul_sq (Finset.range w) (fun t => u (i - t) - mu) (fun t => v (i - t) - mv)
  rw [div_pow, div_mul_div_comm, ← pow_two]
  exact div_le_div_of_nonneg_right h (by positivity)

theorem variance_nonneg (w : ℕ) (u : ℕ → ℚ) (i : ℕ) : 0 ≤ varianceLast w u i :=
  div_nonneg (Finset.sum_nonneg fun _ _ => sq_nonneg _) (Nat.cast_nonneg w)

/-- The deviation of a sum is at most the sum of the deviations. -/
theorem deviation_sum {E : Env} {e : ℚ} (hE : RootWithin e E) (ha : 0 ≤ a) (hb : 0 ≤ b) (w : ℕ) (u v : ℕ → ℚ) (i : ℕ) :
    E.sq (varianceLast w (fun j => a * u j + b * v j) i) ≤
      a * E.sq (varianceLast w u i) + b * E.sq (varianceLast w v i) + (1 + a + b) * e := by
  obtain ⟨x0, x1, -⟩ := hE _ (variance_nonneg w u i)
  obtain ⟨y0, y1, -⟩ := hE _ (variance_nonneg w v i)
  obtain ⟨-, -, z⟩ := hE _ (variance_nonneg w (fun j => a * u j + b * v j) i)
  have hsum := variance_sum (a := a) (b := b) w u v i
  have hcov := covariance_le w u v i
  have hu := variance_nonneg w u i
  have hv := variance_nonneg w v i
  generalize varianceLast w (fun j => a * u j + b * v j) i = V at *
  generalize E.sq V = s at *
  set x := E.sq (varianceLast w u i) + e with hx
  set y := E.sq (varianceLast w v i) + e with hy
  generalize varianceLast w u i = U at *
  generalize varianceLast w v i = W at *
  generalize covariance w u v i = C at *
  have hC : C ≤ x * y := by
    have : C ^ 2 ≤ (x * y) ^ 2 := by
      rw [mul_pow]
      exact hcov.trans (mul_le_mul x1 y1 hv (sq_nonneg x))
    exact le_of_abs_le (abs_le_of_sq_le_sq this (mul_nonneg x0 y0))
  have hV : V ≤ (a * x + b * y) ^ 2 := by
    rw [hsum]
    have h1 : a ^ 2 * U ≤ a ^ 2 * x ^ 2 := mul_le_mul_of_nonneg_left x1 (sq_nonneg a)
    have h2 : b ^ 2 * W ≤ b ^ 2 * y ^ 2 := mul_le_mul_of_nonneg_left y1 (sq_nonneg b)
    have h3 : 2 * a * b * C ≤ 2 * a * b * (x * y) := mul_le_mul_of_nonneg_left hC (by positivity)
    nlinarith
  have hp : 0 ≤ a * x + b * y := by positivity
  have hs : s - e ≤ a * x + b * y := by
    rcases z with z | z
    · exact z.trans hp
    · exact le_of_abs_le (abs_le_of_sq_le_sq (z.trans hV) hp)
  rw [hx, hy] at hs
  linarith

/-! ## Limits -/

theorem highest_sum (ha : 0 ≤ a) (hb : 0 ≤ b) (w : ℕ) (hw : 1 ≤ w) (u v : ℕ → ℚ) (i : ℕ) :
    highest w (fun j => a * u j + b * v j) i ≤ a * highest w u i + b * highest w v i := by
  obtain ⟨-, t, ht, h⟩ := Nums.highest_spec w hw (fun j => a * u j + b * v j) i
  rw [h]
  have h1 := (Nums.highest_spec w hw u i).1 t ht
  have h2 := (Nums.highest_spec w hw v i).1 t ht
  gcongr

theorem lowest_sum (ha : 0 ≤ a) (hb : 0 ≤ b) (w : ℕ) (hw : 1 ≤ w) (u v : ℕ → ℚ) (i : ℕ) :
    a * lowest w u i + b * lowest w v i ≤ lowest w (fun j => a * u j + b * v j) i := by
  obtain ⟨-, t, ht, h⟩ := Nums.lowest_spec w hw (fun j => a * u j + b * v j) i
  rw [h]
  have h1 := (Nums.lowest_spec w hw u i).1 t ht
  have h2 := (Nums.lowest_spec w hw v i).1 t ht
  gcongr

/-! ## True ranges -/

theorem trueRange_sum {f g h : RawFrame} (ha : 0 ≤ a) (hb : 0 ≤ b) (hB : Basket a b f g h) (j : ℕ) :
    trueRange h j ≤ a * trueRange f j + b * trueRange g j := by
  have hcl : close h = fun j => a * close f j + b * close g j := lin hB "close" (by simp)
  have hhi : high h = fun j => a * high f j + b * high g j := lin hB "high" (by simp)
  have hlo : low h = fun j => a * low f j + b * low g j := lin hB "low" (by simp)
  unfold trueRange
  rw [hcl, hhi, hlo]
  split
  · apply le_of_eq; ring
  · have key : ∀ x y z : ℚ, ∀ x' y' z' : ℚ, max (max (a * x + b * x') (a * y + b * y')) (a * z + b * z') ≤
        a * max (max x y) z + b * max (max x' y') z' := by
      intro x y z x' y' z'
      refine max_le (max_le ?_ ?_) ?_ <;> gcongr <;> simp
    refine le_trans (le_of_eq ?_) (key _ _ _ _ _ _)
    congr 1
    · congr 1 <;> ring
    · ring

theorem smoothed_mono {r : ℚ} (h0 : 0 ≤ r) (h1 : r ≤ 1) (s : ℕ) {p q : ℚ} {u v : ℕ → ℚ} (hp : p ≤ q) (hu : ∀ j, u j ≤ v j) (i : ℕ) :
    smoothed r s p u i ≤ smoothed r s q v i := by
  induction i with
  | zero => exact hp
  | succ i ih =>
    simp only [smoothed]
    split
    · exact hp
    · have := hu (i + 1)
      nlinarith

theorem mean_mono (w : ℕ) {u v : ℕ → ℚ} (hu : ∀ j, u j ≤ v j) (i : ℕ) : meanLast w u i ≤ meanLast w v i :=
  div_le_div_of_nonneg_right (Finset.sum_le_sum fun _ _ => hu _) (Nat.cast_nonneg w)

theorem wilder_mono (n s : ℕ) {u v : ℕ → ℚ} (hn : 1 ≤ n) (hu : ∀ j, u j ≤ v j) (i : ℕ) : wilderAverage n s u i ≤ wilderAverage n s v i := by
  have : (1 : ℚ) ≤ n := by exact_mod_cast hn
  exact smoothed_mono (by positivity) ((div_le_one (by linarith)).2 this) _ (mean_mono _ hu _) hu i

/-! ## Roundings -/

theorem atMost_close {x y z r : ℚ} (k i : ℕ) (hz : z ≤ a * x + b * y + (1 + |a| + |b|) * r) :
    AddsAtMost a b (r + 1 / 20000) (since k i (to4 x)) (since k i (to4 y)) (since k i (to4 z)) := by
  unfold since
  split
  · exact .inl ⟨rfl, rfl, rfl⟩
  · refine .inr ⟨_, _, _, rfl, rfl, rfl, ?_⟩
    have h1 := round4_close z
    have h2 := round4_close x
    have h3 := round4_close y
    have h4 : |a * (roundQ 4 x - x)| ≤ |a| * (1 / 20000) := by rw [abs_mul]; exact mul_le_mul_of_nonneg_left h2 (abs_nonneg _)
    have h5 : |b * (roundQ 4 y - y)| ≤ |b| * (1 / 20000) := by rw [abs_mul]; exact mul_le_mul_of_nonneg_left h3 (abs_nonneg _)
    rw [abs_le] at h1 h4 h5
    nlinarith [h1.1, h1.2, h4.1, h4.2, h5.1, h5.2]

theorem atLeast_close {x y z r : ℚ} (k i : ℕ) (hz : a * x + b * y - (1 + |a| + |b|) * r ≤ z) :
    AddsAtLeast a b (r + 1 / 20000) (since k i (to4 x)) (since k i (to4 y)) (since k i (to4 z)) := by
  unfold since
  split
  · exact .inl ⟨rfl, rfl, rfl⟩
  · refine .inr ⟨_, _, _, rfl, rfl, rfl, ?_⟩
    have h1 := round4_close z
    have h2 := round4_close x
    have h3 := round4_close y
    have h4 : |a * (roundQ 4 x - x)| ≤ |a| * (1 / 20000) := by rw [abs_mul]; exact mul_le_mul_of_nonneg_left h2 (abs_nonneg _)
    have h5 : |b * (roundQ 4 y - y)| ≤ |b| * (1 / 20000) := by rw [abs_mul]; exact mul_le_mul_of_nonneg_left h3 (abs_nonneg _)
    rw [abs_le] at h1 h4 h5
    nlinarith [h1.1, h1.2, h4.1, h4.2, h5.1, h5.2]

end TTI.Basket
