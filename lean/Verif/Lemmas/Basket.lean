import Verif.Spec.Basket
import Verif.Lemmas.Least4
import Verif.Props.FormulaOscillators

set_option autoImplicit false

/-!
# Averages of sums (C105)
-/

namespace TTI.Basket

open Spec Props

theorem price_beyond (f : RawFrame) (s : String) (j : ℕ) (h : f.idx.length ≤ j) : price f s j = 0 := by
  unfold price RawFrame.day RawFrame.inDateOrder
  split
  · rw [List.getD_eq_default _ _ (by simp [(sortRows_perm _).length_eq]; omega)]; rfl
  · rfl

variable {a b : ℚ} {f g h : RawFrame}

theorem lin (hb : Basket a b f g h) (s : String) (hs : s ∈ ["open", "high", "low", "close", "volume"]) :
    price h s = fun j => a * price f s j + b * price g s j := by
  funext j
  by_cases hj : j < h.idx.length
  · exact hb.each s hs j hj
  · rw [price_beyond h s j (by omega), price_beyond f s j (by have := hb.first; omega), price_beyond g s j (by have := hb.second; omega)]
    ring

/-! ## Linear parts of the formulas -/

variable (u v : ℕ → ℚ)

theorem sum_lin (w i : ℕ) : sumLast w (fun j => a * u j + b * v j) i = a * sumLast w u i + b * sumLast w v i := by
  unfold sumLast
  rw [Finset.sum_add_distrib, Finset.mul_sum, Finset.mul_sum]

theorem mean_lin (w i : ℕ) : meanLast w (fun j => a * u j + b * v j) i = a * meanLast w u i + b * meanLast w v i := by
  unfold meanLast
  rw [sum_lin]; ring

theorem mean_lin' (w : ℕ) : meanLast w (fun j => a * u j + b * v j) = fun i => a * meanLast w u i + b * meanLast w v i :=
  funext (mean_lin u v w)

theorem smoothed_lin (r : ℚ) (s : ℕ) (p q : ℚ) (i : ℕ) :
    smoothed r s (a * p + b * q) (fun j => a * u j + b * v j) i = a * smoothed r s p u i + b * smoothed r s q v i := by
  induction i with
  | zero => rfl
  | succ i ih =>
    simp only [smoothed]
    split
    · rfl
    · rw [ih]; ring

theorem ema_lin (n s i : ℕ) : ema n s (fun j => a * u j + b * v j) i = a * ema n s u i + b * ema n s v i :=
  smoothed_lin u v _ s _ _ i

theorem ema_lin' (n s : ℕ) : ema n s (fun j => a * u j + b * v j) = fun i => a * ema n s u i + b * ema n s v i :=
  funext (ema_lin u v n s)

theorem wilder_lin (n s i : ℕ) :
    wilderAverage n s (fun j => a * u j + b * v j) i = a * wilderAverage n s u i + b * wilderAverage n s v i := by
  unfold wilderAverage
  rw [mean_lin]
  exact smoothed_lin u v _ _ _ _ i

theorem slope_lin (s p : ℕ) : slopeQ (fun j => a * u j + b * v j) s p = a * slopeQ u s p + b * slopeQ v s p := by
  unfold slopeQ
  rw [← mul_div_assoc, ← mul_div_assoc, ← add_div]
  congr 1
  have h1 : ∑ t ∈ Finset.range p, (a * u (s + t) + b * v (s + t)) * ((s + t : ℕ) : ℚ) =
      a * ∑ t ∈ Finset.range p, u (s + t) * ((s + t : ℕ) : ℚ) + b * ∑ t ∈ Finset.range p, v (s + t) * ((s + t : ℕ) : ℚ) := by
    rw [Finset.mul_sum, Finset.mul_sum, ← Finset.sum_add_distrib]
    exact Finset.sum_congr rfl fun t _ => by ring
  have h2 : ∑ t ∈ Finset.range p, (a * u (s + t) + b * v (s + t)) =
      a * ∑ t ∈ Finset.range p, u (s + t) + b * ∑ t ∈ Finset.range p, v (s + t) := by
    rw [Finset.mul_sum, Finset.mul_sum, ← Finset.sum_add_distrib]
  rw [h1, h2]
  ring

theorem intercept_lin (s p : ℕ) : interceptQ (fun j => a * u j + b * v j) s p = a * interceptQ u s p + b * interceptQ v s p := by
  unfold interceptQ
  have h2 : ∑ t ∈ Finset.range p, (a * u (s + t) + b * v (s + t)) =
      a * ∑ t ∈ Finset.range p, u (s + t) + b * ∑ t ∈ Finset.range p, v (s + t) := by
    rw [Finset.mul_sum, Finset.mul_sum, ← Finset.sum_add_distrib]
  rw [h2, slope_lin]
  ring

/-! ## Roundings -/

theorem round_lin {x y z r : ℚ} (hz : |z - (a * x + b * y)| ≤ (1 + |a| + |b|) * r) :
    |roundQ 4 z - (a * roundQ 4 x + b * roundQ 4 y)| ≤ (1 + |a| + |b|) * (r + 1 / 20000) := by
  have h1 := round4_close z
  have h2 := round4_close x
  have h3 := round4_close y
  have h4 : |a * (roundQ 4 x - x)| ≤ |a| * (1 / 20000) := by rw [abs_mul]; exact mul_le_mul_of_nonneg_left h2 (abs_nonneg _)
  have h5 : |b * (roundQ 4 y - y)| ≤ |b| * (1 / 20000) := by rw [abs_mul]; exact mul_le_mul_of_nonneg_left h3 (abs_nonneg _)
  have h6 : roundQ 4 z - (a * roundQ 4 x + b * roundQ 4 y) =
      (roundQ 4 z - z) + (z - (a * x + b * y)) - a * (roundQ 4 x - x) - b * (roundQ 4 y - y) := by ring
  rw [h6]
  rw [abs_le] at *
  constructor <;> nlinarith

theorem adds_close {x y z r : ℚ} (k i : ℕ) (hz : |z - (a * x + b * y)| ≤ (1 + |a| + |b|) * r) :
    Adds a b (r + 1 / 20000) (since k i (to4 x)) (since k i (to4 y)) (since k i (to4 z)) := by
  unfold since
  split
  · exact .inl ⟨rfl, rfl, rfl⟩
  · exact .inr ⟨_, _, _, rfl, rfl, rfl, round_lin hz⟩

theorem adds {x y z : ℚ} (k i : ℕ) (hz : z = a * x + b * y) :
    Adds a b (1 / 20000) (since k i (to4 x)) (since k i (to4 y)) (since k i (to4 z)) := by
  have := adds_close (a := a) (b := b) (x := x) (y := y) (z := z) (r := 0) k i (by rw [hz]; simp)
  rwa [zero_add] at this

theorem adds_all {x y z : ℚ} (hz : z = a * x + b * y) : Adds a b (1 / 20000) (to4 x) (to4 y) (to4 z) :=
  adds (k := 0) 0 hz

theorem smoothed_small {r e : ℚ} (h0 : 0 ≤ r) (h1 : r ≤ 1) (s : ℕ) (p : ℚ) (w : ℕ → ℚ) (hp : |p| ≤ e) (hw : ∀ j, |w j| ≤ e) (i : ℕ) :
    |smoothed r s p w i| ≤ e := by
  induction i with
  | zero => exact hp
  | succ i ih =>
    simp only [smoothed]
    split
    · exact hp
    · have hw := hw (i + 1)
      rw [abs_le] at *
      constructor <;> nlinarith

theorem macd_lin (i : ℕ) :
    |macdLine (fun j => a * u j + b * v j) i - (a * macdLine u i + b * macdLine v i)| ≤ (1 + |a| + |b|) * (2 / 20000) := by
  unfold macdLine
  have h1 := round_lin (a := a) (b := b) (x := ema 12 0 u i) (y := ema 12 0 v i) (z := ema 12 0 (fun j => a * u j + b * v j) i) (r := 0)
    (by rw [ema_lin]; simp)
  have h2 := round_lin (a := a) (b := b) (x := ema 26 0 u i) (y := ema 26 0 v i) (z := ema 26 0 (fun j => a * u j + b * v j) i) (r := 0)
    (by rw [ema_lin]; simp)
  rw [abs_le] at *
  constructor <;> nlinarith [h1.1, h1.2, h2.1, h2.2]

theorem signal_lin (i : ℕ) :
    |ema 9 25 (macdLine fun j => a * u j + b * v j) i - (a * ema 9 25 (macdLine u) i + b * ema 9 25 (macdLine v) i)| ≤
      (1 + |a| + |b|) * (2 / 20000) := by
  have h1 := smoothed_lin (a := 1) (b := -1) (macdLine fun j => a * u j + b * v j) (fun i => a * macdLine u i + b * macdLine v i)
    (2 / ((9 : ℕ) + 1 : ℚ)) 25 (macdLine (fun j => a * u j + b * v j) 25) (a * macdLine u 25 + b * macdLine v 25) i
  have h2 := ema_lin (a := a) (b := b) (macdLine u) (macdLine v) 9 25 i
  have h3 := smoothed_small (r := 2 / ((9 : ℕ) + 1 : ℚ)) (by norm_num) (by norm_num) 25
    (1 * macdLine (fun j => a * u j + b * v j) 25 + -1 * (a * macdLine u 25 + b * macdLine v 25))
    (fun j => 1 * macdLine (fun j => a * u j + b * v j) j + -1 * (a * macdLine u j + b * macdLine v j))
    (e := (1 + |a| + |b|) * (2 / 20000)) (by have := macd_lin (a := a) (b := b) u v 25; rwa [one_mul, neg_one_mul, ← sub_eq_add_neg])
    (fun j => by have := macd_lin (a := a) (b := b) u v j; rwa [one_mul, neg_one_mul, ← sub_eq_add_neg]) i
  rw [h1, one_mul, neg_one_mul, ← sub_eq_add_neg] at h3
  rw [← h2]
  exact h3

/-- The forecast: slope and end of the line, each rounded. -/
theorem forecast_lin {x y z x' y' z' : ℚ} (h : z = a * x + b * y) (h' : z' = a * x' + b * y') :
    |roundQ 4 z + roundQ 4 z' - (a * (roundQ 4 x + roundQ 4 x') + b * (roundQ 4 y + roundQ 4 y'))| ≤ (1 + |a| + |b|) * (2 / 20000) := by
  have h1 := round_lin (a := a) (b := b) (x := x) (y := y) (z := z) (r := 0) (by rw [h]; simp)
  have h2 := round_lin (a := a) (b := b) (x := x') (y := y') (z := z') (r := 0) (by rw [h']; simp)
  rw [abs_le] at *
  constructor <;> nlinarith [h1.1, h1.2, h2.1, h2.2]

end TTI.Basket
