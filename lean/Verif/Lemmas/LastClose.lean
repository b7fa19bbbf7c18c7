import Verif.Spec.LastClose
import Verif.Lemmas.Basket2

set_option autoImplicit false

/-!
# Numbers that agree before a day and grow on it (C106)
-/

namespace TTI.LastClose

open Spec

/-- From day `s` on the numbers agree before day `L`, and on that day the second one is greater by 0 to `d`. -/
structure Lift (s L : ℕ) (d : ℚ) (u v : ℕ → ℚ) : Prop where
  same : ∀ j, s ≤ j → j < L → v j = u j
  le : u L ≤ v L
  by_ : v L ≤ u L + d

variable {s L : ℕ} {d : ℚ} {u v : ℕ → ℚ}

theorem Lift.later (h : Lift s L d u v) (t : ℕ) (ht : s ≤ t) : Lift t L d u v := ⟨fun j h1 h2 => h.same j (by omega) h2, h.le, h.by_⟩

theorem Lift.nonneg (h : Lift s L d u v) : 0 ≤ d := by have := h.le; have := h.by_; linarith

theorem Lift.refl (s L : ℕ) (u : ℕ → ℚ) : Lift s L 0 u u := ⟨fun _ _ _ => rfl, le_rfl, by simp⟩

theorem Lift.congr {u' v' : ℕ → ℚ} (h : Lift s L d u v) (h1 : ∀ j, u j = u' j) (h2 : ∀ j, v j = v' j) : Lift s L d u' v' := by
  rwa [← funext h1, ← funext h2]

/-- A function of the number of the day and of nothing else that moves. -/
theorem Lift.map (h : Lift s L d u v) (e : ℚ) (q : ℕ → ℚ → ℚ) (h1 : q L (u L) ≤ q L (v L)) (h2 : q L (v L) ≤ q L (u L) + e) :
    Lift s L e (fun j => q j (u j)) (fun j => q j (v j)) :=
  ⟨fun j a b => by simp only [h.same j a b], h1, h2⟩

/-- What the last day adds to a window. -/
theorem sum_same (h : ∀ j, s ≤ j → j < L → v j = u j) (w i : ℕ) (hi : s + w ≤ i + 1) (hl : i < L) : sumLast w v i = sumLast w u i :=
  Finset.sum_congr rfl fun t ht => h _ (by rw [Finset.mem_range] at ht; omega) (by omega)

theorem sum_last (h : ∀ j, s ≤ j → j < L → v j = u j) (w : ℕ) (hw : 1 ≤ w) (hi : s + w ≤ L + 1) :
    sumLast w v L = sumLast w u L + (v L - u L) := by
  obtain ⟨k, rfl⟩ : ∃ k, w = k + 1 := ⟨w - 1, by omega⟩
  unfold sumLast
  rw [Finset.sum_range_succ', Finset.sum_range_succ']
  have : ∑ t ∈ Finset.range k, v (L - (t + 1)) = ∑ t ∈ Finset.range k, u (L - (t + 1)) :=
    Finset.sum_congr rfl fun t ht => h _ (by rw [Finset.mem_range] at ht; omega) (by rw [Finset.mem_range] at ht; omega)
  rw [this]
  simp only [Nat.sub_zero]
  ring

theorem Lift.sum (h : Lift s L d u v) (w : ℕ) (hw : 1 ≤ w) (hs : s + w ≤ L + 1) : Lift (s + w - 1) L d (sumLast w u) (sumLast w v) := by
  have e := sum_last h.same w hw hs
  have h1 := h.le
  have h2 := h.by_
  exact ⟨fun j a b => sum_same h.same w j (by omega) b, by rw [e]; linarith, by rw [e]; linarith⟩

theorem Lift.mean (h : Lift s L d u v) (w : ℕ) (hw : 1 ≤ w) (hs : s + w ≤ L + 1) :
    Lift (s + w - 1) L (d / w) (meanLast w u) (meanLast w v) := by
  have h1 := h.sum w hw hs
  have hw0 : (0 : ℚ) < w := by exact_mod_cast hw
  refine ⟨fun j a b => by unfold meanLast; rw [h1.same j a b], ?_, ?_⟩
  · unfold meanLast
    exact div_le_div_of_nonneg_right h1.le hw0.le
  · unfold meanLast
    rw [← add_div]
    exact div_le_div_of_nonneg_right h1.by_ hw0.le

theorem Lift.weaken (h : Lift s L d u v) (e : ℚ) (he : d ≤ e) : Lift s L e u v := ⟨h.same, h.le, by have := h.by_; linarith⟩

theorem Lift.mean1 (h : Lift s L d u v) (w : ℕ) (hw : 1 ≤ w) (hs : s + w ≤ L + 1) :
    Lift (s + w - 1) L d (meanLast w u) (meanLast w v) :=
  (h.mean w hw hs).weaken d (div_le_self h.nonneg (by exact_mod_cast hw))

theorem smoothed_same {a p q : ℚ} (hp : q = p) (h : ∀ j, s < j → j < L → v j = u j) (i : ℕ) (hi : i < L) :
    smoothed a s q v i = smoothed a s p u i := by
  induction i with
  | zero => exact hp
  | succ i ih =>
    simp only [smoothed]
    split
    · exact hp
    · rw [ih (by omega), h (i + 1) (by omega) hi]

theorem smoothed_last {a p q : ℚ} (hp : q = p) (h : ∀ j, s < j → j < L → v j = u j) (hs : s < L) :
    smoothed a s q v L = smoothed a s p u L + a * (v L - u L) := by
  obtain ⟨k, rfl⟩ : ∃ k, L = k + 1 := ⟨L - 1, by omega⟩
  simp only [smoothed]
  rw [if_neg (by omega), if_neg (by omega), smoothed_same hp h k (by omega)]
  ring

theorem smoothed_seed (a p : ℚ) (u : ℕ → ℚ) (s i : ℕ) (h : i ≤ s) : smoothed a s p u i = p := by
  cases i with
  | zero => rfl
  | succ i => simp only [smoothed]; rw [if_pos h]

theorem Lift.smoothed {a p q : ℚ} (h0 : 0 ≤ a) (h1 : a ≤ 1) (hp : s < L → q = p) (hpL : s = L → p ≤ q ∧ q ≤ p + d) (h : Lift (s + 1) L d u v)
    (hs : s ≤ L) : Lift s L d (smoothed a s p u) (smoothed a s q v) := by
  rcases Nat.lt_or_ge s L with hl | hl
  · have e := smoothed_last (a := a) (hp hl) (fun j h1 h2 => h.same j h1 h2) hl
    have h2 := h.le
    have h3 := h.by_
    refine ⟨fun j _ b => smoothed_same (hp hl) (fun j h1 h2 => h.same j h1 h2) j b, ?_, ?_⟩ <;> rw [e] <;> nlinarith
  · obtain rfl : s = L := by omega
    obtain ⟨h2, h3⟩ := hpL rfl
    refine ⟨fun j _ b => by omega, ?_, ?_⟩ <;> rw [smoothed_seed _ _ _ _ _ le_rfl, smoothed_seed _ _ _ _ _ le_rfl] <;> assumption

theorem alpha_bounds (n : ℕ) (hn : 1 ≤ n) : 0 < 2 / ((n : ℚ) + 1) ∧ 2 / ((n : ℚ) + 1) ≤ 1 := by
  have : (1 : ℚ) ≤ n := by exact_mod_cast hn
  exact ⟨by positivity, by rw [div_le_one (by linarith)]; linarith⟩

theorem Lift.ema (h : Lift s L d u v) (n : ℕ) (hn : 1 ≤ n) (hs : s ≤ L) : Lift s L d (ema n s u) (ema n s v) := by
  obtain ⟨h0, h1⟩ := alpha_bounds n hn
  refine Lift.smoothed h0.le h1 (fun hl => h.same s le_rfl hl) (fun e => ?_) (h.later _ (by omega)) hs
  subst e
  exact ⟨h.le, h.by_⟩

theorem Lift.wilder (h : Lift s L d u v) (n : ℕ) (hn : 1 ≤ n) (hs : s + n - 1 ≤ L) :
    Lift (s + n - 1) L (d / n) (wilderAverage n s u) (wilderAverage n s v) := by
  have h1 : (1 : ℚ) ≤ n := by exact_mod_cast hn
  have hm := h.mean n hn (by omega)
  unfold wilderAverage
  rcases Nat.lt_or_ge (s + n - 1) L with hl | hl
  · have hq := hm.same _ le_rfl hl
    have hu : ∀ j, s + n - 1 < j → j < L → v j = u j := fun j a b => h.same j (by omega) b
    have e := smoothed_last (a := 1 / (n : ℚ)) hq hu hl
    refine ⟨fun j _ b => smoothed_same hq hu j b, ?_, ?_⟩ <;> rw [e]
    · have : 0 ≤ 1 / (n : ℚ) * (v L - u L) := mul_nonneg (by positivity) (by linarith [h.le])
      linarith
    · have : (v L - u L) / (n : ℚ) ≤ d / n := div_le_div_of_nonneg_right (by linarith [h.by_]) (by linarith)
      rw [one_div_mul_eq_div]
      linarith
  · obtain rfl : s + n - 1 = L := by omega
    refine ⟨fun j _ b => by omega, ?_, ?_⟩ <;> rw [smoothed_seed _ _ _ _ _ le_rfl, smoothed_seed _ _ _ _ _ le_rfl]
    · exact hm.le
    · exact hm.by_

/-- Equal before the day, and greater by exactly `e` on it. -/
structure Exactly (s L : ℕ) (e : ℚ) (u v : ℕ → ℚ) : Prop where
  same : ∀ j, s ≤ j → j < L → v j = u j
  at_ : v L = u L + e

theorem Exactly.ema {e : ℚ} (h : Exactly s L e u v) (n : ℕ) (hs : s < L) :
    Exactly s L (2 / ((n : ℚ) + 1) * e) (Spec.ema n s u) (Spec.ema n s v) := by
  have e1 := smoothed_last (a := 2 / ((n : ℚ) + 1)) (h.same s le_rfl hs) (fun j h1 h2 => h.same j h1.le h2) hs
  refine ⟨fun j _ b => smoothed_same (h.same s le_rfl hs) (fun j h1 h2 => h.same j h1.le h2) j b, ?_⟩
  unfold Spec.ema
  rw [e1, h.at_]
  ring

theorem ema_one (s : ℕ) (u : ℕ → ℚ) (i : ℕ) (hi : s ≤ i) : Spec.ema 1 s u i = u i := by
  unfold Spec.ema
  rcases Nat.lt_or_ge s i with h | h
  · obtain ⟨k, rfl⟩ : ∃ k, i = k + 1 := ⟨i - 1, by omega⟩
    simp only [Spec.smoothed]
    rw [if_neg (by omega)]
    norm_num
  · obtain rfl : s = i := by omega
    rw [smoothed_seed _ _ _ _ _ le_rfl]

theorem alpha_lt (n : ℕ) (hn : 2 ≤ n) : 0 < 2 / ((n : ℚ) + 1) ∧ 2 / ((n : ℚ) + 1) < 1 := by
  have : (2 : ℚ) ≤ n := by exact_mod_cast hn
  exact ⟨by positivity, by rw [div_lt_one (by linarith)]; linarith⟩

/-- The exponential, double and triple exponential averages move by less than the price. -/
theorem ema_lift (n : ℕ) (hn : 2 ≤ n) (h : Lift 0 L d u v) (hL : 1 ≤ L) :
    ∃ θ < 1, Lift 0 L (θ * (v L - u L)) (Spec.ema n 0 u) (Spec.ema n 0 v) := by
  have hd : 0 ≤ v L - u L := by have := h.le; linarith
  obtain ⟨a0, a1⟩ := alpha_lt n hn
  have e1 := Exactly.ema (e := v L - u L) (s := 0) ⟨h.same, by ring⟩ n (by omega)
  exact ⟨_, a1, e1.same, by rw [e1.at_]; nlinarith, by rw [e1.at_]⟩

theorem dema_lift (n : ℕ) (hn : 2 ≤ n) (h : Lift 0 L d u v) (hL : 2 * n - 2 ≤ L) :
    ∃ θ < 1, Lift (n - 1) L (θ * (v L - u L)) (fun i => 2 * Spec.ema n 0 u i - Spec.ema n (n - 1) (Spec.ema n 0 u) i)
      (fun i => 2 * Spec.ema n 0 v i - Spec.ema n (n - 1) (Spec.ema n 0 v) i) := by
  have hd : 0 ≤ v L - u L := by have := h.le; linarith
  obtain ⟨a0, a1⟩ := alpha_lt n hn
  have e1 := Exactly.ema (e := v L - u L) (s := 0) ⟨h.same, by ring⟩ n (by omega)
  have e2 : Exactly (n - 1) L _ _ _ := ⟨fun j _ b => e1.same j (Nat.zero_le _) b, e1.at_⟩
  have e3 := e2.ema n (by omega)
  set a := 2 / ((n : ℚ) + 1)
  refine ⟨1 - (1 - a) * (1 - a), by nlinarith, fun j h1 h2 => ?_, ?_, ?_⟩
  · rw [e1.same j (Nat.zero_le _) h2, e3.same j h1 h2]
  · rw [e1.at_, e3.at_]
    nlinarith [mul_nonneg a0.le hd, mul_nonneg (sub_nonneg.2 a1.le) (mul_nonneg a0.le hd)]
  · rw [e1.at_, e3.at_]
    linarith

theorem tema_lift (n : ℕ) (hn : 2 ≤ n) (h : Lift 0 L d u v) (hL : 3 * n - 3 ≤ L) :
    ∃ θ < 1, Lift (2 * n - 2) L (θ * (v L - u L))
      (fun i => 3 * Spec.ema n 0 u i - 3 * Spec.ema n (n - 1) (Spec.ema n 0 u) i +
        Spec.ema n (2 * n - 2) (Spec.ema n (n - 1) (Spec.ema n 0 u)) i)
      (fun i => 3 * Spec.ema n 0 v i - 3 * Spec.ema n (n - 1) (Spec.ema n 0 v) i +
        Spec.ema n (2 * n - 2) (Spec.ema n (n - 1) (Spec.ema n 0 v)) i) := by
  have hd : 0 ≤ v L - u L := by have := h.le; linarith
  obtain ⟨a0, a1⟩ := alpha_lt n hn
  have e1 := Exactly.ema (e := v L - u L) (s := 0) ⟨h.same, by ring⟩ n (by omega)
  have e2 : Exactly (n - 1) L _ _ _ := ⟨fun j _ b => e1.same j (Nat.zero_le _) b, e1.at_⟩
  have e3 := e2.ema n (by omega)
  have e4 : Exactly (2 * n - 2) L _ _ _ := ⟨fun j a b => e3.same j (by omega) b, e3.at_⟩
  have e5 := e4.ema n (by omega)
  set a := 2 / ((n : ℚ) + 1)
  have ha : 0 < 1 - a := by linarith
  have ha3 : 0 < (1 - a) * ((1 - a) * (1 - a)) := by positivity
  refine ⟨1 - (1 - a) * ((1 - a) * (1 - a)), by linarith, fun j h1 h2 => ?_, ?_, ?_⟩
  · rw [e1.same j (Nat.zero_le _) h2, e3.same j (by omega) h2, e5.same j h1 h2]
  · rw [e1.at_, e3.at_, e5.at_]
    have : 0 ≤ a * (3 - 3 * a + a * a) * (v L - u L) := by
      have : 0 ≤ 3 - 3 * a + a * a := by nlinarith
      positivity
    linarith
  · rw [e1.at_, e3.at_, e5.at_]
    linarith

/-! ## Regression -/

theorem slope_same (h : ∀ j, j < L → v j = u j) (p i : ℕ) (hp : p ≤ i + 1) (hi : i < L) :
    slopeQ v (i + 1 - p) p = slopeQ u (i + 1 - p) p ∧ interceptQ v (i + 1 - p) p = interceptQ u (i + 1 - p) p := by
  have e : ∀ t ∈ Finset.range p, v (i + 1 - p + t) = u (i + 1 - p + t) := fun t ht => h _ (by rw [Finset.mem_range] at ht; omega)
  have e1 : ∑ t ∈ Finset.range p, v (i + 1 - p + t) = ∑ t ∈ Finset.range p, u (i + 1 - p + t) := Finset.sum_congr rfl e
  have e2 : ∑ t ∈ Finset.range p, v (i + 1 - p + t) * ((i + 1 - p + t : ℕ) : ℚ) =
      ∑ t ∈ Finset.range p, u (i + 1 - p + t) * ((i + 1 - p + t : ℕ) : ℚ) := Finset.sum_congr rfl fun t ht => by rw [e t ht]
  have e3 : slopeQ v (i + 1 - p) p = slopeQ u (i + 1 - p) p := by unfold slopeQ; rw [e1, e2]
  exact ⟨e3, by unfold interceptQ; rw [e1, e3]⟩

theorem window_sum_last (h : ∀ j, j < L → v j = u j) (p : ℕ) (hp : 1 ≤ p) (hL : p ≤ L + 1) (x : ℕ → ℚ) :
    ∑ t ∈ Finset.range p, v (L + 1 - p + t) * x (L + 1 - p + t) =
      ∑ t ∈ Finset.range p, u (L + 1 - p + t) * x (L + 1 - p + t) + (v L - u L) * x L := by
  obtain ⟨k, rfl⟩ : ∃ k, p = k + 1 := ⟨p - 1, by omega⟩
  rw [Finset.sum_range_succ, Finset.sum_range_succ, show L + 1 - (k + 1) + k = L by omega]
  have : ∑ t ∈ Finset.range k, v (L + 1 - (k + 1) + t) * x (L + 1 - (k + 1) + t) =
      ∑ t ∈ Finset.range k, u (L + 1 - (k + 1) + t) * x (L + 1 - (k + 1) + t) :=
    Finset.sum_congr rfl fun t ht => by rw [h _ (by rw [Finset.mem_range] at ht; omega)]
  rw [this]
  ring

theorem slope_last (h : ∀ j, j < L → v j = u j) (p : ℕ) (hp : 2 ≤ p) (hL : p ≤ L + 1) :
    slopeQ v (L + 1 - p) p = slopeQ u (L + 1 - p) p + 6 / (p * (p + 1)) * (v L - u L) ∧
    interceptQ v (L + 1 - p) p + slopeQ v (L + 1 - p) p * L =
      interceptQ u (L + 1 - p) p + slopeQ u (L + 1 - p) p * L + (4 * p - 2) / (p * (p + 1)) * (v L - u L) := by
  have e1 := window_sum_last h p (by omega) hL fun j => (j : ℚ)
  have e2 := window_sum_last h p (by omega) hL fun _ => (1 : ℚ)
  simp only [mul_one] at e2
  have hp2 : (2 : ℚ) ≤ p := by exact_mod_cast hp
  have hL' : ((L + 1 - p : ℕ) : ℚ) = L + 1 - p := by push_cast [Nat.cast_sub hL]; ring
  have hd := det_eq (L + 1 - p) p
  have hx := sum_x (L + 1 - p) p
  have hne : (p : ℚ) * p * (p - 1) * (p + 1) / 12 ≠ 0 := by
    have : (0 : ℚ) < p - 1 := by linarith
    positivity
  have k1 : slopeQ v (L + 1 - p) p = slopeQ u (L + 1 - p) p + 6 / (p * (p + 1)) * (v L - u L) := by
    unfold slopeQ
    rw [hd, e1, e2, hx, hL']
    have h1 : (p : ℚ) ≠ 0 := by linarith
    have h2 : (p : ℚ) + 1 ≠ 0 := by linarith
    have h3 : (p : ℚ) - 1 ≠ 0 := by linarith
    field_simp
    ring
  refine ⟨k1, ?_⟩
  unfold interceptQ
  rw [k1, e2, hx, hL']
  have h1 : (p : ℚ) ≠ 0 := by linarith
  have h2 : (p : ℚ) + 1 ≠ 0 := by linarith
  field_simp
  ring

theorem lri_coefficient (p : ℕ) (hp : 3 ≤ p) : 0 ≤ ((4 : ℚ) * p - 2) / (p * (p + 1)) ∧ ((4 : ℚ) * p - 2) / (p * (p + 1)) < 1 := by
  have hp2 : (3 : ℚ) ≤ p := by exact_mod_cast hp
  constructor
  · apply div_nonneg <;> nlinarith
  · rw [div_lt_one (by nlinarith)]
    nlinarith

/-- The line through two points ends in the second one. -/
theorem line_two (u : ℕ → ℚ) (i : ℕ) (hi : 1 ≤ i) : interceptQ u (i + 1 - 2) 2 + slopeQ u (i + 1 - 2) 2 * i = u i := by
  obtain ⟨k, rfl⟩ : ∃ k, i = k + 1 := ⟨i - 1, by omega⟩
  rw [show k + 1 + 1 - 2 = k by omega]
  unfold interceptQ slopeQ
  simp only [Finset.sum_range_succ, Finset.sum_range_zero]
  push_cast
  ring_nf

/-! ## Rounding -/

/-- A number that grows by less than a multiple of the last decimal grows by at most that after rounding. -/
theorem rint_gap {x y : ℚ} (m : ℤ) (h : y < x + m) : rint y ≤ rint x + m := by
  have h1 := rint_close x
  have h2 := rint_close y
  rw [abs_le] at h1 h2
  have h3 : (rint y : ℚ) < rint x + m + 1 := by linarith [h1.1, h2.2]
  have h4 : rint y < rint x + m + 1 := by exact_mod_cast h3
  omega

theorem round_gap {x y d : ℚ} (m : ℤ) (hd : d = m / 10000) (h : y < x + d) : roundQ 4 y ≤ roundQ 4 x + d := by
  have h1 : y * 10 ^ 4 < x * 10 ^ 4 + m := by rw [hd] at h; linarith
  have h2 : (rint (y * 10 ^ 4) : ℚ) ≤ rint (x * 10 ^ 4) + m := by exact_mod_cast rint_gap m h1
  unfold roundQ
  rw [hd]
  norm_num at h2 ⊢
  linarith

/-- The line moves by less than the price, or both stay, or the line is the price. -/
def Slower (a b x y : ℚ) : Prop := x ≤ y ∧ (y < x + (b - a) ∨ y = x ∨ x = a ∧ y = b)

theorem Slower.of_lift {a b : ℚ} (θ : ℚ) (hθ : θ < 1) (hab : a ≤ b) (h : Lift s L (θ * (b - a)) u v) : Slower a b (u L) (v L) := by
  refine ⟨h.le, ?_⟩
  have h1 := h.by_
  have h2 := h.le
  rcases hab.lt_or_eq with h3 | h3
  · exact .inl (by nlinarith)
  · exact .inr (.inl (by subst h3; simp at h1; linarith))

/-- What it says after rounding, for prices on the grid of four decimals. -/
theorem Slower.round {a b x y : ℚ} (h : Slower a b x y) (hab : a ≤ b) (ha : ∃ m : ℤ, a = m / 10000) (hb : ∃ m : ℤ, b = m / 10000) :
    roundQ 4 x ≤ roundQ 4 y ∧ roundQ 4 y ≤ roundQ 4 x + (b - a) := by
  obtain ⟨m, hm⟩ := ha
  obtain ⟨k, hk⟩ := hb
  refine ⟨roundQ_mono 4 h.1, ?_⟩
  rcases h.2 with h | h | ⟨rfl, rfl⟩
  · exact round_gap (k - m) (by rw [hm, hk]; push_cast; ring) h
  · rw [h]; linarith
  · have e : ∀ n : ℤ, roundQ 4 ((n : ℚ) / 10000) = n / 10000 := fun n => by
      have := roundQ_div 4 n
      norm_num at this ⊢
      exact this
    rw [hm, hk, e, e]; linarith

end TTI.LastClose
