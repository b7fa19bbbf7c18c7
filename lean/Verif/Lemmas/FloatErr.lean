import Verif.Lemmas.Float

set_option autoImplicit false

/-! Indicators in rounded arithmetic: the errors. -/

namespace TTI

open Spec Flt Sim

variable {R : Rounding}

/-- Few roundings: the factor is about linear. -/
theorem pow_lin (u : ℚ) (hu : 0 ≤ u) (k : ℕ) (h : k * u ≤ 1) : (1 + u) ^ k ≤ 1 + k * u + (k * u) ^ 2 := by
  induction k with
  | zero => simp
  | succ k ih =>
    push_cast at h ⊢
    have hk : (k : ℚ) * u ≤ 1 := by nlinarith
    have h1 := ih hk
    have h2 : (1 + u) ^ (k + 1) = (1 + u) ^ k * (1 + u) := pow_succ _ _
    rw [h2]
    have hk0 : (0 : ℚ) ≤ k := by positivity
    calc (1 + u) ^ k * (1 + u) ≤ (1 + k * u + (k * u) ^ 2) * (1 + u) := mul_le_mul_of_nonneg_right h1 (by linarith)
      _ ≤ 1 + (k + 1) * u + ((k + 1) * u) ^ 2 := by
        have : (k : ℚ) * u * (k * u * u) ≤ 1 * (k * u * u) := mul_le_mul_of_nonneg_right hk (by positivity)
        nlinarith [mul_nonneg hk0 (mul_nonneg hu hu), mul_nonneg hu hu]

theorem pow_lin' (u : ℚ) (hu : 0 ≤ u) (k : ℕ) (h : k * u ≤ 1 / 100) : (1 + u) ^ k - 1 ≤ 101 / 100 * (k * u) := by
  have h1 := pow_lin u hu k (by linarith)
  have h2 : 0 ≤ (k : ℚ) * u := by positivity
  nlinarith

theorem pow_add_ge (u : ℚ) (hu : 0 ≤ u) (k m : ℕ) : (1 + u) ^ k + m * u ≤ (1 + u) ^ (k + m) := by
  induction m with
  | zero => simp
  | succ m ih =>
    rw [← add_assoc, pow_succ]
    push_cast
    have : 1 ≤ (1 + u) ^ (k + m) := one_le_pow₀ (by linarith)
    nlinarith

/-- From a linear error. -/
theorem near_of_le {k m : ℕ} {a x M : ℚ} (hx : |x| ≤ M) (h : |a - x| ≤ ((1 + R.unit) ^ k - 1) * M + m * R.unit * M) :
    Near R (k + m) a x M := by
  refine ⟨hx, h.trans ?_⟩
  have := pow_add_ge R.unit R.nonneg k m
  have hM : 0 ≤ M := (abs_nonneg x).trans hx
  nlinarith

theorem _root_.TTI.Sim.Near.scope {k : ℕ} {a x A B : ℚ} (h : Near R k a x A) (hAB : A ≤ B) : Near R k a x B :=
  ⟨h.1.trans hAB, h.2.trans (mul_le_mul_of_nonneg_left hAB (by linarith [pow_ge_one R k]))⟩

theorem near_of_abs {x M : ℚ} (h : |x| ≤ M) : Near R 0 x x M := (near_exact R x).scope h

theorem _root_.TTI.Sim.Near.size {k : ℕ} {a x M : ℚ} (h : Near R k a x M) : |a| ≤ (1 + R.unit) ^ k * M := by
  have h1 : |a| ≤ |a - x| + |x| := by
    have := abs_add_le (a - x) x
    rwa [sub_add_cancel] at this
  have := h.1
  have := h.2
  nlinarith

/-- A rounded product with an exact factor. -/
theorem _root_.TTI.Sim.Near.scale {k : ℕ} {a x A : ℚ} (h : Near R k a x A) (c : ℚ) (hc : 0 ≤ c) : Near R (k + 1) (R.fl (c * a)) (c * x) (c * A) :=
  (h.mul_exact c hc).fl

/-! ## Rounding to decimals -/

theorem round_error (A : Arith) (hA : A.fl = R.fl) (d : ℕ) (q : ℚ) (hu : R.unit ≤ 1) :
    |A.roundNum d q - q| ≤ 1 / 2 / 10 ^ d + 3 * R.unit * |q| + R.unit := by
  unfold Arith.roundNum
  rw [hA]
  have hP : (1 : ℚ) ≤ 10 ^ d := one_le_pow₀ (by norm_num)
  have hP0 : (0 : ℚ) < 10 ^ d := by positivity
  set P : ℚ := 10 ^ d
  set r : ℤ := rint (R.fl (q * P))
  have h1 := R.error (q * P)
  have h2 : |(r : ℚ) - R.fl (q * P)| ≤ 1 / 2 := rint_close _
  have h3 := R.error ((r : ℚ) / P)
  rw [abs_mul, abs_of_pos hP0] at h1
  have h4 : |(r : ℚ) - q * P| ≤ 1 / 2 + R.unit * (|q| * P) := by
    have := abs_add_le ((r : ℚ) - R.fl (q * P)) (R.fl (q * P) - q * P)
    rw [sub_add_sub_cancel] at this
    linarith
  have h5 : |(r : ℚ) / P - q| ≤ 1 / 2 / P + R.unit * |q| := by
    have e : (r : ℚ) / P - q = (r - q * P) / P := by field_simp
    rw [e, abs_div, abs_of_pos hP0, div_le_iff₀ hP0]
    calc _ ≤ _ := h4
      _ = _ := by field_simp
  have h6 : |(r : ℚ) / P| ≤ |q| + (1 / 2 / P + R.unit * |q|) := by
    have := abs_add_le ((r : ℚ) / P - q) q
    rw [sub_add_cancel] at this
    linarith
  have h7 : 1 / 2 / P ≤ 1 / 2 := by
    rw [div_le_iff₀ hP0]; linarith
  have h8 := abs_add_le (R.fl ((r : ℚ) / P) - r / P) ((r : ℚ) / P - q)
  rw [sub_add_sub_cancel] at h8
  have hu0 := R.nonneg
  have hq := abs_nonneg q
  have h9 : R.unit * |(r : ℚ) / P| ≤ R.unit * (|q| + (1 / 2 + |q|)) := by
    apply mul_le_mul_of_nonneg_left _ hu0
    nlinarith [mul_le_mul_of_nonneg_right hu hq]
  nlinarith

/-- The error of a reported value. -/
theorem _root_.TTI.Sim.Near.reported {A : Arith} (hA : A.fl = R.fl) {k : ℕ} {a x M : ℚ} (h : Near R k a x M) (d : ℕ) (hk : k * R.unit ≤ 1 / 100)
    (hu : R.unit ≤ 1) : |A.roundNum d a - x| ≤ 1 / 2 / 10 ^ d + (101 / 100 * k + 4) * R.unit * (M + 1) := by
  have h1 := round_error A hA d a hu
  have h2 := pow_lin' R.unit R.nonneg k hk
  have hM := h.nonneg
  have h3 := h.2
  have h4 := h.size
  have hu0 := R.nonneg
  have h5 := abs_add_le (A.roundNum d a - a) (a - x)
  rw [sub_add_sub_cancel] at h5
  have h6 : |a| ≤ 102 / 100 * M := by nlinarith
  have h7 : ((1 + R.unit) ^ k - 1) * M ≤ 101 / 100 * (k * R.unit) * M := mul_le_mul_of_nonneg_right h2 hM
  have h8 : R.unit * |a| ≤ R.unit * (102 / 100 * M) := mul_le_mul_of_nonneg_left h6 hu0
  have h9 : 0 ≤ (k : ℚ) * R.unit := by positivity
  nlinarith [mul_nonneg hu0 hM]

/-! ## Exponential averages -/

/-- The weights of the average of `s` periods. -/
theorem weights (A : Arith) (hA : A.fl = R.fl) (s : ℕ) (hs : 1 ≤ s) (hu : R.unit ≤ 1 / 10000) :
    |A.alpha s - 2 / ((s : ℚ) + 1)| ≤ 4 * R.unit * (2 / ((s : ℚ) + 1)) ∧ |A.oldFactor s - (1 - 2 / ((s : ℚ) + 1))| ≤ 5 * R.unit ∧
      (A.com s = 1 → 49 / 100 ≤ 2 / ((s : ℚ) + 1)) := by
  have hs' : (1 : ℚ) ≤ s := by exact_mod_cast hs
  obtain ⟨X, hX⟩ : ∃ X : ℚ, X = ((s : ℚ) + 1) / 2 := ⟨_, rfl⟩
  have hX1 : 1 ≤ X := by rw [hX]; linarith
  have ea : 2 / ((s : ℚ) + 1) = 1 / X := by rw [hX]; field_simp
  have ec : ((s : ℚ) - 1) / 2 = X - 1 := by rw [hX]; ring
  have hu0 := R.nonneg
  have h1 : |A.com s - (X - 1)| ≤ R.unit * (X - 1) := by
    have := R.error (X - 1)
    rw [abs_of_nonneg (show 0 ≤ X - 1 by linarith)] at this
    unfold Arith.com
    rwa [hA, ec]
  rw [ea]
  set c := A.com s
  obtain ⟨Y, hY⟩ : ∃ Y : ℚ, Y = R.fl (1 + c) := ⟨_, rfl⟩
  have h1' := abs_le.1 h1
  have h2 : |Y - X| ≤ 21 / 10 * R.unit * X := by
    have := R.error (1 + c)
    rw [← hY, abs_of_nonneg (show 0 ≤ 1 + c by nlinarith)] at this
    have := abs_le.1 this
    rw [abs_le]
    constructor <;> nlinarith
  have h2' := abs_le.1 h2
  have hX0 : 0 < X := by linarith
  have hY0 : 0 < Y := by nlinarith
  have h3 : |1 / Y - 1 / X| ≤ 22 / 10 * R.unit * (1 / X) := by
    have e : 1 / Y - 1 / X = (X - Y) / (X * Y) := by field_simp
    rw [e, abs_div, abs_of_pos (mul_pos hX0 hY0), abs_sub_comm, div_le_iff₀ (mul_pos hX0 hY0)]
    have e2 : 22 / 10 * R.unit * (1 / X) * (X * Y) = 22 / 10 * R.unit * Y := by field_simp
    rw [e2]
    have : X * (1 - 21 / 10 * R.unit) ≤ Y := by linarith
    have : R.unit * (X * (1 - 21 / 10 * R.unit)) ≤ R.unit * Y := mul_le_mul_of_nonneg_left this hu0
    have : R.unit * X * R.unit ≤ R.unit * X * (1 / 10000) := mul_le_mul_of_nonneg_left hu (by positivity)
    nlinarith [mul_nonneg hu0 hX0.le]
  obtain ⟨a, ha⟩ : ∃ a : ℚ, a = 1 / X := ⟨_, rfl⟩
  have ha0 : 0 < a := by rw [ha]; positivity
  have ha1 : a ≤ 1 := by rw [ha, div_le_iff₀ hX0]; linarith
  rw [← ha] at h3 ⊢
  have h3' := abs_le.1 h3
  have h4 : |A.alpha s - a| ≤ 4 * R.unit * a := by
    have h := R.error (1 / Y)
    have e : A.alpha s = R.fl (1 / Y) := by unfold Arith.alpha; rw [hA, hY]
    rw [abs_of_pos (show 0 < 1 / Y by positivity), ← e] at h
    have h' := abs_le.1 h
    have hua : R.unit * (R.unit * a) ≤ 1 / 10000 * (R.unit * a) := mul_le_mul_of_nonneg_right hu (by positivity)
    have hu1 : R.unit * (1 / Y) ≤ R.unit * (a + 22 / 10 * R.unit * a) := mul_le_mul_of_nonneg_left (by linarith) hu0
    have hu2 := mul_nonneg hu0 ha0.le
    rw [abs_le]
    constructor <;> linarith
  refine ⟨h4, ?_, ?_⟩
  · have h4' := abs_le.1 h4
    have h := R.error (1 - A.alpha s)
    have e : A.oldFactor s = R.fl (1 - A.alpha s) := by unfold Arith.oldFactor; rw [hA]
    rw [← e] at h
    have hu2 := mul_le_mul_of_nonneg_right hu ha0.le
    have hu3 := mul_nonneg hu0 ha0.le
    have hu4 := mul_le_mul_of_nonneg_left ha1 hu0
    have h5 : |1 - A.alpha s| ≤ 1 := by
      rw [abs_le]
      constructor <;> linarith
    have h6 : R.unit * |1 - A.alpha s| ≤ R.unit * 1 := mul_le_mul_of_nonneg_left h5 hu0
    have h' := abs_le.1 (h.trans h6)
    rw [abs_le]
    constructor <;> linarith
  · intro hc
    rw [hc] at h1'
    have hX2 : X ≤ 201 / 100 := by
      have := mul_le_mul_of_nonneg_right hu (show 0 ≤ X - 1 by linarith)
      linarith
    rw [ha, le_div_iff₀ hX0]
    linarith

/-- One step of the average. -/
theorem emaNext_error (A : Arith) (hA : A.fl = R.fl) (s : ℕ) (hs : 1 ≤ s) (hu : R.unit ≤ 1 / 10000) (w c W : ℚ) (hw : |w| ≤ W)
    (hc : |c| ≤ W) : |A.emaNext s w c - (w + 2 / ((s : ℚ) + 1) * (c - w))| ≤ 55 * R.unit * W := by
  obtain ⟨h1, h2, h3⟩ := weights A hA s hs hu
  have hs' : (1 : ℚ) ≤ s := by exact_mod_cast hs
  have hW : 0 ≤ W := (abs_nonneg w).trans hw
  have hu0 := R.nonneg
  have ha0 : 0 < 2 / ((s : ℚ) + 1) := by positivity
  have ha1 : 2 / ((s : ℚ) + 1) ≤ 1 := by rw [div_le_iff₀ (by positivity)]; linarith
  generalize 2 / ((s : ℚ) + 1) = a at *
  have ho : A.fl (1 * A.oldFactor s) = A.oldFactor s := by
    rw [one_mul]
    unfold Arith.oldFactor
    rw [hA, R.again]
  unfold Arith.emaNext
  rw [ho]
  simp only
  obtain ⟨o, hoo⟩ : ∃ o, o = A.oldFactor s := ⟨_, rfl⟩
  obtain ⟨m, hm⟩ : ∃ m, m = if A.com s = 1 then A.fl (1 - A.oldFactor s) else A.alpha s := ⟨_, rfl⟩
  rw [← hm, ← hoo, hA]
  rw [← hoo] at h2
  have h2' := abs_le.1 h2
  have hm' : |m - a| ≤ 15 * R.unit * a := by
    rw [hm]
    split
    · next hcom =>
      have h := R.error (1 - o)
      have ha := h3 hcom
      rw [hA, ← hoo]
      have h5 : |1 - o| ≤ 101 / 100 := by
        rw [abs_le]; constructor <;> nlinarith
      have h' := abs_le.1 (h.trans (mul_le_mul_of_nonneg_left h5 hu0))
      rw [abs_le]
      constructor <;> nlinarith
    · exact h1.trans (by nlinarith)
  clear hm
  split
  · next e =>
    rw [e]
    simp only [sub_self, mul_zero, add_zero, abs_zero]
    positivity
  have hm'' := abs_le.1 hm'
  have hua : R.unit * a ≤ R.unit := by nlinarith
  -- the two products
  have p1 : |R.fl (o * w) - (1 - a) * w| ≤ 7 * R.unit * W := by
    have h := R.error (o * w)
    have e1 : |o * w - (1 - a) * w| ≤ 5 * R.unit * W := by
      rw [← sub_mul, abs_mul]
      exact mul_le_mul h2 hw (abs_nonneg _) (by positivity)
    have e2 : |o * w| ≤ 101 / 100 * W := by
      rw [abs_mul]
      refine mul_le_mul ?_ hw (abs_nonneg _) (by norm_num)
      rw [abs_le]; constructor <;> nlinarith
    have e3 := abs_add_le (R.fl (o * w) - o * w) (o * w - (1 - a) * w)
    rw [sub_add_sub_cancel] at e3
    nlinarith [mul_le_mul_of_nonneg_left e2 hu0, mul_nonneg hu0 hW]
  have p2 : |R.fl (m * c) - a * c| ≤ 17 * R.unit * W := by
    have h := R.error (m * c)
    have e1 : |m * c - a * c| ≤ 15 * R.unit * W := by
      rw [← sub_mul, abs_mul]
      exact mul_le_mul (hm'.trans (by linarith)) hc (abs_nonneg _) (by positivity)
    have e2 : |m * c| ≤ 101 / 100 * W := by
      rw [abs_mul]
      refine mul_le_mul ?_ hc (abs_nonneg _) (by norm_num)
      rw [abs_le]; constructor <;> nlinarith
    have e3 := abs_add_le (R.fl (m * c) - m * c) (m * c - a * c)
    rw [sub_add_sub_cancel] at e3
    nlinarith [mul_le_mul_of_nonneg_left e2 hu0, mul_nonneg hu0 hW]
  generalize R.fl (o * w) = p at *
  generalize R.fl (m * c) = q at *
  -- the sum
  have hx : |(1 - a) * w + a * c| ≤ W := by
    have h1 : |(1 - a) * w| ≤ (1 - a) * W := by
      rw [abs_mul, abs_of_nonneg (by linarith)]
      exact mul_le_mul_of_nonneg_left hw (by linarith)
    have h2 : |a * c| ≤ a * W := by
      rw [abs_mul, abs_of_nonneg ha0.le]
      exact mul_le_mul_of_nonneg_left hc ha0.le
    exact (abs_add_le _ _).trans (by linarith)
  have p3 : |p + q - ((1 - a) * w + a * c)| ≤ 24 * R.unit * W := by
    have := abs_add_le (p - (1 - a) * w) (q - a * c)
    rw [show p - (1 - a) * w + (q - a * c) = p + q - ((1 - a) * w + a * c) by ring] at this
    linarith
  have e0 : w + a * (c - w) = (1 - a) * w + a * c := by ring
  rw [e0]
  clear e0 p1 p2
  generalize (1 - a) * w + a * c = x at *
  have huW : R.unit * W ≤ 1 / 10000 * W := mul_le_mul_of_nonneg_right hu hW
  have huW0 := mul_nonneg hu0 hW
  have p4 : |p + q| ≤ 101 / 100 * W := by
    have := abs_add_le (p + q - x) x
    rw [sub_add_cancel] at this
    linarith
  have p5 : |R.fl (p + q) - x| ≤ 26 * R.unit * W := by
    have h := R.error (p + q)
    have := abs_add_le (R.fl (p + q) - (p + q)) (p + q - x)
    rw [sub_add_sub_cancel] at this
    have := mul_le_mul_of_nonneg_left p4 hu0
    linarith
  have p6 : |R.fl (p + q)| ≤ 101 / 100 * W := by
    have := abs_add_le (R.fl (p + q) - x) x
    rw [sub_add_cancel] at this
    linarith
  generalize R.fl (p + q) = t at *
  -- the divisor
  have d1 : |R.fl (o + m) - 1| ≤ 22 * R.unit := by
    have h := R.error (o + m)
    have h1 : |o + m| ≤ 101 / 100 := by
      rw [abs_le]; constructor <;> linarith
    have h' := abs_le.1 (h.trans (mul_le_mul_of_nonneg_left h1 hu0))
    rw [abs_le]; constructor <;> linarith
  generalize R.fl (o + m) = D at *
  have d1' := abs_le.1 d1
  have hD : 99 / 100 ≤ D := by linarith
  have p7 : |t / D - t| ≤ 24 * R.unit * W := by
    have e : t / D - t = t * (1 - D) / D := by field_simp
    rw [e, abs_div, abs_mul, abs_of_pos (show 0 < D by linarith), div_le_iff₀ (by linarith)]
    have h1 : |t| * |1 - D| ≤ 101 / 100 * W * (22 * R.unit) :=
      mul_le_mul p6 (by rw [abs_sub_comm]; exact d1) (abs_nonneg _) (by positivity)
    have h2 : 24 * R.unit * W * (99 / 100) ≤ 24 * R.unit * W * D := mul_le_mul_of_nonneg_left hD (by linarith)
    linarith
  have p8 : |t / D| ≤ 102 / 100 * W := by
    have := abs_add_le (t / D - t) t
    rw [sub_add_cancel] at this
    linarith
  have h := R.error (t / D)
  have h1 := abs_add_le (R.fl (t / D) - t / D) (t / D - t)
  rw [sub_add_sub_cancel] at h1
  have h2 := abs_add_le (R.fl (t / D) - t) (t - x)
  rw [sub_add_sub_cancel] at h2
  have h3 := mul_le_mul_of_nonneg_left p8 hu0
  linarith

/-- The average of numbers that are nearly given numbers, however many. -/
theorem ema_near (A : Arith) (hA : A.fl = R.fl) (s : ℕ) (hs : 1 ≤ s) (k b : ℕ) (g x : ℕ → ℚ) (M : ℚ) (i : ℕ)
    (h : ∀ j, b ≤ j → j ≤ i → Near R k (g j) (x j) M) (hb : b ≤ i) (hu : R.unit ≤ 1 / 10000)
    (hp : (1 + R.unit) ^ (k + 28 * (s + 1)) ≤ 101 / 100) :
    Near R (k + 28 * (s + 1)) (A.ema s b g i) (Spec.ema s b x i) M := by
  have hM : 0 ≤ M := (h b (le_refl _) hb).nonneg
  have hu0 := R.nonneg
  have hs' : (1 : ℚ) ≤ s := by exact_mod_cast hs
  obtain ⟨a, ha⟩ : ∃ a : ℚ, a = 2 / ((s : ℚ) + 1) := ⟨_, rfl⟩
  have ha0 : 0 < a := by rw [ha]; positivity
  have ha1 : a ≤ 1 := by rw [ha, div_le_iff₀ (by positivity)]; linarith
  obtain ⟨d, hd⟩ : ∃ d : ℚ, d = ((1 + R.unit) ^ k - 1) * M := ⟨_, rfl⟩
  have hd0 : 0 ≤ d := by rw [hd]; exact mul_nonneg (by linarith [pow_ge_one R k]) hM
  have hae : a * (28 * ((s : ℚ) + 1)) = 56 := by rw [ha]; field_simp; norm_num
  have hpow := pow_add_ge R.unit hu0 k (28 * (s + 1))
  push_cast at hpow
  obtain ⟨e, he⟩ : ∃ e : ℚ, e = 28 * ((s : ℚ) + 1) * R.unit * M := ⟨_, rfl⟩
  have he0 : 0 ≤ e := by rw [he]; positivity
  have hsmall : d + e ≤ 1 / 100 * M := by
    rw [hd, he]
    calc _ = ((1 + R.unit) ^ k + 28 * ((s : ℚ) + 1) * R.unit - 1) * M := by ring
      _ ≤ _ := mul_le_mul_of_nonneg_right (by linarith) hM
  have hae' : a * e = 56 * (R.unit * M) := by
    rw [he]
    calc _ = a * (28 * ((s : ℚ) + 1)) * (R.unit * M) := by ring
      _ = _ := by rw [hae]
  have key : ∀ t, b + t ≤ i → |Spec.ema s b x (b + t)| ≤ M ∧ |A.ema s b g (b + t) - Spec.ema s b x (b + t)| ≤ d + e := by
    intro t
    induction t with
    | zero =>
      intro _
      have hb' := h b (le_refl _) hb
      unfold Arith.ema Spec.ema
      rw [add_zero, running_start _ _ _ _ _ (le_refl _), Nums.smoothed_start _ _ _ _ _ (le_refl _)]
      exact ⟨hb'.1, by have := hb'.2; rw [← hd] at this; linarith⟩
    | succ t ih =>
      intro ht
      obtain ⟨h1, h2⟩ := ih (by omega)
      have hj := h (b + t + 1) (by omega) (by omega)
      have e1 : A.ema s b g (b + (t + 1)) = A.emaNext s (A.ema s b g (b + t)) (g (b + t + 1)) := by
        unfold Arith.ema
        rw [← add_assoc, running_next _ _ _ _ _ (by omega)]
      have e2 : Spec.ema s b x (b + (t + 1)) = Spec.ema s b x (b + t) + a * (x (b + t + 1) - Spec.ema s b x (b + t)) := by
        unfold Spec.ema
        rw [← add_assoc, Nums.smoothed_next _ _ _ _ _ (by omega), ha]
      rw [e1, e2]
      have hx := hj.1
      have hg := hj.2
      rw [← hd] at hg
      generalize A.ema s b g (b + t) = w at *
      generalize Spec.ema s b x (b + t) = v at *
      generalize g (b + t + 1) = c at *
      generalize x (b + t + 1) = y at *
      have hw : |w| ≤ 101 / 100 * M := by
        have := abs_add_le (w - v) v
        rw [sub_add_cancel] at this
        linarith
      have hc : |c| ≤ 101 / 100 * M := by
        have := abs_add_le (c - y) y
        rw [sub_add_cancel] at this
        linarith
      have hn := emaNext_error A hA s hs hu w c (101 / 100 * M) hw hc
      rw [← ha] at hn
      constructor
      · have e3 : v + a * (y - v) = (1 - a) * v + a * y := by ring
        rw [e3]
        have h1 : |(1 - a) * v| ≤ (1 - a) * M := by
          rw [abs_mul, abs_of_nonneg (by linarith)]
          exact mul_le_mul_of_nonneg_left h1 (by linarith)
        have h2 : |a * y| ≤ a * M := by
          rw [abs_mul, abs_of_nonneg ha0.le]
          exact mul_le_mul_of_nonneg_left hx ha0.le
        exact (abs_add_le _ _).trans (by linarith)
      · have e3 : w + a * (c - w) - (v + a * (y - v)) = (1 - a) * (w - v) + a * (c - y) := by ring
        have h3 : |w + a * (c - w) - (v + a * (y - v))| ≤ (1 - a) * (d + e) + a * d := by
          rw [e3]
          refine (abs_add_le _ _).trans (add_le_add ?_ ?_)
          · rw [abs_mul, abs_of_nonneg (by linarith)]
            exact mul_le_mul_of_nonneg_left h2 (by linarith)
          · rw [abs_mul, abs_of_nonneg ha0.le]
            exact mul_le_mul_of_nonneg_left hg ha0.le
        have h4 := abs_add_le (A.emaNext s w c - (w + a * (c - w))) (w + a * (c - w) - (v + a * (y - v)))
        rw [sub_add_sub_cancel] at h4
        have h5 : 0 ≤ R.unit * M := mul_nonneg hu0 hM
        linarith
  obtain ⟨h1, h2⟩ := key (i - b) (by omega)
  rw [show b + (i - b) = i by omega] at h1 h2
  apply near_of_le h1
  rw [← hd]
  push_cast
  rw [he] at h2
  linarith

/-! ## Sums and Wilder's average -/

theorem sumsTo_near {l : List ℚ} {s : ℚ} (h : SumsTo R.fl l s) : l ≠ [] ∧ Near R (l.length - 1) s l.sum ((l.map fun x => |x|).sum) := by
  induction h with
  | one x => exact ⟨by simp, by simpa using near_exact R x⟩
  | @add l m k a b _ _ hp ih1 ih2 =>
    have h1 := List.length_pos_iff.2 ih1.1
    have h2 := List.length_pos_iff.2 ih2.1
    have hl := hp.length_eq
    rw [List.length_append] at hl
    refine ⟨by rintro rfl; rw [List.length_nil] at hl; omega, ?_⟩
    rw [← hp.sum_eq, ← (hp.map _).sum_eq, List.map_append, List.sum_append, List.sum_append, ← hl]
    have := ih1.2.add ih2.2 (m := l.length + m.length - 2) (by omega) (by omega)
    rwa [show l.length + m.length - 2 + 1 = l.length + m.length - 1 by omega] at this

/-- One step of Wilder's average. -/
theorem wilderNext_error (A : Arith) (hA : A.fl = R.fl) (p : ℕ) (hp : 1 ≤ p) (hu : R.unit ≤ 1 / 10000) (w c W : ℚ) (hw : |w| ≤ W)
    (hc : |c| ≤ W) : |A.wilderNext p w c - (w + 1 / (p : ℚ) * (c - w))| ≤ 6 * R.unit * W := by
  have hp' : (1 : ℚ) ≤ p := by exact_mod_cast hp
  have hW : 0 ≤ W := (abs_nonneg w).trans hw
  have hu0 := R.nonneg
  unfold Arith.wilderNext
  rw [hA]
  have h1 := R.error (c - w)
  have hcw : |c - w| ≤ 2 * W := by
    have := abs_sub c w
    linarith
  have hd1 : |R.fl (c - w) - (c - w)| ≤ 2 * R.unit * W := by
    have := mul_le_mul_of_nonneg_left hcw hu0
    linarith
  generalize R.fl (c - w) = t at *
  have huW : R.unit * W ≤ 1 / 10000 * W := mul_le_mul_of_nonneg_right hu hW
  have ht : |t| ≤ 201 / 100 * W := by
    have := abs_add_le (t - (c - w)) (c - w)
    rw [sub_add_cancel] at this
    linarith
  have hdiv : ∀ y : ℚ, |y / p| ≤ |y| := fun y => by
    rw [abs_div, abs_of_pos (show (0 : ℚ) < p by linarith)]
    exact div_le_self (abs_nonneg _) hp'
  have h2 : |t / p - (c - w) / p| ≤ 2 * R.unit * W := by
    rw [← sub_div]; exact (hdiv _).trans hd1
  have h3 := R.error (t / p)
  have h4 : |R.fl (t / p) - t / p| ≤ R.unit * (201 / 100 * W) := h3.trans (mul_le_mul_of_nonneg_left ((hdiv t).trans ht) hu0)
  generalize R.fl (t / p) = q at *
  have hinv : 1 / (p : ℚ) ≤ 1 := by rw [div_le_iff₀ (by linarith)]; linarith
  have hinv0 : 0 < 1 / (p : ℚ) := by positivity
  have e1 : w + 1 / (p : ℚ) * (c - w) = w + (c - w) / p := by ring
  have hx : |w + (c - w) / p| ≤ W := by
    rw [← e1]
    generalize 1 / (p : ℚ) = a at *
    have e3 : w + a * (c - w) = (1 - a) * w + a * c := by ring
    rw [e3]
    have h1 : |(1 - a) * w| ≤ (1 - a) * W := by
      rw [abs_mul, abs_of_nonneg (by linarith)]
      exact mul_le_mul_of_nonneg_left hw (by linarith)
    have h2 : |a * c| ≤ a * W := by
      rw [abs_mul, abs_of_nonneg hinv0.le]
      exact mul_le_mul_of_nonneg_left hc hinv0.le
    exact (abs_add_le _ _).trans (by linarith)
  rw [e1]
  have huW0 := mul_nonneg hu0 hW
  have h5 : |w + q - (w + (c - w) / p)| ≤ 402 / 100 * R.unit * W := by
    have := abs_add_le (q - t / p) (t / p - (c - w) / p)
    rw [show q - t / p + (t / p - (c - w) / p) = w + q - (w + (c - w) / p) by ring] at this
    linarith
  generalize w + (c - w) / (p : ℚ) = x at *
  have h6 : |w + q| ≤ 101 / 100 * W := by
    have := abs_add_le (w + q - x) x
    rw [sub_add_cancel] at this
    linarith
  have h7 := R.error (w + q)
  have h8 := abs_add_le (R.fl (w + q) - (w + q)) (w + q - x)
  rw [sub_add_sub_cancel] at h8
  have := mul_le_mul_of_nonneg_left h6 hu0
  linarith

theorem abs_sum_le (l : List ℚ) (M : ℚ) (h : ∀ x ∈ l, |x| ≤ M) : (l.map fun x => |x|).sum ≤ l.length * M := by
  induction l with
  | nil => simp
  | cons a l ih =>
    have h1 := h a (by simp)
    have h2 := ih fun x hx => h x (by simp [hx])
    simp only [List.map_cons, List.sum_cons, List.length_cons]
    push_cast
    linarith

/-- A mean of several numbers. -/
theorem mean_near {A : Arith} (hA : Rounded R A) (l : List ℚ) (hl : l ≠ []) (M : ℚ) (h : ∀ x ∈ l, |x| ≤ M) :
    Near R l.length (A.fl (A.sum l / l.length)) (l.sum / l.length) M := by
  have hp := List.length_pos_iff.2 hl
  have hp' : (0 : ℚ) < l.length := by exact_mod_cast hp
  have h1 := ((sumsTo_near (hA.sum l hl)).2.div l.length hp').scope (B := M) (by
    rw [div_le_iff₀ hp', mul_comm]
    exact abs_sum_le l M h)
  rwa [show l.length - 1 + 1 = l.length by omega, ← hA.fl] at h1

theorem wilder_near {A : Arith} (hA : Rounded R A) (p : ℕ) (hp1 : 1 ≤ p) (x : ℕ → ℚ) (M : ℚ) (i : ℕ)
    (h : ∀ j ≤ i, |x j| ≤ M) (hi : p - 1 ≤ i) (hu : R.unit ≤ 1 / 10000) (hp : (1 + R.unit) ^ (p + 7 * p) ≤ 101 / 100) :
    Near R (p + 7 * p) (A.wilderNum p x i) (wilderAverage p 0 x i) M := by
  have hM : 0 ≤ M := (abs_nonneg _).trans (h 0 (by omega))
  have hu0 := R.nonneg
  have hp' : (1 : ℚ) ≤ p := by exact_mod_cast hp1
  obtain ⟨a, ha⟩ : ∃ a : ℚ, a = 1 / (p : ℚ) := ⟨_, rfl⟩
  have ha0 : 0 < a := by rw [ha]; positivity
  have ha1 : a ≤ 1 := by rw [ha, div_le_iff₀ (by positivity)]; linarith
  obtain ⟨d, hd⟩ : ∃ d : ℚ, d = ((1 + R.unit) ^ p - 1) * M := ⟨_, rfl⟩
  have hd0 : 0 ≤ d := by rw [hd]; exact mul_nonneg (by linarith [pow_ge_one R p]) hM
  have hpow := pow_add_ge R.unit hu0 p (7 * p)
  push_cast at hpow
  obtain ⟨e, he⟩ : ∃ e : ℚ, e = 7 * (p : ℚ) * R.unit * M := ⟨_, rfl⟩
  have he0 : 0 ≤ e := by rw [he]; positivity
  have hsmall : d + e ≤ 1 / 100 * M := by
    rw [hd, he]
    calc _ = ((1 + R.unit) ^ p + 7 * (p : ℚ) * R.unit - 1) * M := by ring
      _ ≤ _ := mul_le_mul_of_nonneg_right (by linarith) hM
  have hae' : a * e = 7 * (R.unit * M) := by
    rw [he, ha]; field_simp
  have had : 0 ≤ a * d := mul_nonneg ha0.le hd0
  have seed : Near R p (A.fl (A.sum ((List.range p).map x) / p)) (meanLast p x (p - 1)) M := by
    have := mean_near hA ((List.range p).map x) (by simp; omega) M (by
      intro y hy
      rw [List.mem_map] at hy
      obtain ⟨j, hj, rfl⟩ := hy
      rw [List.mem_range] at hj
      exact h j (by omega))
    rw [List.length_map, List.length_range] at this
    have e := Nums.window_sum p x (p - 1) (by omega)
    rw [show p - 1 + 1 - p = 0 by omega] at e
    simp only [zero_add] at e
    unfold meanLast
    rw [← e]
    exact this
  have key : ∀ t, p - 1 + t ≤ i → |wilderAverage p 0 x (p - 1 + t)| ≤ M ∧
      |A.wilderNum p x (p - 1 + t) - wilderAverage p 0 x (p - 1 + t)| ≤ d + e := by
    intro t
    induction t with
    | zero =>
      intro _
      unfold Arith.wilderNum wilderAverage
      rw [add_zero, zero_add, running_start _ _ _ _ _ (le_refl _), Nums.smoothed_start _ _ _ _ _ (le_refl _)]
      exact ⟨seed.1, by have := seed.2; rw [← hd] at this; linarith⟩
    | succ t ih =>
      intro ht
      obtain ⟨h1, h2⟩ := ih (by omega)
      have hx := h (p - 1 + t + 1) (by omega)
      have e1 : A.wilderNum p x (p - 1 + (t + 1)) = A.wilderNext p (A.wilderNum p x (p - 1 + t)) (x (p - 1 + t + 1)) := by
        unfold Arith.wilderNum
        rw [← add_assoc, running_next _ _ _ _ _ (by omega)]
      have e2 : wilderAverage p 0 x (p - 1 + (t + 1)) =
          wilderAverage p 0 x (p - 1 + t) + a * (x (p - 1 + t + 1) - wilderAverage p 0 x (p - 1 + t)) := by
        unfold wilderAverage
        rw [← add_assoc, Nums.smoothed_next _ _ _ _ _ (by omega), ha]
      rw [e1, e2]
      generalize A.wilderNum p x (p - 1 + t) = w at *
      generalize wilderAverage p 0 x (p - 1 + t) = v at *
      generalize x (p - 1 + t + 1) = y at *
      have hw : |w| ≤ 101 / 100 * M := by
        have := abs_add_le (w - v) v
        rw [sub_add_cancel] at this
        linarith
      have hn := wilderNext_error A hA.fl p hp1 hu w y (101 / 100 * M) hw (by linarith)
      rw [← ha] at hn
      constructor
      · have e3 : v + a * (y - v) = (1 - a) * v + a * y := by ring
        rw [e3]
        have h1 : |(1 - a) * v| ≤ (1 - a) * M := by
          rw [abs_mul, abs_of_nonneg (by linarith)]
          exact mul_le_mul_of_nonneg_left h1 (by linarith)
        have h2 : |a * y| ≤ a * M := by
          rw [abs_mul, abs_of_nonneg ha0.le]
          exact mul_le_mul_of_nonneg_left hx ha0.le
        exact (abs_add_le _ _).trans (by linarith)
      · have e3 : w + a * (y - w) - (v + a * (y - v)) = (1 - a) * (w - v) := by ring
        have h3 : |w + a * (y - w) - (v + a * (y - v))| ≤ (1 - a) * (d + e) := by
          rw [e3, abs_mul, abs_of_nonneg (by linarith)]
          exact mul_le_mul_of_nonneg_left h2 (by linarith)
        have h4 := abs_add_le (A.wilderNext p w y - (w + a * (y - w))) (w + a * (y - w) - (v + a * (y - v)))
        rw [sub_add_sub_cancel] at h4
        have h5 : 0 ≤ R.unit * M := mul_nonneg hu0 hM
        linarith
  obtain ⟨h1, h2⟩ := key (i - (p - 1)) (by omega)
  rw [show p - 1 + (i - (p - 1)) = i by omega] at h1 h2
  apply near_of_le h1
  rw [← hd]
  push_cast
  rw [he] at h2
  linarith

end TTI
