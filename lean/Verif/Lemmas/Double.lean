import Verif.Spec.Rounding
import Verif.Lemmas.Num
import Verif.Lemmas.Mirror

set_option autoImplicit false

/-! Rounding to 53 binary digits. -/

namespace TTI.Spec

theorem ulp_pos (x : ℚ) : 0 < ulp x := zpow_pos (by norm_num) _

theorem toDouble_neg (x : ℚ) : toDouble (-x) = -toDouble x := by
  unfold toDouble
  have : ulp (-x) = ulp x := by simp [ulp]
  rw [this, neg_div, rint_neg]
  push_cast
  ring

theorem toDouble_zero : toDouble 0 = 0 := by
  have := rint_intCast 0
  simp only [Int.cast_zero] at this
  simp [toDouble, this]

theorem zpow_split (e : ℤ) : (2 : ℚ) ^ e = 2 ^ 52 * 2 ^ (e - 52) := by
  rw [zpow_sub₀ (by norm_num)]
  norm_num
  field_simp

theorem scale_bounds (x : ℚ) (hx : 0 < x) : 2 ^ 52 ≤ x / ulp x ∧ x / ulp x < 2 ^ 53 := by
  have h1 := Int.zpow_log_le_self (b := 2) (r := x) (by norm_num) hx
  have h2 := Int.lt_zpow_succ_log_self (b := 2) (by norm_num) x
  rw [le_div_iff₀ (ulp_pos x), div_lt_iff₀ (ulp_pos x)]
  push_cast at h1 h2
  rw [zpow_add₀ (by norm_num)] at h2
  unfold ulp
  rw [abs_of_pos hx]
  rw [zpow_split] at h1 h2
  constructor
  · exact h1
  · calc x < _ := h2
      _ = _ := by ring

theorem toDouble_bounds (x : ℚ) (hx : 0 < x) :
    (2 : ℚ) ^ Int.log 2 x ≤ toDouble x ∧ toDouble x ≤ 2 ^ (Int.log 2 x + 1) := by
  obtain ⟨h1, h2⟩ := scale_bounds x hx
  have r1 : ((2 ^ 52 : ℤ) : ℚ) ≤ rint (x / ulp x) := by
    have := rint_mono (p := ((2 ^ 52 : ℤ) : ℚ)) (q := x / ulp x) (by push_cast; exact h1)
    rw [rint_intCast] at this
    exact_mod_cast this
  have r2 : (rint (x / ulp x) : ℚ) ≤ ((2 ^ 53 : ℤ) : ℚ) := by
    have := rint_mono (q := ((2 ^ 53 : ℤ) : ℚ)) (p := x / ulp x) (by push_cast; exact h2.le)
    rw [rint_intCast] at this
    exact_mod_cast this
  have hu : ulp x = 2 ^ (Int.log 2 x - 52) := by unfold ulp; rw [abs_of_pos hx]
  have hp := ulp_pos x
  unfold toDouble
  rw [zpow_add₀ (by norm_num), zpow_split (Int.log 2 x), ← hu]
  push_cast at r1 r2
  constructor
  · exact mul_le_mul_of_nonneg_right r1 hp.le
  · calc _ ≤ (2 : ℚ) ^ 53 * ulp x := mul_le_mul_of_nonneg_right r2 hp.le
      _ = _ := by ring

theorem toDouble_mono_pos (x y : ℚ) (hx : 0 < x) (h : x ≤ y) : toDouble x ≤ toDouble y := by
  have hy := hx.trans_le h
  rcases (Int.log_mono_right (b := 2) hx h).lt_or_eq with hl | hl
  · calc toDouble x ≤ 2 ^ (Int.log 2 x + 1) := (toDouble_bounds x hx).2
      _ ≤ 2 ^ Int.log 2 y := zpow_le_zpow_right₀ (by norm_num) (by omega)
      _ ≤ _ := (toDouble_bounds y hy).1
  · have hu : ulp x = ulp y := by unfold ulp; rw [abs_of_pos hx, abs_of_pos hy, hl]
    unfold toDouble
    rw [hu]
    apply mul_le_mul_of_nonneg_right _ (ulp_pos y).le
    exact_mod_cast rint_mono (div_le_div_of_nonneg_right h (ulp_pos y).le)

theorem toDouble_pos (x : ℚ) (hx : 0 < x) : 0 < toDouble x :=
  lt_of_lt_of_le (zpow_pos (by norm_num) _) (toDouble_bounds x hx).1

theorem toDouble_mono (x y : ℚ) (h : x ≤ y) : toDouble x ≤ toDouble y := by
  rcases lt_trichotomy x 0 with hx | rfl | hx
  · rcases lt_trichotomy y 0 with hy | rfl | hy
    · have := toDouble_mono_pos (-y) (-x) (by linarith) (by linarith)
      rw [toDouble_neg, toDouble_neg] at this
      linarith
    · have := toDouble_pos (-x) (by linarith)
      rw [toDouble_neg] at this
      rw [toDouble_zero]
      linarith
    · have := toDouble_pos (-x) (by linarith)
      rw [toDouble_neg] at this
      have := toDouble_pos y hy
      linarith
  · rcases h.lt_or_eq with hy | rfl
    · rw [toDouble_zero]
      exact (toDouble_pos y hy).le
    · exact le_refl _
  · exact toDouble_mono_pos x y hx h

theorem toDouble_error (x : ℚ) : |toDouble x - x| ≤ 1 / 2 ^ 53 * |x| := by
  rcases eq_or_ne x 0 with rfl | hx
  · simp [toDouble_zero]
  · have hp := ulp_pos x
    have h1 : toDouble x - x = (rint (x / ulp x) - x / ulp x) * ulp x := by
      unfold toDouble
      field_simp
    rw [h1, abs_mul, abs_of_pos hp]
    have h2 := rint_close (x / ulp x)
    have h3 := Int.zpow_log_le_self (b := 2) (r := |x|) (by norm_num) (abs_pos.2 hx)
    push_cast at h3
    rw [zpow_split] at h3
    calc _ ≤ 1 / 2 * ulp x := mul_le_mul_of_nonneg_right h2 hp.le
      _ = 1 / 2 ^ 53 * (2 ^ 52 * ulp x) := by ring
      _ ≤ _ := mul_le_mul_of_nonneg_left h3 (by positivity)

/-- Numbers of 53 binary digits are kept. -/
theorem toDouble_digits (n e : ℤ) (h1 : 2 ^ 52 ≤ n) (h2 : n ≤ 2 ^ 53) :
    toDouble (n * 2 ^ (e - 52)) = n * 2 ^ (e - 52) := by
  have hp : (0 : ℚ) < 2 ^ (e - 52) := zpow_pos (by norm_num) _
  have h1' : (2 : ℚ) ^ 52 ≤ n := by exact_mod_cast h1
  have hx : (0 : ℚ) < n * 2 ^ (e - 52) := mul_pos (lt_of_lt_of_le (by norm_num) h1') hp
  rcases h2.lt_or_eq with h2 | rfl
  · have h2' : (n : ℚ) < 2 ^ 53 := by exact_mod_cast h2
    have hl : Int.log 2 ((n : ℚ) * 2 ^ (e - 52)) = e := by
      apply le_antisymm
      · have : Int.log 2 ((n : ℚ) * 2 ^ (e - 52)) < e + 1 := by
          rw [← Int.lt_zpow_iff_log_lt (by norm_num) hx]
          push_cast
          rw [zpow_add₀ (by norm_num), zpow_split e]
          calc (n : ℚ) * 2 ^ (e - 52) < 2 ^ 53 * 2 ^ (e - 52) := mul_lt_mul_of_pos_right h2' hp
            _ = _ := by ring
        omega
      · rw [← Int.zpow_le_iff_le_log (by norm_num) hx]
        push_cast
        rw [zpow_split e]
        exact mul_le_mul_of_nonneg_right h1' hp.le
    have hu : ulp ((n : ℚ) * 2 ^ (e - 52)) = 2 ^ (e - 52) := by
      unfold ulp
      rw [abs_of_pos hx, hl]
    unfold toDouble
    rw [hu, mul_div_cancel_right₀ _ hp.ne', rint_intCast]
  · have hl : (((2 ^ 53 : ℤ)) : ℚ) * 2 ^ (e - 52) = ((2 : ℕ) : ℚ) ^ (e + 1) := by
      push_cast
      rw [zpow_add₀ (by norm_num), zpow_split e]
      ring
    have hu : ulp (((2 ^ 53 : ℤ) : ℚ) * 2 ^ (e - 52)) = 2 * 2 ^ (e - 52) := by
      unfold ulp
      rw [abs_of_pos hx, hl, Int.log_zpow (by norm_num), show e + 1 - 52 = (e - 52) + 1 by ring, zpow_add₀ (by norm_num)]
      ring
    unfold toDouble
    rw [hu]
    have : (((2 ^ 53 : ℤ)) : ℚ) * 2 ^ (e - 52) / (2 * 2 ^ (e - 52)) = ((2 ^ 52 : ℤ) : ℚ) := by
      field_simp
      norm_num
    rw [this, rint_intCast]
    push_cast
    ring

theorem toDouble_again_pos (x : ℚ) (hx : 0 < x) : toDouble (toDouble x) = toDouble x := by
  obtain ⟨h1, h2⟩ := scale_bounds x hx
  have r1 : (2 ^ 52 : ℤ) ≤ rint (x / ulp x) := by
    have := rint_mono (p := ((2 ^ 52 : ℤ) : ℚ)) (q := x / ulp x) (by push_cast; exact h1)
    rwa [rint_intCast] at this
  have r2 : rint (x / ulp x) ≤ (2 ^ 53 : ℤ) := by
    have := rint_mono (q := ((2 ^ 53 : ℤ) : ℚ)) (p := x / ulp x) (by push_cast; exact h2.le)
    rwa [rint_intCast] at this
  have := toDouble_digits (rint (x / ulp x)) (Int.log 2 |x|) r1 r2
  conv_lhs => rw [show toDouble x = rint (x / ulp x) * 2 ^ (Int.log 2 |x| - 52) from rfl]
  rw [this]
  rfl

theorem toDouble_again (x : ℚ) : toDouble (toDouble x) = toDouble x := by
  rcases lt_trichotomy x 0 with hx | rfl | hx
  · have := toDouble_again_pos (-x) (by linarith)
    rwa [toDouble_neg, toDouble_neg, neg_inj] at this
  · rw [toDouble_zero, toDouble_zero]
  · exact toDouble_again_pos x hx

/-- The rounding of float64 arithmetic. -/
def double : Rounding where
  fl := toDouble
  unit := 1 / 2 ^ 53
  nonneg := by positivity
  error := toDouble_error
  mono := toDouble_mono
  again := toDouble_again

end TTI.Spec
