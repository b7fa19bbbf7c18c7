import Verif.Lemmas.Unlimited
import Verif.Props.FormulaMomentum
import Verif.Props.FormulaRange
import Verif.Props.FormulaRange2
import Verif.Props.FormulaGaps
import Verif.Lemmas.Trend

set_option autoImplicit false

/-!
# Averages of a first day that is never forgotten (C68)
-/

namespace TTI.Past

open Spec Props

variable (E : Env) (c : Call)

theorem high_ohlcv : "high" ∈ ohlcv := by simp [ohlcv]
theorem low_ohlcv : "low" ∈ ohlcv := by simp [ohlcv]
theorem close_ohlcv : "close" ∈ ohlcv := by simp [ohlcv]
theorem volume_ohlcv : "volume" ∈ ohlcv := by simp [ohlcv]

theorem close_pulse (A : ℚ) (n : ℕ) : close (table (n + 1) (pulse "close" A)) = spike A := by
  rw [show close (table (n + 1) (pulse "close" A)) = price (table (n + 1) (pulse "close" A)) "close" from rfl,
    pulse_price _ _ _ _ close_ohlcv, if_pos rfl]

theorem high_pulse (A : ℚ) (n : ℕ) : high (table (n + 1) (pulse "high" A)) = spike A := by
  rw [high, pulse_price _ _ _ _ high_ohlcv, if_pos rfl]

theorem low_high_pulse (A : ℚ) (n : ℕ) : low (table (n + 1) (pulse "high" A)) = fun _ => 0 := by
  rw [low, pulse_price _ _ _ _ low_ohlcv, if_neg (by decide)]

theorem close_high_pulse (A : ℚ) (n : ℕ) : close (table (n + 1) (pulse "high" A)) = fun _ => 0 := by
  rw [show close (table (n + 1) (pulse "high" A)) = price (table (n + 1) (pulse "high" A)) "close" from rfl,
    pulse_price _ _ _ _ close_ohlcv, if_neg (by decide)]

theorem dayRange_pulse (A : ℚ) (n : ℕ) : dayRange (table (n + 1) (pulse "high" A)) = spike A := by
  funext j
  rw [dayRange, high_pulse, low_high_pulse]
  ring

theorem trueRange_pulse (A : ℚ) (n : ℕ) : trueRange (table (n + 1) (pulse "high" A)) = spike A := by
  funext j
  simp only [trueRange, high_pulse, low_high_pulse, close_high_pulse]
  by_cases hj : j = 0
  · subst hj; simp
  · rw [if_neg hj, spike_later A (by omega)]; simp

theorem one_to4 : to4 1 ≠ to4 0 := by simp [to4]

/-- The exponential average of two or more periods. -/
theorem never_ema (n : ℕ) (hc : c.check = .ok (.movingAverage n .exponential)) (hn : 2 ≤ n) :
    NeverForgets E c "ma-exponential" := by
  refine neverForgets E c _ hc _ fun k => ⟨k + n, 1, pulse "close" ((1 - 2 / ((n : ℚ) + 1)) ^ (k + n))⁻¹, pulse "close" 0, to4 1, to4 0,
    by simp [minRows]; omega, by omega, pulse_agree _ _ _, one_to4, ?_, ?_⟩
  · intro o ho hi
    rw [C52_exponential ho n hi _ (by rw [table_length]; omega), since, if_neg (by omega), close_pulse, ema_spike,
      mul_inv_cancel₀ (pow_pos (rest_pos hn) _).ne']
  · intro o ho hi
    rw [C52_exponential ho n hi _ (by rw [table_length]; omega), since, if_neg (by omega), close_pulse, ema_spike, mul_zero]

/-- Wilder's smoothing of two or more periods. -/
theorem never_wilder (n : ℕ) (hc : c.check = .ok (.wildersSmoothing n)) (hn : 2 ≤ n) : NeverForgets E c "ws" := by
  have hq : (n : ℚ) ≠ 0 := by exact_mod_cast (by omega : n ≠ 0)
  refine neverForgets E c _ hc _ fun k => ⟨k + n, 1,
    pulse "close" (n * ((1 - 1 / (n : ℚ)) ^ (k + n - (0 + n - 1)))⁻¹), pulse "close" 0, to4 1, to4 0,
    by simp only [minRows]; omega, by omega, pulse_agree _ _ _, one_to4, ?_, ?_⟩
  · intro o ho hi
    rw [C52_wilders_smoothing ho n hi _ (by rw [table_length]; omega), since, if_neg (by omega), close_pulse,
      wilder_fade n 0 (by omega) _ _ (by omega) fun j h _ => spike_later _ h, spike_zero, mul_div_cancel_left₀ _ hq,
      mul_inv_cancel₀ (pow_pos (wilder_rest_pos hn) _).ne']
  · intro o ho hi
    rw [C52_wilders_smoothing ho n hi _ (by rw [table_length]; omega), since, if_neg (by omega), close_pulse,
      wilder_zero n 0 (by omega) _ _ (by omega) fun j _ _ => spike_none j]

theorem never_atr (hc : c.check = .ok .averageTrueRange) : NeverForgets E c "atr" := by
  refine neverForgets E c _ hc _ fun k => ⟨k + 14, 1,
    pulse "high" ((14 : ℕ) * ((1 - 1 / ((14 : ℕ) : ℚ)) ^ (k + 14 - (0 + 14 - 1)))⁻¹), pulse "high" 0, to4 1, to4 0,
    by simp only [minRows]; omega, by omega, pulse_agree _ _ _, one_to4, ?_, ?_⟩
  · intro o ho hi
    rw [C57_average_true_range ho hi _ (by rw [table_length]; omega), since, if_neg (by omega), trueRange_pulse,
      wilder_fade 14 0 (by omega) _ _ (by omega) fun j h _ => spike_later _ h, spike_zero, mul_div_cancel_left₀ _ (by norm_num),
      mul_inv_cancel₀ (pow_pos (wilder_rest_pos (by norm_num)) _).ne']
  · intro o ho hi
    rw [C57_average_true_range ho hi _ (by rw [table_length]; omega), since, if_neg (by omega), trueRange_pulse,
      wilder_zero 14 0 (by omega) _ _ (by omega) fun j _ _ => spike_none j]

theorem never_dema (n : ℕ) (hc : c.check = .ok (.doubleExponentialMovingAverage n)) (hn : 2 ≤ n) : NeverForgets E c "dema" := by
  have hq : (2 : ℚ) ≤ n := by exact_mod_cast hn
  have hv : ∀ A k : _, ∀ o, BuiltOn E c (table (k + 4 * n + 1) (pulse "close" A)) true o AnyPrices →
      o.ind = .doubleExponentialMovingAverage n → o.getTiData.day "dema" (k + 4 * n) =
        to4 (((1 - 2 / ((n : ℚ) + 1)) ^ (k + 4 * n) * (1 - (k + 4 * n - (n - 1) : ℕ) * (2 / ((n : ℚ) + 1)))) * A) := by
    intro A k o ho hi
    rw [C52_double_exponential ho n hi _ (by rw [table_length]; omega), since, if_neg (by omega), close_pulse, ema_spike,
      ema_spike2 _ _ _ _ (by omega)]
    congr 1
    ring
  refine neverForgets E c _ hc _ fun k => ⟨k + 4 * n, 1,
    pulse "close" ((1 - 2 / ((n : ℚ) + 1)) ^ (k + 4 * n) * (1 - (k + 4 * n - (n - 1) : ℕ) * (2 / ((n : ℚ) + 1))))⁻¹, pulse "close" 0,
    to4 1, to4 0, by simp only [minRows]; omega, by omega, pulse_agree _ _ _, one_to4, ?_, ?_⟩
  · intro o ho hi
    rw [hv _ k o ho hi, mul_inv_cancel₀]
    refine mul_ne_zero (pow_pos (rest_pos hn) _).ne' (ne_of_lt ?_)
    have h1 : (n : ℚ) + 1 ≤ (k + 4 * n - (n - 1) : ℕ) := by exact_mod_cast (by omega : n + 1 ≤ k + 4 * n - (n - 1))
    have h2 : ((n : ℚ) + 1) * (2 / ((n : ℚ) + 1)) = 2 := by field_simp
    have h3 : 0 < 2 / ((n : ℚ) + 1) := (weight_range (by omega)).1
    nlinarith
  · intro o ho hi
    rw [hv _ k o ho hi, mul_zero]

theorem never_tema (n : ℕ) (hc : c.check = .ok (.tripleExponentialMovingAverage n)) (hn : 2 ≤ n) : NeverForgets E c "tema" := by
  obtain ⟨u, rfl⟩ : ∃ u, n = u + 1 := ⟨n - 1, by omega⟩
  have hu : (1 : ℚ) ≤ u := by exact_mod_cast (by omega : 1 ≤ u)
  set a : ℚ := 2 / (((u + 1 : ℕ) : ℚ) + 1) with ha
  have hr : 0 < 1 - a := rest_pos hn
  have ha0 : 0 < a := (weight_range (by omega)).1
  let q : ℕ → ℕ := fun k => 4 * (u + 2) * (k + 1)
  let coef : ℕ → ℚ := fun k => 1 - 2 * (u * a) - 2 * (q k * a) + (u * a) * (q k * a) + ((q k * a) ^ 2 + a * (q k * a)) / 2
  have hv : ∀ A k : _, ∀ o, BuiltOn E c (table (2 * u + q k + 1) (pulse "close" A)) true o AnyPrices →
      o.ind = .tripleExponentialMovingAverage (u + 1) → o.getTiData.day "tema" (2 * u + q k) =
        to4 (((1 - a) ^ (2 * u + q k) * coef k) * A) := by
    intro A k o ho hi
    have hle : u ≤ q k := by
      show u ≤ 4 * (u + 2) * (k + 1)
      nlinarith
    rw [C52_triple_exponential ho (u + 1) hi _ (by rw [table_length]; omega), since, if_neg (by omega), close_pulse, ema_spike,
      show u + 1 - 1 = u by omega, show 2 * (u + 1) - 2 = 2 * u by omega, ema_spike2 _ _ _ _ (by omega), ema_spike3, ← ha,
      show 2 * u + q k - u = u + q k by omega]
    congr 1
    simp only [coef]
    push_cast
    ring
  have hcoef : ∀ k, 0 < coef k := by
    intro k
    have hw : (q k : ℚ) * a = 8 * (k + 1) := by
      simp only [q, ha]
      push_cast
      field_simp
      ring
    have hk : (0 : ℚ) ≤ k := by positivity
    have hua : 0 < u * a := by positivity
    have hua2 : u * a < 2 := by
      rw [ha]
      push_cast
      rw [mul_div_assoc', div_lt_iff₀ (by linarith)]
      linarith
    simp only [coef, hw]
    nlinarith [mul_nonneg hua.le hk, mul_nonneg hk hk, mul_nonneg ha0.le hk]
  refine neverForgets E c _ hc _ fun k => ⟨2 * u + q k, 1,
    pulse "close" ((1 - a) ^ (2 * u + q k) * coef k)⁻¹, pulse "close" 0,
    to4 1, to4 0, ?_, ?_, pulse_agree _ _ _, one_to4, ?_, ?_⟩
  · simp only [minRows, q]
    nlinarith
  · simp only [q]
    nlinarith
  · intro o ho hi
    rw [hv _ k o ho hi, mul_inv_cancel₀ (mul_pos (pow_pos hr _) (hcoef k)).ne']
  · intro o ho hi
    rw [hv _ k o ho hi, mul_zero]

/-- Both lines of the MACD. -/
theorem never_macd (hc : c.check = .ok .movingAverageConvergenceDivergence) :
    NeverForgets E c "macd" ∧ NeverForgets E c "signal_line" := by
  -- the line of a spike, as long as the slow average is 1000 or more
  have hline : ∀ A : ℚ, ∀ i j : ℕ, 1 ≤ j → j ≤ i → (1 - 2 / (((26 : ℕ) : ℚ) + 1)) ^ i * A = 1000 →
      80 ≤ -macdLine (spike A) j := by
    intro A i j h1 hj hA
    unfold macdLine
    rw [ema_spike, ema_spike]
    have e12 : 1 - 2 / (((12 : ℕ) : ℚ) + 1) = 11 / 13 := by norm_num
    have e26 : 1 - 2 / (((26 : ℕ) : ℚ) + 1) = 25 / 27 := by norm_num
    rw [e26] at hA ⊢
    rw [e12]
    have hb : (1000 : ℚ) ≤ (25 / 27) ^ j * A := by
      have hA0 : 0 < A := by
        by_contra h
        have : (25 / 27 : ℚ) ^ i * A ≤ 0 := mul_nonpos_of_nonneg_of_nonpos (by positivity) (not_lt.1 h)
        linarith
      rw [← hA]
      exact mul_le_mul_of_nonneg_right (pow_le_pow_of_le_one (by norm_num) (by norm_num) hj) hA0.le
    have hle : (11 / 13 : ℚ) ^ j * A ≤ 297 / 325 * ((25 / 27) ^ j * A) := by
      have : (11 / 13 : ℚ) ^ j = (297 / 325) ^ j * (25 / 27) ^ j := by rw [← mul_pow]; norm_num
      rw [this, mul_assoc]
      have h2 : (297 / 325 : ℚ) ^ j ≤ 297 / 325 := by
        calc (297 / 325 : ℚ) ^ j ≤ (297 / 325) ^ 1 := pow_le_pow_of_le_one (by norm_num) (by norm_num) h1
          _ = 297 / 325 := pow_one _
      exact mul_le_mul_of_nonneg_right h2 (by linarith)
    have r1 := abs_le.1 (roundQ_close 4 ((11 / 13 : ℚ) ^ j * A))
    have r2 := abs_le.1 (roundQ_close 4 ((25 / 27 : ℚ) ^ j * A))
    norm_num at r1 r2 ⊢
    linarith [r1.2, r2.1]
  have hzero : ∀ j, macdLine (spike 0) j = 0 := by
    intro j
    unfold macdLine
    rw [ema_spike, ema_spike]
    simp
  have hneg : ∀ q : ℚ, 80 ≤ -q → to4 q ≠ to4 0 := by
    intro q hq h
    simp only [to4, Val.fin.injEq] at h
    have := abs_le.1 (roundQ_close 4 q)
    rw [h] at this
    norm_num at this
    linarith [this.2]
  have hA : ∀ k, (1 - 2 / (((26 : ℕ) : ℚ) + 1)) ^ (k + 33) * (1000 * ((1 - 2 / (((26 : ℕ) : ℚ) + 1)) ^ (k + 33))⁻¹) = 1000 := by
    intro k
    rw [mul_left_comm, mul_inv_cancel₀ (pow_pos (rest_pos (by norm_num)) _).ne', mul_one]
  constructor
  · refine neverForgets E c _ hc _ fun k => ⟨k + 33, 1,
      pulse "close" (1000 * ((1 - 2 / (((26 : ℕ) : ℚ) + 1)) ^ (k + 33))⁻¹), pulse "close" 0, _, to4 0,
      by simp only [minRows]; omega, by omega, pulse_agree _ _ _,
      hneg _ (hline _ (k + 33) (k + 33) (by omega) (le_refl _) (hA k)), ?_, ?_⟩
    · intro o ho hi
      rw [(C53_macd ho hi _ (by rw [table_length]; omega)).1, since, if_neg (by omega), close_pulse]
    · intro o ho hi
      rw [(C53_macd ho hi _ (by rw [table_length]; omega)).1, since, if_neg (by omega), close_pulse, hzero]
  · refine neverForgets E c _ hc _ fun k => ⟨k + 33, 1,
      pulse "close" (1000 * ((1 - 2 / (((26 : ℕ) : ℚ) + 1)) ^ (k + 33))⁻¹), pulse "close" 0,
      to4 (ema 9 25 (macdLine (spike (1000 * ((1 - 2 / (((26 : ℕ) : ℚ) + 1)) ^ (k + 33))⁻¹))) (k + 33)), to4 0,
      by simp only [minRows]; omega, by omega, pulse_agree _ _ _, ?_, ?_, ?_⟩
    · refine hneg _ ?_
      rw [← ema_neg]
      exact smoothed_above (weight_range (by norm_num)).1.le (weight_range (by norm_num)).2 25 _ _ _ (by omega)
        (hline _ (k + 33) 25 (by omega) (by omega) (hA k))
        fun j h1 h2 => hline _ (k + 33) j (by omega) h2 (hA k)
    · intro o ho hi
      rw [(C53_macd ho hi _ (by rw [table_length]; omega)).2, since, if_neg (by omega), close_pulse]
    · intro o ho hi
      rw [(C53_macd ho hi _ (by rw [table_length]; omega)).2, since, if_neg (by omega), close_pulse,
        ema_zero _ _ _ _ (by omega) fun j _ _ => hzero j]

/-- Chaikin's volatility: after one day with a range the averages are never 0 again. -/
theorem never_volatility (n m : ℕ) (hc : c.check = .ok (.volatilityChaikins n m)) (hn : 2 ≤ n) : NeverForgets E c "vch" := by
  refine neverForgets_nan E c _ hc _ fun k => ⟨k + n + m, 1, pulse "high" 1, pulse "high" 0,
    by simp only [minRows]; omega, by omega, pulse_agree _ _ _, fun o ho hi => ?_, ?_⟩
  · rw [C58_chaikin_volatility ho n m hi _ (by rw [table_length]; omega), since, if_neg (by omega), dayRange_pulse, quotient,
      if_pos]
    · exact ⟨_, rfl⟩
    · rw [ema_spike, mul_one]
      exact (pow_pos (rest_pos hn) _).ne'
  · intro o ho hi
    rw [C58_chaikin_volatility ho n m hi _ (by rw [table_length]; omega), since, if_neg (by omega), dayRange_pulse, ema_spike,
      ema_spike]
    simp [quotient, round4, Val.round]

theorem never_massIndex (hc : c.check = .ok .massIndex) : NeverForgets E c "mi" := by
  have h2 : ∀ A : ℚ, ∀ n j : ℕ, 8 ≤ j → rangeAverage2 (table (n + 1) (pulse "high" A)) j =
      (1 - 2 / (((9 : ℕ) : ℚ) + 1)) ^ j * A + (j - 8 : ℕ) * (2 / (((9 : ℕ) : ℚ) + 1)) * (1 - 2 / (((9 : ℕ) : ℚ) + 1)) ^ j * A := by
    intro A n j hj
    unfold rangeAverage2 rangeAverage
    rw [dayRange_pulse, ema_spike2 _ _ _ _ hj]
  refine neverForgets_nan E c _ hc _ fun k => ⟨k + 40, 1, pulse "high" 1, pulse "high" 0,
    by simp only [minRows]; omega, by omega, pulse_agree _ _ _, fun o ho hi => ?_, ?_⟩
  · rw [C58_mass_index ho hi _ (by rw [table_length]; omega), since, if_neg (by omega)]
    · exact ⟨_, rfl⟩
    intro j _ _ hj
    rw [h2 _ _ _ (by omega)]
    have : (0 : ℚ) < (1 - 2 / (((9 : ℕ) : ℚ) + 1)) ^ j := pow_pos (rest_pos (by norm_num)) _
    positivity
  · intro o ho hi
    refine C58_mass_index_flat ho hi _ (by rw [table_length]; omega) (k + 40) (le_refl _) (by omega) ?_
    rw [h2 _ _ _ (by omega)]
    simp

end TTI.Past
