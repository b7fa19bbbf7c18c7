import Verif.Props.Errors2
import Verif.Props.FormulaVolume

set_option autoImplicit false

/-!
# Errors of the prices: further columns that jump, and a factor that is attained (C107)
-/

namespace TTI.Props

open Spec Errors

/-- C107: an error of the prices, however small, can turn %K of the stochastic oscillator from one end of its range to the other. -/
theorem C107_stochastic_jumps (E : Env) (e : ℚ) (he : 0 < e) :
    Jumps E (.stochasticOscillator (.int 5) (.int 1) (.int 1) (.str "simple")) "%K" e 100 := by
  have hc : (Call.stochasticOscillator (.int 5) (.int 1) (.int 1) (.str "simple")).check = .ok (.stochasticOscillator 5 1 1 true) := by
    decide +kernel
  have key : ∀ x : ℚ, ∃ o, BuiltOn E (.stochasticOscillator (.int 5) (.int 1) (.int 1) (.str "simple"))
      (shaky 5 (fun _ => x) (10 + e) 10 1) true o AnyPrices ∧ o.getTiData.day "%K" 4 = round4 (.fin (100 * (x - 10) / e)) := fun x => by
    obtain ⟨o, ho, hoi⟩ := shaky_built E _ _ hc 5 (fun _ => x) (10 + e) 10 1 (by norm_num) (by decide)
    refine ⟨o, ho, ?_⟩
    rw [C55_stochastic_k ho 5 1 1 true hoi 4 (by simp [shaky, table_length])]
    have a1 : highest 5 (high (shaky 5 (fun _ => x) (10 + e) 10 1)) 4 = 10 + e := by
      obtain ⟨-, t, ht, q⟩ := Nums.highest_spec 5 (by norm_num) (high (shaky 5 (fun _ => x) (10 + e) 10 1)) 4
      rw [q, shaky_high _ _ _ _ _ _ (by omega)]
    have a2 : lowest 5 (low (shaky 5 (fun _ => x) (10 + e) 10 1)) 4 = 10 := by
      obtain ⟨-, t, ht, q⟩ := Nums.lowest_spec 5 (by norm_num) (low (shaky 5 (fun _ => x) (10 + e) 10 1)) 4
      rw [q, shaky_low _ _ _ _ _ _ (by omega)]
    simp only [sumLast, Finset.sum_range_succ, Finset.sum_range_zero, zero_add, Nat.sub_zero, rangeHeight, aboveLow]
    rw [a1, a2, shaky_close _ _ _ _ _ _ (by omega), show 10 + e - 10 = e by ring]
    simp [since, quotient, he.ne']
  obtain ⟨o, ho, h1⟩ := key 10
  obtain ⟨p, hp, h2⟩ := key (10 + e)
  refine ⟨_, _, o, p, 4, 0, 100, shaky_within he.le 5 _ _ _ _ _ fun j _ => ?_, ho, hp, ?_, ?_, by norm_num⟩
  · simp [abs_of_pos he]
  · rw [h1]
    simp [round4, Val.round]
  · rw [h2, show 100 * (10 + e - 10) / e = 100 by field_simp; ring]
    simp [round4, Val.round]

theorem shaky_flow (n : ℕ) (x e v : ℚ) (j : ℕ) (hj : j < n) :
    flow (shaky n (fun _ => x) (10 + e) 10 v) j = v * (2 * (x - 10) - e) / e := by
  unfold flow
  rw [shaky_close _ _ _ _ _ _ hj, shaky_high _ _ _ _ _ _ hj, shaky_low _ _ _ _ _ _ hj, shaky_volume _ _ _ _ _ _ hj]
  congr 1 <;> ring

/-- C107: the same for the Chaikin money flow, from -1 to 1. -/
theorem C107_chaikin_money_flow_jumps (E : Env) (e : ℚ) (he : 0 < e) : Jumps E (.chaikinMoneyFlow (.int 2)) "cmf" e 2 := by
  have hc : (Call.chaikinMoneyFlow (.int 2)).check = .ok (.chaikinMoneyFlow 2) := by decide +kernel
  have key : ∀ x : ℚ, ∃ o, BuiltOn E (.chaikinMoneyFlow (.int 2)) (shaky 2 (fun _ => x) (10 + e) 10 1) true o AnyPrices ∧
      o.getTiData.day "cmf" 1 = round4 (.fin ((2 * (x - 10) - e) / e)) := fun x => by
    obtain ⟨o, ho, hoi⟩ := shaky_built E _ _ hc 2 (fun _ => x) (10 + e) 10 1 (by norm_num) (by decide)
    refine ⟨o, ho, ?_⟩
    rw [C59_chaikin_money_flow ho 2 hoi 1 (by simp [shaky, table_length]) fun j hj _ => ?_]
    · simp only [sumLast, Finset.sum_range_succ, Finset.sum_range_zero, zero_add, Nat.sub_zero, Nat.sub_self]
      rw [shaky_flow _ _ _ _ _ (by omega), shaky_flow _ _ _ _ _ (by omega), shaky_volume _ _ _ _ _ _ (by omega),
        shaky_volume _ _ _ _ _ _ (by omega)]
      have : (1 : ℚ) + 1 ≠ 0 := by norm_num
      simp only [since, quotient, if_pos this]
      rw [show (1 * (2 * (x - 10) - e) / e + 1 * (2 * (x - 10) - e) / e) / (1 + 1) = (2 * (x - 10) - e) / e by ring]
      simp
    · rw [shaky_high _ _ _ _ _ _ (by omega), shaky_low _ _ _ _ _ _ (by omega)]
      linarith
  obtain ⟨o, ho, h1⟩ := key 10
  obtain ⟨p, hp, h2⟩ := key (10 + e)
  refine ⟨_, _, o, p, 1, -1, 1, shaky_within he.le 2 _ _ _ _ _ fun j _ => ?_, ho, hp, ?_, ?_, by norm_num⟩
  · simp [abs_of_pos he]
  · rw [h1, show (2 * ((10 : ℚ) - 10) - e) / e = -1 by field_simp; ring]
    simp [round4, Val.round]
  · rw [h2, show (2 * (10 + e - 10) - e) / e = 1 by field_simp; ring]
    simp [round4, Val.round]

/-- C107: an error of the prices, however small, can change the accumulation distribution line by any amount. -/
theorem C107_accumulation_distribution_jumps (E : Env) (e : ℚ) (he : 0 < e) (d : ℕ) :
    Jumps E .accumulationDistributionLine "adl" e d := by
  have hc : Call.accumulationDistributionLine.check = .ok .accumulationDistributionLine := by decide +kernel
  have key : ∀ x : ℚ, ∃ o, BuiltOn E .accumulationDistributionLine (shaky 1 (fun _ => x) (10 + e) 10 d) true o AnyPrices ∧
      o.getTiData.day "adl" 0 = .fin (truncated (d * (2 * (x - 10) - e) / e)) := fun x => by
    obtain ⟨o, ho, hoi⟩ := shaky_built E _ _ hc 1 (fun _ => x) (10 + e) 10 d (by norm_num) (by decide)
    refine ⟨o, ho, ?_⟩
    rw [C59_accumulation_distribution ho hoi (fun j hj => ?_) 0 (by simp [shaky, table_length])]
    · simp only [flowLine, Finset.sum_range_succ, Finset.sum_range_zero, zero_add]
      rw [shaky_flow _ _ _ _ _ (by omega)]
    · have hj' : j < 1 := by simpa [shaky, table_length] using hj
      rw [shaky_high _ _ _ _ _ _ hj', shaky_low _ _ _ _ _ _ hj']
      linarith
  obtain ⟨o, ho, h1⟩ := key 10
  obtain ⟨p, hp, h2⟩ := key (10 + e)
  refine ⟨_, _, o, p, 0, -d, d, shaky_within he.le 1 _ _ _ _ _ fun j _ => ?_, ho, hp, ?_, ?_, ?_⟩
  · simp [abs_of_pos he]
  · rw [h1, show (d : ℚ) * (2 * (10 - 10) - e) / e = -(d : ℚ) by field_simp; ring]
    unfold truncated
    split
    · next h =>
      have : (d : ℚ) = 0 := le_antisymm (by linarith) (by positivity)
      simp [this]
    · simp
  · rw [h2, show (d : ℚ) * (2 * (10 + e - 10) - e) / e = (d : ℚ) by field_simp; ring]
    simp [truncated]
  · rw [show (d : ℚ) - -d = 2 * d by ring, abs_of_nonneg (by positivity)]
    have : (0 : ℚ) ≤ d := by positivity
    linarith

/-- C107: the factor 3 of the forecast cannot be improved: for every error there are tables whose forecasts differ by three times
the error, up to the rounding. -/
theorem C107_forecast_attained (E : Env) (e : ℚ) (he : 0 ≤ e) : Jumps E (.timeSeriesForecast (.int 2)) "tsf" e (3 * e - 2 / 10000) := by
  have hc : (Call.timeSeriesForecast (.int 2)).check = .ok (.timeSeriesForecast 2) := by decide +kernel
  have key : ∀ x : ℚ, ∃ o y, BuiltOn E (.timeSeriesForecast (.int 2)) (shaky 2 (fun j => if j = 0 then 10 - x else 10 + x) 20 5 1) true o AnyPrices ∧
      o.getTiData.day "tsf" 1 = .fin y ∧ |y - (10 + 3 * x)| ≤ 1 / 10000 := fun x => by
    obtain ⟨o, ho, hoi⟩ := shaky_built E _ _ hc 2 (fun j => if j = 0 then 10 - x else 10 + x) 20 5 1 (by norm_num) (by decide)
    have hls := leastSquares_of_line (shaky 2 (fun j => if j = 0 then 10 - x else 10 + x) 20 5 1) 2 1 (10 - x) (2 * x) fun j _ h2 => by
      rw [shaky, table_day _ _ _ (by decide) _ (by omega)]
      interval_cases j
      · simp
      · simp
        ring
    obtain ⟨h1, h2⟩ := C42_forecast E _ _ _ o ho.wf ho.ok ho.rows 2 hoi (by norm_num) 1 (by norm_num) (by simp [shaky, table_length]) _ _ hls
    refine ⟨o, _, ho, h1, ?_⟩
    rwa [show (10 : ℚ) - x + 2 * x * ((1 : ℕ) + 1) = 10 + 3 * x by push_cast; ring] at h2
  obtain ⟨o, y, ho, h1, b1⟩ := key 0
  obtain ⟨p, z, hp, h2, b2⟩ := key e
  refine ⟨_, _, o, p, 1, y, z, shaky_within he 2 _ _ _ _ _ fun j _ => ?_, ho, hp, h1, h2, ?_⟩
  · by_cases hj : j = 0 <;> simp [hj, abs_of_nonneg he]
  · have := abs_le.1 b1
    have := abs_le.1 b2
    refine le_trans ?_ (le_abs_self _)
    linarith

/-- C107: an error of the prices, however small, can change Williams' accumulation and distribution by any amount: it decides whether
the distance to the low or to the high counts. -/
theorem C107_williams_accumulation_jumps (E : Env) (e : ℚ) (he : 0 < e) (d : ℚ) :
    Jumps E .williamsAccumulationDistribution "wad" e d := by
  have hc : Call.williamsAccumulationDistribution.check = .ok .williamsAccumulationDistribution := by decide +kernel
  have key : ∀ x : ℚ, ∃ o, BuiltOn E .williamsAccumulationDistribution
      (shaky 2 (fun j => if j = 1 then 10 + x else 10) 10 (10 - (|d| + 1)) 1) true o AnyPrices ∧
      o.getTiData.day "wad" 1 = to4 (if x < 0 then x else if 0 < x then x + (|d| + 1) else 0) := fun x => by
    obtain ⟨o, ho, hoi⟩ := shaky_built E _ _ hc 2 (fun j => if j = 1 then 10 + x else 10) 10 (10 - (|d| + 1)) 1 (by norm_num) (by decide)
    refine ⟨o, ho, ?_⟩
    rw [C59_williams ho hoi 1 (by simp [shaky, table_length])]
    simp only [since, lt_irrefl, if_false, accumulation, Nat.sub_self]
    rw [shaky_close _ _ _ _ _ 0 (by omega), shaky_close _ _ _ _ _ 1 (by omega), shaky_high _ _ _ _ _ 1 (by omega),
      shaky_low _ _ _ _ _ 1 (by omega)]
    have q := abs_nonneg d
    simp only [if_true, if_neg (show ¬ (0 : ℕ) = 1 by norm_num), lt_add_iff_pos_right, add_lt_iff_neg_left, max_self,
      min_eq_right (show 10 - (|d| + 1) ≤ (10 : ℚ) by linarith)]
    congr 1
    split_ifs <;> ring
  obtain ⟨o, ho, h1⟩ := key (-(e / 2))
  obtain ⟨p, hp, h2⟩ := key (e / 2)
  rw [if_pos (by linarith)] at h1
  rw [if_neg (by linarith), if_pos (by linarith)] at h2
  refine ⟨_, _, o, p, 1, _, _, shaky_within he.le 2 _ _ _ _ _ fun j _ => ?_, ho, hp, h1, h2, ?_⟩
  · split
    · rw [show 10 + e / 2 - (10 + -(e / 2)) = e by ring, abs_of_pos he]
    · simpa using he.le
  · have a1 := abs_le.1 (round4_close (-(e / 2)))
    have a2 := abs_le.1 (round4_close (e / 2 + (|d| + 1)))
    refine le_trans ?_ (le_abs_self _)
    linarith [le_abs_self d]

end TTI.Props
