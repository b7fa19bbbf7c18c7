import Verif.Lemmas.Least

set_option autoImplicit false

/-!
# Bands, ranges and changes (C68)
-/

namespace TTI.Window

open Spec Props Past

variable {E : Env} {c : Call}

/-! ## Bands -/

theorem variance_spike (n : ℕ) (hn : 1 ≤ n) (A : ℚ) : varianceLast n (spike (n * A)) (n - 1) = (n - 1) * A ^ 2 := by
  have hq : (n : ℚ) ≠ 0 := by exact_mod_cast (by omega : n ≠ 0)
  rw [varianceLast, mean_spike n hn, mul_div_assoc, mul_div_cancel₀ _ hq, meanLast]
  have e : sumLast n (fun j => (spike (n * A) j - A) ^ 2) (n - 1) = sumLast n (fun j => spike ((n * A - A) ^ 2 - A ^ 2) j + A ^ 2) (n - 1) := by
    unfold sumLast
    refine Finset.sum_congr rfl fun t _ => ?_
    dsimp only
    by_cases h : n - 1 - t = 0
    · rw [h, spike_zero, spike_zero]; ring
    · rw [spike_later _ (by omega), spike_later _ (by omega)]; ring
  have e2 : sumLast n (fun j => spike ((n * A - A) ^ 2 - A ^ 2) j + A ^ 2) (n - 1) = ((n * A - A) ^ 2 - A ^ 2) + n * A ^ 2 := by
    have := sum_spike n hn ((n * A - A) ^ 2 - A ^ 2)
    unfold sumLast at this ⊢
    rw [Finset.sum_add_distrib, this]
    simp
  rw [e, e2]
  field_simp
  ring

theorem variance_none (n i : ℕ) : varianceLast n (spike 0) i = 0 := by
  rw [varianceLast, mean_none, meanLast, sumLast_none _ _ _ fun j _ => by rw [spike_none]; ring, zero_div]

theorem needs_deviation (hE : FairEnv E) (n : ℕ) (hc : c.check = .ok (.standardDeviation n)) (hn : 2 ≤ n) : Needs E c "sd" n := by
  have hq : (2 : ℚ) ≤ n := by exact_mod_cast hn
  have h1 := hE.one ((n - 1) * 1 ^ 2) (by linarith)
  refine needs hc _ n n (n - 1) (pulse "close" (n * 1)) (pulse "close" 0) (to4 (E.sq ((n - 1) * 1 ^ 2))) (to4 0) (by omega)
    (by simp [minRows]) (by omega) (pulse_agree _ _ _) (to4_far _ (le_abs.2 (Or.inl h1))) ?_ ?_ <;> intro o ho hi <;>
    rw [C54_standard_deviation ho n hi _ (by rw [table_length]; omega), since, if_neg (by omega), close_pulse]
  · rw [variance_spike n (by omega)]
  · rw [variance_none, hE.zero]

theorem needs_bollinger (hE : FairEnv E) (n : ℕ) (s : ℚ) (hc : c.check = .ok (.bollingerBands n (.fin s))) (hn : 1 ≤ n) (hs : 0 < s)
    (column : String) (hcol : column ∈ ["middle_band", "upper_band", "lower_band"]) : Needs E c column n := by
  have hq : (1 : ℚ) ≤ n := by exact_mod_cast hn
  have hq0 : (n : ℚ) ≠ 0 := by linarith
  have e1 : to4 0 = to4 (roundQ 4 0 + s * 0) := by rw [roundQ_zero, mul_zero, add_zero]
  have e2 : to4 0 = to4 (roundQ 4 0 - s * 0) := by rw [roundQ_zero, mul_zero, sub_zero]
  simp only [List.mem_cons, List.not_mem_nil, or_false] at hcol
  rcases hcol with rfl | rfl | rfl
  · refine needs hc _ n n (n - 1) (pulse "close" n) (pulse "close" 0) (to4 1) (to4 0) (by omega) (by simp [minRows]) hn
      (pulse_agree _ _ _) one_to4 ?_ ?_ <;> intro o ho hi <;>
      rw [(C54_bollinger ho n s hi _ (by rw [table_length]; omega)).1, since, if_neg (by omega), close_pulse]
    · rw [mean_spike n hn, div_self hq0]
    · rw [mean_none]
  · refine needs hc _ n n (n - 1) (pulse "close" (n * 1)) (pulse "close" 0) (to4 (roundQ 4 1 + s * E.sq ((n - 1) * 1 ^ 2))) (to4 0)
      (by omega) (by simp [minRows]) hn (pulse_agree _ _ _) (to4_far _ ?_) ?_ ?_
    · have := mul_nonneg hs.le (hE.nonneg ((n - 1) * 1 ^ 2) (by linarith))
      rw [roundQ_one]
      exact le_abs.2 (Or.inl (by linarith))
    all_goals intro o ho hi
    all_goals rw [(C54_bollinger ho n s hi _ (by rw [table_length]; omega)).2.1, since, if_neg (by omega), close_pulse]
    · rw [variance_spike n hn, mean_spike n hn, mul_one, div_self hq0]
    · rw [variance_none, mean_none, hE.zero, e1]
  · refine needs hc _ n n (n - 1) (pulse "close" (n * (-1))) (pulse "close" 0) (to4 (roundQ 4 (-1) - s * E.sq ((n - 1) * (-1) ^ 2)))
      (to4 0) (by omega) (by simp [minRows]) hn (pulse_agree _ _ _) (to4_far _ ?_) ?_ ?_
    · have := mul_nonneg hs.le (hE.nonneg ((n - 1) * (-1) ^ 2) (by linarith))
      rw [roundQ_neg, roundQ_one]
      exact le_abs.2 (Or.inr (by linarith))
    all_goals intro o ho hi
    all_goals rw [(C54_bollinger ho n s hi _ (by rw [table_length]; omega)).2.2, since, if_neg (by omega), close_pulse]
    · rw [variance_spike n hn, mean_spike n hn, mul_div_assoc, mul_div_cancel₀ _ hq0]
    · rw [variance_none, mean_none, hE.zero, e2]

theorem needs_bollinger_wide (hE : FairEnv E) (n : ℕ) (hc : c.check = .ok (.bollingerBands n .pinf)) (hn : 1 ≤ n)
    (column : String) (hcol : column ∈ ["middle_band", "upper_band", "lower_band"]) (h2 : column ≠ "middle_band" → 2 ≤ n) :
    Needs E c column n := by
  have hq0 : (n : ℚ) ≠ 0 := by exact_mod_cast (by omega : n ≠ 0)
  simp only [List.mem_cons, List.not_mem_nil, or_false] at hcol
  rcases hcol with rfl | hcol
  · refine needs hc _ n n (n - 1) (pulse "close" n) (pulse "close" 0) (to4 1) (to4 0) (by omega) (by simp [minRows]) hn
      (pulse_agree _ _ _) one_to4 ?_ ?_ <;> intro o ho hi <;>
      rw [(C54_bollinger_infinite ho n hi _ (by rw [table_length]; omega)).1, since, if_neg (by omega), close_pulse]
    · rw [mean_spike n hn, div_self hq0]
    · rw [mean_none]
  · have h2 : 2 ≤ n := h2 (by rcases hcol with rfl | rfl <;> decide)
    have hq : (2 : ℚ) ≤ n := by exact_mod_cast h2
    have h1 : (0 : ℚ) < E.sq ((n - 1) * 1 ^ 2) := lt_of_lt_of_le one_pos (hE.one ((n - 1) * 1 ^ 2) (by linarith))
    have hx : ∀ o, BuiltOn E c (table (n + 1) (pulse "close" (n * 1))) true o AnyPrices → o.ind = .bollingerBands n .pinf →
        o.getTiData.day "upper_band" (n - 1) = .pinf ∧ o.getTiData.day "lower_band" (n - 1) = .ninf := by
      intro o ho hi
      have := (C54_bollinger_infinite ho n hi (n - 1) (by rw [table_length]; omega)).2.1 (by
        rw [close_pulse, variance_spike n hn]; exact h1)
      simpa [since] using this
    have hy : ∀ o, BuiltOn E c (table (n + 1) (pulse "close" 0)) true o AnyPrices → o.ind = .bollingerBands n .pinf →
        o.getTiData.day "upper_band" (n - 1) = .nan ∧ o.getTiData.day "lower_band" (n - 1) = .nan := by
      intro o ho hi
      exact (C54_bollinger_infinite ho n hi (n - 1) (by rw [table_length]; omega)).2.2 (by
        rw [close_pulse, variance_none, hE.zero])
    rcases hcol with rfl | rfl
    · exact needs hc _ n n (n - 1) (pulse "close" (n * 1)) (pulse "close" 0) .pinf .nan (by omega) (by simp [minRows]) hn
        (pulse_agree _ _ _) (by simp) (fun o ho hi => (hx o ho hi).1) (fun o ho hi => (hy o ho hi).1)
    · exact needs hc _ n n (n - 1) (pulse "close" (n * 1)) (pulse "close" 0) .ninf .nan (by omega) (by simp [minRows]) hn
        (pulse_agree _ _ _) (by simp) (fun o ho hi => (hx o ho hi).2) (fun o ho hi => (hy o ho hi).2)

theorem needs_envelopes (n : ℕ) (s : ℚ) (hc : c.check = .ok (.envelopes n s)) (hn : 1 ≤ n) (hs : 0 < s) (hs1 : s < 1) (column : String)
    (hcol : column ∈ ["upper_band", "lower_band"]) : Needs E c column n := by
  have hq0 : (n : ℚ) ≠ 0 := by exact_mod_cast (by omega : n ≠ 0)
  have hu : (1 + s) ≠ 0 := by linarith
  have hd : (1 - s) ≠ 0 := by linarith
  simp only [List.mem_cons, List.not_mem_nil, or_false] at hcol
  rcases hcol with rfl | rfl
  · refine needs hc _ n n (n - 1) (pulse "close" (n / (1 + s))) (pulse "close" 0) (to4 1) (to4 0) (by omega) (by simp [minRows]) hn
      (pulse_agree _ _ _) one_to4 ?_ ?_ <;> intro o ho hi <;>
      rw [(C54_envelopes ho n s hi _ (by rw [table_length]; omega)).1, since, if_neg (by omega), close_pulse]
    · rw [mean_spike n hn]; congr 1; field_simp
    · rw [mean_none, mul_zero]
  · refine needs hc _ n n (n - 1) (pulse "close" (n / (1 - s))) (pulse "close" 0) (to4 1) (to4 0) (by omega) (by simp [minRows]) hn
      (pulse_agree _ _ _) one_to4 ?_ ?_ <;> intro o ho hi <;>
      rw [(C54_envelopes ho n s hi _ (by rw [table_length]; omega)).2, since, if_neg (by omega), close_pulse]
    · rw [mean_spike n hn]; congr 1; field_simp
    · rw [mean_none, mul_zero]

theorem needs_channel (n : ℕ) (hc : c.check = .ok (.priceChannel n)) (hn : 1 ≤ n) (column : String)
    (hcol : column ∈ ["highest_high", "lowest_low"]) : Needs E c column (n + 1) := by
  simp only [List.mem_cons, List.not_mem_nil, or_false] at hcol
  rcases hcol with rfl | rfl
  · refine needs hc _ _ n n (pulse "high" 1) (pulse "high" 0) (to4 1) (to4 0) rfl (by simp [minRows]) hn
      (pulse_agree _ _ _) one_to4 ?_ ?_ <;> intro o ho hi <;>
      rw [(C54_price_channel ho n hi _ (by rw [table_length]; omega)).1, since, if_neg (by omega), high_pulse,
        highest_spike n hn _ (by norm_num)]
  · refine needs hc _ _ n n (pulse "low" (-1)) (pulse "low" 0) (to4 (-1)) (to4 0) rfl (by simp [minRows]) hn
      (pulse_agree _ _ _) (to4_far _ (by norm_num)) ?_ ?_ <;> intro o ho hi <;>
      rw [(C54_price_channel ho n hi _ (by rw [table_length]; omega)).2, since, if_neg (by omega), low_pulse,
        lowest_spike n hn _ (by norm_num)]

/-! ## Prices of a day -/

theorem needs_median (n : ℕ) (hc : c.check = .ok (.medianPrice n)) : Needs E c "mp" 1 := by
  refine needs hc _ 1 1 0 (pulse "high" 2) (pulse "high" 0) (to4 1) (to4 0) rfl (by simp [minRows]) (by omega)
    (pulse_agree _ _ _) one_to4 ?_ ?_ <;> intro o ho hi <;>
    rw [C56_median_price ho n hi _ (by rw [table_length]; omega), high_pulse, low_high_pulse, spike_zero] <;> norm_num

theorem needs_weighted (hc : c.check = .ok .weightedClose) : Needs E c "wc" 1 := by
  refine needs hc _ 1 1 0 (pulse "high" 4) (pulse "high" 0) (to4 1) (to4 0) rfl (by simp [minRows]) (by omega)
    (pulse_agree _ _ _) one_to4 ?_ ?_ <;> intro o ho hi <;>
    rw [C56_weighted_close ho hi _ (by rw [table_length]; omega), high_pulse, low_high_pulse, close_high_pulse, spike_zero] <;> norm_num

theorem typical_pulse (A : ℚ) (n : ℕ) : typical (table (n + 1) (pulse "high" (3 * A))) = spike A := by
  funext j
  rw [typical, high_pulse, low_high_pulse, close_high_pulse]
  unfold spike
  split <;> ring

theorem needs_typical (n : ℕ) (hc : c.check = .ok (.typicalPrice n)) : Needs E c "tp" 1 := by
  refine needs hc _ 1 1 0 (pulse "high" (3 * 1)) (pulse "high" (3 * 0)) (to4 1) (to4 0) rfl (by simp [minRows]) (by omega)
    (pulse_agree _ _ _) one_to4 ?_ ?_ <;> intro o ho hi <;>
    rw [C56_typical_price ho n hi _ (by rw [table_length]; omega), typical_pulse, spike_zero]

theorem needs_facilitation (hc : c.check = .ok .marketFacilitationIndex) : Needs E c "mfi" 1 := by
  refine needs hc _ 1 1 0 (pulse "high" 1) (pulse "high" 0) .pinf .nan rfl (by simp [minRows]) (by omega)
    (pulse_agree _ _ _) (by simp) ?_ ?_ <;> intro o ho hi <;>
    rw [C59_market_facilitation ho hi _ (by rw [table_length]; omega), dayRange_pulse, volume_high_pulse, spike_zero] <;>
    simp [quotient, Val.round]

theorem midRange_pulse (A : ℚ) (hA : 0 ≤ A) (n w : ℕ) (hw : 1 ≤ w) : midRange (table (n + 1) (pulse "high" A)) w (w - 1) = A / 2 := by
  rw [midRange, high_pulse, low_high_pulse, highest_spike w hw A hA, lowest_same w _ hw _ 0 fun _ _ => rfl, add_zero]

theorem midRange_late (A : ℚ) (n w i : ℕ) (hw : 1 ≤ w) (hi : w ≤ i) : midRange (table (n + 1) (pulse "high" A)) w i = 0 := by
  rw [midRange, high_pulse, low_high_pulse, highest_same w i hw _ 0 fun t ht => spike_later _ (by omega),
    lowest_same w _ hw _ 0 fun _ _ => rfl]
  norm_num

theorem needs_ichimoku (hc : c.check = .ok .ichimokuCloud) (column : String)
    (hcol : column ∈ ["tenkan_sen", "kijun_sen", "senkou_a", "senkou_b"]) :
    Needs E c column (if column = "tenkan_sen" then 9 else if column = "kijun_sen" then 26 else if column = "senkou_a" then 26 + 26
      else 52 + 26) := by
  simp only [List.mem_cons, List.not_mem_nil, or_false] at hcol
  have key : ∀ A n w, 0 ≤ A → 1 ≤ w → midRange (table (n + 1) (pulse "high" A)) w (w - 1) = A / 2 :=
    fun A n w h1 h2 => midRange_pulse A h1 n w h2
  rcases hcol with rfl | rfl | rfl | rfl
  · rw [if_pos rfl]
    refine needs hc _ 9 100 8 (pulse "high" 2) (pulse "high" 0) (to4 1) (to4 0) rfl (by simp [minRows]) (by omega)
      (pulse_agree _ _ _) one_to4 ?_ ?_ <;> intro o ho hi <;>
      rw [(C56_ichimoku ho hi _ (by rw [table_length]; omega)).1, key _ _ 9 (by norm_num) (by norm_num)] <;> norm_num
  · rw [if_neg (by decide), if_pos rfl]
    refine needs hc _ 26 100 25 (pulse "high" 2) (pulse "high" 0) (to4 1) (to4 0) rfl (by simp [minRows]) (by omega)
      (pulse_agree _ _ _) one_to4 ?_ ?_ <;> intro o ho hi <;>
      rw [(C56_ichimoku ho hi _ (by rw [table_length]; omega)).2.1, key _ _ 26 (by norm_num) (by norm_num)] <;> norm_num
  · rw [if_neg (by decide), if_neg (by decide), if_pos rfl]
    refine needs hc _ _ 100 51 (pulse "high" 4) (pulse "high" 0) (to4 1) (to4 0) rfl (by simp [minRows]) (by omega)
      (pulse_agree _ _ _) one_to4 ?_ ?_ <;> intro o ho hi <;>
      rw [(C56_ichimoku ho hi _ (by rw [table_length]; omega)).2.2.1, since, if_neg (by omega), show 51 - 26 = 25 from rfl,
        midRange_late _ _ 9 25 (by norm_num) (by norm_num), key _ _ 26 (by norm_num) (by norm_num)] <;> norm_num
  · rw [if_neg (by decide), if_neg (by decide), if_neg (by decide)]
    refine needs hc _ _ 100 77 (pulse "high" 2) (pulse "high" 0) (to4 1) (to4 0) rfl (by simp [minRows]) (by omega)
      (pulse_agree _ _ _) one_to4 ?_ ?_ <;> intro o ho hi <;>
      rw [(C56_ichimoku ho hi _ (by rw [table_length]; omega)).2.2.2, since, if_neg (by omega), show 77 - 26 = 51 from rfl,
        key _ _ 52 (by norm_num) (by norm_num)] <;> norm_num

/-! ## Places in a range -/

theorem rangeHeight_pulse (A : ℚ) (hA : 0 ≤ A) (n w : ℕ) (hw : 1 ≤ w) :
    rangeHeight (table (n + 1) (pulse "high" A)) w (w - 1) = A := by
  rw [rangeHeight, high_pulse, low_high_pulse, highest_spike w hw A hA, lowest_same w _ hw _ 0 fun _ _ => rfl, sub_zero]

theorem rangeHeight_late (A : ℚ) (n w i : ℕ) (hw : 1 ≤ w) (hi : w ≤ i) : rangeHeight (table (n + 1) (pulse "high" A)) w i = 0 := by
  rw [rangeHeight, high_pulse, low_high_pulse, highest_same w i hw _ 0 fun t ht => spike_later _ (by omega),
    lowest_same w _ hw _ 0 fun _ _ => rfl, sub_zero]

theorem rangeHeight_none (n w i : ℕ) (hw : 1 ≤ w) : rangeHeight (table (n + 1) (pulse "high" 0)) w i = 0 := by
  rw [rangeHeight, high_pulse, low_high_pulse, highest_same w i hw _ 0 fun t ht => spike_none _,
    lowest_same w _ hw _ 0 fun _ _ => rfl, sub_zero]

theorem needs_williamsR (n : ℕ) (hc : c.check = .ok (.williamsR n)) (hn : 1 ≤ n) : Needs E c "wr" n := by
  refine needs hc _ n n (n - 1) (pulse "high" 1) (pulse "high" 0) (to4 (-100)) .nan (by omega) (by simp [minRows]) hn
    (pulse_agree _ _ _) (to4_ne_nan _) ?_ ?_ <;> intro o ho hi <;>
    rw [C55_williams_r ho n hi _ (by rw [table_length]; omega), since, if_neg (by omega), high_pulse, close_high_pulse,
      rangeHeight_pulse _ (by norm_num) _ _ hn, highest_spike n hn _ (by norm_num)]
  · rw [quotient_fin _ _ one_ne_zero]; norm_num
  · rw [sub_zero, mul_zero]; exact quotient_none

theorem needs_percentK (k s d : ℕ) (b : Bool) (hc : c.check = .ok (.stochasticOscillator k s d b)) (hk : 1 ≤ k) (hs : 1 ≤ s) :
    Needs E c "%K" (k + s - 1) := by
  have hz : ∀ A n, sumLast s (aboveLow (table (n + 1) (pulse "high" A)) k) (k + s - 2) = 0 := by
    intro A n
    refine sumLast_none _ _ _ fun j _ => ?_
    rw [aboveLow, close_high_pulse, low_high_pulse, lowest_same k _ hk _ 0 fun _ _ => rfl, sub_zero]
  refine needs hc _ _ (k + s) (k + s - 2) (pulse "high" 1) (pulse "high" 0) (to4 0) .nan (by omega) (by simp [minRows]) (by omega)
    (pulse_agree _ _ _) (to4_ne_nan _) ?_ ?_ <;> intro o ho hi <;>
    rw [C55_stochastic_k ho k s d b hi _ (by rw [table_length]; omega), since, if_neg (by omega), hz, mul_zero]
  · rw [sumLast_at s (k + s - 2) (k - 1) _ (by omega) (by omega) (by omega), rangeHeight_pulse _ (by norm_num) _ _ hk,
      quotient_fin _ _ one_ne_zero, zero_div]
    intro j _ h1 h2
    exact rangeHeight_late _ _ _ _ hk (by omega)
  · rw [sumLast_none _ _ _ fun j _ => rangeHeight_none _ _ _ hk]
    exact quotient_none

/-! ## Changes -/

theorem loss_spike (A : ℚ) (hA : 0 ≤ A) : loss (spike A) 1 = A ∧ ∀ j, j ≠ 1 → loss (spike A) j = 0 := by
  refine ⟨by simp [loss, spike, hA], fun j hj => ?_⟩
  by_cases h : j = 0
  · subst h; simp [loss]
  · rw [loss, spike_later _ (by omega), spike_later _ (by omega)]; simp

theorem gain_spike (A : ℚ) (hA : 0 ≤ A) (j : ℕ) : gain (spike A) j = 0 := by
  by_cases h : j = 0
  · subst h; simp [gain]
  · rw [gain, spike_later A (show 1 ≤ j by omega)]
    have : 0 ≤ spike A (j - 1) := by unfold spike; split <;> linarith
    simpa using this

theorem needs_chande (n : ℕ) (hc : c.check = .ok (.chandeMomentumOscillator n)) (hn : 1 ≤ n) : Needs E c "cmo" (n + 1) := by
  refine needs hc _ _ n n (pulse "close" 1) (pulse "close" 0) (to4 (-100)) .nan rfl (by simp [minRows]) hn
    (pulse_agree _ _ _) (to4_ne_nan _) ?_ ?_ <;> intro o ho hi <;>
    rw [C55_chande ho n hi _ (by rw [table_length]; omega), since, if_neg (by omega), close_pulse, chande,
      sumLast_none n n (gain (spike _)) fun j _ => gain_spike _ (by norm_num) j]
  · rw [sumLast_at n n 1 _ hn (by omega) (by omega) fun j _ _ h => (loss_spike 1 (by norm_num)).2 j h, (loss_spike 1 (by norm_num)).1,
      quotient_fin _ _ (by norm_num)]
    norm_num
  · rw [sumLast_none n n (loss (spike 0)) fun j _ => by simp [loss, spike_none], sub_zero, mul_zero, add_zero]
    exact quotient_none

theorem needs_intraday (n : ℕ) (hc : c.check = .ok (.intradayMomentumIndex n)) (hn : 1 ≤ n) : Needs E c "imi" n := by
  have h1 : ∀ A : ℚ, 0 ≤ A → (fun j => max (spike A j - 0) 0) = spike A := by
    intro A hA; funext j; unfold spike; split <;> simp [hA]
  have h2 : ∀ A : ℚ, 0 ≤ A → (fun j => max (0 - spike A j) 0) = spike 0 := by
    intro A hA; funext j; unfold spike; split <;> simp [hA]
  refine needs hc _ n n (n - 1) (pulse "close" 1) (pulse "close" 0) (to4 100) .nan (by omega) (by simp [minRows]) hn
    (pulse_agree _ _ _) (to4_ne_nan _) ?_ ?_ <;> intro o ho hi <;>
    rw [C55_intraday_momentum ho n hi _ (by rw [table_length]; omega), since, if_neg (by omega), close_pulse, open_close_pulse,
      h1 _ (by norm_num), h2 _ (by norm_num)] <;> simp only [sum_spike n hn]
  · rw [quotient_fin _ _ (by norm_num)]; norm_num
  · rw [mul_zero, add_zero]; exact quotient_none

theorem needs_vertical (n : ℕ) (hc : c.check = .ok (.verticalHorizontalFilter n)) (hn : 1 ≤ n) : Needs E c "vhf" (n + 1) := by
  have hh : ∀ A, highest n (spike A) n - lowest n (spike A) n = 0 := by
    intro A
    rw [highest_same n n hn _ 0 fun t ht => spike_later _ (by omega), lowest_same n n hn _ 0 fun t ht => spike_later _ (by omega),
      sub_zero]
  refine needs hc _ _ n n (pulse "close" 1) (pulse "close" 0) (to4 0) .nan rfl (by simp [minRows]) hn
    (pulse_agree _ _ _) (to4_ne_nan _) ?_ ?_ <;> intro o ho hi <;>
    rw [C55_vertical_horizontal ho n hi _ (by rw [table_length]; omega), since, if_neg (by omega), close_pulse, hh]
  · rw [sumLast_at n n 1 _ hn (by omega) (by omega)]
    · rw [quotient_fin _ _ (by simp [spike]), zero_div]
    · intro j _ h1 h2
      rw [spike_later _ (by omega), spike_later _ (by omega)]
      simp
  · rw [sumLast_none _ _ _ fun j _ => by rw [spike_none, spike_none]; simp]
    exact quotient_none

theorem needs_swing (hc : c.check = .ok .swingIndex) : Needs E c "swi" 2 := by
  refine needs hc _ 2 1 1 (pulse "close" 1) (pulse "close" 0) (to4 (-10)) .nan rfl (by simp [minRows]) (by omega)
    (pulse_agree _ _ _) (to4_ne_nan _) ?_ ?_ <;> intro o ho hi <;>
    rw [C58_swing_index ho hi _ (by rw [table_length]; omega), since, if_neg (by omega)] <;>
    simp only [swingRange, swingMove, swingReach, close_pulse, open_close_pulse, high_close_pulse, low_close_pulse]
  · rw [if_neg (by norm_num [spike])]
    norm_num [spike, within100]
  · rw [if_pos (by norm_num [spike])]

theorem needs_wad (hc : c.check = .ok .williamsAccumulationDistribution) : Needs E c "wad" 2 := by
  refine needs hc _ 2 2 1 (pulse "close" 1) (pulse "close" 0) (to4 (-1)) (to4 0) rfl (by simp [minRows]) (by omega)
    (pulse_agree _ _ _) (to4_far _ (by norm_num)) ?_ ?_ <;> intro o ho hi <;>
    rw [C59_williams ho hi _ (by rw [table_length]; omega), since, if_neg (by omega), accumulation, close_pulse, high_close_pulse,
      low_close_pulse] <;> norm_num [spike]

theorem needs_commodity (n : ℕ) (hc : c.check = .ok (.commodityChannelIndex n)) (hn : 2 ≤ n) : Needs E c "cci" n := by
  have hq : (2 : ℚ) ≤ n := by exact_mod_cast hn
  have hpos : 0 < sumLast n (fun j => |meanLast n (spike 1) (n - 1) - spike 1 j|) (n - 1) := by
    unfold sumLast
    refine Finset.sum_pos' (fun t _ => abs_nonneg _) ⟨0, Finset.mem_range.2 (by omega), ?_⟩
    dsimp only
    rw [mean_spike n (by omega), Nat.sub_zero, spike_later _ (by omega), sub_zero]
    have : (0 : ℚ) < 1 / n := by positivity
    rwa [abs_of_pos this]
  refine needs hc _ n n (n - 1) (pulse "high" (3 * 1)) (pulse "high" (3 * 0))
    (to4 ((0 - 1 / n) / (15 / 1000 * meanLast n (fun j => |1 / n - spike 1 j|) (n - 1)))) .nan (by omega) (by simp [minRows])
    (by omega) (pulse_agree _ _ _) (to4_ne_nan _) ?_ ?_ <;> intro o ho hi <;>
    rw [C58_commodity_channel ho n hi _ (by rw [table_length]; omega), since, if_neg (by omega), typical_pulse,
      spike_later _ (by omega)]
  · rw [quotient_fin]
    · rw [mean_spike n (by omega)]
    · rw [meanLast]
      have : (0 : ℚ) < n := by linarith
      positivity
  · rw [mean_none, meanLast, sumLast_none _ _ _ fun j _ => by rw [spike_none]; simp, zero_div, mul_zero, sub_zero]
    exact quotient_none

end TTI.Window
