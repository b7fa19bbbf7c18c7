import Verif.Spec.Least
import Verif.Lemmas.Unlimited2
import Verif.Lemmas.Unlimited3
import Verif.Props.FormulaPrices
import Verif.Props.FormulaProjection
import Verif.Props.FormulaZero

set_option autoImplicit false

/-!
# Tables that differ on day 0 and in a later value (C68)
-/

namespace TTI.Window

open Spec Props Past

variable (E : Env) (c : Call)

/-- At least `M` days are needed. -/
def Needs (column : String) (M : ℕ) : Prop := ∀ m, Enough E c column m → M ≤ m

/-- The object built on the table of `n + 1` days reports `v` in the column on day `i`. -/
def Tells (ind : Ind) (column : String) (n i : ℕ) (x : String → ℕ → ℚ) (v : Val) : Prop :=
  ∀ o, BuiltOn E c (table (n + 1) x) true o AnyPrices → o.ind = ind → o.getTiData.day column i = v

variable {E c}

theorem needs {ind : Ind} (hc : c.check = .ok ind) (column : String) (M n i : ℕ) (x y : String → ℕ → ℚ) (v w : Val) (hM : M = i + 1)
    (hn : minRows ind ≤ n) (hn0 : 1 ≤ n) (ha : ∀ s j, 1 ≤ j → x s j = y s j) (hvw : v ≠ w)
    (hx : Tells E c ind column n i x v) (hy : Tells E c ind column n i y w) (hin : i ≤ n := by omega) : Needs E c column M := by
  intro m hm
  obtain ⟨o, ho, hoi⟩ := table_built E c ind hc (n + 1) x AnyPrices (by omega) (by omega) (required_ohlcv ind) fun _ _ => trivial
  obtain ⟨p, hp, hpi⟩ := table_built E c ind hc (n + 1) y AnyPrices (by omega) (by omega) (required_ohlcv ind) fun _ _ => trivial
  by_contra hlt
  have hb := table_before (n + 1) 1 x (by omega)
  have key := hm (table (n + 1) x) (table (n + 1) y) o p ((1 : ℕ) : ℤ) i ho hp (by rw [table_length, table_length])
    (table_since (n + 1) 1 x y ha) (by rw [since_length, table_length, hb, hoi]; omega) (by rw [hb]; omega)
    (by rw [table_length]; omega)
  rw [hx o ho hoi, hy p hp hpi] at key
  exact hvw key

/-- At least the day itself is needed. -/
theorem needs_itself {ind : Ind} (hc : c.check = .ok ind) (column : String) (n i : ℕ) (x y : String → ℕ → ℚ) (v w : Val)
    (hn : minRows ind + i ≤ n) (hn0 : i + 1 ≤ n) (ha : ∀ s j, i + 1 ≤ j → x s j = y s j) (hvw : v ≠ w)
    (hx : Tells E c ind column n i x v) (hy : Tells E c ind column n i y w) : Needs E c column 1 := by
  intro m hm
  obtain ⟨o, ho, hoi⟩ := table_built E c ind hc (n + 1) x AnyPrices (by omega) (by omega) (required_ohlcv ind) fun _ _ => trivial
  obtain ⟨p, hp, hpi⟩ := table_built E c ind hc (n + 1) y AnyPrices (by omega) (by omega) (required_ohlcv ind) fun _ _ => trivial
  by_contra hlt
  have hb := table_before (n + 1) (i + 1) x (by omega)
  have key := hm (table (n + 1) x) (table (n + 1) y) o p ((i + 1 : ℕ) : ℤ) i ho hp (by rw [table_length, table_length])
    (table_since (n + 1) (i + 1) x y ha) (by rw [since_length, table_length, hb, hoi]; omega) (by rw [hb]; omega)
    (by rw [table_length]; omega)
  rw [hx o ho hoi, hy p hp hpi] at key
  exact hvw key

/-! ## Windows that begin on day 0 -/

theorem sumLast_at (w i j₀ : ℕ) (g : ℕ → ℚ) (h1 : j₀ ≤ i) (h2 : i < j₀ + w) (hw : w ≤ i + 1)
    (hz : ∀ j ≤ i, i < j + w → j ≠ j₀ → g j = 0) : sumLast w g i = g j₀ := by
  unfold sumLast
  rw [Finset.sum_eq_single (i - j₀)]
  · rw [show i - (i - j₀) = j₀ by omega]
  · intro t ht hne
    rw [Finset.mem_range] at ht
    exact hz _ (by omega) (by omega) (by omega)
  · intro h
    exact absurd (Finset.mem_range.2 (by omega)) h

theorem sumLast_none (w i : ℕ) (g : ℕ → ℚ) (hz : ∀ j ≤ i, g j = 0) : sumLast w g i = 0 :=
  Finset.sum_eq_zero fun t _ => hz _ (by omega)

theorem sumLast_late (w i : ℕ) (g : ℕ → ℚ) (hw : w ≤ i) (hz : ∀ j ≤ i, 1 ≤ j → g j = 0) : sumLast w g i = 0 :=
  Finset.sum_eq_zero fun t ht => hz _ (by omega) (by rw [Finset.mem_range] at ht; omega)

theorem sum_spike (w : ℕ) (hw : 1 ≤ w) (A : ℚ) : sumLast w (spike A) (w - 1) = A :=
  sumLast_at w (w - 1) 0 _ (by omega) (by omega) (by omega) fun j _ _ h => spike_later A (by omega)

theorem mean_spike (w : ℕ) (hw : 1 ≤ w) (A : ℚ) : meanLast w (spike A) (w - 1) = A / w := by
  rw [meanLast, sum_spike w hw]

theorem mean_none (w i : ℕ) : meanLast w (spike 0) i = 0 := by
  rw [meanLast, sumLast_none w i _ fun j _ => spike_none j, zero_div]

theorem highest_spike (w : ℕ) (hw : 1 ≤ w) (A : ℚ) (hA : 0 ≤ A) : highest w (spike A) (w - 1) = A := by
  obtain ⟨h1, t, ht, h2⟩ := Nums.highest_spec w hw (spike A) (w - 1)
  have := h1 (w - 1) (by omega)
  rw [Nat.sub_self, spike_zero] at this
  refine le_antisymm ?_ this
  rw [h2]
  unfold spike
  split <;> linarith

theorem lowest_spike (w : ℕ) (hw : 1 ≤ w) (A : ℚ) (hA : A ≤ 0) : lowest w (spike A) (w - 1) = A := by
  obtain ⟨h1, t, ht, h2⟩ := Nums.lowest_spec w hw (spike A) (w - 1)
  have := h1 (w - 1) (by omega)
  rw [Nat.sub_self, spike_zero] at this
  refine le_antisymm this ?_
  rw [h2]
  unfold spike
  split <;> linarith

theorem highest_same (w i : ℕ) (hw : 1 ≤ w) (g : ℕ → ℚ) (K : ℚ) (h : ∀ t < w, g (i - t) = K) : highest w g i = K := by
  obtain ⟨-, t, ht, h2⟩ := Nums.highest_spec w hw g i
  rw [h2, h t ht]

theorem lowest_same (w i : ℕ) (hw : 1 ≤ w) (g : ℕ → ℚ) (K : ℚ) (h : ∀ t < w, g (i - t) = K) : lowest w g i = K := by
  obtain ⟨-, t, ht, h2⟩ := Nums.lowest_spec w hw g i
  rw [h2, h t ht]

theorem volume_pulse (A : ℚ) (n : ℕ) : volume (table (n + 1) (pulse "volume" A)) = spike A := by
  rw [show volume (table (n + 1) (pulse "volume" A)) = price (table (n + 1) (pulse "volume" A)) "volume" from rfl,
    pulse_price _ _ _ _ volume_ohlcv, if_pos rfl]

theorem low_pulse (A : ℚ) (n : ℕ) : low (table (n + 1) (pulse "low" A)) = spike A := by
  rw [low, pulse_price _ _ _ _ low_ohlcv, if_pos rfl]

theorem pulse_other (name : String) (A : ℚ) (n : ℕ) (s : String) (hs : s ∈ ohlcv) (h : s ≠ name) :
    price (table (n + 1) (pulse name A)) s = fun _ => 0 := by
  rw [pulse_price _ _ _ _ hs, if_neg h]

theorem open_ohlcv : "open" ∈ ohlcv := by simp [ohlcv]

theorem open_close_pulse (A : ℚ) (n : ℕ) : opening (table (n + 1) (pulse "close" A)) = fun _ => 0 :=
  pulse_other _ _ _ _ open_ohlcv (by decide)

theorem high_close_pulse (A : ℚ) (n : ℕ) : high (table (n + 1) (pulse "close" A)) = fun _ => 0 :=
  pulse_other _ _ _ _ high_ohlcv (by decide)

theorem low_close_pulse (A : ℚ) (n : ℕ) : low (table (n + 1) (pulse "close" A)) = fun _ => 0 :=
  pulse_other _ _ _ _ low_ohlcv (by decide)

theorem high_low_pulse (A : ℚ) (n : ℕ) : high (table (n + 1) (pulse "low" A)) = fun _ => 0 :=
  pulse_other _ _ _ _ high_ohlcv (by decide)

theorem close_low_pulse (A : ℚ) (n : ℕ) : close (table (n + 1) (pulse "low" A)) = fun _ => 0 :=
  pulse_other _ _ _ _ close_ohlcv (by decide)

theorem volume_high_pulse (A : ℚ) (n : ℕ) : volume (table (n + 1) (pulse "high" A)) = fun _ => 0 :=
  pulse_other _ _ _ _ volume_ohlcv (by decide)

theorem to4_far (q : ℚ) (h : 1 ≤ |q|) : to4 q ≠ to4 0 := by
  unfold to4
  rw [roundQ_zero]
  intro h1
  have h1 : roundQ 4 q = 0 := by simpa using h1
  rcases le_abs.1 h with h | h
  · have := roundQ_mono 4 h
    rw [roundQ_one] at this
    linarith
  · have := roundQ_mono 4 h
    rw [roundQ_one, roundQ_neg] at this
    linarith

theorem round4_fin (q : ℚ) : round4 (.fin q) = to4 q := rfl

theorem quotient_fin (a b : ℚ) (h : b ≠ 0) : round4 (quotient a b) = to4 (a / b) := by
  rw [quotient, if_pos h]; rfl

theorem quotient_none : round4 (quotient 0 0) = .nan := by simp [quotient]

/-! ## Averages -/

theorem needs_simple (n : ℕ) (hc : c.check = .ok (.movingAverage n .simple)) (hn : 1 ≤ n) : Needs E c "ma-simple" n := by
  have hq : (n : ℚ) ≠ 0 := by exact_mod_cast (by omega : n ≠ 0)
  refine needs hc _ n n (n - 1) (pulse "close" n) (pulse "close" 0) (to4 1) (to4 0) (by omega) (by simp [minRows]) hn
    (pulse_agree _ _ _) one_to4 ?_ ?_ <;> intro o ho hi <;>
    rw [C52_simple ho n hi _ (by rw [table_length]; omega), since, if_neg (by omega), close_pulse]
  · rw [mean_spike n hn, div_self hq]
  · rw [mean_none]

theorem needs_triangular (n : ℕ) (hc : c.check = .ok (.movingAverage n .triangular)) (hn : 1 ≤ n) :
    Needs E c "ma-triangular" (2 * n - 1) := by
  have hq : (n : ℚ) ≠ 0 := by exact_mod_cast (by omega : n ≠ 0)
  refine needs hc _ _ (2 * n) (2 * n - 2) (pulse "close" (n * n)) (pulse "close" 0) (to4 1) (to4 0) (by omega)
    (by simp [minRows]; omega) (by omega) (pulse_agree _ _ _) one_to4 ?_ ?_ <;> intro o ho hi <;>
    rw [C52_triangular ho n hi _ (by rw [table_length]; omega), since, if_neg (by omega), close_pulse]
  · rw [meanLast, sumLast_at n (2 * n - 2) (n - 1) _ (by omega) (by omega) (by omega), mean_spike n hn, mul_div_assoc,
      div_self hq, mul_one, div_self hq]
    intro j hj h1 h2
    rw [meanLast, sumLast_late n j _ (by omega) fun j _ h => spike_later _ h, zero_div]
  · rw [meanLast, sumLast_none _ _ _ fun j _ => mean_none _ _, zero_div]

theorem needs_qstick (n : ℕ) (hc : c.check = .ok (.qstick n)) (hn : 1 ≤ n) : Needs E c "qstick" n := by
  have hq : (n : ℚ) ≠ 0 := by exact_mod_cast (by omega : n ≠ 0)
  refine needs hc _ n n (n - 1) (pulse "close" n) (pulse "close" 0) (to4 1) (to4 0) (by omega) (by simp [minRows]) hn
    (pulse_agree _ _ _) one_to4 ?_ ?_ <;> intro o ho hi <;>
    rw [C55_qstick ho n hi _ (by rw [table_length]; omega), since, if_neg (by omega), close_pulse, open_close_pulse] <;>
    simp only [sub_zero]
  · rw [show (fun j => spike (n : ℚ) j) = spike (n : ℚ) from rfl, mean_spike n hn, div_self hq]
  · rw [show (fun j => spike (0 : ℚ) j) = spike 0 from rfl, mean_none]

theorem needs_momentum (n : ℕ) (hc : c.check = .ok (.momentum n)) (hn : 1 ≤ n) : Needs E c "mom" (n + 1) := by
  refine needs hc _ _ n n (pulse "close" 1) (pulse "close" 0) (to4 0) .nan rfl (by simp [minRows]) hn (pulse_agree _ _ _) (to4_ne_nan _)
    ?_ ?_ <;> intro o ho hi <;>
    rw [C53_momentum ho n hi _ (by rw [table_length]; omega), since, if_neg (by omega), close_pulse, spike_later _ hn, Nat.sub_self,
      spike_zero, mul_zero]
  · rw [quotient_fin _ _ one_ne_zero, zero_div]
  · exact quotient_none

theorem needs_priceRate (n : ℕ) (hc : c.check = .ok (.priceRateOfChange n)) (hn : 1 ≤ n) : Needs E c "prc" (n + 1) := by
  refine needs hc _ _ n n (pulse "close" 1) (pulse "close" 0) (to4 (-100)) .nan rfl (by simp [minRows]) hn (pulse_agree _ _ _)
    (to4_ne_nan _) ?_ ?_ <;> intro o ho hi <;>
    rw [C53_price_rate_of_change ho n hi _ (by rw [table_length]; omega), since, if_neg (by omega), close_pulse, spike_later _ hn,
      Nat.sub_self, spike_zero]
  · rw [quotient_fin _ _ one_ne_zero]; norm_num
  · rw [sub_zero, mul_zero]; exact quotient_none

theorem needs_volumeRate (n : ℕ) (hc : c.check = .ok (.volumeRateOfChange n)) (hn : 1 ≤ n) : Needs E c "vrc" (n + 1) := by
  refine needs hc _ _ n n (pulse "volume" 1) (pulse "volume" 0) (to4 (-100)) .nan rfl (by simp [minRows]) hn (pulse_agree _ _ _)
    (to4_ne_nan _) ?_ ?_ <;> intro o ho hi <;>
    rw [C53_volume_rate_of_change ho n hi _ (by rw [table_length]; omega), since, if_neg (by omega), volume_pulse, spike_later _ hn,
      Nat.sub_self, spike_zero]
  · rw [quotient_fin _ _ one_ne_zero]; norm_num
  · rw [sub_zero, mul_zero]; exact quotient_none

theorem needs_priceOscillator (l s : ℕ) (hc : c.check = .ok (.priceOscillator l s)) (hs : 1 ≤ s) (hl : s < l) :
    Needs E c "posc" (max l s) := by
  have hq : (l : ℚ) ≠ 0 := by exact_mod_cast (by omega : l ≠ 0)
  refine needs hc _ _ l (l - 1) (pulse "close" l) (pulse "close" 0)
    (to4 (100 * (meanLast s (spike l) (l - 1) - 1) / 1)) .nan (by omega) (by simp [minRows]) (by omega) (pulse_agree _ _ _)
    (to4_ne_nan _) ?_ ?_ <;> intro o ho hi <;>
    rw [C53_price_oscillator ho l s hi _ (by rw [table_length]; omega), since, if_neg (by omega), close_pulse]
  · rw [mean_spike l (by omega), div_self hq, quotient_fin _ _ one_ne_zero]
  · rw [mean_none, mean_none, sub_zero, mul_zero]; exact quotient_none

theorem needs_volumeOscillator (l s : ℕ) (hc : c.check = .ok (.volumeOscillator l s)) (hs : 1 ≤ s) (hl : s < l) :
    Needs E c "vosc" (max l s) := by
  have hq : (l : ℚ) ≠ 0 := by exact_mod_cast (by omega : l ≠ 0)
  refine needs hc _ _ l (l - 1) (pulse "volume" l) (pulse "volume" 0) (to4 (-1)) (to4 0) (by omega) (by simp [minRows]) (by omega)
    (pulse_agree _ _ _) (to4_far _ (by norm_num)) ?_ ?_ <;> intro o ho hi <;>
    rw [C53_volume_oscillator ho l s hi _ (by rw [table_length]; omega), since, if_neg (by omega), volume_pulse]
  · rw [mean_spike l (by omega), div_self hq, meanLast, sumLast_late _ _ _ (by omega) fun j _ h => spike_later _ h]
    norm_num
  · rw [mean_none, mean_none, sub_zero]

theorem needs_detrended (n : ℕ) (hc : c.check = .ok (.detrendedPriceOscillator n)) (hn : 1 ≤ n) :
    Needs E c "dpo" (max 1 (n - 1 - n / 2)) := by
  have hq : (n : ℚ) ≠ 0 := by exact_mod_cast (by omega : n ≠ 0)
  by_cases h5 : 5 ≤ n
  · refine needs hc _ _ (2 * n) (n - 1 - (1 + n / 2)) (pulse "close" n) (pulse "close" 0) (to4 (-1)) (to4 0) (by omega)
      (by simp [minRows]; omega) (by omega) (pulse_agree _ _ _) (to4_far _ (by norm_num)) ?_ ?_ <;> intro o ho hi <;>
      rw [(C56_detrended ho n hi _ (by rw [table_length]; omega)).1, since, if_neg (by omega), close_pulse,
        spike_later _ (by omega), show n - 1 - (1 + n / 2) + (1 + n / 2) = n - 1 by omega]
    · rw [mean_spike n hn, div_self hq]; norm_num
    · rw [mean_none, sub_zero]
  · refine needs hc _ _ 10 0 (pulse "close" 12) (pulse "close" 0) (to4 (12 - meanLast n (spike 12) (0 + (1 + n / 2)))) (to4 0) (by omega)
      (by simp [minRows]; omega) (by omega) (pulse_agree _ _ _) (to4_far _ ?_) ?_ ?_
    · have : n = 1 ∨ n = 2 ∨ n = 3 ∨ n = 4 := by omega
      rcases this with rfl | rfl | rfl | rfl <;> simp [meanLast, sumLast, Finset.sum_range_succ, spike] <;> norm_num
    all_goals intro o ho hi
    all_goals rw [(C56_detrended ho n hi _ (by rw [table_length]; omega)).1, since, if_neg (by omega), close_pulse, spike_zero]
    rw [mean_none, sub_zero]

end TTI.Window
