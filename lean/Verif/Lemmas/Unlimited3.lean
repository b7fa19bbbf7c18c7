import Verif.Lemmas.Unlimited2
import Verif.Props.FormulaStrength
import Verif.Props.FormulaOscillators
import Verif.Props.FormulaVolume
import Verif.Props.FormulaBands
import Verif.Props.Volume
import Verif.Props.Trend

set_option autoImplicit false

/-!
# Oscillators, running totals and extremes that never forget (C68)
-/

namespace TTI.Past

open Spec Props

variable (E : Env) (c : Call)

theorem never_rmi (n m : ℕ) (hc : c.check = .ok (.relativeMomentumIndex n m)) (hn : 2 ≤ n) (hm : 1 ≤ m) : NeverForgets E c "rmi" := by
  have hq : (0 : ℚ) < n := by exact_mod_cast (by omega : 0 < n)
  refine neverForgets_nan E c _ hc _ fun k => ⟨k + n + m, 1, pulse "close" 1, pulse "close" 0,
    by simp only [minRows]; omega, by omega, pulse_agree _ _ _, fun o ho hi => ?_, ?_⟩
  · rw [C60_relative_momentum ho n m hi _ (by rw [table_length]; omega), since, if_neg (by omega), close_pulse, if_neg]
    · exact ⟨_, rfl⟩
    · rw [wilder_fade n m (by omega) _ _ (by omega) fun j h _ => ?_]
      · have : lossOver m (spike 1) m = 1 := by
          rw [lossOver, spike_later _ hm, Nat.sub_self]
          simp
        rw [this]
        exact (mul_pos (pow_pos (wilder_rest_pos hn) _) (by positivity)).ne'
      · rw [lossOver, spike_later _ (by omega), spike_later _ (by omega)]
        simp
  · intro o ho hi
    rw [C60_relative_momentum ho n m hi _ (by rw [table_length]; omega), since, if_neg (by omega), close_pulse, if_pos]
    refine wilder_zero n m (by omega) _ _ (by omega) fun j _ _ => ?_
    rw [lossOver, spike_none, spike_none]
    simp

/-- The relative strength index rounds its averages every day; the numbers are chosen such that the rounding has no effect. -/
theorem never_rsi (n : ℕ) (hc : c.check = .ok (.relativeStrengthIndex n)) (hn : 2 ≤ n) : NeverForgets E c "rsi" := by
  have hq : (n : ℚ) ≠ 0 := by exact_mod_cast (by omega : n ≠ 0)
  have hrise : ∀ K N : ℕ, ∀ j ≤ K, risePart (table (N + 1) (pulse "close" (-(n ^ (K + 1) : ℕ)))) n (n + j) = (n ^ (K - j) * (n - 1) ^ j : ℕ) := by
    intro K N
    have hg : ∀ j, roundQ 4 (gain (spike (-(n ^ (K + 1) : ℕ))) j) = if j = 1 then ((n ^ (K + 1) : ℕ) : ℚ) else 0 := by
      intro j
      unfold gain
      by_cases h0 : j = 0
      · subst h0; simp
      · rw [spike_later _ (by omega)]
        by_cases h1 : j = 1
        · subst h1
          rw [if_pos rfl, show 1 - 1 = 0 from rfl, spike_zero, zero_sub, neg_neg, max_eq_left (by positivity), roundQ_natCast]
        · rw [if_neg h1, spike_later _ (by omega)]; simp
    unfold risePart roundedAverage
    rw [close_pulse]
    simp only [hg]
    intro j
    induction j with
    | zero =>
      intro _
      have e : ∀ i, i ≤ n → running n (meanLast n (fun j => if j = 1 then ((n ^ (K + 1) : ℕ) : ℚ) else 0) n)
          (fun b x => roundQ 4 (b + (x - b) / n)) (fun j => if j = 1 then ((n ^ (K + 1) : ℕ) : ℚ) else 0) i =
          meanLast n (fun j => if j = 1 then ((n ^ (K + 1) : ℕ) : ℚ) else 0) n := by
        intro i hi
        cases i with
        | zero => rfl
        | succ i => rw [running, if_pos hi]
      refine (e n (le_refl _)).trans ?_
      unfold meanLast sumLast
      rw [Finset.sum_eq_single (n - 1)]
      · beta_reduce
        rw [if_pos (by omega)]
        push_cast
        rw [Nat.sub_zero, pow_zero, mul_one, pow_succ, mul_div_assoc, div_self hq, mul_one]
      · intro t ht hne
        rw [Finset.mem_range] at ht
        beta_reduce
        rw [if_neg (by omega)]
      · intro h
        exact absurd (Finset.mem_range.2 (by omega)) h
    | succ j ih =>
      intro hj
      rw [← Nat.add_assoc, running, if_neg (by omega), ih (by omega), if_neg (by omega)]
      have h1 : ((n ^ (K - j) * (n - 1) ^ j : ℕ) : ℚ) + (0 - ((n ^ (K - j) * (n - 1) ^ j : ℕ) : ℚ)) / n =
          ((n ^ (K - (j + 1)) * (n - 1) ^ (j + 1) : ℕ) : ℚ) := by
        rw [show K - j = (K - (j + 1)) + 1 by omega]
        push_cast [Nat.cast_sub (show 1 ≤ n by omega)]
        field_simp
        ring
      rw [h1, roundQ_natCast]
  have hfall : ∀ A : ℚ, 0 ≤ A → ∀ N i, fallPart (table (N + 1) (pulse "close" (-A))) n i = 0 := by
    intro A hA N i
    have hg : ∀ j, roundQ 4 (loss (spike (-A)) j) = 0 := by
      intro j
      have : loss (spike (-A)) j = 0 := by
        unfold loss
        by_cases h0 : j = 0
        · subst h0; simp
        · rw [spike_later _ (show 1 ≤ j by omega)]
          by_cases h1 : j = 1
          · subst h1; simpa using hA
          · rw [spike_later _ (by omega)]; simp
      rw [this]; simp
    unfold fallPart roundedAverage
    rw [close_pulse]
    simp only [hg]
    induction i with
    | zero => simp [running, meanLast, sumLast]
    | succ i ih =>
      rw [running]
      split
      · simp [meanLast, sumLast]
      · rw [ih]; simp
  refine neverForgets_nan E c _ hc _ fun k => ⟨n + k, 1, pulse "close" (-((n ^ (k + 1) : ℕ) : ℚ)), pulse "close" (-0),
    by simp only [minRows]; omega, by omega, pulse_agree _ _ _, fun o ho hi => ?_, ?_⟩
  · rw [C60_relative_strength ho n hi _ (by rw [table_length]; omega), since, if_neg (by omega), hrise k _ k (le_refl _),
      hfall _ (by positivity), quotient, if_pos]
    · exact ⟨_, rfl⟩
    · rw [add_zero]
      exact_mod_cast (by
        have : 0 < (n - 1) ^ k := pow_pos (by omega) _
        have h2 : 0 < n ^ (k - k) := pow_pos (by omega) _
        exact (Nat.mul_pos h2 this).ne')
  · intro o ho hi
    have hr0 : ∀ N i, risePart (table (N + 1) (pulse "close" (-0))) n i = 0 := by
      intro N i
      unfold risePart roundedAverage
      rw [close_pulse]
      have hg : ∀ j, roundQ 4 (gain (spike (-0)) j) = 0 := by
        intro j
        unfold gain
        rw [neg_zero, spike_none, spike_none]
        simp
      simp only [hg]
      induction i with
      | zero => simp [running, meanLast, sumLast]
      | succ i ih =>
        rw [running]
        split
        · simp [meanLast, sumLast]
        · rw [ih]; simp
    rw [C60_relative_strength ho n hi _ (by rw [table_length]; omega), since, if_neg (by omega), hr0, hfall 0 (le_refl _)]
    simp [quotient, round4, Val.round]

/-- `A` in all columns on the days before `m`, then zeros. -/
def block (m : ℕ) (A : ℚ) (_ : String) (j : ℕ) : ℚ := if j < m then A else 0

theorem block_agree (m : ℕ) (A B : ℚ) : ∀ s j, m ≤ j → block m A s j = block m B s j := by
  intro s j hj
  simp only [block, if_neg (show ¬ j < m by omega)]

theorem block_price (m : ℕ) (A : ℚ) (n : ℕ) (hm : m ≤ n + 1) (s : String) (hs : s ∈ ohlcv) :
    price (table (n + 1) (block m A)) s = fun j => if j < m then A else 0 := by
  rw [table_prices (n + 1) (block m A) s hs]
  · rfl
  · intro j hj
    simp only [block, if_neg (show ¬ j < m by omega)]

/-- The relative volatility index, for square roots that are positive. -/
theorem never_rvi (hE : SoundEnv E) (hsq : ∀ q, 0 < q → 0 < E.sq q) (n : ℕ) (hc : c.check = .ok (.relativeVolatilityIndex n)) (hn : 2 ≤ n) :
    NeverForgets E c "rvi" := by
  have hq : (0 : ℚ) < n := by exact_mod_cast (by omega : 0 < n)
  have hr : ∀ A : ℚ, ∀ j, 10 ≤ j → risingDeviation E.sq (fun j => if j < 9 then A else 0) j = 0 ∧
      fallingDeviation E.sq (fun j => if j < 9 then A else 0) j = 0 := by
    intro A j hj
    unfold risingDeviation fallingDeviation
    simp only [if_neg (show ¬ j < 9 by omega), if_neg (show ¬ j - 1 < 9 by omega)]
    simp
  have h9 : averagedDeviation E.sq n (fun j => if j < 9 then (-1 : ℚ) else 0) =
      fun i => averagedDeviation E.sq n (fun j => if j < 9 then (-1 : ℚ) else 0) i := rfl
  have hvar : varianceLast 10 (fun j => if j < 9 then (-1 : ℚ) else 0) 9 = 9 / 100 := by
    simp [varianceLast, meanLast, sumLast, Finset.sum_range_succ]
    norm_num
  have hpos : ∀ i, n + 8 ≤ i → averagedDeviation E.sq n (fun j => if j < 9 then (-1 : ℚ) else 0) i ≠ 0 := by
    intro i hi
    unfold averagedDeviation
    rw [wilder_fade n 9 (by omega) _ _ (by omega) fun j h _ => (hr _ j (by omega)).1,
      wilder_fade n 9 (by omega) _ _ (by omega) fun j h _ => (hr _ j (by omega)).2]
    have e1 : risingDeviation E.sq (fun j => if j < 9 then (-1 : ℚ) else 0) 9 = E.sq (9 / 100) := by
      rw [risingDeviation, hvar]; simp
    have e2 : fallingDeviation E.sq (fun j => if j < 9 then (-1 : ℚ) else 0) 9 = 0 := by
      rw [fallingDeviation]; norm_num
    rw [e1, e2]
    have := hsq (9 / 100) (by norm_num)
    have h3 := pow_pos (wilder_rest_pos hn) (i - (9 + n - 1))
    have : 0 < (1 - 1 / (n : ℚ)) ^ (i - (9 + n - 1)) * (E.sq (9 / 100) / n) := by positivity
    rw [zero_div, mul_zero, add_zero]
    exact this.ne'
  have hzero : ∀ i, n + 8 ≤ i → averagedDeviation E.sq n (fun j => if j < 9 then (0 : ℚ) else 0) i = 0 := by
    intro i hi
    unfold averagedDeviation
    rw [wilder_zero n 9 (by omega) _ _ (by omega) fun j _ _ => ?_, wilder_zero n 9 (by omega) _ _ (by omega) fun j _ _ => ?_, add_zero]
    · simp [fallingDeviation]
    · simp [risingDeviation]
  refine neverForgets_nan E c _ hc _ fun k => ⟨k + n + 20, 9, block 9 (-1), block 9 0,
    by simp only [minRows]; omega, by omega, block_agree _ _ _, fun o ho hi => ?_, ?_⟩
  · rw [C60_relative_volatility ho hE n hi _ (by rw [table_length]; omega), since, if_neg (by omega), high, low,
      block_price _ _ _ (by omega) _ high_ohlcv, block_price _ _ _ (by omega) _ low_ohlcv, if_neg]
    · exact ⟨_, rfl⟩
    · rw [or_self]
      exact hpos _ (by omega)
  · intro o ho hi
    rw [C60_relative_volatility ho hE n hi _ (by rw [table_length]; omega), since, if_neg (by omega), high, low,
      block_price _ _ _ (by omega) _ high_ohlcv, if_pos (Or.inl (hzero _ (by omega)))]

theorem close_eq (f : RawFrame) : close f = price f "close" := rfl
theorem volume_eq (f : RawFrame) : volume f = price f "volume" := rfl

/-- All columns of the directional movement index: one move, then nothing. -/
theorem never_dmi (hc : c.check = .ok .directionalMovementIndex) (column : String) (hcol : column ∈ columns .directionalMovementIndex) :
    NeverForgets E c column := by
  have hprice : ∀ A : ℚ, ∀ n s, s ∈ ohlcv → price (table (n + 1) (block 1 A)) s = fun j => if j < 1 then A else 0 :=
    fun A n s hs => block_price 1 A n (by omega) s hs
  have hmove : ∀ A : ℚ, A ≤ 0 → ∀ n j, 1 ≤ j → plusMove (table (n + 1) (block 1 A)) j = (if j = 1 then -A else 0) ∧
      minusMove (table (n + 1) (block 1 A)) j = 0 ∧ trueRange (table (n + 1) (block 1 A)) j = (if j = 1 then -A else 0) := by
    intro A hA n j hj
    simp only [plusMove, minusMove, trueRange, high, low, close_eq, hprice _ _ _ high_ohlcv, hprice _ _ _ low_ohlcv,
      hprice _ _ _ close_ohlcv, if_neg (show ¬ j < 1 by omega), if_neg (show ¬ j = 0 by omega)]
    by_cases h1 : j = 1
    · subst h1
      rcases hA.lt_or_eq with hA | hA
      · simp [hA, hA.le, hA.not_gt]
      · subst hA; simp
    · simp only [if_neg (show ¬ j - 1 < 1 by omega), if_neg h1]
      simp
  have htotal : ∀ g : ℕ → ℚ, ∀ B : ℚ, (∀ j, 1 ≤ j → g j = if j = 1 then B else 0) → ∀ i, 13 ≤ i →
      total14 g i = (13 / 14) ^ (i - 13) * B := by
    intro g B hg i hi
    unfold total14
    induction i, hi using Nat.le_induction with
    | base =>
      rw [running, if_pos (by omega)]
      rw [Finset.sum_congr rfl fun t _ => hg (t + 1) (by omega)]
      simp
    | succ i hi ih =>
      rw [running, if_neg (by omega), ih, hg _ (by omega), if_neg (by omega), show i + 1 - 13 = (i - 13) + 1 by omega]
      ring
  have hnt : ∀ n i, 1 ≤ i → ¬ NoMove (table (n + 1) (block 1 (-1))) i := by
    intro n i hi h
    have := (h 1 hi (le_refl _)).1
    rw [(hmove (-1) (by norm_num) n 1 (le_refl _)).1] at this
    norm_num at this
  have hnm : ∀ n i, NoMove (table (n + 1) (block 1 0)) i := by
    intro n i j _ hj
    obtain ⟨h1, h2, -⟩ := hmove 0 (le_refl _) n j hj
    exact ⟨by rw [h1]; simp, h2⟩
  have hins : ∀ A : ℚ, ∀ n o, BuiltOn E c (table (n + 1) (block 1 A)) true o AnyPrices → o.ind = .directionalMovementIndex →
      BuiltOn E c (table (n + 1) (block 1 A)) true o CloseInside := by
    intro A n o ho hi
    refine ⟨ho.wf, ho.ok, ?_⟩
    exact table_each _ _ _ _ fun j _ => ⟨le_refl _, le_refl _⟩
  refine neverForgets_nan E c _ hc _ fun k => ⟨k + 40, 1, block 1 (-1), block 1 0,
    by simp only [minRows]; omega, by omega, block_agree _ _ _, fun o ho hi => ?_, ?_⟩
  · have hl := C57_directional_lines ho hi (k + 40) (by rw [table_length]; omega)
    have ha := C57_directional_any (hins _ _ o ho hi) hi (k + 40) (by rw [table_length]; omega)
    have ht : total14 (trueRange (table (k + 40 + 1) (block 1 (-1)))) (k + 40) ≠ 0 := by
      rw [htotal _ (-(-1)) (fun j hj => (hmove (-1) (by norm_num) _ j hj).2.2) _ (by omega)]
      positivity
    simp only [columns, List.mem_cons, List.not_mem_nil, or_false] at hcol
    rcases hcol with rfl | rfl | rfl | rfl | rfl
    · rw [hl.1, since, if_neg (by omega), quotient, if_pos ht]; exact ⟨_, rfl⟩
    · rw [hl.2, since, if_neg (by omega), quotient, if_pos ht]; exact ⟨_, rfl⟩
    · rw [ha.1, since, if_neg (by omega), if_neg (hnt _ _ (by omega))]; exact ⟨_, rfl⟩
    · rw [ha.2.1, since, if_neg (by omega), if_neg (fun h => hnt _ _ (by omega) h.2)]; exact ⟨_, rfl⟩
    · rw [ha.2.2, since, if_neg (by omega), if_neg (hnt _ _ (by omega))]; exact ⟨_, rfl⟩
  · intro o ho hi
    have hl := C57_directional_lines ho hi (k + 40) (by rw [table_length]; omega)
    have ha := C57_directional_any (hins _ _ o ho hi) hi (k + 40) (by rw [table_length]; omega)
    have t1 : total14 (trueRange (table (k + 40 + 1) (block 1 0))) (k + 40) = 0 := by
      rw [htotal _ (-0) (fun j hj => (hmove 0 (le_refl _) _ j hj).2.2) _ (by omega)]; simp
    have t2 : total14 (plusMove (table (k + 40 + 1) (block 1 0))) (k + 40) = 0 := by
      rw [htotal _ (-0) (fun j hj => (hmove 0 (le_refl _) _ j hj).1) _ (by omega)]; simp
    have t3 : total14 (minusMove (table (k + 40 + 1) (block 1 0))) (k + 40) = 0 := by
      rw [htotal _ 0 (fun j hj => by rw [(hmove 0 (le_refl _) _ j hj).2.1]; simp) _ (by omega)]; simp
    simp only [columns, List.mem_cons, List.not_mem_nil, or_false] at hcol
    rcases hcol with rfl | rfl | rfl | rfl | rfl
    · rw [hl.1, since, if_neg (by omega), t1, t2]; simp [quotient, round4, Val.round]
    · rw [hl.2, since, if_neg (by omega), t1, t3]; simp [quotient, round4, Val.round]
    · rw [ha.1, since, if_neg (by omega), if_pos (hnm _ _)]
    · rw [ha.2.1, since, if_neg (by omega), if_pos ⟨by omega, hnm _ _⟩]
    · rw [ha.2.2, since, if_neg (by omega), if_pos (hnm _ _)]

/-- The stochastic momentum index: a first day with a range, then nothing. -/
theorem never_smi (n s d : ℕ) (hc : c.check = .ok (.stochasticMomentumIndex n s d)) (hn : 1 ≤ n) (hs : 1 ≤ s) (hd : 1 ≤ d)
    (h2 : 2 ≤ s ∨ 2 ≤ d) : NeverForgets E c "smi" := by
  have hh : ∀ A : ℚ, ∀ N j, 0 ≤ A → n - 1 ≤ j → rangeHeight (table (N + 1) (pulse "high" A)) n j = if j = n - 1 then A else 0 := by
    intro A N j hA hj
    have hlow : lowest n (fun _ => (0 : ℚ)) j = 0 := by
      obtain ⟨-, t, -, h⟩ := Nums.lowest_spec n hn (fun _ => (0 : ℚ)) j
      exact h
    rw [rangeHeight, high_pulse, low_high_pulse, hlow, sub_zero]
    obtain ⟨h1, t, ht, h⟩ := Nums.highest_spec n hn (spike A) j
    split
    · next he =>
      refine le_antisymm ?_ ?_
      · rw [h, spike]; split <;> linarith
      · have := h1 (n - 1) (by omega)
        rwa [he, Nat.sub_self, spike_zero, ← he] at this
    · rw [h, spike_later _ (by omega)]
  have hz : ∀ N j, n - 1 ≤ j → rangeHeight (table (N + 1) (pulse "high" 0)) n j = 0 := by
    intro N j hj
    rw [hh 0 N j (le_refl _) hj]; simp
  refine neverForgets_nan E c _ hc _ fun k => ⟨k + n + s + d, 1, pulse "high" 1, pulse "high" 0,
    by simp only [minRows]; omega, by omega, pulse_agree _ _ _, fun o ho hi => ?_, ?_⟩
  · rw [C55_stochastic_momentum ho n s d hi _ (by rw [table_length]; omega), since, if_neg (by omega), quotient, if_pos]
    · exact ⟨_, rfl⟩
    · have hin : ∀ j, n - 1 ≤ j → ema s (n - 1) (rangeHeight (table (k + n + s + d + 1) (pulse "high" 1)) n) j =
          (1 - 2 / ((s : ℚ) + 1)) ^ (j - (n - 1)) := by
        intro j hj
        rw [ema_fade s (n - 1) _ j hj fun i h1 h2 => ?_, hh 1 _ _ (by norm_num) (le_refl _), if_pos rfl, mul_one]
        rw [hh 1 _ _ (by norm_num) (by omega), if_neg (by omega)]
      have : ema d (n + s - 2) (ema s (n - 1) (rangeHeight (table (k + n + s + d + 1) (pulse "high" 1)) n)) (k + n + s + d) ≠ 0 := by
        by_cases h : 2 ≤ s
        · have hr := rest_pos h
          have hr1 : 1 - 2 / ((s : ℚ) + 1) ≤ 1 := by linarith [(weight_range hs).1]
          have := smoothed_above (weight_range hd).1.le (weight_range hd).2 (n + s - 2)
            (ema s (n - 1) (rangeHeight (table (k + n + s + d + 1) (pulse "high" 1)) n) (n + s - 2))
            (ema s (n - 1) (rangeHeight (table (k + n + s + d + 1) (pulse "high" 1)) n)) (k + n + s + d) (by omega)
            (M := (1 - 2 / ((s : ℚ) + 1)) ^ (k + n + s + d)) (by
              rw [hin _ (by omega)]
              exact pow_le_pow_of_le_one hr.le hr1 (by omega))
            (fun j h1 h2 => by
              rw [hin _ (by omega)]
              exact pow_le_pow_of_le_one hr.le hr1 (by omega))
          exact (lt_of_lt_of_le (pow_pos hr _) this).ne'
        · have hs1 : s = 1 := by omega
          subst hs1
          rw [ema_fade d (n + 1 - 2) _ _ (by omega) fun j h1 h2 => ?_]
          · rw [hin _ (by omega), show n + 1 - 2 - (n - 1) = 0 by omega, pow_zero, mul_one]
            exact (pow_pos (rest_pos (by omega)) _).ne'
          · rw [hin _ (by omega), show j - (n - 1) = (j - n) + 1 by omega]
            norm_num
      exact div_ne_zero this (by norm_num)
  · intro o ho hi
    have e1 : ∀ j, n + s - 2 ≤ j → ema s (n - 1) (rangeHeight (table (k + n + s + d + 1) (pulse "high" 0)) n) j = 0 := by
      intro j hj
      exact ema_zero _ _ _ _ (by omega) fun i h1 _ => hz _ i h1
    have e2 : ∀ j, n - 1 ≤ j → close (table (k + n + s + d + 1) (pulse "high" 0)) j -
        (highest n (high (table (k + n + s + d + 1) (pulse "high" 0))) j + lowest n (low (table (k + n + s + d + 1) (pulse "high" 0))) j) / 2
        = 0 := by
      intro j hj
      obtain ⟨-, t, -, h⟩ := Nums.lowest_spec n hn (fun _ => (0 : ℚ)) j
      obtain ⟨-, t', -, h'⟩ := Nums.highest_spec n hn (spike 0) j
      rw [close_high_pulse, high_pulse, low_high_pulse, h, h', spike_none]
      norm_num
    rw [C55_stochastic_momentum ho n s d hi _ (by rw [table_length]; omega), since, if_neg (by omega),
      ema_zero d (n + s - 2) _ _ (by omega) fun j h1 _ => ema_zero s (n - 1) _ j (by omega) fun i h3 _ => e2 i h3,
      ema_zero d (n + s - 2) _ _ (by omega) fun j h1 _ => e1 j h1]
    simp [quotient, round4, Val.round]

end TTI.Past
