import Verif.Lemmas.Unlimited3

set_option autoImplicit false

/-!
# Running totals and extremes that never forget (C68)
-/

namespace TTI.Past

open Spec Props

variable (E : Env) (c : Call)

/-- Numbers of one's own on day 0, later the same ones. -/
def first (x y : String → ℚ) (s : String) (j : ℕ) : ℚ := if j = 0 then x s else y s

theorem first_agree (x x' y : String → ℚ) : ∀ s j, 1 ≤ j → first x y s j = first x' y s j := by
  intro s j hj
  simp only [first, if_neg (show ¬ j = 0 by omega)]

theorem first_price (x y : String → ℚ) (n : ℕ) (s : String) (hs : s ∈ ohlcv) (j : ℕ) (hj : j ≤ n) :
    price (table (n + 1) (first x y)) s j = if j = 0 then x s else y s := by
  rw [table_price (n + 1) (first x y) s hs j (by omega)]
  rfl

theorem first_close (x y : String → ℚ) (n j : ℕ) (hj : j ≤ n) :
    close (table (n + 1) (first x y)) j = if j = 0 then x "close" else y "close" := first_price x y n _ close_ohlcv j hj

theorem first_volume (x y : String → ℚ) (n j : ℕ) (hj : j ≤ n) :
    volume (table (n + 1) (first x y)) j = if j = 0 then x "volume" else y "volume" := first_price x y n _ volume_ohlcv j hj

/-- The volume `v` on day 0 and `w` later, the close `a` on day 0 and 2 later. -/
def closes (a v : ℚ) (s : String) : ℚ := if s = "volume" then v else a

theorem closes_nonzero (a v w : ℚ) (ha : a ≠ 0) (n : ℕ) (ind : Ind) :
    (table (n + 1) (first (closes a v) (closes 2 w))).EachRow ind.required NonzeroClose := by
  refine table_each _ _ _ _ fun j _ => ?_
  show first (closes a v) (closes 2 w) "close" j ≠ 0
  unfold first
  split
  · simpa [closes] using ha
  · simp [closes]

theorem never_pvt (hc : c.check = .ok .priceAndVolumeTrend) : NeverForgets E c "pvt" := by
  have hv : ∀ a : ℚ, a ≠ 0 → ∀ n, Shows E c .priceAndVolumeTrend "pvt" (n + 1) (first (closes a 1) (closes 2 1)) (to4 ((2 - a) / a)) := by
    intro a ha n o ho hi
    rw [C43_price_and_volume_trend E c _ true o ho.wf ho.ok (closes_nonzero _ _ _ ha _ _) hi _ (by rw [table_length]; omega), to4]
    congr 2
    rw [Finset.sum_eq_single 1]
    · rw [first_volume _ _ _ _ (by omega), first_close _ _ _ _ (by omega), first_close _ _ _ _ (by omega)]
      simp [closes]
    · intro j hj hne
      rw [Finset.mem_Ico] at hj
      rw [first_close _ _ _ _ (by omega), first_close _ _ _ _ (by omega), if_neg (by omega), if_neg (by omega)]
      simp
    · intro h
      exact absurd (Finset.mem_Ico.2 ⟨le_refl _, by omega⟩) h
  refine neverForgets E c _ hc _ fun k => ⟨k + 1, 1, first (closes 1 1) (closes 2 1), first (closes 2 1) (closes 2 1), _, _,
    by simp only [minRows]; omega, by omega, first_agree _ _ _, ?_, hv 1 (by norm_num) k, hv 2 (by norm_num) k⟩
  decide +kernel

theorem never_nvi (hc : c.check = .ok .negativeVolumeIndex) : NeverForgets E c "nvi" := by
  have hv : ∀ a : ℚ, a ≠ 0 → ∀ n, Shows E c .negativeVolumeIndex "nvi" (n + 1) (first (closes a 2) (closes 2 1)) (to4 (1000 * (2 / a))) := by
    intro a ha n o ho hi
    rw [C43_negative_volume_index E c _ true o ho.wf ho.ok (closes_nonzero _ _ _ ha _ _) hi _ (by rw [table_length]; omega), to4]
    congr 3
    have : volumeFell (table (n + 1 + 1) (first (closes a 2) (closes 2 1))) (n + 1) = {1} := by
      ext j
      simp only [volumeFell, Finset.mem_filter, Finset.mem_Ico, Finset.mem_singleton]
      constructor
      · rintro ⟨⟨h1, h2⟩, h3⟩
        by_contra hne
        rw [first_volume _ _ _ _ (by omega), first_volume _ _ _ _ (by omega), if_neg (by omega), if_neg (by omega)] at h3
        exact lt_irrefl _ h3
      · rintro rfl
        refine ⟨by omega, ?_⟩
        rw [first_volume _ _ _ _ (by omega), first_volume _ _ _ _ (by omega)]
        simp [closes]
    rw [this, Finset.prod_singleton, first_close _ _ _ _ (by omega), first_close _ _ _ _ (by omega)]
    simp [closes]
  refine neverForgets E c _ hc _ fun k => ⟨k + 1, 1, first (closes 1 2) (closes 2 1), first (closes 2 2) (closes 2 1), _, _,
    by simp only [minRows]; omega, by omega, first_agree _ _ _, ?_, hv 1 (by norm_num) k, hv 2 (by norm_num) k⟩
  decide +kernel

theorem never_pvi (hc : c.check = .ok .positiveVolumeIndex) : NeverForgets E c "pvi" := by
  have hv : ∀ a : ℚ, a ≠ 0 → ∀ n, Shows E c .positiveVolumeIndex "pvi" (n + 1) (first (closes a 1) (closes 2 2)) (to4 (1000 * (2 / a))) := by
    intro a ha n o ho hi
    rw [C43_positive_volume_index E c _ true o ho.wf ho.ok (closes_nonzero _ _ _ ha _ _) hi _ (by rw [table_length]; omega), to4]
    congr 3
    have : volumeRose (table (n + 1 + 1) (first (closes a 1) (closes 2 2))) (n + 1) = {1} := by
      ext j
      simp only [volumeRose, Finset.mem_filter, Finset.mem_Ico, Finset.mem_singleton]
      constructor
      · rintro ⟨⟨h1, h2⟩, h3⟩
        by_contra hne
        rw [first_volume _ _ _ _ (by omega), first_volume _ _ _ _ (by omega), if_neg (by omega), if_neg (by omega)] at h3
        exact lt_irrefl _ h3
      · rintro rfl
        refine ⟨by omega, ?_⟩
        rw [first_volume _ _ _ _ (by omega), first_volume _ _ _ _ (by omega)]
        simp [closes]
    rw [this, Finset.prod_singleton, first_close _ _ _ _ (by omega), first_close _ _ _ _ (by omega)]
    simp [closes]
  refine neverForgets E c _ hc _ fun k => ⟨k + 1, 1, first (closes 1 1) (closes 2 2), first (closes 2 1) (closes 2 2), _, _,
    by simp only [minRows]; omega, by omega, first_agree _ _ _, ?_, hv 1 (by norm_num) k, hv 2 (by norm_num) k⟩
  decide +kernel

theorem never_obv (hc : c.check = .ok .onBalanceVolume) : NeverForgets E c "obv" := by
  have hfell : ∀ a : ℚ, a ≤ 2 → ∀ n, closeFell (table (n + 1 + 1) (first (closes a 1) (closes 2 1))) (n + 1) = ∅ := by
    intro a ha n
    rw [closeFell, Finset.filter_eq_empty_iff]
    intro j hj
    rw [Finset.mem_Ico] at hj
    rw [first_close _ _ _ _ (by omega), first_close _ _ _ _ (by omega), if_neg (by omega)]
    split <;> simp [closes, ha]
  have h1 : ∀ n, closeRose (table (n + 1 + 1) (first (closes 1 1) (closes 2 1))) (n + 1) = {1} := by
    intro n
    ext j
    simp only [closeRose, Finset.mem_filter, Finset.mem_Ico, Finset.mem_singleton]
    constructor
    · rintro ⟨⟨h1, h2⟩, h3⟩
      by_contra hne
      rw [first_close _ _ _ _ (by omega), first_close _ _ _ _ (by omega), if_neg (by omega), if_neg (by omega)] at h3
      exact lt_irrefl _ h3
    · rintro rfl
      refine ⟨by omega, ?_⟩
      rw [first_close _ _ _ _ (by omega), first_close _ _ _ _ (by omega)]
      simp [closes]
  have h2 : ∀ n, closeRose (table (n + 1 + 1) (first (closes 2 1) (closes 2 1))) (n + 1) = ∅ := by
    intro n
    rw [closeRose, Finset.filter_eq_empty_iff]
    intro j hj
    rw [Finset.mem_Ico] at hj
    rw [first_close _ _ _ _ (by omega), first_close _ _ _ _ (by omega), if_neg (show ¬ j = 0 by omega)]
    split <;> simp [closes]
  refine neverForgets_of E c _ hc _ fun k => ⟨k + 1, 1, first (closes 1 1) (closes 2 1), first (closes 2 1) (closes 2 1),
    by simp only [minRows]; omega, by omega, first_agree _ _ _, fun o p ho hoi hp hpi => ?_⟩
  rw [C43_on_balance_volume E c _ true o ho.wf ho.ok ho.rows hoi _ (by rw [table_length]; omega),
    C43_on_balance_volume E c _ true p hp.wf hp.ok hp.rows hpi _ (by rw [table_length]; omega), h1, h2, hfell 1 (by norm_num),
    hfell 2 (by norm_num), Finset.sum_singleton, first_volume _ _ _ _ (by omega)]
  simp [closes]

theorem never_performance (long : Bool) (target : Val) (hc : c.check = .ok (.performance long target)) : NeverForgets E c "prf" := by
  have hv : ∀ a : ℚ, a ≠ 0 → ∀ n, Shows E c (.performance long target) "prf" (n + 1) (first (closes a 1) (closes 2 1)) (to4 ((2 - a) / a)) := by
    intro a ha n o ho hi
    rw [(C53_performance ho long target hi _ (by rw [table_length]; omega)).1, first_close _ _ _ _ (by omega),
      first_close _ _ _ _ (by omega)]
    simp [closes, quotient, ha, to4, round4, Val.round]
  refine neverForgets E c _ hc _ fun k => ⟨k + 1, 1, first (closes 1 1) (closes 2 1), first (closes 2 1) (closes 2 1), _, _,
    by simp only [minRows]; omega, by omega, first_agree _ _ _, ?_, hv 1 (by norm_num) k, hv 2 (by norm_num) k⟩
  decide +kernel

/-- Highs 1, lows -1, and the close `a`: the flow is `a` times the volume. -/
def flows (a : ℕ → ℚ) (s : String) (j : ℕ) : ℚ := if s = "close" then a j else if s = "low" then -1 else 1

theorem flows_flow (a : ℕ → ℚ) (n j : ℕ) (hj : j ≤ n) : flow (table (n + 1) (flows a)) j = a j := by
  rw [flow, close_eq, volume_eq, high, low, table_price _ _ _ close_ohlcv _ (by omega), table_price _ _ _ low_ohlcv _ (by omega),
    table_price _ _ _ high_ohlcv _ (by omega), table_price _ _ _ volume_ohlcv _ (by omega)]
  simp [flows]
  ring

theorem flows_height (a : ℕ → ℚ) (n j : ℕ) (hj : j < (table (n + 1) (flows a)).idx.length) :
    high (table (n + 1) (flows a)) j ≠ low (table (n + 1) (flows a)) j := by
  rw [table_length] at hj
  rw [high, low, table_price _ _ _ high_ohlcv _ hj, table_price _ _ _ low_ohlcv _ hj]
  simp [flows]
  norm_num

theorem truncated_nat (m : ℕ) : truncated (m : ℚ) = m := by
  rw [truncated, if_pos (by positivity)]
  simp

theorem flows_line (a : ℕ → ℚ) (n j m : ℕ) (hj : j ≤ n) (h : ∑ i ∈ Finset.range (j + 1), a i = m) :
    flowLine (table (n + 1) (flows a)) j = m := by
  rw [flowLine, Finset.sum_congr rfl fun i hi => flows_flow a n i (by rw [Finset.mem_range] at hi; omega), h, truncated_nat]

theorem sum_spike (A : ℚ) (n : ℕ) : ∑ i ∈ Finset.range (n + 1), spike A i = A := by
  rw [Finset.sum_eq_single 0]
  · rfl
  · intro i _ hi
    exact spike_later A (by omega)
  · simp

theorem flows_agree (d : ℕ) (a b : ℕ → ℚ) (h : ∀ j, d ≤ j → a j = b j) : ∀ s j, d ≤ j → flows a s j = flows b s j := by
  intro s j hj
  simp only [flows, h j hj]

theorem never_adl (hc : c.check = .ok .accumulationDistributionLine) : NeverForgets E c "adl" := by
  refine neverForgets E c _ hc _ fun k => ⟨k + 1, 1, flows (spike 1), flows (spike 0), .fin (1 : ℕ), .fin (0 : ℕ),
    by simp only [minRows]; omega, by omega, flows_agree _ _ _ fun j hj => by rw [spike_later _ hj, spike_later _ hj], by simp, ?_, ?_⟩
  · intro o ho hi
    rw [C59_accumulation_distribution ho hi (flows_height _ _) _ (by rw [table_length]; omega),
      flows_line _ _ _ 1 (le_refl _) (by rw [sum_spike]; norm_num)]
  · intro o ho hi
    rw [C59_accumulation_distribution ho hi (flows_height _ _) _ (by rw [table_length]; omega),
      flows_line _ _ _ 0 (le_refl _) (by rw [sum_spike]; norm_num)]

/-- The same money flowing in on the first or on the second day. -/
theorem never_chaikin (hc : c.check = .ok .chaikinOscillator) : NeverForgets E c "co" := by
  have hconst : ∀ n N i : ℕ, ∀ g : ℕ → ℚ, ∀ A : ℚ, (∀ j ≤ i, g j = A) → i ≤ N → ema n 0 g i = A := by
    intro n N i g A hg hi
    have e : ema n 0 g i - 0 = (1 - 2 / ((n : ℚ) + 1)) ^ i * 0 + A := by
      have : ∀ j ≤ i, ema n 0 g j = A := by
        intro j
        induction j with
        | zero => intro _; exact hg 0 (by omega)
        | succ j ih =>
          intro hj
          rw [ema, Nums.smoothed_next _ _ _ _ _ (Nat.zero_le _)]
          have := ih (by omega)
          rw [ema] at this
          rw [this, hg _ hj]
          ring
      rw [this i (le_refl _)]; ring
    simpa using e
  let A : ℕ → ℕ := fun k => 22 ^ (k + 10)
  have hsecond : ∀ n i : ℕ, ∀ g : ℕ → ℚ, ∀ B : ℚ, g 0 = 0 → (∀ j ≤ i, 1 ≤ j → g j = B) →
      ema n 0 g i = B - (1 - 2 / ((n : ℚ) + 1)) ^ i * B := by
    intro n i g B h0 hg
    have : ∀ j ≤ i, ema n 0 g j = B - (1 - 2 / ((n : ℚ) + 1)) ^ j * B := by
      intro j
      induction j with
      | zero => intro _; rw [ema, Nums.smoothed_start _ _ _ _ _ (le_refl _), h0]; ring
      | succ j ih =>
        intro hj
        have ih := ih (by omega)
        rw [ema] at ih
        rw [ema, Nums.smoothed_next _ _ _ _ _ (Nat.zero_le _), ih, hg _ hj (by omega)]
        ring
    exact this i (le_refl _)
  refine neverForgets E c _ hc _ fun k => ⟨k + 10, 2, flows (spike (A k : ℕ)), flows (fun j => spike (A k : ℕ) (j - 1) - spike (A k : ℕ) j),
    to4 0, to4 ((18 ^ (k + 10) - 11 ^ (k + 10) : ℤ) : ℚ),
    by simp only [minRows]; omega, by omega, flows_agree _ _ _ fun j hj => ?_, ?_, ?_, ?_⟩
  · rw [spike_later _ (by omega), spike_later _ (by omega)]; simp
  · simp only [to4, roundQ_intCast, roundQ_zero, ne_eq, Val.fin.injEq]
    intro h
    have h2 : (11 : ℤ) ^ (k + 10) < 18 ^ (k + 10) := pow_lt_pow_left₀ (by norm_num) (by norm_num) (by omega)
    have h3 : (0 : ℤ) = 18 ^ (k + 10) - 11 ^ (k + 10) := by exact_mod_cast h
    omega
  · intro o ho hi
    have hl : ∀ j ≤ k + 10, flowLine (table (k + 10 + 1) (flows (spike (A k : ℕ)))) j = (A k : ℕ) :=
      fun j hj => flows_line _ _ _ _ hj (sum_spike _ _)
    rw [C59_chaikin_oscillator ho hi (flows_height _ _) _ (by rw [table_length]; omega), since, if_neg (by omega),
      hconst 3 _ _ _ _ hl (le_refl _), hconst 10 _ _ _ _ hl (le_refl _), sub_self]
  · intro o ho hi
    have hsum : ∀ j, ∑ i ∈ Finset.range (j + 1), (spike (A k : ℕ) (i - 1) - spike (A k : ℕ) i) = if j = 0 then 0 else ((A k : ℕ) : ℚ) := by
      intro j
      induction j with
      | zero => simp
      | succ j ih =>
        rw [Finset.sum_range_succ, ih, if_neg (show ¬ j + 1 = 0 by omega), spike_later _ (show 1 ≤ j + 1 by omega), Nat.add_sub_cancel]
        by_cases h : j = 0
        · subst h; simp
        · rw [if_neg h, spike_later _ (by omega)]; simp
    have hl : ∀ j ≤ k + 10, flowLine (table (k + 10 + 1) (flows fun j => spike (A k : ℕ) (j - 1) - spike (A k : ℕ) j)) j =
        ((if j = 0 then 0 else A k : ℕ) : ℚ) := by
      intro j hj
      refine flows_line _ _ _ _ hj ?_
      rw [hsum]
      split <;> simp
    rw [C59_chaikin_oscillator ho hi (flows_height _ _) _ (by rw [table_length]; omega), since, if_neg (by omega),
      hsecond 3 _ _ (A k : ℕ) (by rw [hl _ (by omega)]; simp) fun j hj h1 => by rw [hl _ hj, if_neg (by omega)],
      hsecond 10 _ _ (A k : ℕ) (by rw [hl _ (by omega)]; simp) fun j hj h1 => by rw [hl _ hj, if_neg (by omega)]]
    congr 1
    have e3 : (1 - 2 / (((3 : ℕ) : ℚ) + 1)) = 11 / 22 := by norm_num
    have e10 : (1 - 2 / (((10 : ℕ) : ℚ) + 1)) = 18 / 22 := by norm_num
    rw [e3, e10]
    simp only [A]
    push_cast
    rw [div_pow, div_pow]
    have : (22 : ℚ) ^ (k + 10) ≠ 0 := by positivity
    field_simp
    ring

/-- The highest and the lowest close may be the first ones. -/
theorem never_fibonacci (hc : c.check = .ok .fibonacciRetracement) (column : String) (hcol : column ∈ columns .fibonacciRetracement) :
    NeverForgets E c column := by
  let x : ℚ → ℚ → String → ℕ → ℚ := fun a b _ j => if j = 0 then a else if j = 1 then b else 0
  have hx : ∀ a b : ℚ, ∀ n j, j ≤ n → close (table (n + 1) (x a b)) j = if j = 0 then a else if j = 1 then b else 0 :=
    fun a b n j hj => table_price _ _ _ close_ohlcv _ (by omega)
  have hext : ∀ a b : ℚ, 0 ≤ a → b ≤ 0 → ∀ n, 2 ≤ n → highest (n + 1) (close (table (n + 1) (x a b))) n = a ∧
      lowest (n + 1) (close (table (n + 1) (x a b))) n = b := by
    intro a b ha hb n hn
    obtain ⟨h1, t, ht, h2⟩ := Nums.highest_spec (n + 1) (by omega) (close (table (n + 1) (x a b))) n
    obtain ⟨l1, u, hu, l2⟩ := Nums.lowest_spec (n + 1) (by omega) (close (table (n + 1) (x a b))) n
    constructor
    · refine le_antisymm ?_ ?_
      · rw [h2, hx _ _ _ _ (by omega)]
        split
        · exact le_refl _
        · split <;> linarith
      · have := h1 n (by omega)
        rwa [hx _ _ _ _ (by omega), Nat.sub_self, if_pos rfl] at this
    · refine le_antisymm ?_ ?_
      · have := l1 (n - 1) (by omega)
        rwa [hx _ _ _ _ (by omega), show n - (n - 1) = 1 by omega, if_neg (by omega), if_pos rfl] at this
      · rw [l2, hx _ _ _ _ (by omega)]
        split
        · linarith
        · split <;> linarith
  obtain ⟨level, hlev, hne⟩ : ∃ level : ℚ, (column, level) ∈ [("rl_0.0", (0 : ℚ)), ("rl_23.6", 236 / 1000), ("rl_38.2", 382 / 1000),
      ("rl_50.0", 1 / 2), ("rl_61.8", 618 / 1000), ("rl_100.0", 1)] ∧ to4 (4 - level * (4 - -2)) ≠ to4 (0 - level * (0 - 0)) := by
    simp only [columns, List.mem_cons, List.not_mem_nil, or_false] at hcol
    rcases hcol with rfl | rfl | rfl | rfl | rfl | rfl
    · exact ⟨0, by simp, by decide +kernel⟩
    · exact ⟨236 / 1000, by simp, by decide +kernel⟩
    · exact ⟨382 / 1000, by simp, by decide +kernel⟩
    · exact ⟨1 / 2, by simp, by decide +kernel⟩
    · exact ⟨618 / 1000, by simp, by decide +kernel⟩
    · exact ⟨1, by simp, by decide +kernel⟩
  refine neverForgets E c _ hc _ fun k => ⟨k + 2, 2, x 4 (-2), x 0 0, _, _, by simp only [minRows]; omega, by omega,
    fun s j hj => ?_, hne, ?_, ?_⟩
  · simp only [x, if_neg (show ¬ j = 0 by omega), if_neg (show ¬ j = 1 by omega)]
  · intro o ho hi
    rw [C54_fibonacci ho hi _ (by rw [table_length]; omega) column level hlev, table_length, Nat.add_sub_cancel,
      (hext 4 (-2) (by norm_num) (by norm_num) _ (by omega)).1, (hext 4 (-2) (by norm_num) (by norm_num) _ (by omega)).2]
  · intro o ho hi
    rw [C54_fibonacci ho hi _ (by rw [table_length]; omega) column level hlev, table_length, Nat.add_sub_cancel,
      (hext 0 0 (le_refl _) (le_refl _) _ (by omega)).1, (hext 0 0 (le_refl _) (le_refl _) _ (by omega)).2]

/-- Lows 1 and highs 2: the stop is below the low or above the high, by the first high. -/
theorem never_sar (hc : c.check = .ok .parabolicSAR) : NeverForgets E c "sar" := by
  let y : ℚ → String → ℚ := fun a s => if s = "high" then a else 1
  have hlow : ∀ a : ℚ, ∀ n j, j ≤ n → price (table (n + 1) (first (y a) (y 2))) "low" j = 1 := by
    intro a n j hj
    rw [first_price _ _ _ _ low_ohlcv _ hj]
    simp [y]
  have hhigh : ∀ a : ℚ, ∀ n j, j ≤ n → price (table (n + 1) (first (y a) (y 2))) "high" j = if j = 0 then a else 2 := by
    intro a n j hj
    rw [first_price _ _ _ _ high_ohlcv _ hj]
    simp [y]
  have hnum : ∀ a : ℚ, 1 ≤ a → a ≤ 3 → ∀ n o, BuiltOn E c (table (n + 1) (first (y a) (y 2))) true o AnyPrices → o.ind = .parabolicSAR →
      ∃ q, o.getTiData.day "sar" n = .fin q := by
    intro a h1 h3 n o ho hi
    obtain ⟨q, hq, -⟩ := C51_sar_inside E c _ true o ho.wf ho.ok (table_each _ _ _ _ fun j _ => by
        simp only [first, y]
        split <;> simp <;> linarith) hi n (by rw [table_length]; omega) 1 3 (fun j hj => by
        have e1 : lowOf (table (n + 1) (first (y a) (y 2))) j = 1 := hlow a n j hj
        have e2 : highOf (table (n + 1) (first (y a) (y 2))) j = if j = 0 then a else 2 := hhigh a n j hj
        rw [e1, e2]
        refine ⟨le_refl _, ?_⟩
        split <;> linarith)
    exact ⟨q, hq⟩
  refine neverForgets_of E c _ hc _ fun k => ⟨k + 1, 1, first (y 1) (y 2), first (y 3) (y 2),
    by simp only [minRows]; omega, by omega, first_agree _ _ _, fun o p ho hoi hp hpi => ?_⟩
  have h1 := (C101_parabolic_sar ho hoi (k + 1) (by rw [table_length]; omega)).1
    (by rw [high, hhigh _ _ _ (by omega), hhigh _ _ _ (by omega)]; norm_num)
    (fun j hj => by rw [table_length] at hj; rw [hlow _ _ _ (by omega), hlow _ _ _ (by omega)])
  have h2 := (C101_parabolic_sar hp hpi (k + 1) (by rw [table_length]; omega)).2
    (by rw [high, hhigh _ _ _ (by omega), hhigh _ _ _ (by omega)]; norm_num)
    (fun j hj => by
      rw [table_length] at hj
      rw [hhigh _ _ _ (by omega), hhigh _ _ _ (by omega), if_neg (by omega)]
      split <;> norm_num)
  obtain ⟨q, hq⟩ := hnum 1 (by norm_num) (by norm_num) _ o ho hoi
  obtain ⟨r, hr⟩ := hnum 3 (by norm_num) (by norm_num) _ p hp hpi
  rw [low, hlow _ _ _ (by omega), hq] at h1
  rw [high, hhigh _ _ _ (by omega), if_neg (by omega), hr] at h2
  rw [hq, hr]
  intro h
  rw [Val.fin.injEq] at h
  subst h
  simp [NotAbove, to4, Val.le] at h1 h2
  have : roundQ 4 2 = 2 := by exact_mod_cast roundQ_natCast 4 2
  linarith

end TTI.Past
