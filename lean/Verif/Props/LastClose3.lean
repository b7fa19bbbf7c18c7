import Verif.Props.LastClose2
import Verif.Props.WarmUp

set_option autoImplicit false

/-!
# What a higher last close does to the signal: the other oscillators (C106)
-/

namespace TTI.Props

open Spec LastClose

variable {E : Env} {c : Call} {f g : RawFrame} {fill : Bool} {o p : Obj}

theorem wilder_nonneg (n m : ℕ) (hn : 1 ≤ n) (u : ℕ → ℚ) (hu : ∀ j, 0 ≤ u j) (i : ℕ) : 0 ≤ wilderAverage n m u i := by
  have q0 : (1 : ℚ) ≤ n := by exact_mod_cast hn
  have seed : 0 ≤ meanLast n u (m + n - 1) := div_nonneg (Finset.sum_nonneg fun _ _ => hu _) (by linarith)
  unfold wilderAverage
  induction i with
  | zero => exact seed
  | succ i ih =>
    simp only [smoothed]
    split
    · exact seed
    · set b := smoothed (1 / (n : ℚ)) (m + n - 1) (meanLast n u (m + n - 1)) u i
      have : b + 1 / n * (u (i + 1) - b) = (b * (n - 1) + u (i + 1)) / n := by field_simp; ring
      rw [this]
      exact div_nonneg (add_nonneg (mul_nonneg ih (by linarith)) (hu _)) (by linarith)

theorem wilder_exact {L : ℕ} (n m : ℕ) (hn : 1 ≤ n) (u v : ℕ → ℚ) (hs : ∀ j, m ≤ j → j < L → v j = u j) (hL : m + n - 1 ≤ L) :
    wilderAverage n m v L = wilderAverage n m u L + (v L - u L) / n := by
  unfold wilderAverage
  have hm : m + n - 1 < L → meanLast n v (m + n - 1) = meanLast n u (m + n - 1) := fun hl => by
    unfold meanLast
    rw [sum_same hs n _ (by omega) hl]
  rcases Nat.lt_or_ge (m + n - 1) L with hl | hl
  · rw [smoothed_last (hm hl) (fun j a b => hs j (by omega) b) hl]
    ring
  · obtain rfl : L = m + n - 1 := by omega
    rw [smoothed_seed _ _ _ _ _ le_rfl, smoothed_seed _ _ _ _ _ le_rfl]
    unfold meanLast
    rw [sum_last hs n hn (by omega)]
    ring

theorem last_wilder_one (m : ℕ) (u : ℕ → ℚ) (i : ℕ) (hi : m ≤ i) : wilderAverage 1 m u i = u i := by
  have := LastClose.ema_one m u i hi
  unfold Spec.ema at this
  unfold wilderAverage
  norm_num [meanLast, sumLast] at this ⊢
  exact this

theorem wilder_step (n m : ℕ) (u : ℕ → ℚ) (i : ℕ) (hi : m + n - 1 < i + 1) :
    wilderAverage n m u (i + 1) = wilderAverage n m u i + 1 / n * (u (i + 1) - wilderAverage n m u i) := by
  unfold wilderAverage
  simp only [smoothed]
  rw [if_neg (by omega)]

/-- Wilder's average of numbers of which only the last one changes. -/
theorem wilder_facts {L : ℕ} (n m : ℕ) (hn : 1 ≤ n) (u v : ℕ → ℚ) (hs : ∀ j, m ≤ j → j < L → v j = u j) :
    (∀ i, m + n - 1 ≤ i → i < L → wilderAverage n m v i = wilderAverage n m u i) ∧
    (m + n - 1 ≤ L → wilderAverage n m v L = wilderAverage n m u L + (v L - u L) / n) := by
  rcases le_total (u L) (v L) with hl | hl
  all_goals refine ⟨fun i hi hiL => ?_, fun hL => ?_⟩
  · exact (Lift.wilder (L := L) (d := v L - u L) ⟨hs, hl, by linarith⟩ n hn (by omega)).same i hi hiL
  · exact wilder_exact n m hn u v hs hL
  · exact ((Lift.wilder (L := L) (u := v) (v := u) (d := u L - v L) ⟨fun j a b => (hs j a b).symm, hl, by linarith⟩ n hn (by omega)).same i hi hiL).symm
  · exact wilder_exact n m hn u v hs hL

/-- The forecast oscillator on every day. -/
theorem last_forecast_since (hB : BuiltOn E c f fill o AnyPrices) (n : ℕ) (hi : o.ind = .forecastOscillator n) (i : ℕ) (hl : i < f.idx.length) :
    o.getTiData.day "fosc" i = since n i (round4 (quotient (100 * (close f i - (roundQ 4 (slopeQ (close f) (i - 1 + 1 - n) n) +
      roundQ 4 (interceptQ (close f) (i - 1 + 1 - n) n + slopeQ (close f) (i - 1 + 1 - n) n * ((i - 1 : ℕ) : ℚ))))) (close f i))) := by
  have hn : 2 ≤ n := pos_of hB hi
  rcases Nat.lt_or_ge i n with h | h
  · rw [since, if_pos h]
    exact C76_missing E c _ _ o hB.ok "fosc" i (by rw [hi]; exact h)
  · exact C61_forecast_oscillator hB n hi i hl _ _ ((bestLine_iff _ n (i - 1) hn (by omega) _ _).2 ⟨rfl, rfl⟩)

theorem last_highest_ge (w : ℕ) (u : ℕ → ℚ) (i : ℕ) : u i ≤ highest w u i := by
  unfold highest
  generalize u i = a
  have : ∀ (l : List ℕ) (a : ℚ), a ≤ l.foldl (fun m t => max m (u (i - t))) a := fun l => by
    induction l with
    | nil => intro a; exact le_rfl
    | cons x l ih => intro a; exact (le_max_left _ _).trans (ih _)
  exact this _ _

theorem last_lowest_le (w : ℕ) (u : ℕ → ℚ) (i : ℕ) : lowest w u i ≤ u i := by
  unfold lowest
  generalize u i = a
  have : ∀ (l : List ℕ) (a : ℚ), l.foldl (fun m t => min m (u (i - t))) a ≤ a := fun l => by
    induction l with
    | nil => intro a; exact le_rfl
    | cons x l ih => intro a; exact (ih _).trans (min_le_left _ _)
  exact this _ _

theorem ema_nonneg_to (n s L : ℕ) (hn : 1 ≤ n) (u : ℕ → ℚ) (hs : s ≤ L) (hu : ∀ j ≤ L, 0 ≤ u j) (i : ℕ) (hi : i ≤ L) : 0 ≤ ema n s u i := by
  obtain ⟨a0, a1⟩ := LastClose.alpha_bounds n hn
  unfold ema
  induction i with
  | zero => exact hu s hs
  | succ i ih =>
    simp only [smoothed]
    split
    · exact hu s hs
    · have := ih (by omega)
      have h2 := hu (i + 1) hi
      nlinarith [mul_nonneg a0.le h2, mul_nonneg (sub_nonneg.2 a1) this]

section
variable {s t : Signal} {L : ℕ} (ho : BuiltOn E c f fill o Quoted) (hp : BuiltOn E c g fill p Quoted) (h : Pair f g o p L)
  (h1 : o.getTiSignal = .ok s) (h2 : p.getTiSignal = .ok t)
include ho hp h h1 h2

theorem last_cci (n : ℕ) (hi : o.ind = .commodityChannelIndex n) : TowardsBuy t s := by
  have hi' : p.ind = .commodityChannelIndex n := by rw [h.ind, hi]
  have hn : 1 ≤ n := pos_of ho hi
  have r := h.rows
  have r' := h.rows'
  obtain ⟨x1, x2⟩ := h.ti "cci" (by rw [hi]; simp [columns]) 0 (by omega)
  rw [Nat.sub_zero, C58_commodity_channel (built_any ho) n hi L (by omega)] at x1
  rw [Nat.sub_zero, C58_commodity_channel (built_any hp) n hi' L (by omega)] at x2
  have hl := h.last
  have y1 : ∀ j < L, typical g j = typical f j := fun j hj => by unfold typical; rw [h.high, h.low, h.earlier j hj]
  have y2 : typical f L ≤ typical g L := by unfold typical; rw [h.high, h.low]; linarith
  have key := fun hk => pushed_since (lo := -100) (hi := 100) (n - 1) L fun _ => channel_raised (L := L) n hn hk y1 y2
  refine h.opposes h1 h2 hi rfl fun _ => ?_
  simp only [rule]
  rw [x1, x2]
  rcases Nat.lt_or_ge (L + 1) n with hk | hk
  · simp only [since, if_pos (show L < n - 1 by omega)]
    exact ⟨fun h => h, fun h => h⟩
  · exact ⟨(key hk).2, (key hk).1⟩

theorem last_smi (n w d : ℕ) (hi : o.ind = .stochasticMomentumIndex n w d) : TowardsBuy t s := by
  have hi' : p.ind = .stochasticMomentumIndex n w d := by rw [h.ind, hi]
  obtain ⟨hn, hw, hd⟩ : 1 ≤ n ∧ 1 ≤ w ∧ 1 ≤ d := pos_of ho hi
  have r := h.rows
  have eR : rangeHeight g n = rangeHeight f n := by funext j; unfold rangeHeight; rw [h.high, h.low]
  have e2 := C55_stochastic_momentum (built_any hp) n w d hi'
  rw [eR, h.high, h.low] at e2
  have hR : ∀ j ≤ L, 0 ≤ rangeHeight f n j := fun j hj => by
    have q1 := last_highest_ge n (high f) j
    have q2 := last_lowest_le n (low f) j
    have q3 := quoted_range ho (by rw [hi]; simp [Ind.required]) (by rw [hi]; simp [Ind.required]) j (by omega)
    unfold rangeHeight
    linarith
  have hl : n + w + d - 3 ≤ L → Lift (n + w - 2) L (close g L - close f L)
      (ema d (n + w - 2) (ema w (n - 1) fun j => close f j - (highest n (high f) j + lowest n (low f) j) / 2))
      (ema d (n + w - 2) (ema w (n - 1) fun j => close g j - (highest n (high f) j + lowest n (low f) j) / 2)) := fun hk => by
    have q := h.lift.map (close g L - close f L) (fun j x => x - (highest n (high f) j + lowest n (low f) j) / 2) (by linarith [h.last]) (by linarith)
    exact (((q.later (n - 1) (by omega)).ema w hw (by omega)).later (n + w - 2) (by omega)).ema d hd (by omega)
  refine last_extremes ho hp h h1 h2 "smi" _ hi (by simp [columns]) (-40) 40 (fun _ _ => rfl) (n + w + d - 3) _ _
    (C55_stochastic_momentum (built_any ho) n w d hi) e2 (fun i hk hiL => ?_) fun hk hL => ?_
  · beta_reduce
    rw [(hl (by omega)).same i (by omega) hiL]
  · refine Raised.pushed (raised_quotient (mul_le_mul_of_nonneg_left (hl hk).le (by norm_num)) ?_) _ _
    have q1 : 0 ≤ ema d (n + w - 2) (ema w (n - 1) (rangeHeight f n)) L :=
      ema_nonneg_to d (n + w - 2) L hd _ (by omega) (fun j hj => ema_nonneg_to w (n - 1) L hw _ (by omega) hR j hj) L le_rfl
    linarith

theorem last_lrs (n : ℕ) (hi : o.ind = .linearRegressionSlope n) : TowardsBuy t s := by
  have hi' : p.ind = .linearRegressionSlope n := by rw [h.ind, hi]
  have hn : 1 ≤ n := pos_of ho hi
  have r := h.rows
  have r' := h.rows'
  rcases Nat.lt_or_ge n 2 with h3 | h3
  · obtain rfl : n = 1 := by omega
    refine last_extremes ho hp h h1 h2 "lrs" _ hi (by simp [columns]) 0 0 (fun _ _ => rfl) 0 (fun _ => .nan) (fun _ => .nan)
      (fun i hl => ?_) (fun i hl => ?_) (fun _ _ _ => rfl) fun _ _ => ⟨fun h => h, fun h => h⟩
    · rw [C42_period_one E c f fill o ho.wf ho.ok (built_any ho).rows hi i hl]; simp [since]
    · rw [C42_period_one E c g fill p hp.wf hp.ok (built_any hp).rows hi' i hl]; simp [since]
  · refine last_extremes ho hp h h1 h2 "lrs" _ hi (by simp [columns]) 0 0 (fun _ _ => rfl) (n - 1) _ _
      (slope_since (built_any ho) n h3 hi) (slope_since (built_any hp) n h3 hi') (fun i hk hiL => ?_) fun hk hL => ?_
    · rw [(slope_same h.earlier n i (by omega) hiL).1]
    · refine (raised_to4 ?_).pushed _ _
      rw [(slope_last h.earlier n h3 (by omega)).1]
      have : (0 : ℚ) ≤ 6 / (n * (n + 1)) := by positivity
      nlinarith [mul_nonneg this (sub_nonneg.2 h.last)]

theorem last_swing (hi : o.ind = .swingIndex) : TowardsBuy t s := by
  have hi' : p.ind = .swingIndex := by rw [h.ind, hi]
  have r := h.rows
  have reach : ∀ j ≤ L, 1 ≤ j → swingReach g j = swingReach f j := fun j hj h0 => by
    unfold swingReach; rw [h.high, h.low, h.earlier (j - 1) (by omega)]
  have range : ∀ j ≤ L, 1 ≤ j → swingRange g j = swingRange f j := fun j hj h0 => by
    unfold swingRange; rw [reach j hj h0, h.high, h.low, h.opening, h.earlier (j - 1) (by omega)]
  refine last_extremes ho hp h h1 h2 "swi" _ hi (by simp [columns]) 0 0 (fun _ _ => rfl) 1 _ _
    (C58_swing_index (built_any ho) hi) (C58_swing_index (built_any hp) hi') (fun i hk hiL => ?_) fun hk hL => ?_
  · have : swingMove g i = swingMove f i := by unfold swingMove; rw [h.opening, h.earlier i hiL, h.earlier (i - 1) (by omega)]
    rw [this, reach i (by omega) hk, range i (by omega) hk]
  · rw [reach L le_rfl hk, range L le_rfl hk]
    by_cases h0 : swingRange f L = 0
    · rw [if_pos h0, if_pos h0]; exact ⟨fun h => h, fun h => h⟩
    · rw [if_neg h0, if_neg h0]
      refine (raised_to4 ?_).pushed _ _
      have q0 : 0 ≤ swingReach f L := (abs_nonneg _).trans (le_max_left _ _)
      have q1 : 0 ≤ swingRange f L := add_nonneg (q0.trans (le_max_left _ _)) (by positivity)
      have q2 : swingMove f L ≤ swingMove g L := by
        unfold swingMove
        rw [h.opening, h.earlier (L - 1) (by omega)]
        linarith [h.last]
      have q3 : 50 * (swingMove f L / swingRange f L) * (swingReach f L / 3) ≤ 50 * (swingMove g L / swingRange f L) * (swingReach f L / 3) := by
        gcongr
      unfold within100
      exact max_le_max le_rfl (min_le_min le_rfl q3)

theorem last_fosc (n : ℕ) (hi : o.ind = .forecastOscillator n) : TowardsBuy t s := by
  have hi' : p.ind = .forecastOscillator n := by rw [h.ind, hi]
  have hn : 2 ≤ n := pos_of ho hi
  have r := h.rows
  have r' := h.rows'
  set Fc : RawFrame → ℕ → ℚ := fun f i => roundQ 4 (slopeQ (close f) (i - 1 + 1 - n) n) +
    roundQ 4 (interceptQ (close f) (i - 1 + 1 - n) n + slopeQ (close f) (i - 1 + 1 - n) n * ((i - 1 : ℕ) : ℚ)) with hFc
  have eF : ∀ i, n ≤ i → i ≤ L → Fc g i = Fc f i := fun i h3 h4 => by
    obtain ⟨q1, q2⟩ := slope_same h.earlier n (i - 1) (by omega) (by omega)
    simp only [hFc]
    rw [q1, q2]
  refine last_extremes ho hp h h1 h2 "fosc" _ hi (by simp [columns]) 0 0 (fun _ _ => rfl) n
    (fun i => round4 (quotient (100 * (close f i - Fc f i)) (close f i))) (fun i => round4 (quotient (100 * (close g i - Fc g i)) (close g i)))
    (last_forecast_since (built_any ho) n hi) (last_forecast_since (built_any hp) n hi') (fun i hk hiL => ?_) fun hk hL => ?_
  · beta_reduce
    rw [eF i hk (by omega), h.earlier i hiL]
  · beta_reduce
    rw [eF L hk le_rfl]
    have c1 := (quoted_close ho (by rw [hi]; simp [Ind.required]) L (by omega)).1
    have c2 := (quoted_close hp (by rw [hi']; simp [Ind.required]) L (by omega)).1
    have hl := h.last
    unfold quotient
    rw [if_pos c1.ne', if_pos c2.ne']
    simp only [round4, Val.fin_round]
    rcases le_or_gt (Fc f L) 0 with h0 | h0
    · have q : ∀ x : ℚ, 0 < x → 100 ≤ 100 * (x - Fc f L) / x := fun x hx => by rw [le_div_iff₀ hx]; linarith
      have q1 : ∀ x : ℚ, 0 < x → 100 ≤ roundQ 4 (100 * (x - Fc f L) / x) := fun x hx => by
        have := roundQ_mono 4 (q x hx)
        rwa [show (100 : ℚ) = ((100 : ℤ) : ℚ) by norm_num, roundQ_intCast] at this
      have q2 := q1 _ c1
      have q3 := q1 _ c2
      simp only [Pushed, Val.lt, decide_eq_true_eq]
      exact ⟨fun _ => by linarith, fun _ => by linarith⟩
    · refine (raised_fin (roundQ_mono 4 ?_)).pushed _ _
      rw [div_le_div_iff₀ c1 c2]
      nlinarith

theorem last_rmi (n m : ℕ) (hi : o.ind = .relativeMomentumIndex n m) : TowardsBuy t s := by
  have hi' : p.ind = .relativeMomentumIndex n m := by rw [h.ind, hi]
  obtain ⟨hn, hm⟩ : 1 ≤ n ∧ 1 ≤ m := pos_of ho hi
  have q0 : (1 : ℚ) ≤ n := by exact_mod_cast hn
  have hl := h.last
  have sg : ∀ j, m ≤ j → j < L → gainOver m (close g) j = gainOver m (close f) j := fun j _ hj => by
    unfold gainOver; rw [h.earlier j hj, h.earlier (j - m) (by omega)]
  have sl : ∀ j, m ≤ j → j < L → lossOver m (close g) j = lossOver m (close f) j := fun j _ hj => by
    unfold lossOver; rw [h.earlier j hj, h.earlier (j - m) (by omega)]
  obtain ⟨G1, G2⟩ := wilder_facts n m hn _ _ sg
  obtain ⟨K1, K2⟩ := wilder_facts n m hn _ _ sl
  have g0 : ∀ w i, 0 ≤ wilderAverage n m (gainOver m (close w)) i := fun w i => wilder_nonneg n m hn _ (fun _ => le_max_right _ _) i
  have k0 : ∀ w i, 0 ≤ wilderAverage n m (lossOver m (close w)) i := fun w i => wilder_nonneg n m hn _ (fun _ => le_max_right _ _) i
  refine last_extremes_from ho hp h h1 h2 "rmi" _ hi (by simp [columns]) 30 70 (fun _ _ => rfl) (n + m - 1) _ _
    (C60_relative_momentum (built_any ho) n m hi) (C60_relative_momentum (built_any hp) n m hi') (fun i hk hiL => ?_) fun hk hL hx => ?_
  · rw [G1 i (by omega) hiL, K1 i (by omega) hiL]
  · have hmL : L - m < L := by omega
    have m1 : gainOver m (close f) L ≤ gainOver m (close g) L := by
      unfold gainOver; rw [h.earlier _ hmL]; exact max_le_max (by linarith) le_rfl
    have m2 : lossOver m (close g) L ≤ lossOver m (close f) L := by
      unfold lossOver; rw [h.earlier _ hmL]; exact max_le_max (by linarith) le_rfl
    have d1 : wilderAverage n m (gainOver m (close f)) L ≤ wilderAverage n m (gainOver m (close g)) L := by
      rw [G2 (by omega)]
      have : 0 ≤ (gainOver m (close g) L - gainOver m (close f) L) / n := div_nonneg (by linarith) (by linarith)
      linarith
    have d2 : wilderAverage n m (lossOver m (close g)) L ≤ wilderAverage n m (lossOver m (close f)) L := by
      rw [K2 (by omega)]
      have : (lossOver m (close g) L - lossOver m (close f) L) / n ≤ 0 := div_nonpos_of_nonpos_of_nonneg (by linarith) (by linarith)
      linarith
    have hg0 := g0 f L
    have hg0' := g0 g L
    have hk0 := k0 f L
    have hk0' := k0 g L
    by_cases z : wilderAverage n m (lossOver m (close g)) L = 0
    · rw [if_pos z]
      refine ⟨fun hb => ?_, fun hb => by simp [Val.lt] at hb⟩
      exfalso
      rcases Nat.lt_or_ge n 2 with h3 | h3
      · obtain rfl : n = 1 := by omega
        rw [last_wilder_one _ _ _ (by omega), last_wilder_one _ _ _ (by omega)] at hb
        split at hb
        · simp [Val.lt] at hb
        · next hz =>
          have e : gainOver m (close f) L = 0 := by
            unfold lossOver at hz
            unfold gainOver
            rw [max_eq_right]
            by_contra hc
            push Not at hc
            exact hz (max_eq_right (by linarith))
          rw [e] at hb
          norm_num [to4, Val.lt, roundQ_zero] at hb
      · rcases Nat.lt_or_ge (m + n - 1) L with h4 | h4
        · obtain ⟨k, rfl⟩ : ∃ k, L = k + 1 := ⟨L - 1, by omega⟩
          have e := wilder_step n m (lossOver m (close g)) k h4
          rw [z, K1 k (by omega) (by omega)] at e
          have q2 : (2 : ℚ) ≤ n := by exact_mod_cast h3
          have e' : 0 = (wilderAverage n m (lossOver m (close f)) k * (n - 1) + lossOver m (close g) (k + 1)) / n := by
            rw [e]; field_simp; ring
          have e2 : wilderAverage n m (lossOver m (close f)) k * (n - 1) + lossOver m (close g) (k + 1) = 0 := by
            rcases div_eq_zero_iff.1 e'.symm with h | h
            · exact h
            · linarith
          have e3 : 0 ≤ lossOver m (close g) (k + 1) := le_max_right _ _
          have e4 := k0 f k
          have e5 : wilderAverage n m (lossOver m (close f)) k = 0 := by
            have := mul_nonneg e4 (by linarith : (0 : ℚ) ≤ n - 1)
            have : wilderAverage n m (lossOver m (close f)) k * (n - 1) = 0 := by linarith
            rcases mul_eq_zero.1 this with h | h
            · exact h
            · linarith
          apply hx
          rw [Nat.add_sub_cancel, if_pos e5]
          simp [since]
        · apply hx
          rw [since, if_pos (by omega)]
    · have hp1 : 0 < wilderAverage n m (lossOver m (close g)) L := lt_of_le_of_ne hk0' (Ne.symm z)
      rw [if_neg z, if_neg (by linarith)]
      refine (raised_to4 ?_).pushed _ _
      rw [div_le_div_iff₀ (by linarith) (by linarith)]
      nlinarith [mul_nonneg hg0 (by linarith : 0 ≤ wilderAverage n m (lossOver m (close f)) L - wilderAverage n m (lossOver m (close g)) L),
        mul_nonneg hk0 (by linarith : 0 ≤ wilderAverage n m (gainOver m (close g)) L - wilderAverage n m (gainOver m (close f)) L)]

end

end TTI.Props
