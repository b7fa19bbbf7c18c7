import Verif.Lemmas.Least4
import Verif.Props.Unlimited

set_option autoImplicit false

/-!
# The memory of a column is the least number of days: C68

`Enough`, `leastDays` and `FairEnv` are in Spec/Least, the table `memory` is in Spec/Memory.
-/

namespace TTI.Props

open Spec Window

theorem memory_pos (ind : Ind) (hpos : ind.Pos) (column : String) (M : ℕ) (hm : memory ind column = some M) : 1 ≤ M := by
  cases ind with
  | movingAverage p t =>
    simp only [Ind.Pos] at hpos
    cases t <;> simp only [memory, Option.some.injEq, reduceCtorEq] at hm <;> omega
  | easeOfMovement p => simp only [memory, Option.some.injEq] at hm; split_ifs at hm <;> omega
  | ichimokuCloud => simp only [memory, Option.some.injEq] at hm; split_ifs at hm <;> omega
  | projectionOscillator p =>
    simp only [Ind.Pos] at hpos
    simp only [memory] at hm
    split_ifs at hm
    simp only [Option.some.injEq] at hm
    omega
  | stochasticOscillator k s d b =>
    simp only [Ind.Pos] at hpos
    simp only [memory, Option.some.injEq] at hm
    split_ifs at hm <;> omega
  | _ => simp only [memory, Option.some.injEq, reduceCtorEq] at hm <;> simp only [Ind.Pos] at hpos <;> omega

/-- C68: the days of the table are enough. -/
theorem C68_enough (E : Env) (c : Call) (ind : Ind) (hc : c.check = .ok ind) (column : String) (M : ℕ)
    (hm : memory ind column = some M) : Enough E c column M := by
  intro f g o p d i ho hp hl hs hr hi _
  have hoi : o.ind = ind := by
    have := (construct_sound E c f true o ho.wf ho.ok).2.1
    rw [hc] at this
    exact (Except.ok.inj this).symm
  have hpos := check_pos c ind hc
  have hmin : 1 ≤ minRows ind := by
    cases ind <;> simp only [minRows] <;> simp only [Ind.Pos] at hpos <;> first | omega | (split <;> omega)
  have hlen : (g.since d).idx.length = (f.since d).idx.length := by rw [hs]
  have hl1 := since_length d f
  have hl2 := since_length d g
  have hb1 := rowsBefore_le d f.idx
  have hb2 := rowsBefore_le d g.idx
  have h0 : ∃ e ∈ f.idx, d ≤ e := by
    have : (f.since d).idx ≠ [] := by
      intro h
      rw [h, hoi] at hr
      simp at hr
      omega
    obtain ⟨e, he⟩ := List.exists_mem_of_ne_nil _ this
    simp only [RawFrame.since, List.mem_filter, decide_eq_true_eq] at he
    exact ⟨e, he⟩
  by_cases h1 : rowsBefore d f.idx ≤ i
  · have key := C68_old_data_irrelevant E c f g true d o p ho.wf hp.wf ho.ok hp.ok hs h0 hr
      (fun _ => known_since ho d) column M (by rw [hoi]; exact hm) (i - rowsBefore d f.idx) (by omega)
    rw [show i - rowsBefore d f.idx + rowsBefore d f.idx = i by omega,
      show i - rowsBefore d f.idx + rowsBefore d g.idx = i by omega] at key
    exact key
  · have hM0 : M = 0 := by omega
    exfalso
    subst hM0
    exact absurd (memory_pos ind hpos column 0 hm) (by omega)

theorem least_allCount (E : Env) (hE : FairEnv E) (c : Call) (ind : Ind) (hc : c.check = .ok ind) (column : String)
    (hcol : column ∈ columns ind) (ha : AllCount ind column) (M : ℕ) (hm : memory ind column = some M) (m : ℕ) :
    Enough E c column m ↔ M ≤ m := by
  constructor
  · revert m
    change Needs E c column M
    have hpos := check_pos c ind hc
    cases ind with
    | movingAverage p t =>
      simp only [Ind.Pos] at hpos
      cases t <;> simp only [memory, Option.some.injEq, reduceCtorEq] at hm <;> simp only [columns, List.mem_singleton] at hcol <;>
        subst hcol <;> subst hm
      · exact needs_simple p hc hpos.1
      · exact needs_timeSeries p hc (hpos.2 rfl)
      · exact needs_triangular p hc hpos.1
    | bollingerBands p s =>
      cases hm
      cases s with
      | fin s => exact needs_bollinger hE _ s hc hpos.1 (by simpa [Val.lt] using hpos.2) column hcol
      | pinf => exact needs_bollinger_wide hE _ hc hpos.1 column hcol fun h => ha.resolve_left h
      | nan => exact absurd hpos.2 (by decide)
      | ninf => exact absurd hpos.2 (by decide)
    | chaikinMoneyFlow p => simp only [columns, List.mem_singleton] at hcol; subst hcol; cases hm; exact needs_moneyFlow _ hc hpos
    | chandeMomentumOscillator p => simp only [columns, List.mem_singleton] at hcol; subst hcol; cases hm; exact needs_chande _ hc hpos
    | commodityChannelIndex p => simp only [columns, List.mem_singleton] at hcol; subst hcol; cases hm; exact needs_commodity _ hc ha
    | detrendedPriceOscillator p =>
      simp only [columns, List.mem_singleton] at hcol; subst hcol; cases hm; exact needs_detrended _ hc hpos
    | easeOfMovement p => cases hm; exact needs_ease _ hc hpos column hcol
    | envelopes p s => cases hm; exact needs_envelopes _ s hc hpos.1 hpos.2.1 hpos.2.2 column hcol
    | forecastOscillator p =>
      simp only [columns, List.mem_singleton] at hcol; subst hcol; cases hm; exact needs_forecastOscillator _ hc hpos
    | ichimokuCloud => cases hm; exact needs_ichimoku hc column hcol
    | intradayMomentumIndex p => simp only [columns, List.mem_singleton] at hcol; subst hcol; cases hm; exact needs_intraday _ hc hpos
    | linearRegressionIndicator p => simp only [columns, List.mem_singleton] at hcol; subst hcol; cases hm; exact needs_line _ hc ha
    | linearRegressionSlope p => simp only [columns, List.mem_singleton] at hcol; subst hcol; cases hm; exact needs_slope _ hc ha
    | marketFacilitationIndex => simp only [columns, List.mem_singleton] at hcol; subst hcol; cases hm; exact needs_facilitation hc
    | medianPrice p => simp only [columns, List.mem_singleton] at hcol; subst hcol; cases hm; exact needs_median _ hc
    | momentum p => simp only [columns, List.mem_singleton] at hcol; subst hcol; cases hm; exact needs_momentum _ hc hpos
    | priceChannel p => cases hm; exact needs_channel _ hc hpos column hcol
    | priceOscillator l s =>
      simp only [columns, List.mem_singleton] at hcol; subst hcol; cases hm; exact needs_priceOscillator l s hc hpos.1 hpos.2
    | priceRateOfChange p => simp only [columns, List.mem_singleton] at hcol; subst hcol; cases hm; exact needs_priceRate _ hc hpos
    | projectionBands p => cases hm; exact needs_projection _ hc ha column hcol
    | projectionOscillator p =>
      simp only [columns, List.mem_cons, List.not_mem_nil, or_false] at hcol
      rcases hcol with rfl | rfl
      · simp only [memory, if_true, Option.some.injEq] at hm
        subst hm
        exact needs_projectionOscillator p hc ha
      · simp [memory] at hm
    | qstick p => simp only [columns, List.mem_singleton] at hcol; subst hcol; cases hm; exact needs_qstick _ hc hpos
    | standardDeviation p => simp only [columns, List.mem_singleton] at hcol; subst hcol; cases hm; exact needs_deviation hE _ hc ha
    | stochasticOscillator k s d b =>
      simp only [Ind.Pos] at hpos
      simp only [columns, List.mem_cons, List.not_mem_nil, or_false] at hcol
      rcases hcol with rfl | rfl
      · simp only [memory, if_true, Option.some.injEq] at hm
        subst hm
        exact needs_percentK k s d b hc hpos.1 (by omega)
      · simp only [memory, if_neg (show ¬ "%D" = "%K" by decide), Option.some.injEq] at hm
        subst hm
        exact needs_percentD hE k s d b hc hpos.1 (by omega) hpos.2.2
    | swingIndex => simp only [columns, List.mem_singleton] at hcol; subst hcol; cases hm; exact needs_swing hc
    | timeSeriesForecast p => simp only [columns, List.mem_singleton] at hcol; subst hcol; cases hm; exact needs_forecast _ hc hpos
    | typicalPrice p => simp only [columns, List.mem_singleton] at hcol; subst hcol; cases hm; exact needs_typical _ hc
    | ultimateOscillator => simp only [columns, List.mem_singleton] at hcol; subst hcol; cases hm; exact needs_ultimate hc
    | verticalHorizontalFilter p => simp only [columns, List.mem_singleton] at hcol; subst hcol; cases hm; exact needs_vertical _ hc hpos
    | volumeOscillator l s =>
      simp only [columns, List.mem_singleton] at hcol; subst hcol; cases hm; exact needs_volumeOscillator l s hc hpos.1 hpos.2
    | volumeRateOfChange p => simp only [columns, List.mem_singleton] at hcol; subst hcol; cases hm; exact needs_volumeRate _ hc hpos
    | weightedClose => simp only [columns, List.mem_singleton] at hcol; subst hcol; cases hm; exact needs_weighted hc
    | williamsAccumulationDistribution => simp only [columns, List.mem_singleton] at hcol; subst hcol; cases hm; exact needs_wad hc
    | williamsR p => simp only [columns, List.mem_singleton] at hcol; subst hcol; cases hm; exact needs_williamsR _ hc hpos
    | _ => simp [memory] at hm
  · intro h
    exact Enough.mono (C68_enough E c ind hc column M hm) h

/-- C68: the least number of days that determines the value of a column is the one of the table. -/
theorem C68_least (E : Env) (hE : FairEnv E) (c : Call) (ind : Ind) (hc : c.check = .ok ind) (column : String)
    (hcol : column ∈ columns ind) (M : ℕ) (hm : leastDays ind column = some M) (m : ℕ) : Enough E c column m ↔ M ≤ m := by
  have hpos := check_pos c ind hc
  by_cases ha : AllCount ind column
  · refine least_allCount E hE c ind hc column hcol ha M ?_ m
    rw [← hm]
    unfold leastDays
    split <;> simp_all [AllCount, memory]
  · cases ind with
    | commodityChannelIndex p =>
      obtain rfl : p = 1 := by simp only [AllCount, Ind.Pos] at ha hpos; omega
      simp only [columns, List.mem_singleton] at hcol
      subst hcol
      cases hm
      exact iff_of_true (enough_commodity hc m) (Nat.zero_le m)
    | standardDeviation p =>
      obtain rfl : p = 1 := by simp only [AllCount, Ind.Pos] at ha hpos; omega
      simp only [columns, List.mem_singleton] at hcol
      subst hcol
      cases hm
      exact iff_of_true (enough_deviation hE hc m) (Nat.zero_le m)
    | linearRegressionSlope p =>
      obtain rfl : p = 1 := by simp only [AllCount, Ind.Pos] at ha hpos; omega
      simp only [columns, List.mem_singleton] at hcol
      subst hcol
      cases hm
      exact iff_of_true (enough_slope hc m) (Nat.zero_le m)
    | linearRegressionIndicator p =>
      obtain rfl : p = 2 := by simp only [AllCount, Ind.Pos] at ha hpos; omega
      simp only [columns, List.mem_singleton] at hcol
      subst hcol
      cases hm
      exact least_line hc m
    | projectionBands p =>
      obtain rfl : p = 2 := by simp only [AllCount, Ind.Pos] at ha hpos; omega
      cases hm
      exact least_bands hc column hcol m
    | projectionOscillator p =>
      obtain rfl : p = 2 := by simp only [AllCount, Ind.Pos] at ha hpos; omega
      simp only [columns, List.mem_cons, List.not_mem_nil, or_false] at hcol
      rcases hcol with rfl | rfl
      · cases hm
        exact least_place hc m
      · simp [leastDays] at hm
    | bollingerBands p s =>
      cases s with
      | pinf =>
        simp only [AllCount, not_or] at ha
        obtain rfl : p = 1 := by have := hpos.1; omega
        simp only [leastDays, if_neg ha.1, Option.some.injEq] at hm
        subst hm
        refine iff_of_true (enough_wide hE hc column ?_ m) (Nat.zero_le m)
        simp only [columns, List.mem_cons, List.not_mem_nil, or_false] at hcol ⊢
        tauto
      | _ => exact absurd trivial ha
    | _ => exact absurd trivial ha

/-- The identity for the root, rising weights. -/
def fairEnv : Env := ⟨id, fun d => (List.range d).map fun t : ℕ => (t : ℚ) + 1⟩

theorem fairEnv_fair : FairEnv fairEnv := by
  refine ⟨rfl, fun _ h => h, fun _ h => h, fun d => by simp [fairEnv], fun d hd => ne_of_gt ?_⟩
  have h0 : ∀ q ∈ fairEnv.weights d, 0 < q := by
    intro q hq
    simp only [fairEnv, List.mem_map, List.mem_range] at hq
    obtain ⟨t, -, rfl⟩ := hq
    positivity
  refine List.sum_pos _ h0 ?_
  intro h
  have : (fairEnv.weights d).length = d := by simp [fairEnv]
  rw [h] at this
  simp at this
  omega

/-- The hypotheses of `C68_enough` and `C68_least`, for a channel, for a weighted mean and for the bands of two days. -/
example : FairEnv fairEnv ∧ (Call.priceChannel (.int 5)).check = .ok (.priceChannel 5) ∧ "lowest_low" ∈ columns (.priceChannel 5) ∧
    memory (.priceChannel 5) "lowest_low" = some 6 ∧ leastDays (.priceChannel 5) "lowest_low" = some 6 ∧
    leastDays (.stochasticOscillator 14 3 3 false) "%D" = some 18 ∧ leastDays (.projectionBands 2) "upper_band" = some 1 ∧
    memory (.projectionBands 2) "upper_band" = some 2 :=
  ⟨fairEnv_fair, by decide +kernel, by decide, rfl, rfl, rfl, rfl, rfl⟩

end TTI.Props
