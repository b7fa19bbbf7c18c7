import Verif.Lemmas.Least3
import Verif.Lemmas.Forget

set_option autoImplicit false

/-!
# Least parameters: the values need no data, or that of the day only (C68)
-/

namespace TTI.Window

open Spec Props Past

variable {E : Env} {c : Call}

/-- The parameters with which all days of the memory count. -/
def AllCount : Ind → String → Prop
  | .commodityChannelIndex p, _ => 2 ≤ p
  | .standardDeviation p, _ => 2 ≤ p
  | .linearRegressionSlope p, _ => 2 ≤ p
  | .bollingerBands p .pinf, column => column = "middle_band" ∨ 2 ≤ p
  | .linearRegressionIndicator p, _ => 3 ≤ p
  | .projectionBands p, _ => 3 ≤ p
  | .projectionOscillator p, _ => 3 ≤ p
  | _, _ => True

/-- A value that is the same for all data. -/
theorem enough_fixed {ind : Ind} (hc : c.check = .ok ind) (column : String) (V : ℕ → Val)
    (h : ∀ f o, BuiltOn E c f true o AnyPrices → o.ind = ind → ∀ i < f.idx.length, o.getTiData.day column i = V i) (m : ℕ) :
    Enough E c column m := by
  intro f g o p d i ho hp hl _ _ _ hi
  have hoi : o.ind = ind := by
    have := (construct_sound E c f true o ho.wf ho.ok).2.1
    rw [hc] at this
    exact (Except.ok.inj this).symm
  have hpi : p.ind = ind := by
    have := (construct_sound E c g true p hp.wf hp.ok).2.1
    rw [hc] at this
    exact (Except.ok.inj this).symm
  rw [h f o ho hoi i hi, h g p hp hpi i (by omega)]

/-- A value made of the prices of the day. -/
theorem enough_day {ind : Ind} (hc : c.check = .ok ind) (column : String) (V : ℕ → (String → ℚ) → Val)
    (h : ∀ f o, BuiltOn E c f true o AnyPrices → o.ind = ind → ∀ i < f.idx.length,
      o.getTiData.day column i = V i fun s => price f s i) : Enough E c column 1 := by
  intro f g o p d i ho hp hl hs _ hb hi
  have hoi : o.ind = ind := by
    have := (construct_sound E c f true o ho.wf ho.ok).2.1
    rw [hc] at this
    exact (Except.ok.inj this).symm
  have hpi : p.ind = ind := by
    have := (construct_sound E c g true p hp.wf hp.ok).2.1
    rw [hc] at this
    exact (Except.ok.inj this).symm
  have h1 := since_length d f
  have h2 := since_length d g
  have h3 := rowsBefore_le d f.idx
  have h4 := rowsBefore_le d g.idx
  rw [hs] at h1
  rw [h f o ho hoi i hi, h g p hp hpi i (by omega)]
  congr 1
  funext s
  have := price_agree ho.wf hp.wf hs s (i - rowsBefore d f.idx)
  rwa [show rowsBefore d f.idx + (i - rowsBefore d f.idx) = i by omega,
    show rowsBefore d g.idx + (i - rowsBefore d f.idx) = i by omega] at this

theorem Enough.mono {column : String} {m k : ℕ} (h : Enough E c column m) (hk : m ≤ k) : Enough E c column k :=
  fun f g o p d i ho hp hl hs hr hb hi => h f g o p d i ho hp hl hs hr (by omega) hi

theorem mean_one (g : ℕ → ℚ) (i : ℕ) : meanLast 1 g i = g i := by simp [meanLast, sumLast]

theorem enough_commodity (hc : c.check = .ok (.commodityChannelIndex 1)) (m : ℕ) : Enough E c "cci" m :=
  enough_fixed hc _ (fun _ => .nan) (fun f o ho hi i h => by
    rw [C58_commodity_channel ho 1 hi i h, since, if_neg (by omega), mean_one, mean_one, sub_self, abs_zero, mul_zero]
    exact quotient_none) m

theorem enough_deviation (hE : FairEnv E) (hc : c.check = .ok (.standardDeviation 1)) (m : ℕ) : Enough E c "sd" m :=
  enough_fixed hc _ (fun _ => to4 0) (fun f o ho hi i h => by
    rw [C54_standard_deviation ho 1 hi i h, since, if_neg (by omega), varianceLast, mean_one, mean_one, sub_self, zero_pow (by norm_num),
      hE.zero]) m

theorem enough_slope (hc : c.check = .ok (.linearRegressionSlope 1)) (m : ℕ) : Enough E c "lrs" m :=
  enough_fixed hc _ (fun _ => .nan) (fun f o ho hi i h => by
    obtain ⟨F, hl, hn, -, ht, -, -⟩ := ho.on hi
    have hcl := hn "close" (by simp [Ind.required])
    have h := Ind.LinearRegressionSlope.exact 1 (by omega) F o.getTiData _ hcl.len (fun i hi => hcl.fin hi (by omega)) ht i (by omega)
    rw [if_pos (by omega), if_pos rfl] at h
    exact h) m

theorem enough_wide (hE : FairEnv E) (hc : c.check = .ok (.bollingerBands 1 .pinf)) (column : String)
    (hcol : column ∈ ["upper_band", "lower_band"]) (m : ℕ) : Enough E c column m := by
  have key : ∀ f o, BuiltOn E c f true o AnyPrices → o.ind = .bollingerBands 1 .pinf → ∀ i < f.idx.length,
      o.getTiData.day "upper_band" i = .nan ∧ o.getTiData.day "lower_band" i = .nan := by
    intro f o ho hi i h
    exact (C54_bollinger_infinite ho 1 hi i h).2.2 (by
      rw [varianceLast, mean_one, mean_one, sub_self, zero_pow (by norm_num), hE.zero])
  simp only [List.mem_cons, List.not_mem_nil, or_false] at hcol
  rcases hcol with rfl | rfl
  · exact enough_fixed hc _ (fun _ => .nan) (fun f o ho hi i h => (key f o ho hi i h).1) m
  · exact enough_fixed hc _ (fun _ => .nan) (fun f o ho hi i h => (key f o ho hi i h).2) m

/-! ## Lines through two days -/

theorem slope_two (y : ℕ → ℚ) (s : ℕ) : slopeQ y s 2 = y (s + 1) - y s := by
  have h := det_pos s 2 (le_refl 2)
  unfold slopeQ
  rw [div_eq_iff h.ne']
  simp only [Finset.sum_range_succ, Finset.sum_range_zero]
  push_cast
  ring_nf

theorem line_two (y : ℕ → ℚ) (s : ℕ) : interceptQ y s 2 + slopeQ y s 2 * ((s + 1 : ℕ) : ℚ) = y (s + 1) := by
  unfold interceptQ
  rw [slope_two]
  simp only [Finset.sum_range_succ, Finset.sum_range_zero]
  push_cast
  ring_nf

theorem line_day (ind : Ind) (hind : ind = .linearRegressionIndicator 2) (f : RawFrame) (o : Obj) (ho : BuiltOn E c f true o AnyPrices)
    (hi : o.ind = ind) (i : ℕ) (h : i < f.idx.length) : o.getTiData.day "lri" i = since 1 i (to4 (price f "close" i)) := by
  subst hind
  obtain ⟨F, hl, hn, -, ht, -, -⟩ := ho.on hi
  have hcl := hn "close" (by simp [Ind.required])
  have h := Ind.LinearRegressionIndicator.exact 2 (by omega) F o.getTiData _ hcl.len (fun i hi => hcl.fin hi (by omega)) ht i (by omega)
  change o.getTiData.day "lri" i = _ at h
  rw [h, since]
  by_cases h1 : i < 1
  · rw [if_pos h1, if_neg (by omega)]
  · rw [if_neg h1, if_pos (by omega)]
    have := line_two (price f "close") (i + 1 - 2)
    rw [show i + 1 - 2 + 1 = i by omega] at this
    rw [this]
    rfl

theorem slope_day (g : ℕ → ℚ) (i : ℕ) (h : 1 ≤ i) : BestSlope g 2 i (g i - g (i - 1)) := by
  rw [bestSlope_iff _ _ _ (le_refl 2) (by omega), slope_two, show i + 1 - 2 + 1 = i by omega, show i + 1 - 2 = i - 1 by omega]

theorem upper_day (f : RawFrame) (i : ℕ) (h : 1 ≤ i) : upperProjection f 2 (high f i - high f (i - 1)) i = high f i := by
  refine highest_same 2 i (by omega) _ _ fun t ht => ?_
  have : t = 0 ∨ t = 1 := by omega
  rcases this with rfl | rfl
  · simp
  · rw [show i - (i - 1) = 1 by omega]; push_cast; ring

theorem lower_day (f : RawFrame) (i : ℕ) (h : 1 ≤ i) : lowerProjection f 2 (low f i - low f (i - 1)) i = low f i := by
  refine lowest_same 2 i (by omega) _ _ fun t ht => ?_
  have : t = 0 ∨ t = 1 := by omega
  rcases this with rfl | rfl
  · simp
  · rw [show i - (i - 1) = 1 by omega]; push_cast; ring

/-- The bands of two days. -/
theorem bands_day (f : RawFrame) (o : Obj) (ho : BuiltOn E c f true o AnyPrices)
    (hi : o.ind = .projectionBands 2) (i : ℕ) (h : i < f.idx.length) :
    o.getTiData.day "upper_band" i = since 1 i (to4 (price f "high" i)) ∧
    o.getTiData.day "lower_band" i = since 1 i (to4 (price f "low" i)) := by
  by_cases h1 : 1 ≤ i
  · have := C61_projection_bands ho 2 hi i h _ _ (slope_day _ i h1) (slope_day _ i h1)
    rwa [upper_day f i h1, lower_day f i h1] at this
  · obtain rfl : i = 0 := by omega
    have hb : ∀ g : ℕ → ℚ, BestSlope g 2 0 0 := by
      intro g
      refine ⟨g 0, fun a b => ?_⟩
      simp only [fitError, Finset.sum_range_succ, Finset.sum_range_zero, Nat.zero_sub]
      push_cast
      nlinarith [sq_nonneg (g 0 - a)]
    have := C61_projection_bands ho 2 hi 0 h 0 0 (hb _) (hb _)
    simpa [since] using this

theorem place_day (f : RawFrame) (o : Obj) (ho : BuiltOn E c f true o AnyPrices)
    (hi : o.ind = .projectionOscillator 2) (i : ℕ) (h : i < f.idx.length) :
    o.getTiData.day "posc" i = since 1 i (round4 (quotient (100 * (price f "close" i - roundQ 4 (price f "low" i)))
      (roundQ 4 (price f "high" i) - roundQ 4 (price f "low" i)))) := by
  by_cases h1 : 1 ≤ i
  · have := C61_projection_oscillator ho 2 hi i h _ _ (slope_day _ i h1) (slope_day _ i h1)
    rwa [projectionPlace, upper_day f i h1, lower_day f i h1] at this
  · obtain rfl : i = 0 := by omega
    have hb : ∀ g : ℕ → ℚ, BestSlope g 2 0 0 := by
      intro g
      refine ⟨g 0, fun a b => ?_⟩
      simp only [fitError, Finset.sum_range_succ, Finset.sum_range_zero, Nat.zero_sub]
      push_cast
      nlinarith [sq_nonneg (g 0 - a)]
    have := C61_projection_oscillator ho 2 hi 0 h 0 0 (hb _) (hb _)
    simpa [since] using this

/-- `A` in one column on day 1, zeros everywhere else. -/
def second (name : String) (A : ℚ) (s : String) (j : ℕ) : ℚ := if s = name ∧ j = 1 then A else 0

theorem second_agree (name : String) (A B : ℚ) : ∀ s j, 1 + 1 ≤ j → second name A s j = second name B s j := by
  intro s j hj
  unfold second
  rw [if_neg (by omega), if_neg (by omega)]

theorem second_price (name : String) (A : ℚ) (s : String) (hs : s ∈ ohlcv) :
    price (table (3 + 1) (second name A)) s 1 = if s = name then A else 0 := by
  rw [table_price _ _ s hs 1 (by omega)]
  simp [second]

theorem least_line (hc : c.check = .ok (.linearRegressionIndicator 2)) (m : ℕ) : Enough E c "lri" m ↔ 1 ≤ m := by
  refine ⟨fun h => ?_, fun h => Enough.mono (enough_day hc _ (fun i x => since 1 i (to4 (x "close"))) (line_day _ rfl)) h⟩
  refine needs_itself hc "lri" 3 1 (second "close" 1) (second "close" 0) (to4 1) (to4 0) (by simp [minRows]) (by omega)
    (second_agree _ _ _) one_to4 ?_ ?_ m h <;> intro o ho hi <;>
    rw [line_day _ rfl _ o ho hi 1 (by rw [table_length]; omega), second_price _ _ _ close_ohlcv, if_pos rfl] <;> rfl

theorem least_bands (hc : c.check = .ok (.projectionBands 2)) (column : String) (hcol : column ∈ ["upper_band", "lower_band"]) (m : ℕ) :
    Enough E c column m ↔ 1 ≤ m := by
  simp only [List.mem_cons, List.not_mem_nil, or_false] at hcol
  rcases hcol with rfl | rfl
  · refine ⟨fun h => ?_, fun h => Enough.mono (enough_day hc _ (fun i x => since 1 i (to4 (x "high")))
      fun f o ho hi i h => (bands_day f o ho hi i h).1) h⟩
    refine needs_itself hc "upper_band" 3 1 (second "high" 1) (second "high" 0) (to4 1) (to4 0) (by simp [minRows]) (by omega)
      (second_agree _ _ _) one_to4 ?_ ?_ m h <;> intro o ho hi <;>
      rw [(bands_day _ o ho hi 1 (by rw [table_length]; omega)).1, second_price _ _ _ high_ohlcv, if_pos rfl] <;> rfl
  · refine ⟨fun h => ?_, fun h => Enough.mono (enough_day hc _ (fun i x => since 1 i (to4 (x "low")))
      fun f o ho hi i h => (bands_day f o ho hi i h).2) h⟩
    refine needs_itself hc "lower_band" 3 1 (second "low" 1) (second "low" 0) (to4 1) (to4 0) (by simp [minRows]) (by omega)
      (second_agree _ _ _) one_to4 ?_ ?_ m h <;> intro o ho hi <;>
      rw [(bands_day _ o ho hi 1 (by rw [table_length]; omega)).2, second_price _ _ _ low_ohlcv, if_pos rfl] <;> rfl

theorem least_place (hc : c.check = .ok (.projectionOscillator 2)) (m : ℕ) : Enough E c "posc" m ↔ 1 ≤ m := by
  refine ⟨fun h => ?_, fun h => Enough.mono (enough_day hc _ (fun i x => since 1 i (round4 (quotient
    (100 * (x "close" - roundQ 4 (x "low"))) (roundQ 4 (x "high") - roundQ 4 (x "low"))))) place_day) h⟩
  refine needs_itself hc "posc" 3 1 (second "high" 1) (second "high" 0) (to4 0) .nan (by simp [minRows]) (by omega)
    (second_agree _ _ _) (to4_ne_nan _) ?_ ?_ m h <;> intro o ho hi <;>
    rw [place_day _ o ho hi 1 (by rw [table_length]; omega), second_price _ _ _ high_ohlcv, second_price _ _ _ low_ohlcv,
      second_price _ _ _ close_ohlcv, if_pos rfl, if_neg (by decide), if_neg (by decide), since, if_neg (by omega), roundQ_zero, sub_zero,
      mul_zero]
  · rw [roundQ_one, sub_zero, quotient_fin _ _ one_ne_zero, zero_div]
  · exact quotient_none

end TTI.Window
