import Verif.Props.Sample
import Verif.Lemmas.Col5

set_option autoImplicit false

/-!
# Volume indicators: C59
-/

namespace TTI.Props

open Spec

variable {E : Env} {c : Call} {f : RawFrame} {fill : Bool} {o : Obj}

/-- Three days, the second without range and volume. -/
def idleDay : RawFrame :=
  ⟨true, [0, 1, 2], [⟨.str "high", true, [.fin 5, .fin 4, .fin 6]⟩, ⟨.str "low", true, [.fin 3, .fin 4, .fin 2]⟩,
    ⟨.str "close", true, [.fin 4, .fin 4, .fin 5]⟩, ⟨.str "volume", true, [.fin 101, .fin 0, .fin 301]⟩]⟩

theorem idleDay_built {E : Env} {c : Call} {ind : Ind} (name : String) (i : ℕ) (v : Val) {P : (String → ℚ) → Prop}
    (h : ((construct E c (.frame idleDay) (.bool true)).2.map fun o => (o.ind, o.getTiData.day name i)) = .ok (ind, v))
    (hn : ∀ m ∈ ind.required, m ∈ ["high", "low", "close", "volume"])
    (hP : ∀ x : String → ℚ, CloseInside x → P x) :
    ∃ o, BuiltOn E c idleDay true o P ∧ o.ind = ind ∧ o.getTiData.day name i = v := by
  cases hc : (construct E c (.frame idleDay) (.bool true)).2 with
  | error e => rw [hc] at h; simp [Except.map] at h
  | ok o =>
    rw [hc] at h
    simp only [Except.map, Except.ok.injEq, Prod.mk.injEq] at h
    obtain ⟨h1, h2⟩ := h
    refine ⟨o, ⟨by decide, hc, ?_⟩, h1, h2⟩
    rw [h1]
    intro j hj
    have hj' : j < 3 := hj
    have key : ∃ x : String → ℚ, (∀ m ∈ ["high", "low", "close", "volume"], idleDay.cell m j = .fin (x m)) ∧ CloseInside x := by
      interval_cases j
      · exact ⟨fun m => if m = "high" then 5 else if m = "low" then 3 else if m = "close" then 4 else 101,
          by decide +kernel, by unfold CloseInside; decide +kernel⟩
      · exact ⟨fun m => if m = "high" then 4 else if m = "low" then 4 else if m = "close" then 4 else 0,
          by decide +kernel, by unfold CloseInside; decide +kernel⟩
      · exact ⟨fun m => if m = "high" then 6 else if m = "low" then 2 else if m = "close" then 5 else 301,
          by decide +kernel, by unfold CloseInside; decide +kernel⟩
    obtain ⟨x, hx, hb⟩ := key
    exact ⟨x, fun m hm => hx m (hn m hm), hP x hb⟩

/-- C59: the market facilitation index is the day's range per unit of volume, to ten decimals. -/
theorem C59_market_facilitation (hB : BuiltOn E c f fill o AnyPrices) (ho : o.ind = .marketFacilitationIndex) (i : ℕ)
    (hi : i < f.idx.length) :
    o.getTiData.day "mfi" i = Val.round 10 (quotient (dayRange f i) (volume f i)) := by
  obtain ⟨F, hl, hn, -, ht, hp, -⟩ := hB.on ho
  have hh : Nums F.len 0 (high f) (F.col "high") := hn _ (by simp [Ind.required])
  have hlo : Nums F.len 0 (low f) (F.col "low") := hn _ (by simp [Ind.required])
  have hv : Nums F.len 0 (volume f) (F.col "volume") := hn _ (by simp [Ind.required])
  rw [← Except.ok.inj ht]
  have := (((hh.sub hlo).quot hv).round 10).val i (hl ▸ hi)
  rw [if_neg (by omega)] at this
  exact this

/-- The hypotheses of `C59_market_facilitation` on the sample. -/
example : ∃ o, BuiltOn demoEnv (.marketFacilitationIndex) (sample 6) true o AnyPrices ∧ o.ind = .marketFacilitationIndex ∧
    o.getTiData.day "mfi" 4 = .fin (1 / 100) :=
  sample_any 6 "mfi" 4 _ (by decide +kernel) (by decide)

/-- Ease of movement as floats compute it. -/
def easeVal (f : RawFrame) (j : ℕ) : Val := Val.div (.fin (midpointMove f j)) (quotient (volume f j) (10000 * dayRange f j))

theorem easeVal_of_ne {f : RawFrame} {j : ℕ} (h : volume f j ≠ 0) : easeVal f j = .fin (easeOfMovement f j) := by
  unfold easeVal easeOfMovement
  by_cases hr : dayRange f j = 0
  · rw [hr]
    simp only [quotient, mul_zero, ne_eq, not_true, if_false, zero_div]
    rcases lt_trichotomy (volume f j) 0 with h1 | h1 | h1
    · rw [if_neg (not_lt.2 h1.le), if_pos h1]; rfl
    · exact absurd h1 h
    · rw [if_pos h1]; rfl
  · rw [quotient_ne _ _ (mul_ne_zero (by norm_num) hr), Val.fin_div _ _ (div_ne_zero h (mul_ne_zero (by norm_num) hr))]
    congr 1; field_simp

theorem ease_columns (hB : BuiltOn E c f fill o AnyPrices) (n : ℕ) (ho : o.ind = .easeOfMovement n) :
    ∃ (idx : List Int) (X : List Val), 1 ≤ n ∧
      o.getTiData = ⟨idx, [("emv", roundS 4 X), ("emv_ma", roundS 4 (rolling n n aggMean X))]⟩ ∧
      Col f.idx.length 1 (easeVal f) X := by
  obtain ⟨F, hl, hn, -, ht, hp, -⟩ := hB.on ho
  have hh : Nums F.len 0 (high f) (F.col "high") := hn _ (by simp [Ind.required])
  have hlo : Nums F.len 0 (low f) (F.col "low") := hn _ (by simp [Ind.required])
  have hv : Nums F.len 0 (volume f) (F.col "volume") := hn _ (by simp [Ind.required])
  refine ⟨_, _, hp, guard_ok ht, ?_⟩
  rw [← hl]
  exact (((hh.add hlo).sub ((hh.shift 1).add (hlo.shift 1))).scale (1 / 2)).col.op (hv.quot ((hh.sub hlo).scale 10000)) Val.div
    Val.nan_div Val.div_nan |>.congr rfl fun i _ _ => by unfold easeVal midpointMove; congr 2; ring

theorem adl_line {F : Frame} (hh : Nums F.len 0 (high f) (F.col "high")) (hlo : Nums F.len 0 (low f) (F.col "low"))
    (hcl : Nums F.len 0 (close f) (F.col "close")) (hv : Nums F.len 0 (volume f) (F.col "volume"))
    (h0 : ∀ j < F.len, high f j ≠ low f j) :
    Nums F.len 0 (flowLine f) (Ind.astypeInt (cumsum (Ind.moneyFlowVolume F))) := by
  have h1 := Nums.flowCol hh hlo hcl hv
  have h2 := cumsum_skip (Ind.moneyFlowVolume F) (fun _ => False) (flow f) fun j hj => by
    rw [h1.len] at hj
    rw [h1.val j hj, if_neg (by omega), if_neg not_false, flowVal_of_ne (h0 j hj)]
  refine Nums.astypeInt ⟨by simp [cumsum, h1.len], fun i hi => ?_⟩
  rw [h2 i (by rw [h1.len]; exact hi), if_neg not_false, if_neg (by omega)]
  simp

theorem adl_flat {F : Frame} (hh : Nums F.len 0 (high f) (F.col "high")) (hlo : Nums F.len 0 (low f) (F.col "low"))
    (hcl : Nums F.len 0 (close f) (F.col "close")) (hv : Nums F.len 0 (volume f) (F.col "volume"))
    (hc : ∀ j < F.len, high f j = low f j → close f j = low f j) (d : ℕ) (hd : d < F.len) (h0 : high f d = low f d)
    (i : ℕ) (hi : i < F.len) :
    val (Ind.astypeInt (cumsum (Ind.moneyFlowVolume F))) i = if high f i = low f i then .nan
      else .fin (∑ j ∈ Finset.range (i + 1), if high f j = low f j then 0 else flow f j) := by
  have h1 := Nums.flowCol hh hlo hcl hv
  have h2 := cumsum_skip (Ind.moneyFlowVolume F) (fun j => high f j = low f j) (flow f) fun j hj => by
    rw [h1.len] at hj
    rw [h1.val j hj, if_neg (by omega)]
    split
    · next h3 => simp [flowVal, quotient, h3, hc j hj h3]
    · next h3 => exact flowVal_of_ne h3
  unfold Ind.astypeInt
  rw [allFin_nan _ d (by simp [cumsum, h1.len]; omega) (by rw [h2 d (by rw [h1.len]; omega), if_pos h0])]
  exact h2 i (by rw [h1.len]; omega)

/-- C59: ease of movement, on a day with volume. -/
theorem C59_ease_of_movement (hB : BuiltOn E c f fill o AnyPrices) (n : ℕ) (ho : o.ind = .easeOfMovement n) (i : ℕ)
    (hi : i < f.idx.length) (h0 : volume f i ≠ 0) :
    o.getTiData.day "emv" i = since 1 i (to4 (easeOfMovement f i)) := by
  obtain ⟨idx, X, hp, e, h1⟩ := ease_columns hB n ho
  rw [e]
  exact (h1.round 4).eq hi rfl fun _ => by rw [easeVal_of_ne h0]; rfl

/-- The hypotheses of `C59_ease_of_movement` on the sample. -/
example : (∃ o, BuiltOn demoEnv (.easeOfMovement (.int 3)) (sample 6) true o AnyPrices ∧ o.ind = .easeOfMovement 3 ∧
    o.getTiData.day "emv" 4 = .fin (175 / 2)) ∧
    (volume (sample 6) 4 ≠ 0) :=
  ⟨sample_any 6 "emv" 4 _ (by decide +kernel) (by decide), by decide +kernel⟩

/-- C59: the mean of the ease of movement of `n` days with volume. -/
theorem C59_ease_of_movement_mean (hB : BuiltOn E c f fill o AnyPrices) (n : ℕ) (ho : o.ind = .easeOfMovement n) (i : ℕ)
    (hi : i < f.idx.length) (h0 : ∀ j ≤ i, i < j + n → volume f j ≠ 0) :
    o.getTiData.day "emv_ma" i = since n i (to4 (meanLast n (easeOfMovement f) i)) := by
  obtain ⟨idx, X, hp, e, h1⟩ := ease_columns hB n ho
  rw [e]
  show val (roundS 4 _) i = _
  rw [val_roundS, h1.meanLocal n hp hi fun j h2 h3 _ => easeVal_of_ne (h0 j h2 h3), round_since]
  exact since_congr (by omega) fun _ => rfl

/-- The hypotheses of `C59_ease_of_movement_mean` on the sample. -/
example : (∃ o, BuiltOn demoEnv (.easeOfMovement (.int 3)) (sample 6) true o AnyPrices ∧ o.ind = .easeOfMovement 3 ∧
    o.getTiData.day "emv_ma" 4 = .fin (35491 / 5000)) ∧
    (∀ j ≤ 4, 4 < j + 3 → volume (sample 6) j ≠ 0) :=
  ⟨sample_any 6 "emv_ma" 4 _ (by decide +kernel) (by decide), by decide +kernel⟩

/-- C59: a day without volume has no finite ease of movement: none if the day has no range either, otherwise an infinity with the
sign of the move. -/
theorem C59_ease_of_movement_idle (hB : BuiltOn E c f fill o AnyPrices) (n : ℕ) (ho : o.ind = .easeOfMovement n) (i : ℕ)
    (hi : i < f.idx.length) (h0 : volume f i = 0) (_hr : low f i ≤ high f i) :
    o.getTiData.day "emv" i = since 1 i (if dayRange f i = 0 then .nan else quotient (midpointMove f i) 0) := by
  obtain ⟨idx, X, hp, e, h1⟩ := ease_columns hB n ho
  rw [e]
  refine (h1.round 4).eq hi rfl fun _ => ?_
  unfold easeVal
  rw [h0]
  split
  · next h2 => rw [h2]; simp [quotient]
  · next h2 =>
    rw [quotient_ne _ _ (mul_ne_zero (by norm_num) h2), zero_div, quotient_eq]
    simp only [quotient]
    split_ifs <;> first | rfl | simp_all

/-- The hypotheses of `C59_ease_of_movement_idle`. -/
example : (∃ o, BuiltOn demoEnv (.easeOfMovement (.int 2)) idleDay true o AnyPrices ∧ o.ind = .easeOfMovement 2 ∧
    o.getTiData.day "emv" 1 = .nan) ∧ volume idleDay 1 = 0 ∧ low idleDay 1 ≤ high idleDay 1 :=
  ⟨idleDay_built "emv" 1 _ (by decide +kernel) (by decide) fun _ _ => trivial, by decide +kernel, by decide +kernel⟩

/-- C59: Williams' accumulation and distribution of each day, which the code does not add up. -/
theorem C59_williams (hB : BuiltOn E c f fill o AnyPrices) (ho : o.ind = .williamsAccumulationDistribution) (i : ℕ)
    (hi : i < f.idx.length) : o.getTiData.day "wad" i = since 1 i (to4 (accumulation f i)) := by
  obtain ⟨F, hl, hn, -, ht, hp, -⟩ := hB.on ho
  have hcl : Nums F.len 0 (close f) (F.col "close") := hn _ (by simp [Ind.required])
  have hh : Nums F.len 0 (high f) (F.col "high") := hn _ (by simp [Ind.required])
  have hlo : Nums F.len 0 (low f) (F.col "low") := hn _ (by simp [Ind.required])
  rw [← Except.ok.inj ht]
  have hy := hcl.shift 1
  refine Nums.eq4 (n := F.len) (k := 1) (g := accumulation f) ⟨by simp [hcl.len, hh.len, hlo.len], fun j hj => ?_⟩ (hl ▸ hi) rfl
    fun _ => rfl
  rw [val_zip4 _ _ _ _ _ _ (by rw [hcl.len]; exact hj) (by rw [hy.len]; exact hj) (by rw [hh.len]; exact hj)
    (by rw [hlo.len]; exact hj), hcl.fin hj (by omega), hy.val j hj, hh.fin hj (by omega), hlo.fin hj (by omega)]
  split
  · next h => rfl
  · next h =>
    rw [Ind.WilliamsAccumulationDistribution.row]
    show (if Val.sub (.fin (close f j)) (.fin (close f (j - 1))) <ᵥ .fin 0 then _ else
      if Val.fin 0 <ᵥ Val.sub (.fin (close f j)) (.fin (close f (j - 1))) then _ else _) = _
    rw [maxNan_fin, minNan_fin, Val.fin_sub, Val.fin_sub, Val.fin_sub, Val.fin_lt, Val.fin_lt]
    unfold accumulation
    simp only [decide_eq_true_eq, sub_neg, sub_pos]
    split_ifs <;> first | rfl | (congr 1; linarith)

/-- The hypotheses of `C59_williams` on the sample. -/
example : ∃ o, BuiltOn demoEnv (.williamsAccumulationDistribution) (sample 6) true o AnyPrices ∧ o.ind = .williamsAccumulationDistribution ∧
    o.getTiData.day "wad" 4 = .fin (-6) :=
  sample_any 6 "wad" 4 _ (by decide +kernel) (by decide)

/-- C59: Chaikin's money flow is the total money flow of `n` days relative to their total volume. -/
theorem C59_chaikin_money_flow (hB : BuiltOn E c f fill o AnyPrices) (n : ℕ) (ho : o.ind = .chaikinMoneyFlow n) (i : ℕ)
    (hi : i < f.idx.length) (h0 : ∀ j ≤ i, i < j + n → high f j ≠ low f j) :
    o.getTiData.day "cmf" i = since (n - 1) i (round4 (quotient (sumLast n (flow f) i) (sumLast n (volume f) i))) := by
  obtain ⟨F, hl, hn, -, ht, hp, -⟩ := hB.on ho
  have hcl : Nums F.len 0 (close f) (F.col "close") := hn _ (by simp [Ind.required])
  have hh : Nums F.len 0 (high f) (F.col "high") := hn _ (by simp [Ind.required])
  have hlo : Nums F.len 0 (low f) (F.col "low") := hn _ (by simp [Ind.required])
  have hv : Nums F.len 0 (volume f) (F.col "volume") := hn _ (by simp [Ind.required])
  replace hp : 1 ≤ n := hp
  rw [guard_ok ht]
  have h1 := (Nums.flowCol hh hlo hcl hv).sumLocal (g := flow f) n hp (hl ▸ hi) fun j h2 h3 _ => flowVal_of_ne (h0 j h2 h3)
  have h2 := (hv.rollSum n hp).val i (hl ▸ hi)
  show val (roundS 4 (divS _ _)) i = _
  rw [val_roundS, val_divS, h1, h2, ← round_since]
  unfold since
  split_ifs <;> first | omega | simp | rw [quotient_eq]

/-- The hypotheses of `C59_chaikin_money_flow` on the sample. -/
example : (∃ o, BuiltOn demoEnv (.chaikinMoneyFlow (.int 3)) (sample 6) true o AnyPrices ∧ o.ind = .chaikinMoneyFlow 3 ∧
    o.getTiData.day "cmf" 4 = .fin (847 / 5000)) ∧
    (∀ j ≤ 4, 4 < j + 3 → high (sample 6) j ≠ low (sample 6) j) :=
  ⟨sample_any 6 "cmf" 4 _ (by decide +kernel) (by decide), by decide +kernel⟩

/-- C59: a flat day in the window leaves Chaikin's money flow without a value. -/
theorem C59_chaikin_money_flow_flat (hB : BuiltOn E c f fill o AnyPrices) (n : ℕ) (ho : o.ind = .chaikinMoneyFlow n) (i : ℕ)
    (hi : i < f.idx.length) (j : ℕ) (hj : j ≤ i) (hn : i < j + n) (h0 : high f j = low f j) :
    o.getTiData.day "cmf" i = .nan := by
  obtain ⟨F, hl, hN, -, ht, hp, -⟩ := hB.on ho
  have hcl : Nums F.len 0 (close f) (F.col "close") := hN _ (by simp [Ind.required])
  have hh : Nums F.len 0 (high f) (F.col "high") := hN _ (by simp [Ind.required])
  have hlo : Nums F.len 0 (low f) (F.col "low") := hN _ (by simp [Ind.required])
  have hv : Nums F.len 0 (volume f) (F.col "volume") := hN _ (by simp [Ind.required])
  rw [guard_ok ht]
  have h1 := (Nums.flowCol hh hlo hcl hv).rollMissing n aggSum (hl ▸ hi) hj hn fun _ q => by
    simp only [flowVal, h0, sub_self, quotient, ne_eq, not_true, if_false]
    split_ifs <;> simp
  show val (roundS 4 (divS _ _)) i = _
  rw [val_roundS, val_divS, h1]; simp

/-- The hypotheses of `C59_chaikin_money_flow_flat`. -/
example : (∃ o, BuiltOn demoEnv (.chaikinMoneyFlow (.int 2)) idleDay true o AnyPrices ∧ o.ind = .chaikinMoneyFlow 2 ∧
    o.getTiData.day "cmf" 2 = .nan) ∧ 1 ≤ 2 ∧ 2 < 1 + 2 ∧ high idleDay 1 = low idleDay 1 :=
  ⟨idleDay_built "cmf" 2 _ (by decide +kernel) (by decide) fun _ _ => trivial, by decide, by decide, by decide +kernel⟩

/-- C59: without a flat day the accumulation distribution line is the sum of the money flows so far without its decimals. -/
theorem C59_accumulation_distribution (hB : BuiltOn E c f fill o AnyPrices) (ho : o.ind = .accumulationDistributionLine)
    (h0 : ∀ j < f.idx.length, high f j ≠ low f j) (i : ℕ) (hi : i < f.idx.length) :
    o.getTiData.day "adl" i = .fin (flowLine f i) := by
  obtain ⟨F, hl, hn, -, ht, hp, -⟩ := hB.on ho
  have hcl : Nums F.len 0 (close f) (F.col "close") := hn _ (by simp [Ind.required])
  have hh : Nums F.len 0 (high f) (F.col "high") := hn _ (by simp [Ind.required])
  have hlo : Nums F.len 0 (low f) (F.col "low") := hn _ (by simp [Ind.required])
  have hv : Nums F.len 0 (volume f) (F.col "volume") := hn _ (by simp [Ind.required])
  rw [← Except.ok.inj ht]
  exact (adl_line hh hlo hcl hv (by rw [hl]; exact h0)).fin (hl ▸ hi) (by omega)

/-- The hypotheses of `C59_accumulation_distribution` on the sample. -/
example : (∃ o, BuiltOn demoEnv (.accumulationDistributionLine) (sample 6) true o AnyPrices ∧ o.ind = .accumulationDistributionLine ∧
    o.getTiData.day "adl" 4 = .fin 270) ∧
    (∀ j < (sample 6).idx.length, high (sample 6) j ≠ low (sample 6) j) :=
  ⟨sample_any 6 "adl" 4 _ (by decide +kernel) (by decide), by decide +kernel⟩

/-- C59: one flat day changes every value of the line: decimals are kept, and flat days have no value and count nothing. -/
theorem C59_accumulation_distribution_flat (hB : BuiltOn E c f fill o CloseInside) (ho : o.ind = .accumulationDistributionLine)
    (d : ℕ) (hd : d < f.idx.length) (h0 : high f d = low f d) (i : ℕ) (hi : i < f.idx.length) :
    o.getTiData.day "adl" i = if high f i = low f i then .nan
      else .fin (∑ j ∈ Finset.range (i + 1), if high f j = low f j then 0 else flow f j) := by
  obtain ⟨F, hl, hn, hP, ht, hp, -⟩ := hB.on ho
  have hcl : Nums F.len 0 (close f) (F.col "close") := hn _ (by simp [Ind.required])
  have hh : Nums F.len 0 (high f) (F.col "high") := hn _ (by simp [Ind.required])
  have hlo : Nums F.len 0 (low f) (F.col "low") := hn _ (by simp [Ind.required])
  have hv : Nums F.len 0 (volume f) (F.col "volume") := hn _ (by simp [Ind.required])
  rw [← Except.ok.inj ht]
  refine adl_flat hh hlo hcl hv (fun j hj h3 => ?_) d (hl ▸ hd) h0 i (hl ▸ hi)
  obtain ⟨x, hx, hb⟩ := hP j hj
  have e1 : x "close" = close f j := hx _ (by simp [Ind.required])
  have e2 : x "high" = high f j := hx _ (by simp [Ind.required])
  have e3 : x "low" = low f j := hx _ (by simp [Ind.required])
  have := hb.1
  have := hb.2
  linarith

/-- The hypotheses of `C59_accumulation_distribution_flat`: the last value keeps its decimals. -/
example : (∃ o, BuiltOn demoEnv .accumulationDistributionLine idleDay true o CloseInside ∧ o.ind = .accumulationDistributionLine ∧
    o.getTiData.day "adl" 2 = .fin (301 / 2)) ∧ 1 < idleDay.idx.length ∧ high idleDay 1 = low idleDay 1 :=
  ⟨idleDay_built "adl" 2 _ (by decide +kernel) (by decide) fun _ h => h, by decide, by decide +kernel⟩

/-- C59: the Chaikin oscillator is the difference of the exponential averages of 3 and 10 days of that line. -/
theorem C59_chaikin_oscillator (hB : BuiltOn E c f fill o AnyPrices) (ho : o.ind = .chaikinOscillator)
    (h0 : ∀ j < f.idx.length, high f j ≠ low f j) (i : ℕ) (hi : i < f.idx.length) :
    o.getTiData.day "co" i = since 9 i (to4 (ema 3 0 (flowLine f) i - ema 10 0 (flowLine f) i)) := by
  obtain ⟨F, hl, hn, -, ht, hp, -⟩ := hB.on ho
  have hcl : Nums F.len 0 (close f) (F.col "close") := hn _ (by simp [Ind.required])
  have hh : Nums F.len 0 (high f) (F.col "high") := hn _ (by simp [Ind.required])
  have hlo : Nums F.len 0 (low f) (F.col "low") := hn _ (by simp [Ind.required])
  have hv : Nums F.len 0 (volume f) (F.col "volume") := hn _ (by simp [Ind.required])
  have hge : ¬ F.len < 10 := fun h => by
    have : Ind.calcTi E F .chaikinOscillator = .error (.notEnough 10 F.len) := by
      show Ind.ChaikinOscillator.calcTi F = _
      unfold Ind.ChaikinOscillator.calcTi
      rw [if_pos h]; rfl
    rw [this] at ht; simp at ht
  have h1 := adl_line (F := F.sub ["close", "volume", "high", "low"]) (f := f) (hh.ofSub (by simp)) (hlo.ofSub (by simp)) (hcl.ofSub (by simp))
    (hv.ofSub (by simp)) (by show ∀ j < F.len, _; rw [hl]; exact h0)
  replace h1 : Nums F.len 0 (flowLine f) _ := h1
  replace ht : Ind.ChaikinOscillator.calcTi F = .ok o.getTiData := ht
  unfold Ind.ChaikinOscillator.calcTi at ht
  rw [if_neg hge] at ht
  rw [← Except.ok.inj ht]
  exact ((h1.ewm 3 3 (by norm_num)).sub (h1.ewm 10 10 (by norm_num))).eq4 (hl ▸ hi) rfl fun _ => rfl

/-- The hypotheses of `C59_chaikin_oscillator` on the sample. -/
example : (∃ o, BuiltOn demoEnv (.chaikinOscillator) (sample 12) true o AnyPrices ∧ o.ind = .chaikinOscillator ∧
    o.getTiData.day "co" 10 = .fin (75011 / 2500)) ∧
    (∀ j < (sample 12).idx.length, high (sample 12) j ≠ low (sample 12) j) :=
  ⟨sample_any 12 "co" 10 _ (by decide +kernel) (by decide), by decide +kernel⟩

/-- C59: the Klinger oscillator is the difference of the exponential averages of 34 and 55 days of the volume force, as long as
the range totals are not zero. -/
theorem C59_klinger (hB : BuiltOn E c f fill o AnyPrices) (ho : o.ind = .klingerOscillator) (i : ℕ) (hi : i < f.idx.length)
    (h0 : ∀ j ≤ i, 1 ≤ j → rangeRun f j ≠ 0) :
    o.getTiData.day "ko" i = since 55 i (to4 (ema 34 1 (volumeForce f) i - ema 55 1 (volumeForce f) i)) := by
  obtain ⟨F, hl, hn, -, ht, hp, -⟩ := hB.on ho
  have hcl : Nums F.len 0 (close f) (F.col "close") := hn _ (by simp [Ind.required])
  have hh : Nums F.len 0 (high f) (F.col "high") := hn _ (by simp [Ind.required])
  have hlo : Nums F.len 0 (low f) (F.col "low") := hn _ (by simp [Ind.required])
  have hv : Nums F.len 0 (volume f) (F.col "volume") := hn _ (by simp [Ind.required])
  rw [guard_ok ht]
  have hs := Nums.sumCol hh hlo hcl
  generalize (zip3 _ _ _ _) = S at hs ⊢
  have hd : Nums F.len 0 (dayRange f) (subS (F.col "high") (F.col "low")) := hh.sub hlo
  generalize subS (F.col "high") (F.col "low") = D at hd ⊢
  have ht := Nums.headingCol hs
  generalize (List.map _ (subS S (shift 1 S))) = T at ht ⊢
  have hc := Nums.rangeRun ht hd
  generalize Ind.KlingerOscillator.cumulative _ = C at hc ⊢
  have h1 := ((hv.col.op ((hd.quot hc).mapV (fun x => Val.abs (Val.sub (Val.mul 2 x) 1)) rfl) Val.mul Val.nan_mul Val.mul_nan).op
    ht.col Val.mul Val.nan_mul Val.mul_nan).mapV (fun x => Val.mul x 100) rfl
  change Col _ _ _ (List.map _ (mulS (mulS _ _) _)) at h1
  have h2 (s : ℕ) (hs : 1 ≤ s) := h1.ewmLocal (g := volumeForce f) s s hs (i := i) (hl ▸ hi) fun j h2 h3 => by
    simp only [quotient_ne _ _ (h0 j h2 h3)]
    show Val.mul (Val.mul (Val.mul _ (Val.abs (Val.sub (Val.mul (.fin 2) _) (.fin 1)))) _) (.fin 100) = _
    rw [Val.fin_mul, Val.fin_sub, Val.abs, Val.fin_mul, Val.fin_mul, Val.fin_mul]; rfl
  show val (roundS 4 (subS _ _)) i = _
  rw [val_roundS, val_subS, h2 34 (by norm_num), h2 55 (by norm_num)]
  simp only [max_self, show max 0 1 = 1 from rfl]
  unfold since
  split_ifs <;> first | omega | rfl | (rw [Val.fin_sub]; rfl)

/-- The hypotheses of `C59_klinger` on the sample. -/
example : (∃ o, BuiltOn demoEnv (.klingerOscillator) (sample 57) true o AnyPrices ∧ o.ind = .klingerOscillator ∧
    o.getTiData.day "ko" 56 = .fin (-20304681 / 10000)) ∧
    (∀ j ≤ 56, 1 ≤ j → rangeRun (sample 57) j ≠ 0) :=
  ⟨sample_any 57 "ko" 56 _ (by decide +kernel) (by decide), by decide +kernel⟩

end TTI.Props
