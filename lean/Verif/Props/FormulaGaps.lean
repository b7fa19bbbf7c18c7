import Verif.Props.FormulaVolume
import Verif.Props.FormulaRange
import Verif.Props.FormulaZero
import Verif.Props.FormulaProjection
import Verif.Lemmas.Gaps

set_option autoImplicit false

/-!
# Averages of numbers with gaps: the cases of C57, C59 and C61 in which some days have no number

An exponential average skips the days without a number, but the next number then counts more (`Spec.gapAverage`).
-/

namespace TTI.Props

open Spec

variable {E : Env} {c : Call} {f : RawFrame} {fill : Bool} {o : Obj}

/-- The day after a number an average moves by the usual fraction. -/
theorem gapMove_next (n : ℕ) : gapMove n 1 = 2 / ((n : ℚ) + 1) := by
  unfold gapMove
  simp only [pow_one]
  split
  · ring
  · rw [show 2 / ((n : ℚ) + 1) + (1 - 2 / ((n : ℚ) + 1)) = 1 by ring, div_one]

/-- The sample with pauses: every tenth day and the day after it have no range. -/
def pausing (n : ℕ) : RawFrame :=
  let data (g : ℕ → ℚ) (a b : ℚ) := (List.range n).map fun k => Val.fin (if k % 10 = 4 then a else if k % 10 = 5 then b else g k)
  ⟨true, (List.range n).map fun k => (k : ℤ), [⟨.str "high", true, data sampleHigh 40 60⟩, ⟨.str "low", true, data sampleLow 40 60⟩,
    ⟨.str "close", true, data sampleClose 40 60⟩, ⟨.str "volume", true, data sampleVolume 700 800⟩]⟩

theorem pausing_built {E : Env} {c : Call} {ind : Ind} (n : ℕ) (name : String) (i : ℕ) (v : Val) {P : (String → ℚ) → Prop}
    (h : ((construct E c (.frame (pausing n)) (.bool true)).2.map fun o => (o.ind, o.getTiData.day name i)) = .ok (ind, v))
    (hn : ∀ m ∈ ind.required, m ∈ ["high", "low", "close", "volume"]) (hP : ∀ x : String → ℚ, CloseInside x → P x) :
    ∃ o, BuiltOn E c (pausing n) true o P ∧ o.ind = ind ∧ o.getTiData.day name i = v := by
  cases hc : (construct E c (.frame (pausing n)) (.bool true)).2 with
  | error e => rw [hc] at h; simp [Except.map] at h
  | ok o =>
    rw [hc] at h
    simp only [Except.map, Except.ok.injEq, Prod.mk.injEq] at h
    refine ⟨o, ⟨?_, hc, ?_⟩, h.1, h.2⟩
    · intro c hc
      simp only [pausing, List.mem_cons, List.not_mem_nil, or_false] at hc
      rcases hc with rfl | rfl | rfl | rfl <;> simp [pausing]
    · intro k hk
      have hk' : k < n := by simpa [pausing] using hk
      let pick (g : ℕ → ℚ) (a b : ℚ) : ℚ := if k % 10 = 4 then a else if k % 10 = 5 then b else g k
      refine ⟨fun m => if m = "high" then pick sampleHigh 40 60 else if m = "low" then pick sampleLow 40 60
        else if m = "close" then pick sampleClose 40 60 else pick sampleVolume 700 800, ?_, hP _ ?_⟩
      · intro m hm
        have := hn m (h.1 ▸ hm)
        simp only [List.mem_cons, List.not_mem_nil, or_false] at this
        have e1 : "high".toLower = "high" := by decide +kernel
        have e2 : "low".toLower = "low" := by decide +kernel
        have e3 : "close".toLower = "close" := by decide +kernel
        have e4 : "volume".toLower = "volume" := by decide +kernel
        rcases this with rfl | rfl | rfl | rfl <;>
          simp [RawFrame.cell, pausing, Label.lower, e1, e2, e3, e4, List.find?, hk', pick]
      · have a2 : ((7 * k) % 11 : ℕ) ≤ (10 : ℚ) := by exact_mod_cast (by omega : (7 * k) % 11 ≤ 10)
        have b2 : (0 : ℚ) ≤ ((7 * k) % 11 : ℕ) := Nat.cast_nonneg _
        have b3 : (0 : ℚ) ≤ (k % 4 : ℕ) := Nat.cast_nonneg _
        have b4 : (0 : ℚ) ≤ (k % 3 : ℕ) := Nat.cast_nonneg _
        simp only [CloseInside, if_true, String.reduceEq, if_false, pick, sampleHigh, sampleLow, sampleClose]
        constructor <;> split_ifs <;> linarith

/-- C59: the Klinger oscillator on any prices: the days on which the range total is zero have no volume force, and the averages
skip them; the first value comes after 55 days with a force. -/
theorem C59_klinger_any (hB : BuiltOn E c f fill o AnyPrices) (ho : o.ind = .klingerOscillator) (i : ℕ) (hi : i < f.idx.length) :
    o.getTiData.day "ko" i =
      onceSeen (forceSeen f) 55 i (to4 (gapAverage 34 (forceSeen f) i - gapAverage 55 (forceSeen f) i)) := by
  obtain ⟨F, hl, hn, -, ht, hp, -⟩ := hB.on ho
  have hcl : Nums F.len 0 (close f) (F.col "close") := hn _ (by simp [Ind.required])
  have hh : Nums F.len 0 (high f) (F.col "high") := hn _ (by simp [Ind.required])
  have hlo : Nums F.len 0 (low f) (F.col "low") := hn _ (by simp [Ind.required])
  have hv : Nums F.len 0 (volume f) (F.col "volume") := hn _ (by simp [Ind.required])
  rw [guard_ok ht]
  have hs := Nums.sumCol hh hlo hcl
  generalize (zip3 _ _ _ _) = S at hs ⊢
  have hd : Nums F.len 0 (dayRange f) (subS (F.col "high") (F.col "low")) := hh.sub hlo
  generalize subS (F.col "high") (F.col "low") = D at hd ⊢
  have ht := Nums.headingCol hs
  generalize (List.map _ (subS S (shift 1 S))) = T at ht ⊢
  have hc := Nums.rangeRun ht hd
  generalize Ind.KlingerOscillator.cumulative _ = C at hc ⊢
  have h1 := ((hv.col.op ((hd.quot hc).mapV (fun x => Val.abs (Val.sub (Val.mul 2 x) 1)) rfl) Val.mul Val.nan_mul Val.mul_nan).op
    ht.col Val.mul Val.nan_mul Val.mul_nan).mapV (fun x => Val.mul x 100) rfl
  change Col _ _ _ (List.map _ (mulS (mulS _ _) _)) at h1
  generalize (List.map _ (mulS (mulS _ _) _)) = X at h1 ⊢
  have h2 : ∀ j ≤ i, found (val X j) = forceSeen f j := by
    intro j hj
    replace hj : j < F.len := by omega
    rw [h1.val j hj]
    unfold forceSeen
    by_cases h0 : j = 0
    · subst h0; simp [found]
    · rw [if_neg (by omega)]
      by_cases h3 : rangeRun f j = 0
      · rw [if_pos (Or.inr h3), h3]
        exact found_mul_left _ (found_mul_left _ (found_mul_right _ (found_abs (found_sub_left _ (found_mul_right _
          (found_quotient_zero _))))))
      · rw [if_neg (by simp [h0, h3]), quotient_ne _ _ h3]
        show found (Val.mul (Val.mul (Val.mul _ (Val.abs (Val.sub (Val.mul (.fin 2) _) (.fin 1)))) _) (.fin 100)) = _
        rw [Val.fin_mul, Val.fin_sub, Val.abs, Val.fin_mul, Val.fin_mul, Val.fin_mul]; rfl
  have hX : i < X.length := by rw [h1.len]; omega
  show val (roundS 4 (subS _ _)) i = _
  rw [val_roundS, val_subS, val_ewm_gaps 34 34 (by norm_num) (by norm_num) _ X i hX h2,
    val_ewm_gaps 55 55 (by norm_num) (by norm_num) _ X i hX h2]
  unfold onceSeen
  split_ifs <;> first | omega | rfl | (rw [Val.fin_sub]; rfl)

/-- The hypotheses of `C59_klinger_any`, with gaps. -/
example : (∃ o, BuiltOn demoEnv .klingerOscillator (pausing 64) true o AnyPrices ∧ o.ind = .klingerOscillator ∧
    o.getTiData.day "ko" 61 = .fin (-374903 / 125)) ∧ forceSeen (pausing 64) 15 = none :=
  ⟨pausing_built 64 "ko" 61 _ (by decide +kernel) (by decide) fun _ _ => trivial, by decide +kernel⟩

/-- C59: one flat day changes the Chaikin oscillator too: it is the difference of the averages of the line with decimals, which
skip the flat days. -/
theorem C59_chaikin_oscillator_flat (hB : BuiltOn E c f fill o CloseInside) (ho : o.ind = .chaikinOscillator)
    (d : ℕ) (hd : d < f.idx.length) (h0 : high f d = low f d) (i : ℕ) (hi : i < f.idx.length) :
    o.getTiData.day "co" i =
      onceSeen (flowSeen f) 10 i (to4 (gapAverage 3 (flowSeen f) i - gapAverage 10 (flowSeen f) i)) := by
  obtain ⟨F, hl, hn, hP, ht, hp, -⟩ := hB.on ho
  have hcl : Nums F.len 0 (close f) (F.col "close") := hn _ (by simp [Ind.required])
  have hh : Nums F.len 0 (high f) (F.col "high") := hn _ (by simp [Ind.required])
  have hlo : Nums F.len 0 (low f) (F.col "low") := hn _ (by simp [Ind.required])
  have hv : Nums F.len 0 (volume f) (F.col "volume") := hn _ (by simp [Ind.required])
  have hge : ¬ F.len < 10 := fun h => by
    have : Ind.calcTi E F .chaikinOscillator = .error (.notEnough 10 F.len) := by
      show Ind.ChaikinOscillator.calcTi F = _
      unfold Ind.ChaikinOscillator.calcTi
      rw [if_pos h]; rfl
    rw [this] at ht; simp at ht
  have h2 := adl_flat (F := F.sub ["close", "volume", "high", "low"]) (f := f) (hh.ofSub (by simp)) (hlo.ofSub (by simp))
    (hcl.ofSub (by simp)) (hv.ofSub (by simp)) (fun j hj h3 => by
      obtain ⟨x, hx, hb⟩ := hP j hj
      have e1 : x "close" = close f j := hx _ (by simp [Ind.required])
      have e2 : x "high" = high f j := hx _ (by simp [Ind.required])
      have e3 : x "low" = low f j := hx _ (by simp [Ind.required])
      have := hb.1
      have := hb.2
      linarith) d (by show d < F.len; omega) h0
  replace ht : Ind.ChaikinOscillator.calcTi F = .ok o.getTiData := ht
  unfold Ind.ChaikinOscillator.calcTi at ht
  rw [if_neg hge] at ht
  rw [← Except.ok.inj ht]
  replace h2 : ∀ j < F.len, _ := h2
  have hlen : (Ind.astypeInt (cumsum (Ind.moneyFlowVolume (F.sub ["close", "volume", "high", "low"])))).length = F.len := by
    rw [Ind.astypeInt_length]
    simp [cumsum, (Nums.flowCol (F := F.sub ["close", "volume", "high", "low"]) (f := f) (hh.ofSub (by simp)) (hlo.ofSub (by simp))
      (hcl.ofSub (by simp)) (hv.ofSub (by simp))).len]
  generalize Ind.astypeInt (cumsum (Ind.moneyFlowVolume (F.sub ["close", "volume", "high", "low"]))) = X at *
  show val (roundS 4 (subS (ewm 3 3 X) (ewm 10 10 X))) i = _
  have h3 : ∀ j ≤ i, found (val X j) = flowSeen f j := by
    intro j hj
    rw [h2 j (by omega)]
    unfold flowSeen
    split <;> rfl
  rw [val_roundS, val_subS, val_ewm_gaps 3 3 (by norm_num) (by norm_num) _ X i (by omega) h3,
    val_ewm_gaps 10 10 (by norm_num) (by norm_num) _ X i (by omega) h3]
  unfold onceSeen
  split_ifs <;> first | omega | rfl | (rw [Val.fin_sub]; rfl)

/-- The hypotheses of `C59_chaikin_oscillator_flat`. -/
example : (∃ o, BuiltOn demoEnv .chaikinOscillator (pausing 14) true o CloseInside ∧ o.ind = .chaikinOscillator ∧
    o.getTiData.day "co" 12 = .fin (-726857 / 5000)) ∧ 4 < (pausing 14).idx.length ∧ high (pausing 14) 4 = low (pausing 14) 4 :=
  ⟨pausing_built 14 "co" 12 _ (by decide +kernel) (by decide) fun _ h => h, by decide, by decide +kernel⟩

/-- C61: the trigger line on any prices: the days on which the bands meet have no place, and the average skips them; the first
value comes with the third place. -/
theorem C61_projection_trigger_any (hB : BuiltOn E c f fill o AnyPrices) (p : ℕ) (ho : o.ind = .projectionOscillator p) (i : ℕ)
    (hi : i < f.idx.length) (place : ℕ → Option ℚ) (h0 : ∀ j ≤ i, j + 1 < p → place j = none)
    (hq : ∀ j ≤ i, p ≤ j + 1 → ∃ bh bl, BestSlope (high f) p j bh ∧ BestSlope (low f) p j bl ∧
      place j = found (projectionPlace f p bh bl j)) :
    o.getTiData.day "trigger_line" i = onceSeen place 3 i (to4 (gapAverage 3 place i)) := by
  obtain ⟨idx, X, hp, e, h1⟩ := projection_columns hB p ho
  rw [e]
  show val (roundS 4 _) i = _
  rw [val_roundS, val_ewm_gaps 3 3 (by norm_num) (by norm_num) place X i (by rw [h1.len]; exact hi) fun j hj => ?_]
  · unfold onceSeen; split_ifs <;> rfl
  · rw [h1.val j (by omega)]
    split
    · next h => rw [h0 j hj (by omega)]; rfl
    · next h =>
      obtain ⟨bh, bl, h4, h5, h6⟩ := hq j hj (by omega)
      rw [(bestSlope_iff _ p j hp (by omega) _).1 h4, (bestSlope_iff _ p j hp (by omega) _).1 h5] at h6
      exact h6.symm

/-- The hypotheses of `C61_projection_trigger_any`, with a gap. -/
example : (∃ o, BuiltOn demoEnv (.projectionOscillator (.int 2)) (pausing 8) true o AnyPrices ∧ o.ind = .projectionOscillator 2 ∧
    o.getTiData.day "trigger_line" 6 = .fin (410877 / 5000)) ∧
    ∃ place : ℕ → Option ℚ, place 5 = none ∧ (∀ j ≤ 6, j + 1 < 2 → place j = none) ∧
      ∀ j ≤ 6, 2 ≤ j + 1 → ∃ bh bl, BestSlope (high (pausing 8)) 2 j bh ∧ BestSlope (low (pausing 8)) 2 j bl ∧
        place j = found (projectionPlace (pausing 8) 2 bh bl j) :=
  ⟨pausing_built 8 "trigger_line" 6 _ (by decide +kernel) (by decide) fun _ _ => trivial,
    fun j => if j + 1 < 2 then none else found (projectionPlace (pausing 8) 2 (slopeQ (high (pausing 8)) (j + 1 - 2) 2) (slopeQ (low (pausing 8)) (j + 1 - 2) 2) j),
    by decide +kernel, by simp +contextual, fun j h1 h2 =>
    ⟨_, _, (bestSlope_iff _ 2 j (by norm_num) h2 _).2 rfl, (bestSlope_iff _ 2 j (by norm_num) h2 _).2 rfl, by
      simp only [if_neg (show ¬ j + 1 < 2 by omega)]⟩⟩

/-- C59: an idle day in the window leaves the mean of the ease of movement without a value. -/
theorem C59_ease_of_movement_mean_idle (hB : BuiltOn E c f fill o AnyPrices) (n : ℕ) (ho : o.ind = .easeOfMovement n) (i : ℕ)
    (hi : i < f.idx.length) (j : ℕ) (hj : j ≤ i) (hn : i < j + n) (h0 : volume f j = 0) : o.getTiData.day "emv_ma" i = .nan := by
  obtain ⟨idx, X, hp, e, h1⟩ := ease_columns hB n ho
  rw [e]
  show val (roundS 4 _) i = _
  rw [val_roundS, h1.rollMissing n aggMean hi hj hn fun _ q => ?_]
  · rfl
  · unfold easeVal
    rw [h0]
    by_cases h2 : dayRange f j = 0
    · rw [h2]; simp [quotient]
    · rw [quotient_ne _ _ (mul_ne_zero (by norm_num) h2), zero_div, quotient_eq]
      simp only [quotient]
      split_ifs <;> simp_all

/-- The hypotheses of `C59_ease_of_movement_mean_idle`. -/
example : (∃ o, BuiltOn demoEnv (.easeOfMovement (.int 2)) idleDay true o AnyPrices ∧ o.ind = .easeOfMovement 2 ∧
    o.getTiData.day "emv_ma" 2 = .nan) ∧ volume idleDay 1 = 0 :=
  ⟨idleDay_built "emv_ma" 2 _ (by decide +kernel) (by decide) fun _ _ => trivial, by decide +kernel⟩

/-- `n` days of which the first `m` stand still. -/
def waking (n m : ℕ) : RawFrame :=
  let data (g : ℕ → ℚ) := (List.range n).map fun k => Val.fin (if k < m then 40 else g k)
  ⟨true, (List.range n).map fun k => (k : ℤ), [⟨.str "high", true, data sampleHigh⟩, ⟨.str "low", true, data sampleLow⟩,
    ⟨.str "close", true, data sampleClose⟩]⟩

theorem waking_built {E : Env} {c : Call} {ind : Ind} (n m : ℕ) (name : String) (i : ℕ) (v : Val)
    (h : ((construct E c (.frame (waking n m)) (.bool true)).2.map fun o => (o.ind, o.getTiData.day name i)) = .ok (ind, v))
    (hn : ∀ m ∈ ind.required, m ∈ ["high", "low", "close"]) :
    ∃ o, BuiltOn E c (waking n m) true o CloseInside ∧ o.ind = ind ∧ o.getTiData.day name i = v := by
  cases hc : (construct E c (.frame (waking n m)) (.bool true)).2 with
  | error e => rw [hc] at h; simp [Except.map] at h
  | ok o =>
    rw [hc] at h
    simp only [Except.map, Except.ok.injEq, Prod.mk.injEq] at h
    refine ⟨o, ⟨?_, hc, ?_⟩, h.1, h.2⟩
    · intro c hc
      simp only [waking, List.mem_cons, List.not_mem_nil, or_false] at hc
      rcases hc with rfl | rfl | rfl <;> simp [waking]
    · intro k hk
      have hk' : k < n := by simpa [waking] using hk
      let pick (g : ℕ → ℚ) : ℚ := if k < m then 40 else g k
      refine ⟨fun m => if m = "high" then pick sampleHigh else if m = "low" then pick sampleLow else pick sampleClose, ?_, ?_⟩
      · intro m hm
        have := hn m (h.1 ▸ hm)
        simp only [List.mem_cons, List.not_mem_nil, or_false] at this
        have e1 : "high".toLower = "high" := by decide +kernel
        have e2 : "low".toLower = "low" := by decide +kernel
        have e3 : "close".toLower = "close" := by decide +kernel
        rcases this with rfl | rfl | rfl <;>
          simp [RawFrame.cell, waking, Label.lower, e1, e2, e3, List.find?, hk', pick]
      · have a2 : ((7 * k) % 11 : ℕ) ≤ (10 : ℚ) := by exact_mod_cast (by omega : (7 * k) % 11 ≤ 10)
        have b2 : (0 : ℚ) ≤ ((7 * k) % 11 : ℕ) := Nat.cast_nonneg _
        have b3 : (0 : ℚ) ≤ (k % 4 : ℕ) := Nat.cast_nonneg _
        have b4 : (0 : ℚ) ≤ (k % 3 : ℕ) := Nat.cast_nonneg _
        simp only [CloseInside, if_true, String.reduceEq, if_false, pick, sampleHigh, sampleLow, sampleClose]
        constructor <;> split_ifs <;> linarith

/-- The moves of a day are nowhere negative, and not larger than its true range. -/
theorem moves_le (f : RawFrame) (j : ℕ) (h1 : 1 ≤ j) (hc : low f (j - 1) ≤ close f (j - 1) ∧ close f (j - 1) ≤ high f (j - 1))
    (hr : low f j ≤ high f j) :
    0 ≤ plusMove f j ∧ 0 ≤ minusMove f j ∧ plusMove f j ≤ trueRange f j ∧ minusMove f j ≤ trueRange f j := by
  have h0 : 0 ≤ trueRange f j := by
    unfold trueRange
    rw [if_neg (by omega)]
    exact le_max_of_le_left (le_max_of_le_left (by linarith))
  have hp : high f j - high f (j - 1) ≤ trueRange f j := by
    unfold trueRange
    rw [if_neg (by omega)]
    exact le_max_of_le_left (le_max_of_le_right (by linarith))
  have hm : low f (j - 1) - low f j ≤ trueRange f j := by
    unfold trueRange
    rw [if_neg (by omega)]
    exact le_max_of_le_right (by linarith)
  unfold plusMove minusMove
  refine ⟨?_, ?_, ?_, ?_⟩ <;> split <;> first | linarith | skip
  all_goals (rename_i h; exact h.2.le)

/-- The contrast of a day, in all cases. -/
theorem contrastVal_cases (f : RawFrame) (i : ℕ) (hi : 14 ≤ i)
    (hc : ∀ j ≤ i, low f j ≤ close f j ∧ close f j ≤ high f j) :
    contrastVal f i = (if NoMove f i then .nan else .fin (contrast f i)) ∧ (NoMove f i → contrast f i = 0) := by
  have hmv : ∀ j, 1 ≤ j → j ≤ i → _ := fun j h1 h2 =>
    moves_le f j h1 (hc (j - 1) (by omega)) ((hc j h2).1.trans (hc j h2).2)
  have hp := total14_eq_zero (plusMove f) i (by omega) fun j h1 h2 => (hmv j h1 h2).1
  have hm := total14_eq_zero (minusMove f) i (by omega) fun j h1 h2 => (hmv j h1 h2).2.1
  have ht := total14_eq_zero (trueRange f) i (by omega) fun j h1 h2 => (hmv j h1 h2).1.trans (hmv j h1 h2).2.2.1
  have hpn := total14_nonneg (plusMove f) i (by omega) fun j h1 h2 => (hmv j h1 h2).1
  have hmn := total14_nonneg (minusMove f) i (by omega) fun j h1 h2 => (hmv j h1 h2).2.1
  have htn := total14_nonneg (trueRange f) i (by omega) fun j h1 h2 => (hmv j h1 h2).1.trans (hmv j h1 h2).2.2.1
  by_cases hq : NoMove f i
  · have e1 := hp.2 fun j h1 h2 => (hq j h2 h1).1
    have e2 := hm.2 fun j h1 h2 => (hq j h2 h1).2
    rw [if_pos hq]
    refine ⟨?_, fun _ => by unfold contrast plusLine minusLine; rw [e1, e2]; simp⟩
    by_cases h0 : total14 (trueRange f) i = 0
    · unfold contrastVal plusVal minusVal
      rw [h0, e1, e2]; simp [quotient, Val.abs]
    · rw [contrastVal_of_ne h0]
      unfold plusLine minusLine
      rw [e1, e2]; simp [quotient]
  · rw [if_neg hq]
    refine ⟨?_, fun h => absurd h hq⟩
    have h0 : total14 (trueRange f) i ≠ 0 := fun h => hq fun j h2 h1 => by
      have := ht.1 h j h1 h2
      have := hmv j h1 h2
      constructor <;> linarith
    have h1 : total14 (plusMove f) i + total14 (minusMove f) i ≠ 0 := fun h => hq fun j h2 h1 =>
      ⟨hp.1 (by linarith) j h1 h2, hm.1 (by linarith) j h1 h2⟩
    rw [contrastVal_of_ne h0]
    refine quotient_ne _ _ (abs_ne_zero.2 ?_)
    unfold plusLine minusLine
    rw [← add_div, ← mul_add]
    exact div_ne_zero (mul_ne_zero (by norm_num) h1) h0

/-- C57: the contrast, the average of the contrast and the middle of it and the average 13 days before, on any prices whose close
lies inside the day's range. The contrast is missing until the range has moved for the first time. A missing contrast
counts as zero in the mean that starts the average, but if it is still missing on day 28 the averages are missing for ever. -/
theorem C57_directional_any (hB : BuiltOn E c f fill o CloseInside) (ho : o.ind = .directionalMovementIndex) (i : ℕ)
    (hi : i < f.idx.length) :
    o.getTiData.day "dx" i = since 14 i (if NoMove f i then .nan else to4 (contrast f i)) ∧
    o.getTiData.day "adx" i = since 27 i (if 28 ≤ i ∧ NoMove f 28 then .nan else to4 (directional f i)) ∧
    o.getTiData.day "adxr" i =
      since 40 i (if NoMove f 28 then .nan else to4 ((directional f i + directional f (i - 13)) / 2)) := by
  obtain ⟨F, hl, hn, hP, ht, hp, -⟩ := hB.on ho
  have hc : ∀ j < f.idx.length, low f j ≤ close f j ∧ close f j ≤ high f j := by
    intro j hj
    obtain ⟨x, hx, hb⟩ := hP j (by omega)
    have e1 : x "close" = close f j := hx _ (by simp [Ind.required])
    have e2 : x "high" = high f j := hx _ (by simp [Ind.required])
    have e3 : x "low" = low f j := hx _ (by simp [Ind.required])
    exact ⟨e1 ▸ e3 ▸ hb.1, e1 ▸ e2 ▸ hb.2⟩
  obtain ⟨idx, P, M, D, -, -, h3, e⟩ := directional_columns (E := E) (c := c) (fill := fill)
    ⟨hB.wf, hB.ok, fun j hj => (hB.rows j hj).imp fun x hx => ⟨hx.1, trivial⟩⟩ ho
  rw [e]
  have hv : ∀ j < f.idx.length, 14 ≤ j → _ := fun j hj h14 => contrastVal_cases f j h14 fun t ht => hc t (by omega)
  have hadx : ∀ j ≤ i, val (Ind.DirectionalMovementIndex.adxOf D) j =
      since 27 j (if 28 ≤ j ∧ NoMove f 28 then .nan else .fin (directional f j)) := by
    intro j hj
    split
    · next h =>
      rw [Nums.adxLost (by rw [h3.len]; omega) h.1 (by
        rw [h3.val 28 (by omega), if_neg (by omega), (hv 28 (by omega) (by omega)).1, if_pos h.2])]
      unfold since; split <;> rfl
    · next h =>
      refine Nums.adxGaps h3.len (w := contrast f) (by omega) (fun t ht htn => by rw [h3.val t htn, if_pos ht])
        (fun t h14 h28 htn => ?_) fun t htj h28 => ?_
      · rw [h3.val t htn, if_neg (by omega), (hv t htn h14).1]
        split
        · next hq => exact .inr ⟨rfl, (hv t htn h14).2 hq⟩
        · exact .inl rfl
      · rw [h3.val t (by omega), if_neg (by omega), (hv t (by omega) (by omega)).1, if_neg]
        exact fun hq => h ⟨by omega, fun s hs => hq s (by omega)⟩
  have hlen : (Ind.DirectionalMovementIndex.adxOf D).length = f.idx.length := by
    simp [Ind.DirectionalMovementIndex.adxOf, h3.len]
  refine ⟨?_, ?_⟩
  · show val (roundS 4 D) i = _
    refine (h3.round 4).eq hi rfl fun h14 => ?_
    rw [(hv i hi h14).1]
    split <;> rfl
  generalize Ind.DirectionalMovementIndex.adxOf D = A at *
  refine ⟨?_, ?_⟩
  · show val (roundS 4 A) i = _
    rw [val_roundS, hadx i (le_refl _), round_since]
    split <;> rfl
  · show val (roundS 4 (maskBefore 40 _)) i = _
    rw [val_roundS, val_maskBefore]
    unfold since
    split
    · rfl
    · next h40 =>
      have hA := hadx i (le_refl _)
      have hB := hadx (i - 13) (by omega)
      unfold since at hA hB
      rw [if_neg (by omega)] at hA hB
      rw [val_map _ rfl, val_addS, val_shift _ _ _ (by omega), if_neg (by omega), hA, hB]
      by_cases hq : NoMove f 28
      · rw [if_pos ⟨by omega, hq⟩, if_pos hq]; simp
      · rw [if_neg fun h => hq h.2, if_neg fun h => hq h.2, if_neg hq, Val.fin_add]
        show Val.round 4 (Val.div _ (.fin 2)) = _
        rw [Val.fin_div _ _ (by norm_num)]; rfl

/-- The hypotheses of `C57_directional_any`, with prices that stand still for 20 days, and for ever. -/
example : (∃ o, BuiltOn demoEnv .directionalMovementIndex (waking 29 20) true o CloseInside ∧ o.ind = .directionalMovementIndex ∧
    o.getTiData.day "adx" 28 = .fin (4699 / 80)) ∧ NoMove (waking 29 20) 19 ∧ ¬ NoMove (waking 29 20) 28 :=
  ⟨waking_built 29 20 "adx" 28 _ (by decide +kernel) (by decide), by decide +kernel, by decide +kernel⟩

example : (∃ o, BuiltOn demoEnv .directionalMovementIndex (waking 29 29) true o CloseInside ∧ o.ind = .directionalMovementIndex ∧
    o.getTiData.day "adx" 28 = .nan) ∧ NoMove (waking 29 29) 28 :=
  ⟨waking_built 29 29 "adx" 28 _ (by decide +kernel) (by decide), by decide +kernel⟩

end TTI.Props
