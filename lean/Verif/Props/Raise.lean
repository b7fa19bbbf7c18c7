import Verif.Lemmas.RaiseObj
import Verif.Props.Scale

set_option autoImplicit false

/-!
# C69: raising all prices by the same amount

Specification: `Verif/Spec/Raise.lean`.
-/

namespace TTI.Props

open TTI.Spec

theorem construct_level (E : Env) (c : Call) (fill : PyArg) (f : RawFrame) (k : ℚ) (hw : WF f)
    (h : ∀ ind, c.check = .ok ind → isLevel ind = true) (hk : WholeSteps k)
    (hn : ∀ ind b, c.check = .ok ind → fill = .bool b → zeroForMissing ind = true → NumbersFor f ind.required b) :
    (construct E c (.frame (raised k f)) fill).2 =
      (construct E c (.frame f) fill).2.map (Obj.both (Frame.raise k) (plusAll k)) :=
  construct_both E c fill f _ (fun ind _ b => validate_raised k f ind.required b) fun ind hi b F hb hv => by
    have ok := validated_raiseOk k c f ind b F hw hi hv (fun _ => hk) (hn ind b hi hb)
    exact ⟨calcTi_level k E ind (h ind hi) F ok, inputAfter_raise k ind ok.pos F⟩

theorem construct_ignores (E : Env) (c : Call) (fill : PyArg) (f : RawFrame) (k : ℚ) (hw : WF f)
    (h : ∀ ind, c.check = .ok ind → ignoresLevel ind = true)
    (hk : ∀ ind, c.check = .ok ind → roundsLevel ind = true → WholeSteps k)
    (hn : ∀ ind b, c.check = .ok ind → fill = .bool b → zeroForMissing ind = true → NumbersFor f ind.required b) :
    (construct E c (.frame (raised k f)) fill).2 =
      (construct E c (.frame f) fill).2.map (Obj.both (Frame.raise k) id) :=
  construct_both E c fill f _ (fun ind _ b => validate_raised k f ind.required b) fun ind hi b F hb hv => by
    have ok := validated_raiseOk k c f ind b F hw hi hv (hk ind hi) (hn ind b hi hb)
    refine ⟨?_, inputAfter_raise k ind ok.pos F⟩
    rw [calcTi_ignores k E ind (h ind hi) F ok]
    cases ind.calcTi E F <;> rfl

/-- C69: for the classes `isLevel`, adding `k`, a multiple of 0.0002, to all prices leaves the outcome of the construction
unchanged and adds exactly `k` to every indicator value that is a number (a missing value stays missing), including the
rounding to 4 decimals. -/
theorem C69_level_values (E : Env) (c : Call) (fill : PyArg) (f : RawFrame) (k : ℚ) (hw : WF f)
    (h : ∀ ind, c.check = .ok ind → isLevel ind = true) (hk : WholeSteps k)
    (hn : ∀ ind b, c.check = .ok ind → fill = .bool b → zeroForMissing ind = true → NumbersFor f ind.required b) :
    (construct E c (.frame (raised k f)) fill).2.map Obj.getTiData =
      (construct E c (.frame f) fill).2.map fun o => plusAll k o.getTiData := by
  rw [construct_level E c fill f k hw h hk hn]
  cases (construct E c (.frame f) fill).2 <;> rfl

/-- C69: for these classes every sequence of API calls on the two objects gives the same results up to the `k` added to
the indicator values: the signals and the simulations (with the same close values) are the same. -/
theorem C69_level_calls (E : Env) (c : Call) (fill : PyArg) (f : RawFrame) (k : ℚ) (hw : WF f)
    (h : ∀ ind, c.check = .ok ind → isLevel ind = true) (hk : WholeSteps k)
    (hn : ∀ ind b, c.check = .ok ind → fill = .bool b → zeroForMissing ind = true → NumbersFor f ind.required b)
    (calls : List ApiCall) :
    (construct E c (.frame (raised k f)) fill).2.map (fun o => (o.steps calls).2) =
      (construct E c (.frame f) fill).2.map fun o => (o.steps calls).2.map (plusResult k) := by
  rw [construct_level E c fill f k hw h hk hn]
  cases ho : (construct E c (.frame f) fill).2 with
  | error e => rfl
  | ok o =>
    simp only [Except.map]
    have hi := construct_check E c _ fill o ho
    congr 1
    refine Moves.steps (plusResult k) (fun _ => rfl) (plusResult_value k _) (fun _ => rfl) (fun _ => rfl) calls
      (moves_level k o.ind (h _ hi)) ?_
    cases fill <;> first | (simp [construct, hi] at ho; done) | skip
    obtain ⟨ind, F, T, hc, hv, -, rfl⟩ := (construct_ok_iff _ _ _ _ _).1 ho
    refine level_no_volume ind (h _ hc) F fun col hcol => ?_
    exact (validated_good f _ _ _ hw hv).1.only _ (List.mem_map_of_mem hcol)

/-- C69: for the classes `ignoresLevel`, adding `k` to all prices leaves the outcome of the construction and all indicator
values unchanged. Only for the classes `roundsLevel` among them (MACD and the Projection Oscillator, which subtract rounded
price levels) `k` has to be a multiple of 0.0002. -/
theorem C69_unchanged_values (E : Env) (c : Call) (fill : PyArg) (f : RawFrame) (k : ℚ) (hw : WF f)
    (h : ∀ ind, c.check = .ok ind → ignoresLevel ind = true)
    (hk : ∀ ind, c.check = .ok ind → roundsLevel ind = true → WholeSteps k)
    (hn : ∀ ind b, c.check = .ok ind → fill = .bool b → zeroForMissing ind = true → NumbersFor f ind.required b) :
    (construct E c (.frame (raised k f)) fill).2.map Obj.getTiData =
      (construct E c (.frame f) fill).2.map Obj.getTiData := by
  rw [construct_ignores E c fill f k hw h hk hn]
  cases (construct E c (.frame f) fill).2 <;> rfl

/-- C69: and except for the Average True Range and the Vertical Horizontal Filter every sequence of API calls on the two
objects gives the same results. -/
theorem C69_unchanged_calls (E : Env) (c : Call) (fill : PyArg) (f : RawFrame) (k : ℚ) (hw : WF f)
    (h : ∀ ind, c.check = .ok ind → ignoresLevel ind = true ∧ signalUsesLevel ind = false)
    (hk : ∀ ind, c.check = .ok ind → roundsLevel ind = true ∨ signalRounds ind = true → WholeSteps k)
    (hn : ∀ ind b, c.check = .ok ind → fill = .bool b → zeroForMissing ind = true → NumbersFor f ind.required b)
    (calls : List ApiCall) :
    (construct E c (.frame (raised k f)) fill).2.map (fun o => (o.steps calls).2) =
      (construct E c (.frame f) fill).2.map fun o => (o.steps calls).2 := by
  rw [construct_ignores E c fill f k hw (fun ind hi => (h ind hi).1) (fun ind hi hr => hk ind hi (Or.inl hr)) hn]
  cases ho : (construct E c (.frame f) fill).2 with
  | error e => rfl
  | ok o =>
    simp only [Except.map]
    have hi := construct_check E c _ fill o ho
    obtain ⟨h1, h2⟩ := h o.ind hi
    rw [Moves.steps (g := Frame.raise k) (t := id) id (fun _ => rfl) (fun p d => by
        show _ = ApiResult.value _
        rcases d with _ | _ | d <;> rfl) (fun _ => rfl) (fun _ => rfl) calls
      (moves_ignores k o.ind h1 h2 fun hr => hk _ hi (Or.inr hr)) trivial, List.map_id]

/-! ## What does not hold -/

/-- C69: the Momentum is neither: it divides prices by each other. -/
theorem C69_momentum_witness (E : Env) :
    (construct E (.momentum (.int 1)) (.frame ⟨true, [1, 2], [⟨.str "close", true, [.fin 1, .fin 2]⟩]⟩) (.bool true)).2.map
      (fun o => o.getTiData.day "mom" 1) = .ok (.fin 200) ∧
    (construct E (.momentum (.int 1)) (.frame (raised 1 ⟨true, [1, 2], [⟨.str "close", true, [.fin 1, .fin 2]⟩]⟩)) (.bool true)).2.map
      (fun o => o.getTiData.day "mom" 1) = .ok (.fin 150) := by
  have hE : ∀ (x : InputArg), construct E (.momentum (.int 1)) x (.bool true) =
      construct demoEnv (.momentum (.int 1)) x (.bool true) := fun _ => rfl
  rw [hE, hE]
  exact ⟨by decide +kernel, by decide +kernel⟩

/-- Two closes whose mean is halfway between two numbers of 4 decimals. -/
def halfway : RawFrame := ⟨true, [1, 2], [⟨.str "close", true, [.fin 1, .fin (10001 / 10000)]⟩]⟩

/-- C69: `k` has to be a multiple of 0.0002: after adding 0.0001 the mean is rounded to the other side, because ties go to
the even digit, and the moving average rises by 0.0002. -/
theorem C69_tie_witness (E : Env) :
    (construct E (.movingAverage (.int 2) (.str "simple")) (.frame halfway) (.bool true)).2.map
      (fun o => o.getTiData.day "ma-simple" 1) = .ok (.fin 1) ∧
    (construct E (.movingAverage (.int 2) (.str "simple")) (.frame (raised (1 / 10000) halfway)) (.bool true)).2.map
      (fun o => o.getTiData.day "ma-simple" 1) = .ok (.fin (10002 / 10000)) := by
  have hE : ∀ (x : InputArg), construct E (.movingAverage (.int 2) (.str "simple")) x (.bool true) =
      construct demoEnv (.movingAverage (.int 2) (.str "simple")) x (.bool true) := fun _ => rfl
  rw [hE, hE]
  exact ⟨by decide +kernel, by decide +kernel⟩

/-- Three closes, one of them missing. -/
def oneMissing : RawFrame := ⟨true, [1, 2, 3], [⟨.str "close", true, [.fin 3, .nan, .fin 3]⟩]⟩

/-- C69: for the classes `zeroForMissing` the data have to be complete: the Linear Regression Indicator takes a missing
close for zero (with `fill_missing_values=False`), so the line rises by less than the prices. -/
theorem C69_missing_witness (E : Env) :
    (construct E (.linearRegressionIndicator (.int 3)) (.frame oneMissing) (.bool false)).2.map
      (fun o => o.getTiData.day "lri" 2) = .ok (.fin 2) ∧
    (construct E (.linearRegressionIndicator (.int 3)) (.frame (raised 1 oneMissing)) (.bool false)).2.map
      (fun o => o.getTiData.day "lri" 2) = .ok (.fin (26667 / 10000)) := by
  have hE : ∀ (x : InputArg), construct E (.linearRegressionIndicator (.int 3)) x (.bool false) =
      construct demoEnv (.linearRegressionIndicator (.int 3)) x (.bool false) := fun _ => rfl
  rw [hE, hE]
  exact ⟨by decide +kernel, by decide +kernel⟩

/-- Fourteen rising bars. -/
def risingBars : RawFrame :=
  ⟨true, (List.range 14).map fun i => (i : ℤ), [⟨.str "high", true, (List.range 14).map fun (i : ℕ) => .fin ((i : ℚ) + 21)⟩,
    ⟨.str "low", true, (List.range 14).map fun (i : ℕ) => .fin ((i : ℚ) + 19)⟩,
    ⟨.str "close", true, (List.range 14).map fun (i : ℕ) => .fin ((i : ℚ) + 20)⟩]⟩

/-- C69: the signal of the Average True Range depends on the level: it compares the range with a percentage of the close. -/
theorem C69_average_true_range_witness (E : Env) :
    (construct E .averageTrueRange (.frame risingBars) (.bool true)).2.map Obj.getTiSignal = .ok (.ok .buy) ∧
    (construct E .averageTrueRange (.frame (raised 1000 risingBars)) (.bool true)).2.map Obj.getTiSignal = .ok (.ok .hold) := by
  have hE : ∀ (x : InputArg), construct E .averageTrueRange x (.bool true) = construct demoEnv .averageTrueRange x (.bool true) :=
    fun _ => rfl
  rw [hE, hE]
  exact ⟨by decide +kernel, by decide +kernel⟩

/-- Twenty-two closes. -/
def unsteadyCloses : RawFrame :=
  ⟨true, (List.range 22).map fun i => (i : ℤ), [⟨.str "close", true,
    [.fin 45, .fin 41, .fin 22, .fin 22, .fin 46, .fin 19, .fin 18, .fin 17, .fin 31, .fin 37, .fin 31,
     .fin 23, .fin 45, .fin 30, .fin 22, .fin 18, .fin 12, .fin 40, .fin 20, .fin 49, .fin 20, .fin 44]⟩]⟩

/-- C69: so does the signal of the Vertical Horizontal Filter, which asks the Momentum. -/
theorem C69_vertical_horizontal_filter_witness (E : Env) :
    (construct E (.verticalHorizontalFilter (.int 2)) (.frame unsteadyCloses) (.bool true)).2.map Obj.getTiSignal =
      .ok (.ok .hold) ∧
    (construct E (.verticalHorizontalFilter (.int 2)) (.frame (raised 1000 unsteadyCloses)) (.bool true)).2.map
      Obj.getTiSignal = .ok (.ok .sell) := by
  have hE : ∀ (x : InputArg), construct E (.verticalHorizontalFilter (.int 2)) x (.bool true) =
      construct demoEnv (.verticalHorizontalFilter (.int 2)) x (.bool true) := fun _ => rfl
  rw [hE, hE]
  exact ⟨by decide +kernel, by decide +kernel⟩

/-! ## The hypotheses are met -/

/-- `C69_level_calls` applies to the Linear Regression Indicator on data with a gap that is filled; the value is a number
and moves, the signal does not. -/
example : WF oneMissing ∧
    (∀ ind, (Call.linearRegressionIndicator (.int 3)).check = .ok ind → isLevel ind = true ∧ zeroForMissing ind = true ∧
      NumbersFor oneMissing ind.required true) ∧ WholeSteps (5 / 100) ∧
    (construct demoEnv (.linearRegressionIndicator (.int 3)) (.frame (raised (5 / 100) oneMissing)) (.bool true)).2.map
      (fun o => (o.getTiData.day "lri" 2, o.getTiSignal)) = .ok (.fin (305 / 100), .ok .hold) := by
  refine ⟨by unfold WF; decide, ?_, ⟨250, by norm_num⟩, by decide +kernel⟩
  intro ind h
  cases h
  refine ⟨rfl, rfl, ?_⟩
  intro c hc n _ _
  simp only [oneMissing, List.mem_singleton] at hc
  subst hc
  exact ⟨fun v hv => by
    simp only [List.mem_cons, List.not_mem_nil, or_false] at hv
    rcases hv with rfl | rfl | rfl
    · exact Or.inl ⟨_, rfl⟩
    · exact Or.inr ⟨rfl, rfl⟩
    · exact Or.inl ⟨_, rfl⟩, 3, by simp⟩

/-- `C69_unchanged_calls` applies to Chaikin Money Flow, for every `k`. -/
example : WF demoVolumeBars ∧
    (∀ ind, (Call.chaikinMoneyFlow (.int 2)).check = .ok ind → ignoresLevel ind = true ∧ signalUsesLevel ind = false ∧
      roundsLevel ind = false ∧ signalRounds ind = false ∧ zeroForMissing ind = false) ∧
    raised 7 demoVolumeBars ≠ demoVolumeBars ∧
    (construct demoEnv (.chaikinMoneyFlow (.int 2)) (.frame (raised 7 demoVolumeBars)) (.bool true)).2.map
      (fun o => o.getTiData.day "cmf" 2) = .ok (.fin (1667 / 10000)) := by
  refine ⟨by unfold WF; decide, ?_, by decide +kernel, by decide +kernel⟩
  intro ind h
  cases h
  exact ⟨rfl, rfl, rfl, rfl, rfl⟩

end TTI.Props
