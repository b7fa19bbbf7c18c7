import Verif.Lemmas.Built
import Verif.Props.Validate2

set_option autoImplicit false

/-!
# Construction and shape of the indicators, totality of the signals (C32-C34)
-/

namespace TTI.Props

/-- An environment for the examples. -/
def demoEnv : Env := ⟨id, fun _ => []⟩

/-- Two rows in the wrong order, for the examples. -/
def demoPrices : RawFrame := ⟨true, [2, 1], [⟨.str "close", true, [.fin 12, .fin 10]⟩]⟩

/-- C32: on valid data the constructor raises NotEnoughInputData exactly when there are fewer rows than the table
`Spec.minRows` says for the accepted parameters, reporting the required number (`Spec.reportedRows`: the same, but 2 for the
Average True Range) and the number found; otherwise the object is built. -/
theorem C32_not_enough_iff (E : Env) (c : Call) (ind : Ind) (f : RawFrame) (fill : Bool) (hw : WF f)
    (hc : c.check = .ok ind) (hv : ∃ F, (validateInputData (.frame f) ind.required fill).2 = .ok F) :
    (f.idx.length < Spec.minRows ind →
      (construct E c (.frame f) (.bool fill)).2 = .error (.notEnough (Spec.reportedRows ind) f.idx.length)) ∧
    (Spec.minRows ind ≤ f.idx.length → ∃ o, (construct E c (.frame f) (.bool fill)).2 = .ok o ∧ o.ind = ind) := by
  obtain ⟨F, hF⟩ := hv
  obtain ⟨hg, hi⟩ := validated_good f _ _ _ hw hF
  have hlen : F.len = f.idx.length := by
    unfold Frame.len; rw [hi, (sortIdx_perm _).length_eq]
  have hout := calcTi_outcome E ind F hg.wf hg.has hg.rows
  unfold Outcome at hout
  rw [hlen] at hout
  rcases hv : validateInputData (.frame f) ind.required fill with ⟨caller, r⟩
  rw [hv] at hF
  simp only at hF
  subst hF
  constructor
  · intro hlt
    rcases hout with ⟨-, h⟩ | ⟨h, -⟩
    · simp only [construct, hc, hv, h]
    · omega
  · intro hle
    rcases hout with ⟨h, -⟩ | ⟨-, T, h, -⟩
    · omega
    · exact ⟨⟨ind, ind.inputAfter F, T⟩, by simp only [construct, hc, hv, h], rfl⟩

example : WF demoPrices ∧ (Call.momentum (.int 2)).check = .ok (.momentum 2) ∧ Spec.minRows (.momentum 2) = 2 ∧
    (Call.momentum (.int 3)).check = .ok (.momentum 3) ∧ Spec.minRows (.momentum 3) = 3 ∧
    (validateInputData (.frame demoPrices) (Ind.momentum 2).required true).2 =
      .ok ⟨[1, 2], [("close", [.fin 10, .fin 12])]⟩ := by
  refine ⟨?_, by decide, by decide, by decide, by decide, by decide +kernel⟩
  unfold WF; decide

/-- C33: the indicator data of a constructed object has the columns of the table `Spec.columns`, one value per date in each,
and its dates are the dates of the input in ascending order; for the Detrended Price Oscillator the last `1 + period//2`
dates are missing. -/
theorem C33_shape (E : Env) (c : Call) (f : RawFrame) (fill : Bool) (o : Obj) (hw : WF f)
    (h : (construct E c (.frame f) (.bool fill)).2 = .ok o) :
    o.getTiData.cols.map (·.1) = Spec.columns o.ind ∧
    (∀ col ∈ o.getTiData.cols, col.2.length = o.getTiData.idx.length) ∧
    ((∀ p, o.ind ≠ .detrendedPriceOscillator p) → o.getTiData.idx = sortIdx f.idx) ∧
    (∀ p, o.ind = .detrendedPriceOscillator p →
      o.getTiData.idx = (sortIdx f.idx).take (f.idx.length - (1 + p / 2))) := by
  obtain ⟨hs, -, hi, hl, -⟩ := construct_sound E c f fill o hw h
  have hd := hs.dates
  rw [hi, hl] at hd
  refine ⟨hs.shaped.tiNames, hs.shaped.tiWf, ?_, ?_⟩
  · intro hp
    show o.ti.idx = _
    rw [hd, rowsOut_eq _ _ hp]
    exact List.take_of_length_le (le_of_eq (sortIdx_perm _).length_eq)
  · intro p hp
    show o.ti.idx = _
    rw [hd, hp]
    rfl

example : (construct demoEnv (.momentum (.int 1)) (.frame demoPrices) (.bool true)).2 =
    .ok ⟨.momentum 1, ⟨[1, 2], [("close", [.fin 10, .fin 12])]⟩, ⟨[1, 2], [("mom", [.nan, .fin 120])]⟩⟩ := by
  decide +kernel

/-- The indicator data on which `getTiSignal` raises: Median Price of period 1 with one row; Range Indicator whose last two
values cross 70 upwards while no value is below 20. -/
def SignalRaises (ind : Ind) (T : Frame) : Prop :=
  (ind = .medianPrice 1 ∧ T.idx.length = 1) ∨
  ∃ p s pre a b, ind = .rangeIndicator p s ∧ T.col "ri" = pre ++ [a, b] ∧ Val.lt a 70 = true ∧ Val.lt 70 b = true ∧
    ∀ v ∈ pre ++ [a], Val.lt v 20 = false

theorem seventy_not_below_twenty (b : Val) (h : Val.lt 70 b = true) : Val.lt b 20 = false := by
  cases b with
  | nan => rfl
  | pinf => rfl
  | ninf => exact absurd h (by decide)
  | fin q =>
    have h' : ((70 : ℚ) < q) := by simpa [Val.lt] using h
    have : ¬ q < 20 := by linarith
    simpa [Val.lt] using this

theorem raises_iff (ind : Ind) (F T : Frame) (h : Shaped ind F T) : Raises ind F T ↔ SignalRaises ind T := by
  have hT := h.tcol
  unfold Raises SignalRaises
  constructor
  · rintro (h1 | ⟨⟨p, s, rfl⟩, h2, ha, hb, -, hall⟩)
    · exact Or.inl h1
    · right
      have hc := hT "ri" (by simp [Spec.columns])
      obtain ⟨pre, hpre⟩ := last_two (T.col "ri") (by omega)
      refine ⟨p, s, pre, _, _, rfl, hpre, ha, hb, ?_⟩
      intro v hv
      have : v ∈ T.col "ri" := by
        rw [hpre]
        simp only [List.mem_append, List.mem_cons, List.not_mem_nil, or_false] at hv ⊢
        tauto
      simpa using hall v this
  · rintro (h1 | ⟨p, s, pre, a, b, rfl, hpre, ha, hb, hall⟩)
    · exact Or.inl h1
    · right
      have hc := hT "ri" (by simp [Spec.columns])
      obtain ⟨e2, e1⟩ := last_append pre a b
      rw [hpre] at hc ⊢
      refine ⟨⟨p, s, rfl⟩, by rw [← hc]; simp, by rw [e2]; exact ha, by rw [e1]; exact hb, ?_, ?_⟩
      · rintro ⟨h0, -⟩
        rw [e2, hall a (by simp)] at h0
        simp at h0
      · intro v hv
        simp only [List.mem_append, List.mem_cons, List.not_mem_nil, or_false] at hv
        rcases hv with hv | rfl | rfl
        · rw [hall v (by simp [hv])]; simp
        · rw [hall v (by simp)]; simp
        · rw [seventy_not_below_twenty _ hb]; simp

theorem sound_signal (o : Obj) (h : o.Sound) :
    (SignalRaises o.ind o.ti → o.getTiSignal = .error .indexError) ∧
    (¬ SignalRaises o.ind o.ti → ∃ s, o.getTiSignal = .ok s) :=
  ⟨fun hr => signal_raises _ _ _ h.shaped ((raises_iff _ _ _ h.shaped).2 hr),
    fun hr => signal_total _ _ _ h.shaped (mt (raises_iff _ _ _ h.shaped).1 hr) h.params⟩

/-- C34: the signal of a constructed object, and of the object cut at any row as the simulation does, is returned without
an exception unless the data is in the set `SignalRaises`, on which it raises IndexError. Every row of the indicator data
can be cut at. -/
theorem C34_signal_total (E : Env) (c : Call) (f : RawFrame) (fill : Bool) (o : Obj) (hw : WF f)
    (h : (construct E c (.frame f) (.bool fill)).2 = .ok o) :
    (SignalRaises o.ind o.ti → o.getTiSignal = .error .indexError) ∧
    (¬ SignalRaises o.ind o.ti → ∃ s, o.getTiSignal = .ok s) ∧
    (∀ i, i < o.getTiData.idx.length → ∃ o', o.cut i = some o' ∧ o'.ind = o.ind) ∧
    ∀ i o', o.cut i = some o' →
      (SignalRaises o'.ind o'.ti → o'.getTiSignal = .error .indexError) ∧
      (¬ SignalRaises o'.ind o'.ti → ∃ s, o'.getTiSignal = .ok s) := by
  obtain ⟨hs, -⟩ := construct_sound E c f fill o hw h
  refine ⟨(sound_signal o hs).1, (sound_signal o hs).2, ?_, ?_⟩
  · intro i hi
    obtain ⟨d, -, -, h3⟩ := cut_eq o hs i hi
    exact ⟨_, h3, rfl⟩
  · intro i o' hc
    exact sound_signal o' (cut_sound o o' hs i hc).1

/-- C34: apart from Median Price and Range Indicator no signal ever raises. -/
theorem C34_other_indicators (E : Env) (c : Call) (f : RawFrame) (fill : Bool) (o : Obj) (hw : WF f)
    (h : (construct E c (.frame f) (.bool fill)).2 = .ok o) (h1 : o.ind ≠ .medianPrice 1)
    (h2 : ∀ p s, o.ind ≠ .rangeIndicator p s) :
    (∃ s, o.getTiSignal = .ok s) ∧ ∀ i o', o.cut i = some o' → ∃ s, o'.getTiSignal = .ok s := by
  obtain ⟨hs, -⟩ := construct_sound E c f fill o hw h
  have key : ∀ T, ¬ SignalRaises o.ind T := by
    rintro T (⟨h, -⟩ | ⟨p, s, -, -, -, h, -⟩)
    · exact h1 h
    · exact h2 p s h
  refine ⟨(sound_signal o hs).2 (key _), fun i o' hc => ?_⟩
  obtain ⟨hs', hi, -⟩ := cut_sound o o' hs i hc
  exact (sound_signal o' hs').2 (by rw [hi]; exact key _)

example : ∃ o, (construct demoEnv (.momentum (.int 1)) (.frame demoPrices) (.bool true)).2 = .ok o ∧
    o.ind ≠ .medianPrice 1 ∧ o.getTiSignal = .ok .hold :=
  ⟨⟨.momentum 1, ⟨[1, 2], [("close", [.fin 10, .fin 12])]⟩, ⟨[1, 2], [("mom", [.nan, .fin 120])]⟩⟩,
    by decide +kernel, by decide, by decide +kernel⟩

/-- One row of prices for the Median Price. -/
def demoOne : RawFrame :=
  ⟨true, [1], [⟨.str "high", true, [.fin 3]⟩, ⟨.str "low", true, [.fin 1]⟩, ⟨.str "close", true, [.fin 2]⟩]⟩

/-- The exceptional sets are inhabited. -/
example : ∃ o, (construct demoEnv (.medianPrice (.int 1)) (.frame demoOne) (.bool true)).2 = .ok o ∧
    SignalRaises o.ind o.ti ∧ o.getTiSignal = .error .indexError := by
  refine ⟨⟨.medianPrice 1, ⟨[1], [("high", [.fin 3]), ("low", [.fin 1]), ("close", [.fin 2]), ("close_ema", [.fin 2])]⟩,
    ⟨[1], [("mp", [.fin 2])]⟩⟩, by decide +kernel, Or.inl ⟨rfl, rfl⟩, by decide +kernel⟩

end TTI.Props
