import Verif.Props.Heap

set_option autoImplicit false

/-! # Passing the data of an indicator back to the library: C95 -/

namespace TTI.Props

open Spec Heap

/-- The frame with its labels in lower case. -/
def loweredFrame (T : Frame) : Frame := ⟨T.idx, T.cols.map fun c => (c.1.toLower, c.2)⟩

theorem required_prices (ind : Ind) :
    ind.required ≠ [] ∧ ∀ s ∈ ind.required, s ∈ ["high", "low", "open", "close", "volume"] := by
  cases ind <;> simp only [Ind.required] <;> exact ⟨by decide, by decide⟩

/-- No class calls a column of its data `high`, `low`, `open`, `close` or `volume`, in any case. -/
theorem columns_no_prices (ind : Ind) : ∀ s ∈ columns ind, s.toLower ∉ ["high", "low", "open", "close", "volume"] := by
  cases ind
  case movingAverage p t => cases t <;> simp only [columns] <;> decide +kernel
  case performance b t => cases b <;> simp only [columns] <;> decide +kernel
  all_goals (simp only [columns]; decide +kernel)

/-- The labels of every class but two are in lower case. -/
theorem columns_lower (ind : Ind) (h1 : ∀ a b c d, ind ≠ .stochasticOscillator a b c d) (h2 : ∀ a b, ind ≠ .performance a b) :
    ∀ s ∈ columns ind, s.toLower = s := by
  cases ind
  case stochasticOscillator a b c d => exact absurd rfl (h1 a b c d)
  case performance a b => exact absurd rfl (h2 a b)
  case movingAverage p t => cases t <;> simp only [columns] <;> decide +kernel
  all_goals (simp only [columns]; decide +kernel)

theorem lowerLabels_toRaw (T : Frame) :
    lowerLabels T.toRaw.cols = some (T.cols.map fun c => (c.1.toLower, ⟨.str c.1, true, c.2⟩)) := by
  unfold Frame.toRaw
  induction T.cols with
  | nil => rfl
  | cons c cs ih => simp only [List.map_cons, lowerLabels, ih, Label.lower]

theorem fed_validate (T : Frame) (ind : Ind) (hn : T.cols.map (·.1) = columns ind) (required : List String) (fill : Bool)
    (hr : required ≠ [] ∧ ∀ s ∈ required, s ∈ ["high", "low", "open", "close", "volume"]) :
    validateInputData (.frame T.toRaw) required fill =
      (.frame (if T.idx = [] ∨ T.cols = [] then T else loweredFrame T).toRaw, .error .valueError) := by
  unfold validateInputData
  simp only [lowerLabels_toRaw]
  have e1 : T.toRaw.datetimeIndex = true := rfl
  have e2 : T.toRaw.idx = T.idx := rfl
  have e3 : T.toRaw.cols = [] ↔ T.cols = [] := by simp [Frame.toRaw]
  rw [e1, e2]
  simp only [Bool.true_eq_false, if_false, e3]
  by_cases he : T.idx = [] ∨ T.cols = []
  · rw [if_pos he, if_pos he]
  · rw [if_neg he, if_neg he]
    have hc : checkColumns (T.cols.map fun c => (c.1.toLower, (⟨.str c.1, true, c.2⟩ : RawCol))) required = some .valueError := by
      obtain ⟨x, xs, rfl⟩ := List.exists_cons_of_ne_nil hr.1
      have hx := hr.2 x (by simp)
      have hf : (T.cols.map fun c => (c.1.toLower, (⟨.str c.1, true, c.2⟩ : RawCol))).filter (fun c => c.1 == x) = [] := by
        rw [List.filter_eq_nil_iff]
        intro a ha hax
        obtain ⟨c, hcm, rfl⟩ := List.mem_map.1 ha
        have : c.1 ∈ columns ind := by rw [← hn]; exact List.mem_map_of_mem hcm
        have hex : c.1.toLower = x := eq_of_beq hax
        exact columns_no_prices ind _ this (by rw [hex]; exact hx)
      simp [checkColumns, checkColumn, hf]
    simp only [hc]
    refine Prod.ext ?_ rfl
    simp [loweredFrame, Frame.toRaw, Function.comp_def]

/-- C95: the data of an indicator is not data for another one: any class with accepted parameters raises ValueError on it. -/
theorem C95_fed_back (E : Env) (o : Obj) (hn : o.getTiData.cols.map (·.1) = columns o.ind) (c : Call) (ind : Ind)
    (hc : c.check = .ok ind) (fill : Bool) : (construct E c (.frame o.getTiData.toRaw) (.bool fill)).2 = .error .valueError := by
  unfold construct
  rw [hc]
  simp only [fed_validate _ _ hn _ fill (required_prices ind)]

/-- C95: nor is it accepted as the `close_values` of a simulation. -/
theorem C95_not_close_values (o : Obj) (hn : o.getTiData.cols.map (·.1) = columns o.ind) (p : Obj) (m fac : PyArg) :
    (p.getTiSimulation (.frame o.getTiData.toRaw) m fac).2.2 = .error .notValidForSimulation := by
  unfold Obj.getTiSimulation setupSimulation
  simp only [Bool.true_eq_false, if_false, fed_validate _ _ hn ["close"] true ⟨by simp, by simp⟩]

theorem relabel_toRaw (T U : Frame) (h : U.cols.map (·.2) = T.cols.map (·.2)) (hi : U.idx = T.idx) : relabel T U.toRaw = U := by
  unfold relabel Frame.toRaw
  obtain ⟨ti, tc⟩ := T
  obtain ⟨ui, uc⟩ := U
  simp only at h hi ⊢
  subst hi
  congr 1
  induction tc generalizing uc with
  | nil => cases uc with
    | nil => rfl
    | cons _ _ => simp at h
  | cons c cs ih =>
    cases uc with
    | nil => simp at h
    | cons u us =>
      simp only [List.map_cons, List.cons.injEq] at h
      simp only [List.map_cons, List.zipWith_cons_cons, ih us h.2]
      rw [← h.1]

/-- C95: but the attempt changes the labels of the indicator the data came from to lower case (it has a row and a column), and
no other indicator. -/
theorem C95_labels_changed (E : Env) (w : World) (hw : Separate w) (k r : ℕ) (o : Obj) (ho : w.obj k = some o)
    (hr : (w.step E (.getTiData k)).2 = .data r) (hn : o.ti.cols.map (·.1) = columns o.ind) (hrow : o.ti.idx ≠ [])
    (c : Call) (ind : Ind) (hc : c.check = .ok ind) (fill : Bool) :
    (w.step E (.construct c (.made r) (.bool fill))).2 = .built (.error .valueError) ∧
    (w.step E (.construct c (.made r) (.bool fill))).1.obj k = some { o with ti := loweredFrame o.ti } ∧
    ∀ j, j ≠ k → (w.step E (.construct c (.made r) (.bool fill))).1.obj j = w.obj j := by
  obtain ⟨h, T, hk, hT, rfl⟩ := (obj_iff _ _ _).1 ho
  have hti : h.ti = r := by simpa [World.step, hk] using hr
  subst hti
  have hread : w.read (.made h.ti) = .frame T.toRaw := by simp [World.read, hT]
  have hcols : T.cols ≠ [] := by
    intro e
    rw [e] at hn
    have : columns h.ind ≠ [] := by
      cases h.ind
      case movingAverage p t => cases t <;> simp [columns]
      case performance b t => cases b <;> simp [columns]
      all_goals simp [columns]
    exact this hn.symm
  have hcon : construct E c (.frame T.toRaw) (.bool fill) = (.frame (loweredFrame T).toRaw, .error .valueError) := by
    unfold construct
    rw [hc]
    have hv := fed_validate T h.ind hn ind.required fill (required_prices ind)
    have hno : ¬ (T.idx = [] ∨ T.cols = []) := not_or.2 ⟨hrow, hcols⟩
    rw [if_neg hno] at hv
    simp only [hv]
  have hre : relabel T (loweredFrame T).toRaw = loweredFrame T := relabel_toRaw _ _ (by simp [loweredFrame, Function.comp_def]) rfl
  simp only [World.step, World.construct, hread, hcon]
  refine ⟨trivial, (obj_iff _ _ _).2 ⟨h, loweredFrame T, by rw [put_objs]; exact hk, ?_, rfl⟩, fun j hj => ?_⟩
  · simp [World.put, hT, hre]
  · cases hx : w.objs[j]? with
    | none => simp [World.obj, hx]
    | some b =>
      have hne : b.ti ≠ h.ti := fun e => hj (hw.apart j k b h hx hk e)
      simp only [World.obj, put_objs, hx]
      rw [put_made _ _ _ _ (by simpa using fun e => hne e.symm)]

/-- C95: for all classes but the Stochastic Oscillator and Performance this is no change. -/
theorem C95_harmless (o : Obj) (hn : o.ti.cols.map (·.1) = columns o.ind)
    (h1 : ∀ a b c d, o.ind ≠ .stochasticOscillator a b c d) (h2 : ∀ a b, o.ind ≠ .performance a b) :
    { o with ti := loweredFrame o.ti } = o := by
  obtain ⟨ind, input, ⟨idx, cols⟩⟩ := o
  have : cols.map (fun c => (c.1.toLower, c.2)) = cols := by
    have hl := columns_lower ind h1 h2
    refine (List.map_congr_left ?_).trans (List.map_id _)
    intro c hc
    rw [id, hl c.1 (by rw [← hn]; exact List.mem_map_of_mem hc)]
  simp only [loweredFrame, this]

/-- C95: Performance still gives the same values and the same signal, under the label `target_long` or `target_short`. -/
theorem C95_performance (o : Obj) (a : Bool) (b : Val) (hi : o.ind = .performance a b) :
    Obj.getTiSignal { o with ti := loweredFrame o.ti } = o.getTiSignal := by
  obtain ⟨ind, input, ⟨idx, cols⟩⟩ := o
  simp only at hi
  subst hi
  have hf : (loweredFrame ⟨idx, cols⟩).firstCol = Frame.firstCol ⟨idx, cols⟩ := by
    cases cols with
    | nil => rfl
    | cons c cs => rfl
  have hl : (loweredFrame ⟨idx, cols⟩).len = Frame.len ⟨idx, cols⟩ := rfl
  simp only [Obj.getTiSignal, Ind.signal, Ind.Performance.signal, hf, hl]

/-- C95: but the signal of a Stochastic Oscillator with two rows or more raises from then on (it asks for the columns `%K` and
`%D`; the library raises KeyError, which the model does not tell from other exceptions here). -/
theorem C95_stochastic_signal_lost (o : Obj) (a b c : ℕ) (d : Bool) (hi : o.ind = .stochasticOscillator a b c d)
    (hn : o.ti.cols.map (·.1) = columns o.ind) (hrows : 2 ≤ o.ti.len) :
    ∃ e, Obj.getTiSignal { o with ti := loweredFrame o.ti } = .error e := by
  obtain ⟨ind, input, ⟨idx, cols⟩⟩ := o
  simp only at hi hn
  subst hi
  have hcol : (loweredFrame ⟨idx, cols⟩).col "%K" = [] := by
    unfold Frame.col loweredFrame
    simp only
    rw [List.find?_eq_none.2]
    · rfl
    · intro x hx
      obtain ⟨y, hy, rfl⟩ := List.mem_map.1 hx
      have hyc : y.1 ∈ ["%K", "%D"] := by
        have : y.1 ∈ cols.map (·.1) := List.mem_map_of_mem hy
        rw [hn] at this; exact this
      have e1 : "%K".toLower = "%k" := by decide +kernel
      have e2 : "%D".toLower = "%d" := by decide +kernel
      rcases List.mem_cons.1 hyc with h | h
      · simp only [h, e1]; decide
      · have h := List.mem_singleton.1 h
        simp only [h, e2]; decide
  have hl : (loweredFrame ⟨idx, cols⟩).len = Frame.len ⟨idx, cols⟩ := rfl
  refine ⟨.indexError, ?_⟩
  simp only [Obj.getTiSignal, Ind.signal, Ind.StochasticOscillator.signal, hcol, hl]
  have h2 : ¬ Frame.len ⟨idx, cols⟩ < 2 := by simpa using hrows
  rw [if_neg h2]
  rfl

/-- C95: a program that builds a Stochastic Oscillator, asks for its signal, tries to build a moving average of its data, and
asks again: a signal, ValueError, an exception. The data has the hypotheses of the theorems above. -/
theorem C95_stochastic_witness :
    (match ((World.start [rangePrices]).run demoEnv
        [.construct (.stochasticOscillator (.int 2) (.int 1) (.int 2) (.str "simple")) (.own 0) (.bool true), .getTiSignal 0,
         .construct (.movingAverage (.int 2) (.str "simple")) (.made 0) (.bool true), .getTiSignal 0]).2 with
     | [.built (.ok 0), .call (.signal (.ok _)), .built (.error a), .call (.signal (.error _))] => some a
     | _ => none) = some .valueError ∧
    (match ((World.start [rangePrices]).run demoEnv
        [.construct (.stochasticOscillator (.int 2) (.int 1) (.int 2) (.str "simple")) (.own 0) (.bool true)]).1.obj 0 with
     | some o => o.ti.cols.map (·.1) = columns o.ind ∧ o.ti.idx ≠ [] ∧ 2 ≤ o.ti.len
     | none => False) := by
  refine ⟨by decide +kernel, ?_⟩
  have h : (((World.start [rangePrices]).run demoEnv
        [.construct (.stochasticOscillator (.int 2) (.int 1) (.int 2) (.str "simple")) (.own 0) (.bool true)]).1.obj 0).map
      (fun o => decide (o.ti.cols.map (·.1) = columns o.ind ∧ o.ti.idx ≠ [] ∧ 2 ≤ o.ti.len)) = some true := by decide +kernel
  obtain ⟨o, ho, h'⟩ := Option.map_eq_some_iff.1 h
  rw [ho]
  exact of_decide_eq_true h'

end TTI.Props
