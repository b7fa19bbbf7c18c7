import Verif.Lemmas.FloatShape
import Verif.Props.Causal
import Verif.Props.ValidateApi
import Verif.Props.Signals
import Verif.Props.Sample
import Verif.Lemmas.FloatSample

set_option autoImplicit false

/-!
# What does not depend on the arithmetic: C89

`A` is any arithmetic: any function for the rounding of the results and any way to add up a list. Nothing is assumed about
it, so the statements hold in float64, in another precision, and for a wrong rounding as well.
-/

namespace TTI.Props

open Spec Flt

variable {A : Arith} {E : Env} {c : Call} {f : RawFrame} {fill : Bool} {o : Obj}

theorem flt_construct_ok_iff (A : Arith) (E : Env) (c : Call) (data : InputArg) (fill : Bool) (o : Obj) :
    (Flt.construct A E c data (.bool fill)).2 = .ok o ↔
      ∃ ind F T, c.check = .ok ind ∧ (validateInputData data ind.required fill).2 = .ok F ∧
        Flt.calcTi A E F ind = .ok T ∧ o = ⟨ind, Flt.inputAfter A ind F, T⟩ := by
  unfold Flt.construct
  cases hc : c.check with
  | error e => simp
  | ok ind =>
    simp only [Except.ok.injEq]
    rcases hv : validateInputData data ind.required fill with ⟨caller, r⟩
    cases r with
    | error e =>
      simp only [reduceCtorEq, false_iff, not_exists]
      rintro ind' F T ⟨rfl, h, -⟩
      rw [hv] at h; simp at h
    | ok F =>
      simp only
      cases ht : Flt.calcTi A E F ind with
      | error e =>
        simp only [reduceCtorEq, false_iff, not_exists]
        rintro ind' F' T ⟨rfl, h, h2, -⟩
        rw [hv] at h
        simp only [Except.ok.injEq] at h
        subst h
        rw [ht] at h2; simp at h2
      | ok T =>
        simp only [Except.ok.injEq]
        constructor
        · rintro rfl
          exact ⟨ind, F, T, rfl, by rw [hv], ht, rfl⟩
        · rintro ⟨ind', F', T', rfl, h, h2, rfl⟩
          rw [hv] at h
          simp only [Except.ok.injEq] at h
          subst h
          rw [ht] at h2
          simp only [Except.ok.injEq] at h2
          rw [h2]

theorem flt_construct_sound (hw : WF f) (h : (Flt.construct A E c (.frame f) (.bool fill)).2 = .ok o) :
    o.Sound ∧ c.check = .ok o.ind ∧ o.input.idx = sortIdx f.idx ∧ o.ti.len = rowsOut f.idx.length o.ind ∧
      0 < o.input.len := by
  obtain ⟨ind, F, T, hc, hv, ht, rfl⟩ := (flt_construct_ok_iff _ _ _ _ _ _).1 h
  obtain ⟨hg, hi⟩ := validated_good f _ _ _ hw hv
  have hlen : F.len = f.idx.length := by
    unfold Frame.len; rw [hi, (sortIdx_perm _).length_eq]
  have hout := Flt.calcTi_outcome A E ind F hg.wf hg.has hg.rows
  unfold Outcome at hout
  rw [ht] at hout
  rcases hout with ⟨-, h0⟩ | ⟨hmin, T', hT', hidx, hnames, hwf⟩
  · simp at h0
  · simp only [Except.ok.injEq] at hT'
    subst hT'
    have htl : T.len = rowsOut F.len ind := by
      unfold Frame.len
      rw [hidx, List.length_take]
      exact min_eq_left (rowsOut_le _ _)
    refine ⟨⟨⟨Flt.inputAfter_wf A F ind hg.wf hg.has, Flt.inputAfter_has A F ind hg.has, hwf, hnames, ?_, ?_⟩, ?_, ?_, ?_⟩, hc,
      by simpa using hi, by rw [htl, hlen], by simpa using hg.rows⟩
    · simp only [Flt.inputAfter_len]; rw [htl]; exact rowsOut_le _ _
    · intro hd; simp only [Flt.inputAfter_len]; rw [htl]; exact rowsOut_eq _ _ hd
    · simpa using hg.sorted
    · simp only [Flt.inputAfter_idx]; rw [htl]; exact hidx
    · exact check_medianPrice c ind hc

/-! ## Construction -/

/-- C89 (compare C32): on valid data the constructor raises NotEnoughInputData exactly when there are too few rows, and
otherwise builds the object. -/
theorem C89_not_enough_iff (A : Arith) (E : Env) (c : Call) (ind : Ind) (f : RawFrame) (fill : Bool) (hw : WF f)
    (hc : c.check = .ok ind) (hv : ∃ F, (validateInputData (.frame f) ind.required fill).2 = .ok F) :
    (f.idx.length < minRows ind →
      (Flt.construct A E c (.frame f) (.bool fill)).2 = .error (.notEnough (reportedRows ind) f.idx.length)) ∧
    (minRows ind ≤ f.idx.length → ∃ o, (Flt.construct A E c (.frame f) (.bool fill)).2 = .ok o ∧ o.ind = ind) := by
  obtain ⟨F, hF⟩ := hv
  obtain ⟨hg, hi⟩ := validated_good f _ _ _ hw hF
  have hlen : F.len = f.idx.length := by
    unfold Frame.len; rw [hi, (sortIdx_perm _).length_eq]
  have hout := Flt.calcTi_outcome A E ind F hg.wf hg.has hg.rows
  unfold Outcome at hout
  rw [hlen] at hout
  rcases hv : validateInputData (.frame f) ind.required fill with ⟨caller, r⟩
  rw [hv] at hF
  simp only at hF
  subst hF
  constructor
  · intro hlt
    rcases hout with ⟨-, h⟩ | ⟨h, -⟩
    · simp only [Flt.construct, hc, hv, h]
    · omega
  · intro hle
    rcases hout with ⟨h, -⟩ | ⟨-, T, h, -⟩
    · omega
    · exact ⟨⟨ind, Flt.inputAfter A ind F, T⟩, by simp only [Flt.construct, hc, hv, h], rfl⟩

/-- C89: rounding changes neither whether an object is built nor the exception: two arithmetics fail in the same cases with
the same exception. -/
theorem C89_same_exceptions (A B : Arith) (E : Env) (c : Call) (data : InputArg) (fill : PyArg)
    (hw : ∀ f, data = .frame f → WF f) (e : Err) :
    (Flt.construct A E c data fill).2 = .error e ↔ (Flt.construct B E c data fill).2 = .error e := by
  unfold Flt.construct
  cases hc : c.check with
  | error e => rfl
  | ok ind =>
    simp only
    cases fill with
    | bool b =>
      simp only
      rcases hv : validateInputData data ind.required b with ⟨caller, r⟩
      cases r with
      | error e => rfl
      | ok F =>
        cases data with
        | notFrame => simp [validateInputData] at hv
        | frame f =>
          obtain ⟨hg, -⟩ := validated_good f _ _ _ (hw f rfl) (by rw [hv])
          have hA := Flt.calcTi_outcome A E ind F hg.wf hg.has hg.rows
          have hB := Flt.calcTi_outcome B E ind F hg.wf hg.has hg.rows
          unfold Outcome at hA hB
          simp only
          rcases hA with ⟨h1, h2⟩ | ⟨h1, T, h2, -⟩ <;> rcases hB with ⟨h3, h4⟩ | ⟨h3, T', h4, -⟩
          · rw [h2, h4]
          · omega
          · omega
          · rw [h2, h4]; simp
    | _ => rfl

/-- C89 (compare C33): the columns, the dates and the number of values. -/
theorem C89_shape (hw : WF f) (h : (Flt.construct A E c (.frame f) (.bool fill)).2 = .ok o) :
    o.getTiData.cols.map (·.1) = columns o.ind ∧
    (∀ col ∈ o.getTiData.cols, col.2.length = o.getTiData.idx.length) ∧
    ((∀ p, o.ind ≠ .detrendedPriceOscillator p) → o.getTiData.idx = sortIdx f.idx) ∧
    (∀ p, o.ind = .detrendedPriceOscillator p →
      o.getTiData.idx = (sortIdx f.idx).take (f.idx.length - (1 + p / 2))) := by
  obtain ⟨hs, -, hi, hl, -⟩ := flt_construct_sound hw h
  have hd := hs.dates
  rw [hi, hl] at hd
  refine ⟨hs.shaped.tiNames, hs.shaped.tiWf, ?_, ?_⟩
  · intro hp
    show o.ti.idx = _
    rw [hd, rowsOut_eq _ _ hp]
    exact List.take_of_length_le (le_of_eq (sortIdx_perm _).length_eq)
  · intro p hp
    show o.ti.idx = _
    rw [hd, hp]
    rfl

theorem flt_construct_of_validated (A : Arith) (E : Env) (c : Call) (x y : InputArg) (b b' : Bool)
    (h : ∀ ind, c.check = .ok ind → (validateInputData x ind.required b).2 = (validateInputData y ind.required b').2) :
    (Flt.construct A E c x (.bool b)).2 = (Flt.construct A E c y (.bool b')).2 := by
  unfold Flt.construct
  cases hc : c.check with
  | error e => rfl
  | ok ind =>
    have := h ind hc
    simp only
    rcases hx : validateInputData x ind.required b with ⟨a, r⟩
    rcases hy : validateInputData y ind.required b' with ⟨a', r'⟩
    rw [hx, hy] at this
    simp only at this
    subst this
    cases r with
    | error e => rfl
    | ok F =>
      simp only
      cases Flt.calcTi A E F ind <;> rfl

/-- C89 (compare C25): the order of the rows makes no difference, not even in the last bit. -/
theorem C89_row_order (A : Arith) (E : Env) (c : Call) (f : RawFrame) (fill : Bool) (σ : List ℕ) (hw : WF f) (hd : f.idx.Nodup)
    (hσ : σ.Perm (List.range f.idx.length)) :
    (Flt.construct A E c (.frame (reorder f σ)) (.bool fill)).2 = (Flt.construct A E c (.frame f) (.bool fill)).2 := by
  apply flt_construct_of_validated
  intro ind _
  apply result_ext
  · intro e
    refine validate_error_iff f ind.required fill fill (σ.map fun k => f.idx.getD k 0) _ ?_ e
    have := hσ.length_eq
    rw [List.length_range] at this
    rw [List.map_eq_nil_iff, ← List.length_eq_zero_iff, ← List.length_eq_zero_iff, this]
  · intro F
    exact C25_row_order_irrelevant f ind.required fill σ hw hd hσ F

/-! ## Signals -/

/-- C89 (compare C34): the signal, also that of the object cut at any row, raises only on the data that `SignalRaises` lists. -/
theorem C89_signal_total (hw : WF f) (h : (Flt.construct A E c (.frame f) (.bool fill)).2 = .ok o) :
    (SignalRaises o.ind o.ti → o.getTiSignal = .error .indexError) ∧
    (¬ SignalRaises o.ind o.ti → ∃ s, o.getTiSignal = .ok s) ∧
    (∀ i, i < o.getTiData.idx.length → ∃ o', o.cut i = some o' ∧ o'.ind = o.ind) ∧
    ∀ i o', o.cut i = some o' →
      (SignalRaises o'.ind o'.ti → o'.getTiSignal = .error .indexError) ∧
      (¬ SignalRaises o'.ind o'.ti → ∃ s, o'.getTiSignal = .ok s) := by
  obtain ⟨hs, -⟩ := flt_construct_sound hw h
  refine ⟨(sound_signal o hs).1, (sound_signal o hs).2, ?_, ?_⟩
  · intro i hi
    obtain ⟨d, -, -, h3⟩ := cut_eq o hs i hi
    exact ⟨_, h3, rfl⟩
  · intro i o' hc
    exact sound_signal o' (cut_sound o o' hs i hc).1

/-- C89 (compare C47): the signal is buy (sell) exactly when the condition of the table holds of the rounded data. -/
theorem C89_signal_table (hw : WF f) (h : (Flt.construct A E c (.frame f) (.bool fill)).2 = .ok o) :
    (o.getTiSignal = .ok .buy ↔ (rule o.input o.ti o.ind).rows ≤ o.getTiData.idx.length ∧ (rule o.input o.ti o.ind).buy) ∧
    (o.getTiSignal = .ok .sell ↔ (rule o.input o.ti o.ind).rows ≤ o.getTiData.idx.length ∧ (rule o.input o.ti o.ind).sell) :=
  signal_rule _ _ _ (flt_construct_sound hw h).1.shaped

/-- C89 (compare C17): apart from `MedianPrice(period=1)` and `RangeIndicator` every sequence of calls leaves the object as it
was, and each call returns what it would have returned first. -/
theorem C89_every_call_sequence (hw : WF f) (h : (Flt.construct A E c (.frame f) (.bool fill)).2 = .ok o)
    (h1 : o.ind ≠ .medianPrice 1) (h2 : ∀ p s, o.ind ≠ .rangeIndicator p s) (cs : List ApiCall) :
    (o.steps cs).1 = o ∧ (o.steps cs).2 = cs.map fun c => (o.step c).2 := by
  obtain ⟨hs, -⟩ := flt_construct_sound hw h
  have hraise : ∀ T, ¬ SignalRaises o.ind T := by
    rintro T (⟨h, -⟩ | ⟨p, s, -, -, -, h, -⟩)
    · exact h1 h
    · exact h2 p s h
  have key : ∀ c, (o.step c).1 = o := by
    intro c
    cases c with
    | getTiData => rfl
    | getTiValue d => rfl
    | getTiSignal => rfl
    | getTiSimulation close m fac =>
      by_cases ha : AcceptsSim o.input.idx close m fac
      · obtain ⟨r, hr⟩ := C18_accepted_arguments o close m fac ha fun i hi => by
          obtain ⟨o', ho', hi'⟩ := (C89_signal_total hw h).2.2.1 i hi
          obtain ⟨s, hs⟩ := ((C89_signal_total hw h).2.2.2 i o' ho').2 (by rw [hi']; exact hraise _)
          exact ⟨o', s, ho', hs⟩
        exact getTiSimulation_obj o close m fac fun e he => by rw [hr] at he; simp at he
      · exact (rejected o close m fac ha).1
  induction cs with
  | nil => exact ⟨rfl, rfl⟩
  | cons c cs ih => simp only [Obj.steps, key, ih.1, ih.2, List.map_cons, and_self]

/-! ## No look-ahead -/

/-- C89 (compare C20): the object built on the rows up to a day is the object built on all rows cut at that day, to the last
bit: later rows do not change the rounding of earlier results. -/
theorem C89_cut_is_live (hw : WF f) (h : (Flt.construct A E c (.frame f) (.bool fill)).2 = .ok o) (hc : Causal o.ind)
    (hk : NoBackfill f o.ind fill) (i : ℕ) (d : ℤ) (hi : (sortIdx f.idx)[i]? = some d)
    (hn : minRows o.ind ≤ (f.upTo d).idx.length) :
    ∃ live, (Flt.construct A E c (.frame (f.upTo d)) (.bool fill)).2 = .ok live ∧ o.cut i = some live ∧
      live.getTiData = o.getTiData.upTo d := by
  obtain ⟨hs, hcheck, hidx, hlen, -⟩ := flt_construct_sound hw h
  obtain ⟨ind, F, T, hck, hv, ht, rfl⟩ := (flt_construct_ok_iff _ _ _ _ _ _).1 h
  obtain ⟨hg, hFi⟩ := validated_good f _ _ _ hw hv
  have hmem : d ∈ f.idx := (sortIdx_perm _).mem_iff.1 (List.mem_of_getElem? hi)
  simp only at hc hk hn hlen
  obtain ⟨hv', hcomp⟩ := validate_upTo f ind fill F hw hv hk d ⟨d, hmem, le_refl d⟩
  have hup : F.upTo d = F.take (rowsUpTo d F.idx) := upTo_eq_take d F hg.wf hg.sorted
  have hcnt : rowsUpTo d F.idx = (f.upTo d).idx.length := by
    rw [hFi]
    exact ((sortIdx_perm f.idx).filter _).length_eq
  have hdpo : ∀ p, ind ≠ .detrendedPriceOscillator p := by rintro p rfl; exact hc.elim
  rw [rowsOut_eq _ _ hdpo] at hlen
  have hFlen : F.len = f.idx.length := by unfold Frame.len; rw [hFi, (sortIdx_perm _).length_eq]
  have hle : rowsUpTo d F.idx ≤ F.len := rowsUpTo_le _ _
  have ht' := Flt.calcTi_take A E ind F T (rowsUpTo d F.idx) hc hcomp (by rw [hcnt]; exact hn) hle ht
  have hi' : i < f.idx.length := by
    have := (List.getElem?_eq_some_iff.1 hi).1
    rwa [(sortIdx_perm _).length_eq] at this
  obtain ⟨d', hd1, hd2, hcut⟩ := cut_eq _ hs i (by simp only; omega)
  simp only [Flt.inputAfter_idx] at hd1 hcut
  have hdd : d' = d := by
    rw [hFi, hi] at hd1
    exact (Option.some.inj hd1).symm
  subst hdd
  have hTidx : T.idx = F.idx := by
    have h1 := hs.dates
    simp only [Flt.inputAfter_idx] at h1
    rw [h1, hlen, ← hFlen]; exact List.take_length
  refine ⟨⟨ind, Flt.inputAfter A ind (F.take (rowsUpTo d' F.idx)), T.take (rowsUpTo d' F.idx)⟩, ?_, ?_, ?_⟩
  · rw [flt_construct_ok_iff]
    exact ⟨ind, F.upTo d', T.take _, hck, hv', by rw [hup]; exact ht', by rw [hup]⟩
  · rw [hcut, hTidx, Flt.inputAfter_take]
  · simp only [Obj.getTiData]
    rw [upTo_eq_take d' T hs.shaped.tiWf (by rw [hTidx]; exact hg.sorted), hTidx]

/-- The signals of a simulation are those of the cuts. -/
theorem simulated_signals (o : Obj) (close : InputArg) (m fac : PyArg) (r : SimResult)
    (hr : (o.getTiSimulation close m fac).2.2 = .ok r) (i : ℕ) (hi : i < o.ti.len) :
    r.idx = sortIdx o.input.idx ∧ ∃ o' row, o.cut i = some o' ∧ r.rows[i]? = some (some row) ∧ o'.getTiSignal = .ok row.signal := by
  unfold Obj.getTiSimulation at hr
  rcases hp : setupSimulation true o.input.idx close m fac with ⟨caller, r'⟩
  rw [hp] at hr
  cases r' with
  | error e => simp at hr
  | ok S =>
    simp only at hr
    rcases hq : simRounds o S (List.range o.ti.len) o Sim.State.init with ⟨o', q⟩
    rw [hq] at hr
    cases q with
    | error e => simp at hr
    | ok st =>
      simp only [Except.ok.injEq] at hr
      subst hr
      have hsigs := simRounds_signals o S _ o Sim.State.init st (by rw [hq])
      have hsig : ∀ i, ∃ s : Signal, i < o.ti.len → ∃ o', o.cut i = some o' ∧ o'.getTiSignal = .ok s := by
        intro i
        by_cases hi : i < o.ti.len
        · obtain ⟨o', s, a, b⟩ := hsigs i (List.mem_range.2 hi)
          exact ⟨s, fun _ => ⟨o', a, b⟩⟩
        · exact ⟨.hold, fun h => absurd h hi⟩
      choose sig hsig using hsig
      have hst := simRounds_ok o S (List.range o.ti.len) o Sim.State.init sig fun i hi => hsig i (List.mem_range.1 hi)
      rw [hq] at hst
      simp only [Except.ok.injEq] at hst
      have hrun : st = Sim.run S.params ((List.range o.ti.len).map fun i => (S.close.getD i .nan, sig i)) := hst
      have hrows : st.rows.length = o.ti.len := by
        rw [hrun, Sim.run_rows_length]; simp
      obtain ⟨o', ho1, ho2⟩ := hsig i hi
      have hrow1 : st.rows[i]? = some (st.rows[i]'(by omega)) := List.getElem?_eq_getElem (by omega)
      have hSidx : S.idx = sortIdx o.input.idx := by
        unfold setupSimulation at hp
        simp only [Bool.true_eq_false, if_false] at hp
        split at hp
        · simp at hp
        · split at hp
          · simp at hp
          · split at hp
            · simp at hp
            · split at hp
              · simp at hp
              · simp only [Prod.mk.injEq, Except.ok.injEq] at hp
                rw [← hp.2]
      refine ⟨hSidx, o', st.rows[i]'(by omega), ho1, ?_, ?_⟩
      · unfold padRows
        rw [List.getElem?_append_left (by simp; omega), List.getElem?_map, hrow1]
        rfl
      · have := Sim.row_day S.params _ i _ (by rw [← hrun]; exact hrow1)
        rw [List.getElem?_map, List.getElem?_range hi] at this
        simp only [Option.map_some, Option.some.injEq, Prod.mk.injEq] at this
        rw [ho2, this.2]

/-- C89 (compare C20): the signal a backtest records for a day is the signal a live user gets from the rows up to that day. -/
theorem C89_no_look_ahead (hw : WF f) (h : (Flt.construct A E c (.frame f) (.bool fill)).2 = .ok o) (hc : Causal o.ind)
    (hk : NoBackfill f o.ind fill) (close : InputArg) (m fac : PyArg) (r : SimResult)
    (hr : (o.getTiSimulation close m fac).2.2 = .ok r) (i : ℕ) (d : ℤ) (hi : (sortIdx f.idx)[i]? = some d)
    (hn : minRows o.ind ≤ (f.upTo d).idx.length) :
    ∃ live row, (Flt.construct A E c (.frame (f.upTo d)) (.bool fill)).2 = .ok live ∧ r.idx[i]? = some d ∧
      r.rows[i]? = some (some row) ∧ live.getTiSignal = .ok row.signal := by
  obtain ⟨live, h1, h2, -⟩ := C89_cut_is_live hw h hc hk i d hi hn
  obtain ⟨-, -, hidx, hlen, -⟩ := flt_construct_sound hw h
  have hdpo : ∀ p, o.ind ≠ .detrendedPriceOscillator p := by
    intro p hp; rw [hp] at hc; exact hc.elim
  rw [rowsOut_eq _ _ hdpo] at hlen
  have hi' : i < o.ti.len := by
    have := (List.getElem?_eq_some_iff.1 hi).1
    rw [(sortIdx_perm _).length_eq] at this
    omega
  obtain ⟨hridx, o', row, ho, hrow, hsig⟩ := simulated_signals o close m fac r hr i hi'
  rw [h2] at ho
  simp only [Option.some.injEq] at ho
  subst ho
  refine ⟨live, row, h1, ?_, hrow, hsig⟩
  rw [hridx, hidx, sortIdx_of_sorted _ (sortIdx_sorted _), hi]

/-! ## The hypotheses -/

/-- The hypotheses of the theorems above in float64, on eight days of the sample in another order, with the result and with a
day in the middle; a rounding that answers 1 every time meets them as well. -/
example : ∃ o r, WF (reorder (sample 8) [2, 0, 1, 5, 4, 3, 7, 6]) ∧ (reorder (sample 8) [2, 0, 1, 5, 4, 3, 7, 6]).idx.Nodup ∧
    (Flt.construct doubleArith demoEnv (.chandeMomentumOscillator (.int 3)) (.frame (reorder (sample 8) [2, 0, 1, 5, 4, 3, 7, 6]))
      (.bool false)).2 = .ok o ∧
    Causal o.ind ∧ NoBackfill (reorder (sample 8) [2, 0, 1, 5, 4, 3, 7, 6]) o.ind false ∧ o.ind ≠ .medianPrice 1 ∧
    (∀ p s, o.ind ≠ .rangeIndicator p s) ∧ (o.getTiSimulation (.frame (sample 8)) .none (.float (.fin (3/2)))).2.2 = .ok r ∧
    (sortIdx (reorder (sample 8) [2, 0, 1, 5, 4, 3, 7, 6]).idx)[5]? = some 5 ∧
    minRows o.ind ≤ ((reorder (sample 8) [2, 0, 1, 5, 4, 3, 7, 6]).upTo 5).idx.length := by
  have h1 : (match (Flt.construct doubleArith demoEnv (.chandeMomentumOscillator (.int 3))
      (.frame (reorder (sample 8) [2, 0, 1, 5, 4, 3, 7, 6])) (.bool false)).2 with
      | .ok o => decide (o.ind = .chandeMomentumOscillator 3) && match (o.getTiSimulation (.frame (sample 8)) .none (.float (.fin (3/2)))).2.2 with
        | .ok _ => true
        | .error _ => false
      | .error _ => false) = true := by decide +kernel
  split at h1
  · next o ho =>
    rw [Bool.and_eq_true] at h1
    obtain ⟨hi, h1⟩ := h1
    have hi := of_decide_eq_true hi
    split at h1
    · next r hr =>
      refine ⟨o, r, by unfold WF; decide, by decide, ho, ?_, ?_, ?_, ?_, hr, by decide +kernel, ?_⟩
      all_goals rw [hi]
      · trivial
      · exact Or.inr ⟨rfl, fun h => h.elim⟩
      · simp
      · simp
      · decide +kernel
    · simp at h1
  · simp at h1

example : ((Flt.construct ⟨fun _ => 1, fun _ => 1⟩ demoEnv (.chandeMomentumOscillator (.int 3)) (.frame (sample 8))
    (.bool false)).2.map fun o => o.ti.len) = .ok 8 := by decide +kernel

/-- `C89_not_enough_iff`: too few rows and enough. -/
example : WF (sample 8) ∧ (Call.averageTrueRange).check = .ok .averageTrueRange ∧ minRows .averageTrueRange = 14 ∧
    reportedRows .averageTrueRange = 2 ∧
    ((validateInputData (.frame (sample 8)) (Ind.averageTrueRange).required true).2.map fun F => F.len) = .ok 8 ∧
    (Flt.construct doubleArith demoEnv .averageTrueRange (.frame (sample 8)) (.bool true)).2 = .error (.notEnough 2 8) ∧
    ((Flt.construct doubleArith demoEnv .averageTrueRange (.frame (sample 14)) (.bool true)).2.map fun o => o.ti.len) = .ok 14 :=
  ⟨sample_wf 8, by decide, by decide, by decide, by decide +kernel, by decide +kernel, by decide +kernel⟩

end TTI.Props
