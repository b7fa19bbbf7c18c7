import Verif.Lemmas.Cut
import Verif.Props.Api
import Verif.Lemmas.SimRows

set_option autoImplicit false

/-!
# No look-ahead: C20, C21

`f.upTo d` is the user's frame restricted to the rows dated no later than `d`.
-/

namespace TTI.Props

/-- All values of the columns the indicator uses are known. -/
def CompleteFor (f : RawFrame) (required : List String) : Prop :=
  ∀ c ∈ f.cols, c.name ∈ required → ∀ v ∈ c.data, v ≠ .nan

/-- The value of the earliest day is known in all columns the indicator uses. -/
def StartsKnown (f : RawFrame) (required : List String) : Prop :=
  ∀ c ∈ f.cols, c.name ∈ required → ∀ r, (sortRows (f.idx.zip c.data)).head? = some r → r.2 ≠ .nan

/-- Data on which nothing is filled from later rows: with `fill_missing_values=True` the earliest value of each column is
known, with `False` the data are complete or the indicator does not build another one. -/
def NoBackfill (f : RawFrame) (ind : Ind) (fill : Bool) : Prop :=
  (fill = true ∧ StartsKnown f ind.required) ∨
  (fill = false ∧ (Spec.Nested ind → CompleteFor f ind.required))

theorem starts_of_complete (f : RawFrame) (required : List String) (h : CompleteFor f required) :
    StartsKnown f required := by
  intro c hc hn r hr
  have hm : r ∈ sortRows (f.idx.zip c.data) := List.mem_of_mem_head? (by rw [hr]; rfl)
  exact h c hc hn r.2 (List.of_mem_zip ((sortRows_perm _).mem_iff.1 hm)).2

theorem noBackfill_of_complete (f : RawFrame) (ind : Ind) (fill : Bool) (h : CompleteFor f ind.required) :
    NoBackfill f ind fill := by
  cases fill
  · exact Or.inr ⟨rfl, fun _ => h⟩
  · exact Or.inl ⟨rfl, starts_of_complete _ _ h⟩

/-- Validating the cut frame is cutting the validated frame. -/
theorem validate_upTo (f : RawFrame) (ind : Ind) (fill : Bool) (F : Frame) (hw : WF f)
    (h : (validateInputData (.frame f) ind.required fill).2 = .ok F) (hk : NoBackfill f ind fill)
    (d : ℤ) (hd : ∃ e ∈ f.idx, e ≤ d) :
    (validateInputData (.frame (f.upTo d)) ind.required fill).2 = .ok (F.upTo d) ∧ (Spec.Nested ind → F.Complete) := by
  obtain ⟨hv, hF⟩ := valid_of_ok _ _ _ _ h
  obtain ⟨hg, hidx⟩ := validated_good _ _ _ _ hw h
  have hwk : Frame.WF (f.kept ind.required) := by
    apply sortIndex_lengths
    intro c hc
    rw [List.mem_map] at hc
    obtain ⟨e, he, rfl⟩ := hc
    exact hw e (List.mem_filter.1 he).1
  have hsk : (f.kept ind.required).idx.Pairwise (· ≤ ·) := sortIdx_sorted _
  have hself : (f.kept ind.required).sortIndex = f.kept ind.required := sortIndex_of_sorted _ hsk hwk
  rw [validate_ok _ _ _ (valid_upTo d f _ hd hv), kept_upTo d f _ hw]
  rcases hk with ⟨rfl, hk⟩ | ⟨rfl, hk⟩
  · simp only [if_true] at hF ⊢
    have hfirst : ∀ c ∈ (f.kept ind.required).cols, ∃ v, c.2.head? = some v ∧ v ≠ .nan := by
      intro c hc
      have hl : c.2.length = (f.kept ind.required).idx.length := hwk c hc
      simp only [RawFrame.kept, Frame.sortIndex, List.map_map, List.mem_map, List.mem_filter] at hc
      obtain ⟨e, ⟨he, hn⟩, rfl⟩ := hc
      have hne : sortRows (f.idx.zip e.data) ≠ [] := by
        intro h0
        have := (sortRows_perm (f.idx.zip e.data)).length_eq
        rw [h0] at this
        have h1 := hw e he
        rw [List.length_zip, h1, Nat.min_self] at this
        exact hv.rows (List.length_eq_zero_iff.1 this.symm)
      obtain ⟨r, rest, hr⟩ := List.exists_cons_of_ne_nil hne
      refine ⟨r.2, ?_, hk e he (by simpa using hn) r (by rw [hr]; rfl)⟩
      simp [hr]
    rw [upTo_eq_take d _ hwk hsk, C29_fill_causal _ _ hsk hwk hfirst, hF]
    have hi : (fillMissingValues (f.kept ind.required)).idx = (f.kept ind.required).idx := by
      simp only [fillMissingValues, hself]
    have hw2 : (fillMissingValues (f.kept ind.required)).WF := by rw [← hF]; exact hg.wf
    refine ⟨?_, fun _ => ?_⟩
    · rw [upTo_eq_take d _ hw2 (by rw [hi]; exact hsk), hi]
    · intro c hc
      simp only [fillMissingValues, hself, List.mem_map] at hc
      obtain ⟨e, he, rfl⟩ := hc
      obtain ⟨v, hv1, hv2⟩ := hfirst e he
      cases hdat : e.2 with
      | nil => rw [hdat] at hv1; simp at hv1
      | cons x xs =>
        rw [hdat] at hv1
        simp only [List.head?_cons, Option.some.injEq] at hv1
        subst hv1
        have := ffill_no_nan x xs hv2
        rw [bfill_eq_self _ this]
        exact this
  · simp only [Bool.false_eq_true, if_false] at hF ⊢
    rw [hF]
    refine ⟨rfl, fun hnest => ?_⟩
    intro c hc v hvv
    simp only [RawFrame.kept, Frame.sortIndex, List.map_map, List.mem_map, List.mem_filter] at hc
    obtain ⟨e, ⟨he, hn⟩, rfl⟩ := hc
    simp only [Function.comp, List.mem_map] at hvv
    obtain ⟨r, hr, rfl⟩ := hvv
    exact hk hnest e he (by simpa using hn) r.2 (List.of_mem_zip ((sortRows_perm _).mem_iff.1 hr)).2

/-- C28: an indicator that builds another one on its own (validated) data, with the default `fill_missing_values`, hands it
the required columns with the gaps filled. (This justifies the model's `Frame.sub`.) -/
theorem C28_inner (f : RawFrame) (required again : List String) (fill : Bool) (F : Frame) (hw : WF f)
    (hlow : ∀ r ∈ required, r.toLower = r) (hsub : ∀ r ∈ again, r ∈ required) (hne : again ≠ [])
    (h : (validateInputData (.frame f) required fill).2 = .ok F) :
    (validateInputData (.frame F.toRaw) again true).2 = .ok (F.sub again) := by
  obtain ⟨hg, -⟩ := validated_good f _ _ _ hw h
  have hval := (valid_of_ok _ _ _ _ (C28_idempotent f required again fill F hw hlow hsub hne h)).1
  have hname : ∀ c ∈ F.cols, (⟨.str c.1, true, c.2⟩ : RawCol).name = c.1 := by
    intro c hc
    simp only [RawCol.name, Label.lower, Option.getD_some]
    exact hlow _ (hg.only _ (List.mem_map_of_mem hc))
  have hkept : F.toRaw.kept again = F.restrict again := by
    have h1 : (F.toRaw.cols.filter fun c => decide (c.name ∈ again)).map (fun c => (c.name, c.data)) =
        F.cols.filter fun c => decide (c.1 ∈ again) := by
      simp only [Frame.toRaw, List.filter_map, List.map_map]
      have h2 : F.cols.filter ((fun c : RawCol => decide (c.name ∈ again)) ∘ fun c => (⟨.str c.1, true, c.2⟩ : RawCol)) =
          F.cols.filter fun c => decide (c.1 ∈ again) := by
        apply List.filter_congr
        intro c hc
        simp only [Function.comp, hname c hc]
      rw [h2]
      conv_rhs => rw [← List.map_id (List.filter _ F.cols)]
      apply List.map_congr_left
      intro c hc
      simp only [Function.comp, hname c (List.mem_filter.1 hc).1, id]
    unfold RawFrame.kept
    rw [h1]
    exact sortIndex_of_sorted _ hg.sorted fun c hc => hg.wf c (List.mem_filter.1 hc).1
  rw [validate_ok _ _ _ hval, hkept]
  simp only [if_true, fillMissingValues]
  rw [sortIndex_of_sorted (F.restrict again) hg.sorted fun c hc => hg.wf c (List.mem_filter.1 hc).1]
  rfl

/-- C20: an indicator built on the rows up to day `i` is the indicator built on all rows, cut at day `i`: the object the
simulation works with in round `i` is the object a live user would have had on that day. -/
theorem C20_cut_is_live (E : Env) (c : Call) (f : RawFrame) (fill : Bool) (o : Obj) (hw : WF f)
    (h : (construct E c (.frame f) (.bool fill)).2 = .ok o) (hc : Spec.Causal o.ind) (hk : NoBackfill f o.ind fill)
    (i : ℕ) (d : ℤ) (hi : (sortIdx f.idx)[i]? = some d) (hn : Spec.minRows o.ind ≤ (f.upTo d).idx.length) :
    ∃ live, (construct E c (.frame (f.upTo d)) (.bool fill)).2 = .ok live ∧ o.cut i = some live ∧
      live.getTiData = o.getTiData.upTo d := by
  obtain ⟨hs, hcheck, hidx, hlen, -⟩ := construct_sound E c f fill o hw h
  obtain ⟨ind, F, T, hck, hv, ht, rfl⟩ := (construct_ok_iff _ _ _ _ _).1 h
  obtain ⟨hg, hFi⟩ := validated_good f _ _ _ hw hv
  have hmem : d ∈ f.idx := (sortIdx_perm _).mem_iff.1 (List.mem_of_getElem? hi)
  simp only at hc hk hn hlen
  obtain ⟨hv', hcomp⟩ := validate_upTo f ind fill F hw hv hk d ⟨d, hmem, le_refl d⟩
  have hup : F.upTo d = F.take (rowsUpTo d F.idx) := upTo_eq_take d F hg.wf hg.sorted
  have hcnt : rowsUpTo d F.idx = (f.upTo d).idx.length := by
    rw [hFi]
    exact ((sortIdx_perm f.idx).filter _).length_eq
  have hdpo : ∀ p, ind ≠ .detrendedPriceOscillator p := by rintro p rfl; exact hc.elim
  rw [rowsOut_eq _ _ hdpo] at hlen
  have hFlen : F.len = f.idx.length := by unfold Frame.len; rw [hFi, (sortIdx_perm _).length_eq]
  have hle : rowsUpTo d F.idx ≤ F.len := rowsUpTo_le _ _
  have ht' := calcTi_take E ind F T (rowsUpTo d F.idx) hc hcomp (by rw [hcnt]; exact hn) hle ht
  have hi' : i < f.idx.length := by
    have := (List.getElem?_eq_some_iff.1 hi).1
    rwa [(sortIdx_perm _).length_eq] at this
  obtain ⟨d', hd1, hd2, hcut⟩ := cut_eq _ hs i (by simp only; omega)
  simp only [inputAfter_idx] at hd1 hcut
  have hdd : d' = d := by
    rw [hFi, hi] at hd1
    exact (Option.some.inj hd1).symm
  subst hdd
  have hTidx : T.idx = F.idx := by
    have h1 := hs.dates
    simp only [inputAfter_idx] at h1
    rw [h1, hlen, ← hFlen]; exact List.take_length
  refine ⟨⟨ind, ind.inputAfter (F.take (rowsUpTo d' F.idx)), T.take (rowsUpTo d' F.idx)⟩, ?_, ?_, ?_⟩
  · rw [construct_ok_iff]
    exact ⟨ind, F.upTo d', T.take _, hck, hv', by rw [hup]; exact ht', by rw [hup]⟩
  · rw [hcut, hTidx, inputAfter_take]
  · simp only [Obj.getTiData]
    rw [upTo_eq_take d' T hs.shaped.tiWf (by rw [hTidx]; exact hg.sorted), hTidx]

/-- C20: the signal a backtest records for day `i` is the signal a live user gets from the rows up to day `i`. -/
theorem C20_no_look_ahead (E : Env) (c : Call) (f : RawFrame) (fill : Bool) (o : Obj) (hw : WF f)
    (h : (construct E c (.frame f) (.bool fill)).2 = .ok o) (hc : Spec.Causal o.ind) (hk : NoBackfill f o.ind fill)
    (close : InputArg) (m fac : PyArg) (r : SimResult) (hr : (o.getTiSimulation close m fac).2.2 = .ok r)
    (i : ℕ) (d : ℤ) (hi : (sortIdx f.idx)[i]? = some d) (hn : Spec.minRows o.ind ≤ (f.upTo d).idx.length) :
    ∃ live row, (construct E c (.frame (f.upTo d)) (.bool fill)).2 = .ok live ∧ r.idx[i]? = some d ∧
      r.rows[i]? = some (some row) ∧ live.getTiSignal = .ok row.signal := by
  obtain ⟨live, h1, h2, -⟩ := C20_cut_is_live E c f fill o hw h hc hk i d hi hn
  obtain ⟨hridx, -, -, S, sig, -, hsig, st, hst, -, hrows⟩ := C23_rounds E c f fill o hw h close m fac r hr
  obtain ⟨-, -, -, hlen, -⟩ := construct_sound E c f fill o hw h
  have hdpo : ∀ p, o.ind ≠ .detrendedPriceOscillator p := by
    intro p hp; rw [hp] at hc; exact hc.elim
  rw [rowsOut_eq _ _ hdpo] at hlen
  have hi' : i < o.getTiData.idx.length := by
    have := (List.getElem?_eq_some_iff.1 hi).1
    rw [(sortIdx_perm _).length_eq] at this
    simp only [Obj.getTiData]
    unfold Frame.len at hlen
    omega
  obtain ⟨row, hrow1, hrow2⟩ := hrows i hi'
  obtain ⟨o', ho1, ho2⟩ := hsig i hi'
  rw [h2] at ho1
  simp only [Option.some.injEq] at ho1
  subst ho1
  refine ⟨live, row, h1, by rw [hridx, hi], hrow2, ?_⟩
  have := Sim.row_day S.params _ i row (by rw [← hst]; exact hrow1)
  rw [List.getElem?_map, List.getElem?_range hi'] at this
  simp only [Option.map_some, Option.some.injEq, Prod.mk.injEq] at this
  rw [ho2, this.2]

/-- C20 on complete data, whatever `fill_missing_values` is. -/
theorem C20_no_look_ahead_complete (E : Env) (c : Call) (f : RawFrame) (fill : Bool) (o : Obj) (hw : WF f)
    (h : (construct E c (.frame f) (.bool fill)).2 = .ok o) (hc : Spec.Causal o.ind) (hk : CompleteFor f o.ind.required)
    (close : InputArg) (m fac : PyArg) (r : SimResult) (hr : (o.getTiSimulation close m fac).2.2 = .ok r)
    (i : ℕ) (d : ℤ) (hi : (sortIdx f.idx)[i]? = some d) (hn : Spec.minRows o.ind ≤ (f.upTo d).idx.length) :
    ∃ live row, (construct E c (.frame (f.upTo d)) (.bool fill)).2 = .ok live ∧ r.idx[i]? = some d ∧
      r.rows[i]? = some (some row) ∧ live.getTiSignal = .ok row.signal :=
  C20_no_look_ahead E c f fill o hw h hc (noBackfill_of_complete f o.ind fill hk) close m fac r hr i d hi hn

/-- Seven days given out of order, with a gap: the hypotheses of C20 hold for a nested indicator, with day 2 (row 3) as the
day looked at. -/
def demoCausal : RawFrame :=
  ⟨true, [0, 2, 1, 3, 4, 6, 5],
   [⟨.str "Close", true, [.fin 10, .fin 12, .nan, .fin 11, .fin 14, .fin 13, .fin 15]⟩]⟩

example : WF demoCausal ∧ NoBackfill demoCausal (.timeSeriesForecast 2) true ∧ Spec.Causal (.timeSeriesForecast 2) ∧
    (sortIdx demoCausal.idx)[3]? = some 3 ∧ Spec.minRows (.timeSeriesForecast 2) ≤ (demoCausal.upTo 3).idx.length := by
  refine ⟨by unfold WF; decide, Or.inl ⟨rfl, ?_⟩, trivial, by decide +kernel, by decide +kernel⟩
  intro c hc _ r hr
  simp only [demoCausal, List.mem_singleton] at hc
  subst hc
  have : (sortRows (demoCausal.idx.zip [.fin 10, .fin 12, .nan, .fin 11, .fin 14, .fin 13, .fin 15])).head? =
      some (0, Val.fin 10) := by decide +kernel
  rw [this] at hr
  simp only [Option.some.injEq] at hr
  subst hr
  simp

example : ∃ o r, (construct demoEnv (.timeSeriesForecast (.int 2)) (.frame demoCausal) (.bool true)).2 = .ok o ∧
    (o.getTiSimulation (.frame demoCausal) .none (.float (.fin (3/2)))).2.2 = .ok r := by
  have h1 : (match (construct demoEnv (.timeSeriesForecast (.int 2)) (.frame demoCausal) (.bool true)).2 with
      | .ok o => match (o.getTiSimulation (.frame demoCausal) .none (.float (.fin (3/2)))).2.2 with
        | .ok _ => true
        | .error _ => false
      | .error _ => false) = true := by decide +kernel
  split at h1
  · next o ho =>
    split at h1
    · next r hr => exact ⟨o, r, ho, hr⟩
    · simp at h1
  · simp at h1

/-! ## C21: the indicators that do look ahead -/

/-- The value an indicator built on `f` reports for date `d`. -/
def valueAt (E : Env) (c : Call) (f : RawFrame) (d : ℤ) : Option TiValue :=
  match (construct E c (.frame f) (.bool true)).2 with
  | .ok o => some (o.getTiValue (some (.date d)))
  | .error _ => none

/-- The signal the simulation computes in round `i` for an indicator built on `f`. -/
def simulatedSignal (E : Env) (c : Call) (f : RawFrame) (i : ℕ) : Option Signal :=
  match (construct E c (.frame f) (.bool true)).2 with
  | .ok o => match o.cut i with
    | some o' => o'.getTiSignal.toOption
    | none => none
  | .error _ => none

/-- The signal of the indicator built on `f`. -/
def liveSignal (E : Env) (c : Call) (f : RawFrame) : Option Signal :=
  match (construct E c (.frame f) (.bool true)).2 with
  | .ok o => o.getTiSignal.toOption
  | .error _ => none

/-- The value of some day changes although nothing changed up to that day. -/
def ValueLooksAhead (E : Env) (c : Call) : Prop :=
  ∃ (f g : RawFrame) (d : ℤ) (a b : List Val), WF f ∧ WF g ∧ f.upTo d = g.upTo d ∧
    valueAt E c f d = some (.row a) ∧ valueAt E c g d = some (.row b) ∧ a ≠ b

/-- In a backtest the signal of some day differs from the signal a live user would have got on that day. -/
def SignalLooksAhead (E : Env) (c : Call) : Prop :=
  ∃ (f : RawFrame) (i : ℕ) (d : ℤ) (a b : Signal), WF f ∧ CompleteFor f ["close", "high", "low", "volume"] ∧
    (sortIdx f.idx)[i]? = some d ∧ simulatedSignal E c f i = some a ∧ liveSignal E c (f.upTo d) = some b ∧ a ≠ b

/-- A frame with columns close, high, low, volume. -/
def bars (rows : List (ℚ × ℚ × ℚ × ℚ)) : RawFrame :=
  ⟨true, (List.range rows.length).map fun (i : ℕ) => (i : ℤ),
   [⟨.str "close", true, rows.map fun r => .fin r.1⟩, ⟨.str "high", true, rows.map fun r => .fin r.2.1⟩,
    ⟨.str "low", true, rows.map fun r => .fin r.2.2.1⟩, ⟨.str "volume", true, rows.map fun r => .fin r.2.2.2⟩]⟩

theorem bars_wf (rows : List (ℚ × ℚ × ℚ × ℚ)) : WF (bars rows) := by
  unfold WF bars; simp

theorem bars_complete (rows : List (ℚ × ℚ × ℚ × ℚ)) (l : List String) : CompleteFor (bars rows) l := by
  intro c hc _ v hv
  simp only [bars, List.mem_cons, List.not_mem_nil, or_false] at hc
  rcases hc with rfl | rfl | rfl | rfl <;>
    · obtain ⟨r, -, rfl⟩ := List.mem_map.1 hv
      simp

/-- The calls of C21. -/
theorem construct_env (E : Env) (c : Call) (data : InputArg) (fill : PyArg)
    (hc : c = .detrendedPriceOscillator (.int 2) ∨ c = .fibonacciRetracement ∨ c = .accumulationDistributionLine ∨
      c = .chaikinOscillator) : construct E c data fill = construct demoEnv c data fill := by
  rcases hc with rfl | rfl | rfl | rfl <;> rfl

theorem looks_ahead (E : Env) (c : Call) (hc : ∀ data fill, construct E c data fill = construct demoEnv c data fill) :
    (ValueLooksAhead demoEnv c → ValueLooksAhead E c) ∧ (SignalLooksAhead demoEnv c → SignalLooksAhead E c) := by
  unfold ValueLooksAhead SignalLooksAhead valueAt simulatedSignal liveSignal
  simp only [hc]
  exact ⟨id, id⟩

/-- C21: the Detrended Price Oscillator of a day contains later closes, and a backtest uses them. -/
theorem C21_detrended (E : Env) : ValueLooksAhead E (.detrendedPriceOscillator (.int 2)) ∧
    SignalLooksAhead E (.detrendedPriceOscillator (.int 2)) := by
  have h := looks_ahead E (.detrendedPriceOscillator (.int 2)) fun data fill => construct_env E _ data fill (by simp)
  constructor
  · apply h.1
    refine ⟨bars [(10, 11, 9, 1), (10, 11, 9, 1), (10, 11, 9, 1)], bars [(10, 11, 9, 1), (10, 11, 9, 1), (20, 21, 9, 1)],
      0, [.fin 0], [.fin (-5)], bars_wf _, bars_wf _, ?_, ?_, ?_, ?_⟩
    all_goals decide +kernel
  · apply h.2
    refine ⟨bars [(10, 11, 9, 1), (10, 11, 9, 1), (12, 13, 9, 1), (2, 3, 1, 1)], 1, 1, .buy, .hold, bars_wf _,
      bars_complete _ _, ?_, ?_, ?_, ?_⟩
    all_goals decide +kernel

/-- C21: the Fibonacci levels of a day depend on later closes, and a backtest uses them. -/
theorem C21_fibonacci (E : Env) : ValueLooksAhead E .fibonacciRetracement ∧ SignalLooksAhead E .fibonacciRetracement := by
  have h := looks_ahead E .fibonacciRetracement fun data fill => construct_env E _ data fill (by simp)
  constructor
  · apply h.1
    refine ⟨bars [(10, 11, 9, 1), (20, 21, 9, 1)], bars [(10, 11, 9, 1), (30, 31, 9, 1)], 0,
      [.fin 20, .fin (1764 / 100), .fin (1618 / 100), .fin 15, .fin (1382 / 100), .fin 10],
      [.fin 30, .fin (2528 / 100), .fin (2236 / 100), .fin 20, .fin (1764 / 100), .fin 10],
      bars_wf _, bars_wf _, ?_, ?_, ?_, ?_⟩
    all_goals decide +kernel
  · apply h.2
    refine ⟨bars [(16, 16, 16, 1), (14, 14, 14, 1), (100, 100, 100, 1), (10, 10, 10, 1)], 1, 1, .hold, .buy, bars_wf _,
      bars_complete _ _, ?_, ?_, ?_, ?_⟩
    all_goals decide +kernel

/-- C21: the Accumulation Distribution Line of a day is rounded to an integer or not, depending on later rows, and a
backtest sees the difference. -/
theorem C21_accumulation (E : Env) : ValueLooksAhead E .accumulationDistributionLine ∧
    SignalLooksAhead E .accumulationDistributionLine := by
  have h := looks_ahead E .accumulationDistributionLine fun data fill => construct_env E _ data fill (by simp)
  constructor
  · apply h.1
    refine ⟨bars [(3, 4, 0, 3), (2, 4, 0, 1)], bars [(3, 4, 0, 3), (2, 2, 2, 1)], 0, [.fin 1], [.fin (3 / 2)], bars_wf _,
      bars_wf _, ?_, ?_, ?_, ?_⟩
    all_goals decide +kernel
  · apply h.2
    refine ⟨bars [(2, 4, 0, 1), (3, 4, 0, 1), (2, 2, 2, 1)], 1, 1, .buy, .hold, bars_wf _,
      bars_complete _ _, ?_, ?_, ?_, ?_⟩
    all_goals decide +kernel

/-- C21: so does the Chaikin Oscillator, which is computed from it. -/
theorem C21_chaikin_oscillator (E : Env) : ValueLooksAhead E .chaikinOscillator := by
  have h := looks_ahead E .chaikinOscillator fun data fill => construct_env E _ data fill (by simp)
  apply h.1
  refine ⟨bars (List.replicate 10 (3, 4, 0, 3) ++ [(2, 4, 0, 1)]), bars (List.replicate 10 (3, 4, 0, 3) ++ [(2, 2, 2, 1)]), 9,
    [.fin (42389 / 10000)], [.fin (41439 / 10000)], bars_wf _, bars_wf _, ?_, ?_, ?_, ?_⟩
  all_goals decide +kernel

end TTI.Props
