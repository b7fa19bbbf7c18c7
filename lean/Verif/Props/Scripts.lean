import Mathlib.Data.List.TakeWhile
import Verif.Spec.Scripts
import Verif.Props.Calls
import Verif.Props.ValidateApi
import Verif.Props.Api
import Verif.Props.Fill

set_option autoImplicit false

/-!
# The simulation scripts

C81.
-/

namespace TTI.Props

open TTI

/-! ## The calls of the scripts -/

theorem bindFrom_data (kw : List (String × Arg)) (a : Arg) (ps : List (String × Option Arg))
    (hn : "input_data" ∉ ps.map (·.1)) : bindFrom (("input_data", a) :: kw) ps [] = bindFrom kw ps [] := by
  induction ps with
  | nil => rfl
  | cons p ps ih =>
    obtain ⟨name, dflt⟩ := p
    simp only [List.map_cons, List.mem_cons, not_or] at hn
    have hl : (("input_data", a) :: kw).lookup name = kw.lookup name := by
      rw [List.lookup_cons]
      have : (name == "input_data") = false := by simpa using Ne.symm hn.1
      rw [this]
    simp only [bindFrom, hl]
    rw [ih hn.2]

/-- The data is handed through unchanged; nothing else depends on it. -/
theorem resolve_data (cls : String) (kw : List (String × Arg)) (d d' : InputArg) (c : Call) (x : InputArg) (fill : PyArg)
    (h : resolveCall cls [] (("input_data", .data d') :: kw) = .ok (c, x, fill)) :
    resolveCall cls [] (("input_data", .data d) :: kw) = .ok (c, d, fill) := by
  unfold resolveCall at h ⊢
  cases hs : signatures.find? (·.cls = cls) with
  | none => rw [hs] at h; cases h
  | some s =>
    rw [hs] at h
    simp only at h ⊢
    have hn := all_nodup s (List.mem_of_find?_eq_some hs)
    unfold bindArgs at h ⊢
    simp only [List.map_cons] at h ⊢
    by_cases hk : (∀ k ∈ "input_data" :: kw.map (·.1), k ∈ s.all.map (·.1)) ∧ ("input_data" :: kw.map (·.1)).Nodup
    · rw [if_pos hk] at h ⊢
      unfold Sig.all at h hn ⊢
      simp only [List.cons_append, List.map_cons, List.nodup_cons] at h hn ⊢
      simp only [bindFrom, List.lookup_cons, beq_self_eq_true, Option.some_or] at h ⊢
      rw [bindFrom_data _ _ _ hn.1] at h ⊢
      split at h
      · cases h
      · rename_i vs hvs
        split at hvs
        · rename_i vs' hvs'
          simp only [Except.ok.injEq] at hvs
          subst hvs
          simp only at h ⊢
          split at h
          · rename_i c' fill' hc hf
            simp only [Except.ok.injEq, Prod.mk.injEq] at h
            obtain ⟨rfl, -, rfl⟩ := h
            rfl
          · cases h
        · cases hvs
    · rw [if_neg hk] at h
      cases h

/-- What the arguments of a run of the script amount to. -/
def runFits (r : ScriptRun) : Bool :=
  match resolveCall r.cls [] (("input_data", .data .notFrame) :: r.kw.map fun p => (p.1, .param p.2)) with
  | .ok (c, _, .bool true) =>
    match c.check with
    | .error _ => false
    | .ok ind =>
      decide (Spec.minRows ind ≤ 55) && (ind.required.all fun r => decide (r ∈ ["open", "high", "low", "close", "volume"])) &&
        decide (ind ≠ .medianPrice 1) && decide (ind.className = r.cls)
  | _ => false

theorem runs_fit : ∀ r ∈ scriptRuns, runFits r = true := by decide +kernel

theorem run_call (r : ScriptRun) (hr : r ∈ scriptRuns) :
    ∃ c ind, (∀ d, resolveCall r.cls [] (("input_data", .data d) :: r.kw.map fun p => (p.1, .param p.2)) =
        .ok (c, d, .bool true)) ∧ c.check = .ok ind ∧ Spec.minRows ind ≤ 55 ∧
      (∀ r ∈ ind.required, r ∈ ["open", "high", "low", "close", "volume"]) ∧ ind ≠ .medianPrice 1 ∧ ind.className = r.cls := by
  have hfit := runs_fit r hr
  unfold runFits at hfit
  split at hfit
  · rename_i c x hres
    cases hc : c.check with
    | error e => rw [hc] at hfit; cases hfit
    | ok ind =>
      rw [hc] at hfit
      simp only [Bool.and_eq_true, decide_eq_true_eq, List.all_eq_true] at hfit
      obtain ⟨⟨⟨h1, h2⟩, h3⟩, h4⟩ := hfit
      exact ⟨c, ind, fun d => resolve_data _ _ _ _ _ _ _ hres, hc, h1, h2, h3, h4⟩
  · cases hfit

/-! ## The shared table -/

/-- The table after the first call: all labels in lower case. -/
def lowered (f : RawFrame) : RawFrame := { f with cols := f.cols.map fun c => { c with label := .str c.name } }

theorem lowerChar_idem (c : Char) : lowerChar (lowerChar c) = lowerChar c := by
  unfold lowerChar
  by_cases h : 65 ≤ c.toNat ∧ c.toNat ≤ 90
  · rw [if_pos h]
    have hv : (c.toNat + 32).isValidChar := by left; omega
    have h2 : (Char.ofNat (c.toNat + 32)).toNat = c.toNat + 32 := by
      unfold Char.ofNat; rw [dif_pos hv]; rfl
    rw [h2, if_neg (by omega)]
  · rw [if_neg h, if_neg h]

theorem toLower_idem (s : String) : s.toLower.toLower = s.toLower := by
  apply String.toList_inj.1
  simp only [String.toLower, String.toList_map, List.map_map]
  apply List.map_congr_left
  intro c _
  simp only [Function.comp_apply, toLower_eq, lowerChar_idem]

theorem name_relabel (c : RawCol) (h : c.label ≠ .other) : ({ c with label := .str c.name } : RawCol).name = c.name := by
  cases hl : c.label with
  | other => exact absurd hl h
  | str t => simp [RawCol.name, Label.lower, hl, toLower_idem]

theorem lowered_lowered (f : RawFrame) (h : ∀ c ∈ f.cols, c.label ≠ .other) : lowered (lowered f) = lowered f := by
  unfold lowered
  simp only [List.map_map]
  congr 1
  apply List.map_congr_left
  intro c hc
  simp only [Function.comp_apply, name_relabel c (h c hc)]

theorem close_lower : "close".toLower = "close" := by decide +kernel

/-- The column `close` of a table of prices is the only one whose label is `close` in lower case. -/
theorem close_columns (f : RawFrame) (h : PriceTable f) (hc : Spec.HasClose f) :
    ∃ c ∈ f.cols, c.label = .str "close" ∧ c.numeric = true ∧ (f.cols.filter fun c => c.label = .str "close") = [c] ∧
      ((lowered f).cols.filter fun c => c.label = .str "close") = [c] := by
  obtain ⟨c, hcm, hcl⟩ := hc
  have hname : c.name = "close" := by simp [RawCol.name, Label.lower, hcl, close_lower]
  obtain ⟨c', hcm', hcn', hnum⟩ := h.five "close" (by simp)
  have huniq : ∀ x ∈ f.cols, x.name = "close" → x = c := fun x hx hn =>
    (List.inj_on_of_nodup_map h.distinct) hx hcm (hn.trans hname.symm)
  obtain rfl := huniq c' hcm' hcn'
  have hnd : f.cols.Nodup := h.distinct.of_map
  have hone : ∀ (p : RawCol → Bool), (∀ x ∈ f.cols, p x = true ↔ x = c') → f.cols.filter p = [c'] := by
    intro p hp
    rw [List.filter_congr (q := fun x => x == c') (by
      intro x hx
      rw [Bool.eq_iff_iff, hp x hx, beq_iff_eq])]
    rw [List.filter_beq, List.count_eq_one_of_mem hnd hcm]
    rfl
  refine ⟨c', hcm, hcl, hnum, ?_, ?_⟩
  · apply hone
    intro x hx
    rw [decide_eq_true_iff]
    constructor
    · intro hl
      exact huniq x hx (by simp [RawCol.name, Label.lower, hl, close_lower])
    · rintro rfl
      exact hcl
  · unfold lowered
    simp only [List.filter_map]
    rw [hone]
    · simp only [List.map_cons, List.map_nil, hname, ← hcl]
    · intro x hx
      simp only [Function.comp_apply, decide_eq_true_iff, Label.str.injEq]
      exact ⟨huniq x hx, by rintro rfl; exact hname⟩

theorem construct_caller (E : Env) (c : Call) (ind : Ind) (f : RawFrame) (b : Bool) (hc : c.check = .ok ind)
    (hd : f.datetimeIndex = true) (hr : f.idx ≠ []) (hcols : f.cols ≠ []) (hl : ∀ c ∈ f.cols, c.label ≠ .other) :
    (construct E c (.frame f) (.bool b)).1 = .frame (lowered f) := by
  have h := C31_only_labels_change (.frame f) ind.required b
  simp only at h
  rw [if_pos ⟨hd, hr, hcols, hl⟩] at h
  unfold construct
  rw [hc]
  simp only
  rcases hv : validateInputData (.frame f) ind.required b with ⟨caller, r⟩
  rw [hv] at h
  simp only at h
  subst h
  cases r with
  | error e => rfl
  | ok F =>
    simp only
    cases ind.calcTi E F <;> rfl

/-- One run of the script on the table as it was read, or with lower case labels. -/
theorem execute_run (E : Env) (r : ScriptRun) (hr : r ∈ scriptRuns) (f g : RawFrame) (h : PriceTable f) (hc : Spec.HasClose f)
    (hl : 55 ≤ f.idx.length) (hg : g = f ∨ g = lowered f) :
    ∃ out, r.execute E g = (lowered f, out) ∧ Spec.Alone E r.cls r.kw f out ∧
      ((∃ s, out = .ok s) ∨ out = .error .indexError ∧ r.cls = "RangeIndicator") := by
  obtain ⟨c, ind, hres, hchk, hrows, hreq, hmp, hcls⟩ := run_call r hr
  obtain ⟨k, hkm, hkl, hknum, hsel, hsel'⟩ := close_columns f h hc
  have hne : f.idx ≠ [] := by rintro h; rw [h] at hl; simp at hl
  have hcols : f.cols ≠ [] := List.ne_nil_of_mem hkm
  have hv := validate_ok f ind.required true (h.valid hne _ hreq)
  obtain ⟨o, ho, hoi⟩ := (C32_not_enough_iff E c ind f true h.wf hchk ⟨_, hv⟩).2 (by omega)
  -- the close prices
  set C : RawFrame := { f with cols := [k] } with hC
  have hCvalid : C.Valid ["close"] := by
    have hkn : k.name = "close" := by simp [RawCol.name, Label.lower, hkl, close_lower]
    refine ⟨h.dates, hne, by simp [hC], by simp [hC, hkl], ?_, by simp [hC, hkn]⟩
    intro r hr
    simp only [List.mem_singleton] at hr
    subst hr
    exact ⟨k, by simp [hC, hkn], hknum⟩
  have hacc : AcceptsSim o.input.idx (.frame C) .none (.float (.fin (3 / 2))) := by
    refine ⟨⟨C, rfl, hCvalid, ?_⟩, Or.inl rfl, ⟨.fin (3 / 2), rfl, by decide +kernel⟩⟩
    obtain ⟨ind', F, T, hc', hF, -, rfl⟩ := (construct_ok_iff _ _ _ _ _).1 ho
    simp only [inputAfter_idx]
    rw [validated_idx _ _ _ _ hF]
    exact (sortIdx_perm _).symm
  have hcons : construct E c (.frame g) (.bool true) = (.frame (lowered f), .ok o) := by
    apply Prod.ext
    · rcases hg with rfl | rfl
      · exact construct_caller E c ind g true hchk h.dates hne hcols h.labels
      · have := construct_caller E c ind (lowered f) true hchk h.dates hne (by simpa [lowered] using hcols) (by
          intro x hx
          simp only [lowered, List.mem_map] at hx
          obtain ⟨y, -, rfl⟩ := hx
          simp)
        rw [this, lowered_lowered f h.labels]
    · rcases hg with rfl | rfl
      · exact ho
      · rw [← ho]
        exact C26_label_case_construct E c f (.bool true) (fun c => .str c.name) fun x hx => by
          cases hx' : x.label with
          | other => exact absurd hx' (h.labels x hx)
          | str t => simp [RawCol.name, Label.lower, hx', toLower_idem]
  have hgsel : g.selectClose = .ok C := by
    have hcl : g.cols.filter (fun c => c.label = .str "close") = [k] := by
      rcases hg with rfl | rfl
      · exact hsel
      · exact hsel'
    unfold RawFrame.selectClose
    rw [hcl, hC]
    rcases hg with rfl | rfl <;> rfl
  refine ⟨(o.getTiSimulation (.frame C) .none (.float (.fin (3 / 2)))).2.2, ?_, ?_, ?_⟩
  · unfold ScriptRun.execute
    rw [hgsel]
    simp only [executeSimulation, hres, hcons, InputArg.table]
  · refine ⟨o, ?_, by rw [hsel]⟩
    unfold callClass
    rw [hres]
    exact ho
  · -- the signal of every round is there or raises IndexError
    have hs := C34_signal_total E c f true o h.wf ho
    by_cases hall : ∀ i o', o.cut i = some o' → ¬ SignalRaises o'.ind o'.ti
    · exact Or.inl ((C19_simulation_succeeds_iff E c f true o h.wf ho _ _ _ hacc).2 hall)
    · right
      push Not at hall
      obtain ⟨i, o', hi, hraise⟩ := hall
      have hri : r.cls = "RangeIndicator" := by
        by_contra hne
        have := (C34_other_indicators E c f true o h.wf ho (by rw [hoi]; exact hmp) (by
          intro p q hpq
          rw [hoi] at hpq
          rw [hpq] at hcls
          exact hne hcls.symm)).2 i o' hi
        obtain ⟨s, hs'⟩ := this
        rw [(hs.2.2.2 i o' hi).1 hraise] at hs'
        cases hs'
      refine ⟨?_, hri⟩
      have hex : ∃ k, ∃ ok, o.cut k = some ok ∧ SignalRaises ok.ind ok.ti := ⟨i, o', hi, hraise⟩
      classical
      obtain ⟨ok, hk, hkr⟩ := Nat.find_spec hex
      have hlt : Nat.find hex < o.ti.len := by
        by_contra hge
        rw [cut_none o _ (by omega)] at hk; simp at hk
      exact (simulation_fails o ok _ _ _ _ _ hacc hk (fun j hj => by
        obtain ⟨oj, hoj, -⟩ := hs.2.2.1 j (lt_trans hj hlt)
        obtain ⟨sg, hsg⟩ := (hs.2.2.2 j oj hoj).2 fun hr => Nat.find_min hex hj ⟨oj, hoj, hr⟩
        exact ⟨oj, sg, hoj, hsg⟩) ((hs.2.2.2 _ ok hk).1 hkr)).2

theorem script_runs (E : Env) (f : RawFrame) (h : PriceTable f) (hc : Spec.HasClose f) (hl : 55 ≤ f.idx.length) :
    ∀ (rs : List ScriptRun), (∀ r ∈ rs, r ∈ scriptRuns) → ∀ g, g = f ∨ g = lowered f →
      (∀ (i : ℕ) (s : SimResult), (runScript E rs g).1[i]? = some s →
        ∃ r, rs[i]? = some r ∧ Spec.Alone E r.cls r.kw f (.ok s)) ∧
      ((runScript E rs g).2 = none ∧ (runScript E rs g).1.length = rs.length ∨
        (runScript E rs g).2 = some .indexError ∧ ∃ r, rs[(runScript E rs g).1.length]? = some r ∧ r.cls = "RangeIndicator" ∧
          Spec.Alone E r.cls r.kw f (.error .indexError)) := by
  intro rs
  induction rs with
  | nil => intro _ g _; exact ⟨by simp [runScript], Or.inl ⟨rfl, rfl⟩⟩
  | cons r rs ih =>
    intro hrs g hg
    obtain ⟨out, hex, halone, hout⟩ := execute_run E r (hrs r (by simp)) f g h hc hl hg
    rcases hout with ⟨s, rfl⟩ | ⟨rfl, hri⟩
    · have hrun : runScript E (r :: rs) g = (s :: (runScript E rs (lowered f)).1, (runScript E rs (lowered f)).2) := by
        simp only [runScript, hex]
      obtain ⟨h1, h2⟩ := ih (fun x hx => hrs x (by simp [hx])) (lowered f) (Or.inr rfl)
      rw [hrun]
      refine ⟨?_, ?_⟩
      · intro i s' hs'
        cases i with
        | zero =>
          simp only [List.getElem?_cons_zero, Option.some.injEq] at hs'
          subst hs'
          exact ⟨r, rfl, halone⟩
        | succ i =>
          simp only [List.getElem?_cons_succ] at hs' ⊢
          exact h1 i s' hs'
      · simpa using h2
    · have hrun : runScript E (r :: rs) g = ([], some .indexError) := by simp only [runScript, hex]
      rw [hrun]
      exact ⟨by simp, Or.inr ⟨rfl, r, rfl, hri, halone⟩⟩

/-- C81: the script over all indicators, on a table of at least 55 rows of prices and volumes whose close column is labelled
`close`. Every reported simulation is the one of this run done alone on the table as it was read, although all runs share
the table and the first of them changes its labels. Either all 62 runs are reported, or the script ends with IndexError at
`RangeIndicator`, whose simulation alone raises it as well; the runs after it are not made. -/
theorem C81_all_simulations (E : Env) (f : RawFrame) (h : PriceTable f) (hc : Spec.HasClose f) (hl : 55 ≤ f.idx.length) :
    ∃ results error, runAllSimulation E f = (results, error) ∧
      (∀ (i : ℕ) (s : SimResult), results[i]? = some s →
        ∃ r, scriptRuns[i]? = some r ∧ Spec.Alone E r.cls r.kw f (.ok s)) ∧
      (error = none ∧ results.length = 62 ∨
        error = some .indexError ∧ ∃ r, scriptRuns[results.length]? = some r ∧ r.cls = "RangeIndicator" ∧
          Spec.Alone E r.cls r.kw f (.error .indexError)) :=
  ⟨_, _, rfl, script_runs E f h hc hl scriptRuns (fun _ h => h) f (Or.inl rfl)⟩

/-- Prices whose daily range alternates for twelve days, is twice larger than before, and then stays the same. -/
def widening : RawFrame :=
  let g (j : ℕ) : ℚ := if j < 12 then (if j % 2 = 0 then 2 else 1) else if j = 12 then 3 else if j = 13 then 4 else 2
  ⟨true, (List.range 55).map fun j => (j : ℤ),
   [⟨.str "open", true, List.replicate 55 (.fin 10)⟩,
    ⟨.str "High", true, (List.range 55).map fun j => .fin (10 + g j)⟩,
    ⟨.str "Low", true, (List.range 55).map fun j => .fin (10 - g j)⟩,
    ⟨.str "close", true, List.replicate 55 (.fin 10)⟩,
    ⟨.str "volume", true, List.replicate 55 (.fin 1)⟩]⟩

theorem wide_table : PriceTable widening := by
  refine ⟨?_, rfl, by decide, by decide +kernel, by decide +kernel⟩
  unfold WF
  decide +kernel

/-- What the script calls for `RangeIndicator`. -/
theorem resolve_range : resolveCall "RangeIndicator" [] [("input_data", .data .notFrame)] =
    .ok (.rangeIndicator (.int 5) (.int 3), .notFrame, .bool true) := rfl


/-- The simulation of `RangeIndicator` on `widening`. -/
theorem wide_range : (match (construct demoEnv (.rangeIndicator (.int 5) (.int 3)) (.frame widening) (.bool true)).2 with
    | .error _ => none
    | .ok o => some (o.getTiSimulation (.frame { widening with cols := widening.cols.filter fun c => c.label = .str "close" }) .none
      (.float (.fin (3 / 2)))).2.2) = some (.error .indexError) := by decide +kernel

/-- C81: on the 55 rows of prices `widening` the script ends with IndexError after 41 of the 62 runs. -/
theorem C81_stops_at_range_indicator (E : Env) :
    (runAllSimulation E widening).1.length = 41 ∧ (runAllSimulation E widening).2 = some .indexError := by
  obtain ⟨l, e, hrun, hres, hend⟩ := C81_all_simulations E widening wide_table ⟨_, List.mem_of_getElem? (i := 3) rfl, rfl⟩ (by decide)
  rw [hrun]
  have hk : ∀ i r, scriptRuns[i]? = some r → r.cls = "RangeIndicator" → i = 41 := by
    intro i r hi hr
    have : ∀ j < 62, (scriptRuns[j]?.map (·.cls)) = some "RangeIndicator" → j = 41 := by decide +kernel
    have hlt : i < scriptRuns.length := (List.getElem?_eq_some_iff.1 hi).1
    exact this i hlt (by rw [hi]; simp [hr])
  have hbad : ∀ s, ¬ Spec.Alone E "RangeIndicator" [] widening (.ok s) := by
    rintro s ⟨o, ho, hs⟩
    unfold callClass at ho
    simp only [List.map_nil] at ho
    rw [resolve_data _ _ (.frame widening) _ _ _ _ resolve_range] at ho
    have hE : ∀ (x : InputArg), construct E (.rangeIndicator (.int 5) (.int 3)) x (.bool true) =
      construct demoEnv (.rangeIndicator (.int 5) (.int 3)) x (.bool true) := fun _ => rfl
    simp only at ho
    rw [hE] at ho
    have := wide_range
    rw [ho] at this
    simp only [hs] at this
    cases this
  rcases hend with ⟨rfl, hlen⟩ | ⟨rfl, r, hr, hcls, -⟩
  · exfalso
    obtain ⟨s, hs⟩ : ∃ s, l[41]? = some s := ⟨l[41], List.getElem?_eq_getElem (by omega)⟩
    obtain ⟨r, hr, ha⟩ := hres 41 s hs
    have hkw : ∃ r, scriptRuns[41]? = some r ∧ r.cls = "RangeIndicator" ∧ r.kw = [] := ⟨_, rfl, rfl, rfl⟩
    obtain ⟨r', hr', hc, hk'⟩ := hkw
    rw [hr] at hr'
    cases hr'
    rw [hc, hk'] at ha
    exact hbad s ha
  · exact ⟨hk _ r hr hcls, rfl⟩


/-- The hypotheses of `C81_all_simulations` are met, and the labels do change. -/
example : PriceTable widening ∧ Spec.HasClose widening ∧ 55 ≤ widening.idx.length ∧
    (lowered widening).cols.map (·.label) ≠ widening.cols.map (·.label) :=
  ⟨wide_table, ⟨_, List.mem_of_getElem? (i := 3) rfl, rfl⟩, by decide, by decide +kernel⟩

/-- C81: the runs of the script: the classes of the package in alphabetical order, one run each, apart from five for the
moving average and two for the stochastic oscillator. -/
theorem C81_runs :
    scriptRuns.length = 62 ∧ (scriptRuns.map (·.cls)).Pairwise (· ≤ ·) ∧
    (∀ cls, cls ∈ scriptRuns.map (·.cls) ↔ ∃ ind : Ind, ind.className = cls) ∧
    (scriptRuns.filter fun r => r.cls = "MovingAverage").map (·.kw) =
      [[("ma_type", .str "simple")], [("ma_type", .str "exponential")], [("ma_type", .str "time_series")],
        [("ma_type", .str "triangular")], [("ma_type", .str "variable")]] ∧
    (scriptRuns.filter fun r => r.cls = "StochasticOscillator").map (·.kw) =
      [[("k_slowing_periods", .int 1)], [("k_slowing_periods", .int 3)]] ∧
    ∀ r ∈ scriptRuns, r.cls ≠ "MovingAverage" → r.cls ≠ "StochasticOscillator" →
      r.kw = [] ∧ (scriptRuns.map (·.cls)).count r.cls = 1 := by
  refine ⟨by decide +kernel, by decide +kernel, ?_, by decide +kernel, by decide +kernel, by decide +kernel⟩
  intro cls
  constructor
  · intro h
    obtain ⟨r, hr, rfl⟩ := List.mem_map.1 h
    obtain ⟨-, ind, -, -, -, -, -, hi⟩ := run_call r hr
    exact ⟨ind, hi⟩
  · rintro ⟨ind, rfl⟩
    have h1 := C67_documented.2.2 ind
    have h2 : ∀ n ∈ signatures.map (·.cls), n ∈ scriptRuns.map (·.cls) := by decide +kernel
    exact h2 _ h1

/-! ## The command line -/

theorem parseArgument_split (key v : String) (hk : '=' ∉ key.toList) (hv : '=' ∉ v.toList) :
    parseArgument (key ++ "=" ++ v) = match parseValue v.toList with
      | .error e => .error e
      | .ok x => .ok (key, x) := by
  have hl : (key ++ "=" ++ v).toList = key.toList ++ '=' :: v.toList := by simp
  have hp : ∀ (l : List Char), '=' ∉ l → ∀ c ∈ l, (c != '=') = true := by
    intro l hl c hc
    simp only [bne_iff_ne]
    rintro rfl
    exact hl hc
  unfold parseArgument
  rw [hl, List.dropWhile_append_of_pos (hp _ hk), List.takeWhile_append_of_pos (hp _ hk)]
  simp only [List.dropWhile_cons, List.takeWhile_cons, bne_self_eq_false, Bool.false_eq_true, if_false, List.append_nil,
    String.ofList_toList]
  have ht : v.toList.takeWhile (· != '=') = v.toList := by
    have := List.takeWhile_append_of_pos (l₂ := []) (hp _ hv)
    simpa using this
  rw [ht]
  cases parseValue v.toList <;> rfl

theorem dropNewline_digit (l : List Char) (c : Char) (hc : c.isDigit = true) : dropFinalNewline (l ++ [c]) = l ++ [c] := by
  unfold dropFinalNewline
  rw [if_neg]
  simp only [List.getLast?_concat, Option.some.injEq]
  rintro rfl
  exact absurd hc (by decide)

theorem digits_append (n : ℕ) : ∃ l c, (toString n).toList = l ++ [c] ∧ c.isDigit = true ∧
    (∀ c ∈ (toString n).toList, c.isDigit = true) ∧ Nat.ofDigitChars 10 (toString n).toList 0 = n := by
  have he : (toString n).toList = Nat.toDigits 10 n := Nat.toList_repr
  have hne : Nat.toDigits 10 n ≠ [] := Nat.toDigits_ne_nil
  have hd : ∀ c ∈ Nat.toDigits 10 n, c.isDigit = true := fun c hc => Nat.isDigit_of_mem_toDigits (by decide) (by decide) hc
  rw [he]
  refine ⟨(Nat.toDigits 10 n).dropLast, (Nat.toDigits 10 n).getLast hne, ?_, hd _ (List.getLast_mem hne), hd, ?_⟩
  · exact (List.dropLast_append_getLast hne).symm
  · exact Nat.ofDigitChars_ten_toDigits

theorem not_eq_of_digits (l : List Char) (h : ∀ c ∈ l, c.isDigit = true) : '=' ∉ l := fun hm => absurd (h _ hm) (by decide)

/-- C81: `key=7` is the integer 7. -/
theorem C81_whole_number (key : String) (hk : '=' ∉ key.toList) (n : ℕ) :
    parseArgument (key ++ "=" ++ toString n) = .ok (key, .int n) := by
  obtain ⟨l, c, hl, hc, hd, hn⟩ := digits_append n
  rw [parseArgument_split key _ hk (not_eq_of_digits _ hd)]
  unfold parseValue
  rw [hl, dropNewline_digit l c hc, ← hl]
  simp only
  rw [if_pos (List.all_eq_true.2 hd), if_neg (by rw [hl]; simp), hn]

theorem all_digit_not (l r : List Char) : (l ++ '.' :: r).all Char.isDigit = false := by
  simp only [List.all_append, List.all_cons]
  simp [show '.'.isDigit = false by decide]

theorem parseValue_decimals (n : ℕ) (d : Char) (r : List Char) (hds : ∀ c ∈ d :: r, c.isDigit = true) :
    parseValue ((toString n).toList ++ '.' :: d :: r) =
      if r = [] then .ok (.float (.fin (n + (Nat.ofDigitChars 10 [d] 0 : ℚ) / 10)))
      else .ok (.str (String.ofList ((toString n).toList ++ '.' :: d :: r))) := by
  obtain ⟨-, -, -, -, hd, hn⟩ := digits_append n
  have hne : d :: r ≠ [] := by simp
  have hnl : dropFinalNewline ((toString n).toList ++ '.' :: d :: r) = (toString n).toList ++ '.' :: d :: r := by
    have : (toString n).toList ++ '.' :: d :: r = ((toString n).toList ++ '.' :: (d :: r).dropLast) ++ [(d :: r).getLast hne] := by
      rw [List.append_assoc, List.cons_append, List.dropLast_append_getLast hne]
    rw [this]
    exact dropNewline_digit _ _ (hds _ (List.getLast_mem hne))
  unfold parseValue
  simp only [hnl]
  rw [all_digit_not, if_neg (by decide), List.dropWhile_append_of_pos hd, List.takeWhile_append_of_pos hd]
  simp only [List.dropWhile_cons, List.takeWhile_cons, show '.'.isDigit = false by decide, Bool.false_eq_true, if_false,
    List.append_nil, hn]
  cases r with
  | nil => simp [hds d (by simp)]
  | cons e r =>
    have he : (e == ']') = false := by
      rw [beq_eq_false_iff_ne]
      rintro rfl
      exact absurd (hds ']' (by simp)) (by decide)
    simp [he]

/-- C81: `key=1.5` is the number 1.5. -/
theorem C81_one_decimal (key : String) (hk : '=' ∉ key.toList) (n d : ℕ) (hd : d < 10) :
    parseArgument (key ++ "=" ++ (toString n ++ "." ++ toString d)) = .ok (key, .float (.fin (n + d / 10))) := by
  have hdig : (toString d).toList = [d.digitChar] := by
    have he : (toString d).toList = Nat.toDigits 10 d := Nat.toList_repr
    rw [he, Nat.toDigits_of_lt_base hd]
  obtain ⟨-, -, -, -, hdd, hdn⟩ := digits_append d
  obtain ⟨-, -, -, -, hnd, -⟩ := digits_append n
  have hl : (toString n ++ "." ++ toString d).toList = (toString n).toList ++ '.' :: (toString d).toList := by simp
  rw [parseArgument_split key _ hk, hl, hdig, parseValue_decimals n _ _ (by rw [← hdig]; exact hdd)]
  · rw [hdig] at hdn
    simp [hdn]
  · rw [hl]
    simp only [List.mem_append, List.mem_cons, not_or]
    exact ⟨not_eq_of_digits _ hnd, by decide, not_eq_of_digits _ hdd⟩

/-- C81: with two or more decimals the value stays text. -/
theorem C81_more_decimals (key : String) (hk : '=' ∉ key.toList) (n : ℕ) (ds : String)
    (hd : ∀ c ∈ ds.toList, c.isDigit = true) (h2 : 2 ≤ ds.toList.length) :
    parseArgument (key ++ "=" ++ (toString n ++ "." ++ ds)) = .ok (key, .str (toString n ++ "." ++ ds)) := by
  obtain ⟨-, -, -, -, hnd, -⟩ := digits_append n
  have hl : (toString n ++ "." ++ ds).toList = (toString n).toList ++ '.' :: ds.toList := by simp
  rw [parseArgument_split key _ hk, hl]
  · obtain ⟨d, r, hdr⟩ := List.exists_cons_of_ne_nil (l := ds.toList) (by rintro h; rw [h] at h2; simp at h2)
    rw [hdr] at hd h2
    rw [hdr, parseValue_decimals n d r hd, ← hdr, ← hl, String.ofList_toList, if_neg (by rintro rfl; simp at h2)]
  · rw [hl]
    simp only [List.mem_append, List.mem_cons, not_or]
    exact ⟨not_eq_of_digits _ hnd, by decide, not_eq_of_digits _ hd⟩

/-- C81: a value that begins with something else than a digit or a point stays text: negative numbers, `nan`, words. -/
theorem C81_text (key v : String) (hk : '=' ∉ key.toList) (hv : '=' ∉ v.toList) (c : Char) (hc : v.toList.head? = some c)
    (h1 : c.isDigit = false) (h2 : c ≠ '.') (h3 : c ≠ '\n') : parseArgument (key ++ "=" ++ v) = .ok (key, .str v) := by
  rw [parseArgument_split key v hk hv]
  obtain ⟨r, hr⟩ : ∃ r, v.toList = c :: r := by
    cases hl : v.toList with
    | nil => rw [hl] at hc; simp at hc
    | cons a r => rw [hl] at hc; simp only [List.head?_cons, Option.some.injEq] at hc; subst hc; exact ⟨r, rfl⟩
  obtain ⟨r', hr'⟩ : ∃ r', dropFinalNewline v.toList = c :: r' := by
    unfold dropFinalNewline
    split
    · rename_i hl
      rw [hr] at hl ⊢
      cases r with
      | nil => simp only [List.getLast?_singleton, Option.some.injEq] at hl; exact absurd hl h3
      | cons x r => exact ⟨(x :: r).dropLast, rfl⟩
    · exact ⟨r, hr⟩
  have hp : parseValue v.toList = .ok (.str v) := by
    unfold parseValue
    simp only [hr', List.all_cons, h1, Bool.false_and, Bool.false_eq_true, if_false, List.dropWhile_cons, String.ofList_toList]
    split
    · rename_i h
      simp only [List.cons.injEq] at h
      exact absurd h.1 h2
    · rfl
  rw [hp]

/-- The four kinds of values. -/
example : parseArgument "period=14" = .ok ("period", .int 14) ∧ parseArgument "shift=0.5" = .ok ("shift", .float (.fin (1 / 2))) ∧
    parseArgument "shift=0.25" = .ok ("shift", .str "0.25") ∧ parseArgument "ma_type=simple" = .ok ("ma_type", .str "simple") ∧
    parseArgument "period=-14" = .ok ("period", .str "-14") ∧ parseArgument "period=" = .error .valueError ∧
    parseArgument "period" = .error .indexError := by decide +kernel

/-! ## The script for one indicator -/

theorem parse_all (args : List String) (kw : List (String × PyArg)) (h : List.Forall₂ (fun a p => parseArgument a = .ok p) args kw) :
    ∀ acc : List (String × PyArg), ((acc ++ kw).map (·.1)).Nodup → parseArguments acc args = .ok (acc ++ kw) := by
  induction h with
  | nil => intro acc _; simp [parseArguments]
  | @cons a p args kw ha _ ih =>
    intro acc hn
    have hnot : p.1 ∉ acc.map (·.1) := by
      simp only [List.map_append, List.map_cons] at hn
      have := List.nodup_append.1 hn
      intro hm
      exact this.2.2 _ hm _ (by simp) rfl
    simp only [parseArguments, ha, setKeyword, if_neg hnot]
    rw [ih (acc ++ [p]) (by simpa using hn)]
    simp

theorem find_class (s : Sig) (hs : s ∈ signatures) :
    ∃ t, signatures.find? (fun t => "tti.indicators." ++ s.cls = "tti.indicators." ++ t.cls) = some t ∧ t.cls = s.cls := by
  cases hf : signatures.find? fun t => "tti.indicators." ++ s.cls = "tti.indicators." ++ t.cls with
  | none => exact absurd (List.find?_eq_none.1 hf s hs) (by simp)
  | some t =>
    refine ⟨t, rfl, ?_⟩
    have h1 : "tti.indicators." ++ s.cls = "tti.indicators." ++ t.cls := by simpa using List.find?_some hf
    have h2 := congrArg String.toList h1
    simp only [String.toList_append] at h2
    exact (String.toList_inj.1 (List.append_cancel_left h2)).symm

theorem select_close (f : RawFrame) (hc : Spec.HasClose f) :
    f.selectClose = .ok { f with cols := f.cols.filter fun c => c.label = .str "close" } := by
  obtain ⟨k, hkm, hkl⟩ := hc
  unfold RawFrame.selectClose
  split
  · rename_i hnil
    have := List.filter_eq_nil_iff.1 hnil k hkm
    simp [hkl] at this
  · rfl

/-- C81: the script for one indicator, on a table with a column `close`: with the class and the values of its parameters on the
command line, it reports the simulation done alone with these arguments. -/
theorem C81_single_simulation (E : Env) (f : RawFrame) (hc : Spec.HasClose f) (s : Sig) (hs : s ∈ signatures) (args : List String)
    (kw : List (String × PyArg)) (h : List.Forall₂ (fun a p => parseArgument a = .ok p) args kw) (hn : (kw.map (·.1)).Nodup)
    (r : SimResult) :
    runSingleSimulation E f (("tti.indicators." ++ s.cls) :: args) = .simulated r ↔ Spec.Alone E s.cls kw f (.ok r) := by
  obtain ⟨t, ht, htc⟩ := find_class s hs
  have hsel := select_close f hc
  have hp := parse_all args kw h [] (by simpa using hn)
  unfold runSingleSimulation
  simp only [ht, hp, hsel, List.nil_append, htc]
  unfold executeSimulation Spec.Alone callClass
  cases hres : resolveCall s.cls [] (("input_data", .data (.frame f)) :: kw.map fun p => (p.1, .param p.2)) with
  | error e => simp
  | ok q =>
    obtain ⟨c, d, fill⟩ := q
    simp only
    rcases hcon : construct E c d fill with ⟨caller, res⟩
    cases res with
    | error e => simp
    | ok o =>
      simp only [Except.ok.injEq, exists_eq_left']
      split <;> rename_i heq
      · simp [heq]
      · rw [heq]; simp

/-- C81: a shift of the Envelopes, or a target of the Performance, with two or more decimals (such as the documented
default 0.05) is refused on every table with a column `close`: the exception for a wrong type. -/
theorem C81_decimals_refused (E : Env) (f : RawFrame) (hc : Spec.HasClose f) (n : ℕ) (ds : String)
    (hd : ∀ c ∈ ds.toList, c.isDigit = true) (h2 : 2 ≤ ds.toList.length) :
    runSingleSimulation E f ["tti.indicators.Envelopes", "shift=" ++ (toString n ++ "." ++ ds)] = .raised .wrongType ∧
    runSingleSimulation E f ["tti.indicators.Performance", "target=" ++ (toString n ++ "." ++ ds)] = .raised .wrongType := by
  have h1 := C81_more_decimals "shift" (by decide) n ds hd h2
  have h3 := C81_more_decimals "target" (by decide) n ds hd h2
  have e1 : "shift" ++ "=" = "shift=" := by decide
  have e2 : "target" ++ "=" = "target=" := by decide
  rw [e1] at h1
  rw [e2] at h3
  have hsel := select_close f hc
  generalize toString n ++ "." ++ ds = v at h1 h3
  have hf1 : ∃ s, signatures.find? (fun s => "tti.indicators.Envelopes" = "tti.indicators." ++ s.cls) = some s ∧ s.cls = "Envelopes" :=
    ⟨_, rfl, rfl⟩
  have hf2 : ∃ s, signatures.find? (fun s => "tti.indicators.Performance" = "tti.indicators." ++ s.cls) = some s ∧ s.cls = "Performance" :=
    ⟨_, rfl, rfl⟩
  obtain ⟨s1, hs1, hc1⟩ := hf1
  obtain ⟨s2, hs2, hc2⟩ := hf2
  constructor
  · unfold runSingleSimulation
    simp only [hs1, parseArguments, h1, setKeyword, List.map_nil, List.not_mem_nil, if_false, List.nil_append, hsel, hc1]
    rfl
  · unfold runSingleSimulation
    simp only [hs2, parseArguments, h3, setKeyword, List.map_nil, List.not_mem_nil, if_false, List.nil_append, hsel, hc2]
    rfl

/-- C81: without a column labelled exactly `close` both scripts end with KeyError before the first simulation. -/
theorem C81_close_label (E : Env) (f : RawFrame) (hc : ¬ Spec.HasClose f) :
    runAllSimulation E f = ([], some .keyError) ∧
    ∀ (s : Sig), s ∈ signatures → ∀ (args : List String) (kw : List (String × PyArg)),
      List.Forall₂ (fun a p => parseArgument a = .ok p) args kw → (kw.map (·.1)).Nodup →
      runSingleSimulation E f (("tti.indicators." ++ s.cls) :: args) = .raised .keyError := by
  have hsel : f.selectClose = .error .keyError := by
    unfold RawFrame.selectClose
    rw [List.filter_eq_nil_iff.2]
    intro c hcm
    simp only [decide_eq_true_eq]
    exact fun hl => hc ⟨c, hcm, hl⟩
  constructor
  · have : ∃ r rs, scriptRuns = r :: rs := ⟨_, _, rfl⟩
    obtain ⟨r, rs, hr⟩ := this
    unfold runAllSimulation
    rw [hr]
    simp only [runScript, ScriptRun.execute, hsel]
  · intro s hs args kw h hn
    obtain ⟨t, ht, -⟩ := find_class s hs
    unfold runSingleSimulation
    simp only [ht, parse_all args kw h [] (by simpa using hn), hsel]

/-- The hypotheses: a table with and one without the label, and arguments. -/
example : Spec.HasClose widening ∧ ¬ Spec.HasClose (sample 60) ∧
    List.Forall₂ (fun a p => parseArgument a = .ok p) ["period=7", "ma_type=simple"] [("period", .int 7), ("ma_type", .str "simple")] ∧
    (∀ c ∈ "05".toList, c.isDigit = true) ∧ 2 ≤ "05".toList.length := by
  refine ⟨⟨_, List.mem_of_getElem? (i := 3) rfl, rfl⟩, ?_, .cons (by decide +kernel) (.cons (by decide +kernel) .nil), by decide, by decide⟩
  rintro ⟨c, hc, hl⟩
  simp only [sample, List.mem_cons, List.not_mem_nil, or_false] at hc
  rcases hc with rfl | rfl | rfl | rfl | rfl <;> simp at hl

theorem parseArguments_fold (args : List String) (ps : List (String × PyArg)) (h : args.map parseArgument = ps.map .ok)
    (kw : List (String × PyArg)) : parseArguments kw args = .ok (ps.foldl setKeyword kw) := by
  induction args generalizing ps kw with
  | nil => cases ps with
    | nil => rfl
    | cons p ps => simp at h
  | cons a args ih =>
    cases ps with
    | nil => simp at h
    | cons p ps =>
      simp only [List.map_cons, List.cons.injEq] at h
      simp only [parseArguments, h.1, ih ps h.2, List.foldl_cons]

theorem setKeyword_spec (kw : List (String × PyArg)) (p : String × PyArg) (h : (kw.map (·.1)).Nodup) :
    ((setKeyword kw p).map (·.1)).Nodup ∧ ∀ k v, (k, v) ∈ setKeyword kw p ↔ if p.1 = k then p.2 = v else (k, v) ∈ kw := by
  unfold setKeyword
  by_cases hm : p.1 ∈ kw.map (·.1)
  · rw [if_pos hm]
    have e : (kw.map fun q => if q.1 = p.1 then p else q).map (·.1) = kw.map (·.1) := by
      rw [List.map_map]
      refine List.map_congr_left fun q _ => ?_
      simp only [Function.comp]
      split
      · rename_i hq; exact hq.symm
      · rfl
    refine ⟨by rw [e]; exact h, fun k v => ?_⟩
    rw [List.mem_map]
    constructor
    · rintro ⟨q, hq, he⟩
      split at he
      · rename_i hqp
        subst he
        simp
      · rename_i hqp
        subst he
        simp only at hqp
        rw [if_neg (Ne.symm hqp)]
        exact hq
    · intro hkv
      split at hkv
      · rename_i hk
        obtain ⟨q, hq, hqp⟩ := List.mem_map.1 hm
        exact ⟨q, hq, by rw [if_pos hqp]; exact Prod.ext hk hkv⟩
      · rename_i hk
        exact ⟨(k, v), hkv, by rw [if_neg (Ne.symm hk)]⟩
  · rw [if_neg hm]
    refine ⟨?_, fun k v => ?_⟩
    · rw [List.map_append, List.nodup_append]
      exact ⟨h, by simp, by rintro a ha b hb rfl; simp only [List.map_cons, List.map_nil, List.mem_singleton] at hb; exact hm (hb ▸ ha)⟩
    · rw [List.mem_append, List.mem_singleton]
      split
      · rename_i hk
        subst hk
        constructor
        · rintro (hkv | hkv)
          · exact absurd (List.mem_map.2 ⟨_, hkv, rfl⟩) hm
          · rw [← hkv]
        · rintro rfl
          exact Or.inr rfl
      · rename_i hk
        exact ⟨fun h => h.resolve_right fun h => hk (by rw [← h]), Or.inl⟩

/-- C81: every keyword of the command line is passed on once, with the value that was given last. -/
theorem C81_last_value_counts (args : List String) (ps : List (String × PyArg)) (h : args.map parseArgument = ps.map .ok) :
    ∃ kw, parseArguments [] args = .ok kw ∧ (kw.map (·.1)).Nodup ∧
      ∀ k v, (k, v) ∈ kw ↔ (ps.reverse.find? fun p => p.1 = k).map (·.2) = some v := by
  refine ⟨_, parseArguments_fold args ps h [], ?_⟩
  clear h
  induction ps using List.reverseRecOn with
  | nil => simp
  | append_singleton ps p ih =>
    rw [List.foldl_append]
    obtain ⟨h1, h2⟩ := setKeyword_spec (ps.foldl setKeyword []) p ih.1
    refine ⟨h1, fun k v => ?_⟩
    simp only [List.foldl_cons, List.foldl_nil, h2, List.reverse_append, List.reverse_cons, List.reverse_nil, List.nil_append,
      List.singleton_append, List.find?_cons]
    by_cases hk : p.1 = k
    · simp [hk]
    · simp only [hk, if_false, decide_false]
      exact ih.2 k v

/-- The hypothesis is met: a keyword given twice. -/
example : ["period=5", "shift=2", "period=7"].map parseArgument = [("period", .int 5), ("shift", .int 2), ("period", PyArg.int 7)].map .ok ∧
    parseArguments [] ["period=5", "shift=2", "period=7"] = .ok [("period", .int 7), ("shift", .int 2)] := by decide +kernel

theorem parse_bad (good : List String) (h : ∀ a ∈ good, ∃ p, parseArgument a = .ok p) (bad : String) (e : Err)
    (hb : parseArgument bad = .error e) (rest : List String) (kw : List (String × PyArg)) :
    parseArguments kw (good ++ bad :: rest) = .error e := by
  induction good generalizing kw with
  | nil => simp only [List.nil_append, parseArguments, hb]
  | cons a good ih =>
    obtain ⟨p, hp⟩ := h a (by simp)
    simp only [List.cons_append, parseArguments, hp]
    exact ih (fun b hb => h b (by simp [hb])) _

/-- C81: the first argument that cannot be read ends the script, on every table and for every class: IndexError for one without
`=`, ValueError for one without a value. Nothing is simulated. -/
theorem C81_bad_argument (E : Env) (f : RawFrame) (s : Sig) (hs : s ∈ signatures) (good : List String)
    (h : ∀ a ∈ good, ∃ p, parseArgument a = .ok p) (rest : List String) :
    (∀ word : String, '=' ∉ word.toList →
      runSingleSimulation E f (("tti.indicators." ++ s.cls) :: (good ++ word :: rest)) = .raised .indexError) ∧
    ∀ key : String, '=' ∉ key.toList →
      runSingleSimulation E f (("tti.indicators." ++ s.cls) :: (good ++ (key ++ "=") :: rest)) = .raised .valueError := by
  obtain ⟨t, ht, -⟩ := find_class s hs
  have run : ∀ bad e, parseArgument bad = .error e →
      runSingleSimulation E f (("tti.indicators." ++ s.cls) :: (good ++ bad :: rest)) = .raised e := fun bad e hb => by
    unfold runSingleSimulation
    simp only [ht, parse_bad good h bad e hb rest []]
  refine ⟨fun word hw => run _ _ ?_, fun key hk => run _ _ ?_⟩
  · unfold parseArgument
    have : word.toList.dropWhile (· != '=') = [] := by
      rw [List.dropWhile_eq_nil_iff]
      exact fun c hc => by simpa using fun q : c = '=' => hw (q ▸ hc)
    rw [this]
  · have := parseArgument_split key "" hk (by simp)
    rw [String.append_empty] at this
    rw [this, show parseValue "".toList = .error .valueError by decide]

/-- The hypotheses: a word and a key without `=` after an argument that can be read. -/
example : (∀ a ∈ ["period=5"], ∃ p, parseArgument a = .ok p) ∧ '=' ∉ "period".toList :=
  ⟨fun a ha => by rw [List.mem_singleton.1 ha]; exact ⟨("period", .int 5), by decide +kernel⟩, by decide⟩

/-- C81: a name that is not `tti.indicators.` and a class of the package is reported as invalid, whatever follows it. -/
theorem C81_invalid_name (E : Env) (f : RawFrame) (args : List String) (name : String) :
    runSingleSimulation E f (name :: args) = .invalid ↔ ∀ s ∈ signatures, name ≠ "tti.indicators." ++ s.cls := by
  unfold runSingleSimulation
  constructor
  · intro h s hs hn
    cases hf : signatures.find? fun s => name = "tti.indicators." ++ s.cls with
    | none => exact absurd (List.find?_eq_none.1 hf s hs) (by simp [hn])
    | some t =>
      simp only [hf] at h
      repeat' (first | cases h | split at h)
  · intro h
    have : signatures.find? (fun s => name = "tti.indicators." ++ s.cls) = none :=
      List.find?_eq_none.2 fun s hs => by simpa using h s hs
    simp only [this]

example : (∀ s ∈ signatures, "tti.indicators.Unknown" ≠ "tti.indicators." ++ s.cls) ∧
    ∃ s ∈ signatures, "tti.indicators.Momentum" = "tti.indicators." ++ s.cls := by decide +kernel

end TTI.Props
