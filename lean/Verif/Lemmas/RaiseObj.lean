import Verif.Lemmas.RaiseClass
import Verif.Lemmas.ScaleObj
import Verif.Lemmas.Col2
import Verif.Props.Validate

set_option autoImplicit false

/-!
# Signals, construction and API calls on raised prices
-/

namespace TTI

open Spec

section
variable (k : ℚ)

/-! ## Signals -/

theorem argmin_rsl (xs : List Val) : Ind.UltimateOscillator.argmin (rsl k xs) = Ind.UltimateOscillator.argmin xs := by
  unfold Ind.UltimateOscillator.argmin
  have h1 : (rsl k xs).all Val.isNan = xs.all Val.isNan := by
    unfold rsl; rw [List.all_map]; congr 1; funext x; exact rs_isNan k x
  have h2 : ((rsl k xs).map fun x => if x.isNan then Val.pinf else x) = rsl k (xs.map fun x => if x.isNan then Val.pinf else x) :=
    map_rsl k _ _ (fun x => by cases x <;> rfl) _
  rw [h1, h2]
  have h3 := minOf_rsl k (xs.map fun x => if x.isNan then Val.pinf else x)
  unfold minOf at h3
  have h4 : ∀ (l : List Val) (m : Val), (rsl k l).findIdx (fun y => Val.eqv y (rs k m)) = l.findIdx fun y => Val.eqv y m := by
    intro l m
    unfold rsl
    rw [List.findIdx_map]
    congr 1
    funext y
    exact rs_eqv k y m
  simp only [h3, h4]

theorem range_select (xs ys : List Val) :
    ((((rsl k xs).zip ys).filter fun p => p.2 <ᵥ 20).map (·.1)) = rsl k (((xs.zip ys).filter fun p => p.2 <ᵥ 20).map (·.1)) := by
  unfold rsl
  rw [List.zip_map_left, List.filter_map, List.map_map, List.map_map]
  rfl

theorem signal_ignores (ind : Ind) (hi : ignoresLevel ind = true) (hs : signalUsesLevel ind = false)
    (hk : signalRounds ind = true → Coarse k) (F T : Frame) : ind.signal (F.raise k) T = ind.signal F T := by
  cases ind <;> first
  | (simp [ignoresLevel] at hi; done)
  | (simp [signalUsesLevel] at hs; done)
  | rfl
  | skip
  case standardDeviation p =>
    simp only [Ind.signal, Ind.StandardDeviation.signal, raise_col, part, String.reduceEq, if_false, rolling_rsl k _ _ _ _ (up_mean k),
      roundS_rsl k (hk rfl), iat_rsl, bind_map_left, rs_lt]
  all_goals simp only [Ind.signal, Ind.AccumulationDistributionLine.signal, Ind.ChaikinMoneyFlow.signal, Ind.ChaikinOscillator.signal,
      Ind.MassIndex.signal, Ind.RangeIndicator.signal, Ind.UltimateOscillator.signal, Ind.WilliamsAccumulationDistribution.signal,
      raise_col, raise_len, part, String.reduceEq, if_false, rsl_window, meanSkip_rsl, argmin_rsl, minOf_rsl, maxOf_rsl, range_select,
      iat_rsl, bind_map_left, rs_sub_same, rs_lt, rs_eqv, rs_pmax, rs_pmin]

theorem sort3_rs (a b v : Val) : Ind.IchimokuCloud.whereInCloud (rs k v) (rs k a) (rs k b) = Ind.IchimokuCloud.whereInCloud v a b := by
  unfold Ind.IchimokuCloud.whereInCloud Ind.IchimokuCloud.sort3
  simp only [rs_lt]
  split_ifs <;> simp only [List.findIdx_cons, List.findIdx_nil, rs_eqv]

theorem firstCrossing_rs (c2 c1 : Val) (T : Frame) (l : List (String × Bool)) :
    Ind.FibonacciRetracement.firstCrossing (rs k c2) (rs k c1) (plusAll k T) l = Ind.FibonacciRetracement.firstCrossing c2 c1 T l := by
  induction l with
  | nil => rfl
  | cons x l ih =>
    obtain ⟨n, d⟩ := x
    simp only [Ind.FibonacciRetracement.firstCrossing, plusAll_col, iat_rsl, bind_map_left, rs_lt, ih]

theorem signal_level (ind : Ind) (hi : isLevel ind = true) (F T : Frame)
    (hv : "volume" ∉ F.cols.map (·.1)) : ind.signal (F.raise k) (plusAll k T) = ind.signal F T := by
  have hf : (F.raise k).firstCol = rsl k F.firstCol :=
    raise_firstCol k F fun c hc he => hv (List.mem_map.2 ⟨c, hc, he⟩)
  cases ind <;> try (simp [isLevel] at hi; done)
  all_goals simp only [Ind.signal, Ind.BollingerBands.signal, Ind.DoubleExponentialMovingAverage.signal,
    Ind.FibonacciRetracement.signal, Ind.IchimokuCloud.signal, Ind.LinearRegressionIndicator.signal, Ind.MedianPrice.signal,
    Ind.MovingAverage.signal, Ind.ParabolicSAR.signal, Ind.PriceChannel.signal, Ind.ProjectionBands.signal,
    Ind.TimeSeriesForecast.signal, Ind.TripleExponentialMovingAverage.signal, Ind.TypicalPrice.signal, Ind.WeightedClose.signal,
    Ind.WildersSmoothing.signal, priceCrossSignal, bandSignal, hf, raise_col, raise_len, part, String.reduceEq, if_false,
    plusAll_col, plusAll_len, rolling_rsl k _ _ _ _ (up_mean k), iat_rsl, bind_map_left, rs_sub_same, rs_lt, sort3_rs, firstCrossing_rs]

end

/-! ## Objects that differ in their input data and their values -/

/-- A change `g` of the input data and `t` of the values that keeps the dates and commutes with cutting, and that the signal
does not see on input data satisfying `I`. -/
structure Moves (g t : Frame → Frame) (I : Frame → Prop) (ind : Ind) : Prop where
  idx : ∀ F, (g F).idx = F.idx
  upTo : ∀ F d, (g F).upTo d = g (F.upTo d)
  tidx : ∀ T, (t T).idx = T.idx
  tupTo : ∀ T d, (t T).upTo d = t (T.upTo d)
  keep : ∀ F d, I F → I (F.upTo d)
  signal : ∀ F T, I F → ind.signal (g F) (t T) = ind.signal F T

/-- The object with changed data. -/
def Obj.both (g t : Frame → Frame) (o : Obj) : Obj := { o with input := g o.input, ti := t o.ti }

section
variable {g t : Frame → Frame} {I : Frame → Prop}

theorem Moves.cut {o : Obj} (h : Moves g t I o.ind) (i : ℕ) : (o.both g t).cut i = (o.cut i).map (Obj.both g t) := by
  unfold Obj.cut Obj.both
  simp only [h.idx, h.upTo, h.tidx, h.tupTo]
  cases o.input.idx[i]? with
  | none => rfl
  | some a => cases o.ti.idx[i]? <;> rfl

theorem cut_input (I : Frame → Prop) (hk : ∀ F d, I F → I (F.upTo d)) (o p : Obj) (hI : I o.input) (i : ℕ) (h : o.cut i = some p) :
    I p.input := by
  unfold Obj.cut at h
  split at h
  · cases h; exact hk _ _ hI
  · cases h

theorem Moves.getTiSignal {o : Obj} (h : Moves g t I o.ind) (hI : I o.input) : (o.both g t).getTiSignal = o.getTiSignal :=
  h.signal _ _ hI

theorem Moves.simRounds {full : Obj} (h : Moves g t I full.ind) (hI : I full.input) (S : SimSetup) (is : List ℕ) :
    ∀ (now : Obj) (st : Sim.State Val), now.ind = full.ind → I now.input →
      (TTI.simRounds (full.both g t) S is (now.both g t) st) =
        ((TTI.simRounds full S is now st).1.both g t, (TTI.simRounds full S is now st).2) ∧
      (TTI.simRounds full S is now st).1.ind = full.ind ∧ I (TTI.simRounds full S is now st).1.input := by
  induction is with
  | nil => intro now st hn hi; exact ⟨rfl, hn, hi⟩
  | cons i is ih =>
    intro now st hn hi
    unfold TTI.simRounds
    rw [h.cut]
    cases hc : full.cut i with
    | none => exact ⟨rfl, hn, hi⟩
    | some o =>
      have ho := cut_ind' full o i hc
      have hoI := cut_input I h.keep full o hI i hc
      simp only [Option.map_some]
      rw [Moves.getTiSignal (o := o) (ho ▸ h) hoI]
      cases o.getTiSignal with
      | error e => exact ⟨rfl, ho, hoI⟩
      | ok s => exact ih o _ ho hoI

/-- One call: the results agree up to `r`, which is the effect of `t` on results. -/
theorem Moves.step {o : Obj} (h : Moves g t I o.ind) (hI : I o.input) (r : ApiResult → ApiResult)
    (hr : ∀ T, r (.data T) = .data (t T)) (hv : ∀ (p : Obj) d, r (.value (p.getTiValue d)) = .value ((p.both g t).getTiValue d))
    (hs : ∀ x, r (.signal x) = .signal x) (hm : ∀ x, r (.simulation x) = .simulation x) (c : ApiCall) :
    (o.both g t).step c = ((o.step c).1.both g t, r (o.step c).2) ∧ (o.step c).1.ind = o.ind ∧ I (o.step c).1.input := by
  cases c with
  | getTiData => exact ⟨by simp only [Obj.step, hr]; rfl, rfl, hI⟩
  | getTiValue d => exact ⟨by simp only [Obj.step, hv], rfl, hI⟩
  | getTiSignal =>
    refine ⟨?_, rfl, hI⟩
    simp only [Obj.step, h.getTiSignal hI, hs]
  | getTiSimulation close m f =>
    have hi : (o.both g t).input.idx = o.input.idx := h.idx _
    have ht : (o.both g t).ti.len = o.ti.len := by
      show (t o.ti).idx.length = _; rw [h.tidx]; rfl
    simp only [Obj.step, Obj.getTiSimulation, hi, ht, hm]
    rcases setupSimulation true o.input.idx close m f with ⟨caller, e | S⟩
    · exact ⟨rfl, rfl, hI⟩
    · simp only
      obtain ⟨h1, h2, h3⟩ := h.simRounds hI S (List.range o.ti.len) o Sim.State.init rfl hI
      rw [h1]
      rcases hr : TTI.simRounds o S (List.range o.ti.len) o Sim.State.init with ⟨a, e | st⟩ <;> rw [hr] at h2 h3
      · exact ⟨rfl, h2, h3⟩
      · exact ⟨rfl, rfl, hI⟩

theorem Moves.steps (r : ApiResult → ApiResult)
    (hr : ∀ T, r (.data T) = .data (t T)) (hv : ∀ (p : Obj) d, r (.value (p.getTiValue d)) = .value ((p.both g t).getTiValue d))
    (hs : ∀ x, r (.signal x) = .signal x) (hm : ∀ x, r (.simulation x) = .simulation x) (cs : List ApiCall) :
    ∀ {o : Obj}, Moves g t I o.ind → I o.input → ((o.both g t).steps cs).2 = (o.steps cs).2.map r := by
  induction cs with
  | nil => intro o _ _; rfl
  | cons c cs ih =>
    intro o h hI
    obtain ⟨h1, h2, h3⟩ := h.step hI r hr hv hs hm c
    simp only [Obj.steps, h1, List.map_cons]
    rw [ih (h2 ▸ h) h3]

/-- Construction when validation returns `g` of the frame and the values move by `t`. -/
theorem construct_both (E : Env) (c : Call) (fill : PyArg) (f f' : RawFrame)
    (hval : ∀ ind, c.check = .ok ind → ∀ b, (validateInputData (.frame f') ind.required b).2 =
      (validateInputData (.frame f) ind.required b).2.map g)
    (hcalc : ∀ ind, c.check = .ok ind → ∀ b F, fill = .bool b → (validateInputData (.frame f) ind.required b).2 = .ok F →
      ind.calcTi E (g F) = (ind.calcTi E F).map t ∧ ind.inputAfter (g F) = g (ind.inputAfter F)) :
    (construct E c (.frame f') fill).2 = (construct E c (.frame f) fill).2.map (Obj.both g t) := by
  unfold construct
  cases hch : c.check with
  | error e => rfl
  | ok ind =>
    cases fill <;> first | rfl | skip
    rename_i b
    simp only
    have hv := hval ind hch b
    cases hr : (validateInputData (.frame f) ind.required b).2 with
    | error e =>
      rw [hr] at hv
      rcases h1 : validateInputData (.frame f) ind.required b with ⟨a, r⟩
      rcases h2 : validateInputData (.frame f') ind.required b with ⟨a', r'⟩
      rw [h1] at hr; rw [h2] at hv
      simp only at hr hv
      subst hr; subst hv
      rfl
    | ok F =>
      obtain ⟨h3, h4⟩ := hcalc ind hch b F rfl hr
      rw [hr] at hv
      rcases h1 : validateInputData (.frame f) ind.required b with ⟨a, r⟩
      rcases h2 : validateInputData (.frame f') ind.required b with ⟨a', r'⟩
      rw [h1] at hr; rw [h2] at hv
      simp only at hr hv
      subst hr; subst hv
      simp only [Except.map]
      rw [h3, h4]
      cases ind.calcTi E F <;> rfl

end

/-! ## Validation -/

section
variable (k : ℚ)

/-- A raised column of the user's frame. -/
def raiseCol (c : RawCol) : RawCol := { c with data := if isVolume c then c.data else c.data.map (plus k) }

theorem raised_cols (f : RawFrame) : (raised k f).cols = f.cols.map (raiseCol k) := rfl

theorem raised_part (c : RawCol) (hl : c.label ≠ .other) : (raiseCol k c).data = rsl (part k c.name) c.data := by
  have : isVolume c = decide (c.name = "volume") := by
    unfold isVolume RawCol.name
    cases h : c.label with
    | other => exact absurd h hl
    | str s => simp only [Label.lower, Option.getD_some]; congr 1
  unfold raiseCol part
  rw [this]
  simp only [decide_eq_true_eq]
  split_ifs
  · rw [rsl_zero]
  · rw [plus_eq_rs]; rfl

theorem sortIndex_raise (F : Frame) : (F.raise k).sortIndex = F.sortIndex.raise k := by
  unfold Frame.sortIndex Frame.raise
  simp only [List.map_map, Function.comp_def]
  congr 1
  apply List.map_congr_left
  intro c _
  have : F.idx.zip (rsl (part k c.1) c.2) = (F.idx.zip c.2).map fun r => (r.1, rs (part k c.1) r.2) := by
    unfold rsl; rw [List.zip_map_right]; rfl
  rw [this, sortRows_map]
  simp only [List.map_map, Function.comp_def, rsl]

theorem fill_raise (F : Frame) : fillMissingValues (F.raise k) = (fillMissingValues F).raise k := by
  unfold fillMissingValues
  simp only [sortIndex_raise]
  unfold Frame.raise
  simp only [List.map_map, Function.comp_def, ffill_rsl, bfill_rsl]

theorem raised_valid (f : RawFrame) (required : List String) : (raised k f).Valid required ↔ f.Valid required := by
  have hn : (raised k f).cols.map RawCol.name = f.cols.map RawCol.name := by
    rw [raised_cols, List.map_map]; rfl
  constructor
  · rintro ⟨h1, h2, h3, h4, h5, h6⟩
    refine ⟨h1, h2, ?_, ?_, ?_, ?_⟩
    · intro h; apply h3; simp [raised, h]
    · intro c hc
      have := h4 (raiseCol k c) (List.mem_map_of_mem (f := raiseCol k) hc)
      exact this
    · intro r hr
      obtain ⟨c, hc, hnum⟩ := h5 r hr
      simp only [raised_cols, List.filter_map, List.map_eq_singleton_iff] at hc
      obtain ⟨d, hd, rfl⟩ := hc
      exact ⟨d, hd, hnum⟩
    · rwa [hn] at h6
  · rintro ⟨h1, h2, h3, h4, h5, h6⟩
    refine ⟨h1, h2, ?_, ?_, ?_, ?_⟩
    · intro h; apply h3; simpa [raised] using h
    · intro c hc
      rw [raised_cols, List.mem_map] at hc
      obtain ⟨d, hd, rfl⟩ := hc
      exact h4 d hd
    · intro r hr
      obtain ⟨d, hd, hnum⟩ := h5 r hr
      refine ⟨raiseCol k d, ?_, hnum⟩
      rw [raised_cols, List.filter_map]
      rw [show (f.cols.filter ((fun c : RawCol => c.name == r) ∘ raiseCol k)) = [d] from hd]
      rfl
    · rwa [hn]

theorem kept_raise (f : RawFrame) (required : List String) (h : f.Valid required) :
    (raised k f).kept required = (f.kept required).raise k := by
  unfold RawFrame.kept
  rw [← sortIndex_raise]
  congr 1
  unfold Frame.raise
  simp only [raised_cols, List.filter_map, List.map_map, Function.comp_def]
  congr 1
  apply List.map_congr_left
  intro c hc
  have hm := (List.mem_filter.1 hc).1
  rw [raised_part k c (h.labels c hm)]
  rfl

theorem checkColumn_raised (cols : List RawCol) (r : String) :
    checkColumn ((cols.map (raiseCol k)).map fun c => (c.name, c)) r = checkColumn (cols.map fun c => (c.name, c)) r := by
  unfold checkColumn
  rw [filter_named, filter_named, List.filter_map]
  have : (cols.filter ((fun c : RawCol => c.name == r) ∘ raiseCol k)) = cols.filter fun c => c.name == r := rfl
  rw [this]
  generalize cols.filter (fun c => c.name == r) = l
  rcases l with _ | ⟨a, _ | ⟨b, l⟩⟩ <;> rfl

/-- Validation of raised data: the same exception, or the raised frame. -/
theorem validate_raised (f : RawFrame) (required : List String) (fill : Bool) :
    (validateInputData (.frame (raised k f)) required fill).2 =
      (validateInputData (.frame f) required fill).2.map (Frame.raise k) := by
  by_cases hval : f.Valid required
  · rw [validate_ok f required fill hval, validate_ok _ required fill ((raised_valid k f required).2 hval),
      kept_raise k f required hval]
    simp only [Except.map]
    cases fill
    · rfl
    · simp only [if_true, fill_raise k]
  · unfold validateInputData
    have hd : (raised k f).datetimeIndex = f.datetimeIndex := rfl
    have hi : (raised k f).idx = f.idx := rfl
    have hnil : ((raised k f).cols = []) = (f.cols = []) := by simp [raised]
    simp only [hd, hi, hnil]
    by_cases h0 : f.datetimeIndex = false
    · simp only [if_pos h0]; rfl
    simp only [if_neg h0]
    by_cases h1 : f.idx = [] ∨ f.cols = []
    · simp only [if_pos h1]; rfl
    simp only [if_neg h1]
    rw [lowerLabels_eq, lowerLabels_eq]
    have hlab : (∀ c ∈ (raised k f).cols, c.label ≠ .other) ↔ ∀ c ∈ f.cols, c.label ≠ .other := by
      simp [raised]
    by_cases h2 : ∀ c ∈ f.cols, c.label ≠ .other
    · rw [if_pos h2, if_pos (hlab.2 h2)]
      simp only
      have hcc : checkColumns ((raised k f).cols.map fun c => (c.name, c)) required =
          checkColumns (f.cols.map fun c => (c.name, c)) required := by
        unfold checkColumns
        congr 1
        funext r
        exact checkColumn_raised k f.cols r
      rw [hcc]
      cases h3 : checkColumns (f.cols.map fun c => (c.name, c)) required with
      | some e => rfl
      | none =>
        simp only
        have hmap : ∀ g : RawFrame, (g.cols.map fun c => (c.name, c)).map (·.1) = g.cols.map RawCol.name := by
          intro g; rw [List.map_map]; rfl
        have hx : ¬ ((f.cols.map RawCol.name).filter fun l => !decide (l ∈ required)).Nodup := by
          intro hx
          simp only [not_or] at h1
          exact hval ⟨by simpa using h0, h1.1, h1.2, h2, (checkColumns_valid _ _).1 h3, hx⟩
        have hsn : (raised k f).cols.map RawCol.name = f.cols.map RawCol.name := by
          rw [raised_cols, List.map_map]; rfl
        rw [dropExtra_error, dropExtra_error]
        · rfl
        · rintro ⟨h4, -⟩
          rw [hmap] at h4
          exact hx h4
        · rintro ⟨h4, -⟩
          rw [hmap, hsn] at h4
          exact hx h4
    · rw [if_neg h2, if_neg (fun h => h2 (hlab.1 h))]
      rfl

theorem raise_upTo (F : Frame) (d : ℤ) : (F.raise k).upTo d = (F.upTo d).raise k := by
  unfold Frame.raise Frame.upTo
  simp only [List.map_map, Function.comp_def]
  congr 1
  apply List.map_congr_left
  intro c _
  have : F.idx.zip (rsl (part k c.1) c.2) = (F.idx.zip c.2).map fun r => (r.1, rs (part k c.1) r.2) := by
    unfold rsl; rw [List.zip_map_right]; rfl
  unfold keepUpTo
  rw [this, List.filter_map, List.map_map]
  simp only [rsl, List.map_map, Function.comp_def]

theorem plusAll_upTo (F : Frame) (d : ℤ) : (plusAll k F).upTo d = plusAll k (F.upTo d) := by
  simp only [plusAll_eq]
  unfold Frame.upTo
  simp only [List.map_map, Function.comp_def]
  congr 1
  apply List.map_congr_left
  intro c _
  have : F.idx.zip (rsl k c.2) = (F.idx.zip c.2).map fun r => (r.1, rs k r.2) := by
    unfold rsl; rw [List.zip_map_right]; rfl
  unfold keepUpTo
  rw [this, List.filter_map, List.map_map]
  simp only [rsl, List.map_map, Function.comp_def]

theorem inputAfter_raise (ind : Ind) (hp : ind.Pos) (F : Frame) : ind.inputAfter (F.raise k) = (ind.inputAfter F).raise k := by
  cases ind <;> try rfl
  · simp only [Ind.inputAfter, Ind.MassIndex.inputAfter, raise_col, part, String.reduceEq, if_false, ewm_rsl k 9 9 (by norm_num)]
    simp only [Frame.raise, List.map_append, List.map_cons, List.map_nil, part, String.reduceEq, if_false]
  · simp only [Ind.Pos] at hp
    simp only [Ind.inputAfter, Ind.MedianPrice.inputAfter, raise_col, part, String.reduceEq, if_false, ewm_rsl k _ _ hp]
    simp only [Frame.raise, List.map_append, List.map_cons, List.map_nil, part, String.reduceEq, if_false]

theorem plusAll_rows (T : Frame) : (plusAll k T).rows = T.rows.map (rsl k) := by
  rw [plusAll_eq]
  unfold Frame.rows
  rw [List.map_map]
  apply List.map_congr_left
  intro i _
  simp only [Function.comp, List.map_map, rsl]
  apply List.map_congr_left
  intro c _
  simp only [Function.comp]
  simp only [List.getD_eq_getElem?_getD, List.getElem?_map]
  cases c.2[i]? <;> rfl

theorem plusResult_value (g : Frame → Frame) (p : Obj) (d : Option DateArg) :
    plusResult k (.value (p.getTiValue d)) = .value ((p.both g (plusAll k)).getTiValue d) := by
  unfold Obj.getTiValue Obj.both
  rcases d with _ | _ | d
  · simp only [plusAll_rows, List.getLast?_map]
    cases p.ti.rows.getLast? with
    | none => rfl
    | some r => simp only [Option.map_some, plusResult, plus_eq_rs]; rfl
  · rfl
  · simp only [plusAll_rows, plusAll_idx]
    have : p.ti.idx.zip (p.ti.rows.map (rsl k)) = (p.ti.idx.zip p.ti.rows).map fun r => (r.1, rsl k r.2) := by
      rw [List.zip_map_right]; rfl
    rw [this, List.filter_map]
    rw [show ((fun r : ℤ × List Val => r.1 == d) ∘ fun r : ℤ × List Val => (r.1, rsl k r.2)) = fun r => r.1 == d from rfl]
    generalize (p.ti.idx.zip p.ti.rows).filter (fun r => r.1 == d) = l
    rcases l with _ | ⟨a, _ | ⟨b, l⟩⟩
    · rfl
    · simp only [List.map_cons, List.map_nil, plusResult, plus_eq_rs]; rfl
    · simp only [List.map_cons, plusResult, plusAll, List.map_map, Function.comp_def]

/-! ## The frame of an object -/

theorem mem_ffill (xs : List Val) : ∀ v ∈ ffill xs, v = .nan ∨ v ∈ xs := by
  intro v hv
  unfold ffill prefixMap at hv
  obtain ⟨i, -, rfl⟩ := List.mem_map.1 hv
  cases h : ((xs.take (i + 1)).filter fun x => !x.isNan).getLast? with
  | none => left; simp only [h, Option.getD_none]
  | some x =>
    right
    simp only [h, Option.getD_some]
    exact List.mem_of_mem_take (List.mem_filter.1 (List.mem_of_getLast? h)).1

theorem mem_bfill (xs : List Val) : ∀ v ∈ bfill xs, v = .nan ∨ v ∈ xs := by
  intro v hv
  unfold bfill at hv
  rcases mem_ffill _ v (List.mem_reverse.1 hv) with h | h
  · exact Or.inl h
  · exact Or.inr (List.mem_reverse.1 h)

/-- Filling a column of numbers and missing values, with at least one number, leaves numbers only. -/
theorem filled_numbers (xs : List Val) (h : ∀ v ∈ xs, (∃ q, v = .fin q) ∨ v = .nan) (h1 : ∃ q, Val.fin q ∈ xs) :
    ∀ v ∈ bfill (ffill xs), ∃ q, v = .fin q := by
  intro v hv
  have hne : v ≠ .nan := by
    rintro rfl
    obtain ⟨i, hi, he⟩ := List.getElem_of_mem hv
    obtain ⟨q, hq⟩ := h1
    obtain ⟨j, hj, hje⟩ := List.getElem_of_mem hq
    have hlen : (bfill (ffill xs)).length = xs.length := by simp
    have := (Props.C27_fill xs).missing i (by omega)
    have h2 := this.1 (by rw [List.getElem?_eq_getElem hi, he]) j hj
    rw [List.getElem?_eq_getElem hj, hje] at h2
    cases h2
  rcases mem_bfill _ v hv with h2 | h2
  · exact absurd h2 hne
  · rcases mem_ffill _ v h2 with h3 | h3
    · exact absurd h3 hne
    · rcases h v h3 with h4 | h4
      · exact h4
      · exact absurd h4 hne

theorem validated_numbers (f : RawFrame) (required : List String) (fill : Bool) (F : Frame)
    (hw : ∀ c ∈ f.cols, c.data.length = f.idx.length)
    (h : (validateInputData (.frame f) required fill).2 = .ok F) (hn : NumbersFor f required fill) : F.Numbers := by
  obtain ⟨hv, hF⟩ := valid_of_ok _ _ _ _ h
  have hk : ∀ c ∈ (f.kept required).cols, (∀ v ∈ c.2, (∃ q, v = .fin q) ∨ (fill = true ∧ v = .nan)) ∧ ∃ q, Val.fin q ∈ c.2 := by
    intro c hc
    simp only [RawFrame.kept, Frame.sortIndex, List.mem_map, List.mem_filter, decide_eq_true_eq] at hc
    obtain ⟨d, ⟨e, ⟨he, hr⟩, rfl⟩, rfl⟩ := hc
    have hlab := hv.labels e he
    have hlow : e.label.lower = some e.name := by
      unfold RawCol.name
      cases h : e.label with
      | other => exact absurd h hlab
      | str s => rfl
    obtain ⟨h1, q, h2⟩ := hn e he e.name hr hlow
    have hmem : ∀ v, v ∈ (sortRows (f.idx.zip e.data)).map (·.2) ↔ v ∈ e.data := by
      intro v
      have hp := (sortRows_perm (f.idx.zip e.data)).map (·.2)
      rw [hp.mem_iff]
      have : (f.idx.zip e.data).map (·.2) = e.data := by
        rw [List.map_snd_zip]; rw [hw e he]
      rw [this]
    exact ⟨fun v hv => h1 v ((hmem v).1 hv), q, (hmem _).2 h2⟩
  cases fill
  · rw [hF]
    intro c hc v hv
    rcases (hk c hc).1 v hv with h | ⟨h, -⟩
    · exact h
    · cases h
  · have hwk : ∀ c ∈ (f.kept required).cols, c.2.length = (f.kept required).idx.length := by
      apply sortIndex_lengths
      intro c hc
      rw [List.mem_map] at hc
      obtain ⟨d, hd, rfl⟩ := hc
      exact hw d (List.mem_filter.1 hd).1
    have hself : (f.kept required).sortIndex = f.kept required :=
      sortIndex_of_sorted _ (sortIdx_sorted _) hwk
    rw [hF]
    simp only [if_true, fillMissingValues, hself]
    intro c hc
    obtain ⟨d, hd, rfl⟩ := List.mem_map.1 hc
    exact filled_numbers d.2 (fun v hv => by
      rcases (hk d hd).1 v hv with h | ⟨-, h⟩
      · exact Or.inl h
      · exact Or.inr h) (hk d hd).2

theorem required_nodup (ind : Ind) : ind.required.Nodup := by
  cases ind <;> simp only [Ind.required] <;> decide

theorem validated_raiseOk (c : Call) (f : RawFrame) (ind : Ind) (fill : Bool) (F : Frame)
    (hw : ∀ c ∈ f.cols, c.data.length = f.idx.length) (hc : c.check = .ok ind)
    (h : (validateInputData (.frame f) ind.required fill).2 = .ok F)
    (hs : roundsLevel ind = true → WholeSteps k) (hn : zeroForMissing ind = true → NumbersFor f ind.required fill) :
    RaiseOk k ind F := by
  have hg := (validated_good f _ _ _ hw h).1
  refine ⟨?_, hs, check_pos _ _ hc, fun hz => validated_numbers f _ _ F hw h (hn hz), hg.wf, ?_⟩
  · intro col hcol
    exact hg.only _ (List.mem_map_of_mem hcol)
  · have := (F.sameCols_required _ (required_nodup ind) (validated_nodup f _ fill F h) hg).cols.length_eq
    rw [this, List.length_map]

theorem moves_ignores (ind : Ind) (hi : ignoresLevel ind = true) (hs : signalUsesLevel ind = false)
    (hk : signalRounds ind = true → Coarse k) : Moves (Frame.raise k) id (fun _ => True) ind :=
  ⟨fun _ => rfl, raise_upTo k, fun _ => rfl, fun _ _ => rfl, fun _ _ _ => trivial, fun F T _ => signal_ignores k ind hi hs hk F T⟩

theorem moves_level (ind : Ind) (hi : isLevel ind = true) :
    Moves (Frame.raise k) (plusAll k) (fun F => "volume" ∉ F.cols.map (·.1)) ind :=
  ⟨fun _ => rfl, raise_upTo k, fun _ => rfl, plusAll_upTo k, fun F d h => by
    simpa only [Frame.upTo, List.map_map, Function.comp_def] using h, fun F T h => signal_level k ind hi F T h⟩

theorem level_no_volume (ind : Ind) (hi : isLevel ind = true) (F : Frame) (h : ∀ col ∈ F.cols, col.1 ∈ ind.required) :
    "volume" ∉ (ind.inputAfter F).cols.map (·.1) := by
  have hF : "volume" ∉ ind.required → "volume" ∉ F.cols.map (·.1) := fun hr hm => by
    obtain ⟨c, hc, he⟩ := List.mem_map.1 hm
    exact hr (he ▸ h c hc)
  cases ind <;> try (simp [isLevel] at hi; done)
  case medianPrice p =>
    simp only [Ind.inputAfter, Ind.MedianPrice.inputAfter, List.map_append, List.map_cons, List.map_nil, List.mem_append]
    rintro (h1 | h1)
    · exact hF (by simp only [Ind.required]; decide) h1
    · simp at h1
  all_goals exact hF (by simp only [Ind.required]; decide)

end
end TTI
