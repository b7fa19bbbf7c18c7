import Verif.Spec.Scale
import Verif.Lemmas.ScaleInd
import Verif.Lemmas.Order

set_option autoImplicit false

/-!
# Validation, construction and API calls on scaled data
-/

namespace TTI

open Spec

/-! ## Signals -/

theorem signal_price {c : ℚ} (hc : 0 < c) (ind : Ind) (h : ind.PriceFree) (hv : comparesRounded ind = false) (F T : Frame) :
    ind.signal (F.scale c 1) T = ind.signal F T := by
  cases ind <;> first
  | exact h.elim
  | (simp [comparesRounded] at hv; done)
  | rfl
  | simp only [Ind.signal, Ind.AccumulationDistributionLine.signal, Ind.ChaikinMoneyFlow.signal, Ind.ChaikinOscillator.signal,
      Ind.MassIndex.signal, Ind.UltimateOscillator.signal, scale_col, scale_len, factor, String.reduceEq, if_false, iat_scl,
      bind_map_left, sc_sub hc, sc_lt hc, sc_lt_zero hc, zero_lt_sc hc, sc_pmax hc, sc_pmin hc, scl_window, meanSkip_scl hc,
      Ind.argmin_inv hc]

/-! ## Volumes -/

section
variable {v : ℚ} (hv : 0 < v)
include hv

theorem divS_scl_left (xs ys : List Val) : divS (scl v xs) ys = scl v (divS xs ys) := by
  have := zipWith_scl (c := v) Val.div Val.div (sc v) id xs ys fun x y => sc_div_left hv x y
  rwa [List.map_id] at this

theorem volumeIndex_volume (m : Val → Val → Bool) (hm : ∀ x y, m (sc v x) (sc v y) = m x y) (xs ys : List Val) :
    Ind.volumeIndex m (xs.zip (scl v ys)) = Ind.volumeIndex m (xs.zip ys) := by
  have hz : xs.zip (scl v ys) = (xs.zip ys).map fun p => (p.1, sc v p.2) := by
    unfold scl; rw [List.zip_map_right]; rfl
  rw [hz]
  unfold Ind.volumeIndex
  conv_rhs => rw [← List.map_id (prefixMap _ _)]
  apply prefixMap_map
  intro pre
  cases pre with
  | nil => rfl
  | cons a l =>
    simp only [List.map_cons, id_eq]
    have : ∀ (l : List (Val × Val)) (w : Val) (a : Val × Val),
        ((l.map fun p => (p.1, sc v p.2)).foldl (fun (st : Val × (Val × Val)) r =>
          (if m st.2.2 r.2 then Val.add st.1 (Val.mul (Val.sub r.1 st.2.1) (Val.div st.1 st.2.1)) else st.1, r)) (w, (a.1, sc v a.2))).1 =
        (l.foldl (fun (st : Val × (Val × Val)) r =>
          (if m st.2.2 r.2 then Val.add st.1 (Val.mul (Val.sub r.1 st.2.1) (Val.div st.1 st.2.1)) else st.1, r)) (w, a)).1 := by
      intro l
      induction l with
      | nil => intro w a; rfl
      | cons b l ih =>
        intro w a
        simp only [List.map_cons, List.foldl_cons]
        rw [hm]
        exact ih _ _
    exact this l _ a

theorem mfv_volume (F : Frame) : Ind.moneyFlowVolume (F.scale 1 v) = scl v (Ind.moneyFlowVolume F) := by
  simp only [Ind.moneyFlowVolume, scale_col, factor, String.reduceEq, if_false, if_true, scl_one, mulS_scl_left hv, divS_scl_left hv]

theorem calcTi_volume (E : Env) (ind : Ind) (h : freeOfVolumeUnit ind = true) (F : Frame)
    (hn : ∀ col ∈ F.cols, col.1 ∈ ind.required) : ind.calcTi E (F.scale 1 v) = ind.calcTi E F := by
  by_cases hr : "volume" ∈ ind.required
  · cases ind <;> first | (exfalso; revert hr; simp only [Ind.required]; decide) | (simp [freeOfVolumeUnit, Ind.required] at h; done) | skip
    all_goals simp only [Ind.calcTi, Ind.ChaikinMoneyFlow.calcTi, Ind.NegativeVolumeIndex.calcTi, Ind.PositiveVolumeIndex.calcTi,
      Ind.VolumeRateOfChange.calcTi, mfv_volume hv, scale_col, scale_len, scale_idx, factor, String.reduceEq, if_false,
      if_true, scl_one, rolling_scl _ _ _ agg_sum, divS_scl hv, shift_scl, subS_scl hv,
      volumeIndex_volume hv (fun p c => c <ᵥ p) (fun x y => sc_lt hv y x),
      volumeIndex_volume hv (fun p c => p <ᵥ c) (fun x y => sc_lt hv x y)]
  · have : F.scale 1 v = F := by
      unfold Frame.scale
      congr 1
      conv_rhs => rw [← List.map_id F.cols]
      apply List.map_congr_left
      intro col hcol
      have : col.1 ≠ "volume" := fun he => hr (he ▸ hn col hcol)
      simp only [factor, if_neg this, scl_one, id_eq]
    rw [this]

omit hv in
theorem scale_no_volume (F : Frame) (hn : ∀ col ∈ F.cols, col.1 ≠ "volume") : F.scale 1 v = F := by
  unfold Frame.scale
  congr 1
  conv_rhs => rw [← List.map_id F.cols]
  apply List.map_congr_left
  intro col hcol
  simp only [factor, if_neg (hn col hcol), scl_one, id_eq]

omit hv in
theorem signal_volume (ind : Ind) (h : freeOfVolumeUnit ind = true) (hr : "volume" ∈ ind.required) (F T : Frame) :
    ind.signal (F.scale 1 v) T = ind.signal F T := by
  cases ind <;> first
  | (exfalso; revert hr; simp only [Ind.required]; decide)
  | (simp [freeOfVolumeUnit, Ind.required] at h; done)
  | rfl
  | simp only [Ind.signal, Ind.ChaikinMoneyFlow.signal, scale_col, factor, String.reduceEq, if_false, scl_one]

end

/-! ## Validation -/

theorem scaled_name (p v : ℚ) (c : RawCol) :
    ({ c with data := c.data.map (Val.mul (.fin (if isVolume c then v else p))) } : RawCol).name = c.name := rfl

theorem scaled_factor (p v : ℚ) (hp : 0 < p) (hv : 0 < v) (c : RawCol) (hl : c.label ≠ .other) :
    c.data.map (Val.mul (.fin (if isVolume c then v else p))) = scl (factor p v c.name) c.data := by
  have : (if isVolume c then v else p) = factor p v c.name := by
    unfold isVolume factor RawCol.name
    cases h : c.label with
    | other => exact absurd h hl
    | str s => simp only [Label.lower, Option.getD_some, decide_eq_true_eq]; rfl
  rw [this]
  unfold scl
  apply List.map_congr_left
  intro x _
  exact mul_eq_sc _ (factor_pos p v hp hv _) x

theorem sortIndex_scale (p v : ℚ) (F : Frame) : (F.scale p v).sortIndex = F.sortIndex.scale p v := by
  unfold Frame.sortIndex Frame.scale
  simp only [List.map_map, Function.comp_def]
  congr 1
  apply List.map_congr_left
  intro c _
  have : F.idx.zip (scl (factor p v c.1) c.2) = (F.idx.zip c.2).map fun r => (r.1, sc (factor p v c.1) r.2) := by
    unfold scl; rw [List.zip_map_right]; rfl
  rw [this, sortRows_map]
  simp only [List.map_map, Function.comp_def, scl]

theorem fill_scale (p v : ℚ) (hp : 0 < p) (hv : 0 < v) (F : Frame) :
    fillMissingValues (F.scale p v) = (fillMissingValues F).scale p v := by
  unfold fillMissingValues
  simp only [sortIndex_scale]
  unfold Frame.scale
  simp only [List.map_map, Function.comp_def, ffill_scl (factor_pos p v hp hv _), bfill_scl (factor_pos p v hp hv _)]

theorem scaled_valid (p v : ℚ) (f : RawFrame) (required : List String) : (scaled p v f).Valid required ↔ f.Valid required := by
  have hn : (scaled p v f).cols.map RawCol.name = f.cols.map RawCol.name := by
    simp only [scaled, List.map_map]; rfl
  constructor
  · rintro ⟨h1, h2, h3, h4, h5, h6⟩
    refine ⟨h1, h2, ?_, ?_, ?_, ?_⟩
    · intro h; apply h3; simp [scaled, h]
    · intro c hc
      have := h4 _ (List.mem_map_of_mem (f := fun c : RawCol => ({ c with data := c.data.map (Val.mul (.fin (if isVolume c then v else p))) } : RawCol)) hc)
      exact this
    · intro r hr
      obtain ⟨c, hc, hnum⟩ := h5 r hr
      simp only [scaled, List.filter_map, List.map_eq_singleton_iff] at hc
      obtain ⟨d, hd, rfl⟩ := hc
      exact ⟨d, hd, hnum⟩
    · rwa [hn] at h6
  · rintro ⟨h1, h2, h3, h4, h5, h6⟩
    refine ⟨h1, h2, ?_, ?_, ?_, ?_⟩
    · intro h; apply h3; simpa [scaled] using h
    · intro c hc
      simp only [scaled, List.mem_map] at hc
      obtain ⟨d, hd, rfl⟩ := hc
      exact h4 d hd
    · intro r hr
      obtain ⟨d, hd, hnum⟩ := h5 r hr
      refine ⟨{ d with data := d.data.map (Val.mul (.fin (if isVolume d then v else p))) }, ?_, ?_⟩
      · simp only [scaled, List.filter_map]
        rw [show (f.cols.filter ((fun c : RawCol => c.name == r) ∘ fun c : RawCol =>
          ({ c with data := c.data.map (Val.mul (.fin (if isVolume c then v else p))) } : RawCol))) = [d] from hd]
        rfl
      · exact hnum
    · rwa [hn]

theorem kept_scale (p v : ℚ) (hp : 0 < p) (hv : 0 < v) (f : RawFrame) (required : List String) (h : f.Valid required) :
    (scaled p v f).kept required = (f.kept required).scale p v := by
  unfold RawFrame.kept
  rw [← sortIndex_scale]
  congr 1
  unfold Frame.scale scaled
  simp only [List.filter_map, List.map_map, Function.comp_def]
  congr 1
  apply List.map_congr_left
  intro c hc
  have hm := (List.mem_filter.1 hc).1
  simp only [scaled_factor p v hp hv c (h.labels c hm)]
  rfl

theorem checkColumn_scaled (p v : ℚ) (cols : List RawCol) (r : String) :
    checkColumn ((cols.map fun c : RawCol => ({ c with data := c.data.map (Val.mul (.fin (if isVolume c then v else p))) } : RawCol)).map
      fun c => (c.name, c)) r = checkColumn (cols.map fun c => (c.name, c)) r := by
  unfold checkColumn
  rw [filter_named, filter_named, List.filter_map]
  have : (cols.filter ((fun c : RawCol => c.name == r) ∘ fun c : RawCol =>
      ({ c with data := c.data.map (Val.mul (.fin (if isVolume c then v else p))) } : RawCol))) =
      cols.filter fun c => c.name == r := rfl
  rw [this]
  generalize cols.filter (fun c => c.name == r) = l
  rcases l with _ | ⟨a, _ | ⟨b, l⟩⟩ <;> rfl

/-- Validation of scaled data: the same exception, or the scaled frame. -/
theorem validate_scaled (p v : ℚ) (hp : 0 < p) (hv : 0 < v) (f : RawFrame) (required : List String) (fill : Bool) :
    (validateInputData (.frame (scaled p v f)) required fill).2 =
      (validateInputData (.frame f) required fill).2.map (Frame.scale p v) := by
  by_cases hval : f.Valid required
  · rw [validate_ok f required fill hval, validate_ok _ required fill ((scaled_valid p v f required).2 hval),
      kept_scale p v hp hv f required hval]
    simp only [Except.map]
    cases fill
    · rfl
    · simp only [if_true, fill_scale p v hp hv]
  · unfold validateInputData
    have hd : (scaled p v f).datetimeIndex = f.datetimeIndex := rfl
    have hi : (scaled p v f).idx = f.idx := rfl
    have hnil : ((scaled p v f).cols = []) = (f.cols = []) := by simp [scaled]
    simp only [hd, hi, hnil]
    by_cases h0 : f.datetimeIndex = false
    · simp only [if_pos h0]; rfl
    simp only [if_neg h0]
    by_cases h1 : f.idx = [] ∨ f.cols = []
    · simp only [if_pos h1]; rfl
    simp only [if_neg h1]
    rw [lowerLabels_eq, lowerLabels_eq]
    have hlab : (∀ c ∈ (scaled p v f).cols, c.label ≠ .other) ↔ ∀ c ∈ f.cols, c.label ≠ .other := by
      simp [scaled]
    by_cases h2 : ∀ c ∈ f.cols, c.label ≠ .other
    · rw [if_pos h2, if_pos (hlab.2 h2)]
      simp only
      have hcc : checkColumns ((scaled p v f).cols.map fun c => (c.name, c)) required =
          checkColumns (f.cols.map fun c => (c.name, c)) required := by
        unfold checkColumns
        congr 1
        funext r
        exact checkColumn_scaled p v f.cols r
      rw [hcc]
      cases h3 : checkColumns (f.cols.map fun c => (c.name, c)) required with
      | some e => rfl
      | none =>
        simp only
        have hmap : ∀ g : RawFrame, (g.cols.map fun c => (c.name, c)).map (·.1) = g.cols.map RawCol.name := by
          intro g; rw [List.map_map]; rfl
        have hx : ¬ ((f.cols.map RawCol.name).filter fun l => !decide (l ∈ required)).Nodup := by
          intro hx
          simp only [not_or] at h1
          exact hval ⟨by simpa using h0, h1.1, h1.2, h2, (checkColumns_valid _ _).1 h3, hx⟩
        have hsn : (scaled p v f).cols.map RawCol.name = f.cols.map RawCol.name := by
          simp only [scaled, List.map_map]; rfl
        rw [dropExtra_error, dropExtra_error]
        · rfl
        · rintro ⟨h4, -⟩
          rw [hmap] at h4
          exact hx h4
        · rintro ⟨h4, -⟩
          rw [hmap, hsn] at h4
          exact hx h4
    · rw [if_neg h2, if_neg (fun h => h2 (hlab.1 h))]
      rfl

/-! ## Objects that differ in their input data only -/

/-- A change of the input data that keeps the dates and commutes with cutting. -/
structure Neutral (g : Frame → Frame) (ind : Ind) : Prop where
  idx : ∀ F, (g F).idx = F.idx
  upTo : ∀ F d, (g F).upTo d = g (F.upTo d)
  signal : ∀ F T, ind.signal (g F) T = ind.signal F T

/-- The object with changed input data. -/
def Obj.on (g : Frame → Frame) (o : Obj) : Obj := { o with input := g o.input }

theorem Neutral.cut {g : Frame → Frame} {o : Obj} (h : Neutral g o.ind) (i : ℕ) :
    (o.on g).cut i = (o.cut i).map (Obj.on g) := by
  unfold Obj.cut Obj.on
  simp only [h.idx, h.upTo]
  cases o.input.idx[i]? with
  | none => rfl
  | some a => cases o.ti.idx[i]? <;> rfl

theorem Neutral.getTiSignal {g : Frame → Frame} {o : Obj} (h : Neutral g o.ind) : (o.on g).getTiSignal = o.getTiSignal :=
  h.signal _ _

theorem cut_ind' (o p : Obj) (i : ℕ) (h : o.cut i = some p) : p.ind = o.ind := by
  unfold Obj.cut at h
  split at h
  · cases h; rfl
  · cases h

theorem Neutral.simRounds {g : Frame → Frame} {full : Obj} (h : Neutral g full.ind) (S : SimSetup) (is : List ℕ) :
    ∀ (now : Obj) (st : Sim.State Val), now.ind = full.ind →
      (TTI.simRounds (full.on g) S is (now.on g) st) =
        ((TTI.simRounds full S is now st).1.on g, (TTI.simRounds full S is now st).2) ∧
      (TTI.simRounds full S is now st).1.ind = full.ind := by
  induction is with
  | nil => intro now st hn; exact ⟨rfl, hn⟩
  | cons i is ih =>
    intro now st hn
    unfold TTI.simRounds
    rw [h.cut]
    cases hc : full.cut i with
    | none => exact ⟨rfl, hn⟩
    | some o =>
      have ho := cut_ind' full o i hc
      simp only [Option.map_some]
      rw [Neutral.getTiSignal (o := o) (ho ▸ h)]
      cases o.getTiSignal with
      | error e => exact ⟨rfl, ho⟩
      | ok s => exact ih o _ ho

theorem Neutral.step {g : Frame → Frame} {o : Obj} (h : Neutral g o.ind) (c : ApiCall) :
    (o.on g).step c = ((o.step c).1.on g, (o.step c).2) ∧ (o.step c).1.ind = o.ind := by
  cases c with
  | getTiData => exact ⟨rfl, rfl⟩
  | getTiValue d => exact ⟨by cases d with | none => rfl | some d => cases d <;> rfl, rfl⟩
  | getTiSignal =>
    refine ⟨?_, rfl⟩
    simp only [Obj.step, h.getTiSignal]
  | getTiSimulation close m f =>
    have hi : (o.on g).input.idx = o.input.idx := h.idx _
    have ht : (o.on g).ti = o.ti := rfl
    simp only [Obj.step, Obj.getTiSimulation, hi, ht]
    rcases setupSimulation true o.input.idx close m f with ⟨caller, e | S⟩
    · exact ⟨rfl, rfl⟩
    · simp only
      obtain ⟨h1, h2⟩ := h.simRounds S (List.range o.ti.len) o Sim.State.init rfl
      rw [h1]
      rcases hr : TTI.simRounds o S (List.range o.ti.len) o Sim.State.init with ⟨a, e | st⟩ <;> rw [hr] at h2
      · exact ⟨rfl, h2⟩
      · exact ⟨rfl, rfl⟩

theorem Neutral.steps {g : Frame → Frame} (cs : List ApiCall) : ∀ {o : Obj}, Neutral g o.ind →
    ((o.on g).steps cs).2 = (o.steps cs).2 := by
  induction cs with
  | nil => intro o _; rfl
  | cons c cs ih =>
    intro o h
    obtain ⟨h1, h2⟩ := h.step c
    simp only [Obj.steps, h1]
    rw [ih (h2 ▸ h)]

theorem scale_upTo (p v : ℚ) (F : Frame) (d : ℤ) : (F.scale p v).upTo d = (F.upTo d).scale p v := by
  unfold Frame.scale Frame.upTo
  simp only [List.map_map, Function.comp_def]
  congr 1
  apply List.map_congr_left
  intro c _
  have : F.idx.zip (scl (factor p v c.1) c.2) = (F.idx.zip c.2).map fun r => (r.1, sc (factor p v c.1) r.2) := by
    unfold scl; rw [List.zip_map_right]; rfl
  unfold keepUpTo
  rw [this, List.filter_map, List.map_map]
  simp only [scl, List.map_map, Function.comp_def]

theorem priceFree_iff (ind : Ind) : ind.PriceFree ↔ freeOfPriceUnit ind = true := by
  cases ind <;> simp [Ind.PriceFree, freeOfPriceUnit]

theorem neutral_price {c : ℚ} (hc : 0 < c) (ind : Ind) (h : freeOfPriceUnit ind = true) (hv : comparesRounded ind = false) :
    Neutral (Frame.scale c 1) ind :=
  ⟨fun _ => rfl, scale_upTo c 1, fun F T => signal_price hc ind ((priceFree_iff ind).2 h) hv F T⟩

theorem neutral_volume {v : ℚ} (ind : Ind) (h : freeOfVolumeUnit ind = true) (hr : "volume" ∈ ind.required) :
    Neutral (Frame.scale 1 v) ind :=
  ⟨fun _ => rfl, scale_upTo 1 v, fun F T => signal_volume ind h hr F T⟩

theorem inputAfter_scale_price {c : ℚ} (hc : 0 < c) (ind : Ind) (h : freeOfPriceUnit ind = true) (F : Frame) :
    ind.inputAfter (F.scale c 1) = (ind.inputAfter F).scale c 1 := by
  cases ind <;> first | rfl | (simp [freeOfPriceUnit] at h; done) | skip
  simp only [Ind.inputAfter, Ind.MassIndex.inputAfter, scale_col, factor, String.reduceEq, if_false, ewm_scl hc]
  simp only [Frame.scale, List.map_append, List.map_cons, List.map_nil, factor, String.reduceEq, if_false]

theorem inputAfter_scale_volume {v : ℚ} (ind : Ind) (h : freeOfVolumeUnit ind = true) (hr : "volume" ∈ ind.required) (F : Frame) :
    ind.inputAfter (F.scale 1 v) = (ind.inputAfter F).scale 1 v := by
  cases ind <;> first | rfl | (exfalso; revert hr; simp only [Ind.required]; decide) | (simp [freeOfVolumeUnit, Ind.required] at h; done)

/-- Construction when validation returns `g` of the frame. -/
theorem construct_on (E : Env) (c : Call) (fill : PyArg) (f f' : RawFrame) (g : Frame → Frame)
    (hval : ∀ ind, c.check = .ok ind → ∀ b, (validateInputData (.frame f') ind.required b).2 =
      (validateInputData (.frame f) ind.required b).2.map g)
    (hcalc : ∀ ind, c.check = .ok ind → ∀ F : Frame, (∀ col ∈ F.cols, col.1 ∈ ind.required) →
      ind.calcTi E (g F) = ind.calcTi E F ∧ ind.inputAfter (g F) = g (ind.inputAfter F)) :
    (construct E c (.frame f') fill).2 = (construct E c (.frame f) fill).2.map (Obj.on g) := by
  unfold construct
  cases hch : c.check with
  | error e => rfl
  | ok ind =>
    cases fill <;> first | rfl | skip
    rename_i b
    simp only
    have hv := hval ind hch b
    cases hr : (validateInputData (.frame f) ind.required b).2 with
    | error e =>
      rw [hr] at hv
      rcases h1 : validateInputData (.frame f) ind.required b with ⟨a, r⟩
      rcases h2 : validateInputData (.frame f') ind.required b with ⟨a', r'⟩
      rw [h1] at hr; rw [h2] at hv
      simp only at hr hv
      subst hr; subst hv
      rfl
    | ok F =>
      have hreq : ∀ c ∈ F.cols, c.1 ∈ ind.required := by
        have := (valid_of_ok f ind.required b F hr).2
        rw [this]; exact kept_required f ind.required b
      rw [hr] at hv
      rcases h1 : validateInputData (.frame f) ind.required b with ⟨a, r⟩
      rcases h2 : validateInputData (.frame f') ind.required b with ⟨a', r'⟩
      rw [h1] at hr; rw [h2] at hv
      simp only at hr hv
      subst hr; subst hv
      simp only [Except.map]
      obtain ⟨h3, h4⟩ := hcalc ind hch F hreq
      rw [h3, h4]
      cases ind.calcTi E F <;> rfl

end TTI
