import Verif.Lemmas.MirrorAll
import Verif.Lemmas.RaiseObj

set_option autoImplicit false

/-!
# Objects on the mirrored market
-/

namespace TTI

open TTI.Spec TTI.Props

/-! ## Validation -/

/-- A mirrored column of the user's frame. -/
def mirrorCol (k : ℚ) (c : RawCol) : RawCol :=
  if isVolume c then c else ⟨mirrorLabel c.label, c.numeric, c.data.map (Val.sub (.fin k))⟩

theorem mirrored_cols (k : ℚ) (f : RawFrame) : (mirrored k f).cols = f.cols.map (mirrorCol k) := rfl

theorem isVolume_name (c : RawCol) : isVolume c = decide (c.name = "volume") := by
  unfold isVolume RawCol.name
  cases h : c.label with
  | other => simp only [Label.lower, Option.getD_none]; rfl
  | str s => simp only [Label.lower, Option.getD_some]; congr 1

theorem mirrorCol_name (k : ℚ) (c : RawCol) : (mirrorCol k c).name = otherEnd c.name := by
  unfold mirrorCol
  rw [isVolume_name]
  by_cases hv : c.name = "volume"
  · rw [if_pos (by simpa using hv), hv]; rfl
  · rw [if_neg (by simpa using hv)]
    unfold RawCol.name
    cases h : c.label with
    | other => rfl
    | str s =>
      show (mirrorLabel (.str s)).lower.getD "" = otherEnd s.toLower
      unfold otherEnd mirrorLabel
      dsimp only
      by_cases h1 : s.toLower = "high"
      · rw [if_pos h1, if_pos h1]; decide +kernel
      · by_cases h2 : s.toLower = "low"
        · rw [if_neg h1, if_neg h1, if_pos h2, if_pos h2]; decide +kernel
        · rw [if_neg h1, if_neg h1, if_neg h2, if_neg h2]; rfl

theorem mirrorCol_numeric (k : ℚ) (c : RawCol) : (mirrorCol k c).numeric = c.numeric := by
  unfold mirrorCol; split_ifs <;> rfl

theorem mirrorCol_label (k : ℚ) (c : RawCol) : (mirrorCol k c).label = .other ↔ c.label = .other := by
  unfold mirrorCol
  split_ifs
  · rfl
  · cases c.label with
    | other => rfl
    | str s => simp only [mirrorLabel]; split_ifs <;> simp

theorem mirrorCol_data (c : RawCol) : (mirrorCol 0 c).data = if c.name = "volume" then c.data else ngl c.data := by
  unfold mirrorCol
  rw [isVolume_name]
  by_cases hv : c.name = "volume"
  · simp only [hv, decide_true, if_true]
  · simp only [hv, decide_false, if_false, zero_sub_val, Bool.false_eq_true]; rfl

theorem otherEnd_inj : Function.Injective otherEnd := fun a b h => by
  rw [← otherEnd_otherEnd a, h, otherEnd_otherEnd]

theorem otherEnd_required (ind : Ind) : ∀ n, otherEnd n ∈ ind.required ↔ n ∈ ind.required := by
  intro n
  have key : ("high" ∈ ind.required ↔ "low" ∈ ind.required) := by
    cases ind <;> simp only [Ind.required] <;> decide
  unfold otherEnd
  split_ifs with h1 h2
  · subst h1; exact key.symm
  · subst h2; exact key
  · rfl

section
variable (k : ℚ) (required : List String) (hr : ∀ n, otherEnd n ∈ required ↔ n ∈ required)
include hr

omit hr in
theorem mirrored_filter (f : RawFrame) (r : String) :
    (mirrored k f).cols.filter (fun c => c.name == r) = (f.cols.filter fun c => c.name == otherEnd r).map (mirrorCol k) := by
  rw [mirrored_cols, List.filter_map]
  congr 1
  apply List.filter_congr
  intro c _
  simp only [Function.comp, mirrorCol_name]
  rw [Bool.eq_iff_iff, beq_iff_eq, beq_iff_eq]
  constructor
  · rintro rfl; exact (otherEnd_otherEnd _).symm
  · intro h; rw [h]; exact otherEnd_otherEnd _

theorem mirrored_valid (f : RawFrame) : (mirrored k f).Valid required ↔ f.Valid required := by
  have hn : (mirrored k f).cols.map RawCol.name = (f.cols.map RawCol.name).map otherEnd := by
    rw [mirrored_cols, List.map_map, List.map_map]
    apply List.map_congr_left
    intro c _
    exact mirrorCol_name k c
  have hx : ((mirrored k f).cols.map RawCol.name).filter (fun l => !decide (l ∈ required)) =
      ((f.cols.map RawCol.name).filter fun l => !decide (l ∈ required)).map otherEnd := by
    rw [hn, List.filter_map]
    congr 1
    apply List.filter_congr
    intro c _
    simp only [Function.comp, hr]
  have hl : (∀ c ∈ (mirrored k f).cols, c.label ≠ .other) ↔ ∀ c ∈ f.cols, c.label ≠ .other := by
    rw [mirrored_cols]
    simp only [List.mem_map, forall_exists_index, and_imp, forall_apply_eq_imp_iff₂, ne_eq, mirrorCol_label]
  have hnd : (∀ r ∈ required, ∃ c, ((mirrored k f).cols.filter fun c => c.name == r) = [c] ∧ c.numeric = true) ↔
      ∀ r ∈ required, ∃ c, (f.cols.filter fun c => c.name == r) = [c] ∧ c.numeric = true := by
    have aux : ∀ r, (∃ c, ((mirrored k f).cols.filter fun c => c.name == r) = [c] ∧ c.numeric = true) ↔
        ∃ c, (f.cols.filter fun c => c.name == otherEnd r) = [c] ∧ c.numeric = true := by
      intro r
      rw [mirrored_filter k]
      constructor
      · rintro ⟨c, hc, hnum⟩
        rw [List.map_eq_singleton_iff] at hc
        obtain ⟨d, hd, rfl⟩ := hc
        exact ⟨d, hd, by rwa [mirrorCol_numeric] at hnum⟩
      · rintro ⟨d, hd, hnum⟩
        exact ⟨mirrorCol k d, by rw [hd]; rfl, by rwa [mirrorCol_numeric]⟩
    constructor
    · intro h r hm
      have := (aux (otherEnd r)).1 (h _ ((hr r).2 hm))
      rwa [otherEnd_otherEnd] at this
    · intro h r hm
      exact (aux r).2 (h _ ((hr r).2 hm))
  have hc : (mirrored k f).cols ≠ [] ↔ f.cols ≠ [] := by simp [mirrored_cols]
  constructor
  · rintro ⟨h1, h2, h3, h4, h5, h6⟩
    exact ⟨h1, h2, hc.1 h3, hl.1 h4, hnd.1 h5, by rw [hx] at h6; exact h6.of_map otherEnd⟩
  · rintro ⟨h1, h2, h3, h4, h5, h6⟩
    exact ⟨h1, h2, hc.2 h3, hl.2 h4, hnd.2 h5, by rw [hx]; exact h6.map otherEnd_inj⟩

omit hr in
theorem sortIndex_flip (F : Frame) : F.flip.sortIndex = F.sortIndex.flip := by
  unfold Frame.sortIndex Frame.flip
  simp only [List.map_map, Function.comp_def]
  congr 1
  apply List.map_congr_left
  intro c _
  split_ifs
  · rfl
  · have : F.idx.zip (ngl c.2) = (F.idx.zip c.2).map fun r => (r.1, r.2.neg) := by
      unfold ngl; rw [List.zip_map_right]; rfl
    rw [this, sortRows_map]
    simp only [List.map_map, Function.comp_def, ngl]

omit hr in
theorem fill_flip (F : Frame) : fillMissingValues F.flip = (fillMissingValues F).flip := by
  unfold fillMissingValues
  simp only [sortIndex_flip]
  unfold Frame.flip
  simp only [List.map_map, Function.comp_def]
  congr 1
  apply List.map_congr_left
  intro c _
  split_ifs
  · rfl
  · simp only [ffill_ngl, bfill_ngl]

theorem kept_flip (f : RawFrame) : (mirrored 0 f).kept required = (f.kept required).flip := by
  unfold RawFrame.kept
  rw [← sortIndex_flip]
  congr 1
  unfold Frame.flip
  simp only [mirrored_cols, List.filter_map, List.map_map, Function.comp_def, mirrorCol_name, hr, mirrorCol_data]
  rfl

/-- Validation of mirrored data succeeds exactly if that of the data does, and gives the mirrored frame. -/
theorem validate_mirrored (f : RawFrame) (fill : Bool) :
    (validateInputData (.frame (mirrored 0 f)) required fill).2.toOption =
      (validateInputData (.frame f) required fill).2.toOption.map Frame.flip := by
  by_cases hval : f.Valid required
  · rw [validate_ok f required fill hval, validate_ok _ required fill ((mirrored_valid 0 required hr f).2 hval),
      kept_flip required hr f]
    simp only [Except.toOption, Option.map_some]
    cases fill
    · rfl
    · simp only [if_true, fill_flip]
  · have h1 : ∀ g : RawFrame, ¬ g.Valid required → (validateInputData (.frame g) required fill).2.toOption = none := by
      intro g hg
      cases h : (validateInputData (.frame g) required fill).2 with
      | error e => rfl
      | ok F => exact absurd (valid_of_ok _ _ _ _ h).1 hg
    rw [h1 _ hval, h1 _ (fun h => hval ((mirrored_valid 0 required hr f).1 h))]
    rfl

end

theorem mirrored_wf (k : ℚ) (f : RawFrame) (hw : WF f) : WF (mirrored k f) := by
  intro c hc
  rw [mirrored_cols, List.mem_map] at hc
  obtain ⟨d, hd, rfl⟩ := hc
  have : (mirrorCol k d).data.length = d.data.length := by
    unfold mirrorCol; split_ifs <;> simp
  rw [this]
  exact hw d hd

/-- Mirroring at `k` is mirroring at 0 and raising by `k`. -/
theorem mirrored_raised (k : ℚ) (f : RawFrame) : mirrored k f = raised k (mirrored 0 f) := by
  unfold raised mirrored
  simp only [List.map_map]
  congr 1
  apply List.map_congr_left
  intro c _
  show mirrorCol k c = raiseCol k (mirrorCol 0 c)
  have hv : isVolume (mirrorCol 0 c) = isVolume c := by
    rw [isVolume_name, isVolume_name, mirrorCol_name]
    congr 1
    rw [eq_iff_iff]
    unfold otherEnd
    split_ifs <;> simp_all
  unfold raiseCol
  rw [hv]
  unfold mirrorCol
  cases h : isVolume c
  · simp only [Bool.false_eq_true, if_false, List.map_map]
    congr 1
    apply List.map_congr_left
    intro v _
    cases v <;> simp [Val.sub, Val.add, Val.neg, Function.comp, plus]
    ring
  · simp only [if_true]

theorem mirrored_numbers (k : ℚ) (f : RawFrame) (required : List String) (fill : Bool)
    (hr : ∀ n, otherEnd n ∈ required ↔ n ∈ required) (h : NumbersFor f required fill) :
    NumbersFor (mirrored k f) required fill := by
  intro c hc n hn hl
  rw [mirrored_cols, List.mem_map] at hc
  obtain ⟨d, hd, rfl⟩ := hc
  have hname : otherEnd d.name = n := by rw [← mirrorCol_name k]; unfold RawCol.name; rw [hl]; rfl
  have hd1 : d.label ≠ .other := by
    intro h0
    rw [(mirrorCol_label k d).2 h0] at hl
    cases hl
  have hd2 : d.label.lower = some d.name := by
    unfold RawCol.name
    cases h : d.label with
    | other => exact absurd h hd1
    | str s => rfl
  obtain ⟨h1, q, h2⟩ := h d hd d.name ((hr _).1 (by rw [hname]; exact hn)) hd2
  unfold mirrorCol
  split_ifs
  · exact ⟨h1, q, h2⟩
  · refine ⟨?_, k - q, ?_⟩
    · intro v hv
      obtain ⟨w, hw, rfl⟩ := List.mem_map.1 hv
      rcases h1 w hw with ⟨p, rfl⟩ | ⟨h3, rfl⟩
      · exact Or.inl ⟨k - p, by simp [Val.sub, Val.add, Val.neg]; ring⟩
      · exact Or.inr ⟨h3, rfl⟩
    · refine List.mem_map.2 ⟨_, h2, ?_⟩
      simp [Val.sub, Val.add, Val.neg]; ring

/-! ## Construction -/

theorem inputAfter_flip (ind : Ind) (F : Frame) : ind.inputAfter F.flip = (ind.inputAfter F).flip := by
  cases ind <;> try rfl
  · simp only [Ind.inputAfter, Ind.MassIndex.inputAfter, flip_close, ewm_ngl]
    simp only [Frame.flip, List.map_append, List.map_cons, List.map_nil]
    rfl
  · simp only [Ind.inputAfter, Ind.MedianPrice.inputAfter, flip_close, ewm_ngl]
    simp only [Frame.flip, List.map_append, List.map_cons, List.map_nil]
    rfl

theorem validated_mirrorOk (E : Env) (hwt : ∀ d, (E.weights d).length ≤ d) (c : Call) (f : RawFrame) (ind : Ind) (fill : Bool)
    (F : Frame) (hw : WF f) (hc : c.check = .ok ind) (h : (validateInputData (.frame f) ind.required fill).2 = .ok F)
    (hn : zeroForMissing ind = true → NumbersFor f ind.required fill) : MirrorOk E ind F := by
  have hg := (validated_good f _ _ _ hw h).1
  exact {
    names := fun col hcol => hg.only _ (List.mem_map_of_mem hcol)
    lengths := fun n hn => F.col_length hg.wf n (hg.has n hn)
    pos := check_pos _ _ hc
    numbers := fun hz => validated_numbers f _ _ F hw h (hn hz)
    weights := hwt }

theorem construct_toOption (E : Env) (c : Call) (x : InputArg) (ind : Ind) (b : Bool) (hc : c.check = .ok ind) :
    (construct E c x (.bool b)).2.toOption =
      (validateInputData x ind.required b).2.toOption.bind fun F =>
        (ind.calcTi E F).toOption.map fun T => ⟨ind, ind.inputAfter F, T⟩ := by
  unfold construct
  rw [hc]
  dsimp only
  rcases validateInputData x ind.required b with ⟨y, e | F⟩
  · rfl
  · simp only [Except.toOption, Option.bind_some]
    cases ind.calcTi E F <;> rfl

theorem construct_mirror (E : Env) (hwt : ∀ d, (E.weights d).length ≤ d) (c : Call) (fill : PyArg) (f : RawFrame)
    (m : Val → Val) (hw : WF f) (hm : ∀ ind, c.check = .ok ind → reflect 0 ind = some m)
    (hn : ∀ ind b, c.check = .ok ind → fill = .bool b → zeroForMissing ind = true → NumbersFor f ind.required b) :
    (construct E c (.frame (mirrored 0 f)) fill).2.toOption =
      (construct E c (.frame f) fill).2.toOption.map (Obj.both Frame.flip (reflected m)) := by
  cases hc : c.check with
  | error e => simp only [construct, hc]; rfl
  | ok ind =>
    cases fill <;> try (simp only [construct, hc]; rfl)
    case bool b =>
      rw [construct_toOption E c _ ind b hc, construct_toOption E c _ ind b hc]
      have hv := validate_mirrored ind.required (otherEnd_required ind) f b
      rw [hv]
      cases h1 : (validateInputData (.frame f) ind.required b).2 with
      | error e => rfl
      | ok F =>
        have ok := validated_mirrorOk E hwt c f ind b F hw hc h1 (hn ind b hc rfl)
        simp only [Except.toOption, Option.map_some, Option.bind_some, calcTi_mirror E ind m (hm ind hc) F ok]
        cases ind.calcTi E F with
        | error e => rfl
        | ok T => simp only [Except.map, Option.map_some, Obj.both, inputAfter_flip]

end TTI
