import Verif.Props.Causal
import Verif.Lemmas.Prices

set_option autoImplicit false

/-!
# Missing values and labels, seen from the API (C27, C31)

`C27_fill` (Props/Validate) is about one column. Here the same is said of what validation returns and of the constructed
indicators.
-/

namespace TTI.Props

/-- The frame with other values in its columns; dates, labels and types stay. -/
def withData (f : RawFrame) (φ : RawCol → List Val) : RawFrame :=
  { f with cols := f.cols.map fun c => { c with data := φ c } }

theorem withData_valid (f : RawFrame) (φ : RawCol → List Val) (required : List String) (h : f.Valid required) :
    (withData f φ).Valid required := by
  have hn : (withData f φ).cols.map RawCol.name = f.cols.map RawCol.name := by
    simp only [withData, List.map_map]; rfl
  obtain ⟨h1, h2, h3, h4, h5, h6⟩ := h
  refine ⟨h1, h2, ?_, ?_, ?_, ?_⟩
  · intro h; apply h3; simpa [withData] using h
  · intro c hc
    simp only [withData, List.mem_map] at hc
    obtain ⟨d, hd, rfl⟩ := hc
    exact h4 d hd
  · intro r hr
    obtain ⟨d, hd, hnum⟩ := h5 r hr
    refine ⟨{ d with data := φ d }, ?_, hnum⟩
    simp only [withData, List.filter_map]
    rw [show (f.cols.filter ((fun c : RawCol => c.name == r) ∘ fun c : RawCol => ({ c with data := φ c } : RawCol))) = [d]
      from hd]
    rfl
  · rwa [hn]

theorem checkColumn_withData (φ : RawCol → List Val) (cols : List RawCol) (r : String) :
    checkColumn ((cols.map fun c : RawCol => ({ c with data := φ c } : RawCol)).map fun c => (c.name, c)) r =
      checkColumn (cols.map fun c => (c.name, c)) r := by
  unfold checkColumn
  rw [filter_named, filter_named, List.filter_map]
  have : (cols.filter ((fun c : RawCol => c.name == r) ∘ fun c : RawCol => ({ c with data := φ c } : RawCol))) =
      cols.filter fun c => c.name == r := rfl
  rw [this]
  generalize cols.filter (fun c => c.name == r) = l
  rcases l with _ | ⟨a, _ | ⟨b, l⟩⟩ <;> rfl

/-- The exceptions of validation do not depend on the values or on the flag. -/
theorem error_withData (f : RawFrame) (φ : RawCol → List Val) (required : List String) (fill fill' : Bool)
    (hval : ¬ f.Valid required) :
    ∃ e, (validateInputData (.frame f) required fill).2 = .error e ∧
      (validateInputData (.frame (withData f φ)) required fill').2 = .error e := by
  unfold validateInputData
  have hd : (withData f φ).datetimeIndex = f.datetimeIndex := rfl
  have hi : (withData f φ).idx = f.idx := rfl
  have hnil : ((withData f φ).cols = []) = (f.cols = []) := by simp [withData]
  simp only [hd, hi, hnil]
  by_cases h0 : f.datetimeIndex = false
  · simp only [if_pos h0]; exact ⟨_, rfl, rfl⟩
  simp only [if_neg h0]
  by_cases h1 : f.idx = [] ∨ f.cols = []
  · simp only [if_pos h1]; exact ⟨_, rfl, rfl⟩
  simp only [if_neg h1]
  rw [lowerLabels_eq, lowerLabels_eq]
  have hlab : (∀ c ∈ (withData f φ).cols, c.label ≠ .other) ↔ ∀ c ∈ f.cols, c.label ≠ .other := by
    simp [withData]
  by_cases h2 : ∀ c ∈ f.cols, c.label ≠ .other
  · rw [if_pos h2, if_pos (hlab.2 h2)]
    simp only
    have hcc : checkColumns ((withData f φ).cols.map fun c => (c.name, c)) required =
        checkColumns (f.cols.map fun c => (c.name, c)) required := by
      unfold checkColumns
      congr 1
      funext r
      exact checkColumn_withData φ f.cols r
    rw [hcc]
    cases h3 : checkColumns (f.cols.map fun c => (c.name, c)) required with
    | some e => exact ⟨e, rfl, rfl⟩
    | none =>
      simp only
      have hmap : ∀ g : RawFrame, (g.cols.map fun c => (c.name, c)).map (·.1) = g.cols.map RawCol.name := by
        intro g; rw [List.map_map]; rfl
      have hx : ¬ ((f.cols.map RawCol.name).filter fun l => !decide (l ∈ required)).Nodup := by
        intro hx
        simp only [not_or] at h1
        exact hval ⟨by simpa using h0, h1.1, h1.2, h2, (checkColumns_valid _ _).1 h3, hx⟩
      have hsn : (withData f φ).cols.map RawCol.name = f.cols.map RawCol.name := by
        simp only [withData, List.map_map]; rfl
      rw [dropExtra_error, dropExtra_error]
      · exact ⟨_, rfl, rfl⟩
      · rintro ⟨h4, -⟩
        rw [hmap, hsn] at h4
        exact hx h4
      · rintro ⟨h4, -⟩
        rw [hmap] at h4
        exact hx h4
  · rw [if_neg h2, if_neg (fun h => h2 (hlab.1 h))]
    exact ⟨_, rfl, rfl⟩

theorem kept_sorted (f : RawFrame) (required : List String) (hw : WF f) :
    (f.kept required).sortIndex = f.kept required := by
  apply sortIndex_of_sorted _ (sortIdx_sorted _)
  apply sortIndex_lengths
  intro c hc
  rw [List.mem_map] at hc
  obtain ⟨d, hd, rfl⟩ := hc
  exact hw d (List.mem_filter.1 hd).1

/-- C27: the columns of the validated data. With `fill_missing_values=True` every one is the filled form of the user's column
in the order of the dates; with `False` it is that column itself. -/
theorem C27_validated (f : RawFrame) (required : List String) (fill : Bool) (F : Frame) (hw : WF f)
    (h : (validateInputData (.frame f) required fill).2 = .ok F) (n : String) (hn : n ∈ required) :
    (fill = true → IsFilled (f.inDateOrder n) (F.col n)) ∧ (fill = false → F.col n = f.inDateOrder n) := by
  obtain ⟨hv, hF⟩ := valid_of_ok _ _ _ _ h
  have hk : (f.kept required).col n = f.inDateOrder n := by
    unfold RawFrame.inDateOrder
    rw [kept_col f required n hn, find_name _ _ hv.labels]
    cases f.cols.find? fun c => c.name == n <;> rfl
  constructor
  · rintro rfl
    have : F.col n = bfill (ffill ((f.kept required).col n)) := by
      rw [hF]
      simp only [if_true, fillMissingValues, kept_sorted f required hw]
      unfold Frame.col
      rw [List.find?_map]
      have : ((fun c : String × List Val => c.1 == n) ∘ fun c : String × List Val => (c.1, bfill (ffill c.2))) =
        fun c => c.1 == n := rfl
      rw [this]
      cases List.find? (fun c => c.1 == n) (f.kept required).cols <;> rfl
    rw [this, hk]
    exact C27_fill _
  · rintro rfl
    rw [hF]
    exact hk

example : WF demoFrame ∧ "h" ∈ ["c", "h"] ∧
    ((validateInputData (.frame demoFrame) ["c", "h"] true).2.map fun F => (F.col "c", F.col "h")) =
      .ok ([.fin 1, .fin 1, .fin 3], [.fin 5, .fin 5, .fin 4]) ∧
    ((validateInputData (.frame demoFrame) ["c", "h"] false).2.map fun F => (F.col "c", F.col "h")) =
      .ok ([.fin 1, .nan, .fin 3], [.nan, .fin 5, .fin 4]) := by
  refine ⟨by unfold WF; decide, by decide, by decide +kernel, by decide +kernel⟩

/-- C27: building an indicator with `fill_missing_values=True` is building it, without filling, on the filled data: the same
object (so the same indicator data, signals and simulations) or the same exception. The dates are in ascending order; by C25
that is no restriction if they are distinct. -/
theorem C27_construct (E : Env) (c : Call) (f g : RawFrame) (hw : WF f) (hs : f.idx.Pairwise (· ≤ ·))
    (hd : g.datetimeIndex = f.datetimeIndex) (hi : g.idx = f.idx)
    (hc : List.Forall₂ (fun x y : RawCol => y.label = x.label ∧ y.numeric = x.numeric ∧ IsFilled x.data y.data) f.cols g.cols) :
    (construct E c (.frame f) (.bool true)).2 = (construct E c (.frame g) (.bool false)).2 := by
  have hg : g = withData f fun c => bfill (ffill c.data) := by
    rcases f with ⟨fd, fi, fc⟩
    rcases g with ⟨gd, gi, gc⟩
    simp only at hd hi hc
    subst hd hi
    simp only [withData, RawFrame.mk.injEq, true_and]
    clear hs hw
    induction hc with
    | nil => rfl
    | @cons x y xs ys hxy _ ih =>
      obtain ⟨h1, h2, h3⟩ := hxy
      have h4 := C27_fill_unique _ _ h3
      rcases y with ⟨yl, yn, yd⟩
      simp only at h1 h2 h4
      subst h1 h2 h4
      rw [List.map_cons, ih]
  have key : ∀ required, (validateInputData (.frame f) required true).2 = (validateInputData (.frame g) required false).2 := by
    intro required
    rw [hg]
    by_cases hv : f.Valid required
    · rw [validate_ok _ _ _ hv, validate_ok _ _ _ (withData_valid f _ _ hv)]
      simp only [if_true, Bool.false_eq_true, if_false, fillMissingValues, kept_sorted f required hw]
      have hkept : f.kept required =
          ⟨f.idx, (f.cols.filter fun c => decide (c.name ∈ required)).map fun c => (c.name, c.data)⟩ := by
        unfold RawFrame.kept
        apply sortIndex_of_sorted _ hs
        intro c hc
        rw [List.mem_map] at hc
        obtain ⟨d, hd, rfl⟩ := hc
        exact hw d (List.mem_filter.1 hd).1
      have hkept' : (withData f fun c => bfill (ffill c.data)).kept required =
          ⟨f.idx, ((withData f fun c => bfill (ffill c.data)).cols.filter fun c => decide (c.name ∈ required)).map
            fun c => (c.name, c.data)⟩ := by
        unfold RawFrame.kept
        apply sortIndex_of_sorted _ hs
        intro c hc
        rw [List.mem_map] at hc
        obtain ⟨d, hd, rfl⟩ := hc
        have := (List.mem_filter.1 hd).1
        simp only [withData, List.mem_map] at this
        obtain ⟨e, he, rfl⟩ := this
        simpa [withData] using hw e he
      rw [hkept, hkept']
      simp only [withData, List.filter_map, List.map_map]
      rfl
    · obtain ⟨e, h1, h2⟩ := error_withData f (fun c => bfill (ffill c.data)) required true false hv
      rw [h1, h2]
  unfold construct
  cases c.check with
  | error e => rfl
  | ok ind =>
    simp only
    have := key ind.required
    rcases h1 : validateInputData (.frame f) ind.required true with ⟨a, r⟩
    rcases h2 : validateInputData (.frame g) ind.required false with ⟨b, s⟩
    rw [h1, h2] at this
    simp only at this
    subst this
    cases r with
    | error e => rfl
    | ok F =>
      simp only
      cases ind.calcTi E F <;> rfl

example : let f : RawFrame := ⟨true, [1, 2, 3], [⟨.str "Close", true, [.nan, .fin 1, .nan]⟩]⟩
    let g : RawFrame := ⟨true, [1, 2, 3], [⟨.str "Close", true, [.fin 1, .fin 1, .fin 1]⟩]⟩
    WF f ∧ f.idx.Pairwise (· ≤ ·) ∧
      List.Forall₂ (fun x y : RawCol => y.label = x.label ∧ y.numeric = x.numeric ∧ IsFilled x.data y.data) f.cols g.cols := by
  refine ⟨by unfold WF; decide, by decide, .cons ⟨rfl, rfl, ?_⟩ .nil⟩
  have h := C27_fill [.nan, .fin 1, .nan]
  rwa [show bfill (ffill [.nan, .fin 1, .nan]) = [.fin 1, .fin 1, .fin 1] by decide +kernel] at h

/-- Lower case of a character: the capital letters A to Z have the small letters 32 places later. -/
def lowerChar (c : Char) : Char := if 65 ≤ c.toNat ∧ c.toNat ≤ 90 then Char.ofNat (c.toNat + 32) else c

theorem toLower_eq (c : Char) : c.toLower = lowerChar c := by
  unfold Char.toLower lowerChar
  have h1 : (c.val ≥ 'A'.val ∧ c.val ≤ 'Z'.val) ↔ (65 ≤ c.toNat ∧ c.toNat ≤ 90) := by
    rw [ge_iff_le, UInt32.le_iff_toNat_le, UInt32.le_iff_toNat_le]; rfl
  by_cases h : 65 ≤ c.toNat ∧ c.toNat ≤ 90
  · rw [dif_pos (h1.2 h), if_pos h]
    apply Char.ext
    apply UInt32.toNat.inj
    have hv : (c.toNat + 32).isValidChar := by left; omega
    have h2 : (Char.ofNat (c.toNat + 32)).val.toNat = c.toNat + 32 := by
      unfold Char.ofNat; rw [dif_pos hv]; rfl
    rw [h2]
    show (c.val + 32).toNat = _
    rw [UInt32.toNat_add]
    have : c.val.toNat = c.toNat := rfl
    rw [this]
    show (c.toNat + 32) % 4294967296 = _
    omega
  · rw [dif_neg (mt h1.1 h), if_neg h]

/-- C31: what the new labels are. After validation of a frame that passes the first four checks the caller's frame has the
same columns in the same order, and every label has its capital letters replaced by small ones. -/
theorem C31_lower_case (f : RawFrame) (required : List String) (fill : Bool) (hd : f.datetimeIndex = true) (hr : f.idx ≠ [])
    (hc : f.cols ≠ []) (hl : ∀ c ∈ f.cols, c.label ≠ .other) :
    ∃ g, (validateInputData (.frame f) required fill).1 = .frame g ∧ g.datetimeIndex = true ∧ g.idx = f.idx ∧
      List.Forall₂ (fun x y : RawCol => y.data = x.data ∧ y.numeric = x.numeric ∧
        ∃ s t, x.label = .str s ∧ y.label = .str t ∧ t.toList = s.toList.map lowerChar) f.cols g.cols := by
  have h := C31_only_labels_change (.frame f) required fill
  simp only [hd, hr, hc, ne_eq, not_false_eq_true, true_and] at h
  rw [if_pos hl] at h
  refine ⟨_, h, rfl, rfl, ?_⟩
  simp only [List.forall₂_map_right_iff]
  rw [List.forall₂_same]
  intro c hm
  refine ⟨rfl, rfl, ?_⟩
  cases hlab : c.label with
  | other => exact absurd hlab (hl c hm)
  | str s =>
    refine ⟨s, s.toLower, rfl, ?_, ?_⟩
    · simp [RawCol.name, Label.lower, hlab]
    · rw [String.toLower, String.toList_map]
      apply List.map_congr_left
      intro ch _
      exact toLower_eq ch

example : demoFrame.datetimeIndex = true ∧ demoFrame.idx ≠ [] ∧ demoFrame.cols ≠ [] ∧ (∀ c ∈ demoFrame.cols, c.label ≠ .other) ∧
    demoFrame.cols.map (·.label) = [.str "C", .str "n", .str "H"] ∧ "aZ[é".toList.map lowerChar = "az[é".toList := by decide

end TTI.Props
