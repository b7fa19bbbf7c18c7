import Verif.Lemmas.Frame
import Verif.Model.SimArgs

set_option autoImplicit false

/-!
# Input validation (C15, C24-C31)
-/

namespace TTI.Props

/-- Every column has one value per date (true of every pandas frame). -/
def WF (f : RawFrame) : Prop := ∀ c ∈ f.cols, c.data.length = f.idx.length

/-- The frame whose row `i` is row `σ[i]` of `f`. -/
def reorder (f : RawFrame) (σ : List ℕ) : RawFrame :=
  { f with
    idx := σ.map fun k => f.idx.getD k 0
    cols := f.cols.map fun c => { c with data := σ.map fun k => c.data.getD k .nan } }

/-- A frame with unsorted dates, a gap, mixed case and an extra column (short names keep the kernel evaluation fast). -/
def demoFrame : RawFrame :=
  ⟨true, [30, 10, 20],
    [⟨.str "C", true, [.fin 3, .fin 1, .nan]⟩, ⟨.str "n", false, [.nan, .nan, .nan]⟩,
     ⟨.str "H", true, [.fin 4, .nan, .fin 5]⟩]⟩

theorem zip_getD (idx : List ℤ) (data : List Val) (h : data.length = idx.length) :
    idx.zip data = (idx.zip (List.range idx.length)).map fun r => (r.1, data.getD r.2 .nan) := by
  apply List.ext_getElem?
  intro i
  rw [List.getElem?_map]
  by_cases hi : i < idx.length
  · simp [hi, h]
  · rw [List.getElem?_eq_none (by simp; omega), List.getElem?_eq_none (by simp; omega)]; rfl

/-- C24: validation returns the rows of the input in ascending date order, each with its own values: the new rows are a
permutation `σ` of the old row numbers, the same for the dates and for every kept column. -/
theorem C24_rows_sorted (f : RawFrame) (required : List String) (F : Frame) (hw : WF f)
    (h : (validateInputData (.frame f) required false).2 = .ok F) :
    F.idx.Pairwise (· ≤ ·) ∧
    ∃ σ : List ℕ, σ.Perm (List.range f.idx.length) ∧ F.idx = (reorder f σ).idx ∧
      F.cols = ((reorder f σ).cols.filter fun c => decide (c.name ∈ required)).map fun c => (c.name, c.data) := by
  obtain ⟨hv, rfl⟩ := valid_of_ok _ _ _ _ h
  refine ⟨sortIndex_sorted _, ?_⟩
  let base := f.idx.zip (List.range f.idx.length)
  have hfst : base.map (·.1) = f.idx := List.map_fst_zip (by simp)
  have hsnd : base.map (·.2) = List.range f.idx.length := List.map_snd_zip (by simp)
  refine ⟨(sortRows base).map (·.2), ?_, ?_, ?_⟩
  · have := (sortRows_perm base).map (·.2)
    rwa [hsnd] at this
  · simp only [Bool.false_eq_true, if_false, RawFrame.kept, Frame.sortIndex, reorder]
    conv_lhs => rw [← hfst, ← sortRows_map_fst]
    rw [List.map_map]
    apply List.map_congr_left
    intro r hr
    have hr' := (sortRows_perm base).subset hr
    have hi := List.mem_iff_getElem?.1 hr'
    obtain ⟨i, hi⟩ := hi
    have hlt : i < f.idx.length := by
      have := (List.getElem?_eq_some_iff.1 hi).1; simp [base] at this; exact this
    simp only [base, List.getElem?_zip_eq_some, List.getElem?_range hlt] at hi
    obtain ⟨h1, h2⟩ := hi
    simp only [Function.comp]
    rw [← Option.some.inj h2, List.getD_eq_getElem?_getD, h1]; rfl
  · simp only [Bool.false_eq_true, if_false, RawFrame.kept, Frame.sortIndex, reorder, List.filter_map]
    rw [List.map_map, List.map_map]
    have hcomp : ((fun c : RawCol => decide (c.name ∈ required)) ∘ fun c : RawCol =>
        ({ c with data := ((sortRows base).map (·.2)).map fun k => c.data.getD k .nan } : RawCol)) =
        fun c => decide (c.name ∈ required) := by funext c; rfl
    rw [hcomp]
    apply List.map_congr_left
    intro c hc
    have hc' := (List.mem_filter.1 hc).1
    simp only [Function.comp, RawCol.name]
    rw [zip_getD _ _ (hw c hc'), sortRows_map (fun k => c.data.getD k .nan), List.map_map]
    simp only [List.map_map]
    rfl

example : WF demoFrame ∧ (validateInputData (.frame demoFrame) ["h", "c"] false).2 =
    .ok ⟨[10, 20, 30], [("c", [.fin 1, .nan, .fin 3]), ("h", [.nan, .fin 5, .fin 4])]⟩ := by
  refine ⟨by unfold WF; decide, by decide +kernel⟩

theorem kept_reorder (f : RawFrame) (required : List String) (σ : List ℕ) (hw : WF f) (hd : f.idx.Nodup)
    (hσ : σ.Perm (List.range f.idx.length)) : (reorder f σ).kept required = f.kept required := by
  have hidx : (σ.map fun k => f.idx.getD k 0).Perm f.idx := by
    have h1 := hσ.map fun k => f.idx.getD k 0
    have h2 : (List.range f.idx.length).map (fun k => f.idx.getD k 0) = f.idx := by
      apply List.ext_getElem?
      intro i
      by_cases hi : i < f.idx.length
      · simp [hi]
      · rw [List.getElem?_eq_none (by simp; omega), List.getElem?_eq_none (by omega)]
    rwa [h2] at h1
  unfold RawFrame.kept Frame.sortIndex
  congr 1
  · exact sortIdx_eq_of_perm _ _ hidx
  · simp only [reorder, List.filter_map, List.map_map]
    have hcomp : ((fun c : RawCol => decide (c.name ∈ required)) ∘ fun c : RawCol =>
        ({ c with data := σ.map fun k => c.data.getD k .nan } : RawCol)) =
        fun c => decide (c.name ∈ required) := by funext c; rfl
    rw [hcomp]
    apply List.map_congr_left
    intro c hc
    have hc' := (List.mem_filter.1 hc).1
    simp only [Function.comp, RawCol.name]
    congr 2
    have hz : (σ.map fun k => f.idx.getD k 0).zip (σ.map fun k => c.data.getD k .nan) =
        σ.map fun k => (f.idx.getD k 0, c.data.getD k .nan) := by
      rw [List.zip_map', ]
    have hz2 : f.idx.zip c.data = (List.range f.idx.length).map fun k => (f.idx.getD k 0, c.data.getD k .nan) := by
      apply List.ext_getElem?
      intro i
      by_cases hi : i < f.idx.length
      · have : i < c.data.length := by rw [hw c hc']; exact hi
        simp [hi, this]
      · rw [List.getElem?_eq_none (by simp; omega), List.getElem?_eq_none (by simp; omega)]
    rw [hz]
    apply sortRows_eq_of_perm
    · rw [hz2]; exact hσ.map _
    · rw [List.map_map]
      exact (hidx.nodup_iff).2 hd

theorem valid_reorder (f : RawFrame) (required : List String) (σ : List ℕ)
    (hσ : σ.Perm (List.range f.idx.length)) : (reorder f σ).Valid required ↔ f.Valid required := by
  have hname : ∀ c : RawCol, ({ c with data := σ.map fun k => c.data.getD k .nan } : RawCol).name = c.name := fun _ => rfl
  have hlen : σ.length = f.idx.length := by rw [hσ.length_eq, List.length_range]
  have h1 : (reorder f σ).idx ≠ [] ↔ f.idx ≠ [] := by
    rw [← List.length_pos_iff, ← List.length_pos_iff]; simp [reorder, hlen]
  have h2 : (reorder f σ).cols ≠ [] ↔ f.cols ≠ [] := by simp [reorder]
  have h3 : (∀ c ∈ (reorder f σ).cols, c.label ≠ .other) ↔ ∀ c ∈ f.cols, c.label ≠ .other := by simp [reorder]
  have h4 : (∀ r ∈ required, ∃ c, ((reorder f σ).cols.filter fun c => c.name == r) = [c] ∧ c.numeric = true) ↔
      ∀ r ∈ required, ∃ c, (f.cols.filter fun c => c.name == r) = [c] ∧ c.numeric = true := by
    apply forall₂_congr
    intro r _
    simp only [reorder, List.filter_map]
    have hcomp : ((fun c : RawCol => c.name == r) ∘ fun c : RawCol =>
        ({ c with data := σ.map fun k => c.data.getD k .nan } : RawCol)) = fun c => c.name == r := by funext c; rfl
    rw [hcomp]
    constructor
    · rintro ⟨c, hc, hn⟩
      rw [List.map_eq_singleton_iff] at hc
      obtain ⟨d, hd, rfl⟩ := hc
      exact ⟨d, hd, hn⟩
    · rintro ⟨c, hc, hn⟩
      exact ⟨{ c with data := σ.map fun k => c.data.getD k .nan }, by rw [hc]; rfl, hn⟩
  have h5 : (reorder f σ).cols.map RawCol.name = f.cols.map RawCol.name := by
    simp only [reorder, List.map_map]; rfl
  constructor
  · rintro ⟨a, b, c, d, e, g⟩
    exact ⟨a, h1.1 b, h2.1 c, h3.1 d, h4.1 e, by rwa [h5] at g⟩
  · rintro ⟨a, b, c, d, e, g⟩
    exact ⟨a, h1.2 b, h2.2 c, h3.2 d, h4.2 e, by rwa [h5]⟩

/-- C25: with distinct dates the order of the input rows is irrelevant: any reordering validates to the same frame. Every
indicator and the simulation see the input only through its validated form. -/
theorem C25_row_order_irrelevant (f : RawFrame) (required : List String) (fill : Bool) (σ : List ℕ) (hw : WF f)
    (hd : f.idx.Nodup) (hσ : σ.Perm (List.range f.idx.length)) (F : Frame) :
    (validateInputData (.frame (reorder f σ)) required fill).2 = .ok F ↔
      (validateInputData (.frame f) required fill).2 = .ok F := by
  by_cases hv : f.Valid required
  · rw [validate_ok _ _ _ hv, validate_ok _ _ _ ((valid_reorder f required σ hσ).2 hv), kept_reorder f required σ hw hd hσ]
  · obtain ⟨e, he⟩ := validate_not_ok f required fill hv
    obtain ⟨e', he'⟩ := validate_not_ok (reorder f σ) required fill (mt (valid_reorder f required σ hσ).1 hv)
    rw [he, he']; simp

example : demoFrame.idx.Nodup ∧ [2, 0, 1].Perm (List.range demoFrame.idx.length) ∧
    (reorder demoFrame [2, 0, 1]).idx = [20, 30, 10] := by
  refine ⟨by decide, by decide, by decide⟩

/-- C26: changing the letter case of the labels changes nothing. -/
theorem C26_label_case_irrelevant (f : RawFrame) (required : List String) (fill : Bool) (g : RawCol → Label)
    (hg : ∀ c ∈ f.cols, (g c).lower = c.label.lower) :
    (validateInputData (.frame { f with cols := f.cols.map fun c => { c with label := g c } }) required fill).2 =
      (validateInputData (.frame f) required fill).2 := by
  have hname : ∀ c ∈ f.cols, ({ c with label := g c } : RawCol).name = c.name := by
    intro c hc; simp [RawCol.name, hg c hc]
  have hoth : ∀ l : Label, l ≠ .other ↔ l.lower ≠ none := by intro l; cases l <;> simp [Label.lower]
  unfold validateInputData
  simp only
  by_cases h0 : f.datetimeIndex = false
  · simp [h0]
  simp only [if_neg h0, List.map_eq_nil_iff]
  by_cases h1 : f.idx = [] ∨ f.cols = []
  · simp [h1]
  simp only [if_neg h1]
  rw [lowerLabels_eq, lowerLabels_eq]
  have hl : (∀ c ∈ f.cols.map fun c => ({ c with label := g c } : RawCol), c.label ≠ .other) ↔
      ∀ c ∈ f.cols, c.label ≠ .other := by
    simp only [List.mem_map, forall_exists_index, and_imp, forall_apply_eq_imp_iff₂]
    apply forall₂_congr
    intro c hc
    rw [hoth, hoth, hg c hc]
  by_cases h2 : ∀ c ∈ f.cols, c.label ≠ .other
  · rw [if_pos h2, if_pos (hl.2 h2)]
    simp only
    -- the named columns differ only in the label stored inside
    have hcols : ((f.cols.map fun c => ({ c with label := g c } : RawCol)).map fun c => (c.name, c)) =
        (f.cols.map fun c => (c.name, c)).map fun p => (p.1, ({ p.2 with label := g p.2 } : RawCol)) := by
      rw [List.map_map, List.map_map]
      apply List.map_congr_left
      intro c hc
      simp only [Function.comp]
      rw [hname c hc]
    rw [hcols]
    generalize f.cols.map (fun c => (c.name, c)) = cols
    have hcheck : checkColumns (cols.map fun p => (p.1, ({ p.2 with label := g p.2 } : RawCol))) required =
        checkColumns cols required := by
      unfold checkColumns
      congr 1
      funext r
      unfold checkColumn
      rw [List.filter_map]
      have hcomp : ((fun c : String × RawCol => c.1 == r) ∘
          fun p : String × RawCol => (p.1, ({ p.2 with label := g p.2 } : RawCol))) = fun c => c.1 == r := by
        funext c; rfl
      rw [hcomp]
      generalize cols.filter (fun c => c.1 == r) = l
      rcases l with _ | ⟨a, _ | ⟨b, l⟩⟩ <;> rfl
    have hdrop : ∀ (labels : List String) (cols : List (String × RawCol)),
        dropExtra required labels (cols.map fun p => (p.1, ({ p.2 with label := g p.2 } : RawCol))) =
          (dropExtra required labels cols).map fun l => l.map fun p => (p.1, ({ p.2 with label := g p.2 } : RawCol)) := by
      intro labels
      induction labels with
      | nil => intro cols; rfl
      | cons l ls ih =>
        intro cols
        unfold dropExtra
        have hm : (cols.map fun p : String × RawCol => (p.1, ({ p.2 with label := g p.2 } : RawCol))).map (·.1) =
          cols.map (·.1) := by rw [List.map_map]; rfl
        have hf : (cols.map fun p : String × RawCol => (p.1, ({ p.2 with label := g p.2 } : RawCol))).filter
            (fun c => !(c.1 == l)) =
            (cols.filter fun c => !(c.1 == l)).map fun p => (p.1, ({ p.2 with label := g p.2 } : RawCol)) := by
          rw [List.filter_map]; rfl
        rw [hm, hf]
        split
        · exact ih cols
        · split
          · exact ih _
          · rfl
    have hm : (cols.map fun p : String × RawCol => (p.1, ({ p.2 with label := g p.2 } : RawCol))).map (·.1) =
      cols.map (·.1) := by rw [List.map_map]; rfl
    rw [hcheck, hm, hdrop]
    cases checkColumns cols required with
    | some e => rfl
    | none =>
      simp only
      cases dropExtra required (cols.map (·.1)) cols with
      | error e => rfl
      | ok kept => simp only [Except.map, List.map_map]; rfl
  · rw [if_neg h2, if_neg (mt hl.1 h2)]

example : ∀ c ∈ demoFrame.cols, ((fun c : RawCol => match c.label with
    | .str s => Label.str s.toUpper
    | .other => .other) c).lower = c.label.lower := by decide +kernel

/-- C26: additional columns whose names are strings, not required and distinct do not matter: if deleting the columns of
`f'` selected by `extra` gives the columns of `f`, both validate to the same frame. -/
theorem C26_extra_columns_irrelevant (f f' : RawFrame) (required : List String) (fill : Bool) (extra : RawCol → Bool)
    (hidx : f'.idx = f.idx) (hdt : f'.datetimeIndex = f.datetimeIndex)
    (hcols : (f'.cols.filter fun c => !extra c) = f.cols)
    (hextra : ∀ c ∈ f'.cols, extra c = true → c.label ≠ .other ∧ c.name ∉ required)
    (hnodup : (f'.cols.map RawCol.name).Nodup) (F : Frame)
    (h : (validateInputData (.frame f) required fill).2 = .ok F) :
    (validateInputData (.frame f') required fill).2 = .ok F := by
  obtain ⟨hv, rfl⟩ := valid_of_ok _ _ _ _ h
  have hfil : ∀ p : RawCol → Bool, (∀ c ∈ f'.cols, extra c = true → p c = false) →
      f'.cols.filter p = f.cols.filter p := by
    intro p hp
    rw [← hcols, List.filter_filter]
    apply List.filter_congr
    intro c hc
    cases he : extra c
    · simp
    · simp [hp c hc he]
  have hv' : f'.Valid required := by
    refine ⟨by rw [hdt]; exact hv.datetime, by rw [hidx]; exact hv.rows, ?_, ?_, ?_, hnodup.filter _⟩
    · intro h0
      apply hv.columns
      rw [← hcols, h0]; rfl
    · intro c hc
      cases he : extra c
      · exact hv.labels c (by rw [← hcols]; exact List.mem_filter.2 ⟨hc, by simp [he]⟩)
      · exact (hextra c hc he).1
    · intro r hr
      rw [hfil]
      · exact hv.needed r hr
      · intro c hc he
        have := (hextra c hc he).2
        simp only [beq_eq_false_iff_ne, ne_eq]
        rintro rfl
        exact this hr
  rw [validate_ok _ _ _ hv']
  have hk : f'.kept required = f.kept required := by
    unfold RawFrame.kept
    rw [hidx, hfil]
    intro c hc he
    simpa using (hextra c hc he).2
  rw [hk]

example : (validateInputData (.frame demoFrame) ["c"] true).2 =
    (validateInputData (.frame ⟨true, [30, 10, 20], [⟨.str "c", true, [.fin 3, .fin 1, .nan]⟩]⟩) ["c"] true).2 := by
  decide +kernel

/-- C26: distinctness is needed: two extra columns that differ only in case make validation fail. -/
theorem C26_repeated_extra_fails :
    ∃ f : RawFrame, WF f ∧ (f.cols.map (·.label)).Nodup ∧
      (validateInputData (.frame f) ["c"] true).2 = .error .keyError :=
  ⟨⟨true, [1], [⟨.str "c", true, [.fin 1]⟩, ⟨.str "N", true, [.fin 1]⟩, ⟨.str "n", true, [.fin 1]⟩]⟩,
    by unfold WF; decide, by decide, by decide +kernel⟩

/-! ## Missing values -/

/-- Specification of filling a column: a known value stays; a missing value becomes the latest earlier known value, or, if
there is none, the first later known value; it stays missing only if the whole column is missing. -/
structure IsFilled (xs ys : List Val) : Prop where
  length : ys.length = xs.length
  keep : ∀ (i : ℕ) (v : Val), xs[i]? = some v → v ≠ .nan → ys[i]? = some v
  forward : ∀ (i j : ℕ) (v : Val), j ≤ i → i < xs.length → xs[j]? = some v → v ≠ .nan →
    (∀ k, j < k → k ≤ i → xs[k]? = some .nan) → ys[i]? = some v
  backward : ∀ (i j : ℕ) (v : Val), i ≤ j → xs[j]? = some v → v ≠ .nan → (∀ k, k < j → xs[k]? = some .nan) → ys[i]? = some v
  missing : ∀ i < xs.length, ys[i]? = some .nan ↔ ∀ k < xs.length, xs[k]? = some .nan

/-- C27: the fill meets its specification, for every column. -/
theorem C27_fill (xs : List Val) : IsFilled xs (bfill (ffill xs)) := by
  have hlen : (ffill xs).length = xs.length := ffill_length xs
  refine ⟨by simp, ?_, ?_, ?_, ?_⟩
  · intro i v h hv
    exact bfill_known _ _ _ (ffill_known _ _ _ h hv) hv
  · intro i j v hji hi hj hv hb
    exact bfill_known _ _ _ (ffill_last_known xs i j v hj hv hji hi hb) hv
  · intro i j v hij hj hv hb
    have hjl := (List.getElem?_eq_some_iff.1 hj).1
    apply bfill_first_known _ i j v (ffill_known _ _ _ hj hv) hv hij
    intro k _ hk
    exact ffill_no_known xs k (by omega) fun k' hk' => hb k' (by omega)
  · intro i hil
    refine ⟨fun hi => ?_, fun h => ?_⟩
    rotate_left
    · apply bfill_no_known _ _ (by simpa using hil)
      intro k _ hk
      exact ffill_no_known xs k (by simpa using hk) fun k' hk' => h k' (by simp at hk; omega)
    by_contra hcon
    push Not at hcon
    obtain ⟨k, hk, hne⟩ := hcon
    -- some entry is known
    rcases exists_last_known xs i hil with ⟨j, v, h1, h2, h3, h4⟩ | hnone
    · rw [bfill_known _ _ _ (ffill_last_known xs i j v h2 h3 h1 hil h4) h3] at hi
      exact h3 (Option.some.inj hi)
    · -- the first known entry is after `i`
      have hex : ∃ j, j < xs.length ∧ xs[j]? ≠ some .nan := ⟨k, hk, hne⟩
      classical
      let j := Nat.find hex
      have hj := Nat.find_spec hex
      have hmin : ∀ m, m < j → xs[m]? = some .nan := by
        intro m hm
        by_contra h
        exact Nat.find_min hex hm ⟨by have := hj.1; omega, h⟩
      have hij : i ≤ j := by
        by_contra h
        exact hj.2 (hnone j (by omega))
      have hjv : xs[j]? = some xs[j] := List.getElem?_eq_getElem hj.1
      have hv : xs[j] ≠ .nan := fun h => hj.2 (by rw [hjv, h])
      have : (bfill (ffill xs))[i]? = some xs[j] := by
        apply bfill_first_known _ i j _ (ffill_known _ _ _ hjv hv) hv hij
        intro m _ hm
        exact ffill_no_known xs m (by have := hj.1; omega) fun k' hk' => hmin k' (by omega)
      rw [this] at hi
      exact hv (Option.some.inj hi)

/-- C27: two columns that meet the specification for the same input are equal, so the specification says it all. -/
theorem C27_fill_unique (xs ys : List Val) (h : IsFilled xs ys) : ys = bfill (ffill xs) := by
  have h' := C27_fill xs
  apply List.ext_getElem?
  intro i
  by_cases hi : i < xs.length
  · rcases exists_last_known xs i hi with ⟨j, v, h1, h2, h3, h4⟩ | hnone
    · rw [h.forward i j v h1 hi h2 h3 h4, h'.forward i j v h1 hi h2 h3 h4]
    · by_cases hall : ∀ k < xs.length, xs[k]? = some .nan
      · rw [(h.missing i hi).2 hall, (h'.missing i hi).2 hall]
      · have hex : ∃ j, j < xs.length ∧ xs[j]? ≠ some .nan := by
          by_contra hcon
          apply hall
          intro k hk
          by_contra hne
          exact hcon ⟨k, hk, hne⟩
        classical
        have hj := Nat.find_spec hex
        have hmin : ∀ m, m < Nat.find hex → xs[m]? = some .nan := by
          intro m hm
          by_contra h
          exact Nat.find_min hex hm ⟨by have := hj.1; omega, h⟩
        generalize Nat.find hex = j at hj hmin
        have hij : i ≤ j := by
          by_contra hlt
          exact hj.2 (hnone j (by omega))
        have hjv : xs[j]? = some xs[j] := List.getElem?_eq_getElem hj.1
        have hv : xs[j] ≠ .nan := fun h => hj.2 (by rw [hjv, h])
        rw [h.backward i j _ hij hjv hv hmin, h'.backward i j _ hij hjv hv hmin]
  · rw [List.getElem?_eq_none (by rw [h.length]; omega), List.getElem?_eq_none (by simp; omega)]

example : bfill (ffill [.nan, .fin 1, .nan, .pinf, .nan]) = [.fin 1, .fin 1, .fin 1, .pinf, .pinf] := by decide +kernel

end TTI.Props
