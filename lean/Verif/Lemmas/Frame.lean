import Verif.Model.Frame
import Verif.Lemmas.Series
import Mathlib.Data.List.Sort

set_option autoImplicit false

/-!
# Facts about sorting and validation
-/

namespace TTI

/-- Lower-cased name of a column with a string label. -/
def RawCol.name (c : RawCol) : String := c.label.lower.getD ""

theorem lowerLabels_eq (cols : List RawCol) :
    lowerLabels cols = if (∀ c ∈ cols, c.label ≠ .other) then some (cols.map fun c => (c.name, c)) else none := by
  induction cols with
  | nil => simp [lowerLabels]
  | cons c cols ih =>
    simp only [lowerLabels, ih]
    cases hc : c.label with
    | other => simp [Label.lower, hc]
    | str s =>
      by_cases h : ∀ c ∈ cols, c.label ≠ .other
      · rw [if_pos h, if_pos (by simpa [hc] using h)]
        simp [Label.lower, RawCol.name, hc]
      · rw [if_neg h, if_neg (by simpa [hc] using h)]
        simp [Label.lower]

theorem checkColumns_eq_none_iff (cols : List (String × RawCol)) (required : List String) :
    checkColumns cols required = none ↔
      ∀ r ∈ required, ∃ c, (cols.filter fun c => c.1 == r) = [c] ∧ c.2.numeric = true := by
  unfold checkColumns
  rw [List.findSome?_eq_none_iff]
  apply forall₂_congr
  intro r _
  unfold checkColumn
  split
  · next h => simp [h]
  · next c h => simp [h]
  · next h1 h2 =>
    simp only [reduceCtorEq, false_iff]
    rintro ⟨c, hc, -⟩
    exact h2 c hc

/-- The dropping loop. -/
theorem dropExtra_ok (required labels : List String) (cols : List (String × RawCol))
    (hn : (labels.filter fun l => !decide (l ∈ required)).Nodup)
    (hm : ∀ l ∈ labels, l ∉ required → l ∈ cols.map (·.1)) :
    dropExtra required labels cols = .ok (cols.filter fun c => !decide (c.1 ∈ labels ∧ c.1 ∉ required)) := by
  induction labels generalizing cols with
  | nil => simp [dropExtra]
  | cons l ls ih =>
    unfold dropExtra
    by_cases h : l ∈ required
    · rw [if_pos h, ih]
      · congr 1
        apply List.filter_congr
        intro c _
        have : (c.1 ∈ l :: ls ∧ c.1 ∉ required) ↔ (c.1 ∈ ls ∧ c.1 ∉ required) := by
          constructor
          · rintro ⟨h1, h2⟩
            rcases List.mem_cons.1 h1 with h3 | h3
            · rw [h3] at h2; exact absurd h h2
            · exact ⟨h3, h2⟩
          · rintro ⟨h1, h2⟩; exact ⟨List.mem_cons_of_mem _ h1, h2⟩
        simp only [this]
      · simpa [h] using hn
      · intro l' hl'; exact hm l' (List.mem_cons_of_mem _ hl')
    · have hmem := hm l List.mem_cons_self h
      rw [if_neg h, if_pos (by simpa using hmem)]
      have hn' : l ∉ (ls.filter fun l => !decide (l ∈ required)) ∧ (ls.filter fun l => !decide (l ∈ required)).Nodup := by
        simpa [h] using hn
      have hl : l ∉ ls := fun hls => hn'.1 (List.mem_filter.2 ⟨hls, by simpa using h⟩)
      rw [ih]
      · congr 1
        rw [List.filter_filter]
        apply List.filter_congr
        intro c _
        by_cases hc : c.1 = l
        · simp [hc, h]
        · simp [hc]
      · exact hn'.2
      · intro l' hl' hr'
        have h1 := hm l' (List.mem_cons_of_mem _ hl') hr'
        rw [List.mem_map] at h1 ⊢
        obtain ⟨c, hc, rfl⟩ := h1
        refine ⟨c, List.mem_filter.2 ⟨hc, ?_⟩, rfl⟩
        have : c.1 ≠ l := fun e => hl (e ▸ hl')
        simpa using this

theorem dropExtra_error (required labels : List String) (cols : List (String × RawCol))
    (hn : ¬ ((labels.filter fun l => !decide (l ∈ required)).Nodup ∧
      ∀ l ∈ labels, l ∉ required → l ∈ cols.map (·.1))) :
    dropExtra required labels cols = .error .keyError := by
  induction labels generalizing cols with
  | nil => simp at hn
  | cons l ls ih =>
    unfold dropExtra
    by_cases h : l ∈ required
    · rw [if_pos h]
      apply ih
      intro hh
      apply hn
      refine ⟨by simpa [h] using hh.1, ?_⟩
      intro l' hl' hr'
      rcases List.mem_cons.1 hl' with h3 | h3
      · rw [h3] at hr'; exact absurd h hr'
      · exact hh.2 l' h3 hr'
    · rw [if_neg h]
      by_cases hmem : l ∈ cols.map (·.1)
      · rw [if_pos (by simpa using hmem)]
        apply ih
        rintro ⟨h1, h2⟩
        apply hn
        refine ⟨?_, ?_⟩
        · have : l ∉ (ls.filter fun l => !decide (l ∈ required)) := by
            intro hl
            have := h2 l (List.mem_filter.1 hl).1 h
            rw [List.mem_map] at this
            obtain ⟨c, hc, hcl⟩ := this
            have := (List.mem_filter.1 hc).2
            simp [hcl] at this
          simp only [List.filter_cons, h, decide_false, Bool.not_false, if_true]
          exact List.nodup_cons.2 ⟨this, h1⟩
        · intro l' hl' hr'
          rcases List.mem_cons.1 hl' with h3 | h3
          · rw [h3]; exact hmem
          · have := h2 l' h3 hr'
            rw [List.mem_map] at this ⊢
            obtain ⟨c, hc, hcl⟩ := this
            exact ⟨c, (List.mem_filter.1 hc).1, hcl⟩
      · rw [if_neg (by simpa using hmem)]

/-! ## Sorting -/

instance {α : Type} : Std.Total (fun a b : ℤ × α => a.1 ≤ b.1) := ⟨fun a b => le_total a.1 b.1⟩
instance {α : Type} : IsTrans (ℤ × α) (fun a b => a.1 ≤ b.1) := ⟨fun _ _ _ => le_trans⟩

theorem sortRows_perm {α : Type} (rows : List (ℤ × α)) : (sortRows rows).Perm rows := List.perm_insertionSort _ _

theorem sortRows_sorted {α : Type} (rows : List (ℤ × α)) : (sortRows rows).Pairwise (fun a b => a.1 ≤ b.1) :=
  List.pairwise_insertionSort _ _

theorem sortIdx_sorted (idx : List ℤ) : (sortIdx idx).Pairwise (· ≤ ·) := List.pairwise_insertionSort _ _

theorem sortIdx_perm (idx : List ℤ) : (sortIdx idx).Perm idx := List.perm_insertionSort _ _

theorem sortRows_map {α β : Type} (g : α → β) (rows : List (ℤ × α)) :
    sortRows (rows.map fun r => (r.1, g r.2)) = (sortRows rows).map fun r => (r.1, g r.2) := by
  unfold sortRows
  rw [List.map_insertionSort (r := fun a b : ℤ × α => a.1 ≤ b.1) (s := fun a b : ℤ × β => a.1 ≤ b.1)]
  intro a _ b _; rfl

theorem sortRows_map_fst {α : Type} (rows : List (ℤ × α)) :
    (sortRows rows).map (·.1) = sortIdx (rows.map (·.1)) := by
  unfold sortRows sortIdx
  rw [List.map_insertionSort (r := fun a b : ℤ × α => a.1 ≤ b.1) (s := (· ≤ ·))]
  intro a _ b _; rfl

theorem sortRows_of_sorted {α : Type} (rows : List (ℤ × α)) (h : rows.Pairwise fun a b => a.1 ≤ b.1) :
    sortRows rows = rows := h.insertionSort_eq

theorem sortIdx_of_sorted (idx : List ℤ) (h : idx.Pairwise (· ≤ ·)) : sortIdx idx = idx := h.insertionSort_eq

theorem sortRows_eq_of_perm {α : Type} (a b : List (ℤ × α)) (h : a.Perm b) (hn : (a.map (·.1)).Nodup) :
    sortRows a = sortRows b := by
  have hp : (sortRows a).Perm (sortRows b) := ((sortRows_perm a).trans h).trans (sortRows_perm b).symm
  apply List.Perm.eq_of_pairwise _ (sortRows_sorted a) (sortRows_sorted b) hp
  intro x y hx hy h1 h2
  have hx' : x ∈ a := (sortRows_perm a).subset hx
  have hy' : y ∈ a := h.symm.subset ((sortRows_perm b).subset hy)
  exact List.inj_on_of_nodup_map hn hx' hy' (le_antisymm h1 h2)

theorem sortIdx_eq_of_perm (a b : List ℤ) (h : a.Perm b) : sortIdx a = sortIdx b := by
  have hp := ((sortIdx_perm a).trans h).trans (sortIdx_perm b).symm
  exact List.Perm.eq_of_pairwise (fun x y _ _ h1 h2 => le_antisymm h1 h2) (sortIdx_sorted a) (sortIdx_sorted b) hp

/-! ## Validation -/

/-- The frames that validation accepts. -/
structure RawFrame.Valid (f : RawFrame) (required : List String) : Prop where
  datetime : f.datetimeIndex = true
  rows : f.idx ≠ []
  columns : f.cols ≠ []
  labels : ∀ c ∈ f.cols, c.label ≠ .other
  needed : ∀ r ∈ required, ∃ c, (f.cols.filter fun c => c.name == r) = [c] ∧ c.numeric = true
  extra : ((f.cols.map RawCol.name).filter fun l => !decide (l ∈ required)).Nodup

/-- The columns that are kept. -/
def RawFrame.kept (f : RawFrame) (required : List String) : Frame :=
  Frame.sortIndex ⟨f.idx, (f.cols.filter fun c => decide (c.name ∈ required)).map fun c => (c.name, c.data)⟩

theorem filter_named (cols : List RawCol) (r : String) :
    ((cols.map fun c => (c.name, c)).filter fun c => c.1 == r) =
      (cols.filter fun c => c.name == r).map fun c => (c.name, c) := by
  rw [List.filter_map]; rfl

theorem checkColumns_valid (cols : List RawCol) (required : List String) :
    checkColumns (cols.map fun c => (c.name, c)) required = none ↔
      ∀ r ∈ required, ∃ c, (cols.filter fun c => c.name == r) = [c] ∧ c.numeric = true := by
  rw [checkColumns_eq_none_iff]
  apply forall₂_congr
  intro r _
  rw [filter_named]
  constructor
  · rintro ⟨c, hc, hn⟩
    rw [List.map_eq_singleton_iff] at hc
    obtain ⟨d, hd, rfl⟩ := hc
    exact ⟨d, hd, hn⟩
  · rintro ⟨c, hc, hn⟩
    exact ⟨(c.name, c), by rw [hc]; rfl, hn⟩

theorem validate_ok (f : RawFrame) (required : List String) (fill : Bool) (h : f.Valid required) :
    (validateInputData (.frame f) required fill).2 =
      .ok (if fill then fillMissingValues (f.kept required) else f.kept required) := by
  unfold validateInputData
  have h0 : ¬ (f.datetimeIndex = false) := by simp [h.datetime]
  have h1 : ¬ (f.idx = [] ∨ f.cols = []) := by simp [h.rows, h.columns]
  simp only [if_neg h0, if_neg h1]
  rw [lowerLabels_eq, if_pos h.labels]
  simp only
  rw [(checkColumns_valid _ _).2 h.needed]
  simp only
  have hmap : (f.cols.map fun c => (c.name, c)).map (·.1) = f.cols.map RawCol.name := by
    rw [List.map_map]; rfl
  rw [hmap, dropExtra_ok _ _ _ h.extra]
  · simp only
    have hk : (((f.cols.map fun c => (c.name, c)).filter
        fun c => !decide (c.1 ∈ f.cols.map RawCol.name ∧ c.1 ∉ required)).map fun c => (c.1, c.2.data)) =
        (f.cols.filter fun c => decide (c.name ∈ required)).map fun c => (c.name, c.data) := by
      rw [List.filter_map, List.map_map]
      have : (f.cols.filter ((fun c : String × RawCol => !decide (c.1 ∈ f.cols.map RawCol.name ∧ c.1 ∉ required)) ∘
          fun c => (c.name, c))) = f.cols.filter fun c => decide (c.name ∈ required) := by
        apply List.filter_congr
        intro c hc
        have : c.name ∈ f.cols.map RawCol.name := List.mem_map_of_mem hc
        simp only [Function.comp, this, true_and]
        simp
      rw [this]; rfl
    rw [hk]; rfl
  · intro l hl _; rw [hmap]; exact hl

theorem validate_not_ok (f : RawFrame) (required : List String) (fill : Bool) (h : ¬ f.Valid required) :
    ∃ e, (validateInputData (.frame f) required fill).2 = .error e := by
  unfold validateInputData
  simp only
  split
  · exact ⟨_, rfl⟩
  · next h0 =>
    split
    · exact ⟨_, rfl⟩
    · next h1 =>
      rw [lowerLabels_eq]
      by_cases hl : ∀ c ∈ f.cols, c.label ≠ .other
      · rw [if_pos hl]
        simp only
        cases hc : checkColumns (f.cols.map fun c => (c.name, c)) required with
        | some e => exact ⟨_, rfl⟩
        | none =>
          simp only
          rw [dropExtra_error]
          · exact ⟨_, rfl⟩
          · rintro ⟨h2, -⟩
            apply h
            have hmap : (f.cols.map fun c => (c.name, c)).map (·.1) = f.cols.map RawCol.name := by
              rw [List.map_map]; rfl
            rw [hmap] at h2
            simp only [not_or] at h1
            exact ⟨by simpa using h0, h1.1, h1.2, hl, (checkColumns_valid _ _).1 hc, h2⟩
      · rw [if_neg hl]; exact ⟨_, rfl⟩

theorem valid_of_ok (f : RawFrame) (required : List String) (fill : Bool) (F : Frame)
    (h : (validateInputData (.frame f) required fill).2 = .ok F) :
    f.Valid required ∧ F = if fill then fillMissingValues (f.kept required) else f.kept required := by
  by_cases hv : f.Valid required
  · rw [validate_ok f required fill hv] at h
    exact ⟨hv, (Except.ok.inj h).symm⟩
  · obtain ⟨e, he⟩ := validate_not_ok f required fill hv
    rw [he] at h; exact absurd h (by simp)

theorem sortIndex_of_sorted (F : Frame) (hs : F.idx.Pairwise (· ≤ ·)) (hl : ∀ c ∈ F.cols, c.2.length = F.idx.length) :
    F.sortIndex = F := by
  unfold Frame.sortIndex
  rw [sortIdx_of_sorted _ hs]
  congr 1
  conv_rhs => rw [← List.map_id F.cols]
  apply List.map_congr_left
  intro c hc
  rw [sortRows_of_sorted, List.map_snd_zip]
  · rfl
  · rw [hl c hc]
  · have : ((F.idx.zip c.2).map (·.1)).Pairwise (· ≤ ·) := by
      rw [List.map_fst_zip (by rw [hl c hc])]; exact hs
    rw [List.pairwise_map] at this
    exact this

theorem sortIndex_sorted (F : Frame) : F.sortIndex.idx.Pairwise (· ≤ ·) := sortIdx_sorted _

theorem sortIndex_lengths (F : Frame) (hl : ∀ c ∈ F.cols, c.2.length = F.idx.length) :
    ∀ c ∈ F.sortIndex.cols, c.2.length = F.sortIndex.idx.length := by
  intro c hc
  simp only [Frame.sortIndex, List.mem_map] at hc
  obtain ⟨d, hd, rfl⟩ := hc
  simp only [Frame.sortIndex, List.length_map, (sortIdx_perm _).length_eq, (sortRows_perm _).length_eq, List.length_zip, hl d hd]
  simp

end TTI
