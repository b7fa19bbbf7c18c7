import Verif.Lemmas.Roll
import Verif.Lemmas.Built
import Verif.Props.Validate
import Verif.Spec.Prices

set_option autoImplicit false

/-!
# From conditions on the user's frame to conditions on the validated data
-/

namespace TTI

/-- In every row of the frame the named columns hold numbers that satisfy `P`. -/
def Frame.EachRow (F : Frame) (names : List String) (P : (String → ℚ) → Prop) : Prop :=
  ∀ i < F.len, ∃ x : String → ℚ, (∀ n ∈ names, val (F.col n) i = .fin (x n)) ∧ P x

theorem find_name (cols : List RawCol) (n : String) (hl : ∀ c ∈ cols, c.label ≠ .other) :
    (cols.find? fun c => c.label.lower == some n) = cols.find? fun c => c.name == n := by
  induction cols with
  | nil => rfl
  | cons c l ih =>
    have hc : (c.label.lower == some n) = (c.name == n) := by
      have := hl c (by simp)
      unfold RawCol.name
      cases h : c.label with
      | other => exact absurd h this
      | str s => simp [Label.lower]
    simp only [List.find?_cons, hc]
    rw [ih fun c hc => hl c (by simp [hc])]

theorem kept_col (f : RawFrame) (required : List String) (n : String) (hn : n ∈ required) :
    (f.kept required).col n = match f.cols.find? fun c => c.name == n with
      | some c => (sortRows (f.idx.zip c.data)).map (·.2)
      | none => [] := by
  unfold RawFrame.kept Frame.sortIndex Frame.col
  simp only [List.map_map]
  rw [List.find?_map, List.find?_filter]
  have : (fun a : RawCol => decide (decide (a.name ∈ required) = true ∧
      ((fun c : String × List Val => c.1 == n) ∘
        ((fun c : String × List Val => (c.1, (sortRows (f.idx.zip c.2)).map (·.2))) ∘ fun c : RawCol => (c.name, c.data))) a = true))
      = fun c => c.name == n := by
    funext a
    simp only [Function.comp]
    by_cases h : a.name = n
    · simp [h, hn]
    · simp [h]
  rw [this]
  cases f.cols.find? fun c => c.name == n <;> rfl

/-- Every row of the kept columns is a row of the user's frame. -/
theorem kept_cell (f : RawFrame) (required : List String) (hw : ∀ c ∈ f.cols, c.data.length = f.idx.length)
    (hl : ∀ c ∈ f.cols, c.label ≠ .other) :
    ∃ σ : List ℕ, σ.Perm (List.range f.idx.length) ∧
      ∀ n ∈ required, ∀ i (h : i < σ.length), val ((f.kept required).col n) i = f.cell n σ[i] := by
  let base := f.idx.zip (List.range f.idx.length)
  have hfst : base.map (·.1) = f.idx := List.map_fst_zip (by simp)
  have hsnd : base.map (·.2) = List.range f.idx.length := List.map_snd_zip (by simp)
  refine ⟨(sortRows base).map (·.2), ?_, ?_⟩
  · have := (sortRows_perm base).map (·.2)
    rwa [hsnd] at this
  · intro n hn i hi
    rw [kept_col f required n hn]
    unfold RawFrame.cell
    rw [find_name _ _ hl]
    cases hf : f.cols.find? fun c => c.name == n with
    | none => rfl
    | some c =>
      simp only
      have hc := List.mem_of_find?_eq_some hf
      rw [Props.zip_getD _ _ (hw c hc), sortRows_map (fun k => c.data.getD k .nan), List.map_map]
      have hi' : i < (sortRows base).length := by simpa using hi
      rw [val_lt _ _ (by simpa using hi')]
      simp [base]

theorem eachRow_validated (f : RawFrame) (required names : List String) (P : (String → ℚ) → Prop) (fill : Bool) (F : Frame)
    (hw : ∀ c ∈ f.cols, c.data.length = f.idx.length) (h : (validateInputData (.frame f) required fill).2 = .ok F)
    (hn : ∀ n ∈ names, n ∈ required) (hP : f.EachRow names P) : F.EachRow names P := by
  obtain ⟨hv, hF⟩ := valid_of_ok _ _ _ _ h
  obtain ⟨σ, hσ, hcell⟩ := kept_cell f required hw hv.labels
  have hlenσ : σ.length = f.idx.length := by simpa using hσ.length_eq
  have hidx : (f.kept required).idx = sortIdx f.idx := rfl
  have hkl : (f.kept required).len = f.idx.length := by
    unfold Frame.len; rw [hidx, (sortIdx_perm _).length_eq]
  have hk : (f.kept required).EachRow names P := by
    intro i hi
    rw [hkl] at hi
    obtain ⟨x, hx, hPx⟩ := hP (σ[i]'(by omega)) (by
      have : σ[i]'(by omega) ∈ List.range f.idx.length := hσ.subset (List.getElem_mem _)
      simpa using this)
    exact ⟨x, fun n hnn => by rw [hcell n (hn n hnn) i (by omega), hx n hnn], hPx⟩
  cases fill
  · rw [hF]; exact hk
  · have hwk : ∀ c ∈ (f.kept required).cols, c.2.length = (f.kept required).idx.length := by
      apply sortIndex_lengths
      intro c hc
      rw [List.mem_map] at hc
      obtain ⟨d, hd, rfl⟩ := hc
      exact hw d (List.mem_filter.1 hd).1
    have hself : (f.kept required).sortIndex = f.kept required :=
      sortIndex_of_sorted _ (sortIdx_sorted _) hwk
    have hFcol : ∀ n, F.col n = bfill (ffill ((f.kept required).col n)) := by
      intro n
      rw [hF]
      simp only [if_true, fillMissingValues, hself]
      unfold Frame.col
      rw [List.find?_map]
      have : ((fun c : String × List Val => c.1 == n) ∘ fun c : String × List Val => (c.1, bfill (ffill c.2))) =
        fun c => c.1 == n := rfl
      rw [this]
      cases List.find? (fun c => c.1 == n) (f.kept required).cols <;> rfl
    have hFlen : F.len = (f.kept required).len := by
      rw [hF]
      simp only [if_true, fillMissingValues, hself, Frame.len]
    intro i hi
    rw [hFlen] at hi
    obtain ⟨x, hx, hPx⟩ := hk i hi
    refine ⟨x, fun n hnn => ?_, hPx⟩
    have hmem : n ∈ (f.kept required).cols.map (·.1) := by
      obtain ⟨c, hc, -⟩ := hv.needed n (hn n hnn)
      have hmem : c ∈ f.cols.filter fun c => c.name == n := by rw [hc]; simp
      rw [List.mem_filter] at hmem
      have hcn : c.name = n := by simpa using hmem.2
      simp only [RawFrame.kept, Frame.sortIndex, List.map_map, List.mem_map, List.mem_filter]
      exact ⟨c, ⟨hmem.1, by simpa [hcn] using hn n hnn⟩, hcn⟩
    have hcl := (f.kept required).col_length hwk n hmem
    rw [hFcol, ffill_eq_self, bfill_eq_self, hx n hnn]
    all_goals
      intro y hy
      obtain ⟨j, hj, rfl⟩ := mem_val hy
      rw [hcl] at hj
      obtain ⟨x', hx', -⟩ := hk j hj
      rw [hx' n hnn]; simp

theorem kept_day (f : RawFrame) (required : List String) (n : String) (hn : n ∈ required) (hl : ∀ c ∈ f.cols, c.label ≠ .other)
    (i : ℕ) : val ((f.kept required).col n) i = f.day n i := by
  unfold RawFrame.day RawFrame.inDateOrder val
  rw [kept_col f required n hn, find_name _ _ hl]
  cases f.cols.find? fun c => c.name == n <;> rfl

/-- On known values the validated columns are the user's columns in the order of the dates. -/
theorem validated_day (f : RawFrame) (required : List String) (P : (String → ℚ) → Prop) (fill : Bool) (F : Frame)
    (hw : ∀ c ∈ f.cols, c.data.length = f.idx.length) (h : (validateInputData (.frame f) required fill).2 = .ok F)
    (hP : f.EachRow required P) (n : String) (hn : n ∈ required) (i : ℕ) : val (F.col n) i = f.day n i := by
  obtain ⟨hv, hF⟩ := valid_of_ok _ _ _ _ h
  cases fill
  · rw [hF]; exact kept_day f required n hn hv.labels i
  · have h0 : (validateInputData (.frame f) required false).2 = .ok (f.kept required) := by
      rw [validate_ok _ _ _ hv]; rfl
    have hk := eachRow_validated f required required P false _ hw h0 (fun n hn => hn) hP
    have hwk : ∀ c ∈ (f.kept required).cols, c.2.length = (f.kept required).idx.length := by
      apply sortIndex_lengths
      intro c hc
      rw [List.mem_map] at hc
      obtain ⟨d, hd, rfl⟩ := hc
      exact hw d (List.mem_filter.1 hd).1
    have hself : (f.kept required).sortIndex = f.kept required :=
      sortIndex_of_sorted _ (sortIdx_sorted _) hwk
    have hFcol : F.col n = bfill (ffill ((f.kept required).col n)) := by
      rw [hF]
      simp only [if_true, fillMissingValues, hself]
      unfold Frame.col
      rw [List.find?_map]
      have : ((fun c : String × List Val => c.1 == n) ∘ fun c : String × List Val => (c.1, bfill (ffill c.2))) =
        fun c => c.1 == n := rfl
      rw [this]
      cases List.find? (fun c => c.1 == n) (f.kept required).cols <;> rfl
    have hmem : n ∈ (f.kept required).cols.map (·.1) := by
      obtain ⟨c, hc, -⟩ := hv.needed n hn
      have hmem : c ∈ f.cols.filter fun c => c.name == n := by rw [hc]; simp
      rw [List.mem_filter] at hmem
      have hcn : c.name = n := by simpa using hmem.2
      simp only [RawFrame.kept, Frame.sortIndex, List.map_map, List.mem_map, List.mem_filter]
      exact ⟨c, ⟨hmem.1, by simpa [hcn] using hn⟩, hcn⟩
    have hcl := (f.kept required).col_length hwk n hmem
    rw [hFcol, ffill_eq_self, bfill_eq_self]
    · exact kept_day f required n hn hv.labels i
    all_goals
      intro y hy
      obtain ⟨j, hj, rfl⟩ := mem_val hy
      rw [hcl] at hj
      obtain ⟨x', hx', -⟩ := hk j hj
      rw [hx' n hn]; simp

/-- A constructed object in terms of the user's numbers. -/
theorem construct_days (E : Env) (c : Call) (f : RawFrame) (fill : Bool) (o : Obj) (P : (String → ℚ) → Prop)
    (hw : ∀ c ∈ f.cols, c.data.length = f.idx.length) (h : (construct E c (.frame f) (.bool fill)).2 = .ok o)
    (hP : f.EachRow o.ind.required P) :
    ∃ (F : Frame) (x : String → ℕ → ℚ), F.Good o.ind.required ∧ F.len = f.idx.length ∧ F.idx = sortIdx f.idx ∧
      (∀ n ∈ o.ind.required, (F.col n).length = F.len) ∧
      (∀ n ∈ o.ind.required, ∀ i < F.len, val (F.col n) i = .fin (x n i)) ∧
      (∀ n ∈ o.ind.required, ∀ i < F.len, f.day n i = .fin (x n i)) ∧ (∀ i < F.len, P fun n => x n i) ∧
      o.ind.calcTi E F = .ok o.ti ∧ o.input = o.ind.inputAfter F ∧ c.check = .ok o.ind := by
  obtain ⟨ind, F, T, hc, hv, ht, rfl⟩ := (construct_ok_iff _ _ _ _ _).1 h
  have hr := eachRow_validated f _ _ P fill F hw hv (fun n hn => hn) hP
  choose! x hx using hr
  have hg := validated_good f _ _ _ hw hv
  refine ⟨F, fun n i => x i n, hg.1, ?_, hg.2, fun n hn => F.col_length hg.1.wf n (hg.1.has n hn),
    fun n hn i hi => (hx i hi).1 n hn, ?_, fun i hi => (hx i hi).2, ht, rfl, hc⟩
  · unfold Frame.len; rw [hg.2, (sortIdx_perm _).length_eq]
  · intro n hn i hi
    rw [← validated_day f _ P fill F hw hv hP n hn i]
    exact (hx i hi).1 n hn

/-- What the numerical theorems need of a constructed object. -/
theorem construct_rows (E : Env) (c : Call) (f : RawFrame) (fill : Bool) (o : Obj) (P : (String → ℚ) → Prop)
    (hw : ∀ c ∈ f.cols, c.data.length = f.idx.length) (h : (construct E c (.frame f) (.bool fill)).2 = .ok o)
    (hP : f.EachRow o.ind.required P) :
    ∃ F, F.Good o.ind.required ∧ F.EachRow o.ind.required P ∧ o.ind.calcTi E F = .ok o.ti ∧ o.input = o.ind.inputAfter F ∧
      c.check = .ok o.ind := by
  obtain ⟨ind, F, T, hc, hv, ht, rfl⟩ := (construct_ok_iff _ _ _ _ _).1 h
  exact ⟨F, (validated_good f _ _ _ hw hv).1, eachRow_validated f _ _ P fill F hw hv (fun n hn => hn) hP, ht, rfl, hc⟩

/-- The numbers of the rows as functions of the row. -/
theorem Frame.EachRow.fns {F : Frame} {names : List String} {P : (String → ℚ) → Prop} (h : F.EachRow names P) :
    ∃ x : String → ℕ → ℚ, (∀ n ∈ names, ∀ i < F.len, val (F.col n) i = .fin (x n i)) ∧ ∀ i < F.len, P fun n => x n i := by
  choose! x hx using h
  exact ⟨fun n i => x i n, fun n hn i hi => (hx i hi).1 n hn, fun i hi => (hx i hi).2⟩

theorem inRange_of_sat {lo hi : ℚ} {v : Val} (h : Val.Sat (fun q => lo ≤ q ∧ q ≤ hi) v) : Spec.InRange lo hi v := h.cases

theorem nonNegative_of_sat {v : Val} (h : Val.Sat (fun q => 0 ≤ q) v) : Spec.NonNegative v := h.cases

theorem inOrder_of_sat2 {v w : Val} (h : Val.Sat2 (· ≤ ·) v w) : Spec.InOrder v w := by
  unfold Spec.InOrder
  rcases h.cases with ⟨rfl, rfl | ⟨b, rfl⟩⟩ | ⟨rfl, a, rfl⟩ | ⟨a, b, rfl, rfl, hab⟩ <;> simp_all

end TTI
