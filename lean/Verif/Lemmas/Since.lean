import Verif.Lemmas.Cut
import Verif.Lemmas.Memory

set_option autoImplicit false

/-!
# The caller's frame from a date on
-/

namespace TTI

/-- The values of the rows dated `d` or later. -/
def keepSince (d : ℤ) (idx : List ℤ) (xs : List Val) : List Val :=
  ((idx.zip xs).filter fun r => decide (d ≤ r.1)).map (·.2)

/-- `df[df.index >= d]` of a frame the user passes: the rows dated `d` or later, in the order given. -/
def RawFrame.since (d : ℤ) (f : RawFrame) : RawFrame :=
  { f with idx := f.idx.filter fun e => decide (d ≤ e), cols := f.cols.map fun c => { c with data := keepSince d f.idx c.data } }

/-- The number of rows dated before `d`. -/
def rowsBefore (d : ℤ) (idx : List ℤ) : ℕ := (idx.filter fun e => decide (e < d)).length

theorem orderedInsert_of_le {α : Type} (a : ℤ × α) (l : List (ℤ × α)) (h : ∀ b ∈ l, a.1 ≤ b.1) :
    l.orderedInsert (fun a b => a.1 ≤ b.1) a = a :: l := by
  cases l with
  | nil => rfl
  | cons b l => rw [List.orderedInsert_cons, if_pos (h b (by simp))]

theorem orderedInsert_filter_of {α : Type} (p : ℤ × α → Bool) (a : ℤ × α) (l : List (ℤ × α))
    (h : l.Pairwise fun a b => a.1 ≤ b.1) :
    (l.orderedInsert (fun a b => a.1 ≤ b.1) a).filter p =
      if p a = true then (l.filter p).orderedInsert (fun a b => a.1 ≤ b.1) a else l.filter p := by
  induction l with
  | nil => by_cases ha : p a = true <;> simp [ha]
  | cons b l ih =>
    by_cases hab : a.1 ≤ b.1
    · have hall : ∀ x ∈ (b :: l).filter p, a.1 ≤ x.1 := by
        intro x hx
        rw [List.pairwise_cons] at h
        rcases List.mem_cons.1 (List.mem_filter.1 hx).1 with rfl | hx
        · exact hab
        · exact le_trans hab (h.1 x hx)
      rw [List.orderedInsert_cons, if_pos hab, orderedInsert_of_le _ _ hall]
      by_cases ha : p a = true
      · rw [if_pos ha, List.filter_cons_of_pos ha]
      · rw [if_neg ha, List.filter_cons_of_neg ha]
    · rw [List.pairwise_cons] at h
      rw [List.orderedInsert_cons, if_neg hab]
      by_cases hb : p b = true
      · rw [List.filter_cons_of_pos hb, ih h.2, List.filter_cons_of_pos hb]
        by_cases ha : p a = true
        · rw [if_pos ha, if_pos ha, List.orderedInsert_cons, if_neg hab]
        · rw [if_neg ha, if_neg ha]
      · rw [List.filter_cons_of_neg hb, ih h.2, List.filter_cons_of_neg hb]

theorem sortRows_filter_of {α : Type} (p : ℤ × α → Bool) (rows : List (ℤ × α)) :
    (sortRows rows).filter p = sortRows (rows.filter p) := by
  induction rows with
  | nil => rfl
  | cons a rows ih =>
    have hcons : sortRows (a :: rows) = (sortRows rows).orderedInsert (fun a b => a.1 ≤ b.1) a := rfl
    rw [hcons, orderedInsert_filter_of p a _ (sortRows_sorted rows), ih]
    by_cases ha : p a = true
    · rw [if_pos ha, List.filter_cons_of_pos ha]; rfl
    · rw [if_neg ha, List.filter_cons_of_neg ha]

theorem zip_keepSince (d : ℤ) (idx : List ℤ) (xs : List Val) (h : xs.length = idx.length) :
    (idx.filter fun e => decide (d ≤ e)).zip (keepSince d idx xs) = (idx.zip xs).filter fun r => decide (d ≤ r.1) := by
  unfold keepSince
  induction idx generalizing xs with
  | nil => rfl
  | cons e idx ih =>
    cases xs with
    | nil => simp at h
    | cons x xs =>
      have := ih xs (by simpa using h)
      by_cases he : d ≤ e
      · simp [List.filter_cons, he, this]
      · simp [List.filter_cons, he, this]

theorem filter_since_drop {α : Type} (d : ℤ) (rows : List (ℤ × α)) (h : rows.Pairwise fun a b => a.1 ≤ b.1) :
    (rows.filter fun r => decide (d ≤ r.1)) = rows.drop (rowsBefore d (rows.map (·.1))) := by
  unfold rowsBefore
  induction rows with
  | nil => rfl
  | cons r rest ih =>
    rw [List.pairwise_cons] at h
    by_cases hr : d ≤ r.1
    · have hall : ∀ x ∈ rest, d ≤ x.1 := fun x hx => le_trans hr (h.1 x hx)
      have h2 : ((r :: rest).map (·.1)).filter (fun e => decide (e < d)) = [] := by
        rw [List.filter_eq_nil_iff]
        intro x hx
        obtain ⟨y, hy, rfl⟩ := List.mem_map.1 hx
        rcases List.mem_cons.1 hy with rfl | hy
        · simpa using hr
        · simpa using hall y hy
      rw [h2, List.filter_eq_self.2]
      · rfl
      · intro x hx
        rcases List.mem_cons.1 hx with rfl | hx
        · simpa using hr
        · simpa using hall x hx
    · rw [List.filter_cons_of_neg (by simpa using hr), ih h.2, List.map_cons,
        List.filter_cons_of_pos (by simpa using hr)]
      rfl

theorem rowsBefore_sortIdx (d : ℤ) (idx : List ℤ) : rowsBefore d (sortIdx idx) = rowsBefore d idx :=
  ((sortIdx_perm idx).filter _).length_eq

theorem rowsBefore_le (d : ℤ) (idx : List ℤ) : rowsBefore d idx ≤ idx.length := List.length_filter_le _ _

theorem since_length (d : ℤ) (f : RawFrame) : (f.since d).idx.length = f.idx.length - rowsBefore d f.idx := by
  simp only [RawFrame.since, rowsBefore]
  have h := List.length_eq_length_filter_add (l := f.idx) (fun e => decide (e < d))
  have h2 : (f.idx.filter fun e => !decide (e < d)) = f.idx.filter fun e => decide (d ≤ e) := by
    apply List.filter_congr
    intro x _
    rw [← decide_not]
    simp
  rw [h2] at h
  omega

theorem sortIdx_since (d : ℤ) (idx : List ℤ) :
    sortIdx (idx.filter fun e => decide (d ≤ e)) = (sortIdx idx).drop (rowsBefore d idx) := by
  have hs : sortIdx idx = (sortRows (idx.map fun e => (e, ()))).map (·.1) := by
    rw [sortRows_map_fst, List.map_map]
    exact (congrArg sortIdx (List.map_id idx)).symm
  have h := sortRows_filter_of (fun r => decide (d ≤ r.1)) (idx.map fun e => (e, ()))
  rw [filter_since_drop d _ (sortRows_sorted _), ← hs, rowsBefore_sortIdx] at h
  have h2 := congrArg (List.map (·.1)) h
  rw [List.map_drop, ← hs, sortRows_map_fst, List.filter_map, List.map_map] at h2
  rw [h2]
  exact congrArg sortIdx (List.map_id _).symm

theorem since_sortIndex (d : ℤ) (idx : List ℤ) (cols : List (String × List Val))
    (hw : ∀ c ∈ cols, c.2.length = idx.length) :
    Frame.sortIndex ⟨idx.filter fun e => decide (d ≤ e), cols.map fun c => (c.1, keepSince d idx c.2)⟩ =
      (Frame.sortIndex ⟨idx, cols⟩).drop (rowsBefore d idx) := by
  unfold Frame.sortIndex Frame.drop
  simp only [List.map_map]
  rw [sortIdx_since]
  congr 1
  apply List.map_congr_left
  intro c hc
  have hl := hw c hc
  simp only [Function.comp, Prod.mk.injEq, true_and]
  rw [zip_keepSince d idx c.2 hl, ← sortRows_filter_of, filter_since_drop d _ (sortRows_sorted _), sortRows_map_fst,
    List.map_fst_zip (by omega), rowsBefore_sortIdx, List.map_drop]

theorem kept_since (d : ℤ) (f : RawFrame) (required : List String) (hw : ∀ c ∈ f.cols, c.data.length = f.idx.length) :
    (f.since d).kept required = (f.kept required).drop (rowsBefore d f.idx) := by
  unfold RawFrame.kept RawFrame.since
  rw [← since_sortIndex d f.idx]
  · simp only [List.filter_map, List.map_map]
    rfl
  · intro c hc
    rw [List.mem_map] at hc
    obtain ⟨e, he, rfl⟩ := hc
    exact hw e (List.mem_filter.1 he).1

theorem valid_since (d : ℤ) (f : RawFrame) (required : List String) (hd : ∃ e ∈ f.idx, d ≤ e) (h : f.Valid required) :
    (f.since d).Valid required := by
  refine ⟨h.datetime, ?_, ?_, ?_, ?_, ?_⟩
  · obtain ⟨e, he, hle⟩ := hd
    intro h0
    have : e ∈ f.idx.filter fun e => decide (d ≤ e) := List.mem_filter.2 ⟨he, by simpa using hle⟩
    have h0' : f.idx.filter (fun e => decide (d ≤ e)) = [] := h0
    rw [h0'] at this
    simp at this
  · intro h0
    exact h.columns (List.map_eq_nil_iff.1 h0)
  · intro c hc
    obtain ⟨e, he, rfl⟩ := List.mem_map.1 hc
    exact h.labels e he
  · intro r hr
    obtain ⟨c, hc, hn⟩ := h.needed r hr
    refine ⟨{ c with data := keepSince d f.idx c.data }, ?_, hn⟩
    simp only [RawFrame.since, List.filter_map]
    have : ((fun c : RawCol => c.name == r) ∘ fun c : RawCol => { c with data := keepSince d f.idx c.data }) =
        fun c => c.name == r := rfl
    rw [this, hc]
    rfl
  · have : (f.since d).cols.map RawCol.name = f.cols.map RawCol.name := by
      simp only [RawFrame.since, List.map_map]; rfl
    rw [this]; exact h.extra

theorem since_wf (d : ℤ) (f : RawFrame) (hw : ∀ c ∈ f.cols, c.data.length = f.idx.length) :
    ∀ c ∈ (f.since d).cols, c.data.length = (f.since d).idx.length := by
  intro c hc
  obtain ⟨e, he, rfl⟩ := List.mem_map.1 hc
  have h := zip_keepSince d f.idx e.data (hw e he)
  have h1 := congrArg List.length h
  simp only [RawFrame.since]
  have h2 : (keepSince d f.idx e.data).length = ((f.idx.zip e.data).filter fun r => decide (d ≤ r.1)).length := by
    unfold keepSince; simp
  rw [List.length_zip, ← h2] at h1
  have h3 : (f.idx.filter fun e => decide (d ≤ e)).length = ((f.idx.zip e.data).filter fun r => decide (d ≤ r.1)).length := by
    have hm : ((f.idx.zip e.data).filter fun r => decide (d ≤ r.1)).map (·.1) = f.idx.filter fun e => decide (d ≤ e) := by
      have : f.idx = (f.idx.zip e.data).map (·.1) := by rw [List.map_fst_zip (by have := hw e he; omega)]
      conv_rhs => rw [this, List.filter_map]
      rfl
    rw [← hm, List.length_map]
  omega

end TTI
