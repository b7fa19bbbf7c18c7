import Verif.Lemmas.Causal
import Verif.Props.Validate2

set_option autoImplicit false

/-!
# The caller's frame cut at a date
-/

namespace TTI

/-- `df[df.index <= d]` of a frame the user passes: the rows dated no later than `d`, in the order given. -/
def RawFrame.upTo (d : ℤ) (f : RawFrame) : RawFrame :=
  { f with idx := f.idx.filter fun e => decide (e ≤ d), cols := f.cols.map fun c => { c with data := keepUpTo d f.idx c.data } }

theorem orderedInsert_filter {α : Type} (d : ℤ) (a : ℤ × α) (l : List (ℤ × α)) (h : l.Pairwise fun a b => a.1 ≤ b.1) :
    (l.orderedInsert (fun a b => a.1 ≤ b.1) a).filter (fun r => decide (r.1 ≤ d)) =
      if a.1 ≤ d then (l.filter fun r => decide (r.1 ≤ d)).orderedInsert (fun a b => a.1 ≤ b.1) a
      else l.filter fun r => decide (r.1 ≤ d) := by
  induction l with
  | nil => by_cases ha : a.1 ≤ d <;> simp [ha]
  | cons b l ih =>
    rw [List.pairwise_cons] at h
    by_cases hab : a.1 ≤ b.1
    · rw [List.orderedInsert_cons, if_pos hab]
      by_cases ha : a.1 ≤ d
      · rw [if_pos ha, List.filter_cons_of_pos (by simpa using ha)]
        by_cases hb : b.1 ≤ d
        · rw [List.filter_cons_of_pos (by simpa using hb), List.orderedInsert_cons, if_pos hab]
        · have hnil : l.filter (fun r => decide (r.1 ≤ d)) = [] := by
            rw [List.filter_eq_nil_iff]
            intro x hx
            have := h.1 x hx
            simp only [decide_eq_true_eq, not_le]
            omega
          rw [List.filter_cons_of_neg (by simpa using hb), hnil]
          rfl
      · rw [if_neg ha, List.filter_cons_of_neg (by simpa using ha)]
    · rw [List.orderedInsert_cons, if_neg hab]
      by_cases hb : b.1 ≤ d
      · rw [List.filter_cons_of_pos (by simpa using hb), ih h.2]
        by_cases ha : a.1 ≤ d
        · rw [if_pos ha, if_pos ha, List.filter_cons_of_pos (by simpa using hb), List.orderedInsert_cons, if_neg hab]
        · rw [if_neg ha, if_neg ha, List.filter_cons_of_pos (by simpa using hb)]
      · rw [List.filter_cons_of_neg (by simpa using hb), ih h.2, List.filter_cons_of_neg (by simpa using hb)]

theorem sortRows_filter {α : Type} (d : ℤ) (rows : List (ℤ × α)) :
    (sortRows rows).filter (fun r => decide (r.1 ≤ d)) = sortRows (rows.filter fun r => decide (r.1 ≤ d)) := by
  induction rows with
  | nil => rfl
  | cons a rows ih =>
    have hcons : sortRows (a :: rows) = (sortRows rows).orderedInsert (fun a b => a.1 ≤ b.1) a := rfl
    rw [hcons, orderedInsert_filter d a _ (sortRows_sorted rows), ih]
    by_cases ha : a.1 ≤ d
    · rw [if_pos ha, List.filter_cons_of_pos (by simpa using ha)]; rfl
    · rw [if_neg ha, List.filter_cons_of_neg (by simpa using ha)]

theorem zip_keepUpTo (d : ℤ) (idx : List ℤ) (xs : List Val) (h : xs.length = idx.length) :
    (idx.filter fun e => decide (e ≤ d)).zip (keepUpTo d idx xs) = (idx.zip xs).filter fun r => decide (r.1 ≤ d) := by
  unfold keepUpTo
  induction idx generalizing xs with
  | nil => rfl
  | cons e idx ih =>
    cases xs with
    | nil => simp at h
    | cons x xs =>
      have := ih xs (by simpa using h)
      by_cases he : e ≤ d
      · simp [List.filter_cons, he, this]
      · simp [List.filter_cons, he, this]

theorem zip_fst_snd {α β : Type} (l : List (α × β)) : (l.map (·.1)).zip (l.map (·.2)) = l := by
  induction l with
  | nil => rfl
  | cons a l ih => simp [ih]

theorem upTo_sortIndex (d : ℤ) (idx : List ℤ) (cols : List (String × List Val))
    (hw : ∀ c ∈ cols, c.2.length = idx.length) :
    Frame.sortIndex ⟨idx.filter fun e => decide (e ≤ d), cols.map fun c => (c.1, keepUpTo d idx c.2)⟩ =
      (Frame.sortIndex ⟨idx, cols⟩).upTo d := by
  unfold Frame.sortIndex Frame.upTo
  simp only [List.map_map]
  have hidx : sortIdx (idx.filter fun e => decide (e ≤ d)) = (sortIdx idx).filter fun e => decide (e ≤ d) := by
    have h := sortRows_filter d (idx.map fun e => (e, ()))
    have h2 := congrArg (List.map (·.1)) h
    rw [sortRows_map_fst, List.filter_map, List.map_map] at h2
    have e1 : (((fun x : ℤ × Unit => x.1) ∘ fun e : ℤ => (e, ()))) = id := rfl
    rw [e1, List.map_id] at h2
    have e2 : ((fun r : ℤ × Unit => decide (r.1 ≤ d)) ∘ fun e : ℤ => (e, ())) = fun e => decide (e ≤ d) := rfl
    rw [e2] at h2
    rw [← h2]
    have h3 : (sortRows (idx.map fun e => (e, ()))).map (·.1) = sortIdx idx := by
      rw [sortRows_map_fst, List.map_map]
      exact congrArg sortIdx (List.map_id idx)
    rw [← h3, List.filter_map]
    rfl
  rw [hidx]
  congr 1
  apply List.map_congr_left
  intro c hc
  have hl := hw c hc
  simp only [Function.comp, Prod.mk.injEq, true_and]
  rw [zip_keepUpTo d idx c.2 hl, ← sortRows_filter]
  unfold keepUpTo
  have h1 : sortIdx idx = (sortRows (idx.zip c.2)).map (·.1) := by
    rw [sortRows_map_fst, List.map_fst_zip (by omega)]
  rw [h1]
  have h2 : ((sortRows (idx.zip c.2)).map (·.1)).zip ((sortRows (idx.zip c.2)).map (·.2)) = sortRows (idx.zip c.2) :=
    zip_fst_snd _
  rw [h2]

theorem upTo_name (d : ℤ) (idx : List ℤ) (c : RawCol) : ({ c with data := keepUpTo d idx c.data } : RawCol).name = c.name := rfl

theorem kept_upTo (d : ℤ) (f : RawFrame) (required : List String) (hw : ∀ c ∈ f.cols, c.data.length = f.idx.length) :
    (f.upTo d).kept required = (f.kept required).upTo d := by
  unfold RawFrame.kept RawFrame.upTo
  rw [← upTo_sortIndex d f.idx]
  · simp only [List.filter_map, List.map_map]
    rfl
  · intro c hc
    rw [List.mem_map] at hc
    obtain ⟨e, he, rfl⟩ := hc
    exact hw e (List.mem_filter.1 he).1

theorem valid_upTo (d : ℤ) (f : RawFrame) (required : List String) (hd : ∃ e ∈ f.idx, e ≤ d) (h : f.Valid required) :
    (f.upTo d).Valid required := by
  refine ⟨h.datetime, ?_, ?_, ?_, ?_, ?_⟩
  · obtain ⟨e, he, hle⟩ := hd
    intro h0
    have : e ∈ f.idx.filter fun e => decide (e ≤ d) := List.mem_filter.2 ⟨he, by simpa using hle⟩
    have h0' : f.idx.filter (fun e => decide (e ≤ d)) = [] := h0
    rw [h0'] at this
    simp at this
  · intro h0
    exact h.columns (List.map_eq_nil_iff.1 h0)
  · intro c hc
    obtain ⟨e, he, rfl⟩ := List.mem_map.1 hc
    exact h.labels e he
  · intro r hr
    obtain ⟨c, hc, hn⟩ := h.needed r hr
    refine ⟨{ c with data := keepUpTo d f.idx c.data }, ?_, hn⟩
    simp only [RawFrame.upTo, List.filter_map]
    have : ((fun c : RawCol => c.name == r) ∘ fun c : RawCol => { c with data := keepUpTo d f.idx c.data }) =
        fun c => c.name == r := rfl
    rw [this, hc]
    rfl
  · have : (f.upTo d).cols.map RawCol.name = f.cols.map RawCol.name := by
      simp only [RawFrame.upTo, List.map_map]; rfl
    rw [this]; exact h.extra

end TTI
