import Verif.Model.Api
import Verif.Lemmas.Shape
import Verif.Lemmas.Sim

set_option autoImplicit false

/-!
# Facts about the API model
-/

namespace TTI

/-! ## Cutting at a date -/

theorem filter_le_eq_take {α : Type} (d : ℤ) (rows : List (ℤ × α)) (h : rows.Pairwise fun a b => a.1 ≤ b.1) :
    (rows.filter fun r => decide (r.1 ≤ d)) = rows.take ((rows.map (·.1)).filter fun e => decide (e ≤ d)).length := by
  induction rows with
  | nil => rfl
  | cons r rest ih =>
    rw [List.pairwise_cons] at h
    by_cases hr : r.1 ≤ d
    · simp only [List.filter_cons, hr, decide_true, if_true, List.map_cons, List.length_cons, List.take_succ_cons]
      rw [ih h.2]
    · have hnone : ∀ x ∈ rest, ¬ x.1 ≤ d := fun x hx hd => hr (le_trans (h.1 x hx) hd)
      have h1 : (rest.filter fun r => decide (r.1 ≤ d)) = [] := by
        rw [List.filter_eq_nil_iff]; intro x hx; simpa using hnone x hx
      have h2 : ((rest.map (·.1)).filter fun e => decide (e ≤ d)) = [] := by
        rw [List.filter_eq_nil_iff]; intro x hx
        obtain ⟨y, hy, rfl⟩ := List.mem_map.1 hx
        simpa using hnone y hy
      simp [List.filter_cons, hr, h1, h2]

/-- Number of rows up to a date. -/
def rowsUpTo (d : ℤ) (idx : List ℤ) : ℕ := (idx.filter fun e => decide (e ≤ d)).length

theorem idx_filter_eq_take (d : ℤ) (idx : List ℤ) (hs : idx.Pairwise (· ≤ ·)) :
    (idx.filter fun e => decide (e ≤ d)) = idx.take (rowsUpTo d idx) := by
  have h := filter_le_eq_take d (idx.map fun e => (e, ())) (by rw [List.pairwise_map]; exact hs)
  have h2 := congrArg (List.map (·.1)) h
  rw [List.map_take, List.map_map] at h2
  simpa [List.filter_map, Function.comp_def, rowsUpTo] using h2

theorem upTo_eq_take (d : ℤ) (F : Frame) (hw : F.WF) (hs : F.idx.Pairwise (· ≤ ·)) :
    F.upTo d = F.take (rowsUpTo d F.idx) := by
  unfold Frame.upTo Frame.take
  rw [idx_filter_eq_take d F.idx hs]
  congr 1
  apply List.map_congr_left
  intro c hc
  have hl := hw c hc
  unfold keepUpTo
  have h1 : (F.idx.zip c.2).map (·.1) = F.idx := List.map_fst_zip (by omega)
  have h2 : (F.idx.zip c.2).map (·.2) = c.2 := List.map_snd_zip (by omega)
  rw [filter_le_eq_take, h1, List.map_take, h2]
  · rfl
  · have : ((F.idx.zip c.2).map (·.1)).Pairwise (· ≤ ·) := by rw [h1]; exact hs
    rwa [List.pairwise_map] at this

/-- With distinct dates, the rows up to the date of row `i` are the rows `0..i`. -/
theorem rowsUpTo_getElem (idx : List ℤ) (hs : idx.Pairwise (· < ·)) (i : ℕ) (d : ℤ) (h : idx[i]? = some d) :
    rowsUpTo d idx = i + 1 := by
  induction idx generalizing i with
  | nil => simp at h
  | cons e rest ih =>
    rw [List.pairwise_cons] at hs
    unfold rowsUpTo
    cases i with
    | zero =>
      simp only [List.getElem?_cons_zero, Option.some.injEq] at h
      subst h
      have h2 : (rest.filter fun x => decide (x ≤ e)) = [] := by
        rw [List.filter_eq_nil_iff]; intro x hx; simpa using hs.1 x hx
      simp [List.filter_cons, h2]
    | succ i =>
      simp only [List.getElem?_cons_succ] at h
      have he : e ≤ d := le_of_lt (hs.1 d (List.mem_of_getElem? h))
      have := ih hs.2 i h
      unfold rowsUpTo at this
      simp [List.filter_cons, he, this]

theorem rowsUpTo_pos (idx : List ℤ) (i : ℕ) (d : ℤ) (h : idx[i]? = some d) : 0 < rowsUpTo d idx := by
  unfold rowsUpTo
  rw [List.length_pos_iff]
  intro h0
  rw [List.filter_eq_nil_iff] at h0
  exact h0 d (List.mem_of_getElem? h) (by simp)

theorem rowsUpTo_le (idx : List ℤ) (d : ℤ) : rowsUpTo d idx ≤ idx.length := List.length_filter_le _ _

theorem rowsUpTo_take_le (idx : List ℤ) (d : ℤ) (n : ℕ) : rowsUpTo d (idx.take n) ≤ rowsUpTo d idx :=
  ((List.take_sublist n idx).filter _).length_le

theorem Frame.take_wf (F : Frame) (n : ℕ) (h : F.WF) : (F.take n).WF := by
  intro c hc
  simp only [Frame.take, List.mem_map] at hc
  obtain ⟨d, hd, rfl⟩ := hc
  simp [Frame.take, h d hd]

@[simp] theorem Frame.take_names (F : Frame) (n : ℕ) : (F.take n).cols.map (·.1) = F.cols.map (·.1) := by
  simp [Frame.take]

@[simp] theorem Frame.take_col (F : Frame) (n : ℕ) (name : String) : (F.take n).col name = (F.col name).take n := by
  unfold Frame.take Frame.col
  simp only
  rw [List.find?_map]
  have : ((fun c : String × List Val => c.1 == name) ∘ fun c : String × List Val => (c.1, c.2.take n)) =
      fun c => c.1 == name := rfl
  rw [this]
  cases F.cols.find? fun c => c.1 == name <;> simp

@[simp] theorem Frame.take_len (F : Frame) (n : ℕ) : (F.take n).len = min n F.len := by simp [Frame.take, Frame.len]

@[simp] theorem Frame.take_idx (F : Frame) (n : ℕ) : (F.take n).idx = F.idx.take n := rfl

theorem Frame.take_self (F : Frame) (hw : F.WF) (n : ℕ) (h : F.len ≤ n) : F.take n = F := by
  unfold Frame.take
  have h1 : F.idx.take n = F.idx := List.take_of_length_le h
  have h2 : (F.cols.map fun c => (c.1, c.2.take n)) = F.cols := by
    conv_rhs => rw [← List.map_id F.cols]
    apply List.map_congr_left
    intro c hc
    rw [List.take_of_length_le (by rw [hw c hc]; exact h)]; rfl
  rw [h1, h2]

/-! ## The rounds -/

theorem simRounds_ok (full : Obj) (S : SimSetup) (l : List ℕ) (now : Obj) (st : Sim.State Val)
    (sig : ℕ → Signal) (hl : ∀ i ∈ l, ∃ o, full.cut i = some o ∧ o.getTiSignal = .ok (sig i)) :
    (simRounds full S l now st).2 =
      .ok ((l.map fun i => (S.close.getD i .nan, sig i)).foldl (fun st d => Sim.round S.params st d.1 d.2) st) := by
  induction l generalizing now st with
  | nil => rfl
  | cons i rest ih =>
    obtain ⟨o, h1, h2⟩ := hl i (by simp)
    simp only [simRounds, h1, h2, List.map_cons, List.foldl_cons]
    exact ih _ _ fun j hj => hl j (by simp [hj])

theorem simRounds_fail (full : Obj) (S : SimSetup) (l rest : List ℕ) (i : ℕ) (now o : Obj) (st : Sim.State Val) (e : Err)
    (hl : ∀ j ∈ l, ∃ o s, full.cut j = some o ∧ o.getTiSignal = .ok s)
    (hi : full.cut i = some o) (he : o.getTiSignal = .error e) :
    simRounds full S (l ++ i :: rest) now st = (o, .error e) := by
  induction l generalizing now st with
  | nil => simp only [List.nil_append, simRounds, hi, he]
  | cons j l ih =>
    obtain ⟨o', s, h1, h2⟩ := hl j (by simp)
    simp only [List.cons_append, simRounds, h1, h2]
    exact ih _ _ fun k hk => hl k (by simp [hk])

/-- When the rounds succeed, every signal was returned without exception. -/
theorem simRounds_signals (full : Obj) (S : SimSetup) (l : List ℕ) (now : Obj) (st st' : Sim.State Val)
    (h : (simRounds full S l now st).2 = .ok st') :
    ∀ i ∈ l, ∃ o s, full.cut i = some o ∧ o.getTiSignal = .ok s := by
  induction l generalizing now st with
  | nil => simp
  | cons i rest ih =>
    unfold simRounds at h
    cases hc : full.cut i with
    | none => rw [hc] at h; simp at h
    | some o =>
      rw [hc] at h
      simp only at h
      cases hs : o.getTiSignal with
      | error e => rw [hs] at h; simp at h
      | ok s =>
        rw [hs] at h
        intro j hj
        rcases List.mem_cons.1 hj with rfl | hj
        · exact ⟨o, s, hc, hs⟩
        · exact ih _ _ h j hj

end TTI
