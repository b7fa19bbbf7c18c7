import Verif.Model.Plot
import Verif.Spec.Graph
import Verif.Lemmas.Built

set_option autoImplicit false

/-!
# Graphs
-/

namespace TTI

theorem frameLines_eq (colors : List String) (alphas : List ℚ) (idx : List ℤ) (j : ℕ) (cols : List (String × List Val)) :
    frameLines colors alphas idx j cols =
      cols.mapIdx fun k c => ⟨c.1, idx, c.2, styleColor colors (j + k), styleAlpha alphas (j + k)⟩ := by
  induction cols generalizing j with
  | nil => rfl
  | cons c cs ih =>
    rw [frameLines, ih, List.mapIdx_cons]
    simp only [Nat.add_zero, Nat.add_assoc, Nat.add_comm 1]

theorem frameLines_label (colors : List String) (alphas : List ℚ) (idx : List ℤ) (j : ℕ) (cols : List (String × List Val)) :
    (frameLines colors alphas idx j cols).map (·.label) = cols.map (·.1) := by
  induction cols generalizing j with
  | nil => rfl
  | cons c cs ih => rw [frameLines, List.map_cons, List.map_cons, ih]

theorem frameLines_color (colors : List String) (alphas : List ℚ) (idx : List ℤ) (j : ℕ) (cols : List (String × List Val)) :
    (frameLines colors alphas idx j cols).map (·.color) = (List.range cols.length).map fun k => styleColor colors (j + k) := by
  induction cols generalizing j with
  | nil => rfl
  | cons c cs ih =>
    rw [frameLines, List.map_cons, ih, List.length_cons, List.range_succ_eq_map, List.map_cons, List.map_map]
    simp only [Nat.add_zero, Function.comp_def, Nat.succ_eq_add_one, Nat.add_assoc, Nat.add_comm 1]

theorem frameLines_alpha (colors : List String) (alphas : List ℚ) (idx : List ℤ) (j : ℕ) (cols : List (String × List Val)) :
    (frameLines colors alphas idx j cols).map (fun l => (l.label, l.alpha)) =
      (cols.map (·.1)).mapIdx fun k n => (n, styleAlpha alphas (j + k)) := by
  induction cols generalizing j with
  | nil => rfl
  | cons c cs ih =>
    rw [frameLines, List.map_cons, ih, List.map_cons, List.mapIdx_cons]
    simp only [Nat.add_zero, Nat.add_assoc, Nat.add_comm 1]

theorem mem_frameLines (colors : List String) (alphas : List ℚ) (idx : List ℤ) (j : ℕ) (cols : List (String × List Val))
    (l : Line) (h : l ∈ frameLines colors alphas idx j cols) : l.x = idx ∧ (l.label, l.y) ∈ cols := by
  induction cols generalizing j with
  | nil => simp [frameLines] at h
  | cons c cs ih =>
    rw [frameLines, List.mem_cons] at h
    rcases h with rfl | h
    · exact ⟨rfl, List.mem_cons_self⟩
    · obtain ⟨h1, h2⟩ := ih _ h
      exact ⟨h1, List.mem_cons_of_mem _ h2⟩

theorem column_ok (F : Frame) (n : String) (h : n ∈ F.cols.map (·.1)) : F.column n = .ok (F.col n) := by
  unfold Frame.column Frame.col
  cases hf : F.cols.find? fun c => c.1 == n with
  | some c => rfl
  | none =>
    obtain ⟨c, hc, rfl⟩ := List.mem_map.1 h
    rw [List.find?_eq_none] at hf
    exact absurd (hf c hc) (by simp)

theorem select_ok (F : Frame) (ns : List String) (h : ∀ n ∈ ns, n ∈ F.cols.map (·.1)) :
    F.select ns = .ok (ns.map fun n => (n, F.col n)) := by
  induction ns with
  | nil => rfl
  | cons n ns ih =>
    rw [Frame.select, column_ok F n (h n (by simp)), ih fun m hm => h m (List.mem_cons_of_mem _ hm)]
    rfl

/-- In a frame whose labels are distinct the entry with a label is the column. -/
theorem col_of_mem (F : Frame) (hn : (F.cols.map (·.1)).Nodup) (c : String × List Val) (hc : c ∈ F.cols) : F.col c.1 = c.2 := by
  unfold Frame.col
  have : (F.cols.find? fun d => d.1 == c.1) = some c := by
    rw [List.find?_eq_some_iff_append]
    obtain ⟨a, b, hab⟩ := List.append_of_mem hc
    refine ⟨by simp, a, b, hab, ?_⟩
    intro d hd
    rw [hab, List.map_append, List.map_cons, List.nodup_append] at hn
    have := hn.2.2 d.1 (List.mem_map_of_mem hd) c.1 List.mem_cons_self
    simpa using this
  rw [this]; rfl

theorem inputColumns_graph (ind : Ind) : ind.graphProperties.inputColumns = Spec.shownInputs ind := by
  cases ind <;> rfl

theorem subplots_graph (ind : Ind) : ind.graphProperties.subplots = !Spec.onePanel ind := by
  cases ind <;> rfl

theorem shown_input (ind : Ind) : ∀ n ∈ Spec.shownInputs ind, n ∈ inputColumns ind := by
  cases ind <;> simp [Spec.shownInputs, inputColumns, Ind.required]

theorem shown_nodup (ind : Ind) : (Spec.shownInputs ind ++ Spec.columns ind).Nodup := by
  rcases ind
  case movingAverage p t => cases t <;> simp [Spec.shownInputs, Spec.columns]
  case performance l p => cases l <;> simp [Spec.shownInputs, Spec.columns]
  all_goals simp [Spec.shownInputs, Spec.columns]

end TTI
