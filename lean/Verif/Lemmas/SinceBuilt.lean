import Verif.Lemmas.Since
import Verif.Lemmas.MemoryInd
import Verif.Spec.SignalMemory
import Verif.Props.Causal
import Verif.Props.Build
import Verif.Props.Signals

set_option autoImplicit false

/-!
# An indicator built on the latest rows
-/

namespace TTI.Props

open Spec

theorem kept_first (f : RawFrame) (required : List String) (hw : WF f) (hv : f.idx ≠ []) (hk : StartsKnown f required) :
    ∀ c ∈ (f.kept required).cols, ∃ v, c.2.head? = some v ∧ v ≠ .nan := by
  intro c hc
  simp only [RawFrame.kept, Frame.sortIndex, List.map_map, List.mem_map, List.mem_filter] at hc
  obtain ⟨e, ⟨he, hn⟩, rfl⟩ := hc
  have hne : sortRows (f.idx.zip e.data) ≠ [] := by
    intro h0
    have := (sortRows_perm (f.idx.zip e.data)).length_eq
    rw [h0] at this
    have h1 := hw e he
    rw [List.length_zip, h1, Nat.min_self] at this
    exact hv (List.length_eq_zero_iff.1 this.symm)
  obtain ⟨r, rest, hr⟩ := List.exists_cons_of_ne_nil hne
  refine ⟨r.2, ?_, hk e he (by simpa using hn) r (by rw [hr]; rfl)⟩
  simp [hr]

theorem fill_knownFrom (G : Frame) (k : ℕ) (hs : G.idx.Pairwise (· ≤ ·)) (hl : G.WF) (h : G.KnownFrom k) :
    fillMissingValues (G.drop k) = (fillMissingValues G).drop k ∧ (fillMissingValues G).KnownFrom k := by
  have hs' : (G.drop k).idx.Pairwise (· ≤ ·) := hs.sublist (List.drop_sublist _ _)
  have hl' : ∀ c ∈ (G.drop k).cols, c.2.length = (G.drop k).idx.length := by
    intro c hc
    simp only [Frame.drop, List.mem_map] at hc
    obtain ⟨e, he, rfl⟩ := hc
    have := hl e he
    simp [Frame.drop] at this ⊢
    omega
  unfold fillMissingValues
  rw [sortIndex_of_sorted _ hs hl, sortIndex_of_sorted _ hs' hl']
  constructor
  · unfold Frame.drop
    simp only [List.map_map, Function.comp_def]
    congr 1
    apply List.map_congr_left
    intro c hc
    rw [ffill_drop _ _ (h c hc), bfill_drop]
  · intro c hc
    simp only [List.mem_map] at hc
    obtain ⟨e, he, rfl⟩ := hc
    obtain ⟨v, hv, hn⟩ := h e he
    refine ⟨v, ?_, hn⟩
    rw [← bfill_drop, ← ffill_drop _ _ ⟨v, hv, hn⟩]
    cases hx : e.2.drop k with
    | nil => rw [hx] at hv; simp at hv
    | cons x xs =>
      rw [hx] at hv
      simp only [List.head?_cons, Option.some.injEq] at hv
      subst hv
      have hno := ffill_no_nan x xs hn
      rw [bfill_eq_self _ hno]
      unfold ffill
      cases x <;> simp_all [TTI.prefixMap, Val.isNan, List.range_succ_eq_map]

/-- Validating the rows since a date gives the latest rows of the validated data. -/
theorem validate_since (f : RawFrame) (ind : Ind) (fill : Bool) (F : Frame) (hw : WF f)
    (h : (validateInputData (.frame f) ind.required fill).2 = .ok F) (d : ℤ) (hd : ∃ e ∈ f.idx, d ≤ e)
    (hk : fill = true ∨ Nested ind → StartsKnown (f.since d) ind.required) :
    (validateInputData (.frame (f.since d)) ind.required fill).2 = .ok (F.drop (rowsBefore d f.idx)) ∧
      (Nested ind → F.KnownFrom (rowsBefore d f.idx)) := by
  obtain ⟨hv, hF⟩ := valid_of_ok _ _ _ _ h
  have hvs := valid_since d f _ hd hv
  have hwk : Frame.WF (f.kept ind.required) := by
    apply sortIndex_lengths
    intro c hc
    rw [List.mem_map] at hc
    obtain ⟨e, he, rfl⟩ := hc
    exact hw e (List.mem_filter.1 he).1
  have hsk : (f.kept ind.required).idx.Pairwise (· ≤ ·) := sortIdx_sorted _
  have hks := kept_since d f ind.required hw
  have hknown : StartsKnown (f.since d) ind.required → (f.kept ind.required).KnownFrom (rowsBefore d f.idx) := by
    intro h1 c hc
    have := kept_first (f.since d) ind.required (since_wf d f hw) hvs.rows h1
    rw [hks] at this
    exact this (c.1, c.2.drop (rowsBefore d f.idx)) (List.mem_map.2 ⟨c, hc, rfl⟩)
  rw [validate_ok _ _ _ hvs, hks]
  cases fill
  · simp only [Bool.false_eq_true, if_false] at hF ⊢
    rw [hF]
    exact ⟨rfl, fun hn => hknown (hk (Or.inr hn))⟩
  · simp only [if_true] at hF ⊢
    rw [hF]
    have := fill_knownFrom _ _ hsk hwk (hknown (hk (Or.inl rfl)))
    exact ⟨by rw [this.1], fun _ => this.2⟩

/-- The two objects side by side. -/
theorem since_built (E : Env) (c : Call) (f : RawFrame) (fill : Bool) (d : ℤ) (o o' : Obj) (hw : WF f)
    (h : (construct E c (.frame f) (.bool fill)).2 = .ok o)
    (h' : (construct E c (.frame (f.since d)) (.bool fill)).2 = .ok o')
    (hk : fill = true ∨ Nested o.ind → StartsKnown (f.since d) o.ind.required) :
    ∃ F, F.Good o.ind.required ∧ F.len = f.idx.length ∧ o.ind.Pos ∧ o'.ind = o.ind ∧
      (Nested o.ind → F.KnownFrom (rowsBefore d f.idx)) ∧ minRows o.ind ≤ F.len - rowsBefore d f.idx ∧
      o.ind.calcTi E F = .ok o.ti ∧ o.ind.calcTi E (F.drop (rowsBefore d f.idx)) = .ok o'.ti ∧
      o.input = o.ind.inputAfter F ∧ o'.input = o.ind.inputAfter (F.drop (rowsBefore d f.idx)) := by
  obtain ⟨ind, F, T, hc, hv, ht, rfl⟩ := (construct_ok_iff _ _ _ _ _).1 h
  obtain ⟨ind', F', T', hc', hv', ht', rfl⟩ := (construct_ok_iff _ _ _ _ _).1 h'
  rw [hc] at hc'
  simp only [Except.ok.injEq] at hc'
  subst hc'
  obtain ⟨hg, hFi⟩ := validated_good f _ _ _ hw hv
  have hFlen : F.len = f.idx.length := by unfold Frame.len; rw [hFi, (sortIdx_perm _).length_eq]
  have hvs := (valid_of_ok _ _ _ _ hv').1
  have hd : ∃ e ∈ f.idx, d ≤ e := by
    obtain ⟨e, rest, he⟩ := List.exists_cons_of_ne_nil hvs.rows
    have : e ∈ f.idx.filter fun e => decide (d ≤ e) := by
      have h0 : f.idx.filter (fun e => decide (d ≤ e)) = e :: rest := he
      rw [h0]; simp
    exact ⟨e, (List.mem_filter.1 this).1, by simpa using (List.mem_filter.1 this).2⟩
  obtain ⟨h1, h2⟩ := validate_since f ind fill F hw hv d hd hk
  rw [h1] at hv'
  simp only [Except.ok.injEq] at hv'
  subst hv'
  refine ⟨F, hg, hFlen, check_pos _ _ hc, rfl, h2, ?_, ht, ht', rfl, rfl⟩
  by_contra hlt
  dsimp only at hlt
  have := (C32_not_enough_iff E c ind (f.since d) fill (since_wf d f hw) hc ⟨_, h1⟩).1
    (by rw [since_length, ← hFlen]; omega)
  rw [this] at h'
  simp at h'

end TTI.Props
