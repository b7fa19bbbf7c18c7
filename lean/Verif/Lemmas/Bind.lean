import Verif.Spec.Bind
import Mathlib.Data.List.Nodup

set_option autoImplicit false

/-!
# Lemmas about the binding of arguments
-/

namespace TTI
open TTI.Spec

theorem lookup_iff (kw : List (String × Arg)) (h : (kw.map (·.1)).Nodup) (k : String) (v : Arg) :
    kw.lookup k = some v ↔ (k, v) ∈ kw := by
  induction kw with
  | nil => simp
  | cons a l ih =>
    obtain ⟨k', w⟩ := a
    simp only [List.map_cons, List.nodup_cons] at h
    rw [List.lookup_cons]
    by_cases hk : k = k'
    · subst hk
      simp only [beq_self_eq_true, List.mem_cons, Prod.mk.injEq, true_and, Option.some.injEq]
      constructor
      · rintro rfl; exact Or.inl rfl
      · rintro (rfl | hm)
        · rfl
        · exact absurd (List.mem_map_of_mem (f := (·.1)) hm) h.1
    · have : (k == k') = false := by simpa using hk
      rw [this]
      simp [ih h.2, hk]

theorem lookup_none_iff (kw : List (String × Arg)) (k : String) :
    kw.lookup k = none ↔ k ∉ kw.map (·.1) := by
  induction kw with
  | nil => simp
  | cons a l ih =>
    obtain ⟨k', w⟩ := a
    rw [List.lookup_cons]
    by_cases hk : k = k'
    · subst hk; simp
    · have : (k == k') = false := by simpa using hk
      rw [this]
      simp [ih, hk]

/-- The parameter number `i` of a binding. -/
def slot (kw : List (String × Arg)) (pos : List Arg) (i : ℕ) (p : String × Option Arg) : Option Arg :=
  if i < pos.length then (if p.1 ∈ kw.map (·.1) then none else pos[i]?) else (kw.lookup p.1).or p.2

theorem bindFrom_ok (kw : List (String × Arg)) (ps : List (String × Option Arg)) (pos : List Arg) (vs : List Arg) :
    bindFrom kw ps pos = .ok vs ↔
      pos.length ≤ ps.length ∧ vs.length = ps.length ∧
        ∀ i p, ps[i]? = some p → ∃ v, vs[i]? = some v ∧ slot kw pos i p = some v := by
  induction ps generalizing pos vs with
  | nil =>
    cases pos with
    | nil => cases vs <;> simp [bindFrom]
    | cons a l => simp [bindFrom]
  | cons p ps ih =>
    obtain ⟨name, d⟩ := p
    cases pos with
    | cons a l =>
      simp only [bindFrom]
      by_cases hk : name ∈ kw.map (·.1)
      · simp only [if_pos hk, reduceCtorEq, false_iff]
        rintro ⟨-, -, h⟩
        obtain ⟨v, -, hv⟩ := h 0 _ rfl
        simp [slot, hk] at hv
      · simp only [if_neg hk]
        have hs : ∀ i p, slot kw (a :: l) (i + 1) p = slot kw l i p := by
          intro i p; simp [slot]
        constructor
        · intro h
          cases hb : bindFrom kw ps l with
          | error e => rw [hb] at h; cases h
          | ok ws =>
            rw [hb] at h
            obtain rfl : a :: ws = vs := by simpa using h
            obtain ⟨h1, h2, h3⟩ := (ih l ws).1 hb
            refine ⟨by simpa using h1, by simpa using h2, ?_⟩
            intro i p hp
            cases i with
            | zero =>
              obtain rfl : (name, d) = p := by simpa using hp
              exact ⟨a, rfl, by simp [slot, hk]⟩
            | succ i =>
              rw [hs]
              exact h3 i p (by simpa using hp)
        · rintro ⟨h1, h2, h3⟩
          cases vs with
          | nil => simp at h2
          | cons v ws =>
            obtain ⟨w, hw1, hw2⟩ := h3 0 _ rfl
            obtain rfl : v = w := by simpa using hw1
            obtain rfl : a = v := by simpa [slot, hk] using hw2
            rw [(ih l ws).2 ⟨by simpa using h1, by simpa using h2, fun i p hp => by
              have := h3 (i + 1) p (by simpa using hp)
              rw [hs] at this
              simpa using this⟩]
    | nil =>
      simp only [bindFrom]
      have hs : ∀ i j p, slot kw [] i p = slot kw [] j p := by
        intro i j p; simp [slot]
      constructor
      · intro h
        cases hl : (kw.lookup name).or d with
        | none => rw [hl] at h; cases h
        | some a =>
          rw [hl] at h
          cases hb : bindFrom kw ps [] with
          | error e => rw [hb] at h; cases h
          | ok ws =>
            rw [hb] at h
            obtain rfl : a :: ws = vs := by simpa using h
            obtain ⟨h1, h2, h3⟩ := (ih [] ws).1 hb
            refine ⟨by simp, by simpa using h2, ?_⟩
            intro i p hp
            cases i with
            | zero =>
              obtain rfl : (name, d) = p := by simpa using hp
              exact ⟨a, rfl, by simpa [slot] using hl⟩
            | succ i =>
              rw [hs (i + 1) i]
              exact h3 i p (by simpa using hp)
      · rintro ⟨h1, h2, h3⟩
        cases vs with
        | nil => simp at h2
        | cons v ws =>
          obtain ⟨w, hw1, hw2⟩ := h3 0 _ rfl
          obtain rfl : v = w := by simpa using hw1
          have hl : (kw.lookup name).or d = some v := by simpa [slot] using hw2
          rw [hl, (ih [] ws).2 ⟨by simp, by simpa using h2, fun i p hp => by
            have := h3 (i + 1) p (by simpa using hp)
            rw [hs (i + 1) i] at this
            simpa using this⟩]

theorem bindFrom_error (kw : List (String × Arg)) (ps : List (String × Option Arg)) (pos : List Arg) (e : Err)
    (h : bindFrom kw ps pos = .error e) : e = .typeError := by
  induction ps generalizing pos with
  | nil =>
    cases pos with
    | nil => cases h
    | cons a l => simpa [bindFrom] using h.symm
  | cons p ps ih =>
    obtain ⟨name, d⟩ := p
    cases pos with
    | cons a l =>
      simp only [bindFrom] at h
      split_ifs at h
      · simpa using h.symm
      · cases hb : bindFrom kw ps l with
        | ok ws => rw [hb] at h; cases h
        | error e' =>
          rw [hb] at h
          obtain rfl : e' = e := by simpa using h
          exact ih l hb
    | nil =>
      simp only [bindFrom] at h
      cases hl : (kw.lookup name).or d with
      | none => rw [hl] at h; simpa using h.symm
      | some a =>
        rw [hl] at h
        cases hb : bindFrom kw ps [] with
        | ok ws => rw [hb] at h; cases h
        | error e' =>
          rw [hb] at h
          obtain rfl : e' = e := by simpa using h
          exact ih [] hb

theorem names_unique (params : List (String × Option Arg)) (h : (params.map (·.1)).Nodup) (i j : ℕ) (k : String)
    (d e : Option Arg) (hi : params[i]? = some (k, d)) (hj : params[j]? = some (k, e)) : i = j := by
  have h1 : (params.map (·.1))[i]? = some k := by simp [hi]
  have h2 : (params.map (·.1))[j]? = some k := by simp [hj]
  obtain ⟨hi', e1⟩ := List.getElem?_eq_some_iff.1 h1
  obtain ⟨hj', e2⟩ := List.getElem?_eq_some_iff.1 h2
  exact (List.Nodup.getElem_inj_iff h).1 (e1.trans e2.symm)

/-- A slot holds what the call gives. -/
theorem slot_gives (params : List (String × Option Arg)) (hn : (params.map (·.1)).Nodup) (pos : List Arg)
    (kw : List (String × Arg)) (hw : (kw.map (·.1)).Nodup)
    (hk : ∀ k v, (k, v) ∈ kw → ∃ i d, params[i]? = some (k, d) ∧ pos.length ≤ i) (i : ℕ) (p : String × Option Arg)
    (hp : params[i]? = some p) (v : Arg) : slot kw pos i p = some v ↔ Gives params pos kw i v := by
  obtain ⟨name, d⟩ := p
  unfold slot
  by_cases hi : i < pos.length
  · have hnk : name ∉ kw.map (·.1) := by
      intro hm
      obtain ⟨⟨k, w⟩, hm2, rfl⟩ := List.mem_map.1 hm
      obtain ⟨j, e, hj, hle⟩ := hk k w hm2
      have := names_unique params hn i j k d e hp hj
      omega
    simp only [if_pos hi, if_neg hnk]
    constructor
    · intro h; exact ⟨name, d, hp, Or.inl h⟩
    · rintro ⟨name', d', hp', h | ⟨h, -⟩⟩
      · exact h
      · omega
  · simp only [if_neg hi]
    constructor
    · intro h
      refine ⟨name, d, hp, Or.inr ⟨by omega, ?_⟩⟩
      cases hl : kw.lookup name with
      | some w =>
        rw [hl] at h
        obtain rfl : w = v := by simpa using h
        exact Or.inl ((lookup_iff kw hw _ _).1 hl)
      | none =>
        rw [hl] at h
        refine Or.inr ⟨fun w hm => ?_, by simpa using h⟩
        rw [(lookup_iff kw hw _ _).2 hm] at hl
        cases hl
    · rintro ⟨name', d', hp', h | ⟨-, h⟩⟩
      · have := (List.getElem?_eq_some_iff.1 h).1
        omega
      · obtain ⟨rfl, rfl⟩ : name = name' ∧ d = d' := by simpa using hp.symm.trans hp'
        rcases h with h | ⟨h1, h2⟩
        · rw [(lookup_iff kw hw _ _).2 h]; rfl
        · have : kw.lookup name = none := by
            cases hl : kw.lookup name with
            | none => rfl
            | some w => exact absurd ((lookup_iff kw hw _ _).1 hl) (h1 w)
          rw [this]
          simpa using h2

end TTI
