import Verif.Lemmas.SimRows
import Verif.Spec.Stakes

set_option autoImplicit false

/-! Ledger inequalities for C99. -/

namespace TTI.Sim

open Spec

/-- A position that is still open cannot be closed with a profit at a later price. -/
theorem profit_le_of_open {s : Side} {e : ℚ} {later : List (Row ℚ)} (h : closingPrice s e later = none) {x : Row ℚ}
    (hx : x ∈ later) : profit s e x.stock ≤ 0 := by
  cases s with
  | none => simp [profit]
  | long =>
    simp only [closingPrice, List.find?_eq_none, List.mem_map, decide_eq_true_eq, not_lt, forall_exists_index, and_imp,
      forall_apply_eq_imp_iff₂] at h
    have := h x hx
    simp only [profit]; linarith
  | short =>
    simp only [closingPrice, List.find?_eq_none, List.mem_map, decide_eq_true_eq, not_lt, forall_exists_index, and_imp,
      forall_apply_eq_imp_iff₂] at h
    have := h x hx
    simp only [profit]; linarith

/-- Comparing two sums over the open positions: only positions without a profit at the last price matter. -/
theorem sumOpen_le (g k : Side → ℚ → ℚ) (x : Row ℚ) : ∀ h : List (Row ℚ), h.getLast? = some x →
    (∀ r ∈ h, r.action ≠ .none → profit r.action r.stock x.stock ≤ 0 → g r.action r.stock ≤ k r.action r.stock) →
    sumOpen g h ≤ sumOpen k h
  | [], _, _ => le_refl _
  | [r], hl, hg => by
    obtain rfl : r = x := by simpa using hl
    simp only [sumOpen]
    split
    · next hc =>
      have := hg r (by simp) hc.1 (by cases r.action <;> simp [profit])
      linarith
    · linarith
  | r :: r' :: h, hl, hg => by
    have hl' : (r' :: h).getLast? = some x := by rw [← hl, List.getLast?_cons_cons]
    have ih := sumOpen_le g k x (r' :: h) hl' fun y hy => hg y (List.mem_cons_of_mem _ hy)
    generalize r' :: h = t at *
    simp only [sumOpen]
    split
    · next hc =>
      have := hg r (by simp) hc.1 (profit_le_of_open hc.2 (List.mem_of_getLast? hl'))
      linarith
    · linarith

/-- Comparing two sums position by position. -/
theorem sumOpen_le_open (g k : Side → ℚ → ℚ) : ∀ h : List (Row ℚ),
    (∀ j r, h[j]? = some r → r.action ≠ .none → closingPrice r.action r.stock (h.drop (j + 1)) = none →
      g r.action r.stock ≤ k r.action r.stock) → sumOpen g h ≤ sumOpen k h
  | [], _ => le_refl _
  | r :: h, hg => by
    have ih := sumOpen_le_open g k h fun j y hy => hg (j + 1) y (by simpa using hy)
    simp only [sumOpen]
    split
    · next hc =>
      have := hg 0 r rfl hc.1 hc.2
      linarith
    · linarith

/-- The profit taken on a day is at most the move of that day for every open position. -/
theorem closedBy_le (x : Row ℚ) (p : ℚ) : ∀ h : List (Row ℚ), h.getLast? = some x →
    closedBy (fun s e => profit s e p) p h ≤ max 0 (p - x.stock) * numOpen .long h + max 0 (x.stock - p) * numOpen .short h := by
  have key : ∀ r : Row ℚ, profit r.action r.stock x.stock ≤ 0 →
      ((r.action = .long ∧ r.stock < p) ∨ (r.action = .short ∧ p < r.stock)) →
      profit r.action r.stock p ≤ max 0 (p - x.stock) * (if r.action = .long then 1 else 0) +
        max 0 (x.stock - p) * (if r.action = .short then 1 else 0) := by
    intro r hr hc
    rcases hc with ⟨ha, -⟩ | ⟨ha, -⟩
    · rw [ha] at hr ⊢
      simp only [profit] at hr ⊢
      have := le_max_right 0 (p - x.stock)
      simp only [if_true, reduceCtorEq, if_false]; linarith
    · rw [ha] at hr ⊢
      simp only [profit] at hr ⊢
      have := le_max_right 0 (x.stock - p)
      simp only [if_true, reduceCtorEq, if_false]; linarith
  have pos : ∀ r : Row ℚ, 0 ≤ max 0 (p - x.stock) * (if r.action = .long then (1 : ℚ) else 0) +
        max 0 (x.stock - p) * (if r.action = .short then 1 else 0) := by
    intro r
    have a := le_max_left 0 (p - x.stock)
    have b := le_max_left 0 (x.stock - p)
    split <;> split <;> simp only [mul_one, mul_zero] <;> linarith
  intro h
  induction h with
  | nil => simp
  | cons r h ih =>
    intro hl
    have hprof : isOpen r h → profit r.action r.stock x.stock ≤ 0 := by
      intro ho
      cases h with
      | nil =>
        obtain rfl : r = x := by simpa using hl
        cases r.action <;> simp [profit]
      | cons r' h =>
        rw [List.getLast?_cons_cons] at hl
        exact profit_le_of_open ho.2 (List.mem_of_getLast? hl)
    have ih' : closedBy (fun s e => profit s e p) p h ≤
        max 0 (p - x.stock) * numOpen .long h + max 0 (x.stock - p) * numOpen .short h := by
      cases h with
      | nil => simp [closedBy, numOpen, sumOpen]
      | cons r' h => exact ih (by rw [← hl, List.getLast?_cons_cons])
    unfold numOpen at ih' ⊢
    simp only [closedBy, sumOpen]
    by_cases ho : isOpen r h
    · have hp := pos r
      have ho' : r.action ≠ .none ∧ closingPrice r.action r.stock h = none := ho
      rw [if_pos ho', if_pos ho']
      split
      · next hc => have := key r (hprof ho) hc.2; linarith
      · linarith
    · have ho' : ¬ (r.action ≠ .none ∧ closingPrice r.action r.stock h = none) := ho
      rw [if_neg ho', if_neg ho', if_neg (fun hh => ho hh.1)]
      linarith

end TTI.Sim
