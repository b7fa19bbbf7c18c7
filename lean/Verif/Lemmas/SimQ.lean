import Verif.Lemmas.NpSum
import Verif.Lemmas.Sim
import Verif.Spec.Ledger
import Mathlib.Tactic.Linarith
import Mathlib.Tactic.Ring
import Mathlib.Tactic.FieldSimp
import Mathlib.Tactic.Positivity

set_option autoImplicit false

/-! The simulator over exact rationals: link between the code's accumulators and the ledger specification. -/

namespace TTI.Sim

open Spec

@[simp] theorem num_add (a b : ℚ) : Num.add a b = a + b := rfl
@[simp] theorem num_sub (a b : ℚ) : Num.sub a b = a - b := rfl
@[simp] theorem num_mul (a b : ℚ) : Num.mul a b = a * b := rfl
@[simp] theorem num_div (a b : ℚ) : Num.div a b = a / b := rfl
@[simp] theorem num_ofInt (n : ℤ) : (Num.ofInt n : ℚ) = n := rfl
@[simp] theorem num_lt (a b : ℚ) : Num.lt a b = decide (a < b) := rfl

/-- Is the position opened by `r` (if any) still open after the rows `later`? -/
def isOpen (r : Row ℚ) (later : List (Row ℚ)) : Prop :=
  r.action ≠ .none ∧ closingPrice r.action r.stock later = none

instance (r : Row ℚ) (later : List (Row ℚ)) : Decidable (isOpen r later) := by
  unfold isOpen; infer_instance

theorem closes_iff (P : Params ℚ) (hf : 0 < P.factor) (r s : Row ℚ) :
    closes P r s = true ↔
      (r.action = .long ∧ r.stock < s.stock) ∨ (r.action = .short ∧ s.stock < r.stock) := by
  unfold closes
  cases r.action <;> simp [mul_lt_mul_iff_right₀ hf]

theorem any_closes_iff (P : Params ℚ) (hf : 0 < P.factor) (r : Row ℚ) (ha : r.action ≠ .none)
    (later : List (Row ℚ)) :
    later.any (closes P r) = false ↔ closingPrice r.action r.stock later = none := by
  rw [List.any_eq_false]
  simp only [closes_iff P hf]
  cases h : r.action
  · exact absurd h ha
  · simp [closingPrice, List.find?_eq_none]
  · simp [closingPrice, List.find?_eq_none]

/-- Sum of `g` over the positions open after `h` that the price of a further day closes. -/
def closedBy (g : Side → ℚ → ℚ) (p : ℚ) : List (Row ℚ) → ℚ
  | [] => 0
  | r :: later =>
    (if isOpen r later ∧ ((r.action = .long ∧ r.stock < p) ∨ (r.action = .short ∧ p < r.stock)) then
      g r.action r.stock else 0) + closedBy g p later

theorem closingPrice_snoc (s : Side) (e : ℚ) (later : List (Row ℚ)) (x : Row ℚ) :
    closingPrice s e (later ++ [x]) =
      match closingPrice s e later with
      | some p => some p
      | none => if (s = .long ∧ e < x.stock) ∨ (s = .short ∧ x.stock < e) then some x.stock else none := by
  cases s
  · simp [closingPrice]
  · simp only [closingPrice, List.map_append, List.find?_append]
    cases h : List.find? (fun p => decide (p < e)) (List.map (fun x => x.stock) later) with
    | some q => simp
    | none => by_cases h2 : x.stock < e <;> simp [h2, List.find?]
  · simp only [closingPrice, List.map_append, List.find?_append]
    cases h : List.find? (fun p => decide (e < p)) (List.map (fun x => x.stock) later) with
    | some q => simp
    | none => by_cases h2 : e < x.stock <;> simp [h2, List.find?]

theorem sumOpen_snoc (g : Side → ℚ → ℚ) (h : List (Row ℚ)) (x : Row ℚ) :
    sumOpen g (h ++ [x]) =
      sumOpen g h - closedBy g x.stock h + (if x.action ≠ .none then g x.action x.stock else 0) := by
  induction h with
  | nil =>
    cases hx : x.action <;> simp [sumOpen, closedBy, closingPrice, hx]
  | cons r h ih =>
    simp only [List.cons_append, sumOpen, closedBy, ih, closingPrice_snoc, isOpen]
    by_cases ha : r.action = .none
    · simp [ha]
    · rcases Option.eq_none_or_eq_some (closingPrice r.action r.stock h) with hc | ⟨q, hc⟩
      · by_cases hx : (r.action = .long ∧ r.stock < x.stock) ∨ (r.action = .short ∧ x.stock < r.stock)
        · simp [ha, hc, hx]
        · simp [ha, hc, hx]; ring
      · simp [hc]

theorem realised_snoc (h : List (Row ℚ)) (x : Row ℚ) :
    realised (h ++ [x]) = realised h + closedBy (fun s e => profit s e x.stock) x.stock h := by
  induction h with
  | nil =>
    rcases x with ⟨sig, act, st, ex, pv, ea, ba⟩
    cases act <;> simp [realised, closedBy, closingPrice]
  | cons r h ih =>
    simp only [List.cons_append, realised, closedBy, ih, closingPrice_snoc, isOpen]
    rcases Option.eq_none_or_eq_some (closingPrice r.action r.stock h) with hc | ⟨q, hc⟩
    · by_cases hx : (r.action = .long ∧ r.stock < x.stock) ∨ (r.action = .short ∧ x.stock < r.stock)
      · have ha : r.action ≠ .none := by rintro h; simp [h] at hx
        simp [ha, hc, hx]; ring
      · simp [hc, hx]
    · simp [hc]; ring

theorem sumExposure_cons (p : Pos ℚ) (l : List (Pos ℚ)) :
    sumExposure (p :: l) = p.exposure + sumExposure l := by
  simp [sumExposure, npSum_rat]

theorem sumExposure_nil : sumExposure ([] : List (Pos ℚ)) = 0 := by simp [sumExposure, npSum_rat]

theorem isOpen_iff (P : Params ℚ) (hf : 0 < P.factor) (r : Row ℚ) (later : List (Row ℚ)) :
    isOpen r later ↔ r.action ≠ .none ∧ later.any (closes P r) = false := by
  unfold isOpen
  constructor
  · rintro ⟨h1, h2⟩; exact ⟨h1, (any_closes_iff P hf r h1 later).2 h2⟩
  · rintro ⟨h1, h2⟩; exact ⟨h1, (any_closes_iff P hf r h1 later).1 h2⟩

theorem longMask_posOf (P : Params ℚ) (hf : 0 < P.factor) (r : Row ℚ) (later : List (Row ℚ)) (p : ℚ) :
    longMask p (posOf P r later) = decide (isOpen r later ∧ r.action = .long ∧ r.stock < p) := by
  simp only [isOpen_iff P hf]
  cases ha : r.action
  · simp [posOf, ha, noPos, longMask]
  · simp [posOf, ha, longMask]
  · cases ho : later.any (closes P r) <;> simp [posOf, ha, longMask, ho]

theorem shortMask_posOf (P : Params ℚ) (hf : 0 < P.factor) (r : Row ℚ) (later : List (Row ℚ)) (p : ℚ) :
    shortMask P.factor p (posOf P r later) = decide (isOpen r later ∧ r.action = .short ∧ p < r.stock) := by
  simp only [isOpen_iff P hf]
  cases ha : r.action
  · simp [posOf, ha, noPos, shortMask]
  · cases ho : later.any (closes P r) <;> simp [posOf, ha, shortMask, ho, mul_lt_mul_iff_right₀ hf]
  · simp [posOf, ha, shortMask]

theorem closing_exposure (P : Params ℚ) (hf : 0 < P.factor) (h : List (Row ℚ)) (p : ℚ) :
    sumExposure ((pfOf P h).filter (longMask p)) + sumExposure ((pfOf P h).filter (shortMask P.factor p)) =
      closedBy (entryExposure P.factor) p h := by
  induction h with
  | nil => simp [pfOf, closedBy, sumExposure_nil]
  | cons r h ih =>
    simp only [pfOf, closedBy, List.filter_cons, longMask_posOf P hf, shortMask_posOf P hf, ← ih]
    by_cases ho : isOpen r h
    · cases ha : r.action with
      | none => exact absurd ha ho.1
      | long =>
        by_cases hp : r.stock < p <;>
          simp [ho, hp, sumExposure_cons, posOf, ha, entryExposure]
        ring
      | short =>
        by_cases hp : p < r.stock <;>
          simp [ho, hp, sumExposure_cons, posOf, ha, entryExposure]
        ring
    · simp [ho]

theorem closing_earnings (P : Params ℚ) (hf : 0 < P.factor) (h : List (Row ℚ)) (p : ℚ) :
    (closeOpenPositions P p (pfOf P h)).earnings = closedBy (fun s e => profit s e p) p h := by
  simp only [closeOpenPositions, num_add, num_sub, num_mul, num_div, num_ofInt]
  induction h with
  | nil => simp [pfOf, closedBy, sumExposure_nil]
  | cons r h ih =>
    simp only [pfOf, closedBy, List.filter_cons, longMask_posOf P hf, shortMask_posOf P hf, ← ih]
    by_cases ho : isOpen r h
    · cases ha : r.action with
      | none => exact absurd ha ho.1
      | long =>
        by_cases hp : r.stock < p <;>
          simp [ho, hp, sumExposure_cons, posOf, ha, profit]
        ring
      | short =>
        by_cases hp : p < r.stock <;>
          simp [ho, hp, sumExposure_cons, posOf, ha, profit]
        have := hf.ne'
        field_simp
        ring
    · simp [ho]

theorem closing_closedExposure (P : Params ℚ) (hf : 0 < P.factor) (h : List (Row ℚ)) (p : ℚ) :
    (closeOpenPositions P p (pfOf P h)).closedExposure = closedBy (entryExposure P.factor) p h := by
  simp only [closeOpenPositions, num_add]
  exact closing_exposure P hf h p

theorem countOpen_pfOf (P : Params ℚ) (hf : 0 < P.factor) (h : List (Row ℚ)) (s : Side) (hs : s ≠ .none) :
    (countOpen s (pfOf P h) : ℚ) = numOpen s h := by
  unfold countOpen numOpen
  induction h with
  | nil => simp [pfOf, sumOpen]
  | cons r h ih =>
    simp only [pfOf, List.filter_cons, sumOpen, ← ih]
    cases ha : r.action with
    | none => cases s <;> simp_all [posOf, noPos]
    | long =>
      have h1 := any_closes_iff P hf r (by simp [ha]) h
      rw [ha] at h1
      by_cases ho : h.any (closes P r) = true
      · have h2 : ¬ closingPrice .long r.stock h = none := by rw [← h1]; simp [ho]
        cases s <;> simp_all [posOf]
      · have h2 : closingPrice .long r.stock h = none := by rw [← h1]; simpa using ho
        cases s <;> simp_all [posOf, add_comm]
    | short =>
      have h1 := any_closes_iff P hf r (by simp [ha]) h
      rw [ha] at h1
      by_cases ho : h.any (closes P r) = true
      · have h2 : ¬ closingPrice .short r.stock h = none := by rw [← h1]; simp [ho]
        cases s <;> simp_all [posOf]
      · have h2 : closingPrice .short r.stock h = none := by rw [← h1]; simpa using ho
        cases s <;> simp_all [posOf, add_comm]

/-- Everything about the last row of a run, in terms of the ledger. -/
theorem run_last (P : Params ℚ) (hf : 0 < P.factor) (ds : List (Day ℚ)) (x : Row ℚ)
    (hx : (run P ds).rows.getLast? = some x) :
    x.exposure = exposure P.factor (run P ds).rows ∧ x.earnings = realised (run P ds).rows := by
  induction ds using List.reverseRecOn generalizing x with
  | nil => simp [run, State.init] at hx
  | append_singleton ds d ih =>
    rw [run_snoc] at hx ⊢
    cases hl : (run P ds).rows.getLast? with
    | none =>
      have h0 : round P (run P ds) d.1 d.2 = round P State.init d.1 d.2 := by
        simp only [round, hl]; rfl
      rw [h0] at hx ⊢
      simp only [round, State.init, List.getLast?_nil, List.getLast?_singleton, Option.some.injEq] at hx ⊢
      subst hx
      simp [exposure, sumOpen, realised, closingPrice]
    | some prev =>
      obtain ⟨ih1, ih2⟩ := ih prev hl
      have h := round_of_prev P (run P ds) prev hl d.1 d.2 _ _ _ _ _ rfl rfl rfl rfl rfl
      rw [run_portfolio, closing_closedExposure P hf, closing_earnings P hf] at h
      generalize nextAction P _ d.1 d.2 = act at h
      rw [h] at hx ⊢
      simp only [List.getLast?_append, List.getLast?_singleton, Option.some_or, Option.some.injEq] at hx
      simp only [hx]
      refine ⟨?_, ?_⟩
      · rw [exposure, sumOpen_snoc, ← exposure, ← ih1, ← hx]
        cases act <;> simp [entryExposure, nextExposure]
      · rw [realised_snoc, ← ih2, ← hx]
        simp

end TTI.Sim
