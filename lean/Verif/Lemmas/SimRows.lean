import Verif.Lemmas.SimQ

set_option autoImplicit false

/-! Row-indexed consequences. -/

namespace TTI.Sim

section generic
variable {α : Type} [Num α]

/-- Row `i` of a run is the last row of the run of the first `i+1` days. -/
theorem row_last (P : Params α) (ds : List (Day α)) (i : ℕ) (x : Row α)
    (hx : (run P ds).rows[i]? = some x) : (run P (ds.take (i + 1))).rows.getLast? = some x := by
  have hi : i < (run P ds).rows.length := (List.getElem?_eq_some_iff.1 hx).1
  rw [run_rows_take, List.getLast?_take]
  simp [hx]

theorem row_day (P : Params α) (ds : List (Day α)) (i : ℕ) (x : Row α)
    (hx : (run P ds).rows[i]? = some x) : ds[i]? = some (x.stock, x.signal) := by
  conv_lhs => rw [← run_rows_map P ds]
  simp [hx]

theorem row_exists (P : Params α) (ds : List (Day α)) (i : ℕ) (d : Day α) (hd : ds[i]? = some d) :
    ∃ x, (run P ds).rows[i]? = some x ∧ x.stock = d.1 ∧ x.signal = d.2 := by
  have hi : i < (run P ds).rows.length := by
    rw [run_rows_length]; exact (List.getElem?_eq_some_iff.1 hd).1
  refine ⟨(run P ds).rows[i], by simp, ?_⟩
  have h := row_day P ds i _ (List.getElem?_eq_getElem hi)
  rw [hd] at h
  simp only [Option.some.injEq] at h
  rw [h]; exact ⟨rfl, rfl⟩

omit [Num α] in
theorem take_succ_day (ds : List (Day α)) (i : ℕ) (d : Day α) (hd : ds[i]? = some d) :
    ds.take (i + 1) = ds.take i ++ [d] := by
  rw [List.take_add_one, hd]; rfl

/-- The first row. -/
theorem row_zero (P : Params α) (ds : List (Day α)) (x : Row α) (hx : (run P ds).rows[0]? = some x) :
    x = ⟨x.signal, .none, x.stock, Num.ofInt 0, Num.ofInt 0, Num.ofInt 0, Num.ofInt 0⟩ := by
  have hd := row_day P ds 0 x hx
  have h := row_last P ds 0 x hx
  rw [take_succ_day ds 0 _ hd, List.take_zero, run_snoc] at h
  simp only [run, List.foldl_nil, round, State.init, List.getLast?_nil, List.getLast?_singleton,
    Option.some.injEq] at h
  rw [← h]

/-- A later row in terms of the row before. -/
theorem row_succ (P : Params α) (ds : List (Day α)) (i : ℕ) (x : Row α)
    (hx : (run P ds).rows[i + 1]? = some x) :
    ∃ prev, (run P ds).rows[i]? = some prev ∧
      ∃ c, c = closeOpenPositions P x.stock (run P (ds.take (i + 1))).portfolio ∧
      ∃ ex, ex = Num.sub prev.exposure c.closedExposure ∧
        x.action = nextAction P ex x.stock x.signal ∧
        x.exposure = nextExposure P ex x.stock x.action ∧
        x.earnings = Num.add prev.earnings c.earnings ∧
        x.portfolio = portfolioValue x.stock (run P (ds.take (i + 2))).portfolio ∧
        x.balance = Num.add x.portfolio x.earnings ∧
        (run P (ds.take (i + 2))).portfolio = c.portfolio ++ [openPos P x.stock x.action] := by
  have hi : i + 1 < (run P ds).rows.length := (List.getElem?_eq_some_iff.1 hx).1
  have hp : (run P ds).rows[i]? = some ((run P ds).rows[i]'(by omega)) := by simp
  refine ⟨_, hp, _, rfl, _, rfl, ?_⟩
  have hd := row_day P ds (i + 1) x hx
  have hl := row_last P ds i _ hp
  have h := row_last P ds (i + 1) x hx
  rw [take_succ_day ds (i + 1) _ hd, run_snoc] at h ⊢
  have hr := round_of_prev P (run P (ds.take (i + 1))) _ hl x.stock x.signal _ _ _ _ _ rfl rfl rfl rfl rfl
  rw [hr] at h ⊢
  simp only [List.getLast?_append, List.getLast?_singleton, Option.some_or, Option.some.injEq] at h
  rw [closeOpenPositions_portfolio]
  refine ⟨?_, ?_, ?_, ?_, ?_, ?_⟩ <;> (rw [← h])

end generic

theorem row_ledger (P : Params ℚ) (hf : 0 < P.factor) (ds : List (Day ℚ)) (i : ℕ) (x : Row ℚ)
    (hx : (run P ds).rows[i]? = some x) :
    x.exposure = Spec.exposure P.factor ((run P ds).rows.take (i + 1)) ∧
      x.earnings = Spec.realised ((run P ds).rows.take (i + 1)) := by
  rw [← run_rows_take]
  exact run_last P hf _ x (row_last P ds i x hx)

theorem closedBy_nonneg (g : Side → ℚ → ℚ) (p : ℚ) (h : List (Row ℚ))
    (hg : ∀ r ∈ h, r.action ≠ .none → ((r.action = .long ∧ r.stock < p) ∨ (r.action = .short ∧ p < r.stock)) →
      0 ≤ g r.action r.stock) : 0 ≤ closedBy g p h := by
  induction h with
  | nil => simp [closedBy]
  | cons r h ih =>
    have := ih (fun r' hr' => hg r' (List.mem_cons_of_mem _ hr'))
    simp only [closedBy]
    split
    · next hc =>
      have := hg r List.mem_cons_self hc.1.1 hc.2
      linarith
    · linarith

theorem sumOpen_nonneg (g : Side → ℚ → ℚ) (h : List (Row ℚ))
    (hg : ∀ r ∈ h, r.action ≠ .none → 0 ≤ g r.action r.stock) : 0 ≤ Spec.sumOpen g h := by
  induction h with
  | nil => simp [Spec.sumOpen]
  | cons r h ih =>
    have := ih (fun r' hr' => hg r' (List.mem_cons_of_mem _ hr'))
    simp only [Spec.sumOpen]
    split
    · next hc =>
      have := hg r List.mem_cons_self hc.1
      linarith
    · linarith

theorem sumOpen_add (g k : Side → ℚ → ℚ) (h : List (Row ℚ)) :
    Spec.sumOpen (fun s e => g s e + k s e) h = Spec.sumOpen g h + Spec.sumOpen k h := by
  induction h with
  | nil => simp [Spec.sumOpen]
  | cons r h ih =>
    simp only [Spec.sumOpen, ih]
    split <;> ring

theorem sumOpen_mul (c : ℚ) (g : Side → ℚ → ℚ) (h : List (Row ℚ)) :
    Spec.sumOpen (fun s e => c * g s e) h = c * Spec.sumOpen g h := by
  induction h with
  | nil => simp [Spec.sumOpen]
  | cons r h ih =>
    simp only [Spec.sumOpen, ih]
    split <;> ring

theorem sumOpen_congr (g k : Side → ℚ → ℚ) (h : List (Row ℚ))
    (hg : ∀ r ∈ h, r.action ≠ .none → g r.action r.stock = k r.action r.stock) :
    Spec.sumOpen g h = Spec.sumOpen k h := by
  induction h with
  | nil => simp [Spec.sumOpen]
  | cons r h ih =>
    have := ih (fun r' hr' => hg r' (List.mem_cons_of_mem _ hr'))
    simp only [Spec.sumOpen, this]
    split
    · next hc => rw [hg r List.mem_cons_self hc.1]
    · rfl

theorem rows_stock_mem {α : Type} [Num α] (P : Params α) (ds : List (Day α)) (r : Row α) (hr : r ∈ (run P ds).rows) :
    (r.stock, r.signal) ∈ ds := by
  have := List.mem_map_of_mem (f := fun r : Row α => (r.stock, r.signal)) hr
  rwa [run_rows_map] at this

end TTI.Sim
