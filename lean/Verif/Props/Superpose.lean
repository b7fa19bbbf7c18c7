import Verif.Spec.Superpose
import Verif.Props.SimFloat
import Verif.Props.Stricter
import Verif.Lemmas.Prices

set_option autoImplicit false

/-!
# C80: without a limit the signals do not interfere

Specification: `Verif/Spec/Superpose.lean`, `Verif/Spec/Ledger.lean`.
-/

namespace TTI.Props

open TTI.Spec Sim

/-- Three histories of the same prices; the positions of the first one are divided among the other two. -/
def Superposed : List (Row ℚ) → List (Row ℚ) → List (Row ℚ) → Prop
  | [], [], [] => True
  | r :: h, a :: h₁, b :: h₂ =>
    (a.stock = r.stock ∧ b.stock = r.stock ∧ (b.action = .none ∧ r.action = a.action ∨ a.action = .none ∧ r.action = b.action)) ∧
      Superposed h h₁ h₂
  | _, _, _ => False

theorem superposed_of_rows (h h₁ h₂ : List (Row ℚ)) (l₁ : h₁.length = h.length) (l₂ : h₂.length = h.length)
    (H : ∀ (i : ℕ) (r a b : Row ℚ), h[i]? = some r → h₁[i]? = some a → h₂[i]? = some b → a.stock = r.stock ∧ b.stock = r.stock ∧
      (b.action = .none ∧ r.action = a.action ∨ a.action = .none ∧ r.action = b.action)) : Superposed h h₁ h₂ := by
  induction h generalizing h₁ h₂ with
  | nil =>
    rw [List.length_nil, List.length_eq_zero_iff] at l₁ l₂
    subst l₁ l₂
    trivial
  | cons r h ih =>
    match h₁, h₂, l₁, l₂ with
    | a :: h₁, b :: h₂, l₁, l₂ =>
      refine ⟨H 0 r a b rfl rfl rfl, ih h₁ h₂ (by simpa using l₁) (by simpa using l₂) fun i x y z hx hy hz => ?_⟩
      exact H (i + 1) x y z (by simpa using hx) (by simpa using hy) (by simpa using hz)

theorem Superposed.stocks : ∀ {h h₁ h₂ : List (Row ℚ)}, Superposed h h₁ h₂ →
    h₁.map (·.stock) = h.map (·.stock) ∧ h₂.map (·.stock) = h.map (·.stock)
  | [], [], [], _ => ⟨rfl, rfl⟩
  | r :: h, a :: h₁, b :: h₂, H => by
    obtain ⟨⟨e1, e2, -⟩, hs⟩ := H
    obtain ⟨h3, h4⟩ := hs.stocks
    simp [e1, e2, h3, h4]

theorem closingPrice_stocks (s : Side) (e : ℚ) (l l' : List (Row ℚ)) (h : l'.map (·.stock) = l.map (·.stock)) :
    closingPrice s e l' = closingPrice s e l := by
  unfold closingPrice
  rw [h]

theorem Superposed.sumOpen (g : Side → ℚ → ℚ) : ∀ {h h₁ h₂ : List (Row ℚ)}, Superposed h h₁ h₂ →
    Spec.sumOpen g h = Spec.sumOpen g h₁ + Spec.sumOpen g h₂
  | [], [], [], _ => by simp [Spec.sumOpen]
  | r :: h, a :: h₁, b :: h₂, H => by
    obtain ⟨⟨e1, e2, e3⟩, hs⟩ := H
    obtain ⟨h3, h4⟩ := hs.stocks
    simp only [Spec.sumOpen, hs.sumOpen g]
    rw [closingPrice_stocks _ _ _ _ h3, closingPrice_stocks _ _ _ _ h4, e1, e2]
    rcases e3 with ⟨e3, e4⟩ | ⟨e3, e4⟩ <;> rw [e3, e4] <;> simp <;> ring

theorem Superposed.realised : ∀ {h h₁ h₂ : List (Row ℚ)}, Superposed h h₁ h₂ →
    Spec.realised h = Spec.realised h₁ + Spec.realised h₂
  | [], [], [], _ => by simp [Spec.realised]
  | r :: h, a :: h₁, b :: h₂, H => by
    obtain ⟨⟨e1, e2, e3⟩, hs⟩ := H
    obtain ⟨h3, h4⟩ := hs.stocks
    simp only [Spec.realised, hs.realised]
    rw [closingPrice_stocks _ _ _ _ h3, closingPrice_stocks _ _ _ _ h4, e1, e2]
    rcases e3 with ⟨e3, e4⟩ | ⟨e3, e4⟩ <;> rw [e3, e4] <;> simp [closingPrice] <;> ring

/-- The position a signal asks for. -/
def sideOf : Signal → Side
  | .buy => .long
  | .sell => .short
  | .hold => .none

theorem action_or_none (P : Params ℚ) (ds : List (Day ℚ)) (i : ℕ) (x : Row ℚ) (hx : (run P ds).rows[i]? = some x) :
    x.action = .none ∨ 1 ≤ i ∧ x.action = sideOf x.signal := by
  cases i with
  | zero => left; rw [row_zero _ _ _ hx]
  | succ i =>
    obtain ⟨prev, -, c, -, ex, -, ha, -⟩ := row_succ _ _ _ _ hx
    rw [ha]
    unfold nextAction
    cases x.signal <;> simp only [sideOf] <;> first | (split <;> simp) | simp

theorem action_unlimited (f : ℚ) (ds : List (Day ℚ)) (i : ℕ) (x : Row ℚ) (hx : (run ⟨none, f⟩ ds).rows[i]? = some x) :
    x.action = if i = 0 then .none else sideOf x.signal := by
  cases i with
  | zero => rw [row_zero _ _ _ hx]; rfl
  | succ i =>
    obtain ⟨prev, -, c, -, ex, -, ha, -⟩ := row_succ _ _ _ _ hx
    rw [ha]
    unfold nextAction limitReached
    cases x.signal <;> simp [sideOf]

theorem history_row (P : Params ℚ) (n : ℕ) (p : ℕ → ℚ) (s : ℕ → Signal) (i : ℕ) (x : Row ℚ)
    (hx : (run P (history n p s)).rows[i]? = some x) : i < n ∧ x.stock = p i ∧ x.signal = s i := by
  have h := row_day P _ i x hx
  unfold history at h
  rw [List.getElem?_map, Option.map_eq_some_iff] at h
  obtain ⟨k, hk, he⟩ := h
  obtain ⟨h1, h2⟩ := List.getElem?_eq_some_iff.1 hk
  rw [List.length_range] at h1
  rw [List.getElem_range] at h2
  subst h2
  exact ⟨h1, (Prod.mk.inj he).1.symm, (Prod.mk.inj he).2.symm⟩

theorem run_length (P : Params ℚ) (ds : List (Day ℚ)) : (run P ds).rows.length = ds.length := by
  have := congrArg List.length (run_rows_map P ds)
  simpa using this

theorem take_row {α : Type} (l : List α) (k i : ℕ) (x : α) (h : (l.take k)[i]? = some x) : i < k ∧ l[i]? = some x := by
  rw [List.getElem?_take] at h
  split at h
  · exact ⟨‹_›, h⟩
  · cases h

/-- C80: without a limit, dividing the signals into two groups (in any way) and running the simulation for each group alone
gives, on every day, parts of the exposure, the portfolio value, the earnings and the balance that add up to those of the
simulation of all signals. -/
theorem C80_superposition (f : ℚ) (hf : 1 ≤ f) (n : ℕ) (p : ℕ → ℚ) (s s₁ s₂ : ℕ → Signal)
    (hs : ∀ i < n, Divided (s i) (s₁ i) (s₂ i)) (i : ℕ) (x x₁ x₂ : Row ℚ)
    (hx : (run ⟨none, f⟩ (history n p s)).rows[i]? = some x) (hx₁ : (run ⟨none, f⟩ (history n p s₁)).rows[i]? = some x₁)
    (hx₂ : (run ⟨none, f⟩ (history n p s₂)).rows[i]? = some x₂) :
    x.exposure = x₁.exposure + x₂.exposure ∧ x.portfolio = x₁.portfolio + x₂.portfolio ∧
      x.earnings = x₁.earnings + x₂.earnings ∧ x.balance = x₁.balance + x₂.balance := by
  have hl : ∀ s, (run ⟨none, f⟩ (history n p s)).rows.length = n := fun s => by rw [run_length]; simp [history]
  have H : Superposed ((run ⟨none, f⟩ (history n p s)).rows.take (i + 1)) ((run ⟨none, f⟩ (history n p s₁)).rows.take (i + 1))
      ((run ⟨none, f⟩ (history n p s₂)).rows.take (i + 1)) := by
    refine superposed_of_rows _ _ _ (by simp [hl]) (by simp [hl]) fun j r a b hr ha hb => ?_
    replace hr := (take_row _ _ _ _ hr).2
    replace ha := (take_row _ _ _ _ ha).2
    replace hb := (take_row _ _ _ _ hb).2
    obtain ⟨hj, r1, r2⟩ := history_row _ _ _ _ _ _ hr
    obtain ⟨-, a1, a2⟩ := history_row _ _ _ _ _ _ ha
    obtain ⟨-, b1, b2⟩ := history_row _ _ _ _ _ _ hb
    rw [action_unlimited _ _ _ _ hr, action_unlimited _ _ _ _ ha, action_unlimited _ _ _ _ hb, r1, r2, a1, a2, b1, b2]
    refine ⟨rfl, rfl, ?_⟩
    rcases hs j hj with ⟨h1, h2⟩ | ⟨h1, h2⟩ <;> rw [h1, h2] <;> simp [sideOf]
  obtain ⟨h1, h2⟩ := row_ledger _ (by show (0 : ℚ) < f; linarith) _ _ _ hx
  obtain ⟨h3, h4⟩ := row_ledger _ (by show (0 : ℚ) < f; linarith) _ _ _ hx₁
  obtain ⟨h5, h6⟩ := row_ledger _ (by show (0 : ℚ) < f; linarith) _ _ _ hx₂
  obtain ⟨h7, h7'⟩ := C06_portfolio_value_of_ledger _ hf _ _ _ hx
  obtain ⟨h8, h8'⟩ := C06_portfolio_value_of_ledger _ hf _ _ _ hx₁
  obtain ⟨h9, h9'⟩ := C06_portfolio_value_of_ledger _ hf _ _ _ hx₂
  have he : x.exposure = x₁.exposure + x₂.exposure := by rw [h1, h3, h5]; exact H.sumOpen _
  have hr : x.earnings = x₁.earnings + x₂.earnings := by rw [h2, h4, h6]; exact H.realised
  have hp : x.portfolio = x₁.portfolio + x₂.portfolio := by
    rw [h7, h8, h9]
    unfold numOpen
    rw [H.sumOpen, H.sumOpen, (history_row _ _ _ _ _ _ hx).2.1, (history_row _ _ _ _ _ _ hx₁).2.1,
      (history_row _ _ _ _ _ _ hx₂).2.1]
    ring
  exact ⟨he, hp, hr, by rw [h7', h8', h9', hp, hr]; ring⟩

/-- C80: in particular the simulation without a limit is the sum of the simulation of its buy signals alone and the simulation
of its sell signals alone. -/
theorem C80_longs_and_shorts (f : ℚ) (hf : 1 ≤ f) (n : ℕ) (p : ℕ → ℚ) (s : ℕ → Signal) (i : ℕ) (x x₁ x₂ : Row ℚ)
    (hx : (run ⟨none, f⟩ (history n p s)).rows[i]? = some x)
    (hx₁ : (run ⟨none, f⟩ (history n p fun i => only .buy (s i))).rows[i]? = some x₁)
    (hx₂ : (run ⟨none, f⟩ (history n p fun i => only .sell (s i))).rows[i]? = some x₂) :
    x.exposure = x₁.exposure + x₂.exposure ∧ x.portfolio = x₁.portfolio + x₂.portfolio ∧
      x.earnings = x₁.earnings + x₂.earnings ∧ x.balance = x₁.balance + x₂.balance :=
  C80_superposition f hf n p s _ _ (fun i _ => by cases h : s i <;> simp [Divided, only]) i x x₁ x₂ hx hx₁ hx₂

theorem realised_nonneg : ∀ h : List (Row ℚ), 0 ≤ Spec.realised h
  | [] => le_refl _
  | r :: h => by
    have := realised_nonneg h
    simp only [Spec.realised]
    cases hc : closingPrice r.action r.stock h with
    | none => simpa using this
    | some q =>
      have : 0 ≤ profit r.action r.stock q := by
        unfold closingPrice at hc
        cases ha : r.action with
        | none => rw [ha] at hc; cases hc
        | long =>
          rw [ha] at hc
          have := List.find?_some hc
          simp only [decide_eq_true_eq] at this
          simp only [profit]; linarith
        | short =>
          rw [ha] at hc
          have := List.find?_some hc
          simp only [decide_eq_true_eq] at this
          simp only [profit]; linarith
      simp only
      linarith

/-- The positions of `h` that `h₁` does not have, as a history. -/
theorem superposed_rest : ∀ (h h₁ : List (Row ℚ)), h₁.length = h.length →
    (∀ (i : ℕ) (r a : Row ℚ), h[i]? = some r → h₁[i]? = some a → a.stock = r.stock ∧ (a.action = .none ∨ a.action = r.action)) →
    ∃ h₂, Superposed h h₁ h₂ ∧ ∀ r₂ ∈ h₂, ∃ r ∈ h, r₂.stock = r.stock
  | [], [], _, _ => ⟨[], trivial, by simp⟩
  | r :: h, a :: h₁, hl, H => by
    obtain ⟨h₂, h3, h4⟩ := superposed_rest h h₁ (by simpa using hl) fun i x y hx hy =>
      H (i + 1) x y (by simpa using hx) (by simpa using hy)
    obtain ⟨e1, e2⟩ := H 0 r a rfl rfl
    refine ⟨{ r with action := if a.action = .none then r.action else .none } :: h₂, ⟨⟨e1, rfl, ?_⟩, h3⟩, ?_⟩
    · by_cases hn : a.action = .none
      · right; simp [hn]
      · left; simp only [hn, if_false]; exact ⟨trivial, (e2.resolve_left hn).symm⟩
    · intro r₂ hr
      rcases List.mem_cons.1 hr with rfl | hr
      · exact ⟨r, List.mem_cons_self, rfl⟩
      · obtain ⟨r', h5, h6⟩ := h4 _ hr
        exact ⟨r', List.mem_cons_of_mem _ h5, h6⟩

/-- The general comparison: a run whose positions are all opened by another run of the same prices too. -/
theorem fewer_positions (M M' : Option ℚ) (f : ℚ) (hf : 1 ≤ f) (n : ℕ) (p : ℕ → ℚ) (s s' : ℕ → Signal)
    (H : ∀ (j : ℕ) (r a : Row ℚ), (run ⟨M, f⟩ (history n p s)).rows[j]? = some r →
      (run ⟨M', f⟩ (history n p s')).rows[j]? = some a → a.action = .none ∨ a.action = r.action) (i : ℕ) (x x' : Row ℚ)
    (hx : (run ⟨M, f⟩ (history n p s)).rows[i]? = some x) (hx' : (run ⟨M', f⟩ (history n p s')).rows[i]? = some x') :
    x'.earnings ≤ x.earnings ∧ ((∀ j < n, 0 ≤ p j) → x'.exposure ≤ x.exposure) := by
  have hl : ∀ M s, (run ⟨M, f⟩ (history n p s)).rows.length = n := fun M s => by rw [run_length]; simp [history]
  obtain ⟨h₂, hS, hm⟩ := superposed_rest ((run ⟨M, f⟩ (history n p s)).rows.take (i + 1))
    ((run ⟨M', f⟩ (history n p s')).rows.take (i + 1)) (by simp [hl]) fun j r a hr ha => by
      replace hr := (take_row _ _ _ _ hr).2
      replace ha := (take_row _ _ _ _ ha).2
      refine ⟨?_, H j r a hr ha⟩
      rw [(history_row _ _ _ _ _ _ hr).2.1, (history_row _ _ _ _ _ _ ha).2.1]
  obtain ⟨h1, h2⟩ := row_ledger _ (by show (0 : ℚ) < f; linarith) _ _ _ hx
  obtain ⟨h3, h4⟩ := row_ledger _ (by show (0 : ℚ) < f; linarith) _ _ _ hx'
  constructor
  · rw [h2, h4, hS.realised]
    linarith [realised_nonneg h₂]
  · intro hp
    rw [h1, h3]
    unfold Spec.exposure
    rw [hS.sumOpen]
    have : 0 ≤ Spec.sumOpen (entryExposure f) h₂ := by
      refine sumOpen_nonneg _ _ fun r hr ha => ?_
      obtain ⟨r', h5, h6⟩ := hm r hr
      obtain ⟨k, hk⟩ := List.mem_iff_getElem?.1 h5
      obtain ⟨h7, h8, -⟩ := history_row _ _ _ _ _ _ (take_row _ _ _ _ hk).2
      have := hp k h7
      rw [h6, h8]
      unfold entryExposure
      cases r.action <;> simp only <;> first | exact le_refl _ | exact this | exact mul_nonneg (by linarith) this
    linarith

/-- C80: without a limit, fewer signals never earn more: if every signal of `s'` is one of `s`, then on every day the earnings
with `s'` are at most those with `s`, and so is the exposure if no price is negative. -/
theorem C80_fewer_signals (f : ℚ) (hf : 1 ≤ f) (n : ℕ) (p : ℕ → ℚ) (s s' : ℕ → Signal)
    (hs : ∀ i < n, s' i = .hold ∨ s' i = s i) (i : ℕ) (x x' : Row ℚ)
    (hx : (run ⟨none, f⟩ (history n p s)).rows[i]? = some x) (hx' : (run ⟨none, f⟩ (history n p s')).rows[i]? = some x') :
    x'.earnings ≤ x.earnings ∧ ((∀ j < n, 0 ≤ p j) → x'.exposure ≤ x.exposure) := by
  refine fewer_positions none none f hf n p s s' (fun j r a hr ha => ?_) i x x' hx hx'
  rw [action_unlimited _ _ _ _ hr, action_unlimited _ _ _ _ ha]
  obtain ⟨hj, -, h1⟩ := history_row _ _ _ _ _ _ hr
  obtain ⟨-, -, h2⟩ := history_row _ _ _ _ _ _ ha
  rw [h1, h2]
  rcases hs j hj with h | h <;> rw [h] <;> simp [sideOf]

/-- C80: no limit earns more than no limit at all: on every day the earnings with a limit are at most those without, and so is the
exposure if no price is negative. -/
theorem C80_no_limit_earns_most (M : Option ℚ) (f : ℚ) (hf : 1 ≤ f) (n : ℕ) (p : ℕ → ℚ) (s : ℕ → Signal) (i : ℕ) (x x' : Row ℚ)
    (hx : (run ⟨none, f⟩ (history n p s)).rows[i]? = some x) (hx' : (run ⟨M, f⟩ (history n p s)).rows[i]? = some x') :
    x'.earnings ≤ x.earnings ∧ ((∀ j < n, 0 ≤ p j) → x'.exposure ≤ x.exposure) := by
  refine fewer_positions none M f hf n p s s (fun j r a hr ha => ?_) i x x' hx hx'
  rw [action_unlimited _ _ _ _ hr]
  rcases action_or_none _ _ _ _ ha with h | ⟨h0, h⟩
  · exact Or.inl h
  · right
    rw [h, if_neg (by omega), (history_row _ _ _ _ _ _ hr).2.2, (history_row _ _ _ _ _ _ ha).2.2]

/-- With a limit neither is true: on the prices 10, 10, 5, 8 with buy signals on the second and third day, a limit of 12 earns
nothing and the smaller limit 8 earns 3; and with the limit 12 the second buy signal alone earns 3, both together nothing. -/
theorem C80_limit_interferes :
    ∃ (p : ℕ → ℚ) (s s' : ℕ → Signal), (∀ i, s' i = .hold ∨ s' i = s i) ∧
      ((run ⟨some 12, 1⟩ (history 4 p s)).rows[3]?.map (·.earnings) = some 0) ∧
      ((run ⟨some 8, 1⟩ (history 4 p s)).rows[3]?.map (·.earnings) = some 3) ∧
      ((run ⟨some 12, 1⟩ (history 4 p s')).rows[3]?.map (·.earnings) = some 3) := by
  refine ⟨fun i => [10, 10, 5, 8].getD i 0, fun i => [.hold, .buy, .buy].getD i .hold,
    fun i => [.hold, .hold, .buy].getD i .hold, fun i => ?_, by decide +kernel, by decide +kernel, by decide +kernel⟩
  match i with
  | 0 => left; rfl
  | 1 => left; rfl
  | 2 => right; rfl
  | i + 3 => left; rfl

/-- The hypotheses are met: longs and shorts on the prices 10, 9, 12, 11, 8; on the third day the long is closed and a short is
open. -/
example : (run ⟨none, 2⟩ (history 5 (fun i => [10, 9, 12, 11, 8].getD i 0) fun i => [.buy, .buy, .sell, .buy].getD i .hold)).rows[3]? =
    some (⟨.buy, .long, 11, 11, 11, 4, 15⟩ : Row ℚ) ∧
    (run ⟨none, 2⟩ (history 5 (fun i => [10, 9, 12, 11, 8].getD i 0)
      fun i => only .buy ([.buy, .buy, .sell, .buy].getD i .hold))).rows[3]? = some (⟨.buy, .long, 11, 11, 11, 3, 14⟩ : Row ℚ) ∧
    (run ⟨none, 2⟩ (history 5 (fun i => [10, 9, 12, 11, 8].getD i 0)
      fun i => only .sell ([.buy, .buy, .sell, .buy].getD i .hold))).rows[3]? = some (⟨.hold, .none, 11, 0, 0, 1, 1⟩ : Row ℚ) := by
  decide +kernel

/-! ### The same for simulations of the API -/

theorem history_take (n k : ℕ) (p : ℕ → ℚ) (s : ℕ → Signal) (h : k ≤ n) : (history n p s).take k = history k p s := by
  unfold history
  rw [← List.map_take, List.take_range, min_eq_left h]

theorem factor_ge_one (a : PyArg) (q : ℚ) (v : Val) (hq : a.asNumber = some (.fin q)) (h : checkFactor a = .ok v) :
    v = .fin q ∧ 1 ≤ q := by
  unfold checkFactor at h
  rw [hq] at h
  simp only at h
  split at h
  · cases h
  · rename_i hn
    refine ⟨(Except.ok.inj h).symm, ?_⟩
    by_contra hlt
    exact hn (by show decide (q < 1) = true; simpa using hlt)

theorem limit_not_ninf (a : PyArg) (M : Option Val) (h : checkMaxExposure a = .ok M) : M ≠ some .ninf := by
  rintro rfl
  unfold checkMaxExposure at h
  cases ha : a.asNumber with
  | none => rw [ha] at h; simp only at h; split at h <;> cases h
  | some v =>
    rw [ha] at h
    simp only at h
    split at h
    · cases h
    · rename_i hn
      obtain rfl := Option.some.inj (Except.ok.inj h)
      exact hn rfl

variable {E : Env} {c c' : Call} {f f' g : RawFrame} {fill fill' : Bool} {o o' : Obj}

/-- A simulation on closes that are numbers, row by row, as an exact run. -/
theorem exact_rows (hw : WF f) (h : (construct E c (.frame f) (.bool fill)).2 = .ok o) (hg : WF g)
    (hn : g.EachRow ["close"] AnyPrices) (m fac : PyArg) (q : ℚ) (hq : fac.asNumber = some (.fin q)) (r : SimResult)
    (hr : (o.getTiSimulation (.frame g) m fac).2.2 = .ok r) :
    1 ≤ q ∧ ∃ (M : Option ℚ) (sig : ℕ → Signal), (m = .none → M = none) ∧
      (∀ i < o.getTiData.idx.length, ∃ o', o.cut i = some o' ∧ o'.getTiSignal = .ok (sig i)) ∧
      (∀ P, g.EachRow ["close"] P → ∀ j < o.getTiData.idx.length, ∃ x, P x ∧ x "close" = price g "close" j) ∧
      ∀ i row, RowOn r i row → i < o.getTiData.idx.length ∧ row.signal = sig i ∧
        ∃ x, (run ⟨M, q⟩ (history (i + 1) (price g "close") sig)).rows[i]? = some x ∧
          row.earnings = .fin x.earnings ∧ row.exposure = .fin x.exposure ∧ row.portfolio = .fin x.portfolio ∧
          row.balance = .fin x.balance := by
  obtain ⟨-, hlen, hrows, S, sig, hS, hsig, st, hst, -, hget⟩ := C23_rounds E c f fill o hw h _ m fac r hr
  obtain ⟨hs, -, hidx, hl, -⟩ := construct_sound E c f fill o hw h
  have hle : o.getTiData.idx.length ≤ o.input.idx.length := hs.shaped.rowsLe
  unfold setupSimulation at hS
  simp only [Bool.true_eq_false, if_false] at hS
  rcases hv : validateInputData (.frame g) ["close"] true with ⟨caller, _ | F⟩
  · rw [hv] at hS; cases hS
  rw [hv] at hS
  simp only at hS
  split at hS
  · cases hS
  rename_i hFi
  rw [not_not] at hFi
  cases hM : checkMaxExposure m with
  | error e => rw [hM] at hS; cases hS
  | ok M =>
  rw [hM] at hS
  simp only at hS
  cases hF : checkFactor fac with
  | error e => rw [hF] at hS; cases hS
  | ok v =>
  rw [hF] at hS
  simp only [Except.ok.injEq] at hS
  obtain ⟨rfl, hq1⟩ := factor_ge_one fac q v hq hF
  subst hS
  have hv2 : (validateInputData (.frame g) ["close"] true).2 = .ok F := by rw [hv]
  have hFidx := (validated_good g _ _ _ hg hv2).2
  have hgl : ∀ j < o.getTiData.idx.length, j < g.idx.length := fun j hj => by
    have : g.idx.length = o.input.idx.length := by
      rw [← (sortIdx_perm g.idx).length_eq, ← hFidx, hFi, (sortIdx_perm _).length_eq]
    omega
  have hclose' : ∀ P, g.EachRow ["close"] P → ∀ j < o.getTiData.idx.length,
      (F.col "close").getD j .nan = .fin (price g "close" j) ∧ ∃ x, P x ∧ x "close" = price g "close" j := fun P hP j hj => by
    have h1 := eachRow_validated g _ ["close"] _ _ F hg hv2 (fun n hn => hn) hP
    have hj' : j < F.len := by
      unfold Frame.len
      rw [hFidx, (sortIdx_perm _).length_eq]
      exact hgl j hj
    obtain ⟨x, hx, hPx⟩ := h1 j hj'
    have h2 : val (F.col "close") j = .fin (x "close") := hx "close" (by simp)
    have h3 := validated_day g _ _ _ F hg hv2 hn "close" (by simp) j
    have h4 : price g "close" j = x "close" := by unfold price; rw [← h3, h2]; rfl
    exact ⟨by rw [h4]; exact h2, x, hPx, h4.symm⟩
  have hclose := fun j hj => (hclose' _ hn j hj).1
  refine ⟨hq1, exactLimit M, sig, ?_, hsig, fun P hP j hj => (hclose' P hP j hj).2, fun i row hrow => ?_⟩
  · rintro rfl
    cases hM
    rfl
  · have hi : i < f.idx.length := by rw [← hlen]; exact (List.getElem?_eq_some_iff.1 hrow).1
    have hi' := (hrows i hi).1 ⟨row, hrow⟩
    obtain ⟨row', h3, h4⟩ := hget i hi'
    unfold RowOn at hrow
    rw [h4] at hrow
    simp only [Option.some.injEq] at hrow
    subst hrow
    have hds : ((List.range o.getTiData.idx.length).map fun i => ((F.col "close").getD i .nan, sig i)) =
        (history o.getTiData.idx.length (price g "close") sig).map fun d => (Val.fin d.1, d.2) := by
      unfold history
      rw [List.map_map]
      refine List.map_congr_left fun j hj => ?_
      rw [List.mem_range] at hj
      rw [hclose j hj]
      rfl
    rw [hst] at h3
    simp only at h3
    rw [hds, C16_float_run_is_exact M (limit_not_ninf m M hM) q hq1, List.getElem?_map, Option.map_eq_some_iff] at h3
    obtain ⟨x, hx, rfl⟩ := h3
    refine ⟨hi', (history_row _ _ _ _ _ _ hx).2.2, x, ?_, rfl, rfl, rfl, rfl⟩
    rw [← history_take _ _ _ _ (show i + 1 ≤ o.getTiData.idx.length by omega), run_rows_take, List.getElem?_take, if_pos (by omega), hx]

theorem same_signal {oc : Option Obj} {a b : Signal} (h1 : ∃ o', oc = some o' ∧ o'.getTiSignal = .ok a)
    (h2 : ∃ o', oc = some o' ∧ o'.getTiSignal = .ok b) : a = b := by
  obtain ⟨o1, e1, h1⟩ := h1
  obtain ⟨o2, e2, h2⟩ := h2
  rw [e1] at e2
  obtain rfl := Option.some.inj e2
  rw [h1] at h2
  exact Except.ok.inj h2

/-- C80: two simulations without a limit on the same closes (numbers), of any two objects. If every signal of the second is
given by the first on the same day, the second never earns more on any day; nor is its exposure larger if no close is
negative. With C79: without a limit, wider bands never earn more than narrower ones. -/
theorem C80_simulation_fewer (hw : WF f) (h : (construct E c (.frame f) (.bool fill)).2 = .ok o) (hw' : WF f')
    (h' : (construct E c' (.frame f') (.bool fill')).2 = .ok o') (hg : WF g) (hn : g.EachRow ["close"] AnyPrices) (fac : PyArg)
    (q : ℚ) (hq : fac.asNumber = some (.fin q)) (r r' : SimResult) (hr : (o.getTiSimulation (.frame g) .none fac).2.2 = .ok r)
    (hr' : (o'.getTiSimulation (.frame g) .none fac).2.2 = .ok r')
    (hs : ∀ i s, s ≠ .hold → SignalOn r' i s → SignalOn r i s) (i : ℕ) (row row' : Row Val) (hrow : RowOn r i row)
    (hrow' : RowOn r' i row') :
    row'.earnings ≤ᵥ row.earnings ∧ (g.EachRow ["close"] (fun x => 0 ≤ x "close") → row'.exposure ≤ᵥ row.exposure) := by
  obtain ⟨hq1, M, sig, hM, hsig, hp, hget⟩ := exact_rows hw h hg hn _ _ q hq r hr
  obtain ⟨-, M', sig', hM', hsig', -, hget'⟩ := exact_rows hw' h' hg hn _ _ q hq r' hr'
  obtain rfl := hM rfl
  obtain rfl := hM' rfl
  obtain ⟨hi, -, x, hx, e1, e2, -⟩ := hget i row hrow
  obtain ⟨hi', -, x', hx', e1', e2', -⟩ := hget' i row' hrow'
  have hsig2 : ∀ j < i + 1, sig' j = .hold ∨ sig' j = sig j := fun j hj => by
    by_cases hh : sig' j = .hold
    · exact Or.inl hh
    · right
      obtain ⟨s1, t1, t2, -⟩ := simulation_signals hw h _ _ _ r hr
      obtain ⟨s2, t1', t2', -⟩ := simulation_signals hw' h' _ _ _ r' hr'
      have e := same_signal (t1 j (by omega)) (hsig j (by omega))
      have e' := same_signal (t1' j (by omega)) (hsig' j (by omega))
      have := ((t2 j _).1 (hs j (sig' j) hh ((t2' j _).2 ⟨by omega, e'⟩))).2
      rw [← e, this]
  obtain ⟨h1, h2⟩ := C80_fewer_signals q hq1 (i + 1) _ sig sig' hsig2 i x x' hx hx'
  rw [e1, e2, e1', e2']
  refine ⟨by show decide _ = true; simpa using h1, fun hnn => ?_⟩
  have := h2 fun j hj => by
    obtain ⟨y, hy, hy'⟩ := hp _ hnn j (by omega)
    rw [← hy']
    exact hy
  show decide _ = true
  simpa using this

/-- C80: for one object and the same closes, no limit earns at least as much as any limit, on every day; and its exposure is
at least as large if no close is negative. -/
theorem C80_simulation_no_limit (hw : WF f) (h : (construct E c (.frame f) (.bool fill)).2 = .ok o) (hg : WF g)
    (hn : g.EachRow ["close"] AnyPrices) (m fac : PyArg) (q : ℚ) (hq : fac.asNumber = some (.fin q)) (r r' : SimResult)
    (hr : (o.getTiSimulation (.frame g) .none fac).2.2 = .ok r) (hr' : (o.getTiSimulation (.frame g) m fac).2.2 = .ok r')
    (i : ℕ) (row row' : Row Val) (hrow : RowOn r i row) (hrow' : RowOn r' i row') :
    row'.earnings ≤ᵥ row.earnings ∧ (g.EachRow ["close"] (fun x => 0 ≤ x "close") → row'.exposure ≤ᵥ row.exposure) := by
  obtain ⟨hq1, M, sig, hM, hsig, hp, hget⟩ := exact_rows hw h hg hn _ _ q hq r hr
  obtain ⟨-, M', sig', -, hsig', -, hget'⟩ := exact_rows hw h hg hn _ _ q hq r' hr'
  obtain rfl := hM rfl
  obtain ⟨hi, -, x, hx, e1, e2, -⟩ := hget i row hrow
  obtain ⟨hi', -, x', hx', e1', e2', -⟩ := hget' i row' hrow'
  have hh : history (i + 1) (price g "close") sig' = history (i + 1) (price g "close") sig := by
    unfold history
    refine List.map_congr_left fun j hj => ?_
    rw [List.mem_range] at hj
    rw [same_signal (hsig' j (by omega)) (hsig j (by omega))]
  rw [hh] at hx'
  obtain ⟨h1, h2⟩ := C80_no_limit_earns_most M' q hq1 (i + 1) _ sig i x x' hx hx'
  rw [e1, e2, e1', e2']
  refine ⟨by show decide _ = true; simpa using h1, fun hnn => ?_⟩
  have := h2 fun j hj => by
    obtain ⟨y, hy, hy'⟩ := hp _ hnn j (by omega)
    rw [← hy']
    exact hy
  show decide _ = true
  simpa using this

/-- The earnings of a simulation, day by day. -/
def earningsOf (E : Env) (c : Call) (f : RawFrame) (m : PyArg) : Option (List (Option Val)) :=
  match (construct E c (.frame f) (.bool true)).2 with
  | .ok o =>
    match (o.getTiSimulation (.frame f) m (.float (.fin (3 / 2)))).2.2 with
    | .ok r => some (r.rows.map fun x => x.map (·.earnings))
    | .error _ => none
  | .error _ => none

/-- `C80_simulation_fewer` (with `C79_price_channel`) and `C80_simulation_no_limit` apply on seven days: without a limit the price
channel of one day earns 11, with a limit of 12 it earns 7, and that of three days, which gives fewer signals, earns 7. -/
example : WF (sideways [10, 10, 13, 9, 9, 7, 14]) ∧
    (sideways [10, 10, 13, 9, 9, 7, 14]).EachRow ["close"] AnyPrices ∧
    (sideways [10, 10, 13, 9, 9, 7, 14]).EachRow ["close"] (fun x => 0 ≤ x "close") ∧
    (PyArg.float (.fin (3 / 2))).asNumber = some (.fin (3 / 2)) ∧
    earningsOf demoEnv (.priceChannel (.int 1)) (sideways [10, 10, 13, 9, 9, 7, 14]) .none =
      some (([0, 0, 0, 4, 4, 4, 11] : List ℚ).map fun q => some (.fin q)) ∧
    earningsOf demoEnv (.priceChannel (.int 1)) (sideways [10, 10, 13, 9, 9, 7, 14]) (.int 12) =
      some (([0, 0, 0, 0, 0, 0, 7] : List ℚ).map fun q => some (.fin q)) ∧
    earningsOf demoEnv (.priceChannel (.int 3)) (sideways [10, 10, 13, 9, 9, 7, 14]) .none =
      some (([0, 0, 0, 0, 0, 0, 7] : List ℚ).map fun q => some (.fin q)) := by
  have hrow : ∀ P : (String → ℚ) → Prop, (∀ q ∈ [10, 10, 13, 9, 9, 7, 14], ∀ x : String → ℚ, x "close" = q → P x) →
      (sideways [10, 10, 13, 9, 9, 7, 14]).EachRow ["close"] P := by
    intro P hP j hj
    have hj' : j < 7 := by simpa [sideways] using hj
    refine ⟨fun _ => ([10, 10, 13, 9, 9, 7, 14] : List ℚ)[j], fun m hm => ?_, hP _ (List.getElem_mem _) _ rfl⟩
    obtain rfl : m = "close" := by simpa using hm
    have e1 : "High".toLower = "high" := by decide +kernel
    have e2 : "Low".toLower = "low" := by decide +kernel
    have e3 : "Close".toLower = "close" := by decide +kernel
    simp only [RawFrame.cell, sideways, Label.lower, e1, e2, e3, List.find?]
    interval_cases j <;> rfl
  refine ⟨?_, hrow _ fun _ _ _ _ => trivial, hrow _ fun q hq x hx => ?_, rfl, by decide +kernel, by decide +kernel, by decide +kernel⟩
  · intro c hc
    simp only [sideways, List.mem_cons, List.not_mem_nil, or_false] at hc
    rcases hc with rfl | rfl | rfl <;> simp [sideways]
  · rw [hx]
    simp only [List.mem_cons, List.not_mem_nil, or_false] at hq
    rcases hq with rfl | rfl | rfl | rfl | rfl | rfl | rfl <;> norm_num

end TTI.Props
