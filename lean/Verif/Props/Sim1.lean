import Verif.Lemmas.SimRows

set_option autoImplicit false

/-!
# Properties of the simulation: exposure, earnings, balance (C01-C06)

`run P ds` is the simulation of the days `ds` (close price and signal of each day) with the arguments `P`;
`(run P ds).rows[i]?` is row `i` of the returned simulation data.
-/

namespace TTI.Props

open Sim

/-- A small history used to show that the hypotheses below are met: a long is opened and closed at a profit, a short is
opened and stays open. -/
def demo : List (Day ℚ) := [(10, .hold), (10, .buy), (12, .sell), (13, .hold)]

/-- Arguments used with `demo`. -/
def demoP : Params ℚ := ⟨some 40, 3 / 2⟩

/-- C01: on every day the exposure is the sum of the entry exposures of the positions open at the end of that day. -/
theorem C01_exposure_is_sum_of_open (P : Params ℚ) (hf : 1 ≤ P.factor) (ds : List (Day ℚ)) (i : ℕ) (x : Row ℚ)
    (hx : (run P ds).rows[i]? = some x) :
    x.exposure = Spec.exposure P.factor ((run P ds).rows.take (i + 1)) :=
  (row_ledger P (by linarith) ds i x hx).1

example : 1 ≤ demoP.factor ∧ ∃ x ∈ (run demoP demo).rows[3]?, x.exposure = 18 := by decide +kernel

/-- C02: with non-negative prices the exposure is between 0 and `max_exposure` on every day. -/
theorem C02_exposure_within_limit (m f : ℚ) (hm : 0 < m) (hf : 1 ≤ f) (ds : List (Day ℚ))
    (hp : ∀ d ∈ ds, 0 ≤ d.1) (i : ℕ) (x : Row ℚ) (hx : (run ⟨some m, f⟩ ds).rows[i]? = some x) :
    0 ≤ x.exposure ∧ x.exposure ≤ m := by
  have hf0 : (0 : ℚ) < f := by linarith
  have hent : ∀ r ∈ (run ⟨some m, f⟩ ds).rows, r.action ≠ .none → 0 ≤ Spec.entryExposure f r.action r.stock := by
    intro r hr _
    have h0 : 0 ≤ r.stock := hp _ (rows_stock_mem _ _ _ hr)
    cases r.action <;> simp only [Spec.entryExposure] <;> positivity
  constructor
  · rw [(row_ledger ⟨some m, f⟩ hf0 ds i x hx).1]
    exact sumOpen_nonneg _ _ fun r hr => hent r (List.mem_of_mem_take hr)
  · induction i generalizing x with
    | zero => rw [row_zero _ _ _ hx]; simpa using hm.le
    | succ i ih =>
      obtain ⟨prev, hprev, c, hc, ex, hex, hact, hexp, -⟩ := row_succ _ _ _ _ hx
      have h1 := ih prev hprev
      have h2 : 0 ≤ c.closedExposure := by
        rw [hc, run_portfolio, closing_closedExposure _ hf0]
        apply closedBy_nonneg
        intro r hr ha _
        rw [run_rows_take] at hr
        exact hent r (List.mem_of_mem_take hr) ha
      have h3 : ex ≤ m := by rw [hex]; simp only [num_sub]; linarith
      rw [hexp, hact]
      cases x.signal <;> simp only [nextAction, limitReached, num_lt, num_add, num_mul]
      · by_cases h : m < ex + x.stock
        · simp [h, nextExposure, h3]
        · simp [h, nextExposure]; linarith
      · simpa [nextExposure] using h3
      · by_cases h : m < ex + f * x.stock
        · simp [h, nextExposure, h3]
        · simp [h, nextExposure]; linarith

example : (∀ d ∈ demo, 0 ≤ d.1) ∧ (run ⟨some 12, 3 / 2⟩ demo).rows[2]? ≠ none := by decide +kernel

/-- C02: the hypothesis on the prices is needed: with negative prices closing a position can push the exposure over the
limit (a short opened at -3 offsets a long opened at 3; when it is closed the exposure rises to 3). -/
theorem C02_negative_prices_break_limit :
    ∃ (ds : List (Day ℚ)), ∃ x ∈ (run ⟨some (1 / 2), 1⟩ ds).rows[3]?, 1 / 2 < x.exposure :=
  ⟨[(0, .hold), (-3, .sell), (3, .buy), (-4, .hold)], by decide +kernel⟩

/-- The positions opened on day `j` of a history and still open at the end of day `e`. -/
def openAt (h : List (Row ℚ)) (j e : ℕ) : Prop :=
  ∃ r, h[j]? = some r ∧ r.action ≠ .none ∧ Spec.closingPrice r.action r.stock ((h.take (e + 1)).drop (j + 1)) = none

/-- C03: earnings never decrease from one day to the next. -/
theorem C03_earnings_monotone (P : Params ℚ) (hf : 1 ≤ P.factor) (ds : List (Day ℚ)) (i : ℕ) (x y : Row ℚ)
    (hx : (run P ds).rows[i]? = some x) (hy : (run P ds).rows[i + 1]? = some y) : x.earnings ≤ y.earnings := by
  have hf0 : 0 < P.factor := by linarith
  obtain ⟨prev, hprev, c, hc, ex, hex, -, -, hea, -⟩ := row_succ _ _ _ _ hy
  rw [hx] at hprev
  obtain rfl := Option.some.inj hprev
  have h2 : 0 ≤ c.earnings := by
    rw [hc, run_portfolio, closing_earnings _ hf0]
    apply closedBy_nonneg
    rintro r - - (⟨h, h'⟩ | ⟨h, h'⟩) <;> rw [h] <;> simp only [Spec.profit] <;> linarith
  rw [hea]; simp only [num_add]; linarith

/-- C03: earnings are never negative. -/
theorem C03_earnings_nonneg (P : Params ℚ) (hf : 1 ≤ P.factor) (ds : List (Day ℚ)) (i : ℕ) (x : Row ℚ)
    (hx : (run P ds).rows[i]? = some x) : 0 ≤ x.earnings := by
  induction i generalizing x with
  | zero => rw [row_zero _ _ _ hx]; simp
  | succ i ih =>
    obtain ⟨prev, hprev, -⟩ := row_succ _ _ _ _ hx
    exact (ih prev hprev).trans (C03_earnings_monotone P hf ds i prev x hprev hx)

theorem closedBy_pos (g : Side → ℚ → ℚ) (p : ℚ) (h : List (Row ℚ))
    (hg : ∀ r ∈ h, ((r.action = .long ∧ r.stock < p) ∨ (r.action = .short ∧ p < r.stock)) → 0 < g r.action r.stock)
    (j : ℕ) (r : Row ℚ) (hr : h[j]? = some r) (ho : isOpen r (h.drop (j + 1)))
    (hc : (r.action = .long ∧ r.stock < p) ∨ (r.action = .short ∧ p < r.stock)) : 0 < closedBy g p h := by
  induction h generalizing j with
  | nil => simp at hr
  | cons a h ih =>
    have hrest : 0 ≤ closedBy g p h :=
      closedBy_nonneg g p h fun r' hr' _ hc' => (hg r' (List.mem_cons_of_mem _ hr') hc').le
    simp only [closedBy]
    cases j with
    | zero =>
      simp only [List.getElem?_cons_zero, Option.some.injEq] at hr
      subst hr
      simp only [List.drop_succ_cons, List.drop_zero] at ho
      rw [if_pos ⟨ho, hc⟩]
      have := hg a List.mem_cons_self hc
      linarith
    | succ j =>
      have := ih (fun r' hr' => hg r' (List.mem_cons_of_mem _ hr')) j (by simpa using hr) (by simpa using ho)
      split
      · next h' =>
        have := hg a List.mem_cons_self h'.2
        linarith
      · linarith

/-- C03: on a day that closes at least one position, earnings strictly increase. -/
theorem C03_earnings_strict (P : Params ℚ) (hf : 1 ≤ P.factor) (ds : List (Day ℚ)) (i j : ℕ) (x y : Row ℚ)
    (hx : (run P ds).rows[i]? = some x) (hy : (run P ds).rows[i + 1]? = some y) (hji : j ≤ i)
    (hopen : openAt (run P ds).rows j i) (hclosed : ¬ openAt (run P ds).rows j (i + 1)) :
    x.earnings < y.earnings := by
  have hf0 : 0 < P.factor := by linarith
  obtain ⟨r, hr, ha, ho⟩ := hopen
  have hclosed' : Spec.closingPrice r.action r.stock (((run P ds).rows.take (i + 1 + 1)).drop (j + 1)) ≠ none :=
    fun h => hclosed ⟨r, hr, ha, h⟩
  have htake : (run P ds).rows.take (i + 1 + 1) = (run P ds).rows.take (i + 1) ++ [y] := by
    rw [List.take_add_one, hy]; rfl
  have hlen : j + 1 ≤ ((run P ds).rows.take (i + 1)).length := by
    rw [List.length_take]
    have : i + 1 < (run P ds).rows.length := (List.getElem?_eq_some_iff.1 hy).1
    omega
  rw [htake, List.drop_append_of_le_length hlen, closingPrice_snoc, ho] at hclosed'
  have hcond : (r.action = .long ∧ r.stock < y.stock) ∨ (r.action = .short ∧ y.stock < r.stock) := by
    by_contra hn
    simp [hn] at hclosed'
  obtain ⟨prev, hprev, c, hc, ex, hex, -, -, hea, -⟩ := row_succ _ _ _ _ hy
  rw [hx] at hprev
  obtain rfl := Option.some.inj hprev
  have h2 : 0 < c.earnings := by
    rw [hc, run_portfolio, closing_earnings _ hf0, run_rows_take]
    refine closedBy_pos _ _ _ ?_ j r ?_ ⟨ha, ho⟩ hcond
    · rintro r - (⟨h, h'⟩ | ⟨h, h'⟩) <;> rw [h] <;> simp only [Spec.profit] <;> linarith
    · rw [List.getElem?_take_of_lt (by omega)]; exact hr
  rw [hea]; simp only [num_add]; linarith

example : openAt (run demoP demo).rows 1 1 ∧ ¬ openAt (run demoP demo).rows 1 2 ∧
    (∃ x ∈ (run demoP demo).rows[1]?, x.earnings = 0) ∧ ∃ y ∈ (run demoP demo).rows[2]?, y.earnings = 2 := by
  have h : (run demoP demo).rows[1]? = some ⟨.buy, .long, 10, 10, 10, 0, 10⟩ := by decide +kernel
  refine ⟨⟨_, h, by decide +kernel, by decide +kernel⟩, ?_, by decide +kernel, by decide +kernel⟩
  rintro ⟨r, hr, -, hn⟩
  obtain rfl := Option.some.inj (h.symm.trans hr)
  revert hn
  decide +kernel

/-- C04: earnings are exactly the profits of the positions closed so far, each computed from its own opening price and
the price of the day that closed it. -/
theorem C04_earnings_are_realised_profits (P : Params ℚ) (hf : 1 ≤ P.factor) (ds : List (Day ℚ)) (i : ℕ) (x : Row ℚ)
    (hx : (run P ds).rows[i]? = some x) : x.earnings = Spec.realised ((run P ds).rows.take (i + 1)) :=
  (row_ledger P (by linarith) ds i x hx).2

example : 1 ≤ demoP.factor ∧ Spec.realised ((run demoP demo).rows.take 3) = 2 := by decide +kernel

/-- C05 (any arithmetic): the portfolio entry of day `d` is a position iff that day opened one; it carries the
entry exposure, and it is closed iff some later day's comparison with the price succeeded - strictly later days only. -/
theorem C05_open_until_first_profit {α : Type} [Num α] (P : Params α) (ds : List (Day α)) (d : ℕ) (r : Row α)
    (hr : (run P ds).rows[d]? = some r) :
    ∃ p, (run P ds).portfolio[d]? = some p ∧ p.side = r.action ∧
      (r.action = .none → p.status = .none) ∧
      (r.action = .long → p.exposure = r.stock ∧
        (p.status = .closed ↔ ∃ e s, d < e ∧ (run P ds).rows[e]? = some s ∧ Num.lt r.stock s.stock = true) ∧
        (p.status = .open ↔ ∀ e s, d < e → (run P ds).rows[e]? = some s → Num.lt r.stock s.stock = false)) ∧
      (r.action = .short → p.exposure = Num.mul P.factor r.stock ∧
        (p.status = .closed ↔ ∃ e s, d < e ∧ (run P ds).rows[e]? = some s ∧
          Num.lt (Num.mul P.factor s.stock) (Num.mul P.factor r.stock) = true) ∧
        (p.status = .open ↔ ∀ e s, d < e → (run P ds).rows[e]? = some s →
          Num.lt (Num.mul P.factor s.stock) (Num.mul P.factor r.stock) = false)) := by
  rw [run_portfolio]
  generalize (run P ds).rows = h at hr ⊢
  have key : ∀ (h : List (Row α)) (d : ℕ), h[d]? = some r → (pfOf P h)[d]? = some (posOf P r (h.drop (d + 1))) := by
    intro h
    induction h with
    | nil => intro d hd; simp at hd
    | cons a h ih =>
      intro d hd
      cases d with
      | zero => simp only [List.getElem?_cons_zero, Option.some.injEq] at hd; subst hd; simp [pfOf]
      | succ d => simpa [pfOf] using ih d (by simpa using hd)
  have hmem : ∀ s, s ∈ h.drop (d + 1) ↔ ∃ e, d < e ∧ h[e]? = some s := by
    intro s
    rw [List.mem_iff_getElem?]
    constructor
    · rintro ⟨k, hk⟩; exact ⟨d + 1 + k, by omega, by rw [← hk, List.getElem?_drop]⟩
    · rintro ⟨e, he, hs⟩
      refine ⟨e - (d + 1), ?_⟩
      rw [List.getElem?_drop, show d + 1 + (e - (d + 1)) = e by omega, hs]
  have hany : (h.drop (d + 1)).any (closes P r) = true ↔
      ∃ e s, d < e ∧ h[e]? = some s ∧ closes P r s = true := by
    rw [List.any_eq_true]
    constructor
    · rintro ⟨s, hs, hc⟩; obtain ⟨e, he, hs⟩ := (hmem s).1 hs; exact ⟨e, s, he, hs, hc⟩
    · rintro ⟨e, s, he, hs, hc⟩; exact ⟨s, (hmem s).2 ⟨e, he, hs⟩, hc⟩
  have hall : (h.drop (d + 1)).any (closes P r) = false ↔
      ∀ e s, d < e → h[e]? = some s → closes P r s = false := by
    rw [List.any_eq_false]
    constructor
    · intro hs e s he hse; simpa using hs s ((hmem s).2 ⟨e, he, hse⟩)
    · intro hs s hm; obtain ⟨e, he, hse⟩ := (hmem s).1 hm; simpa using hs e s he hse
  refine ⟨_, key h d hr, ?_⟩
  cases ha : r.action
  · simp [posOf, ha, noPos]
  · simp only [closes, ha] at hany hall
    cases hb : (h.drop (d + 1)).any (closes P r) with
    | true =>
      have hn : ¬ (h.drop (d + 1)).any (closes P r) = false := by simp [hb]
      rw [hall] at hn; rw [hany] at hb
      have hb' := hany.2 hb
      simp only [posOf, ha, hb']
      refine ⟨trivial, by simp, by simp, fun _ => ⟨trivial, by simpa using hb, by simpa using hn⟩⟩
    | false =>
      have hn : ¬ (h.drop (d + 1)).any (closes P r) = true := by simp [hb]
      have hb' := hb
      rw [hany] at hn; rw [hall] at hb
      simp only [posOf, ha, hb']
      refine ⟨trivial, by simp, by simp, fun _ => ⟨trivial, by simpa using hn, by simpa using hb⟩⟩
  · simp only [closes, ha] at hany hall
    cases hb : (h.drop (d + 1)).any (closes P r) with
    | true =>
      have hn : ¬ (h.drop (d + 1)).any (closes P r) = false := by simp [hb]
      rw [hall] at hn; rw [hany] at hb
      have hb' := hany.2 hb
      simp only [posOf, ha, hb']
      refine ⟨trivial, by simp, fun _ => ⟨trivial, by simpa using hb, by simpa using hn⟩, by simp⟩
    | false =>
      have hn : ¬ (h.drop (d + 1)).any (closes P r) = true := by simp [hb]
      have hb' := hb
      rw [hany] at hn; rw [hall] at hb
      simp only [posOf, ha, hb']
      refine ⟨trivial, by simp, fun _ => ⟨trivial, by simpa using hn, by simpa using hb⟩, by simp⟩

example : (∃ r ∈ (run demoP demo).rows[1]?, r.action = .long) ∧ ∃ r ∈ (run demoP demo).rows[2]?, r.action = .short := by
  decide +kernel

/-- C05 (exact arithmetic): a short is closed iff some later price is strictly below its opening price; so after a day no
position is left open that would have made a profit on that day. -/
theorem C05_no_profitable_position_left_open (P : Params ℚ) (hf : 1 ≤ P.factor) (ds : List (Day ℚ)) (d e : ℕ)
    (r s : Row ℚ) (p : Pos ℚ) (hr : (run P ds).rows[d]? = some r) (hp : (run P ds).portfolio[d]? = some p)
    (hs : (run P ds).rows[e]? = some s) (hde : d < e) (ho : p.status = .open) :
    Spec.profit r.action r.stock s.stock ≤ 0 := by
  obtain ⟨p', hp', -, h0, h1, h2⟩ := C05_open_until_first_profit P ds d r hr
  rw [hp] at hp'
  obtain rfl := Option.some.inj hp'
  cases ha : r.action
  · simp [Spec.profit]
  · have := (h2 ha).2.2.1 ho e s hde hs
    simp only [num_lt, num_mul, decide_eq_false_iff_not, not_lt] at this
    have := le_of_mul_le_mul_left this (by linarith)
    simp only [Spec.profit]; linarith
  · have := (h1 ha).2.2.1 ho e s hde hs
    simp only [num_lt, decide_eq_false_iff_not, not_lt] at this
    simp only [Spec.profit]; linarith

example : (∃ r ∈ (run demoP demo).rows[2]?, r.action = .short) ∧
    ∃ p ∈ (run demoP demo).portfolio[2]?, p.status = .open := by decide +kernel

/-- C06 (any arithmetic): `stock_value` is the close of the day; after the first day `portfolio_value` is the price times
open longs minus open shorts at the end of the day, and `balance` is portfolio value plus earnings. -/
theorem C06_row_identities {α : Type} [Num α] (P : Params α) (ds : List (Day α)) (i : ℕ) (x : Row α)
    (hx : (run P ds).rows[i]? = some x) :
    ds[i]? = some (x.stock, x.signal) ∧
    (0 < i →
      x.portfolio = Num.mul x.stock (Num.ofInt
        ((countOpen .long (run P (ds.take (i + 1))).portfolio : ℤ) -
          countOpen .short (run P (ds.take (i + 1))).portfolio)) ∧
      x.balance = Num.add x.portfolio x.earnings) ∧
    (i = 0 → x.exposure = Num.ofInt 0 ∧ x.portfolio = Num.ofInt 0 ∧ x.earnings = Num.ofInt 0 ∧
      x.balance = Num.ofInt 0) := by
  refine ⟨row_day P ds i x hx, ?_, ?_⟩
  · intro hi
    obtain ⟨i, rfl⟩ : ∃ k, i = k + 1 := ⟨i - 1, by omega⟩
    obtain ⟨prev, hprev, c, hc, ex, hex, -, -, -, h1, h2, -⟩ := row_succ _ _ _ _ hx
    exact ⟨h1, h2⟩
  · rintro rfl
    rw [row_zero _ _ _ hx]
    exact ⟨rfl, rfl, rfl, rfl⟩

/-- C06 (exact arithmetic): the same in terms of the ledger. -/
theorem C06_portfolio_value_of_ledger (P : Params ℚ) (hf : 1 ≤ P.factor) (ds : List (Day ℚ)) (i : ℕ) (x : Row ℚ)
    (hx : (run P ds).rows[i]? = some x) :
    x.portfolio = x.stock * (Spec.numOpen .long ((run P ds).rows.take (i + 1)) -
      Spec.numOpen .short ((run P ds).rows.take (i + 1))) ∧ x.balance = x.earnings + x.portfolio := by
  have hf0 : 0 < P.factor := by linarith
  rcases Nat.eq_zero_or_pos i with rfl | hi
  · have h0 := row_zero _ _ _ hx
    have htake : (run P ds).rows.take (0 + 1) = [x] := by
      rw [List.take_add_one, hx]; rfl
    rw [htake, h0]
    simp [Spec.numOpen, Spec.sumOpen]
  · obtain ⟨h1, h2⟩ := (C06_row_identities P ds i x hx).2.1 hi
    rw [h2, h1, ← run_rows_take]
    rw [run_portfolio, ← countOpen_pfOf P hf0 _ .long (by simp), ← countOpen_pfOf P hf0 _ .short (by simp)]
    simp [add_comm]

example : ∃ x ∈ (run demoP demo).rows[3]?, x.portfolio = (-13 : ℚ) ∧ x.balance = (-11 : ℚ) := by decide +kernel

end TTI.Props
