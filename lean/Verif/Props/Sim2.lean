import Verif.Props.Sim1
import Verif.Lemmas.SimMap

set_option autoImplicit false

/-!
# Properties of the simulation: decisions, statistics, comparisons of runs (C07-C14, C16)
-/

namespace TTI.Props

open Sim

/-- Exposure at the end of day `x` if the day opened nothing: what is left of the positions of the history `h` after the
closings of the day. -/
def exposureAfterClosings (f : ℚ) (h : List (Row ℚ)) (x : Row ℚ) : ℚ := Spec.exposure f (h ++ [{ x with action := .none }])

theorem limitReached_false_iff {α : Type} [Num α] (P : Params α) (a b : α) :
    limitReached P a b = false ↔ ∀ m, P.maxExposure = some m → Num.lt m (Num.add a b) = false := by
  unfold limitReached
  split <;> rename_i h <;> simp [h]

theorem nextAction_long_iff {α : Type} [Num α] (P : Params α) (ex p : α) (s : Signal) :
    nextAction P ex p s = .long ↔ s = .buy ∧ ∀ m, P.maxExposure = some m → Num.lt m (Num.add ex p) = false := by
  rw [← limitReached_false_iff]
  cases s <;> simp only [nextAction] <;> (try split) <;> simp_all

theorem nextAction_short_iff {α : Type} [Num α] (P : Params α) (ex p : α) (s : Signal) :
    nextAction P ex p s = .short ↔
      s = .sell ∧ ∀ m, P.maxExposure = some m → Num.lt m (Num.add ex (Num.mul P.factor p)) = false := by
  rw [← limitReached_false_iff]
  cases s <;> simp only [nextAction] <;> (try split) <;> simp_all

/-- C07 (exact arithmetic): after the first day a buy opens a long iff there is no limit or the exposure left after the
day's closings plus the price is within the limit; a sell opens a short iff the same holds with the price times the
factor; nothing else opens a position. -/
theorem C07_open_decision (P : Params ℚ) (hf : 1 ≤ P.factor) (ds : List (Day ℚ)) (i : ℕ) (x : Row ℚ)
    (hx : (run P ds).rows[i + 1]? = some x) :
    (x.action = .long ↔ x.signal = .buy ∧ ∀ m, P.maxExposure = some m →
      exposureAfterClosings P.factor ((run P ds).rows.take (i + 1)) x + x.stock ≤ m) ∧
    (x.action = .short ↔ x.signal = .sell ∧ ∀ m, P.maxExposure = some m →
      exposureAfterClosings P.factor ((run P ds).rows.take (i + 1)) x + P.factor * x.stock ≤ m) := by
  have hf0 : 0 < P.factor := by linarith
  obtain ⟨prev, hprev, c, hc, ex, hex, hact, -⟩ := row_succ _ _ _ _ hx
  have hbase : exposureAfterClosings P.factor ((run P ds).rows.take (i + 1)) x = ex := by
    unfold exposureAfterClosings Spec.exposure
    rw [sumOpen_snoc, hex, hc, run_portfolio, closing_closedExposure P hf0, (row_ledger P hf0 ds i prev hprev).1,
      run_rows_take]
    simp [Spec.exposure]
  rw [hbase, hact, nextAction_long_iff, nextAction_short_iff]
  simp

/-- Both outcomes occur: in the limited run the buy on day 1 opens and the sell on day 2 does not. -/
example : (∃ x ∈ (run ⟨some 17, 3 / 2⟩ demo).rows[1]?, x.action = .long) ∧
    (∃ x ∈ (run ⟨some 17, 3 / 2⟩ demo).rows[2]?, x.signal = .sell ∧ x.action = .none) := by decide +kernel

/-- C07 (any arithmetic): the same decision for float prices, with IEEE comparisons: the day opens a position unless
`max_exposure < exposure after closings + amount` is true. -/
theorem C07_open_decision_float {α : Type} [Num α] (P : Params α) (ds : List (Day α)) (i : ℕ) (x : Row α)
    (hx : (run P ds).rows[i + 1]? = some x) :
    ∃ prev, (run P ds).rows[i]? = some prev ∧
      ∃ base, base = Num.sub prev.exposure
          (closeOpenPositions P x.stock (run P (ds.take (i + 1))).portfolio).closedExposure ∧
        (x.action = .long ↔ x.signal = .buy ∧
          ∀ m, P.maxExposure = some m → Num.lt m (Num.add base x.stock) = false) ∧
        (x.action = .short ↔ x.signal = .sell ∧
          ∀ m, P.maxExposure = some m → Num.lt m (Num.add base (Num.mul P.factor x.stock)) = false) := by
  obtain ⟨prev, hprev, c, rfl, ex, hex, hact, -⟩ := row_succ _ _ _ _ hx
  refine ⟨prev, hprev, ex, hex, ?_⟩
  rw [hact]
  exact ⟨nextAction_long_iff _ _ _ _, nextAction_short_iff _ _ _ _⟩

/-- C07: a NaN or an infinite `max_exposure` behaves exactly as no limit, on every float history. -/
theorem C07_nan_or_inf_limit_is_no_limit (m f : Val) (hm : m = .nan ∨ m = .pinf) (ds : List (Day Val)) :
    run ⟨some m, f⟩ ds = run ⟨none, f⟩ ds := by
  have h : Transport (fun x : Val => x) ⟨none, f⟩ ⟨some m, f⟩ :=
    { add := fun _ _ => rfl, sub := fun _ _ => rfl, lt := fun _ _ => rfl, zero := rfl, mulF := fun _ => rfl,
      divF := fun _ => rfl, mulL := fun _ _ => rfl, mulR := fun _ _ => rfl
      limit := by
        intro x y
        simp only [limitReached]
        rcases hm with rfl | rfl
        · rfl
        · show Val.lt .pinf (Num.add x y) = false
          cases Num.add x y <;> rfl }
  have := h.run ds
  rw [List.map_id'] at this
  rw [this]
  have h1 : Pos.map (fun x : Val => x) = id := by funext p; rfl
  have h2 : Row.map (fun x : Val => x) = id := by funext p; rfl
  simp [State.map, h1, h2]

/-- C08: the first day opens nothing, and all its money columns are zero. -/
theorem C08_first_day {α : Type} [Num α] (P : Params α) (ds : List (Day α)) (x : Row α)
    (hx : (run P ds).rows[0]? = some x) :
    x.action = .none ∧ x.exposure = Num.ofInt 0 ∧ x.portfolio = Num.ofInt 0 ∧ x.earnings = Num.ofInt 0 ∧
      x.balance = Num.ofInt 0 := by
  rw [row_zero _ _ _ hx]; exact ⟨rfl, rfl, rfl, rfl, rfl⟩

example : (run demoP ((5, .buy) :: demo)).rows[0]? = some ⟨.buy, .none, 5, 0, 0, 0, 0⟩ := by decide +kernel

/-- C08: without a limit the only signal that can be ignored is that of the first day. -/
theorem C08_ignored_without_limit {α : Type} [Num α] (f : α) (d : Day α) (ds : List (Day α)) :
    (statistics (run ⟨none, f⟩ (d :: ds))).ignoredBuySignals = (if d.2 = .buy then 1 else 0) ∧
    (statistics (run ⟨none, f⟩ (d :: ds))).ignoredSellSignals = (if d.2 = .sell then 1 else 0) := by
  obtain ⟨x, hx, -, hs⟩ := row_exists ⟨none, f⟩ (d :: ds) 0 d rfl
  have h0 := row_zero _ _ _ hx
  have hlater : ∀ r ∈ (run ⟨none, f⟩ (d :: ds)).rows.drop 1, r.action = nextAction ⟨none, f⟩ r.stock r.stock r.signal := by
    intro r hr
    obtain ⟨k, hk⟩ := List.mem_iff_getElem?.1 hr
    rw [List.getElem?_drop, add_comm] at hk
    obtain ⟨prev, hprev, c, -, ex, -, hact, -⟩ := row_succ _ _ _ _ hk
    rw [hact]
    cases r.signal <;> rfl
  have hrows : (run ⟨none, f⟩ (d :: ds)).rows = x :: (run ⟨none, f⟩ (d :: ds)).rows.drop 1 := by
    conv_lhs => rw [← List.take_append_drop 1 (run ⟨none, f⟩ (d :: ds)).rows]
    rw [List.take_add_one, hx]; rfl
  simp only [statistics]
  rw [hrows, ← hs]
  generalize (run ⟨none, f⟩ (d :: ds)).rows.drop 1 = t at hlater
  have e1 : t.filter (fun r => r.signal == .buy && r.action == .none) = [] := by
    rw [List.filter_eq_nil_iff]
    intro r hr
    rw [hlater r hr]
    cases r.signal <;> simp [nextAction, limitReached]
  have e2 : t.filter (fun r => r.signal == .sell && r.action == .none) = [] := by
    rw [List.filter_eq_nil_iff]
    intro r hr
    rw [hlater r hr]
    cases r.signal <;> simp [nextAction, limitReached]
  have ha : x.action = .none := by rw [h0]
  rw [List.filter_cons, List.filter_cons, e1, e2, ha]
  cases x.signal <;> simp

/-- C08: so the documented reading (signals are ignored only because of `max_exposure`) is refuted. -/
theorem C08_ignored_signal_without_limit :
    ∃ ds : List (Day ℚ), (statistics (run ⟨none, 3 / 2⟩ ds)).ignoredBuySignals ≠ 0 :=
  ⟨[(1, .buy)], by decide +kernel⟩

/-- How many of the days carry the signal `s`. -/
def countSignal {α : Type} (s : Signal) (ds : List (Day α)) : ℕ := ds.countP fun d => d.2 == s

theorem filter_signal_length {α : Type} [Num α] (P : Params α) (ds : List (Day α)) (s : Signal) :
    ((run P ds).rows.filter fun r => r.signal == s).length = countSignal s ds := by
  conv_rhs => rw [countSignal, ← run_rows_map P ds, List.countP_map]
  rw [List.countP_eq_length_filter]
  rfl

/-- C09: signal counters. -/
theorem C09_signal_counts {α : Type} [Num α] (P : Params α) (ds : List (Day α)) (st : Stats α)
    (hst : st = statistics (run P ds)) :
    st.tradingDays = ds.length ∧ st.buySignals = countSignal .buy ds ∧ st.sellSignals = countSignal .sell ds ∧
      st.buySignals + st.sellSignals + countSignal .hold ds = st.tradingDays := by
  subst hst
  refine ⟨run_rows_length P ds, filter_signal_length P ds .buy, filter_signal_length P ds .sell, ?_⟩
  simp only [statistics, filter_signal_length, run_rows_length]
  induction ds with
  | nil => rfl
  | cons d ds ih =>
    simp only [countSignal, List.countP_cons, List.length_cons] at ih ⊢
    cases d.2 <;> simp <;> omega

theorem action_matches {α : Type} [Num α] (P : Params α) (ds : List (Day α)) (i : ℕ) (x : Row α)
    (hx : (run P ds).rows[i]? = some x) :
    (x.action = .long → x.signal = .buy) ∧ (x.action = .short → x.signal = .sell) := by
  cases i with
  | zero => rw [row_zero _ _ _ hx]; simp
  | succ i =>
    obtain ⟨prev, hprev, c, -, ex, -, hact, -⟩ := row_succ _ _ _ _ hx
    rw [hact, nextAction_long_iff, nextAction_short_iff]
    exact ⟨fun h => h.1, fun h => h.1⟩

theorem posOf_side {α : Type} [Num α] (P : Params α) (r : Row α) (l : List (Row α)) : (posOf P r l).side = r.action := by
  cases h : r.action <;> simp [posOf, h, noPos]

theorem pfOf_sides {α : Type} [Num α] (P : Params α) (h : List (Row α)) :
    (pfOf P h).map (·.side) = h.map (·.action) := by
  induction h with
  | nil => rfl
  | cons r h ih => simp [pfOf, ih, posOf_side]

/-- C09: signals minus ignored signals is the number of positions ever opened on the side. -/
theorem C09_ignored_counts {α : Type} [Num α] (P : Params α) (ds : List (Day α)) (st : Stats α)
    (hst : st = statistics (run P ds)) :
    st.ignoredBuySignals + ((run P ds).portfolio.countP fun p => p.side == .long) = st.buySignals ∧
    st.ignoredSellSignals + ((run P ds).portfolio.countP fun p => p.side == .short) = st.sellSignals := by
  subst hst
  have key : ∀ h : List (Row α),
      (∀ x ∈ h, (x.action = .long → x.signal = .buy) ∧ (x.action = .short → x.signal = .sell)) →
      (h.filter fun r => r.signal == .buy && r.action == .none).length + (h.countP fun r => r.action == .long) =
        (h.filter fun r => r.signal == .buy).length ∧
      (h.filter fun r => r.signal == .sell && r.action == .none).length + (h.countP fun r => r.action == .short) =
        (h.filter fun r => r.signal == .sell).length := by
    intro h
    induction h with
    | nil => intro _; exact ⟨rfl, rfl⟩
    | cons x h ih =>
      intro hm
      obtain ⟨h1, h2⟩ := ih fun y hy => hm y (List.mem_cons_of_mem _ hy)
      have hx := hm x List.mem_cons_self
      simp only [List.filter_cons, List.countP_cons]
      cases hs : x.signal <;> cases ha : x.action <;> simp [hs, ha] at hx ⊢ <;> omega
  have hc : ∀ s, ((run P ds).portfolio.countP fun p => p.side == s) = (run P ds).rows.countP fun r => r.action == s := by
    intro s
    have := congrArg (List.countP (· == s)) (pfOf_sides P (run P ds).rows)
    rw [List.countP_map, List.countP_map, ← run_portfolio] at this
    exact this
  rw [hc, hc]
  apply key
  intro x hx
  obtain ⟨i, hi⟩ := List.mem_iff_getElem?.1 hx
  exact action_matches P ds i x hi

/-- C09 (exact arithmetic): `last_open_*_positions` counts the positions of the ledger that no later price closed. -/
theorem C09_open_counts (P : Params ℚ) (hf : 1 ≤ P.factor) (ds : List (Day ℚ)) (st : Stats ℚ)
    (hst : st = statistics (run P ds)) :
    (st.lastOpenLong : ℚ) = Spec.numOpen .long (run P ds).rows ∧
    (st.lastOpenShort : ℚ) = Spec.numOpen .short (run P ds).rows := by
  subst hst
  have hf0 : 0 < P.factor := by linarith
  simp only [statistics, run_portfolio]
  exact ⟨countOpen_pfOf P hf0 _ .long (by simp), countOpen_pfOf P hf0 _ .short (by simp)⟩

/-- C09: the remaining numbers are the last row rounded to 2 decimals, or zero if no round was run. -/
theorem C09_last_values {α : Type} [Num α] (P : Params α) (ds : List (Day α)) (st : Stats α)
    (hst : st = statistics (run P ds)) :
    (∀ x, (run P ds).rows[ds.length - 1]? = some x →
      st.lastStockValue = Num.round2 x.stock ∧ st.lastExposure = Num.round2 x.exposure ∧
      st.lastPortfolioValue = Num.round2 x.portfolio ∧ st.lastEarnings = Num.round2 x.earnings ∧
      st.finalBalance = Num.round2 x.balance) ∧
    (ds = [] → st.lastStockValue = Num.ofInt 0 ∧ st.lastExposure = Num.ofInt 0 ∧
      st.lastPortfolioValue = Num.ofInt 0 ∧ st.lastEarnings = Num.ofInt 0 ∧ st.finalBalance = Num.ofInt 0) := by
  subst hst
  constructor
  · intro x hx
    have : (run P ds).rows.getLast? = some x := by rw [List.getLast?_eq_getElem?, run_rows_length, hx]
    simp [statistics, lastOr0, this]
  · rintro rfl
    simp [statistics, lastOr0, run, State.init]

example : statistics (run demoP demo) =
    ⟨4, 1, 0, 1, 0, 13, 18, 0, 1, -13, 2, -11⟩ := by decide +kernel

/-- C10: the rows of the days `a` do not depend on what follows. -/
theorem C10_no_look_ahead {α : Type} [Num α] (P : Params α) (a b c : List (Day α)) :
    (run P (a ++ b)).rows.take a.length = (run P (a ++ c)).rows.take a.length := by
  rw [← run_rows_take, ← run_rows_take]; simp

/-- C10: row by row, for histories that agree up to day `d`. -/
theorem C10_no_look_ahead_rows {α : Type} [Num α] (P : Params α) (ds es : List (Day α)) (d : ℕ)
    (h : ∀ i ≤ d, ds[i]? = es[i]?) (i : ℕ) (hi : i ≤ d) : (run P ds).rows[i]? = (run P es).rows[i]? := by
  have h1 : ds.take (d + 1) = es.take (d + 1) := by
    apply List.ext_getElem?
    intro k
    rw [List.getElem?_take, List.getElem?_take]
    split
    · exact h k (by omega)
    · rfl
  have h2 := congrArg (fun l => (run P l).rows[i]?) h1
  simp only [run_rows_take] at h2
  rwa [List.getElem?_take_of_lt (by omega), List.getElem?_take_of_lt (by omega)] at h2

example : ∃ ds es : List (Day ℚ), (∀ i ≤ 2, ds[i]? = es[i]?) ∧ ds ≠ es ∧ ds.length ≠ es.length :=
  ⟨demo, [(10, .hold), (10, .buy), (12, .sell)], by decide +kernel, by decide +kernel, by decide +kernel⟩

/-- C11: scaling all prices and the limit by `c > 0` scales the money columns and nothing else. -/
theorem C11_scaling (c : ℚ) (hc : 0 < c) (M : Option ℚ) (f : ℚ) (ds : List (Day ℚ)) :
    (run ⟨M.map (c * ·), f⟩ (ds.map fun d => (c * d.1, d.2))).rows =
      (run ⟨M, f⟩ ds).rows.map fun r =>
        ⟨r.signal, r.action, c * r.stock, c * r.exposure, c * r.portfolio, c * r.earnings, c * r.balance⟩ := by
  have h : Transport (fun x => c * x) ⟨M, f⟩ ⟨M.map (c * ·), f⟩ :=
    { add := fun x y => by simp [mul_add]
      sub := fun x y => by simp [mul_sub]
      lt := fun x y => by simp [mul_lt_mul_iff_right₀ hc]
      zero := by simp
      mulF := fun x => by simp only [num_mul]; ring
      divF := fun x => by simp only [num_div]; ring
      mulL := fun n x => by simp only [num_mul, num_ofInt]; ring
      mulR := fun n x => by simp only [num_mul, num_ofInt]; ring
      limit := by
        intro x y
        cases M with
        | none => rfl
        | some m => simp [limitReached, ← mul_add, mul_lt_mul_iff_right₀ hc] }
  rw [h.run]; rfl

/-- C11: and leaves every counter unchanged. -/
theorem C11_scaling_counters (c : ℚ) (hc : 0 < c) (M : Option ℚ) (f : ℚ) (ds : List (Day ℚ)) (s t : Stats ℚ)
    (hs : s = statistics (run ⟨M, f⟩ ds))
    (ht : t = statistics (run ⟨M.map (c * ·), f⟩ (ds.map fun d => (c * d.1, d.2)))) :
    t.tradingDays = s.tradingDays ∧ t.buySignals = s.buySignals ∧ t.ignoredBuySignals = s.ignoredBuySignals ∧
    t.sellSignals = s.sellSignals ∧ t.ignoredSellSignals = s.ignoredSellSignals ∧
    t.lastOpenLong = s.lastOpenLong ∧ t.lastOpenShort = s.lastOpenShort := by
  have h : Transport (fun x => c * x) ⟨M, f⟩ ⟨M.map (c * ·), f⟩ :=
    { add := fun x y => by simp [mul_add]
      sub := fun x y => by simp [mul_sub]
      lt := fun x y => by simp [mul_lt_mul_iff_right₀ hc]
      zero := by simp
      mulF := fun x => by simp only [num_mul]; ring
      divF := fun x => by simp only [num_div]; ring
      mulL := fun n x => by simp only [num_mul, num_ofInt]; ring
      mulR := fun n x => by simp only [num_mul, num_ofInt]; ring
      limit := by
        intro x y
        cases M with
        | none => rfl
        | some m => simp [limitReached, ← mul_add, mul_lt_mul_iff_right₀ hc] }
  subst hs ht
  rw [h.run]
  simp only [statistics, State.map, countOpen_map, List.length_map, List.filter_map]
  exact ⟨trivial, rfl, rfl, rfl, rfl, trivial, trivial⟩

example : (run ⟨some 120, 3 / 2⟩ (demo.map fun d => (3 * d.1, d.2))).rows.map (·.balance) = [0, 30, 6 - 36, 6 - 39] := by
  decide +kernel

theorem round_unreached {α : Type} [Num α] (M f : α) (st : State α) (p : α) (s : Signal)
    (h : ∀ r, (Sim.round ⟨none, f⟩ st p s).rows.getLast? = some r → Num.lt M r.exposure = false) :
    Sim.round ⟨some M, f⟩ st p s = Sim.round ⟨none, f⟩ st p s := by
  unfold Sim.round at h ⊢
  cases hl : st.rows.getLast? with
  | none => rfl
  | some prev =>
    rw [hl] at h
    have hc : closeOpenPositions ⟨some M, f⟩ p st.portfolio = closeOpenPositions ⟨none, f⟩ p st.portfolio := rfl
    simp only [hc] at h ⊢
    cases s
    · simp only [processSignal, limitReached, record] at h ⊢
      have := h _ (by simp; rfl)
      simp only at this
      simp [this]
    · rfl
    · simp only [processSignal, limitReached, record] at h ⊢
      have := h _ (by simp; rfl)
      simp only at this
      simp [this]

/-- C12 (any arithmetic): a limit that the unlimited run never exceeds changes nothing. -/
theorem C12_unreached_limit {α : Type} [Num α] (M f : α) (ds : List (Day α))
    (h : ∀ r ∈ (run ⟨none, f⟩ ds).rows, Num.lt M r.exposure = false) :
    run ⟨some M, f⟩ ds = run ⟨none, f⟩ ds := by
  induction ds using List.reverseRecOn with
  | nil => rfl
  | append_singleton ds d ih =>
    have hpre := run_rows_prefix ⟨none, f⟩ ds [d]
    rw [run_snoc, run_snoc, ih fun r hr => h r (hpre.subset hr)]
    apply round_unreached
    intro r hr
    apply h
    rw [run_snoc]
    exact List.mem_of_getLast? hr

example : ∀ r ∈ (run ⟨none, 3 / 2⟩ demo).rows, Num.lt (18 : ℚ) r.exposure = false := by decide +kernel

/-- C13: with prices of at least `m > 0` at most `M / m` positions are open at the end of any day. -/
theorem C13_open_positions_bounded (M m f : ℚ) (hM : 0 < M) (hm : 0 < m) (hf : 1 ≤ f) (ds : List (Day ℚ))
    (hp : ∀ d ∈ ds, m ≤ d.1) (i : ℕ) (x : Row ℚ) (hx : (run ⟨some M, f⟩ ds).rows[i]? = some x) :
    Spec.numOpen .long ((run ⟨some M, f⟩ ds).rows.take (i + 1)) +
      Spec.numOpen .short ((run ⟨some M, f⟩ ds).rows.take (i + 1)) ≤ M / m := by
  have h1 := (C02_exposure_within_limit M f hM hf ds (fun d hd => hm.le.trans (hp d hd)) i x hx).2
  rw [C01_exposure_is_sum_of_open ⟨some M, f⟩ hf ds i x hx] at h1
  have hmem : ∀ r ∈ (run ⟨some M, f⟩ ds).rows.take (i + 1), m ≤ r.stock := fun r hr =>
    hp _ (rows_stock_mem _ _ _ (List.mem_of_mem_take hr))
  generalize (run ⟨some M, f⟩ ds).rows.take (i + 1) = h at h1 hmem
  rw [le_div_iff₀ hm]
  refine le_trans ?_ h1
  have h2 : 0 ≤ Spec.sumOpen (fun s e => Spec.entryExposure f s e + (-m) *
      ((if s = .long then 1 else 0) + (if s = .short then 1 else 0))) h := by
    apply sumOpen_nonneg
    intro r hr ha
    have := hmem r hr
    cases hs : r.action
    · exact absurd hs ha
    · simp [Spec.entryExposure]; nlinarith
    · simp [Spec.entryExposure]; linarith
  rw [sumOpen_add, sumOpen_mul, sumOpen_add] at h2
  simp only [Spec.exposure, Spec.numOpen]
  linarith

example : (∀ d ∈ demo, (10 : ℚ) ≤ d.1) ∧ ∃ x, (run ⟨some 40, 3 / 2⟩ demo).rows[3]? = some x := by
  refine ⟨by decide +kernel, ?_⟩
  rw [← Option.isSome_iff_exists]; decide +kernel

/-- C14: what `balance` is: realised plus unrealised profit, plus the opening prices of the open longs, minus those of the
open shorts. -/
theorem C14_balance_meaning (P : Params ℚ) (hf : 1 ≤ P.factor) (ds : List (Day ℚ)) (i : ℕ) (x : Row ℚ)
    (hx : (run P ds).rows[i]? = some x) (h : List (Row ℚ)) (hh : h = (run P ds).rows.take (i + 1)) :
    x.balance = Spec.realised h + Spec.unrealised x.stock h +
      Spec.sumOpen (fun s entry => if s = .long then entry else 0) h -
      Spec.sumOpen (fun s entry => if s = .short then entry else 0) h := by
  obtain ⟨h1, h2⟩ := C06_portfolio_value_of_ledger P hf ds i x hx
  rw [C04_earnings_are_realised_profits P hf ds i x hx, h1, ← hh] at h2
  rw [h2]
  have e : Spec.sumOpen (fun s e => Spec.profit s e x.stock + (if s = .long then e else 0)) h =
      Spec.sumOpen (fun s e => (x.stock * (if s = .long then 1 else 0) + (-x.stock) * (if s = .short then 1 else 0)) +
        (if s = .short then e else 0)) h := by
    apply sumOpen_congr
    intro r _ ha
    cases hs : r.action
    · exact absurd hs ha
    · simp [Spec.profit]; ring
    · simp [Spec.profit]
  rw [sumOpen_add, sumOpen_add, sumOpen_add, sumOpen_mul, sumOpen_mul] at e
  simp only [Spec.unrealised, Spec.numOpen]
  linarith

/-- C14: so with no open short, `balance` overstates the total profit by exactly the purchase cost of the open longs. -/
theorem C14_balance_overstates (P : Params ℚ) (hf : 1 ≤ P.factor) (ds : List (Day ℚ)) (i : ℕ) (x : Row ℚ)
    (hx : (run P ds).rows[i]? = some x) (h : List (Row ℚ)) (hh : h = (run P ds).rows.take (i + 1))
    (hs : ∀ j r, h[j]? = some r → r.action = .short → Spec.closingPrice .short r.stock (h.drop (j + 1)) ≠ none) :
    x.balance - (Spec.realised h + Spec.unrealised x.stock h) =
      Spec.sumOpen (fun s entry => if s = .long then entry else 0) h := by
  rw [C14_balance_meaning P hf ds i x hx h hh]
  have : ∀ h : List (Row ℚ),
      (∀ j r, h[j]? = some r → r.action = .short → Spec.closingPrice .short r.stock (h.drop (j + 1)) ≠ none) →
      Spec.sumOpen (fun s entry => if s = .short then entry else 0) h = 0 := by
    intro h
    induction h with
    | nil => intro _; rfl
    | cons r h ih =>
      intro hs
      have := ih fun j r' hr' ha => by simpa using hs (j + 1) r' (by simpa using hr') ha
      simp only [Spec.sumOpen, this, add_zero]
      split
      · next hc =>
        by_cases ha : r.action = .short
        · have h0 := hs 0 r rfl ha
          rw [ha] at hc
          exact absurd hc.2 (by simpa using h0)
        · simp [ha]
      · rfl
  rw [this h hs]; ring

example : ∃ x ∈ (run demoP demo).rows[1]?, x.balance - (Spec.realised ((run demoP demo).rows.take 2) +
    Spec.unrealised x.stock ((run demoP demo).rows.take 2)) = 10 := by decide +kernel

/-- C16: one row per round, carrying the signal and price of its day; an opened position always matches the signal. -/
theorem C16_rows_complete {α : Type} [Num α] (P : Params α) (ds : List (Day α)) :
    (run P ds).rows.length = ds.length ∧ (run P ds).portfolio.length = ds.length ∧
    (run P ds).rows.map (fun r => (r.stock, r.signal)) = ds ∧
    ∀ x ∈ (run P ds).rows, (x.action = .long → x.signal = .buy) ∧ (x.action = .short → x.signal = .sell) := by
  refine ⟨run_rows_length P ds, by rw [run_portfolio, pfOf_length, run_rows_length], run_rows_map P ds, ?_⟩
  intro x hx
  obtain ⟨i, hi⟩ := List.mem_iff_getElem?.1 hx
  exact action_matches P ds i x hi

end TTI.Props
