import Verif.Props.FloatApi
import Verif.Props.Graph
import Verif.Props.Sim2
import Verif.Spec.SimApi

set_option autoImplicit false

/-!
# What `getTiSimulation` returns (C01-C04, C06-C10, C12-C14, C16)

The claims about the simulation, stated for the data frame and the dictionary that the call returns, for every indicator object
after any calls. `firstDays r n` are the numbers in the first `n` rows; the ledger (`Spec/Ledger`) reads the columns
`signal`, `open_trading_action` and `stock_value` of them.
-/

namespace TTI.Props

open Spec Flt Sim

/-- `r` is what `getTiSimulation(g, m, fac)` returned for the object `o`, which was constructed from some table and may have
been used before in any way. The closes and the factor are numbers. -/
structure Returned (o : Obj) (g : RawFrame) (m fac : PyArg) (q : ℚ) (r : SimResult) : Prop where
  used : Used o
  table : WF g
  closes : g.EachRow ["close"] AnyPrices
  factor : fac.asNumber = some (.fin q)
  result : (o.getTiSimulation (.frame g) m fac).2.2 = .ok r

/-- No rounding. -/
def noRounding : Rounding where
  fl := id
  unit := 0
  nonneg := le_refl _
  error := fun x => by simp
  mono := fun _ _ h => h
  again := fun _ => rfl

variable {o : Obj} {g : RawFrame} {m fac : PyArg} {q : ℚ} {r : SimResult}

theorem construct_pos {E : Env} {c : Call} {data : InputArg} {b : PyArg} (h : (TTI.construct E c data b).2 = .ok o) : o.ind.Pos := by
  unfold TTI.construct at h
  cases hc : c.check with
  | error e => rw [hc] at h; simp at h
  | ok ind =>
    rw [hc] at h
    have hp := check_pos _ _ hc
    cases b with
    | bool b =>
      simp only at h
      split at h
      · simp at h
      · split at h
        · simp at h
        · obtain rfl := Except.ok.inj h
          exact hp
    | _ => simp at h

theorem Used.pos (h : Used o) : o.ind.Pos := by
  obtain ⟨o₁, cs, ⟨E, c, f, fill, o₀, hw, h0, h1⟩, rfl⟩ := h
  have hp : o₁.ind.Pos := by
    rcases h1 with rfl | ⟨i, hi⟩
    · exact construct_pos h0
    · rw [Exact.cut_ind hi]; exact construct_pos h0
  clear h1
  induction cs generalizing o₁ with
  | nil => exact hp
  | cons c cs ih => exact ih _ (by rw [Exact.step_ind]; exact hp)

theorem numbersOf_asVals (x : Row ℚ) : numbersOf (asVals x) = x := rfl

/-- The link to the exact run. -/
theorem Returned.run (h : Returned o g m fac q r) :
    1 ≤ q ∧ ∃ (M : Option ℚ) (sig : ℕ → Signal), (∀ v, M = some v ↔ m.asNumber = some (.fin v)) ∧ (∀ v, M = some v → 0 < v) ∧
      (∀ P, g.EachRow ["close"] P → ∀ j < o.getTiData.idx.length, ∃ x, P x ∧ x "close" = price g "close" j) ∧
      ∃ ds st, ds = history o.getTiData.idx.length (price g "close") sig ∧ st = Sim.run ⟨M, q⟩ ds ∧
        (∀ i row, RowOn r i row ↔ ∃ x, st.rows[i]? = some x ∧ row = asVals x) ∧ (∀ n, firstDays r n = st.rows.take n) ∧
        r.stats = Sim.statistics (State.map Val.fin st) ∧
        ∀ i < o.getTiData.idx.length, ∃ o', o.cut i = some o' ∧ o'.getTiSignal = .ok (sig i) := by
  have hr := h.result
  rw [← Exact.getTiSimulation o h.used.pos] at hr
  obtain ⟨hq, -, M, sig, h1, h2, h3, h4, ⟨k, h5⟩, h6⟩ := flt_backtest (R := noRounding) (A := exactArith) rfl h.used.sound h.table
    h.closes m fac q h.factor r hr
  refine ⟨hq, M, sig, h1, h2, h4, _, _, rfl, rfl, ?_, ?_, ?_, fun i hi => ?_⟩
  · intro i row
    unfold RowOn
    rw [h5]
    generalize hL : (roundedRun noRounding ⟨M, q⟩ (history o.getTiData.idx.length (price g "close") sig)).rows = L
    have hL' : (Sim.run ⟨M, q⟩ (history o.getTiData.idx.length (price g "close") sig)).rows = L := hL
    rw [hL', List.getElem?_append]
    split
    · rw [List.getElem?_map]
      cases L[i]? <;> simp [eq_comm]
    · rename_i hlt
      rw [List.length_map, not_lt] at hlt
      rw [List.getElem?_eq_none hlt, List.getElem?_replicate]
      split <;> simp
  · intro n
    unfold firstDays
    rw [h5]
    generalize hL : (roundedRun noRounding ⟨M, q⟩ (history o.getTiData.idx.length (price g "close") sig)).rows = L
    have hL' : (Sim.run ⟨M, q⟩ (history o.getTiData.idx.length (price g "close") sig)).rows = L := hL
    rw [hL', List.take_append, List.filterMap_append, ← List.map_take, List.filterMap_map, List.take_replicate]
    have e1 : ((fun x : Option (Row Val) => x.map numbersOf) ∘ fun x : Row ℚ => some (asVals x)) = some := rfl
    rw [e1, List.filterMap_some]
    have e2 : ∀ n, (List.replicate n (none : Option (Row Val))).filterMap (fun x => x.map numbersOf) = [] := by
      intro n; induction n with
      | zero => rfl
      | succ n ih => rw [List.replicate_succ, List.filterMap_cons_none rfl, ih]
    rw [e2, List.append_nil]
  · rw [h6, Exact.num]
    rfl
  · obtain ⟨o', a, b⟩ := h3 i hi
    rw [Exact.getTiSignal o' (by rw [Exact.cut_ind a]; exact h.used.pos)] at b
    exact ⟨o', a, b⟩

/-- C01, for the data that `getTiSimulation` returns. -/
theorem C01_returned (h : Returned o g m fac q r) (i : ℕ) (row : Row Val) (hi : RowOn r i row) :
    row.exposure = .fin (exposure q (firstDays r (i + 1))) := by
  obtain ⟨hq, M, sig, -, -, -, ds, st, -, rfl, h1, h2, -⟩ := h.run
  obtain ⟨x, hx, rfl⟩ := (h1 i row).1 hi
  rw [h2, ← C01_exposure_is_sum_of_open ⟨M, q⟩ hq ds i x hx]
  rfl

/-- C02, for the data that `getTiSimulation` returns. -/
theorem C02_returned (h : Returned o g m fac q r) (v : ℚ) (hv : m.asNumber = some (.fin v))
    (h0 : g.EachRow ["close"] fun x => 0 ≤ x "close") (i : ℕ) (row : Row Val) (hi : RowOn r i row) :
    ∃ e, row.exposure = .fin e ∧ 0 ≤ e ∧ e ≤ v := by
  obtain ⟨hq, M, sig, hM, hM0, hP, ds, st, hds, rfl, h1, h2, -⟩ := h.run
  obtain ⟨x, hx, rfl⟩ := (h1 i row).1 hi
  obtain rfl := (hM v).2 hv
  refine ⟨_, rfl, C02_exposure_within_limit v q (hM0 v rfl) hq ds ?_ i x hx⟩
  rw [hds]
  exact history_nonneg fun j hj => by obtain ⟨y, h3, h4⟩ := hP _ h0 j hj; rw [← h4]; exact h3

/-- C03, for the data that `getTiSimulation` returns. The position that day `j` opened is closed on day `i + 1`. -/
theorem C03_returned (h : Returned o g m fac q r) (i : ℕ) (row next : Row Val) (hi : RowOn r i row) (hn : RowOn r (i + 1) next) :
    ∃ a b, row.earnings = .fin a ∧ next.earnings = .fin b ∧ 0 ≤ a ∧ a ≤ b ∧
      ∀ j ≤ i, openAt (firstDays r (i + 2)) j i → ¬ openAt (firstDays r (i + 2)) j (i + 1) → a < b := by
  obtain ⟨hq, M, sig, -, -, -, ds, st, -, rfl, h1, h2, -⟩ := h.run
  obtain ⟨x, hx, rfl⟩ := (h1 i row).1 hi
  obtain ⟨y, hy, rfl⟩ := (h1 _ next).1 hn
  refine ⟨_, _, rfl, rfl, C03_earnings_nonneg _ hq ds i x hx, C03_earnings_monotone _ hq ds i x y hx hy, fun j hj ho hc => ?_⟩
  have key : ∀ e ≤ i + 1, (openAt (firstDays r (i + 2)) j e ↔ openAt (Sim.run ⟨M, q⟩ ds).rows j e) := by
    intro e he
    unfold openAt
    rw [h2, List.take_take, min_eq_left (by omega), List.getElem?_take, if_pos (by omega)]
  exact C03_earnings_strict _ hq ds i j x y hx hy hj ((key i (by omega)).1 ho) (mt (key _ le_rfl).2 hc)

/-- C04, for the data that `getTiSimulation` returns. -/
theorem C04_returned (h : Returned o g m fac q r) (i : ℕ) (row : Row Val) (hi : RowOn r i row) :
    row.earnings = .fin (realised (firstDays r (i + 1))) := by
  obtain ⟨hq, M, sig, -, -, -, ds, st, -, rfl, h1, h2, -⟩ := h.run
  obtain ⟨x, hx, rfl⟩ := (h1 i row).1 hi
  rw [h2, ← C04_earnings_are_realised_profits ⟨M, q⟩ hq ds i x hx]
  rfl

/-- C06, for the data that `getTiSimulation` returns. -/
theorem C06_returned (h : Returned o g m fac q r) (i : ℕ) (row : Row Val) (hi : RowOn r i row) :
    AllNumbers row ∧ row.stock = .fin (price g "close" i) ∧
    row.portfolio = .fin (price g "close" i * (numOpen .long (firstDays r (i + 1)) - numOpen .short (firstDays r (i + 1)))) ∧
    ∃ w p, row.earnings = .fin w ∧ row.portfolio = .fin p ∧ row.balance = .fin (w + p) := by
  obtain ⟨hq, M, sig, -, -, -, ds, st, hds, rfl, h1, h2, -⟩ := h.run
  obtain ⟨x, hx, rfl⟩ := (h1 i row).1 hi
  obtain ⟨e1, e2⟩ := C06_portfolio_value_of_ledger _ hq ds i x hx
  have e3 : x.stock = price g "close" i := (history_row _ _ _ _ _ _ (by rw [← hds]; exact hx)).2.1
  refine ⟨⟨_, _, _, _, _, rfl, rfl, rfl, rfl, rfl⟩, congrArg Val.fin e3, ?_, _, _, rfl, rfl, congrArg Val.fin e2⟩
  rw [h2, ← e3]
  exact congrArg Val.fin e1

/-- C07, for the data that `getTiSimulation` returns. `max_exposure` that is not a number (None, NaN, infinity) is no limit. -/
theorem C07_returned (h : Returned o g m fac q r) (i : ℕ) (row : Row Val) (hi : RowOn r (i + 1) row) :
    (row.action = .long ↔ row.signal = .buy ∧ ∀ v, m.asNumber = some (.fin v) →
      exposureLeft q (firstDays r (i + 1)) (numbersOf row) + price g "close" (i + 1) ≤ v) ∧
    (row.action = .short ↔ row.signal = .sell ∧ ∀ v, m.asNumber = some (.fin v) →
      exposureLeft q (firstDays r (i + 1)) (numbersOf row) + q * price g "close" (i + 1) ≤ v) := by
  obtain ⟨hq, M, sig, hM, -, -, ds, st, hds, rfl, h1, h2, -⟩ := h.run
  obtain ⟨x, hx, rfl⟩ := (h1 _ row).1 hi
  have e3 : x.stock = price g "close" (i + 1) := (history_row _ _ _ _ _ _ (by rw [← hds]; exact hx)).2.1
  have := C07_open_decision ⟨M, q⟩ hq ds i x hx
  rw [← e3, h2, numbersOf_asVals]
  simp only [← hM]
  exact this

/-- C08, for what `getTiSimulation` returns. -/
theorem C08_returned (h : Returned o g m fac q r) (row : Row Val) (hi : RowOn r 0 row) :
    row.action = .none ∧ row.exposure = .fin 0 ∧ row.portfolio = .fin 0 ∧ row.earnings = .fin 0 ∧ row.balance = .fin 0 ∧
    ((∀ v, m.asNumber ≠ some (.fin v)) → r.stats.ignoredBuySignals = (if row.signal = .buy then 1 else 0) ∧
      r.stats.ignoredSellSignals = (if row.signal = .sell then 1 else 0)) := by
  obtain ⟨hq, M, sig, hM, -, -, ds, st, hds, rfl, h1, h2, h3, -⟩ := h.run
  obtain ⟨x, hx, rfl⟩ := (h1 _ row).1 hi
  obtain ⟨e1, e2, e3, e4, e5⟩ := C08_first_day _ ds x hx
  refine ⟨e1, ?_, ?_, ?_, ?_, fun hm => ?_⟩
  · show Val.fin x.exposure = _; rw [e2]; rfl
  · show Val.fin x.portfolio = _; rw [e3]; rfl
  · show Val.fin x.earnings = _; rw [e4]; rfl
  · show Val.fin x.balance = _; rw [e5]; rfl
  · cases M with
    | some v => exact absurd ((hM v).1 rfl) (hm v)
    | none =>
      have hs := (C06_row_identities _ ds 0 x hx).1
      cases ds with
      | nil => simp at hs
      | cons d ds =>
        simp only [List.getElem?_cons_zero, Option.some.injEq] at hs
        have := C08_ignored_without_limit q d ds
        rw [hs] at this
        rw [h3, hs]
        unfold statistics at this ⊢
        unfold State.map
        simp only [List.filter_map, List.length_map] at this ⊢
        exact this

/-- C09, for what `getTiSimulation` returns: the counters of the dictionary against the rows of the data. -/
theorem C09_returned (h : Returned o g m fac q r) (n : ℕ) (hn : n = o.getTiData.idx.length) :
    r.stats.tradingDays = n ∧ (firstDays r n).length = n ∧
    r.stats.buySignals = (firstDays r n).countP (fun x => x.signal = .buy) ∧
    r.stats.sellSignals = (firstDays r n).countP (fun x => x.signal = .sell) ∧
    r.stats.ignoredBuySignals = (firstDays r n).countP (fun x => x.signal = .buy ∧ x.action = .none) ∧
    r.stats.ignoredSellSignals = (firstDays r n).countP (fun x => x.signal = .sell ∧ x.action = .none) ∧
    r.stats.buySignals = r.stats.ignoredBuySignals + (firstDays r n).countP (fun x => x.action = .long) ∧
    r.stats.sellSignals = r.stats.ignoredSellSignals + (firstDays r n).countP (fun x => x.action = .short) ∧
    (r.stats.lastOpenLong : ℚ) = numOpen .long (firstDays r n) ∧ (r.stats.lastOpenShort : ℚ) = numOpen .short (firstDays r n) ∧
    ∀ row, RowOn r (n - 1) row → r.stats.lastStockValue = row.stock.round 2 ∧ r.stats.lastExposure = row.exposure.round 2 ∧
      r.stats.lastPortfolioValue = row.portfolio.round 2 ∧ r.stats.lastEarnings = row.earnings.round 2 ∧
      r.stats.finalBalance = row.balance.round 2 := by
  obtain ⟨hq, M, sig, hM, -, -, ds, st, hds, rfl, h1, h2, h3, -⟩ := h.run
  have hlen : (Sim.run ⟨M, q⟩ ds).rows.length = n := by rw [run_rows_length, hds, hn]; simp [history]
  have hall : firstDays r n = (Sim.run ⟨M, q⟩ ds).rows := by rw [h2, List.take_of_length_le hlen.le]
  rw [hall, h3]
  have hact := (C16_rows_complete ⟨M, q⟩ ds).2.2.2
  have hopen := C09_open_counts ⟨M, q⟩ hq ds _ rfl
  have hcount : ∀ (p : Row ℚ → Bool), ((Sim.run ⟨M, q⟩ ds).rows.filter p).length = (Sim.run ⟨M, q⟩ ds).rows.countP p :=
    fun p => List.countP_eq_length_filter.symm
  generalize hL : Sim.run ⟨M, q⟩ ds = L at *
  have hsplit : ∀ (s : Signal) (a : Side), (∀ x ∈ L.rows, x.action = a → x.signal = s) → a ≠ .none →
      (∀ x ∈ L.rows, x.signal = s → x.action = a ∨ x.action = .none) →
      L.rows.countP (fun x => x.signal = s) = L.rows.countP (fun x => x.signal = s ∧ x.action = .none) +
        L.rows.countP (fun x => x.action = a) := by
    intro s a ha hna hb
    have : L.rows.countP (fun x => decide (x.action = a)) = L.rows.countP (fun x => decide (x.signal = s ∧ x.action = a)) :=
      List.countP_congr fun x hx => by
        simp only [decide_eq_true_eq]
        exact ⟨fun h => ⟨ha x hx h, h⟩, fun h => h.2⟩
    rw [this]
    generalize L.rows = l at hb
    clear * - hb hna
    induction l with
    | nil => rfl
    | cons x l ih =>
      have := ih fun y hy => hb y (List.mem_cons_of_mem _ hy)
      have hx := hb x (by simp)
      simp only [List.countP_cons, this]
      by_cases hs : x.signal = s
      · rcases hx hs with hh | hh
        · simp only [hs, hh, hna]; simp; omega
        · simp only [hs, hh]; simp [Ne.symm hna]; omega
      · simp [hs]
  have hside : ∀ x ∈ L.rows, (x.signal = .buy → x.action = .long ∨ x.action = .none) ∧
      (x.signal = .sell → x.action = .short ∨ x.action = .none) := by
    intro x hx
    obtain ⟨a, b⟩ := hact x hx
    constructor <;> intro hs <;> cases hxa : x.action <;> simp_all
  have hbuy := hsplit .buy .long (fun x hx => (hact x hx).1) (by simp) fun x hx => (hside x hx).1
  have hsell := hsplit .sell .short (fun x hx => (hact x hx).2) (by simp) fun x hx => (hside x hx).2
  have e1 : (Sim.statistics (State.map Val.fin L)).buySignals = L.rows.countP (fun x => x.signal = .buy) := by
    simp only [statistics, State.map, List.filter_map, List.length_map, List.countP_eq_length_filter]
    rfl
  have e2 : (Sim.statistics (State.map Val.fin L)).sellSignals = L.rows.countP (fun x => x.signal = .sell) := by
    simp only [statistics, State.map, List.filter_map, List.length_map, List.countP_eq_length_filter]
    rfl
  have e3 : (Sim.statistics (State.map Val.fin L)).ignoredBuySignals = L.rows.countP (fun x => x.signal = .buy ∧ x.action = .none) := by
    simp only [statistics, State.map, List.filter_map, List.length_map, List.countP_eq_length_filter, Bool.decide_and]
    rfl
  have e4 : (Sim.statistics (State.map Val.fin L)).ignoredSellSignals = L.rows.countP (fun x => x.signal = .sell ∧ x.action = .none) := by
    simp only [statistics, State.map, List.filter_map, List.length_map, List.countP_eq_length_filter, Bool.decide_and]
    rfl
  refine ⟨by simp [statistics, State.map, hlen], hlen, e1, e2, e3, e4, by rw [e1, e3, hbuy], by rw [e2, e4, hsell], ?_, ?_, ?_⟩
  · rw [← hopen.1]
    simp only [statistics, State.map, countOpen_map]
  · rw [← hopen.2]
    simp only [statistics, State.map, countOpen_map]
  · intro row hrow
    obtain ⟨x, hx, rfl⟩ := (h1 _ row).1 hrow
    have hl : L.rows.getLast? = some x := by rw [List.getLast?_eq_getElem?, hlen, hx]
    simp only [statistics, State.map, lastOr0, List.getLast?_map, hl, Option.map_some]
    exact ⟨rfl, rfl, rfl, rfl, rfl⟩

/-- C10, for the data that `getTiSimulation` returns: closes that agree up to day `d` give the same rows up to day `d`. -/
theorem C10_returned {g' : RawFrame} {r' : SimResult} (h : Returned o g m fac q r) (h' : Returned o g' m fac q r') (d : ℕ)
    (hp : ∀ i ≤ d, price g "close" i = price g' "close" i) (i : ℕ) (hi : i ≤ d) (row : Row Val) : RowOn r i row ↔ RowOn r' i row := by
  obtain ⟨hq, M, sig, hM, -, -, ds, st, hds, rfl, h1, -, -, hs⟩ := h.run
  obtain ⟨-, M', sig', hM', -, -, ds', st', hds', rfl, h1', -, -, hs'⟩ := h'.run
  obtain rfl : M = M' := by
    apply Option.ext
    intro v
    rw [hM, hM']
  rw [h1, h1', C10_no_look_ahead_rows ⟨M, q⟩ ds ds' d ?_ i hi]
  intro j hj
  rw [hds, hds']
  unfold history
  rw [List.getElem?_map, List.getElem?_map]
  by_cases hl : j < o.getTiData.idx.length
  · rw [List.getElem?_range hl]
    simp only [Option.map_some]
    rw [hp j hj, same_signal (hs j hl) (hs' j hl)]
  · rw [List.getElem?_eq_none (by simpa using hl)]
    rfl

/-- C12, for the data that `getTiSimulation` returns: a limit that the simulation without one never exceeds changes nothing. -/
theorem C12_returned {m' : PyArg} {r' : SimResult} (h : Returned o g m fac q r) (h' : Returned o g m' fac q r')
    (hm : ∀ v, m.asNumber ≠ some (.fin v)) (v : ℚ) (hv : m'.asNumber = some (.fin v))
    (hle : ∀ i row e, RowOn r i row → row.exposure = .fin e → e ≤ v) :
    (∀ i row, RowOn r i row ↔ RowOn r' i row) ∧ r'.stats = r.stats := by
  obtain ⟨hq, M, sig, hM, -, -, ds, st, hds, hst, h1, -, h3, hs⟩ := h.run
  obtain ⟨-, M', sig', hM', -, -, ds', st', hds', hst', h1', -, h3', hs'⟩ := h'.run
  obtain rfl := (hM' v).2 hv
  cases M with
  | some w => exact absurd ((hM w).1 rfl) (hm w)
  | none =>
    have e : ds' = ds := by
      rw [hds, hds']
      unfold history
      refine List.map_congr_left fun j hj => ?_
      rw [List.mem_range] at hj
      rw [same_signal (hs j hj) (hs' j hj)]
    have : st' = st := by
      rw [hst, hst', e]
      refine C12_unreached_limit v q ds fun x hx => ?_
      obtain ⟨i, hi⟩ := List.mem_iff_getElem?.1 hx
      have := hle i (asVals x) x.exposure ((h1 i _).2 ⟨x, by rw [hst]; exact hi, rfl⟩) rfl
      show decide (v < x.exposure) = false
      simpa using this
    subst this
    exact ⟨fun i row => by rw [h1, h1'], by rw [h3, h3']⟩

/-- C13, for the data that `getTiSimulation` returns. -/
theorem C13_returned (h : Returned o g m fac q r) (v low : ℚ) (hv : m.asNumber = some (.fin v)) (hlow : 0 < low)
    (h0 : g.EachRow ["close"] fun x => low ≤ x "close") (i : ℕ) (row : Row Val) (hi : RowOn r i row) :
    numOpen .long (firstDays r (i + 1)) + numOpen .short (firstDays r (i + 1)) ≤ v / low := by
  obtain ⟨hq, M, sig, hM, hM0, hP, ds, st, hds, rfl, h1, h2, -⟩ := h.run
  obtain ⟨x, hx, rfl⟩ := (h1 i row).1 hi
  obtain rfl := (hM v).2 hv
  rw [h2]
  refine C13_open_positions_bounded v low q (hM0 v rfl) hlow hq ds ?_ i x hx
  rw [hds]
  intro d hd
  unfold history at hd
  obtain ⟨j, hj, rfl⟩ := List.mem_map.1 hd
  obtain ⟨y, h3, h4⟩ := hP _ h0 j (List.mem_range.1 hj)
  show low ≤ price g "close" j
  rw [← h4]
  exact h3

/-- C14, for the data that `getTiSimulation` returns. -/
theorem C14_returned (h : Returned o g m fac q r) (i : ℕ) (row : Row Val) (hi : RowOn r i row) (days : List (Row ℚ))
    (hd : days = firstDays r (i + 1)) :
    row.balance = .fin (realised days + unrealised (price g "close" i) days +
      sumOpen (fun s entry => if s = .long then entry else 0) days - sumOpen (fun s entry => if s = .short then entry else 0) days) := by
  subst hd
  obtain ⟨hq, M, sig, -, -, -, ds, st, hds, rfl, h1, h2, -⟩ := h.run
  obtain ⟨x, hx, rfl⟩ := (h1 i row).1 hi
  have e3 : x.stock = price g "close" i := (history_row _ _ _ _ _ _ (by rw [← hds]; exact hx)).2.1
  rw [h2, ← e3]
  exact congrArg Val.fin (C14_balance_meaning _ hq ds i x hx _ rfl)

/-- C16, for the data that `getTiSimulation` returns: the executed days come first, their amounts are numbers and their action
fits the signal. -/
theorem C16_returned (h : Returned o g m fac q r) (i : ℕ) :
    ((∃ row, RowOn r i row) ↔ i < o.getTiData.idx.length) ∧
    ∀ row, RowOn r i row → AllNumbers row ∧ (row.action = .long → row.signal = .buy) ∧ (row.action = .short → row.signal = .sell) := by
  obtain ⟨hq, M, sig, -, -, -, ds, st, hds, rfl, h1, h2, -⟩ := h.run
  have hlen : (Sim.run ⟨M, q⟩ ds).rows.length = o.getTiData.idx.length := by rw [run_rows_length, hds]; simp [history]
  refine ⟨⟨?_, fun hi => ?_⟩, fun row hrow => ?_⟩
  · rintro ⟨row, hrow⟩
    obtain ⟨x, hx, -⟩ := (h1 i row).1 hrow
    rw [← hlen]
    exact (List.getElem?_eq_some_iff.1 hx).1
  · exact ⟨_, (h1 i _).2 ⟨_, List.getElem?_eq_getElem (by omega), rfl⟩⟩
  · obtain ⟨x, hx, rfl⟩ := (h1 i row).1 hrow
    obtain ⟨a, b⟩ := (C16_rows_complete ⟨M, q⟩ ds).2.2.2 x (List.mem_of_getElem? hx)
    exact ⟨⟨_, _, _, _, _, rfl, rfl, rfl, rfl, rfl⟩, a, b⟩

theorem sample_close (n : ℕ) : (sample n).EachRow ["close"] (fun x => 1 ≤ x "close") := by
  intro j hj
  have hj' : j < n := by simpa [sample] using hj
  have e1 : "Open".toLower = "open" := by decide +kernel
  have e2 : "HIGH".toLower = "high" := by decide +kernel
  have e3 : "low".toLower = "low" := by decide +kernel
  have e4 : "Close".toLower = "close" := by decide +kernel
  refine ⟨fun _ => sampleClose (n - 1 - j), fun m hm => ?_, ?_⟩
  · simp only [List.mem_singleton] at hm
    subst hm
    simp [RawFrame.cell, sample, Label.lower, e1, e2, e3, e4, List.find?, hj']
  · show 1 ≤ sampleClose _
    unfold sampleClose
    have : (0 : ℚ) ≤ ((7 * (n - 1 - j)) % 11 : ℕ) := Nat.cast_nonneg _
    linarith

/-- A simulation with longs and shorts that are opened and closed, with a limit: all hypotheses are met. -/
example : ∃ o r, Returned o (sample 9) (.int 100) (.float (.fin (3/2))) (3/2) r ∧ (PyArg.int 100).asNumber = some (.fin 100) ∧
    (sample 9).EachRow ["close"] (fun x => 0 ≤ x "close") ∧ (sample 9).EachRow ["close"] (fun x => 1 ≤ x "close") ∧
    (firstDays r 9).map (·.action) = [.none, .none, .long, .short, .long, .none, .short, .long, .none] ∧
    openAt (firstDays r 4) 2 2 ∧ ¬ openAt (firstDays r 4) 2 3 ∧ (∃ row, RowOn r 0 row) ∧ (∃ row, RowOn r 2 row) ∧
    (∃ row, RowOn r 3 row) := by
  have h1 : (match (construct demoEnv (.standardDeviation (.int 3)) (.frame (sample 9)) (.bool false)).2 with
      | .ok o => match (o.getTiSimulation (.frame (sample 9)) (.int 100) (.float (.fin (3/2)))).2.2 with
        | .ok r => decide ((firstDays r 9).map (·.action) = [.none, .none, .long, .short, .long, .none, .short, .long, .none]) &&
            (decide (firstDays r 4 = [⟨.hold, .none, 50, 0, 0, 0, 0⟩, ⟨.hold, .none, 57, 0, 0, 0, 0⟩, ⟨.buy, .long, 53, 53, 53, 0, 53⟩,
              ⟨.sell, .short, 60, 90, -60, 7, -53⟩]) && decide (o.getTiData.idx.length = 9))
        | .error _ => false
      | .error _ => false) = true := by decide +kernel
  split at h1
  · next o ho =>
    split at h1
    · next r hr =>
      simp only [Bool.and_eq_true, decide_eq_true_eq] at h1
      obtain ⟨h1, h2, h4⟩ := h1
      have hret : Returned o (sample 9) (.int 100) (.float (.fin (3/2))) (3/2) r := ⟨Reachable.used ⟨_, _, _, _, _, sample_wf 9, ho, Or.inl rfl⟩,
        sample_wf 9, fun j hj => by obtain ⟨x, hx, -⟩ := sample_rows 9 ["close"] (by simp) j hj; exact ⟨x, hx, trivial⟩, rfl, hr⟩
      refine ⟨o, r, hret, rfl, ?_, ?_, h1, ?_, ?_, ?_, ?_, ?_⟩
      · intro j hj
        obtain ⟨x, hx, hb⟩ := sample_rows 9 ["close"] (by simp) j hj
        exact ⟨x, hx, by linarith [hb.2.1, hb.1.2.2.1]⟩
      · exact sample_close 9
      · rw [h2]
        exact ⟨_, rfl, by decide, by decide +kernel⟩
      · rw [h2]
        rintro ⟨x, hx, -, h⟩
        simp only [List.getElem?_cons_succ, List.getElem?_cons_zero, Option.some.injEq] at hx
        subst hx
        exact absurd h (by decide +kernel)
      all_goals exact (C16_returned hret _).1.2 (by omega)
    · simp at h1
  · simp at h1

theorem sample_returned (n : ℕ) (m : PyArg) (p : Obj → SimResult → Bool)
    (h : (match (construct demoEnv (.standardDeviation (.int 3)) (.frame (sample n)) (.bool false)).2 with
      | .ok o => match (o.getTiSimulation (.frame (sample n)) m (.float (.fin (3/2)))).2.2 with
        | .ok r => p o r
        | .error _ => false
      | .error _ => false) = true) : ∃ o r, (construct demoEnv (.standardDeviation (.int 3)) (.frame (sample n)) (.bool false)).2 = .ok o ∧
        Returned o (sample n) m (.float (.fin (3/2))) (3/2) r ∧ p o r = true := by
  split at h
  · next o ho =>
    split at h
    · next r hr =>
      exact ⟨o, r, ho, ⟨Reachable.used ⟨_, _, _, _, _, sample_wf n, ho, Or.inl rfl⟩, sample_wf n,
        fun j hj => by obtain ⟨x, hx, -⟩ := sample_rows n ["close"] (by simp) j hj; exact ⟨x, hx, trivial⟩, rfl, hr⟩, h⟩
    · simp at h
  · simp at h

/-- `C12_returned`: no limit and a limit of 1000, which is not reached. -/
example : ∃ o r r', Returned o (sample 9) .none (.float (.fin (3/2))) (3/2) r ∧
    Returned o (sample 9) (.int 1000) (.float (.fin (3/2))) (3/2) r' ∧ (∀ v, PyArg.none.asNumber ≠ some (.fin v)) ∧
    (PyArg.int 1000).asNumber = some (.fin 1000) ∧ (∀ i row e, RowOn r i row → row.exposure = .fin e → e ≤ 1000) := by
  obtain ⟨o, r, h1, h2, h3⟩ := sample_returned 9 .none (fun o r => r.rows.all fun x => match x with
    | some row => match row.exposure with
      | .fin e => decide (e ≤ 1000)
      | _ => true
    | none => true) (by decide +kernel)
  obtain ⟨o', r', h1', h2', -⟩ := sample_returned 9 (.int 1000) (fun _ _ => true) (by decide +kernel)
  rw [h1] at h1'
  obtain rfl := Except.ok.inj h1'
  refine ⟨o, r, r', h2, h2', (by intro v h; cases h), rfl, fun i row e hr he => ?_⟩
  have := (List.all_eq_true.1 h3) _ (List.mem_of_getElem? hr)
  simp only [he, decide_eq_true_eq] at this
  exact this

end TTI.Props
