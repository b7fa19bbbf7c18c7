import Verif.Props.Table
import Verif.Props.TrendTrading

set_option autoImplicit false

/-!
# How much a simulation of a given indicator can lose: C99
-/

namespace TTI.Props

open Spec Flt Sim

variable {E : Env} {c : Call} {o o' : Obj} {n : ℕ} {x : String → ℕ → ℚ} {P : (String → ℚ) → Prop}

/-- A simulation on the closes of the table the indicator was built on returns data, if the limit and the factor are accepted and
no signal raises. -/
theorem table_simulated (hB : BuiltOn E c (table n x) true o P) (h0 : 1 ≤ n) (h1 : o.ind ≠ .medianPrice 1)
    (h2 : ∀ p s, o.ind ≠ .rangeIndicator p s) (m fac : PyArg) (q : ℚ)
    (hm : m = .none ∨ ∃ v, m.asNumber = some v ∧ Val.le v 0 = false) (hf : fac.asNumber = some (.fin q)) (hq : 1 ≤ q) :
    ∃ r, Returned o (table n x) m fac q r := by
  obtain ⟨-, -, hidx, -, -⟩ := construct_sound E c _ true o hB.wf hB.ok
  have hacc : AcceptsSim o.input.idx (.frame (table n x)) m fac :=
    ⟨⟨_, rfl, table_valid n x h0 _ (by simp [ohlcv]), by rw [hidx]; exact (sortIdx_perm _).symm⟩, hm,
      ⟨_, hf, by
        show decide (q < 1) = false
        exact decide_eq_false (not_lt.2 hq)⟩⟩
  obtain ⟨r, hr⟩ := C18_accepted_arguments o _ m fac hacc fun i hi => by
    obtain ⟨o', hc, -⟩ := (C34_signal_total E c _ true o hB.wf hB.ok).2.2.1 i hi
    obtain ⟨s, hs⟩ := (C34_other_indicators E c _ true o hB.wf hB.ok h1 h2).2 i o' hc
    exact ⟨o', s, hc, hs⟩
  exact ⟨r, Reachable.used ⟨E, c, _, true, o, hB.wf, hB.ok, Or.inl rfl⟩, hB.wf,
    fun j hj => ⟨fun s => x s j, fun s hs => table_cell n x s (by simp at hs; simp [hs, ohlcv]) j (by rwa [table_length] at hj),
      trivial⟩, hf, hr⟩

theorem table_sorted (n : ℕ) (x : String → ℕ → ℚ) : (table n x).idx.Pairwise (· ≤ ·) := by
  show ((List.range n).map fun j : ℕ => (j : ℤ)).Pairwise (· ≤ ·)
  rw [List.pairwise_map]
  exact (List.pairwise_lt_range (n := n)).imp fun h => by exact_mod_cast le_of_lt h

theorem rowsUpTo_range (n i : ℕ) (hi : i < n) : rowsUpTo (i : ℤ) ((List.range n).map fun j : ℕ => (j : ℤ)) = i + 1 := by
  unfold rowsUpTo
  rw [List.filter_map, List.length_map]
  induction n with
  | zero => omega
  | succ n ih =>
    rw [List.range_succ, List.filter_append, List.length_append]
    by_cases h : i < n
    · rw [ih h]
      simp; omega
    · obtain rfl : i = n := by omega
      rw [List.filter_eq_self.2 fun j hj => by simp at hj ⊢; omega]
      simp

/-- The object of the `i`-th day of a simulation has `i + 1` rows. -/
theorem table_cut (hB : BuiltOn E c (table n x) true o P) (hd : ∀ p, o.ind ≠ .detrendedPriceOscillator p) (i : ℕ)
    (hc : o.cut i = some o') : o'.getTiData.idx.length = i + 1 := by
  obtain ⟨hs, -, hidx, -, -⟩ := construct_sound E c _ true o hB.wf hB.ok
  have hrows : o.ti.len = o.input.len := hs.shaped.rowsEq hd
  have hin : o.input.idx = (List.range n).map fun j : ℕ => (j : ℤ) := by
    rw [hidx, sortIdx_of_sorted _ (table_sorted n x)]; rfl
  have hti : o.ti.idx = o.input.idx := by rw [hs.dates, hrows]; exact List.take_length
  have hlt : i < o.ti.len := by
    by_contra hcon
    rw [cut_none o i (by omega)] at hc
    simp at hc
  obtain ⟨d, h1, -, h⟩ := cut_eq o hs i hlt
  rw [h] at hc
  obtain rfl := Option.some.inj hc
  have hn : i < n := by
    have : o.ti.len = n := by
      show o.ti.idx.length = n
      rw [hti, hin]; simp
    omega
  have hdi : d = i := by
    rw [hin] at h1
    simp [hn] at h1
    exact h1.symm
  show (o.ti.idx.take (rowsUpTo d o.ti.idx)).length = i + 1
  rw [hti, hin, hdi, rowsUpTo_range n i hn]
  simp; omega

/-- Four days with these prices, and the volume 1. -/
def fourDays (a b c d : ℚ) (s : String) (j : ℕ) : ℚ := if s = "volume" then 1 else [a, b, c, d].getD j 1

theorem fourDays_built (E : Env) (a b c d : ℚ) (h : 0 < a ∧ 0 < b ∧ 0 < c ∧ 0 < d) :
    ∃ o, BuiltOn E .onBalanceVolume (table 4 (fourDays a b c d)) true o Traded ∧ o.ind = .onBalanceVolume :=
  table_built E .onBalanceVolume .onBalanceVolume rfl 4 _ Traded (by omega) (by simp [minRows]) (by simp [Ind.required, ohlcv]) (by
    intro j hj
    interval_cases j <;> simp [Traded, fourDays, h])

theorem fourDays_price (a b c d : ℚ) : price (table 4 (fourDays a b c d)) "close" 0 = a ∧ price (table 4 (fourDays a b c d)) "close" 1 = b ∧
    price (table 4 (fourDays a b c d)) "close" 2 = c ∧ price (table 4 (fourDays a b c d)) "close" 3 = d := by
  refine ⟨?_, ?_, ?_, ?_⟩ <;> rw [table_price _ _ _ (by simp [ohlcv]) _ (by omega)] <;> simp [fourDays]

/-- The simulation of the on balance volume on four days that go one way: nothing on the first two days, then two signals against
the market. -/
theorem fourDays_run {a b c d : ℚ} {m fac : PyArg} {q : ℚ} {r : SimResult}
    (hB : BuiltOn E .onBalanceVolume (table 4 (fourDays a b c d)) true o Traded) (ho : o.ind = .onBalanceVolume)
    (hr : Returned o (table 4 (fourDays a b c d)) m fac q r) (up : Bool)
    (hw : if up then a < b ∧ b < c ∧ c < d else b < a ∧ c < b ∧ d < c) (v : ℚ) (hv : m.asNumber = some (.fin v)) :
    firstDays r 4 = (Sim.run ⟨some v, q⟩ [(a, .hold), (b, .hold), (c, if up then .sell else .buy), (d, if up then .sell else .buy)]).rows ∧
      ∃ row, RowOn r 3 row := by
  obtain ⟨p0, p1, p2, p3⟩ := fourDays_price a b c d
  obtain ⟨-, M, sig, hM, -, -, ds, st, hds, hst, -, h2, -, h4⟩ := hr.run
  obtain rfl : M = some v := (hM v).2 hv
  have hlen : o.getTiData.idx.length = 4 := by
    have := (day_view hB (fun F => by rw [ho]; rfl) (fun n => by rw [ho]; simp) (Or.inl rfl)).choose_spec
    obtain ⟨hs, -, hidx, -, -⟩ := construct_sound E _ _ true o hB.wf hB.ok
    have h1 : o.ti.len = o.input.len := hs.shaped.rowsEq fun n => by rw [ho]; simp
    show o.ti.len = 4
    rw [h1]
    unfold Frame.len
    rw [hidx, (sortIdx_perm _).length_eq, table_length]
  rw [hlen] at hds h4
  have hvol : AllPositive (table 4 (fourDays a b c d)) "volume" := fun j hj => by
    rw [table_length] at hj
    rw [table_price _ _ _ (by simp [ohlcv]) _ hj]
    simp [fourDays]
  have s01 : ∀ i < 2, sig i = .hold := by
    intro i hi
    obtain ⟨o', e1, e2⟩ := h4 i (by omega)
    obtain ⟨m', v'⟩ := day_view hB (fun F => by rw [ho]; rfl) (fun n => by rw [ho]; simp) (Or.inr ⟨i, e1⟩)
    have hl := table_cut hB (fun n => by rw [ho]; simp) i e1
    have hm : m' = i + 1 := by rw [← v'.rows, hl]
    have := v'.holds (fun p s => by rw [ho]; simp) (fun p => by rw [ho]; simp)
      (fun h => by rw [ho] at h; replace h : 3 ≤ m' := h; omega) (fun h => by rw [ho] at h; replace h : 3 ≤ m' := h; omega)
    rw [this] at e2
    exact (Except.ok.inj e2).symm
  have s23 : ∀ i, 2 ≤ i → i < 4 → sig i = if up then .sell else .buy := by
    intro i hi hi4
    obtain ⟨o', e1, e2⟩ := h4 i hi4
    have hl := table_cut hB (fun n => by rw [ho]; simp) i e1
    obtain ⟨u1, u2⟩ := C102_on_balance_volume_against_the_market hB ho hvol (Or.inr ⟨i, e1⟩) (by omega)
    cases up
    · simp only [Bool.false_eq_true, if_false] at hw ⊢
      have : AlwaysFalls (table 4 (fourDays a b c d)) "close" := fun j hj => by
        rw [table_length] at hj
        have : j < 3 := by omega
        interval_cases j <;> simp only [Nat.zero_add, Nat.reduceAdd, p0, p1, p2, p3] <;> tauto
      rw [u2 this] at e2
      exact (Except.ok.inj e2).symm
    · simp only [if_true] at hw ⊢
      have : AlwaysRises (table 4 (fourDays a b c d)) "close" := fun j hj => by
        rw [table_length] at hj
        have : j < 3 := by omega
        interval_cases j <;> simp only [Nat.zero_add, Nat.reduceAdd, p0, p1, p2, p3] <;> tauto
      rw [u1 this] at e2
      exact (Except.ok.inj e2).symm
  refine ⟨?_, (C16_returned hr 3).1.2 (by omega)⟩
  have hh : ds = [(a, .hold), (b, .hold), (c, if up then .sell else .buy), (d, if up then .sell else .buy)] := by
    rw [hds]
    simp [history, List.range_succ, p0, p1, p2, p3, s01 0 (by omega), s01 1 (by omega), s23 2 (by omega) (by omega),
      s23 3 (by omega) (by omega)]
  rw [h2, hst, hh, List.take_of_length_le]
  rw [run_rows_length]
  rfl

/-- C99: a limit does not limit the loss of an indicator that sells: for every limit, factor and amount there is a rising market
on which a simulation of the on balance volume loses more than this amount. -/
theorem C99_on_balance_volume_loses_any_amount (E : Env) (M q L : ℚ) (hM : 0 < M) (hq : 1 ≤ q) (hL : 0 ≤ L) :
    ∃ (f : RawFrame) (o : Obj) (r : SimResult) (row : Row Val), BuiltOn E .onBalanceVolume f true o Traded ∧
      Returned o f (.float (.fin M)) (.float (.fin q)) q r ∧ f.idx.length = 4 ∧ AlwaysRises f "close" ∧ RowOn r 3 row ∧
      total (price f "close" 3) (firstDays r 4) < -L := by
  have hq0 : 0 < q := by linarith
  have he : 0 < M / q := by positivity
  have hfe : q * (M / q) = M := by field_simp
  obtain ⟨o, hB, ho⟩ := fourDays_built E (M / q / 3) (M / q / 2) (M / q) (M / q + L + 1) ⟨by positivity, by positivity, he, by linarith⟩
  obtain ⟨r, hr⟩ := table_simulated hB (by omega) (by rw [ho]; simp) (fun p s => by rw [ho]; simp) (.float (.fin M)) (.float (.fin q)) q
    (Or.inr ⟨_, rfl, by show decide (M ≤ 0) = false; exact decide_eq_false (not_le.2 hM)⟩) rfl hq
  obtain ⟨hrows, row, hrow⟩ := fourDays_run hB ho hr true (by simp only [if_true]; refine ⟨?_, ?_, ?_⟩ <;> linarith) M rfl
  obtain ⟨p0, p1, p2, p3⟩ := fourDays_price (M / q / 3) (M / q / 2) (M / q) (M / q + L + 1)
  refine ⟨_, o, r, row, hB, hr, table_length _ _, fun j hj => ?_, hrow, ?_⟩
  · rw [table_length] at hj
    have : j < 3 := by omega
    interval_cases j <;> simp only [Nat.zero_add, Nat.reduceAdd, p0, p1, p2, p3] <;> linarith
  · rw [hrows, p3]
    have hlt : ¬ q * (M / q + L + 1) < M := by nlinarith
    have hlt' : 0 < q * (M / q + L + 1) := by positivity
    have h1 : ¬ (M / q + L + 1 < M / q) := by linarith
    simp [Sim.run, Sim.round, State.init, closeOpenPositions, processSignal, record, limitReached, portfolioValue, countOpen,
      sumExposure, npSum_rat, longMask, shortMask, markClosed, noPos, hfe, hlt, hlt']
    simp [total, realised, unrealised, sumOpen, closingPrice, profit, h1]
    linarith

/-- The hypotheses of `C99_on_balance_volume_loses_any_amount` with the limit 100, the factor 3/2 and a million. -/
example : (0 : ℚ) < 100 ∧ (1 : ℚ) ≤ 3 / 2 ∧ (0 : ℚ) ≤ 1000000 := by norm_num

/-- C99: the limit is a sharp bound for the loss of longs: for every limit and every amount below it there is a falling market on
which a simulation of the on balance volume loses more than this amount. -/
theorem C99_on_balance_volume_loses_the_limit (E : Env) (M q L : ℚ) (hq : 1 ≤ q) (hL : 0 ≤ L) (hM : L < M) :
    ∃ (f : RawFrame) (o : Obj) (r : SimResult) (row : Row Val), BuiltOn E .onBalanceVolume f true o Traded ∧
      Returned o f (.float (.fin M)) (.float (.fin q)) q r ∧ f.idx.length = 4 ∧ AlwaysFalls f "close" ∧ RowOn r 3 row ∧
      total (price f "close" 3) (firstDays r 4) < -L := by
  have hM0 : 0 < M := by linarith
  obtain ⟨o, hB, ho⟩ := fourDays_built E (3 * M) (2 * M) M ((M - L) / 2) ⟨by positivity, by positivity, hM0, by linarith⟩
  obtain ⟨r, hr⟩ := table_simulated hB (by omega) (by rw [ho]; simp) (fun p s => by rw [ho]; simp) (.float (.fin M)) (.float (.fin q)) q
    (Or.inr ⟨_, rfl, by show decide (M ≤ 0) = false; exact decide_eq_false (not_le.2 hM0)⟩) rfl hq
  obtain ⟨hrows, row, hrow⟩ := fourDays_run hB ho hr false (by simp only [Bool.false_eq_true, if_false]; refine ⟨?_, ?_, ?_⟩ <;> linarith) M rfl
  obtain ⟨p0, p1, p2, p3⟩ := fourDays_price (3 * M) (2 * M) M ((M - L) / 2)
  refine ⟨_, o, r, row, hB, hr, table_length _ _, fun j hj => ?_, hrow, ?_⟩
  · rw [table_length] at hj
    have : j < 3 := by omega
    interval_cases j <;> simp only [Nat.zero_add, Nat.reduceAdd, p0, p1, p2, p3] <;> linarith
  · rw [hrows, p3]
    have h1 : ¬ M < (M - L) / 2 := by linarith
    simp [Sim.run, Sim.round, State.init, closeOpenPositions, processSignal, record, limitReached, portfolioValue, countOpen,
      sumExposure, npSum_rat, longMask, shortMask, markClosed, noPos, h1, hM]
    simp [total, realised, unrealised, sumOpen, closingPrice, profit, h1]
    linarith

/-- The hypotheses of `C99_on_balance_volume_loses_the_limit` with the limit 100, the factor 3/2 and 99. -/
example : (1 : ℚ) ≤ 3 / 2 ∧ (0 : ℚ) ≤ 99 ∧ (99 : ℚ) < 100 := by norm_num

end TTI.Props
