import Verif.Spec.Factor
import Verif.Props.SimApi
import Verif.Props.Superpose
import Verif.Props.Ruin

set_option autoImplicit false

/-!
# What the short exposure factor changes: C110
-/

namespace TTI.Props

open Spec Sim

variable {o : Obj} {g : RawFrame} {m m' fac fac' : PyArg} {q q' : ℚ} {r r' : SimResult}

/-- What the open and the closed positions of a history depend on. -/
def face (x : Row ℚ) : Side × ℚ := (x.action, x.stock)

theorem stocks_face {h h' : List (Row ℚ)} (e : h.map face = h'.map face) : h.map (·.stock) = h'.map (·.stock) := by
  have := congrArg (List.map Prod.snd) e
  simpa [Function.comp_def, face] using this

theorem closing_face {h h' : List (Row ℚ)} (e : h.map face = h'.map face) (s : Side) (x : ℚ) : closingPrice s x h = closingPrice s x h' := by
  unfold closingPrice
  rw [stocks_face e]

theorem sumOpen_face (k : Side → ℚ → ℚ) : ∀ {h h' : List (Row ℚ)}, h.map face = h'.map face → sumOpen k h = sumOpen k h'
  | [], [], _ => rfl
  | [], _ :: _, e => by simp at e
  | _ :: _, [], e => by simp at e
  | a :: h, b :: h', e => by
    simp only [List.map_cons, List.cons.injEq, face, Prod.mk.injEq] at e
    obtain ⟨⟨e1, e2⟩, e3⟩ := e
    simp only [sumOpen, e1, e2, closing_face e3, sumOpen_face k e3]

theorem realised_face : ∀ {h h' : List (Row ℚ)}, h.map face = h'.map face → realised h = realised h'
  | [], [], _ => rfl
  | [], _ :: _, e => by simp at e
  | _ :: _, [], e => by simp at e
  | a :: h, b :: h', e => by
    simp only [List.map_cons, List.cons.injEq, face, Prod.mk.injEq] at e
    obtain ⟨⟨e1, e2⟩, e3⟩ := e
    simp only [realised, e1, e2, closing_face e3, realised_face e3]

theorem exposure_shorts (q q' : ℚ) : ∀ h : List (Row ℚ), exposure q' h - exposure q h = (q' - q) * openShorts h
  | [] => by simp [exposure, openShorts, sumOpen]
  | r :: h => by
    have ih := exposure_shorts q q' h
    unfold exposure openShorts at ih ⊢
    simp only [sumOpen]
    by_cases hc : r.action ≠ .none ∧ closingPrice r.action r.stock h = none
    · simp only [if_pos hc]
      cases r.action <;> simp only [entryExposure, reduceCtorEq, if_false, if_true] <;> linarith
    · simp only [if_neg hc]
      linarith

/-- The signals of a simulation do not depend on the limit and the factor. -/
theorem factor_signal (h : Returned o g m fac q r) (h' : Returned o g m' fac' q' r') (i : ℕ) (row row' : Row Val) (hi : RowOn r i row)
    (hi' : RowOn r' i row') : row.signal = row'.signal := by
  obtain ⟨-, M, sig, -, -, -, ds, st, hds, rfl, h1, -, -, hs⟩ := h.run
  obtain ⟨-, M', sig', -, -, -, ds', st', hds', rfl, h1', -, -, hs'⟩ := h'.run
  obtain ⟨x, hx, rfl⟩ := (h1 i row).1 hi
  obtain ⟨x', hx', rfl⟩ := (h1' i row').1 hi'
  rw [hds] at hx
  rw [hds'] at hx'
  obtain ⟨a1, -, a3⟩ := history_row _ _ _ _ _ _ hx
  obtain ⟨-, -, b3⟩ := history_row _ _ _ _ _ _ hx'
  show x.signal = x'.signal
  rw [a3, b3, same_signal (hs i a1) (hs' i a1)]

theorem factor_face (h : Returned o g m fac q r) (h' : Returned o g m' fac' q' r') (n : ℕ)
    (H : ∀ j < n, ∀ row row', RowOn r j row → RowOn r' j row' → row.action = row'.action) :
    (firstDays r n).map face = (firstDays r' n).map face := by
  obtain ⟨-, M, sig, -, -, -, ds, st, hds, rfl, h1, h2, -, -⟩ := h.run
  obtain ⟨-, M', sig', -, -, -, ds', st', hds', rfl, h1', h2', -, -⟩ := h'.run
  rw [h2, h2']
  have hl : (run ⟨M, q⟩ ds).rows.length = (run ⟨M', q'⟩ ds').rows.length := by rw [run_length, run_length, hds, hds']; simp [history]
  refine List.ext_getElem (by simp [hl]) fun j a b => ?_
  have a' : j < n ∧ j < (run ⟨M, q⟩ ds).rows.length := by simpa using a
  have b' : j < (run ⟨M', q'⟩ ds').rows.length := by omega
  simp only [List.getElem_map, List.getElem_take, face, Prod.mk.injEq]
  have g1 := List.getElem?_eq_getElem a'.2
  have g2 := List.getElem?_eq_getElem b'
  refine ⟨H j a'.1 _ _ ((h1 j _).2 ⟨_, g1, rfl⟩) ((h1' j _).2 ⟨_, g2, rfl⟩), ?_⟩
  rw [(history_row _ _ _ _ _ _ (by rw [← hds]; exact g1)).2.1, (history_row _ _ _ _ _ _ (by rw [← hds']; exact g2)).2.1]

/-- If the actions are the same up to a day, the rows of this day agree in everything but the exposure, and the exposures differ by the
difference of the factors times the opening prices of the open shorts. -/
theorem factor_row (h : Returned o g m fac q r) (h' : Returned o g m' fac' q' r') (i : ℕ)
    (H : ∀ j < i + 1, ∀ row row', RowOn r j row → RowOn r' j row' → row.action = row'.action) (row row' : Row Val) (hi : RowOn r i row)
    (hi' : RowOn r' i row') : SameButExposure row row' ∧ ∃ e e', row.exposure = .fin e ∧ row'.exposure = .fin e' ∧
      e' - e = (q' - q) * openShorts (firstDays r (i + 1)) := by
  have hf := factor_face h h' (i + 1) H
  obtain ⟨-, c1, c2, w, p, c3, c4, c5⟩ := C06_returned h i row hi
  obtain ⟨-, d1, d2, w', p', d3, d4, d5⟩ := C06_returned h' i row' hi'
  have e1 := C04_returned h i row hi
  have e2 := C04_returned h' i row' hi'
  rw [realised_face hf, ← e2] at e1
  have e3 : row.portfolio = row'.portfolio := by
    rw [c2, d2]
    unfold numOpen
    rw [sumOpen_face _ hf, sumOpen_face _ hf]
  refine ⟨⟨factor_signal h h' i row row' hi hi', H i (by omega) row row' hi hi', c1.trans d1.symm, e3, e1, ?_⟩, _, _, C01_returned h i row hi,
    C01_returned h' i row' hi', ?_⟩
  · rw [c5, d5]
    rw [c3, d3] at e1
    rw [c4, d4] at e3
    rw [Val.fin.inj e1, Val.fin.inj e3]
  · rw [← exposure_shorts]
    unfold exposure
    rw [sumOpen_face (entryExposure q') hf]

theorem factor_counts (h : Returned o g m fac q r) (h' : Returned o g m' fac' q' r') (n : ℕ)
    (H : ∀ j row row', RowOn r j row → RowOn r' j row' → row.action = row'.action) (k : Signal × Side → Bool) :
    (firstDays r n).countP (fun x => k (x.signal, x.action)) = (firstDays r' n).countP fun x => k (x.signal, x.action) := by
  have key : (firstDays r n).map (fun x => (x.signal, x.action)) = (firstDays r' n).map fun x => (x.signal, x.action) := by
    have hsig := factor_signal h h'
    obtain ⟨-, M, sig, -, -, -, ds, st, hds, rfl, h1, h2, -, -⟩ := h.run
    obtain ⟨-, M', sig', -, -, -, ds', st', hds', rfl, h1', h2', -, -⟩ := h'.run
    rw [h2, h2']
    have hl : (run ⟨M, q⟩ ds).rows.length = (run ⟨M', q'⟩ ds').rows.length := by rw [run_length, run_length, hds, hds']; simp [history]
    refine List.ext_getElem (by simp [hl]) fun j a b => ?_
    have a' : j < n ∧ j < (run ⟨M, q⟩ ds).rows.length := by simpa using a
    have b' : j < (run ⟨M', q'⟩ ds').rows.length := by omega
    simp only [List.getElem_map, List.getElem_take, Prod.mk.injEq]
    have g1 := (h1 j _).2 ⟨_, List.getElem?_eq_getElem a'.2, rfl⟩
    have g2 := (h1' j _).2 ⟨_, List.getElem?_eq_getElem b', rfl⟩
    exact ⟨hsig j _ _ g1 g2, H j _ _ g1 g2⟩
  have := congrArg (List.countP k) key
  simpa [List.countP_map, Function.comp_def] using this

theorem factor_stats (h : Returned o g m fac q r) (h' : Returned o g m' fac' q' r')
    (H : ∀ j row row', RowOn r j row → RowOn r' j row' → row.action = row'.action) :
    r'.stats = { r.stats with lastExposure := r'.stats.lastExposure } := by
  have hc := factor_counts h h' o.getTiData.idx.length H
  have hf := factor_face h h' o.getTiData.idx.length fun j _ => H j
  obtain ⟨a1, -, a2, a3, a4, a5, -, -, a6, a7, a8⟩ := C09_returned h _ rfl
  obtain ⟨b1, -, b2, b3, b4, b5, -, -, b6, b7, b8⟩ := C09_returned h' _ rfl
  have c2 := hc fun x => decide (x.1 = .buy)
  have c3 := hc fun x => decide (x.1 = .sell)
  have c4 := hc fun x => decide (x.1 = .buy ∧ x.2 = .none)
  have c5 := hc fun x => decide (x.1 = .sell ∧ x.2 = .none)
  have c6 : r'.stats.lastOpenLong = r.stats.lastOpenLong := by
    have : (r'.stats.lastOpenLong : ℚ) = r.stats.lastOpenLong := by rw [a6, b6]; unfold numOpen; rw [sumOpen_face _ hf]
    exact_mod_cast this
  have c7 : r'.stats.lastOpenShort = r.stats.lastOpenShort := by
    have : (r'.stats.lastOpenShort : ℚ) = r.stats.lastOpenShort := by rw [a7, b7]; unfold numOpen; rw [sumOpen_face _ hf]
    exact_mod_cast this
  have last : r'.stats.lastStockValue = r.stats.lastStockValue ∧ r'.stats.lastPortfolioValue = r.stats.lastPortfolioValue ∧
      r'.stats.lastEarnings = r.stats.lastEarnings ∧ r'.stats.finalBalance = r.stats.finalBalance := by
    rcases Nat.eq_zero_or_pos o.getTiData.idx.length with hz | hz
    · obtain ⟨-, M, sig, -, -, -, ds, st, hds, rfl, -, -, h3, -⟩ := h.run
      obtain ⟨-, M', sig', -, -, -, ds', st', hds', rfl, -, -, h3', -⟩ := h'.run
      rw [h3, h3', hds, hds', hz]
      exact ⟨rfl, rfl, rfl, rfl⟩
    · obtain ⟨row, hr⟩ := (C16_returned h (o.getTiData.idx.length - 1)).1.2 (by omega)
      obtain ⟨row', hr'⟩ := (C16_returned h' (o.getTiData.idx.length - 1)).1.2 (by omega)
      obtain ⟨x1, -, x3, x4, x5⟩ := a8 row hr
      obtain ⟨y1, -, y3, y4, y5⟩ := b8 row' hr'
      obtain ⟨⟨-, -, z1, z2, z3, z4⟩, -⟩ := factor_row h h' _ (fun j _ => H j) row row' hr hr'
      rw [x1, x3, x4, x5, y1, y3, y4, y5, z1, z2, z3, z4]
      exact ⟨rfl, rfl, rfl, rfl⟩
  obtain ⟨l1, l2, l3, l4⟩ := last
  have s1 : r'.stats.tradingDays = r.stats.tradingDays := b1.trans a1.symm
  have s2 : r'.stats.buySignals = r.stats.buySignals := by rw [a2, b2]; exact c2.symm
  have s3 : r'.stats.sellSignals = r.stats.sellSignals := by rw [a3, b3]; exact c3.symm
  have s4 : r'.stats.ignoredBuySignals = r.stats.ignoredBuySignals := by rw [a4, b4]; exact c4.symm
  have s5 : r'.stats.ignoredSellSignals = r.stats.ignoredSellSignals := by rw [a5, b5]; exact c5.symm
  dsimp only
  rw [← s1, ← s2, ← s3, ← s4, ← s5, ← c6, ← c7, ← l1, ← l2, ← l3, ← l4]

/-- C110: without a limit. -/
theorem C110_no_limit (h : Returned o g m fac q r) (h' : Returned o g m' fac' q' r') (hm : ∀ v, m.asNumber ≠ some (.fin v))
    (hm' : ∀ v, m'.asNumber ≠ some (.fin v)) :
    (∀ i row row', RowOn r i row → RowOn r' i row' → SameButExposure row row' ∧ ∃ e e', row.exposure = .fin e ∧ row'.exposure = .fin e' ∧
      e' - e = (q' - q) * openShorts (firstDays r (i + 1))) ∧
    r'.stats = { r.stats with lastExposure := r'.stats.lastExposure } := by
  have act : ∀ {fac : PyArg} {q : ℚ} {r : SimResult} {m : PyArg}, Returned o g m fac q r → (∀ v, m.asNumber ≠ some (.fin v)) → ∀ i row, RowOn r i row →
      row.action = if i = 0 then .none else sideOf row.signal := by
    intro fac q r m h hm i row hi
    obtain ⟨-, M, sig, hM, -, -, ds, st, -, rfl, h1, -, -, -⟩ := h.run
    obtain ⟨x, hx, rfl⟩ := (h1 i row).1 hi
    obtain rfl : M = none := by
      cases M with
      | none => rfl
      | some v => exact absurd ((hM v).1 rfl) (hm v)
    exact action_unlimited q ds i x hx
  have H : ∀ j row row', RowOn r j row → RowOn r' j row' → row.action = row'.action := fun j row row' hj hj' => by
    rw [act h hm j row hj, act h' hm' j row' hj', factor_signal h h' j row row' hj hj']
  exact ⟨fun i row row' hi hi' => factor_row h h' i (fun j _ => H j) row row' hi hi', factor_stats h h' H⟩

/-- The rows of a simulation as exact numbers. -/
theorem firstDays_mem (h : Returned o g m fac q r) (n : ℕ) (x : Row ℚ) (hx : x ∈ firstDays r n) :
    ∃ j row, RowOn r j row ∧ row.action = x.action := by
  obtain ⟨-, M, sig, -, -, -, ds, st, -, rfl, h1, h2, -, -⟩ := h.run
  rw [h2] at hx
  obtain ⟨j, hj⟩ := List.mem_iff_getElem?.1 (List.mem_of_mem_take hx)
  exact ⟨j, _, (h1 j _).2 ⟨x, hj, rfl⟩, rfl⟩

theorem openShorts_none : ∀ h : List (Row ℚ), (∀ x ∈ h, x.action ≠ .short) → openShorts h = 0
  | [], _ => rfl
  | r :: h, H => by
    have ih := openShorts_none h fun x hx => H x (List.mem_cons_of_mem _ hx)
    unfold openShorts at ih ⊢
    simp [sumOpen, ih, H r (by simp)]

theorem exposure_no_longs (q : ℚ) : ∀ h : List (Row ℚ), (∀ x ∈ h, x.action ≠ .long) → exposure q h = q * openShorts h
  | [], _ => by simp [exposure, openShorts, sumOpen]
  | r :: h, H => by
    have ih := exposure_no_longs q h fun x hx => H x (List.mem_cons_of_mem _ hx)
    have hr := H r (by simp)
    unfold openShorts exposure at ih ⊢
    simp only [sumOpen, ih, mul_add]
    congr 1
    cases ha : r.action <;> simp_all [entryExposure]

/-- The history of a day before its signal is processed. -/
def evening (r : SimResult) (i : ℕ) (row : Row Val) : List (Row ℚ) := firstDays r (i + 1) ++ [{ numbersOf row with action := .none }]

theorem evening_face (h : Returned o g m fac q r) (h' : Returned o g m' fac' q' r') (i : ℕ)
    (H : ∀ j < i + 1, ∀ row row', RowOn r j row → RowOn r' j row' → row.action = row'.action) (row row' : Row Val)
    (hi : RowOn r (i + 1) row) (hi' : RowOn r' (i + 1) row') : (evening r i row).map face = (evening r' i row').map face := by
  unfold evening
  rw [List.map_append, List.map_append, factor_face h h' (i + 1) H]
  have e : row.stock = row'.stock := (C06_returned h _ _ hi).2.1.trans (C06_returned h' _ _ hi').2.1.symm
  simp [face, numbersOf, e]

theorem evening_mem (h : Returned o g m fac q r) (i : ℕ) (row : Row Val) (x : Row ℚ) (hx : x ∈ evening r i row) :
    x.action = .none ∨ ∃ j d, RowOn r j d ∧ d.action = x.action := by
  rcases List.mem_append.1 hx with hx | hx
  · exact .inr (firstDays_mem h _ x hx)
  · rw [List.mem_singleton.1 hx]
    exact .inl rfl

/-- Two simulations take the same actions if on every day the same actions before lead to the same one. -/
theorem factor_actions (h : Returned o g m fac q r) (h' : Returned o g m' fac' q' r')
    (step : ∀ i, (∀ j < i + 1, ∀ row row', RowOn r j row → RowOn r' j row' → row.action = row'.action) → ∀ row row', RowOn r (i + 1) row →
      RowOn r' (i + 1) row' → (row.action = .long ↔ row'.action = .long) ∧ (row.action = .short ↔ row'.action = .short)) :
    ∀ j row row', RowOn r j row → RowOn r' j row' → row.action = row'.action := by
  intro j
  induction j using Nat.strong_induction_on with
  | _ j ih =>
    intro row row' hj hj'
    cases j with
    | zero => rw [(C08_returned h row hj).1, (C08_returned h' row' hj').1]
    | succ i =>
      obtain ⟨e1, e2⟩ := step i (fun j hj => ih j hj) row row' hj hj'
      cases ha : row.action <;> cases hb : row'.action <;> simp_all

/-- C110: without sell signals the factor changes nothing at all, with or without a limit. -/
theorem C110_no_sells (h : Returned o g m fac q r) (h' : Returned o g m fac' q' r') (hn : ∀ i row, RowOn r i row → row.signal ≠ .sell) :
    (∀ i row, RowOn r i row ↔ RowOn r' i row) ∧ r'.stats = r.stats := by
  have none_short : ∀ j d, RowOn r j d → d.action ≠ .short := fun j d hd hs => hn j d hd (((C16_returned h j).2 d hd).2.2 hs)
  have H := factor_actions h h' fun i H row row' hi hi' => by
    obtain ⟨a1, a2⟩ := C07_returned h i row hi
    obtain ⟨b1, b2⟩ := C07_returned h' i row' hi'
    have hs := factor_signal h h' _ row row' hi hi'
    have e : exposureLeft q' (firstDays r' (i + 1)) (numbersOf row') = exposureLeft q (firstDays r (i + 1)) (numbersOf row) := by
      have f := evening_face h h' i H row row' hi hi'
      have s := exposure_shorts q q' (evening r i row)
      rw [openShorts_none _ fun x hx => (evening_mem h i row x hx).elim (fun e => by simp [e])
        fun ⟨j, d, hd, e⟩ => e ▸ none_short j d hd, mul_zero] at s
      show exposure q' (evening r' i row') = exposure q (evening r i row)
      unfold exposure at s ⊢
      rw [← sumOpen_face _ f]
      linarith
    rw [a1, b1, a2, b2, e, ← hs]
    exact ⟨Iff.rfl, iff_of_false (fun q => hn _ row hi q.1) fun q => hn _ row hi q.1⟩
  have rows : ∀ i row row', RowOn r i row → RowOn r' i row' → row = row' := fun i row row' hi hi' => by
    obtain ⟨⟨s1, s2, s3, s4, s5, s6⟩, e, e', he, he', hd⟩ := factor_row h h' i (fun j _ => H j) row row' hi hi'
    rw [openShorts_none _ fun x hx => by
      obtain ⟨j, d, hd, e⟩ := firstDays_mem h _ x hx
      exact e ▸ none_short j d hd, mul_zero, sub_eq_zero] at hd
    have s7 : row.exposure = row'.exposure := by rw [he, he', hd]
    cases row
    cases row'
    simp_all
  refine ⟨fun i row => ⟨fun hi => ?_, fun hi => ?_⟩, ?_⟩
  · obtain ⟨row', hi'⟩ := (C16_returned h' i).1.2 ((C16_returned h i).1.1 ⟨row, hi⟩)
    exact rows i row row' hi hi' ▸ hi'
  · obtain ⟨row', hi'⟩ := (C16_returned h i).1.2 ((C16_returned h' i).1.1 ⟨row, hi⟩)
    exact rows i row' row hi' hi ▸ hi'
  · rw [factor_stats h h' H]
    have : r'.stats.lastExposure = r.stats.lastExposure := by
      rcases Nat.eq_zero_or_pos o.getTiData.idx.length with hz | hz
      · obtain ⟨-, M, sig, -, -, -, ds, st, hds, rfl, -, -, h3, -⟩ := h.run
        obtain ⟨-, M', sig', -, -, -, ds', st', hds', rfl, -, -, h3', -⟩ := h'.run
        rw [h3, h3', hds, hds', hz]
        rfl
      · obtain ⟨row, hr⟩ := (C16_returned h (o.getTiData.idx.length - 1)).1.2 (by omega)
        obtain ⟨row', hr'⟩ := (C16_returned h' (o.getTiData.idx.length - 1)).1.2 (by omega)
        obtain ⟨-, -, -, -, -, -, -, -, -, -, a8⟩ := C09_returned h _ rfl
        obtain ⟨-, -, -, -, -, -, -, -, -, -, b8⟩ := C09_returned h' _ rfl
        rw [(a8 row hr).2.1, (b8 row' hr').2.1, rows _ row row' hr hr']
    rw [this]

/-- C110: without buy signals only the ratio of limit and factor counts. -/
theorem C110_no_buys (h : Returned o g m fac q r) (h' : Returned o g m' fac' q' r') (v v' : ℚ) (hv : m.asNumber = some (.fin v))
    (hv' : m'.asNumber = some (.fin v')) (hr : v' * q = v * q') (hn : ∀ i row, RowOn r i row → row.signal ≠ .buy) :
    (∀ i row row', RowOn r i row → RowOn r' i row' → SameButExposure row row' ∧
      ∃ e e', row.exposure = .fin e ∧ row'.exposure = .fin e' ∧ e' * q = e * q') ∧
    r'.stats = { r.stats with lastExposure := r'.stats.lastExposure } := by
  have none_long : ∀ j d, RowOn r j d → d.action ≠ .long := fun j d hd hs => hn j d hd (((C16_returned h j).2 d hd).2.1 hs)
  obtain ⟨hq, -⟩ := h.run
  obtain ⟨hq', -⟩ := h'.run
  have H := factor_actions h h' fun i H row row' hi hi' => by
    obtain ⟨a1, a2⟩ := C07_returned h i row hi
    obtain ⟨b1, b2⟩ := C07_returned h' i row' hi'
    have hs := factor_signal h h' _ row row' hi hi'
    have f := evening_face h h' i H row row' hi hi'
    have x := exposure_no_longs q (evening r i row) fun x hx => (evening_mem h i row x hx).elim (fun e => by simp [e])
      fun ⟨j, d, hd, e⟩ => e ▸ none_long j d hd
    have x' := exposure_no_longs q' (evening r i row) fun x hx => (evening_mem h i row x hx).elim (fun e => by simp [e])
      fun ⟨j, d, hd, e⟩ => e ▸ none_long j d hd
    have e1 : exposureLeft q (firstDays r (i + 1)) (numbersOf row) = q * openShorts (evening r i row) := x
    have e2 : exposureLeft q' (firstDays r' (i + 1)) (numbersOf row') = q' * openShorts (evening r i row) := by
      rw [← x']
      show exposure q' (evening r' i row') = _
      unfold exposure
      rw [← sumOpen_face _ f]
    rw [a1, b1, a2, b2, e1, e2, ← hs]
    refine ⟨iff_of_false (fun q => hn _ row hi q.1) fun q => hn _ row hi q.1, and_congr_right fun _ => ?_⟩
    simp only [hv, hv', Option.some.injEq, Val.fin.injEq, forall_eq']
    rw [← mul_add, ← mul_add]
    generalize openShorts (evening r i row) + price g "close" (i + 1) = z
    constructor <;> intro hz
    · refine le_of_mul_le_mul_right ?_ (show 0 < q by linarith)
      rw [hr]
      nlinarith
    · refine le_of_mul_le_mul_right ?_ (show 0 < q' by linarith)
      rw [← hr]
      nlinarith
  refine ⟨fun i row row' hi hi' => ?_, factor_stats h h' H⟩
  obtain ⟨s, e, e', he, he', hd⟩ := factor_row h h' i (fun j _ => H j) row row' hi hi'
  refine ⟨s, e, e', he, he', ?_⟩
  have x := exposure_no_longs q (firstDays r (i + 1)) fun x hx => by
    obtain ⟨j, d, hd, e⟩ := firstDays_mem h _ x hx
    exact e ▸ none_long j d hd
  have := C01_returned h i row hi
  rw [he, x] at this
  have he2 := Val.fin.inj this
  rw [show e' = e + (q' - q) * openShorts (firstDays r (i + 1)) by linarith, he2]
  ring

/-- C110: with a limit a larger factor can earn more: on the closes 5, 5, 6, 9 with a sell signal on the second day and a buy signal on the
third, the limit 9 and the factor 1 earn nothing, the factor 2 earns 3. -/
theorem C110_limit_interferes : ∃ (p : ℕ → ℚ) (s : ℕ → Signal),
    ((run ⟨some 9, 1⟩ (history 4 p s)).rows[3]?.map (·.earnings) = some 0) ∧
    ((run ⟨some 9, 2⟩ (history 4 p s)).rows[3]?.map (·.earnings) = some 3) :=
  ⟨fun i => [5, 5, 6, 9].getD i 0, fun i => [.hold, .sell, .buy].getD i .hold, by decide +kernel, by decide +kernel⟩

theorem fourDays_signals {a b c d : ℚ} (hB : BuiltOn demoEnv .onBalanceVolume (table 4 (fourDays a b c d)) true o Traded)
    (ho : o.ind = .onBalanceVolume) (hr : Returned o (table 4 (fourDays a b c d)) m fac q r) (up : Bool)
    (hw : if up then a < b ∧ b < c ∧ c < d else b < a ∧ c < b ∧ d < c) (v : ℚ) (hv : m.asNumber = some (.fin v)) (i : ℕ) (row : Row Val)
    (hi : RowOn r i row) : (i < 2 → row.signal = .hold) ∧ (2 ≤ i → row.signal = if up then .sell else .buy) ∧ i < 4 := by
  obtain ⟨hf, row4, h4⟩ := fourDays_run hB ho hr up hw v hv
  obtain ⟨-, M, sig, -, -, -, ds, st, hds, rfl, h1, h2, -, -⟩ := hr.run
  have hlen : o.getTiData.idx.length = 4 := by
    obtain ⟨hs, -, hidx, -, -⟩ := construct_sound demoEnv _ _ true o hB.wf hB.ok
    have h1 : o.ti.len = o.input.len := hs.shaped.rowsEq fun n => by rw [ho]; simp
    show o.ti.len = 4
    rw [h1]
    show o.input.idx.length = 4
    rw [hidx, (sortIdx_perm _).length_eq]
    exact table_length 4 _
  obtain ⟨x, hx, rfl⟩ := (h1 i row).1 hi
  have hi4 : i < 4 := by rw [hds] at hx; have := (history_row _ _ _ _ _ _ hx).1; omega
  have hx' : (firstDays r 4)[i]? = some x := by rw [h2, List.getElem?_take_of_lt hi4]; exact hx
  rw [hf] at hx'
  obtain ⟨y, hy, -, hs⟩ := row_exists ⟨some v, q⟩ [(a, .hold), (b, .hold), (c, if up then .sell else .buy), (d, if up then .sell else .buy)] i _
    (List.getElem?_eq_getElem (by simpa using hi4))
  rw [hx'] at hy
  obtain rfl := Option.some.inj hy
  refine ⟨fun h => ?_, fun h => ?_, hi4⟩
  · show x.signal = _
    rw [hs]
    interval_cases i <;> rfl
  · show x.signal = _
    rw [hs]
    interval_cases i <;> rfl

/-- The hypotheses of `C110_no_buys` and `C110_no_sells`: the on balance volume in a market that rises for four days gives two sell signals,
in a falling one two buy signals. -/
example : (∃ o r r', Returned o (table 4 (fourDays 1 2 3 4)) (.int 10) (.int 1) 1 r ∧ Returned o (table 4 (fourDays 1 2 3 4)) (.int 20) (.int 2) 2 r' ∧
      (∀ i row, RowOn r i row → row.signal ≠ .buy) ∧ ∀ row, RowOn r 3 row → row.signal = .sell) ∧
    ∃ o r r', Returned o (table 4 (fourDays 4 3 2 1)) (.int 10) (.int 1) 1 r ∧ Returned o (table 4 (fourDays 4 3 2 1)) (.int 10) (.int 2) 2 r' ∧
      (∀ i row, RowOn r i row → row.signal ≠ .sell) ∧ ∀ row, RowOn r 3 row → row.signal = .buy := by
  constructor
  · obtain ⟨o, hB, ho⟩ := fourDays_built demoEnv 1 2 3 4 (by norm_num)
    obtain ⟨r, hr⟩ := table_simulated hB (by omega) (by rw [ho]; simp) (fun p s => by rw [ho]; simp) (.int 10) (.int 1) 1
      (Or.inr ⟨_, rfl, by decide +kernel⟩) rfl (by norm_num)
    obtain ⟨r', hr'⟩ := table_simulated hB (by omega) (by rw [ho]; simp) (fun p s => by rw [ho]; simp) (.int 20) (.int 2) 2
      (Or.inr ⟨_, rfl, by decide +kernel⟩) rfl (by norm_num)
    have key := fourDays_signals hB ho hr true (by norm_num) 10 rfl
    refine ⟨o, r, r', hr, hr', fun i row hi => ?_, fun row hi => (key 3 row hi).2.1 (by norm_num)⟩
    rcases lt_or_ge i 2 with h | h
    · rw [(key i row hi).1 h]; simp
    · rw [(key i row hi).2.1 h]; simp
  · obtain ⟨o, hB, ho⟩ := fourDays_built demoEnv 4 3 2 1 (by norm_num)
    obtain ⟨r, hr⟩ := table_simulated hB (by omega) (by rw [ho]; simp) (fun p s => by rw [ho]; simp) (.int 10) (.int 1) 1
      (Or.inr ⟨_, rfl, by decide +kernel⟩) rfl (by norm_num)
    obtain ⟨r', hr'⟩ := table_simulated hB (by omega) (by rw [ho]; simp) (fun p s => by rw [ho]; simp) (.int 10) (.int 2) 2
      (Or.inr ⟨_, rfl, by decide +kernel⟩) rfl (by norm_num)
    have key := fourDays_signals hB ho hr false (by norm_num) 10 rfl
    refine ⟨o, r, r', hr, hr', fun i row hi => ?_, fun row hi => (key 3 row hi).2.1 (by norm_num)⟩
    rcases lt_or_ge i 2 with h | h
    · rw [(key i row hi).1 h]; simp
    · rw [(key i row hi).2.1 h]; simp

/-- The hypotheses of `C110_no_limit`. -/
example : ∃ o r r', Returned o (table 4 (fourDays 1 2 3 4)) .none (.int 1) 1 r ∧ Returned o (table 4 (fourDays 1 2 3 4)) .none (.int 2) 2 r' ∧
    ∀ v, PyArg.none.asNumber ≠ some (.fin v) := by
  obtain ⟨o, hB, ho⟩ := fourDays_built demoEnv 1 2 3 4 (by norm_num)
  obtain ⟨r, hr⟩ := table_simulated hB (by omega) (by rw [ho]; simp) (fun p s => by rw [ho]; simp) .none (.int 1) 1 (Or.inl rfl) rfl (by norm_num)
  obtain ⟨r', hr'⟩ := table_simulated hB (by omega) (by rw [ho]; simp) (fun p s => by rw [ho]; simp) .none (.int 2) 2 (Or.inl rfl) rfl (by norm_num)
  exact ⟨o, r, r', hr, hr', fun v h => by cases h⟩

end TTI.Props
