import Verif.Lemmas.Stakes
import Verif.Props.SimApi
import Verif.Props.Signals

set_option autoImplicit false

/-!
# What a simulation can win and lose (C99)

`firstDays r (i + 1)` are the rows of the simulation data up to day `i`; `realised`, `unrealised`, `numOpen` and `exposure` read
the opened and closed positions off the columns `open_trading_action` and `stock_value` (`Spec/Ledger`). `total p days` is the
profit of all positions so far, the open ones valued at price `p`.
-/

namespace TTI.Props

open Spec Flt Sim

variable {o : Obj} {g : RawFrame} {m fac : PyArg} {q : ℚ} {r : SimResult}

/-- A day of the simulation data in the ledger. -/
theorem Returned.day (h : Returned o g m fac q r) (i : ℕ) (row : Row Val) (hi : RowOn r i row) :
    ∃ x, row = asVals x ∧ x.stock = price g "close" i ∧ (firstDays r (i + 1)).getLast? = some x ∧
      firstDays r (i + 1) = firstDays r i ++ [x] ∧ (firstDays r i).length = i ∧
      ∀ P : ℚ → Prop, g.EachRow ["close"] (fun y => P (y "close")) → ∀ y ∈ firstDays r (i + 1), P y.stock := by
  obtain ⟨hq, M, sig, -, -, hP, ds, st, hds, rfl, h1, h2, -⟩ := h.run
  obtain ⟨x, hx, rfl⟩ := (h1 i row).1 hi
  have e3 : x.stock = price g "close" i := (history_row _ _ _ _ _ _ (by rw [← hds]; exact hx)).2.1
  have hs : (Sim.run ⟨M, q⟩ ds).rows.take (i + 1) = (Sim.run ⟨M, q⟩ ds).rows.take i ++ [x] := by
    rw [List.take_add_one, hx]; rfl
  refine ⟨x, rfl, e3, ?_, ?_, ?_, fun P hg y hy => ?_⟩
  · rw [h2, hs, List.getLast?_append]; rfl
  · rw [h2, h2, hs]
  · rw [h2, List.length_take]
    exact min_eq_left (List.getElem?_eq_some_iff.1 hx).1.le
  · rw [h2] at hy
    have hy' := rows_stock_mem _ _ _ (List.mem_of_mem_take hy)
    rw [hds] at hy'
    unfold history at hy'
    obtain ⟨j, hj, he⟩ := List.mem_map.1 hy'
    obtain ⟨z, h3, h4⟩ := hP _ hg j (List.mem_range.1 hj)
    obtain ⟨a, -⟩ := Prod.mk.inj he
    rw [← a, ← h4]
    exact h3

/-- C99: the open positions never show a profit at the close of the day: whatever the table, the total profit is at most the
`earnings` column. -/
theorem C99_open_positions_stand_at_no_profit (h : Returned o g m fac q r) (i : ℕ) (row : Row Val) (hi : RowOn r i row) :
    unrealised (price g "close" i) (firstDays r (i + 1)) ≤ 0 ∧
    ∃ w, row.earnings = .fin w ∧ total (price g "close" i) (firstDays r (i + 1)) ≤ w := by
  have hw := C04_returned h i row hi
  obtain ⟨x, rfl, hs, hl, -⟩ := h.day i row hi
  have hu : unrealised (price g "close" i) (firstDays r (i + 1)) ≤ 0 := by
    unfold unrealised
    rw [← hs]
    refine (sumOpen_le _ (fun _ _ => 0) x _ hl fun y _ _ hy => hy).trans (le_of_eq ?_)
    have := sumOpen_mul 0 (fun _ _ => 0) (firstDays r (i + 1))
    simpa using this
  exact ⟨hu, _, hw, by unfold total; linarith⟩

/-- C99: a position is closed on day `i + 1` with a profit, and this profit is at most the move of the close on that one day. -/
theorem C99_profit_at_most_one_move (h : Returned o g m fac q r) (i j : ℕ) (next : Row Val) (hn : RowOn r (i + 1) next)
    (hj : j ≤ i) (ho : openAt (firstDays r (i + 2)) j i) (hc : ¬ openAt (firstDays r (i + 2)) j (i + 1)) :
    ∃ d, RowOn r j d ∧ 0 < profit d.action (price g "close" j) (price g "close" (i + 1)) ∧
      profit d.action (price g "close" j) (price g "close" (i + 1)) ≤ |price g "close" (i + 1) - price g "close" i| := by
  obtain ⟨y, hy, hys, hyl, hsplit, hlen, -⟩ := h.day (i + 1) next hn
  have hon : ∀ k ≤ i + 1, ∃ d, RowOn r k d := fun k hk =>
    (C16_returned h k).1.2 (lt_of_le_of_lt hk ((C16_returned h (i + 1)).1.1 ⟨_, hn⟩))
  obtain ⟨d, hd⟩ := hon j (by omega)
  obtain ⟨di, hdi⟩ := hon i (by omega)
  obtain ⟨z, rfl, hzs, hzl, hzsplit, hzlen, -⟩ := h.day j d hd
  obtain ⟨xi, -, hxs, hxl, hxsplit, hxlen, -⟩ := h.day i di hdi
  have hget : (firstDays r (i + 2))[j]? = some z := by
    have e1 : (firstDays r (i + 2)).take (j + 1) = firstDays r (j + 1) := by
      obtain ⟨-, M, sig, -, -, -, ds, st, -, rfl, -, h2, -⟩ := h.run
      rw [h2, h2, List.take_take, min_eq_left (by omega)]
    have e2 : (firstDays r (j + 1))[j]? = some z := by
      rw [hzsplit, List.getElem?_append_right (by omega), hzlen]; simp
    rw [← e1, List.getElem?_take_of_lt (by omega)] at e2
    exact e2
  obtain ⟨z', hz', ha, ho⟩ := ho
  rw [hget] at hz'
  obtain rfl := Option.some.inj hz'
  have e3 : (firstDays r (i + 2)).take (i + 1) = firstDays r (i + 1) := by
    rw [hsplit, List.take_append_of_le_length (by omega), List.take_of_length_le (by omega)]
  have e4 : (firstDays r (i + 2)).take (i + 1 + 1) = firstDays r (i + 1) ++ [y] := by
    rw [List.take_of_length_le, hsplit]
    rw [hsplit, List.length_append, hlen]; simp
  have hc' : closingPrice z.action z.stock (((firstDays r (i + 2)).take (i + 1 + 1)).drop (j + 1)) ≠ none :=
    fun hh => hc ⟨z, hget, ha, hh⟩
  rw [e3] at ho
  rw [e4, List.drop_append_of_le_length (by omega), closingPrice_snoc, ho] at hc'
  have hcond : (z.action = .long ∧ z.stock < y.stock) ∨ (z.action = .short ∧ y.stock < z.stock) := by
    by_contra hn
    simp [hn] at hc'
  have hprev : profit z.action z.stock xi.stock ≤ 0 := by
    rcases eq_or_lt_of_le hj with rfl | hlt
    · rw [hxl] at hzl
      obtain rfl := Option.some.inj hzl
      cases xi.action <;> simp [profit]
    · refine profit_le_of_open ho (List.mem_of_getLast? ?_)
      rw [List.getLast?_drop, if_neg (by omega), hxl]
  refine ⟨_, hd, ?_, ?_⟩
  · rw [← hzs, ← hys]
    show 0 < profit z.action _ _
    rcases hcond with ⟨e, hlt⟩ | ⟨e, hlt⟩ <;> rw [e] <;> simp only [profit] <;> linarith
  · rw [← hzs, ← hys, ← hxs]
    show profit z.action _ _ ≤ _
    rcases hcond with ⟨e, hlt⟩ | ⟨e, hlt⟩ <;> rw [e] at hprev ⊢ <;> simp only [profit] at hprev ⊢
    · exact le_trans (by linarith) (le_abs_self _)
    · exact le_trans (by linarith) (neg_le_abs _)

/-- C99: on one day the `earnings` column grows by at most the rise of the close for every long and the fall of the close for
every short that was open the evening before. -/
theorem C99_gain_of_a_day (h : Returned o g m fac q r) (i : ℕ) (row next : Row Val) (hi : RowOn r i row) (hn : RowOn r (i + 1) next) :
    ∃ a b, row.earnings = .fin a ∧ next.earnings = .fin b ∧
      b - a ≤ max 0 (price g "close" (i + 1) - price g "close" i) * numOpen .long (firstDays r (i + 1)) +
        max 0 (price g "close" i - price g "close" (i + 1)) * numOpen .short (firstDays r (i + 1)) := by
  have h1 := C04_returned h i row hi
  have h2 := C04_returned h (i + 1) next hn
  obtain ⟨x, rfl, hs, hl, -⟩ := h.day i row hi
  obtain ⟨y, rfl, hys, -, hsplit, -⟩ := h.day (i + 1) next hn
  refine ⟨_, _, h1, h2, ?_⟩
  rw [hsplit, realised_snoc, ← hs, ← hys]
  have := closedBy_le x y.stock _ hl
  linarith

theorem numOpen_nonneg (s : Side) (h : List (Row ℚ)) : 0 ≤ numOpen s h :=
  sumOpen_nonneg _ _ fun r _ _ => by split <;> norm_num

/-- C99: with a limit and closes of at least `low`, the earnings are at most `max_exposure / low` times the sum of the daily moves
of the close. -/
theorem C99_earnings_bounded_by_the_path (h : Returned o g m fac q r) (v low : ℚ) (hv : m.asNumber = some (.fin v)) (hlow : 0 < low)
    (h0 : g.EachRow ["close"] fun x => low ≤ x "close") (i : ℕ) (row : Row Val) (hi : RowOn r i row) :
    ∃ w, row.earnings = .fin w ∧ w ≤ v / low * path (price g "close") i := by
  induction i generalizing row with
  | zero =>
    obtain ⟨-, -, -, he, -⟩ := C08_returned h row hi
    exact ⟨0, he, by simp [path]⟩
  | succ i ih =>
    obtain ⟨prev, hp⟩ : ∃ d, RowOn r i d :=
      (C16_returned h i).1.2 (lt_trans (Nat.lt_succ_self i) ((C16_returned h (i + 1)).1.1 ⟨_, hi⟩))
    obtain ⟨w, hw, hle⟩ := ih prev hp
    obtain ⟨a, b, ha, hb, hd⟩ := C99_gain_of_a_day h i prev row hp hi
    rw [hw] at ha
    obtain rfl := Val.fin.inj ha
    have hn := C13_returned h v low hv hlow h0 i prev hp
    refine ⟨b, hb, ?_⟩
    have n1 := numOpen_nonneg .long (firstDays r (i + 1))
    have n2 := numOpen_nonneg .short (firstDays r (i + 1))
    have a0 := abs_nonneg (price g "close" (i + 1) - price g "close" i)
    have a1 : max 0 (price g "close" (i + 1) - price g "close" i) ≤ |price g "close" (i + 1) - price g "close" i| :=
      max_le a0 (le_abs_self _)
    have a2 : max 0 (price g "close" i - price g "close" (i + 1)) ≤ |price g "close" (i + 1) - price g "close" i| := by
      rw [abs_sub_comm]; exact max_le (abs_nonneg _) (le_abs_self _)
    have b1 := mul_le_mul_of_nonneg_right a1 n1
    have b2 := mul_le_mul_of_nonneg_right a2 n2
    have b3 := mul_le_mul_of_nonneg_left hn a0
    simp only [path]
    nlinarith

/-- C99: the loss is at most the `exposure` column, on closes that are not negative, as long as the close has not risen above
(1 + factor) times the opening price of a short that is still open. So it is at most `max_exposure`, if given. -/
theorem C99_loss_at_most_exposure (h : Returned o g m fac q r) (h0 : g.EachRow ["close"] fun x => 0 ≤ x "close") (i : ℕ)
    (row : Row Val) (hi : RowOn r i row)
    (hs : ∀ j d, openAt (firstDays r (i + 1)) j i → RowOn r j d → d.action = .short →
      price g "close" i ≤ (1 + q) * price g "close" j) :
    ∃ w e, row.earnings = .fin w ∧ row.exposure = .fin e ∧ w - e ≤ total (price g "close" i) (firstDays r (i + 1)) ∧
      ∀ v, m.asNumber = some (.fin v) → -v ≤ total (price g "close" i) (firstDays r (i + 1)) := by
  have h1 := C04_returned h i row hi
  have h2 := C01_returned h i row hi
  have hv : ∀ v, m.asNumber = some (.fin v) → exposure q (firstDays r (i + 1)) ≤ v := by
    intro v hv
    obtain ⟨e, he, -, hle⟩ := C02_returned h v hv h0 i row hi
    rw [h2] at he
    rw [Val.fin.inj he]; exact hle
  obtain ⟨hq, -⟩ := h.run
  have hw : 0 ≤ realised (firstDays r (i + 1)) := realised_nonneg _
  obtain ⟨x, hx, hxs, hl, hsplit, hlen, hP⟩ := h.day i row hi
  have hlen' : (firstDays r (i + 1)).length = i + 1 := by rw [hsplit, List.length_append, hlen]; rfl
  have hnn := hP (fun y => 0 ≤ y) h0
  have hp0 : 0 ≤ price g "close" i := by rw [← hxs]; exact hnn x (List.mem_of_getLast? hl)
  have key : -1 * exposure q (firstDays r (i + 1)) ≤ unrealised (price g "close" i) (firstDays r (i + 1)) := by
    unfold exposure unrealised
    rw [← sumOpen_mul]
    refine sumOpen_le_open _ _ _ fun j y hy ha hc => ?_
    have hy0 := hnn y (List.mem_of_getElem? hy)
    have hj : j < i + 1 := by rw [← hlen']; exact (List.getElem?_eq_some_iff.1 hy).1
    have ho : openAt (firstDays r (i + 1)) j i := ⟨y, hy, ha, by rw [List.take_of_length_le (by omega)]; exact hc⟩
    obtain ⟨d, hd⟩ : ∃ d, RowOn r j d := (C16_returned h j).1.2 (lt_of_le_of_lt (by omega) ((C16_returned h i).1.1 ⟨_, hi⟩))
    obtain ⟨z, rfl, hzs, -, hzsplit, hzlen, -⟩ := h.day j d hd
    have hzy : z = y := by
      have e1 : (firstDays r (i + 1)).take (j + 1) = firstDays r (j + 1) := by
        obtain ⟨-, M, sig, -, -, -, ds, st, -, rfl, -, h2, -⟩ := h.run
        rw [h2, h2, List.take_take, min_eq_left (by omega)]
      have e2 : (firstDays r (j + 1))[j]? = some z := by
        rw [hzsplit, List.getElem?_append_right (by omega), hzlen]; simp
      rw [← e1, List.getElem?_take_of_lt (by omega), hy] at e2
      exact (Option.some.inj e2).symm
    subst hzy
    have hs' := hs j _ ho hd
    cases hz : z.action with
    | none => exact absurd hz ha
    | long => simp only [entryExposure, profit]; linarith
    | short =>
      have := hs' hz
      rw [← hzs] at this
      simp only [entryExposure, profit]; linarith
  refine ⟨_, _, h1, h2, ?_, fun v hv' => ?_⟩
  · unfold total; linarith
  · have := hv v hv'
    unfold total; linarith

/-- A simulation with longs and shorts: day 3 opens a short, and no close is above 5/2 times another. -/
example : ∃ o r row, Returned o (sample 9) (.int 100) (.float (.fin (3/2))) (3/2) r ∧
    (sample 9).EachRow ["close"] (fun x => 0 ≤ x "close") ∧ RowOn r 3 row ∧ row.action = .short ∧
    (∃ next, RowOn r 4 next) ∧ ∀ j d, openAt (firstDays r 4) j 3 → RowOn r j d → d.action = .short →
      price (sample 9) "close" 3 ≤ (1 + 3/2) * price (sample 9) "close" j := by
  obtain ⟨o, r, h1, h2, h3⟩ := sample_returned 9 (.int 100) (fun o r => decide (o.getTiData.idx.length = 9) &&
    (match r.rows[3]? with
      | some (some row) => decide (row.action = .short)
      | _ => false)) (by decide +kernel)
  simp only [Bool.and_eq_true, decide_eq_true_eq] at h3
  obtain ⟨hlen, h3⟩ := h3
  split at h3
  · next row hrow =>
    refine ⟨o, r, row, h2, fun j hj => ?_, hrow, of_decide_eq_true h3, (C16_returned h2 4).1.2 (by omega), fun j d _ hd _ => ?_⟩
    · obtain ⟨x, hx, hb⟩ := sample_close 9 j hj
      exact ⟨x, hx, by linarith⟩
    · have hj : j < 9 := by rw [← hlen]; exact (C16_returned h2 j).1.1 ⟨d, hd⟩
      interval_cases j <;> decide +kernel
  · simp at h3

/-- C99: without shorts the loss is at most the `exposure` column and so at most `max_exposure`, and the `balance` column is never
below the `earnings` column. -/
theorem C99_longs_lose_at_most_exposure (h : Returned o g m fac q r) (h0 : g.EachRow ["close"] fun x => 0 ≤ x "close") (i : ℕ)
    (row : Row Val) (hi : RowOn r i row) (hl : ∀ j d, RowOn r j d → d.action ≠ .short) :
    ∃ w e b, row.earnings = .fin w ∧ row.exposure = .fin e ∧ row.balance = .fin b ∧ 0 ≤ w ∧ w ≤ b ∧
      w - e ≤ total (price g "close" i) (firstDays r (i + 1)) ∧
      ∀ v, m.asNumber = some (.fin v) → -v ≤ total (price g "close" i) (firstDays r (i + 1)) := by
  obtain ⟨w, e, hw, he, h1, h2⟩ := C99_loss_at_most_exposure h h0 i row hi fun j d _ hd hs => absurd hs (hl j d hd)
  obtain ⟨-, -, hp, w', p', hw', hp', hb⟩ := C06_returned h i row hi
  obtain rfl : w = w' := by rw [hw] at hw'; exact Val.fin.inj hw'
  have hw0 : 0 ≤ w := by
    have := C04_returned h i row hi
    rw [hw] at this
    rw [Val.fin.inj this]; exact realised_nonneg _
  obtain ⟨x, rfl, hxs, hlast, hsplit, hlen, hP⟩ := h.day i row hi
  have hp0 : 0 ≤ price g "close" i := by rw [← hxs]; exact hP (fun y => 0 ≤ y) h0 x (List.mem_of_getLast? hlast)
  have hns : numOpen .short (firstDays r (i + 1)) = 0 := by
    unfold numOpen
    rw [sumOpen_congr _ (fun _ _ => 0 * (0 : ℚ)), sumOpen_mul, zero_mul]
    intro y hy _
    obtain ⟨j, hj⟩ := List.mem_iff_getElem?.1 hy
    obtain ⟨-, M, sig, -, -, -, ds, st, -, rfl, h1, h2, -⟩ := h.run
    rw [h2] at hj
    have : y.action ≠ .short := hl j (asVals y) ((h1 j _).2 ⟨y, (take_row _ _ _ _ hj).2, rfl⟩)
    rw [if_neg this]; simp
  refine ⟨w, e, _, hw, he, hb, hw0, ?_, h1, h2⟩
  rw [hp] at hp'
  rw [← Val.fin.inj hp', hns, sub_zero]
  have := mul_nonneg hp0 (numOpen_nonneg .long (firstDays r (i + 1)))
  linarith

/-- C99: in particular for the indicators that never sell (C36). -/
theorem C99_never_sells (E : Env) (c : Call) (f : RawFrame) (fill : Bool) (hw : WF f)
    (ho : (construct E c (.frame f) (.bool fill)).2 = .ok o) (hn : NeverSells o.ind) (h : Returned o g m fac q r)
    (h0 : g.EachRow ["close"] fun x => 0 ≤ x "close") (i : ℕ) (row : Row Val) (hi : RowOn r i row) :
    ∃ w e b, row.earnings = .fin w ∧ row.exposure = .fin e ∧ row.balance = .fin b ∧ 0 ≤ w ∧ w ≤ b ∧
      w - e ≤ total (price g "close" i) (firstDays r (i + 1)) ∧
      ∀ v, m.asNumber = some (.fin v) → -v ≤ total (price g "close" i) (firstDays r (i + 1)) :=
  C99_longs_lose_at_most_exposure h h0 i row hi fun _ d hd =>
    ((C36_no_short E c f fill o hw ho hn (.frame g) m fac r h.result).2.2 d (List.mem_of_getElem? hd)).2

/-- The moving average of two days on the sample: it opens longs. -/
example : ∃ o r row, (construct demoEnv (.movingAverage (.int 2) (.str "simple")) (.frame (sample 9)) (.bool false)).2 = .ok o ∧
    NeverSells o.ind ∧ Returned o (sample 9) (.int 100) (.int 1) 1 r ∧ RowOn r 3 row ∧ row.action = .long := by
  have h : (match (construct demoEnv (.movingAverage (.int 2) (.str "simple")) (.frame (sample 9)) (.bool false)).2 with
      | .ok o => match (o.getTiSimulation (.frame (sample 9)) (.int 100) (.int 1)).2.2 with
        | .ok r => decide (o.ind = .movingAverage 2 .simple) && (match r.rows[3]? with
          | some (some row) => decide (row.action = .long)
          | _ => false)
        | .error _ => false
      | .error _ => false) = true := by decide +kernel
  split at h
  · next o ho =>
    split at h
    · next r hr =>
      simp only [Bool.and_eq_true, decide_eq_true_eq] at h
      obtain ⟨hi, h⟩ := h
      split at h
      · next row hrow =>
        exact ⟨o, r, row, ho, by rw [hi]; trivial, ⟨Reachable.used ⟨_, _, _, _, _, sample_wf 9, ho, Or.inl rfl⟩, sample_wf 9,
          fun j hj => by obtain ⟨x, hx, -⟩ := sample_rows 9 ["close"] (by simp) j hj; exact ⟨x, hx, trivial⟩, rfl, hr⟩, hrow,
          of_decide_eq_true h⟩
      · simp at h
    · simp at h
  · simp at h

/-- C99: a limit does not limit the loss of shorts: for every limit `M`, factor and amount `L` there are positive closes and
signals after which more than `L` is lost, with no more than `M` ever exposed. -/
theorem C99_short_loss_unbounded (M f L : ℚ) (hM : 0 < M) (hf : 1 ≤ f) (hL : 0 ≤ L) :
    ∃ ds : List (Day ℚ), (∀ d ∈ ds, 0 < d.1) ∧ (∀ x ∈ (Sim.run ⟨some M, f⟩ ds).rows, x.exposure ≤ M) ∧
      ∃ x, (Sim.run ⟨some M, f⟩ ds).rows.getLast? = some x ∧ total x.stock (Sim.run ⟨some M, f⟩ ds).rows < -L := by
  have hf0 : 0 < f := by linarith
  have he : 0 < M / f := by positivity
  have hfe : f * (M / f) = M := by field_simp
  have hrows : (Sim.run ⟨some M, f⟩ [(M / f, .hold), (M / f, .sell), (M / f + L + 1, .hold)]).rows =
      [⟨.hold, .none, M / f, 0, 0, 0, 0⟩, ⟨.sell, .short, M / f, M, -(M / f), 0, -(M / f)⟩,
       ⟨.hold, .none, M / f + L + 1, M, -(M / f + L + 1), 0, -(M / f + L + 1)⟩] := by
    have hlt : ¬ f * (M / f + L + 1) < M := by nlinarith
    simp [Sim.run, Sim.round, State.init, closeOpenPositions, processSignal, record, limitReached, portfolioValue, countOpen,
      sumExposure, npSum_rat, longMask, shortMask, markClosed, noPos, hfe, hlt]
  refine ⟨_, ?_, ?_, _, by rw [hrows]; rfl, ?_⟩
  · intro d hd
    simp only [List.mem_cons, List.not_mem_nil, or_false] at hd
    rcases hd with rfl | rfl | rfl <;> simp <;> linarith
  · rw [hrows]
    intro x hx
    simp only [List.mem_cons, List.not_mem_nil, or_false] at hx
    rcases hx with rfl | rfl | rfl <;> simp <;> linarith
  · rw [hrows]
    have : ¬ (M / f + L + 1 < M / f) := by linarith
    simp [total, realised, unrealised, sumOpen, closingPrice, profit, this]
    linarith

end TTI.Props
