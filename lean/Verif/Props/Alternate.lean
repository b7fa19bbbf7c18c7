import Verif.Spec.Alternate
import Verif.Lemmas.SinceSignal
import Verif.Props.Signals
import Verif.Props.Constant
import Verif.Props.Causal

set_option autoImplicit false

/-!
# C78: crossing signals alternate

Specification: `Verif/Spec/Alternate.lean`.
-/

namespace TTI.Props

open TTI.Spec

variable {E : Env} {c : Call} {f : RawFrame} {fill : Bool} {o : Obj}

theorem lt_asymm (a b : Val) (h : a <ᵥ b) : ¬ b <ᵥ a := by
  cases a <;> cases b <;> simp [Val.lt] at h ⊢
  exact h.le

/-- Today's and yesterday's entry of a series cut after day `i`. -/
theorem before_cut (xs : List Val) (i k : ℕ) (hi : i < xs.length) :
    before k (xs.take (i + 1)) = if k ≤ i then xs.getD (i - k) .nan else .nan := by
  rw [before_val, List.length_take, Nat.min_eq_left (by omega)]
  by_cases h : k ≤ i
  · rw [if_pos (by omega), if_pos h, val_take _ _ _ (by omega)]
    show xs.getD _ _ = _
    congr 1
  · rw [if_neg (by omega), if_neg h]

/-- The object cut after day `i` when every date occurs once. -/
theorem cut_day (o o' : Obj) (hs : o.Sound) (hd : o.input.idx.Nodup) (i : ℕ) (hc : o.cut i = some o') :
    i < o.ti.len ∧ o' = { o with input := o.input.take (i + 1), ti := o.ti.take (i + 1) } := by
  have hlt : i < o.ti.len := by
    by_contra hcon
    rw [cut_none o i (by omega)] at hc
    cases hc
  have hp : o.input.idx.Pairwise (· < ·) := by
    have := hs.sorted.and hd
    exact this.imp fun h => lt_of_le_of_ne h.1 h.2
  obtain ⟨d, h1, h2, h3⟩ := cut_eq o hs i hlt
  rw [h3] at hc
  simp only [Option.some.injEq] at hc
  rw [rowsUpTo_getElem _ hp i d h1, rowsUpTo_getElem _ (by rw [hs.dates]; exact hp.sublist (List.take_sublist _ _)) i d h2] at hc
  exact ⟨hlt, hc.symm⟩

/-- The signal of the object cut after day `i` in terms of the two lines. -/
theorem cut_crossing (o o' : Obj) (hs : o.Sound) (hd : o.input.idx.Nodup) (x y : ℕ → Val)
    (hl : lines o.input o.ti o.ind = some (x, y)) (i : ℕ) (hc : o.cut i = some o') :
    (o'.getTiSignal = .ok .buy ↔ (firstDay o.ind ≤ i ∧ 1 ≤ i) ∧ x (i - 1) <ᵥ y (i - 1) ∧ y i <ᵥ x i) ∧
    (o'.getTiSignal = .ok .sell ↔ (firstDay o.ind ≤ i ∧ 1 ≤ i) ∧ y (i - 1) <ᵥ x (i - 1) ∧ x i <ᵥ y i) := by
  obtain ⟨hs', -, -⟩ := cut_sound o o' hs i hc
  obtain ⟨hlt, rfl⟩ := cut_day o o' hs hd i hc
  have hr := signal_rule _ _ _ hs'.shaped
  have hlen : ({ o with input := o.input.take (i + 1), ti := o.ti.take (i + 1) } : Obj).ti.idx.length = i + 1 := by
    show (o.ti.take (i + 1)).idx.length = i + 1
    rw [Frame.take_idx, List.length_take]
    exact Nat.min_eq_left hlt
  have hF : i < o.input.len := lt_of_lt_of_le hlt hs.shaped.rowsLe
  have ht : ∀ n ∈ Spec.columns o.ind, before 0 ((o.ti.take (i + 1)).col n) = o.ti.day n i ∧
      before 1 ((o.ti.take (i + 1)).col n) = if 1 ≤ i then o.ti.day n (i - 1) else .nan := fun n hn => by
    have hc := fun k => before_cut (o.ti.col n) i k (by rw [hs.shaped.tcol n hn]; exact hlt)
    rw [Frame.take_col, hc, hc]; exact ⟨rfl, rfl⟩
  have hf : ∀ n ∈ inputColumns o.ind, before 0 ((o.input.take (i + 1)).col n) = o.input.day n i ∧
      before 1 ((o.input.take (i + 1)).col n) = if 1 ≤ i then o.input.day n (i - 1) else .nan := fun n hn => by
    have hc := fun k => before_cut (o.input.col n) i k (by rw [hs.shaped.fcol n hn]; exact hF)
    rw [Frame.take_col, hc, hc]; exact ⟨rfl, rfl⟩
  have he : ∀ n ∈ Spec.columns o.ind, ∀ s m, before 0 (ewm s m ((o.ti.take (i + 1)).col n)) = (ewm s m (o.ti.col n)).getD i .nan ∧
      before 1 (ewm s m ((o.ti.take (i + 1)).col n)) = if 1 ≤ i then (ewm s m (o.ti.col n)).getD (i - 1) .nan else .nan := fun n hn s m => by
    have hc := fun k => before_cut (ewm s m (o.ti.col n)) i k (by rw [ewm_length, hs.shaped.tcol n hn]; exact hlt)
    rw [Frame.take_col, ewm_take, hc, hc]; exact ⟨rfl, rfl⟩
  have hlen' : (o.ti.take (i + 1)).len = i + 1 := hlen
  unfold Follows at hr
  dsimp only at hr
  rw [hlen'] at hr
  unfold Obj.getTiSignal
  dsimp only
  obtain ⟨ind, input, ti⟩ := o
  dsimp only at *
  refine ⟨hr.1.trans ?_, hr.2.trans ?_⟩ <;> clear hr <;>
  · cases ind <;> simp only [lines, Option.some.injEq, Prod.mk.injEq, reduceCtorEq] at hl <;>
      obtain ⟨rfl, rfl⟩ := hl <;>
      simp only [Spec.columns, inputColumns, Ind.required, List.forall_mem_cons] at ht hf he <;>
      simp only [rule, zeroLine, extremes, follow, contrary, Overtakes, Rises, Falls, firstDay, ht, hf, he] <;>
      by_cases h1 : 1 ≤ i <;> simp [h1, nan_lt, lt_nan] <;> omega

/-- The signals of a simulation day by day. -/
theorem simulation_signals (hw : WF f) (h : (construct E c (.frame f) (.bool fill)).2 = .ok o) (closes : InputArg)
    (m fac : PyArg) (r : SimResult) (hr : (o.getTiSimulation closes m fac).2.2 = .ok r) :
    ∃ sig : ℕ → Signal, (∀ i < o.getTiData.idx.length, ∃ o', o.cut i = some o' ∧ o'.getTiSignal = .ok (sig i)) ∧
      (∀ i s, SignalOn r i s ↔ i < o.getTiData.idx.length ∧ sig i = s) ∧
      r.stats.buySignals = (List.range o.getTiData.idx.length).countP (fun i => sig i == .buy) ∧
      r.stats.sellSignals = (List.range o.getTiData.idx.length).countP (fun i => sig i == .sell) := by
  obtain ⟨-, hlen, hrows, S, sig, -, hsig, st, hst, hstats, hget⟩ := C23_rounds E c f fill o hw h closes m fac r hr
  obtain ⟨hs, -, hidx, hl, -⟩ := construct_sound E c f fill o hw h
  have hrs : ∀ i row, st.rows[i]? = some row → i < o.getTiData.idx.length ∧ sig i = row.signal := fun i row hi => by
    have := Sim.row_day S.params _ i row (by rw [← hst]; exact hi)
    rw [List.getElem?_map, Option.map_eq_some_iff] at this
    obtain ⟨k, hk, he⟩ := this
    obtain ⟨hk1, hk2⟩ := List.getElem?_eq_some_iff.1 hk
    rw [List.length_range] at hk1
    rw [List.getElem_range] at hk2
    subst hk2
    exact ⟨hk1, (Prod.mk.inj he).2⟩
  have hle : o.getTiData.idx.length ≤ f.idx.length := by
    have h1 := hs.shaped.rowsLe
    unfold Frame.len at h1
    rw [hidx, (sortIdx_perm _).length_eq] at h1
    exact h1
  refine ⟨sig, hsig, fun i s => ⟨?_, ?_⟩, ?_⟩
  · rintro ⟨row, h1, h2⟩
    have hi : i < f.idx.length := by
      rw [← hlen]; exact (List.getElem?_eq_some_iff.1 h1).1
    have hi' := (hrows i hi).1 ⟨row, h1⟩
    obtain ⟨row', h3, h4⟩ := hget i hi'
    rw [h4] at h1
    simp only [Option.some.injEq] at h1
    subst h1
    exact ⟨hi', (hrs i _ h3).2.trans h2⟩
  · rintro ⟨hi, hs⟩
    obtain ⟨row, h3, h4⟩ := hget i hi
    exact ⟨row, h4, (hrs i _ h3).2.symm.trans hs⟩
  · obtain ⟨-, h1, h2, -⟩ := C09_signal_counts S.params _ r.stats (by rw [hstats, hst])
    simp only [h1, h2, countSignal, List.countP_map]
    exact ⟨rfl, rfl⟩

/-- C78: the two lines alone decide: on a day of a simulation the signal is buy exactly when the first line was below the
second one on the day before and is above it now, and sell exactly when it was above and is below now. -/
theorem C78_crossing (hw : WF f) (h : (construct E c (.frame f) (.bool fill)).2 = .ok o) (hd : f.idx.Nodup) (x y : ℕ → Val)
    (hl : lines o.input o.getTiData o.ind = some (x, y)) (closes : InputArg) (m fac : PyArg) (r : SimResult)
    (hr : (o.getTiSimulation closes m fac).2.2 = .ok r) (i : ℕ) (hi : i < o.getTiData.idx.length) :
    (SignalOn r i .buy ↔ (firstDay o.ind ≤ i ∧ 1 ≤ i) ∧ x (i - 1) <ᵥ y (i - 1) ∧ y i <ᵥ x i) ∧
    (SignalOn r i .sell ↔ (firstDay o.ind ≤ i ∧ 1 ≤ i) ∧ y (i - 1) <ᵥ x (i - 1) ∧ x i <ᵥ y i) := by
  obtain ⟨hs, -, hidx, -⟩ := construct_sound E c f fill o hw h
  obtain ⟨sig, h1, h2, -⟩ := simulation_signals hw h closes m fac r hr
  obtain ⟨o', h3, h4⟩ := h1 i hi
  obtain ⟨h5, h6⟩ := cut_crossing o o' hs (by rw [hidx]; exact (sortIdx_perm _).nodup_iff.2 hd) x y hl i h3
  rw [h2, h2, ← h5, ← h6, h4]
  simp [hi]

/-- Between a rise and a later rise of `x` through `y` there is a fall, if the lines are apart on the days between. -/
theorem fall_between (x y : ℕ → Val) (i : ℕ) (h1 : y i <ᵥ x i) : ∀ j, i < j → x j <ᵥ y j → (∀ k, i ≤ k → k ≤ j → Apart x y k) →
    ∃ k, i < k ∧ k ≤ j ∧ y (k - 1) <ᵥ x (k - 1) ∧ x k <ᵥ y k := by
  intro j
  induction j with
  | zero => intro h; omega
  | succ j ih =>
    intro hij h2 ha
    rcases Nat.lt_or_ge i j with hlt | hge
    · rcases ha j (by omega) (by omega) with hx | hy
      · obtain ⟨k, a, b, c⟩ := ih hlt hx fun k a b => ha k a (by omega)
        exact ⟨k, a, by omega, c⟩
      · exact ⟨j + 1, by omega, le_rfl, hy, h2⟩
    · have : j = i := by omega
      subst this
      exact ⟨j + 1, by omega, le_rfl, h1, h2⟩

/-- C78: crossing signals alternate. Between two days with the same signal there is a day with the opposite one, provided
that the two lines have values and differ on the days between. -/
theorem C78_alternate (hw : WF f) (h : (construct E c (.frame f) (.bool fill)).2 = .ok o) (hd : f.idx.Nodup) (x y : ℕ → Val)
    (hl : lines o.input o.getTiData o.ind = some (x, y)) (closes : InputArg) (m fac : PyArg) (r : SimResult)
    (hr : (o.getTiSimulation closes m fac).2.2 = .ok r) (i j : ℕ) (hij : i < j) (ha : ∀ k, i < k → k < j → Apart x y k) :
    (SignalOn r i .buy → SignalOn r j .buy → ∃ k, i < k ∧ k < j ∧ SignalOn r k .sell) ∧
    (SignalOn r i .sell → SignalOn r j .sell → ∃ k, i < k ∧ k < j ∧ SignalOn r k .buy) := by
  have hday : ∀ s k, SignalOn r k s → k < o.getTiData.idx.length := fun s k hk => by
    obtain ⟨sig, -, h2, -⟩ := simulation_signals hw h closes m fac r hr
    exact ((h2 _ _).1 hk).1
  constructor <;> intro h1 h2
  · have b1 := ((C78_crossing hw h hd x y hl closes m fac r hr i (hday _ _ h1)).1.1 h1)
    have b2 := ((C78_crossing hw h hd x y hl closes m fac r hr j (hday _ _ h2)).1.1 h2)
    have hne : i ≠ j - 1 := by
      rintro rfl
      exact lt_asymm _ _ b1.2.2 b2.2.1
    obtain ⟨k, e1, e2, e3⟩ := fall_between x y i b1.2.2 (j - 1) (by omega) b2.2.1 fun k e1 e2 => by
      rcases Nat.lt_or_ge i k with hk | hk
      · exact ha k hk (by omega)
      · have : k = i := by omega
        subst this
        exact .inr b1.2.2
    exact ⟨k, e1, by omega, (C78_crossing hw h hd x y hl closes m fac r hr k
      (by have := hday _ _ h2; omega)).2.2 ⟨⟨by omega, by omega⟩, e3⟩⟩
  · have b1 := ((C78_crossing hw h hd x y hl closes m fac r hr i (hday _ _ h1)).2.1 h1)
    have b2 := ((C78_crossing hw h hd x y hl closes m fac r hr j (hday _ _ h2)).2.1 h2)
    have hne : i ≠ j - 1 := by
      rintro rfl
      exact lt_asymm _ _ b1.2.2 b2.2.1
    obtain ⟨k, e1, e2, e3⟩ := fall_between y x i b1.2.2 (j - 1) (by omega) b2.2.1 fun k e1 e2 => by
      rcases Nat.lt_or_ge i k with hk | hk
      · exact (ha k hk (by omega)).symm
      · have : k = i := by omega
        subst this
        exact .inr b1.2.2
    exact ⟨k, e1, by omega, (C78_crossing hw h hd x y hl closes m fac r hr k
      (by have := hday _ _ h2; omega)).1.2 ⟨⟨by omega, by omega⟩, e3⟩⟩

/-- Rises and falls of `x` through `y` after day `a`, counted. -/
theorem crossings_balance (x y : ℕ → Val) (sig : ℕ → Signal) (a : ℕ) : ∀ n, a ≤ n → (∀ k, a ≤ k → k ≤ n → Apart x y k) →
    (∀ k, k ≤ a → sig k = .hold) →
    (∀ k, a < k → k ≤ n → (sig k = .buy ↔ x (k - 1) <ᵥ y (k - 1) ∧ y k <ᵥ x k) ∧ (sig k = .sell ↔ y (k - 1) <ᵥ x (k - 1) ∧ x k <ᵥ y k)) →
    (List.range (n + 1)).countP (fun i => sig i == .buy) + (if y a <ᵥ x a then 1 else 0) =
      (List.range (n + 1)).countP (fun i => sig i == .sell) + (if y n <ᵥ x n then 1 else 0) := by
  intro n hn
  induction n, hn using Nat.le_induction with
  | base =>
    intro _ hh _
    have : ∀ s, s ≠ .hold → (List.range (a + 1)).countP (fun i => sig i == s) = 0 := fun s hs => by
      rw [List.countP_eq_zero]
      intro k hk
      rw [List.mem_range] at hk
      rw [hh k (by omega)]
      simpa using hs.symm
    rw [this _ (by simp), this _ (by simp)]
  | succ n hn ih =>
    intro ha hh hc
    have := ih (fun k e1 e2 => ha k e1 (by omega)) hh fun k e1 e2 => hc k e1 (by omega)
    obtain ⟨c1, c2⟩ := hc (n + 1) (by omega) le_rfl
    rw [Nat.add_sub_cancel] at c1 c2
    rw [List.range_succ, List.countP_append, List.countP_append, List.countP_singleton, List.countP_singleton]
    rcases ha n hn (by omega) with p | p <;> rcases ha (n + 1) (by omega) le_rfl with q | q <;>
    · have p' := lt_asymm _ _ p
      have q' := lt_asymm _ _ q
      simp [p, q, p', q'] at c1 c2 this
      cases hs : sig (n + 1) <;> rw [hs] at c1 c2 <;> simp [p', q', p, q] at c1 c2 ⊢ <;> omega

/-- C78: so the reported numbers of buy and sell signals differ by at most one, if the lines differ on every day from the day
on which both have a value for the first time. -/
theorem C78_balance (hw : WF f) (h : (construct E c (.frame f) (.bool fill)).2 = .ok o) (hd : f.idx.Nodup) (x y : ℕ → Val)
    (hl : lines o.input o.getTiData o.ind = some (x, y)) (closes : InputArg) (m fac : PyArg) (r : SimResult)
    (hr : (o.getTiSimulation closes m fac).2.2 = .ok r) (a : ℕ) (hm : ∀ k < a, x k = .nan ∨ y k = .nan)
    (ha : ∀ k, a ≤ k → k < o.getTiData.idx.length → Apart x y k) :
    r.stats.buySignals ≤ r.stats.sellSignals + 1 ∧ r.stats.sellSignals ≤ r.stats.buySignals + 1 := by
  obtain ⟨sig, h1, h2, h3, h4⟩ := simulation_signals hw h closes m fac r hr
  have hc := C78_crossing hw h hd x y hl closes m fac r hr
  rw [h3, h4]
  generalize hL : o.getTiData.idx.length = L at *
  have hb : ∀ k < L, (sig k = .buy ↔ (firstDay o.ind ≤ k ∧ 1 ≤ k) ∧ x (k - 1) <ᵥ y (k - 1) ∧ y k <ᵥ x k) ∧
      (sig k = .sell ↔ (firstDay o.ind ≤ k ∧ 1 ≤ k) ∧ y (k - 1) <ᵥ x (k - 1) ∧ x k <ᵥ y k) := fun k hk => by
    have := hc k hk
    rw [h2, h2] at this
    simpa [hk] using this
  let a' := max a (firstDay o.ind - 1)
  have hold : ∀ k < L, k ≤ a' → sig k = .hold := by
    intro k hk hka
    by_cases h0 : 1 ≤ k ∧ firstDay o.ind ≤ k
    · have : k - 1 < a := by omega
      cases hs : sig k
      · have := ((hb k hk).1.1 hs).2.1
        rcases hm (k - 1) ‹_› with e | e <;> rw [e] at this <;> simp [nan_lt, lt_nan] at this
      · rfl
      · have := ((hb k hk).2.1 hs).2.1
        rcases hm (k - 1) ‹_› with e | e <;> rw [e] at this <;> simp [nan_lt, lt_nan] at this
    · cases hs : sig k
      · have := ((hb k hk).1.1 hs).1; omega
      · rfl
      · have := ((hb k hk).2.1 hs).1; omega
  rcases Nat.lt_or_ge a' L with hlt | hge
  · obtain ⟨n, rfl⟩ : ∃ n, L = n + 1 := ⟨L - 1, by omega⟩
    have := crossings_balance x y sig a' n (by omega) (fun k e1 e2 => ha k (by omega) (by omega))
      (fun k e => hold k (by omega) e) fun k e1 e2 => by
        have := hb k (by omega)
        have hk : firstDay o.ind ≤ k ∧ 1 ≤ k := ⟨by omega, by omega⟩
        simpa [hk] using this
    split_ifs at this <;> omega
  · have : ∀ s, s ≠ .hold → (List.range L).countP (fun i => sig i == s) = 0 := fun s hs => by
      rw [List.countP_eq_zero]
      intro k hk
      rw [List.mem_range] at hk
      rw [hold k hk (by omega)]
      simpa using hs.symm
    rw [this _ (by simp), this _ (by simp)]
    omega

/-! ## Concrete cases -/

/-- Days with the same high and low and the given close prices. -/
def sideways (closes : List ℚ) : RawFrame :=
  ⟨true, (List.range closes.length).map fun i => ((i : ℕ) : ℤ),
    [⟨.str "High", true, closes.map fun _ => .fin 12⟩, ⟨.str "Low", true, closes.map fun _ => .fin 8⟩,
      ⟨.str "Close", true, closes.map .fin⟩]⟩

/-- The signals of a simulation on the data themselves, with the two counters. -/
def signalsOf (E : Env) (c : Call) (f : RawFrame) : Option (List (Option Signal) × ℕ × ℕ) :=
  match (construct E c (.frame f) (.bool true)).2 with
  | .ok o => match (o.getTiSimulation (.frame f) .none (.float (.fin (3 / 2)))).2.2 with
    | .ok r => some (r.rows.map (·.map (·.signal)), r.stats.buySignals, r.stats.sellSignals)
    | .error _ => none
  | .error _ => none

/-- The hypotheses of the theorems above on four days: the weighted close is below the close, above, below and above. -/
example : WF (sideways [11, 9, 11, 9]) ∧ (sideways [11, 9, 11, 9]).idx.Nodup ∧
    (∃ o x y r, (construct demoEnv .weightedClose (.frame (sideways [11, 9, 11, 9])) (.bool true)).2 = .ok o ∧
      lines o.input o.getTiData o.ind = some (x, y) ∧ (∀ k < 4, Apart x y k) ∧ o.getTiData.idx.length = 4 ∧
      (o.getTiSimulation (.frame (sideways [11, 9, 11, 9])) .none (.float (.fin (3 / 2)))).2.2 = .ok r ∧
      SignalOn r 1 .buy ∧ SignalOn r 2 .sell ∧ SignalOn r 3 .buy) := by
  refine ⟨by unfold WF; decide +kernel, by decide +kernel, ?_⟩
  have h1 : (match (construct demoEnv .weightedClose (.frame (sideways [11, 9, 11, 9])) (.bool true)).2 with
      | .ok o => match lines o.input o.getTiData o.ind, (o.getTiSimulation (.frame (sideways [11, 9, 11, 9])) .none (.float (.fin (3 / 2)))).2.2 with
        | some (x, y), .ok r => ((List.range 4).all fun k => x k <ᵥ y k || y k <ᵥ x k) && o.getTiData.idx.length == 4 &&
            r.rows.map (·.map (·.signal)) == [some .hold, some .buy, some .sell, some .buy]
        | _, _ => false
      | .error _ => false) = true := by decide +kernel
  split at h1
  · next o ho =>
    split at h1
    · next x y r hl hr =>
      simp only [Bool.and_eq_true, List.all_eq_true, List.mem_range, Bool.or_eq_true, beq_iff_eq] at h1
      obtain ⟨⟨h1, h2⟩, h3⟩ := h1
      have hg : ∀ (k : ℕ) (s : Signal), [some Signal.hold, some .buy, some .sell, some .buy][k]? = some (some s) → SignalOn r k s :=
        fun k s hk => by
          rw [← h3, List.getElem?_map, Option.map_eq_some_iff] at hk
          obtain ⟨a, e1, e2⟩ := hk
          rw [Option.map_eq_some_iff] at e2
          obtain ⟨row, rfl, e3⟩ := e2
          exact ⟨row, e1, e3⟩
      exact ⟨o, x, y, r, ho, hl, h1, h2, hr, hg 1 _ rfl, hg 2 _ rfl, hg 3 _ rfl⟩
    · simp at h1
  · simp at h1

/-- C78: the condition is needed: when the weighted close meets the close exactly on a day, two buy signals follow one another
and no sell signal is given at all. -/
theorem C78_meeting (E : Env) : signalsOf E .weightedClose (sideways [11, 9, 10, 11, 9]) =
    some ([some .hold, some .buy, some .hold, some .hold, some .buy], 2, 0) := by
  have hE : ∀ (x : InputArg), construct E .weightedClose x (.bool true) = construct demoEnv .weightedClose x (.bool true) :=
    fun _ => rfl
  unfold signalsOf
  rw [hE]
  decide +kernel

/-- C78: signals from two thresholds do not alternate: the relative strength index of two days can fall below 30 again and
again without ever rising above 70. -/
theorem C78_thresholds_repeat (E : Env) :
    signalsOf E (.relativeStrengthIndex (.int 2)) (sideways [10, 9, 11, 8, 10, 7, 9, 6]) =
      some ([some .hold, some .hold, some .hold, some .buy, some .hold, some .buy, some .hold, some .buy], 3, 0) := by
  have hE : ∀ (x : InputArg), construct E (.relativeStrengthIndex (.int 2)) x (.bool true) =
    construct demoEnv (.relativeStrengthIndex (.int 2)) x (.bool true) := fun _ => rfl
  unfold signalsOf
  rw [hE]
  decide +kernel

end TTI.Props
