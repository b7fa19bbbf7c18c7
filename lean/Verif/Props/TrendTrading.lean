import Verif.Props.TrendSignals

set_option autoImplicit false

/-!
# What a simulation earns in a market that only rises, or only falls: C102
-/

namespace TTI.Props

open Spec Flt Sim

variable {E : Env} {c : Call} {f g : RawFrame} {fill : Bool} {o : Obj} {m fac : PyArg} {q : ℚ} {r : SimResult}

theorem Returned.days_le (h : Returned o g m fac q r) : o.getTiData.idx.length ≤ g.idx.length := by
  have hr := h.result
  rw [← Exact.getTiSimulation o h.used.pos] at hr
  exact (flt_backtest (R := noRounding) (A := exactArith) rfl h.used.sound h.table h.closes m fac q h.factor r hr).2.1

theorem numOpen_zero (s : Side) (h : List (Row ℚ)) (hn : ∀ x ∈ h, x.action ≠ s) : numOpen s h = 0 := by
  unfold numOpen
  rw [sumOpen_congr _ (fun _ _ => (0 : ℚ)) h fun x hx _ => if_neg (hn x hx)]
  have := sumOpen_mul 0 (fun _ _ => (0 : ℚ)) h
  simpa using this

/-- The rows of a simulation none of whose days asks for a side never open it. -/
theorem never_opened (h : Returned o g m fac q r) (s : Side) (sg : Signal) (hs : s = .long ∧ sg = .buy ∨ s = .short ∧ sg = .sell)
    (hb : ∀ (i : ℕ) (o' : Obj), o.cut i = some o' → o'.getTiSignal ≠ .ok sg) :
    (∀ i row, RowOn r i row → row.signal ≠ sg ∧ row.action ≠ s) ∧ ∀ n, ∀ x ∈ firstDays r n, x.action ≠ s := by
  obtain ⟨-, M, sig, -, -, -, ds, st, hds, hst, h1, h2, -, h4⟩ := h.run
  have key : ∀ (i : ℕ) (x : Row ℚ), st.rows[i]? = some x → x.signal ≠ sg ∧ x.action ≠ s := by
    intro i x hx
    rw [hst, hds] at hx
    have hx' := history_row _ _ _ _ _ _ hx
    obtain ⟨a1, a2⟩ := action_matches _ _ _ _ hx
    have hns : x.signal ≠ sg := by
      obtain ⟨o', e1, e2⟩ := h4 i hx'.1
      intro e
      refine hb i o' e1 ?_
      rw [e2, ← e, hx'.2.2]
    refine ⟨hns, fun ha => hns ?_⟩
    rcases hs with ⟨rfl, rfl⟩ | ⟨rfl, rfl⟩
    · exact a1 ha
    · exact a2 ha
  refine ⟨fun i row hrow => ?_, fun n x hx => ?_⟩
  · obtain ⟨x, hx, rfl⟩ := (h1 i row).1 hrow
    exact key i x hx
  · rw [h2] at hx
    obtain ⟨i, hi⟩ := List.mem_iff_getElem?.1 (List.mem_of_mem_take hx)
    exact (key i x hi).2

/-- C102: if no day of a simulation asks to buy and the closes never fall, nothing is ever earned; neither is it if no day asks to
sell and the closes never rise. -/
theorem C102_nothing_earned_against_the_market (h : Returned o g m fac q r)
    (hw : NeverFalls g "close" ∧ (∀ (i : ℕ) (o' : Obj), o.cut i = some o' → o'.getTiSignal ≠ .ok .buy) ∨
      NeverRises g "close" ∧ ∀ (i : ℕ) (o' : Obj), o.cut i = some o' → o'.getTiSignal ≠ .ok .sell)
    (i : ℕ) (row : Row Val) (hi : RowOn r i row) : row.earnings = .fin 0 := by
  induction i generalizing row with
  | zero => exact (C08_returned h row hi).2.2.2.1
  | succ i ih =>
    have hlt := (C16_returned h (i + 1)).1.1 ⟨_, hi⟩
    have hle := h.days_le
    obtain ⟨prev, hp⟩ : ∃ d, RowOn r i d := (C16_returned h i).1.2 (by omega)
    obtain ⟨a, b, ha, hb, hd⟩ := C99_gain_of_a_day h i prev row hp hi
    obtain ⟨a', b', ha', hb', -, hab, -⟩ := C03_returned h i prev row hp hi
    rw [ih prev hp] at ha ha'
    obtain rfl := Val.fin.inj ha
    obtain rfl := Val.fin.inj ha'
    rw [hb] at hb'
    obtain rfl := Val.fin.inj hb'
    rw [hb]
    rcases hw with ⟨w, hn⟩ | ⟨w, hn⟩
    · have h0 := numOpen_zero .long (firstDays r (i + 1)) ((never_opened h .long .buy (Or.inl ⟨rfl, rfl⟩) hn).2 _)
      have h1 : max 0 (price g "close" i - price g "close" (i + 1)) = 0 := max_eq_left (by linarith [w i (by omega)])
      rw [h0, h1] at hd
      congr 1
      linarith
    · have h0 := numOpen_zero .short (firstDays r (i + 1)) ((never_opened h .short .sell (Or.inr ⟨rfl, rfl⟩) hn).2 _)
      have h1 : max 0 (price g "close" (i + 1) - price g "close" i) = 0 := max_eq_left (by linarith [w i (by omega)])
      rw [h0, h1] at hd
      congr 1
      linarith

/-- C102: so a simulation of the on balance volume, the price and volume trend, the Fibonacci retracement or the Chaikin money flow
earns nothing in a market that never falls or never rises: there are only shorts in the first case, only longs in the second one. -/
theorem C102_contrarians_earn_nothing {P : (String → ℚ) → Prop} (hB : BuiltOn E c f fill o P)
    (hi : P = Traded ∧ (o.ind = .onBalanceVolume ∨ o.ind = .priceAndVolumeTrend) ∨
      P = AnyPrices ∧ (o.ind = .fibonacciRetracement ∨ ∃ n, o.ind = .chaikinMoneyFlow n))
    (h : Returned o g m fac q r)
    (hw : NeverFalls f "close" ∧ NeverFalls g "close" ∨ NeverRises f "close" ∧ NeverRises g "close")
    (i : ℕ) (row : Row Val) (hrow : RowOn r i row) :
    row.earnings = .fin 0 ∧ (NeverFalls f "close" → row.action ≠ .long) ∧ (NeverRises f "close" → row.action ≠ .short) := by
  have key : ∀ (i : ℕ) (o' : Obj), o.cut i = some o' →
      (NeverFalls f "close" → o'.getTiSignal ≠ .ok .buy) ∧ (NeverRises f "close" → o'.getTiSignal ≠ .ok .sell) := by
    intro i o' hc
    rcases hi with ⟨rfl, hi⟩ | ⟨rfl, hi⟩
    · exact C102_volume_trends hB hi (Or.inr ⟨i, hc⟩)
    · exact C102_retracement_and_money_flow hB hi (Or.inr ⟨i, hc⟩)
  refine ⟨C102_nothing_earned_against_the_market h (hw.imp (fun w => ⟨w.2, fun i o' hc => (key i o' hc).1 w.1⟩)
    fun w => ⟨w.2, fun i o' hc => (key i o' hc).2 w.1⟩) i row hrow, fun w => ?_, fun w => ?_⟩
  · exact ((never_opened h .long .buy (Or.inl ⟨rfl, rfl⟩) fun i o' hc => (key i o' hc).1 w).1 i row hrow).2
  · exact ((never_opened h .short .sell (Or.inr ⟨rfl, rfl⟩) fun i o' hc => (key i o' hc).2 w).1 i row hrow).2

/-- The hypotheses of `C102_contrarians_earn_nothing`: the on balance volume in a market that rises for nine days opens
shorts. -/
example : ∃ o r row, BuiltOn demoEnv .onBalanceVolume (oneWay true 9) true o Traded ∧ o.ind = .onBalanceVolume ∧
    NeverFalls (oneWay true 9) "close" ∧ Returned o (oneWay true 9) .none (.int 1) 1 r ∧ RowOn r 5 row ∧ row.action = .short := by
  have h : (match (construct demoEnv .onBalanceVolume (.frame (oneWay true 9)) (.bool true)).2 with
      | .ok o => match (o.getTiSimulation (.frame (oneWay true 9)) .none (.int 1)).2.2 with
        | .ok r => decide (o.ind = .onBalanceVolume) && (match r.rows[5]? with
          | some (some row) => decide (row.action = .short)
          | _ => false)
        | .error _ => false
      | .error _ => false) = true := by decide +kernel
  split at h
  · next o ho =>
    split at h
    · next r hr =>
      simp only [Bool.and_eq_true, decide_eq_true_eq] at h
      obtain ⟨hi, h⟩ := h
      split at h
      · next row hrow =>
        have hc : ∀ j < 8, price (oneWay true 9) "close" j ≤ price (oneWay true 9) "close" (j + 1) := by decide +kernel
        refine ⟨o, r, row, ⟨oneWay_wf _ _, ho, fun j hj => ?_⟩, hi, fun j hj => hc j (by simp [oneWay] at hj; omega),
          ⟨Reachable.used ⟨_, _, _, _, _, oneWay_wf _ _, ho, Or.inl rfl⟩, oneWay_wf _ _, fun j hj => ?_, rfl, hr⟩, hrow, of_decide_eq_true h⟩
        · obtain ⟨x, h1, h2⟩ := oneWay_rows true 9 ["close", "volume"] (by simp) j hj
          exact ⟨x, by rw [hi]; exact h1, h2.2.2⟩
        · obtain ⟨x, h1, h2⟩ := oneWay_rows true 9 ["close"] (by simp) j hj
          exact ⟨x, h1, trivial⟩
      · simp at h
    · simp at h
  · simp at h

/-- C102: a simulation of the Chande momentum oscillator, the relative strength index, the relative momentum index or the linear
regression slope in a market that never falls, or never rises, makes no trade at all. -/
theorem C102_momentum_classes_never_trade (hB : BuiltOn E c f fill o AnyPrices)
    (hi : (∃ n, o.ind = .chandeMomentumOscillator n) ∨ (∃ n, o.ind = .relativeStrengthIndex n) ∨
      (∃ n k, o.ind = .relativeMomentumIndex n k) ∨ ∃ n, o.ind = .linearRegressionSlope n)
    (hw : NeverFalls f "close" ∨ NeverRises f "close") (closes : InputArg)
    (hr : (o.getTiSimulation closes m fac).2.2 = .ok r) :
    (∀ (i : ℕ) (row : Row Val), RowOn r i row → row.signal = .hold ∧ row.action = .none) ∧
    r.stats.buySignals = 0 ∧ r.stats.sellSignals = 0 ∧ r.stats.lastOpenLong = 0 ∧ r.stats.lastOpenShort = 0 :=
  hold_never_trades E c f fill o hB.wf hB.ok (fun i _ hc => C102_momentum_classes_hold hB hi hw (Or.inr ⟨i, hc⟩)) closes m fac r hr

/-- The hypotheses of `C102_momentum_classes_never_trade`: the relative strength index in a market that falls for nine days. -/
example : NeverRises (oneWay false 9) "close" ∧ ∃ o r, BuiltOn demoEnv (.relativeStrengthIndex (.int 4)) (oneWay false 9) true o AnyPrices ∧
    o.ind = .relativeStrengthIndex 4 ∧ (o.getTiSimulation (.frame (oneWay false 9)) .none (.int 1)).2.2 = .ok r := by
  have h : (match (construct demoEnv (.relativeStrengthIndex (.int 4)) (.frame (oneWay false 9)) (.bool true)).2 with
      | .ok o => match (o.getTiSimulation (.frame (oneWay false 9)) .none (.int 1)).2.2 with
        | .ok _ => decide (o.ind = .relativeStrengthIndex 4)
        | .error _ => false
      | .error _ => false) = true := by decide +kernel
  have hc : ∀ j < 8, price (oneWay false 9) "close" (j + 1) ≤ price (oneWay false 9) "close" j := by decide +kernel
  refine ⟨fun j hj => hc j (by simp [oneWay] at hj; omega), ?_⟩
  split at h
  · next o ho =>
    split at h
    · next r hr =>
      have hi := of_decide_eq_true h
      refine ⟨o, r, ⟨oneWay_wf _ _, ho, fun j hj => ?_⟩, hi, hr⟩
      obtain ⟨x, h1, h2⟩ := oneWay_rows false 9 ["close"] (by simp) j hj
      exact ⟨x, by rw [hi]; exact h1, trivial⟩
    · simp at h
  · simp at h

end TTI.Props
