import Verif.Spec.Idle
import Verif.Props.Level
import Verif.Props.SimApi
import Verif.Props.Errors2

set_option autoImplicit false

/-!
# Days on which nothing was traded: C109
-/

namespace TTI.Props

open Spec Sim

/-! ## The simulation -/

/-- The open positions. -/
def opens (pf : List (Pos ℚ)) : List (Pos ℚ) := pf.filter fun p => p.status == .open

theorem filter_opens (m : Pos ℚ → Bool) (hm : ∀ p, m p = true → p.status = .open) (pf : List (Pos ℚ)) :
    pf.filter m = (opens pf).filter m := by
  unfold opens
  rw [List.filter_filter]
  refine List.filter_congr fun p _ => ?_
  cases h : m p with
  | false => rfl
  | true => simp [hm p h]

theorem longMask_open (x : ℚ) (p : Pos ℚ) (h : longMask x p = true) : p.status = .open := by
  simp only [longMask, Bool.and_eq_true, beq_iff_eq] at h; exact h.1.1

theorem shortMask_open (q x : ℚ) (p : Pos ℚ) (h : shortMask q x p = true) : p.status = .open := by
  simp only [shortMask, Bool.and_eq_true, beq_iff_eq] at h; exact h.1.1

theorem opens_closed (P : Params ℚ) (x : ℚ) (pf : List (Pos ℚ)) :
    opens (closeOpenPositions P x pf).portfolio = (opens pf).filter fun p => !longMask x p && !shortMask P.factor x p := by
  unfold closeOpenPositions opens markClosed
  simp only
  induction pf with
  | nil => rfl
  | cons p pf ih =>
    simp only [List.map_cons, List.filter_cons] at ih ⊢
    rw [ih]
    by_cases h1 : longMask x p = true
    · have := longMask_open x p h1
      by_cases h2 : shortMask P.factor x { p with status := .closed } = true
      · simp [h1, h2, this]
      · simp [h1, h2, this]
    · by_cases h2 : shortMask P.factor x p = true
      · have := shortMask_open _ x p h2
        simp [h1, h2, this]
      · by_cases h3 : p.status = .open <;> simp [h1, h2, h3]

theorem close_opens (P : Params ℚ) (x : ℚ) (pf pf' : List (Pos ℚ)) (h : opens pf = opens pf') :
    (closeOpenPositions P x pf).earnings = (closeOpenPositions P x pf').earnings ∧
    (closeOpenPositions P x pf).closedExposure = (closeOpenPositions P x pf').closedExposure ∧
    opens (closeOpenPositions P x pf).portfolio = opens (closeOpenPositions P x pf').portfolio := by
  refine ⟨?_, ?_, by rw [opens_closed, opens_closed, h]⟩
  all_goals
    unfold closeOpenPositions
    simp only
    rw [filter_opens _ (longMask_open x) pf, filter_opens _ (longMask_open x) pf', filter_opens _ (shortMask_open P.factor x) pf,
      filter_opens _ (shortMask_open P.factor x) pf', h]

theorem value_opens (x : ℚ) (pf pf' : List (Pos ℚ)) (h : opens pf = opens pf') : portfolioValue x pf = portfolioValue x pf' := by
  have key : ∀ s pf, countOpen s pf = ((opens pf).filter fun p : Pos ℚ => p.side == s && p.status == .open).length := fun s pf => by
    unfold countOpen
    rw [filter_opens _ (fun p hp => by simp at hp; exact hp.2)]
  unfold portfolioValue
  rw [key, key, key, key, h]

/-- The two ledgers have the same open positions and the same amounts on their last days, and no position can be closed at the last
price. -/
structure Like (q : ℚ) (st st' : State ℚ) (a b : Row ℚ) : Prop where
  pos : opens st.portfolio = opens st'.portfolio
  left : st.rows.getLast? = some a
  right : st'.rows.getLast? = some b
  same : a.stock = b.stock ∧ a.exposure = b.exposure ∧ a.portfolio = b.portfolio ∧ a.earnings = b.earnings ∧ a.balance = b.balance
  value : b.portfolio = portfolioValue b.stock st'.portfolio ∨ opens st'.portfolio = [] ∧ b.portfolio = 0
  balance : b.balance = b.portfolio + b.earnings
  quiet : ∀ p ∈ opens st'.portfolio, longMask b.stock p = false ∧ shortMask q b.stock p = false

/-- The new position, the recorded action and the exposure of a day. -/
def choice (P : Params ℚ) (e x : ℚ) : Signal → Pos ℚ × Side × ℚ
  | .hold => (noPos, .none, e)
  | .buy => if limitReached P e x then (noPos, .none, e) else (⟨.long, .open, x⟩, .long, e + x)
  | .sell => if limitReached P e (P.factor * x) then (noPos, .none, e) else (⟨.short, .open, P.factor * x⟩, .short, e + P.factor * x)

theorem round_choice (P : Params ℚ) (st : State ℚ) (x : ℚ) (s : Signal) (prev : Row ℚ) (h : st.rows.getLast? = some prev) :
    Sim.round P st x s = record st (closeOpenPositions P x st.portfolio).portfolio
      (choice P (prev.exposure - (closeOpenPositions P x st.portfolio).closedExposure) x s).1 s
      (choice P (prev.exposure - (closeOpenPositions P x st.portfolio).closedExposure) x s).2.1 x
      (choice P (prev.exposure - (closeOpenPositions P x st.portfolio).closedExposure) x s).2.2
      (prev.earnings + (closeOpenPositions P x st.portfolio).earnings) := by
  unfold Sim.round
  rw [h]
  cases s with
  | hold => rfl
  | buy =>
    by_cases h1 : limitReached P (prev.exposure - (closeOpenPositions P x st.portfolio).closedExposure) x = true
    · simp only [choice, if_pos h1]
      exact if_pos h1
    · simp only [choice, if_neg h1]
      exact if_neg h1
  | sell =>
    by_cases h1 : limitReached P (prev.exposure - (closeOpenPositions P x st.portfolio).closedExposure) (P.factor * x) = true
    · simp only [choice, if_pos h1]
      exact if_pos h1
    · simp only [choice, if_neg h1]
      exact if_neg h1

/-- What is open after a round cannot be closed at its price. -/
theorem choice_quiet (P : Params ℚ) (e x : ℚ) (s : Signal) :
    longMask x (choice P e x s).1 = false ∧ shortMask P.factor x (choice P e x s).1 = false := by
  cases s <;> simp only [choice] <;> try split
  all_goals simp [longMask, shortMask, noPos, Num.lt, Num.mul]

theorem opens_snoc (pf : List (Pos ℚ)) (p : Pos ℚ) : opens (pf ++ [p]) = opens pf ++ opens [p] := by
  simp [opens]

theorem like_same (P : Params ℚ) {st st' : State ℚ} {a b : Row ℚ} (h : Like P.factor st st' a b) (x : ℚ) (s : Signal) :
    ∃ a' b', Like P.factor (round P st x s) (round P st' x s) a' b' := by
  obtain ⟨e1, e2, e3⟩ := close_opens P x _ _ h.pos
  rw [round_choice P st x s a h.left, round_choice P st' x s b h.right, e1, e2, h.same.2.1, h.same.2.2.2.1]
  have hv := opens_closed P x st'.portfolio
  have hc := choice_quiet P (b.exposure - (closeOpenPositions P x st'.portfolio).closedExposure) x s
  generalize choice P (b.exposure - (closeOpenPositions P x st'.portfolio).closedExposure) x s = ch at *
  have hpf : opens ((closeOpenPositions P x st.portfolio).portfolio ++ [ch.1]) = opens ((closeOpenPositions P x st'.portfolio).portfolio ++ [ch.1]) := by
    rw [opens_snoc, opens_snoc, e3]
  refine ⟨_, _, ⟨hpf, List.getLast?_concat .., List.getLast?_concat .., ⟨rfl, rfl, ?_, rfl, ?_⟩, .inl rfl, rfl, fun p hp => ?_⟩⟩
  · exact value_opens x _ _ hpf
  · show _ + _ = _ + _
    rw [value_opens x _ _ hpf]
  · simp only [record] at hp
    rw [opens_snoc, hv, List.mem_append] at hp
    rcases hp with hp | hp
    · have := (List.mem_filter.1 hp).2
      simpa using this
    · have := (List.mem_filter.1 hp).1
      rw [List.mem_singleton.1 this]
      exact hc

theorem like_idle (P : Params ℚ) {st st' : State ℚ} {a b : Row ℚ} (h : Like P.factor st st' a b) :
    ∃ b', Like P.factor st (round P st' b.stock .hold) a b' := by
  have l0 : st'.portfolio.filter (longMask b.stock) = [] := by
    rw [filter_opens _ (longMask_open _)]
    exact List.filter_eq_nil_iff.2 fun p hp => by rw [(h.quiet p hp).1]; simp
  have s0 : st'.portfolio.filter (shortMask P.factor b.stock) = [] := by
    rw [filter_opens _ (shortMask_open _ _)]
    exact List.filter_eq_nil_iff.2 fun p hp => by rw [(h.quiet p hp).2]; simp
  have c1 : (closeOpenPositions P b.stock st'.portfolio).earnings = 0 := by
    simp [closeOpenPositions, l0, s0, sumExposure, npSum, pairwiseSum, blockSum, Num.add, Num.sub, Num.mul, Num.div, Num.ofInt]
  have c2 : (closeOpenPositions P b.stock st'.portfolio).closedExposure = 0 := by
    simp [closeOpenPositions, l0, s0, sumExposure, npSum, pairwiseSum, blockSum, Num.add, Num.sub, Num.mul, Num.div, Num.ofInt]
  have c3 : opens (closeOpenPositions P b.stock st'.portfolio).portfolio = opens st'.portfolio := by
    rw [opens_closed]
    exact List.filter_eq_self.2 fun p hp => by simp [h.quiet p hp]
  rw [round_choice P st' b.stock .hold b h.right]
  simp only [choice, c1, c2, sub_zero, add_zero]
  have hpf : opens ((closeOpenPositions P b.stock st'.portfolio).portfolio ++ [noPos]) = opens st'.portfolio := by
    rw [opens_snoc, c3]
    simp [opens, noPos]
  have hval : portfolioValue b.stock ((closeOpenPositions P b.stock st'.portfolio).portfolio ++ [noPos]) = b.portfolio := by
    rw [value_opens _ _ _ hpf]
    rcases h.value with hv | ⟨h1, h2⟩
    · exact hv.symm
    · rw [value_opens _ _ [] h1, h2]
      simp [portfolioValue, countOpen, Num.mul, Num.ofInt]
  refine ⟨_, ⟨by rw [h.pos]; exact hpf.symm, h.left, List.getLast?_concat .., ⟨h.same.1, h.same.2.1, ?_, h.same.2.2.2.1, ?_⟩, .inl rfl, rfl, fun p hp => ?_⟩⟩
  · rw [h.same.2.2.1]; exact hval.symm
  · rw [h.same.2.2.2.2, h.balance]
    show _ = _ + _
    rw [hval]
  · simp only [record] at hp
    rw [hpf] at hp
    exact h.quiet p hp

theorem history_succ (n : ℕ) (p : ℕ → ℚ) (s : ℕ → Signal) : history (n + 1) p s = history n p s ++ [(p n, s n)] := by
  simp [history, List.range_succ]

theorem last_stock (P : Params ℚ) (n : ℕ) (p : ℕ → ℚ) (s : ℕ → Signal) (b : Row ℚ)
    (h : (run P (history (n + 1) p s)).rows.getLast? = some b) :
    (run P (history (n + 1) p s)).rows[n]? = some b ∧ b.stock = p n := by
  have hl : (run P (history (n + 1) p s)).rows.length = n + 1 := by rw [run_length]; simp [history]
  rw [List.getLast?_eq_getElem?, hl] at h
  exact ⟨h, (history_row P (n + 1) p s n b h).2.1⟩

theorem like_run (P : Params ℚ) (n : ℕ) (p p' : ℕ → ℚ) (s s' : ℕ → Signal) (φ : ℕ → ℕ) (h0 : φ 0 = 0) (hp : p' 0 = p 0)
    (hstep : ∀ i, i + 1 < n → (φ (i + 1) = φ i + 1 ∧ p' (i + 1) = p (φ i + 1) ∧ s' (i + 1) = s (φ i + 1)) ∨
      (φ (i + 1) = φ i ∧ p' (i + 1) = p' i ∧ s' (i + 1) = .hold)) (i : ℕ) (hi : i < n) :
    ∃ a b, Like P.factor (run P (history (φ i + 1) p s)) (run P (history (i + 1) p' s')) a b := by
  induction i with
  | zero =>
    rw [h0]
    refine ⟨_, _, ⟨rfl, rfl, rfl, ⟨hp.symm, rfl, rfl, rfl, rfl⟩, .inr ⟨rfl, rfl⟩, ?_, fun p hp => ?_⟩⟩
    · show (0 : ℚ) = 0 + 0
      norm_num
    · cases hp
  | succ i ih =>
    obtain ⟨a, b, h⟩ := ih (by omega)
    rcases hstep i hi with ⟨e1, e2, e3⟩ | ⟨e1, e2, e3⟩
    · rw [e1, history_succ (φ i + 1), history_succ (i + 1), run_snoc, run_snoc, e2, e3]
      exact like_same P h _ _
    · rw [e1, history_succ (i + 1), run_snoc, e2, e3, ← (last_stock P i p' s' b h.right).2]
      obtain ⟨b', h'⟩ := like_idle P h
      exact ⟨a, b', h'⟩

variable {o p : Obj} {c : Call} {E : Env} {f g : RawFrame} {fill : Bool} {φ : ℕ → ℕ} {m fac : PyArg} {q : ℚ} {r r' : SimResult}

/-- C109: two simulations with the same limit and factor. If the second has the days of the first and idle days between them, on which
the close is that of the day before and the signal is hold, then on every day its amounts are those of the first on the day it
corresponds to. -/
theorem C109_simulation (h : Returned o f m fac q r) (h' : Returned p g m fac q r') (h0 : φ 0 = 0)
    (hin : ∀ i < p.getTiData.idx.length, φ i < o.getTiData.idx.length) (hp : price g "close" 0 = price f "close" 0)
    (hstep : ∀ i row, RowOn r' (i + 1) row →
      (φ (i + 1) = φ i + 1 ∧ price g "close" (i + 1) = price f "close" (φ i + 1) ∧ SignalOn r (φ i + 1) row.signal) ∨
      (φ (i + 1) = φ i ∧ price g "close" (i + 1) = price g "close" i ∧ row.signal = .hold))
    (i : ℕ) (row : Row Val) (hi : RowOn r' i row) : ∃ row', RowOn r (φ i) row' ∧ SameAmounts row' row := by
  obtain ⟨hq, M, sig, hM, -, -, ds, st, hds, rfl, h1, -, -, -⟩ := h.run
  obtain ⟨-, M', sig', hM', -, -, ds', st', hds', rfl, h1', -, -, -⟩ := h'.run
  obtain rfl : M = M' := by
    apply Option.ext
    intro v
    rw [hM, hM']
  obtain ⟨x, hx, rfl⟩ := (h1' i row).1 hi
  have hin' : i < p.getTiData.idx.length := by
    rw [hds'] at hx
    exact (history_row _ _ _ _ _ _ hx).1
  obtain ⟨a, b, hl⟩ := like_run ⟨M, q⟩ p.getTiData.idx.length (price f "close") (price g "close") sig sig' φ h0 hp (fun j hj => by
    obtain ⟨y, hy, -, hy2⟩ := row_exists ⟨M, q⟩ ds' (j + 1) (price g "close" (j + 1), sig' (j + 1)) (by rw [hds']; simp [history, hj])
    rcases hstep j _ ((h1' _ _).2 ⟨y, hy, rfl⟩) with ⟨e1, e2, w, hw, e3⟩ | ⟨e1, e2, e3⟩
    · refine .inl ⟨e1, e2, ?_⟩
      obtain ⟨z, hz, rfl⟩ := (h1 _ _).1 hw
      rw [hds] at hz
      rw [← (history_row _ _ _ _ _ _ hz).2.2]
      exact (show y.signal = z.signal from e3.symm) ▸ hy2.symm
    · exact .inr ⟨e1, e2, by rw [← e3]; exact hy2.symm⟩) i hin'
  have get : ∀ (n k : ℕ) (u : ℕ → ℚ) (s : ℕ → Signal) (z : Row ℚ), k < n → (run ⟨M, q⟩ (history (k + 1) u s)).rows.getLast? = some z →
      (run ⟨M, q⟩ (history n u s)).rows[k]? = some z := fun n k u s z hk hz => by
    rw [C10_no_look_ahead_rows ⟨M, q⟩ (history n u s) (history (k + 1) u s) k (fun j hj => ?_) k le_rfl]
    · exact (last_stock _ _ _ _ _ hz).1
    · simp [history, List.getElem?_range (show j < n by omega), List.getElem?_range (show j < k + 1 by omega)]
  have hb := get _ i _ _ b hin' hl.right
  rw [← hds', hx] at hb
  obtain rfl := Option.some.inj hb
  have ha := get _ (φ i) _ _ a (hin i hin') hl.left
  rw [← hds] at ha
  obtain ⟨q1, q2, q3, q4, q5⟩ := hl.same
  exact ⟨_, (h1 _ _).2 ⟨a, ha, rfl⟩, congrArg Val.fin q1, congrArg Val.fin q2, congrArg Val.fin q3, congrArg Val.fin q4, congrArg Val.fin q5⟩

/-- The two ledgers have the same numbers of entries of each kind, except for holds without an action. -/
def Tally (st st' : State ℚ) : Prop := ∀ k : Signal → Side → Bool, k .hold .none = false →
  (st.rows.filter fun r => k r.signal r.action).length = (st'.rows.filter fun r => k r.signal r.action).length

theorem tally_same (P : Params ℚ) {st st' : State ℚ} {a b : Row ℚ} (h : Like P.factor st st' a b) (ht : Tally st st') (x : ℚ) (s : Signal) :
    Tally (round P st x s) (round P st' x s) := by
  obtain ⟨-, e2, -⟩ := close_opens P x _ _ h.pos
  rw [round_choice P st x s a h.left, round_choice P st' x s b h.right, e2, h.same.2.1]
  intro k hk
  simp only [record, List.filter_append, List.length_append, ht k hk, List.filter_cons, List.filter_nil]
  split <;> rfl

theorem tally_idle (P : Params ℚ) {st st' : State ℚ} {b : Row ℚ} (h : st'.rows.getLast? = some b) (ht : Tally st st') (x : ℚ) :
    Tally st (round P st' x .hold) := by
  rw [round_choice P st' x .hold b h]
  intro k hk
  simp [record, choice, ht k hk, hk]

theorem tally_run (P : Params ℚ) (n : ℕ) (p p' : ℕ → ℚ) (s s' : ℕ → Signal) (φ : ℕ → ℕ) (h0 : φ 0 = 0) (hp : p' 0 = p 0) (hs : s' 0 = s 0)
    (hstep : ∀ i, i + 1 < n → (φ (i + 1) = φ i + 1 ∧ p' (i + 1) = p (φ i + 1) ∧ s' (i + 1) = s (φ i + 1)) ∨
      (φ (i + 1) = φ i ∧ p' (i + 1) = p' i ∧ s' (i + 1) = .hold)) (i : ℕ) (hi : i < n) :
    Tally (run P (history (φ i + 1) p s)) (run P (history (i + 1) p' s')) := by
  induction i with
  | zero =>
    rw [h0]
    intro k _
    show List.length (List.filter _ [_]) = List.length (List.filter _ [_])
    simp [history, hs, hp]
  | succ i ih =>
    obtain ⟨a, b, h⟩ := like_run P n p p' s s' φ h0 hp hstep i (by omega)
    have ih := ih (by omega)
    rcases hstep i hi with ⟨e1, e2, e3⟩ | ⟨e1, e2, e3⟩
    · rw [e1, history_succ (φ i + 1), history_succ (i + 1), run_snoc, run_snoc, e2, e3]
      exact tally_same P h ih _ _
    · rw [e1, history_succ (i + 1), run_snoc, e3]
      exact tally_idle P h.right ih _

theorem count_opens (s : Side) (pf pf' : List (Pos ℚ)) (h : opens pf = opens pf') : countOpen s pf = countOpen s pf' := by
  unfold countOpen
  rw [filter_opens _ (fun p hp => by simp at hp; exact hp.2) pf, filter_opens _ (fun p hp => by simp at hp; exact hp.2) pf', h]

/-- The statistics depend on the numbers of entries, the open positions and the last row. -/
theorem stats_like {q : ℚ} {st st' : State ℚ} {a b : Row ℚ} (h : Like q st st' a b) (ht : Tally st st') :
    Sim.statistics (State.map Val.fin st') = { Sim.statistics (State.map Val.fin st) with tradingDays := st'.rows.length } := by
  have k : ∀ (u : State ℚ) (m : Signal → Side → Bool), ((State.map Val.fin u).rows.filter fun r => m r.signal r.action).length =
      (u.rows.filter fun r => m r.signal r.action).length := fun u m => by
    simp only [State.map, List.filter_map, List.length_map]
    rfl
  have o : ∀ (u : State ℚ) (s : Side), countOpen s (State.map Val.fin u).portfolio = countOpen s u.portfolio := fun u s => by
    simp only [State.map, countOpen, List.filter_map, List.length_map]
    rfl
  have l : ∀ (u : State ℚ) (z : Row ℚ) (w : Row Val → Val), u.rows.getLast? = some z →
      lastOr0 (State.map Val.fin u).rows w = Num.round2 (w (Row.map Val.fin z)) := fun u z w hz => by
    simp only [State.map, lastOr0, List.getLast?_map, hz, Option.map_some]
  obtain ⟨q1, q2, q3, q4, q5⟩ := h.same
  have c := fun m hm => ((k st m).trans (ht m hm)).trans (k st' m).symm
  unfold Sim.statistics
  simp only [Stats.mk.injEq]
  refine ⟨by simp [State.map], (c (fun s _ => s == .buy) rfl).symm, (c (fun s e => s == .buy && e == .none) rfl).symm,
    (c (fun s _ => s == .sell) rfl).symm, (c (fun s e => s == .sell && e == .none) rfl).symm, ?_, ?_, ?_, ?_, ?_, ?_, ?_⟩
  · rw [l st a _ h.left, l st' b _ h.right]; simp only [Row.map, q1]
  · rw [l st a _ h.left, l st' b _ h.right]; simp only [Row.map, q2]
  · rw [o, o]; exact (count_opens _ _ _ h.pos).symm
  · rw [o, o]; exact (count_opens _ _ _ h.pos).symm
  · rw [l st a _ h.left, l st' b _ h.right]; simp only [Row.map, q3]
  · rw [l st a _ h.left, l st' b _ h.right]; simp only [Row.map, q4]
  · rw [l st a _ h.left, l st' b _ h.right]; simp only [Row.map, q5]

/-- C109: if the signals on the first days are the same as well and the last days correspond to each other, then the statistics of the two
simulations differ in the number of trading days only. -/
theorem C109_statistics (h : Returned o f m fac q r) (h' : Returned p g m fac q r') (h0 : φ 0 = 0) (s0 : Signal)
    (hlast : φ (p.getTiData.idx.length - 1) + 1 = o.getTiData.idx.length) (hp : price g "close" 0 = price f "close" 0)
    (hs : SignalOn r 0 s0) (hs' : SignalOn r' 0 s0)
    (hstep : ∀ i row, RowOn r' (i + 1) row →
      (φ (i + 1) = φ i + 1 ∧ price g "close" (i + 1) = price f "close" (φ i + 1) ∧ SignalOn r (φ i + 1) row.signal) ∨
      (φ (i + 1) = φ i ∧ price g "close" (i + 1) = price g "close" i ∧ row.signal = .hold)) :
    r'.stats = { r.stats with tradingDays := p.getTiData.idx.length } := by
  obtain ⟨hq, M, sig, hM, -, -, ds, st, hds, rfl, h1, -, hst, -⟩ := h.run
  obtain ⟨-, M', sig', hM', -, -, ds', st', hds', rfl, h1', -, hst', -⟩ := h'.run
  obtain rfl : M = M' := by
    apply Option.ext
    intro v
    rw [hM, hM']
  have first : ∀ {r : SimResult} {n : ℕ} {u : ℕ → ℚ} {s : ℕ → Signal}, SignalOn r 0 s0 →
      (∀ i row, RowOn r i row ↔ ∃ x, (run ⟨M, q⟩ (history n u s)).rows[i]? = some x ∧ row = asVals x) → 0 < n ∧ s 0 = s0 := by
    rintro r n u s ⟨w, hw, e⟩ hr
    obtain ⟨z, hz, rfl⟩ := (hr _ _).1 hw
    have := history_row _ _ _ _ _ _ hz
    exact ⟨this.1, this.2.2.symm.trans e⟩
  subst hds hds'
  obtain ⟨-, f1⟩ := first hs h1
  obtain ⟨f2, f3⟩ := first hs' h1'
  have steps : ∀ j, j + 1 < p.getTiData.idx.length →
      (φ (j + 1) = φ j + 1 ∧ price g "close" (j + 1) = price f "close" (φ j + 1) ∧ sig' (j + 1) = sig (φ j + 1)) ∨
      (φ (j + 1) = φ j ∧ price g "close" (j + 1) = price g "close" j ∧ sig' (j + 1) = .hold) := fun j hj => by
    obtain ⟨y, hy, -, hy2⟩ := row_exists ⟨M, q⟩ (history p.getTiData.idx.length (price g "close") sig') (j + 1)
      (price g "close" (j + 1), sig' (j + 1)) (by simp [history, hj])
    rcases hstep j _ ((h1' _ _).2 ⟨y, hy, rfl⟩) with ⟨e1, e2, w, hw, e3⟩ | ⟨e1, e2, e3⟩
    · refine .inl ⟨e1, e2, ?_⟩
      obtain ⟨z, hz, rfl⟩ := (h1 _ _).1 hw
      rw [← (history_row _ _ _ _ _ _ hz).2.2]
      exact (show y.signal = z.signal from e3.symm) ▸ hy2.symm
    · exact .inr ⟨e1, e2, by rw [← e3]; exact hy2.symm⟩
  obtain ⟨a, b, hl⟩ := like_run ⟨M, q⟩ _ _ _ _ _ φ h0 hp steps (p.getTiData.idx.length - 1) (by omega)
  have ht := tally_run ⟨M, q⟩ _ _ _ _ _ φ h0 hp (f3.trans f1.symm) steps (p.getTiData.idx.length - 1) (by omega)
  rw [hlast, Nat.sub_add_cancel f2] at hl ht
  rw [hst, hst', stats_like hl ht, run_length]
  simp [history]

/-! ## The values -/

theorem idle_close (h : IdleDays f g φ) (i : ℕ) (hi : i < g.idx.length) : close g i = close f (φ i) := by
  induction i with
  | zero => rw [h.first]; exact h.start "close" (by simp)
  | succ i ih =>
    rcases h.step i hi with ⟨e, q⟩ | ⟨e, q, -⟩
    · rw [e]; exact q "close" (by simp)
    · rw [e, q]; exact ih (by omega)

/-- A total to which the idle days add nothing. -/
theorem idle_total (h : IdleDays f g φ) (u v : ℕ → ℚ) (h0 : v 0 = u 0)
    (h1 : ∀ i, i + 1 < g.idx.length → φ (i + 1) = φ i + 1 → (∀ s ∈ ["open", "high", "low", "close", "volume"], price g s (i + 1) = price f s (φ i + 1)) →
      close g i = close f (φ i) → v (i + 1) = u (φ i + 1))
    (h2 : ∀ i, i + 1 < g.idx.length → close g (i + 1) = close g i → volume g (i + 1) = 0 → v (i + 1) = 0) (i : ℕ)
    (hi : i < g.idx.length) : ∑ j ∈ Finset.range (i + 1), v j = ∑ j ∈ Finset.range (φ i + 1), u j := by
  induction i with
  | zero => rw [h.first]; simp [h0]
  | succ i ih =>
    rw [Finset.sum_range_succ, ih (by omega)]
    rcases h.step i hi with ⟨e, q⟩ | ⟨e, q, q'⟩
    · rw [e, Finset.sum_range_succ u (φ i + 1), h1 i hi e q (idle_close h i (by omega))]
    · rw [e, h2 i hi q q', add_zero]

/-- C109: on balance volume. -/
theorem C109_on_balance_volume (hB : BuiltOn E c f fill o AnyPrices) (hB' : BuiltOn E c g fill p AnyPrices) (ho : o.ind = .onBalanceVolume)
    (h : IdleDays f g φ) (i : ℕ) (hi : i < g.idx.length) : p.getTiData.day "obv" i = o.getTiData.day "obv" (φ i) := by
  rw [C43_on_balance_volume E c f fill o hB.wf hB.ok hB.rows ho _ (h.inside i hi),
    C43_on_balance_volume E c g fill p hB'.wf hB'.ok hB'.rows ((same_ind hB hB').trans ho) _ hi, obv_total, obv_total,
    idle_total h (later 0 (obvDay f)) (later 0 (obvDay g)) rfl (fun j hj e q hc => ?_) (fun j hj q q' => ?_) i hi]
  · simp only [later, obvDay, Nat.add_sub_cancel, Nat.succ_ne_zero, if_false]
    rw [hc, show close g (j + 1) = close f (φ j + 1) from q "close" (by simp), show volume g (j + 1) = volume f (φ j + 1) from q "volume" (by simp)]
  · simp [later, obvDay, q]

/-- C109: price and volume trend. -/
theorem C109_price_and_volume_trend (hB : BuiltOn E c f fill o NonzeroClose) (hB' : BuiltOn E c g fill p NonzeroClose)
    (ho : o.ind = .priceAndVolumeTrend) (h : IdleDays f g φ) (i : ℕ) (hi : i < g.idx.length) :
    p.getTiData.day "pvt" i = o.getTiData.day "pvt" (φ i) := by
  rw [C43_price_and_volume_trend E c f fill o hB.wf hB.ok hB.rows ho _ (h.inside i hi),
    C43_price_and_volume_trend E c g fill p hB'.wf hB'.ok hB'.rows ((same_ind hB hB').trans ho) _ hi]
  have := idle_total h (later 0 (pvtDay f)) (later 0 (pvtDay g)) rfl (fun j hj e q hc => ?_) (fun j hj q q' => ?_) i hi
  · rw [sum_later, sum_later] at this
    unfold pvtDay at this
    rw [this]
  · simp only [later, pvtDay, Nat.add_sub_cancel, Nat.succ_ne_zero, if_false]
    rw [hc, show close g (j + 1) = close f (φ j + 1) from q "close" (by simp), show volume g (j + 1) = volume f (φ j + 1) from q "volume" (by simp)]
  · simp [later, pvtDay, q']

theorem flow_same (h : IdleDays f g φ) (i : ℕ) (hi : i < g.idx.length) :
    ∑ j ∈ Finset.range (i + 1), flow g j = ∑ j ∈ Finset.range (φ i + 1), flow f j := by
  refine idle_total h (flow f) (flow g) ?_ (fun j hj e q hc => ?_) (fun j hj q q' => ?_) i hi
  · unfold flow
    rw [show close g 0 = close f 0 from h.start "close" (by simp), show volume g 0 = volume f 0 from h.start "volume" (by simp),
      show high g 0 = high f 0 from h.start "high" (by simp), show low g 0 = low f 0 from h.start "low" (by simp)]
  · unfold flow
    rw [show close g (j + 1) = close f (φ j + 1) from q "close" (by simp), show volume g (j + 1) = volume f (φ j + 1) from q "volume" (by simp),
      show high g (j + 1) = high f (φ j + 1) from q "high" (by simp), show low g (j + 1) = low f (φ j + 1) from q "low" (by simp)]
  · simp [flow, q']

/-- C109: the accumulation distribution line, if the idle days have a high and a low that differ. -/
theorem C109_accumulation_distribution (hB : BuiltOn E c f fill o AnyPrices) (hB' : BuiltOn E c g fill p AnyPrices)
    (ho : o.ind = .accumulationDistributionLine) (h : IdleDays f g φ) (hf : ∀ j < f.idx.length, high f j ≠ low f j)
    (hg : ∀ j < g.idx.length, high g j ≠ low g j) (i : ℕ) (hi : i < g.idx.length) :
    p.getTiData.day "adl" i = o.getTiData.day "adl" (φ i) := by
  rw [C59_accumulation_distribution hB ho hf _ (h.inside i hi), C59_accumulation_distribution hB' ((same_ind hB hB').trans ho) hg _ hi]
  unfold flowLine
  rw [flow_same h i hi]

/-- C109: the accumulation distribution line, if high and low of an idle day are equal: the value is missing on such a day, and on the
other days it keeps the decimals that the line without such a day has lost. -/
theorem C109_accumulation_distribution_flat (hB : BuiltOn E c f fill o AnyPrices) (hB' : BuiltOn E c g fill p CloseInside)
    (ho : o.ind = .accumulationDistributionLine) (h : IdleDays f g φ) (hf : ∀ j < f.idx.length, high f j ≠ low f j) (d : ℕ)
    (hd : d < g.idx.length) (hflat : high g d = low g d) (i : ℕ) (hi : i < g.idx.length) :
    (high g i = low g i → p.getTiData.day "adl" i = .nan) ∧
    (high g i ≠ low g i → ∃ x y, p.getTiData.day "adl" i = .fin x ∧ o.getTiData.day "adl" (φ i) = .fin y ∧ y = truncated x) := by
  have e := C59_accumulation_distribution_flat hB' ((same_ind hB ⟨hB'.wf, hB'.ok, eachRow_weaken hB'.rows fun _ _ => trivial⟩).trans ho) d hd hflat i hi
  refine ⟨fun q => by rw [e, if_pos q], fun q => ⟨_, _, by rw [e, if_neg q], C59_accumulation_distribution hB ho hf _ (h.inside i hi), ?_⟩⟩
  have : ∀ j, (if high g j = low g j then 0 else flow g j) = flow g j := fun j => by
    split <;> rename_i hj
    · simp [flow, hj]
    · rfl
  simp only [this, flowLine, flow_same h i hi]

/-- C109: Williams' accumulation and distribution of a day: 0 on an idle day, unchanged on the others. -/
theorem C109_williams (hB : BuiltOn E c f fill o AnyPrices) (hB' : BuiltOn E c g fill p AnyPrices)
    (ho : o.ind = .williamsAccumulationDistribution) (h : IdleDays f g φ) (i : ℕ) (hi : i + 1 < g.idx.length) :
    (IsIdle φ (i + 1) → p.getTiData.day "wad" (i + 1) = .fin 0) ∧
    (¬ IsIdle φ (i + 1) → p.getTiData.day "wad" (i + 1) = o.getTiData.day "wad" (φ (i + 1))) := by
  have e := C59_williams hB' ((same_ind hB hB').trans ho) _ hi
  rcases h.step i hi with ⟨a, q⟩ | ⟨a, q, -⟩
  · refine ⟨fun hid => absurd hid.2 (by simp [a]), fun _ => ?_⟩
    have e' := C59_williams hB ho _ (h.inside _ hi)
    rw [e, e', a]
    unfold accumulation
    simp only [Nat.add_sub_cancel]
    rw [idle_close h i (by omega), show close g (i + 1) = close f (φ i + 1) from q "close" (by simp),
      show high g (i + 1) = high f (φ i + 1) from q "high" (by simp), show low g (i + 1) = low f (φ i + 1) from q "low" (by simp)]
    simp [since]
  · refine ⟨fun _ => ?_, fun hid => absurd ⟨by omega, by simpa using a⟩ hid⟩
    rw [e]
    simp [since, accumulation, q, to4, roundQ, rint]

/-- C109: performance. -/
theorem C109_performance (hB : BuiltOn E c f fill o AnyPrices) (hB' : BuiltOn E c g fill p AnyPrices) (long : Bool) (target : Val)
    (ho : o.ind = .performance long target) (h : IdleDays f g φ) (i : ℕ) (hi : i < g.idx.length) :
    p.getTiData.day "prf" i = o.getTiData.day "prf" (φ i) := by
  rw [(C53_performance hB long target ho _ (h.inside i hi)).1, (C53_performance hB' long target ((same_ind hB hB').trans ho) _ hi).1,
    idle_close h i hi, show close g 0 = close f 0 from h.start "close" (by simp)]

/-! ## Two indices that change -/

/-- Closes 10 and `x` with volumes 2 and 1, and the same with an idle day between them. -/
def busyDays (x : ℚ) : RawFrame :=
  table 2 fun s j => if s = "volume" then (if j = 0 then 2 else 1) else if s = "high" then 2 * x + 20 else if s = "low" then 1 else if j = 0 then 10 else x

def restedDays (x : ℚ) : RawFrame :=
  table 3 fun s j => if s = "volume" then (if j = 0 then 2 else if j = 1 then 0 else 1) else if s = "high" then 2 * x + 20
    else if s = "low" then 1 else if j ≤ 1 then 10 else x

theorem idle_between (x : ℚ) : IdleDays (busyDays x) (restedDays x) (fun i => i - 1) where
  first := rfl
  inside i hi := by simp only [restedDays, busyDays, table_length] at hi ⊢; omega
  start s hs := by
    have hs' : s ∈ ohlcv := by revert hs; simp [ohlcv]
    rw [restedDays, busyDays, table_price _ _ _ hs' _ (by norm_num), table_price _ _ _ hs' _ (by norm_num)]
    simp
  step i hi := by
    simp only [restedDays, table_length] at hi
    have : i = 0 ∨ i = 1 := by omega
    rcases this with rfl | rfl
    · refine .inr ⟨rfl, ?_, ?_⟩
      · change price _ "close" 1 = price _ "close" 0
        rw [restedDays, table_price _ _ _ (by decide) _ (by norm_num), table_price _ _ _ (by decide) _ (by norm_num)]
        simp
      · change price _ "volume" 1 = 0
        rw [restedDays, table_price _ _ _ (by decide) _ (by norm_num)]
        simp
    · refine .inl ⟨rfl, fun s hs => ?_⟩
      have hs' : s ∈ ohlcv := by revert hs; simp [ohlcv]
      rw [restedDays, busyDays, table_price _ _ _ hs' _ (by norm_num), table_price _ _ _ hs' _ (by norm_num)]
      simp

/-- C109: the volume indices change. Between two days with the volumes 2 and 1 an idle day makes the negative volume index miss the
second day, and the positive volume index count it, whatever the close of that day. -/
theorem C109_volume_indices_change (E : Env) (x : ℚ) (hx : 0 < x) : IdleDays (busyDays x) (restedDays x) (fun i => i - 1) ∧
    (∃ o p, BuiltOn E .negativeVolumeIndex (busyDays x) true o NonzeroClose ∧ BuiltOn E .negativeVolumeIndex (restedDays x) true p NonzeroClose ∧
      o.getTiData.day "nvi" 1 = to4 (100 * x) ∧ p.getTiData.day "nvi" 2 = .fin 1000) ∧
    ∃ o p, BuiltOn E .positiveVolumeIndex (busyDays x) true o NonzeroClose ∧ BuiltOn E .positiveVolumeIndex (restedDays x) true p NonzeroClose ∧
      o.getTiData.day "pvi" 1 = .fin 1000 ∧ p.getTiData.day "pvi" 2 = to4 (100 * x) := by
  have c20 : close (busyDays x) 0 = 10 := by change price _ "close" 0 = _; rw [busyDays, table_price _ _ _ (by decide) _ (by norm_num)]; simp
  have c21 : close (busyDays x) 1 = x := by change price _ "close" 1 = _; rw [busyDays, table_price _ _ _ (by decide) _ (by norm_num)]; simp
  have v20 : volume (busyDays x) 0 = 2 := by change price _ "volume" 0 = _; rw [busyDays, table_price _ _ _ (by decide) _ (by norm_num)]; simp
  have v21 : volume (busyDays x) 1 = 1 := by change price _ "volume" 1 = _; rw [busyDays, table_price _ _ _ (by decide) _ (by norm_num)]; simp
  have c30 : close (restedDays x) 0 = 10 := by change price _ "close" 0 = _; rw [restedDays, table_price _ _ _ (by decide) _ (by norm_num)]; simp
  have c31 : close (restedDays x) 1 = 10 := by change price _ "close" 1 = _; rw [restedDays, table_price _ _ _ (by decide) _ (by norm_num)]; simp
  have c32 : close (restedDays x) 2 = x := by change price _ "close" 2 = _; rw [restedDays, table_price _ _ _ (by decide) _ (by norm_num)]; simp
  have v30 : volume (restedDays x) 0 = 2 := by change price _ "volume" 0 = _; rw [restedDays, table_price _ _ _ (by decide) _ (by norm_num)]; simp
  have v31 : volume (restedDays x) 1 = 0 := by change price _ "volume" 1 = _; rw [restedDays, table_price _ _ _ (by decide) _ (by norm_num)]; simp
  have v32 : volume (restedDays x) 2 = 1 := by change price _ "volume" 2 = _; rw [restedDays, table_price _ _ _ (by decide) _ (by norm_num)]; simp
  have b2 : ∀ c ind, c.check = .ok ind → minRows ind ≤ 2 → (∀ r ∈ ind.required, r ∈ ohlcv) →
      ∃ o, BuiltOn E c (busyDays x) true o NonzeroClose ∧ o.ind = ind := fun c ind hc hm hr =>
    table_built E c ind hc 2 _ NonzeroClose (by norm_num) hm hr fun j _ => by
      unfold NonzeroClose; simp; split <;> [norm_num; exact hx.ne']
  have b3 : ∀ c ind, c.check = .ok ind → minRows ind ≤ 3 → (∀ r ∈ ind.required, r ∈ ohlcv) →
      ∃ o, BuiltOn E c (restedDays x) true o NonzeroClose ∧ o.ind = ind := fun c ind hc hm hr =>
    table_built E c ind hc 3 _ NonzeroClose (by norm_num) hm hr fun j _ => by
      unfold NonzeroClose; simp; split <;> [norm_num; exact hx.ne']
  have l2 : (busyDays x).idx.length = 2 := table_length _ _
  have l3 : (restedDays x).idx.length = 3 := table_length _ _
  have r1 : roundQ 4 1000 = 1000 := by decide +kernel
  have i2 : Finset.Ico 1 2 = {1} := by decide
  have i3 : Finset.Ico 1 3 = {1, 2} := by decide
  have e10 : (1000 : ℚ) * (x / 10) = 100 * x := by ring
  refine ⟨idle_between x, ?_, ?_⟩
  · obtain ⟨o, ho, hoi⟩ := b2 .negativeVolumeIndex _ rfl (by decide) (by decide)
    obtain ⟨p, hp, hpi⟩ := b3 .negativeVolumeIndex _ rfl (by decide) (by decide)
    refine ⟨o, p, ho, hp, ?_, ?_⟩
    · rw [C43_negative_volume_index E _ _ true o ho.wf ho.ok ho.rows hoi 1 (by omega)]
      simp [volumeFell, i2, Finset.filter_singleton, v20, v21, c20, c21, e10, to4]
    · rw [C43_negative_volume_index E _ _ true p hp.wf hp.ok hp.rows hpi 2 (by omega)]
      norm_num [volumeFell, i3, Finset.filter_insert, Finset.filter_singleton, v30, v31, v32, c30, c31, c32, r1]
  · obtain ⟨o, ho, hoi⟩ := b2 .positiveVolumeIndex _ rfl (by decide) (by decide)
    obtain ⟨p, hp, hpi⟩ := b3 .positiveVolumeIndex _ rfl (by decide) (by decide)
    refine ⟨o, p, ho, hp, ?_, ?_⟩
    · rw [C43_positive_volume_index E _ _ true o ho.wf ho.ok ho.rows hoi 1 (by omega)]
      norm_num [volumeRose, i2, Finset.filter_singleton, v20, v21, c20, c21, r1]
    · rw [C43_positive_volume_index E _ _ true p hp.wf hp.ok hp.rows hpi 2 (by omega)]
      norm_num [volumeRose, i3, Finset.filter_insert, Finset.filter_singleton, v30, v31, v32, c30, c31, c32, e10, to4]

/-! ## Examples -/

/-- Closes 10, 12, 14 and 10, 12, 12, 14. -/
def risingCloses (j : ℕ) : ℚ := 10 + 2 * j
def pausedCloses (j : ℕ) : ℚ := if j ≤ 1 then 10 + 2 * j else 8 + 2 * j

/-- The signals and numbers of days of the simulations of the example. -/
theorem shaky_returned (n : ℕ) (u : ℕ → ℚ) (h0 : 2 ≤ n) (l : List (Option Signal))
    (h : (match (construct demoEnv (.movingAverage (.int 2) (.str "simple")) (.frame (shaky n u 20 5 1)) (.bool true)).2 with
      | .ok o => match (o.getTiSimulation (.frame (shaky n u 20 5 1)) .none (.int 1)).2.2 with
        | .ok r => decide (r.rows.map (Option.map (·.signal)) = l) && decide (o.getTiData.idx.length = n)
        | .error _ => false
      | .error _ => false) = true) : ∃ o r, Returned o (shaky n u 20 5 1) .none (.int 1) 1 r ∧ r.rows.map (Option.map (·.signal)) = l ∧
        o.getTiData.idx.length = n := by
  have hc : (Call.movingAverage (.int 2) (.str "simple")).check = .ok (.movingAverage 2 .simple) := by decide +kernel
  obtain ⟨o, ho, hoi⟩ := shaky_built demoEnv _ _ hc n u 20 5 1 (by omega) (by simpa [minRows] using h0)
  rw [ho.ok] at h
  simp only at h
  split at h
  · next r hr =>
    simp only [Bool.and_eq_true, decide_eq_true_eq] at h
    have hrows := ho.rows
    rw [hoi] at hrows
    exact ⟨o, r, ⟨Reachable.used ⟨_, _, _, _, _, ho.wf, ho.ok, Or.inl rfl⟩, ho.wf, hrows, rfl, hr⟩, h.1, h.2⟩
  · simp at h

/-- The hypotheses of `C109_simulation`: closes 10, 12, 14 and 10, 12, 12, 14, the simple average of two days; the signals are hold, buy, buy
and hold, buy, hold, buy. -/
example : ∃ o p r r', Returned o (shaky 3 risingCloses 20 5 1) .none (.int 1) 1 r ∧ Returned p (shaky 4 pausedCloses 20 5 1) .none (.int 1) 1 r' ∧
    (∀ i < p.getTiData.idx.length, (fun i => if i ≤ 1 then i else i - 1) i < o.getTiData.idx.length) ∧
    (fun i => if i ≤ 1 then i else i - 1) (p.getTiData.idx.length - 1) + 1 = o.getTiData.idx.length ∧ SignalOn r 0 .hold ∧ SignalOn r' 0 .hold ∧
    price (shaky 4 pausedCloses 20 5 1) "close" 0 = price (shaky 3 risingCloses 20 5 1) "close" 0 ∧
    ∀ i row, RowOn r' (i + 1) row →
      ((fun i => if i ≤ 1 then i else i - 1) (i + 1) = (fun i => if i ≤ 1 then i else i - 1) i + 1 ∧
        price (shaky 4 pausedCloses 20 5 1) "close" (i + 1) = price (shaky 3 risingCloses 20 5 1) "close" ((fun i => if i ≤ 1 then i else i - 1) i + 1) ∧
        SignalOn r ((fun i => if i ≤ 1 then i else i - 1) i + 1) row.signal) ∨
      ((fun i => if i ≤ 1 then i else i - 1) (i + 1) = (fun i => if i ≤ 1 then i else i - 1) i ∧
        price (shaky 4 pausedCloses 20 5 1) "close" (i + 1) = price (shaky 4 pausedCloses 20 5 1) "close" i ∧ row.signal = .hold) := by
  obtain ⟨o, r, h1, h2, h3⟩ := shaky_returned 3 risingCloses (by norm_num) [some .hold, some .buy, some .buy] (by decide +kernel)
  obtain ⟨p, r', h1', h2', h3'⟩ := shaky_returned 4 pausedCloses (by norm_num) [some .hold, some .buy, some .hold, some .buy] (by decide +kernel)
  have p3 : ∀ j < 3, price (shaky 3 risingCloses 20 5 1) "close" j = risingCloses j := fun j hj => shaky_close 3 risingCloses 20 5 1 j hj
  have p4 : ∀ j < 4, price (shaky 4 pausedCloses 20 5 1) "close" j = pausedCloses j := fun j hj => shaky_close 4 pausedCloses 20 5 1 j hj
  have on' : ∀ (r : SimResult) j s, (r.rows.map (Option.map (·.signal)))[j]? = some (some s) → SignalOn r j s := fun r j s hj => by
    rw [List.getElem?_map, Option.map_eq_some_iff] at hj
    obtain ⟨x, hx, hs⟩ := hj
    obtain ⟨y, rfl, hy⟩ := Option.map_eq_some_iff.1 hs
    exact ⟨y, hx, hy⟩
  have on := on' r
  refine ⟨o, p, r, r', h1, h1', fun i hi => ?_, by rw [h3, h3']; rfl, on 0 _ (by rw [h2]; rfl), on' r' 0 _ (by rw [h2']; rfl), ?_, fun i row hr => ?_⟩
  · rw [h3'] at hi
    rw [h3]
    simp only
    split <;> omega
  · rw [p3 0 (by norm_num), p4 0 (by norm_num)]; rfl
  · have hs : (r'.rows.map (Option.map (·.signal)))[i + 1]? = some (some row.signal) := by
      rw [List.getElem?_map, hr]; rfl
    rw [h2'] at hs
    rw [h2] at on
    match i, hs with
    | 0, hs =>
      simp at hs
      exact .inl ⟨rfl, by rw [p4 _ (by norm_num), p3 _ (by norm_num)]; rfl, on 1 _ (by rw [← hs]; rfl)⟩
    | 1, hs =>
      simp at hs
      exact .inr ⟨rfl, by rw [p4 _ (by norm_num), p4 _ (by norm_num)]; decide +kernel, hs.symm⟩
    | 2, hs =>
      simp at hs
      exact .inl ⟨rfl, by rw [p4 _ (by norm_num)]; exact (by decide +kernel : pausedCloses 3 = risingCloses 2).trans (p3 2 (by norm_num)).symm, on 2 _ (by rw [← hs]; rfl)⟩
    | i + 3, hs => simp at hs

/-- The hypotheses of the claims about values: closes 10 and 30, and an idle day between them. -/
example : IdleDays (busyDays 30) (restedDays 30) (fun i => i - 1) ∧ IsIdle (fun i => i - 1) 1 ∧ ¬ IsIdle (fun i => i - 1) 2 ∧
    (∃ o, BuiltOn demoEnv .onBalanceVolume (busyDays 30) true o AnyPrices ∧ o.ind = .onBalanceVolume) ∧
    ∃ o, BuiltOn demoEnv .onBalanceVolume (restedDays 30) true o AnyPrices ∧ o.ind = .onBalanceVolume :=
  ⟨idle_between 30, ⟨le_rfl, rfl⟩, fun h => absurd h.2 (by decide),
    table_built demoEnv _ _ rfl 2 _ AnyPrices (by norm_num) (by decide) (by decide) fun _ _ => trivial,
    table_built demoEnv _ _ rfl 3 _ AnyPrices (by norm_num) (by decide) (by decide) fun _ _ => trivial⟩

end TTI.Props
