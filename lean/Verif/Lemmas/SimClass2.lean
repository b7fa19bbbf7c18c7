import Verif.Lemmas.SimClass
import Verif.Lemmas.Sim
import Verif.Lemmas.Built

set_option autoImplicit false

/-! Statistics and `getTiSimulation` with the simulator as an object. -/

namespace TTI.SimClass

section generic

variable {α : Type} [Num α]

/-- Statistics without missing values. -/
def full (s : Sim.Stats α) : Statistics α :=
  ⟨s.tradingDays, s.buySignals, s.ignoredBuySignals, s.sellSignals, s.ignoredSellSignals, some s.lastStockValue,
    some s.lastExposure, s.lastOpenLong, s.lastOpenShort, some s.lastPortfolioValue, some s.lastEarnings, some s.finalBalance⟩

theorem filter_cells (M : Cells α → Bool) (M' : Sim.Row α → Bool) (h : ∀ r, M (cells r) = M' r) (h0 : M empty = false)
    (rows : List (Sim.Row α)) (m : ℕ) :
    ((rows.map cells ++ List.replicate m empty).filter M).length = (rows.filter M').length := by
  rw [List.filter_append, List.filter_map, show (List.replicate m (empty : Cells α)).filter M = [] by
    rw [List.filter_eq_nil_iff]; intro x hx; rw [List.eq_of_mem_replicate hx, h0]; simp, List.append_nil, List.length_map]
  congr 1
  apply List.filter_congr
  intro p _
  exact h p

theorem follows_statistics (P : Sim.Params α) (close : List α) (n : ℕ) (st : Sim.State α) (s : Simulator α)
    (h : Follows P close n st s) : statistics s = full (Sim.statistics st) := by
  have hf := fun M M' h1 h0 => filter_cells M M' h1 h0 st.rows (n - st.rows.length)
  have hrounds : (s.data.filter fun r => r.signal.isSome).length = st.rows.length := by
    rw [h.data, hf _ (fun _ => true) (fun _ => rfl) rfl]
    simp
  have hlast : ∀ (f : Cells α → Option α) (g : Sim.Row α → α), (∀ r, f (cells r) = some (g r)) →
      (if (s.data.filter fun r => r.signal.isSome).length = 0 then some (Num.ofInt 0)
        else (cell s ((s.data.filter fun r => r.signal.isSome).length - 1) f).map Num.round2) =
      some (Sim.lastOr0 st.rows g) := by
    intro f g hfg
    rw [hrounds]
    unfold Sim.lastOr0
    by_cases h0 : st.rows.length = 0
    · rw [if_pos h0, List.length_eq_zero_iff.1 h0]
      rfl
    · rw [if_neg h0]
      unfold cell
      rw [h.data, List.getElem?_append_left (by simp; omega), List.getElem?_map, ← List.getLast?_eq_getElem?]
      cases hl : st.rows.getLast? with
      | none => rw [List.getLast?_eq_none_iff] at hl; simp [hl] at h0
      | some a => simp [hfg]
  have hlong : countNonzero (fun p => p.position == 2 && p.status == 1) s.portfolio = Sim.countOpen .long st.portfolio := by
    rw [h.portfolio]
    exact count_slots _ (fun p => p.side == .long && p.status == .open)
      (by rintro ⟨side, status, e⟩; cases side <;> cases status <;> rfl) rfl
      (by rintro ⟨side, status, e⟩ h; simp at h; simp [h]) _ _
  have hshort : countNonzero (fun p => p.position == 1 && p.status == 1) s.portfolio = Sim.countOpen .short st.portfolio := by
    rw [h.portfolio]
    exact count_slots _ (fun p => p.side == .short && p.status == .open)
      (by rintro ⟨side, status, e⟩; cases side <;> cases status <;> rfl) rfl
      (by rintro ⟨side, status, e⟩ h; simp at h; simp [h]) _ _
  unfold statistics Sim.statistics full
  simp only
  rw [hlast (·.stock) (·.stock) (fun _ => rfl), hlast (·.exposure) (·.exposure) (fun _ => rfl),
    hlast (·.portfolio) (·.portfolio) (fun _ => rfl), hlast (·.earnings) (·.earnings) (fun _ => rfl),
    hlast (·.balance) (·.balance) (fun _ => rfl), hlong, hshort, hrounds, h.data]
  congr 1
  · exact hf _ (fun r => r.signal == .buy) (fun _ => rfl) rfl
  · exact hf _ (fun r => r.signal == .buy && r.action == .none) (fun _ => rfl) rfl
  · exact hf _ (fun r => r.signal == .sell) (fun _ => rfl) rfl
  · exact hf _ (fun r => r.signal == .sell && r.action == .none) (fun _ => rfl) rfl

/-- Rounds with the row numbers `k`, `k + 1`, .... -/
def runFrom (s : Simulator α) : ℕ → List Signal → Except Err (Simulator α)
  | _, [] => .ok s
  | k, sig :: rest =>
    match runSimulationRound s k sig with
    | .error e => .error e
    | .ok s' => runFrom s' (k + 1) rest

theorem round_length (P : Sim.Params α) (st : Sim.State α) (p : α) (s : Signal) :
    (Sim.round P st p s).rows.length = st.rows.length + 1 := by
  obtain ⟨r, h, -, -⟩ := Sim.round_rows P st p s
  rw [h]
  simp

theorem follows_runFrom (P : Sim.Params α) (close : List α) (n : ℕ) (hn : n ≤ close.length) (sigs : List Signal) :
    ∀ (st : Sim.State α) (s : Simulator α), Follows P close n st s → st.rows.length + sigs.length ≤ n →
      ∃ s', runFrom s st.rows.length sigs = .ok s' ∧
        Follows P close n (((close.drop st.rows.length).zip sigs).foldl (fun st d => Sim.round P st d.1 d.2) st) s' := by
  induction sigs with
  | nil => intro st s h _; exact ⟨s, rfl, by simpa using h⟩
  | cons sig rest ih =>
    intro st s h hle
    simp only [List.length_cons] at hle
    have hk : st.rows.length < close.length := by omega
    obtain ⟨s', h1, h2⟩ := follows_round P close n st s h close[st.rows.length] (by omega) (List.getElem?_eq_getElem hk) sig
    have hl := round_length P st close[st.rows.length] sig
    obtain ⟨s'', h3, h4⟩ := ih _ s' h2 (by rw [hl]; omega)
    rw [hl] at h3 h4
    refine ⟨s'', ?_, ?_⟩
    · unfold runFrom
      rw [h1]
      exact h3
    · rw [List.drop_eq_getElem_cons hk, List.zip_cons_cons, List.foldl_cons]
      exact h4

end generic

/-! ## `getTiSimulation` -/

theorem follows_rounds (o : Obj) (S : SimSetup) (hS : o.ti.len ≤ S.close.length) (hn : o.ti.len ≤ S.idx.length) (m : ℕ) :
    ∀ (k : ℕ) (now : Obj) (st : Sim.State Val) (s : Simulator Val), st.rows.length = k → k + m ≤ o.ti.len →
      Follows S.params S.close S.idx.length st s →
      (rounds o (List.range' k m) now s).1 = (simRounds o S (List.range' k m) now st).1 ∧
      match (rounds o (List.range' k m) now s).2, (simRounds o S (List.range' k m) now st).2 with
      | .error a, .error b => a = b
      | .ok s', .ok st' => Follows S.params S.close S.idx.length st' s'
      | _, _ => False := by
  induction m with
  | zero => intro k now st s _ _ h; exact ⟨rfl, h⟩
  | succ m ih =>
    intro k now st s hk hle h
    simp only [List.range'_succ, rounds, simRounds]
    cases hcut : o.cut k with
    | none => exact ⟨rfl, rfl⟩
    | some o' =>
      simp only
      cases hsig : o'.getTiSignal with
      | error e => exact ⟨rfl, rfl⟩
      | ok sig =>
        simp only
        have hkl : k < S.close.length := by omega
        obtain ⟨s', h1, h2⟩ := follows_round S.params S.close S.idx.length st s h (S.close.getD k .nan) (by omega)
          (by rw [hk, List.getD_eq_getElem?_getD, List.getElem?_eq_getElem hkl]; rfl) sig
        rw [hk] at h1
        rw [h1]
        exact ih (k + 1) o' _ s' (by rw [round_length, hk]) (by omega) h2

/-- A row of the result as cells. -/
def optCells : Option (Sim.Row Val) → Cells Val
  | some r => cells r
  | none => empty

theorem setup_lengths (idx : List ℤ) (close : InputArg) (hc : ∀ g, close = .frame g → ∀ c ∈ g.cols, c.data.length = g.idx.length)
    (m fac : PyArg) (S : SimSetup) (h : (setupSimulation true idx close m fac).2 = .ok S) :
    S.idx = sortIdx idx ∧ S.close.length = S.idx.length := by
  unfold setupSimulation at h
  simp only [Bool.true_eq_false, if_false] at h
  rcases hv : validateInputData close ["close"] true with ⟨caller, r⟩
  rw [hv] at h
  cases r with
  | error e => simp at h
  | ok F =>
    simp only at h
    by_cases hi : F.idx ≠ sortIdx idx
    · rw [if_pos hi] at h; simp at h
    · rw [if_neg hi] at h
      cases close with
      | notFrame => simp [validateInputData] at hv
      | frame g =>
        obtain ⟨hg, -⟩ := validated_good g ["close"] true F (hc g rfl) (by rw [hv])
        have hl : (F.col "close").length = F.idx.length := F.col_length hg.wf _ (hg.has _ (by simp))
        have hFi : F.idx = sortIdx idx := not_not.1 hi
        split at h
        · simp at h
        · split at h
          · simp at h
          · simp only [Except.ok.injEq] at h
            subst h
            exact ⟨rfl, by rw [hl, hFi]⟩

end TTI.SimClass
