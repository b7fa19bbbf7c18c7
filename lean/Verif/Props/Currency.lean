import Verif.Lemmas.Currency
import Verif.Props.Scale

set_option autoImplicit false

/-!
# C75: a simulation in another currency

Specification: `Verif/Spec/Currency.lean`, `Verif/Spec/Scale.lean`.
-/

namespace TTI.Props

open TTI.Spec

/-- C75: with the close prices and the limit in another currency (`c` units of which are one unit of the old one) the
simulation of the same object makes the same decisions: the same exception, or the same dates, signals, actions and counters,
and every amount in the rows is `c` times the old one. -/
theorem C75_simulation (c : ℚ) (hc : 0 < c) (o : Obj) (close : RawFrame) (m m' factor : PyArg) (hm : LimitIn c m m') :
    (o.getTiSimulation (.frame (scaled c 1 close)) m' factor).2.2.map outcome =
      (o.getTiSimulation (.frame close) m factor).2.2.map (outcomeIn c) :=
  (simulation_currency hc o close hm factor).2

theorem simulation_last (o : Obj) (close : InputArg) (m factor : PyArg) (r : SimResult)
    (h : (o.getTiSimulation close m factor).2.2 = .ok r) (row : Sim.Row Val) (hrow : r.rows.getLast? = some (some row)) :
    r.stats.lastStockValue = Val.round 2 row.stock ∧ r.stats.lastExposure = Val.round 2 row.exposure ∧
    r.stats.lastPortfolioValue = Val.round 2 row.portfolio ∧ r.stats.lastEarnings = Val.round 2 row.earnings ∧
    r.stats.finalBalance = Val.round 2 row.balance := by
  unfold Obj.getTiSimulation at h
  rcases hs : setupSimulation true o.input.idx close m factor with ⟨c1, r1⟩
  rw [hs] at h
  cases r1 with
  | error e => cases h
  | ok S =>
    dsimp only at h
    rcases hr : simRounds o S (List.range o.ti.len) o Sim.State.init with ⟨o', r'⟩
    rw [hr] at h
    cases r' with
    | error e => cases h
    | ok st =>
      obtain rfl := Except.ok.inj h
      have hl : st.rows.getLast? = some row := by
        simp only [padRows] at hrow
        cases hk : S.idx.length - st.rows.length with
        | zero =>
          rw [hk, List.replicate_zero, List.append_nil, List.getLast?_map] at hrow
          cases hg : st.rows.getLast? with
          | none => rw [hg] at hrow; cases hrow
          | some x => rw [hg] at hrow; exact Option.some.inj hrow
        | succ k =>
          rw [hk, List.replicate_succ', ← List.append_assoc, List.getLast?_concat] at hrow
          cases hrow
      simp only [Sim.statistics, Sim.lastOr0, hl]
      exact ⟨rfl, rfl, rfl, rfl, rfl⟩

/-- C75: the last amounts in the statistics are those of the last row, rounded to 2 decimals in the new currency. -/
theorem C75_statistics (c : ℚ) (hc : 0 < c) (o : Obj) (close : RawFrame) (m m' factor : PyArg) (hm : LimitIn c m m')
    (r r' : SimResult) (h : (o.getTiSimulation (.frame close) m factor).2.2 = .ok r)
    (h' : (o.getTiSimulation (.frame (scaled c 1 close)) m' factor).2.2 = .ok r') (row : Sim.Row Val)
    (hrow : r.rows.getLast? = some (some row)) :
    r'.stats.lastStockValue = Val.round 2 (Val.mul (.fin c) row.stock) ∧
    r'.stats.lastExposure = Val.round 2 (Val.mul (.fin c) row.exposure) ∧
    r'.stats.lastPortfolioValue = Val.round 2 (Val.mul (.fin c) row.portfolio) ∧
    r'.stats.lastEarnings = Val.round 2 (Val.mul (.fin c) row.earnings) ∧
    r'.stats.finalBalance = Val.round 2 (Val.mul (.fin c) row.balance) := by
  have e := C75_simulation c hc o close m m' factor hm
  rw [h, h'] at e
  have hr : r'.rows = r.rows.map (Option.map (exchanged c)) := congrArg Outcome.rows (Except.ok.inj e)
  have hl : r'.rows.getLast? = some (some (exchanged c row)) := by rw [hr, List.getLast?_map, hrow]; rfl
  exact simulation_last o _ m' factor r' h' _ hl

/-- C75: from the data to the simulation. For the classes whose values are free of the unit of prices (C45, and the signal does
not compare rounded prices) the whole analysis may be done in another currency: prices of the data, close prices and limit
times `c` give the same decisions, and `c` times the amounts. -/
theorem C75_currency (E : Env) (call : Call) (fill : PyArg) (f : RawFrame) (c : ℚ) (hc : 0 < c)
    (hq : ∀ n, call.check = .ok (.relativeVolatilityIndex n) → ∀ q, E.sq (c ^ 2 * q) = c * E.sq q)
    (h : ∀ ind, call.check = .ok ind → freeOfPriceUnit ind = true ∧ comparesRounded ind = false)
    (close : RawFrame) (m m' factor : PyArg) (hm : LimitIn c m m') :
    ((construct E call (.frame (scaled c 1 f)) fill).2.map fun o =>
        (o.getTiSimulation (.frame (scaled c 1 close)) m' factor).2.2.map outcome) =
      (construct E call (.frame f) fill).2.map fun o =>
        (o.getTiSimulation (.frame close) m factor).2.2.map (outcomeIn c) := by
  have h1 := C45_calls E call fill f c hc hq h [.getTiSimulation (.frame (scaled c 1 close)) m' factor]
  cases hx : (construct E call (.frame f) fill).2 with
  | error e =>
    rw [hx] at h1
    cases hy : (construct E call (.frame (scaled c 1 f)) fill).2 with
    | error e' => rw [hy] at h1; exact congrArg _ (Except.error.inj h1)
    | ok o' => rw [hy] at h1; cases h1
  | ok o =>
    rw [hx] at h1
    cases hy : (construct E call (.frame (scaled c 1 f)) fill).2 with
    | error e' => rw [hy] at h1; cases h1
    | ok o' =>
      rw [hy] at h1
      have h2 := Except.ok.inj h1
      simp only [Obj.steps, Obj.step, List.cons.injEq, ApiResult.simulation.injEq, and_true] at h2
      simp only [Except.map]
      rw [h2]
      exact congrArg _ (C75_simulation c hc o close m m' factor hm)

/-- `C75_currency` and `C75_statistics` apply: five closes in euro and in cent, with a limit; the position is opened and the
amounts are numbers. -/
def demoEuro : RawFrame :=
  ⟨true, [1, 2, 3, 4, 5], [⟨.str "close", true, [.fin 10, .fin 12, .fin 8, .fin 6, .fin 9]⟩]⟩

example : LimitIn 100 (.int 30) (.float (.fin 3000)) ∧ LimitIn 100 .none .none ∧
    (∀ ind, (Call.chandeMomentumOscillator (.int 2)).check = .ok ind → freeOfPriceUnit ind = true ∧ comparesRounded ind = false) ∧
    (∀ n, (Call.chandeMomentumOscillator (.int 2)).check ≠ .ok (.relativeVolatilityIndex n)) ∧
    ((construct demoEnv (.chandeMomentumOscillator (.int 2)) (.frame demoEuro) (.bool true)).2.map fun o =>
      (o.getTiSimulation (.frame demoEuro) (.int 30) (.float (.fin (3 / 2)))).2.2.map fun r =>
        (r.rows[3]?, r.rows.getLast?)) = .ok (.ok (some (some ⟨.buy, .long, .fin 6, .fin 6, .fin 6, .fin 0, .fin 6⟩),
          some (some ⟨.hold, .none, .fin 9, .fin 0, .fin 0, .fin 3, .fin 3⟩))) ∧
    scaled 100 1 demoEuro ≠ demoEuro := by
  refine ⟨Or.inr ⟨_, rfl, by decide +kernel⟩, Or.inl ⟨rfl, rfl⟩, ?_, fun n h => (by cases h), by decide +kernel, by decide +kernel⟩
  intro ind h
  cases h
  exact ⟨rfl, rfl⟩

end TTI.Props
