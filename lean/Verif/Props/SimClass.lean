import Verif.Lemmas.NpSum
import Verif.Lemmas.SimClass2
import Verif.Props.Sample

set_option autoImplicit false

/-!
# C84: the simulator as an object

`SimClass` is the simulator with its array and its frame, both allocated for all dates at the start. The simulation it gives is the
one that C01-C23 are about; a round writes its own row only; and what happens if rounds are repeated or left out.
-/

namespace TTI.Props

open SimClass

/-- Rounds 0, 1, 2, ... of a simulator for `n` dates give the rows of `Sim.run`, the rest of the frame stays empty, and
`closeSimulation` returns these rows and the statistics of `Sim.run`. This holds in every arithmetic. -/
theorem C84_class {α : Type} [Num α] (P : Sim.Params α) (close : List α) (sigs : List Signal) (hs : sigs.length ≤ close.length) :
    ∃ s, runFrom (create P close.length close) 0 sigs = .ok s ∧
      closeSimulation s =
        ((Sim.run P (close.zip sigs)).rows.map cells ++ List.replicate (close.length - sigs.length) empty,
          full (Sim.statistics (Sim.run P (close.zip sigs)))) := by
  obtain ⟨s, h1, h2⟩ := follows_runFrom P close close.length (le_refl _) sigs Sim.State.init (create P close.length close)
    (follows_create P close close.length) (by simpa [Sim.State.init] using hs)
  refine ⟨s, h1, ?_⟩
  have h3 : Follows P close close.length (Sim.run P (close.zip sigs)) s := by
    simpa [Sim.run, Sim.State.init] using h2
  unfold closeSimulation
  rw [follows_statistics _ _ _ _ _ h3, h3.data, Sim.run_rows_length, List.length_zip, min_eq_right hs]

/-- What `getTiSimulation` returns, in cells. -/
def inCells (r : Except Err SimResult) : Except Err (List ℤ × List (Cells Val) × Statistics Val) :=
  match r with
  | .error e => .error e
  | .ok r => .ok (r.idx, r.rows.map optCells, full r.stats)

/-- `getTiSimulation` with the simulator object: the same object afterwards, the same close values of the caller, the same exception
or the same data and statistics. -/
theorem C84_simulation (E : Env) (c : Call) (f : RawFrame) (fill : Bool) (o : Obj) (hw : WF f)
    (h : (construct E c (.frame f) (.bool fill)).2 = .ok o) (close : InputArg) (hc : ∀ g, close = .frame g → WF g)
    (m fac : PyArg) :
    SimClass.getTiSimulation o close m fac =
      ((o.getTiSimulation close m fac).1, (o.getTiSimulation close m fac).2.1, inCells (o.getTiSimulation close m fac).2.2) := by
  obtain ⟨hs, -, hidx, -, -⟩ := construct_sound E c f fill o hw h
  unfold SimClass.getTiSimulation Obj.getTiSimulation
  rcases hp : setupSimulation true o.input.idx close m fac with ⟨caller, r⟩
  cases r with
  | error e => rfl
  | ok S =>
    obtain ⟨h1, h2⟩ := setup_lengths o.input.idx close hc m fac S (by rw [hp])
    have hle : o.ti.len ≤ S.idx.length := by
      rw [h1, (sortIdx_perm _).length_eq]; exact hs.shaped.rowsLe
    have key := follows_rounds o S (by omega) hle o.ti.len 0 o Sim.State.init (create S.params S.idx.length S.close) rfl
      (by omega) (follows_create _ _ _)
    rw [← List.range_eq_range'] at key
    simp only
    rcases ha : rounds o (List.range o.ti.len) o (create S.params S.idx.length S.close) with ⟨oa, ra⟩
    rcases hb : simRounds o S (List.range o.ti.len) o Sim.State.init with ⟨ob, rb⟩
    rw [ha, hb] at key
    obtain ⟨k1, k2⟩ := key
    simp only at k1 k2
    subst k1
    cases ra with
    | error a =>
      cases rb with
      | error b => simp only at k2; subst k2; rfl
      | ok st => exact k2.elim
    | ok s =>
      cases rb with
      | error b => exact k2.elim
      | ok st =>
        simp only at k2
        simp only [closeSimulation, follows_statistics _ _ _ _ _ k2, k2.data, inCells, padRows, List.map_append, List.map_map,
          List.map_replicate]
        rfl

example : (construct demoEnv .onBalanceVolume (.frame (sample 6)) (.bool true)).2.isOk = true := by decide +kernel

example : ∀ g, InputArg.frame (sample 6) = .frame g → WF g := fun g h => by cases h; exact sample_wf 6

section rounds

variable {α : Type} [Num α]

theorem setClosed_get (M : Slot α → Bool) (pf : List (Slot α)) (j : ℕ) :
    (setClosed M pf)[j]? = pf[j]?.map fun p => if M p then { p with status := 2 } else p := by
  simp [setClosed]

theorem processSignal_frame (s : Simulator α) (i : ℕ) (price : α) (sig : Signal) :
    ∃ slot row, (processSignal s i price sig).portfolio = s.portfolio.set i slot ∧
      (processSignal s i price sig).data = s.data.set i row ∧ row.signal = some sig ∧ row.stock = some price ∧
      (processSignal s i price sig).close = s.close ∧ (processSignal s i price sig).params = s.params := by
  unfold processSignal
  cases sig with
  | hold => exact ⟨_, _, rfl, rfl, rfl, rfl, rfl, rfl⟩
  | buy =>
    simp only
    split <;> exact ⟨_, _, rfl, rfl, rfl, rfl, rfl, rfl⟩
  | sell =>
    simp only
    split <;> exact ⟨_, _, rfl, rfl, rfl, rfl, rfl, rfl⟩

/-- A round, of any simulator with any row number, writes row `i` of the frame and no other; of the other rows of the portfolio it
changes nothing but the status, and that only from open to closed, for a position that the price of the day closes at a profit. -/
theorem C84_own_row (s s' : Simulator α) (i : ℕ) (sig : Signal) (h : runSimulationRound s i sig = .ok s') :
    (s'.data.length = s.data.length ∧ s'.portfolio.length = s.portfolio.length) ∧
    (∀ j, j ≠ i → s'.data[j]? = s.data[j]?) ∧
    (∀ j, j ≠ i → s'.portfolio[j]? = s.portfolio[j]? ∨
      ∃ p price, s.portfolio[j]? = some p ∧ s.close[i]? = some price ∧ s'.portfolio[j]? = some { p with status := 2 } ∧
        (longMask price p = true ∨ shortMask s.params.factor price p = true)) ∧
    ∀ r, s'.data[i]? = some r → r.signal = some sig ∧ r.stock = s.close[i]? := by
  unfold runSimulationRound at h
  cases hp : s.close[i]? with
  | none => rw [hp] at h; simp at h
  | some price =>
    rw [hp] at h
    simp only at h
    by_cases h0 : i = 0
    · rw [if_pos h0] at h
      simp only [Except.ok.injEq] at h
      subst h h0
      refine ⟨by simp, ?_, ?_, ?_⟩
      · intro j hj
        simp only
        rw [List.getElem?_set_ne (Ne.symm hj)]
      · intro j hj
        left
        simp only
        rw [List.getElem?_set_ne (Ne.symm hj)]
      · intro r hr
        simp only at hr
        rw [List.getElem?_set] at hr
        split at hr
        · split at hr
          · cases hr; exact ⟨rfl, rfl⟩
          · cases hr
        · next h => exact absurd rfl h
    · rw [if_neg h0] at h
      simp only [Except.ok.injEq] at h
      subst h
      obtain ⟨slot, row, h1, h2, h3, h4, -, -⟩ := processSignal_frame (closeOpenPositions s i price) i price sig
      have hd : ∀ j, j ≠ i → (closeOpenPositions s i price).data[j]? = s.data[j]? := by
        intro j hj
        simp only [closeOpenPositions]
        rw [List.getElem?_modify_ne _ _ (Ne.symm hj), List.getElem?_modify_ne _ _ (Ne.symm hj)]
      refine ⟨?_, ?_, ?_, ?_⟩
      · rw [h1, h2]
        simp [closeOpenPositions, setClosed]
      · intro j hj
        rw [h2, List.getElem?_set_ne (Ne.symm hj), hd j hj]
      · intro j hj
        rw [h1, List.getElem?_set_ne (Ne.symm hj)]
        simp only [closeOpenPositions, setClosed_get]
        cases hq : s.portfolio[j]? with
        | none => left; rfl
        | some p =>
          simp only [Option.map_some]
          by_cases hl : longMask price p = true
          · right
            refine ⟨p, price, rfl, rfl, ?_, .inl hl⟩
            rw [if_pos hl]
            split <;> rfl
          · rw [if_neg hl]
            by_cases hsh : shortMask s.params.factor price p = true
            · right
              refine ⟨p, price, rfl, rfl, ?_, .inr hsh⟩
              rw [if_pos hsh]
            · left
              rw [if_neg hsh]
      · intro r hr
        rw [h2, List.getElem?_set] at hr
        split at hr
        · split at hr
          · cases hr; exact ⟨h3, h4⟩
          · cases hr
        · next h => exact absurd rfl h

/-- Leaving out a round: if the row before has no exposure, a buy or sell signal opens a position whatever the limit, and the
exposure of the new row is missing as well. -/
theorem C84_round_left_out (s s' : Simulator α) (i : ℕ) (hi : i ≠ 0) (hlen : i < s.data.length)
    (hm : cell s (i - 1) (·.exposure) = none) (sig : Signal) (h : runSimulationRound s i sig = .ok s') :
    cell s' i (·.exposure) = none ∧
    (s'.data[i]?).bind (·.action) = some (match sig with | .buy => .long | .sell => .short | .hold => .none) := by
  unfold runSimulationRound at h
  cases hp : s.close[i]? with
  | none => rw [hp] at h; simp at h
  | some price =>
    rw [hp] at h
    simp only [if_neg hi, Except.ok.injEq] at h
    subst h
    have hl : i < (closeOpenPositions s i price).data.length := by simpa [closeOpenPositions] using hlen
    have hexp : cell (closeOpenPositions s i price) i (·.exposure) = none := by
      unfold cell
      simp only [closeOpenPositions, hm]
      rw [List.getElem?_modify_eq, List.getElem?_modify_eq, List.getElem?_eq_getElem hlen]
      rfl
    have hlim : ∀ a : Option α, limitHit (closeOpenPositions s i price).params (addC none a) = false := by
      intro a
      unfold limitHit
      cases (closeOpenPositions s i price).params.maxExposure <;> rfl
    have hw : ∀ slot sg action e, cell (writeRow (closeOpenPositions s i price) i price slot sg action e) i (·.exposure) = e ∧
        ((writeRow (closeOpenPositions s i price) i price slot sg action e).data[i]?).bind (·.action) = some action := by
      intro slot sg action e
      unfold cell writeRow
      simp only
      rw [List.getElem?_set_self hl]
      exact ⟨rfl, rfl⟩
    unfold processSignal
    simp only [hexp, hlim, Bool.false_eq_true, if_false]
    cases sig with
    | hold => exact hw _ _ _ _
    | buy => exact hw _ _ _ _
    | sell => exact hw _ _ _ _

end rounds

/-- A round that is executed a second time loses the profit of its closings: the earnings of the row are those of the row before. -/
theorem C84_repeated_round (s s₁ s₂ : Simulator ℚ) (i : ℕ) (hi : i ≠ 0) (hlen : i < s.data.length) (sig sig' : Signal)
    (h₁ : runSimulationRound s i sig = .ok s₁) (h₂ : runSimulationRound s₁ i sig' = .ok s₂) :
    cell s₂ i (·.earnings) = cell s (i - 1) (·.earnings) := by
  have hprev : cell s₁ (i - 1) (·.earnings) = cell s (i - 1) (·.earnings) := by
    unfold cell
    rw [(C84_own_row s s₁ i sig h₁).2.1 (i - 1) (by omega)]
  have hlen₁ : i < s₁.data.length := by rw [(C84_own_row s s₁ i sig h₁).1.1]; exact hlen
  unfold runSimulationRound at h₁
  cases hp : s.close[i]? with
  | none => rw [hp] at h₁; simp at h₁
  | some price =>
    rw [hp] at h₁
    simp only [if_neg hi, Except.ok.injEq] at h₁
    have hno : ∀ p ∈ s₁.portfolio, longMask price p = false ∧ shortMask s.params.factor price p = false := by
      have hclosed : ∀ p ∈ (closeOpenPositions s i price).portfolio,
          longMask price p = false ∧ shortMask s.params.factor price p = false := by
        intro p hp
        simp only [closeOpenPositions, setClosed, List.mem_map] at hp
        obtain ⟨q, ⟨q', -, rfl⟩, rfl⟩ := hp
        by_cases hl : longMask price q' = true
        · rw [if_pos hl]
          split <;> exact ⟨rfl, rfl⟩
        · rw [if_neg hl]
          by_cases hs : shortMask s.params.factor price q' = true
          · rw [if_pos hs]; exact ⟨rfl, rfl⟩
          · rw [if_neg hs]; exact ⟨by simpa using hl, by simpa using hs⟩
      have hset : ∀ slot : Slot ℚ, (longMask price slot = false ∧ shortMask s.params.factor price slot = false) →
          ∀ p ∈ (closeOpenPositions s i price).portfolio.set i slot,
            longMask price p = false ∧ shortMask s.params.factor price p = false := by
        intro slot hslot p hp
        rcases List.mem_or_eq_of_mem_set hp with h | h
        · exact hclosed p h
        · rw [h]; exact hslot
      have hlt : ∀ x : ℚ, Num.lt x x = false := fun x => by simp [Num.lt]
      subst h₁
      unfold processSignal
      cases sig with
      | hold => exact hset _ ⟨rfl, rfl⟩
      | buy =>
        simp only
        split
        · exact hset _ ⟨rfl, rfl⟩
        · exact hset _ ⟨by simp [longMask, hlt], rfl⟩
      | sell =>
        simp only
        split
        · exact hset _ ⟨rfl, rfl⟩
        · exact hset _ ⟨rfl, by simp [shortMask, closeOpenPositions, hlt]⟩
    obtain ⟨-, -, -, -, -, -, hcl, hpar⟩ := processSignal_frame (closeOpenPositions s i price) i price sig
    have hc₁ : s₁.close = s.close := by rw [← h₁, hcl]; rfl
    have hp₁ : s₁.params = s.params := by rw [← h₁, hpar]; rfl
    unfold runSimulationRound at h₂
    rw [hc₁, hp] at h₂
    simp only [if_neg hi, Except.ok.injEq] at h₂
    have hf : ∀ M : Slot ℚ → Bool, (∀ p ∈ s₁.portfolio, M p = false) → s₁.portfolio.filter M = [] := by
      intro M hM
      rw [List.filter_eq_nil_iff]
      intro p hp; rw [hM p hp]; simp
    have hear : cell (closeOpenPositions s₁ i price) i (·.earnings) = cell s₁ (i - 1) (·.earnings) := by
      unfold cell
      simp only [closeOpenPositions, hp₁, countNonzero, sumExposure, hf _ fun p hp => (hno p hp).1, hf _ fun p hp => (hno p hp).2]
      rw [List.getElem?_modify_eq, List.getElem?_modify_eq, List.getElem?_eq_getElem hlen₁]
      simp only [cell, List.map_nil, List.filter_nil, List.length_nil]
      cases (s₁.data[i - 1]?).bind (·.earnings) with
      | none => rfl
      | some e => simp [addC, Sim.npSum_rat, Num.add, Num.sub, Num.mul, Num.div, Num.ofInt]
    have hl : i < (closeOpenPositions s₁ i price).data.length := by simpa [closeOpenPositions] using hlen₁
    have hw : ∀ slot sg action e, cell (writeRow (closeOpenPositions s₁ i price) i price slot sg action e) i (·.earnings) =
        cell (closeOpenPositions s₁ i price) i (·.earnings) := by
      intro slot sg action e
      conv_lhs => unfold cell writeRow
      simp only
      rw [List.getElem?_set_self hl]
      rfl
    rw [← hprev, ← hear, ← h₂]
    unfold processSignal
    cases sig' with
    | hold => exact hw _ _ _ _
    | buy => simp only; split <;> exact hw _ _ _ _
    | sell => simp only; split <;> exact hw _ _ _ _

/-- Three days at 10, 10, 20 with one long: the closing on the last day earns 10, repeated it earns nothing. -/
theorem C84_repeated_witness :
    ((runFrom (create ⟨none, 3 / 2⟩ 3 ([10, 10, 20] : List ℚ)) 0 [.buy, .buy, .hold]).toOption.bind
      fun s => cell s 2 (·.earnings)) = some 10 ∧
    (((runFrom (create ⟨none, 3 / 2⟩ 3 ([10, 10, 20] : List ℚ)) 0 [.buy, .buy, .hold]).toOption.bind
      fun s => (runSimulationRound s 2 .hold).toOption).bind fun s => cell s 2 (·.earnings)) = some 0 := by
  decide +kernel

/-- Round 1 left out: with a limit of 15 and a price of 10 three longs are opened one after the other. -/
theorem C84_left_out_witness :
    (((runSimulationRound (create ⟨some 15, 3 / 2⟩ 5 ([10, 10, 10, 10, 10] : List ℚ)) 0 .buy).toOption.bind
      fun s => (runFrom s 2 [.buy, .buy, .buy]).toOption).map fun s => (statistics s).lastOpenLong) = some 3 := by
  decide +kernel

end TTI.Props
