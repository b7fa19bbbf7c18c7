import Verif.Lemmas.FloatApi
import Verif.Props.FloatLife
import Verif.Props.FloatExact
import Verif.Props.FloatRange
import Verif.Props.Rounding
import Verif.Props.Superpose
import Verif.Spec.FloatApi

set_option autoImplicit false

/-!
# The whole API in rounded arithmetic: C97

Construction, values, signals and simulations, all with a rounding after each operation.
-/

namespace TTI.Props

open Spec Flt Sim

variable {R : Rounding} {A : Arith} {E : Env} {c : Call} {f g : RawFrame} {fill : Bool} {o : Obj}

/-- C97: without rounding each sequence of calls on a constructed object is the one of the exact model. -/
theorem C97_exact (hE : E.sq 0 = 0) (data : InputArg) (b : PyArg) (cs : List ApiCall) :
    (Flt.construct exactArith E c data b).2 = (TTI.construct E c data b).2 ∧
    ((TTI.construct E c data b).2 = .ok o → Flt.steps exactArith o cs = o.steps cs) := by
  refine ⟨by rw [C88_exact E hE], fun h => Exact.steps o ?_ cs⟩
  unfold TTI.construct at h
  cases hc : c.check with
  | error e => rw [hc] at h; simp at h
  | ok ind =>
    rw [hc] at h
    have hp := check_pos _ _ hc
    cases b with
    | bool b =>
      simp only at h
      split at h
      · simp at h
      · split at h
        · simp at h
        · obtain rfl := Except.ok.inj h
          exact hp
    | _ => simp at h

theorem flt_sound_signal (o : Obj) (h : o.Sound) :
    (SignalRaises o.ind o.ti → Flt.getTiSignal A o = .error .indexError) ∧
    (¬ SignalRaises o.ind o.ti → ∃ s, Flt.getTiSignal A o = .ok s) :=
  ⟨fun hr => flt_signal_raises _ _ _ _ h.shaped ((raises_iff _ _ _ h.shaped).2 hr),
    fun hr => flt_signal_total _ _ _ _ h.shaped (mt (raises_iff _ _ _ h.shaped).1 hr) h.params⟩

/-- C97 (compare C34): in any arithmetic the signal, also that of the object cut at any row, raises only on the data that
`SignalRaises` lists. -/
theorem C97_signal_total (hw : WF f) (h : (Flt.construct A E c (.frame f) (.bool fill)).2 = .ok o) :
    (SignalRaises o.ind o.ti → Flt.getTiSignal A o = .error .indexError) ∧
    (¬ SignalRaises o.ind o.ti → ∃ s, Flt.getTiSignal A o = .ok s) ∧
    (∀ i, i < o.getTiData.idx.length → ∃ o', o.cut i = some o' ∧ o'.ind = o.ind) ∧
    ∀ i o', o.cut i = some o' →
      (SignalRaises o'.ind o'.ti → Flt.getTiSignal A o' = .error .indexError) ∧
      (¬ SignalRaises o'.ind o'.ti → ∃ s, Flt.getTiSignal A o' = .ok s) := by
  obtain ⟨hs, -⟩ := flt_construct_sound hw h
  refine ⟨(flt_sound_signal o hs).1, (flt_sound_signal o hs).2, ?_, ?_⟩
  · intro i hi
    obtain ⟨d, -, -, h3⟩ := cut_eq o hs i hi
    exact ⟨_, h3, rfl⟩
  · intro i o' hc
    exact flt_sound_signal o' (cut_sound o o' hs i hc).1

/-- C97: the signals of all classes but nine are those of exact comparisons of the reported numbers: nothing is rounded in them
that could change the result. -/
theorem C97_signal_exact (hA : A.fl = R.fl) (hu : R.unit < 1) (o : Obj) (h : signalAverages o.ind = false) :
    Flt.getTiSignal A o = o.getTiSignal := by
  unfold Flt.getTiSignal Obj.getTiSignal
  generalize o.ind = ind at h ⊢
  cases ind
  case accumulationDistributionLine =>
    show adlSignal _ _ _ = Ind.AccumulationDistributionLine.signal _ _
    unfold adlSignal Ind.AccumulationDistributionLine.signal
    simp only [Arith.sub, pos_rd hA hu, neg_rd hA hu]
  case stochasticOscillator =>
    show stochasticSignal _ _ = Ind.StochasticOscillator.signal _
    unfold stochasticSignal Ind.StochasticOscillator.signal
    simp only [Arith.sub, pos_rd hA hu, neg_rd hA hu]
  all_goals first | rfl | exact absurd h (by simp [signalAverages])

/-! ## Simulations -/

theorem flt_accepted (o : Obj) (close : InputArg) (m fac : PyArg) (h : AcceptsSim o.input.idx close m fac)
    (hs : ∀ i < o.getTiData.idx.length, ∃ o' s, o.cut i = some o' ∧ Flt.getTiSignal A o' = .ok s) :
    ∃ r, (Flt.getTiSimulation A o close m fac).2.2 = .ok r := by
  obtain ⟨S, hS⟩ := (setup_ok_iff _ _ _ _).2 h
  rcases hp : setupSimulation true o.input.idx close m fac with ⟨caller, r⟩
  rw [hp] at hS
  simp only at hS
  subst hS
  have hsig : ∀ i, ∃ s : Signal, i < o.ti.len → ∃ o', o.cut i = some o' ∧ Flt.getTiSignal A o' = .ok s := by
    intro i
    by_cases hi : i < o.ti.len
    · obtain ⟨o', s, a, b⟩ := hs i hi
      exact ⟨s, fun _ => ⟨o', a, b⟩⟩
    · exact ⟨.hold, fun h => absurd h hi⟩
  choose sig hsig using hsig
  have := flt_rounds_ok A o S (List.range o.ti.len) o Sim.State.init sig fun i hi => hsig i (List.mem_range.1 hi)
  unfold Flt.getTiSimulation
  rw [hp]
  simp only
  rcases hr : Flt.simRounds A o S (List.range o.ti.len) o Sim.State.init with ⟨o', r⟩
  rw [hr] at this
  simp only at this
  subst this
  exact ⟨_, rfl⟩

theorem flt_simulation_obj (o : Obj) (close : InputArg) (m fac : PyArg) (r : SimResult)
    (h : (Flt.getTiSimulation A o close m fac).2.2 = .ok r) : (Flt.getTiSimulation A o close m fac).1 = o := by
  unfold Flt.getTiSimulation at h ⊢
  split
  · rfl
  · split
    · next e hr => simp [*] at h
    · rfl

theorem flt_rejected (o : Obj) (close : InputArg) (m fac : PyArg) (h : ¬ AcceptsSim o.input.idx close m fac) :
    (Flt.getTiSimulation A o close m fac).1 = o := by
  rw [← setup_ok_iff] at h
  unfold Flt.getTiSimulation
  rcases hs : setupSimulation true o.input.idx close m fac with ⟨caller, r⟩
  cases r with
  | error e => rfl
  | ok S => exact absurd ⟨S, by rw [hs]⟩ h

/-- C97 (compare C17): apart from `MedianPrice(period=1)` and `RangeIndicator` every sequence of calls leaves the object as it
was, in any arithmetic, and each call returns what it would have returned first. -/
theorem C97_every_call_sequence (hw : WF f) (h : (Flt.construct A E c (.frame f) (.bool fill)).2 = .ok o)
    (h1 : o.ind ≠ .medianPrice 1) (h2 : ∀ p s, o.ind ≠ .rangeIndicator p s) (cs : List ApiCall) :
    (Flt.steps A o cs).1 = o ∧ (Flt.steps A o cs).2 = cs.map fun c => (Flt.step A o c).2 := by
  have hraise : ∀ T, ¬ SignalRaises o.ind T := by
    rintro T (⟨h, -⟩ | ⟨p, s, -, -, -, h, -⟩)
    · exact h1 h
    · exact h2 p s h
  have key : ∀ c, (Flt.step A o c).1 = o := by
    intro c
    cases c with
    | getTiData => rfl
    | getTiValue d => rfl
    | getTiSignal => rfl
    | getTiSimulation close m fac =>
      by_cases ha : AcceptsSim o.input.idx close m fac
      · obtain ⟨r, hr⟩ := flt_accepted (A := A) o close m fac ha fun i hi => by
          obtain ⟨o', ho', hi'⟩ := (C97_signal_total hw h).2.2.1 i hi
          obtain ⟨s, hs⟩ := ((C97_signal_total hw h).2.2.2 i o' ho').2 (by rw [hi']; exact hraise _)
          exact ⟨o', s, ho', hs⟩
        exact flt_simulation_obj o close m fac r hr
      · exact flt_rejected o close m fac ha
  induction cs with
  | nil => exact ⟨rfl, rfl⟩
  | cons c cs ih => simp only [Flt.steps, key, ih.1, ih.2, List.map_cons, and_self]

/-- The simulation is the run of the simulator on the signals of the cuts. -/
theorem flt_simulated (o : Obj) (close : InputArg) (m fac : PyArg) (r : SimResult)
    (hr : (Flt.getTiSimulation A o close m fac).2.2 = .ok r) :
    ∃ (S : SimSetup) (sig : ℕ → Signal), (setupSimulation true o.input.idx close m fac).2 = .ok S ∧ r.idx = S.idx ∧
      S.idx = sortIdx o.input.idx ∧ (∀ i < o.ti.len, ∃ o', o.cut i = some o' ∧ Flt.getTiSignal A o' = .ok (sig i)) ∧
      r.rows = padRows S.idx.length (@Sim.run Val (num A) S.params ((List.range o.ti.len).map fun i => (S.close.getD i .nan, sig i))).rows ∧
      r.stats = @Sim.statistics Val (num A) (@Sim.run Val (num A) S.params ((List.range o.ti.len).map fun i => (S.close.getD i .nan, sig i))) := by
  unfold Flt.getTiSimulation at hr
  rcases hp : setupSimulation true o.input.idx close m fac with ⟨caller, r'⟩
  rw [hp] at hr
  cases r' with
  | error e => simp at hr
  | ok S =>
    simp only at hr
    rcases hq : Flt.simRounds A o S (List.range o.ti.len) o Sim.State.init with ⟨o', q⟩
    rw [hq] at hr
    cases q with
    | error e => simp at hr
    | ok st =>
      simp only [Except.ok.injEq] at hr
      subst hr
      have hsigs := flt_rounds_signals A o S _ o Sim.State.init st (by rw [hq])
      have hsig : ∀ i, ∃ s : Signal, i < o.ti.len → ∃ o', o.cut i = some o' ∧ Flt.getTiSignal A o' = .ok s := by
        intro i
        by_cases hi : i < o.ti.len
        · obtain ⟨o', s, a, b⟩ := hsigs i (List.mem_range.2 hi)
          exact ⟨s, fun _ => ⟨o', a, b⟩⟩
        · exact ⟨.hold, fun h => absurd h hi⟩
      choose sig hsig using hsig
      have hst := flt_rounds_ok A o S (List.range o.ti.len) o Sim.State.init sig fun i hi => hsig i (List.mem_range.1 hi)
      rw [hq] at hst
      simp only [Except.ok.injEq] at hst
      have hSidx : S.idx = sortIdx o.input.idx := by
        unfold setupSimulation at hp
        simp only [Bool.true_eq_false, if_false] at hp
        split at hp
        · simp at hp
        · split at hp
          · simp at hp
          · split at hp
            · simp at hp
            · split at hp
              · simp at hp
              · simp only [Prod.mk.injEq, Except.ok.injEq] at hp
                rw [← hp.2]
      exact ⟨S, sig, rfl, rfl, hSidx, fun i hi => hsig i hi, by rw [hst]; rfl, by rw [hst]; rfl⟩

/-- C97 (compare C20): the signal a backtest records for a day is the signal a live user gets from the rows up to that day, to
the last bit. -/
theorem C97_no_look_ahead (hw : WF f) (h : (Flt.construct A E c (.frame f) (.bool fill)).2 = .ok o) (hc : Causal o.ind)
    (hk : NoBackfill f o.ind fill) (close : InputArg) (m fac : PyArg) (r : SimResult)
    (hr : (Flt.getTiSimulation A o close m fac).2.2 = .ok r) (i : ℕ) (d : ℤ) (hi : (sortIdx f.idx)[i]? = some d)
    (hn : minRows o.ind ≤ (f.upTo d).idx.length) :
    ∃ live row, (Flt.construct A E c (.frame (f.upTo d)) (.bool fill)).2 = .ok live ∧ r.idx[i]? = some d ∧
      r.rows[i]? = some (some row) ∧ Flt.getTiSignal A live = .ok row.signal := by
  obtain ⟨live, h1, h2, -⟩ := C89_cut_is_live hw h hc hk i d hi hn
  obtain ⟨-, -, hidx, hlen, -⟩ := flt_construct_sound hw h
  have hdpo : ∀ p, o.ind ≠ .detrendedPriceOscillator p := by
    intro p hp; rw [hp] at hc; exact hc.elim
  rw [rowsOut_eq _ _ hdpo] at hlen
  have hi' : i < o.ti.len := by
    have := (List.getElem?_eq_some_iff.1 hi).1
    rw [(sortIdx_perm _).length_eq] at this
    omega
  obtain ⟨S, sig, -, hridx, hSidx, hsig, hrows, -⟩ := flt_simulated o close m fac r hr
  obtain ⟨o', ho, hs⟩ := hsig i hi'
  rw [h2] at ho
  obtain rfl := Option.some.inj ho
  generalize hst : @Sim.run Val (num A) S.params ((List.range o.ti.len).map fun i => (S.close.getD i .nan, sig i)) = st at hrows
  have hl : st.rows.length = o.ti.len := by rw [← hst, @Sim.run_rows_length Val (num A)]; simp
  have hrow : st.rows[i]? = some (st.rows[i]'(by omega)) := List.getElem?_eq_getElem (by omega)
  refine ⟨live, st.rows[i]'(by omega), h1, ?_, ?_, ?_⟩
  · rw [hridx, hSidx, hidx, sortIdx_of_sorted _ (sortIdx_sorted _), hi]
  · rw [hrows]
    unfold padRows
    rw [List.getElem?_append_left (by simp; omega), List.getElem?_map, hrow]
    rfl
  · have := @Sim.row_day Val (num A) S.params _ i _ (by rw [hst]; exact hrow)
    rw [List.getElem?_map, List.getElem?_range hi'] at this
    simp only [Option.map_some, Option.some.injEq, Prod.mk.injEq] at this
    rw [hs, this.2]

theorem transport_rounded (hA : A.fl = R.fl) (M : Option Val) (hM : M ≠ some .ninf) (q : ℚ) (hq : 1 ≤ q) :
    @Transport ℚ Val R.num (num A) Val.fin ⟨exactLimit M, q⟩ ⟨M, .fin q⟩ :=
  @Transport.mk ℚ Val R.num (num A) _ _ _
    (fun x y => by show Val.fin (R.fl (x + y)) = A.add (.fin x) (.fin y); rw [← hA]; rfl)
    (fun x y => by show Val.fin (R.fl (x - y)) = A.sub (.fin x) (.fin y); rw [← hA, fl_sub])
    (fun x y => rfl) (by show Val.fin ((0 : ℤ) : ℚ) = Val.fin ((0 : ℤ) : ℚ); rfl)
    (fun x => by show Val.fin (R.fl (q * x)) = A.mul (.fin q) (.fin x); rw [← hA]; rfl)
    (fun x => by
      have : q ≠ 0 := by linarith
      show Val.fin (R.fl (x / q)) = A.div (.fin x) (.fin q)
      rw [← hA, fl_div _ _ _ this])
    (fun n x => by show Val.fin (R.fl (n * x)) = A.mul (.fin n) (.fin x); rw [← hA]; rfl)
    (fun n x => by show Val.fin (R.fl (x * n)) = A.mul (.fin x) (.fin n); rw [← hA]; rfl)
    (fun x y => by
      rcases M with _ | (_ | _ | _ | m)
      · rfl
      · rfl
      · rfl
      · exact absurd rfl hM
      · show Val.lt (.fin m) (A.add (.fin x) (.fin y)) = decide (m < R.fl (x + y))
        rw [← hA]; rfl)

theorem limit_cases (m : PyArg) (M : Option Val) (h : checkMaxExposure m = .ok M) :
    (M = none ∧ m.asNumber = none) ∨ ∃ v, M = some v ∧ m.asNumber = some v ∧ ¬ Val.le v 0 = true := by
  unfold checkMaxExposure at h
  cases ha : m.asNumber with
  | none =>
    rw [ha] at h
    simp only at h
    split at h
    · exact Or.inl ⟨(Except.ok.inj h).symm, rfl⟩
    · cases h
  | some v =>
    rw [ha] at h
    simp only at h
    split at h
    · cases h
    · rename_i hn
      exact Or.inr ⟨v, (Except.ok.inj h).symm, rfl, hn⟩

/-- A simulation on closes that are numbers, as a rounded run. -/
theorem flt_backtest (hA : A.fl = R.fl) (hs : o.Sound) (hg : WF g)
    (hn : g.EachRow ["close"] AnyPrices) (m fac : PyArg) (q : ℚ) (hq : fac.asNumber = some (.fin q)) (r : SimResult)
    (hr : (Flt.getTiSimulation A o (.frame g) m fac).2.2 = .ok r) :
    1 ≤ q ∧ o.getTiData.idx.length ≤ g.idx.length ∧ ∃ (M : Option ℚ) (sig : ℕ → Signal),
      (∀ v, M = some v ↔ m.asNumber = some (.fin v)) ∧ (∀ v, M = some v → 0 < v) ∧
      (∀ i < o.getTiData.idx.length, ∃ o', o.cut i = some o' ∧ Flt.getTiSignal A o' = .ok (sig i)) ∧
      (∀ P, g.EachRow ["close"] P → ∀ j < o.getTiData.idx.length, ∃ x, P x ∧ x "close" = price g "close" j) ∧
      (∃ k, r.rows = ((roundedRun R ⟨M, q⟩ (history o.getTiData.idx.length (price g "close") sig)).rows.map fun x => some (asVals x)) ++
        List.replicate k none) ∧
      r.stats = @Sim.statistics Val (num A)
        (State.map Val.fin (roundedRun R ⟨M, q⟩ (history o.getTiData.idx.length (price g "close") sig))) := by
  obtain ⟨S, sig, hS, -, hSi, hsig, hrows, hstats⟩ := flt_simulated o _ m fac r hr
  have hle : o.getTiData.idx.length ≤ o.input.idx.length := hs.shaped.rowsLe
  unfold setupSimulation at hS
  simp only [Bool.true_eq_false, if_false] at hS
  rcases hv : validateInputData (.frame g) ["close"] true with ⟨caller, _ | F⟩
  · rw [hv] at hS; cases hS
  rw [hv] at hS
  simp only at hS
  split at hS
  · cases hS
  rename_i hFi
  rw [not_not] at hFi
  cases hM : checkMaxExposure m with
  | error e => rw [hM] at hS; cases hS
  | ok M =>
  rw [hM] at hS
  simp only at hS
  cases hF : checkFactor fac with
  | error e => rw [hF] at hS; cases hS
  | ok v =>
  rw [hF] at hS
  simp only [Except.ok.injEq] at hS
  obtain ⟨rfl, hq1⟩ := factor_ge_one fac q v hq hF
  subst hS
  have hv2 : (validateInputData (.frame g) ["close"] true).2 = .ok F := by rw [hv]
  have hFidx := (validated_good g _ _ _ hg hv2).2
  have hgl : o.getTiData.idx.length ≤ g.idx.length := by
    have : g.idx.length = o.input.idx.length := by
      rw [← (sortIdx_perm g.idx).length_eq, ← hFidx, hFi, (sortIdx_perm _).length_eq]
    omega
  have hclose' : ∀ P, g.EachRow ["close"] P → ∀ j < o.getTiData.idx.length,
      (F.col "close").getD j .nan = .fin (price g "close" j) ∧ ∃ x, P x ∧ x "close" = price g "close" j := fun P hP j hj => by
    have h1 := eachRow_validated g _ ["close"] _ _ F hg hv2 (fun n hn => hn) hP
    have hj' : j < F.len := by
      unfold Frame.len
      rw [hFidx, (sortIdx_perm _).length_eq]
      exact hj.trans_le hgl
    obtain ⟨x, hx, hPx⟩ := h1 j hj'
    have h2 : val (F.col "close") j = .fin (x "close") := hx "close" (by simp)
    have h3 := validated_day g _ _ _ F hg hv2 hn "close" (by simp) j
    have h4 : price g "close" j = x "close" := by unfold price; rw [← h3, h2]; rfl
    exact ⟨by rw [h4]; exact h2, x, hPx, h4.symm⟩
  refine ⟨hq1, hgl, exactLimit M, sig, ?_, ?_, hsig, fun P hP j hj => (hclose' P hP j hj).2, ?_⟩
  · intro v
    rcases limit_cases m M hM with ⟨rfl, h⟩ | ⟨w, rfl, h, -⟩
    · rw [h]; simp [exactLimit]
    · rw [h]
      cases w <;> simp [exactLimit]
  · intro v hv
    rcases limit_cases m M hM with ⟨rfl, h⟩ | ⟨w, rfl, h, h0⟩
    · cases hv
    · cases w with
      | fin w =>
        obtain rfl := Option.some.inj hv
        by_contra hlt
        apply h0
        show decide (w ≤ ((0 : ℕ) : ℚ)) = true
        simp only [decide_eq_true_eq, Nat.cast_zero]
        linarith
      | _ => cases hv
  · have hds : ((List.range o.ti.len).map fun i => ((F.col "close").getD i .nan, sig i)) =
        (history o.getTiData.idx.length (price g "close") sig).map fun d => (Val.fin d.1, d.2) := by
      unfold history
      rw [List.map_map]
      refine List.map_congr_left fun j hj => ?_
      rw [List.mem_range] at hj
      rw [(hclose' _ hn j hj).1]
      rfl
    simp only at hrows hstats
    rw [hds, @Transport.run ℚ Val R.num (num A) _ _ _ (transport_rounded hA M (limit_not_ninf m M hM) q hq1)] at hrows hstats
    rw [hrows]
    unfold padRows
    exact ⟨⟨_, by simp only [State.map, List.map_map]; rfl⟩, hstats⟩

/-- C97: on closes that are numbers, the rows of a simulation are those of the rounded run (C82) on the recorded closes and the
rounded signals: C82 is about what the API returns. -/
theorem C97_backtest (hA : A.fl = R.fl) (hw : WF f) (h : (Flt.construct A E c (.frame f) (.bool fill)).2 = .ok o) (hg : WF g)
    (hn : g.EachRow ["close"] AnyPrices) (m fac : PyArg) (q : ℚ) (hq : fac.asNumber = some (.fin q)) (r : SimResult)
    (hr : (Flt.getTiSimulation A o (.frame g) m fac).2.2 = .ok r) :
    1 ≤ q ∧ o.getTiData.idx.length ≤ g.idx.length ∧ ∃ (M : Option ℚ) (sig : ℕ → Signal),
      (∀ v, M = some v ↔ m.asNumber = some (.fin v)) ∧ (∀ v, M = some v → 0 < v) ∧
      (∀ i < o.getTiData.idx.length, ∃ o', o.cut i = some o' ∧ Flt.getTiSignal A o' = .ok (sig i)) ∧
      (∀ P, g.EachRow ["close"] P → ∀ j < o.getTiData.idx.length, ∃ x, P x ∧ x "close" = price g "close" j) ∧
      (∃ k, r.rows = ((roundedRun R ⟨M, q⟩ (history o.getTiData.idx.length (price g "close") sig)).rows.map fun x => some (asVals x)) ++
        List.replicate k none) ∧
      r.stats = @Sim.statistics Val (num A)
        (State.map Val.fin (roundedRun R ⟨M, q⟩ (history o.getTiData.idx.length (price g "close") sig))) :=
  flt_backtest hA (flt_construct_sound hw h).1 hg hn m fac q hq r hr

theorem history_nonneg {n : ℕ} {p : ℕ → ℚ} {sig : ℕ → Signal} (h : ∀ i < n, 0 ≤ p i) : ∀ d ∈ history n p sig, 0 ≤ d.1 := by
  intro d hd
  unfold history at hd
  obtain ⟨i, hi, rfl⟩ := List.mem_map.1 hd
  exact h i (List.mem_range.1 hi)

/-- C97 (compare C02): with a numeric `max_exposure` no row of a simulation records an exposure above it, whatever is rounded. -/
theorem C97_within_limit (hA : A.fl = R.fl) (hw : WF f) (h : (Flt.construct A E c (.frame f) (.bool fill)).2 = .ok o) (hg : WF g)
    (hn : g.EachRow ["close"] fun x => 0 ≤ x "close") (m fac : PyArg) (v q : ℚ) (hm : m.asNumber = some (.fin v))
    (hq : fac.asNumber = some (.fin q)) (r : SimResult) (hr : (Flt.getTiSimulation A o (.frame g) m fac).2.2 = .ok r) (i : ℕ)
    (row : Sim.Row Val) (hi : RowOn r i row) : ∃ e, row.exposure = .fin e ∧ e ≤ v := by
  obtain ⟨hq1, -, M, sig, hM, hM0, -, hc, ⟨k, hrows⟩, -⟩ := C97_backtest hA hw h hg
    (fun j hj => let ⟨x, h, _⟩ := hn j hj; ⟨x, h, trivial⟩) m fac q hq r hr
  obtain rfl := (hM v).2 hm
  have hv : 0 ≤ v := (hM0 v rfl).le
  unfold RowOn at hi
  rw [hrows] at hi
  obtain ⟨x, hx, rfl⟩ : ∃ x ∈ (roundedRun R ⟨some v, q⟩ (history o.getTiData.idx.length (price g "close") sig)).rows, asVals x = row := by
    have := List.mem_of_getElem? hi
    simp only [List.mem_append, List.mem_map, Option.some.injEq, List.mem_replicate, reduceCtorEq, and_false, or_false] at this
    exact this
  exact ⟨x.exposure, rfl, C82_within_limit R v q hv (by linarith) _
    (history_nonneg fun j hj => by obtain ⟨x, h1, h2⟩ := hc _ hn j hj; rw [← h2]; exact h1) x hx⟩

/-- C97 (compare C04): in float64 arithmetic the earnings that a simulation records on day `i` are the profits of the
positions closed until then, up to `i + 5` roundings of the money moved, when closes that differ do so by more than two
roundings. -/
theorem C97_earnings (hA : A.fl = double.fl) (hw : WF f) (h : (Flt.construct A E c (.frame f) (.bool fill)).2 = .ok o) (hg : WF g)
    (hn : g.EachRow ["close"] fun x => 0 ≤ x "close")
    (ha : ∀ i < g.idx.length, ∀ j < g.idx.length, price g "close" i < price g "close" j → (1 + 1 / 2 ^ 53) * price g "close" i < (1 - 1 / 2 ^ 53) * price g "close" j)
    (m fac : PyArg) (q : ℚ)
    (hq : fac.asNumber = some (.fin q)) (r : SimResult) (hr : (Flt.getTiSimulation A o (.frame g) m fac).2.2 = .ok r) :
    ∃ (rows : List (Sim.Row ℚ)) (k : ℕ), rows.length = o.getTiData.idx.length ∧
      r.rows = (rows.map fun x => some (asVals x)) ++ List.replicate k none ∧
      ∀ i x, rows[i]? = some x → i + 5 ≤ 2 ^ 52 → x.stock = price g "close" i ∧
        |x.earnings - realised (rows.take (i + 1))| ≤ (i + 5) / 2 ^ 52 * turnover (rows.take (i + 1)) := by
  obtain ⟨hq1, hgl, M, sig, -, -, -, hc, ⟨k, hrows⟩, -⟩ := C97_backtest hA hw h hg (fun j hj => let ⟨x, h, _⟩ := hn j hj; ⟨x, h, trivial⟩) m fac q hq r hr
  have h0 : ∀ d ∈ history o.getTiData.idx.length (price g "close") sig, 0 ≤ d.1 :=
    history_nonneg fun j hj => by obtain ⟨x, h1, h2⟩ := hc _ hn j hj; rw [← h2]; exact h1
  refine ⟨_, k, ?_, hrows, fun i x hx hi => ⟨?_, ?_⟩⟩
  · unfold roundedRun
    rw [@Sim.run_rows_length ℚ double.num]
    simp [history]
  · have := @Sim.row_day ℚ double.num _ _ i x hx
    unfold history at this
    rw [List.getElem?_map] at this
    cases hr : (List.range o.getTiData.idx.length)[i]? with
    | none => rw [hr] at this; simp at this
    | some j =>
      rw [hr] at this
      obtain ⟨h1, h2⟩ := List.getElem?_eq_some_iff.1 hr
      rw [List.getElem_range] at h2
      subst h2
      simp only [Option.map_some, Option.some.injEq, Prod.mk.injEq] at this
      exact this.1.symm
  · refine C82_double_earnings M q (by linarith) _ h0 (C82_apart double q (by linarith) _ h0 ?_) i hi x hx
    intro d hd e he
    unfold history at hd he
    obtain ⟨a, ha', rfl⟩ := List.mem_map.1 hd
    obtain ⟨b, hb', rfl⟩ := List.mem_map.1 he
    exact ha a ((List.mem_range.1 ha').trans_le hgl) b ((List.mem_range.1 hb').trans_le hgl)

/-- Three days with highs of 11.50, 10.42 and 10.96; on the last day all prices are 10.96. -/
def threeDays : RawFrame :=
  let x (n : ℕ) := Val.fin (toDouble ((n : ℚ) / 100))
  ⟨true, [0, 1, 2], [⟨.str "high", true, [x 1150, x 1042, x 1096]⟩, ⟨.str "low", true, [x 1001, x 1002, x 1096]⟩,
    ⟨.str "close", true, [x 1010, x 1020, x 1096]⟩]⟩

/-- C97: the rounding of an average in the signal can decide. The average of the highs and the typical price are both 10.96 in
decimals, and in float64: no signal. The exact average of the three float64 numbers is smaller than the float64 number 10.96, and
exact arithmetic would say buy for the same object. -/
theorem C97_rounding_decides : ∃ o, (Flt.construct doubleArith demoEnv (.typicalPrice (.int 3)) (.frame threeDays) (.bool true)).2 = .ok o ∧
    Flt.getTiSignal doubleArith o = .ok .hold ∧ o.getTiSignal = .ok .buy := by
  have h1 : (match (Flt.construct doubleArith demoEnv (.typicalPrice (.int 3)) (.frame threeDays) (.bool true)).2 with
      | .ok o => decide (Flt.getTiSignal doubleArith o = .ok .hold) && decide (o.getTiSignal = .ok .buy)
      | .error _ => false) = true := by decide +kernel
  split at h1
  · next o ho =>
    simp only [Bool.and_eq_true, decide_eq_true_eq] at h1
    exact ⟨o, ho, h1⟩
  · simp at h1

/-! ## The hypotheses are met -/

theorem double_built {c : Call} {ind : Ind} {f g : RawFrame} {b : Bool} {m fac : PyArg} (p : Obj → SimResult → Bool)
    (h : (match (Flt.construct doubleArith demoEnv c (.frame f) (.bool b)).2 with
      | .ok o => decide (o.ind = ind) && match (Flt.getTiSimulation doubleArith o (.frame g) m fac).2.2 with
        | .ok r => p o r
        | .error _ => false
      | .error _ => false) = true) :
    ∃ o r, (Flt.construct doubleArith demoEnv c (.frame f) (.bool b)).2 = .ok o ∧ o.ind = ind ∧
      (Flt.getTiSimulation doubleArith o (.frame g) m fac).2.2 = .ok r ∧ p o r = true := by
  split at h
  · next o ho =>
    rw [Bool.and_eq_true, decide_eq_true_eq] at h
    obtain ⟨h1, h2⟩ := h
    split at h2
    · next r hr => exact ⟨o, r, ho, h1, hr, h2⟩
    · simp at h2
  · simp at h

/-- `C97_backtest`, `C97_within_limit`, `C97_no_look_ahead`, `C97_every_call_sequence`: a standard deviation of three
days, whose signals compare averages calculated in float64, and a limit. Some days trade. -/
example : ∃ o r, WF (sample 9) ∧ (Flt.construct doubleArith demoEnv (.standardDeviation (.int 3)) (.frame (sample 9)) (.bool false)).2 = .ok o ∧
    o.ind = .standardDeviation 3 ∧ Causal o.ind ∧ NoBackfill (sample 9) o.ind false ∧ (∀ p s, o.ind ≠ .rangeIndicator p s) ∧
    o.ind ≠ .medianPrice 1 ∧ doubleArith.fl = double.fl ∧
    (sample 9).EachRow ["close"] (fun x => 0 ≤ x "close") ∧ (PyArg.int 100).asNumber = some (.fin 100) ∧
    (PyArg.float (.fin (3/2))).asNumber = some (.fin (3/2)) ∧
    (Flt.getTiSimulation doubleArith o (.frame (sample 9)) (.int 100) (.float (.fin (3/2)))).2.2 = .ok r ∧
    (∃ row, RowOn r 8 row) ∧ minRows o.ind ≤ ((sample 9).upTo 8).idx.length ∧ (sortIdx (sample 9).idx)[8]? = some 8 ∧
    (r.rows.filter fun x => match x with | some x => decide (x.action ≠ .none) | none => false).length = 5 := by
  obtain ⟨o, r, h1, h2, h3, h4⟩ := double_built (c := .standardDeviation (.int 3)) (ind := .standardDeviation 3) (f := sample 9) (g := sample 9)
    (b := false) (m := .int 100) (fac := .float (.fin (3/2)))
    (fun o r => decide ((r.rows.filter fun x => match x with | some x => decide (x.action ≠ .none) | none => false).length = 5) &&
      match r.rows[8]? with
      | some (some row) => true
      | _ => false) (by decide +kernel)
  rw [Bool.and_eq_true, decide_eq_true_eq] at h4
  refine ⟨o, r, sample_wf 9, h1, h2, by rw [h2]; trivial, ?_, by rw [h2]; simp, by rw [h2]; simp, rfl, ?_, by decide, rfl, h3, ?_, ?_, by decide +kernel, h4.1⟩
  · rw [h2]; exact Or.inr ⟨rfl, fun h => h.elim⟩
  · intro j hj
    obtain ⟨x, hx, hb⟩ := sample_rows 9 ["close"] (by simp) j hj
    exact ⟨x, hx, by linarith [hb.2.1, hb.1.2.2.1]⟩
  · split at h4
    · next row hr => exact ⟨row, hr⟩
    · simp at h4
  · rw [h2]; decide +kernel

/-- `C97_earnings`: the closes of the example are apart. `C97_exact`, `C97_signal_exact`. -/
example : (∀ i < (sample 9).idx.length, ∀ j < (sample 9).idx.length, price (sample 9) "close" i < price (sample 9) "close" j →
    (1 + 1 / 2 ^ 53) * price (sample 9) "close" i < (1 - 1 / 2 ^ 53) * price (sample 9) "close" j) ∧
    price (sample 9) "close" 2 < price (sample 9) "close" 3 ∧ demoEnv.sq 0 = 0 ∧ double.unit < 1 ∧
    signalAverages (.relativeStrengthIndex 5) = false ∧ signalAverages .accumulationDistributionLine = false :=
  ⟨by decide +kernel, by decide +kernel, by decide +kernel, by decide +kernel, rfl, rfl⟩

end TTI.Props
