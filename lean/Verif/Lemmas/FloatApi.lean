import Verif.Model.FloatApi
import Verif.Lemmas.FloatExact
import Verif.Lemmas.FloatShape
import Verif.Lemmas.Built

set_option autoImplicit false

/-! Lemmas for C97. -/

namespace TTI.Flt.Exact

open Spec Flt

theorem num : Flt.num exactArith = instNumVal := by
  unfold Flt.num
  rw [add, sub, mul, div, round]
  rfl

theorem momentumSignal (T : Frame) : Flt.momentumSignal exactArith T = Ind.Momentum.signal T := by
  unfold Flt.momentumSignal Ind.Momentum.signal
  rw [ewm]

theorem signal (F T : Frame) (ind : Ind) (hp : ind.Pos) : Flt.signal exactArith F T ind = ind.signal F T := by
  cases ind <;> try rfl
  case accumulationDistributionLine =>
    show adlSignal _ _ _ = Ind.AccumulationDistributionLine.signal _ _
    unfold adlSignal Ind.AccumulationDistributionLine.signal
    rw [sub]
  case averageTrueRange =>
    show atrSignal _ _ _ = Ind.AverageTrueRange.signal _ _
    unfold atrSignal Ind.AverageTrueRange.signal
    rw [rollMean _ _ (by decide), rollMean _ _ (by decide), mul, fl]
  case chaikinOscillator =>
    show chaikinSignal _ _ _ = Ind.ChaikinOscillator.signal _ _
    unfold chaikinSignal Ind.ChaikinOscillator.signal
    rw [mean]
  case momentum n => exact momentumSignal T
  case negativeVolumeIndex =>
    show nviSignal _ _ = Ind.NegativeVolumeIndex.signal _
    unfold nviSignal Ind.NegativeVolumeIndex.signal
    rw [ewm]
  case positiveVolumeIndex =>
    show pviSignal _ _ = Ind.PositiveVolumeIndex.signal _
    unfold pviSignal Ind.PositiveVolumeIndex.signal
    rw [ewm]
  case projectionBands n =>
    show projectionSignal _ _ _ = Ind.ProjectionBands.signal _ _
    unfold projectionSignal Ind.ProjectionBands.signal
    rw [sub, mul, fl]
  case standardDeviation n =>
    show deviationSignal _ _ _ _ = Ind.StandardDeviation.signal _ _ _
    unfold deviationSignal Ind.StandardDeviation.signal
    rw [roundS, rollMean _ _ (show 1 ≤ n from hp)]
  case stochasticOscillator a b c d =>
    show stochasticSignal _ _ = Ind.StochasticOscillator.signal _
    unfold stochasticSignal Ind.StochasticOscillator.signal
    rw [sub]
  case typicalPrice n =>
    show typicalSignal _ _ _ _ = Ind.TypicalPrice.signal _ _ _
    unfold typicalSignal Ind.TypicalPrice.signal
    rw [rollMean _ _ (show 1 ≤ n from hp)]
  case verticalHorizontalFilter n =>
    show filterSignal _ _ _ = Ind.VerticalHorizontalFilter.signal _ _
    unfold filterSignal Ind.VerticalHorizontalFilter.signal
    simp only [calcTi ⟨id, fun _ => []⟩ rfl _ (.doubleExponentialMovingAverage 5) (show 1 ≤ 5 by decide),
      calcTi ⟨id, fun _ => []⟩ rfl _ (.momentum 12) (show 1 ≤ 12 by decide), momentumSignal]
    rfl

theorem getTiSignal (o : Obj) (hp : o.ind.Pos) : Flt.getTiSignal exactArith o = o.getTiSignal := signal _ _ _ hp

theorem cut_ind {o o' : Obj} {i : ℕ} (h : o.cut i = some o') : o'.ind = o.ind := by
  unfold Obj.cut at h
  split at h
  · obtain rfl := Option.some.inj h; rfl
  · cases h

theorem simRounds (full : Obj) (hp : full.ind.Pos) (S : SimSetup) (l : List ℕ) (now : Obj) (st : Sim.State Val) :
    Flt.simRounds exactArith full S l now st = TTI.simRounds full S l now st := by
  induction l generalizing now st with
  | nil => rfl
  | cons i rest ih =>
    unfold Flt.simRounds TTI.simRounds
    rw [num]
    cases hc : full.cut i with
    | none => rfl
    | some o =>
      simp only [getTiSignal o (by rw [cut_ind hc]; exact hp)]
      cases o.getTiSignal with
      | error e => rfl
      | ok s => exact ih _ _

theorem getTiSimulation (o : Obj) (hp : o.ind.Pos) (close : InputArg) (m fac : PyArg) :
    Flt.getTiSimulation exactArith o close m fac = o.getTiSimulation close m fac := by
  unfold Flt.getTiSimulation Obj.getTiSimulation
  simp only [simRounds o hp, num]
  rfl

theorem step (o : Obj) (hp : o.ind.Pos) (c : ApiCall) : Flt.step exactArith o c = o.step c := by
  cases c <;> try rfl
  · show (o, ApiResult.signal (Flt.getTiSignal exactArith o)) = _
    rw [getTiSignal o hp]; rfl
  · show ((Flt.getTiSimulation exactArith o _ _ _).1, ApiResult.simulation (Flt.getTiSimulation exactArith o _ _ _).2.2) = _
    rw [getTiSimulation o hp]; rfl

theorem rounds_ind (full : Obj) (S : SimSetup) (l : List ℕ) (now : Obj) (hn : now.ind = full.ind) (st : Sim.State Val) :
    (TTI.simRounds full S l now st).1.ind = full.ind := by
  induction l generalizing now st with
  | nil => exact hn
  | cons i rest ih =>
    unfold TTI.simRounds
    cases hc : full.cut i with
    | none => exact hn
    | some o =>
      have ho := cut_ind hc
      simp only
      cases o.getTiSignal with
      | error e => exact ho
      | ok s => exact ih _ ho _

theorem step_ind (o : Obj) (c : ApiCall) : (o.step c).1.ind = o.ind := by
  cases c <;> try rfl
  rename_i close m fac
  show (o.getTiSimulation close m fac).1.ind = _
  unfold Obj.getTiSimulation
  split
  · rfl
  · rename_i S hS
    have := rounds_ind o S (List.range o.ti.len) o rfl Sim.State.init
    split
    · rename_i o' e he
      rw [he] at this
      exact this
    · rfl

theorem steps (o : Obj) (hp : o.ind.Pos) (cs : List ApiCall) : Flt.steps exactArith o cs = o.steps cs := by
  induction cs generalizing o with
  | nil => rfl
  | cons c cs ih =>
    unfold Flt.steps Obj.steps
    simp only [step o hp, ih (o.step c).1 (by rw [step_ind]; exact hp)]

end TTI.Flt.Exact

namespace TTI

open Spec Flt

@[simp] theorem rollMean_length (A : Arith) (w m : ℕ) (xs : List Val) : (A.rollMean w m xs).length = xs.length := by
  simp [Arith.rollMean]

@[simp] theorem ewm_length' (A : Arith) (w m : ℕ) (xs : List Val) : (A.ewm w m xs).length = xs.length := by
  simp [Arith.ewm]

theorem flt_momentum_total (A : Arith) (T : Frame) (hd : (T.col "mom").length = T.len) : ∃ s, Flt.momentumSignal A T = .ok s := by
  unfold Flt.momentumSignal
  split
  · exact ⟨_, rfl⟩
  · simp (disch := first | decide | (simp [hd] <;> omega)) only [iat_eq, ok_bind, pure_ok]
    split_ifs <;> exact ⟨_, rfl⟩

set_option hygiene false in
local macro "sig" f:ident : tactic => `(tactic| (
  simp only [Flt.signal]
  unfold $f
  simp only [Spec.columns, List.forall_mem_cons] at hT
  simp only [inputColumns, Ind.required, List.forall_mem_cons] at hF
  split
  · exact ⟨_, rfl⟩
  · simp (disch := (first | decide | (simp [Arith.roundS, hT, hF, hE, hX, hY] <;> omega))) only [iat_eq, ok_bind, pure_ok, pure_bind]
    split_ifs <;> exact ⟨_, rfl⟩))

theorem dema_ti (A : Arith) (G : Frame) (h : ¬ G.len < 5) :
    Flt.calcTi A ⟨id, fun _ => []⟩ G (.doubleExponentialMovingAverage 5) =
      .ok ⟨G.idx, [("dema", A.roundS 4 (A.subS (A.scaleS 2 (A.ewm 5 5 (G.col "close"))) (A.ewm 5 5 (A.ewm 5 5 (G.col "close")))))]⟩ :=
  if_neg h

theorem momentum_ti (A : Arith) (G : Frame) (h : ¬ G.len < 12) :
    Flt.calcTi A ⟨id, fun _ => []⟩ G (.momentum 12) =
      .ok ⟨G.idx, [("mom", A.roundS 4 (maskBefore 12 (A.divS (A.scaleS 100 (G.col "close")) (shift 12 (G.col "close")))))]⟩ :=
  if_neg h

theorem flt_signal_total (A : Arith) (ind : Ind) (F T : Frame) (h : Shaped ind F T) (hr : ¬ Raises ind F T)
    (hp : ∀ p, ind = .medianPrice p → 1 ≤ p) : ∃ s, Flt.signal A F T ind = .ok s := by
  have hF := h.fcol
  have hT := h.tcol
  have hL := h.rowsLe
  have hX := h.ffirst
  have hY := h.tfirst
  have hE := h.rowsEq
  cases ind
  case accumulationDistributionLine => sig adlSignal
  case averageTrueRange => sig atrSignal
  case chaikinOscillator => sig chaikinSignal
  case momentum a => sig momentumSignal
  case negativeVolumeIndex => sig nviSignal
  case positiveVolumeIndex => sig pviSignal
  case projectionBands a => sig projectionSignal
  case standardDeviation a => sig deviationSignal
  case stochasticOscillator a b c d => sig stochasticSignal
  case typicalPrice a => sig typicalSignal
  case verticalHorizontalFilter p =>
    simp only [Flt.signal]
    unfold filterSignal
    simp only [Spec.columns, List.forall_mem_cons] at hT
    simp only [inputColumns, Ind.required, List.forall_mem_cons] at hF
    have hG : ((F.sub ["close"]).col "close").length = F.len := by
      rw [F.sub_col _ _ (by simp)]; simpa using hF.1
    split
    · exact ⟨_, rfl⟩
    · simp (disch := (first | decide | (simp [hT, hF, hE] <;> omega))) only [iat_eq, ok_bind, pure_ok, pure_bind]
      split
      · split
        · exact ⟨_, rfl⟩
        · rw [dema_ti A _ (by simp; omega), ok_bind]
          refine dema_signal_total _ _ rfl (by simpa using hG) ?_
          simp [Frame.col_single, hG, Frame.len, Arith.roundS, Arith.subS, Arith.scaleS]
      · split
        · split
          · exact ⟨_, rfl⟩
          · rw [momentum_ti A _ (by simp; omega), ok_bind]
            refine flt_momentum_total A _ ?_
            simp [Frame.col_single, hG, Frame.len, Arith.roundS, Arith.divS, Arith.scaleS]
        · exact ⟨_, rfl⟩
  all_goals exact signal_total _ F T h hr hp

theorem flt_signal_raises (A : Arith) (ind : Ind) (F T : Frame) (h : Shaped ind F T) (hr : Raises ind F T) :
    Flt.signal A F T ind = .error .indexError := by
  have hs := signal_raises ind F T h hr
  rcases hr with ⟨rfl, -⟩ | ⟨⟨p, s, rfl⟩, -⟩
  · exact hs
  · exact hs

/-! ## Rounds -/

theorem flt_rounds_ok (A : Arith) (full : Obj) (S : SimSetup) (l : List ℕ) (now : Obj) (st : Sim.State Val)
    (sig : ℕ → Signal) (hl : ∀ i ∈ l, ∃ o, full.cut i = some o ∧ Flt.getTiSignal A o = .ok (sig i)) :
    (Flt.simRounds A full S l now st).2 =
      .ok ((l.map fun i => (S.close.getD i .nan, sig i)).foldl (fun st d => @Sim.round Val (num A) S.params st d.1 d.2) st) := by
  induction l generalizing now st with
  | nil => rfl
  | cons i rest ih =>
    obtain ⟨o, h1, h2⟩ := hl i (by simp)
    simp only [Flt.simRounds, h1, h2, List.map_cons, List.foldl_cons]
    exact ih _ _ fun j hj => hl j (by simp [hj])

theorem flt_rounds_signals (A : Arith) (full : Obj) (S : SimSetup) (l : List ℕ) (now : Obj) (st st' : Sim.State Val)
    (h : (Flt.simRounds A full S l now st).2 = .ok st') :
    ∀ i ∈ l, ∃ o s, full.cut i = some o ∧ Flt.getTiSignal A o = .ok s := by
  induction l generalizing now st with
  | nil => simp
  | cons i rest ih =>
    unfold Flt.simRounds at h
    cases hc : full.cut i with
    | none => rw [hc] at h; simp at h
    | some o =>
      rw [hc] at h
      simp only at h
      cases hs : Flt.getTiSignal A o with
      | error e => rw [hs] at h; simp at h
      | ok s =>
        rw [hs] at h
        simp only at h
        intro j hj
        rcases List.mem_cons.1 hj with rfl | hj
        · exact ⟨o, s, hc, hs⟩
        · exact ih _ _ h j hj

/-! ## Signs of differences -/

theorem fl_pos (R : Rounding) (hu : R.unit < 1) (x : ℚ) : 0 < R.fl x ↔ 0 < x := by
  have h := abs_le.1 (R.error x)
  constructor
  · intro h1
    by_contra h2
    have h3 : x ≤ 0 := not_lt.1 h2
    rw [abs_of_nonpos h3] at h
    nlinarith [R.nonneg]
  · intro h1
    rw [abs_of_pos h1] at h
    nlinarith [R.nonneg]

theorem fl_neg (R : Rounding) (hu : R.unit < 1) (x : ℚ) : R.fl x < 0 ↔ x < 0 := by
  have h := abs_le.1 (R.error x)
  constructor
  · intro h1
    by_contra h2
    have h3 : 0 ≤ x := not_lt.1 h2
    rw [abs_of_nonneg h3] at h
    nlinarith [R.nonneg]
  · intro h1
    rw [abs_of_neg h1] at h
    nlinarith [R.nonneg]

variable {R : Rounding} {A : Arith}

theorem pos_rd (hA : A.fl = R.fl) (hu : R.unit < 1) (x : Val) : ((0 : Val) <ᵥ A.rd x) = ((0 : Val) <ᵥ x) := by
  cases x <;> try rfl
  rename_i q
  show decide ((0 : ℕ) < A.fl q) = decide ((0 : ℕ) < q)
  rw [hA]
  simpa using fl_pos R hu q

theorem neg_rd (hA : A.fl = R.fl) (hu : R.unit < 1) (x : Val) : (A.rd x <ᵥ (0 : Val)) = (x <ᵥ (0 : Val)) := by
  cases x <;> try rfl
  rename_i q
  show decide (A.fl q < (0 : ℕ)) = decide (q < (0 : ℕ))
  rw [hA]
  simpa using fl_neg R hu q

end TTI
