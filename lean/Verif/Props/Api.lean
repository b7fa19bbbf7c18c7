import Verif.Props.Build

set_option autoImplicit false

/-!
# The public API as a state machine (C17-C19, C22, C23)
-/

namespace TTI.Props

/-! ## Observers -/

/-- The call did not end in an exception of the simulation. -/
def NotFailedSimulation (r : ApiResult) : Prop := ∀ e, r ≠ .simulation (.error e)

theorem getTiSimulation_obj (o : Obj) (close : InputArg) (m fac : PyArg)
    (h : ∀ e, (o.getTiSimulation close m fac).2.2 ≠ .error e) : (o.getTiSimulation close m fac).1 = o := by
  unfold Obj.getTiSimulation at h ⊢
  split
  · rfl
  · split
    · next e hr => simp [*] at h
    · rfl

theorem step_obj (o : Obj) (c : ApiCall) (h : NotFailedSimulation (o.step c).2) : (o.step c).1 = o := by
  cases c with
  | getTiData => rfl
  | getTiValue d => rfl
  | getTiSignal => rfl
  | getTiSimulation close m fac =>
    apply getTiSimulation_obj
    intro e he
    exact h e (by simp only [Obj.step, he])

/-- C17: after any sequence of calls in which no simulation raised, the object is what it was, and every call returned what
it would have returned as the first call. -/
theorem C17_observers (o : Obj) (cs : List ApiCall) (h : ∀ r ∈ (o.steps cs).2, NotFailedSimulation r) :
    (o.steps cs).1 = o ∧ (o.steps cs).2 = cs.map fun c => (o.step c).2 := by
  induction cs with
  | nil => exact ⟨rfl, rfl⟩
  | cons c cs ih =>
    simp only [Obj.steps] at h ⊢
    have h1 : (o.step c).1 = o := step_obj o c (h _ (by simp))
    rw [h1] at h ⊢
    obtain ⟨h2, h3⟩ := ih fun r hr => h r (by simp [hr])
    exact ⟨h2, by simp [h3]⟩

/-! ## Simulation arguments -/

/-- The arguments `getTiSimulation` accepts for an indicator on the given dates: `close_values` is valid input with a
`close` column and the same dates in any order, `max_exposure` is None or a number (bool counts, NaN counts) not `<= 0`,
`short_exposure_factor` a number not `< 1`. -/
structure AcceptsSim (idx : List ℤ) (close : InputArg) (maxExposure factor : PyArg) : Prop where
  close : ∃ f, close = .frame f ∧ f.Valid ["close"] ∧ f.idx.Perm idx
  exposure : maxExposure = .none ∨ ∃ v, maxExposure.asNumber = some v ∧ Val.le v 0 = false
  factor : ∃ v, factor.asNumber = some v ∧ Val.lt v 1 = false

theorem validated_idx (f : RawFrame) (required : List String) (fill : Bool) (F : Frame)
    (h : (validateInputData (.frame f) required fill).2 = .ok F) : F.idx = sortIdx f.idx := by
  obtain ⟨-, hF⟩ := valid_of_ok _ _ _ _ h
  rw [hF]
  cases fill
  · rfl
  · simp only [if_true, fillMissingValues]
    exact sortIdx_of_sorted _ (sortIndex_sorted _)

theorem setup_ok_iff (idx : List ℤ) (close : InputArg) (m fac : PyArg) :
    (∃ S, (setupSimulation true idx close m fac).2 = .ok S) ↔ AcceptsSim idx close m fac := by
  obtain ⟨-, h1, h2⟩ := C15_precedence idx close m fac
  constructor
  · rintro ⟨S, hS⟩
    cases hv : (validateInputData close ["close"] true).2 with
    | error e => rw [h1 ⟨e, hv⟩] at hS; simp at hS
    | ok F =>
      obtain ⟨h3, h4⟩ := h2 F hv
      by_cases hi : F.idx = sortIdx idx
      · obtain ⟨h5, h6⟩ := h4 hi
        cases hm : checkMaxExposure m with
        | error e => rw [h5 e hm] at hS; simp at hS
        | ok m' =>
          obtain ⟨h7, -⟩ := h6 m' hm
          cases hf : checkFactor fac with
          | error e => rw [h7 e hf] at hS; simp at hS
          | ok v =>
            refine ⟨?_, ?_, ?_⟩
            · cases close with
              | notFrame => simp [validateInputData] at hv
              | frame f =>
                refine ⟨f, rfl, (valid_of_ok _ _ _ _ hv).1, ?_⟩
                rw [validated_idx _ _ _ _ hv] at hi
                exact (sortIdx_perm f.idx).symm.trans (hi ▸ sortIdx_perm idx)
            · rcases ((C15_max_exposure m).1 m').1 hm with ⟨h, -⟩ | ⟨v, h, hn, -⟩
              · exact Or.inl h
              · exact Or.inr ⟨v, h, by simpa using hn⟩
            · obtain ⟨h, hn⟩ := ((C15_factor fac).1 v).1 hf
              exact ⟨v, h, by simpa using hn⟩
      · rw [h3 hi] at hS; simp at hS
  · rintro ⟨⟨f, rfl, hval, hp⟩, hm, ⟨v, hv, hn⟩⟩
    have hF := validate_ok f ["close"] true hval
    obtain ⟨-, h4⟩ := h2 _ hF
    obtain ⟨-, h6⟩ := h4 (by rw [validated_idx _ _ _ _ hF]; exact sortIdx_eq_of_perm _ _ hp)
    have hf : checkFactor fac = .ok v := ((C15_factor fac).1 v).2 ⟨hv, by simp [hn]⟩
    rcases hm with hm | ⟨w, hw, hwn⟩
    · exact ⟨_, (h6 none (((C15_max_exposure m).1 none).2 (Or.inl ⟨hm, rfl⟩))).2 v hf⟩
    · exact ⟨_, (h6 (some w) (((C15_max_exposure m).1 (some w)).2 (Or.inr ⟨w, hw, by simp [hwn], rfl⟩))).2 v hf⟩

theorem rejected (o : Obj) (close : InputArg) (m fac : PyArg) (h : ¬ AcceptsSim o.input.idx close m fac) :
    (o.getTiSimulation close m fac).1 = o ∧ ∃ e, (o.getTiSimulation close m fac).2.2 = .error e := by
  rw [← setup_ok_iff] at h
  unfold Obj.getTiSimulation
  rcases hs : setupSimulation true o.input.idx close m fac with ⟨caller, r⟩
  cases r with
  | error e => exact ⟨rfl, e, rfl⟩
  | ok S => exact absurd ⟨S, by rw [hs]⟩ h

theorem steps_append (o : Obj) (cs ds : List ApiCall) :
    o.steps (cs ++ ds) = (((o.steps cs).1.steps ds).1, (o.steps cs).2 ++ ((o.steps cs).1.steps ds).2) := by
  induction cs generalizing o with
  | nil => rfl
  | cons c cs ih => simp only [List.cons_append, Obj.steps, ih]

/-- C18: a simulation call with arguments that are not accepted raises and is otherwise without effect: the calls before
and after it return what they return without it, and the object at the end is the same. -/
theorem C18_rejected_arguments (o : Obj) (before after : List ApiCall) (close : InputArg) (m fac : PyArg)
    (h : ¬ AcceptsSim (o.steps before).1.input.idx close m fac) :
    (o.steps (before ++ .getTiSimulation close m fac :: after)).1 = (o.steps (before ++ after)).1 ∧
    ∃ e, (o.steps (before ++ .getTiSimulation close m fac :: after)).2 =
        (o.steps before).2 ++ .simulation (.error e) :: ((o.steps before).1.steps after).2 ∧
      (o.steps (before ++ after)).2 = (o.steps before).2 ++ ((o.steps before).1.steps after).2 := by
  obtain ⟨h1, e, h2⟩ := rejected _ close m fac h
  simp only [steps_append, Obj.steps, Obj.step, h1, h2]
  exact ⟨trivial, e, rfl, trivial⟩

/-- C18: conversely, the arguments in `AcceptsSim` are accepted: the only remaining failure is one of the signals. -/
theorem C18_accepted_arguments (o : Obj) (close : InputArg) (m fac : PyArg) (h : AcceptsSim o.input.idx close m fac)
    (hs : ∀ i < o.getTiData.idx.length, ∃ o' s, o.cut i = some o' ∧ o'.getTiSignal = .ok s) :
    ∃ r, (o.getTiSimulation close m fac).2.2 = .ok r := by
  obtain ⟨S, hS⟩ := (setup_ok_iff _ _ _ _).2 h
  rcases hp : setupSimulation true o.input.idx close m fac with ⟨caller, r⟩
  rw [hp] at hS
  simp only at hS
  subst hS
  have hsig : ∀ i, ∃ s : Signal, i < o.ti.len → ∃ o', o.cut i = some o' ∧ o'.getTiSignal = .ok s := by
    intro i
    by_cases hi : i < o.ti.len
    · obtain ⟨o', s, a, b⟩ := hs i hi
      exact ⟨s, fun _ => ⟨o', a, b⟩⟩
    · exact ⟨.hold, fun h => absurd h hi⟩
  choose sig hsig using hsig
  have := simRounds_ok o S (List.range o.ti.len) o Sim.State.init sig fun i hi => hsig i (List.mem_range.1 hi)
  unfold Obj.getTiSimulation
  rw [hp]
  simp only
  rcases hr : simRounds o S (List.range o.ti.len) o Sim.State.init with ⟨o', r⟩
  rw [hr] at this
  simp only at this
  subst this
  exact ⟨_, rfl⟩

/-- Close prices for the examples. -/
def demoClose : RawFrame := ⟨true, [1, 2], [⟨.str "close", true, [.fin 10, .fin 12]⟩]⟩

example : AcceptsSim [2, 1] (.frame demoClose) .none (.float (.fin (3/2))) ∧
    ¬ AcceptsSim [2, 1] (.frame demoClose) (.int 0) (.float (.fin (3/2))) := by
  refine ⟨⟨⟨demoClose, rfl, ?_, by decide⟩, Or.inl rfl, ⟨.fin (3/2), rfl, by decide +kernel⟩⟩, ?_⟩
  · exact (valid_of_ok demoClose ["close"] true ⟨[1, 2], [("close", [.fin 10, .fin 12])]⟩ (by decide +kernel)).1
  · rintro ⟨-, h | ⟨v, h, hn⟩, -⟩
    · simp at h
    · simp only [PyArg.asNumber, Option.some.injEq] at h
      subst h
      exact absurd hn (by decide +kernel)

/-- C17: for every constructed indicator other than `MedianPrice(period=1)` and `RangeIndicator`, every sequence of API
calls, with good or bad arguments, leaves the object as it was, and each call returns what it would have returned first. -/
theorem C17_every_call_sequence (E : Env) (c : Call) (f : RawFrame) (fill : Bool) (o : Obj) (hw : WF f)
    (h : (construct E c (.frame f) (.bool fill)).2 = .ok o) (h1 : o.ind ≠ .medianPrice 1)
    (h2 : ∀ p s, o.ind ≠ .rangeIndicator p s) (cs : List ApiCall) :
    (o.steps cs).1 = o ∧ (o.steps cs).2 = cs.map fun c => (o.step c).2 := by
  have key : ∀ c, (o.step c).1 = o := by
    intro c
    cases c with
    | getTiData => rfl
    | getTiValue d => rfl
    | getTiSignal => rfl
    | getTiSimulation close m fac =>
      by_cases ha : AcceptsSim o.input.idx close m fac
      · have hcut := (C34_other_indicators E _ f fill o hw h h1 h2).2
        obtain ⟨r, hr⟩ := C18_accepted_arguments o close m fac ha fun i hi => by
          obtain ⟨o', ho', -⟩ := (C34_signal_total E _ f fill o hw h).2.2.1 i hi
          obtain ⟨s, hs⟩ := hcut i o' ho'
          exact ⟨o', s, ho', hs⟩
        exact getTiSimulation_obj o close m fac fun e he => by rw [hr] at he; simp at he
      · exact (rejected o close m fac ha).1
  induction cs with
  | nil => exact ⟨rfl, rfl⟩
  | cons c cs ih => simp only [Obj.steps, key, ih.1, ih.2, List.map_cons, and_self]

example : ∃ o, (construct demoEnv (.momentum (.int 1)) (.frame demoPrices) (.bool true)).2 = .ok o ∧
    o.ind ≠ .medianPrice 1 ∧ ∀ p s, o.ind ≠ .rangeIndicator p s :=
  ⟨⟨.momentum 1, ⟨[1, 2], [("close", [.fin 10, .fin 12])]⟩, ⟨[1, 2], [("mom", [.nan, .fin 120])]⟩⟩,
    by decide +kernel, by decide, by simp⟩

/-! ## A signal that raises during the simulation -/

theorem simulation_fails (o oi : Obj) (close : InputArg) (m fac : PyArg) (i : ℕ) (e : Err)
    (ha : AcceptsSim o.input.idx close m fac) (hi : o.cut i = some oi)
    (hbefore : ∀ j < i, ∃ o' s, o.cut j = some o' ∧ o'.getTiSignal = .ok s) (he : oi.getTiSignal = .error e) :
    (o.getTiSimulation close m fac).1 = oi ∧ (o.getTiSimulation close m fac).2.2 = .error e := by
  have hlt : i < o.ti.len := by
    by_contra hge
    rw [cut_none o i (by omega)] at hi; simp at hi
  obtain ⟨S, hS⟩ := (setup_ok_iff _ _ _ _).2 ha
  rcases hp : setupSimulation true o.input.idx close m fac with ⟨caller, r⟩
  rw [hp] at hS
  simp only at hS
  subst hS
  obtain ⟨rest, hrange⟩ : ∃ rest, List.range o.ti.len = List.range i ++ i :: rest := by
    obtain ⟨k, hk⟩ := Nat.exists_eq_add_of_lt hlt
    rw [hk, add_assoc, List.range_add, List.range_succ_eq_map]
    exact ⟨_, by simp; rfl⟩
  unfold Obj.getTiSimulation
  rw [hp]
  simp only
  rw [hrange, simRounds_fail o S (List.range i) _ i o oi Sim.State.init e
    (fun j hj => hbefore j (List.mem_range.1 hj)) hi he]
  exact ⟨rfl, rfl⟩

/-- C19: if the signal raises for the first time in round `i`, the simulation raises the same exception and the object keeps
only the rows up to the date of row `i` (with distinct dates: the rows `0..i`). -/
theorem C19_signal_failure_truncates (E : Env) (c : Call) (f : RawFrame) (fill : Bool) (o oi : Obj) (hw : WF f)
    (h : (construct E c (.frame f) (.bool fill)).2 = .ok o) (close : InputArg) (m fac : PyArg) (i : ℕ) (e : Err)
    (ha : AcceptsSim o.input.idx close m fac) (hi : o.cut i = some oi)
    (hbefore : ∀ j < i, ∃ o' s, o.cut j = some o' ∧ o'.getTiSignal = .ok s) (he : oi.getTiSignal = .error e) :
    (o.getTiSimulation close m fac).2.2 = .error e ∧
    (∃ d, o.input.idx[i]? = some d ∧ (o.getTiSimulation close m fac).1 =
      { o with input := o.input.upTo d, ti := o.ti.upTo d }) ∧
    (f.idx.Nodup → (o.getTiSimulation close m fac).1 =
      { o with input := o.input.take (i + 1), ti := o.ti.take (i + 1) }) := by
  obtain ⟨hs, -, hidx, -⟩ := construct_sound E c f fill o hw h
  obtain ⟨h1, h2⟩ := simulation_fails o oi close m fac i e ha hi hbefore he
  have hlt : i < o.ti.len := by
    by_contra hge
    rw [cut_none o i (by omega)] at hi; simp at hi
  obtain ⟨d, hd1, hd2, hcut⟩ := cut_eq o hs i hlt
  have htsorted : o.ti.idx.Pairwise (· ≤ ·) := by rw [hs.dates]; exact hs.sorted.sublist (List.take_sublist _ _)
  rw [h1, h2]
  rw [hi] at hcut
  simp only [Option.some.injEq] at hcut
  refine ⟨rfl, ⟨d, hd1, ?_⟩, fun hn => ?_⟩
  · rw [hcut, upTo_eq_take _ _ hs.shaped.inputWf hs.sorted, upTo_eq_take _ _ hs.shaped.tiWf htsorted]
  · have hstrict : o.input.idx.Pairwise (· < ·) := by
      have hnd : o.input.idx.Nodup := by rw [hidx]; exact (sortIdx_perm _).nodup_iff.2 hn
      have := hs.sorted.and hnd
      exact this.imp fun h => lt_of_le_of_ne h.1 h.2
    have htstrict : o.ti.idx.Pairwise (· < ·) := by rw [hs.dates]; exact hstrict.sublist (List.take_sublist _ _)
    rw [hcut, rowsUpTo_getElem _ hstrict _ _ hd1, rowsUpTo_getElem _ htstrict _ _ hd2]

/-- C19: the simulation of a constructed indicator with accepted arguments succeeds iff none of the cuts lies in the set
`SignalRaises`. -/
theorem C19_simulation_succeeds_iff (E : Env) (c : Call) (f : RawFrame) (fill : Bool) (o : Obj) (hw : WF f)
    (h : (construct E c (.frame f) (.bool fill)).2 = .ok o) (close : InputArg) (m fac : PyArg)
    (ha : AcceptsSim o.input.idx close m fac) :
    (∃ r, (o.getTiSimulation close m fac).2.2 = .ok r) ↔ ∀ i o', o.cut i = some o' → ¬ SignalRaises o'.ind o'.ti := by
  obtain ⟨-, -, hcut, hsig⟩ := C34_signal_total E c f fill o hw h
  constructor
  · rintro ⟨r, hr⟩ i o' ho' hraise
    have he := (hsig i o' ho').1 hraise
    -- the first failing round
    have hex : ∃ k, ∃ ok e, o.cut k = some ok ∧ ok.getTiSignal = .error e := ⟨i, o', _, ho', he⟩
    classical
    obtain ⟨ok, e, hk, hke⟩ := Nat.find_spec hex
    have hlt : Nat.find hex < o.ti.len := by
      by_contra hge
      rw [cut_none o _ (by omega)] at hk; simp at hk
    obtain ⟨-, h2⟩ := simulation_fails o ok close m fac _ e ha hk (fun j hj => by
      obtain ⟨oj, hoj, -⟩ := hcut j (lt_trans hj hlt)
      cases hs : oj.getTiSignal with
      | ok s => exact ⟨oj, s, hoj, hs⟩
      | error e' => exact absurd ⟨oj, e', hoj, hs⟩ (Nat.find_min hex hj)) hke
    rw [h2] at hr; simp at hr
  · intro hall
    apply C18_accepted_arguments o close m fac ha
    intro i hi
    obtain ⟨o', ho', -⟩ := hcut i hi
    obtain ⟨s, hs⟩ := (hsig i o' ho').2 (hall i o' ho')
    exact ⟨o', s, ho', hs⟩

/-- C19: the simulation of `MedianPrice(period=1)` on distinct dates always fails and leaves a single row. -/
theorem C19_median_price_one (E : Env) (c : Call) (f : RawFrame) (fill : Bool) (o : Obj) (hw : WF f)
    (h : (construct E c (.frame f) (.bool fill)).2 = .ok o) (hind : o.ind = .medianPrice 1) (hn : f.idx.Nodup)
    (close : InputArg) (m fac : PyArg) (ha : AcceptsSim o.input.idx close m fac) :
    (o.getTiSimulation close m fac).2.2 = .error .indexError ∧
    (o.getTiSimulation close m fac).1 = { o with input := o.input.take 1, ti := o.ti.take 1 } := by
  obtain ⟨hs, -, hidx, hlen, hpos⟩ := construct_sound E c f fill o hw h
  have htl : o.ti.len = o.input.len := hs.shaped.rowsEq (by rw [hind]; simp)
  obtain ⟨-, -, hcut, hsig⟩ := C34_signal_total E c f fill o hw h
  obtain ⟨o0, ho0, hind0⟩ := hcut 0 (by show 0 < o.ti.len; omega)
  have hstrict : o.input.idx.Pairwise (· < ·) := by
    have hnd : o.input.idx.Nodup := by rw [hidx]; exact (sortIdx_perm _).nodup_iff.2 hn
    have := hs.sorted.and hnd
    exact this.imp fun h => lt_of_le_of_ne h.1 h.2
  have htstrict : o.ti.idx.Pairwise (· < ·) := by rw [hs.dates]; exact hstrict.sublist (List.take_sublist _ _)
  obtain ⟨d, hd1, hd2, hc0⟩ := cut_eq o hs 0 (by omega)
  have hone : o0.ti.idx.length = 1 := by
    rw [ho0] at hc0
    simp only [Option.some.injEq] at hc0
    rw [hc0, rowsUpTo_getElem _ htstrict _ _ hd2]
    show (o.ti.take 1).len = 1
    rw [Frame.take_len]; omega
  have he := (hsig 0 o0 ho0).1 (Or.inl ⟨by rw [hind0, hind], hone⟩)
  obtain ⟨h1, -, h3⟩ := C19_signal_failure_truncates E c f fill o o0 hw h close m fac 0 _ ha ho0
    (fun j hj => absurd hj (by omega)) he
  exact ⟨h1, h3 hn⟩

/-- Prices on which `RangeIndicator(2, 2)` rises from 33.3333 to 77.7778 with no earlier value below 20. -/
def rangePrices : RawFrame :=
  ⟨true, [1, 2, 3, 4, 5, 6],
    [⟨.str "high", true, [.fin 11, .fin 11, .fin 12, .fin 11, .fin 12, .fin 12]⟩,
     ⟨.str "low", true, [.fin 9, .fin 9, .fin 8, .fin 9, .fin 8, .fin 8]⟩,
     ⟨.str "close", true, List.replicate 6 (.fin 10)⟩,
     ⟨.str "volume", true, List.replicate 6 (.fin 1)⟩]⟩

/-- The Range Indicator on these prices. -/
def rangeObj : Obj :=
  ⟨.rangeIndicator 2 2,
    ⟨[1, 2, 3, 4, 5, 6],
      [("high", [.fin 11, .fin 11, .fin 12, .fin 11, .fin 12, .fin 12]),
       ("low", [.fin 9, .fin 9, .fin 8, .fin 9, .fin 8, .fin 8]),
       ("close", List.replicate 6 (.fin 10)), ("volume", List.replicate 6 (.fin 1))]⟩,
    ⟨[1, 2, 3, 4, 5, 6],
      [("ri", [.nan, .nan, .nan, .fin (333333/10000), .fin (388889/5000), .fin (259259/10000)])]⟩⟩

/-- Close prices on the same dates. -/
def rangeClose : RawFrame := ⟨true, [1, 2, 3, 4, 5, 6], [⟨.str "close", true, List.replicate 6 (.fin 10)⟩]⟩

/-- C19: a Range Indicator whose simulation raises IndexError in round 4 and leaves five of the six rows. -/
theorem C19_range_indicator_witness (E : Env) :
    WF rangePrices ∧
    (construct E (.rangeIndicator (.int 2) (.int 2)) (.frame rangePrices) (.bool true)).2 = .ok rangeObj ∧
    (rangeObj.getTiSimulation (.frame rangeClose) .none (.float (.fin (3/2)))).2.2 = .error .indexError ∧
    (rangeObj.getTiSimulation (.frame rangeClose) .none (.float (.fin (3/2)))).1 =
      { rangeObj with input := rangeObj.input.take 5, ti := rangeObj.ti.take 5 } ∧
    { rangeObj with input := rangeObj.input.take 5, ti := rangeObj.ti.take 5 } ≠ rangeObj := by
  have hcon : (construct demoEnv (.rangeIndicator (.int 2) (.int 2)) (.frame rangePrices) (.bool true)).2 = .ok rangeObj := by
    decide +kernel
  have hsim : (rangeObj.getTiSimulation (.frame rangeClose) .none (.float (.fin (3/2)))).2.2 = .error .indexError := by
    decide +kernel
  have hobj : (rangeObj.getTiSimulation (.frame rangeClose) .none (.float (.fin (3/2)))).1 =
      { rangeObj with input := rangeObj.input.take 5, ti := rangeObj.ti.take 5 } := by decide +kernel
  refine ⟨?_, hcon, hsim, hobj, by decide +kernel⟩
  unfold WF; decide

example : ∃ o, (construct demoEnv (.medianPrice (.int 1)) (.frame demoOne) (.bool true)).2 = .ok o ∧
    o.ind = .medianPrice 1 ∧ demoOne.idx.Nodup ∧
    ∃ close, AcceptsSim o.input.idx close .none (.int 1) := by
  refine ⟨⟨.medianPrice 1, ⟨[1], [("high", [.fin 3]), ("low", [.fin 1]), ("close", [.fin 2]), ("close_ema", [.fin 2])]⟩,
    ⟨[1], [("mp", [.fin 2])]⟩⟩, by decide +kernel, rfl, by decide,
    .frame ⟨true, [1], [⟨.str "close", true, [.fin 2]⟩]⟩, ⟨_, rfl, ?_, by decide⟩, Or.inl rfl,
    ⟨.fin 1, rfl, by decide +kernel⟩⟩
  exact (valid_of_ok _ ["close"] true ⟨[1], [("close", [.fin 2])]⟩ (by decide +kernel)).1

/-! ## Values -/

/-- The row with number `i` of a data frame. -/
def rowAt (T : Frame) (i : ℕ) : List Val := T.cols.map fun c => c.2.getD i .nan

/-- C22: `getTiValue()` is the last row of `getTiData()`, None if there is none. -/
theorem C22_last_value (o : Obj) :
    o.getTiValue none =
      if o.getTiData.idx.length = 0 then .none else .row (rowAt o.getTiData (o.getTiData.idx.length - 1)) := by
  unfold Obj.getTiValue Obj.getTiData
  have hl : o.ti.rows.length = o.ti.idx.length := Frame.rows_length _
  by_cases h : o.ti.idx.length = 0
  · rw [if_pos h]
    have : o.ti.rows = [] := List.length_eq_zero_iff.1 (by omega)
    simp [this]
  · rw [if_neg h]
    have : o.ti.rows.getLast? = some (rowAt o.ti (o.ti.idx.length - 1)) := by
      rw [List.getLast?_eq_getElem?, hl]
      simp only [Frame.rows, List.getElem?_map, Frame.len]
      rw [List.getElem?_range (by omega)]
      rfl
    simp [this]

theorem filter_zip_date {α : Type} (d : ℤ) (idx : List ℤ) (xs : List α) (hl : xs.length = idx.length) (hn : idx.Nodup) :
    (∀ (i : ℕ) (x : α), idx[i]? = some d → xs[i]? = some x → ((idx.zip xs).filter fun r => r.1 == d) = [(d, x)]) ∧
    (d ∉ idx → ((idx.zip xs).filter fun r => r.1 == d) = []) := by
  have hnone : d ∉ idx → ((idx.zip xs).filter fun r => r.1 == d) = [] := by
    intro h
    rw [List.filter_eq_nil_iff]
    intro r hr
    simp only [beq_iff_eq]
    rintro rfl
    exact h (List.of_mem_zip hr).1
  refine ⟨?_, hnone⟩
  clear hnone
  induction idx generalizing xs with
  | nil => simp
  | cons e idx ih =>
    cases xs with
    | nil => simp at hl
    | cons y xs =>
      rw [List.nodup_cons] at hn
      intro i x hi hx
      cases i with
      | zero =>
        simp only [List.getElem?_cons_zero, Option.some.injEq] at hi hx
        subst hi; subst hx
        have : ((idx.zip xs).filter fun r => r.1 == e) = [] := by
          rw [List.filter_eq_nil_iff]
          intro r hr
          simp only [beq_iff_eq]
          rintro rfl
          exact hn.1 (List.of_mem_zip hr).1
        simp [List.filter_cons, this]
      | succ i =>
        simp only [List.getElem?_cons_succ] at hi hx
        have hne : e ≠ d := by rintro rfl; exact hn.1 (List.mem_of_getElem? hi)
        simp only [List.zip_cons_cons, List.filter_cons, beq_iff_eq, hne, if_false]
        exact ih xs (by simpa using hl) hn.2 i x hi hx

/-- C22: `getTiValue(date)` is the row of `getTiData()` with that date, None if there is no such row or the date cannot be
parsed (distinct dates). -/
theorem C22_value_of_date (o : Obj) (hn : o.getTiData.idx.Nodup) :
    o.getTiValue (some .unparsable) = .none ∧
    (∀ (d : ℤ) (i : ℕ), o.getTiData.idx[i]? = some d → o.getTiValue (some (.date d)) = .row (rowAt o.getTiData i)) ∧
    (∀ d, o.getTiValue (some (.date d)) = .none ↔ d ∉ o.getTiData.idx) := by
  have hl : o.ti.rows.length = o.ti.idx.length := Frame.rows_length _
  have hsome : ∀ (d : ℤ) (i : ℕ), o.ti.idx[i]? = some d → o.getTiValue (some (.date d)) = .row (rowAt o.ti i) := by
    intro d i hi
    have hlt : i < o.ti.idx.length := (List.getElem?_eq_some_iff.1 hi).1
    have := (filter_zip_date d o.ti.idx o.ti.rows hl hn).1 i (rowAt o.ti i) hi (by
      simp only [Frame.rows, List.getElem?_map, Frame.len]
      rw [List.getElem?_range hlt]
      rfl)
    simp only [Obj.getTiValue, this]
  refine ⟨rfl, hsome, fun d => ⟨fun h hd => ?_, fun h => ?_⟩⟩
  · obtain ⟨i, hi⟩ := List.mem_iff_getElem?.1 hd
    rw [hsome d i hi] at h
    simp at h
  · have := (filter_zip_date d o.ti.idx o.ti.rows hl hn).2 h
    simp only [Obj.getTiValue, this]

example : rangeObj.getTiData.idx.Nodup ∧ rangeObj.getTiValue (some (.date 4)) = .row [.fin (333333/10000)] ∧
    rangeObj.getTiValue none = .row [.fin (259259/10000)] ∧ rangeObj.getTiValue (some (.date 9)) = .none := by
  decide +kernel

/-- C22: the dates of a constructed indicator are distinct when those of its input are. -/
theorem C22_distinct_dates (E : Env) (c : Call) (f : RawFrame) (fill : Bool) (o : Obj) (hw : WF f)
    (h : (construct E c (.frame f) (.bool fill)).2 = .ok o) (hn : f.idx.Nodup) : o.getTiData.idx.Nodup := by
  obtain ⟨hs, -, hidx, -⟩ := construct_sound E c f fill o hw h
  show o.ti.idx.Nodup
  rw [hs.dates, hidx]
  exact ((sortIdx_perm _).nodup_iff.2 hn).sublist (List.take_sublist _ _)

/-! ## The rounds -/

/-- C23: the simulation data has one row per input row in date order; the rounds executed are the rows of the indicator
data, each with the signal of the object cut at that row; the other rows (at the end) are empty. The rows and the statistics
are those of the simulation `Sim.run` on these signals, so C01-C16 apply to what the API returns. -/
theorem C23_rounds (E : Env) (c : Call) (f : RawFrame) (fill : Bool) (o : Obj) (hw : WF f)
    (h : (construct E c (.frame f) (.bool fill)).2 = .ok o) (close : InputArg) (m fac : PyArg) (r : SimResult)
    (hr : (o.getTiSimulation close m fac).2.2 = .ok r) :
    r.idx = sortIdx f.idx ∧ r.rows.length = f.idx.length ∧
    (∀ i, i < f.idx.length → ((∃ row, r.rows[i]? = some (some row)) ↔ i < o.getTiData.idx.length)) ∧
    ∃ (S : SimSetup) (sig : ℕ → Signal), (setupSimulation true o.input.idx close m fac).2 = .ok S ∧
      (∀ i < o.getTiData.idx.length, ∃ o', o.cut i = some o' ∧ o'.getTiSignal = .ok (sig i)) ∧
      ∃ st, st = Sim.run S.params ((List.range o.getTiData.idx.length).map fun i => (S.close.getD i .nan, sig i)) ∧
        r.stats = Sim.statistics st ∧ ∀ i < o.getTiData.idx.length, ∃ row, st.rows[i]? = some row ∧ r.rows[i]? = some (some row) := by
  obtain ⟨hs, -, hidx, hlen, -⟩ := construct_sound E c f fill o hw h
  unfold Obj.getTiSimulation at hr
  rcases hp : setupSimulation true o.input.idx close m fac with ⟨caller, r'⟩
  rw [hp] at hr
  cases r' with
  | error e => simp at hr
  | ok S =>
    simp only at hr
    rcases hq : simRounds o S (List.range o.ti.len) o Sim.State.init with ⟨o', q⟩
    rw [hq] at hr
    cases q with
    | error e => simp at hr
    | ok st =>
      simp only [Except.ok.injEq] at hr
      subst hr
      have hsigs := simRounds_signals o S _ o Sim.State.init st (by rw [hq])
      have hsig : ∀ i, ∃ s : Signal, i < o.ti.len → ∃ o', o.cut i = some o' ∧ o'.getTiSignal = .ok s := by
        intro i
        by_cases hi : i < o.ti.len
        · obtain ⟨o', s, a, b⟩ := hsigs i (List.mem_range.2 hi)
          exact ⟨s, fun _ => ⟨o', a, b⟩⟩
        · exact ⟨.hold, fun h => absurd h hi⟩
      choose sig hsig using hsig
      have hst := simRounds_ok o S (List.range o.ti.len) o Sim.State.init sig fun i hi => hsig i (List.mem_range.1 hi)
      rw [hq] at hst
      simp only [Except.ok.injEq] at hst
      have hrun : st = Sim.run S.params ((List.range o.ti.len).map fun i => (S.close.getD i .nan, sig i)) := hst
      have hrows : st.rows.length = o.ti.len := by
        rw [hrun, Sim.run_rows_length]; simp
      have hSidx : S.idx = sortIdx f.idx := by
        unfold setupSimulation at hp
        simp only [Bool.true_eq_false, if_false] at hp
        split at hp
        · simp at hp
        · split at hp
          · simp at hp
          · split at hp
            · simp at hp
            · split at hp
              · simp at hp
              · simp only [Prod.mk.injEq, Except.ok.injEq] at hp
                rw [← hp.2, hidx]
                exact sortIdx_of_sorted _ (sortIdx_sorted _)
      have hSlen : S.idx.length = f.idx.length := by rw [hSidx, (sortIdx_perm _).length_eq]
      have hle : o.ti.len ≤ f.idx.length := by rw [hlen]; exact rowsOut_le _ _
      have hget : ∀ i, i < o.ti.len → ∃ row, st.rows[i]? = some row ∧ (padRows S.idx.length st.rows)[i]? = some (some row) := by
        intro i hi
        refine ⟨st.rows[i]'(by omega), List.getElem?_eq_getElem (by omega), ?_⟩
        unfold padRows
        rw [List.getElem?_append_left (by simp; omega), List.getElem?_map, List.getElem?_eq_getElem (by omega)]
        rfl
      refine ⟨hSidx, ?_, ?_, S, sig, rfl, fun i hi => hsig i hi, st, hrun, rfl, hget⟩
      · simp only [padRows, List.length_append, List.length_map, List.length_replicate]
        omega
      · intro i hi
        constructor
        · rintro ⟨row, hrow⟩
          by_contra hge
          have hge' : o.ti.len ≤ i := by
            have : ¬ i < o.ti.len := hge
            omega
          unfold padRows at hrow
          rw [List.getElem?_append_right (by simp; omega), List.getElem?_replicate] at hrow
          split at hrow <;> simp at hrow
        · intro hi'
          obtain ⟨row, -, h2⟩ := hget i hi'
          exact ⟨row, h2⟩

example : ∃ o r, (construct demoEnv (.momentum (.int 1)) (.frame demoPrices) (.bool true)).2 = .ok o ∧
    (o.getTiSimulation (.frame demoClose) .none (.float (.fin (3/2)))).2.2 = .ok r :=
  ⟨⟨.momentum 1, ⟨[1, 2], [("close", [.fin 10, .fin 12])]⟩, ⟨[1, 2], [("mom", [.nan, .fin 120])]⟩⟩,
    ⟨[1, 2], [some ⟨.hold, .none, .fin 10, .fin 0, .fin 0, .fin 0, .fin 0⟩,
      some ⟨.hold, .none, .fin 12, .fin 0, .fin 0, .fin 0, .fin 0⟩],
      ⟨2, 0, 0, 0, 0, .fin 12, .fin 0, 0, 0, .fin 0, .fin 0, .fin 0⟩⟩,
    by decide +kernel, by decide +kernel⟩

end TTI.Props
