import Verif.Lemmas.Heap

set_option autoImplicit false

/-! # What is shared between a program and the indicators it builds: C94 -/

namespace TTI.Props

open Spec Heap

/-- C94: however many indicators a program builds, from the same or from different frames, and whatever it does with them,
`getTiData` of two different indicators never returns the same frame. -/
theorem C94_own_frame_each (E : Env) (own : List RawFrame) (cs : List Cmd) (j k r : ℕ)
    (hj : (((World.start own).run E cs).1.step E (.getTiData j)).2 = .data r)
    (hk : (((World.start own).run E cs).1.step E (.getTiData k)).2 = .data r) : j = k := by
  have hs := run_separate E cs _ (start_separate own)
  have get : ∀ i, (((World.start own).run E cs).1.step E (.getTiData i)).2 = .data r →
      ∃ h, ((World.start own).run E cs).1.objs[i]? = some h ∧ h.ti = r := by
    intro i hi
    simp only [World.step] at hi
    cases hx : ((World.start own).run E cs).1.objs[i]? with
    | none => rw [hx] at hi; simp at hi
    | some h => rw [hx] at hi; exact ⟨h, rfl, by simpa using hi⟩
  obtain ⟨a, ha, rfl⟩ := get j hj
  obtain ⟨b, hb, hab⟩ := get k hk
  exact hs.apart j k a b ha hb hab.symm

/-- C94: constructing an indicator from one of the program's frames gives the indicator of the value model, on a frame of
its own. -/
theorem C94_built (E : Env) (w : World) (c : Call) (r : ℕ) (f : RawFrame) (fill : PyArg) (o : Obj) (hr : w.own[r]? = some f)
    (h : (construct E c (.frame f) fill).2 = .ok o) :
    ∃ k, (w.step E (.construct c (.own r) fill)).2 = .built (.ok k) ∧
      (w.step E (.construct c (.own r) fill)).1.obj k = some o := by
  have hread : w.read (.own r) = .frame f := by simp [World.read, hr]
  refine ⟨w.objs.length, ?_, ?_⟩
  · simp only [World.step, World.construct, hread, h, put_objs]
  · simp only [World.step, World.construct, hread, h]
    refine (obj_iff _ _ _).2 ⟨⟨o.ind, o.input, w.made.length⟩, o.ti, ?_, ?_, rfl⟩
    · simp
    · simp [List.getElem?_append]

/-- C94: in any program that leaves the data of indicator `k` alone, everything the program sees of this indicator is what
the value model of `Model/Api` says, call by call: other indicators, and changes of the program's own frames (also of the
frame the indicator was built from), make no difference. -/
theorem C94_refines (E : Env) (k : ℕ) (cs : List Cmd) : ∀ (w : World) (o : Obj), w.obj k = some o → HandsOff E k w cs →
    (w.run E cs).1.obj k = some (o.steps ((talk E k w cs).map (·.1))).1 ∧
    (talk E k w cs).map (·.2) = (o.steps ((talk E k w cs).map (·.1))).2.map some := by
  induction cs with
  | nil => intro w o ho _; exact ⟨ho, rfl⟩
  | cons c cs ih =>
    intro w o ho hoff
    obtain ⟨h, T, hk, hT, hoT⟩ := (obj_iff _ _ _).1 ho
    obtain ⟨ht0, hoff'⟩ := handsOff_cons E k w c cs hoff
    have ht := ht0 h hk
    simp only [World.run, talk]
    cases hc : asCall w c with
    | none =>
      exact ih _ o (step_other_obj E w c k h o hk ho ht (by rw [hc]; simp)) hoff'
    | some p =>
      obtain ⟨k', a⟩ := p
      by_cases hkk : k' = k
      · subst hkk
        obtain ⟨h1, h2⟩ := step_call E w c k' h o a hk ho ht hc
        obtain ⟨h3, h4⟩ := ih _ _ h1 hoff'
        simp only [if_true, List.map_cons, Obj.steps]
        exact ⟨h3, by rw [h2, h4]⟩
      · simp only [if_neg hkk]
        refine ih _ o (step_other_obj E w c k h o hk ho ht ?_) hoff'
        rw [hc]
        intro a' he
        exact hkk (by simpa using congrArg Prod.fst (Option.some.inj he))

/-- C94: if moreover no simulation of the indicator raises, each call returns what it would have returned first, and
`getTiData` returns the same frame before and after. -/
theorem C94_stable (E : Env) (k : ℕ) (w : World) (cs : List Cmd) (o : Obj) (ho : w.obj k = some o)
    (hoff : HandsOff E k w cs) (hn : ∀ p ∈ talk E k w cs, ∀ e, p.2 ≠ some (.simulation (.error e))) :
    (w.run E cs).1.obj k = some o ∧ (∀ p ∈ talk E k w cs, p.2 = some (o.step p.1).2) ∧
    (w.run E cs).1.objs[k]? = w.objs[k]? := by
  obtain ⟨h1, h2⟩ := C94_refines E k cs w o ho hoff
  have h3 := C17_observers o ((talk E k w cs).map (·.1)) (by
    intro r hr e he
    have : some r ∈ (talk E k w cs).map (·.2) := by rw [h2]; exact List.mem_map_of_mem hr
    obtain ⟨p, hp, hpr⟩ := List.mem_map.1 this
    exact hn p hp e (by rw [hpr, he]))
  refine ⟨by rw [h1, h3.1], fun p hp => ?_, ?_⟩
  · rw [h3.2, List.map_map, List.map_map] at h2
    exact List.map_inj_left.1 h2 p hp
  · clear h1 h2 h3
    induction cs generalizing w with
    | nil => rfl
    | cons c cs ih =>
      obtain ⟨h, T, hk, hT, hoT⟩ := (obj_iff _ _ _).1 ho
      obtain ⟨ht0, hoff'⟩ := handsOff_cons E k w c cs hoff
      have ht := ht0 h hk
      simp only [World.run]
      have one : (w.step E c).1.objs[k]? = w.objs[k]? ∧ (w.step E c).1.obj k = some o ∧
          ∀ p ∈ talk E k (w.step E c).1 cs, ∀ e, p.2 ≠ some (.simulation (.error e)) := by
        simp only [talk] at hn
        cases hc : asCall w c with
        | none =>
          rw [hc] at hn
          exact ⟨by rw [hk]; exact (step_other E w c k h hk (lt_of_get hT) ht (by rw [hc]; simp)).1,
            step_other_obj E w c k h o hk ho ht (by rw [hc]; simp), hn⟩
        | some p =>
          obtain ⟨k', a⟩ := p
          rw [hc] at hn
          by_cases hkk : k' = k
          · subst hkk
            simp only [if_true, List.forall_mem_cons] at hn
            obtain ⟨h1, h2⟩ := step_call E w c k' h o a hk ho ht hc
            rw [h2] at hn
            have h3 := step_obj o a (fun e he => hn.1 e (by rw [he]))
            refine ⟨?_, by rw [h1, h3], hn.2⟩
            cases c with
            | construct c d fill => simp [asCall] at hc
            | setOwn r f => simp [asCall] at hc
            | setCell r name row v => simp [asCall] at hc
            | getTiData _ => simp only [World.step]; split <;> rfl
            | getTiValue _ _ => simp only [World.step]; split <;> rfl
            | getTiSignal _ => simp only [World.step]; split <;> rfl
            | getTiSimulation k'' d m fac =>
              simp only [asCall, Option.some.injEq, Prod.mk.injEq] at hc
              obtain ⟨rfl, rfl⟩ := hc
              simp only [World.step, ho, World.simulate]
              cases hr : (o.getTiSimulation (w.read d) m fac).2.2 with
              | ok s => simp
              | error e => exact absurd (by simp [Obj.step, hr]) (hn.1 e)
          · simp only [if_neg hkk] at hn
            have hne : ∀ a', asCall w c ≠ some (k, a') := by
              rw [hc]; intro a' he; exact hkk (by simpa using congrArg Prod.fst (Option.some.inj he))
            exact ⟨by rw [hk]; exact (step_other E w c k h hk (lt_of_get hT) ht hne).1,
              step_other_obj E w c k h o hk ho ht hne, hn⟩
      rw [ih _ one.2.1 hoff' one.2.2, one.1]

/-- C94: writing a value into the frame returned by `getTiData` writes it into the indicator, and into no other one. -/
theorem C94_write (E : Env) (w : World) (hw : Separate w) (k r : ℕ) (o : Obj) (ho : w.obj k = some o)
    (hr : (w.step E (.getTiData k)).2 = .data r) (name : String) (row : ℕ) (v : Val) :
    (w.step E (.setCell r name row v)).1.obj k = some { o with ti := setCell o.ti name row v } ∧
    ∀ j, j ≠ k → (w.step E (.setCell r name row v)).1.obj j = w.obj j := by
  obtain ⟨h, T, hk, hT, rfl⟩ := (obj_iff _ _ _).1 ho
  have hti : h.ti = r := by simpa [World.step, hk] using hr
  subst hti
  refine ⟨(obj_iff _ _ _).2 ⟨h, setCell T name row v, hk, ?_, rfl⟩, fun j hj => ?_⟩
  · simp [World.step, List.getElem?_modify, hT]
  · cases hx : w.objs[j]? with
    | none => simp [World.obj, World.step, hx]
    | some b =>
      have hne : b.ti ≠ h.ti := fun e => hj (hw.apart j k b h hx hk e)
      simp only [World.obj, World.step, hx, List.getElem?_modify, if_neg (fun e => hne e.symm : ¬ h.ti = b.ti)]
      simp

/-- The frame after the write: the dates and the other columns as before, in the named column the one cell changed. -/
theorem C94_write_cell (T : Frame) (name : String) (row : ℕ) (v : Val) :
    (setCell T name row v).idx = T.idx ∧ (setCell T name row v).col name = (T.col name).set row v ∧
    ∀ other, other ≠ name → (setCell T name row v).col other = T.col other := by
  have key : ∀ x, (setCell T name row v).col x = if x = name then (T.col x).set row v else T.col x := by
    intro x
    unfold Frame.col setCell
    induction T.cols with
    | nil => simp
    | cons c cs ih =>
      simp only [List.map_cons, List.find?_cons]
      by_cases hc : c.1 == x
      · simp only [hc, Option.map_some, Option.getD_some]
        rw [eq_of_beq hc]
      · simp only [hc]
        exact ih
  exact ⟨rfl, by rw [key, if_pos rfl], fun other h => by rw [key, if_neg h]⟩

/-- A simulation that raises after its first round leaves the indicator with a new frame. -/
theorem detached (E : Env) (w : World) (hw : Separate w) (k r : ℕ) (o : Obj) (ho : w.obj k = some o)
    (hr : (w.step E (.getTiData k)).2 = .data r) (close : ℕ) (m fac : PyArg) (e : Err)
    (hs : startsRounds o (w.read (.own close)) m fac = true)
    (he : (w.step E (.getTiSimulation k (.own close) m fac)).2 = .call (.simulation (.error e))) :
    (w.step E (.getTiSimulation k (.own close) m fac)).1.made[r]? = some o.ti ∧
    ∀ (cs : List Cmd) (j : ℕ) (h : HObj), ((w.step E (.getTiSimulation k (.own close) m fac)).1.run E cs).1.objs[j]? = some h → h.ti ≠ r := by
  obtain ⟨h, T, hk, hT, rfl⟩ := (obj_iff _ _ _).1 ho
  have hti : h.ti = r := by simpa [World.step, hk] using hr
  subst hti
  have hlt := lt_of_get hT
  generalize hw' : (w.step E (.getTiSimulation k (.own close) m fac)).1 = w'
  have hst : w'.made[h.ti]? = some T ∧ h.ti < w'.made.length ∧ ∀ (j : ℕ) (x : HObj), w'.objs[j]? = some x → x.ti ≠ h.ti := by
    rw [← hw']
    simp only [World.step, ho, World.simulate] at he ⊢
    cases hx : (Obj.getTiSimulation ⟨h.ind, h.input, T⟩ (w.read (.own close)) m fac).2.2 with
    | ok s => rw [hx] at he; simp at he
    | error e' =>
      simp only [hs, if_true, put_objs, put_length, List.length_append, List.length_singleton]
      refine ⟨?_, by omega, fun j x hj => ?_⟩
      · rw [List.getElem?_append_left (by rw [put_length]; exact hlt), put_made _ _ _ _ (by simp)]; exact hT
      · rw [List.getElem?_set] at hj
        split at hj
        · split at hj
          · simp only [Option.some.injEq] at hj
            subst hj
            simp only; omega
          · simp at hj
        · next hne => exact fun e => hne (hw.apart j k x h hj hk e).symm
  refine ⟨hst.1, ?_⟩
  obtain ⟨-, h1, h2⟩ := hst
  clear hw' he hs
  intro cs
  induction cs generalizing w' with
  | nil => exact h2
  | cons c cs ih =>
    simp only [World.run]
    have hother : ∀ (d : Ref) a (j : ℕ) (x : HObj), (w'.put d a).objs[j]? = some x → x.ti ≠ h.ti := by
      intro d a j x hx; rw [put_objs] at hx; exact h2 j x hx
    cases c with
    | construct c d fill =>
      simp only [World.step, World.construct]
      split
      · exact ih _ (by rw [put_length]; exact h1) (hother _ _)
      · refine ih _ (by simp only [List.length_append, put_length]; omega) fun j x hx => ?_
        simp only [List.getElem?_append] at hx
        split at hx
        · exact hother _ _ j x hx
        · have := List.getElem?_singleton (a := (⟨_, _, _⟩ : HObj)) ▸ hx
          split at this <;> simp at this
          rw [← this]
          simp only; omega
    | getTiData k' => simp only [World.step]; split <;> exact ih _ h1 h2
    | getTiValue k' d => simp only [World.step]; split <;> exact ih _ h1 h2
    | getTiSignal k' => simp only [World.step]; split <;> exact ih _ h1 h2
    | setOwn r f => exact ih _ h1 h2
    | setCell r name row v => exact ih _ (by simp [World.step]; exact h1) h2
    | getTiSimulation k' d m' fac' =>
      simp only [World.step]
      split
      swap
      · exact ih _ h1 h2
      simp only [World.simulate]
      split
      · exact ih _ (by rw [put_length]; exact h1) (hother _ _)
      · dsimp only
        split
        swap
        · exact ih _ (by rw [put_length]; exact h1) (hother _ _)
        refine ih _ (by simp only [List.length_append, put_length]; omega) fun j x hx => ?_
        simp only [List.getElem?_set] at hx
        split at hx
        · split at hx
          · simp only [Option.some.injEq] at hx
            rw [← hx]
            simp only [put_length]; omega
          · simp at hx
        · exact hother _ _ j x hx

/-- C94: a simulation with accepted arguments that raises in a round leaves the indicator with a new frame: the frame returned
by `getTiData` before keeps its contents, but is the data of no indicator any more. -/
theorem C94_detached (E : Env) (w : World) (hw : Separate w) (k r : ℕ) (o : Obj) (ho : w.obj k = some o)
    (hr : (w.step E (.getTiData k)).2 = .data r) (close : ℕ) (m fac : PyArg) (e : Err)
    (hacc : AcceptsSim o.input.idx (w.read (.own close)) m fac)
    (he : (w.step E (.getTiSimulation k (.own close) m fac)).2 = .call (.simulation (.error e))) :
    (w.step E (.getTiSimulation k (.own close) m fac)).1.made[r]? = some o.ti ∧
    ∀ (cs : List Cmd) (j : ℕ) (h : HObj), ((w.step E (.getTiSimulation k (.own close) m fac)).1.run E cs).1.objs[j]? = some h → h.ti ≠ r := by
  refine detached E w hw k r o ho hr close m fac e ?_ he
  have hx : (o.getTiSimulation (w.read (.own close)) m fac).2.2 = .error e := by
    simp only [World.step, ho, World.simulate] at he
    split at he
    · simp at he
    · next h => rw [h]; simpa using he
  obtain ⟨S, hS⟩ := (setup_ok_iff _ _ _ _).2 hacc
  have hti : o.ti.idx ≠ [] := by
    intro h0
    unfold Obj.getTiSimulation at hx
    rcases hp : setupSimulation true o.input.idx (w.read (.own close)) m fac with ⟨caller, q⟩
    rw [hp] at hS hx
    simp only at hS
    subst hS
    simp [Frame.len, h0, simRounds] at hx
  have hin : o.input.idx ≠ [] := by
    obtain ⟨f, -, hv, hi⟩ := hacc.close
    intro h0
    rw [h0] at hi
    exact hv.rows hi.eq_nil
  unfold startsRounds
  rw [hS]
  simp only [Obj.cut]
  cases h1 : o.input.idx with
  | nil => exact absurd h1 hin
  | cons a l =>
    cases h2 : o.ti.idx with
    | nil => exact absurd h2 hti
    | cons b l' => rfl

/-- C94: a simulation whose arguments are rejected leaves every indicator with the frame it had. -/
theorem C94_rejected (E : Env) (w : World) (k : ℕ) (o : Obj) (ho : w.obj k = some o) (close : Ref) (m fac : PyArg)
    (h : ¬ AcceptsSim o.input.idx (w.read close) m fac) :
    (w.step E (.getTiSimulation k close m fac)).1.objs = w.objs ∧
    ∃ e, (w.step E (.getTiSimulation k close m fac)).2 = .call (.simulation (.error e)) := by
  obtain ⟨-, e, h2⟩ := rejected o (w.read close) m fac h
  have hs : startsRounds o (w.read close) m fac = false := by
    unfold startsRounds
    cases hp : (setupSimulation true o.input.idx (w.read close) m fac).2 with
    | error e => rfl
    | ok S => exact absurd ((setup_ok_iff _ _ _ _).1 ⟨S, hp⟩) h
  simp only [World.step, ho, World.simulate, h2, hs, Bool.false_eq_true, if_false, put_objs]
  exact ⟨trivial, e, rfl⟩

/-! ## A program -/

/-- A program that writes into no frame of the library and passes none on leaves every indicator alone. -/
theorem handsOff_of (E : Env) (k : ℕ) (w : World) (cs : List Cmd) (h : ∀ c ∈ cs, ∀ r, ¬ Touches r c) : HandsOff E k w cs :=
  fun before c after e x _ => h c (by rw [e]; simp) x.ti

/-- Two indicators on the same frame, which is then overwritten; a simulation of the first one that raises. -/
def demoProgram : List Cmd :=
  [.construct (.rangeIndicator (.int 2) (.int 2)) (.own 0) (.bool true),
   .construct (.momentum (.int 1)) (.own 0) (.bool true),
   .setOwn 0 demoPrices, .getTiData 0, .getTiData 1, .getTiSimulation 1 (.own 1) .none (.float (.fin (3/2))), .getTiData 1,
   .getTiSimulation 0 (.own 1) .none (.float (.fin (3/2))), .getTiData 0]

theorem getTiData_ref (E : Env) (w : World) (k r : ℕ) (h : w.objs[k]?.map HObj.ti = some r) :
    (w.step E (.getTiData k)).2 = .data r := by
  obtain ⟨x, hx, rfl⟩ := Option.map_eq_some_iff.1 h
  simp [World.step, hx]

/-- The frames a program receives. -/
def received : List Result → List ℕ
  | [] => []
  | .data r :: rs => r :: received rs
  | _ :: rs => received rs

/-- C94: the second indicator keeps its frame through its simulation; the first one, whose simulation raises, has another
frame afterwards, of five rows instead of six. The program leaves the frames alone. -/
theorem C94_witness :
    (∀ c ∈ demoProgram, ∀ r, ¬ Touches r c) ∧
    received ((World.start [rangePrices, rangeClose]).run demoEnv demoProgram).2 = [0, 1, 1, 2] ∧
    (((World.start [rangePrices, rangeClose]).run demoEnv demoProgram).1.made.map Frame.len) = [6, 6, 5] ∧
    ((World.start [rangePrices, rangeClose]).run demoEnv demoProgram).1.own = [demoPrices, rangeClose] := by
  refine ⟨?_, by decide +kernel, by decide +kernel, by decide +kernel⟩
  simp [demoProgram, Touches]

/-- The hypotheses of `C94_refines`, `C94_stable` and `C94_write` are met by the second indicator of the program. -/
example : ∃ w o, w = ((World.start [rangePrices, rangeClose]).run demoEnv (demoProgram.take 2)).1 ∧ w.obj 1 = some o ∧
    Separate w ∧ HandsOff demoEnv 1 w (demoProgram.drop 2) ∧ (w.step demoEnv (.getTiData 1)).2 = .data 1 := by
  refine ⟨_, ⟨.momentum 1, ⟨[1, 2, 3, 4, 5, 6], [("close", List.replicate 6 (.fin 10))]⟩,
    ⟨[1, 2, 3, 4, 5, 6], [("mom", .nan :: List.replicate 5 (.fin 100))]⟩⟩, rfl, by decide +kernel,
    run_separate _ _ _ (start_separate _), handsOff_of _ _ _ _ (by simp [demoProgram, Touches]),
    getTiData_ref _ _ _ _ (by decide +kernel)⟩

/-- Those of `C94_detached` by the first one. -/
example : ∃ w o, w = ((World.start [rangePrices, rangeClose]).run demoEnv (demoProgram.take 7)).1 ∧ w.obj 0 = some o ∧
    AcceptsSim o.input.idx (w.read (.own 1)) .none (.float (.fin (3/2))) ∧
    (w.step demoEnv (.getTiData 0)).2 = .data 0 ∧
    (match (w.step demoEnv (.getTiSimulation 0 (.own 1) .none (.float (.fin (3/2))))).2 with
     | .call (.simulation (.error e)) => some e
     | _ => none) = some .indexError :=
  ⟨_, rangeObj, rfl, by decide +kernel, (setup_ok_iff _ _ _ _).1 (by
    have h : ∀ (r : Except Err SimSetup), (match r with | .ok _ => true | .error _ => false) = true → ∃ S, r = .ok S := by
      intro r hr
      cases r with
      | ok S => exact ⟨S, rfl⟩
      | error e => simp at hr
    exact h _ (by decide +kernel)), getTiData_ref _ _ _ _ (by decide +kernel), by decide +kernel⟩

/-- That of `C94_rejected` by a maximum exposure of 0. -/
example (idx : List ℤ) (close : InputArg) : ¬ AcceptsSim idx close (.int 0) (.float (.fin (3/2))) := by
  rintro ⟨-, h, -⟩
  rcases h with h | ⟨v, h, h'⟩
  · simp at h
  · simp only [PyArg.asNumber, Option.some.injEq] at h
    subst h
    revert h'
    decide

/-- C94: values written into the frame decide the signal: 200 as the last CCI gives a sell signal, -200 a buy signal. -/
theorem C94_write_signal_witness :
    (match ((World.start [rangePrices]).run demoEnv
        [.construct (.commodityChannelIndex (.int 2)) (.own 0) (.bool true), .setCell 0 "cci" 5 (.fin 200), .getTiSignal 0,
         .setCell 0 "cci" 5 (.fin (-200)), .getTiSignal 0]).2 with
     | [_, _, .call (.signal a), _, .call (.signal b)] => some (a, b)
     | _ => none) = some (.ok .sell, .ok .buy) := by
  decide +kernel

end TTI.Props
