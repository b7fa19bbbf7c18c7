import Verif.Spec.Heap
import Verif.Props.Api

set_option autoImplicit false

/-! # Lemmas on worlds of frames and indicators -/

namespace TTI.Heap

open Spec

@[simp] theorem put_objs (w : World) (d : Ref) (a : InputArg) : (w.put d a).objs = w.objs := by
  unfold World.put; split <;> rfl

@[simp] theorem put_length (w : World) (d : Ref) (a : InputArg) : (w.put d a).made.length = w.made.length := by
  unfold World.put; split <;> simp

theorem put_made (w : World) (d : Ref) (a : InputArg) (r : ℕ) (h : d ≠ .made r) : (w.put d a).made[r]? = w.made[r]? := by
  unfold World.put
  split
  · rfl
  · next r' f =>
    have hr : r' ≠ r := fun e => h (by rw [e])
    simp [List.getElem?_modify, hr]
  · rfl

theorem obj_iff (w : World) (k : ℕ) (o : Obj) :
    w.obj k = some o ↔ ∃ h T, w.objs[k]? = some h ∧ w.made[h.ti]? = some T ∧ o = ⟨h.ind, h.input, T⟩ := by
  unfold World.obj
  cases h1 : w.objs[k]? with
  | none => simp
  | some h =>
    simp only [Option.map_eq_some_iff, Option.some.injEq]
    constructor
    · rintro ⟨T, hT, rfl⟩; exact ⟨h, T, rfl, hT, rfl⟩
    · rintro ⟨h', T, rfl, hT, rfl⟩; exact ⟨T, hT, rfl⟩

theorem lt_of_get {α : Type} {l : List α} {k : ℕ} {a : α} (h : l[k]? = some a) : k < l.length := by
  by_contra hc
  rw [List.getElem?_eq_none (by omega)] at h
  simp at h

theorem startsRounds_error (o : Obj) (close : InputArg) (m fac : PyArg) (e : Err)
    (h : (o.getTiSimulation close m fac).2.2 = .error e) (hs : startsRounds o close m fac = false) :
    (o.getTiSimulation close m fac).1 = o := by
  unfold Obj.getTiSimulation at h ⊢
  unfold startsRounds at hs
  cases hp : setupSimulation true o.input.idx close m fac with
  | mk caller r =>
    rw [hp] at h hs
    cases r with
    | error e' => rfl
    | ok S =>
      simp only at hs h ⊢
      cases hn : o.ti.len with
      | zero => rw [hn] at h; simp [simRounds] at h
      | succ n =>
        rw [List.range_succ_eq_map]
        have hc : o.cut 0 = none := by simpa using hs
        simp [simRounds, hc]

/-- Nothing happens to an indicator when a command is not a call of it and leaves its frame alone. -/
theorem step_other (E : Env) (w : World) (c : Cmd) (k : ℕ) (h : HObj) (hk : w.objs[k]? = some h)
    (hl : h.ti < w.made.length) (ht : ¬ Touches h.ti c) (hc : ∀ a, asCall w c ≠ some (k, a)) :
    (w.step E c).1.objs[k]? = some h ∧ (w.step E c).1.made[h.ti]? = w.made[h.ti]? := by
  have hkl := lt_of_get hk
  cases c with
  | construct c d fill =>
    simp only [World.step, World.construct]
    split
    · exact ⟨by rw [put_objs]; exact hk, put_made _ _ _ _ ht⟩
    · simp only [put_objs]
      refine ⟨by rw [List.getElem?_append_left hkl]; exact hk, ?_⟩
      rw [List.getElem?_append_left (by rw [put_length]; exact hl), put_made _ _ _ _ ht]
  | getTiData k' => simp only [World.step]; split <;> exact ⟨hk, rfl⟩
  | getTiValue k' d => simp only [World.step]; split <;> exact ⟨hk, rfl⟩
  | getTiSignal k' => simp only [World.step]; split <;> exact ⟨hk, rfl⟩
  | getTiSimulation k' d m fac =>
    have hne : k' ≠ k := by rintro rfl; exact hc _ rfl
    simp only [World.step]
    split
    · simp only [World.simulate]
      split
      · exact ⟨by rw [put_objs]; exact hk, put_made _ _ _ _ ht⟩
      · dsimp only
        split
        · simp only [put_objs]
          refine ⟨by rw [List.getElem?_set_ne hne]; exact hk, ?_⟩
          rw [List.getElem?_append_left (by rw [put_length]; exact hl), put_made _ _ _ _ ht]
        · exact ⟨by rw [put_objs]; exact hk, put_made _ _ _ _ ht⟩
    · exact ⟨hk, rfl⟩
  | setOwn r f => exact ⟨hk, rfl⟩
  | setCell r name row v =>
    refine ⟨hk, ?_⟩
    have hr : r ≠ h.ti := ht
    simp [World.step, List.getElem?_modify, hr]

/-- The value of such an indicator does not change. -/
theorem step_other_obj (E : Env) (w : World) (c : Cmd) (k : ℕ) (h : HObj) (o : Obj) (hk : w.objs[k]? = some h)
    (ho : w.obj k = some o) (ht : ¬ Touches h.ti c) (hc : ∀ a, asCall w c ≠ some (k, a)) :
    (w.step E c).1.obj k = some o := by
  obtain ⟨h', T, h1, h2, rfl⟩ := (obj_iff _ _ _).1 ho
  obtain rfl : h = h' := by rw [hk] at h1; simpa using h1
  obtain ⟨e1, e2⟩ := step_other E w c k h hk (lt_of_get h2) ht hc
  exact (obj_iff _ _ _).2 ⟨h, T, e1, by rw [e2]; exact h2, rfl⟩

/-- A call of an indicator whose frame is not among the arguments is a call of `Model/Api`. -/
theorem step_call (E : Env) (w : World) (c : Cmd) (k : ℕ) (h : HObj) (o : Obj) (a : ApiCall) (hk : w.objs[k]? = some h)
    (ho : w.obj k = some o) (ht : ¬ Touches h.ti c) (hc : asCall w c = some (k, a)) :
    (w.step E c).1.obj k = some (o.step a).1 ∧ shown (w.step E c).1 (w.step E c).2 = some (o.step a).2 := by
  have ho' := ho
  obtain ⟨h', T, h1, h2, rfl⟩ := (obj_iff _ _ _).1 ho'
  obtain rfl : h = h' := by rw [hk] at h1; simpa using h1
  cases c with
  | construct c d fill => simp [asCall] at hc
  | setOwn r f => simp [asCall] at hc
  | setCell r name row v => simp [asCall] at hc
  | getTiData k' =>
    simp only [asCall, Option.some.injEq, Prod.mk.injEq] at hc
    obtain ⟨rfl, rfl⟩ := hc
    simp only [World.step, hk]
    exact ⟨ho, by simp [shown, h2, Obj.step, Obj.getTiData]⟩
  | getTiValue k' d =>
    simp only [asCall, Option.some.injEq, Prod.mk.injEq] at hc
    obtain ⟨rfl, rfl⟩ := hc
    simp only [World.step, ho]
    exact ⟨rfl, rfl⟩
  | getTiSignal k' =>
    simp only [asCall, Option.some.injEq, Prod.mk.injEq] at hc
    obtain ⟨rfl, rfl⟩ := hc
    simp only [World.step, ho]
    exact ⟨rfl, rfl⟩
  | getTiSimulation k' d m fac =>
    simp only [asCall, Option.some.injEq, Prod.mk.injEq] at hc
    obtain ⟨rfl, rfl⟩ := hc
    simp only [World.step, ho, World.simulate]
    generalize hoo : (⟨h.ind, h.input, T⟩ : Obj) = o at *
    have hkeep : ∀ x, (w.put d x).obj k' = some o := fun x =>
      (obj_iff _ _ _).2 ⟨h, T, by rw [put_objs]; exact hk, by rw [put_made _ _ _ _ ht]; exact h2, hoo.symm⟩
    cases hr : (o.getTiSimulation (w.read d) m fac).2.2 with
    | ok s =>
      have := Props.getTiSimulation_obj o (w.read d) m fac (by rw [hr]; simp)
      refine ⟨?_, by simp [shown, Obj.step, hr]⟩
      simp only [Obj.step, this]
      exact hkeep _
    | error e =>
      refine ⟨?_, by simp [shown, Obj.step, hr]⟩
      simp only [Obj.step]
      cases hs : startsRounds o (w.read d) m fac with
      | false =>
        rw [startsRounds_error o _ _ _ e hr hs]
        exact hkeep _
      | true =>
        simp only [if_true]
        refine (obj_iff _ _ _).2 ⟨⟨(o.getTiSimulation (w.read d) m fac).1.ind, (o.getTiSimulation (w.read d) m fac).1.input,
          (w.put d (o.getTiSimulation (w.read d) m fac).2.1).made.length⟩, (o.getTiSimulation (w.read d) m fac).1.ti, ?_, ?_, rfl⟩
        · simp [List.getElem?_set, lt_of_get hk]
        · simp

theorem step_separate (E : Env) (w : World) (c : Cmd) (hw : Separate w) : Separate (w.step E c).1 := by
  have same : ∀ w' : World, w'.objs = w.objs → w'.made.length = w.made.length → Separate w' := by
    intro w' e1 e2
    refine ⟨fun j k a b ha hb => ?_, fun k a ha => ?_⟩
    · rw [e1] at ha hb; exact hw.apart j k a b ha hb
    · rw [e1] at ha; rw [e2]; exact hw.there k a ha
  cases c with
  | construct c d fill =>
    simp only [World.step, World.construct]
    split
    · exact same _ (put_objs ..) (put_length ..)
    · simp only [put_objs, put_length]
      refine ⟨fun j k a b ha hb he => ?_, fun k a ha => ?_⟩
      · simp only [List.getElem?_append] at ha hb
        split at ha <;> split at hb
        · exact hw.apart j k a b ha hb he
        · have h1 := hw.there j a ha
          have h2 : b.ti = w.made.length := by
            have := List.getElem?_singleton (a := (⟨_, _, w.made.length⟩ : HObj)) ▸ hb
            split at this <;> simp at this
            rw [← this]
          omega
        · have h1 := hw.there k b hb
          have h2 : a.ti = w.made.length := by
            have := List.getElem?_singleton (a := (⟨_, _, w.made.length⟩ : HObj)) ▸ ha
            split at this <;> simp at this
            rw [← this]
          omega
        · have h1 := lt_of_get ha
          have h2 := lt_of_get hb
          simp at h1 h2
          omega
      · simp only [List.getElem?_append] at ha
        simp only [List.length_append, List.length_singleton, put_length]
        split at ha
        · have := hw.there k a ha; omega
        · have : a.ti = w.made.length := by
            have := List.getElem?_singleton (a := (⟨_, _, w.made.length⟩ : HObj)) ▸ ha
            split at this <;> simp at this
            rw [← this]
          omega
  | getTiData k' => simp only [World.step]; split <;> exact hw
  | getTiValue k' d => simp only [World.step]; split <;> exact hw
  | getTiSignal k' => simp only [World.step]; split <;> exact hw
  | setOwn r f => exact same _ rfl rfl
  | setCell r name row v => exact same _ rfl (by simp [World.step])
  | getTiSimulation k' d m fac =>
    simp only [World.step]
    split
    swap
    · exact hw
    simp only [World.simulate]
    split
    · exact same _ (put_objs ..) (put_length ..)
    · dsimp only
      split
      swap
      · exact same _ (put_objs ..) (put_length ..)
      simp only [put_objs, put_length]
      have key : ∀ k x (n : HObj), (w.objs.set k' n)[k]? = some x →
          (k' = k ∧ x = n) ∨ (k' ≠ k ∧ w.objs[k]? = some x) := by
        intro k x n hx
        rw [List.getElem?_set] at hx
        split at hx
        · split at hx
          · next h1 _ => exact Or.inl ⟨h1, by simpa using hx.symm⟩
          · simp at hx
        · next h1 => exact Or.inr ⟨h1, hx⟩
      refine ⟨fun j k a b ha hb he => ?_, fun k a ha => ?_⟩
      · rcases key _ _ _ ha with ⟨rfl, rfl⟩ | ⟨h1, h2⟩ <;> rcases key _ _ _ hb with ⟨rfl, rfl⟩ | ⟨h3, h4⟩
        · rfl
        · have := hw.there _ _ h4; simp only at he; omega
        · have := hw.there _ _ h2; simp only at he; omega
        · exact hw.apart j k a b h2 h4 he
      · simp only [List.length_append, List.length_singleton, put_length]
        rcases key _ _ _ ha with ⟨rfl, rfl⟩ | ⟨-, h2⟩
        · simp
        · have := hw.there _ _ h2; omega

theorem run_separate (E : Env) (cs : List Cmd) : ∀ w : World, Separate w → Separate (w.run E cs).1 := by
  induction cs with
  | nil => intro w h; exact h
  | cons c cs ih => intro w h; exact ih _ (step_separate E w c h)

theorem start_separate (own : List RawFrame) : Separate (World.start own) :=
  ⟨fun j k a b h => by simp [World.start] at h, fun k a h => by simp [World.start] at h⟩

theorem run_append (E : Env) (cs ds : List Cmd) : ∀ w : World,
    w.run E (cs ++ ds) = (((w.run E cs).1.run E ds).1, (w.run E cs).2 ++ ((w.run E cs).1.run E ds).2) := by
  induction cs with
  | nil => intro w; rfl
  | cons c cs ih => intro w; simp only [List.cons_append, World.run, ih]

theorem handsOff_cons (E : Env) (k : ℕ) (w : World) (c : Cmd) (cs : List Cmd) (h : HandsOff E k w (c :: cs)) :
    (∀ x, w.objs[k]? = some x → ¬ Touches x.ti c) ∧ HandsOff E k (w.step E c).1 cs := by
  refine ⟨fun x hx => h [] c cs rfl x hx, fun before d after e x hx => h (c :: before) d after (by rw [e]; rfl) x hx⟩

end TTI.Heap
