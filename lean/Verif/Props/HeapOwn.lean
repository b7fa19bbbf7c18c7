import Verif.Props.Heap
import Verif.Props.Scripts
import Verif.Props.Validate2

set_option autoImplicit false

/-! # What the library does to the frames of a program: C94, C31 -/

namespace TTI.Props

open Spec Heap

theorem Relabelled.refl (f : RawFrame) : Relabelled f f :=
  ⟨rfl, rfl, List.forall₂_same.2 fun _ _ => ⟨rfl, rfl, Or.inl rfl⟩⟩

theorem Relabelled.trans {f g h : RawFrame} (a : Relabelled f g) (b : Relabelled g h) : Relabelled f h := by
  refine ⟨b.index.trans a.index, b.dates.trans a.dates, ?_⟩
  have ha := a.columns
  have hb := b.columns
  clear a b
  generalize f.cols = l at ha
  generalize g.cols = m at ha hb
  generalize h.cols = n at hb
  induction ha generalizing n with
  | nil => cases hb; exact .nil
  | cons hxy _ ih =>
    cases hb with
    | cons hyz ht =>
      refine .cons ⟨hyz.1.trans hxy.1, hyz.2.1.trans hxy.2.1, ?_⟩ (ih _ ht)
      rcases hxy.2.2 with e | ⟨s, e1, e2⟩
      · rw [← e]; exact hyz.2.2
      · rcases hyz.2.2 with e | ⟨t, e3, e4⟩
        · exact Or.inr ⟨s, e1, e.trans e2⟩
        · rw [e2] at e3
          obtain rfl := Label.str.inj e3
          exact Or.inr ⟨s, e1, by rw [e4, toLower_idem]⟩

theorem validate_relabels (f : RawFrame) (required : List String) (fill : Bool) :
    ∃ g, (validateInputData (.frame f) required fill).1 = .frame g ∧ Relabelled f g := by
  rw [C31_only_labels_change]
  simp only
  split
  · next h =>
    refine ⟨_, rfl, rfl, rfl, ?_⟩
    simp only [List.forall₂_map_right_iff, List.forall₂_same]
    intro c hc
    refine ⟨trivial, trivial, Or.inr ?_⟩
    cases hl : c.label with
    | other => exact absurd hl (h.2.2.2 c hc)
    | str s => exact ⟨s, rfl, by simp [RawCol.name, Label.lower, hl]⟩
  · exact ⟨f, rfl, Relabelled.refl f⟩

theorem construct_relabels (E : Env) (c : Call) (f : RawFrame) (fill : PyArg) :
    ∃ g, (TTI.construct E c (.frame f) fill).1 = .frame g ∧ Relabelled f g := by
  unfold TTI.construct
  cases c.check with
  | error e => exact ⟨f, rfl, Relabelled.refl f⟩
  | ok ind =>
    cases fill with
    | bool b =>
      simp only
      obtain ⟨g, h1, h2⟩ := validate_relabels f ind.required b
      rcases h : validateInputData (.frame f) ind.required b with ⟨a, r⟩
      rw [h] at h1
      simp only at h1
      subst h1
      cases r with
      | error e => exact ⟨g, rfl, h2⟩
      | ok F =>
        simp only
        split <;> exact ⟨g, rfl, h2⟩
    | _ => exact ⟨f, rfl, Relabelled.refl f⟩

theorem simulation_relabels (o : Obj) (f : RawFrame) (m fac : PyArg) :
    ∃ g, (o.getTiSimulation (.frame f) m fac).2.1 = .frame g ∧ Relabelled f g := by
  have hs : ∃ g, (setupSimulation true o.input.idx (.frame f) m fac).1 = .frame g ∧ Relabelled f g := by
    obtain ⟨g, h1, h2⟩ := validate_relabels f ["close"] true
    unfold setupSimulation
    rcases h : validateInputData (.frame f) ["close"] true with ⟨a, r⟩
    rw [h] at h1
    simp only at h1
    subst h1
    cases r with
    | error e => exact ⟨g, rfl, h2⟩
    | ok F =>
      refine ⟨g, ?_, h2⟩
      simp only [Bool.true_eq_false, if_false]
      split
      · rfl
      · cases checkMaxExposure m with
        | error e => rfl
        | ok v => cases checkFactor fac <;> rfl
  obtain ⟨g, h1, h2⟩ := hs
  refine ⟨g, ?_, h2⟩
  unfold Obj.getTiSimulation
  rcases h : setupSimulation true o.input.idx (.frame f) m fac with ⟨a, r⟩
  rw [h] at h1
  simp only at h1
  subst h1
  cases r with
  | error e => rfl
  | ok S =>
    simp only
    split <;> rfl

theorem put_own_frame (w : World) (d : Ref) (a : InputArg) (r : ℕ) (f : RawFrame) (hr : w.own[r]? = some f)
    (ha : d = .own r → ∃ g, a = .frame g ∧ Relabelled f g) :
    ∃ g, (w.put d a).own[r]? = some g ∧ Relabelled f g ∧ (d ≠ .own r → g = f) := by
  unfold World.put
  split
  · next r' f' =>
    by_cases he : r' = r
    · subst he
      obtain ⟨g, hg, hrel⟩ := ha rfl
      obtain rfl := InputArg.frame.inj hg
      refine ⟨_, ?_, hrel, fun hne => absurd rfl hne⟩
      simp only [List.getElem?_set_self', hr]
      rfl
    · refine ⟨f, ?_, Relabelled.refl f, fun _ => rfl⟩
      simp only [List.getElem?_set_ne he, hr]
  · exact ⟨f, hr, Relabelled.refl f, fun _ => rfl⟩
  · exact ⟨f, hr, Relabelled.refl f, fun _ => rfl⟩

theorem step_own (E : Env) (w : World) (c : Cmd) (r : ℕ) (f : RawFrame) (hr : w.own[r]? = some f) (hs : ∀ g, c ≠ .setOwn r g) :
    ∃ g, (w.step E c).1.own[r]? = some g ∧ Relabelled f g ∧ (¬ Passes r c → g = f) := by
  have hread : w.read (.own r) = .frame f := by simp [World.read, hr]
  cases c with
  | construct c data fill =>
    obtain ⟨g, h1, h2, h3⟩ := put_own_frame w data (TTI.construct E c (w.read data) fill).1 r f hr (by
      rintro rfl
      rw [hread]
      exact construct_relabels E c f fill)
    refine ⟨g, ?_, h2, h3⟩
    simp only [World.step, World.construct]
    split <;> exact h1
  | getTiData k => exact ⟨f, by simp only [World.step]; split <;> exact hr, Relabelled.refl f, fun _ => rfl⟩
  | getTiValue k date => exact ⟨f, by simp only [World.step]; split <;> exact hr, Relabelled.refl f, fun _ => rfl⟩
  | getTiSignal k => exact ⟨f, by simp only [World.step]; split <;> exact hr, Relabelled.refl f, fun _ => rfl⟩
  | getTiSimulation k close m fac =>
    simp only [World.step]
    split
    · next o _ =>
      obtain ⟨g, h1, h2, h3⟩ := put_own_frame w close (o.getTiSimulation (w.read close) m fac).2.1 r f hr (by
        rintro rfl
        rw [hread]
        exact simulation_relabels o f m fac)
      refine ⟨g, ?_, h2, h3⟩
      simp only [World.simulate]
      split
      · exact h1
      · split <;> exact h1
    · exact ⟨f, hr, Relabelled.refl f, fun _ => rfl⟩
  | setOwn r' f' =>
    refine ⟨f, ?_, Relabelled.refl f, fun _ => rfl⟩
    simp only [World.step]
    rw [List.getElem?_set_ne (fun he => hs f' (by rw [he]))]
    exact hr
  | setCell r' name row v => exact ⟨f, hr, Relabelled.refl f, fun _ => rfl⟩

/-- C94 (and C31 for whole programs): whatever a program does with the library, a frame of its own that it does not overwrite
itself keeps its dates, values and types; at most its labels become lower case. A frame that is never passed to the library
is not changed at all. -/
theorem C94_own_frames (E : Env) (w : World) (cs : List Cmd) (r : ℕ) (f : RawFrame) (hr : w.own[r]? = some f)
    (hs : ∀ g, Cmd.setOwn r g ∉ cs) :
    ∃ g, (w.run E cs).1.own[r]? = some g ∧ Relabelled f g ∧ ((∀ c ∈ cs, ¬ Passes r c) → g = f) := by
  induction cs generalizing w f with
  | nil => exact ⟨f, hr, Relabelled.refl f, fun _ => rfl⟩
  | cons c cs ih =>
    obtain ⟨g, h1, h2, h3⟩ := step_own E w c r f hr fun g e => hs g (by rw [e]; simp)
    obtain ⟨g', h4, h5, h6⟩ := ih _ g h1 fun x hx => hs x (List.mem_cons_of_mem _ hx)
    refine ⟨g', h4, Relabelled.trans h2 h5, fun hp => ?_⟩
    rw [h6 fun x hx => hp x (List.mem_cons_of_mem _ hx), h3 (hp c (by simp))]

/-- Two frames, one of them passed: its labels change, the other frame does not (`demoProgram` of `C94_witness` passes both). -/
example : (∀ g, Cmd.setOwn 1 g ∉ [Cmd.construct (.movingAverage (.int 2) (.str "simple")) (.own 0) (.bool true)]) ∧
    (∀ c ∈ [Cmd.construct (.movingAverage (.int 2) (.str "simple")) (.own 0) (.bool true)], ¬ Passes 1 c) ∧
    ((World.start [sample 4, sample 3]).run demoEnv
      [.construct (.movingAverage (.int 2) (.str "simple")) (.own 0) (.bool true)]).1.own.map (·.cols.map (·.label)) =
      [[.str "open", .str "high", .str "low", .str "close", .str "volume"],
       [.str "Open", .str "HIGH", .str "low", .str "Close", .str "volume"]] := by
  refine ⟨by simp, by simp [Passes], by decide +kernel⟩

end TTI.Props
