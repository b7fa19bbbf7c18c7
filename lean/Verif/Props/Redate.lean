import Verif.Lemmas.Redate
import Verif.Lemmas.Built
import Verif.Props.Sample

set_option autoImplicit false

/-!
# C74: only the order of the dates matters
-/

namespace TTI.Props

open Spec

theorem calcTi_dates (E : Env) (ind : Ind) (F T : Frame) (h : ind.calcTi E F = .ok T) : ∀ d ∈ T.idx, d ∈ F.idx := by
  intro d hd
  by_contra hn
  have e := calcTi_redate (φ := fun e => if e ∈ F.idx then e else e + 1) E F ind
  have h1 : redate (fun e => if e ∈ F.idx then e else e + 1) F = F := by
    cases F with
    | mk idx cols =>
      simp only [redate, Frame.mk.injEq, and_true]
      exact (List.map_congr_left fun a ha => by simp [ha]).trans (List.map_id _)
  rw [h1, h] at e
  have e2 : T.idx = T.idx.map fun e => if e ∈ F.idx then e else e + 1 := congrArg Frame.idx (Except.ok.inj e)
  obtain ⟨i, hi, rfl⟩ := List.getElem_of_mem hd
  have e3 : T.idx[i]? = (T.idx.map fun e => if e ∈ F.idx then e else e + 1)[i]? := by rw [← e2]
  rw [List.getElem?_map, List.getElem?_eq_getElem hi] at e3
  simp [hn] at e3

theorem construct_dates {S : Set ℤ} (E : Env) (c : Call) (x : InputArg) (hx : DatesIn S x) (fill : PyArg) (o : Obj)
    (h : (construct E c x fill).2 = .ok o) : ObjDatesIn S o := by
  cases fill
  case bool b =>
    obtain ⟨ind, F, T, -, hv, ht, rfl⟩ := (construct_ok_iff _ _ _ _ _).1 h
    have hF := validate_dates x hx hv
    refine ⟨?_, fun d hd => hF d (calcTi_dates E ind F T ht d hd)⟩
    have : (ind.inputAfter F).idx = F.idx := by cases ind <;> rfl
    show ∀ d ∈ (ind.inputAfter F).idx, d ∈ S
    rw [this]
    exact hF
  all_goals
    unfold construct at h
    split at h <;> cases h

/-- C74: moving the data to other dates in the same order (`φ` need be increasing on the dates in use only, so that gaps may
be opened or closed) gives the same object on the new dates, or the same exception; the caller's frame is changed in the same
way. -/
theorem C74_construct (φ : ℤ → ℤ) (S : Set ℤ) (hφ : StrictMonoOn φ S) (E : Env) (c : Call) (x : InputArg) (fill : PyArg)
    (hx : DatesIn S x) :
    construct E c (redateInput φ x) fill =
      (redateInput φ (construct E c x fill).1, (construct E c x fill).2.map (redateObj φ)) :=
  construct_redate hφ E c x hx fill

/-- C74: construction followed by any calls, with the data, the close prices of the simulations and the dates asked for moved
to the new dates: values, signals, simulation rows, statistics and exceptions are the same, and the dates of the frames
returned are the new ones. -/
theorem C74_calls (φ : ℤ → ℤ) (S : Set ℤ) (hφ : StrictMonoOn φ S) (E : Env) (c : Call) (x : InputArg) (fill : PyArg)
    (calls : List ApiCall) (hx : DatesIn S x) (hc : ∀ a ∈ calls, CallDatesIn S a) :
    ((construct E c (redateInput φ x) fill).2.map fun o => (o.steps (calls.map (redateCall φ))).2) =
      (construct E c x fill).2.map fun o => (o.steps calls).2.map (redateResult φ) := by
  rw [C74_construct φ S hφ E c x fill hx]
  cases h : (construct E c x fill).2 with
  | error e => rfl
  | ok o =>
    dsimp only [Except.map]
    rw [steps_redate hφ calls o (construct_dates E c x hx fill o h) hc]

/-- C74: the object after a simulation is the same as well, on the new dates, and so is the frame of close prices that the
caller passed to it. -/
theorem C74_simulation (φ : ℤ → ℤ) (S : Set ℤ) (hφ : StrictMonoOn φ S) (E : Env) (c : Call) (x : InputArg) (fill : PyArg)
    (o : Obj) (hx : DatesIn S x) (h : (construct E c x fill).2 = .ok o) (close : InputArg) (m f : PyArg)
    (hc : DatesIn S close) :
    (redateObj φ o).getTiSimulation (redateInput φ close) m f =
      (redateObj φ (o.getTiSimulation close m f).1, redateInput φ (o.getTiSimulation close m f).2.1,
        (o.getTiSimulation close m f).2.2.map (redateSim φ)) :=
  simulation_redate hφ o (construct_dates E c x hx fill o h) close hc m f

/-- Dates ten days apart, moved to adjacent days (the map merges dates that are not in use). -/
def demoGaps : RawFrame := ⟨true, [20, 0, 10], [⟨.str "Close", true, [.fin 3, .fin 1, .fin 2]⟩]⟩

example : StrictMonoOn (fun d : ℤ => d / 10) {d | d % 10 = 0} ∧ DatesIn {d | d % 10 = 0} (.frame demoGaps) ∧
    redateInput (fun d => d / 10) (.frame demoGaps) =
      .frame ⟨true, [2, 0, 1], [⟨.str "Close", true, [.fin 3, .fin 1, .fin 2]⟩]⟩ := by
  refine ⟨fun a ha b hb h => ?_, fun d hd => ?_, by decide +kernel⟩
  · change a % 10 = 0 at ha
    change b % 10 = 0 at hb
    show a / 10 < b / 10
    omega
  · simp only [demoGaps, List.mem_cons, List.not_mem_nil, or_false] at hd
    rcases hd with rfl | rfl | rfl <;> decide

example : ((construct demoEnv (.onBalanceVolume) (.frame (sample 3)) (.bool true)).2.map fun o => o.getTiData.idx) = .ok [0, 1, 2] ∧
    ((construct demoEnv (.onBalanceVolume) (redateInput (fun d => d ^ 3 + 5) (.frame (sample 3))) (.bool true)).2.map
      fun o => o.getTiData.idx) = .ok [5, 6, 13] := by
  decide +kernel

/-- C74: the order does matter: with the days in reverse order the On Balance Volume is another one. -/
theorem C74_order_witness (E : Env) : ((construct E (.onBalanceVolume) (.frame (sample 2)) (.bool true)).2.map fun o =>
    o.getTiData.cols) ≠ (construct E (.onBalanceVolume) (redateInput (fun d => -d) (.frame (sample 2))) (.bool true)).2.map
      fun o => o.getTiData.cols := by
  have hE : ∀ (x : InputArg), construct E (.onBalanceVolume) x (.bool true) =
    construct demoEnv (.onBalanceVolume) x (.bool true) := fun _ => rfl
  rw [hE, hE]
  decide +kernel

end TTI.Props
