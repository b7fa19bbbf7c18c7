import Verif.Lemmas.NoDown
import Verif.Spec.Volume
import Verif.Props.Averages

set_option autoImplicit false

/-!
# Relative momentum and relative strength without down moves: C49
-/

namespace TTI.Props

open Spec

/-- C49: if no close is below the close `m` days earlier, RelativeMomentumIndex is missing on every day. -/
theorem C49_rmi_undefined (E : Env) (c : Call) (f : RawFrame) (fill : Bool) (o : Obj) (hw : WF f)
    (h : (construct E c (.frame f) (.bool fill)).2 = .ok o) (hb : f.EachRow o.ind.required AnyPrices)
    (p m : ℕ) (ho : o.ind = .relativeMomentumIndex p m)
    (hd : ∀ j < f.idx.length, m ≤ j → close f (j - m) ≤ close f j) (i : ℕ) : o.getTiData.day "rmi" i = .nan := by
  obtain ⟨F, x, hg, hlen, -, h1, h2, h3, h4, ht, -, hc⟩ := construct_days E c f fill o _ hw h hb
  have hp := check_pos c o.ind hc
  rcases o with ⟨ind, input, T⟩
  simp only [Obj.getTiData] at *
  subst ho
  have mc : "close" ∈ (Ind.relativeMomentumIndex p m).required := by simp [Ind.required]
  have hcl : ∀ j < F.len, close f j = x "close" j := fun j hj => by
    unfold close; rw [h3 _ mc j (by omega)]; rfl
  by_cases hi : i < F.len
  · refine Ind.RelativeMomentumIndex.no_down F (x "close") p m hp.1 T (h1 _ mc) (h2 _ mc) (fun j hj hj' => ?_) ht i hi
    rw [← hcl j hj, ← hcl (j - m) (by omega)]
    exact hd j (by omega) hj'
  · replace ht : Ind.RelativeMomentumIndex.calcTi p m F = .ok T := ht
    unfold Ind.RelativeMomentumIndex.calcTi at ht
    simp only at ht
    split at ht
    · simp at ht
    simp only [Except.ok.injEq] at ht
    subst ht
    show val (Frame.col _ "rmi") i = _
    rw [Frame.col_single, val_ge _ _ (by simp [Ind.RelativeMomentumIndex.raw, h1 _ mc]; omega)]

/-- C49: RelativeStrengthIndex, in the same situation, is 100 as soon as `p` days are over and one of the days up to then
brought a rise of at least `p` units of the fourth decimal (period at least 3; the smoothed changes are rounded to 4
decimals at every step, so smaller rises may be lost). -/
theorem C49_rsi_hundred (E : Env) (c : Call) (f : RawFrame) (fill : Bool) (o : Obj) (hw : WF f)
    (h : (construct E c (.frame f) (.bool fill)).2 = .ok o) (hb : f.EachRow o.ind.required AnyPrices)
    (p : ℕ) (ho : o.ind = .relativeStrengthIndex p) (hp : 3 ≤ p)
    (hd : ∀ j < f.idx.length, 1 ≤ j → close f (j - 1) ≤ close f j) (i : ℕ) (hi : i < f.idx.length) (hpi : p ≤ i)
    (j : ℕ) (hj : 0 < j) (hji : j ≤ i) (hup : (p : ℚ) / 10000 ≤ close f j - close f (j - 1)) :
    o.getTiData.day "rsi" i = .fin 100 := by
  obtain ⟨F, x, hg, hlen, -, h1, h2, h3, h4, ht, -, hc⟩ := construct_days E c f fill o _ hw h hb
  rcases o with ⟨ind, input, T⟩
  simp only [Obj.getTiData] at *
  subst ho
  have mc : "close" ∈ (Ind.relativeStrengthIndex p).required := by simp [Ind.required]
  have hcl : ∀ j < F.len, close f j = x "close" j := fun j hj => by
    unfold close; rw [h3 _ mc j (by omega)]; rfl
  refine Ind.RelativeStrengthIndex.no_down F (x "close") p T (h1 _ mc) (h2 _ mc) (fun j hj hj' => ?_) ht hp i (by omega) hpi j hj
    hji (by rw [← hcl j (by omega), ← hcl (j - 1) (by omega)]; exact hup)
  rw [← hcl j hj, ← hcl (j - 1) (by omega)]
  exact hd j (by omega) hj'

/-- Closes that never fall: 10, 10, 11, 11, 11.5. -/
def demoRising : RawFrame := ⟨true, [2, 1, 3, 5, 4],
  [⟨.str "close", true, [.fin 10, .fin 10, .fin 11, .fin (23 / 2), .fin 11]⟩]⟩

theorem demoRising_rows : demoRising.EachRow ["close"] AnyPrices := by
  intro j hj
  have hj' : j < 5 := hj
  refine ⟨fun n => match demoRising.cell n j with
    | .fin q => q
    | _ => 0, ?_, trivial⟩
  intro n hn
  rw [List.mem_singleton] at hn
  subst hn
  interval_cases j <;> decide +kernel

theorem demoRising_closes : ∀ j < 5, close demoRising j = [10, 10, 11, 11, 23 / 2].getD j 0 := by
  intro j hj
  interval_cases j <;> decide +kernel

/-- The hypotheses on these closes, and the values. -/
example : WF demoRising ∧ (∀ j < demoRising.idx.length, 1 ≤ j → close demoRising (j - 1) ≤ close demoRising j) ∧
    ((3 : ℕ) : ℚ) / 10000 ≤ close demoRising 2 - close demoRising 1 ∧
    ((construct demoEnv (.relativeMomentumIndex (.int 3) (.int 1)) (.frame demoRising) (.bool true)).2.map fun o =>
      (o.ind, (List.range 5).map (o.getTiData.day "rmi"))) = .ok (.relativeMomentumIndex 3 1, [.nan, .nan, .nan, .nan, .nan]) ∧
    ((construct demoEnv (.relativeStrengthIndex (.int 3)) (.frame demoRising) (.bool true)).2.map fun o =>
      (o.ind, (List.range 5).map (o.getTiData.day "rsi"))) = .ok (.relativeStrengthIndex 3, [.nan, .nan, .nan, .fin 100, .fin 100]) := by
  refine ⟨by unfold WF; decide, ?_, ?_, by decide +kernel, by decide +kernel⟩
  · intro j hj hj'
    have hj5 : j < 5 := hj
    rw [demoRising_closes j hj5, demoRising_closes (j - 1) (by omega)]
    interval_cases j <;> norm_num
  · rw [demoRising_closes 2 (by omega), demoRising_closes 1 (by omega)]
    norm_num

/-- Why small rises and short periods are excluded: with period 2 the smoothed rise of 0.0002 is rounded away after one
quiet day and the index becomes missing again. -/
example : ((construct demoEnv (.relativeStrengthIndex (.int 2))
      (.frame ⟨true, [1, 2, 3, 4, 5, 6], [⟨.str "close", true,
        [.fin 10, .fin 10, .fin (100002 / 10000), .fin (100002 / 10000), .fin (100002 / 10000), .fin (100002 / 10000)]⟩]⟩)
      (.bool true)).2.map fun o => (List.range 6).map (o.getTiData.day "rsi")) =
    .ok [.nan, .nan, .fin 100, .nan, .nan, .nan] := by decide +kernel

end TTI.Props
