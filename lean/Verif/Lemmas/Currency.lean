import Verif.Spec.Currency
import Verif.Lemmas.ScaleObj
import Verif.Lemmas.SimMap

set_option autoImplicit false

/-!
# Helper lemmas: a simulation in another currency
-/

namespace TTI

open Spec

variable {c : ℚ}

theorem transport_sc (hc : 0 < c) (M : Option Val) (f : Val) :
    Sim.Transport (sc c) ⟨M, f⟩ ⟨M.map (sc c), f⟩ where
  add x y := (sc_add hc x y).symm
  sub x y := (sc_sub hc x y).symm
  lt x y := sc_lt hc x y
  zero := by show Val.fin (c * ((0 : ℤ) : ℚ)) = Val.fin ((0 : ℤ) : ℚ); simp
  mulF x := (sc_mul_right hc f x).symm
  divF x := (sc_div_left hc x f).symm
  mulL n x := (sc_mul_right hc _ x).symm
  mulR n x := (sc_mul_left hc x _).symm
  limit x y := by
    cases M with
    | none => rfl
    | some m =>
      show Val.lt (sc c m) (Val.add (sc c x) (sc c y)) = Val.lt m (Val.add x y)
      rw [sc_add hc, sc_lt hc]

theorem rounds_transport {φ : Val → Val} (full : Obj) (S S' : SimSetup) (ht : Sim.Transport φ S.params S'.params)
    (hn : φ .nan = .nan) (hs : S'.close = S.close.map φ) :
    ∀ (is : List ℕ) (now : Obj) (st : Sim.State Val),
      simRounds full S' is now (Sim.State.map φ st) =
        ((simRounds full S is now st).1, (simRounds full S is now st).2.map (Sim.State.map φ))
  | [], now, st => rfl
  | i :: rest, now, st => by
    simp only [simRounds]
    cases full.cut i with
    | none => rfl
    | some o =>
      dsimp only
      cases o.getTiSignal with
      | error e => rfl
      | ok s =>
        dsimp only
        have e : S'.close.getD i .nan = φ (S.close.getD i .nan) := by
          rw [hs, List.getD_eq_getElem?_getD, List.getD_eq_getElem?_getD, List.getElem?_map]
          cases S.close[i]? with
          | none => exact hn.symm
          | some v => rfl
        rw [e, ht.round]
        exact rounds_transport full S S' ht hn hs rest o _

theorem checkMaxExposure_limit (hc : 0 < c) {m m' : PyArg} (h : LimitIn c m m') :
    checkMaxExposure m' = (checkMaxExposure m).map (Option.map (sc c)) := by
  rcases h with ⟨h1, rfl⟩ | ⟨v, h1, h2⟩
  · unfold checkMaxExposure
    rw [h1]
    dsimp only
    split <;> rfl
  · unfold checkMaxExposure
    rw [h1, h2]
    dsimp only
    rw [mul_eq_sc c hc, sc_le_zero hc]
    split
    · rfl
    · rfl

theorem setup_currency (hc : 0 < c) (idx : List ℤ) (f : RawFrame) (b : Bool) {m m' : PyArg} (hm : LimitIn c m m') (k : PyArg) :
    (setupSimulation b idx (.frame (scaled c 1 f)) m' k).2 = (setupSimulation b idx (.frame f) m k).2.map fun S =>
      ⟨S.idx, scl c S.close, ⟨S.params.maxExposure.map (sc c), S.params.factor⟩⟩ := by
  unfold setupSimulation
  split
  · rfl
  dsimp only
  have hv := validate_scaled c 1 hc one_pos f ["close"] true
  rcases h1 : validateInputData (.frame (scaled c 1 f)) ["close"] true with ⟨c1, r1⟩
  rcases h2 : validateInputData (.frame f) ["close"] true with ⟨c2, r2⟩
  rw [h1, h2] at hv
  dsimp only at hv
  subst hv
  cases r2 with
  | error e => rfl
  | ok F =>
    dsimp only [Except.map]
    have hi : (Frame.scale c 1 F).idx = F.idx := rfl
    rw [hi, checkMaxExposure_limit hc hm]
    split
    · rfl
    · cases checkMaxExposure m with
      | error e => rfl
      | ok v =>
        dsimp only [Except.map]
        cases checkFactor k with
        | error e => rfl
        | ok w =>
          simp only [scale_col]
          rfl

theorem exchanged_eq (hc : 0 < c) (r : Sim.Row Val) : exchanged c r = Sim.Row.map (sc c) r := by
  simp only [exchanged, mul_eq_sc c hc, Sim.Row.map]

theorem simulation_currency (hc : 0 < c) (o : Obj) (f : RawFrame) {m m' : PyArg} (hm : LimitIn c m m') (k : PyArg) :
    (o.getTiSimulation (.frame (scaled c 1 f)) m' k).1 = (o.getTiSimulation (.frame f) m k).1 ∧
    (o.getTiSimulation (.frame (scaled c 1 f)) m' k).2.2.map outcome =
      (o.getTiSimulation (.frame f) m k).2.2.map (outcomeIn c) := by
  have hs := setup_currency hc o.input.idx f true hm k
  unfold Obj.getTiSimulation
  rcases h1 : setupSimulation true o.input.idx (.frame (scaled c 1 f)) m' k with ⟨c1, r1⟩
  rcases h2 : setupSimulation true o.input.idx (.frame f) m k with ⟨c2, r2⟩
  rw [h1, h2] at hs
  dsimp only at hs
  subst hs
  cases r2 with
  | error e => exact ⟨rfl, rfl⟩
  | ok S =>
    dsimp only [Except.map]
    have hr := rounds_transport (φ := sc c) o S ⟨S.idx, scl c S.close, ⟨S.params.maxExposure.map (sc c), S.params.factor⟩⟩
      (transport_sc hc _ _) rfl rfl (List.range o.ti.len) o Sim.State.init
    have h0 : Sim.State.map (sc c) Sim.State.init = (Sim.State.init : Sim.State Val) := rfl
    rw [h0] at hr
    rw [hr]
    rcases simRounds o S (List.range o.ti.len) o Sim.State.init with ⟨o', r'⟩
    cases r' with
    | error e => exact ⟨rfl, rfl⟩
    | ok st =>
      refine ⟨rfl, ?_⟩
      simp only [Except.map, outcome, outcomeIn, Sim.statistics, Sim.State.map, Sim.countOpen_map, List.length_map,
        List.filter_map, padRows, List.map_append, List.map_map, List.map_replicate, Option.map]
      have e : (some ∘ Sim.Row.map (sc c)) = (Option.map (exchanged c) ∘ some : Sim.Row Val → Option (Sim.Row Val)) := by
        funext r
        simp [exchanged_eq hc]
      simp only [Except.ok.injEq, Outcome.mk.injEq, true_and]
      exact ⟨by rw [e], rfl, rfl, rfl, rfl, trivial⟩

end TTI
