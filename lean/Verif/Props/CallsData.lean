import Verif.Props.Calls

set_option autoImplicit false

/-! # Calls without data, and the default of `fill_missing_values`: C67 -/

namespace TTI.Props

open Spec

/-- C67: a call of any class that passes no `input_data` is a `TypeError`. -/
theorem C67_data_required (E : Env) (s : Sig) (hs : s ∈ signatures) (kw : List (String × Arg)) (hk : ∀ w, ("input_data", w) ∉ kw) :
    callClass E s.cls [] kw = .error .typeError := by
  refine (C67_call E s hs [] kw).1 fun hw => ?_
  obtain ⟨d, -, -, ⟨name, dflt, h1, h2⟩, -⟩ := (C67_call E s hs [] kw).2 hw
  have h3 : some (name, dflt) = some ("input_data", none) := h1.symm
  simp only [Option.some.injEq, Prod.mk.injEq] at h3
  obtain ⟨rfl, rfl⟩ := h3
  rcases h2 with h2 | ⟨-, h2 | ⟨-, h2⟩⟩
  · simp at h2
  · exact hk _ h2
  · cases h2

/-- C67: leaving out `fill_missing_values` is the same as passing `True`. -/
theorem C67_fill_default (E : Env) (s : Sig) (hs : s ∈ signatures) (pos : List Arg) (kw : List (String × Arg))
    (hp : pos.length ≤ s.params.length + 1) (hk : ∀ w, ("fill_missing_values", w) ∉ kw) :
    callClass E s.cls pos kw = callClass E s.cls pos (("fill_missing_values", .param (.bool true)) :: kw) :=
  C67_default_value E s.cls s hs rfl pos kw (s.params.length + 1) "fill_missing_values" (.param (.bool true))
    (by simp [Sig.all]) hp hk

/-- The hypotheses are met, for example, by a call with a keyword only. -/
example (s : Sig) (_ : s ∈ signatures) : (∀ w : Arg, ("input_data", w) ∉ [("period", Arg.param (.int 3))]) ∧
    ([] : List Arg).length ≤ s.params.length + 1 := ⟨by simp, by simp⟩

/-- A class does not accept a parameter that is neither a number nor a string. -/
theorem check_other (c : Call) (k : String) (h : (k, PyArg.other) ∈ arguments c) (ind : Ind) : c.check ≠ .ok ind := by
  cases c <;> simp only [arguments, List.mem_cons, List.not_mem_nil, or_false, Prod.mk.injEq] at h <;> intro hc <;>
    casesm* _ ∨ _, _ ∧ _ <;> subst_vars <;>
    simp [Call.check, bind, Except.bind, intAbove, PyArg.asInt, PyArg.asNumber, checkStdNumber, checkShift, checkMaType,
      checkMaPeriod, checkMode, checkTarget, checkSlowing, checkMethod] at hc <;> (repeat' split at hc) <;> first | exact absurd hc (by simp) | simp_all

/-- A call gives one value to a parameter. -/
theorem gives_unique {params : List (String × Option Arg)} {pos : List Arg} {kw : List (String × Arg)} {i : ℕ} {v w : Arg}
    (h : WellFormed params pos kw) (hv : Gives params pos kw i v) (hw : Gives params pos kw i w) : v = w := by
  obtain ⟨n, d, h1, h2⟩ := hv
  obtain ⟨n', d', h1', h2'⟩ := hw
  rw [h1] at h1'
  simp only [Option.some.injEq, Prod.mk.injEq] at h1'
  obtain ⟨rfl, rfl⟩ := h1'
  rcases h2 with h2 | ⟨hl, h2⟩ <;> rcases h2' with h2' | ⟨hl', h2'⟩
  · rw [h2] at h2'
    simpa using h2'
  · rw [List.getElem?_eq_none hl'] at h2
    cases h2
  · rw [List.getElem?_eq_none hl] at h2'
    cases h2'
  · rcases h2 with h2 | ⟨h2, h3⟩ <;> rcases h2' with h2' | ⟨h2', h3'⟩
    · have := List.inj_on_of_nodup_map h.once h2 h2' rfl
      simpa using this
    · exact absurd h2 (h2' _)
    · exact absurd h2' (h2 _)
    · rw [h3] at h3'
      simpa using h3'

/-- C67: data and parameters in each other's place. A call whose `input_data` is a parameter, or one of whose parameters is data,
creates no object; `Class(a)` with a parameter only raises the exception for a wrong type. -/
theorem C67_mixed_up (E : Env) (s : Sig) (hs : s ∈ signatures) (pos : List Arg) (kw : List (String × Arg)) :
    (∀ a, Gives s.all pos kw 0 (.param a) → ∀ o, callClass E s.cls pos kw ≠ .ok o) ∧
    (∀ i d, Gives s.all pos kw (i + 1) (.data d) → ∀ o, callClass E s.cls pos kw ≠ .ok o) ∧
    ∀ a, callClass E s.cls [.param a] [] = .error .wrongType := by
  refine ⟨fun a ha o ho => ?_, fun i d hd o ho => ?_, fun a => ?_⟩
  · by_cases hw : WellFormed s.all pos kw
    · obtain ⟨x, fill, c, hx, -, -, -, -, h⟩ := (C67_call E s hs pos kw).2 hw
      obtain rfl := gives_unique hw hx ha
      rw [h] at ho
      unfold construct at ho
      cases hc : c.check with
      | error e => rw [hc] at ho; cases ho
      | ok ind =>
        rw [hc] at ho
        cases hf : fill.asParam <;> rw [hf] at ho <;> cases ho
    · rw [(C67_call E s hs pos kw).1 hw] at ho
      cases ho
  · by_cases hw : WellFormed s.all pos kw
    · obtain ⟨x, fill, c, -, hf, hn, ha, -, h⟩ := (C67_call E s hs pos kw).2 hw
      rw [h] at ho
      unfold construct at ho
      have hlen : (arguments c).length = s.params.length := by simpa using congrArg List.length hn
      rcases lt_or_ge i s.params.length with hi | hi
      · have hi' : i < (arguments c).length := by omega
        obtain ⟨v, hv, hva⟩ := ha i _ _ (List.getElem?_eq_getElem hi')
        obtain rfl := gives_unique hw hv hd
        cases hc : c.check with
        | error e => rw [hc] at ho; cases ho
        | ok ind =>
          refine check_other c (arguments c)[i].1 ?_ ind hc
          have hva' : PyArg.other = (arguments c)[i].2 := hva
          rw [hva']
          exact List.getElem_mem hi'
      · have hi' : i = s.params.length := by
          obtain ⟨n, e, h1, -⟩ := hd
          have := (List.getElem?_eq_some_iff.1 h1).1
          simp [Sig.all] at this
          omega
        subst hi'
        obtain rfl := gives_unique hw hf hd
        cases hc : c.check <;> rw [hc] at ho <;> cases ho
    · rw [(C67_call E s hs pos kw).1 hw] at ho
      cases ho
  · obtain ⟨c, ind, -, hc, -, -, -, -, h⟩ := callClass_alone E s hs (.param a)
    rw [h]
    unfold construct
    rw [hc]
    rfl

/-- The hypotheses are met, for example, by `Class(20)` and by a call that gives its data a second time. -/
example (s : Sig) (_ : s ∈ signatures) (d : InputArg) : Gives s.all [.param (.int 20)] [] 0 (.param (.int 20)) ∧
    Gives s.all [.data d] [("fill_missing_values", .data d)] (s.params.length + 1) (.data d) :=
  ⟨⟨"input_data", none, rfl, Or.inl rfl⟩,
    ⟨"fill_missing_values", some (.param (.bool true)), by simp [Sig.all], Or.inr ⟨by simp, Or.inl (by simp)⟩⟩⟩

end TTI.Props
