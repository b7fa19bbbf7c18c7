import Verif.Lemmas.FloatReport
import Verif.Lemmas.Double
import Verif.Props.Sample

set_option autoImplicit false

/-! The float64 arithmetic on the concrete bars. -/

namespace TTI.Props

open Spec Flt

/-- The objects the examples of C85 and C86 speak of exist. -/
theorem sample_float {E : Env} {c : Call} {ind : Ind} (n : ℕ) (name : String) (i : ℕ) (v : Val) {P : (String → ℚ) → Prop}
    (h : ((Flt.construct doubleArith E c (.frame (sample n)) (.bool true)).2.map fun o => (o.ind, o.getTiData.day name i)) = .ok (ind, v))
    (hn : ∀ m ∈ ind.required, m ∈ ["open", "high", "low", "close", "volume"])
    (hP : ∀ x : String → ℚ, Bar x ∧ 0 < x "low" ∧ x "low" < x "high" ∧ 0 < x "volume" → P x) :
    ∃ o, FloatBuilt doubleArith E c (sample n) true o P ∧ o.ind = ind ∧ o.getTiData.day name i = v := by
  cases hc : (Flt.construct doubleArith E c (.frame (sample n)) (.bool true)).2 with
  | error e => rw [hc] at h; simp [Except.map] at h
  | ok o =>
    rw [hc] at h
    simp only [Except.map, Except.ok.injEq, Prod.mk.injEq] at h
    obtain ⟨h1, h2⟩ := h
    refine ⟨o, ⟨sample_wf n, hc, ?_⟩, h1, h2⟩
    rw [h1]
    intro j hj
    obtain ⟨x, hx, hb⟩ := sample_rows n _ hn j hj
    exact ⟨x, hx, hP x hb⟩

/-- Adding up from left to right is one of the orders. -/
theorem leftSum_sums (fl : ℚ → ℚ) (l : List ℚ) (h : l ≠ []) : SumsTo fl l (leftSum fl l) := by
  cases l with
  | nil => exact absurd rfl h
  | cons x l =>
    have key : ∀ (l m : List ℚ) (a : ℚ), SumsTo fl m a → SumsTo fl (m ++ l) (l.foldl (fun a b => fl (a + b)) a) := by
      intro l
      induction l with
      | nil => intro m a h; simpa using h
      | cons b l ih =>
        intro m a h
        have := ih (m ++ [b]) (fl (a + b)) (.add h (.one b) (List.Perm.refl _))
        simpa using this
    exact key l [x] x (.one x)

end TTI.Props
