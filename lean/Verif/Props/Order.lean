import Verif.Spec.Order
import Verif.Lemmas.Order
import Verif.Props.Api
import Mathlib.Data.List.Find

set_option autoImplicit false

/-!
# C48: the order of the columns
-/

namespace TTI.Props

open TTI.Spec

theorem firstColumn_iff (ind : Ind) : ind.FirstColumn ↔ looksAtFirstColumn ind = true := by
  cases ind <;> simp [Ind.FirstColumn, looksAtFirstColumn]

theorem not_valid_of_other (f : RawFrame) (required : List String) (h : f.Valid required) (c : RawCol) (hc : c ∈ f.cols) :
    hasName required c = decide (c.name ∈ required) := by
  have := h.labels c hc
  unfold hasName RawCol.name
  cases hl : c.label with
  | str s => rfl
  | other => exact absurd hl this

theorem construct_valid (E : Env) (c : Call) (f : RawFrame) (fill : PyArg) (o : Obj)
    (h : (construct E c (.frame f) fill).2 = .ok o) : f.Valid o.ind.required := by
  unfold construct at h
  cases hc : c.check with
  | error e => rw [hc] at h; cases h
  | ok ind =>
    rw [hc] at h
    cases fill <;> first | cases h | skip
    rename_i b
    simp only at h
    rcases hv : validateInputData (.frame f) ind.required b with ⟨a, e | F⟩
    · rw [hv] at h; cases h
    · rw [hv] at h
      simp only at h
      cases ht : ind.calcTi E F with
      | error e => rw [ht] at h; cases h
      | ok T =>
        rw [ht] at h
        cases h
        exact (valid_of_ok f ind.required b F (by rw [hv])).1

/-- C48: the values do not depend on the order of the columns. Construction on the reordered frame raises the same
exception, or gives an object of the same class and parameters with the same indicator data, the same values and the same
dates. -/
theorem C48_values (E : Env) (c : Call) (fill : PyArg) (f g : RawFrame) (h : Reordered f g) :
    (construct E c (.frame f) fill).2.map (fun o => (o.ind, o.getTiData, o.getTiValue, o.input.idx)) =
      (construct E c (.frame g) fill).2.map fun o => (o.ind, o.getTiData, o.getTiValue, o.input.idx) := by
  rcases construct_order E c fill f g h.sameKind h.sameDates h.sameColumns with ⟨e, h1, h2⟩ | ⟨o, o', h1, h2, h3, -⟩
  · rw [h1, h2]
  · rw [h1, h2]
    simp only [Except.map, Obj.getTiData, h3.ind, h3.ti, h3.input.idx, Except.ok.injEq, Prod.mk.injEq, true_and, and_true]
    funext d
    rcases d with _ | _ | d <;> simp only [Obj.getTiValue, h3.ti]

/-- C48: apart from `AverageTrueRange` and `TypicalPrice`, nothing a user can observe depends on the order of the columns:
every sequence of calls, simulations included, has the same results. The same holds for these two as long as the same
required column comes first. -/
theorem C48_calls (E : Env) (c : Call) (fill : PyArg) (f g : RawFrame) (h : Reordered f g) (o o' : Obj)
    (ho : (construct E c (.frame f) fill).2 = .ok o) (ho' : (construct E c (.frame g) fill).2 = .ok o')
    (hf : looksAtFirstColumn o.ind = true → firstOf o.ind.required f = firstOf o.ind.required g) (cs : List ApiCall) :
    (o.steps cs).2 = (o'.steps cs).2 := by
  rcases construct_order E c fill f g h.sameKind h.sameDates h.sameColumns with ⟨e, h1, h2⟩ | ⟨p, p', h1, h2, h3, h4⟩
  · rw [h1] at ho; cases ho
  · rw [h1] at ho; rw [h2] at ho'
    cases ho; cases ho'
    refine h3.steps cs ?_
    intro hx
    refine h4 ?_ hx
    have := hf ((firstColumn_iff _).1 hx)
    have e1 : ∀ (f : RawFrame), f.Valid o.ind.required →
        (f.cols.filter fun c => decide (c.name ∈ o.ind.required)).head? = firstOf o.ind.required f := by
      intro f hv
      unfold firstOf
      rw [List.head?_filter]
      apply List.find?_congr
      intro c hc
      exact (not_valid_of_other f _ hv c hc).symm
    rw [e1 f (construct_valid E c f fill o h1), e1 g, this]
    have := construct_valid E c g fill o' h2
    rwa [← h3.ind] at this

/-- C48: in particular the signal. -/
theorem C48_signal (E : Env) (c : Call) (fill : PyArg) (f g : RawFrame) (h : Reordered f g) (o o' : Obj)
    (ho : (construct E c (.frame f) fill).2 = .ok o) (ho' : (construct E c (.frame g) fill).2 = .ok o')
    (hf : looksAtFirstColumn o.ind = false) : o.getTiSignal = o'.getTiSignal := by
  have := C48_calls E c fill f g h o o' ho ho' (fun h => by rw [hf] at h; cases h) [.getTiSignal]
  simpa [Obj.steps, Obj.step] using this

/-- Fourteen equal bars with high 10, low 8 and close 9, columns in the given order. -/
def orderBars (names : List (String × ℚ)) : RawFrame :=
  ⟨true, [1, 2, 3, 4, 5, 6, 7, 8, 9, 10, 11, 12, 13, 14],
    names.map fun n => ⟨.str n.1, true, List.replicate 14 (.fin n.2)⟩⟩

/-- C48: reordering the columns changes the signal of `AverageTrueRange`: with `high` first it is buy, with `close` first
it is hold. -/
theorem C48_average_true_range_witness (E : Env) :
    Reordered (orderBars [("high", 10), ("low", 8), ("close", 9)]) (orderBars [("close", 9), ("high", 10), ("low", 8)]) ∧
    (construct E .averageTrueRange (.frame (orderBars [("high", 10), ("low", 8), ("close", 9)])) (.bool true)).2.map
      Obj.getTiSignal = .ok (.ok .buy) ∧
    (construct E .averageTrueRange (.frame (orderBars [("close", 9), ("high", 10), ("low", 8)])) (.bool true)).2.map
      Obj.getTiSignal = .ok (.ok .hold) := by
  have hE : ∀ (x : InputArg), construct E .averageTrueRange x (.bool true) =
      construct demoEnv .averageTrueRange x (.bool true) := fun _ => rfl
  rw [hE, hE]
  refine ⟨⟨rfl, rfl, by decide +kernel⟩, by decide +kernel, by decide +kernel⟩

/-- C48: and that of `TypicalPrice`: with `low` first it is buy, with `high` first it is hold. -/
theorem C48_typical_price_witness (E : Env) :
    Reordered (orderBars [("low", 8), ("high", 10), ("close", 9)]) (orderBars [("high", 10), ("low", 8), ("close", 9)]) ∧
    (construct E (.typicalPrice (.int 14)) (.frame (orderBars [("low", 8), ("high", 10), ("close", 9)])) (.bool true)).2.map
      Obj.getTiSignal = .ok (.ok .buy) ∧
    (construct E (.typicalPrice (.int 14)) (.frame (orderBars [("high", 10), ("low", 8), ("close", 9)])) (.bool true)).2.map
      Obj.getTiSignal = .ok (.ok .hold) := by
  have hE : ∀ (x : InputArg), construct E (.typicalPrice (.int 14)) x (.bool true) =
      construct demoEnv (.typicalPrice (.int 14)) x (.bool true) := fun _ => rfl
  rw [hE, hE]
  refine ⟨⟨rfl, rfl, by decide +kernel⟩, by decide +kernel, by decide +kernel⟩

/-- The hypotheses of `C48_calls` on reordered data, for a class that does not look at the first column and for one that
does. -/
example : Reordered (orderBars [("low", 8), ("high", 10), ("close", 9)]) (orderBars [("low", 8), ("close", 9), ("high", 10)]) ∧
    firstOf ["high", "low", "close"] (orderBars [("low", 8), ("high", 10), ("close", 9)]) =
      firstOf ["high", "low", "close"] (orderBars [("low", 8), ("close", 9), ("high", 10)]) ∧
    firstOf ["high", "low", "close"] (orderBars [("low", 8), ("high", 10), ("close", 9)]) ≠ none ∧
    ((construct demoEnv .averageTrueRange (.frame (orderBars [("low", 8), ("high", 10), ("close", 9)])) (.bool true)).2.map
      fun o => (looksAtFirstColumn o.ind, o.ind.required)) = .ok (true, ["high", "low", "close"]) ∧
    ((construct demoEnv (.williamsR (.int 3)) (.frame (orderBars [("low", 8), ("high", 10), ("close", 9)])) (.bool true)).2.map
      fun o => looksAtFirstColumn o.ind) = .ok false := by
  refine ⟨⟨rfl, rfl, by decide +kernel⟩, by decide +kernel, by decide +kernel, by decide +kernel, by decide +kernel⟩

end TTI.Props
