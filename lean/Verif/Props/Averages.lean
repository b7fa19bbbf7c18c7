import Verif.Lemmas.Averages
import Verif.Props.Range

set_option autoImplicit false

/-!
# Moving averages: C40

`f.day "close" i` is the user's close of the `i`-th day, `T.day name i` the indicator's value of that day.
-/

namespace TTI.Props

/-- C40: if the closes up to the `i`-th day lie between `lo` and `hi`, the value of a simple, exponential, triangular or
variable moving average or of Wilder's smoothing on that day is missing or lies between `lo` and `hi`, both rounded to 4
decimals. All parameters, all rows. -/
theorem C40_average_inside (E : Env) (c : Call) (f : RawFrame) (fill : Bool) (o : Obj) (hw : WF f)
    (h : (construct E c (.frame f) (.bool fill)).2 = .ok o) (hb : f.EachRow o.ind.required Spec.AnyPrices)
    (name : String) (hn : Spec.averageColumn o.ind = some name) (i : ℕ) (hi' : i < f.idx.length) (lo hi : ℚ)
    (hlh : ∀ j ≤ i, ∀ q, f.day "close" j = .fin q → lo ≤ q ∧ q ≤ hi) :
    Spec.InRange (roundQ 4 lo) (roundQ 4 hi) (o.getTiData.day name i) := by
  obtain ⟨F, x, hg, hlen, -, h1, h2, h3, -, ht, -, hc⟩ := construct_days E c f fill o _ hw h hb
  have hp := check_pos c o.ind hc
  rcases o with ⟨ind, input, T⟩
  simp only [Obj.getTiData] at *
  apply inRange_of_sat
  show Val.Sat _ (val (T.col name) i)
  cases ind <;> simp only [Spec.averageColumn, reduceCtorEq] at hn
  case movingAverage p t =>
    have hx : ∀ j ≤ i, lo ≤ x "close" j ∧ x "close" j ≤ hi := fun j hj =>
      hlh j hj _ (h3 "close" (by simp [Ind.required]) j (by omega))
    have key : t ≠ .timeSeries → Val.Sat (fun q => roundQ 4 lo ≤ q ∧ q ≤ roundQ 4 hi) (val (T.col t.column) i) := fun hts =>
      Ind.MovingAverage.inside p hp.1 t F T (x "close") (h1 _ (by simp [Ind.required])) (h2 _ (by simp [Ind.required])) ht hts i
        (by omega) lo hi hx
    cases t <;> simp only [Spec.averageColumn, Option.some.injEq, reduceCtorEq] at hn <;> subst hn <;>
      exact key (by simp)
  case wildersSmoothing p =>
    have hx : ∀ j ≤ i, lo ≤ x "close" j ∧ x "close" j ≤ hi := fun j hj =>
      hlh j hj _ (h3 "close" (by simp [Ind.required]) j (by omega))
    simp only [Option.some.injEq] at hn
    subst hn
    exact Ind.WildersSmoothing.inside p hp F T (x "close") (h1 _ (by simp [Ind.required])) (h2 _ (by simp [Ind.required])) ht i
        (by omega) lo hi hx

/-- C40, exact for bounds that have at most 4 decimals. -/
theorem C40_average_inside_exact (E : Env) (c : Call) (f : RawFrame) (fill : Bool) (o : Obj) (hw : WF f)
    (h : (construct E c (.frame f) (.bool fill)).2 = .ok o) (hb : f.EachRow o.ind.required Spec.AnyPrices)
    (name : String) (hn : Spec.averageColumn o.ind = some name) (i : ℕ) (hi' : i < f.idx.length) (lo hi : ℤ)
    (hlh : ∀ j ≤ i, ∀ q, f.day "close" j = .fin q → (lo : ℚ) / 10000 ≤ q ∧ q ≤ (hi : ℚ) / 10000) :
    Spec.InRange ((lo : ℚ) / 10000) ((hi : ℚ) / 10000) (o.getTiData.day name i) := by
  have := C40_average_inside E c f fill o hw h hb name hn i hi' _ _ hlh
  have e : ∀ z : ℤ, roundQ 4 ((z : ℚ) / 10000) = (z : ℚ) / 10000 := fun z => by
    have := roundQ_div 4 z
    norm_num at this
    exact this
  rwa [e, e] at this

/-- Three closes, not in the order of the dates. -/
def demoCloses : RawFrame := ⟨true, [2, 1, 3], [⟨.str "Close", true, [.fin 13, .fin 10, .fin (23 / 2)]⟩]⟩

theorem demoCloses_rows : demoCloses.EachRow ["close"] Spec.AnyPrices := by
  intro j hj
  have hj' : j < 3 := hj
  refine ⟨fun n => match demoCloses.cell n j with
    | .fin q => q
    | _ => 0, ?_, trivial⟩
  intro n hn
  rw [List.mem_singleton] at hn
  subst hn
  interval_cases j <;> decide +kernel

/-- The hypotheses on concrete data; the average of the second day is inside the first two closes. -/
example : WF demoCloses ∧ demoCloses.EachRow (Ind.movingAverage 2 .simple).required Spec.AnyPrices ∧
    Spec.averageColumn (Ind.movingAverage 2 .simple) = some "ma-simple" ∧
    (∀ j ≤ 1, ∀ q, demoCloses.day "close" j = .fin q → ((100000 : ℤ) : ℚ) / 10000 ≤ q ∧ q ≤ ((130000 : ℤ) : ℚ) / 10000) ∧
    ((construct demoEnv (.movingAverage (.int 2) (.str "simple")) (.frame demoCloses) (.bool true)).2.map
      fun o => o.getTiData.day "ma-simple" 1) = .ok (.fin (23 / 2)) := by
  refine ⟨by unfold WF; decide, demoCloses_rows, rfl, ?_, by decide +kernel⟩
  intro j hj q hq
  have e0 : demoCloses.day "close" 0 = .fin 10 := by decide +kernel
  have e1 : demoCloses.day "close" 1 = .fin 13 := by decide +kernel
  interval_cases j
  · rw [e0] at hq; cases hq; norm_num
  · rw [e1] at hq; cases hq; norm_num

end TTI.Props
