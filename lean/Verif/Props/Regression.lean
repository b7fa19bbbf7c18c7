import Verif.Lemmas.Regression
import Verif.Spec.Regression
import Verif.Props.Averages

set_option autoImplicit false

/-!
# Linear regression: C42

`f.day "close" i` is the user's close of the `i`-th day, `o.getTiData.day name i` the indicator's value of that day.
-/

namespace TTI.Props

theorem squaredError_eq (f : RawFrame) (y : ℕ → ℚ) (p i : ℕ) (hpi : p ≤ i + 1)
    (hy : ∀ j ≤ i, f.day "close" j = .fin (y j)) (a b : ℚ) :
    Spec.squaredError f p i a b =
      ∑ t ∈ Finset.range p, (y (i + 1 - p + t) - (a + b * ((i + 1 - p + t : ℕ) : ℚ))) ^ 2 := by
  unfold Spec.squaredError
  rw [Finset.sum_Ico_eq_sum_range, show i + 1 - (i + 1 - p) = p by omega]
  apply Finset.sum_congr rfl
  intro t ht
  rw [Finset.mem_range] at ht
  rw [hy _ (by omega)]
  rfl

/-- The least squares line of the model is the only one. -/
theorem leastSquares_iff (f : RawFrame) (y : ℕ → ℚ) (p i : ℕ) (hp : 2 ≤ p) (hpi : p ≤ i + 1)
    (hy : ∀ j ≤ i, f.day "close" j = .fin (y j)) (a b : ℚ) :
    Spec.LeastSquares f p i a b ↔ a = interceptQ y (i + 1 - p) p ∧ b = slopeQ y (i + 1 - p) p := by
  unfold Spec.LeastSquares
  simp only [squaredError_eq f y p i hpi hy]
  constructor
  · intro h
    have h' := h (interceptQ y (i + 1 - p) p) (slopeQ y (i + 1 - p) p)
    rw [sq_error y _ p hp a b] at h'
    have h0 := Finset.sum_nonneg (s := Finset.range p) (fun t _ =>
      sq_nonneg (interceptQ y (i + 1 - p) p - a + (slopeQ y (i + 1 - p) p - b) * ((i + 1 - p + t : ℕ) : ℚ)))
    obtain ⟨ha, hb⟩ := line_eq (i + 1 - p) p hp _ _ (le_antisymm (by linarith) h0)
    constructor <;> linarith
  · rintro ⟨rfl, rfl⟩ a' b'
    rw [sq_error y _ p hp a' b']
    have h0 := Finset.sum_nonneg (s := Finset.range p) (fun t _ =>
      sq_nonneg (interceptQ y (i + 1 - p) p - a' + (slopeQ y (i + 1 - p) p - b') * ((i + 1 - p + t : ℕ) : ℚ)))
    linarith

/-- C42: there is exactly one line that minimises the squared error over the last `p` closes (`p` at least 2, `p` closes
available); all theorems below speak about that line. -/
theorem C42_one_line (f : RawFrame) (p i : ℕ) (hp : 2 ≤ p) (hpi : p ≤ i + 1)
    (hf : ∀ j ≤ i, ∃ q, f.day "close" j = .fin q) :
    ∃ a b, Spec.LeastSquares f p i a b ∧ ∀ a' b', Spec.LeastSquares f p i a' b' → a' = a ∧ b' = b := by
  have hy : ∀ j ≤ i, f.day "close" j = .fin (Spec.number (f.day "close" j)) := fun j hj => by
    obtain ⟨q, hq⟩ := hf j hj
    rw [hq]; rfl
  have key := leastSquares_iff f _ p i hp hpi hy
  exact ⟨_, _, (key _ _).2 ⟨rfl, rfl⟩, fun a' b' h => (key a' b').1 h⟩

/-- C42: LinearRegressionSlope is the slope of the least squares line over the last `p` closes, rounded to 4 decimals. -/
theorem C42_slope (E : Env) (c : Call) (f : RawFrame) (fill : Bool) (o : Obj) (hw : WF f)
    (h : (construct E c (.frame f) (.bool fill)).2 = .ok o) (hb : f.EachRow o.ind.required Spec.AnyPrices)
    (p : ℕ) (ho : o.ind = .linearRegressionSlope p) (hp : 2 ≤ p) (i : ℕ) (hpi : p ≤ i + 1) (hi : i < f.idx.length)
    (a b : ℚ) (hls : Spec.LeastSquares f p i a b) :
    o.getTiData.day "lrs" i = .fin (roundQ 4 b) := by
  obtain ⟨F, x, hg, hlen, -, h1, h2, h3, -, ht, -, hc⟩ := construct_days E c f fill o _ hw h hb
  rcases o with ⟨ind, input, T⟩
  simp only [Obj.getTiData] at *
  subst ho
  have e := Ind.LinearRegressionSlope.exact p (by omega) F T (x "close") (h1 _ (by simp [Ind.required]))
    (h2 _ (by simp [Ind.required])) ht i (by omega)
  rw [if_pos hpi, if_neg (by omega)] at e
  rw [((leastSquares_iff f (x "close") p i hp hpi (fun j hj => h3 _ (by simp [Ind.required]) j (by omega)) a b).1 hls).2]
  exact e

/-- C42: LinearRegressionIndicator is the value of the least squares line on the last day, rounded to 4 decimals. -/
theorem C42_end_value (E : Env) (c : Call) (f : RawFrame) (fill : Bool) (o : Obj) (hw : WF f)
    (h : (construct E c (.frame f) (.bool fill)).2 = .ok o) (hb : f.EachRow o.ind.required Spec.AnyPrices)
    (p : ℕ) (ho : o.ind = .linearRegressionIndicator p) (hp : 2 ≤ p) (i : ℕ) (hpi : p ≤ i + 1) (hi : i < f.idx.length)
    (a b : ℚ) (hls : Spec.LeastSquares f p i a b) :
    o.getTiData.day "lri" i = .fin (roundQ 4 (a + b * i)) := by
  obtain ⟨F, x, hg, hlen, -, h1, h2, h3, -, ht, -, hc⟩ := construct_days E c f fill o _ hw h hb
  rcases o with ⟨ind, input, T⟩
  simp only [Obj.getTiData] at *
  subst ho
  have e := Ind.LinearRegressionIndicator.exact p (by omega) F T (x "close") (h1 _ (by simp [Ind.required]))
    (h2 _ (by simp [Ind.required])) ht i (by omega)
  rw [if_pos hpi] at e
  obtain ⟨ha, hb'⟩ := (leastSquares_iff f (x "close") p i hp hpi (fun j hj => h3 _ (by simp [Ind.required]) j (by omega)) a b).1 hls
  rw [ha, hb']
  exact e

/-- C42: TimeSeriesForecast is the sum of the two rounded numbers, so it is within 0.0001 of the value of the least squares
line on the next day. -/
theorem C42_forecast (E : Env) (c : Call) (f : RawFrame) (fill : Bool) (o : Obj) (hw : WF f)
    (h : (construct E c (.frame f) (.bool fill)).2 = .ok o) (hb : f.EachRow o.ind.required Spec.AnyPrices)
    (p : ℕ) (ho : o.ind = .timeSeriesForecast p) (hp : 2 ≤ p) (i : ℕ) (hpi : p ≤ i + 1) (hi : i < f.idx.length)
    (a b : ℚ) (hls : Spec.LeastSquares f p i a b) :
    o.getTiData.day "tsf" i = .fin (roundQ 4 b + roundQ 4 (a + b * i)) ∧
    |roundQ 4 b + roundQ 4 (a + b * i) - (a + b * (i + 1))| ≤ 1 / 10000 := by
  constructor
  · obtain ⟨F, x, hg, hlen, -, h1, h2, h3, -, ht, -, hc⟩ := construct_days E c f fill o _ hw h hb
    rcases o with ⟨ind, input, T⟩
    simp only [Obj.getTiData] at *
    subst ho
    have e := Ind.TimeSeriesForecast.exact p hp F T (x "close") (h1 _ (by simp [Ind.required]))
      (h2 _ (by simp [Ind.required])) ht i (by omega)
    rw [if_pos hpi] at e
    obtain ⟨ha, hb'⟩ := (leastSquares_iff f (x "close") p i hp hpi (fun j hj => h3 _ (by simp [Ind.required]) j (by omega)) a b).1 hls
    rw [ha, hb']
    exact e
  · have e1 := roundQ_close 4 b
    have e2 := roundQ_close 4 (a + b * i)
    have : roundQ 4 b + roundQ 4 (a + b * i) - (a + b * (i + 1)) = (roundQ 4 b - b) + (roundQ 4 (a + b * i) - (a + b * i)) := by ring
    rw [this]
    refine (abs_add_le _ _).trans ?_
    norm_num at e1 e2 ⊢
    linarith

/-- C42: on days with fewer than `p` closes the three indicators have no value. -/
theorem C42_not_enough (E : Env) (c : Call) (f : RawFrame) (fill : Bool) (o : Obj) (hw : WF f)
    (h : (construct E c (.frame f) (.bool fill)).2 = .ok o) (hb : f.EachRow o.ind.required Spec.AnyPrices)
    (p : ℕ) (hp : 2 ≤ p) (i : ℕ) (hpi : i + 1 < p) (hi : i < f.idx.length) :
    (o.ind = .linearRegressionSlope p → o.getTiData.day "lrs" i = .nan) ∧
    (o.ind = .linearRegressionIndicator p → o.getTiData.day "lri" i = .nan) ∧
    (o.ind = .timeSeriesForecast p → o.getTiData.day "tsf" i = .nan) := by
  obtain ⟨F, x, hg, hlen, -, h1, h2, h3, -, ht, -, hc⟩ := construct_days E c f fill o _ hw h hb
  rcases o with ⟨ind, input, T⟩
  simp only [Obj.getTiData] at *
  refine ⟨fun ho => ?_, fun ho => ?_, fun ho => ?_⟩ <;> subst ho
  · have e := Ind.LinearRegressionSlope.exact p (by omega) F T (x "close") (h1 _ (by simp [Ind.required]))
      (h2 _ (by simp [Ind.required])) ht i (by omega)
    rw [if_neg (by omega)] at e
    exact e
  · have e := Ind.LinearRegressionIndicator.exact p (by omega) F T (x "close") (h1 _ (by simp [Ind.required]))
      (h2 _ (by simp [Ind.required])) ht i (by omega)
    rw [if_neg (by omega)] at e
    exact e
  · have e := Ind.TimeSeriesForecast.exact p hp F T (x "close") (h1 _ (by simp [Ind.required]))
      (h2 _ (by simp [Ind.required])) ht i (by omega)
    rw [if_neg (by omega)] at e
    exact e

/-- A line the closes lie on is the least squares line. -/
theorem leastSquares_of_line (f : RawFrame) (p i : ℕ) (a b : ℚ)
    (hl : ∀ j, i + 1 - p ≤ j → j ≤ i → f.day "close" j = .fin (a + b * j)) : Spec.LeastSquares f p i a b := by
  intro a' b'
  have h0 : Spec.squaredError f p i a b = 0 := by
    unfold Spec.squaredError
    apply Finset.sum_eq_zero
    intro j hj
    rw [Finset.mem_Ico] at hj
    rw [hl j hj.1 (by omega)]
    simp [Spec.number]
  rw [h0]
  exact Finset.sum_nonneg fun _ _ => sq_nonneg _

/-- C42: if the last `p` closes lie on a line whose coefficients have at most 4 decimals, the slope is reproduced, the
regression end value is the close of the day and the forecast is the next point of the line. -/
theorem C42_on_a_line (E : Env) (c : Call) (f : RawFrame) (fill : Bool) (o : Obj) (hw : WF f)
    (h : (construct E c (.frame f) (.bool fill)).2 = .ok o) (hb : f.EachRow o.ind.required Spec.AnyPrices)
    (p : ℕ) (hp : 2 ≤ p) (i : ℕ) (hpi : p ≤ i + 1) (hi : i < f.idx.length) (m n : ℤ) (a b : ℚ)
    (ha : a = m / 10000) (hb' : b = n / 10000)
    (hl : ∀ j, i + 1 - p ≤ j → j ≤ i → f.day "close" j = .fin (a + b * j)) :
    (o.ind = .linearRegressionSlope p → o.getTiData.day "lrs" i = .fin b) ∧
    (o.ind = .linearRegressionIndicator p → o.getTiData.day "lri" i = f.day "close" i) ∧
    (o.ind = .timeSeriesForecast p → o.getTiData.day "tsf" i = .fin (a + b * (i + 1))) := by
  have hls := leastSquares_of_line f p i a b hl
  have e : ∀ z : ℤ, roundQ 4 ((z : ℚ) / 10000) = (z : ℚ) / 10000 := fun z => by
    have := roundQ_div 4 z
    norm_num at this
    exact this
  have e1 : roundQ 4 b = b := by rw [hb', e]
  have e2 : roundQ 4 (a + b * i) = a + b * i := by
    have : a + b * i = ((m + n * i : ℤ) : ℚ) / 10000 := by rw [ha, hb']; push_cast; ring
    rw [this, e]
  refine ⟨fun ho => ?_, fun ho => ?_, fun ho => ?_⟩
  · rw [C42_slope E c f fill o hw h hb p ho hp i hpi hi a b hls, e1]
  · rw [C42_end_value E c f fill o hw h hb p ho hp i hpi hi a b hls, e2, hl i (by omega) le_rfl]
  · rw [(C42_forecast E c f fill o hw h hb p ho hp i hpi hi a b hls).1, e1, e2]
    congr 1
    ring

/-- The hypotheses are met by the closes 10, 13, 11.5 and the line through the last two of them: slope -1.5, next value 10. -/
example : WF demoCloses ∧ demoCloses.EachRow (Ind.timeSeriesForecast 2).required Spec.AnyPrices ∧
    Spec.LeastSquares demoCloses 2 2 (29 / 2) (-3 / 2) ∧
    ((construct demoEnv (.linearRegressionSlope (.int 2)) (.frame demoCloses) (.bool true)).2.map
      fun o => o.getTiData.day "lrs" 2) = .ok (.fin (-3 / 2)) ∧
    ((construct demoEnv (.linearRegressionIndicator (.int 2)) (.frame demoCloses) (.bool true)).2.map
      fun o => o.getTiData.day "lri" 2) = .ok (.fin (23 / 2)) ∧
    ((construct demoEnv (.timeSeriesForecast (.int 2)) (.frame demoCloses) (.bool true)).2.map
      fun o => o.getTiData.day "tsf" 2) = .ok (.fin 10) := by
  refine ⟨by unfold WF; decide, demoCloses_rows, ?_, by decide +kernel, by decide +kernel, by decide +kernel⟩
  apply leastSquares_of_line
  intro j h1 h2
  have : j = 1 ∨ j = 2 := by omega
  rcases this with rfl | rfl <;> decide +kernel

/-- A window of one close is refused by no check but has no slope: LinearRegressionSlope with period 1 is NaN everywhere. -/
theorem C42_period_one (E : Env) (c : Call) (f : RawFrame) (fill : Bool) (o : Obj) (hw : WF f)
    (h : (construct E c (.frame f) (.bool fill)).2 = .ok o) (hb : f.EachRow o.ind.required Spec.AnyPrices)
    (ho : o.ind = .linearRegressionSlope 1) (i : ℕ) (hi : i < f.idx.length) : o.getTiData.day "lrs" i = .nan := by
  obtain ⟨F, x, hg, hlen, -, h1, h2, h3, -, ht, -, hc⟩ := construct_days E c f fill o _ hw h hb
  rcases o with ⟨ind, input, T⟩
  simp only [Obj.getTiData] at *
  subst ho
  have e := Ind.LinearRegressionSlope.exact 1 le_rfl F T (x "close") (h1 _ (by simp [Ind.required]))
    (h2 _ (by simp [Ind.required])) ht i (by omega)
  rw [if_pos (by omega), if_pos rfl] at e
  exact e

/-- Period 1 passes the checks. -/
example : ((construct demoEnv (.linearRegressionSlope (.int 1)) (.frame demoCloses) (.bool true)).2.map
    fun o => (o.ind, o.getTiData.day "lrs" 2)) = .ok (.linearRegressionSlope 1, .nan) := by decide +kernel

end TTI.Props
