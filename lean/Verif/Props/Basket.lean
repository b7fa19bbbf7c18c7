import Verif.Lemmas.Basket2
import Verif.Props.FormulaVolume
import Verif.Props.FormulaRange
import Verif.Props.Volume
import Verif.Props.FormulaMomentum
import Verif.Props.Forget
import Verif.Props.Least

set_option autoImplicit false

/-!
# Baskets: C105

`Basket`, `Split`, `Adds`, `AddsAtMost` and the table `basketRounding` are in Spec/Basket.
-/

namespace TTI.Props

open Spec Basket

variable {E : Env} {c : Call} {f g h : RawFrame} {fill : Bool} {o p q : Obj} {a b : ℚ}

theorem ti_len_le (hB : BuiltOn E c f fill o AnyPrices) : o.getTiData.len ≤ f.idx.length := by
  obtain ⟨-, -, h1, h2⟩ := C33_shape E c f fill o hB.wf hB.ok
  have hs : (sortIdx f.idx).length = f.idx.length := by simp [sortIdx]
  by_cases hd : ∀ p, o.ind ≠ .detrendedPriceOscillator p
  · have := h1 hd
    simp [Frame.len, this, hs]
  · push_neg at hd
    obtain ⟨p, hp⟩ := hd
    have := h2 p hp
    simp [Frame.len, this, hs]

theorem slope_since (hB : BuiltOn E c f fill o AnyPrices) (n : ℕ) (hn : 2 ≤ n) (ho : o.ind = .linearRegressionSlope n) (i : ℕ)
    (hi : i < f.idx.length) : o.getTiData.day "lrs" i = since (n - 1) i (to4 (slopeQ (close f) (i + 1 - n) n)) := by
  obtain ⟨F, hl, hF, -, ht, -, -⟩ := hB.on ho
  have hcl : Nums F.len 0 (close f) (F.col "close") := hF "close" (by simp [Ind.required])
  have h := Ind.LinearRegressionSlope.exact n (by omega) F o.getTiData _ hcl.len (fun i hi => hcl.fin hi (by omega)) ht i (by omega)
  change o.getTiData.day "lrs" i = _ at h
  rw [h, if_neg (show ¬ n = 1 by omega), since]
  by_cases h1 : i < n - 1
  · rw [if_pos h1, if_neg (by omega)]
  · rw [if_neg h1, if_pos (by omega)]; rfl

theorem line_since (hB : BuiltOn E c f fill o AnyPrices) (n : ℕ) (hn : 1 ≤ n) (ho : o.ind = .linearRegressionIndicator n) (i : ℕ)
    (hi : i < f.idx.length) : o.getTiData.day "lri" i =
      since (n - 1) i (to4 (interceptQ (close f) (i + 1 - n) n + slopeQ (close f) (i + 1 - n) n * i)) := by
  obtain ⟨F, hl, hF, -, ht, -, -⟩ := hB.on ho
  have hcl : Nums F.len 0 (close f) (F.col "close") := hF "close" (by simp [Ind.required])
  have h := Ind.LinearRegressionIndicator.exact n (by omega) F o.getTiData _ hcl.len (fun i hi => hcl.fin hi (by omega)) ht i (by omega)
  change o.getTiData.day "lri" i = _ at h
  rw [h, since]
  by_cases h1 : i < n - 1
  · rw [if_pos h1, if_neg (by omega)]
  · rw [if_neg h1, if_pos (by omega)]; rfl

/-- The forecast: rounded slope plus rounded end of the line. -/
def forecastSum (y : ℕ → ℚ) (n i : ℕ) : ℚ :=
  roundQ 4 (slopeQ y (i + 1 - n) n) + roundQ 4 (interceptQ y (i + 1 - n) n + slopeQ y (i + 1 - n) n * i)

theorem forecast_since (hB : BuiltOn E c f fill o AnyPrices) (n : ℕ) (hn : 2 ≤ n) (ho : o.ind = .timeSeriesForecast n) (i : ℕ)
    (hi : i < f.idx.length) : o.getTiData.day "tsf" i = since (n - 1) i (.fin (forecastSum (close f) n i)) := by
  obtain ⟨F, hl, hF, -, ht, -, -⟩ := hB.on ho
  have hcl : Nums F.len 0 (close f) (F.col "close") := hF "close" (by simp [Ind.required])
  have h := Ind.TimeSeriesForecast.exact n hn F o.getTiData _ hcl.len (fun i hi => hcl.fin hi (by omega)) ht i (by omega)
  change o.getTiData.day "tsf" i = _ at h
  rw [h, since]
  by_cases h1 : i < n - 1
  · rw [if_pos h1, if_neg (by omega)]
  · rw [if_neg h1, if_pos (by omega)]; rfl

theorem series_since (hB : BuiltOn E c f fill o AnyPrices) (n : ℕ) (hn : 2 ≤ n) (ho : o.ind = .movingAverage n .timeSeries) (i : ℕ)
    (hi : i < f.idx.length) : o.getTiData.day "ma-time_series" i = since (n - 1) i (.fin (forecastSum (close f) n i)) := by
  obtain ⟨F, hl, hF, -, ht, -, -⟩ := hB.on ho
  have hcl : Nums F.len 0 (close f) (F.col "close") := hF "close" (by simp [Ind.required])
  replace ht : Ind.MovingAverage.calcTi n .timeSeries F = .ok _ := ht
  unfold Ind.MovingAverage.calcTi at ht
  by_cases hlt : F.len < n
  · simp [hlt, bind, Except.bind, throw, throwThe, MonadExceptOf.throw] at ht
  cases hf : Ind.TimeSeriesForecast.forecast n F with
  | error e => simp [hlt, hf, bind, Except.bind, pure, Except.pure] at ht
  | ok t =>
    have ht' : Ind.TimeSeriesForecast.calcTi n F = .ok ⟨F.idx, [("tsf", roundS 4 t)]⟩ := by
      unfold Ind.TimeSeriesForecast.calcTi
      simp [hlt, hf, bind, Except.bind, pure, Except.pure]
    have h := Ind.TimeSeriesForecast.exact n hn F _ _ hcl.len (fun i hi => hcl.fin hi (by omega)) ht' i (by omega)
    simp [hlt, hf, bind, Except.bind, pure, Except.pure] at ht
    have hd : o.getTiData.day "ma-time_series" i = val ((⟨F.idx, [("tsf", roundS 4 t)]⟩ : Frame).col "tsf") i := by
      rw [← ht]; rfl
    rw [hd, h, since]
    by_cases h1 : i < n - 1
    · rw [if_pos h1, if_neg (by omega)]
    · rw [if_neg h1, if_pos (by omega)]; rfl

theorem adds_forecast (n i : ℕ) (u v : ℕ → ℚ) : Adds a b (2 / 20000) (since (n - 1) i (.fin (forecastSum u n i)))
    (since (n - 1) i (.fin (forecastSum v n i))) (since (n - 1) i (.fin (forecastSum (fun j => a * u j + b * v j) n i))) := by
  unfold since
  split
  · exact .inl ⟨rfl, rfl, rfl⟩
  · refine .inr ⟨_, _, _, rfl, rfl, rfl, forecast_lin (slope_lin u v _ _) ?_⟩
    rw [slope_lin, intercept_lin]; ring

/-- C105: the columns of the table add up in a basket: the value of the basket is `a` times the value of the one part plus `b`
times the value of the other, up to the roundings of the three values; and the values are missing on the same days. -/
theorem C105_adds (ho : BuiltOn E c f fill o AnyPrices) (hp : BuiltOn E c g fill p AnyPrices) (hq : BuiltOn E c h fill q AnyPrices)
    (hb : Basket a b f g h) (column : String) (hcol : column ∈ columns q.ind) (r : ℚ) (hr : basketRounding q.ind column = some r)
    (i : ℕ) (hi : i < q.getTiData.len) :
    Adds a b r (o.getTiData.day column i) (p.getTiData.day column i) (q.getTiData.day column i) := by
  have e1 : o.ind = q.ind := same_ind hq ho
  have e2 : p.ind = q.ind := same_ind hq hp
  have hh := ti_len_le hq
  have i3 : i < h.idx.length := by omega
  have i1 : i < f.idx.length := by rw [hb.first]; exact i3
  have i2 : i < g.idx.length := by rw [hb.second]; exact i3
  have hcl : close h = fun j => a * close f j + b * close g j := lin hb "close" (by simp)
  have hhi : high h = fun j => a * high f j + b * high g j := lin hb "high" (by simp)
  have hlo : low h = fun j => a * low f j + b * low g j := lin hb "low" (by simp)
  have hop : opening h = fun j => a * opening f j + b * opening g j := lin hb "open" (by simp)
  have hvo : volume h = fun j => a * volume f j + b * volume g j := lin hb "volume" (by simp)
  have hc : c.check = .ok q.ind := (construct_sound E c h fill q hq.wf hq.ok).2.1
  have hpos := check_pos c _ hc
  generalize hind : q.ind = ind at *
  cases ind with
  | movingAverage n t =>
    simp only [Ind.Pos] at hpos
    cases t <;> simp only [basketRounding, Option.some.injEq, reduceCtorEq] at hr <;> simp only [columns, List.mem_singleton] at hcol <;>
      subst hcol <;> subst hr
    · change Adds _ _ _ (o.getTiData.day "ma-simple" i) (p.getTiData.day "ma-simple" i) (q.getTiData.day "ma-simple" i)
      rw [C52_simple ho n e1 i i1, C52_simple hp n e2 i i2, C52_simple hq n hind i i3, hcl, mean_lin]
      exact adds _ _ rfl
    · change Adds _ _ _ (o.getTiData.day "ma-exponential" i) (p.getTiData.day "ma-exponential" i) (q.getTiData.day "ma-exponential" i)
      rw [C52_exponential ho n e1 i i1, C52_exponential hp n e2 i i2, C52_exponential hq n hind i i3, hcl, ema_lin]
      exact adds _ _ rfl
    · change Adds _ _ _ (o.getTiData.day "ma-time_series" i) (p.getTiData.day "ma-time_series" i) (q.getTiData.day "ma-time_series" i)
      rw [series_since ho n (hpos.2 rfl) e1 i i1, series_since hp n (hpos.2 rfl) e2 i i2, series_since hq n (hpos.2 rfl) hind i i3, hcl]
      exact adds_forecast n i _ _
    · change Adds _ _ _ (o.getTiData.day "ma-triangular" i) (p.getTiData.day "ma-triangular" i) (q.getTiData.day "ma-triangular" i)
      rw [C52_triangular ho n e1 i i1, C52_triangular hp n e2 i i2, C52_triangular hq n hind i i3, hcl, mean_lin', mean_lin]
      exact adds _ _ rfl
  | doubleExponentialMovingAverage n =>
    simp only [columns, List.mem_singleton] at hcol; subst hcol; cases hr
    rw [C52_double_exponential ho n e1 i i1, C52_double_exponential hp n e2 i i2, C52_double_exponential hq n hind i i3, hcl, ema_lin',
      ema_lin]
    exact adds _ _ (by ring)
  | tripleExponentialMovingAverage n =>
    simp only [columns, List.mem_singleton] at hcol; subst hcol; cases hr
    rw [C52_triple_exponential ho n e1 i i1, C52_triple_exponential hp n e2 i i2, C52_triple_exponential hq n hind i i3, hcl, ema_lin',
      ema_lin', ema_lin]
    exact adds _ _ (by ring)
  | wildersSmoothing n =>
    simp only [columns, List.mem_singleton] at hcol; subst hcol; cases hr
    rw [C52_wilders_smoothing ho n e1 i i1, C52_wilders_smoothing hp n e2 i i2, C52_wilders_smoothing hq n hind i i3, hcl, wilder_lin]
    exact adds _ _ rfl
  | bollingerBands n s =>
    simp only [basketRounding] at hr
    split_ifs at hr with hm
    subst hm; cases hr
    have key : ∀ (x : RawFrame) (z : Obj), BuiltOn E c x fill z AnyPrices → z.ind = .bollingerBands n s → i < x.idx.length →
        z.getTiData.day "middle_band" i = since (n - 1) i (to4 (meanLast n (close x) i)) := by
      intro x z hz hzi hx
      cases s with
      | fin s => exact (C54_bollinger hz n s hzi i hx).1
      | pinf => exact (C54_bollinger_infinite hz n hzi i hx).1
      | nan => exact absurd hpos.2 (by decide)
      | ninf => exact absurd hpos.2 (by decide)
    rw [key f o ho e1 i1, key g p hp e2 i2, key h q hq hind i3, hcl, mean_lin]
    exact adds _ _ rfl
  | envelopes n s =>
    cases hr
    simp only [columns, List.mem_cons, List.not_mem_nil, or_false] at hcol
    rcases hcol with rfl | rfl
    · rw [(C54_envelopes ho n s e1 i i1).1, (C54_envelopes hp n s e2 i i2).1, (C54_envelopes hq n s hind i i3).1, hcl, mean_lin]
      exact adds _ _ (by ring)
    · rw [(C54_envelopes ho n s e1 i i1).2, (C54_envelopes hp n s e2 i i2).2, (C54_envelopes hq n s hind i i3).2, hcl, mean_lin]
      exact adds _ _ (by ring)
  | volumeOscillator l s =>
    simp only [columns, List.mem_singleton] at hcol; subst hcol; cases hr
    rw [C53_volume_oscillator ho l s e1 i i1, C53_volume_oscillator hp l s e2 i i2, C53_volume_oscillator hq l s hind i i3, hvo, mean_lin,
      mean_lin]
    exact adds _ _ (by ring)
  | movingAverageConvergenceDivergence =>
    simp only [columns, List.mem_cons, List.not_mem_nil, or_false] at hcol
    rcases hcol with rfl | rfl
    · simp only [basketRounding, if_true, Option.some.injEq] at hr
      subst hr
      rw [(C53_macd ho e1 i i1).1, (C53_macd hp e2 i i2).1, (C53_macd hq hind i i3).1, hcl]
      unfold since
      split
      · exact .inl ⟨rfl, rfl, rfl⟩
      · refine .inr ⟨macdLine (close f) i, macdLine (close g) i, macdLine (fun j => a * close f j + b * close g j) i, ?_, ?_, ?_,
          macd_lin _ _ i⟩ <;> · unfold to4 macdLine; rw [roundQ_sub]
    · simp only [basketRounding, if_neg (show ¬ "signal_line" = "macd" by decide), Option.some.injEq] at hr
      subst hr
      rw [(C53_macd ho e1 i i1).2, (C53_macd hp e2 i i2).2, (C53_macd hq hind i i3).2, hcl,
        show (3 : ℚ) / 20000 = 2 / 20000 + 1 / 20000 by norm_num]
      exact adds_close _ _ (signal_lin _ _ i)
  | medianPrice n =>
    simp only [columns, List.mem_singleton] at hcol; subst hcol; cases hr
    rw [C56_median_price ho n e1 i i1, C56_median_price hp n e2 i i2, C56_median_price hq n hind i i3, hhi, hlo]
    exact adds_all (by ring)
  | typicalPrice n =>
    simp only [columns, List.mem_singleton] at hcol; subst hcol; cases hr
    rw [C56_typical_price ho n e1 i i1, C56_typical_price hp n e2 i i2, C56_typical_price hq n hind i i3]
    refine adds_all ?_
    unfold typical
    rw [hhi, hlo, hcl]
    ring
  | weightedClose =>
    simp only [columns, List.mem_singleton] at hcol; subst hcol; cases hr
    rw [C56_weighted_close ho e1 i i1, C56_weighted_close hp e2 i i2, C56_weighted_close hq hind i i3, hhi, hlo, hcl]
    exact adds_all (by ring)
  | detrendedPriceOscillator n =>
    simp only [columns, List.mem_singleton] at hcol; subst hcol; cases hr
    have hlen : q.getTiData.idx = _ := (C33_shape E c h fill q hq.wf hq.ok).2.2.2 n hind
    have hs : (sortIdx h.idx).length = h.idx.length := by simp [sortIdx]
    have hi' : i + (1 + n / 2) < h.idx.length := by
      rw [Frame.len, hlen, List.length_take, hs] at hi
      omega
    rw [(C56_detrended ho n e1 i (by rw [hb.first]; exact hi')).1, (C56_detrended hp n e2 i (by rw [hb.second]; exact hi')).1,
      (C56_detrended hq n hind i hi').1, hcl, mean_lin]
    exact adds _ _ (by ring)
  | qstick n =>
    simp only [columns, List.mem_singleton] at hcol; subst hcol; cases hr
    rw [C55_qstick ho n e1 i i1, C55_qstick hp n e2 i i2, C55_qstick hq n hind i i3,
      show (fun j => close h j - opening h j) = fun j => a * (close f j - opening f j) + b * (close g j - opening g j) by
        funext j; rw [hcl, hop]; ring, mean_lin]
    exact adds _ _ rfl
  | linearRegressionSlope n =>
    simp only [columns, List.mem_singleton] at hcol; subst hcol; cases hr
    by_cases h1 : n = 1
    · subst h1
      have key : ∀ (x : RawFrame) (z : Obj), BuiltOn E c x fill z AnyPrices → z.ind = .linearRegressionSlope 1 → i < x.idx.length →
        z.getTiData.day "lrs" i = .nan := fun x z hz hzi hx => C42_period_one E c x fill z hz.wf hz.ok hz.rows hzi i hx
      exact .inl ⟨key f o ho e1 i1, key g p hp e2 i2, key h q hq hind i3⟩
    · have h2 : 2 ≤ n := by simp only [Ind.Pos] at hpos; omega
      rw [slope_since ho n h2 e1 i i1, slope_since hp n h2 e2 i i2, slope_since hq n h2 hind i i3, hcl, slope_lin]
      exact adds _ _ rfl
  | linearRegressionIndicator n =>
    simp only [columns, List.mem_singleton] at hcol; subst hcol; cases hr
    have h1 : 1 ≤ n := by simp only [Ind.Pos] at hpos; omega
    rw [line_since ho n h1 e1 i i1, line_since hp n h1 e2 i i2, line_since hq n h1 hind i i3, hcl, slope_lin, intercept_lin]
    exact adds _ _ (by ring)
  | timeSeriesForecast n =>
    simp only [columns, List.mem_singleton] at hcol; subst hcol; cases hr
    rw [forecast_since ho n hpos e1 i i1, forecast_since hp n hpos e2 i i2, forecast_since hq n hpos hind i i3, hcl]
    exact adds_forecast n i _ _
  | _ => simp [basketRounding] at hr

/-! ## Limits -/

theorem atMost {x y z : ℚ} (k i : ℕ) (hz : z ≤ a * x + b * y) :
    AddsAtMost a b (1 / 20000) (since k i (to4 x)) (since k i (to4 y)) (since k i (to4 z)) := by
  have := atMost_close (a := a) (b := b) (x := x) (y := y) (z := z) (r := 0) k i (by linarith)
  rwa [zero_add] at this

theorem atLeast {x y z : ℚ} (k i : ℕ) (hz : a * x + b * y ≤ z) :
    AddsAtLeast a b (1 / 20000) (since k i (to4 x)) (since k i (to4 y)) (since k i (to4 z)) := by
  have := atLeast_close (a := a) (b := b) (x := x) (y := y) (z := z) (r := 0) k i (by linarith)
  rwa [zero_add] at this

/-- C105: a basket with amounts that are not negative is at most as volatile as its parts together (average true range, standard
deviation), and its upper limits are at most the sum of those of the parts. -/
theorem C105_at_most (ho : BuiltOn E c f fill o AnyPrices) (hp : BuiltOn E c g fill p AnyPrices) (hq : BuiltOn E c h fill q AnyPrices)
    (hb : Basket a b f g h) (ha0 : 0 ≤ a) (hb0 : 0 ≤ b) (e : ℚ) (hE : RootWithin e E) (column : String) (hcol : column ∈ columns q.ind)
    (r : ℚ) (hr : basketAtMost e q.ind column = some r) (i : ℕ) (i3 : i < h.idx.length) :
    AddsAtMost a b r (o.getTiData.day column i) (p.getTiData.day column i) (q.getTiData.day column i) := by
  have e1 : o.ind = q.ind := same_ind hq ho
  have e2 : p.ind = q.ind := same_ind hq hp
  have i1 : i < f.idx.length := by rw [hb.first]; exact i3
  have i2 : i < g.idx.length := by rw [hb.second]; exact i3
  have hcl : close h = fun j => a * close f j + b * close g j := lin hb "close" (by simp)
  have hhi : high h = fun j => a * high f j + b * high g j := lin hb "high" (by simp)
  have hc : c.check = .ok q.ind := (construct_sound E c h fill q hq.wf hq.ok).2.1
  have hpos := check_pos c _ hc
  generalize hind : q.ind = ind at *
  cases ind with
  | averageTrueRange =>
    simp only [columns, List.mem_singleton] at hcol; subst hcol; cases hr
    rw [C57_average_true_range ho e1 i i1, C57_average_true_range hp e2 i i2, C57_average_true_range hq hind i i3]
    refine atMost _ _ ?_
    rw [← wilder_lin]
    exact wilder_mono 14 0 (by norm_num) (trueRange_sum ha0 hb0 hb) i
  | standardDeviation n =>
    simp only [columns, List.mem_singleton] at hcol; subst hcol; cases hr
    rw [C54_standard_deviation ho n e1 i i1, C54_standard_deviation hp n e2 i i2, C54_standard_deviation hq n hind i i3, hcl]
    refine atMost_close _ _ ?_
    rw [abs_of_nonneg ha0, abs_of_nonneg hb0]
    exact deviation_sum hE ha0 hb0 n _ _ i
  | bollingerBands n s =>
    cases s with
    | fin s =>
      simp only [basketAtMost] at hr
      split_ifs at hr with hm
      subst hm; cases hr
      rw [(C54_bollinger ho n s e1 i i1).2.1, (C54_bollinger hp n s e2 i i2).2.1, (C54_bollinger hq n s hind i i3).2.1, hcl,
        show s * e + 2 / 20000 = (s * e + 1 / 20000) + 1 / 20000 by ring]
      refine atMost_close _ _ ?_
      have h1 := deviation_sum hE ha0 hb0 n (close f) (close g) i
      have h2 := round_lin (a := a) (b := b) (x := meanLast n (close f) i) (y := meanLast n (close g) i)
        (z := meanLast n (fun j => a * close f j + b * close g j) i) (r := 0) (by rw [mean_lin]; simp)
      have h3 : 0 < s := by simpa [Val.lt] using hpos.2
      have h4 := mul_le_mul_of_nonneg_left h1 h3.le
      rw [abs_le] at h2
      rw [abs_of_nonneg ha0, abs_of_nonneg hb0] at h2 ⊢
      nlinarith [h2.1, h2.2]
    | _ => simp [basketAtMost] at hr
  | priceChannel n =>
    simp only [basketAtMost] at hr
    split_ifs at hr with hm
    subst hm; cases hr
    rw [(C54_price_channel ho n e1 i i1).1, (C54_price_channel hp n e2 i i2).1, (C54_price_channel hq n hind i i3).1, hhi]
    exact atMost _ _ (highest_sum ha0 hb0 n hpos _ _ _)
  | _ => simp [basketAtMost] at hr

/-- C105: and its lower limits are at least the sum of those of the parts. -/
theorem C105_at_least (ho : BuiltOn E c f fill o AnyPrices) (hp : BuiltOn E c g fill p AnyPrices) (hq : BuiltOn E c h fill q AnyPrices)
    (hb : Basket a b f g h) (ha0 : 0 ≤ a) (hb0 : 0 ≤ b) (e : ℚ) (hE : RootWithin e E) (column : String)
    (r : ℚ) (hr : basketAtLeast e q.ind column = some r) (i : ℕ) (i3 : i < h.idx.length) :
    AddsAtLeast a b r (o.getTiData.day column i) (p.getTiData.day column i) (q.getTiData.day column i) := by
  have e1 : o.ind = q.ind := same_ind hq ho
  have e2 : p.ind = q.ind := same_ind hq hp
  have i1 : i < f.idx.length := by rw [hb.first]; exact i3
  have i2 : i < g.idx.length := by rw [hb.second]; exact i3
  have hcl : close h = fun j => a * close f j + b * close g j := lin hb "close" (by simp)
  have hlo : low h = fun j => a * low f j + b * low g j := lin hb "low" (by simp)
  have hc : c.check = .ok q.ind := (construct_sound E c h fill q hq.wf hq.ok).2.1
  have hpos := check_pos c _ hc
  generalize hind : q.ind = ind at *
  cases ind with
  | bollingerBands n s =>
    cases s with
    | fin s =>
      simp only [basketAtLeast] at hr
      split_ifs at hr with hm
      subst hm; cases hr
      rw [(C54_bollinger ho n s e1 i i1).2.2, (C54_bollinger hp n s e2 i i2).2.2, (C54_bollinger hq n s hind i i3).2.2, hcl,
        show s * e + 2 / 20000 = (s * e + 1 / 20000) + 1 / 20000 by ring]
      refine atLeast_close _ _ ?_
      have h1 := deviation_sum hE ha0 hb0 n (close f) (close g) i
      have h2 := round_lin (a := a) (b := b) (x := meanLast n (close f) i) (y := meanLast n (close g) i)
        (z := meanLast n (fun j => a * close f j + b * close g j) i) (r := 0) (by rw [mean_lin]; simp)
      have h3 : 0 < s := by simpa [Val.lt] using hpos.2
      have h4 := mul_le_mul_of_nonneg_left h1 h3.le
      rw [abs_le] at h2
      rw [abs_of_nonneg ha0, abs_of_nonneg hb0] at h2 ⊢
      nlinarith [h2.1, h2.2]
    | _ => simp [basketAtLeast] at hr
  | priceChannel n =>
    simp only [basketAtLeast] at hr
    split_ifs at hr with hm
    subst hm; cases hr
    rw [(C54_price_channel ho n e1 i i1).2, (C54_price_channel hp n e2 i i2).2, (C54_price_channel hq n hind i i3).2, hlo]
    exact atLeast _ _ (lowest_sum ha0 hb0 n hpos _ _ _)
  | _ => simp [basketAtLeast] at hr

/-! ## Two exchanges -/

theorem split_same (hs : Split a b f g h) (s : String) (hm : s ∈ ["open", "high", "low", "close"]) :
    price f s = price h s ∧ price g s = price h s := by
  constructor <;> funext j <;> by_cases hj : j < h.idx.length
  · exact (hs.same s hm j hj).1
  · rw [price_beyond h s j (by omega), price_beyond f s j (by have := hs.first; omega)]
  · exact (hs.same s hm j hj).2
  · rw [price_beyond h s j (by omega), price_beyond g s j (by have := hs.second; omega)]

theorem split_volume (hs : Split a b f g h) : volume h = fun j => a * volume f j + b * volume g j := by
  funext j
  by_cases hj : j < h.idx.length
  · exact hs.volume j hj
  · change price h "volume" j = a * price f "volume" j + b * price g "volume" j
    rw [price_beyond h _ j (by omega), price_beyond f _ j (by have := hs.first; omega), price_beyond g _ j (by have := hs.second; omega)]
    ring

/-- C105: the on-balance volume of a paper is the sum of its on-balance volumes on the exchanges, exactly. -/
theorem C105_split_on_balance_volume (ho : BuiltOn E c f fill o AnyPrices) (hp : BuiltOn E c g fill p AnyPrices)
    (hq : BuiltOn E c h fill q AnyPrices) (hs : Split a b f g h) (hi : q.ind = .onBalanceVolume) (i : ℕ) (i3 : i < h.idx.length) :
    Adds a b 0 (o.getTiData.day "obv" i) (p.getTiData.day "obv" i) (q.getTiData.day "obv" i) := by
  have e1 : o.ind = .onBalanceVolume := hi ▸ same_ind hq ho
  have e2 : p.ind = .onBalanceVolume := hi ▸ same_ind hq hp
  have i1 : i < f.idx.length := by rw [hs.first]; exact i3
  have i2 : i < g.idx.length := by rw [hs.second]; exact i3
  have hf : close f = close h := (split_same hs "close" (by simp)).1
  have hg : close g = close h := (split_same hs "close" (by simp)).2
  refine .inr ⟨_, _, _, C43_on_balance_volume E c f fill o ho.wf ho.ok ho.rows e1 i i1,
    C43_on_balance_volume E c g fill p hp.wf hp.ok hp.rows e2 i i2, C43_on_balance_volume E c h fill q hq.wf hq.ok hq.rows hi i i3, ?_⟩
  unfold closeRose closeFell
  rw [hf, hg, split_volume hs, Finset.sum_add_distrib, Finset.sum_add_distrib, ← Finset.mul_sum, ← Finset.mul_sum, ← Finset.mul_sum,
    ← Finset.mul_sum, mul_zero]
  exact le_of_eq (by rw [abs_eq_zero]; ring)

/-- C105: so is the price and volume trend, up to the roundings. -/
theorem C105_split_price_and_volume_trend (ho : BuiltOn E c f fill o NonzeroClose) (hp : BuiltOn E c g fill p NonzeroClose)
    (hq : BuiltOn E c h fill q NonzeroClose) (hs : Split a b f g h) (hi : q.ind = .priceAndVolumeTrend) (i : ℕ)
    (i3 : i < h.idx.length) :
    Adds a b (1 / 20000) (o.getTiData.day "pvt" i) (p.getTiData.day "pvt" i) (q.getTiData.day "pvt" i) := by
  have e1 : o.ind = .priceAndVolumeTrend := hi ▸ same_ind hq ho
  have e2 : p.ind = .priceAndVolumeTrend := hi ▸ same_ind hq hp
  have i1 : i < f.idx.length := by rw [hs.first]; exact i3
  have i2 : i < g.idx.length := by rw [hs.second]; exact i3
  have hf : close f = close h := (split_same hs "close" (by simp)).1
  have hg : close g = close h := (split_same hs "close" (by simp)).2
  rw [C43_price_and_volume_trend E c f fill o ho.wf ho.ok ho.rows e1 i i1,
    C43_price_and_volume_trend E c g fill p hp.wf hp.ok hp.rows e2 i i2,
    C43_price_and_volume_trend E c h fill q hq.wf hq.ok hq.rows hi i i3, hf, hg, split_volume hs]
  refine adds_all ?_
  rw [Finset.mul_sum, Finset.mul_sum, ← Finset.sum_add_distrib]
  exact Finset.sum_congr rfl fun j _ => by ring

/-- C105: so is the volume oscillator. -/
theorem C105_split_volume_oscillator (ho : BuiltOn E c f fill o AnyPrices) (hp : BuiltOn E c g fill p AnyPrices)
    (hq : BuiltOn E c h fill q AnyPrices) (hs : Split a b f g h) (long short : ℕ) (hi : q.ind = .volumeOscillator long short) (i : ℕ)
    (i3 : i < h.idx.length) :
    Adds a b (1 / 20000) (o.getTiData.day "vosc" i) (p.getTiData.day "vosc" i) (q.getTiData.day "vosc" i) := by
  rw [C53_volume_oscillator ho long short (hi ▸ same_ind hq ho) i (by rw [hs.first]; exact i3),
    C53_volume_oscillator hp long short (hi ▸ same_ind hq hp) i (by rw [hs.second]; exact i3),
    C53_volume_oscillator hq long short hi i i3, split_volume hs, mean_lin, mean_lin]
  exact adds _ _ (by ring)

theorem flow_split (hs : Split a b f g h) (j : ℕ) : flow h j = a * flow f j + b * flow g j := by
  have h1 := split_same hs "close" (by simp)
  have h2 : high f = high h ∧ high g = high h := split_same hs "high" (by simp)
  have h3 : low f = low h ∧ low g = low h := split_same hs "low" (by simp)
  have h4 : close f = close h ∧ close g = close h := h1
  unfold flow
  rw [split_volume hs, h4.1, h4.2, h2.1, h2.2, h3.1, h3.2]
  ring

theorem truncated_within (x : ℚ) : |truncated x - x| ≤ 1 := by
  unfold truncated
  split
  · have h1 := Int.floor_le x
    have h2 := Int.lt_floor_add_one x
    rw [abs_le]; constructor <;> linarith
  · have h1 := Int.floor_le (-x)
    have h2 := Int.lt_floor_add_one (-x)
    rw [abs_le]; constructor <;> linarith

theorem flowLine_split (hs : Split a b f g h) (i : ℕ) : |flowLine h i - (a * flowLine f i + b * flowLine g i)| ≤ (1 + |a| + |b|) * 1 := by
  have hsum : ∑ j ∈ Finset.range (i + 1), flow h j =
      a * ∑ j ∈ Finset.range (i + 1), flow f j + b * ∑ j ∈ Finset.range (i + 1), flow g j := by
    rw [Finset.mul_sum, Finset.mul_sum, ← Finset.sum_add_distrib]
    exact Finset.sum_congr rfl fun j _ => flow_split hs j
  unfold flowLine
  rw [hsum]
  generalize (∑ j ∈ Finset.range (i + 1), flow f j) = x
  generalize (∑ j ∈ Finset.range (i + 1), flow g j) = y
  have h1 := truncated_within (a * x + b * y)
  have h2 : |a * (truncated x - x)| ≤ |a| * 1 := by
    rw [abs_mul]; exact mul_le_mul_of_nonneg_left (truncated_within x) (abs_nonneg _)
  have h3 : |b * (truncated y - y)| ≤ |b| * 1 := by
    rw [abs_mul]; exact mul_le_mul_of_nonneg_left (truncated_within y) (abs_nonneg _)
  rw [abs_le] at *
  constructor <;> linarith [h1.1, h1.2, h2.1, h2.2, h3.1, h3.2]

/-- C105: so is the accumulation distribution line, up to the decimals that are cut off (there is no flat day). -/
theorem C105_split_accumulation_distribution (ho : BuiltOn E c f fill o AnyPrices) (hp : BuiltOn E c g fill p AnyPrices)
    (hq : BuiltOn E c h fill q AnyPrices) (hs : Split a b f g h) (hi : q.ind = .accumulationDistributionLine)
    (h0 : ∀ j < h.idx.length, high h j ≠ low h j) (i : ℕ) (i3 : i < h.idx.length) :
    Adds a b 1 (o.getTiData.day "adl" i) (p.getTiData.day "adl" i) (q.getTiData.day "adl" i) := by
  have h2 : high f = high h ∧ high g = high h := split_same hs "high" (by simp)
  have h3 : low f = low h ∧ low g = low h := split_same hs "low" (by simp)
  refine .inr ⟨_, _, _, C59_accumulation_distribution ho (hi ▸ same_ind hq ho) ?_ i (by rw [hs.first]; exact i3),
    C59_accumulation_distribution hp (hi ▸ same_ind hq hp) ?_ i (by rw [hs.second]; exact i3),
    C59_accumulation_distribution hq hi h0 i i3, flowLine_split hs i⟩
  · rw [hs.first]; intro j hj; rw [h2.1, h3.1]; exact h0 j hj
  · rw [hs.second]; intro j hj; rw [h2.2, h3.2]; exact h0 j hj

theorem ema_close (n s : ℕ) (hn : 1 ≤ n) {u v w : ℕ → ℚ} {r : ℚ}
    (hw : ∀ j, |w j - (a * u j + b * v j)| ≤ r) (i : ℕ) : |ema n s w i - (a * ema n s u i + b * ema n s v i)| ≤ r := by
  have hn' : (1 : ℚ) ≤ n := by exact_mod_cast hn
  have h1 := ema_lin (a := 1) (b := -1) w (fun i => a * u i + b * v i) n s i
  have h2 := smoothed_small (r := 2 / ((n : ℚ) + 1)) (e := r) (by positivity) ((div_le_one (by linarith)).2 (by linarith)) s
    (1 * w s + -1 * (a * u s + b * v s)) (fun j => 1 * w j + -1 * (a * u j + b * v j))
    (by have := hw s; rwa [one_mul, neg_one_mul, ← sub_eq_add_neg])
    (fun j => by have := hw j; rwa [one_mul, neg_one_mul, ← sub_eq_add_neg]) i
  change |ema n s (fun j => 1 * w j + -1 * (a * u j + b * v j)) i| ≤ r at h2
  rw [h1, one_mul, neg_one_mul, ← sub_eq_add_neg, ema_lin] at h2
  exact h2

/-- C105: so is the Chaikin oscillator (two averages of that line). -/
theorem C105_split_chaikin_oscillator (ho : BuiltOn E c f fill o AnyPrices) (hp : BuiltOn E c g fill p AnyPrices)
    (hq : BuiltOn E c h fill q AnyPrices) (hs : Split a b f g h) (hi : q.ind = .chaikinOscillator)
    (h0 : ∀ j < h.idx.length, high h j ≠ low h j) (i : ℕ) (i3 : i < h.idx.length) :
    Adds a b (2 + 1 / 20000) (o.getTiData.day "co" i) (p.getTiData.day "co" i) (q.getTiData.day "co" i) := by
  have h2 : high f = high h ∧ high g = high h := split_same hs "high" (by simp)
  have h3 : low f = low h ∧ low g = low h := split_same hs "low" (by simp)
  rw [C59_chaikin_oscillator ho (hi ▸ same_ind hq ho) (by rw [hs.first]; intro j hj; rw [h2.1, h3.1]; exact h0 j hj) i
      (by rw [hs.first]; exact i3),
    C59_chaikin_oscillator hp (hi ▸ same_ind hq hp) (by rw [hs.second]; intro j hj; rw [h2.2, h3.2]; exact h0 j hj) i
      (by rw [hs.second]; exact i3), C59_chaikin_oscillator hq hi h0 i i3]
  refine adds_close _ _ ?_
  have k1 := ema_close (a := a) (b := b) 3 0 (by norm_num) (flowLine_split hs) i
  have k2 := ema_close (a := a) (b := b) 10 0 (by norm_num) (flowLine_split hs) i
  rw [abs_le] at *
  constructor <;> linarith [k1.1, k1.2, k2.1, k2.2]

theorem rangeRun_congr {x y : RawFrame} (h1 : priceSum x = priceSum y) (h2 : dayRange x = dayRange y) : rangeRun x = rangeRun y := by
  have h3 : heading x = heading y := by funext j; unfold heading; rw [h1]
  funext j
  induction j with
  | zero => rfl
  | succ j ih =>
    simp only [rangeRun]
    rw [h3, h2, ih]

/-- C105: and so is the Klinger oscillator (where it is defined by the volume forces: the range totals are not 0). -/
theorem C105_split_klinger (ho : BuiltOn E c f fill o AnyPrices) (hp : BuiltOn E c g fill p AnyPrices)
    (hq : BuiltOn E c h fill q AnyPrices) (hs : Split a b f g h) (hi : q.ind = .klingerOscillator) (i : ℕ)
    (h0 : ∀ j ≤ i, 1 ≤ j → rangeRun h j ≠ 0) (i3 : i < h.idx.length) :
    Adds a b (1 / 20000) (o.getTiData.day "ko" i) (p.getTiData.day "ko" i) (q.getTiData.day "ko" i) := by
  have h1 := split_same hs "close" (by simp)
  have h2 : high f = high h ∧ high g = high h := split_same hs "high" (by simp)
  have h3 : low f = low h ∧ low g = low h := split_same hs "low" (by simp)
  have h4 : close f = close h ∧ close g = close h := h1
  have p1 : priceSum f = priceSum h := by funext j; unfold priceSum; rw [h4.1, h2.1, h3.1]
  have p2 : priceSum g = priceSum h := by funext j; unfold priceSum; rw [h4.2, h2.2, h3.2]
  have d1 : dayRange f = dayRange h := by funext j; unfold dayRange; rw [h2.1, h3.1]
  have d2 : dayRange g = dayRange h := by funext j; unfold dayRange; rw [h2.2, h3.2]
  have r1 := rangeRun_congr p1 d1
  have r2 := rangeRun_congr p2 d2
  have hv : volumeForce h = fun j => a * volumeForce f j + b * volumeForce g j := by
    funext j
    unfold volumeForce heading
    rw [r1, r2, d1, d2, p1, p2, split_volume hs]
    ring
  rw [C59_klinger ho (hi ▸ same_ind hq ho) i (by rw [hs.first]; exact i3) (by rw [r1]; exact h0),
    C59_klinger hp (hi ▸ same_ind hq hp) i (by rw [hs.second]; exact i3) (by rw [r2]; exact h0), C59_klinger hq hi i i3 h0, hv, ema_lin,
    ema_lin]
  exact adds _ _ (by ring)

/-! ## The hypotheses -/

theorem basket_tables (n : ℕ) (x y : String → ℕ → ℚ) : Basket a b (table n x) (table n y) (table n fun s j => a * x s j + b * y s j) := by
  refine ⟨by rw [table_length, table_length], by rw [table_length, table_length], fun s hs j hj => ?_⟩
  rw [table_length] at hj
  have hs' : s ∈ ohlcv := by simp only [ohlcv, List.mem_cons, List.not_mem_nil, or_false] at hs ⊢; tauto
  rw [table_price _ _ s hs' j hj, table_price _ _ s hs' j hj, table_price _ _ s hs' j hj]

theorem split_tables (n : ℕ) (x : String → ℕ → ℚ) (v w : ℕ → ℚ) :
    Split a b (table n fun s j => if s = "volume" then v j else x s j) (table n fun s j => if s = "volume" then w j else x s j)
      (table n fun s j => if s = "volume" then a * v j + b * w j else x s j) := by
  refine ⟨by rw [table_length, table_length], by rw [table_length, table_length], fun s hs j hj => ?_, fun j hj => ?_⟩ <;>
    rw [table_length] at hj
  · have hs' : s ∈ ohlcv := by simp only [ohlcv, List.mem_cons, List.not_mem_nil, or_false] at hs ⊢; tauto
    have hv : s ≠ "volume" := by rintro rfl; simp at hs
    rw [table_price _ _ s hs' j hj, table_price _ _ s hs' j hj, table_price _ _ s hs' j hj, if_neg hv, if_neg hv, if_neg hv]
    exact ⟨rfl, rfl⟩
  · have hs' : "volume" ∈ ohlcv := by simp [ohlcv]
    rw [table_price _ _ _ hs' j hj, table_price _ _ _ hs' j hj, table_price _ _ _ hs' j hj, if_pos rfl, if_pos rfl, if_pos rfl]

/-- A root that is off by at most 1. -/
def wholeRootEnv : Env := ⟨fun q => (Nat.sqrt ⌈q⌉₊ : ℕ), fairEnv.weights⟩

theorem wholeRootEnv_within : RootWithin 1 wholeRootEnv := by
  intro q hq
  have h1 := Nat.le_ceil q
  have h2 := Nat.ceil_lt_add_one hq
  have h3 := Nat.sqrt_le' ⌈q⌉₊
  have h4 := Nat.lt_succ_sqrt' ⌈q⌉₊
  simp only [wholeRootEnv]
  generalize ⌈q⌉₊ = k at *
  generalize Nat.sqrt k = s at *
  have h3' : (s : ℚ) ^ 2 ≤ k := by exact_mod_cast h3
  have h4' : (k : ℚ) < (s + 1) ^ 2 := by exact_mod_cast h4
  refine ⟨by positivity, by linarith, ?_⟩
  by_cases hs : s = 0
  · left; rw [hs]; norm_num
  · right
    have : (1 : ℚ) ≤ s := by exact_mod_cast Nat.one_le_iff_ne_zero.2 hs
    nlinarith

/-- The hypotheses of the theorems of this file: a basket of two tables of 60 days, bought and sold, and a call that all three tables
allow. -/
example : ∃ f g h o p q, Basket 2 (-3) f g h ∧ BuiltOn wholeRootEnv (.bollingerBands (.int 20) (.float (.fin 2))) f true o AnyPrices ∧
    BuiltOn wholeRootEnv (.bollingerBands (.int 20) (.float (.fin 2))) g true p AnyPrices ∧
    BuiltOn wholeRootEnv (.bollingerBands (.int 20) (.float (.fin 2))) h true q AnyPrices ∧
    basketRounding q.ind "middle_band" = some (1 / 20000) ∧ basketAtMost 1 q.ind "upper_band" = some (2 * 1 + 2 / 20000) ∧
    "upper_band" ∈ columns q.ind ∧ RootWithin 1 wholeRootEnv := by
  have hc : (Call.bollingerBands (.int 20) (.float (.fin 2))).check = .ok (.bollingerBands 20 (.fin 2)) := by decide +kernel
  obtain ⟨o, ho, -⟩ := table_built wholeRootEnv _ _ hc 60 (fun _ j => (j : ℚ)) AnyPrices (by norm_num) (by decide) (Past.required_ohlcv _)
    fun _ _ => trivial
  obtain ⟨p, hp, -⟩ := table_built wholeRootEnv _ _ hc 60 (fun _ j => (j : ℚ) ^ 2) AnyPrices (by norm_num) (by decide) (Past.required_ohlcv _)
    fun _ _ => trivial
  obtain ⟨q, hq, hqi⟩ := table_built wholeRootEnv _ _ hc 60 (fun _ j => 2 * (j : ℚ) + -3 * (j : ℚ) ^ 2) AnyPrices (by norm_num) (by decide)
    (Past.required_ohlcv _) fun _ _ => trivial
  refine ⟨_, _, _, o, p, q, basket_tables 60 (fun _ j => (j : ℚ)) fun _ j => (j : ℚ) ^ 2, ho, hp, hq, ?_, ?_, ?_, wholeRootEnv_within⟩ <;>
    rw [hqi]
  · rfl
  · rfl
  · decide

end TTI.Props
