import Verif.Lemmas.Identities
import Verif.Props.FormulaPrices
import Verif.Props.FormulaMomentum

set_option autoImplicit false

/-!
# C65: how the values of different indicators fit together

Two objects `o` and `o'` are built from the same data with the same `fill_missing_values`. The statements are about every day
`i`, in terms of what `getTiData` returns; `1 / 20000` is half a unit of the fourth decimal.
-/

namespace TTI.Props

open Spec

variable {E : Env} {c c' : Call} {f : RawFrame} {fill : Bool} {o o' : Obj}

/-- C65: the middle Bollinger band is the simple moving average. -/
theorem C65_bollinger_middle (ho : (construct E c (.frame f) (.bool fill)).2 = .ok o)
    (ho' : (construct E c' (.frame f) (.bool fill)).2 = .ok o') (n : ℕ) (s : Val) (hi : o.ind = .bollingerBands n s)
    (hi' : o'.ind = .movingAverage n .simple) (i : ℕ) :
    o.getTiData.day "middle_band" i = o'.getTiData.day "ma-simple" i := by
  obtain ⟨F, -, h1, h2⟩ := shared ho ho' (by rw [hi, hi']; rfl)
  rw [hi] at h1; rw [hi'] at h2
  rw [(Ind.BollingerBands.days h1 i).1, Ind.MovingAverage.days_simple h2 i]

/-- C65: the time series moving average is the Time Series Forecast. -/
theorem C65_time_series (ho : (construct E c (.frame f) (.bool fill)).2 = .ok o)
    (ho' : (construct E c' (.frame f) (.bool fill)).2 = .ok o') (n : ℕ) (hi : o.ind = .movingAverage n .timeSeries)
    (hi' : o'.ind = .timeSeriesForecast n) (i : ℕ) :
    o.getTiData.day "ma-time_series" i = o'.getTiData.day "tsf" i := by
  obtain ⟨F, -, h1, h2⟩ := shared ho ho' (by rw [hi, hi']; rfl)
  rw [hi] at h1; rw [hi'] at h2
  replace h1 : Ind.MovingAverage.calcTi n .timeSeries F = .ok _ := h1
  replace h2 : Ind.TimeSeriesForecast.calcTi n F = .ok _ := h2
  unfold Ind.MovingAverage.calcTi at h1
  unfold Ind.TimeSeriesForecast.calcTi at h2
  by_cases hlt : F.len < n
  · simp [hlt, bind, Except.bind, throw, throwThe, MonadExceptOf.throw] at h1
  cases hf : Ind.TimeSeriesForecast.forecast n F with
  | error e => simp [hlt, hf, bind, Except.bind, pure, Except.pure] at h1
  | ok t =>
    simp [hlt, hf, bind, Except.bind, pure, Except.pure] at h1 h2
    rw [← h1, ← h2]; rfl

/-- C65: the MACD line is the difference of the two exponential moving averages, exactly as they are reported. -/
theorem C65_macd {o₁₂ o₂₆ : Obj} {c₁₂ c₂₆ : Call} (ho : (construct E c (.frame f) (.bool fill)).2 = .ok o)
    (h12 : (construct E c₁₂ (.frame f) (.bool fill)).2 = .ok o₁₂) (h26 : (construct E c₂₆ (.frame f) (.bool fill)).2 = .ok o₂₆)
    (hi : o.ind = .movingAverageConvergenceDivergence) (i12 : o₁₂.ind = .movingAverage 12 .exponential)
    (i26 : o₂₆.ind = .movingAverage 26 .exponential) (i : ℕ) :
    o.getTiData.day "macd" i = Val.sub (o₁₂.getTiData.day "ma-exponential" i) (o₂₆.getTiData.day "ma-exponential" i) := by
  obtain ⟨F, hv, h1, h2⟩ := shared ho h12 (by rw [hi, i12]; rfl)
  obtain ⟨F', hv', h1', h2'⟩ := shared ho h26 (by rw [hi, i26]; rfl)
  rw [hv, Except.ok.injEq] at hv'
  subst hv'
  rw [hi] at h1; rw [i12] at h2; rw [i26] at h2'
  rw [Ind.MovingAverageConvergenceDivergence.days h1 i, Ind.MovingAverage.days_exponential h2 i,
    Ind.MovingAverage.days_exponential h2' i]

/-- C65: the Momentum is the Price Rate of Change plus 100. -/
theorem C65_momentum (ho : (construct E c (.frame f) (.bool fill)).2 = .ok o)
    (ho' : (construct E c' (.frame f) (.bool fill)).2 = .ok o') (n : ℕ) (hi : o.ind = .momentum n)
    (hi' : o'.ind = .priceRateOfChange n) (i : ℕ) (q : ℚ) (hq : o'.getTiData.day "prc" i = .fin q) :
    o.getTiData.day "mom" i = .fin (q + 100) := by
  obtain ⟨F, -, h1, h2⟩ := shared ho ho' (by rw [hi, hi']; rfl)
  rw [hi] at h1; rw [hi'] at h2
  rw [Ind.PriceRateOfChange.days h2 i] at hq
  rw [Ind.Momentum.days h1 i]
  by_cases hin : i < n
  · rw [val_shift_nan _ _ _ hin, Val.div_nan] at hq; cases hq
  rw [if_neg hin]
  obtain ⟨r, hr, rfl, -⟩ := round_fin hq
  obtain ⟨a, ha, hb⟩ := div_fin hr
  obtain ⟨d, hd, rfl⟩ := mul_fin_left (by norm_num) ha
  obtain ⟨x, y, hx, hy, rfl⟩ := sub_fin hd
  rw [hy] at hb ⊢
  rw [hx]
  rcases hb with ⟨b, hb0, hb, rfl⟩ | hb | hb
  · cases hb
    rw [Val.fin_mul, Val.fin_div _ _ hb0, Val.fin_round]
    have e : 100 * x / y = 100 * (x - y) / y + ((100 : ℤ) : ℚ) := by field_simp; push_cast; ring
    rw [e, roundQ_add_int 4 (by norm_num)]
    push_cast; rfl
  · cases hb
  · cases hb

/-- C65: Williams' %R is the %K line of the Stochastic Oscillator without slowing, minus 100. -/
theorem C65_williams (ho : (construct E c (.frame f) (.bool fill)).2 = .ok o)
    (ho' : (construct E c' (.frame f) (.bool fill)).2 = .ok o') (n d : ℕ) (b : Bool) (hi : o.ind = .williamsR n)
    (hi' : o'.ind = .stochasticOscillator n 1 d b) (i : ℕ) (q : ℚ) :
    o.getTiData.day "wr" i = .fin (q - 100) ↔ o'.getTiData.day "%K" i = .fin q := by
  obtain ⟨F, -, h1, h2⟩ := shared ho ho' (by rw [hi, hi']; rfl)
  rw [hi] at h1; rw [hi'] at h2
  rw [Ind.WilliamsR.days h1 i, Ind.StochasticOscillator.days h2 i]
  have hH := rolling_cases n n aggMax (fun v => ofOption_cases _) (F.col "high") i
  have hL := rolling_cases n n aggMin (fun v => ofOption_cases _) (F.col "low") i
  have k1 := fun q => rolling_one (subS (F.col "close") (rolling n n aggMin (F.col "low"))) i q
  have k2 := fun q => rolling_one (subS (rolling n n aggMax (F.col "high")) (rolling n n aggMin (F.col "low"))) i q
  have hu := rolling_cases 1 1 aggSum (fun v => Or.inr ⟨_, rfl⟩) (subS (F.col "close") (rolling n n aggMin (F.col "low"))) i
  have hw := rolling_cases 1 1 aggSum (fun v => Or.inr ⟨_, rfl⟩)
    (subS (rolling n n aggMax (F.col "high")) (rolling n n aggMin (F.col "low"))) i
  simp only [val_subS] at k1 k2
  generalize val (rolling 1 1 aggSum (subS (F.col "close") (rolling n n aggMin (F.col "low")))) i = u at *
  generalize val (rolling 1 1 aggSum (subS (rolling n n aggMax (F.col "high")) (rolling n n aggMin (F.col "low")))) i = w at *
  generalize val (rolling n n aggMax (F.col "high")) i = h at *
  generalize val (rolling n n aggMin (F.col "low")) i = l at *
  generalize val (F.col "close") i = x at *
  have key : ∀ a b e : ℚ, b - e ≠ 0 → x = .fin a → h = .fin b → l = .fin e →
      (Val.round 4 (Val.mul (.fin (-100)) (Val.div (Val.sub h x) (Val.sub h l))) = .fin (q - 100) ↔
        Val.round 4 (Val.div (Val.mul (.fin 100) u) w) = .fin q) := by
    rintro a b e hne rfl rfl rfl
    rw [(k1 (a - e)).2 (Val.fin_sub _ _), (k2 (b - e)).2 (Val.fin_sub _ _)]
    rw [Val.fin_sub, Val.fin_sub, Val.fin_div _ _ hne, Val.fin_mul, Val.fin_mul, Val.fin_div _ _ hne, Val.fin_round, Val.fin_round,
      Val.fin.injEq, Val.fin.injEq]
    have e1 : -100 * ((b - a) / (b - e)) = 100 * (a - e) / (b - e) + ((-100 : ℤ) : ℚ) := by field_simp; push_cast; ring
    rw [e1, roundQ_add_int 4 (by norm_num)]
    push_cast
    constructor <;> intro h <;> linarith
  constructor
  · intro hq
    obtain ⟨r, hr, -, -⟩ := round_fin hq
    obtain ⟨r', hr', -⟩ := mul_fin_left (by norm_num) hr
    obtain ⟨s, hs, ht⟩ := div_fin hr'
    obtain ⟨b, a, rfl, rfl, -⟩ := sub_fin hs
    rcases hL with rfl | ⟨e, rfl⟩
    · rw [Val.sub_nan, Val.div_nan] at hr'; cases hr'
    · rcases ht with ⟨t, ht0, ht, -⟩ | ht | ht
      · rw [Val.fin_sub] at ht; cases ht
        exact (key a b e ht0 rfl rfl rfl).1 hq
      · rw [Val.fin_sub] at ht; cases ht
      · rw [Val.fin_sub] at ht; cases ht
  · intro hq
    obtain ⟨r, hr, -, -⟩ := round_fin hq
    obtain ⟨s, hs, ht⟩ := div_fin hr
    obtain ⟨s', hs', -⟩ := mul_fin_left (by norm_num) hs
    obtain ⟨a, e, rfl, rfl, -⟩ := sub_fin ((k1 s').1 hs')
    rcases ht with ⟨t, ht0, ht, -⟩ | ht | ht
    · obtain ⟨b, e', rfl, he', rfl⟩ := sub_fin ((k2 t).1 ht)
      cases he'
      exact (key a b e ht0 rfl rfl rfl).2 hq
    · rcases hw with h | ⟨_, h⟩ <;> rw [h] at ht <;> cases ht
    · rcases hw with h | ⟨_, h⟩ <;> rw [h] at ht <;> cases ht

/-- C65: the two envelopes lie at the same distance around the simple moving average, and that distance is `s` times the
average, apart from rounding. -/
theorem C65_envelopes (ho : (construct E c (.frame f) (.bool fill)).2 = .ok o)
    (ho' : (construct E c' (.frame f) (.bool fill)).2 = .ok o') (n : ℕ) (s : ℚ) (hi : o.ind = .envelopes n s)
    (hi' : o'.ind = .movingAverage n .simple) (i : ℕ) (m : ℚ) (hm : o'.getTiData.day "ma-simple" i = .fin m) :
    ∃ u l, o.getTiData.day "upper_band" i = .fin u ∧ o.getTiData.day "lower_band" i = .fin l ∧
      |u + l - 2 * m| ≤ 4 / 20000 ∧ |u - l - 2 * s * m| ≤ (2 + 2 * |s|) / 20000 := by
  obtain ⟨F, -, h1, h2⟩ := shared ho ho' (by rw [hi, hi']; rfl)
  rw [hi] at h1; rw [hi'] at h2
  obtain ⟨hU, hL⟩ := Ind.Envelopes.days h1 i
  rw [Ind.MovingAverage.days_simple h2 i] at hm
  obtain ⟨a, ha, -, hc⟩ := round_fin hm
  rw [ha, Val.fin_mul, Val.fin_round] at hU hL
  have cU := round4_close ((1 + s) * a)
  have cL := round4_close ((1 - s) * a)
  refine ⟨_, _, hU, hL, ?_, ?_⟩
  · generalize roundQ 4 ((1 + s) * a) = u at *
    generalize roundQ 4 ((1 - s) * a) = l at *
    rw [abs_le] at *
    constructor <;> linarith
  · generalize roundQ 4 ((1 + s) * a) = u at *
    generalize roundQ 4 ((1 - s) * a) = l at *
    have h3 : |s * (m - a)| ≤ |s| * (1 / 20000) := by rw [abs_mul]; exact mul_le_mul_of_nonneg_left hc (abs_nonneg s)
    rw [abs_le] at *
    constructor <;> linarith

/-- C65: the Bollinger bands lie `s` standard deviations above and below the middle band, apart from rounding. -/
theorem C65_bollinger_width (ho : (construct E c (.frame f) (.bool fill)).2 = .ok o)
    (ho' : (construct E c' (.frame f) (.bool fill)).2 = .ok o') (n : ℕ) (s : ℚ) (hi : o.ind = .bollingerBands n (.fin s))
    (hi' : o'.ind = .standardDeviation n) (i : ℕ) (m d : ℚ) (hm : o.getTiData.day "middle_band" i = .fin m)
    (hd : o'.getTiData.day "sd" i = .fin d) :
    ∃ u l, o.getTiData.day "upper_band" i = .fin u ∧ o.getTiData.day "lower_band" i = .fin l ∧
      |u - (m + s * d)| ≤ (1 + |s|) / 20000 ∧ |l - (m - s * d)| ≤ (1 + |s|) / 20000 := by
  obtain ⟨F, -, h1, h2⟩ := shared ho ho' (by rw [hi, hi']; rfl)
  rw [hi] at h1; rw [hi'] at h2
  obtain ⟨-, hU, hL⟩ := Ind.BollingerBands.days h1 i
  rw [hm] at hU hL
  rw [Ind.StandardDeviation.days h2 i] at hd
  obtain ⟨a, ha, -, hc⟩ := round_fin hd
  rw [ha, Val.fin_mul] at hU hL
  rw [Val.fin_add, Val.fin_round] at hU
  rw [Val.fin_sub, Val.fin_round] at hL
  have cU := round4_close (m + a * s)
  have cL := round4_close (m - a * s)
  refine ⟨_, _, hU, hL, ?_, ?_⟩
  all_goals
    generalize roundQ 4 (m + a * s) = u at *
    generalize roundQ 4 (m - a * s) = l at *
    have h3 : |s * (d - a)| ≤ |s| * (1 / 20000) := by rw [abs_mul]; exact mul_le_mul_of_nonneg_left hc (abs_nonneg s)
    rw [abs_le] at *
    constructor <;> linarith

/-- C65: for data that was filled, the Time Series Forecast is the value of the Linear Regression Indicator plus the Linear
Regression Slope, exactly as they are reported. -/
theorem C65_forecast {os oi : Obj} {cs ci : Call} (ho : (construct E c (.frame f) (.bool true)).2 = .ok o)
    (hos : (construct E cs (.frame f) (.bool true)).2 = .ok os) (hoi : (construct E ci (.frame f) (.bool true)).2 = .ok oi)
    (n : ℕ) (hi : o.ind = .timeSeriesForecast n) (is : os.ind = .linearRegressionSlope n)
    (ii : oi.ind = .linearRegressionIndicator n) (i : ℕ) (a b : ℚ) (ha : os.getTiData.day "lrs" i = .fin a)
    (hb : oi.getTiData.day "lri" i = .fin b) : o.getTiData.day "tsf" i = .fin (a + b) := by
  obtain ⟨F, hv, h1, h2⟩ := shared ho hos (by rw [hi, is]; rfl)
  obtain ⟨F', hv', h1', h2'⟩ := shared ho hoi (by rw [hi, ii]; rfl)
  rw [hv, Except.ok.injEq] at hv'
  subst hv'
  rw [hi] at h1; rw [is] at h2; rw [ii] at h2'
  replace h1 : Ind.TimeSeriesForecast.calcTi n F = .ok _ := h1
  have hcol := sub_col_filled hv ["close"] "close" (by simp)
  have e1 : Ind.LinearRegressionSlope.calcTi n (F.sub ["close"]) = .ok os.getTiData := by
    rw [← show Ind.LinearRegressionSlope.calcTi n F = .ok os.getTiData from h2]
    unfold Ind.LinearRegressionSlope.calcTi
    rw [hcol]; rfl
  have e2 : Ind.LinearRegressionIndicator.calcTi n (F.sub ["close"]) = .ok oi.getTiData := by
    rw [← show Ind.LinearRegressionIndicator.calcTi n F = .ok oi.getTiData from h2']
    unfold Ind.LinearRegressionIndicator.calcTi
    rw [hcol]; rfl
  unfold Ind.TimeSeriesForecast.calcTi Ind.TimeSeriesForecast.forecast at h1
  rw [e1, e2] at h1
  by_cases hlt : F.len < n
  · simp [hlt, bind, Except.bind, throw, throwThe, MonadExceptOf.throw] at h1
  simp [hlt, bind, Except.bind, pure, Except.pure] at h1
  obtain ⟨u, hu, hun⟩ := Ind.LinearRegressionSlope.days (show Ind.LinearRegressionSlope.calcTi n F = .ok os.getTiData from h2) i
  obtain ⟨w, hw⟩ := Ind.LinearRegressionIndicator.days
    (show Ind.LinearRegressionIndicator.calcTi n F = .ok oi.getTiData from h2') i
  obtain ⟨a', hu', rfl, -⟩ := round_fin (hu ▸ ha)
  obtain ⟨b', -, rfl, -⟩ := round_fin (hw ▸ hb)
  have hin : ¬ i < n - 1 := by
    intro hin
    rw [hun (by omega)] at hu'; cases hu'
  have ha' : val (os.getTiData.col "lrs") i = .fin (roundQ 4 a') := ha
  have hb' : val (oi.getTiData.col "lri") i = .fin (roundQ 4 b') := hb
  rw [← h1]
  show val (roundS 4 _) i = _
  rw [val_roundS, val_maskBefore, if_neg hin, sumRows, val_zipV _ _ _ _ (val_fin_lt ha') (val_fin_lt hb'), ha', hb']
  simp only [sumSkip, List.filter_cons, Val.isNan, Bool.not_false, if_true, List.filter_nil, List.foldl_cons, List.foldl_nil,
    Val.zero_eq, Val.fin_add, Val.fin_round, zero_add, Ind.roundQ_add]

/-- C65: for data that was filled, the Forecast Oscillator is the distance of the close from the reported forecast of the day
before, in percent of the close. -/
theorem C65_forecast_oscillator (hw : WF f) (ho : (construct E c (.frame f) (.bool true)).2 = .ok o)
    (ho' : (construct E c' (.frame f) (.bool true)).2 = .ok o') (n : ℕ) (hi : o.ind = .forecastOscillator n)
    (hi' : o'.ind = .timeSeriesForecast n) (i : ℕ) (hlt : i + 1 < f.idx.length) :
    o.getTiData.day "fosc" (i + 1) = Val.round 4 (Val.div (Val.mul (.fin 100)
      (Val.sub (o.input.day "close" (i + 1)) (o'.getTiData.day "tsf" i))) (o.input.day "close" (i + 1))) := by
  obtain ⟨F, hv, h1, h2⟩ := shared ho ho' (by rw [hi, hi']; rfl)
  have hin := shared_input ho hv
  rw [hi] at h1 hin; rw [hi'] at h2
  replace h1 : Ind.ForecastOscillator.calcTi n F = .ok _ := h1
  have hcol := sub_col_filled hv ["close"] "close" (by simp)
  have e1 : Ind.TimeSeriesForecast.calcTi n (F.sub ["close"]) = .ok o'.getTiData := by
    rw [← show Ind.TimeSeriesForecast.calcTi n F = .ok o'.getTiData from h2]
    unfold Ind.TimeSeriesForecast.calcTi Ind.TimeSeriesForecast.forecast Ind.LinearRegressionSlope.calcTi
      Ind.LinearRegressionIndicator.calcTi
    have hss : ((F.sub ["close"]).sub ["close"]).col "close" = (F.sub ["close"]).col "close" := by
      rw [Frame.sub_col _ _ _ (by simp), Frame.sub_col _ _ _ (by simp), fill_fill]
    rw [hss]; rfl
  unfold Ind.ForecastOscillator.calcTi at h1
  rw [e1] at h1
  by_cases hn : F.len < n
  · simp [hn, bind, Except.bind, throw, throwThe, MonadExceptOf.throw] at h1
  simp [hn, bind, Except.bind, pure, Except.pure] at h1
  have hx : (val (shift 1 (o'.getTiData.col "tsf")) (i + 1)) = o'.getTiData.day "tsf" i := by
    obtain ⟨hs, -, -, hrows, -⟩ := construct_sound E c' f true o' hw ho'
    have hlen : (o'.getTiData.col "tsf").length = f.idx.length := by
      rw [show o'.getTiData = o'.ti from rfl, hs.shaped.tcol "tsf" (by rw [hi']; simp [Spec.columns]), hrows, hi']; rfl
    rw [val_shift _ _ _ (by omega), if_neg (by omega)]; rfl
  rw [← h1, hin]
  show val (roundS 4 _) (i + 1) = _
  rw [val_roundS, val_divS, val_scaleS, val_subS, hx]; rfl

/-- C65: for data that was filled, the Projection Oscillator is the position of the close between the reported Projection
Bands, in percent. -/
theorem C65_projection (ho : (construct E c (.frame f) (.bool true)).2 = .ok o)
    (ho' : (construct E c' (.frame f) (.bool true)).2 = .ok o') (n : ℕ) (hi : o.ind = .projectionOscillator n)
    (hi' : o'.ind = .projectionBands n) (i : ℕ) :
    o.getTiData.day "posc" i = Val.round 4 (Val.div (Val.mul (.fin 100)
      (Val.sub (o.input.day "close" i) (o'.getTiData.day "lower_band" i)))
      (Val.sub (o'.getTiData.day "upper_band" i) (o'.getTiData.day "lower_band" i))) := by
  obtain ⟨F, hv, h1, h2⟩ := shared ho ho' (by rw [hi, hi']; rfl)
  have hin := shared_input ho hv
  rw [hi] at h1 hin; rw [hi'] at h2
  replace h1 : Ind.ProjectionOscillator.calcTi n F = .ok _ := h1
  have e1 : Ind.ProjectionBands.calcTi n (F.sub ["high", "low", "close"]) = .ok o'.getTiData := by
    rw [← show Ind.ProjectionBands.calcTi n F = .ok o'.getTiData from h2]
    unfold Ind.ProjectionBands.calcTi
    rw [sub_col_filled hv _ "high" (by simp), sub_col_filled hv _ "low" (by simp)]; rfl
  unfold Ind.ProjectionOscillator.calcTi at h1
  rw [e1] at h1
  by_cases hlt : F.len < n
  · simp [hlt, bind, Except.bind, throw, throwThe, MonadExceptOf.throw] at h1
  simp [hlt, bind, Except.bind, pure, Except.pure] at h1
  rw [← h1, hin]
  show val (roundS 4 _) i = _
  rw [val_roundS, val_divS, val_scaleS, val_subS, val_subS]; rfl

/-- C65: on a day after `n` days of numbers, `n` = 9 or 26, the Tenkan-sen (Kijun-sen) is the middle of the Price Channel that the
next day is compared with. -/
theorem C65_ichimoku_channel (ho : (construct E c (.frame f) (.bool fill)).2 = .ok o)
    (ho' : (construct E c' (.frame f) (.bool fill)).2 = .ok o') (hi : o.ind = .ichimokuCloud) (name : String) (n : ℕ)
    (hn : name = "tenkan_sen" ∧ n = 9 ∨ name = "kijun_sen" ∧ n = 26) (hi' : o'.ind = .priceChannel n) (i : ℕ) (h l : ℚ)
    (hh : o'.getTiData.day "highest_high" (i + 1) = .fin h) (hl : o'.getTiData.day "lowest_low" (i + 1) = .fin l) :
    ∃ m, o.getTiData.day name i = .fin m ∧ |m - (h + l) / 2| ≤ 2 / 20000 := by
  obtain ⟨F, -, h1, h2⟩ := shared ho ho' (by rw [hi, hi']; rfl)
  rw [hi] at h1; rw [hi'] at h2
  obtain ⟨k1, k2⟩ := Ind.PriceChannel.days h2 (i + 1)
  rw [k1] at hh; rw [k2] at hl
  obtain ⟨a, ha, -, ca⟩ := round_fin hh
  obtain ⟨b, hb, -, cb⟩ := round_fin hl
  replace ha := val_shift_one ha
  replace hb := val_shift_one hb
  obtain ⟨k3, k4⟩ := Ind.IchimokuCloud.days h1 i
  have key : ∀ v, v = Val.round 4 (Val.div (Val.add (val (rolling n 1 aggMax (F.col "high")) i)
      (val (rolling n 1 aggMin (F.col "low")) i)) 2) → ∃ m, v = .fin m ∧ |m - (h + l) / 2| ≤ 2 / 20000 := by
    rintro v rfl
    have hn1 : 1 ≤ n := by omega
    rw [rolling_full hn1 _ _ _ ha, rolling_full hn1 _ _ _ hb, Val.fin_add, Val.ofNat_eq, Val.fin_div _ _ (by norm_num), Val.fin_round]
    refine ⟨_, rfl, ?_⟩
    have cm := round4_close ((a + b) / (2 : ℕ))
    generalize roundQ 4 ((a + b) / (2 : ℕ)) = m at *
    push_cast at cm
    rw [abs_le] at *
    constructor <;> linarith
  rcases hn with ⟨rfl, rfl⟩ | ⟨rfl, rfl⟩
  · exact key _ k3
  · exact key _ k4

/-- C65: on numbers, three times the Typical Price is the Median Price plus twice the Weighted Close, apart from rounding. -/
theorem C65_prices {om ow : Obj} {cm cw : Call} (hB : BuiltOn E c f fill o AnyPrices) (hm : BuiltOn E cm f fill om AnyPrices)
    (hw : BuiltOn E cw f fill ow AnyPrices) (n k : ℕ) (hi : o.ind = .typicalPrice n) (im : om.ind = .medianPrice k)
    (iw : ow.ind = .weightedClose) (i : ℕ) (hlt : i < f.idx.length) :
    ∃ t m w, o.getTiData.day "tp" i = .fin t ∧ om.getTiData.day "mp" i = .fin m ∧ ow.getTiData.day "wc" i = .fin w ∧
      |3 * t - (m + 2 * w)| ≤ 6 / 20000 := by
  refine ⟨_, _, _, C56_typical_price hB n hi i hlt, C56_median_price hm k im i hlt, C56_weighted_close hw iw i hlt, ?_⟩
  have c1 := round4_close (typical f i)
  have c2 := round4_close ((high f i + low f i) / 2)
  have c3 := round4_close ((2 * close f i + high f i + low f i) / 4)
  generalize roundQ 4 (typical f i) = t at *
  generalize roundQ 4 ((high f i + low f i) / 2) = m at *
  generalize roundQ 4 ((2 * close f i + high f i + low f i) / 4) = w at *
  unfold typical at c1
  rw [abs_le] at *
  constructor <;> linarith

/-- C65: the Performance on day `n` is the Price Rate of Change over `n` days, there in percent. -/
theorem C65_performance (hB : BuiltOn E c f fill o AnyPrices) (hB' : BuiltOn E c' f fill o' AnyPrices) (long : Bool) (target : Val)
    (n : ℕ) (hi : o.ind = .performance long target) (hi' : o'.ind = .priceRateOfChange n) (hn : n < f.idx.length)
    (h0 : close f 0 ≠ 0) :
    ∃ p r, o.getTiData.day "prf" n = .fin p ∧ o'.getTiData.day "prc" n = .fin r ∧ |100 * p - r| ≤ 101 / 20000 := by
  have h1 := (C53_performance hB long target hi n hn).1
  have h2 := C53_price_rate_of_change hB' n hi' n hn
  rw [since, if_neg (by omega), Nat.sub_self] at h2
  rw [quotient, if_pos h0] at h1 h2
  refine ⟨_, _, h1, h2, ?_⟩
  have c1 := round4_close ((close f n - close f 0) / close f 0)
  have c2 := round4_close (100 * (close f n - close f 0) / close f 0)
  generalize roundQ 4 ((close f n - close f 0) / close f 0) = p at *
  generalize roundQ 4 (100 * (close f n - close f 0) / close f 0) = r at *
  have e : 100 * (close f n - close f 0) / close f 0 = 100 * ((close f n - close f 0) / close f 0) := by ring
  rw [e] at c2
  rw [abs_le] at *
  constructor <;> linarith

/-! ## The hypotheses are met

All of these are read off the same 36 bars. -/

/-- The class and a value of an object built from the sample. -/
def reading (c : Call) (name : String) (i : ℕ) : Except Err (Ind × Val) :=
  (construct demoEnv c (.frame (sample 36)) (.bool true)).2.map fun o => (o.ind, o.getTiData.day name i)

/-- The hypotheses of `C65_bollinger_middle` and `C65_bollinger_width`. -/
example : reading (.bollingerBands (.int 5) (.float 2)) "middle_band" 30 = .ok (.bollingerBands 5 2, .fin (273 / 5)) ∧
    reading (.bollingerBands (.int 5) (.float 2)) "upper_band" 30 = .ok (.bollingerBands 5 2, .fin (1777 / 25)) ∧
    reading (.movingAverage (.int 5) (.str "simple")) "ma-simple" 30 = .ok (.movingAverage 5 .simple, .fin (273 / 5)) ∧
    reading (.standardDeviation (.int 5)) "sd" 30 = .ok (.standardDeviation 5, .fin (206 / 25)) := by
  refine ⟨?_, ?_, ?_, ?_⟩ <;> decide +kernel

/-- The hypotheses of `C65_time_series` and `C65_forecast`. -/
example : reading (.movingAverage (.int 5) (.str "time_series")) "ma-time_series" 30 = .ok (.movingAverage 5 .timeSeries, .fin (105 / 2)) ∧
    reading (.timeSeriesForecast (.int 5)) "tsf" 30 = .ok (.timeSeriesForecast 5, .fin (105 / 2)) ∧
    reading (.linearRegressionSlope (.int 5)) "lrs" 30 = .ok (.linearRegressionSlope 5, .fin (-7 / 10)) ∧
    reading (.linearRegressionIndicator (.int 5)) "lri" 30 = .ok (.linearRegressionIndicator 5, .fin (266 / 5)) := by
  refine ⟨?_, ?_, ?_, ?_⟩ <;> decide +kernel

/-- The hypotheses of `C65_macd`. -/
example : reading .movingAverageConvergenceDivergence "macd" 30 = .ok (.movingAverageConvergenceDivergence, .fin (1407 / 5000)) ∧
    reading (.movingAverage (.int 12) (.str "exponential")) "ma-exponential" 30 = .ok (.movingAverage 12 .exponential, .fin (34202 / 625)) ∧
    reading (.movingAverage (.int 26) (.str "exponential")) "ma-exponential" 30 = .ok (.movingAverage 26 .exponential, .fin (272209 / 5000)) := by
  refine ⟨?_, ?_, ?_⟩ <;> decide +kernel

/-- The hypotheses of `C65_momentum` and `C65_performance`. -/
example : reading (.momentum (.int 4)) "mom" 4 = .ok (.momentum 4, .fin (112)) ∧
    reading (.priceRateOfChange (.int 4)) "prc" 4 = .ok (.priceRateOfChange 4, .fin (12)) ∧
    reading (.performance (.str "LONG") (.float (1 / 10))) "prf" 4 = .ok (.performance true (.fin (1 / 10)), .fin (3 / 25)) := by
  refine ⟨?_, ?_, ?_⟩ <;> decide +kernel

/-- The hypotheses of `C65_williams`. -/
example : reading (.williamsR (.int 5)) "wr" 30 = .ok (.williamsR 5, .fin (-813559 / 10000)) ∧
    reading (.stochasticOscillator (.int 5) (.int 1) (.int 3) (.str "simple")) "%K" 30 = .ok (.stochasticOscillator 5 1 3 true, .fin (186441 / 10000)) := by
  refine ⟨?_, ?_⟩ <;> decide +kernel

/-- The hypotheses of `C65_envelopes`. -/
example : reading (.envelopes (.int 5) (.float (1 / 10))) "upper_band" 30 = .ok (.envelopes 5 (1 / 10), .fin (3003 / 50)) ∧
    reading (.envelopes (.int 5) (.float (1 / 10))) "lower_band" 30 = .ok (.envelopes 5 (1 / 10), .fin (2457 / 50)) ∧
    reading (.movingAverage (.int 5) (.str "simple")) "ma-simple" 30 = .ok (.movingAverage 5 .simple, .fin (273 / 5)) := by
  refine ⟨?_, ?_, ?_⟩ <;> decide +kernel

/-- The hypotheses of `C65_forecast_oscillator`. -/
example : reading (.forecastOscillator (.int 5)) "fosc" 31 = .ok (.forecastOscillator 5, .fin (23707 / 2500)) ∧
    reading (.timeSeriesForecast (.int 5)) "tsf" 30 = .ok (.timeSeriesForecast 5, .fin (105 / 2)) := by
  refine ⟨?_, ?_⟩ <;> decide +kernel

/-- The hypotheses of `C65_projection`. -/
example : reading (.projectionOscillator (.int 5)) "posc" 30 = .ok (.projectionOscillator 5, .fin (45139 / 2500)) ∧
    reading (.projectionBands (.int 5)) "upper_band" 30 = .ok (.projectionBands 5, .fin (314 / 5)) ∧
    reading (.projectionBands (.int 5)) "lower_band" 30 = .ok (.projectionBands 5, .fin (242 / 5)) := by
  refine ⟨?_, ?_, ?_⟩ <;> decide +kernel

/-- The hypotheses of `C65_ichimoku_channel`. -/
example : reading .ichimokuCloud "tenkan_sen" 30 = .ok (.ichimokuCloud, .fin (445 / 8)) ∧
    reading (.priceChannel (.int 9)) "highest_high" 31 = .ok (.priceChannel 9, .fin (63)) ∧
    reading (.priceChannel (.int 9)) "lowest_low" 31 = .ok (.priceChannel 9, .fin (193 / 4)) := by
  refine ⟨?_, ?_, ?_⟩ <;> decide +kernel

/-- The hypotheses of `C65_prices`. -/
example : reading (.typicalPrice (.int 5)) "tp" 30 = .ok (.typicalPrice 5, .fin (107 / 2)) ∧
    reading (.medianPrice (.int 5)) "mp" 30 = .ok (.medianPrice 5, .fin (219 / 4)) ∧
    reading .weightedClose "wc" 30 = .ok (.weightedClose, .fin (423 / 8)) := by
  refine ⟨?_, ?_, ?_⟩ <;> decide +kernel

end TTI.Props
