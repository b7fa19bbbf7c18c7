import Verif.Model.Ind.All
import Verif.Spec.Indicators
import Verif.Lemmas.Series
import Verif.Lemmas.Frame

set_option autoImplicit false

/-!
# Lengths of the series and shapes of the indicator data
-/

namespace TTI

/-- All columns have one entry per date. -/
def Frame.WF (F : Frame) : Prop := ∀ c ∈ F.cols, c.2.length = F.idx.length

/-- The columns are present. -/
def Frame.Has (F : Frame) (names : List String) : Prop := ∀ n ∈ names, n ∈ F.cols.map (·.1)

/-! ## Lengths of the operators -/

section
variable (xs ys zs : List Val)

@[simp] theorem rolling_length (w m : ℕ) (agg : List ℚ → Val) : (rolling w m agg xs).length = xs.length := by
  simp [rolling]
@[simp] theorem ewmAlpha_length (a : ℚ) (m : ℕ) : (ewmAlpha a m xs).length = xs.length := by simp [ewmAlpha]
@[simp] theorem ewm_length (s m : ℕ) : (ewm s m xs).length = xs.length := by simp [ewm]
@[simp] theorem shift_length (k : ℕ) : (shift k xs).length = xs.length := by simp [shift]
@[simp] theorem shiftBack_length (k : ℕ) : (shiftBack k xs).length = xs.length := by simp [shiftBack]
@[simp] theorem cumsum_length : (cumsum xs).length = xs.length := by simp [cumsum]
@[simp] theorem zipV_length (f : Val → Val → Val) : (zipV f xs ys).length = min xs.length ys.length := by simp [zipV]
@[simp] theorem addS_length : (addS xs ys).length = min xs.length ys.length := by simp [addS]
@[simp] theorem subS_length : (subS xs ys).length = min xs.length ys.length := by simp [subS]
@[simp] theorem mulS_length : (mulS xs ys).length = min xs.length ys.length := by simp [mulS]
@[simp] theorem divS_length : (divS xs ys).length = min xs.length ys.length := by simp [divS]
@[simp] theorem scaleS_length (c : ℚ) : (scaleS c xs).length = xs.length := by simp [scaleS]
@[simp] theorem roundS_length (k : ℕ) : (roundS k xs).length = xs.length := by simp [roundS]
@[simp] theorem diffS_length (k : ℕ) : (diffS k xs).length = xs.length := by simp [diffS]
@[simp] theorem fillna_length (v : Val) : (fillna v xs).length = xs.length := by simp [fillna]
@[simp] theorem maskBefore_length (k : ℕ) : (maskBefore k xs).length = xs.length := by
  simp [maskBefore]; omega
@[simp] theorem rowNumbers_length (n : ℕ) : (rowNumbers n).length = n := by simp [rowNumbers]
@[simp] theorem wilder_length (s p : ℕ) : (wilder s p xs).length = xs.length := by simp [wilder]
@[simp] theorem zip3_length (f : Val → Val → Val → Val) :
    (zip3 f xs ys zs).length = min xs.length (min ys.length zs.length) := by simp [zip3]
@[simp] theorem sumRows_length : (sumRows xs ys).length = min xs.length ys.length := by simp [sumRows]
@[simp] theorem zeroBelow_length : (zeroBelow xs).length = xs.length := by simp [zeroBelow]
@[simp] theorem zeroAbove_length : (zeroAbove xs).length = xs.length := by simp [zeroAbove]
@[simp] theorem rollingOLS_length (w : ℕ) : (rollingOLS w xs).length = xs.length := by simp [rollingOLS]
@[simp] theorem Frame.rows_length (F : Frame) : F.rows.length = F.len := by simp [Frame.rows]

theorem allFin_length : ∀ (xs : List Val) (v : List ℚ), allFin xs = some v → v.length = xs.length
  | [], v, h => by simp only [allFin, Option.some.injEq] at h; rw [← h]; rfl
  | .fin q :: l, v, h => by
    simp only [allFin, Option.map_eq_some_iff] at h
    obtain ⟨w, hw, rfl⟩ := h
    simp [allFin_length l w hw]
  | .nan :: l, v, h => by simp [allFin] at h
  | .pinf :: l, v, h => by simp [allFin] at h
  | .ninf :: l, v, h => by simp [allFin] at h

namespace Ind
@[simp] theorem astypeInt_length : (astypeInt xs).length = xs.length := by
  unfold astypeInt
  split
  · next v h => simp [allFin_length xs v h]
  · rfl
@[simp] theorem volumeIndex_length (m : Val → Val → Bool) (r : List (Val × Val)) :
    (volumeIndex m r).length = r.length := by simp [volumeIndex]
@[simp] theorem PriceAndVolumeTrend.trend_length (r : List (Val × Val)) :
    (PriceAndVolumeTrend.trend r).length = r.length := by simp [PriceAndVolumeTrend.trend]
@[simp] theorem KlingerOscillator.cumulative_length (r : List (Val × Val)) :
    (KlingerOscillator.cumulative r).length = r.length := by simp [KlingerOscillator.cumulative]
@[simp] theorem CommodityChannelIndex.differences_length (p : ℕ) (r : List (Val × Val)) :
    (CommodityChannelIndex.differences p r).length = r.length := by simp [CommodityChannelIndex.differences]
@[simp] theorem DirectionalMovementIndex.smooth14_length :
    (DirectionalMovementIndex.smooth14 xs).length = xs.length := by simp [DirectionalMovementIndex.smooth14]
@[simp] theorem DirectionalMovementIndex.adxOf_length :
    (DirectionalMovementIndex.adxOf xs).length = xs.length := by simp [DirectionalMovementIndex.adxOf]
@[simp] theorem RelativeStrengthIndex.smooth_length (p : ℕ) :
    (RelativeStrengthIndex.smooth p xs).length = xs.length := by simp [RelativeStrengthIndex.smooth]
@[simp] theorem ProjectionBands.band_length (pick : Val → Val → Val) (p : ℕ) :
    (ProjectionBands.band pick p xs ys).length = min xs.length ys.length := by simp [ProjectionBands.band]
@[simp] theorem MovingAverage.variableMa_length (p : ℕ) (r : List (Val × Val)) :
    (MovingAverage.variableMa p r).length = r.length := by simp [MovingAverage.variableMa]
@[simp] theorem RelativeMomentumIndex.raw_length (p m : ℕ) :
    (RelativeMomentumIndex.raw p m xs).length = xs.length := by simp [RelativeMomentumIndex.raw]
@[simp] theorem RelativeStrengthIndex.raw_length (p : ℕ) :
    (RelativeStrengthIndex.raw p xs).length = xs.length := by simp [RelativeStrengthIndex.raw]
@[simp] theorem RelativeVolatilityIndex.half_length (sq : ℚ → ℚ) (p : ℕ) :
    (RelativeVolatilityIndex.half sq p xs).length = xs.length := by
  simp [RelativeVolatilityIndex.half, RelativeVolatilityIndex.selected]
@[simp] theorem UltimateOscillator.ratio_length (w : ℕ) :
    (UltimateOscillator.ratio w xs ys).length = min xs.length ys.length := by simp [UltimateOscillator.ratio]
end Ind
end

/-! ## Columns -/

theorem Frame.col_of_find (F : Frame) (n : String) (c : String × List Val)
    (h : F.cols.find? (fun c => c.1 == n) = some c) : F.col n = c.2 := by simp [Frame.col, h]

theorem Frame.col_length (F : Frame) (hw : F.WF) (n : String) (h : n ∈ F.cols.map (·.1)) :
    (F.col n).length = F.len := by
  cases hf : F.cols.find? (fun c => c.1 == n) with
  | none =>
    rw [List.find?_eq_none] at hf
    obtain ⟨c, hc, rfl⟩ := List.mem_map.1 h
    exact absurd (beq_self_eq_true c.1) (hf c hc)
  | some c =>
    rw [F.col_of_find n c hf, hw c (List.mem_of_find?_eq_some hf)]
    rfl

@[simp] theorem Frame.sub_len (F : Frame) (names : List String) : (F.sub names).len = F.len := rfl

@[simp] theorem Frame.sub_idx (F : Frame) (names : List String) : (F.sub names).idx = F.idx := rfl

theorem Frame.sub_col (F : Frame) (names : List String) (n : String) (h : n ∈ names) :
    (F.sub names).col n = bfill (ffill (F.col n)) := by
  unfold Frame.sub Frame.restrict Frame.col
  simp only
  rw [List.find?_map, List.find?_filter]
  have : (fun a : String × List Val => decide (decide (a.1 ∈ names) = true ∧
      ((fun c : String × List Val => c.1 == n) ∘ fun c : String × List Val => (c.1, bfill (ffill c.2))) a = true))
      = fun c => c.1 == n := by
    funext a
    by_cases ha : a.1 = n
    · simp [ha, h]
    · simp [ha]
  simp only [this]
  cases F.cols.find? fun c => c.1 == n <;> simp [bfill, ffill, prefixMap]

theorem Frame.sub_wf (F : Frame) (names : List String) (h : F.WF) : (F.sub names).WF := by
  intro c hc
  simp only [Frame.sub, Frame.restrict, List.mem_map, List.mem_filter] at hc
  obtain ⟨d, ⟨hd, -⟩, rfl⟩ := hc
  simpa using h d hd

theorem Frame.sub_has (F : Frame) (names : List String) (h : F.Has names) : (F.sub names).Has names := by
  intro n hn
  obtain ⟨c, hc, hcn⟩ := List.mem_map.1 (h n hn)
  simp only [Frame.sub, Frame.restrict, List.map_map, List.mem_map, List.mem_filter]
  refine ⟨c, ⟨hc, ?_⟩, hcn⟩
  rw [hcn]; simpa using hn

/-! ## Inner indicators, written out -/

namespace Ind

theorem LinearRegressionSlope.calcTi_ok (p : ℕ) (F : Frame) (h : p ≤ F.len) :
    ∃ l, LinearRegressionSlope.calcTi p F = .ok ⟨F.idx, [("lrs", l)]⟩ ∧ l.length = min (F.col "close").length F.len := by
  unfold LinearRegressionSlope.calcTi
  rw [if_neg (by omega)]
  exact ⟨_, rfl, by simp⟩

theorem LinearRegressionIndicator.calcTi_ok (p : ℕ) (F : Frame) (h : p ≤ F.len) :
    ∃ l, LinearRegressionIndicator.calcTi p F = .ok ⟨F.idx, [("lri", l)]⟩ ∧
      l.length = min (F.col "close").length F.len := by
  unfold LinearRegressionIndicator.calcTi
  rw [if_neg (by omega)]
  exact ⟨_, rfl, by simp⟩

theorem ChandeMomentumOscillator.calcTi_ok (p : ℕ) (F : Frame) (h : p ≤ F.len) :
    ∃ l, ChandeMomentumOscillator.calcTi p F = .ok ⟨F.idx, [("cmo", l)]⟩ ∧ l.length = (F.col "close").length := by
  unfold ChandeMomentumOscillator.calcTi
  rw [if_neg (by omega)]
  exact ⟨_, rfl, by simp⟩

theorem ProjectionBands.calcTi_ok (p : ℕ) (F : Frame) (h : p ≤ F.len) :
    ∃ u l, ProjectionBands.calcTi p F = .ok ⟨F.idx, [("upper_band", u), ("lower_band", l)]⟩ ∧
      u.length = (F.col "high").length ∧ l.length = (F.col "low").length := by
  unfold ProjectionBands.calcTi
  rw [if_neg (by omega)]
  exact ⟨_, _, rfl, by simp, by simp⟩

/-- The forecast on enough rows. -/
theorem TimeSeriesForecast.forecast_ok (p : ℕ) (F : Frame) (h : p ≤ F.len) :
    ∃ l, TimeSeriesForecast.forecast p F = .ok l ∧ l.length = min (F.col "close").length F.len := by
  obtain ⟨s, hs, hs'⟩ := LinearRegressionSlope.calcTi_ok p (F.sub ["close"]) h
  obtain ⟨i, hi, hi'⟩ := LinearRegressionIndicator.calcTi_ok p (F.sub ["close"]) h
  unfold TimeSeriesForecast.forecast
  rw [hs, hi]
  refine ⟨_, rfl, ?_⟩
  rw [Frame.sub_col F _ "close" (by simp)] at hs' hi'
  simp [Frame.col, List.find?] at hs' hi' ⊢
  rw [hs', hi']
  simp

end Ind

/-- The outcome of `_calculateTi` on `n` rows: the exception, or indicator data of the right shape. -/
def Outcome (ind : Ind) (F : Frame) (r : Except Err Frame) : Prop :=
  (F.len < Spec.minRows ind ∧ r = .error (.notEnough (Spec.reportedRows ind) F.len)) ∨
  (Spec.minRows ind ≤ F.len ∧ ∃ T, r = .ok T ∧ T.idx = F.idx.take (Spec.rowsOut F.len ind) ∧
    T.cols.map (·.1) = Spec.columns ind ∧ T.WF)

theorem take_len (F : Frame) : F.idx.take F.len = F.idx := List.take_length

@[simp] theorem Frame.col_single (idx : List ℤ) (n : String) (l : List Val) : Frame.col ⟨idx, [(n, l)]⟩ n = l := by
  simp [Frame.col]

/-- Well-formedness of a frame given by its columns. -/
theorem wf_iff (idx : List ℤ) (cols : List (String × List Val)) :
    Frame.WF ⟨idx, cols⟩ ↔ ∀ c ∈ cols, c.2.length = idx.length := Iff.rfl

set_option hygiene false in
/-- The indicators whose calculation is one test of the length followed by a frame. -/
local macro "simple_outcome" f:ident m:term : tactic => `(tactic| (
  simp only [Ind.required, List.forall_mem_cons] at hcol
  unfold Outcome
  simp only [Spec.minRows, Spec.reportedRows, Spec.rowsOut, Spec.columns, take_len, Ind.calcTi]
  unfold $f
  by_cases h : F.len < $m
  · left; exact ⟨h, by simp only [if_pos h]⟩
  · right
    simp only [if_neg h]
    refine ⟨by omega, _, rfl, ?_⟩
    refine ⟨rfl, rfl, ?_⟩
    simp only [wf_iff, List.forall_mem_cons]
    simp [hcol, hl, Ind.moneyFlowVolume, Ind.trueRange, Ind.DirectionalMovementIndex.dm] <;> omega))

set_option hygiene false in
/-- The indicators that work on any number of rows. -/
local macro "free_outcome" f:ident : tactic => `(tactic| (
  simp only [Ind.required, List.forall_mem_cons] at hcol
  unfold Outcome
  simp only [Spec.minRows, Spec.reportedRows, Spec.rowsOut, Spec.columns, take_len, Ind.calcTi]
  unfold $f
  right
  refine ⟨by omega, _, rfl, ?_⟩
  refine ⟨rfl, rfl, ?_⟩
  simp only [wf_iff, List.forall_mem_cons]
  simp [hcol, hl, Ind.moneyFlowVolume, Ind.trueRange, Ind.IchimokuCloud.middle]))

theorem calcTi_outcome (E : Env) (ind : Ind) (F : Frame) (hw : F.WF) (hh : F.Has ind.required) (hne : 0 < F.len) :
    Outcome ind F (ind.calcTi E F) := by
  have hcol : ∀ n ∈ ind.required, (F.col n).length = F.len := fun n hn => F.col_length hw n (hh n hn)
  have hl : F.idx.length = F.len := rfl
  cases ind
  case bollingerBands p s => simple_outcome Ind.BollingerBands.calcTi (p)
  case chaikinMoneyFlow p => simple_outcome Ind.ChaikinMoneyFlow.calcTi (p)
  case chandeMomentumOscillator p => simple_outcome Ind.ChandeMomentumOscillator.calcTi (p)
  case commodityChannelIndex p => simple_outcome Ind.CommodityChannelIndex.calcTi (p)
  case directionalMovementIndex => simple_outcome Ind.DirectionalMovementIndex.calcTi (28)
  case doubleExponentialMovingAverage p => simple_outcome Ind.DoubleExponentialMovingAverage.calcTi (p)
  case easeOfMovement p => simple_outcome Ind.EaseOfMovement.calcTi (max p 2)
  case envelopes p s => simple_outcome Ind.Envelopes.calcTi (p)
  case intradayMomentumIndex p => simple_outcome Ind.IntradayMomentumIndex.calcTi (p)
  case klingerOscillator => simple_outcome Ind.KlingerOscillator.calcTi (55)
  case linearRegressionIndicator p => simple_outcome Ind.LinearRegressionIndicator.calcTi (p)
  case linearRegressionSlope p => simple_outcome Ind.LinearRegressionSlope.calcTi (p)
  case massIndex => simple_outcome Ind.MassIndex.calcTi (25)
  case momentum p => simple_outcome Ind.Momentum.calcTi (p)
  case movingAverageConvergenceDivergence => simple_outcome Ind.MovingAverageConvergenceDivergence.calcTi (26)
  case negativeVolumeIndex => simple_outcome Ind.NegativeVolumeIndex.calcTi (2)
  case parabolicSAR => simple_outcome Ind.ParabolicSAR.calcTi (2)
  case positiveVolumeIndex => simple_outcome Ind.PositiveVolumeIndex.calcTi (2)
  case priceAndVolumeTrend => simple_outcome Ind.PriceAndVolumeTrend.calcTi (2)
  case priceChannel p => simple_outcome Ind.PriceChannel.calcTi (p)
  case priceOscillator l s => simple_outcome Ind.PriceOscillator.calcTi (l)
  case priceRateOfChange p => simple_outcome Ind.PriceRateOfChange.calcTi (p)
  case projectionBands p => simple_outcome Ind.ProjectionBands.calcTi (p)
  case qstick p => simple_outcome Ind.Qstick.calcTi (p)
  case rangeIndicator p s => simple_outcome Ind.RangeIndicator.calcTi (max p s)
  case relativeMomentumIndex p m => simple_outcome Ind.RelativeMomentumIndex.calcTi (p + m)
  case relativeStrengthIndex p => simple_outcome Ind.RelativeStrengthIndex.calcTi (p + 1)
  case relativeVolatilityIndex p => simple_outcome Ind.RelativeVolatilityIndex.calcTi (p + 10)
  case standardDeviation p => simple_outcome Ind.StandardDeviation.calcTi (p)
  case stochasticMomentumIndex p s d => simple_outcome Ind.StochasticMomentumIndex.calcTi (p)
  case stochasticOscillator k s d m => simple_outcome Ind.StochasticOscillator.calcTi (k)
  case tripleExponentialMovingAverage p => simple_outcome Ind.TripleExponentialMovingAverage.calcTi (p)
  case ultimateOscillator => simple_outcome Ind.UltimateOscillator.calcTi (28)
  case verticalHorizontalFilter p => simple_outcome Ind.VerticalHorizontalFilter.calcTi (p)
  case volatilityChaikins e c => simple_outcome Ind.VolatilityChaikins.calcTi (max e c)
  case volumeOscillator l s => simple_outcome Ind.VolumeOscillator.calcTi (l)
  case volumeRateOfChange p => simple_outcome Ind.VolumeRateOfChange.calcTi (p)
  case wildersSmoothing p => simple_outcome Ind.WildersSmoothing.calcTi (p)
  case williamsR p => simple_outcome Ind.WilliamsR.calcTi (p)
  case averageTrueRange => simple_outcome Ind.AverageTrueRange.calcTi (14)
  case accumulationDistributionLine => free_outcome Ind.AccumulationDistributionLine.calcTi
  case ichimokuCloud => free_outcome Ind.IchimokuCloud.calcTi
  case marketFacilitationIndex => free_outcome Ind.MarketFacilitationIndex.calcTi
  case onBalanceVolume => free_outcome Ind.OnBalanceVolume.calcTi
  case swingIndex => free_outcome Ind.SwingIndex.calcTi
  case weightedClose => free_outcome Ind.WeightedClose.calcTi
  case williamsAccumulationDistribution => free_outcome Ind.WilliamsAccumulationDistribution.calcTi
  case medianPrice p => free_outcome Ind.MedianPrice.calcTi
  case typicalPrice p => free_outcome Ind.TypicalPrice.calcTi
  case fibonacciRetracement =>
    free_outcome Ind.FibonacciRetracement.calcTi
    rintro a b x y - - rfl
    simp
  case chaikinOscillator =>
    simp only [Ind.required, List.forall_mem_cons] at hcol
    unfold Outcome
    simp only [Spec.minRows, Spec.reportedRows, Spec.rowsOut, Spec.columns, take_len, Ind.calcTi]
    unfold Ind.ChaikinOscillator.calcTi Ind.AccumulationDistributionLine.calcTi
    by_cases h : F.len < 10
    · left; exact ⟨h, by simp only [if_pos h]; rfl⟩
    · right
      simp only [if_neg h]
      refine ⟨by omega, _, rfl, ?_⟩
      refine ⟨rfl, rfl, ?_⟩
      simp only [wf_iff, List.forall_mem_cons]
      simp [Frame.col_single, hcol, hl, Ind.moneyFlowVolume, Frame.sub_col]
  case detrendedPriceOscillator p =>
    simp only [Ind.required, List.forall_mem_cons] at hcol
    unfold Outcome
    simp only [Spec.minRows, Spec.reportedRows, Spec.rowsOut, Spec.columns, Ind.calcTi]
    unfold Ind.DetrendedPriceOscillator.calcTi
    by_cases h : F.len < p
    · left; exact ⟨h, by simp only [if_pos h]⟩
    · right
      simp only [if_neg h]
      refine ⟨by omega, _, rfl, ?_⟩
      refine ⟨rfl, rfl, ?_⟩
      simp only [wf_iff, List.forall_mem_cons]
      simp [hcol, hl]
  case timeSeriesForecast p =>
    simp only [Ind.required, List.forall_mem_cons] at hcol
    unfold Outcome
    simp only [Spec.minRows, Spec.reportedRows, Spec.rowsOut, Spec.columns, take_len, Ind.calcTi]
    unfold Ind.TimeSeriesForecast.calcTi
    by_cases h : F.len < p
    · left; exact ⟨h, by simp only [if_pos h]; rfl⟩
    · right
      obtain ⟨l, hl1, hl2⟩ := Ind.TimeSeriesForecast.forecast_ok p F (by omega)
      simp only [if_neg h, hl1]
      refine ⟨by omega, _, rfl, ?_⟩
      refine ⟨rfl, rfl, ?_⟩
      simp only [wf_iff, List.forall_mem_cons]
      simp [hcol, hl, hl2]
  case forecastOscillator p =>
    simp only [Ind.required, List.forall_mem_cons] at hcol
    unfold Outcome
    simp only [Spec.minRows, Spec.reportedRows, Spec.rowsOut, Spec.columns, take_len, Ind.calcTi]
    unfold Ind.ForecastOscillator.calcTi Ind.TimeSeriesForecast.calcTi
    by_cases h : F.len < p
    · left; exact ⟨h, by simp only [if_pos h]; rfl⟩
    · right
      obtain ⟨l, hl1, hl2⟩ := Ind.TimeSeriesForecast.forecast_ok p (F.sub ["close"]) (by simpa using h)
      simp only [Frame.sub_len, if_neg h, hl1]
      refine ⟨by omega, _, rfl, ?_⟩
      refine ⟨rfl, rfl, ?_⟩
      simp only [wf_iff, List.forall_mem_cons]
      rw [Frame.sub_col F _ "close" (by simp)] at hl2
      simp [hcol, hl, hl2, Frame.col_single]
  case projectionOscillator p =>
    simp only [Ind.required, List.forall_mem_cons] at hcol
    unfold Outcome
    simp only [Spec.minRows, Spec.reportedRows, Spec.rowsOut, Spec.columns, take_len, Ind.calcTi]
    unfold Ind.ProjectionOscillator.calcTi
    by_cases h : F.len < p
    · left; exact ⟨h, by simp only [if_pos h]; rfl⟩
    · right
      obtain ⟨u, l, h1, h2, h3⟩ := Ind.ProjectionBands.calcTi_ok p (F.sub ["high", "low", "close"]) (by simpa using h)
      simp only [if_neg h, h1]
      refine ⟨by omega, _, rfl, ?_⟩
      refine ⟨rfl, rfl, ?_⟩
      rw [Frame.sub_col F _ _ (by simp)] at h2 h3
      simp only [wf_iff, List.forall_mem_cons]
      have e1 : Frame.col ⟨F.idx, [("upper_band", u), ("lower_band", l)]⟩ "upper_band" = u := by
        simp [Frame.col]
      have e2 : Frame.col ⟨F.idx, [("upper_band", u), ("lower_band", l)]⟩ "lower_band" = l := by
        simp [Frame.col]
      simp [hcol, hl, e1, e2, h2, h3]
  case performance long target =>
    simp only [Ind.required, List.forall_mem_cons] at hcol
    unfold Outcome
    simp only [Spec.minRows, Spec.reportedRows, Spec.rowsOut, take_len, Ind.calcTi]
    unfold Ind.Performance.calcTi
    right
    refine ⟨hne, ?_⟩
    have hc := hcol.1
    cases hd : F.col "close" with
    | nil => rw [hd] at hc; simp at hc; omega
    | cons c0 cs =>
      rw [hd] at hc
      refine ⟨_, rfl, ?_⟩
      refine ⟨rfl, by cases long <;> rfl, ?_⟩
      simp only [wf_iff, List.forall_mem_cons]
      simpa [hl] using hc
  case movingAverage p t =>
    simp only [Ind.required, List.forall_mem_cons] at hcol
    unfold Outcome
    simp only [Spec.minRows, Spec.reportedRows, Spec.rowsOut, take_len, Ind.calcTi]
    unfold Ind.MovingAverage.calcTi
    cases t
    case variableType =>
      by_cases h : F.len < 22
      · left; exact ⟨by simpa using h, by simp [h]; rfl⟩
      · right
        obtain ⟨l, h1, h2⟩ := Ind.ChandeMomentumOscillator.calcTi_ok 9 (F.sub ["close"]) (by simp; omega)
        rw [Frame.sub_col F _ _ (by simp)] at h2
        simp only [ne_eq, not_true_eq_false, and_false, if_false, and_true, if_neg h, h1]
        refine ⟨by simpa using h, _, rfl, ?_⟩
        refine ⟨rfl, rfl, ?_⟩
        simp only [wf_iff, List.forall_mem_cons]
        simp [hcol, hl, h2]
    case timeSeries =>
      by_cases h : F.len < p
      · left; exact ⟨by simpa using h, by simp [h]; rfl⟩
      · right
        obtain ⟨l, h1, h2⟩ := Ind.TimeSeriesForecast.forecast_ok p F (by omega)
        simp only [h, false_and, and_false, if_false, h1, reduceCtorEq]
        refine ⟨by simpa using h, _, rfl, ?_⟩
        refine ⟨rfl, rfl, ?_⟩
        simp only [wf_iff, List.forall_mem_cons]
        simp [hcol, hl, h2]
    all_goals
      by_cases h : F.len < p
      · left; exact ⟨by simpa using h, by simp [h]; rfl⟩
      · right
        simp only [h, false_and, and_false, if_false, reduceCtorEq]
        refine ⟨by simpa using h, _, rfl, ?_⟩
        refine ⟨rfl, rfl, ?_⟩
        simp only [wf_iff, List.forall_mem_cons]
        simp [hcol, hl]

/-! ## What validation hands over -/

/-- The shape of validated data. -/
structure Frame.Good (F : Frame) (required : List String) : Prop where
  wf : F.WF
  has : F.Has required
  rows : 0 < F.len
  sorted : F.idx.Pairwise (· ≤ ·)
  only : ∀ n ∈ F.cols.map (·.1), n ∈ required

theorem fillMissingValues_idx (F : Frame) : (fillMissingValues F).idx = sortIdx F.idx := rfl

theorem validated_good (f : RawFrame) (required : List String) (fill : Bool) (F : Frame)
    (hwf : ∀ c ∈ f.cols, c.data.length = f.idx.length)
    (h : (validateInputData (.frame f) required fill).2 = .ok F) :
    F.Good required ∧ F.idx = sortIdx f.idx := by
  obtain ⟨hv, hF⟩ := valid_of_ok _ _ _ _ h
  have hwk : ∀ c ∈ (f.kept required).cols, c.2.length = (f.kept required).idx.length := by
    apply sortIndex_lengths
    intro c hc
    rw [List.mem_map] at hc
    obtain ⟨d, hd, rfl⟩ := hc
    exact hwf d (List.mem_filter.1 hd).1
  have hkidx : (f.kept required).idx = sortIdx f.idx := rfl
  have hknames : (f.kept required).cols.map (·.1) =
      (f.cols.filter fun c => decide (c.name ∈ required)).map RawCol.name := by
    simp only [RawFrame.kept, Frame.sortIndex, List.map_map]; rfl
  have hsorted : (f.kept required).idx.Pairwise (· ≤ ·) := sortIdx_sorted _
  have hself : (f.kept required).sortIndex = f.kept required := sortIndex_of_sorted _ hsorted hwk
  have hidx : F.idx = sortIdx f.idx := by
    rw [hF]
    cases fill
    · rfl
    · simp only [if_true, fillMissingValues, hself]; rfl
  have hnames : F.cols.map (·.1) = (f.kept required).cols.map (·.1) := by
    rw [hF]
    cases fill
    · rfl
    · simp only [if_true, fillMissingValues, hself, List.map_map]; rfl
  refine ⟨⟨?_, ?_, ?_, ?_, ?_⟩, hidx⟩
  · intro c hc
    rw [hidx, ← hkidx]
    rw [hF] at hc
    cases fill
    · exact hwk c (by simpa using hc)
    · simp only [if_true, fillMissingValues, hself, List.mem_map] at hc
      obtain ⟨d, hd, rfl⟩ := hc
      simpa using hwk d hd
  · intro n hn
    rw [hnames, hknames]
    obtain ⟨c, hc, -⟩ := hv.needed n hn
    have hmem : c ∈ f.cols.filter fun c => c.name == n := by rw [hc]; simp
    rw [List.mem_filter] at hmem
    have hcn : c.name = n := by simpa using hmem.2
    exact List.mem_map.2 ⟨c, List.mem_filter.2 ⟨hmem.1, by simpa [hcn] using hn⟩, hcn⟩
  · unfold Frame.len
    rw [hidx, (sortIdx_perm _).length_eq]
    exact List.length_pos_iff.2 hv.rows
  · rw [hidx]; exact sortIdx_sorted _
  · intro n hn
    rw [hnames, hknames] at hn
    obtain ⟨c, hc, rfl⟩ := List.mem_map.1 hn
    simpa using (List.mem_filter.1 hc).2

end TTI
