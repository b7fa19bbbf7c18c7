import Verif.Lemmas.Built

set_option autoImplicit false

/-!
# Causality: the first rows of an indicator depend on the first rows of its input only
-/

namespace TTI

/-! ## The operators -/

section
variable (xs ys zs : List Val) (n : ℕ)

theorem rolling_take (w m : ℕ) (agg : List ℚ → Val) : rolling w m agg (xs.take n) = (rolling w m agg xs).take n :=
  prefixMap_take _ _ _
theorem ewmAlpha_take (a : ℚ) (m : ℕ) : ewmAlpha a m (xs.take n) = (ewmAlpha a m xs).take n := prefixMap_take _ _ _
theorem ewm_take (s m : ℕ) : ewm s m (xs.take n) = (ewm s m xs).take n := ewmAlpha_take _ _ _ _
theorem cumsum_take : cumsum (xs.take n) = (cumsum xs).take n := prefixMap_take _ _ _
theorem wilder_take (s p : ℕ) : wilder s p (xs.take n) = (wilder s p xs).take n := prefixMap_take _ _ _
theorem rollingOLS_take (w : ℕ) : rollingOLS w (xs.take n) = (rollingOLS w xs).take n := prefixMap_take _ _ _

theorem zipWith_take {α β γ : Type} (f : α → β → γ) (as : List α) (bs : List β) :
    List.zipWith f (as.take n) (bs.take n) = (List.zipWith f as bs).take n := List.take_zipWith.symm
theorem zip_take {α β : Type} (as : List α) (bs : List β) : (as.take n).zip (bs.take n) = (as.zip bs).take n :=
  List.take_zipWith.symm
theorem zipV_take (f : Val → Val → Val) : zipV f (xs.take n) (ys.take n) = (zipV f xs ys).take n := zipWith_take _ _ _ _
theorem addS_take : addS (xs.take n) (ys.take n) = (addS xs ys).take n := zipV_take _ _ _ _
theorem subS_take : subS (xs.take n) (ys.take n) = (subS xs ys).take n := zipV_take _ _ _ _
theorem mulS_take : mulS (xs.take n) (ys.take n) = (mulS xs ys).take n := zipV_take _ _ _ _
theorem divS_take : divS (xs.take n) (ys.take n) = (divS xs ys).take n := zipV_take _ _ _ _
theorem sumRows_take : sumRows (xs.take n) (ys.take n) = (sumRows xs ys).take n := zipV_take _ _ _ _
theorem zip3_take (f : Val → Val → Val → Val) :
    zip3 f (xs.take n) (ys.take n) (zs.take n) = (zip3 f xs ys zs).take n := by
  unfold zip3; rw [zip_take, zipWith_take]
theorem map_take {α β : Type} (f : α → β) (as : List α) : (as.take n).map f = (as.map f).take n := List.map_take
theorem scaleS_take (c : ℚ) : scaleS c (xs.take n) = (scaleS c xs).take n := map_take _ _ _
theorem roundS_take (k : ℕ) : roundS k (xs.take n) = (roundS k xs).take n := map_take _ _ _
theorem fillna_take (v : Val) : fillna v (xs.take n) = (fillna v xs).take n := map_take _ _ _
theorem zeroBelow_take : zeroBelow (xs.take n) = (zeroBelow xs).take n := map_take _ _ _
theorem zeroAbove_take : zeroAbove (xs.take n) = (zeroAbove xs).take n := map_take _ _ _

theorem shift_take (k : ℕ) : shift k (xs.take n) = (shift k xs).take n := by
  apply List.ext_getElem?
  intro i
  simp only [shift, List.getElem?_take, List.length_take, List.getElem?_append, List.getElem?_replicate,
    List.length_replicate]
  by_cases h1 : i < n <;> by_cases h2 : i < xs.length <;> by_cases h3 : i < k <;> simp [h1, h2, h3]; omega

theorem diffS_take (k : ℕ) : diffS k (xs.take n) = (diffS k xs).take n := by
  unfold diffS; rw [shift_take, subS_take]

theorem maskBefore_take (k : ℕ) : maskBefore k (xs.take n) = (maskBefore k xs).take n := by
  apply List.ext_getElem?
  intro i
  simp only [maskBefore, List.getElem?_take, List.length_take, List.getElem?_append, List.getElem?_replicate,
    List.length_replicate, List.getElem?_drop]
  by_cases h1 : i < n <;> by_cases h2 : i < xs.length <;> by_cases h3 : i < k <;> simp [h1, h2, h3]; omega

theorem rowNumbers_take (m : ℕ) : rowNumbers (min n m) = (rowNumbers m).take n := by
  unfold rowNumbers; rw [← List.take_range, List.map_take]

theorem replicate_take {α : Type} (v : α) (m : ℕ) : List.replicate (min n m) v = (List.replicate m v).take n :=
  List.take_replicate.symm

theorem Frame.rows_take (F : Frame) : (F.take n).rows = F.rows.take n := by
  unfold Frame.rows
  rw [Frame.take_len, ← List.map_take, List.take_range]
  apply List.map_congr_left
  intro i hi
  rw [List.mem_range] at hi
  simp only [Frame.take, List.map_map]
  apply List.map_congr_left
  intro c _
  simp [List.getD_eq_getElem?_getD, show i < n by omega]

namespace Ind

theorem volumeIndex_take (m : Val → Val → Bool) (r : List (Val × Val)) :
    volumeIndex m (r.take n) = (volumeIndex m r).take n := prefixMap_take _ _ _
theorem PriceAndVolumeTrend.trend_take (r : List (Val × Val)) :
    PriceAndVolumeTrend.trend (r.take n) = (PriceAndVolumeTrend.trend r).take n := prefixMap_take _ _ _
theorem KlingerOscillator.cumulative_take (r : List (Val × Val)) :
    KlingerOscillator.cumulative (r.take n) = (KlingerOscillator.cumulative r).take n := prefixMap_take _ _ _
theorem CommodityChannelIndex.differences_take (p : ℕ) (r : List (Val × Val)) :
    CommodityChannelIndex.differences p (r.take n) = (CommodityChannelIndex.differences p r).take n := prefixMap_take _ _ _
theorem DirectionalMovementIndex.smooth14_take :
    DirectionalMovementIndex.smooth14 (xs.take n) = (DirectionalMovementIndex.smooth14 xs).take n := prefixMap_take _ _ _
theorem DirectionalMovementIndex.adxOf_take :
    DirectionalMovementIndex.adxOf (xs.take n) = (DirectionalMovementIndex.adxOf xs).take n := prefixMap_take _ _ _
theorem RelativeStrengthIndex.smooth_take (p : ℕ) :
    RelativeStrengthIndex.smooth p (xs.take n) = (RelativeStrengthIndex.smooth p xs).take n := prefixMap_take _ _ _
theorem ProjectionBands.band_take (pick : Val → Val → Val) (p : ℕ) :
    ProjectionBands.band pick p (xs.take n) (ys.take n) = (ProjectionBands.band pick p xs ys).take n := by
  unfold ProjectionBands.band; rw [zip_take, prefixMap_take]
theorem MovingAverage.variableMa_take (p : ℕ) (r : List (Val × Val)) :
    MovingAverage.variableMa p (r.take n) = (MovingAverage.variableMa p r).take n := by
  unfold MovingAverage.variableMa; exact prefixMap_take _ _ _
theorem RelativeMomentumIndex.raw_take (p m : ℕ) :
    RelativeMomentumIndex.raw p m (xs.take n) = (RelativeMomentumIndex.raw p m xs).take n := by
  simp only [RelativeMomentumIndex.raw, shift_take, subS_take, map_take, wilder_take, divS_take, scaleS_take]
theorem RelativeStrengthIndex.raw_take (p : ℕ) :
    RelativeStrengthIndex.raw p (xs.take n) = (RelativeStrengthIndex.raw p xs).take n := by
  simp only [RelativeStrengthIndex.raw, shift_take, zipV_take, maskBefore_take, RelativeStrengthIndex.smooth_take, divS_take,
    map_take]
theorem RelativeVolatilityIndex.half_take (sq : ℚ → ℚ) (p : ℕ) :
    RelativeVolatilityIndex.half sq p (xs.take n) = (RelativeVolatilityIndex.half sq p xs).take n := by
  simp only [RelativeVolatilityIndex.half, RelativeVolatilityIndex.selected, shift_take, subS_take, rolling_take, zipV_take,
    wilder_take, divS_take, scaleS_take, addS_take]
theorem UltimateOscillator.ratio_take (w : ℕ) :
    UltimateOscillator.ratio w (xs.take n) (ys.take n) = (UltimateOscillator.ratio w xs ys).take n := by
  simp only [UltimateOscillator.ratio, rolling_take, divS_take]

variable (F : Frame)

theorem moneyFlowVolume_take : moneyFlowVolume (F.take n) = (moneyFlowVolume F).take n := by
  simp only [moneyFlowVolume, Frame.take_col, subS_take, mulS_take, divS_take]
theorem trueRange_take (pick : Val → Val → Val) : trueRange pick (F.take n) = (trueRange pick F).take n := by
  simp only [trueRange, Frame.take_col, shift_take, subS_take, zip3_take]
theorem DirectionalMovementIndex.dm_take (f : Val → Val → Val → Val → Val) :
    DirectionalMovementIndex.dm f (F.take n) = (DirectionalMovementIndex.dm f F).take n := by
  simp only [DirectionalMovementIndex.dm, Frame.take_col, shift_take, zip_take, zipWith_take, maskBefore_take]
theorem IchimokuCloud.middle_take (w : ℕ) : IchimokuCloud.middle w (F.take n) = (IchimokuCloud.middle w F).take n := by
  simp only [IchimokuCloud.middle, Frame.take_col, rolling_take, addS_take, map_take]

end Ind
end

/-- No value is missing. -/
def Frame.Complete (F : Frame) : Prop := ∀ c ∈ F.cols, ∀ v ∈ c.2, v ≠ .nan

theorem Frame.sub_complete (F : Frame) (h : F.Complete) (names : List String) : F.sub names = F.restrict names := by
  unfold Frame.sub
  congr 1
  conv_rhs => rw [← List.map_id (List.filter _ _)]
  apply List.map_congr_left
  intro c hc
  have hm : c ∈ F.cols := (List.mem_filter.1 hc).1
  rw [ffill_eq_self _ (h c hm), bfill_eq_self _ (h c hm)]
  rfl

theorem Frame.take_complete (F : Frame) (n : ℕ) (h : F.Complete) : (F.take n).Complete := by
  intro c hc v hv
  simp only [Frame.take, List.mem_map] at hc
  obtain ⟨d, hd, rfl⟩ := hc
  exact h d hd v (List.mem_of_mem_take hv)

theorem Frame.restrict_take (F : Frame) (n : ℕ) (names : List String) :
    (F.take n).restrict names = (F.restrict names).take n := by
  simp only [Frame.restrict, Frame.take, List.filter_map, Function.comp_def]

theorem Frame.sub_take (F : Frame) (n : ℕ) (h : F.Complete) (names : List String) :
    (F.take n).sub names = (F.sub names).take n := by
  rw [Frame.sub_complete _ (F.take_complete n h), Frame.sub_complete _ h, Frame.restrict_take]

/-! ## The indicators -/

theorem frame_take (idx : List ℤ) (cols : List (String × List Val)) (n : ℕ) :
    Frame.take n ⟨idx, cols⟩ = ⟨idx.take n, cols.map fun c => (c.1, c.2.take n)⟩ := rfl

set_option hygiene false in
local macro "causal_of" f:ident : tactic => `(tactic| (
  simp only [Ind.calcTi, $f:ident, Spec.minRows] at h hn ⊢
  (try rw [if_neg (by omega)] at h)
  (try rw [if_neg (by rw [Frame.take_len]; omega)])
  simp only [Except.ok.injEq] at h ⊢
  subst h
  simp only [frame_take, List.map_cons, List.map_nil, Frame.take_idx]
  simp only [Frame.take_col, Frame.take_len, rolling_take, ewmAlpha_take, ewm_take, cumsum_take, wilder_take,
    rollingOLS_take, zipWith_take, zip_take, zipV_take, addS_take, subS_take, mulS_take, divS_take, sumRows_take, zip3_take,
    map_take, scaleS_take, roundS_take, fillna_take, zeroBelow_take, zeroAbove_take, shift_take, diffS_take,
    maskBefore_take, rowNumbers_take, replicate_take, Frame.rows_take, Ind.volumeIndex_take,
    Ind.PriceAndVolumeTrend.trend_take, Ind.KlingerOscillator.cumulative_take, Ind.CommodityChannelIndex.differences_take,
    Ind.DirectionalMovementIndex.smooth14_take, Ind.DirectionalMovementIndex.adxOf_take, Ind.ProjectionBands.band_take,
    Ind.RelativeMomentumIndex.raw_take, Ind.RelativeStrengthIndex.raw_take, Ind.RelativeVolatilityIndex.half_take,
    Ind.UltimateOscillator.ratio_take, Ind.moneyFlowVolume_take, Ind.trueRange_take, Ind.DirectionalMovementIndex.dm_take,
    Ind.IchimokuCloud.middle_take, ← List.take_range]))

theorem LinearRegressionSlope.calcTi_take (p : ℕ) (F : Frame) (n : ℕ) (hn : p ≤ n) (hN : n ≤ F.len) :
    ∃ l, Ind.LinearRegressionSlope.calcTi p F = .ok ⟨F.idx, [("lrs", l)]⟩ ∧
      Ind.LinearRegressionSlope.calcTi p (F.take n) = .ok ⟨F.idx.take n, [("lrs", l.take n)]⟩ := by
  unfold Ind.LinearRegressionSlope.calcTi
  rw [if_neg (by omega), if_neg (by rw [Frame.take_len]; omega)]
  refine ⟨_, rfl, ?_⟩
  simp only [Frame.take_col, Frame.take_len, Frame.take_idx, rolling_take, mulS_take, subS_take, divS_take, scaleS_take,
    roundS_take, map_take, rowNumbers_take]

theorem LinearRegressionIndicator.calcTi_take (p : ℕ) (F : Frame) (n : ℕ) (hn : p ≤ n) (hN : n ≤ F.len) :
    ∃ l, Ind.LinearRegressionIndicator.calcTi p F = .ok ⟨F.idx, [("lri", l)]⟩ ∧
      Ind.LinearRegressionIndicator.calcTi p (F.take n) = .ok ⟨F.idx.take n, [("lri", l.take n)]⟩ := by
  unfold Ind.LinearRegressionIndicator.calcTi
  rw [if_neg (by omega), if_neg (by rw [Frame.take_len]; omega)]
  refine ⟨_, rfl, ?_⟩
  simp only [Frame.take_col, Frame.take_len, Frame.take_idx, fillna_take, rollingOLS_take, ← List.take_range, zipWith_take]

theorem forecast_take (p : ℕ) (F : Frame) (n : ℕ) (hc : F.Complete) (hn : p ≤ n) (hN : n ≤ F.len) :
    ∃ l, Ind.TimeSeriesForecast.forecast p F = .ok l ∧
      Ind.TimeSeriesForecast.forecast p (F.take n) = .ok (l.take n) := by
  obtain ⟨s, hs, hs'⟩ := LinearRegressionSlope.calcTi_take p (F.sub ["close"]) n hn hN
  obtain ⟨i, hi, hi'⟩ := LinearRegressionIndicator.calcTi_take p (F.sub ["close"]) n hn hN
  unfold Ind.TimeSeriesForecast.forecast
  rw [Frame.sub_take F n hc, hs, hi, hs', hi']
  refine ⟨_, rfl, ?_⟩
  simp only [ok_bind, Frame.col_single, sumRows_take, maskBefore_take]
  rfl

theorem tsf_take (p : ℕ) (F : Frame) (n : ℕ) (hc : F.Complete) (hn : p ≤ n) (hN : n ≤ F.len) :
    ∃ l, Ind.TimeSeriesForecast.calcTi p F = .ok ⟨F.idx, [("tsf", l)]⟩ ∧
      Ind.TimeSeriesForecast.calcTi p (F.take n) = .ok ⟨F.idx.take n, [("tsf", l.take n)]⟩ := by
  obtain ⟨l, h1, h2⟩ := forecast_take p F n hc hn hN
  unfold Ind.TimeSeriesForecast.calcTi
  rw [if_neg (by omega), if_neg (by rw [Frame.take_len]; omega), h1, h2]
  refine ⟨_, rfl, ?_⟩
  simp only [ok_bind, roundS_take, Frame.take_idx]
  rfl

theorem Frame.restrict_complete (F : Frame) (h : F.Complete) (names : List String) : (F.restrict names).Complete :=
  fun c hc => h c (List.mem_filter.1 hc).1

theorem cmo_take (p : ℕ) (F : Frame) (n : ℕ) (hn : p ≤ n) (hN : n ≤ F.len) :
    ∃ l, Ind.ChandeMomentumOscillator.calcTi p F = .ok ⟨F.idx, [("cmo", l)]⟩ ∧
      Ind.ChandeMomentumOscillator.calcTi p (F.take n) = .ok ⟨F.idx.take n, [("cmo", l.take n)]⟩ := by
  unfold Ind.ChandeMomentumOscillator.calcTi
  rw [if_neg (by omega), if_neg (by rw [Frame.take_len]; omega)]
  refine ⟨_, rfl, ?_⟩
  simp only [Frame.take_col, Frame.take_idx, diffS_take, zeroBelow_take, zeroAbove_take, rolling_take, map_take, subS_take,
    addS_take, divS_take, scaleS_take, roundS_take]

theorem pb_take (p : ℕ) (F : Frame) (n : ℕ) (hn : p ≤ n) (hN : n ≤ F.len) :
    ∃ u l, Ind.ProjectionBands.calcTi p F = .ok ⟨F.idx, [("upper_band", u), ("lower_band", l)]⟩ ∧
      Ind.ProjectionBands.calcTi p (F.take n) =
        .ok ⟨F.idx.take n, [("upper_band", u.take n), ("lower_band", l.take n)]⟩ := by
  unfold Ind.ProjectionBands.calcTi
  rw [if_neg (by omega), if_neg (by rw [Frame.take_len]; omega)]
  refine ⟨_, _, rfl, ?_⟩
  simp only [Frame.take_col, Frame.take_idx, fillna_take, rollingOLS_take, map_take, Ind.ProjectionBands.band_take,
    roundS_take]

/-! Parabolic SAR: row `i` looks at the rows up to `i` (row 0 also at row 1). -/

namespace Ind.ParabolicSAR

theorem getD_take (xs : List Val) (n i : ℕ) (h : i < n) : (xs.take n).getD i .nan = xs.getD i .nan := by
  simp [List.getD_eq_getElem?_getD, h]

theorem sliceMax_take (xs : List Val) (n a b : ℕ) (h : b ≤ n) : sliceMax (xs.take n) a b = sliceMax xs a b := by
  unfold sliceMax; rw [List.take_take, Nat.min_eq_left h]

theorem sliceMin_take (xs : List Val) (n a b : ℕ) (h : b ≤ n) : sliceMin (xs.take n) a b = sliceMin xs a b := by
  unfold sliceMin; rw [List.take_take, Nat.min_eq_left h]

theorem nextRow_take (high low : List Val) (n i : ℕ) (prev : Row) (h : i < n) :
    nextRow (high.take n) (low.take n) i prev = nextRow high low i prev := by
  simp only [nextRow, penetrated, sarOf, reversed, extreme, getD_take _ _ _ h, sliceMax_take _ _ _ _ h.le,
    sliceMin_take _ _ _ _ h.le, sliceMax_take _ _ _ (i + 1) h, sliceMin_take _ _ _ (i + 1) h]
  rfl

theorem rowAt_take (high low : List Val) (n i : ℕ) (h2 : 2 ≤ n) (h : i < n) :
    rowAt (high.take n) (low.take n) i = rowAt high low i := by
  induction i with
  | zero => simp only [rowAt, firstRow, getD_take _ _ _ h, getD_take _ _ _ (show 1 < n by omega)]
  | succ i ih => simp only [rowAt, ih (by omega), nextRow_take _ _ _ _ _ h]

end Ind.ParabolicSAR

theorem calcTi_take (E : Env) (ind : Ind) (F T : Frame) (n : ℕ) (hc : Spec.Causal ind) (hs : Spec.Nested ind → F.Complete)
    (hn : Spec.minRows ind ≤ n) (hN : n ≤ F.len) (h : ind.calcTi E F = .ok T) :
    ind.calcTi E (F.take n) = .ok (T.take n) := by
  cases ind
  case bollingerBands p s => causal_of Ind.BollingerBands.calcTi
  case ichimokuCloud => causal_of Ind.IchimokuCloud.calcTi
  case chaikinMoneyFlow p => causal_of Ind.ChaikinMoneyFlow.calcTi
  case chandeMomentumOscillator p => causal_of Ind.ChandeMomentumOscillator.calcTi
  case commodityChannelIndex p => causal_of Ind.CommodityChannelIndex.calcTi
  case directionalMovementIndex => causal_of Ind.DirectionalMovementIndex.calcTi
  case doubleExponentialMovingAverage p => causal_of Ind.DoubleExponentialMovingAverage.calcTi
  case easeOfMovement p => causal_of Ind.EaseOfMovement.calcTi
  case envelopes p s => causal_of Ind.Envelopes.calcTi
  case intradayMomentumIndex p => causal_of Ind.IntradayMomentumIndex.calcTi
  case klingerOscillator => causal_of Ind.KlingerOscillator.calcTi
  case linearRegressionIndicator p => causal_of Ind.LinearRegressionIndicator.calcTi
  case linearRegressionSlope p => causal_of Ind.LinearRegressionSlope.calcTi
  case massIndex => causal_of Ind.MassIndex.calcTi
  case momentum p => causal_of Ind.Momentum.calcTi
  case movingAverageConvergenceDivergence => causal_of Ind.MovingAverageConvergenceDivergence.calcTi
  case negativeVolumeIndex => causal_of Ind.NegativeVolumeIndex.calcTi
  case positiveVolumeIndex => causal_of Ind.PositiveVolumeIndex.calcTi
  case priceAndVolumeTrend => causal_of Ind.PriceAndVolumeTrend.calcTi
  case priceChannel p => causal_of Ind.PriceChannel.calcTi
  case priceOscillator l s => causal_of Ind.PriceOscillator.calcTi
  case priceRateOfChange p => causal_of Ind.PriceRateOfChange.calcTi
  case projectionBands p => causal_of Ind.ProjectionBands.calcTi
  case qstick p => causal_of Ind.Qstick.calcTi
  case rangeIndicator p s => causal_of Ind.RangeIndicator.calcTi
  case relativeMomentumIndex p m => causal_of Ind.RelativeMomentumIndex.calcTi
  case relativeStrengthIndex p => causal_of Ind.RelativeStrengthIndex.calcTi
  case relativeVolatilityIndex p => causal_of Ind.RelativeVolatilityIndex.calcTi
  case standardDeviation p => causal_of Ind.StandardDeviation.calcTi
  case stochasticMomentumIndex p s d => causal_of Ind.StochasticMomentumIndex.calcTi
  case stochasticOscillator k s d m => causal_of Ind.StochasticOscillator.calcTi
  case tripleExponentialMovingAverage p => causal_of Ind.TripleExponentialMovingAverage.calcTi
  case ultimateOscillator => causal_of Ind.UltimateOscillator.calcTi
  case verticalHorizontalFilter p => causal_of Ind.VerticalHorizontalFilter.calcTi
  case volatilityChaikins e c => causal_of Ind.VolatilityChaikins.calcTi
  case volumeOscillator l s => causal_of Ind.VolumeOscillator.calcTi
  case volumeRateOfChange p => causal_of Ind.VolumeRateOfChange.calcTi
  case wildersSmoothing p => causal_of Ind.WildersSmoothing.calcTi
  case williamsR p => causal_of Ind.WilliamsR.calcTi
  case marketFacilitationIndex => causal_of Ind.MarketFacilitationIndex.calcTi
  case onBalanceVolume => causal_of Ind.OnBalanceVolume.calcTi
  case swingIndex => causal_of Ind.SwingIndex.calcTi
  case weightedClose => causal_of Ind.WeightedClose.calcTi
  case williamsAccumulationDistribution => causal_of Ind.WilliamsAccumulationDistribution.calcTi
  case medianPrice p => causal_of Ind.MedianPrice.calcTi
  case typicalPrice p => causal_of Ind.TypicalPrice.calcTi
  case detrendedPriceOscillator => exact hc.elim
  case fibonacciRetracement => exact hc.elim
  case accumulationDistributionLine => exact hc.elim
  case chaikinOscillator => exact hc.elim
  case averageTrueRange =>
    simp only [Ind.calcTi, Ind.AverageTrueRange.calcTi, Spec.minRows] at h hn ⊢
    rw [if_neg (by omega)] at h
    rw [if_neg (by rw [Frame.take_len]; omega)]
    simp only [Except.ok.injEq] at h ⊢
    subst h
    obtain ⟨k, rfl⟩ := Nat.exists_eq_add_of_le hn
    have h1 : ∀ tr : List Val, meanSkip ((tr.take (14 + k)).take 14) :: (tr.take (14 + k)).drop 14 =
        (meanSkip (tr.take 14) :: tr.drop 14).take (k + 1) := by
      intro tr
      rw [List.take_take, Nat.min_eq_left (by omega), List.drop_take, List.take_succ_cons]
      congr 2; omega
    simp only [frame_take, List.map_cons, List.map_nil, Frame.take_idx, Ind.trueRange_take, h1, ewmAlpha_take,
      roundS_take]
    congr 3
    rw [List.take_append, List.length_replicate, List.take_of_length_le (l := List.replicate 13 Val.nan) (by simp; omega),
      show 14 + k - 13 = k + 1 by omega]
  case parabolicSAR =>
    simp only [Ind.calcTi, Ind.ParabolicSAR.calcTi, Spec.minRows] at h hn ⊢
    rw [if_neg (by omega)] at h
    rw [if_neg (by rw [Frame.take_len]; omega)]
    simp only [Except.ok.injEq] at h ⊢
    subst h
    simp only [frame_take, List.map_cons, List.map_nil, Frame.take_idx, Frame.take_len, Frame.take_col, ← List.map_take,
      List.take_range]
    congr 3
    apply List.map_congr_left
    intro i hi
    rw [List.mem_range] at hi
    rw [Ind.ParabolicSAR.rowAt_take _ _ _ _ hn (by omega)]
  case performance l t =>
    simp only [Ind.calcTi, Ind.Performance.calcTi, Spec.minRows] at h hn ⊢
    rw [Frame.take_col]
    cases hcl : F.col "close" with
    | nil => rw [hcl] at h; simp [throw, throwThe, MonadExceptOf.throw] at h
    | cons c0 rest =>
      rw [hcl] at h
      simp only [List.head?_cons, pure, Except.pure, Except.ok.injEq] at h
      subst h
      obtain ⟨k, rfl⟩ := Nat.exists_eq_add_of_le hn
      simp only [Nat.add_comm 1 k, List.take_succ_cons, List.head?_cons, pure, Except.pure, frame_take, List.map_cons,
        List.map_nil, Frame.take_idx, Frame.take_len, replicate_take, roundS, List.map_take]
  case timeSeriesForecast p =>
    obtain ⟨l, h1, h2⟩ := tsf_take p F n (hs trivial) hn hN
    simp only [Ind.calcTi] at h ⊢
    rw [h1] at h
    simp only [Except.ok.injEq] at h
    rw [h2, ← h]; rfl
  case forecastOscillator p =>
    have hC := hs trivial
    obtain ⟨l, h1, h2⟩ := tsf_take p (F.sub ["close"]) n (by rw [Frame.sub_complete _ hC]; exact F.restrict_complete hC _)
      hn hN
    simp only [Ind.calcTi, Ind.ForecastOscillator.calcTi, Spec.minRows] at h hn ⊢
    rw [if_neg (by omega), h1] at h
    rw [if_neg (by rw [Frame.take_len]; omega), Frame.sub_take _ _ hC, h2]
    simp only [ok_bind, pure, Except.pure, Except.ok.injEq] at h ⊢
    subst h
    simp only [frame_take, List.map_cons, List.map_nil, Frame.take_idx, Frame.take_col, Frame.col_single, shift_take,
      subS_take, scaleS_take, divS_take, roundS_take]
  case projectionOscillator p =>
    have hC := hs trivial
    obtain ⟨u, l, h1, h2⟩ := pb_take p (F.sub ["high", "low", "close"]) n hn hN
    simp only [Ind.calcTi, Ind.ProjectionOscillator.calcTi, Spec.minRows] at h hn ⊢
    rw [if_neg (by omega), h1] at h
    rw [if_neg (by rw [Frame.take_len]; omega), Frame.sub_take _ _ hC, h2]
    simp only [ok_bind, pure, Except.pure, Except.ok.injEq] at h ⊢
    subst h
    simp [frame_take, Frame.col, List.find?]
    simp only [← Frame.col.eq_1, Frame.take_col, subS_take, scaleS_take, divS_take, roundS_take, ewm_take]
    trivial
  case movingAverage p t =>
    cases t
    case timeSeries =>
      obtain ⟨l, h1, h2⟩ := forecast_take p F n (hs trivial) hn hN
      simp only [Ind.calcTi, Ind.MovingAverage.calcTi, Spec.minRows, reduceCtorEq, if_true, if_false] at h hn ⊢
      rw [if_neg (by simp; omega), if_neg (by simp), h1] at h
      rw [if_neg (by simp; omega), if_neg (by simp), h2]
      simp only [ok_bind, pure, Except.pure, Except.ok.injEq] at h ⊢
      subst h
      simp only [frame_take, List.map_cons, List.map_nil, Frame.take_idx, roundS_take]
    case variableType =>
      have hC := hs trivial
      simp only [Ind.calcTi, Ind.MovingAverage.calcTi, Spec.minRows, reduceCtorEq, if_true, if_false] at h hn ⊢
      obtain ⟨l, h1, h2⟩ := cmo_take 9 (F.sub ["close"]) n (by omega) hN
      rw [if_neg (by simp), if_neg (by simp; omega), h1] at h
      rw [if_neg (by simp), if_neg (by simp; omega), Frame.sub_take _ _ hC, h2]
      simp only [ok_bind, pure, Except.pure, Except.ok.injEq] at h ⊢
      subst h
      simp only [frame_take, List.map_cons, List.map_nil, Frame.take_idx, Frame.take_col, Frame.col_single, map_take,
        zip_take, Ind.MovingAverage.variableMa_take, roundS_take]
    all_goals
      simp only [Ind.calcTi, Ind.MovingAverage.calcTi, Spec.minRows, reduceCtorEq, if_true, if_false] at h hn ⊢
      rw [if_neg (by simp; omega), if_neg (by simp)] at h
      rw [if_neg (by simp; omega), if_neg (by simp)]
      simp only [ok_bind, pure, Except.pure, Except.ok.injEq] at h ⊢
      subst h
      simp only [frame_take, List.map_cons, List.map_nil, Frame.take_idx, Frame.take_col, rolling_take, ewm_take, roundS_take]

theorem inputAfter_take (ind : Ind) (F : Frame) (n : ℕ) : ind.inputAfter (F.take n) = (ind.inputAfter F).take n := by
  cases ind <;> try rfl
  all_goals
    simp only [Ind.inputAfter, Ind.MassIndex.inputAfter, Ind.MedianPrice.inputAfter, Frame.take_col, ewm_take]
    simp [Frame.take]

end TTI
