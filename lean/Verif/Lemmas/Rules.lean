import Verif.Lemmas.Signal
import Verif.Spec.Signals
import Mathlib.Data.List.GetD

set_option autoImplicit false

/-!
# The signals follow the table of rules
-/

namespace TTI
open TTI.Spec

theorem before_eq (k : ℕ) (xs : List Val) (h : k < xs.length) : before k xs = xs[xs.length - 1 - k] := by
  unfold before
  rw [List.getD_eq_getElem?_getD, List.getElem?_reverse h, List.getElem?_eq_getElem (by omega)]
  rfl

theorem iat_before (xs : List Val) (k : ℕ) (h1 : 1 ≤ k) (h : k ≤ xs.length) : iat xs k = .ok (before (k - 1) xs) := by
  unfold iat fromEnd
  rw [if_pos (by omega), List.getElem?_eq_getElem (by omega), before_eq (k - 1) xs (by omega)]
  simp only [Except.ok.injEq]
  congr 1
  omega

theorem Val.lt_asymm (a b : Val) (h : Val.lt a b = true) : Val.lt b a = false := by
  cases a <;> cases b <;> simp_all [Val.lt]
  exact le_of_lt h

theorem Val.lt_trans (a b c : Val) (h : Val.lt a b = true) (h' : Val.lt b c = true) : Val.lt a c = true := by
  cases a <;> cases b <;> cases c <;> simp_all [Val.lt]
  exact _root_.lt_trans h h'

theorem Val.zero_eq : (0 : Val) = .fin 0 := rfl

theorem Val.sub_lt_zero (a b : Val) : Val.lt (Val.sub a b) 0 = Val.lt a b := by
  cases a <;> cases b <;> simp [Val.zero_eq, Val.sub, Val.add, Val.neg, Val.lt]

theorem Val.zero_lt_sub (a b : Val) : Val.lt 0 (Val.sub a b) = Val.lt b a := by
  cases a <;> cases b <;> simp [Val.zero_eq, Val.sub, Val.add, Val.neg, Val.lt]

/-- The signal is buy (sell) exactly when the rule says so. -/
def Follows (r : SigResult) (len : ℕ) (R : Rule) : Prop :=
  (r = .ok .buy ↔ R.rows ≤ len ∧ R.buy) ∧ (r = .ok .sell ↔ R.rows ≤ len ∧ R.sell)

set_option hygiene false in
local macro "sig" f:ident : tactic => `(tactic| (
  have hF := h.fcol
  have hT := h.tcol
  have hL := h.rowsLe
  have hX := h.ffirst
  have hY := h.tfirst
  have hE := h.rowsEq
  simp only [Ind.signal]
  unfold Follows
  unfold $f
  try unfold levelSignal
  try unfold trendSignal
  try unfold priceCrossSignal
  try unfold bandSignal
  simp only [Spec.columns, List.forall_mem_cons] at hT
  simp only [inputColumns, Ind.required, List.forall_mem_cons] at hF
  simp only [rule, follow, contrary, zeroLine, extremes, outside, macdRule, projectionRule, stochasticRule, Rises, Falls,
    Overtakes, Up3, Down3]
  split
  · refine ⟨⟨fun h => ?_, fun h => ?_⟩, ⟨fun h => ?_, fun h => ?_⟩⟩
    · cases h
    · omega
    · cases h
    · omega
  · rename_i hlen
    simp (disch := (first | decide | (simp [hT, hF, hE, hX, hY] <;> omega))) only [iat_before, ok_bind, pure_ok, pure_bind,
      crossUp, crossDown, Val.sub_lt_zero, Val.zero_lt_sub]
    simp only [Nat.reduceSub]
    split_ifs <;> grind [Val.lt_asymm, Val.lt_trans]))

theorem follows_accumulationDistributionLine (F T : Frame) (h : Shaped .accumulationDistributionLine F T) :
    Follows (Ind.signal F T .accumulationDistributionLine) T.len (rule F T .accumulationDistributionLine) := by
  sig Ind.AccumulationDistributionLine.signal

theorem follows_averageTrueRange (F T : Frame) (h : Shaped .averageTrueRange F T) :
    Follows (Ind.signal F T .averageTrueRange) T.len (rule F T .averageTrueRange) := by
  sig Ind.AverageTrueRange.signal

theorem follows_bollingerBands (a : ℕ) (b : Val) (F T : Frame) (h : Shaped (.bollingerBands a b) F T) :
    Follows (Ind.signal F T (.bollingerBands a b)) T.len (rule F T (.bollingerBands a b)) := by
  sig Ind.BollingerBands.signal

theorem follows_chaikinMoneyFlow (a : ℕ) (F T : Frame) (h : Shaped (.chaikinMoneyFlow a) F T) :
    Follows (Ind.signal F T (.chaikinMoneyFlow a)) T.len (rule F T (.chaikinMoneyFlow a)) := by
  sig Ind.ChaikinMoneyFlow.signal

theorem follows_chaikinOscillator (F T : Frame) (h : Shaped .chaikinOscillator F T) :
    Follows (Ind.signal F T .chaikinOscillator) T.len (rule F T .chaikinOscillator) := by
  sig Ind.ChaikinOscillator.signal

theorem follows_chandeMomentumOscillator (a : ℕ) (F T : Frame) (h : Shaped (.chandeMomentumOscillator a) F T) :
    Follows (Ind.signal F T (.chandeMomentumOscillator a)) T.len (rule F T (.chandeMomentumOscillator a)) := by
  have hk : Val.lt (.fin (-50)) 50 = true := by decide
  sig Ind.ChandeMomentumOscillator.signal

theorem follows_commodityChannelIndex (a : ℕ) (F T : Frame) (h : Shaped (.commodityChannelIndex a) F T) :
    Follows (Ind.signal F T (.commodityChannelIndex a)) T.len (rule F T (.commodityChannelIndex a)) := by
  have hk : Val.lt (.fin (-100)) 100 = true := by decide
  sig Ind.CommodityChannelIndex.signal

theorem follows_detrendedPriceOscillator (a : ℕ) (F T : Frame) (h : Shaped (.detrendedPriceOscillator a) F T) :
    Follows (Ind.signal F T (.detrendedPriceOscillator a)) T.len (rule F T (.detrendedPriceOscillator a)) := by
  sig Ind.DetrendedPriceOscillator.signal

theorem follows_directionalMovementIndex (F T : Frame) (h : Shaped .directionalMovementIndex F T) :
    Follows (Ind.signal F T .directionalMovementIndex) T.len (rule F T .directionalMovementIndex) := by
  sig Ind.DirectionalMovementIndex.signal

theorem follows_doubleExponentialMovingAverage (a : ℕ) (F T : Frame) (h : Shaped (.doubleExponentialMovingAverage a) F T) :
    Follows (Ind.signal F T (.doubleExponentialMovingAverage a)) T.len (rule F T (.doubleExponentialMovingAverage a)) := by
  sig Ind.DoubleExponentialMovingAverage.signal

theorem follows_easeOfMovement (a : ℕ) (F T : Frame) (h : Shaped (.easeOfMovement a) F T) :
    Follows (Ind.signal F T (.easeOfMovement a)) T.len (rule F T (.easeOfMovement a)) := by
  sig Ind.EaseOfMovement.signal

theorem follows_envelopes (a : ℕ) (b : ℚ) (F T : Frame) (h : Shaped (.envelopes a b) F T) :
    Follows (Ind.signal F T (.envelopes a b)) T.len (rule F T (.envelopes a b)) := by
  sig Ind.Envelopes.signal

theorem follows_forecastOscillator (a : ℕ) (F T : Frame) (h : Shaped (.forecastOscillator a) F T) :
    Follows (Ind.signal F T (.forecastOscillator a)) T.len (rule F T (.forecastOscillator a)) := by
  sig Ind.ForecastOscillator.signal

theorem follows_intradayMomentumIndex (a : ℕ) (F T : Frame) (h : Shaped (.intradayMomentumIndex a) F T) :
    Follows (Ind.signal F T (.intradayMomentumIndex a)) T.len (rule F T (.intradayMomentumIndex a)) := by
  have hk : Val.lt 30 70 = true := by decide
  sig Ind.IntradayMomentumIndex.signal

theorem follows_klingerOscillator (F T : Frame) (h : Shaped .klingerOscillator F T) :
    Follows (Ind.signal F T .klingerOscillator) T.len (rule F T .klingerOscillator) := by
  sig Ind.KlingerOscillator.signal

theorem follows_linearRegressionIndicator (a : ℕ) (F T : Frame) (h : Shaped (.linearRegressionIndicator a) F T) :
    Follows (Ind.signal F T (.linearRegressionIndicator a)) T.len (rule F T (.linearRegressionIndicator a)) := by
  sig Ind.LinearRegressionIndicator.signal

theorem follows_linearRegressionSlope (a : ℕ) (F T : Frame) (h : Shaped (.linearRegressionSlope a) F T) :
    Follows (Ind.signal F T (.linearRegressionSlope a)) T.len (rule F T (.linearRegressionSlope a)) := by
  sig Ind.LinearRegressionSlope.signal

theorem follows_marketFacilitationIndex (F T : Frame) (h : Shaped .marketFacilitationIndex F T) :
    Follows (Ind.signal F T .marketFacilitationIndex) T.len (rule F T .marketFacilitationIndex) := by
  sig Ind.MarketFacilitationIndex.signal

theorem follows_momentum (a : ℕ) (F T : Frame) (h : Shaped (.momentum a) F T) :
    Follows (Ind.signal F T (.momentum a)) T.len (rule F T (.momentum a)) := by
  sig Ind.Momentum.signal

theorem follows_movingAverageConvergenceDivergence (F T : Frame) (h : Shaped .movingAverageConvergenceDivergence F T) :
    Follows (Ind.signal F T .movingAverageConvergenceDivergence) T.len (rule F T .movingAverageConvergenceDivergence) := by
  sig Ind.MovingAverageConvergenceDivergence.signal

theorem follows_negativeVolumeIndex (F T : Frame) (h : Shaped .negativeVolumeIndex F T) :
    Follows (Ind.signal F T .negativeVolumeIndex) T.len (rule F T .negativeVolumeIndex) := by
  sig Ind.NegativeVolumeIndex.signal

theorem follows_onBalanceVolume (F T : Frame) (h : Shaped .onBalanceVolume F T) :
    Follows (Ind.signal F T .onBalanceVolume) T.len (rule F T .onBalanceVolume) := by
  sig Ind.OnBalanceVolume.signal

theorem follows_parabolicSAR (F T : Frame) (h : Shaped .parabolicSAR F T) :
    Follows (Ind.signal F T .parabolicSAR) T.len (rule F T .parabolicSAR) := by
  sig Ind.ParabolicSAR.signal

theorem follows_positiveVolumeIndex (F T : Frame) (h : Shaped .positiveVolumeIndex F T) :
    Follows (Ind.signal F T .positiveVolumeIndex) T.len (rule F T .positiveVolumeIndex) := by
  sig Ind.PositiveVolumeIndex.signal

theorem follows_priceAndVolumeTrend (F T : Frame) (h : Shaped .priceAndVolumeTrend F T) :
    Follows (Ind.signal F T .priceAndVolumeTrend) T.len (rule F T .priceAndVolumeTrend) := by
  sig Ind.PriceAndVolumeTrend.signal

theorem follows_priceChannel (a : ℕ) (F T : Frame) (h : Shaped (.priceChannel a) F T) :
    Follows (Ind.signal F T (.priceChannel a)) T.len (rule F T (.priceChannel a)) := by
  sig Ind.PriceChannel.signal

theorem follows_priceOscillator (a b : ℕ) (F T : Frame) (h : Shaped (.priceOscillator a b) F T) :
    Follows (Ind.signal F T (.priceOscillator a b)) T.len (rule F T (.priceOscillator a b)) := by
  sig Ind.PriceOscillator.signal

theorem follows_priceRateOfChange (a : ℕ) (F T : Frame) (h : Shaped (.priceRateOfChange a) F T) :
    Follows (Ind.signal F T (.priceRateOfChange a)) T.len (rule F T (.priceRateOfChange a)) := by
  sig Ind.PriceRateOfChange.signal

theorem follows_projectionBands (a : ℕ) (F T : Frame) (h : Shaped (.projectionBands a) F T) :
    Follows (Ind.signal F T (.projectionBands a)) T.len (rule F T (.projectionBands a)) := by
  sig Ind.ProjectionBands.signal

theorem follows_projectionOscillator (a : ℕ) (F T : Frame) (h : Shaped (.projectionOscillator a) F T) :
    Follows (Ind.signal F T (.projectionOscillator a)) T.len (rule F T (.projectionOscillator a)) := by
  have hk : Val.lt 15 85 = true := by decide
  sig Ind.ProjectionOscillator.signal

theorem follows_qstick (a : ℕ) (F T : Frame) (h : Shaped (.qstick a) F T) :
    Follows (Ind.signal F T (.qstick a)) T.len (rule F T (.qstick a)) := by
  sig Ind.Qstick.signal

theorem follows_relativeMomentumIndex (a b : ℕ) (F T : Frame) (h : Shaped (.relativeMomentumIndex a b) F T) :
    Follows (Ind.signal F T (.relativeMomentumIndex a b)) T.len (rule F T (.relativeMomentumIndex a b)) := by
  have hk : Val.lt 30 70 = true := by decide
  sig Ind.RelativeMomentumIndex.signal

theorem follows_relativeStrengthIndex (a : ℕ) (F T : Frame) (h : Shaped (.relativeStrengthIndex a) F T) :
    Follows (Ind.signal F T (.relativeStrengthIndex a)) T.len (rule F T (.relativeStrengthIndex a)) := by
  have hk : Val.lt 30 70 = true := by decide
  sig Ind.RelativeStrengthIndex.signal

theorem follows_relativeVolatilityIndex (a : ℕ) (F T : Frame) (h : Shaped (.relativeVolatilityIndex a) F T) :
    Follows (Ind.signal F T (.relativeVolatilityIndex a)) T.len (rule F T (.relativeVolatilityIndex a)) := by
  have hk : Val.lt 40 60 = true := by decide
  sig Ind.RelativeVolatilityIndex.signal

theorem follows_standardDeviation (a : ℕ) (F T : Frame) (h : Shaped (.standardDeviation a) F T) :
    Follows (Ind.signal F T (.standardDeviation a)) T.len (rule F T (.standardDeviation a)) := by
  sig Ind.StandardDeviation.signal

theorem follows_stochasticMomentumIndex (a b c : ℕ) (F T : Frame) (h : Shaped (.stochasticMomentumIndex a b c) F T) :
    Follows (Ind.signal F T (.stochasticMomentumIndex a b c)) T.len (rule F T (.stochasticMomentumIndex a b c)) := by
  have hk : Val.lt (.fin (-40)) 40 = true := by decide
  sig Ind.StochasticMomentumIndex.signal

theorem follows_stochasticOscillator (a b c : ℕ) (d : Bool) (F T : Frame) (h : Shaped (.stochasticOscillator a b c d) F T) :
    Follows (Ind.signal F T (.stochasticOscillator a b c d)) T.len (rule F T (.stochasticOscillator a b c d)) := by
  have hk : Val.lt 20 80 = true := by decide
  sig Ind.StochasticOscillator.signal

theorem follows_swingIndex (F T : Frame) (h : Shaped .swingIndex F T) :
    Follows (Ind.signal F T .swingIndex) T.len (rule F T .swingIndex) := by
  sig Ind.SwingIndex.signal

theorem follows_timeSeriesForecast (a : ℕ) (F T : Frame) (h : Shaped (.timeSeriesForecast a) F T) :
    Follows (Ind.signal F T (.timeSeriesForecast a)) T.len (rule F T (.timeSeriesForecast a)) := by
  sig Ind.TimeSeriesForecast.signal

theorem follows_tripleExponentialMovingAverage (a : ℕ) (F T : Frame) (h : Shaped (.tripleExponentialMovingAverage a) F T) :
    Follows (Ind.signal F T (.tripleExponentialMovingAverage a)) T.len (rule F T (.tripleExponentialMovingAverage a)) := by
  sig Ind.TripleExponentialMovingAverage.signal

theorem follows_volatilityChaikins (a b : ℕ) (F T : Frame) (h : Shaped (.volatilityChaikins a b) F T) :
    Follows (Ind.signal F T (.volatilityChaikins a b)) T.len (rule F T (.volatilityChaikins a b)) := by
  sig Ind.VolatilityChaikins.signal

theorem follows_volumeOscillator (a b : ℕ) (F T : Frame) (h : Shaped (.volumeOscillator a b) F T) :
    Follows (Ind.signal F T (.volumeOscillator a b)) T.len (rule F T (.volumeOscillator a b)) := by
  sig Ind.VolumeOscillator.signal

theorem follows_volumeRateOfChange (a : ℕ) (F T : Frame) (h : Shaped (.volumeRateOfChange a) F T) :
    Follows (Ind.signal F T (.volumeRateOfChange a)) T.len (rule F T (.volumeRateOfChange a)) := by
  sig Ind.VolumeRateOfChange.signal

theorem follows_weightedClose (F T : Frame) (h : Shaped .weightedClose F T) :
    Follows (Ind.signal F T .weightedClose) T.len (rule F T .weightedClose) := by
  sig Ind.WeightedClose.signal

theorem follows_wildersSmoothing (a : ℕ) (F T : Frame) (h : Shaped (.wildersSmoothing a) F T) :
    Follows (Ind.signal F T (.wildersSmoothing a)) T.len (rule F T (.wildersSmoothing a)) := by
  sig Ind.WildersSmoothing.signal

theorem follows_williamsAccumulationDistribution (F T : Frame) (h : Shaped .williamsAccumulationDistribution F T) :
    Follows (Ind.signal F T .williamsAccumulationDistribution) T.len (rule F T .williamsAccumulationDistribution) := by
  have hk : T.len = F.len := h.rowsEq (by simp)
  sig Ind.WilliamsAccumulationDistribution.signal

theorem follows_movingAverage (a : ℕ) (b : Ind.MaType) (F T : Frame) (h : Shaped (.movingAverage a b) F T) :
    Follows (Ind.signal F T (.movingAverage a b)) T.len (rule F T (.movingAverage a b)) := by
  have hL := h.rowsLe
  have hF := h.fcol "close" (by simp [inputColumns, Ind.required])
  have hT := h.tcol b.column (by cases b <;> simp [Spec.columns, Ind.MaType.column, Ind.MaType.str])
  simp only [Ind.signal, Follows, rule]
  unfold Ind.MovingAverage.signal
  split
  · simp only [pure_ok]; grind
  · simp (disch := (first | decide | omega)) only [iat_before, ok_bind, pure_ok]
    simp only [Nat.reduceSub]
    split_ifs <;> grind

theorem before_nil (k : ℕ) : before k [] = .nan := by simp [before]

theorem follows_typicalPrice (a : ℕ) (F T : Frame) (h : Shaped (.typicalPrice a) F T) :
    Follows (Ind.signal F T (.typicalPrice a)) T.len (rule F T (.typicalPrice a)) := by
  have hE := h.rowsEq (by simp)
  have hX := h.ffirst
  have hT := h.tcol "tp" (by simp [Spec.columns])
  simp only [Ind.signal, Follows, rule]
  unfold Ind.TypicalPrice.signal
  by_cases h0 : T.len < 1
  · have : T.col "tp" = [] := List.eq_nil_of_length_eq_zero (by omega)
    rw [if_pos (Or.inr h0), this]
    simp [before_nil, pure_ok, Val.lt]
    cases before 0 (rolling a a aggMean F.firstCol) <;> simp [Val.lt]
  · split
    · simp only [pure_ok]; grind
    · simp (disch := (first | decide | (simp [hX, hT] <;> omega))) only [iat_before, ok_bind, pure_ok]
      simp only [Nat.reduceSub]
      split_ifs <;> grind

theorem follows_performance (a : Bool) (b : Val) (F T : Frame) (h : Shaped (.performance a b) F T) :
    Follows (Ind.signal F T (.performance a b)) T.len (rule F T (.performance a b)) := by
  have hY := h.tfirst
  have hN := h.tiNames
  have hc : T.firstCol = T.col "prf" := by
    unfold Frame.firstCol Frame.col
    cases hc : T.cols with
    | nil => rfl
    | cons c cs =>
      rw [hc] at hN
      have : c.1 = "prf" := by cases a <;> simp [Spec.columns] at hN <;> exact hN.1
      simp [this]
  rw [hc] at hY
  simp only [Ind.signal, Follows, rule]
  unfold Ind.Performance.signal
  rw [hc]
  split
  · simp only [pure_ok]; grind
  · simp (disch := (first | decide | omega)) only [iat_before, ok_bind, pure_ok]
    simp only [Nat.reduceSub]
    split_ifs <;> grind

theorem follows_medianPrice (p : ℕ) (F T : Frame) (h : Shaped (.medianPrice p) F T) :
    Follows (Ind.signal F T (.medianPrice p)) T.len (rule F T (.medianPrice p)) := by
  have hE := h.rowsEq (by simp)
  have hF := h.fcol "close_ema" (by simp [inputColumns])
  have hT := h.tcol "mp" (by simp [Spec.columns])
  simp only [Ind.signal, Follows, rule, Overtakes]
  unfold Ind.MedianPrice.signal
  split
  · simp only [pure_ok]; grind
  · by_cases h2 : 2 ≤ T.len
    · simp (disch := (first | decide | omega)) only [iat_before, ok_bind, pure_ok]
      simp only [Nat.reduceSub]
      split_ifs <;> grind [Val.lt_asymm]
    · have h1 : iat (F.col "close_ema") 2 = .error .indexError := by
        unfold iat fromEnd; rw [if_neg (by omega)]
      have h3 : before 1 (T.col "mp") = .nan := by
        unfold before; rw [List.getD_eq_getElem?_getD, List.getElem?_eq_none (by simp; omega)]; rfl
      rw [h1, h3]
      have h4 : ∀ v : Val, Val.lt v .nan = false := fun v => by cases v <;> rfl
      have h5 : ∀ v : Val, Val.lt .nan v = false := fun v => rfl
      refine ⟨⟨fun h => ?_, fun h => ?_⟩, ⟨fun h => ?_, fun h => ?_⟩⟩
      · cases h
      · rw [h4] at h; simp at h
      · cases h
      · rw [h5] at h; simp at h

theorem whereInCloud_range (v a b : Val) :
    -1 ≤ Ind.IchimokuCloud.whereInCloud v a b ∧ Ind.IchimokuCloud.whereInCloud v a b ≤ 1 := by
  unfold Ind.IchimokuCloud.whereInCloud
  refine ⟨by omega, ?_⟩
  have : (Ind.IchimokuCloud.sort3 (a, false) (b, false) (v, true)).findIdx (fun e => e.2 || Val.eqv e.1 v) < 3 := by
    have h1 : (Ind.IchimokuCloud.sort3 (a, false) (b, false) (v, true)).length = 3 := by
      unfold Ind.IchimokuCloud.sort3
      simp only
      split_ifs <;> rfl
    have h2 := List.findIdx_lt_length (xs := Ind.IchimokuCloud.sort3 (a, false) (b, false) (v, true))
      (p := fun e => e.2 || Val.eqv e.1 v)
    rw [h1] at h2
    refine h2.2 ⟨(v, true), ?_, by simp⟩
    unfold Ind.IchimokuCloud.sort3
    simp only
    split_ifs <;> simp
  omega

theorem Val.eqv_iff (x y : Val) : Val.eqv x y = true ↔ x ≠ .nan ∧ x = y := by
  cases x <;> simp [Val.eqv]

theorem whereInCloud_above (v a b : Val) : Ind.IchimokuCloud.whereInCloud v a b = 1 ↔ AboveCloud v a b := by
  unfold Ind.IchimokuCloud.whereInCloud Ind.IchimokuCloud.sort3 AboveCloud
  cases a <;> cases b <;> cases v <;>
    simp [Val.lt, Val.le, Val.eqv, List.findIdx_cons]
  all_goals (try split_ifs) <;> simp [List.findIdx_cons, Bool.cond_eq_ite] <;> (try split_ifs) <;> (try simp) <;> grind

theorem whereInCloud_below (v a b : Val) : Ind.IchimokuCloud.whereInCloud v a b = -1 ↔ BelowCloud v a b := by
  unfold Ind.IchimokuCloud.whereInCloud Ind.IchimokuCloud.sort3 BelowCloud
  cases a <;> cases b <;> cases v <;>
    simp [Val.lt, Val.le, Val.eqv, List.findIdx_cons]
  all_goals (try split_ifs) <;> simp [List.findIdx_cons, Bool.cond_eq_ite] <;> (try split_ifs) <;> (try simp) <;> grind

theorem follows_ichimokuCloud (F T : Frame) (h : Shaped .ichimokuCloud F T) :
    Follows (Ind.signal F T .ichimokuCloud) T.len (rule F T .ichimokuCloud) := by
  have hL := h.rowsLe
  have hF := h.fcol "close" (by simp [inputColumns, Ind.required])
  have hT := h.tcol
  simp only [Spec.columns, List.forall_mem_cons] at hT
  simp only [Ind.signal, Follows, rule, Overtakes]
  unfold Ind.IchimokuCloud.signal
  split
  · simp only [pure_ok]; grind
  · simp (disch := (first | decide | omega)) only [iat_before, ok_bind, pure_ok]
    simp only [Nat.reduceSub, ← whereInCloud_above, ← whereInCloud_below, beq_iff_eq, Bool.and_eq_true]
    have r1 := whereInCloud_range (before 0 (F.col "close")) (before 0 (T.col "senkou_a")) (before 0 (T.col "senkou_b"))
    have r2 := whereInCloud_range (before 0 (T.col "tenkan_sen")) (before 0 (T.col "senkou_a"))
      (before 0 (T.col "senkou_b"))
    have r3 := whereInCloud_range (before 0 (T.col "kijun_sen")) (before 0 (T.col "senkou_a"))
      (before 0 (T.col "senkou_b"))
    generalize Ind.IchimokuCloud.whereInCloud (before 0 (F.col "close")) (before 0 (T.col "senkou_a"))
      (before 0 (T.col "senkou_b")) = x at *
    generalize Ind.IchimokuCloud.whereInCloud (before 0 (T.col "tenkan_sen")) (before 0 (T.col "senkou_a"))
      (before 0 (T.col "senkou_b")) = y at *
    generalize Ind.IchimokuCloud.whereInCloud (before 0 (T.col "kijun_sen")) (before 0 (T.col "senkou_a"))
      (before 0 (T.col "senkou_b")) = z at *
    have p1 : x + y + z = 3 ↔ x = 1 ∧ y = 1 ∧ z = 1 := by omega
    have p2 : x + y + z = -3 ↔ x = -1 ∧ y = -1 ∧ z = -1 := by omega
    split_ifs <;> grind

theorem bulge_iff (l : List Val) : Ind.MassIndex.bulge l = true ↔
    ∃ k, k < l.length ∧ (27 : Val) <ᵥ l.getD k .nan ∧ ∀ j, j < k → ¬ l.getD j .nan <ᵥ .fin (265 / 10) := by
  have k27 : Val.lt (.fin (265 / 10)) 27 = true := by decide +kernel
  induction l with
  | nil => simp [Ind.MassIndex.bulge]
  | cons x l ih =>
    unfold Ind.MassIndex.bulge
    split_ifs with h1 h2
    · simp only [Bool.false_eq_true, false_iff]
      rintro ⟨k, hk, h3, h4⟩
      cases k with
      | zero =>
        simp only [List.getD_cons_zero] at h3
        have := Val.lt_asymm _ _ (Val.lt_trans _ _ _ k27 h3)
        rw [h1] at this; exact absurd this (by simp)
      | succ k => exact h4 0 (by omega) h1
    · simp only [true_iff]
      exact ⟨0, by simp, h2, by omega⟩
    · refine ih.trans ?_
      constructor
      · rintro ⟨k, hk, h3, h4⟩
        refine ⟨k + 1, by simpa using hk, by simpa using h3, fun j hj => ?_⟩
        cases j with
        | zero => simpa using h1
        | succ j => simpa using h4 j (by omega)
      · rintro ⟨k, hk, h3, h4⟩
        cases k with
        | zero => exact absurd h3 h2
        | succ k => exact ⟨k, by simpa using hk, by simpa using h3, fun j hj => by simpa using h4 (j + 1) (by omega)⟩

theorem getD_dropLast_reverse (xs : List Val) (k : ℕ) : xs.dropLast.reverse.getD k .nan = before (k + 1) xs := by
  unfold before
  have : xs.dropLast.reverse = xs.reverse.tail := by rw [List.tail_reverse]
  rw [this]
  cases xs.reverse <;> simp

theorem bulge_reversal (xs : List Val) : Ind.MassIndex.bulge xs.dropLast.reverse = true ↔ ReversalBulge xs := by
  rw [bulge_iff]
  simp only [getD_dropLast_reverse, List.length_reverse, List.length_dropLast]
  constructor
  · rintro ⟨k, hk, h1, h2⟩
    exact ⟨k + 1, by omega, by omega, h1, fun j hj hlt => by
      have := h2 (j - 1) (by omega); rwa [show j - 1 + 1 = j by omega] at this⟩
  · rintro ⟨k, h0, hk, h1, h2⟩
    exact ⟨k - 1, by omega, by rwa [show k - 1 + 1 = k by omega], fun j hj => h2 (j + 1) (by omega) (by omega)⟩

theorem follows_massIndex (F T : Frame) (h : Shaped .massIndex F T) :
    Follows (Ind.signal F T .massIndex) T.len (rule F T .massIndex) := by
  have hL := h.rowsLe
  have hF := h.fcol "9_ema" (by simp [inputColumns])
  simp only [Ind.signal, Follows, rule, ← bulge_reversal]
  unfold Ind.MassIndex.signal
  split
  · simp only [pure_ok]; grind
  · simp (disch := (first | decide | omega)) only [iat_before, ok_bind, pure_ok]
    simp only [Nat.reduceSub]
    split_ifs <;> grind [Val.lt_asymm]

/-- The number found by `lastIndex`. -/
theorem lastIndex_spec (p : Val → Bool) (xs : List Val) :
    (Ind.WilliamsR.lastIndex p xs = -1 ∧ ∀ x ∈ xs, ¬ p x) ∨
    ∃ i : ℕ, Ind.WilliamsR.lastIndex p xs = i ∧ i < xs.length ∧ p (xs.getD i .nan) ∧
      ∀ j, i < j → j < xs.length → ¬ p (xs.getD j .nan) := by
  induction xs using List.reverseRecOn with
  | nil => left; simp [Ind.WilliamsR.lastIndex]
  | append_singleton l x ih =>
    have hstep : Ind.WilliamsR.lastIndex p (l ++ [x]) =
        if p x then (l.length : ℤ) else Ind.WilliamsR.lastIndex p l := by
      unfold Ind.WilliamsR.lastIndex
      rw [List.zipIdx_append, List.filter_append]
      by_cases hx : p x <;> simp [hx, List.zipIdx]
    rw [hstep]
    by_cases hx : p x
    · right
      refine ⟨l.length, by simp [hx], by simp, by simpa using hx, fun j h1 h2 => ?_⟩
      simp at h2; omega
    · rcases ih with ⟨h1, h2⟩ | ⟨i, h1, h2, h3, h4⟩
      · left
        refine ⟨by simp [hx, h1], fun y hy => ?_⟩
        rcases List.mem_append.1 hy with hy | hy
        · exact h2 y hy
        · rw [List.mem_singleton.1 hy]; exact hx
      · right
        refine ⟨i, by simp [hx, h1], by simp; omega, ?_, fun j hj1 hj2 => ?_⟩
        · rwa [List.getD_append _ _ _ _ h2]
        · by_cases hj : j < l.length
          · rw [List.getD_append _ _ _ _ hj]; exact h4 j hj1 hj
          · have : j = l.length := by simp at hj2; omega
            subst this
            simpa using hx

theorem lastIndex_lt (p q : Val → Bool) (xs : List Val) :
    Ind.WilliamsR.lastIndex q xs.dropLast < Ind.WilliamsR.lastIndex p xs.dropLast ↔ MoreRecent p q xs := by
  have hb : ∀ i, i < xs.dropLast.length → xs.dropLast.getD i .nan = before (xs.length - 1 - i) xs := by
    intro i hi
    rw [List.length_dropLast] at hi
    rw [before_eq _ _ (by omega), List.getD_eq_getElem _ _ (by rw [List.length_dropLast]; exact hi), List.getElem_dropLast]
    congr 1
    omega
  have hmem : ∀ (r : Val → Bool), (∀ x ∈ xs.dropLast, ¬ r x) ↔ ∀ j, 1 ≤ j → j < xs.length → ¬ r (before j xs) := by
    intro r
    constructor
    · intro h j h1 h2
      have := hb (xs.length - 1 - j) (by rw [List.length_dropLast]; omega)
      rw [show xs.length - 1 - (xs.length - 1 - j) = j by omega] at this
      rw [← this]
      rw [List.getD_eq_getElem _ _ (by rw [List.length_dropLast]; omega)]
      exact h _ (List.getElem_mem _)
    · intro h x hx
      obtain ⟨i, hi, rfl⟩ := List.getElem_of_mem hx
      have h2 := hb i hi
      rw [List.getD_eq_getElem _ _ hi] at h2
      rw [h2]
      rw [List.length_dropLast] at hi
      exact h _ (by omega) (by omega)
  unfold MoreRecent LatestBefore
  rcases lastIndex_spec p xs.dropLast with ⟨h1, h2⟩ | ⟨i, h1, h2, h3, h4⟩
  · rw [h1]
    constructor
    · intro hlt
      rcases lastIndex_spec q xs.dropLast with ⟨h5, -⟩ | ⟨i, h5, -⟩ <;> omega
    · rintro ⟨k, ⟨hk1, hk2, hk3, -⟩, -⟩
      exact absurd hk3 ((hmem p).1 h2 k hk1 hk2)
  · rw [h1]
    rw [hb i h2] at h3
    rw [List.length_dropLast] at h2
    have hlatest : ∀ j, 1 ≤ j → j < xs.length - 1 - i → ¬ p (before j xs) := by
      intro j hj1 hj2
      have h5 := h4 (xs.length - 1 - j) (by omega) (by rw [List.length_dropLast]; omega)
      rw [hb _ (by rw [List.length_dropLast]; omega)] at h5
      rwa [show xs.length - 1 - (xs.length - 1 - j) = j by omega] at h5
    rcases lastIndex_spec q xs.dropLast with ⟨h5, h6⟩ | ⟨m, h5, h6, h7, h8⟩
    · rw [h5]
      refine ⟨fun _ => ⟨xs.length - 1 - i, ⟨by omega, by omega, h3, hlatest⟩, fun j hj1 hj2 =>
        (hmem q).1 h6 j hj1 (by omega)⟩, fun _ => by omega⟩
    · rw [h5]
      rw [hb m h6] at h7
      rw [List.length_dropLast] at h6
      constructor
      · intro hlt
        refine ⟨xs.length - 1 - i, ⟨by omega, by omega, h3, hlatest⟩, fun j hj1 hj2 => ?_⟩
        have h9 := h8 (xs.length - 1 - j) (by omega) (by rw [List.length_dropLast]; omega)
        rw [hb _ (by rw [List.length_dropLast]; omega)] at h9
        rwa [show xs.length - 1 - (xs.length - 1 - j) = j by omega] at h9
      · rintro ⟨k, ⟨hk1, hk2, hk3, hk4⟩, hk5⟩
        have e1 : ¬ (xs.length - 1 - i < k) := fun hc => hk4 _ (by omega) hc h3
        have e2 : ¬ (xs.length - 1 - m ≤ k) := fun hc => hk5 _ (by omega) hc h7
        have e3 : ¬ (k < xs.length - 1 - i) := fun hc => hlatest k hk1 hc hk3
        omega

theorem follows_williamsR (a : ℕ) (F T : Frame) (h : Shaped (.williamsR a) F T) :
    Follows (Ind.signal F T (.williamsR a)) T.len (rule F T (.williamsR a)) := by
  have hT := h.tcol "wr" (by simp [Spec.columns])
  simp only [Ind.signal, Follows, rule, Rises, Falls, ← lastIndex_lt]
  unfold Ind.WilliamsR.signal
  split
  · simp only [pure_ok]; grind
  · simp (disch := (first | decide | omega)) only [iat_before, ok_bind, pure_ok]
    simp only [Nat.reduceSub, crossUp, crossDown]
    split_ifs <;> grind [Val.lt_asymm]

theorem Val.le_total {x y : Val} (hx : x ≠ .nan) (hy : y ≠ .nan) : Val.le x y = true ∨ Val.lt y x = true := by
  cases x <;> cases y <;> simp_all [Val.le, Val.lt, le_or_gt]

theorem Val.le_refl {x : Val} (hx : x ≠ .nan) : Val.le x x = true := by
  cases x <;> simp_all [Val.le]

theorem Val.le_trans {x y z : Val} (h1 : Val.le x y = true) (h2 : Val.le y z = true) : Val.le x z = true := by
  cases x <;> cases y <;> cases z <;> simp_all [Val.le] <;> linarith

theorem Val.le_of_lt {x y : Val} (h1 : Val.lt x y = true) : Val.le x y = true := by
  cases x <;> cases y <;> simp_all [Val.le, Val.lt] <;> linarith

theorem Val.not_lt_of_le {x y : Val} (h1 : Val.le x y = true) : ¬ Val.lt y x = true := by
  cases x <;> cases y <;> simp_all [Val.le, Val.lt]

theorem Val.le_antisymm {x y : Val} (h1 : Val.le x y = true) (h2 : Val.le y x = true) : x = y := by
  cases x <;> cases y <;> simp_all [Val.le]; linarith

theorem foldl_minSkip (ys : List Val) (a : Val) (ha : a ≠ .nan) (h : ∀ y ∈ ys, y ≠ .nan) :
    ys.foldl minSkip a ∈ a :: ys ∧ ∀ y ∈ a :: ys, Val.le (ys.foldl minSkip a) y = true := by
  induction ys generalizing a with
  | nil => simp [Val.le_refl ha]
  | cons y ys ih =>
    have hy := h y (by simp)
    have hm : minSkip a y = (if Val.lt y a then y else a) := by
      unfold minSkip; simp [(not_isNan_iff _).2 ha, (not_isNan_iff _).2 hy]
    have hne : minSkip a y ≠ .nan := by rw [hm]; split <;> assumption
    obtain ⟨h1, h2⟩ := ih (minSkip a y) hne fun z hz => h z (by simp [hz])
    rw [List.foldl_cons]
    have hle : Val.le (minSkip a y) a = true ∧ Val.le (minSkip a y) y = true := by
      rw [hm]
      split
      · rename_i hlt; exact ⟨Val.le_of_lt hlt, Val.le_refl hy⟩
      · rename_i hlt
        refine ⟨Val.le_refl ha, ?_⟩
        rcases Val.le_total ha hy with h' | h'
        · exact h'
        · exact absurd h' hlt
    have h0 := h2 (minSkip a y) (by simp)
    constructor
    · rcases List.mem_cons.1 h1 with h1 | h1
      · rw [h1, hm]; split <;> simp
      · simp [h1]
    · intro z hz
      rcases List.mem_cons.1 hz with rfl | hz
      · exact Val.le_trans h0 hle.1
      · rcases List.mem_cons.1 hz with rfl | hz
        · exact Val.le_trans h0 hle.2
        · exact h2 z (by simp [hz])

theorem orInf_ne (x : Val) : orInf x ≠ .nan := by unfold orInf; split <;> simp_all

theorem argmin_spec (xs : List Val) :
    ((∀ x ∈ xs, x = .nan) ∧ Ind.UltimateOscillator.argmin xs = -1) ∨
    ∃ i : ℕ, FirstLow xs i ∧ Ind.UltimateOscillator.argmin xs = i := by
  unfold Ind.UltimateOscillator.argmin
  by_cases hall : xs.all Val.isNan = true
  · left
    rw [if_pos hall]
    refine ⟨fun x hx => ?_, rfl⟩
    exact (isNan_iff x).1 (List.all_eq_true.1 hall x hx)
  · right
    rw [if_neg hall]
    have hex : ∃ x ∈ xs, x ≠ .nan := by
      by_contra hc
      push Not at hc
      exact hall (List.all_eq_true.2 fun x hx => (isNan_iff x).2 (hc x hx))
    have hmap : (xs.map fun x => if x.isNan then Val.pinf else x) = xs.map orInf := by
      apply List.map_congr_left
      intro x _
      unfold orInf
      cases x <;> simp [Val.isNan]
    simp only [hmap]
    cases xs with
    | nil => simp at hex
    | cons x xs =>
      have hstart : (List.map orInf (x :: xs)).foldl minSkip .nan = (xs.map orInf).foldl minSkip (orInf x) := by
        simp [minSkip, Val.isNan]
      rw [hstart]
      obtain ⟨h1, h2⟩ := foldl_minSkip (xs.map orInf) (orInf x) (orInf_ne x) (by
        intro y hy; obtain ⟨z, -, rfl⟩ := List.mem_map.1 hy; exact orInf_ne z)
      set m := (xs.map orInf).foldl minSkip (orInf x) with hmdef
      have hmne : m ≠ .nan := by
        rcases List.mem_cons.1 h1 with h | h
        · rw [h]; exact orInf_ne x
        · obtain ⟨z, -, hz⟩ := List.mem_map.1 h; rw [← hz]; exact orInf_ne z
      set ys := List.map orInf (x :: xs) with hys
      have hmem : m ∈ ys := by rw [hys, List.map_cons]; exact h1
      have hle : ∀ y ∈ ys, Val.le m y = true := by rw [hys, List.map_cons]; exact h2
      have hlt : ys.findIdx (fun y => Val.eqv y m) < ys.length := by
        rw [List.findIdx_lt_length]
        exact ⟨m, hmem, (Val.eqv_iff _ _).2 ⟨hmne, rfl⟩⟩
      have hlen : ys.length = (x :: xs).length := by rw [hys, List.length_map]
      have hget : ∀ j, ∀ hj : j < ys.length, orInf ((x :: xs).getD j .nan) = ys[j] := by
        intro j hj
        rw [List.getD_eq_getElem _ _ (by omega)]
        exact (List.getElem_map orInf).symm
      refine ⟨ys.findIdx fun y => Val.eqv y m, ⟨hex, by omega, fun j hj => ?_⟩, rfl⟩
      have hi : ys[ys.findIdx fun y => Val.eqv y m] = m := by
        have := List.findIdx_getElem (xs := ys) (p := fun y => Val.eqv y m) (w := hlt)
        exact ((Val.eqv_iff _ _).1 this).2
      rw [hget _ hlt, hget j (by omega), hi]
      refine ⟨hle _ (List.getElem_mem _), fun hji => ?_⟩
      have hnot := List.not_of_lt_findIdx hji
      have hjne : ys[j]'(by omega) ≠ .nan := by rw [← hget j (by omega)]; exact orInf_ne _
      rcases Val.le_total hjne hmne with h | h
      · exfalso
        have := Val.le_antisymm h (hle _ (List.getElem_mem _))
        rw [(Val.eqv_iff _ _).2 ⟨hjne, this⟩] at hnot
        exact absurd hnot (by decide)
      · exact h

theorem firstLow_unique {xs : List Val} {i j : ℕ} (h1 : FirstLow xs i) (h2 : FirstLow xs j) : i = j := by
  rcases Nat.lt_trichotomy i j with h | h | h
  · exact absurd ((h2.2.2 i h1.2.1).2 h) (Val.not_lt_of_le (h1.2.2 j h2.2.1).1)
  · exact h
  · exact absurd ((h1.2.2 j h2.2.1).2 h) (Val.not_lt_of_le (h2.2.2 i h1.2.1).1)

theorem argmin_eq (xs ys : List Val) :
    Ind.UltimateOscillator.argmin xs = Ind.UltimateOscillator.argmin ys ↔ SameLow xs ys := by
  unfold SameLow
  have hno : ∀ zs i, (∀ x ∈ zs, x = Val.nan) → ¬ FirstLow zs i := fun zs i h h' => by
    obtain ⟨x, hx, hn⟩ := h'.1
    exact hn (h x hx)
  rcases argmin_spec xs with ⟨a, b⟩ | ⟨i, a, b⟩ <;> rcases argmin_spec ys with ⟨c, d⟩ | ⟨j, c, d⟩ <;> rw [b, d]
  · exact ⟨fun _ => Or.inl ⟨a, c⟩, fun _ => rfl⟩
  · refine ⟨fun h => by omega, ?_⟩
    rintro (⟨-, h⟩ | ⟨k, h, -⟩)
    · exact absurd c (hno _ _ h)
    · exact absurd h (hno _ _ a)
  · refine ⟨fun h => by omega, ?_⟩
    rintro (⟨h, -⟩ | ⟨k, -, h⟩)
    · exact absurd a (hno _ _ h)
    · exact absurd h (hno _ _ c)
  · constructor
    · intro h
      have : i = j := by exact_mod_cast h
      subst this
      exact Or.inr ⟨i, a, c⟩
    · rintro (⟨h, -⟩ | ⟨k, h, h'⟩)
      · exact absurd a (hno _ _ h)
      · rw [firstLow_unique a h, firstLow_unique c h']

theorem allTrue_iff (xs : List Val) : Ind.UltimateOscillator.allTrue xs = true ↔ ∀ x ∈ xs, x ≠ 0 := by
  unfold Ind.UltimateOscillator.allTrue
  rw [List.all_eq_true]
  constructor
  · intro h x hx h0
    have := h x hx
    rw [h0] at this
    exact absurd this (by decide)
  · intro h x hx
    have := h x hx
    cases x <;> simp_all [Val.eqv, Val.zero_eq]

theorem window_dropLast_mem (w : ℕ) (xs : List Val) (hw : 1 ≤ w) (h : w ≤ xs.length) (x : Val) :
    x ∈ (window w xs).dropLast ↔ ∃ k, 1 ≤ k ∧ k < w ∧ before k xs = x := by
  have hlen : (window w xs).length = w := by unfold window; simp; omega
  rw [List.mem_iff_getElem]
  constructor
  · rintro ⟨i, hi, rfl⟩
    rw [List.length_dropLast, hlen] at hi
    refine ⟨w - 1 - i, by omega, by omega, ?_⟩
    rw [before_eq _ _ (by omega), List.getElem_dropLast]
    unfold window
    rw [List.getElem_drop]
    congr 1
    omega
  · rintro ⟨k, h1, h2, rfl⟩
    refine ⟨w - 1 - k, by rw [List.length_dropLast, hlen]; omega, ?_⟩
    rw [before_eq _ _ (by omega), List.getElem_dropLast]
    unfold window
    rw [List.getElem_drop]
    congr 1
    omega

theorem follows_ultimateOscillator (F T : Frame) (h : Shaped .ultimateOscillator F T) :
    Follows (Ind.signal F T .ultimateOscillator) T.len (rule F T .ultimateOscillator) := by
  have hT := h.tcol "uosc" (by simp [Spec.columns])
  simp only [Ind.signal, Follows, rule, ← argmin_eq]
  unfold Ind.UltimateOscillator.signal
  split
  · simp only [pure_ok]; grind
  · rename_i hlen
    simp (disch := (first | decide | omega)) only [iat_before, ok_bind, pure_ok]
    simp only [Nat.reduceSub]
    have h30 : ∀ b, Val.lt (Ind.UltimateOscillator.ofBool b) 30 = true := by intro b; cases b <;> decide
    have hz : Ind.UltimateOscillator.allTrue (window 30 (T.col "uosc")).dropLast = true ↔
        ¬ ∃ k, 1 ≤ k ∧ k < 30 ∧ before k (T.col "uosc") = 0 := by
      rw [allTrue_iff]
      constructor
      · rintro h1 ⟨k, h2, h3, h4⟩
        exact h1 _ ((window_dropLast_mem 30 _ (by decide) (by omega) _).2 ⟨k, h2, h3, h4⟩) rfl
      · intro h1 x hx h0
        obtain ⟨k, h2, h3, h4⟩ := (window_dropLast_mem 30 _ (by decide) (by omega) _).1 hx
        exact h1 ⟨k, h2, h3, h4.trans h0⟩
    simp only [h30, if_true]
    by_cases hzero : ∃ k, 1 ≤ k ∧ k < 30 ∧ before k (T.col "uosc") = 0
    · have : Ind.UltimateOscillator.allTrue (window 30 (T.col "uosc")).dropLast = false := by
        rw [Bool.eq_false_iff]; exact fun hc => hz.1 hc hzero
      rw [this]
      simp only [hzero, Ind.UltimateOscillator.ofBool, Bool.false_eq_true, if_false]
      split_ifs <;> grind
    · rw [hz.2 hzero]
      simp only [hzero, Ind.UltimateOscillator.ofBool, if_true]
      split_ifs <;> grind

theorem firstCrossing_down (c2 c1 : Val) (T : Frame) (rest : List (String × Bool)) (names : List String)
    (h : ∀ l ∈ names, 2 ≤ (T.col l).length) :
    ((∃ l ∈ names, Val.lt (before 1 (T.col l)) c2 = true ∧ Val.lt c1 (before 0 (T.col l)) = true) →
      Ind.FibonacciRetracement.firstCrossing c2 c1 T (names.map (·, true) ++ rest) = .ok .buy) ∧
    ((¬ ∃ l ∈ names, Val.lt (before 1 (T.col l)) c2 = true ∧ Val.lt c1 (before 0 (T.col l)) = true) →
      Ind.FibonacciRetracement.firstCrossing c2 c1 T (names.map (·, true) ++ rest) =
        Ind.FibonacciRetracement.firstCrossing c2 c1 T rest) := by
  induction names with
  | nil => simp
  | cons l names ih =>
    have h2 := h l (by simp)
    obtain ⟨i1, i2⟩ := ih fun m hm => h m (by simp [hm])
    rw [List.map_cons, List.cons_append]
    rw [Ind.FibonacciRetracement.firstCrossing.eq_2]
    rw [iat_before _ 2 (by decide) h2, ok_bind, iat_before _ 1 (by decide) (by omega), ok_bind]
    simp only [Nat.reduceSub, if_true, List.mem_cons, exists_eq_or_imp, pure_ok, Bool.and_eq_true]
    split_ifs <;> grind

theorem firstCrossing_up (c2 c1 : Val) (T : Frame) (names : List String) (h : ∀ l ∈ names, 2 ≤ (T.col l).length) :
    ((∃ l ∈ names, Val.lt c2 (before 1 (T.col l)) = true ∧ Val.lt (before 0 (T.col l)) c1 = true) →
      Ind.FibonacciRetracement.firstCrossing c2 c1 T (names.map (·, false)) = .ok .sell) ∧
    ((¬ ∃ l ∈ names, Val.lt c2 (before 1 (T.col l)) = true ∧ Val.lt (before 0 (T.col l)) c1 = true) →
      Ind.FibonacciRetracement.firstCrossing c2 c1 T (names.map (·, false)) = .ok .hold) := by
  induction names with
  | nil => simp [Ind.FibonacciRetracement.firstCrossing]
  | cons l names ih =>
    have h2 := h l (by simp)
    obtain ⟨i1, i2⟩ := ih fun m hm => h m (by simp [hm])
    rw [List.map_cons]
    rw [Ind.FibonacciRetracement.firstCrossing.eq_2]
    rw [iat_before _ 2 (by decide) h2, ok_bind, iat_before _ 1 (by decide) (by omega), ok_bind]
    simp only [Nat.reduceSub, Bool.false_eq_true, if_false, List.mem_cons, exists_eq_or_imp, pure_ok, Bool.and_eq_true]
    split_ifs <;> grind

theorem follows_fibonacciRetracement (F T : Frame) (h : Shaped .fibonacciRetracement F T) :
    Follows (Ind.signal F T .fibonacciRetracement) T.len (rule F T .fibonacciRetracement) := by
  have hL := h.rowsLe
  have hF := h.fcol "close" (by simp [inputColumns, Ind.required])
  have hT := h.tcol
  simp only [Ind.signal, Follows, rule, Overtakes]
  unfold Ind.FibonacciRetracement.signal
  split
  · simp only [pure_ok]; grind
  · rw [iat_before _ 2 (by decide) (by omega), ok_bind, iat_before _ 1 (by decide) (by omega), ok_bind]
    have hn : ∀ l ∈ ["rl_61.8", "rl_50.0", "rl_38.2", "rl_23.6"], 2 ≤ (T.col l).length := by
      intro l hl
      have := hT l (by simp only [Spec.columns, List.mem_cons, List.not_mem_nil, or_false] at hl ⊢; tauto)
      omega
    have hte : Ind.FibonacciRetracement.tests = ["rl_61.8", "rl_50.0", "rl_38.2", "rl_23.6"].map (·, true) ++
        ["rl_61.8", "rl_50.0", "rl_38.2", "rl_23.6"].map (·, false) := rfl
    rw [hte]
    simp only [Nat.reduceSub]
    obtain ⟨d1, d2⟩ := firstCrossing_down (before 1 (F.col "close")) (before 0 (F.col "close")) T
      (["rl_61.8", "rl_50.0", "rl_38.2", "rl_23.6"].map (·, false)) _ hn
    obtain ⟨u1, u2⟩ := firstCrossing_up (before 1 (F.col "close")) (before 0 (F.col "close")) T _ hn
    by_cases hd : ∃ l ∈ ["rl_61.8", "rl_50.0", "rl_38.2", "rl_23.6"],
        Val.lt (before 1 (T.col l)) (before 1 (F.col "close")) = true ∧ Val.lt (before 0 (F.col "close")) (before 0 (T.col l)) = true
    · rw [d1 hd]
      simp only [hd]
      grind
    · rw [d2 hd]
      simp only [hd]
      by_cases hu : ∃ l ∈ ["rl_61.8", "rl_50.0", "rl_38.2", "rl_23.6"],
        Val.lt (before 1 (F.col "close")) (before 1 (T.col l)) = true ∧ Val.lt (before 0 (T.col l)) (before 0 (F.col "close")) = true
      · rw [u1 hu]
        simp only [hu]
        grind
      · rw [u2 hu]
        simp only [hu]
        grind

/-- The last element selected by a filter. -/
theorem iat_filter {α : Type} (P : α → Bool) (f : α → Val) (l : List α) :
    (iat ((l.filter P).map f) 1 = .error .indexError ∧ ∀ x ∈ l, ¬ P x) ∨
    ∃ k, ∃ hk : k < l.length, iat ((l.filter P).map f) 1 = .ok (f l[l.length - 1 - k]) ∧ P l[l.length - 1 - k] ∧
      ∀ j, ∀ hj : j < k, ¬ P (l[l.length - 1 - j]'(by omega)) := by
  induction l using List.reverseRecOn with
  | nil => left; simp [iat, fromEnd]
  | append_singleton l x ih =>
    by_cases hx : P x
    · right
      refine ⟨0, by simp, ?_, by simpa using hx, by omega⟩
      simp [List.filter_append, hx, iat, fromEnd]
    · have hf : (l ++ [x]).filter P = l.filter P := by simp [List.filter_append, hx]
      rw [hf]
      rcases ih with ⟨h1, h2⟩ | ⟨k, hk, h1, h2, h3⟩
      · left
        refine ⟨h1, fun y hy => ?_⟩
        rcases List.mem_append.1 hy with hy | hy
        · exact h2 y hy
        · rw [List.mem_singleton.1 hy]; exact hx
      · right
        have e : ∀ j, ∀ hj : j < l.length, (l ++ [x])[(l ++ [x]).length - 1 - (j + 1)]'(by simp; omega) =
            l[l.length - 1 - j]'(by omega) := by
          intro j hj
          rw [List.getElem_append_left (by simp; omega)]
          congr 1
          simp; omega
        refine ⟨k + 1, by simp; omega, ?_, ?_, fun j hj => ?_⟩
        · rw [e k hk]; exact h1
        · rw [e k hk]; exact h2
        · cases j with
          | zero => simpa using hx
          | succ j => rw [e j (by omega)]; exact h3 j (by omega)

theorem follows_rangeIndicator (a b : ℕ) (F T : Frame) (h : Shaped (.rangeIndicator a b) F T) :
    Follows (Ind.signal F T (.rangeIndicator a b)) T.len (rule F T (.rangeIndicator a b)) := by
  have hE := h.rowsEq (by simp)
  have hF := h.fcol "close" (by simp [inputColumns, Ind.required])
  have hT := h.tcol "ri" (by simp [Spec.columns])
  simp only [Ind.signal, Follows, rule, Rises]
  unfold Ind.RangeIndicator.signal
  split
  · simp only [pure_ok]; grind
  · rename_i hlen
    rw [iat_before (T.col "ri") 2 (by decide) (by omega), ok_bind, iat_before (T.col "ri") 1 (by decide) (by omega), ok_bind,
      iat_before (F.col "close") 2 (by decide) (by omega), ok_bind, iat_before (F.col "close") 1 (by decide) (by omega),
      ok_bind]
    simp only [Nat.reduceSub, crossUp, pure_ok]
    have hz : ∀ k, ∀ hk : k < ((F.col "close").zip (T.col "ri")).length,
        ((F.col "close").zip (T.col "ri"))[((F.col "close").zip (T.col "ri")).length - 1 - k]'(by omega) =
          (before k (F.col "close"), before k (T.col "ri")) := by
      intro k hk
      rw [List.length_zip] at hk
      rw [before_eq _ _ (by omega), before_eq _ _ (by omega), List.getElem_zip]
      simp only [List.length_zip]
      congr 2 <;> omega
    rcases iat_filter (fun p : Val × Val => p.2 <ᵥ 20) (·.1) ((F.col "close").zip (T.col "ri")) with
      ⟨h1, h2⟩ | ⟨k, hk, h1, h2, h3⟩
    · have hno : ¬ ∃ k, k < T.len ∧ before k (T.col "ri") <ᵥ 20 := by
        rintro ⟨k, hk, hlt⟩
        have hk' : k < ((F.col "close").zip (T.col "ri")).length := by rw [List.length_zip]; omega
        refine h2 _ (List.getElem_mem (n := ((F.col "close").zip (T.col "ri")).length - 1 - k) (by omega)) ?_
        rw [hz k hk']
        exact hlt
      rw [h1]
      have hno' : ∀ s : Val, ¬ ∃ k, k < T.len ∧ before k (T.col "ri") <ᵥ 20 ∧ (∀ j, j < k → ¬ before j (T.col "ri") <ᵥ 20) ∧
          before k (F.col "close") = s := by
        rintro s ⟨k, h5, h6, -⟩; exact hno ⟨k, h5, h6⟩
      have herr : ∀ f : Val → SigResult, ((Except.error Err.indexError : Except Err Val) >>= f) = .error .indexError :=
        fun _ => rfl
      simp only [hno', herr]
      split_ifs <;> grind
    · rw [h1]
      rw [hz k hk] at h2 h1 ⊢
      simp only [ok_bind]
      have hst : ∀ s : Val, (∃ k, k < T.len ∧ before k (T.col "ri") <ᵥ 20 ∧
          (∀ j, j < k → ¬ before j (T.col "ri") <ᵥ 20) ∧ before k (F.col "close") = s) ↔ before k (F.col "close") = s := by
        intro s
        have hk2 : k < T.len := by rw [List.length_zip] at hk; omega
        constructor
        · rintro ⟨m, m1, m2, m3, rfl⟩
          rcases Nat.lt_trichotomy m k with hlt | rfl | hlt
          · have := h3 m hlt
            rw [hz m (by omega)] at this
            exact absurd m2 this
          · rfl
          · exact absurd h2 (m3 k hlt)
        · intro hs
          refine ⟨k, hk2, h2, fun j hj => ?_, hs⟩
          have := h3 j hj
          rwa [hz j (by omega)] at this
      simp only [hst, exists_eq_left']
      split_ifs <;> grind

theorem follows_verticalHorizontalFilter (a : ℕ) (F T : Frame) (h : Shaped (.verticalHorizontalFilter a) F T) :
    Follows (Ind.signal F T (.verticalHorizontalFilter a)) T.len (rule F T (.verticalHorizontalFilter a)) := by
  have hT := h.tcol "vhf" (by simp [Spec.columns])
  have hF := h.fcol "close" (by simp [inputColumns, Ind.required])
  have hL := h.rowsLe
  have hG : ((F.sub ["close"]).col "close").length = F.len := by
    rw [F.sub_col _ _ (by simp)]; simpa using hF
  have hGl : (F.sub ["close"]).len = F.len := rfl
  simp only [Ind.signal, Follows, rule, Up3, Down3, Overtakes]
  unfold Ind.VerticalHorizontalFilter.signal
  split
  · simp only [pure_ok]; grind
  · rename_i hlen
    simp (disch := (first | decide | omega)) only [iat_before, ok_bind, pure_ok]
    simp only [Nat.reduceSub]
    split
    · rename_i hup
      split
      · rename_i h5
        unfold Ind.DoubleExponentialMovingAverage.calcTi
        rw [if_pos (by omega)]
        simp only [reduceCtorEq, false_and, exists_false]
        grind [Val.lt_asymm]
      · rename_i h5
        cases hD : Ind.DoubleExponentialMovingAverage.calcTi 5 (F.sub ["close"]) with
        | error e => 
          unfold Ind.DoubleExponentialMovingAverage.calcTi at hD
          rw [if_neg (by omega)] at hD
          cases hD
        | ok D =>
          have hDl : (D.col "dema").length = F.len ∧ D.len = F.len := by
            unfold Ind.DoubleExponentialMovingAverage.calcTi at hD
            rw [if_neg (by omega)] at hD
            cases hD
            exact ⟨by simp [Frame.col_single, hG], rfl⟩
          rw [ok_bind]
          unfold Ind.DoubleExponentialMovingAverage.signal
          rw [if_neg (by omega), iat_before _ 1 (by decide) (by omega), ok_bind, iat_before _ 1 (by decide) (by omega), ok_bind]
          simp only [Nat.reduceSub, pure_ok, Except.ok.injEq, exists_eq_left']
          split_ifs <;> grind [Val.lt_asymm]
    · split
      · rename_i hup hdown
        split
        · rename_i h5
          unfold Ind.Momentum.calcTi
          rw [if_pos (by omega)]
          simp only [reduceCtorEq, false_and, exists_false]
          grind [Val.lt_asymm]
        · rename_i h5
          cases hD : Ind.Momentum.calcTi 12 (F.sub ["close"]) with
          | error e => 
            unfold Ind.Momentum.calcTi at hD
            rw [if_neg (by omega)] at hD
            cases hD
          | ok D =>
            have hDl : (D.col "mom").length = F.len ∧ D.len = F.len := by
              unfold Ind.Momentum.calcTi at hD
              rw [if_neg (by omega)] at hD
              cases hD
              exact ⟨by simp [Frame.col_single, hG], rfl⟩
            rw [ok_bind]
            unfold Ind.Momentum.signal
            rw [if_neg (by omega), iat_before _ 2 (by decide) (by omega), ok_bind, iat_before _ 1 (by decide) (by omega),
              ok_bind, iat_before _ 2 (by decide) (by simp; omega), ok_bind, iat_before _ 1 (by decide) (by simp; omega),
              ok_bind]
            simp only [Nat.reduceSub, pure_ok, Except.ok.injEq, exists_eq_left']
            split_ifs <;> grind [Val.lt_asymm]
      · grind

theorem signal_rule (ind : Ind) (F T : Frame) (h : Shaped ind F T) :
    Follows (ind.signal F T) T.len (rule F T ind) := by
  cases ind with
  | accumulationDistributionLine => exact follows_accumulationDistributionLine F T h
  | averageTrueRange => exact follows_averageTrueRange F T h
  | bollingerBands => exact follows_bollingerBands _ _ F T h
  | chaikinMoneyFlow => exact follows_chaikinMoneyFlow _ F T h
  | chaikinOscillator => exact follows_chaikinOscillator F T h
  | chandeMomentumOscillator => exact follows_chandeMomentumOscillator _ F T h
  | commodityChannelIndex => exact follows_commodityChannelIndex _ F T h
  | detrendedPriceOscillator => exact follows_detrendedPriceOscillator _ F T h
  | directionalMovementIndex => exact follows_directionalMovementIndex F T h
  | doubleExponentialMovingAverage => exact follows_doubleExponentialMovingAverage _ F T h
  | easeOfMovement => exact follows_easeOfMovement _ F T h
  | envelopes => exact follows_envelopes _ _ F T h
  | forecastOscillator => exact follows_forecastOscillator _ F T h
  | intradayMomentumIndex => exact follows_intradayMomentumIndex _ F T h
  | klingerOscillator => exact follows_klingerOscillator F T h
  | linearRegressionIndicator => exact follows_linearRegressionIndicator _ F T h
  | linearRegressionSlope => exact follows_linearRegressionSlope _ F T h
  | marketFacilitationIndex => exact follows_marketFacilitationIndex F T h
  | momentum => exact follows_momentum _ F T h
  | movingAverageConvergenceDivergence => exact follows_movingAverageConvergenceDivergence F T h
  | negativeVolumeIndex => exact follows_negativeVolumeIndex F T h
  | onBalanceVolume => exact follows_onBalanceVolume F T h
  | parabolicSAR => exact follows_parabolicSAR F T h
  | positiveVolumeIndex => exact follows_positiveVolumeIndex F T h
  | priceAndVolumeTrend => exact follows_priceAndVolumeTrend F T h
  | priceChannel => exact follows_priceChannel _ F T h
  | priceOscillator => exact follows_priceOscillator _ _ F T h
  | priceRateOfChange => exact follows_priceRateOfChange _ F T h
  | projectionBands => exact follows_projectionBands _ F T h
  | projectionOscillator => exact follows_projectionOscillator _ F T h
  | qstick => exact follows_qstick _ F T h
  | relativeMomentumIndex => exact follows_relativeMomentumIndex _ _ F T h
  | relativeStrengthIndex => exact follows_relativeStrengthIndex _ F T h
  | relativeVolatilityIndex => exact follows_relativeVolatilityIndex _ F T h
  | standardDeviation => exact follows_standardDeviation _ F T h
  | stochasticMomentumIndex => exact follows_stochasticMomentumIndex _ _ _ F T h
  | stochasticOscillator => exact follows_stochasticOscillator _ _ _ _ F T h
  | swingIndex => exact follows_swingIndex F T h
  | timeSeriesForecast => exact follows_timeSeriesForecast _ F T h
  | tripleExponentialMovingAverage => exact follows_tripleExponentialMovingAverage _ F T h
  | volatilityChaikins => exact follows_volatilityChaikins _ _ F T h
  | volumeOscillator => exact follows_volumeOscillator _ _ F T h
  | volumeRateOfChange => exact follows_volumeRateOfChange _ F T h
  | weightedClose => exact follows_weightedClose F T h
  | wildersSmoothing => exact follows_wildersSmoothing _ F T h
  | williamsAccumulationDistribution => exact follows_williamsAccumulationDistribution F T h
  | movingAverage => exact follows_movingAverage _ _ F T h
  | typicalPrice => exact follows_typicalPrice _ F T h
  | performance => exact follows_performance _ _ F T h
  | medianPrice => exact follows_medianPrice _ F T h
  | ichimokuCloud => exact follows_ichimokuCloud F T h
  | massIndex => exact follows_massIndex F T h
  | williamsR => exact follows_williamsR _ F T h
  | ultimateOscillator => exact follows_ultimateOscillator F T h
  | fibonacciRetracement => exact follows_fibonacciRetracement F T h
  | rangeIndicator => exact follows_rangeIndicator _ _ F T h
  | verticalHorizontalFilter => exact follows_verticalHorizontalFilter _ F T h

end TTI
