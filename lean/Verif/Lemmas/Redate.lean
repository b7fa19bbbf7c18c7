import Verif.Spec.Redate
import Mathlib.Order.Monotone.Basic
import Mathlib.Data.List.Sort

set_option autoImplicit false

/-!
# Helper lemmas: other dates
-/

namespace TTI

open Spec

variable {φ : ℤ → ℤ} {S : Set ℤ}

theorem len_redate (F : Frame) : (redate φ F).len = F.len := by simp [redate, Frame.len]

theorem col_redate (F : Frame) (n : String) : (redate φ F).col n = F.col n := rfl

theorem rows_redate (F : Frame) : (redate φ F).rows = F.rows := by
  unfold Frame.rows
  rw [len_redate]
  rfl

theorem firstCol_redate (F : Frame) : (redate φ F).firstCol = F.firstCol := rfl

theorem sub_redate (F : Frame) (ns : List String) : (redate φ F).sub ns = redate φ (F.sub ns) := rfl

theorem idx_redate (F : Frame) : (redate φ F).idx = F.idx.map φ := rfl

theorem forecast_redate (period : ℕ) (F : Frame) :
    Ind.TimeSeriesForecast.forecast period (redate φ F) = Ind.TimeSeriesForecast.forecast period F := by
  unfold Ind.TimeSeriesForecast.forecast Ind.LinearRegressionSlope.calcTi Ind.LinearRegressionIndicator.calcTi
  simp only [sub_redate, len_redate, col_redate]
  by_cases h : (F.sub ["close"]).len < period
  · simp only [h, if_true]
  · simp only [h, if_false]; rfl

theorem tsf_redate (period : ℕ) (F : Frame) :
    Ind.TimeSeriesForecast.calcTi period (redate φ F) = (Ind.TimeSeriesForecast.calcTi period F).map (redate φ) := by
  unfold Ind.TimeSeriesForecast.calcTi
  simp only [forecast_redate, len_redate]
  split
  · rfl
  · cases Ind.TimeSeriesForecast.forecast period F <;> rfl

theorem calcTi_redate (E : Env) (F : Frame) (ind : Ind) :
    ind.calcTi E (redate φ F) = (ind.calcTi E F).map (redate φ) := by
  cases ind
  case timeSeriesForecast period => exact tsf_redate period F
  case forecastOscillator period =>
    simp only [Ind.calcTi]
    unfold Ind.ForecastOscillator.calcTi
    simp only [len_redate, sub_redate, tsf_redate, col_redate]
    split
    · rfl
    · cases Ind.TimeSeriesForecast.calcTi period (F.sub ["close"]) <;> rfl
  case chaikinOscillator =>
    simp only [Ind.calcTi, Ind.ChaikinOscillator.calcTi, Ind.AccumulationDistributionLine.calcTi, len_redate, sub_redate]
    split <;> rfl
  case detrendedPriceOscillator period =>
    simp only [Ind.calcTi, Ind.DetrendedPriceOscillator.calcTi, len_redate, col_redate, idx_redate]
    split
    · rfl
    · simp [Except.map, redate]
  case performance long target =>
    simp only [Ind.calcTi, Ind.Performance.calcTi, len_redate, col_redate, idx_redate]
    cases (F.col "close").head? <;> rfl
  case projectionOscillator period =>
    simp only [Ind.calcTi, Ind.ProjectionOscillator.calcTi, Ind.ProjectionBands.calcTi, len_redate, col_redate, idx_redate,
      sub_redate]
    split
    · rfl
    · split <;> rfl
  case movingAverage period t =>
    simp only [Ind.calcTi, Ind.MovingAverage.calcTi, Ind.ChandeMomentumOscillator.calcTi, len_redate, col_redate, idx_redate,
      sub_redate, forecast_redate]
    split
    · rfl
    · split
      · rfl
      · cases t
        case timeSeries => cases h : Ind.TimeSeriesForecast.forecast period F <;> rfl
        case variableType =>
          by_cases h : (F.sub ["close"]).len < 9
          · simp only [h, if_true]; rfl
          · simp only [h, if_false]; rfl
        all_goals rfl
  all_goals
    first
    | (simp only [Ind.calcTi, Ind.AccumulationDistributionLine.calcTi, Ind.AverageTrueRange.calcTi, Ind.BollingerBands.calcTi, Ind.ChaikinMoneyFlow.calcTi, Ind.ChandeMomentumOscillator.calcTi, Ind.CommodityChannelIndex.calcTi, Ind.DetrendedPriceOscillator.calcTi, Ind.DirectionalMovementIndex.calcTi, Ind.DoubleExponentialMovingAverage.calcTi, Ind.EaseOfMovement.calcTi, Ind.Envelopes.calcTi, Ind.FibonacciRetracement.calcTi, Ind.IchimokuCloud.calcTi, Ind.IntradayMomentumIndex.calcTi, Ind.KlingerOscillator.calcTi, Ind.LinearRegressionIndicator.calcTi, Ind.LinearRegressionSlope.calcTi, Ind.MarketFacilitationIndex.calcTi, Ind.MassIndex.calcTi, Ind.MedianPrice.calcTi, Ind.Momentum.calcTi, Ind.MovingAverageConvergenceDivergence.calcTi, Ind.NegativeVolumeIndex.calcTi, Ind.OnBalanceVolume.calcTi, Ind.ParabolicSAR.calcTi, Ind.PositiveVolumeIndex.calcTi, Ind.PriceAndVolumeTrend.calcTi, Ind.PriceChannel.calcTi, Ind.PriceOscillator.calcTi, Ind.PriceRateOfChange.calcTi, Ind.Qstick.calcTi, Ind.RangeIndicator.calcTi, Ind.RelativeMomentumIndex.calcTi, Ind.RelativeStrengthIndex.calcTi, Ind.RelativeVolatilityIndex.calcTi, Ind.StandardDeviation.calcTi, Ind.StochasticMomentumIndex.calcTi, Ind.StochasticOscillator.calcTi, Ind.SwingIndex.calcTi, Ind.TripleExponentialMovingAverage.calcTi, Ind.TypicalPrice.calcTi, Ind.UltimateOscillator.calcTi, Ind.VerticalHorizontalFilter.calcTi, Ind.VolatilityChaikins.calcTi, Ind.VolumeOscillator.calcTi, Ind.VolumeRateOfChange.calcTi, Ind.WeightedClose.calcTi, Ind.WildersSmoothing.calcTi, Ind.WilliamsAccumulationDistribution.calcTi, Ind.WilliamsR.calcTi, Ind.ProjectionBands.calcTi,
        len_redate, rows_redate, col_redate, sub_redate, idx_redate, apply_ite (Except.map (redate φ)), Except.map, redate,
        List.map_take, List.map_map, Function.comp_def]; done)
    | (simp only [Ind.calcTi, Ind.AccumulationDistributionLine.calcTi, Ind.AverageTrueRange.calcTi, Ind.BollingerBands.calcTi, Ind.ChaikinMoneyFlow.calcTi, Ind.ChandeMomentumOscillator.calcTi, Ind.CommodityChannelIndex.calcTi, Ind.DetrendedPriceOscillator.calcTi, Ind.DirectionalMovementIndex.calcTi, Ind.DoubleExponentialMovingAverage.calcTi, Ind.EaseOfMovement.calcTi, Ind.Envelopes.calcTi, Ind.FibonacciRetracement.calcTi, Ind.IchimokuCloud.calcTi, Ind.IntradayMomentumIndex.calcTi, Ind.KlingerOscillator.calcTi, Ind.LinearRegressionIndicator.calcTi, Ind.LinearRegressionSlope.calcTi, Ind.MarketFacilitationIndex.calcTi, Ind.MassIndex.calcTi, Ind.MedianPrice.calcTi, Ind.Momentum.calcTi, Ind.MovingAverageConvergenceDivergence.calcTi, Ind.NegativeVolumeIndex.calcTi, Ind.OnBalanceVolume.calcTi, Ind.ParabolicSAR.calcTi, Ind.PositiveVolumeIndex.calcTi, Ind.PriceAndVolumeTrend.calcTi, Ind.PriceChannel.calcTi, Ind.PriceOscillator.calcTi, Ind.PriceRateOfChange.calcTi, Ind.Qstick.calcTi, Ind.RangeIndicator.calcTi, Ind.RelativeMomentumIndex.calcTi, Ind.RelativeStrengthIndex.calcTi, Ind.RelativeVolatilityIndex.calcTi, Ind.StandardDeviation.calcTi, Ind.StochasticMomentumIndex.calcTi, Ind.StochasticOscillator.calcTi, Ind.SwingIndex.calcTi, Ind.TripleExponentialMovingAverage.calcTi, Ind.TypicalPrice.calcTi, Ind.UltimateOscillator.calcTi, Ind.VerticalHorizontalFilter.calcTi, Ind.VolatilityChaikins.calcTi, Ind.VolumeOscillator.calcTi, Ind.VolumeRateOfChange.calcTi, Ind.WeightedClose.calcTi, Ind.WildersSmoothing.calcTi, Ind.WilliamsAccumulationDistribution.calcTi, Ind.WilliamsR.calcTi, Ind.ProjectionBands.calcTi,
        len_redate, rows_redate, col_redate, sub_redate, idx_redate]; split <;> rfl)
    | (simp only [Ind.calcTi, Ind.AccumulationDistributionLine.calcTi, Ind.AverageTrueRange.calcTi, Ind.BollingerBands.calcTi, Ind.ChaikinMoneyFlow.calcTi, Ind.ChandeMomentumOscillator.calcTi, Ind.CommodityChannelIndex.calcTi, Ind.DetrendedPriceOscillator.calcTi, Ind.DirectionalMovementIndex.calcTi, Ind.DoubleExponentialMovingAverage.calcTi, Ind.EaseOfMovement.calcTi, Ind.Envelopes.calcTi, Ind.FibonacciRetracement.calcTi, Ind.IchimokuCloud.calcTi, Ind.IntradayMomentumIndex.calcTi, Ind.KlingerOscillator.calcTi, Ind.LinearRegressionIndicator.calcTi, Ind.LinearRegressionSlope.calcTi, Ind.MarketFacilitationIndex.calcTi, Ind.MassIndex.calcTi, Ind.MedianPrice.calcTi, Ind.Momentum.calcTi, Ind.MovingAverageConvergenceDivergence.calcTi, Ind.NegativeVolumeIndex.calcTi, Ind.OnBalanceVolume.calcTi, Ind.ParabolicSAR.calcTi, Ind.PositiveVolumeIndex.calcTi, Ind.PriceAndVolumeTrend.calcTi, Ind.PriceChannel.calcTi, Ind.PriceOscillator.calcTi, Ind.PriceRateOfChange.calcTi, Ind.Qstick.calcTi, Ind.RangeIndicator.calcTi, Ind.RelativeMomentumIndex.calcTi, Ind.RelativeStrengthIndex.calcTi, Ind.RelativeVolatilityIndex.calcTi, Ind.StandardDeviation.calcTi, Ind.StochasticMomentumIndex.calcTi, Ind.StochasticOscillator.calcTi, Ind.SwingIndex.calcTi, Ind.TripleExponentialMovingAverage.calcTi, Ind.TypicalPrice.calcTi, Ind.UltimateOscillator.calcTi, Ind.VerticalHorizontalFilter.calcTi, Ind.VolatilityChaikins.calcTi, Ind.VolumeOscillator.calcTi, Ind.VolumeRateOfChange.calcTi, Ind.WeightedClose.calcTi, Ind.WildersSmoothing.calcTi, Ind.WilliamsAccumulationDistribution.calcTi, Ind.WilliamsR.calcTi, Ind.ProjectionBands.calcTi,
        len_redate, rows_redate, col_redate, sub_redate, idx_redate]; rfl)
    | skip

theorem firstCrossing_redate (a b : Val) (T : Frame) : ∀ ts, Ind.FibonacciRetracement.firstCrossing a b (redate φ T) ts =
    Ind.FibonacciRetracement.firstCrossing a b T ts
  | [] => rfl
  | (name, down) :: rest => by
    simp only [Ind.FibonacciRetracement.firstCrossing, col_redate, firstCrossing_redate a b T rest]

theorem signal_redate (F T : Frame) (ind : Ind) : ind.signal (redate φ F) (redate φ T) = ind.signal F T := by
  cases ind
  all_goals
    simp only [Ind.signal, Ind.LinearRegressionSlope.signal, Ind.LinearRegressionIndicator.signal, Ind.TimeSeriesForecast.signal, Ind.ForecastOscillator.signal, Ind.ChandeMomentumOscillator.signal, Ind.MovingAverage.signal, Ind.DoubleExponentialMovingAverage.signal, Ind.TripleExponentialMovingAverage.signal, Ind.WildersSmoothing.signal, Ind.ProjectionBands.signal, Ind.ProjectionOscillator.signal, Ind.StandardDeviation.signal, Ind.BollingerBands.signal, Ind.Envelopes.signal, Ind.PriceChannel.signal, Ind.MovingAverageConvergenceDivergence.signal, Ind.PriceOscillator.signal, Ind.Momentum.signal, Ind.PriceRateOfChange.signal, Ind.VolumeRateOfChange.signal, Ind.VolumeOscillator.signal, Ind.IntradayMomentumIndex.signal, Ind.Qstick.signal, Ind.RangeIndicator.signal, Ind.RelativeMomentumIndex.signal, Ind.RelativeStrengthIndex.signal, Ind.RelativeVolatilityIndex.signal, Ind.StochasticMomentumIndex.signal, Ind.StochasticOscillator.signal, Ind.SwingIndex.signal, Ind.UltimateOscillator.signal, Ind.VerticalHorizontalFilter.signal, Ind.VolatilityChaikins.signal, Ind.WilliamsR.signal, Ind.AverageTrueRange.signal, Ind.CommodityChannelIndex.signal, Ind.DetrendedPriceOscillator.signal, Ind.FibonacciRetracement.signal, Ind.DirectionalMovementIndex.signal, Ind.IchimokuCloud.signal, Ind.MassIndex.signal, Ind.MedianPrice.signal, Ind.ParabolicSAR.signal, Ind.Performance.signal, Ind.TypicalPrice.signal, Ind.WeightedClose.signal, Ind.AccumulationDistributionLine.signal, Ind.ChaikinMoneyFlow.signal, Ind.ChaikinOscillator.signal, Ind.EaseOfMovement.signal, Ind.NegativeVolumeIndex.signal, Ind.PositiveVolumeIndex.signal, Ind.OnBalanceVolume.signal, Ind.PriceAndVolumeTrend.signal, Ind.MarketFacilitationIndex.signal, Ind.KlingerOscillator.signal, Ind.WilliamsAccumulationDistribution.signal,
      trendSignal, levelSignal, priceCrossSignal, bandSignal, len_redate, col_redate, firstCol_redate, firstCrossing_redate]
  case verticalHorizontalFilter period =>
    have h1 : Ind.DoubleExponentialMovingAverage.calcTi 5 (redate φ (F.sub ["close"])) =
        (Ind.DoubleExponentialMovingAverage.calcTi 5 (F.sub ["close"])).map (redate φ) :=
      calcTi_redate ⟨id, fun _ => []⟩ (F.sub ["close"]) (.doubleExponentialMovingAverage 5)
    have h2 : Ind.Momentum.calcTi 12 (redate φ (F.sub ["close"])) =
        (Ind.Momentum.calcTi 12 (F.sub ["close"])).map (redate φ) :=
      calcTi_redate ⟨id, fun _ => []⟩ (F.sub ["close"]) (.momentum 12)
    simp only [sub_redate, h1, h2, col_redate]
    cases Ind.DoubleExponentialMovingAverage.calcTi 5 (F.sub ["close"]) <;>
      cases Ind.Momentum.calcTi 12 (F.sub ["close"]) <;>
      simp only [Except.map, bind, Except.bind, len_redate, col_redate]
  all_goals rfl

theorem inputAfter_redate (F : Frame) (ind : Ind) : ind.inputAfter (redate φ F) = redate φ (ind.inputAfter F) := by
  cases ind <;> rfl

/-! ## Validation -/

theorem map_injOn (hφ : Set.InjOn φ S) : ∀ (l l' : List ℤ), (∀ d ∈ l, d ∈ S) → (∀ d ∈ l', d ∈ S) → l.map φ = l'.map φ → l = l'
  | [], [], _, _, _ => rfl
  | [], _ :: _, _, _, h => by simp at h
  | _ :: _, [], _, _, h => by simp at h
  | a :: l, b :: l', h1, h2, h => by
    simp only [List.map_cons, List.cons.injEq] at h
    rw [hφ (h1 a List.mem_cons_self) (h2 b List.mem_cons_self) h.1,
      map_injOn hφ l l' (fun d hd => h1 d (List.mem_cons_of_mem _ hd)) (fun d hd => h2 d (List.mem_cons_of_mem _ hd)) h.2]

theorem sortIdx_redate (hφ : StrictMonoOn φ S) (l : List ℤ) (hl : ∀ d ∈ l, d ∈ S) :
    sortIdx (l.map φ) = (sortIdx l).map φ :=
  (List.map_insertionSort (· ≤ ·) (· ≤ ·) φ l fun a ha b hb => (hφ.le_iff_le (hl a ha) (hl b hb)).symm).symm

theorem sortRows_redate {α : Type} (hφ : StrictMonoOn φ S) (l : List (ℤ × α)) (hl : ∀ r ∈ l, r.1 ∈ S) :
    sortRows (l.map fun r => (φ r.1, r.2)) = (sortRows l).map fun r => (φ r.1, r.2) :=
  (List.map_insertionSort (fun (a b : ℤ × α) => a.1 ≤ b.1) (fun (a b : ℤ × α) => a.1 ≤ b.1)
    (fun r => (φ r.1, r.2)) l fun a ha b hb => (hφ.le_iff_le (hl a ha) (hl b hb)).symm).symm

theorem sortIndex_redate (hφ : StrictMonoOn φ S) (F : Frame) (hF : ∀ d ∈ F.idx, d ∈ S) :
    (redate φ F).sortIndex = redate φ F.sortIndex := by
  unfold Frame.sortIndex redate
  simp only [sortIdx_redate hφ F.idx hF, Frame.mk.injEq, true_and]
  refine List.map_congr_left fun c _ => ?_
  have h : (F.idx.map φ).zip c.2 = (F.idx.zip c.2).map fun r => (φ r.1, r.2) := by
    rw [List.zip_map_left]
    rfl
  rw [h, sortRows_redate hφ _ fun r hr => hF _ (List.of_mem_zip hr).1, List.map_map]
  rfl

theorem mem_sortIdx {l : List ℤ} {d : ℤ} : d ∈ sortIdx l ↔ d ∈ l := List.mem_insertionSort _

theorem fill_redate (hφ : StrictMonoOn φ S) (F : Frame) (hF : ∀ d ∈ F.idx, d ∈ S) :
    fillMissingValues (redate φ F) = redate φ (fillMissingValues F) := by
  unfold fillMissingValues
  rw [sortIndex_redate hφ F hF]
  rfl

theorem validate_redate (hφ : StrictMonoOn φ S) (x : InputArg) (hx : DatesIn S x) (required : List String) (fill : Bool) :
    validateInputData (redateInput φ x) required fill =
      (redateInput φ (validateInputData x required fill).1, (validateInputData x required fill).2.map (redate φ)) := by
  cases x with
  | notFrame => rfl
  | frame f =>
    simp only [validateInputData, redateInput]
    by_cases h1 : f.datetimeIndex = false
    · simp only [h1, if_true]; rfl
    · rw [if_neg h1, if_neg h1]
      have e : (f.idx.map φ = [] ∨ f.cols = []) ↔ (f.idx = [] ∨ f.cols = []) := by simp
      by_cases h2 : f.idx = [] ∨ f.cols = []
      · rw [if_pos (e.2 h2), if_pos h2]; rfl
      · rw [if_neg (fun h => h2 (e.1 h)), if_neg h2]
        cases lowerLabels f.cols with
        | none => rfl
        | some cols =>
          dsimp only
          cases checkColumns cols required with
          | some e => rfl
          | none =>
            dsimp only
            cases dropExtra required (cols.map (·.1)) cols with
            | error e => rfl
            | ok kept =>
              dsimp only
              have h3 := sortIndex_redate hφ ⟨f.idx, kept.map fun c => (c.1, c.2.data)⟩ hx
              have h4 : ∀ d ∈ (Frame.sortIndex ⟨f.idx, kept.map fun c => (c.1, c.2.data)⟩).idx, d ∈ S :=
                fun d hd => hx d (mem_sortIdx.1 hd)
              refine Prod.ext rfl ?_
              show Except.ok _ = Except.ok _
              congr 1
              change (if fill = true then fillMissingValues (Frame.sortIndex (redate φ ⟨f.idx, _⟩))
                else Frame.sortIndex (redate φ ⟨f.idx, _⟩)) = _
              rw [h3]
              cases fill
              · rfl
              · simp only [if_true]
                exact fill_redate hφ _ h4

theorem validate_dates (x : InputArg) (hx : DatesIn S x) {required : List String} {fill : Bool} {F : Frame}
    (h : (validateInputData x required fill).2 = .ok F) : ∀ d ∈ F.idx, d ∈ S := by
  cases x with
  | notFrame => cases h
  | frame f =>
    simp only [validateInputData] at h
    split at h
    · cases h
    split at h
    · cases h
    split at h
    · cases h
    split at h
    · cases h
    split at h
    · cases h
    · obtain rfl := Except.ok.inj h
      intro d hd
      refine hx d ?_
      cases fill
      · exact mem_sortIdx.1 hd
      · exact mem_sortIdx.1 (mem_sortIdx.1 hd)

/-! ## Objects -/

theorem construct_redate (hφ : StrictMonoOn φ S) (E : Env) (c : Call) (x : InputArg) (hx : DatesIn S x) (fill : PyArg) :
    construct E c (redateInput φ x) fill =
      (redateInput φ (construct E c x fill).1, (construct E c x fill).2.map (redateObj φ)) := by
  simp only [construct]
  cases c.check with
  | error e => rfl
  | ok ind =>
    cases fill
    case bool b =>
      dsimp only
      rw [validate_redate hφ x hx]
      cases hv : validateInputData x ind.required b with
      | mk caller r =>
        cases r with
        | error e => rfl
        | ok F =>
          dsimp only [Except.map]
          rw [calcTi_redate]
          cases ind.calcTi E F with
          | error e => rfl
          | ok T => simp only [Except.map, inputAfter_redate]; rfl
    all_goals rfl

theorem keepUpTo_redate (hφ : StrictMonoOn φ S) (d : ℤ) (hd : d ∈ S) (idx : List ℤ) (hi : ∀ e ∈ idx, e ∈ S) (xs : List Val) :
    keepUpTo (φ d) (idx.map φ) xs = keepUpTo d idx xs := by
  unfold keepUpTo
  rw [List.zip_map_left, List.filter_map, List.map_map]
  have : (List.filter ((fun r => decide (r.1 ≤ φ d)) ∘ Prod.map φ id) (idx.zip xs)) =
      (List.filter (fun r => decide (r.1 ≤ d)) (idx.zip xs)) := by
    refine List.filter_congr fun r hr => ?_
    simp only [Function.comp, Prod.map]
    exact decide_eq_decide.2 (hφ.le_iff_le (hi _ (List.of_mem_zip hr).1) hd)
  rw [this]
  rfl

theorem upTo_redate (hφ : StrictMonoOn φ S) (d : ℤ) (hd : d ∈ S) (F : Frame) (hi : ∀ e ∈ F.idx, e ∈ S) :
    (redate φ F).upTo (φ d) = redate φ (F.upTo d) := by
  unfold Frame.upTo redate
  simp only [Frame.mk.injEq]
  refine ⟨?_, List.map_congr_left fun c _ => by rw [keepUpTo_redate hφ d hd F.idx hi]⟩
  rw [List.filter_map]
  congr 1
  refine List.filter_congr fun e he => ?_
  simp only [Function.comp]
  exact decide_eq_decide.2 (hφ.le_iff_le (hi e he) hd)

/-- The dates of an object are in `S`. -/
def ObjDatesIn (S : Set ℤ) (o : Obj) : Prop := (∀ d ∈ o.input.idx, d ∈ S) ∧ ∀ d ∈ o.ti.idx, d ∈ S

theorem cut_redate (hφ : StrictMonoOn φ S) (o : Obj) (ho : ObjDatesIn S o) (i : ℕ) :
    (redateObj φ o).cut i = (o.cut i).map (redateObj φ) := by
  unfold Obj.cut
  simp only [redateObj, idx_redate, List.getElem?_map]
  cases h1 : o.input.idx[i]? with
  | none => rfl
  | some di =>
    cases h2 : o.ti.idx[i]? with
    | none => rfl
    | some dt =>
      simp only [Option.map]
      rw [upTo_redate hφ di (ho.1 _ (List.mem_of_getElem? h1)) _ ho.1, upTo_redate hφ dt (ho.2 _ (List.mem_of_getElem? h2)) _ ho.2]
      rfl

theorem cut_dates (o : Obj) (ho : ObjDatesIn S o) {i : ℕ} {p : Obj} (h : o.cut i = some p) : ObjDatesIn S p := by
  unfold Obj.cut at h
  split at h
  · obtain rfl := Option.some.inj h
    exact ⟨fun d hd => ho.1 d (List.mem_of_mem_filter hd), fun d hd => ho.2 d (List.mem_of_mem_filter hd)⟩
  · cases h

/-- The setup of the simulator on other dates. -/
def redateSetup (φ : ℤ → ℤ) (s : SimSetup) : SimSetup := ⟨s.idx.map φ, s.close, s.params⟩

theorem setup_redate (hφ : StrictMonoOn φ S) (idx : List ℤ) (hi : ∀ d ∈ idx, d ∈ S) (x : InputArg) (hx : DatesIn S x)
    (b : Bool) (m f : PyArg) : setupSimulation b (idx.map φ) (redateInput φ x) m f =
      (redateInput φ (setupSimulation b idx x m f).1, (setupSimulation b idx x m f).2.map (redateSetup φ)) := by
  unfold setupSimulation
  split
  · rfl
  dsimp only
  rw [validate_redate hφ x hx]
  cases hv : validateInputData x ["close"] true with
  | mk caller r =>
    cases r with
    | error e => rfl
    | ok F =>
      dsimp only [Except.map]
      have hF : ∀ d ∈ F.idx, d ∈ S := validate_dates x hx (by rw [hv])
      have e : (redate φ F).idx = sortIdx (idx.map φ) ↔ F.idx = sortIdx idx := by
        rw [sortIdx_redate hφ idx hi, idx_redate]
        refine ⟨fun h => ?_, fun h => by rw [h]⟩
        exact map_injOn hφ.injOn _ _ hF (fun d hd => hi d (mem_sortIdx.1 hd)) h
      by_cases h : F.idx = sortIdx idx
      · rw [if_neg (not_not.2 (e.2 h)), if_neg (not_not.2 h)]
        cases checkMaxExposure m with
        | error e => rfl
        | ok v =>
          cases checkFactor f with
          | error e => rfl
          | ok w =>
            simp only [redateSetup, sortIdx_redate hφ idx hi, col_redate]
      · rw [if_pos (fun h' => h (e.1 h')), if_pos h]

theorem rounds_redate (hφ : StrictMonoOn φ S) (full : Obj) (hfull : ObjDatesIn S full) (s : SimSetup) :
    ∀ (is : List ℕ) (now : Obj) (st : Sim.State Val),
      simRounds (redateObj φ full) (redateSetup φ s) is (redateObj φ now) st =
        (redateObj φ (simRounds full s is now st).1, (simRounds full s is now st).2)
  | [], now, st => rfl
  | i :: rest, now, st => by
    simp only [simRounds, cut_redate hφ full hfull]
    cases hc : full.cut i with
    | none => rfl
    | some o =>
      simp only [Option.map, Obj.getTiSignal]
      have : (redateObj φ o).ind.signal (redateObj φ o).input (redateObj φ o).ti = o.ind.signal o.input o.ti :=
        signal_redate o.input o.ti o.ind
      rw [this]
      cases o.ind.signal o.input o.ti with
      | error e => rfl
      | ok sg => exact rounds_redate hφ full hfull s rest o _

theorem rounds_dates (full : Obj) (hfull : ObjDatesIn S full) (s : SimSetup) :
    ∀ (is : List ℕ) (now : Obj) (st : Sim.State Val), ObjDatesIn S now → ObjDatesIn S (simRounds full s is now st).1
  | [], now, st, h => h
  | i :: rest, now, st, h => by
    simp only [simRounds]
    cases hc : full.cut i with
    | none => exact h
    | some o =>
      dsimp only
      have ho := cut_dates full hfull hc
      cases o.getTiSignal with
      | error e => exact ho
      | ok sg => exact rounds_dates full hfull s rest o _ ho

theorem simulation_redate (hφ : StrictMonoOn φ S) (o : Obj) (ho : ObjDatesIn S o) (x : InputArg) (hx : DatesIn S x)
    (m f : PyArg) : (redateObj φ o).getTiSimulation (redateInput φ x) m f =
      (redateObj φ (o.getTiSimulation x m f).1, redateInput φ (o.getTiSimulation x m f).2.1,
        (o.getTiSimulation x m f).2.2.map (redateSim φ)) := by
  unfold Obj.getTiSimulation
  have h1 : setupSimulation true (redateObj φ o).input.idx (redateInput φ x) m f = _ := setup_redate hφ _ ho.1 x hx true m f
  rw [h1]
  cases setupSimulation true o.input.idx x m f with
  | mk caller r =>
    cases r with
    | error e => rfl
    | ok s =>
      have hl : (redateObj φ o).ti.len = o.ti.len := len_redate o.ti
      simp only [Except.map, hl, rounds_redate hφ o ho s]
      cases simRounds o s (List.range o.ti.len) o Sim.State.init with
      | mk o' r' =>
        cases r' with
        | error e => rfl
        | ok st => simp [redateSim, redateSetup]

theorem simulation_dates (o : Obj) (ho : ObjDatesIn S o) (x : InputArg) (m f : PyArg) :
    ObjDatesIn S (o.getTiSimulation x m f).1 := by
  unfold Obj.getTiSimulation
  cases setupSimulation true o.input.idx x m f with
  | mk caller r =>
    cases r with
    | error e => exact ho
    | ok s =>
      have := rounds_dates o ho s (List.range o.ti.len) o Sim.State.init ho
      dsimp only
      cases hs : simRounds o s (List.range o.ti.len) o Sim.State.init with
      | mk o' r' =>
        rw [hs] at this
        cases r' with
        | error e => exact this
        | ok st => exact ho

theorem value_redate (hφ : StrictMonoOn φ S) (o : Obj) (ho : ObjDatesIn S o) (d : Option DateArg)
    (hd : CallDatesIn S (.getTiValue d)) : (redateObj φ o).getTiValue (d.map (redateDate φ)) = o.getTiValue d := by
  have hr : (redateObj φ o).ti.rows = o.ti.rows := rows_redate o.ti
  match d, hd with
  | none, _ => simp only [Option.map, Obj.getTiValue, hr]
  | some .unparsable, _ => rfl
  | some (.date d), hd =>
    simp only [Option.map, redateDate, Obj.getTiValue, hr]
    have e : List.filter (fun r => r.1 == φ d) ((redateObj φ o).ti.idx.zip o.ti.rows) =
        (List.filter (fun r => r.1 == d) (o.ti.idx.zip o.ti.rows)).map (Prod.map φ id) := by
      show List.filter _ ((o.ti.idx.map φ).zip o.ti.rows) = _
      rw [List.zip_map_left, List.filter_map]
      congr 1
      refine List.filter_congr fun r hr => ?_
      simp only [Function.comp, Prod.map, beq_eq_decide]
      exact decide_eq_decide.2 (hφ.injOn.eq_iff (ho.2 _ (List.of_mem_zip hr).1) hd)
    rw [e]
    match h : List.filter (fun r => r.1 == d) (o.ti.idx.zip o.ti.rows) with
    | [] => rw [h]; rfl
    | [r] => rw [h]; rfl
    | _ :: _ :: _ => rw [h]; rfl

theorem step_redate (hφ : StrictMonoOn φ S) (o : Obj) (ho : ObjDatesIn S o) (c : ApiCall) (hc : CallDatesIn S c) :
    (redateObj φ o).step (redateCall φ c) = (redateObj φ (o.step c).1, redateResult φ (o.step c).2) := by
  cases c with
  | getTiData => rfl
  | getTiValue d => simp only [redateCall, Obj.step, value_redate hφ o ho d hc]; rfl
  | getTiSignal =>
    simp only [redateCall, Obj.step, Obj.getTiSignal, redateResult]
    have : (redateObj φ o).ind.signal (redateObj φ o).input (redateObj φ o).ti = o.ind.signal o.input o.ti :=
      signal_redate o.input o.ti o.ind
    rw [this]
  | getTiSimulation close m f => simp only [redateCall, Obj.step, simulation_redate hφ o ho close hc m f]; rfl

theorem step_dates (o : Obj) (ho : ObjDatesIn S o) (c : ApiCall) : ObjDatesIn S (o.step c).1 := by
  cases c with
  | getTiSimulation close m f => exact simulation_dates o ho close m f
  | _ => exact ho

theorem steps_redate (hφ : StrictMonoOn φ S) : ∀ (cs : List ApiCall) (o : Obj), ObjDatesIn S o →
    (∀ c ∈ cs, CallDatesIn S c) →
    (redateObj φ o).steps (cs.map (redateCall φ)) = (redateObj φ (o.steps cs).1, (o.steps cs).2.map (redateResult φ))
  | [], o, _, _ => rfl
  | c :: cs, o, ho, h => by
    simp only [List.map_cons, Obj.steps, step_redate hφ o ho c (h c List.mem_cons_self)]
    rw [steps_redate hφ cs (o.step c).1 (step_dates o ho c) fun c hc => h c (List.mem_cons_of_mem _ hc)]

end TTI
