import Verif.Lemmas.Api

set_option autoImplicit false

/-!
# Signals do not raise
-/

namespace TTI

/-- The columns the signal of an indicator reads from the object's input data. -/
def inputColumns : Ind → List String
  | .massIndex => ["high", "low", "close", "9_ema"]
  | .medianPrice _ => ["high", "low", "close", "close_ema"]
  | i => i.required

/-- The data of an object whose rows may have been cut by the simulation. -/
structure Shaped (ind : Ind) (F T : Frame) : Prop where
  inputWf : F.WF
  inputHas : F.Has (inputColumns ind)
  tiWf : T.WF
  tiNames : T.cols.map (·.1) = Spec.columns ind
  rowsLe : T.len ≤ F.len
  rowsEq : (∀ p, ind ≠ .detrendedPriceOscillator p) → T.len = F.len

/-- `iat[-k]` without the exception. -/
def last (k : ℕ) (xs : List Val) : Val := (fromEnd k xs).getD .nan

theorem iat_eq (xs : List Val) (k : ℕ) (h1 : 1 ≤ k) (h2 : k ≤ xs.length) : iat xs k = .ok (last k xs) := by
  unfold iat last fromEnd
  rw [if_pos h2, List.getElem?_eq_getElem (by omega)]
  rfl

theorem ok_bind {α β : Type} (a : α) (f : α → Except Err β) : ((Except.ok a : Except Err α) >>= f) = f a := rfl

theorem pure_ok {α : Type} (a : α) : (pure a : Except Err α) = .ok a := rfl

theorem Frame.firstCol_length (F : Frame) (hw : F.WF) (h : F.cols ≠ []) : F.firstCol.length = F.len := by
  unfold Frame.firstCol
  cases hc : F.cols with
  | nil => exact absurd hc h
  | cons c cs => exact hw c (by rw [hc]; simp)

theorem Frame.cols_ne_nil (F : Frame) (names : List String) (h : F.Has names) (hn : names ≠ []) : F.cols ≠ [] := by
  intro h0
  cases names with
  | nil => exact hn rfl
  | cons n _ => have := h n (by simp); rw [h0] at this; simp at this

theorem inputColumns_ne (ind : Ind) : inputColumns ind ≠ [] := by cases ind <;> simp [inputColumns, Ind.required]

theorem columns_ne (ind : Ind) : Spec.columns ind ≠ [] := by
  cases ind <;> try simp [Spec.columns]
  case movingAverage p t => cases t <;> simp [Spec.columns]
  case performance l t => cases l <;> simp [Spec.columns]

section
variable {ind : Ind} {F T : Frame} (h : Shaped ind F T)
include h

theorem Shaped.fcol (n : String) (hn : n ∈ inputColumns ind) : (F.col n).length = F.len :=
  F.col_length h.inputWf n (h.inputHas n hn)

theorem Shaped.tcol (n : String) (hn : n ∈ Spec.columns ind) : (T.col n).length = T.len :=
  T.col_length h.tiWf n (by rw [h.tiNames]; exact hn)

theorem Shaped.ffirst : F.firstCol.length = F.len :=
  F.firstCol_length h.inputWf (F.cols_ne_nil _ h.inputHas (inputColumns_ne ind))

theorem Shaped.tfirst : T.firstCol.length = T.len :=
  T.firstCol_length h.tiWf (by intro h0; have := h.tiNames; rw [h0] at this; exact columns_ne ind this.symm)

end

/-- The cases in which a signal raises. -/
def Raises (ind : Ind) (F T : Frame) : Prop :=
  (ind = .medianPrice 1 ∧ T.len = 1) ∨
  (∃ p s, ind = .rangeIndicator p s) ∧ 2 ≤ T.len ∧ last 2 (T.col "ri") <ᵥ 70 ∧ (70 : Val) <ᵥ last 1 (T.col "ri") ∧
    ¬ (last 2 (T.col "ri") <ᵥ 20 ∧ (20 : Val) <ᵥ last 1 (T.col "ri")) ∧ ∀ v ∈ T.col "ri", ¬ v <ᵥ 20

set_option hygiene false in
local macro "sig" f:ident : tactic => `(tactic| (
  simp only [Ind.signal]
  unfold $f
  try unfold levelSignal
  try unfold trendSignal
  try unfold priceCrossSignal
  try unfold bandSignal
  simp only [Spec.columns, List.forall_mem_cons] at hT
  simp only [inputColumns, Ind.required, List.forall_mem_cons] at hF
  split
  · exact ⟨_, rfl⟩
  · simp (disch := (first | decide | (simp [hT, hF, hE, hX, hY] <;> omega))) only [iat_eq, ok_bind, pure_ok, pure_bind]
    split_ifs <;> exact ⟨_, rfl⟩))

theorem firstCrossing_total (c2 c1 : Val) (T : Frame) (tests : List (String × Bool)) (hl : 2 ≤ T.len)
    (h : ∀ t ∈ tests, (T.col t.1).length = T.len) :
    ∃ s, Ind.FibonacciRetracement.firstCrossing c2 c1 T tests = .ok s := by
  induction tests with
  | nil => exact ⟨_, rfl⟩
  | cons t rest ih =>
    obtain ⟨name, down⟩ := t
    have hn := h (name, down) (by simp)
    simp only at hn
    have ih' := ih fun t ht => h t (List.mem_cons_of_mem _ ht)
    simp (disch := first | decide | omega) only [Ind.FibonacciRetracement.firstCrossing, iat_eq, ok_bind, pure_ok]
    split_ifs
    · exact ⟨_, rfl⟩
    · exact ih'
    · exact ⟨_, rfl⟩
    · exact ih'

theorem dema_signal_total (F T : Frame) (hl : T.len = F.len) (hc : (F.col "close").length = F.len)
    (hd : (T.col "dema").length = T.len) :
    ∃ s, Ind.DoubleExponentialMovingAverage.signal F T = .ok s := by
  unfold Ind.DoubleExponentialMovingAverage.signal
  split
  · exact ⟨_, rfl⟩
  · simp (disch := first | decide | omega) only [iat_eq, ok_bind, pure_ok]
    split_ifs <;> exact ⟨_, rfl⟩

theorem momentum_signal_total (T : Frame) (hd : (T.col "mom").length = T.len) :
    ∃ s, Ind.Momentum.signal T = .ok s := by
  unfold Ind.Momentum.signal
  split
  · exact ⟨_, rfl⟩
  · simp (disch := first | decide | (simp [hd] <;> omega)) only [iat_eq, ok_bind, pure_ok]
    split_ifs <;> exact ⟨_, rfl⟩

theorem signal_total (ind : Ind) (F T : Frame) (h : Shaped ind F T) (hr : ¬ Raises ind F T)
    (hp : ∀ p, ind = .medianPrice p → 1 ≤ p) : ∃ s, ind.signal F T = .ok s := by
  have hF := h.fcol
  have hT := h.tcol
  have hL := h.rowsLe
  have hX := h.ffirst
  have hY := h.tfirst
  have hE := h.rowsEq
  cases ind
  case movingAverage a b => 
    have hcol : Spec.columns (.movingAverage a b) = [b.column] := by cases b <;> rfl
    rw [hcol] at hT
    simp only [Ind.signal]
    unfold Ind.MovingAverage.signal
    simp only [List.forall_mem_cons] at hT
    simp only [inputColumns, Ind.required, List.forall_mem_cons] at hF
    split
    · exact ⟨_, rfl⟩
    · simp (disch := (first | decide | (simp [hT, hF] <;> omega))) only [iat_eq, ok_bind, pure_ok]
      split_ifs <;> exact ⟨_, rfl⟩
  case ultimateOscillator => sig Ind.UltimateOscillator.signal
  case massIndex => sig Ind.MassIndex.signal
  case medianPrice p =>
    have hp1 := hp p rfl
    have hne : p = 1 → T.len ≠ 1 := fun h1 h2 => hr (Or.inl ⟨by rw [h1], h2⟩)
    sig Ind.MedianPrice.signal
  case accumulationDistributionLine => sig Ind.AccumulationDistributionLine.signal
  case averageTrueRange => sig Ind.AverageTrueRange.signal
  case bollingerBands a b => sig Ind.BollingerBands.signal
  case chaikinMoneyFlow a => sig Ind.ChaikinMoneyFlow.signal
  case chaikinOscillator => sig Ind.ChaikinOscillator.signal
  case chandeMomentumOscillator a => sig Ind.ChandeMomentumOscillator.signal
  case commodityChannelIndex a => sig Ind.CommodityChannelIndex.signal
  case detrendedPriceOscillator a => sig Ind.DetrendedPriceOscillator.signal
  case directionalMovementIndex => sig Ind.DirectionalMovementIndex.signal
  case doubleExponentialMovingAverage a => sig Ind.DoubleExponentialMovingAverage.signal
  case easeOfMovement a => sig Ind.EaseOfMovement.signal
  case envelopes a b => sig Ind.Envelopes.signal
  case forecastOscillator a => sig Ind.ForecastOscillator.signal
  case ichimokuCloud => sig Ind.IchimokuCloud.signal
  case intradayMomentumIndex a => sig Ind.IntradayMomentumIndex.signal
  case klingerOscillator => sig Ind.KlingerOscillator.signal
  case linearRegressionIndicator a => sig Ind.LinearRegressionIndicator.signal
  case linearRegressionSlope a => sig Ind.LinearRegressionSlope.signal
  case marketFacilitationIndex => sig Ind.MarketFacilitationIndex.signal
  case momentum a => sig Ind.Momentum.signal
  case movingAverageConvergenceDivergence => sig Ind.MovingAverageConvergenceDivergence.signal
  case negativeVolumeIndex => sig Ind.NegativeVolumeIndex.signal
  case onBalanceVolume => sig Ind.OnBalanceVolume.signal
  case parabolicSAR => sig Ind.ParabolicSAR.signal
  case performance a b => sig Ind.Performance.signal
  case positiveVolumeIndex => sig Ind.PositiveVolumeIndex.signal
  case priceAndVolumeTrend => sig Ind.PriceAndVolumeTrend.signal
  case priceChannel a => sig Ind.PriceChannel.signal
  case priceOscillator a b => sig Ind.PriceOscillator.signal
  case priceRateOfChange a => sig Ind.PriceRateOfChange.signal
  case projectionBands a => sig Ind.ProjectionBands.signal
  case projectionOscillator a => sig Ind.ProjectionOscillator.signal
  case qstick a => sig Ind.Qstick.signal
  case relativeMomentumIndex a b => sig Ind.RelativeMomentumIndex.signal
  case relativeStrengthIndex a => sig Ind.RelativeStrengthIndex.signal
  case relativeVolatilityIndex a => sig Ind.RelativeVolatilityIndex.signal
  case standardDeviation a => sig Ind.StandardDeviation.signal
  case stochasticMomentumIndex a b c => sig Ind.StochasticMomentumIndex.signal
  case stochasticOscillator a b c d => sig Ind.StochasticOscillator.signal
  case swingIndex => sig Ind.SwingIndex.signal
  case timeSeriesForecast a => sig Ind.TimeSeriesForecast.signal
  case tripleExponentialMovingAverage a => sig Ind.TripleExponentialMovingAverage.signal
  case typicalPrice a => sig Ind.TypicalPrice.signal
  case volatilityChaikins a b => sig Ind.VolatilityChaikins.signal
  case volumeOscillator a b => sig Ind.VolumeOscillator.signal
  case volumeRateOfChange a => sig Ind.VolumeRateOfChange.signal
  case weightedClose => sig Ind.WeightedClose.signal
  case wildersSmoothing a => sig Ind.WildersSmoothing.signal
  case williamsAccumulationDistribution => sig Ind.WilliamsAccumulationDistribution.signal
  case williamsR a => sig Ind.WilliamsR.signal
  case fibonacciRetracement =>
    simp only [Ind.signal]
    unfold Ind.FibonacciRetracement.signal
    simp only [inputColumns, Ind.required, List.forall_mem_cons] at hF
    split
    · exact ⟨_, rfl⟩
    · simp (disch := (first | decide | (simp [hF] <;> omega))) only [iat_eq, ok_bind, pure_ok, pure_bind]
      refine firstCrossing_total _ _ _ _ (by omega) fun t ht => hT _ ?_
      simp only [Ind.FibonacciRetracement.tests, List.mem_cons, List.not_mem_nil, or_false] at ht
      rcases ht with rfl | rfl | rfl | rfl | rfl | rfl | rfl | rfl | rfl | rfl | rfl | rfl <;> simp [Spec.columns]
  case rangeIndicator p s =>
    simp only [Ind.signal]
    unfold Ind.RangeIndicator.signal
    simp only [Spec.columns, List.forall_mem_cons] at hT
    simp only [inputColumns, Ind.required, List.forall_mem_cons] at hF
    split
    · exact ⟨_, rfl⟩
    · rw [iat_eq (T.col "ri") 2 (by decide) (by omega), ok_bind, iat_eq (T.col "ri") 1 (by decide) (by omega), ok_bind,
        iat_eq (F.col "close") 2 (by decide) (by omega), ok_bind, iat_eq (F.col "close") 1 (by decide) (by omega),
        ok_bind]
      split
      · split_ifs <;> exact ⟨_, rfl⟩
      · rename_i hn h20
        split
        · rename_i h70
          have hlen : T.len = F.len := hE (by simp)
          have hex : ∃ v ∈ T.col "ri", (v <ᵥ 20) = true := by
            by_contra hno
            push Not at hno
            simp only [crossUp, Bool.and_eq_true] at h20 h70
            exact hr (Or.inr ⟨⟨p, s, rfl⟩, by omega, h70.1, h70.2, h20, hno⟩)
          obtain ⟨v, hv, hv20⟩ := hex
          obtain ⟨i, hi, rfl⟩ := List.getElem_of_mem hv
          have hpos : 0 < ((((F.col "close").zip (T.col "ri")).filter fun p => p.2 <ᵥ 20).map (·.1)).length := by
            rw [List.length_map]
            refine List.length_pos_of_mem (a := (((F.col "close")[i]'(by omega)), (T.col "ri")[i])) ?_
            rw [List.mem_filter]
            refine ⟨?_, hv20⟩
            rw [List.mem_iff_getElem]
            refine ⟨i, by rw [List.length_zip, hF.2.2.1, hT.1]; omega, by simp⟩
          rw [iat_eq _ 1 (by decide) (by omega), ok_bind]
          split_ifs <;> exact ⟨_, rfl⟩
        · exact ⟨_, rfl⟩
  case verticalHorizontalFilter p =>
    simp only [Ind.signal]
    unfold Ind.VerticalHorizontalFilter.signal
    simp only [Spec.columns, List.forall_mem_cons] at hT
    simp only [inputColumns, Ind.required, List.forall_mem_cons] at hF
    have hG : ((F.sub ["close"]).col "close").length = F.len := by
      rw [F.sub_col _ _ (by simp)]; simpa using hF.1
    split
    · exact ⟨_, rfl⟩
    · simp (disch := (first | decide | (simp [hT, hF, hE] <;> omega))) only [iat_eq, ok_bind, pure_ok, pure_bind]
      split
      · split
        · exact ⟨_, rfl⟩
        · unfold Ind.DoubleExponentialMovingAverage.calcTi
          rw [if_neg (by simp; omega), ok_bind]
          refine dema_signal_total _ _ rfl (by simpa using hG) ?_
          simp [Frame.col_single, hG, Frame.len]
      · split
        · split
          · exact ⟨_, rfl⟩
          · unfold Ind.Momentum.calcTi
            rw [if_neg (by simp; omega), ok_bind]
            refine momentum_signal_total _ ?_
            simp [Frame.col_single, hG, Frame.len]
        · exact ⟨_, rfl⟩

end TTI
