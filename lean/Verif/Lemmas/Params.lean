import Verif.Model.Call

set_option autoImplicit false

/-!
# Bounds of the accepted parameters
-/

namespace TTI

/-- The parameters that pass the checks. -/
def Ind.Pos : Ind → Prop
  | .accumulationDistributionLine => True
  | .averageTrueRange => True
  | .bollingerBands p s => 1 ≤ p ∧ (0 : Val) <ᵥ s
  | .chaikinMoneyFlow p => 1 ≤ p
  | .chaikinOscillator => True
  | .chandeMomentumOscillator p => 1 ≤ p
  | .commodityChannelIndex p => 1 ≤ p
  | .detrendedPriceOscillator p => 1 ≤ p
  | .directionalMovementIndex => True
  | .doubleExponentialMovingAverage p => 1 ≤ p
  | .easeOfMovement p => 1 ≤ p
  | .envelopes p s => 1 ≤ p ∧ 0 < s ∧ s < 1
  | .fibonacciRetracement => True
  | .forecastOscillator p => 2 ≤ p
  | .ichimokuCloud => True
  | .intradayMomentumIndex p => 1 ≤ p
  | .klingerOscillator => True
  | .linearRegressionIndicator p => 2 ≤ p
  | .linearRegressionSlope p => 1 ≤ p
  | .marketFacilitationIndex => True
  | .massIndex => True
  | .medianPrice p => 1 ≤ p
  | .momentum p => 1 ≤ p
  | .movingAverage p t => 1 ≤ p ∧ (t = .timeSeries → 2 ≤ p)
  | .movingAverageConvergenceDivergence => True
  | .negativeVolumeIndex => True
  | .onBalanceVolume => True
  | .parabolicSAR => True
  | .performance _ _ => True
  | .positiveVolumeIndex => True
  | .priceAndVolumeTrend => True
  | .priceChannel p => 1 ≤ p
  | .priceOscillator l s => 1 ≤ s ∧ s < l
  | .priceRateOfChange p => 1 ≤ p
  | .projectionBands p => 2 ≤ p
  | .projectionOscillator p => 2 ≤ p
  | .qstick p => 1 ≤ p
  | .rangeIndicator p q => 1 ≤ p ∧ 1 ≤ q
  | .relativeMomentumIndex p q => 1 ≤ p ∧ 1 ≤ q
  | .relativeStrengthIndex p => 1 ≤ p
  | .relativeVolatilityIndex p => 1 ≤ p
  | .standardDeviation p => 1 ≤ p
  | .stochasticMomentumIndex p q r => 1 ≤ p ∧ 1 ≤ q ∧ 1 ≤ r
  | .stochasticOscillator k s d _ => 1 ≤ k ∧ (s = 1 ∨ s = 3) ∧ 1 ≤ d
  | .swingIndex => True
  | .timeSeriesForecast p => 2 ≤ p
  | .tripleExponentialMovingAverage p => 1 ≤ p
  | .typicalPrice p => 1 ≤ p
  | .ultimateOscillator => True
  | .verticalHorizontalFilter p => 1 ≤ p
  | .volatilityChaikins p q => 1 ≤ p ∧ 1 ≤ q
  | .volumeOscillator l s => 1 ≤ s ∧ s < l
  | .volumeRateOfChange p => 1 ≤ p
  | .weightedClose => True
  | .wildersSmoothing p => 1 ≤ p
  | .williamsAccumulationDistribution => True
  | .williamsR p => 1 ≤ p

theorem Except.bind_eq_ok {ε α β : Type} (r : Except ε α) (k : α → Except ε β) (b : β) :
    (r >>= k) = .ok b ↔ ∃ a, r = .ok a ∧ k a = .ok b := by
  cases r <;> simp [bind, Except.bind]

theorem intAbove_ok (n : ℕ) (a : PyArg) (p : ℕ) (h : intAbove n a = .ok p) : n + 1 ≤ p := by
  unfold intAbove at h
  split at h
  · split at h
    · simp only [Except.ok.injEq] at h; omega
    · simp at h
  · simp at h

theorem check_pos (c : Call) (ind : Ind) (h : c.check = .ok ind) : ind.Pos := by
  cases c
  all_goals
    simp only [Call.check, Except.bind_eq_ok, pure, Except.pure, Except.ok.injEq] at h
    try (subst h; trivial)
  case bollingerBands a b =>
    obtain ⟨p, h1, s, h2, rfl⟩ := h
    refine ⟨intAbove_ok _ _ _ h1, ?_⟩
    unfold checkStdNumber at h2
    (repeat' split at h2) <;> simp_all
  case envelopes a b =>
    obtain ⟨p, h1, s, h2, rfl⟩ := h
    refine ⟨intAbove_ok _ _ _ h1, ?_⟩
    unfold checkShift at h2
    (repeat' split at h2) <;> simp_all
  case movingAverage a b =>
    obtain ⟨p, h1, t, h2, rfl⟩ := h
    unfold checkMaPeriod at h1
    unfold checkMaType at h2
    show 1 ≤ p ∧ (t = .timeSeries → 2 ≤ p)
    split at h1
    · split at h1
      · simp at h1
      · next n _ hn =>
        split at h1
        · simp only [Except.ok.injEq] at h1
          refine ⟨by omega, ?_⟩
          rintro rfl
          have hb : b = .str "time_series" := by
            (repeat' split at h2) <;> simp_all
          simp only [hb, true_and] at hn
          omega
        · simp at h1
    · simp at h1
  case performance a b =>
    obtain ⟨m, h1, t, h2, rfl⟩ := h; trivial
  case priceOscillator a b =>
    obtain ⟨l, h1, s, h2, h3⟩ := h
    split at h3
    · simp [bind, Except.bind, throw, throwThe, MonadExceptOf.throw] at h3
    · simp only [bind, Except.bind, Except.ok.injEq] at h3
      subst h3
      exact ⟨intAbove_ok _ _ _ h2, by omega⟩
  case volumeOscillator a b =>
    obtain ⟨l, h1, s, h2, h3⟩ := h
    split at h3
    · simp [bind, Except.bind, throw, throwThe, MonadExceptOf.throw] at h3
    · simp only [bind, Except.bind, Except.ok.injEq] at h3
      subst h3
      exact ⟨intAbove_ok _ _ _ h2, by omega⟩
  case stochasticOscillator a b c d =>
    obtain ⟨k, h1, s, h2, d, h3, m, -, rfl⟩ := h
    refine ⟨intAbove_ok _ _ _ h1, ?_, intAbove_ok _ _ _ h3⟩
    unfold checkSlowing at h2
    split at h2
    · split at h2
      · simp only [Except.ok.injEq] at h2
        omega
      · simp at h2
    · simp at h2
  all_goals first
    | (obtain ⟨p, h1, rfl⟩ := h; exact intAbove_ok _ _ _ h1)
    | (obtain ⟨p, h1, q, h2, rfl⟩ := h; exact ⟨intAbove_ok _ _ _ h1, intAbove_ok _ _ _ h2⟩)
    | (obtain ⟨p, h1, q, h2, r, h3, rfl⟩ := h
       exact ⟨intAbove_ok _ _ _ h1, intAbove_ok _ _ _ h2, intAbove_ok _ _ _ h3⟩)

end TTI
