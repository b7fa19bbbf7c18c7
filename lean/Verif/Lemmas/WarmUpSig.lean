import Verif.Lemmas.WarmUpInd
import Verif.Lemmas.Signal

set_option autoImplicit false

/-!
# No signals before there are values
-/

namespace TTI

open Spec Ind

theorem iat_blank {w k : ℕ} {xs : List Val} {v : Val} (h : Blank w xs) (hk : 1 ≤ k) (hn : xs.length < w + k)
    (hv : iat xs k = .ok v) : v = .nan := by
  unfold iat fromEnd at hv
  by_cases hl : k ≤ xs.length
  · rw [if_pos hl, List.getElem?_eq_getElem (by omega)] at hv
    simp only [Except.ok.injEq] at hv
    rw [← hv, ← val_lt, h _ (by omega)]
  · rw [if_neg hl] at hv
    cases hv

theorem iat_val {k : ℕ} {xs : List Val} {v : Val} (hk : 1 ≤ k) (hv : iat xs k = .ok v) : v = val xs (xs.length - k) := by
  unfold iat fromEnd at hv
  by_cases hl : k ≤ xs.length
  · rw [if_pos hl, List.getElem?_eq_getElem (by omega)] at hv
    simp only [Except.ok.injEq] at hv
    rw [← hv, ← val_lt]
  · rw [if_neg hl] at hv
    cases hv

theorem blank_level {w : ℕ} {name : String} {hi lo : Val} {up down s : Signal} {T : Frame} (h : Blank w (T.col name))
    (hl : (T.col name).length = T.len) (hn : T.len < w + 2) (hs : levelSignal name hi lo up down T = .ok s) : s = .hold := by
  unfold levelSignal at hs
  split_ifs at hs with h1
  · exact (Except.ok.inj hs).symm
  · simp only [Except.bind_eq_ok] at hs
    obtain ⟨a, ha, b, hb, hs⟩ := hs
    have := iat_blank h (by omega) (by omega) ha
    subst this
    simp only [crossUp, crossDown, nan_lt_false, lt_nan_false, Bool.false_and, Bool.false_eq_true, if_false] at hs
    exact (Except.ok.inj hs).symm

theorem blank_trend {w : ℕ} {name : String} {up down s : Signal} {T : Frame} (h : Blank w (T.col name))
    (hl : (T.col name).length = T.len) (hn : T.len < w + 3) (hs : trendSignal name up down T = .ok s) : s = .hold := by
  unfold trendSignal at hs
  split_ifs at hs with h1
  · exact (Except.ok.inj hs).symm
  · simp only [Except.bind_eq_ok] at hs
    obtain ⟨a, ha, b, hb, c, hc, hs⟩ := hs
    have := iat_blank h (by omega) (by omega) ha
    subst this
    simp only [nan_lt_false, lt_nan_false, Bool.false_and, Bool.false_eq_true, if_false] at hs
    exact (Except.ok.inj hs).symm

theorem blank_cross {w : ℕ} {name : String} {up down s : Signal} {F T : Frame} (h : Blank w (T.col name))
    (hl : (T.col name).length = T.len) (hn : T.len < w + 2) (hs : priceCrossSignal name up down F T = .ok s) : s = .hold := by
  unfold priceCrossSignal at hs
  split_ifs at hs with h1
  · exact (Except.ok.inj hs).symm
  · simp only [Except.bind_eq_ok] at hs
    obtain ⟨c2, -, c1, -, a, ha, b, hb, hs⟩ := hs
    have := iat_blank h (by omega) (by omega) ha
    subst this
    simp only [nan_lt_false, lt_nan_false, Bool.false_and, Bool.false_eq_true, if_false] at hs
    exact (Except.ok.inj hs).symm

theorem blank_band {w : ℕ} {u l : String} {s : Signal} {F T : Frame} (h : Blank w (T.col u)) (h' : Blank w (T.col l))
    (hl : (T.col u).length = T.len) (hl' : (T.col l).length = T.len) (hn : T.len < w + 1)
    (hs : bandSignal u l F T = .ok s) : s = .hold := by
  unfold bandSignal at hs
  split_ifs at hs with h1
  · exact (Except.ok.inj hs).symm
  · simp only [Except.bind_eq_ok] at hs
    obtain ⟨c, -, a, ha, b, hb, hs⟩ := hs
    have := iat_blank h (by omega) (by omega) ha
    subst this
    have := iat_blank h' (by omega) (by omega) hb
    subst this
    simp only [nan_lt_false, lt_nan_false, Bool.false_eq_true, if_false] at hs
    exact (Except.ok.inj hs).symm

theorem blank_bulge (xs : List Val) (h : ∀ v ∈ xs, v = .nan) : MassIndex.bulge xs = false := by
  induction xs with
  | nil => rfl
  | cons x l ih =>
    rw [h x (by simp)]
    exact ih fun v hv => h v (by simp [hv])

theorem blank_dema {n : ℕ} {F D : Frame} (hp : 1 ≤ n) (h : DoubleExponentialMovingAverage.calcTi n F = .ok D) :
    Blank (2 * n - 2) (D.col "dema") ∧ (D.col "dema").length = (F.col "close").length ∧ D.len = F.len := by
  unfold DoubleExponentialMovingAverage.calcTi at h
  split_ifs at h
  simp only [Except.ok.injEq] at h
  subst h
  have h1 := (Blank.any (F.col "close")).ewm n hp
  rw [Frame.col_single]
  exact ⟨(((h1.scale 2).sub (h1.ewm n hp)).round 4).mono (by omega), by simp, rfl⟩

theorem blank_momentum {n : ℕ} {F D : Frame} (h : Momentum.calcTi n F = .ok D) :
    Blank n (D.col "mom") ∧ (D.col "mom").length = (F.col "close").length ∧ D.len = F.len := by
  unfold Momentum.calcTi at h
  split_ifs at h
  simp only [Except.ok.injEq] at h
  subst h
  rw [Frame.col_single]
  exact ⟨(((Blank.any _).mask n).round 4).mono (by omega), by simp, rfl⟩

theorem dema_hold {n : ℕ} {F T : Frame} {s : Signal} (h : Blank (2 * n - 2) (T.col "dema"))
    (hl : (T.col "dema").length < 2 * n - 2 + 1) (hs : DoubleExponentialMovingAverage.signal F T = .ok s) : s = .hold := by
  unfold DoubleExponentialMovingAverage.signal at hs
  split_ifs at hs with h1
  · exact (Except.ok.inj hs).symm
  · simp only [Except.bind_eq_ok] at hs
    obtain ⟨c, -, m, hm, hs⟩ := hs
    have := iat_blank h (by omega) (by omega) hm
    subst this
    simp only [lt_nan_false, Bool.false_eq_true, if_false] at hs
    exact (Except.ok.inj hs).symm

theorem momentum_hold {n : ℕ} {T : Frame} {s : Signal} (h : Blank n (T.col "mom"))
    (hl : (T.col "mom").length < n + 10) (hs : Momentum.signal T = .ok s) : s = .hold := by
  unfold Momentum.signal at hs
  split_ifs at hs with h1
  · exact (Except.ok.inj hs).symm
  · simp only [Except.bind_eq_ok] at hs
    obtain ⟨m2, -, m1, -, e2, he2, e1, -, hs⟩ := hs
    have := iat_blank (h.ewm 9 (m := 9) (by omega)) (by omega) (by simp; omega) he2
    subst this
    simp only [lt_nan_false, nan_lt_false, Bool.false_and, Bool.false_eq_true, if_false] at hs
    exact (Except.ok.inj hs).symm

/-- No class says buy or sell on too few rows. -/
theorem blank_signal (ind : Ind) (F T : Frame) (s : Signal) (hp : ind.Pos) (sh : Shaped ind F T)
    (hT : ∀ name, Blank (warmUp ind name) (T.col name))
    (hm : ∀ n, ind = .medianPrice n → Blank (n - 1) (F.col "close_ema") ∧ (F.col "close_ema").length = F.len)
    (hc : ind = .ichimokuCloud → ∀ i < 9, val (T.col "tenkan_sen") i = val (T.col "kijun_sen") i)
    (hn : T.len < firstSignal ind) (hs : ind.signal F T = .ok s) : s = .hold := by
  have tl : ∀ name ∈ Spec.columns ind, (T.col name).length = T.len := sh.tcol
  have fl := sh.rowsEq
  cases ind
  case averageTrueRange =>
    simp only [Ind.signal, AverageTrueRange.signal] at hs
    split_ifs at hs with h1
    · exact (Except.ok.inj hs).symm
    · simp only [Except.bind_eq_ok] at hs
      obtain ⟨a, ha, c, -, s5, -, s10, -, hs⟩ := hs
      have := iat_blank (hT "atr") (by omega) (by rw [tl _ (by simp [columns])]; exact hn) ha
      subst this
      simp only [lt_nan_false, Bool.false_eq_true, if_false] at hs
      exact (Except.ok.inj hs).symm
  case chandeMomentumOscillator n =>
    refine blank_level (hT "cmo") (tl _ (by simp [columns])) ?_ hs
    simp only [firstSignal, Ind.Pos] at hn hp
    simp only [warmUp]
    omega
  case detrendedPriceOscillator n =>
    refine blank_level (hT "dpo") (tl _ (by simp [columns])) ?_ hs
    simp only [firstSignal, Ind.Pos] at hn hp
    simp only [warmUp]
    omega
  case easeOfMovement n =>
    refine blank_level (hT "emv_ma") (tl _ (by simp [columns])) ?_ hs
    simp only [firstSignal, Ind.Pos] at hn hp
    simp only [warmUp]
    omega
  case forecastOscillator n =>
    refine blank_level (hT "fosc") (tl _ (by simp [columns])) ?_ hs
    simp only [firstSignal, Ind.Pos] at hn hp
    simp only [warmUp]
    omega
  case intradayMomentumIndex n =>
    refine blank_level (hT "imi") (tl _ (by simp [columns])) ?_ hs
    simp only [firstSignal, Ind.Pos] at hn hp
    simp only [warmUp]
    omega
  case klingerOscillator =>
    refine blank_level (hT "ko") (tl _ (by simp [columns])) ?_ hs
    simp only [firstSignal, Ind.Pos] at hn hp
    simp only [warmUp]
    omega
  case linearRegressionSlope n =>
    refine blank_level (hT "lrs") (tl _ (by simp [columns])) ?_ hs
    simp only [firstSignal, Ind.Pos] at hn hp
    simp only [warmUp]
    omega
  case priceOscillator n m =>
    refine blank_level (hT "posc") (tl _ (by simp [columns])) ?_ hs
    simp only [firstSignal, Ind.Pos] at hn hp
    simp only [warmUp]
    omega
  case relativeMomentumIndex n m =>
    refine blank_level (hT "rmi") (tl _ (by simp [columns])) ?_ hs
    simp only [firstSignal, Ind.Pos] at hn hp
    simp only [warmUp]
    omega
  case relativeStrengthIndex n =>
    refine blank_level (hT "rsi") (tl _ (by simp [columns])) ?_ hs
    simp only [firstSignal, Ind.Pos] at hn hp
    simp only [warmUp]
    omega
  case relativeVolatilityIndex n =>
    refine blank_level (hT "rvi") (tl _ (by simp [columns])) ?_ hs
    simp only [firstSignal, Ind.Pos] at hn hp
    simp only [warmUp]
    omega
  case stochasticMomentumIndex n m d =>
    refine blank_level (hT "smi") (tl _ (by simp [columns])) ?_ hs
    simp only [firstSignal, Ind.Pos] at hn hp
    simp only [warmUp]
    omega
  case swingIndex =>
    refine blank_level (hT "swi") (tl _ (by simp [columns])) ?_ hs
    simp only [firstSignal, Ind.Pos] at hn hp
    simp only [warmUp]
    omega
  case onBalanceVolume =>
    refine blank_trend (hT "obv") (tl _ (by simp [columns])) ?_ hs
    simp only [firstSignal, Ind.Pos] at hn hp
    simp only [warmUp]
    omega
  case priceAndVolumeTrend =>
    refine blank_trend (hT "pvt") (tl _ (by simp [columns])) ?_ hs
    simp only [firstSignal, Ind.Pos] at hn hp
    simp only [warmUp]
    omega
  case priceRateOfChange n =>
    refine blank_trend (hT "prc") (tl _ (by simp [columns])) ?_ hs
    simp only [firstSignal, Ind.Pos] at hn hp
    simp only [warmUp]
    omega
  case volumeRateOfChange n =>
    refine blank_trend (hT "vrc") (tl _ (by simp [columns])) ?_ hs
    simp only [firstSignal, Ind.Pos] at hn hp
    simp only [warmUp]
    omega
  case volatilityChaikins n m =>
    refine blank_trend (hT "vch") (tl _ (by simp [columns])) ?_ hs
    simp only [firstSignal, Ind.Pos] at hn hp
    simp only [warmUp]
    omega
  case linearRegressionIndicator n =>
    refine blank_cross (hT "lri") (tl _ (by simp [columns])) ?_ hs
    simp only [firstSignal, Ind.Pos] at hn hp
    simp only [warmUp]
    omega
  case timeSeriesForecast n =>
    refine blank_cross (hT "tsf") (tl _ (by simp [columns])) ?_ hs
    simp only [firstSignal, Ind.Pos] at hn hp
    simp only [warmUp]
    omega
  case wildersSmoothing n =>
    refine blank_cross (hT "ws") (tl _ (by simp [columns])) ?_ hs
    simp only [firstSignal, Ind.Pos] at hn hp
    simp only [warmUp]
    omega
  case parabolicSAR =>
    refine blank_cross (hT "sar") (tl _ (by simp [columns])) ?_ hs
    simp only [firstSignal, Ind.Pos] at hn hp
    simp only [warmUp]
    omega
  case weightedClose =>
    refine blank_cross (hT "wc") (tl _ (by simp [columns])) ?_ hs
    simp only [firstSignal, Ind.Pos] at hn hp
    simp only [warmUp]
    omega
  case bollingerBands n x =>
    refine blank_band (hT "upper_band") (hT "lower_band") (tl _ (by simp [columns])) (tl _ (by simp [columns])) ?_ hs
    simp only [firstSignal, Ind.Pos] at hn hp
    simp only [warmUp]
    omega
  case envelopes n x =>
    refine blank_band (hT "upper_band") (hT "lower_band") (tl _ (by simp [columns])) (tl _ (by simp [columns])) ?_ hs
    simp only [firstSignal, Ind.Pos] at hn hp
    simp only [warmUp]
    omega
  case priceChannel n =>
    refine blank_band (hT "highest_high") (hT "lowest_low") (tl _ (by simp [columns])) (tl _ (by simp [columns])) ?_ hs
    simp only [firstSignal, Ind.Pos] at hn hp
    simp only [warmUp]
    omega
  case accumulationDistributionLine =>
    simp only [Ind.signal, AccumulationDistributionLine.signal] at hs
    simp only [firstSignal] at hn
    rw [if_pos (by omega)] at hs
    exact (Except.ok.inj hs).symm
  case chaikinOscillator =>
    simp only [Ind.signal, ChaikinOscillator.signal] at hs
    simp only [firstSignal] at hn
    rw [if_pos (by omega)] at hs
    exact (Except.ok.inj hs).symm
  case fibonacciRetracement =>
    simp only [Ind.signal, FibonacciRetracement.signal] at hs
    simp only [firstSignal] at hn
    rw [if_pos (by omega)] at hs
    exact (Except.ok.inj hs).symm
  case ichimokuCloud =>
    simp only [Ind.signal, IchimokuCloud.signal] at hs
    simp only [firstSignal] at hn
    by_cases h2 : T.len < 2
    · rw [if_pos h2] at hs
      exact (Except.ok.inj hs).symm
    · rw [if_neg h2] at hs
      simp only [Except.bind_eq_ok] at hs
      obtain ⟨c0, -, a0, -, b0, -, t1, -, k1, -, t2, ht2, k2, hk2, hs⟩ := hs
      have e : t2 = k2 := by
        have l1 := tl "tenkan_sen" (by simp [columns])
        have l2 := tl "kijun_sen" (by simp [columns])
        have := hc rfl (T.len - 2) (by omega)
        rw [iat_val (by omega) ht2, iat_val (by omega) hk2, l1, l2]
        exact this
      subst e
      have : (t2 <ᵥ t2) = false := by cases t2 <;> simp [Val.lt]
      simp only [this, Bool.false_and, Bool.false_eq_true, if_false] at hs
      exact (Except.ok.inj hs).symm
  case marketFacilitationIndex =>
    simp only [Ind.signal, MarketFacilitationIndex.signal] at hs
    simp only [firstSignal] at hn
    rw [if_pos (by omega)] at hs
    exact (Except.ok.inj hs).symm
  case negativeVolumeIndex =>
    simp only [Ind.signal, NegativeVolumeIndex.signal] at hs
    simp only [firstSignal] at hn
    rw [if_pos (by omega)] at hs
    exact (Except.ok.inj hs).symm
  case performance a b =>
    simp only [Ind.signal, Performance.signal] at hs
    simp only [firstSignal] at hn
    rw [if_pos (by omega)] at hs
    exact (Except.ok.inj hs).symm
  case ultimateOscillator =>
    simp only [Ind.signal, UltimateOscillator.signal] at hs
    simp only [firstSignal] at hn
    rw [if_pos (by omega)] at hs
    exact (Except.ok.inj hs).symm
  case williamsAccumulationDistribution =>
    have := fl (by simp)
    simp only [Ind.signal, WilliamsAccumulationDistribution.signal] at hs
    simp only [firstSignal] at hn
    rw [if_pos (by omega)] at hs
    exact (Except.ok.inj hs).symm
  case typicalPrice n =>
    have := fl (by simp)
    simp only [Ind.signal, TypicalPrice.signal] at hs
    simp only [firstSignal] at hn
    rw [if_pos (by omega)] at hs
    exact (Except.ok.inj hs).symm
  case doubleExponentialMovingAverage n =>
    refine dema_hold (hT "dema") ?_ hs
    rw [tl _ (by simp [columns])]
    simp only [firstSignal, Ind.Pos] at hn hp
    omega
  case momentum n =>
    refine momentum_hold (hT "mom") ?_ hs
    rw [tl _ (by simp [columns])]
    exact hn
  case chaikinMoneyFlow n =>
    simp only [Ind.signal, ChaikinMoneyFlow.signal] at hs
    simp only [firstSignal, Ind.Pos] at hn hp
    split_ifs at hs with h1
    · exact (Except.ok.inj hs).symm
    · simp only [Except.bind_eq_ok] at hs
      obtain ⟨m2, hm2, m1, hm1, x1, -, x2, -, x3, -, hs⟩ := hs
      have := iat_blank (k := 2) (hT "cmf") (by omega) (by rw [tl "cmf" (by simp [columns])]; simp only [warmUp]; omega) hm2
      subst this
      simp only [crossUp, crossDown, nan_lt_false, lt_nan_false, Bool.false_and, Bool.and_false, Bool.false_or, Bool.or_false, Bool.false_eq_true, if_false] at hs
      exact (Except.ok.inj hs).symm
  case commodityChannelIndex n =>
    simp only [Ind.signal, CommodityChannelIndex.signal] at hs
    simp only [firstSignal, Ind.Pos] at hn hp
    split_ifs at hs with h1
    · exact (Except.ok.inj hs).symm
    · simp only [Except.bind_eq_ok] at hs
      obtain ⟨a, ha, hs⟩ := hs
      have := iat_blank (k := 1) (hT "cci") (by omega) (by rw [tl "cci" (by simp [columns])]; simp only [warmUp]; omega) ha
      subst this
      simp only [crossUp, crossDown, nan_lt_false, lt_nan_false, Bool.false_and, Bool.and_false, Bool.false_or, Bool.or_false, Bool.false_eq_true, if_false] at hs
      exact (Except.ok.inj hs).symm
  case directionalMovementIndex =>
    simp only [Ind.signal, DirectionalMovementIndex.signal] at hs
    simp only [firstSignal, Ind.Pos] at hn hp
    split_ifs at hs with h1
    · exact (Except.ok.inj hs).symm
    · simp only [Except.bind_eq_ok] at hs
      obtain ⟨x1, -, x2, -, x3, -, x4, -, a, ha, hs⟩ := hs
      have := iat_blank (k := 1) (hT "adxr") (by omega) (by rw [tl "adxr" (by simp [columns]), warm_dir_adxr]; omega) ha
      subst this
      simp only [crossUp, crossDown, le_nan_false, Bool.false_and, Bool.and_false, Bool.false_or, Bool.or_false, Bool.false_eq_true, if_false] at hs
      exact (Except.ok.inj hs).symm
  case medianPrice n =>
    simp only [Ind.signal, MedianPrice.signal] at hs
    simp only [firstSignal, Ind.Pos] at hn hp
    split_ifs at hs with h1
    · exact (Except.ok.inj hs).symm
    · simp only [Except.bind_eq_ok] at hs
      obtain ⟨e2, he2, x1, -, x2, -, x3, -, hs⟩ := hs
      have := iat_blank (k := 2) ((hm n rfl).1) (by omega) (by rw [(hm n rfl).2, ← fl (by simp)]; omega) he2
      subst this
      simp only [crossUp, crossDown, nan_lt_false, lt_nan_false, Bool.false_and, Bool.and_false, Bool.false_or, Bool.or_false, Bool.false_eq_true, if_false] at hs
      exact (Except.ok.inj hs).symm
  case movingAverageConvergenceDivergence =>
    simp only [Ind.signal, MovingAverageConvergenceDivergence.signal] at hs
    simp only [firstSignal, Ind.Pos] at hn hp
    split_ifs at hs with h1
    · exact (Except.ok.inj hs).symm
    · simp only [Except.bind_eq_ok] at hs
      obtain ⟨m2, hm2, x1, -, s2, hs2, x2, -, hs⟩ := hs
      have := iat_blank (k := 2) (hT "macd") (by omega) (by rw [tl "macd" (by simp [columns]), warm_mov_macd]; omega) hm2
      subst this
      simp only [crossUp, crossDown, nan_lt_false, lt_nan_false, Bool.false_and, Bool.and_false, Bool.false_or, Bool.or_false, Bool.false_eq_true, if_false] at hs
      exact (Except.ok.inj hs).symm
  case positiveVolumeIndex =>
    simp only [Ind.signal, PositiveVolumeIndex.signal] at hs
    simp only [firstSignal, Ind.Pos] at hn hp
    split_ifs at hs with h1
    · exact (Except.ok.inj hs).symm
    · simp only [Except.bind_eq_ok] at hs
      obtain ⟨x1, -, x2, -, e2, he2, x3, -, hs⟩ := hs
      have := iat_blank (k := 2) ((Blank.any (T.col "pvi")).ewm 255 (m := 255) (by omega)) (by omega) (by rw [ewm_length, tl "pvi" (by simp [columns])]; omega) he2
      subst this
      simp only [crossUp, crossDown, nan_lt_false, lt_nan_false, Bool.false_and, Bool.and_false, Bool.false_or, Bool.or_false, Bool.false_eq_true, if_false] at hs
      exact (Except.ok.inj hs).symm
  case projectionBands n =>
    simp only [Ind.signal, ProjectionBands.signal] at hs
    simp only [firstSignal, Ind.Pos] at hn hp
    split_ifs at hs with h1
    · exact (Except.ok.inj hs).symm
    · simp only [Except.bind_eq_ok] at hs
      obtain ⟨u, hu, l, hl, x1, -, hs⟩ := hs
      have := iat_blank (k := 1) (hT "upper_band") (by omega) (by rw [tl "upper_band" (by simp [columns])]; simp only [warmUp]; omega) hu
      subst this
      have := iat_blank (k := 1) (hT "lower_band") (by omega) (by rw [tl "lower_band" (by simp [columns])]; simp only [warmUp]; omega) hl
      subst this
      simp only [crossUp, crossDown, nan_lt_false, lt_nan_false, Val.nan_sub, Val.sub_nan, Val.mul_nan, Bool.false_and, Bool.and_false, Bool.false_or, Bool.or_false, Bool.false_eq_true, if_false] at hs
      exact (Except.ok.inj hs).symm
  case projectionOscillator n =>
    simp only [Ind.signal, ProjectionOscillator.signal] at hs
    simp only [firstSignal, Ind.Pos] at hn hp
    split_ifs at hs with h1
    · exact (Except.ok.inj hs).symm
    · simp only [Except.bind_eq_ok] at hs
      obtain ⟨p4, hp4, x1, -, p2, hp2, x2, -, x3, -, x4, -, x5, -, x6, -, hs⟩ := hs
      have := iat_blank (k := 4) (hT "posc") (by omega) (by rw [tl "posc" (by simp [columns]), warm_pro_posc]; omega) hp4
      subst this
      have := iat_blank (k := 2) (hT "posc") (by omega) (by rw [tl "posc" (by simp [columns]), warm_pro_posc]; omega) hp2
      subst this
      simp only [crossUp, crossDown, nan_lt_false, lt_nan_false, Bool.false_and, Bool.and_false, Bool.false_or, Bool.or_false, Bool.false_eq_true, if_false] at hs
      exact (Except.ok.inj hs).symm
  case qstick n =>
    simp only [Ind.signal, Qstick.signal] at hs
    simp only [firstSignal, Ind.Pos] at hn hp
    split_ifs at hs with h1
    · exact (Except.ok.inj hs).symm
    · simp only [Except.bind_eq_ok] at hs
      obtain ⟨a, ha, x1, -, x2, -, x3, -, hs⟩ := hs
      have := iat_blank (k := 4) (hT "qstick") (by omega) (by rw [tl "qstick" (by simp [columns])]; simp only [warmUp]; omega) ha
      subst this
      simp only [crossUp, crossDown, nan_lt_false, lt_nan_false, Bool.false_and, Bool.and_false, Bool.false_or, Bool.or_false, Bool.false_eq_true, if_false] at hs
      exact (Except.ok.inj hs).symm
  case rangeIndicator n m =>
    simp only [Ind.signal, RangeIndicator.signal] at hs
    simp only [firstSignal, Ind.Pos] at hn hp
    split_ifs at hs with h1
    · exact (Except.ok.inj hs).symm
    · simp only [Except.bind_eq_ok] at hs
      obtain ⟨r2, hr2, x1, -, x2, -, x3, -, hs⟩ := hs
      have := iat_blank (k := 2) (hT "ri") (by omega) (by rw [tl "ri" (by simp [columns])]; simp only [warmUp]; omega) hr2
      subst this
      simp only [crossUp, crossDown, nan_lt_false, lt_nan_false, Bool.false_and, Bool.and_false, Bool.false_or, Bool.or_false, Bool.false_eq_true, if_false] at hs
      exact (Except.ok.inj hs).symm
  case standardDeviation n =>
    simp only [Ind.signal, StandardDeviation.signal] at hs
    simp only [firstSignal, Ind.Pos] at hn hp
    split_ifs at hs with h1
    · exact (Except.ok.inj hs).symm
    · simp only [Except.bind_eq_ok] at hs
      obtain ⟨x1, -, x2, -, s1, hs1, hs⟩ := hs
      have := iat_blank (k := 1) (hT "sd") (by omega) (by rw [tl "sd" (by simp [columns])]; simp only [warmUp]; omega) hs1
      subst this
      simp only [crossUp, crossDown, nan_lt_false, lt_nan_false, Bool.false_and, Bool.and_false, Bool.false_or, Bool.or_false, Bool.false_eq_true, if_false] at hs
      exact (Except.ok.inj hs).symm
  case stochasticOscillator k w d b =>
    simp only [Ind.signal, StochasticOscillator.signal] at hs
    simp only [firstSignal, Ind.Pos] at hn hp
    split_ifs at hs with h1
    · exact (Except.ok.inj hs).symm
    · simp only [Except.bind_eq_ok] at hs
      obtain ⟨k2, hk2, x1, -, d2, hd2, x2, -, hs⟩ := hs
      have := iat_blank (k := 2) (hT "%K") (by omega) (by rw [tl "%K" (by simp [columns]), warm_sto_qK]; omega) hk2
      subst this
      have := iat_blank (k := 2) (hT "%D") (by omega) (by rw [tl "%D" (by simp [columns]), warm_sto_qD]; omega) hd2
      subst this
      simp only [crossUp, crossDown, nan_lt_false, lt_nan_false, Val.nan_sub, Bool.false_and, Bool.and_false, Bool.false_or, Bool.or_false, Bool.false_eq_true, if_false] at hs
      exact (Except.ok.inj hs).symm
  case tripleExponentialMovingAverage n =>
    simp only [Ind.signal, TripleExponentialMovingAverage.signal] at hs
    simp only [firstSignal, Ind.Pos] at hn hp
    split_ifs at hs with h1
    · exact (Except.ok.inj hs).symm
    · simp only [Except.bind_eq_ok] at hs
      obtain ⟨x1, -, m, hm, hs⟩ := hs
      have := iat_blank (k := 1) (hT "tema") (by omega) (by rw [tl "tema" (by simp [columns])]; simp only [warmUp]; omega) hm
      subst this
      simp only [crossUp, crossDown, nan_lt_false, lt_nan_false, Bool.false_and, Bool.and_false, Bool.false_or, Bool.or_false, Bool.false_eq_true, if_false] at hs
      exact (Except.ok.inj hs).symm
  case volumeOscillator n m =>
    simp only [Ind.signal, VolumeOscillator.signal] at hs
    simp only [firstSignal, Ind.Pos] at hn hp
    split_ifs at hs with h1
    · exact (Except.ok.inj hs).symm
    · simp only [Except.bind_eq_ok] at hs
      obtain ⟨a, ha, x1, -, x2, -, hs⟩ := hs
      have := iat_blank (k := 3) (hT "vosc") (by omega) (by rw [tl "vosc" (by simp [columns])]; simp only [warmUp]; omega) ha
      subst this
      simp only [crossUp, crossDown, nan_lt_false, lt_nan_false, Bool.false_and, Bool.and_false, Bool.false_or, Bool.or_false, Bool.false_eq_true, if_false] at hs
      exact (Except.ok.inj hs).symm
  case williamsR n =>
    simp only [Ind.signal, WilliamsR.signal] at hs
    simp only [firstSignal, Ind.Pos] at hn hp
    by_cases h1 : T.len < 2
    · rw [if_pos h1] at hs
      exact (Except.ok.inj hs).symm
    · rw [if_neg h1] at hs
      simp only [Except.bind_eq_ok] at hs
      obtain ⟨a, ha, x1, -, hs⟩ := hs
      have := iat_blank (k := 2) (hT "wr") (by omega) (by rw [tl "wr" (by simp [columns])]; simp only [warmUp]; omega) ha
      subst this
      simp only [crossUp, crossDown, nan_lt_false, lt_nan_false, and_false, Bool.false_and, Bool.and_false, Bool.false_or, Bool.or_false, Bool.false_eq_true, if_false] at hs
      split_ifs at hs <;> exact (Except.ok.inj hs).symm
  case movingAverage n t =>
    simp only [Ind.signal, MovingAverage.signal] at hs
    split_ifs at hs with h1
    · exact (Except.ok.inj hs).symm
    · simp only [Except.bind_eq_ok] at hs
      obtain ⟨c, -, m, hm, hs⟩ := hs
      have := iat_blank (hT t.column) (by omega) (by
        rw [tl _ (by cases t <;> simp [columns, MaType.column, MaType.str])]
        have := hp.1
        cases t <;> simp only [warmUp, firstSignal] at hn ⊢ <;> omega) hm
      subst this
      simp only [nan_lt_false, Bool.false_eq_true, if_false] at hs
      exact (Except.ok.inj hs).symm
  case massIndex =>
    simp only [Ind.signal, MassIndex.signal] at hs
    simp only [firstSignal] at hn
    rw [blank_bulge] at hs
    · simp only [Bool.false_eq_true, if_false] at hs
      split_ifs at hs <;> exact (Except.ok.inj hs).symm
    · intro v hv
      rw [List.mem_reverse] at hv
      obtain ⟨j, hj, rfl⟩ := List.getElem_of_mem hv
      rw [List.getElem_dropLast, ← val_lt]
      refine hT "mi" j ?_
      rw [List.length_dropLast, tl _ (by simp [columns])] at hj
      simp only [warmUp]
      omega
  case verticalHorizontalFilter n =>
    have hf := fl (by simp)
    have hcl : ((F.sub ["close"]).col "close").length = F.len := by
      rw [Frame.sub_col F _ "close" (by simp), bfill_length, ffill_length]
      exact sh.fcol "close" (by simp [inputColumns, Ind.required])
    simp only [Ind.signal, VerticalHorizontalFilter.signal] at hs
    simp only [firstSignal, Ind.Pos] at hn hp
    by_cases h1 : T.len < 3
    · rw [if_pos h1] at hs
      exact (Except.ok.inj hs).symm
    · rw [if_neg h1] at hs
      simp only [Except.bind_eq_ok] at hs
      obtain ⟨a, ha, b, hb, c, hc, hs⟩ := hs
      by_cases h9 : T.len < n + 3
      · have := iat_blank (k := 3) (hT "vhf") (by omega) (by rw [tl _ (by simp [columns])]; simp only [warmUp]; omega) ha
        subst this
        simp only [nan_lt_false, lt_nan_false, Bool.false_and, Bool.false_eq_true, if_false] at hs
        exact (Except.ok.inj hs).symm
      · split_ifs at hs
        · exact (Except.ok.inj hs).symm
        · simp only [Except.bind_eq_ok] at hs
          obtain ⟨D, hD, hs⟩ := hs
          obtain ⟨d1, d2, d3⟩ := blank_dema (by omega) hD
          exact dema_hold d1 (by rw [d2, hcl]; omega) hs
        · exact (Except.ok.inj hs).symm
        · simp only [Except.bind_eq_ok] at hs
          obtain ⟨D, hD, hs⟩ := hs
          obtain ⟨d1, d2, d3⟩ := blank_momentum hD
          exact momentum_hold d1 (by rw [d2, hcl]; omega) hs
        · exact (Except.ok.inj hs).symm

end TTI
