import Verif.Lemmas.WarmUp

set_option autoImplicit false

/-!
# The missing values at the beginning, class by class
-/

namespace TTI

open Spec Ind

theorem blank_cols (w : String → ℕ) (T : Frame) (h : ∀ c ∈ T.cols, Blank (w c.1) c.2) (name : String) :
    Blank (w name) (T.col name) := by
  unfold Frame.col
  cases hf : T.cols.find? (fun c => c.1 == name) with
  | none => exact fun i _ => val_ge _ _ (by simp)
  | some c =>
    have h1 := List.find?_some hf
    simp only [beq_iff_eq] at h1
    subst h1
    exact h c (List.mem_of_find?_eq_some hf)

theorem blank_atr (n : ℕ) (xs : List Val) : Blank n (List.replicate n Val.nan ++ xs) := by
  intro i hi
  rw [val_lt _ _ (by simp; omega), List.getElem_append_left (by simpa using hi), List.getElem_replicate]

theorem blank_zip3 {k : ℕ} (f : Val → Val → Val → Val) (xs ys zs : List Val)
    (h : ∀ i < k, f (val xs i) (val ys i) (val zs i) = .nan) : Blank k (zip3 f xs ys zs) := by
  intro i hi
  by_cases hl : i < xs.length ∧ i < ys.length ∧ i < zs.length
  · rw [val_zip3 f xs ys zs i hl.1 hl.2.1 hl.2.2, h i hi]
  · exact val_ge _ _ (by simp; omega)

theorem blank_maxNan {k : ℕ} {ys : List Val} (h : Blank k ys) (xs : List Val) : Blank k (zipV maxNan xs ys) :=
  h.zipR _ (fun x => by cases x <;> rfl) xs

theorem blank_minNan {k : ℕ} {ys : List Val} (h : Blank k ys) (xs : List Val) : Blank k (zipV minNan xs ys) :=
  h.zipR _ (fun x => by cases x <;> rfl) xs

theorem lt_nan_false (x : Val) : Val.lt x .nan = false := by cases x <;> rfl
theorem nan_lt_false (x : Val) : Val.lt .nan x = false := rfl
theorem le_nan_false (x : Val) : Val.le x .nan = false := by cases x <;> rfl
theorem nan_le_false (x : Val) : Val.le .nan x = false := rfl

theorem forecast_blank (p : ℕ) (F : Frame) (t : List Val) (h : TimeSeriesForecast.forecast p F = .ok t) : Blank (p - 1) t := by
  unfold TimeSeriesForecast.forecast at h
  simp only [Except.bind_eq_ok, pure, Except.pure, Except.ok.injEq] at h
  obtain ⟨s, -, i, -, rfl⟩ := h
  exact ((Blank.any _).mask (p - 1)).mono (by omega)

theorem tsf_blank (p : ℕ) (F T : Frame) (h : TimeSeriesForecast.calcTi p F = .ok T) : Blank (p - 1) (T.col "tsf") := by
  unfold TimeSeriesForecast.calcTi at h
  split_ifs at h
  · cases h
  · simp only [Except.bind_eq_ok, pure, Except.pure, Except.ok.injEq] at h
    obtain ⟨t, ht, rfl⟩ := h
    rw [Frame.col_single]
    exact (forecast_blank p F t ht).round 4

theorem band_blank (pick : Val → Val → Val) (p : ℕ) (price slope : List Val) :
    Blank (p - 1) (ProjectionBands.band pick p price slope) := by
  refine Blank.pre _ _ fun i hi hl => ?_
  rw [if_pos (by rw [List.length_take]; omega)]

theorem projectionBands_blank (p : ℕ) (F T : Frame) (h : ProjectionBands.calcTi p F = .ok T) :
    Blank (p - 1) (T.col "upper_band") ∧ Blank (p - 1) (T.col "lower_band") := by
  unfold ProjectionBands.calcTi at h
  split_ifs at h
  simp only [Except.ok.injEq] at h
  subst h
  exact ⟨(band_blank _ _ _ _).round 4, (band_blank _ _ _ _).round 4⟩

theorem variableMa_blank (p : ℕ) (rows : List (Val × Val)) : Blank 21 (MovingAverage.variableMa p rows) := by
  unfold MovingAverage.variableMa
  refine Blank.pre _ _ fun i hi hl => ?_
  rw [List.drop_eq_nil_of_le (by rw [List.length_take]; omega)]

theorem differences_blank (p : ℕ) (rows : List (Val × Val)) : Blank (p - 1) (CommodityChannelIndex.differences p rows) := by
  refine Blank.pre _ _ fun i hi hl => ?_
  rw [if_pos (by rw [List.length_take]; omega)]

theorem smooth_blank (p : ℕ) (xs : List Val) : Blank p (RelativeStrengthIndex.smooth p xs) := by
  refine Blank.pre _ _ fun i hi hl => ?_
  rw [if_pos (by rw [List.length_take]; omega)]

theorem adxOf_blank (xs : List Val) : Blank 27 (DirectionalMovementIndex.adxOf xs) := by
  refine Blank.pre _ _ fun i hi hl => ?_
  rw [if_pos (by rw [List.length_take]; omega)]

theorem lri_blank (p : ℕ) (F T : Frame) (h : LinearRegressionIndicator.calcTi p F = .ok T) : Blank (p - 1) (T.col "lri") := by
  unfold LinearRegressionIndicator.calcTi at h
  split_ifs at h
  simp only [Except.ok.injEq] at h
  subst h
  rw [Frame.col_single]
  intro i hi
  by_cases hl : i < (rollingOLS p (fillna 0 (F.col "close"))).length ∧ i < F.len
  · rw [val_lt _ _ (by simp only [List.length_zipWith, List.length_range]; omega), List.getElem_zipWith]
    have e : (rollingOLS p (fillna 0 (F.col "close")))[i]'hl.1 = (.nan, .nan) := by
      unfold rollingOLS prefixMap
      rw [List.getElem_map, List.getElem_range]
      exact if_neg (by rw [List.length_take]; omega)
    rw [e]
    simp
  · exact val_ge _ _ (by simp only [List.length_zipWith, List.length_range]; omega)

theorem warm_dir_pdi : warmUp (.directionalMovementIndex) "+di" = 14 := rfl
theorem warm_dir_mdi : warmUp (.directionalMovementIndex) "-di" = 14 := rfl
theorem warm_dir_dx : warmUp (.directionalMovementIndex) "dx" = 14 := rfl
theorem warm_dir_adx : warmUp (.directionalMovementIndex) "adx" = 27 := rfl
theorem warm_dir_adxr : warmUp (.directionalMovementIndex) "adxr" = 40 := rfl
theorem warm_eas_emv (n : ℕ) : warmUp (.easeOfMovement n) "emv" = 1 := rfl
theorem warm_eas_emv_ma (n : ℕ) : warmUp (.easeOfMovement n) "emv_ma" = n := rfl
theorem warm_ich_tenkan_sen : warmUp (.ichimokuCloud) "tenkan_sen" = 0 := rfl
theorem warm_ich_kijun_sen : warmUp (.ichimokuCloud) "kijun_sen" = 0 := rfl
theorem warm_ich_senkou_a : warmUp (.ichimokuCloud) "senkou_a" = 26 := rfl
theorem warm_ich_senkou_b : warmUp (.ichimokuCloud) "senkou_b" = 26 := rfl
theorem warm_mov_macd : warmUp (.movingAverageConvergenceDivergence) "macd" = 25 := rfl
theorem warm_mov_signal_line : warmUp (.movingAverageConvergenceDivergence) "signal_line" = 33 := rfl
theorem warm_pro_posc (n : ℕ) : warmUp (.projectionOscillator n) "posc" = n - 1 := rfl
theorem warm_pro_trigger_line (n : ℕ) : warmUp (.projectionOscillator n) "trigger_line" = n + 1 := rfl
theorem warm_sto_qK (k s d : ℕ) (b : Bool) : warmUp (.stochasticOscillator k s d b) "%K" = k + s - 2 := rfl
theorem warm_sto_qD (k s d : ℕ) (b : Bool) : warmUp (.stochasticOscillator k s d b) "%D" = k + s + d - 3 := rfl

/-- The missing values of every class. -/
theorem blank_calcTi (E : Env) (ind : Ind) (F T : Frame) (hp : ind.Pos) (h : ind.calcTi E F = .ok T) (name : String) :
    Blank (warmUp ind name) (T.col name) := by
  have easy : warmUp ind name = 0 → Blank (warmUp ind name) (T.col name) := fun h0 => by rw [h0]; exact Blank.any _
  apply blank_cols (warmUp ind) T
  clear easy
  cases ind
  case accumulationDistributionLine => exact fun c _ => Blank.any _
  case fibonacciRetracement => exact fun c _ => Blank.any _
  case marketFacilitationIndex => exact fun c _ => Blank.any _
  case medianPrice => exact fun c _ => Blank.any _
  case negativeVolumeIndex => exact fun c _ => Blank.any _
  case positiveVolumeIndex => exact fun c _ => Blank.any _
  case onBalanceVolume => exact fun c _ => Blank.any _
  case parabolicSAR => exact fun c _ => Blank.any _
  case performance => exact fun c _ => Blank.any _
  case priceAndVolumeTrend => exact fun c _ => Blank.any _
  case typicalPrice => exact fun c _ => Blank.any _
  case weightedClose => exact fun c _ => Blank.any _
  case linearRegressionIndicator p =>
    have hb := lri_blank p F T h
    simp only [Ind.calcTi, LinearRegressionIndicator.calcTi] at h
    split_ifs at h
    simp only [Except.ok.injEq] at h
    subst h
    rw [Frame.col_single] at hb
    simpa [warmUp] using hb
  case chaikinOscillator =>
    simp only [Ind.calcTi, ChaikinOscillator.calcTi] at h
    split_ifs at h
    · cases h
    · simp only [Except.bind_eq_ok, pure, Except.pure, Except.ok.injEq] at h
      obtain ⟨t, -, rfl⟩ := h
      simp only [List.forall_mem_singleton, warmUp]
      exact ((((Blank.any _).ewm 3 (by omega)).sub ((Blank.any _).ewm 10 (by omega))).round 4).mono (by omega)
  case forecastOscillator p =>
    simp only [Ind.calcTi, ForecastOscillator.calcTi] at h
    split_ifs at h
    · cases h
    · simp only [Except.bind_eq_ok, pure, Except.pure, Except.ok.injEq] at h
      obtain ⟨t, ht, rfl⟩ := h
      simp only [List.forall_mem_singleton, warmUp]
      exact ((((((Blank.any _).sub ((tsf_blank _ _ _ ht).shift 1)).scale 100).div (Blank.any _)).round 4)).mono
        (by simp only [Ind.Pos] at hp; omega)
  case timeSeriesForecast p =>
    have hb := tsf_blank p F T h
    simp only [Ind.calcTi, TimeSeriesForecast.calcTi] at h
    split_ifs at h
    · cases h
    · simp only [Except.bind_eq_ok, pure, Except.pure, Except.ok.injEq] at h
      obtain ⟨t, ht, rfl⟩ := h
      rw [Frame.col_single] at hb
      simpa [warmUp] using hb
  case projectionOscillator p =>
    simp only [Ind.calcTi, ProjectionOscillator.calcTi] at h
    split_ifs at h
    · cases h
    · simp only [Except.bind_eq_ok, pure, Except.pure, Except.ok.injEq] at h
      obtain ⟨t, ht, rfl⟩ := h
      obtain ⟨h1, h2⟩ := projectionBands_blank _ _ _ ht
      have h3 := (((Blank.any (F.col "close")).sub h2).scale 100).div (h1.sub h2)
      simp only [List.forall_mem_cons, List.not_mem_nil, false_implies, implies_true, and_true, warm_pro_posc,
        warm_pro_trigger_line]
      simp only [Ind.Pos] at hp
      exact ⟨(h3.round 4).mono (by omega), ((h3.ewm 3 (m := 3) (by omega)).round 4).mono (by omega)⟩
  case movingAverage p t =>
    simp only [Ind.calcTi, MovingAverage.calcTi] at h
    split_ifs at h
    · cases h
    · cases h
    · cases h
    · simp only [Except.bind_eq_ok, pure, Except.pure, Except.ok.injEq] at h
      obtain ⟨ma, hma, rfl⟩ := h
      simp only [List.forall_mem_singleton]
      cases t
      case simple =>
        simp only [Except.ok.injEq] at hma
        subst hma
        exact (((Blank.any _).rolling p hp.1 _).round 4).mono (by simp only [warmUp]; omega)
      case exponential =>
        simp only [Except.ok.injEq] at hma
        subst hma
        exact (((Blank.any _).ewm p hp.1).round 4).mono (by simp only [warmUp]; omega)
      case timeSeries => exact (forecast_blank p F ma hma).round 4
      case triangular =>
        simp only [Except.ok.injEq] at hma
        subst hma
        exact ((((Blank.any _).rolling p hp.1 _).rolling p hp.1 _).round 4).mono (by simp only [warmUp]; have := hp.1; omega)
      case variableType =>
        simp only [Except.bind_eq_ok, Except.ok.injEq] at hma
        obtain ⟨cmo, -, rfl⟩ := hma
        exact (variableMa_blank p _).round 4
  case swingIndex =>
    simp only [Ind.calcTi, SwingIndex.calcTi, Except.ok.injEq] at h
    subst h
    simp only [List.forall_mem_singleton, warmUp]
    have hy := (Blank.any (F.col "close")).shift 1
    refine Blank.round (Blank.map (Blank.mono (Blank.mul (Blank.scale (Blank.div (Blank.add (Blank.add
      ((Blank.any _).sub hy) (Blank.any _)) (Blank.any _)) (Blank.any _)) 50) (Blank.any _)) ?_) _ rfl) 4
    omega
  case williamsAccumulationDistribution =>
    simp only [Ind.calcTi, WilliamsAccumulationDistribution.calcTi, Except.ok.injEq] at h
    subst h
    simp only [List.forall_mem_singleton, warmUp]
    apply Blank.round
    intro i hi
    have hi0 : i = 0 := by omega
    subst hi0
    cases hc : F.col "close" with
    | nil => rfl
    | cons c cs =>
      cases hh : F.col "high" with
      | nil => cases hcs : (c :: cs).zip (shift 1 (c :: cs)) <;> rfl
      | cons a as =>
        cases hl : F.col "low" with
        | nil => cases hcs : (c :: cs).zip (shift 1 (c :: cs)) <;> rfl
        | cons b bs =>
          show WilliamsAccumulationDistribution.row c .nan a b = .nan
          cases c <;> rfl
  case averageTrueRange =>
    simp only [Ind.calcTi, AverageTrueRange.calcTi] at h
    split_ifs at h
    simp only [Except.ok.injEq] at h
    subst h
    simp only [List.forall_mem_cons, List.not_mem_nil, false_implies, implies_true, and_true, warmUp]
    try simp only [Ind.Pos] at hp
    exact blank_atr 13 _
  case bollingerBands p s =>
    simp only [Ind.calcTi, BollingerBands.calcTi] at h
    split_ifs at h
    simp only [Except.ok.injEq] at h
    subst h
    simp only [List.forall_mem_cons, List.not_mem_nil, false_implies, implies_true, and_true, warmUp]
    try simp only [Ind.Pos] at hp
    have h1 := (((Blank.any (F.col "close")).rolling p hp.1 aggMean).round 4)
    have h2 := ((Blank.any (F.col "close")).rolling p hp.1 (aggStd E.sq 0)).map (fun x => Val.mul x s) rfl
    exact ⟨h1.mono (by omega), ((h1.add h2).round 4).mono (by omega), ((h1.sub h2).round 4).mono (by omega)⟩
  case chaikinMoneyFlow p =>
    simp only [Ind.calcTi, ChaikinMoneyFlow.calcTi] at h
    split_ifs at h
    simp only [Except.ok.injEq] at h
    subst h
    simp only [List.forall_mem_cons, List.not_mem_nil, false_implies, implies_true, and_true, warmUp]
    try simp only [Ind.Pos] at hp
    exact ((((Blank.any _).rolling p hp _).div ((Blank.any _).rolling p hp _)).round 4).mono (by omega)
  case chandeMomentumOscillator p =>
    simp only [Ind.calcTi, ChandeMomentumOscillator.calcTi] at h
    split_ifs at h
    simp only [Except.ok.injEq] at h
    subst h
    simp only [List.forall_mem_cons, List.not_mem_nil, false_implies, implies_true, and_true, warmUp]
    try simp only [Ind.Pos] at hp
    have h0 := (Blank.any (F.col "close")).sub ((Blank.any (F.col "close")).shift 1)
    have h1 := h0.below.rolling p hp aggSum
    have h2 := (h0.above.rolling p hp aggSum).map Val.abs rfl
    exact ((((h1.sub h2).scale 100).div (h1.add h2)).round 4).mono (by omega)
  case commodityChannelIndex p =>
    simp only [Ind.calcTi, CommodityChannelIndex.calcTi] at h
    split_ifs at h
    simp only [Except.ok.injEq] at h
    subst h
    simp only [List.forall_mem_cons, List.not_mem_nil, false_implies, implies_true, and_true, warmUp]
    try simp only [Ind.Pos] at hp
    exact ((((Blank.any _).sub ((Blank.any _).rolling p hp _)).div (Blank.any _)).round 4).mono (by omega)
  case detrendedPriceOscillator p =>
    simp only [Ind.calcTi, DetrendedPriceOscillator.calcTi] at h
    split_ifs at h
    simp only [Except.ok.injEq] at h
    subst h
    simp only [List.forall_mem_cons, List.not_mem_nil, false_implies, implies_true, and_true, warmUp]
    try simp only [Ind.Pos] at hp
    exact ((((Blank.any _).sub (((Blank.any _).rolling p hp _).shiftBack _)).take _).round 4).mono (by omega)
  case directionalMovementIndex =>
    simp only [Ind.calcTi, DirectionalMovementIndex.calcTi] at h
    split_ifs at h
    simp only [Except.ok.injEq] at h
    subst h
    simp only [List.forall_mem_cons, List.not_mem_nil, false_implies, implies_true, and_true, warm_dir_pdi, warm_dir_mdi, warm_dir_dx, warm_dir_adx, warm_dir_adxr, warm_eas_emv, warm_eas_emv_ma, warm_ich_tenkan_sen, warm_ich_kijun_sen, warm_ich_senkou_a, warm_ich_senkou_b, warm_mov_macd, warm_mov_signal_line, warm_pro_posc, warm_pro_trigger_line, warm_sto_qK, warm_sto_qD]
    try simp only [Ind.Pos] at hp
    have hm : ∀ xs, Blank 14 (maskBefore 14 xs) := fun xs => ((Blank.any xs).mask 14).mono (by omega)
    refine ⟨(hm _).round 4, (hm _).round 4, ((((((hm _).sub (hm _)).map _ rfl).scale 100).div (Blank.any _)).round 4).mono
      (by omega), (adxOf_blank _).round 4, (((Blank.any _).mask 40).round 4).mono (by omega)⟩
  case doubleExponentialMovingAverage p =>
    simp only [Ind.calcTi, DoubleExponentialMovingAverage.calcTi] at h
    split_ifs at h
    simp only [Except.ok.injEq] at h
    subst h
    simp only [List.forall_mem_cons, List.not_mem_nil, false_implies, implies_true, and_true, warmUp]
    try simp only [Ind.Pos] at hp
    have h1 := (Blank.any (F.col "close")).ewm p hp
    exact (((h1.scale 2).sub (h1.ewm p hp)).round 4).mono (by omega)
  case easeOfMovement p =>
    simp only [Ind.calcTi, EaseOfMovement.calcTi] at h
    split_ifs at h
    simp only [Except.ok.injEq] at h
    subst h
    simp only [List.forall_mem_cons, List.not_mem_nil, false_implies, implies_true, and_true, warm_dir_pdi, warm_dir_mdi, warm_dir_dx, warm_dir_adx, warm_dir_adxr, warm_eas_emv, warm_eas_emv_ma, warm_ich_tenkan_sen, warm_ich_kijun_sen, warm_ich_senkou_a, warm_ich_senkou_b, warm_mov_macd, warm_mov_signal_line, warm_pro_posc, warm_pro_trigger_line, warm_sto_qK, warm_sto_qD]
    try simp only [Ind.Pos] at hp
    have h1 := (((((Blank.any (F.col "high")).add (Blank.any (F.col "low"))).sub (((Blank.any (F.col "high")).shift 1).add
      ((Blank.any (F.col "low")).shift 1))).scale (1 / 2)).div
        (Blank.any (divS (F.col "volume") (scaleS 10000 (subS (F.col "high") (F.col "low"))))))
    exact ⟨(h1.round 4).mono (by omega), ((h1.rolling p hp aggMean).round 4).mono (by omega)⟩
  case envelopes p s =>
    simp only [Ind.calcTi, Envelopes.calcTi] at h
    split_ifs at h
    simp only [Except.ok.injEq] at h
    subst h
    simp only [List.forall_mem_cons, List.not_mem_nil, false_implies, implies_true, and_true, warmUp]
    try simp only [Ind.Pos] at hp
    have h1 := (Blank.any (F.col "close")).rolling p hp.1 aggMean
    exact ⟨((h1.scale _).round 4).mono (by omega), ((h1.scale _).round 4).mono (by omega)⟩
  case ichimokuCloud =>
    simp only [Ind.calcTi, IchimokuCloud.calcTi] at h
    simp only [Except.ok.injEq] at h
    subst h
    simp only [List.forall_mem_cons, List.not_mem_nil, false_implies, implies_true, and_true, warm_dir_pdi, warm_dir_mdi, warm_dir_dx, warm_dir_adx, warm_dir_adxr, warm_eas_emv, warm_eas_emv_ma, warm_ich_tenkan_sen, warm_ich_kijun_sen, warm_ich_senkou_a, warm_ich_senkou_b, warm_mov_macd, warm_mov_signal_line, warm_pro_posc, warm_pro_trigger_line, warm_sto_qK, warm_sto_qD]
    try simp only [Ind.Pos] at hp
    exact ⟨Blank.any _, Blank.any _, (((Blank.any _).shift 26).round 4).mono (by omega),
      (((Blank.any _).shift 26).round 4).mono (by omega)⟩
  case intradayMomentumIndex p =>
    simp only [Ind.calcTi, IntradayMomentumIndex.calcTi] at h
    split_ifs at h
    simp only [Except.ok.injEq] at h
    subst h
    simp only [List.forall_mem_cons, List.not_mem_nil, false_implies, implies_true, and_true, warmUp]
    try simp only [Ind.Pos] at hp
    exact (((((Blank.any _).rolling p hp _).scale 100).div (Blank.any _)).round 4).mono (by omega)
  case klingerOscillator =>
    simp only [Ind.calcTi, KlingerOscillator.calcTi] at h
    split_ifs at h
    simp only [Except.ok.injEq] at h
    subst h
    simp only [List.forall_mem_cons, List.not_mem_nil, false_implies, implies_true, and_true, warmUp]
    try simp only [Ind.Pos] at hp
    have h1 : ∀ xs, Blank 1 ((subS xs (shift 1 xs)).map KlingerOscillator.direction) := fun xs =>
      (((Blank.any xs).sub ((Blank.any xs).shift 1)).map _ rfl).mono (by omega)
    have h2 : ∀ us ws xs, Blank 1 ((mulS (mulS us ws) ((subS xs (shift 1 xs)).map KlingerOscillator.direction)).map
      fun x => Val.mul x 100) := fun us ws xs => (((Blank.any (mulS us ws)).mul (h1 xs)).map _ rfl).mono (by omega)
    exact (((Blank.any _).sub ((h2 _ _ _).ewm 55 (m := 55) (by omega))).round 4).mono (by omega)
  case linearRegressionSlope p =>
    simp only [Ind.calcTi, LinearRegressionSlope.calcTi] at h
    split_ifs at h
    simp only [Except.ok.injEq] at h
    subst h
    simp only [List.forall_mem_cons, List.not_mem_nil, false_implies, implies_true, and_true, warmUp]
    try simp only [Ind.Pos] at hp
    exact ((((((Blank.any _).rolling p hp _).scale p).sub (Blank.any _)).div (Blank.any _)).round 4).mono (by omega)
  case massIndex =>
    simp only [Ind.calcTi, MassIndex.calcTi] at h
    split_ifs at h
    simp only [Except.ok.injEq] at h
    subst h
    simp only [List.forall_mem_cons, List.not_mem_nil, false_implies, implies_true, and_true, warmUp]
    try simp only [Ind.Pos] at hp
    have h1 := (Blank.any (subS (F.col "high") (F.col "low"))).ewm 9 (m := 9) (by omega)
    exact (((h1.div (h1.ewm 9 (m := 9) (by omega))).rolling 25 (m := 25) (by omega) aggSum).round 4).mono (by omega)
  case momentum p =>
    simp only [Ind.calcTi, Momentum.calcTi] at h
    split_ifs at h
    simp only [Except.ok.injEq] at h
    subst h
    simp only [List.forall_mem_cons, List.not_mem_nil, false_implies, implies_true, and_true, warmUp]
    try simp only [Ind.Pos] at hp
    exact (((Blank.any _).mask p).round 4).mono (by omega)
  case movingAverageConvergenceDivergence =>
    simp only [Ind.calcTi, MovingAverageConvergenceDivergence.calcTi] at h
    split_ifs at h
    simp only [Except.ok.injEq] at h
    subst h
    simp only [List.forall_mem_cons, List.not_mem_nil, false_implies, implies_true, and_true, warm_dir_pdi, warm_dir_mdi, warm_dir_dx, warm_dir_adx, warm_dir_adxr, warm_eas_emv, warm_eas_emv_ma, warm_ich_tenkan_sen, warm_ich_kijun_sen, warm_ich_senkou_a, warm_ich_senkou_b, warm_mov_macd, warm_mov_signal_line, warm_pro_posc, warm_pro_trigger_line, warm_sto_qK, warm_sto_qD]
    try simp only [Ind.Pos] at hp
    have h1 := (((Blank.any (F.col "close")).ewm 12 (m := 12) (by omega)).round 4).sub
      (((Blank.any (F.col "close")).ewm 26 (m := 26) (by omega)).round 4)
    exact ⟨(h1.round 4).mono (by omega), ((h1.ewm 9 (m := 9) (by omega)).round 4).mono (by omega)⟩
  case priceChannel p =>
    simp only [Ind.calcTi, PriceChannel.calcTi] at h
    split_ifs at h
    simp only [Except.ok.injEq] at h
    subst h
    simp only [List.forall_mem_cons, List.not_mem_nil, false_implies, implies_true, and_true, warmUp]
    try simp only [Ind.Pos] at hp
    exact ⟨((((Blank.any _).rolling p hp _).shift 1).round 4).mono (by omega),
      ((((Blank.any _).rolling p hp _).shift 1).round 4).mono (by omega)⟩
  case priceOscillator l s =>
    simp only [Ind.calcTi, PriceOscillator.calcTi] at h
    split_ifs at h
    simp only [Except.ok.injEq] at h
    subst h
    simp only [List.forall_mem_cons, List.not_mem_nil, false_implies, implies_true, and_true, warmUp]
    try simp only [Ind.Pos] at hp
    exact (((Blank.any _).div ((Blank.any _).rolling l (m := l) (by omega) _)).round 4).mono (by omega)
  case priceRateOfChange p =>
    simp only [Ind.calcTi, PriceRateOfChange.calcTi] at h
    split_ifs at h
    simp only [Except.ok.injEq] at h
    subst h
    simp only [List.forall_mem_cons, List.not_mem_nil, false_implies, implies_true, and_true, warmUp]
    try simp only [Ind.Pos] at hp
    exact (((Blank.any _).div ((Blank.any _).shift p)).round 4).mono (by omega)
  case projectionBands p =>
    simp only [Ind.calcTi, ProjectionBands.calcTi] at h
    split_ifs at h
    simp only [Except.ok.injEq] at h
    subst h
    simp only [List.forall_mem_cons, List.not_mem_nil, false_implies, implies_true, and_true, warmUp]
    try simp only [Ind.Pos] at hp
    exact ⟨(band_blank _ _ _ _).round 4, (band_blank _ _ _ _).round 4⟩
  case qstick p =>
    simp only [Ind.calcTi, Qstick.calcTi] at h
    split_ifs at h
    simp only [Except.ok.injEq] at h
    subst h
    simp only [List.forall_mem_cons, List.not_mem_nil, false_implies, implies_true, and_true, warmUp]
    try simp only [Ind.Pos] at hp
    exact ((((Blank.any _).rolling p hp _).map _ rfl).round 4).mono (by omega)
  case rangeIndicator p q =>
    simp only [Ind.calcTi, RangeIndicator.calcTi] at h
    split_ifs at h
    simp only [Except.ok.injEq] at h
    subst h
    simp only [List.forall_mem_cons, List.not_mem_nil, false_implies, implies_true, and_true, warmUp]
    try simp only [Ind.Pos] at hp
    have h1 : ∀ xs, Blank 1 (maskBefore 1 xs) := fun xs => ((Blank.any xs).mask 1).mono (by omega)
    have h2 : ∀ xs, Blank p (rolling p p aggMin (maskBefore 1 xs)) := fun xs =>
      ((h1 xs).rolling p hp.1 aggMin).mono (by omega)
    refine (((blank_zip3 (k := p) RangeIndicator.scaled _ _ _ fun i hi => ?_).ewm q hp.2).round 4).mono (by omega)
    rw [h2 _ i hi]
    unfold RangeIndicator.scaled
    simp only [Val.sub_nan, lt_nan_false, Bool.false_eq_true, if_false, nan_le_false]
  case relativeMomentumIndex p q =>
    simp only [Ind.calcTi, RelativeMomentumIndex.calcTi] at h
    split_ifs at h
    simp only [Except.ok.injEq] at h
    subst h
    simp only [List.forall_mem_cons, List.not_mem_nil, false_implies, implies_true, and_true, warmUp]
    try simp only [Ind.Pos] at hp
    exact ((((((Blank.wilder q p _).div (Blank.any _)).scale 100).div (Blank.any _))).round 4).mono (by omega)
  case relativeStrengthIndex p =>
    simp only [Ind.calcTi, RelativeStrengthIndex.calcTi] at h
    split_ifs at h
    simp only [Except.ok.injEq] at h
    subst h
    simp only [List.forall_mem_cons, List.not_mem_nil, false_implies, implies_true, and_true, warmUp]
    try simp only [Ind.Pos] at hp
    refine ((((smooth_blank p _).div (Blank.any _)).map _ ?_).round 4).mono (by omega)
    rfl
  case relativeVolatilityIndex p =>
    simp only [Ind.calcTi, RelativeVolatilityIndex.calcTi] at h
    split_ifs at h
    simp only [Except.ok.injEq] at h
    subst h
    simp only [List.forall_mem_cons, List.not_mem_nil, false_implies, implies_true, and_true, warmUp]
    try simp only [Ind.Pos] at hp
    refine ((((((Blank.wilder 9 p _).scale 100).div (Blank.any _)).add (Blank.any _)).map _ rfl).round 4).mono (by omega)
  case standardDeviation p =>
    simp only [Ind.calcTi, StandardDeviation.calcTi] at h
    split_ifs at h
    simp only [Except.ok.injEq] at h
    subst h
    simp only [List.forall_mem_cons, List.not_mem_nil, false_implies, implies_true, and_true, warmUp]
    try simp only [Ind.Pos] at hp
    exact (((Blank.any _).rolling p hp _).round 4).mono (by omega)
  case stochasticMomentumIndex p s d =>
    simp only [Ind.calcTi, StochasticMomentumIndex.calcTi] at h
    split_ifs at h
    simp only [Except.ok.injEq] at h
    subst h
    simp only [List.forall_mem_cons, List.not_mem_nil, false_implies, implies_true, and_true, warmUp]
    try simp only [Ind.Pos] at hp
    refine ((((((((Blank.any _).sub ((((Blank.any _).rolling p hp.1 _).add (Blank.any _)).map _ rfl)).ewm s hp.2.1).ewm d
      hp.2.2).div (Blank.any _)).scale 100)).round 4).mono (by omega)
  case stochasticOscillator k s d b =>
    simp only [Ind.calcTi, StochasticOscillator.calcTi] at h
    by_cases hk : F.len < k
    · rw [if_pos hk] at h; cases h
    rw [if_neg hk] at h
    simp only [Except.ok.injEq] at h
    subst h
    simp only [List.forall_mem_cons, List.not_mem_nil, false_implies, implies_true, and_true, warm_dir_pdi, warm_dir_mdi, warm_dir_dx, warm_dir_adx, warm_dir_adxr, warm_eas_emv, warm_eas_emv_ma, warm_ich_tenkan_sen, warm_ich_kijun_sen, warm_ich_senkou_a, warm_ich_senkou_b, warm_mov_macd, warm_mov_signal_line, warm_pro_posc, warm_pro_trigger_line, warm_sto_qK, warm_sto_qD]
    try simp only [Ind.Pos] at hp
    have h1 := ((((((Blank.any (F.col "close")).sub ((Blank.any (F.col "low")).rolling k hp.1 aggMin)).rolling s
      (m := s) (by omega) aggSum).scale 100).div (Blank.any (rolling s s aggSum (subS (rolling k k aggMax (F.col "high"))
        (rolling k k aggMin (F.col "low")))))).round 4)
    exact ⟨h1.mono (by omega), ((h1.rolling d hp.2.2 _).round 4).mono (by omega)⟩
  case tripleExponentialMovingAverage p =>
    simp only [Ind.calcTi, TripleExponentialMovingAverage.calcTi] at h
    split_ifs at h
    simp only [Except.ok.injEq] at h
    subst h
    simp only [List.forall_mem_cons, List.not_mem_nil, false_implies, implies_true, and_true, warmUp]
    try simp only [Ind.Pos] at hp
    have h1 := (Blank.any (F.col "close")).ewm p hp
    have h2 := h1.ewm p hp
    exact ((((h1.scale 3).sub (h2.scale 3)).add (h2.ewm p hp)).round 4).mono (by omega)
  case ultimateOscillator =>
    simp only [Ind.calcTi, UltimateOscillator.calcTi] at h
    split_ifs at h
    simp only [Except.ok.injEq] at h
    subst h
    simp only [List.forall_mem_cons, List.not_mem_nil, false_implies, implies_true, and_true, warmUp]
    try simp only [Ind.Pos] at hp
    have h1 := blank_minNan ((Blank.any (F.col "close")).shift 1) (F.col "low")
    have h2 := ((Blank.any (F.col "close")).sub h1).rolling 28 (m := 28) (by omega) aggSum
    have h3 := h2.div (Blank.any (rolling 28 28 aggSum (subS (zipV maxNan (F.col "high") (shift 1 (F.col "close")))
      (zipV minNan (F.col "low") (shift 1 (F.col "close"))))))
    exact (((((Blank.any _).add h3).scale 100).map _ rfl).round 4).mono (by omega)
  case verticalHorizontalFilter p =>
    simp only [Ind.calcTi, VerticalHorizontalFilter.calcTi] at h
    split_ifs at h
    simp only [Except.ok.injEq] at h
    subst h
    simp only [List.forall_mem_cons, List.not_mem_nil, false_implies, implies_true, and_true, warmUp]
    try simp only [Ind.Pos] at hp
    exact (((Blank.any _).div (((((Blank.any _).sub ((Blank.any _).shift 1)).map _ rfl).rolling p hp _))).round 4).mono
      (by omega)
  case volatilityChaikins p q =>
    simp only [Ind.calcTi, VolatilityChaikins.calcTi] at h
    split_ifs at h
    simp only [Except.ok.injEq] at h
    subst h
    simp only [List.forall_mem_cons, List.not_mem_nil, false_implies, implies_true, and_true, warmUp]
    try simp only [Ind.Pos] at hp
    exact ((((Blank.any _).div (((Blank.any _).ewm p hp.1).shift q)).scale 100).round 4).mono (by omega)
  case volumeOscillator l s =>
    simp only [Ind.calcTi, VolumeOscillator.calcTi] at h
    split_ifs at h
    simp only [Except.ok.injEq] at h
    subst h
    simp only [List.forall_mem_cons, List.not_mem_nil, false_implies, implies_true, and_true, warmUp]
    try simp only [Ind.Pos] at hp
    exact (((Blank.any _).sub ((Blank.any _).rolling l (m := l) (by omega) _)).round 4).mono (by omega)
  case volumeRateOfChange p =>
    simp only [Ind.calcTi, VolumeRateOfChange.calcTi] at h
    split_ifs at h
    simp only [Except.ok.injEq] at h
    subst h
    simp only [List.forall_mem_cons, List.not_mem_nil, false_implies, implies_true, and_true, warmUp]
    try simp only [Ind.Pos] at hp
    exact ((((Blank.any _).div ((Blank.any _).shift p)).scale 100).round 4).mono (by omega)
  case wildersSmoothing p =>
    simp only [Ind.calcTi, WildersSmoothing.calcTi] at h
    split_ifs at h
    simp only [Except.ok.injEq] at h
    subst h
    simp only [List.forall_mem_cons, List.not_mem_nil, false_implies, implies_true, and_true, warmUp]
    try simp only [Ind.Pos] at hp
    exact ((Blank.wilder 0 p _).round 4).mono (by omega)
  case williamsR p =>
    simp only [Ind.calcTi, WilliamsR.calcTi] at h
    split_ifs at h
    simp only [Except.ok.injEq] at h
    subst h
    simp only [List.forall_mem_cons, List.not_mem_nil, false_implies, implies_true, and_true, warmUp]
    try simp only [Ind.Pos] at hp
    exact ((((((Blank.any _).rolling p hp _).sub (Blank.any _)).div (Blank.any _)).scale (-100)).round 4).mono (by omega)

end TTI
