import Verif.Lemmas.Memory
import Verif.Lemmas.Params
import Verif.Spec.Memory

set_option autoImplicit false

/-!
# Finite memory of the indicators
-/

namespace TTI

theorem Frame.col_cons (idx : List ℤ) (n c : String) (l : List Val) (rest : List (String × List Val)) :
    Frame.col ⟨idx, (n, l) :: rest⟩ c = if n = c then l else Frame.col ⟨idx, rest⟩ c := by
  unfold Frame.col
  rw [List.find?_cons]
  by_cases h : n = c
  · simp [h]
  · have : (n == c) = false := by simpa using h
    simp [h, this]

theorem Frame.col_nil (idx : List ℤ) (c : String) : Frame.col ⟨idx, []⟩ c = [] := rfl

theorem Recent.nil {k m : ℕ} : Recent k m ([] : List Val) [] := fun _ _ => rfl

theorem Recent.mono' {k m n : ℕ} {ys xs : List Val} (hr : Recent k m ys xs) (h : m ≤ n) : Recent k n ys xs := hr.mono h

theorem Recent.shiftBack {k m : ℕ} (s : ℕ) {ys xs : List Val} (hl : ys.length + k = xs.length) (hr : Recent k m ys xs) :
    Recent k (m - s) (shiftBack s ys) (shiftBack s xs) := by
  intro i hi
  have h1 := hr (i + s) (by omega)
  simp only [TTI.shiftBack, List.getElem?_take, List.getElem?_drop, List.getElem?_append, List.getElem?_replicate]
  by_cases h : i < ys.length
  · rw [if_pos h, if_pos (show i + k < xs.length by omega)]
    by_cases h2 : s + i < ys.length
    · rw [if_pos h2, if_pos (show s + (i + k) < xs.length by omega), show s + i = i + s by omega, show s + (i + k) = i + s + k by omega, h1]
    · rw [if_neg h2, if_neg (show ¬ s + (i + k) < xs.length by omega), show s + i - ys.length = s + (i + k) - xs.length by omega]
  · rw [if_neg h, if_neg (show ¬ i + k < xs.length by omega)]

theorem Recent.take {k m : ℕ} {α : Type} (n : ℕ) {ys xs : List α} (hr : Recent k m ys xs) :
    Recent k m (ys.take (n - k)) (xs.take n) := by
  intro i hi
  rw [List.getElem?_take, List.getElem?_take, hr i hi]
  by_cases h : i < n - k
  · rw [if_pos h, if_pos (by omega)]
  · rw [if_neg h, if_neg (by omega)]

theorem rows_recent (F : Frame) (k : ℕ) : Recent k 0 (F.drop k).rows F.rows := by
  rw [Frame.rows_drop]; exact Recent.drop k _

set_option hygiene false in
/-- Collects the operators a column is computed with. -/
local macro "recent" : tactic => `(tactic| (
  repeat' (first
    | with_reducible exact Recent.drop _ _
    | with_reducible exact Ind.moneyFlowVolume_recent _ _
    | with_reducible exact rows_recent _ _
    | with_reducible exact Ind.IchimokuCloud.recent _ _ _ (by omega)
    | with_reducible apply Recent.roundS
    | with_reducible apply Recent.scaleS
    | with_reducible apply Recent.zeroBelow
    | with_reducible apply Recent.zeroAbove
    | with_reducible apply Recent.fillna
    | with_reducible apply Recent.addS
    | with_reducible apply Recent.subS
    | with_reducible apply Recent.mulS
    | with_reducible apply Recent.divS
    | with_reducible apply Recent.zip3
    | with_reducible apply Recent.zipV
    | with_reducible apply Ind.CommodityChannelIndex.recent (by omega)
    | with_reducible apply Ind.ProjectionBands.recent _ (by omega)
    | with_reducible apply Ind.UltimateOscillator.recent (by omega)
    | with_reducible apply Recent.rolling _ _ (by omega)
    | with_reducible apply rollingOLS_slope (by omega)
    | with_reducible apply Recent.shift
    | with_reducible apply Recent.diffS
    | with_reducible apply Recent.maskBefore
    | with_reducible apply Recent.map
    | with_reducible apply Recent.zip
    | with_reducible apply Recent.zipWith)))

set_option hygiene false in
/-- An indicator whose columns are computed by operators with finite memory. -/
local macro "memory_of" f:ident : tactic => `(tactic| (
  simp only [Ind.calcTi, $f:ident, Spec.memory, Option.some.injEq, Frame.drop_len] at h h' hM
  (try rw [if_neg (by omega)] at h)
  (try rw [if_neg (by omega)] at h')
  simp only [Except.ok.injEq] at h h'
  subst h h'
  (try simp only [Frame.drop_col, Frame.drop_len])
  repeat' (rw [Frame.col_cons, Frame.col_cons]; split)
  all_goals first
    | exact Recent.nil
    | (subst_vars; apply Recent.mono'; (focus recent); first | omega | (simp <;> omega))))

theorem Frame.sub_lengths (F : Frame) (hw : F.WF) (names : List String) : (F.sub names).WF := by
  intro c hc
  simp only [Frame.sub, Frame.restrict, List.mem_map, List.mem_filter] at hc
  obtain ⟨d, ⟨hd, -⟩, rfl⟩ := hc
  have := hw d hd
  simp [bfill, ffill, this, Frame.sub]

theorem Frame.sub_names (F : Frame) (names : List String) (n : String) (h : n ∈ F.cols.map (·.1)) (hn : n ∈ names) :
    n ∈ (F.sub names).cols.map (·.1) := by
  rw [List.mem_map] at h
  obtain ⟨c, hc, rfl⟩ := h
  simp only [Frame.sub, Frame.restrict, List.map_map, List.mem_map, List.mem_filter]
  exact ⟨c, ⟨hc, by simpa using hn⟩, rfl⟩

theorem forecast_recent (p : ℕ) (hp : 1 ≤ p) (F : Frame) (k : ℕ) (hw : F.WF) (hc : "close" ∈ F.cols.map (·.1)) (hk : k ≤ F.len)
    (hs : F.KnownFrom k) (hrow : p ≤ F.len - k) :
    ∃ l l', Ind.TimeSeriesForecast.forecast p F = .ok l ∧ Ind.TimeSeriesForecast.forecast p (F.drop k) = .ok l' ∧
      Recent k (p - 1) l' l := by
  obtain ⟨s, e1, -⟩ := Ind.LinearRegressionSlope.calcTi_ok p (F.sub ["close"]) (show p ≤ F.len by omega)
  obtain ⟨s', e1', -⟩ := Ind.LinearRegressionSlope.calcTi_ok p ((F.sub ["close"]).drop k)
    (by rw [Frame.drop_len, Frame.sub_len]; omega)
  have hl := (F.sub ["close"]).col_length (F.sub_lengths hw _) "close" (F.sub_names _ _ hc (by simp))
  have r1 := Ind.LinearRegressionSlope.recent p hp _ _ _ k hl (by rw [Frame.sub_len]; exact hk) e1 e1'
  have r2 := rollingOLS_end (N := F.len) hp ((Recent.drop k ((F.sub ["close"]).col "close")).fillna 0) hk
  unfold Ind.TimeSeriesForecast.forecast
  rw [Frame.sub_drop F k hs, e1, e1']
  unfold Ind.LinearRegressionIndicator.calcTi
  rw [if_neg (by rw [Frame.sub_len]; omega), if_neg (by rw [Frame.drop_len, Frame.sub_len]; omega)]
  refine ⟨_, _, rfl, rfl, ?_⟩
  simp only [Frame.col_single, Frame.drop_col, Frame.drop_len, Frame.sub_len] at r1 ⊢
  exact ((r1.sumRows r2).maskBefore (p - 1)).mono (by omega)

theorem tsf_recent (p : ℕ) (hp : 1 ≤ p) (F : Frame) (k : ℕ) (hw : F.WF) (hc : "close" ∈ F.cols.map (·.1)) (hk : k ≤ F.len)
    (hs : F.KnownFrom k) (hrow : p ≤ F.len - k) :
    ∃ l l', Ind.TimeSeriesForecast.calcTi p F = .ok ⟨F.idx, [("tsf", l)]⟩ ∧
      Ind.TimeSeriesForecast.calcTi p (F.drop k) = .ok ⟨(F.drop k).idx, [("tsf", l')]⟩ ∧ Recent k (p - 1) l' l := by
  obtain ⟨l, l', e, e', hr⟩ := forecast_recent p hp F k hw hc hk hs hrow
  unfold Ind.TimeSeriesForecast.calcTi
  rw [if_neg (by omega), if_neg (by rw [Frame.drop_len]; omega), e, e']
  exact ⟨_, _, rfl, rfl, hr.roundS 4⟩

theorem pb_recent (p : ℕ) (hp : 1 ≤ p) (F : Frame) (k : ℕ) (hrow : p ≤ F.len - k) :
    ∃ u l u' l', Ind.ProjectionBands.calcTi p F = .ok ⟨F.idx, [("upper_band", u), ("lower_band", l)]⟩ ∧
      Ind.ProjectionBands.calcTi p (F.drop k) = .ok ⟨(F.drop k).idx, [("upper_band", u'), ("lower_band", l')]⟩ ∧
      Recent k (p - 1) u' u ∧ Recent k (p - 1) l' l := by
  unfold Ind.ProjectionBands.calcTi
  rw [if_neg (by omega), if_neg (by rw [Frame.drop_len]; omega)]
  refine ⟨_, _, _, _, rfl, rfl, ?_, ?_⟩
  all_goals
    simp only [Frame.drop_col]
    apply Recent.mono'
    (focus recent)
    omega

theorem calcTi_recent (E : Env) (ind : Ind) (F T T' : Frame) (k : ℕ) (hg : F.Good ind.required) (hpos : ind.Pos)
    (hk : k ≤ F.len) (hs : Spec.Nested ind → F.KnownFrom k) (hrow : Spec.minRows ind ≤ F.len - k)
    (h : ind.calcTi E F = .ok T) (h' : ind.calcTi E (F.drop k) = .ok T') (column : String) (M : ℕ)
    (hM : Spec.memory ind column = some M) : Recent k (M - 1) (T'.col column) (T.col column) := by
  cases ind <;> simp only [Spec.minRows, Ind.Pos] at hrow hpos
  case bollingerBands p s => memory_of Ind.BollingerBands.calcTi
  case chaikinMoneyFlow p => memory_of Ind.ChaikinMoneyFlow.calcTi
  case chandeMomentumOscillator p => memory_of Ind.ChandeMomentumOscillator.calcTi
  case commodityChannelIndex p => memory_of Ind.CommodityChannelIndex.calcTi
  case easeOfMovement p => memory_of Ind.EaseOfMovement.calcTi
  case envelopes p s => memory_of Ind.Envelopes.calcTi
  case ichimokuCloud =>
    simp only [Ind.calcTi, Ind.IchimokuCloud.calcTi, Spec.memory, Option.some.injEq, Except.ok.injEq] at h h' hM
    subst h h' hM
    by_cases c0 : column = "tenkan_sen"
    · subst c0
      simp only [Frame.col_cons, String.reduceEq, reduceIte]
      apply Recent.mono'
      (focus recent)
      omega
    by_cases c1 : column = "kijun_sen"
    · subst c1
      simp only [Frame.col_cons, String.reduceEq, reduceIte]
      apply Recent.mono'
      (focus recent)
      omega
    by_cases c2 : column = "senkou_a"
    · subst c2
      simp only [Frame.col_cons, String.reduceEq, reduceIte]
      apply Recent.mono'
      (focus recent)
      omega
    by_cases c3 : column = "senkou_b"
    · subst c3
      simp only [Frame.col_cons, String.reduceEq, reduceIte]
      apply Recent.mono'
      (focus recent)
      omega
    simp only [Frame.col_cons, Frame.col_nil, Ne.symm c0, Ne.symm c1, Ne.symm c2, Ne.symm c3, if_false]
    exact Recent.nil
  case intradayMomentumIndex p => memory_of Ind.IntradayMomentumIndex.calcTi
  case marketFacilitationIndex => memory_of Ind.MarketFacilitationIndex.calcTi
  case medianPrice p => memory_of Ind.MedianPrice.calcTi
  case momentum p => memory_of Ind.Momentum.calcTi
  case priceChannel p => memory_of Ind.PriceChannel.calcTi
  case priceOscillator l s => memory_of Ind.PriceOscillator.calcTi
  case priceRateOfChange p => memory_of Ind.PriceRateOfChange.calcTi
  case projectionBands p => memory_of Ind.ProjectionBands.calcTi
  case qstick p => memory_of Ind.Qstick.calcTi
  case standardDeviation p => memory_of Ind.StandardDeviation.calcTi
  case stochasticOscillator k' s d m => memory_of Ind.StochasticOscillator.calcTi
  case swingIndex => memory_of Ind.SwingIndex.calcTi
  case typicalPrice p => memory_of Ind.TypicalPrice.calcTi
  case ultimateOscillator => memory_of Ind.UltimateOscillator.calcTi
  case verticalHorizontalFilter p => memory_of Ind.VerticalHorizontalFilter.calcTi
  case volumeOscillator l s => memory_of Ind.VolumeOscillator.calcTi
  case volumeRateOfChange p => memory_of Ind.VolumeRateOfChange.calcTi
  case weightedClose => memory_of Ind.WeightedClose.calcTi
  case williamsAccumulationDistribution => memory_of Ind.WilliamsAccumulationDistribution.calcTi
  case williamsR p => memory_of Ind.WilliamsR.calcTi
  case linearRegressionSlope p =>
    simp only [Spec.memory, Option.some.injEq] at hM
    subst hM
    by_cases hcol : column = "lrs"
    · subst hcol
      exact Ind.LinearRegressionSlope.recent p hpos F T T' k (F.col_length hg.wf _ (hg.has _ (by simp [Ind.required]))) hk h h'
    · simp only [Ind.calcTi, Ind.LinearRegressionSlope.calcTi, Frame.drop_len] at h h'
      rw [if_neg (by omega)] at h h'
      simp only [Except.ok.injEq] at h h'
      subst h h'
      rw [Frame.col_cons, Frame.col_cons, if_neg (Ne.symm hcol), if_neg (Ne.symm hcol)]
      exact Recent.nil
  case linearRegressionIndicator p =>
    simp only [Ind.calcTi, Ind.LinearRegressionIndicator.calcTi, Spec.memory, Option.some.injEq, Frame.drop_len] at h h' hM
    rw [if_neg (by omega)] at h h'
    simp only [Except.ok.injEq] at h h'
    subst h h' hM
    rw [Frame.col_cons, Frame.col_cons]; split
    · rw [Frame.drop_col]
      exact (rollingOLS_end (by omega) ((Recent.drop k _).fillna 0) hk).mono (by omega)
    · exact Recent.nil
  case detrendedPriceOscillator p =>
    simp only [Ind.calcTi, Ind.DetrendedPriceOscillator.calcTi, Spec.memory, Option.some.injEq, Frame.drop_len] at h h' hM
    rw [if_neg (by omega)] at h h'
    simp only [Except.ok.injEq] at h h'
    subst h h' hM
    rw [Frame.col_cons, Frame.col_cons]; split
    · rw [Frame.drop_col, show F.len - k - (1 + p / 2) = F.len - (1 + p / 2) - k by omega]
      apply Recent.roundS
      apply Recent.take
      have hl := F.col_length hg.wf "close" (hg.has _ (by simp [Ind.required]))
      have h1 : Recent k (0 + (p - 1)) (rolling p p aggMean ((F.col "close").drop k)) (rolling p p aggMean (F.col "close")) :=
        (Recent.drop k _).rolling p p (by omega) aggMean
      exact ((Recent.drop k _).subS (h1.shiftBack (1 + p / 2) (by simp [hl]; omega))).mono (by omega)
    · exact Recent.nil
  case timeSeriesForecast p =>
    obtain ⟨l, l', e, e', hr⟩ := tsf_recent p (by omega) F k hg.wf (hg.has _ (by simp [Ind.required])) hk (hs trivial) hrow
    simp only [Ind.calcTi] at h h'
    rw [e] at h
    rw [e'] at h'
    simp only [Except.ok.injEq, Spec.memory, Option.some.injEq] at h h' hM
    subst h h' hM
    rw [Frame.col_cons, Frame.col_cons]; split
    · exact hr
    · exact Recent.nil
  case forecastOscillator p =>
    obtain ⟨l, l', e, e', hr⟩ := tsf_recent p (by omega) (F.sub ["close"]) k (F.sub_lengths hg.wf _)
      (F.sub_names _ _ (hg.has _ (by simp [Ind.required])) (by simp)) hk ((hs trivial).sub _) hrow
    simp only [Ind.calcTi, Ind.ForecastOscillator.calcTi, Frame.drop_len] at h h'
    rw [if_neg (by omega), e] at h
    rw [if_neg (by omega), Frame.sub_drop F k (hs trivial), e'] at h'
    simp only [ok_bind, pure, Except.pure, Except.ok.injEq, Spec.memory, Option.some.injEq] at h h' hM
    subst h h' hM
    simp only [Frame.col_cons, Frame.col_nil, if_true, Frame.drop_col]
    split
    · exact (((((Recent.drop k _).subS (hr.shift 1)).scaleS 100).divS (Recent.drop k _)).roundS 4).mono (by omega)
    · exact Recent.nil
  case projectionOscillator p =>
    obtain ⟨u, l, u', l', e, e', hu, hl⟩ := pb_recent p (by omega) (F.sub ["high", "low", "close"]) k hrow
    simp only [Ind.calcTi, Ind.ProjectionOscillator.calcTi, Frame.drop_len] at h h'
    rw [if_neg (by omega), e] at h
    rw [if_neg (by omega), Frame.sub_drop F k (hs trivial), e'] at h'
    simp only [ok_bind, pure, Except.pure, Except.ok.injEq, Spec.memory] at h h' hM
    split at hM
    · next hcol =>
      simp only [Option.some.injEq] at hM
      subst h h' hM hcol
      simp only [Frame.col_cons, Frame.col_nil, if_true, Frame.drop_col, String.reduceEq, reduceIte]
      exact (((((Recent.drop k _).subS hl).scaleS 100).divS (hu.subS hl)).roundS 4).mono (by omega)
    · simp at hM
  case movingAverage p t =>
    cases t
    case timeSeries =>
      obtain ⟨l, l', e, e', hr⟩ := forecast_recent p (by omega) F k hg.wf (hg.has _ (by simp [Ind.required])) hk (hs trivial)
        (by simpa using hrow)
      simp only [reduceCtorEq, if_false] at hrow
      simp only [Ind.calcTi, Ind.MovingAverage.calcTi, Frame.drop_len] at h h'
      rw [if_neg (by simp; omega), if_neg (by simp), e] at h
      rw [if_neg (by simp; omega), if_neg (by simp), e'] at h'
      simp only [ok_bind, pure, Except.pure, Except.ok.injEq, Spec.memory, Option.some.injEq] at h h' hM
      subst h h' hM
      simp only [Frame.col_cons, Frame.col_nil]
      split
      · exact hr.roundS 4
      · exact Recent.nil
    case exponential => simp [Spec.memory] at hM
    case variableType => simp [Spec.memory] at hM
    all_goals
      simp only [reduceCtorEq, if_false] at hrow
      simp only [Ind.calcTi, Ind.MovingAverage.calcTi, Frame.drop_len] at h h'
      rw [if_neg (by simp; omega), if_neg (by simp)] at h
      rw [if_neg (by simp; omega), if_neg (by simp)] at h'
      simp only [ok_bind, pure, Except.pure, Except.ok.injEq, Spec.memory, Option.some.injEq, Frame.drop_col] at h h' hM
      subst h h' hM
      simp only [Frame.col_cons, Frame.col_nil]
      split
      · apply Recent.mono'
        (focus recent)
        omega
      · exact Recent.nil
  all_goals simp [Spec.memory] at hM

end TTI
