import Verif.Lemmas.Causal
import Verif.Model.Float

set_option autoImplicit false

/-!
# Shape and causality in rounded arithmetic: lemmas for C89

Nothing is assumed about the arithmetic.
-/

namespace TTI

namespace Flt

open Ind

/-! ## Lengths -/

section
variable (A : Arith) (xs ys zs : List Val)

@[simp] theorem addS_len : (A.addS xs ys).length = min xs.length ys.length := by simp [Arith.addS]
@[simp] theorem subS_len : (A.subS xs ys).length = min xs.length ys.length := by simp [Arith.subS]
@[simp] theorem mulS_len : (A.mulS xs ys).length = min xs.length ys.length := by simp [Arith.mulS]
@[simp] theorem divS_len : (A.divS xs ys).length = min xs.length ys.length := by simp [Arith.divS]
@[simp] theorem scaleS_len (c : ℚ) : (A.scaleS c xs).length = xs.length := by simp [Arith.scaleS]
@[simp] theorem roundS_len (k : ℕ) : (A.roundS k xs).length = xs.length := by simp [Arith.roundS]
@[simp] theorem ewm_len (s m : ℕ) : (A.ewm s m xs).length = xs.length := by simp [Arith.ewm]
@[simp] theorem ewmAlpha_len (a : ℚ) (m : ℕ) : (A.ewmAlpha a m xs).length = xs.length := by simp [Arith.ewmAlpha]
@[simp] theorem wilder_len (s p : ℕ) : (A.wilder s p xs).length = xs.length := by simp [Arith.wilder]
@[simp] theorem cumsum_len : (A.cumsum xs).length = xs.length := by simp [Arith.cumsum]
@[simp] theorem rollMean_len (w m : ℕ) : (A.rollMean w m xs).length = xs.length := by simp [Arith.rollMean]
@[simp] theorem rollSum_len (w m : ℕ) : (A.rollSum w m xs).length = xs.length := by simp [Arith.rollSum]
@[simp] theorem rollStd_len (sq : ℚ → ℚ) (w m : ℕ) : (A.rollStd sq w m xs).length = xs.length := by simp [Arith.rollStd]
@[simp] theorem volatilitySelected_len (sq : ℚ → ℚ) (sel : Val → Bool) : (volatilitySelected A sq sel xs).length = xs.length := by
  simp [volatilitySelected]
@[simp] theorem volatilityHalf_len (sq : ℚ → ℚ) (p : ℕ) : (volatilityHalf A sq p xs).length = xs.length := by simp [volatilityHalf]
@[simp] theorem volatilityRatio_len : (volatilityRatio A xs).length = xs.length := by simp [volatilityRatio]
@[simp] theorem variableMa_len (p : ℕ) (r : List (Val × Val)) : (variableMa A p r).length = r.length := by simp [variableMa]
@[simp] theorem volumeIndex_len (m : Val → Val → Bool) (r : List (Val × Val)) : (volumeIndex A m r).length = r.length := by
  simp [volumeIndex]
@[simp] theorem priceVolumeTrend_len (r : List (Val × Val)) : (priceVolumeTrend A r).length = r.length := by simp [priceVolumeTrend]
@[simp] theorem cumulative_len (r : List (Val × Val)) : (cumulative A r).length = r.length := by simp [cumulative]
@[simp] theorem differences_len (p : ℕ) (r : List (Val × Val)) : (differences A p r).length = r.length := by simp [differences]
@[simp] theorem smooth14_len : (smooth14 A xs).length = xs.length := by simp [smooth14]
@[simp] theorem adxOf_len : (adxOf A xs).length = xs.length := by simp [adxOf]
@[simp] theorem strengthSmooth_len (p : ℕ) : (strengthSmooth A p xs).length = xs.length := by simp [strengthSmooth]
@[simp] theorem strengthIndex_len (p : ℕ) : (strengthIndex A p xs).length = xs.length := by simp [strengthIndex]
@[simp] theorem momentumIndex_len (p m : ℕ) : (momentumIndex A p m xs).length = xs.length := by simp [momentumIndex]
@[simp] theorem unitRatio_len (w : ℕ) : (unitRatio A w xs ys).length = min xs.length ys.length := by simp [unitRatio]

/-! ## Prefixes -/

variable (n : ℕ)

theorem addS_take : A.addS (xs.take n) (ys.take n) = (A.addS xs ys).take n := zipV_take _ _ _ _
theorem subS_take : A.subS (xs.take n) (ys.take n) = (A.subS xs ys).take n := zipV_take _ _ _ _
theorem mulS_take : A.mulS (xs.take n) (ys.take n) = (A.mulS xs ys).take n := zipV_take _ _ _ _
theorem divS_take : A.divS (xs.take n) (ys.take n) = (A.divS xs ys).take n := zipV_take _ _ _ _
theorem scaleS_take (c : ℚ) : A.scaleS c (xs.take n) = (A.scaleS c xs).take n := map_take _ _ _
theorem roundS_take (k : ℕ) : A.roundS k (xs.take n) = (A.roundS k xs).take n := map_take _ _ _
theorem ewm_take (s m : ℕ) : A.ewm s m (xs.take n) = (A.ewm s m xs).take n := prefixMap_take _ _ _
theorem ewmAlpha_take (a : ℚ) (m : ℕ) : A.ewmAlpha a m (xs.take n) = (A.ewmAlpha a m xs).take n := prefixMap_take _ _ _
theorem wilder_take (s p : ℕ) : A.wilder s p (xs.take n) = (A.wilder s p xs).take n := prefixMap_take _ _ _
theorem cumsum_take : A.cumsum (xs.take n) = (A.cumsum xs).take n := prefixMap_take _ _ _

theorem rollState_take (w i : ℕ) (h : i < n) : A.rollState w (xs.take n) i = A.rollState w xs i := by
  have hv : ∀ j < n, Arith.rollState.val (xs.take n) j = Arith.rollState.val xs j := by
    intro j hj
    unfold Arith.rollState.val
    rw [Ind.ParabolicSAR.getD_take _ _ _ hj]
  induction i with
  | zero => simp only [Arith.rollState, hv 0 h]
  | succ i ih => simp only [Arith.rollState, hv (i + 1) h, hv (i + 1 - w) (by omega), ih (by omega)]

theorem range_map_take {β : Type} (f g : ℕ → β) (hf : ∀ i < n, f i = g i) (m : ℕ) :
    (List.range (min n m)).map f = ((List.range m).map g).take n := by
  rw [← List.map_take, List.take_range]
  apply List.map_congr_left
  intro i hi
  rw [List.mem_range] at hi
  exact hf i (by omega)

theorem rollMean_take (w m : ℕ) : A.rollMean w m (xs.take n) = (A.rollMean w m xs).take n := by
  unfold Arith.rollMean
  rw [List.length_take]
  exact range_map_take n _ _ (fun i hi => by rw [rollState_take _ _ _ _ _ hi]) _

theorem rollSum_take (w m : ℕ) : A.rollSum w m (xs.take n) = (A.rollSum w m xs).take n := by
  unfold Arith.rollSum
  rw [List.length_take]
  exact range_map_take n _ _ (fun i hi => by rw [rollState_take _ _ _ _ _ hi]) _

theorem varState_take (w i : ℕ) (h : i < n) : A.varState w (xs.take n) i = A.varState w xs i := by
  have hv : ∀ j < n, Arith.rollState.val (xs.take n) j = Arith.rollState.val xs j := by
    intro j hj
    unfold Arith.rollState.val
    rw [Ind.ParabolicSAR.getD_take _ _ _ hj]
  induction i with
  | zero => simp only [Arith.varState, hv 0 h]
  | succ i ih => simp only [Arith.varState, hv (i + 1) h, hv (i + 1 - w) (by omega), ih (by omega)]

theorem rollStd_take (sq : ℚ → ℚ) (w m : ℕ) : A.rollStd sq w m (xs.take n) = (A.rollStd sq w m xs).take n := by
  unfold Arith.rollStd
  rw [List.length_take]
  exact range_map_take n _ _ (fun i hi => by rw [varState_take _ _ _ _ _ hi]) _

theorem volatilityHalf_take (sq : ℚ → ℚ) (p : ℕ) : volatilityHalf A sq p (xs.take n) = (volatilityHalf A sq p xs).take n := by
  simp only [volatilityHalf, volatilitySelected, shift_take, subS_take, rollStd_take, zipV_take, wilder_take, scaleS_take, addS_take,
    divS_take]
theorem volatilityRatio_take : volatilityRatio A (xs.take n) = (volatilityRatio A xs).take n := by
  simp only [volatilityRatio, shift_take, subS_take, zeroBelow_take, zeroAbove_take, rollSum_take, map_take, scaleS_take, addS_take,
    divS_take, roundS_take]
theorem variableMa_take (p : ℕ) (r : List (Val × Val)) : variableMa A p (r.take n) = (variableMa A p r).take n := by
  unfold variableMa; exact prefixMap_take _ _ _
theorem volumeIndex_take (m : Val → Val → Bool) (r : List (Val × Val)) :
    volumeIndex A m (r.take n) = (volumeIndex A m r).take n := prefixMap_take _ _ _
theorem priceVolumeTrend_take (r : List (Val × Val)) : priceVolumeTrend A (r.take n) = (priceVolumeTrend A r).take n :=
  prefixMap_take _ _ _
theorem cumulative_take (r : List (Val × Val)) : cumulative A (r.take n) = (cumulative A r).take n := prefixMap_take _ _ _
theorem differences_take (p : ℕ) (r : List (Val × Val)) : differences A p (r.take n) = (differences A p r).take n :=
  prefixMap_take _ _ _
theorem smooth14_take : smooth14 A (xs.take n) = (smooth14 A xs).take n := prefixMap_take _ _ _
theorem adxOf_take : adxOf A (xs.take n) = (adxOf A xs).take n := prefixMap_take _ _ _
theorem strengthSmooth_take (p : ℕ) : strengthSmooth A p (xs.take n) = (strengthSmooth A p xs).take n := prefixMap_take _ _ _
theorem strengthIndex_take (p : ℕ) : strengthIndex A p (xs.take n) = (strengthIndex A p xs).take n := by
  simp only [strengthIndex, shift_take, zipV_take, maskBefore_take, strengthSmooth_take, divS_take, map_take]
theorem momentumIndex_take (p m : ℕ) : momentumIndex A p m (xs.take n) = (momentumIndex A p m xs).take n := by
  simp only [momentumIndex, shift_take, subS_take, map_take, wilder_take, divS_take, scaleS_take]
theorem unitRatio_take (w : ℕ) : unitRatio A w (xs.take n) (ys.take n) = (unitRatio A w xs ys).take n := by
  simp only [unitRatio, rollSum_take, divS_take]

variable (F : Frame)

theorem moneyFlowVolume_take : moneyFlowVolume A (F.take n) = (moneyFlowVolume A F).take n := by
  simp only [moneyFlowVolume, Frame.take_col, subS_take, mulS_take, divS_take]
theorem trueRange_take (pick : Val → Val → Val) : trueRange A pick (F.take n) = (trueRange A pick F).take n := by
  simp only [trueRange, Frame.take_col, shift_take, subS_take, zip3_take]
theorem middle_take (w : ℕ) : middle A w (F.take n) = (middle A w F).take n := by
  simp only [middle, Frame.take_col, rolling_take, addS_take, map_take]

theorem sarNext_take (high low : List Val) (i : ℕ) (prev : ParabolicSAR.Row) (h : i < n) :
    sarNext A (high.take n) (low.take n) i prev = sarNext A high low i prev := by
  simp only [sarNext, sarPenetrated, sarOf, sarReversed, ParabolicSAR.reversed, ParabolicSAR.extreme, ParabolicSAR.getD_take _ _ _ h,
    ParabolicSAR.sliceMax_take _ _ _ _ h.le, ParabolicSAR.sliceMin_take _ _ _ _ h.le, ParabolicSAR.sliceMax_take _ _ _ (i + 1) h,
    ParabolicSAR.sliceMin_take _ _ _ (i + 1) h]
  rfl

theorem sarRow_take (high low : List Val) (i : ℕ) (h2 : 2 ≤ n) (h : i < n) :
    sarRow A (high.take n) (low.take n) i = sarRow A high low i := by
  induction i with
  | zero =>
    simp only [sarRow, sarFirst, ParabolicSAR.firstRow, ParabolicSAR.getD_take _ _ _ h,
      ParabolicSAR.getD_take _ _ _ (show 1 < n by omega)]
  | succ i ih => simp only [sarRow, ih (by omega), sarNext_take _ _ _ _ _ _ h]

end

/-! ## The indicators -/

set_option hygiene false in
local macro "outcome_of" m:term : tactic => `(tactic| (
  simp only [Ind.required, List.forall_mem_cons] at hcol
  unfold Outcome
  simp only [Spec.minRows, Spec.reportedRows, Spec.rowsOut, Spec.columns, take_len, reduceCtorEq, if_false]
  unfold Flt.calcTi
  by_cases h : F.len < $m
  · left; exact ⟨h, by simp only [if_pos h]⟩
  · right
    simp only [if_neg h]
    refine ⟨by omega, _, rfl, ?_⟩
    refine ⟨rfl, rfl, ?_⟩
    simp only [wf_iff, List.forall_mem_cons]
    simp [hcol, hl, moneyFlowVolume, trueRange, DirectionalMovementIndex.dm, Frame.sub_col] <;> omega))

set_option hygiene false in
local macro "outcome_free" : tactic => `(tactic| (
  simp only [Ind.required, List.forall_mem_cons] at hcol
  unfold Outcome
  simp only [Spec.minRows, Spec.reportedRows, Spec.rowsOut, Spec.columns, take_len]
  unfold Flt.calcTi
  right
  refine ⟨by omega, _, rfl, ?_⟩
  refine ⟨rfl, rfl, ?_⟩
  simp only [wf_iff, List.forall_mem_cons]
  simp [hcol, hl, moneyFlowVolume, trueRange, middle]))

theorem calcTi_outcome (A : Arith) (E : Env) (ind : Ind) (F : Frame) (hw : F.WF) (hh : F.Has ind.required) (hne : 0 < F.len) :
    Outcome ind F (Flt.calcTi A E F ind) := by
  have hcol : ∀ n ∈ ind.required, (F.col n).length = F.len := fun n hn => F.col_length hw n (hh n hn)
  have hl : F.idx.length = F.len := rfl
  cases ind
  case doubleExponentialMovingAverage p => outcome_of (p)
  case tripleExponentialMovingAverage p => outcome_of (p)
  case movingAverageConvergenceDivergence => outcome_of (26)
  case wildersSmoothing p => outcome_of (p)
  case priceChannel p => outcome_of (p)
  case momentum p => outcome_of (p)
  case priceRateOfChange p => outcome_of (p)
  case volumeRateOfChange p => outcome_of (p)
  case williamsR p => outcome_of (p)
  case envelopes p s => outcome_of (p)
  case volumeOscillator l s => outcome_of (l)
  case qstick p => outcome_of (p)
  case priceOscillator l s => outcome_of (l)
  case linearRegressionSlope p => outcome_of (p)
  case chandeMomentumOscillator p => outcome_of (p)
  case intradayMomentumIndex p => outcome_of (p)
  case rangeIndicator p s => outcome_of (max p s)
  case relativeMomentumIndex p m => outcome_of (p + m)
  case relativeStrengthIndex p => outcome_of (p + 1)
  case stochasticMomentumIndex p s d => outcome_of (p)
  case ultimateOscillator => outcome_of (28)
  case verticalHorizontalFilter p => outcome_of (p)
  case volatilityChaikins e c => outcome_of (max e c)
  case chaikinOscillator => outcome_of (10)
  case chaikinMoneyFlow p => outcome_of (p)
  case easeOfMovement p => outcome_of (max p 2)
  case negativeVolumeIndex => outcome_of (2)
  case positiveVolumeIndex => outcome_of (2)
  case priceAndVolumeTrend => outcome_of (2)
  case klingerOscillator => outcome_of (55)
  case averageTrueRange => outcome_of (14)
  case commodityChannelIndex p => outcome_of (p)
  case directionalMovementIndex => outcome_of (28)
  case massIndex => outcome_of (25)
  case parabolicSAR => outcome_of (2)
  case standardDeviation p => outcome_of (p)
  case bollingerBands p s => outcome_of (p)
  case relativeVolatilityIndex p => outcome_of (p + 10)
  case medianPrice p => outcome_free
  case typicalPrice p => outcome_free
  case weightedClose => outcome_free
  case ichimokuCloud => outcome_free
  case marketFacilitationIndex => outcome_free
  case swingIndex => outcome_free
  case accumulationDistributionLine => outcome_free
  case onBalanceVolume => outcome_free
  case williamsAccumulationDistribution => outcome_free
  case fibonacciRetracement =>
    outcome_free
    rintro a b x y - - rfl
    simp
  case detrendedPriceOscillator p =>
    simp only [Ind.required, List.forall_mem_cons] at hcol
    unfold Outcome
    simp only [Spec.minRows, Spec.reportedRows, Spec.rowsOut, Spec.columns]
    unfold Flt.calcTi
    by_cases h : F.len < p
    · left; exact ⟨h, by simp only [if_pos h]⟩
    · right
      simp only [if_neg h]
      refine ⟨by omega, _, rfl, ?_⟩
      refine ⟨rfl, rfl, ?_⟩
      simp only [wf_iff, List.forall_mem_cons]
      simp [hcol, hl]
  case performance long target =>
    simp only [Ind.required, List.forall_mem_cons] at hcol
    unfold Outcome
    simp only [Spec.minRows, Spec.reportedRows, Spec.rowsOut, take_len]
    unfold Flt.calcTi
    right
    refine ⟨hne, ?_⟩
    have hc := hcol.1
    cases hd : F.col "close" with
    | nil => rw [hd] at hc; simp at hc; omega
    | cons c0 cs =>
      rw [hd] at hc
      refine ⟨_, rfl, ?_⟩
      refine ⟨rfl, by cases long <;> rfl, ?_⟩
      simp only [wf_iff, List.forall_mem_cons]
      simpa [hl] using hc
  case movingAverage p t =>
    cases t
    case variableType =>
      simp only [Ind.required, List.forall_mem_cons] at hcol
      unfold Outcome
      simp only [Spec.minRows, Spec.reportedRows, Spec.rowsOut, Spec.columns, take_len, if_true]
      unfold Flt.calcTi
      by_cases h : F.len < 22
      · left; exact ⟨h, by simp only [if_pos h]⟩
      · right
        simp only [if_neg h]
        refine ⟨by omega, _, rfl, rfl, rfl, ?_⟩
        simp only [wf_iff, List.forall_mem_cons]
        simp [hcol, hl, Frame.sub_col]
    case timeSeries => exact TTI.calcTi_outcome E _ F hw hh hne
    all_goals outcome_of (p)
  case stochasticOscillator k s d m =>
    cases m
    · exact TTI.calcTi_outcome E _ F hw hh hne
    · outcome_of (k)
  all_goals exact TTI.calcTi_outcome E _ F hw hh hne

set_option hygiene false in
local macro "causal_flt" : tactic => `(tactic| (
  unfold Flt.calcTi at h ⊢
  simp only [Spec.minRows] at h hn ⊢
  (try rw [if_neg (by omega)] at h)
  (try rw [if_neg (by rw [Frame.take_len]; omega)])
  simp only [Except.ok.injEq] at h ⊢
  subst h
  simp only [frame_take, List.map_cons, List.map_nil, Frame.take_idx]
  simp only [Frame.take_col, Frame.take_len, rolling_take, zipWith_take, zip_take, zipV_take, zip3_take, map_take,
    zeroBelow_take, zeroAbove_take, shift_take, maskBefore_take, rowNumbers_take, replicate_take, Frame.rows_take,
    DirectionalMovementIndex.dm_take, addS_take, subS_take, mulS_take, divS_take, scaleS_take, roundS_take, ewm_take,
    ewmAlpha_take, wilder_take, cumsum_take, rollMean_take, rollSum_take, volumeIndex_take, priceVolumeTrend_take, cumulative_take,
    differences_take, smooth14_take, adxOf_take, strengthIndex_take, momentumIndex_take, unitRatio_take, moneyFlowVolume_take,
    trueRange_take, middle_take, rollStd_take, volatilityHalf_take, volatilityRatio_take, variableMa_take]))

theorem calcTi_take (A : Arith) (E : Env) (ind : Ind) (F T : Frame) (n : ℕ) (hc : Spec.Causal ind) (hs : Spec.Nested ind → F.Complete)
    (hn : Spec.minRows ind ≤ n) (hN : n ≤ F.len) (h : Flt.calcTi A E F ind = .ok T) :
    Flt.calcTi A E (F.take n) ind = .ok (T.take n) := by
  cases ind
  case doubleExponentialMovingAverage p => causal_flt
  case tripleExponentialMovingAverage p => causal_flt
  case movingAverageConvergenceDivergence => causal_flt
  case wildersSmoothing p => causal_flt
  case priceChannel p => causal_flt
  case momentum p => causal_flt
  case priceRateOfChange p => causal_flt
  case volumeRateOfChange p => causal_flt
  case williamsR p => causal_flt
  case envelopes p s => causal_flt
  case volumeOscillator l s => causal_flt
  case qstick p => causal_flt
  case priceOscillator l s => causal_flt
  case linearRegressionSlope p => causal_flt
  case chandeMomentumOscillator p => causal_flt
  case intradayMomentumIndex p => causal_flt
  case rangeIndicator p s => causal_flt
  case relativeMomentumIndex p m => causal_flt
  case relativeStrengthIndex p => causal_flt
  case stochasticMomentumIndex p s d => causal_flt
  case ultimateOscillator => causal_flt
  case verticalHorizontalFilter p => causal_flt
  case volatilityChaikins e c => causal_flt
  case chaikinMoneyFlow p => causal_flt
  case easeOfMovement p => causal_flt
  case negativeVolumeIndex => causal_flt
  case positiveVolumeIndex => causal_flt
  case priceAndVolumeTrend => causal_flt
  case klingerOscillator => causal_flt
  case commodityChannelIndex p => causal_flt
  case directionalMovementIndex => causal_flt
  case massIndex => causal_flt
  case standardDeviation p => causal_flt
  case bollingerBands p s => causal_flt
  case relativeVolatilityIndex p => causal_flt
  case medianPrice p => causal_flt
  case typicalPrice p => causal_flt
  case weightedClose => causal_flt
  case ichimokuCloud => causal_flt
  case marketFacilitationIndex => causal_flt
  case swingIndex => causal_flt
  case onBalanceVolume => causal_flt
  case williamsAccumulationDistribution => causal_flt
  case detrendedPriceOscillator => exact hc.elim
  case fibonacciRetracement => exact hc.elim
  case accumulationDistributionLine => exact hc.elim
  case chaikinOscillator => exact hc.elim
  case averageTrueRange =>
    unfold Flt.calcTi at h ⊢
    simp only [Spec.minRows] at h hn ⊢
    rw [if_neg (by omega)] at h
    rw [if_neg (by rw [Frame.take_len]; omega)]
    simp only [Except.ok.injEq] at h ⊢
    subst h
    obtain ⟨k, rfl⟩ := Nat.exists_eq_add_of_le hn
    have h1 : ∀ tr : List Val, A.mean ((tr.take (14 + k)).take 14) :: (tr.take (14 + k)).drop 14 =
        (A.mean (tr.take 14) :: tr.drop 14).take (k + 1) := by
      intro tr
      rw [List.take_take, Nat.min_eq_left (by omega), List.drop_take, List.take_succ_cons]
      congr 2; omega
    simp only [frame_take, List.map_cons, List.map_nil, Frame.take_idx, trueRange_take, h1, ewmAlpha_take, roundS_take]
    congr 3
    rw [List.take_append, List.length_replicate, List.take_of_length_le (l := List.replicate 13 Val.nan) (by simp; omega),
      show 14 + k - 13 = k + 1 by omega]
  case parabolicSAR =>
    unfold Flt.calcTi at h ⊢
    simp only [Spec.minRows] at h hn ⊢
    rw [if_neg (by omega)] at h
    rw [if_neg (by rw [Frame.take_len]; omega)]
    simp only [Except.ok.injEq] at h ⊢
    subst h
    simp only [frame_take, List.map_cons, List.map_nil, Frame.take_idx, Frame.take_len, Frame.take_col]
    congr 3
    exact range_map_take n _ _ (fun i hi => by rw [sarRow_take _ _ _ _ _ hn hi]) _
  case performance l t =>
    unfold Flt.calcTi at h ⊢
    simp only [Spec.minRows] at h hn ⊢
    rw [Frame.take_col]
    cases hcl : F.col "close" with
    | nil => rw [hcl] at h; simp at h
    | cons c0 rest =>
      rw [hcl] at h
      simp only [List.head?_cons, Except.ok.injEq] at h
      subst h
      obtain ⟨k, rfl⟩ := Nat.exists_eq_add_of_le hn
      simp only [Nat.add_comm 1 k, List.take_succ_cons, List.head?_cons, frame_take, List.map_cons,
        List.map_nil, Frame.take_idx, Frame.take_len, replicate_take, Arith.roundS, List.map_take]
  case movingAverage p t =>
    cases t
    case variableType =>
      have hC := hs trivial
      unfold Flt.calcTi at h ⊢
      simp only [Spec.minRows, if_true] at h hn ⊢
      rw [if_neg (by omega)] at h
      rw [if_neg (by rw [Frame.take_len]; omega)]
      simp only [Except.ok.injEq] at h ⊢
      subst h
      simp only [frame_take, List.map_cons, List.map_nil, Frame.take_idx]
      simp only [Frame.sub_take _ _ hC, Frame.take_col, zip_take, roundS_take, volatilityRatio_take, variableMa_take]
    case timeSeries => exact TTI.calcTi_take E _ F T n hc hs hn hN h
    all_goals
      simp only [Spec.minRows, reduceCtorEq, if_false] at hn
      causal_flt
  case stochasticOscillator k s d m =>
    cases m
    · exact TTI.calcTi_take E _ F T n hc hs hn hN h
    · causal_flt
  all_goals exact TTI.calcTi_take E _ F T n hc hs hn hN h

theorem inputAfter_take (A : Arith) (ind : Ind) (F : Frame) (n : ℕ) :
    Flt.inputAfter A ind (F.take n) = (Flt.inputAfter A ind F).take n := by
  cases ind <;> try rfl
  all_goals
    simp only [Flt.inputAfter, Frame.take_col, ewm_take]
    simp [Frame.take]

@[simp] theorem inputAfter_idx (A : Arith) (F : Frame) (ind : Ind) : (Flt.inputAfter A ind F).idx = F.idx := by cases ind <;> rfl

@[simp] theorem inputAfter_len (A : Arith) (F : Frame) (ind : Ind) : (Flt.inputAfter A ind F).len = F.len := by cases ind <;> rfl

theorem inputAfter_wf (A : Arith) (F : Frame) (ind : Ind) (hw : F.WF) (hh : F.Has ind.required) : (Flt.inputAfter A ind F).WF := by
  have hcol : ∀ n ∈ ind.required, (F.col n).length = F.len := fun n hn => F.col_length hw n (hh n hn)
  cases ind <;> try exact hw
  all_goals
    intro c hc
    simp only [Flt.inputAfter, List.mem_append, List.mem_singleton] at hc
    rcases hc with hc | rfl
    · exact hw c hc
    · simp only [Flt.inputAfter, ewm_len]
      exact hcol _ (by simp [Ind.required])

theorem inputAfter_has (A : Arith) (F : Frame) (ind : Ind) (hh : F.Has ind.required) :
    (Flt.inputAfter A ind F).Has (inputColumns ind) := by
  cases ind <;> try exact hh
  all_goals
    intro n hn
    simp only [inputColumns, List.mem_cons, List.not_mem_nil, or_false] at hn
    simp only [Flt.inputAfter, List.map_append, List.mem_append]
    rcases hn with rfl | rfl | rfl | rfl
    · exact Or.inl (hh _ (by simp [Ind.required]))
    · exact Or.inl (hh _ (by simp [Ind.required]))
    · exact Or.inl (hh _ (by simp [Ind.required]))
    · exact Or.inr (by simp)

end Flt

end TTI
