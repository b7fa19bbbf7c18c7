import Verif.Lemmas.Loops3
import Verif.Lemmas.Built

set_option autoImplicit false

/-! Whole calculations with the loops of the code. -/

namespace TTI.Ind.Loops

/-- The calculations that start Wilder's average have a period of at least one row. -/
def Started : Ind → Prop
  | .wildersSmoothing p => 1 ≤ p
  | .relativeMomentumIndex p _ => 1 ≤ p
  | .relativeVolatilityIndex p => 1 ≤ p
  | _ => True

theorem intAbove_pos (a : PyArg) (p : ℕ) (h : intAbove 0 a = .ok p) : 1 ≤ p := by
  unfold intAbove at h
  split at h
  · split at h
    · simp only [Except.ok.injEq] at h
      omega
    · simp at h
  · simp at h

theorem check_started (c : Call) (ind : Ind) (h : c.check = .ok ind) : Started ind := by
  cases ind <;> try trivial
  case wildersSmoothing p =>
    cases c <;> simp only [Call.check, bind, Except.bind, pure, Except.pure] at h <;> repeat' split at h
    all_goals first | (simp at h; done) | (cases h; exact intAbove_pos _ _ (by assumption))
  case relativeMomentumIndex p m =>
    cases c <;> simp only [Call.check, bind, Except.bind, pure, Except.pure] at h <;> repeat' split at h
    all_goals first | (simp at h; done) | (cases h; exact intAbove_pos _ _ (by assumption))
  case relativeVolatilityIndex p =>
    cases c <;> simp only [Call.check, bind, Except.bind, pure, Except.pure] at h <;> repeat' split at h
    all_goals first | (simp at h; done) | (cases h; exact intAbove_pos _ _ (by assumption))

theorem rviHalf_eq (sq : ℚ → ℚ) (idx : List ℤ) (hnd : idx.Nodup) (period : ℕ) (hp : 1 ≤ period) (hn : period + 10 ≤ idx.length)
    (price : List Val) (h : price.length = idx.length) :
    rviHalf sq idx period price = RelativeVolatilityIndex.half sq period price := by
  unfold rviHalf RelativeVolatilityIndex.half
  have hl : ∀ sel, (RelativeVolatilityIndex.selected sq sel price).length = idx.length := fun sel => by
    simp [RelativeVolatilityIndex.selected, h]
  simp only [selected_eq idx hnd sq _ price h]
  rw [wilder_eq idx hnd 9 period hp (by omega) _ (hl _), wilder_eq idx hnd 9 period hp (by omega) _ (hl _)]

section classes

variable (E : Env) (F : Frame) (hw : F.WF) (hnd : F.idx.Nodup)
include hw hnd

theorem negativeVolumeIndex_same (hne : 0 < F.len) (hh : F.Has ["close", "volume"]) : calcTi E F .negativeVolumeIndex = Ind.calcTi E F .negativeVolumeIndex := by
  have hcol : ∀ n ∈ ["close", "volume"], (F.col n).length = F.idx.length := fun n hn => F.col_length hw n (hh n hn)
  have hlen : F.len = F.idx.length := rfl
  simp only [calcTi, Ind.calcTi, NegativeVolumeIndex.calcTi]
  rw [volumeIndex_eq F.idx hnd hne _ _ _ (hcol _ (by simp)) (hcol _ (by simp))]

theorem positiveVolumeIndex_same (hne : 0 < F.len) (hh : F.Has ["close", "volume"]) : calcTi E F .positiveVolumeIndex = Ind.calcTi E F .positiveVolumeIndex := by
  have hcol : ∀ n ∈ ["close", "volume"], (F.col n).length = F.idx.length := fun n hn => F.col_length hw n (hh n hn)
  have hlen : F.len = F.idx.length := rfl
  simp only [calcTi, Ind.calcTi, PositiveVolumeIndex.calcTi]
  rw [volumeIndex_eq F.idx hnd hne _ _ _ (hcol _ (by simp)) (hcol _ (by simp))]

theorem priceAndVolumeTrend_same (hne : 0 < F.len) (hh : F.Has ["close", "volume"]) : calcTi E F .priceAndVolumeTrend = Ind.calcTi E F .priceAndVolumeTrend := by
  have hcol : ∀ n ∈ ["close", "volume"], (F.col n).length = F.idx.length := fun n hn => F.col_length hw n (hh n hn)
  have hlen : F.len = F.idx.length := rfl
  simp only [calcTi, Ind.calcTi, PriceAndVolumeTrend.calcTi]
  rw [trend_eq F.idx hnd hne _ _ (hcol _ (by simp)) (hcol _ (by simp))]

theorem wildersSmoothing_same (p : ℕ) (hs : 1 ≤ p) (hh : F.Has ["close"]) : calcTi E F (.wildersSmoothing p) = Ind.calcTi E F (.wildersSmoothing p) := by
  have hcol : ∀ n ∈ ["close"], (F.col n).length = F.idx.length := fun n hn => F.col_length hw n (hh n hn)
  have hlen : F.len = F.idx.length := rfl
  simp only [calcTi, Ind.calcTi, WildersSmoothing.calcTi]
  split
  · rfl
  · rw [wilder_eq F.idx hnd 0 p hs (by omega) _ (hcol _ (by simp))]

theorem movingAverage_same (p : ℕ) (hh : F.Has ["close"]) : calcTi E F (.movingAverage p .variableType) = Ind.calcTi E F (.movingAverage p .variableType) := by
  have hcol : ∀ n ∈ ["close"], (F.col n).length = F.idx.length := fun n hn => F.col_length hw n (hh n hn)
  have hlen : F.len = F.idx.length := rfl
  simp only [calcTi, Ind.calcTi, MovingAverage.calcTi, bind, Except.bind, pure, Except.pure]
  by_cases h22 : F.len < 22
  · simp [h22, throw, throwThe, MonadExceptOf.throw]
  · simp only [h22, if_false, false_and, ne_eq, not_true_eq_false, and_false]
    obtain ⟨l, h1, h2⟩ := ChandeMomentumOscillator.calcTi_ok 9 (F.sub ["close"]) (by simp; omega)
    rw [Frame.sub_col F _ _ (by simp)] at h2
    simp only [h1, Frame.col_single]
    rw [variableMa_eq F.idx hnd p _ _ (hcol _ (by simp)) (by simp [h2, hcol]) (by omega)]
    rfl

theorem relativeStrengthIndex_same (p : ℕ) (hh : F.Has ["close"]) : calcTi E F (.relativeStrengthIndex p) = Ind.calcTi E F (.relativeStrengthIndex p) := by
  have hcol : ∀ n ∈ ["close"], (F.col n).length = F.idx.length := fun n hn => F.col_length hw n (hh n hn)
  have hlen : F.len = F.idx.length := rfl
  have hc := hcol "close" (by simp)
  simp only [calcTi, Ind.calcTi, RelativeStrengthIndex.calcTi, RelativeStrengthIndex.raw]
  split
  · rfl
  · have : ∀ f, changes f F.len (F.col "close") = maskBefore 1 (zipV f (F.col "close") (shift 1 (F.col "close"))) := fun f => by
      rw [hlen, ← hc]; exact changes_eq f _
    rw [this, this, smoothRsi_eq F.idx hnd p _ (by simp [hc]) (by omega), smoothRsi_eq F.idx hnd p _ (by simp [hc]) (by omega)]

theorem relativeMomentumIndex_same (p m : ℕ) (hs : 1 ≤ p) (hh : F.Has ["close"]) : calcTi E F (.relativeMomentumIndex p m) = Ind.calcTi E F (.relativeMomentumIndex p m) := by
  have hcol : ∀ n ∈ ["close"], (F.col n).length = F.idx.length := fun n hn => F.col_length hw n (hh n hn)
  have hlen : F.len = F.idx.length := rfl
  have hc := hcol "close" (by simp)
  simp only [calcTi, Ind.calcTi, RelativeMomentumIndex.calcTi, RelativeMomentumIndex.raw]
  split
  · rfl
  · rw [upc_eq F.idx hnd _ (by simp [hc]), dpc_eq F.idx hnd _ (by simp [hc]),
      wilder_eq F.idx hnd m p hs (by omega) _ (by simp [hc]), wilder_eq F.idx hnd m p hs (by omega) _ (by simp [hc])]

theorem relativeVolatilityIndex_same (p : ℕ) (hs : 1 ≤ p) (hh : F.Has ["high", "low"]) : calcTi E F (.relativeVolatilityIndex p) = Ind.calcTi E F (.relativeVolatilityIndex p) := by
  have hcol : ∀ n ∈ ["high", "low"], (F.col n).length = F.idx.length := fun n hn => F.col_length hw n (hh n hn)
  have hlen : F.len = F.idx.length := rfl
  simp only [calcTi, Ind.calcTi, RelativeVolatilityIndex.calcTi]
  split
  · rfl
  · rw [rviHalf_eq E.sq F.idx hnd p hs (by omega) _ (hcol _ (by simp)),
      rviHalf_eq E.sq F.idx hnd p hs (by omega) _ (hcol _ (by simp))]

theorem directionalMovementIndex_same (hh : F.Has ["high", "low", "close"]) : calcTi E F .directionalMovementIndex = Ind.calcTi E F .directionalMovementIndex := by
  have hcol : ∀ n ∈ ["high", "low", "close"], (F.col n).length = F.idx.length := fun n hn => F.col_length hw n (hh n hn)
  have hlen : F.len = F.idx.length := rfl
  have hc := hcol "close" (by simp)
  have hi := hcol "high" (by simp)
  have lo := hcol "low" (by simp)
  simp only [calcTi, Ind.calcTi, DirectionalMovementIndex.calcTi]
  split
  · rfl
  · have hr : (maskBefore 1 (trueRange maxNan F)).length = F.idx.length := by simp [trueRange, hc, hi, lo]
    have hd : ∀ f, (DirectionalMovementIndex.dm f F).length = F.idx.length := fun f => by
      simp [DirectionalMovementIndex.dm, hi, lo]
    rw [dmiRange_eq F hi lo hc, dm_eq _ F hi lo, dm_eq _ F hi lo, smooth14_eq F.idx hnd _ hr (by omega),
      smooth14_eq F.idx hnd _ (hd _) (by omega), smooth14_eq F.idx hnd _ (hd _) (by omega),
      di_eq F.idx hnd _ _ (by simp [hd]) (by simp [hr]), di_eq F.idx hnd _ _ (by simp [hd]) (by simp [hr])]
    set dx := divS (scaleS 100 ((subS (maskBefore 14 (divS (scaleS 100 (DirectionalMovementIndex.smooth14
      (DirectionalMovementIndex.dm DirectionalMovementIndex.plusDm F))) (DirectionalMovementIndex.smooth14 (maskBefore 1 (trueRange maxNan F)))))
      (maskBefore 14 (divS (scaleS 100 (DirectionalMovementIndex.smooth14
      (DirectionalMovementIndex.dm DirectionalMovementIndex.minusDm F))) (DirectionalMovementIndex.smooth14 (maskBefore 1 (trueRange maxNan F)))))).map Val.abs))
      ((addS (maskBefore 14 (divS (scaleS 100 (DirectionalMovementIndex.smooth14
      (DirectionalMovementIndex.dm DirectionalMovementIndex.plusDm F))) (DirectionalMovementIndex.smooth14 (maskBefore 1 (trueRange maxNan F)))))
      (maskBefore 14 (divS (scaleS 100 (DirectionalMovementIndex.smooth14
      (DirectionalMovementIndex.dm DirectionalMovementIndex.minusDm F))) (DirectionalMovementIndex.smooth14 (maskBefore 1 (trueRange maxNan F)))))).map Val.abs) with hdx
    have hdl : dx.length = F.idx.length := by simp [hdx, hd, hr]
    rw [adx_eq F.idx hnd dx hdl (by omega)]
    have : adxr F.len (DirectionalMovementIndex.adxOf dx) =
        maskBefore 40 ((addS (DirectionalMovementIndex.adxOf dx) (shift 13 (DirectionalMovementIndex.adxOf dx))).map fun x => Val.div x 2) := by
      rw [← adxr_eq]
      simp [hdl, hlen]
    rw [this]

theorem rangeIndicator_same (r s : ℕ) (hh : F.Has ["high", "low", "close"]) : calcTi E F (.rangeIndicator r s) = Ind.calcTi E F (.rangeIndicator r s) := by
  have hcol : ∀ n ∈ ["high", "low", "close"], (F.col n).length = F.idx.length := fun n hn => F.col_length hw n (hh n hn)
  have hlen : F.len = F.idx.length := rfl
  have hc := hcol "close" (by simp)
  have hi := hcol "high" (by simp)
  have lo := hcol "low" (by simp)
  simp only [calcTi, Ind.calcTi, RangeIndicator.calcTi]
  split
  · rfl
  · have hr : (trueRange maxNan F).length = F.idx.length := by simp [trueRange, hc, hi, lo]
    rw [seeText_eq F.idx hnd _ _ hr hc, scaled_eq F.idx hnd _ _ _ (by simp [hr, hc]) (by simp [hr, hc]) (by simp [hr, hc])]

theorem onBalanceVolume_same (hh : F.Has ["close", "volume"]) : calcTi E F .onBalanceVolume = Ind.calcTi E F .onBalanceVolume := by
  have hcol : ∀ n ∈ ["close", "volume"], (F.col n).length = F.idx.length := fun n hn => F.col_length hw n (hh n hn)
  have hlen : F.len = F.idx.length := rfl
  simp only [calcTi, Ind.calcTi, OnBalanceVolume.calcTi]
  rw [signedVolume_eq F.idx hnd _ _ (hcol _ (by simp)) (hcol _ (by simp))]

theorem williamsAccumulationDistribution_same (hh : F.Has ["high", "low", "close"]) : calcTi E F .williamsAccumulationDistribution = Ind.calcTi E F .williamsAccumulationDistribution := by
  have hcol : ∀ n ∈ ["high", "low", "close"], (F.col n).length = F.idx.length := fun n hn => F.col_length hw n (hh n hn)
  have hlen : F.len = F.idx.length := rfl
  simp only [calcTi, Ind.calcTi, WilliamsAccumulationDistribution.calcTi]
  rw [wad_eq F.idx hnd _ _ _ (hcol _ (by simp)) (hcol _ (by simp)) (hcol _ (by simp))]

end classes

theorem calcTi_eq (E : Env) (F : Frame) (ind : Ind) (hw : F.WF) (hh : F.Has ind.required) (hnd : F.idx.Nodup)
    (hs : Started ind) (hne : 0 < F.len) : calcTi E F ind = ind.calcTi E F := by
  cases ind
  case negativeVolumeIndex => exact negativeVolumeIndex_same E F hw hnd hne hh
  case positiveVolumeIndex => exact positiveVolumeIndex_same E F hw hnd hne hh
  case priceAndVolumeTrend => exact priceAndVolumeTrend_same E F hw hnd hne hh
  case wildersSmoothing p => exact wildersSmoothing_same E F hw hnd p hs hh
  case relativeStrengthIndex p => exact relativeStrengthIndex_same E F hw hnd p hh
  case relativeMomentumIndex p m => exact relativeMomentumIndex_same E F hw hnd p m hs hh
  case relativeVolatilityIndex p => exact relativeVolatilityIndex_same E F hw hnd p hs hh
  case directionalMovementIndex => exact directionalMovementIndex_same E F hw hnd hh
  case rangeIndicator r s => exact rangeIndicator_same E F hw hnd r s (fun n hn => hh n (by simp [Ind.required] at hn ⊢; tauto))
  case onBalanceVolume => exact onBalanceVolume_same E F hw hnd hh
  case williamsAccumulationDistribution => exact williamsAccumulationDistribution_same E F hw hnd hh
  case movingAverage p t =>
    cases t
    case variableType => exact movingAverage_same E F hw hnd p hh
    all_goals rfl
  all_goals rfl

end TTI.Ind.Loops
