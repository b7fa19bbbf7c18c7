import Verif.Lemmas.RaiseInd
import Verif.Lemmas.Params
import Verif.Lemmas.Shape

set_option autoImplicit false

/-!
# The classes on raised prices
-/

namespace TTI

open Spec

theorem plus_eq_rs (k : ℚ) : plus k = rs k := funext fun v => add_eq_rs k v

theorem plusAll_eq (k : ℚ) (T : Frame) : plusAll k T = ⟨T.idx, T.cols.map fun c => (c.1, rsl k c.2)⟩ := by
  unfold plusAll rsl; rw [plus_eq_rs]

theorem plusAll_col (k : ℚ) (T : Frame) (n : String) : (plusAll k T).col n = rsl k (T.col n) := by
  rw [plusAll_eq]
  unfold Frame.col
  simp only [List.find?_map, Function.comp_def]
  cases h : T.cols.find? fun c => c.1 == n with
  | none => rfl
  | some c => simp only [Option.map_some, Option.getD_some]

theorem plusAll_len (k : ℚ) (T : Frame) : (plusAll k T).len = T.len := rfl
theorem plusAll_idx (k : ℚ) (T : Frame) : (plusAll k T).idx = T.idx := rfl

section
variable (k : ℚ)

theorem no_volume (required : List String) (hr : "volume" ∉ required) (F : Frame) (hn : ∀ col ∈ F.cols, col.1 ∈ required) :
    ∀ c ∈ F.cols, c.1 ≠ "volume" := fun c hc he => hr (he ▸ hn c hc)

/-! ## Classes with complete data -/

theorem ignores_cci (p : ℕ) (F : Frame) (hn : ∀ col ∈ F.cols, col.1 ∈ ["high", "low", "close"])
    (hw : F.Numbers) (hwf : F.WF) (hc : F.cols.length = 3) :
    Ind.CommodityChannelIndex.calcTi p (F.raise k) = Ind.CommodityChannelIndex.calcTi p F := by
  have hr : (F.raise k).rows = F.rows.map (rsl k) := raise_rows k F (no_volume _ (by decide) F hn)
  have ht : ((F.rows.map (rsl k)).map fun r => Val.div (sumSkip r) 3) = rsl k (F.rows.map fun r => Val.div (sumSkip r) 3) := by
    unfold rsl
    rw [List.map_map, List.map_map]
    apply List.map_congr_left
    intro r hr
    simp only [Function.comp]
    obtain ⟨i, hi, rfl⟩ := List.mem_map.1 hr
    have hl : (F.cols.map fun c => c.2.getD i .nan).length = 3 := by rw [List.length_map, hc]
    have := sumSkip_rsl k (F.cols.map fun c => c.2.getD i .nan) (by
      intro x hx
      obtain ⟨c, hc, rfl⟩ := List.mem_map.1 hx
      have hlen := hwf c hc
      have hi' : i < c.2.length := by rw [hlen]; exact List.mem_range.1 hi
      rw [List.getD_eq_getElem _ _ hi']
      obtain ⟨q, hq⟩ := hw c hc _ (List.getElem_mem hi')
      rw [hq]; simp)
    unfold rsl at this
    rw [this, hl]
    have h3 := rs_div 3 (3 * k) (by norm_num) (sumSkip (F.cols.map fun c => c.2.getD i .nan))
    rw [show (3 : ℚ) * k / 3 = k by ring] at h3
    exact_mod_cast h3
  simp only [Ind.CommodityChannelIndex.calcTi, hr, ht, rolling_rsl k _ _ _ _ (up_mean k), Ind.differences_rsl, subS_rsl_same,
    raise_len, raise_idx]

theorem ignores_klinger (F : Frame) (hw : F.Numbers) :
    Ind.KlingerOscillator.calcTi (F.raise k) = Ind.KlingerOscillator.calcTi F := by
  have hz : ∀ xs ys zs : List Val, (∀ v ∈ xs, ∃ q, v = .fin q) → (∀ v ∈ ys, ∃ q, v = .fin q) → (∀ v ∈ zs, ∃ q, v = .fin q) →
      zip3 (fun x y z => sumSkip [x, y, z]) (rsl k xs) (rsl k ys) (rsl k zs) =
        rsl (3 * k) (zip3 (fun x y z => sumSkip [x, y, z]) xs ys zs) := by
    intro xs ys zs hx hy hz
    unfold zip3
    rw [zip_rsl]
    unfold rsl
    rw [List.zipWith_map, List.map_zipWith]
    apply List.ext_getElem
    · simp
    intro i h1 h2
    simp only [List.getElem_zipWith, List.getElem_zip]
    obtain ⟨a, ha⟩ := hx _ (List.getElem_mem (by simp at h1; omega) : xs[i]'(by simp at h1; omega) ∈ xs)
    obtain ⟨b, hb⟩ := hy _ (List.getElem_mem (by simp at h1; omega) : ys[i]'(by simp at h1; omega) ∈ ys)
    obtain ⟨c, hc⟩ := hz _ (List.getElem_mem (by simp at h1; omega) : zs[i]'(by simp at h1; omega) ∈ zs)
    rw [ha, hb, hc]
    have := sumSkip_rsl k [.fin a, .fin b, .fin c] (by simp)
    simpa [rsl] using this
  simp only [Ind.KlingerOscillator.calcTi, raise_col, raise_len, raise_idx, part, String.reduceEq, if_false, if_true, rsl_zero,
    hz _ _ _ (hw.col "high") (hw.col "low") (hw.col "close"), shift_rsl, subS_rsl_same]

theorem bands_raise (hk : Coarse k) (p : ℕ) (hp : 1 ≤ p) (F : Frame) (hw : F.Numbers) :
    Ind.ProjectionBands.calcTi p (F.raise k) = (Ind.ProjectionBands.calcTi p F).map (plusAll k) := by
  unfold Ind.ProjectionBands.calcTi
  simp only [raise_col, raise_len, raise_idx, part, String.reduceEq, if_false]
  rw [fillna_numbers _ (rsl_numbers k _ (hw.col "high")), fillna_numbers _ (rsl_numbers k _ (hw.col "low")),
    fillna_numbers _ (hw.col "high"), fillna_numbers _ (hw.col "low"), slopes_rsl k p hp, slopes_rsl k p hp,
    band_rsl k _ (rs_pmax k), band_rsl k _ (rs_pmin k), roundS_rsl k hk, roundS_rsl k hk]
  split_ifs
  · rfl
  · simp only [Except.map, plusAll_eq, List.map_cons, List.map_nil]

theorem ignores_posc (hk : Coarse k) (p : ℕ) (hp : 1 ≤ p) (F : Frame) (hw : F.Numbers) :
    Ind.ProjectionOscillator.calcTi p (F.raise k) = Ind.ProjectionOscillator.calcTi p F := by
  unfold Ind.ProjectionOscillator.calcTi
  rw [raise_sub, F.sub_complete hw.complete, bands_raise k hk p hp _ (hw.restrict _)]
  simp only [raise_col, raise_len, raise_idx, part, String.reduceEq, if_false]
  cases Ind.ProjectionBands.calcTi p (F.restrict ["high", "low", "close"]) with
  | error e => rfl
  | ok T =>
    show (if F.len < p then _ else _) = (if F.len < p then _ else _)
    split_ifs
    · rfl
    · show Except.ok _ = Except.ok _
      simp only [plusAll_col, subS_rsl_same]

/-! ## Regression -/

theorem lri_raise (hk : Coarse k) (p : ℕ) (hp : 1 ≤ p) (F : Frame) (hw : F.Numbers) :
    Ind.LinearRegressionIndicator.calcTi p (F.raise k) = (Ind.LinearRegressionIndicator.calcTi p F).map (plusAll k) := by
  unfold Ind.LinearRegressionIndicator.calcTi
  simp only [raise_col, raise_len, raise_idx, part, String.reduceEq, if_false]
  rw [fillna_numbers _ (rsl_numbers k _ (hw.col "close")), fillna_numbers _ (hw.col "close"), lri_rsl k hk p _ hp]
  split_ifs
  · rfl
  · simp only [Except.map, plusAll_eq, List.map_cons, List.map_nil]

theorem allFin_numbers (xs : List Val) (h : ∀ v ∈ xs, ∃ q, v = .fin q) : ∃ v, allFin xs = some v := by
  induction xs with
  | nil => exact ⟨[], rfl⟩
  | cons x xs ih =>
    obtain ⟨q, rfl⟩ := h x (by simp)
    obtain ⟨v, hv⟩ := ih fun y hy => h y (by simp [hy])
    exact ⟨q :: v, by simp [allFin, hv]⟩

/-- The regression value of a row with a full window is a number. -/
theorem lri_numbers (p : ℕ) (F T : Frame) (hw : F.Numbers) (h : Ind.LinearRegressionIndicator.calcTi p F = .ok T)
    (i : ℕ) (hp : p - 1 ≤ i) (hi : i < (T.col "lri").length) : ∃ q, (T.col "lri")[i] = .fin q := by
  unfold Ind.LinearRegressionIndicator.calcTi at h
  rw [fillna_numbers _ (hw.col "close")] at h
  split_ifs at h
  cases h
  simp only [Frame.col, List.find?_cons, beq_self_eq_true, Option.map_some, Option.getD_some, List.getElem_zipWith]
  simp only [Frame.col, List.find?_cons, beq_self_eq_true, Option.map_some, Option.getD_some, List.length_zipWith] at hi
  have hl : i < (F.col "close").length := by
    have : (rollingOLS p (F.col "close")).length = (F.col "close").length := by
      unfold rollingOLS prefixMap; rw [List.length_map, List.length_range]
    unfold Frame.col at this ⊢
    omega
  have : ∃ a b, (rollingOLS p (F.col "close"))[i]'(by
      unfold rollingOLS prefixMap; rw [List.length_map, List.length_range]; exact hl) = (.fin a, .fin b) := by
    unfold rollingOLS prefixMap
    rw [List.getElem_map, List.getElem_range]
    beta_reduce
    have hlen : ((F.col "close").take (i + 1)).length = i + 1 := by rw [List.length_take]; omega
    rw [if_pos (by omega)]
    obtain ⟨v, hv⟩ := allFin_numbers (window p ((F.col "close").take (i + 1))) fun x hx =>
      hw.col "close" x (List.mem_of_mem_take (List.mem_of_mem_drop hx))
    rw [hv]
    exact ⟨_, _, rfl⟩
  obtain ⟨a, b, hab⟩ := this
  simp only [Frame.col] at hab
  rw [hab]
  exact ⟨_, rfl⟩

theorem sumRows_raise (m : ℕ) (s l : List Val) (h : ∀ i, m ≤ i → (hi : i < l.length) → ∃ q, l[i] = .fin q) :
    maskBefore m (sumRows s (rsl k l)) = rsl k (maskBefore m (sumRows s l)) := by
  have hlen : (sumRows s (rsl k l)).length = (sumRows s l).length := by simp [sumRows, zipV, rsl]
  unfold maskBefore
  rw [hlen]
  unfold rsl
  rw [List.map_take, List.map_append, List.map_replicate]
  congr 2
  unfold sumRows zipV
  apply List.ext_getElem
  · simp
  intro i h1 h2
  simp only [List.getElem_drop, List.getElem_zipWith, List.getElem_map]
  simp only [List.length_drop, List.length_zipWith, List.length_map] at h1
  obtain ⟨q, hq⟩ := h (m + i) (by omega) (by omega)
  rw [hq]
  generalize s[m + i]'(by omega) = x
  cases x <;> simp [sumSkip, rs, Val.isNan, Val.add, show (0 : Val) = .fin 0 from rfl, add_assoc]

theorem forecast_raise (hk : Coarse k) (p : ℕ) (hp : 1 ≤ p) (F : Frame) (hw : F.Numbers) :
    Ind.TimeSeriesForecast.forecast p (F.raise k) = (Ind.TimeSeriesForecast.forecast p F).map (rsl k) := by
  unfold Ind.TimeSeriesForecast.forecast
  rw [raise_sub, F.sub_complete hw.complete, lrs_raise, lri_raise k hk p hp _ (hw.restrict _)]
  cases Ind.LinearRegressionSlope.calcTi p (F.restrict ["close"]) with
  | error e => rfl
  | ok S =>
    cases hT : Ind.LinearRegressionIndicator.calcTi p (F.restrict ["close"]) with
    | error e => rfl
    | ok T =>
      show Except.ok _ = Except.ok _
      congr 1
      rw [plusAll_col]
      exact sumRows_raise k (p - 1) _ _ fun i h1 h2 => lri_numbers p _ T (hw.restrict _) hT i h1 h2

/-! ## All classes -/

theorem halfS_rsl (xs ys : List Val) : ((rsl (k + k) (addS xs ys)).map fun x => Val.div x 2) =
    rsl k ((addS xs ys).map fun x => Val.div x 2) := by
  have := divBy_rsl (k + k) 2 two_ne_zero (addS xs ys)
  rwa [show (k + k) / 2 = k by ring] at this

theorem minmax_rsl (f : Val → Val → Val) (hf : ∀ x y, f (rs k x) (rs k y) = rs k (f x y)) (xs ys : List Val) :
    zipV f (rsl k xs) (rsl k ys) = rsl k (zipV f xs ys) := zipV_rsl f k k k hf xs ys

/-- What the frame has to satisfy. -/
structure RaiseOk (ind : Ind) (F : Frame) : Prop where
  names : ∀ col ∈ F.cols, col.1 ∈ ind.required
  coarse : roundsLevel ind = true → Coarse k
  pos : ind.Pos
  numbers : zeroForMissing ind = true → F.Numbers
  wf : F.WF
  count : F.cols.length = ind.required.length

theorem calcTi_ignores (E : Env) (ind : Ind) (hi : ignoresLevel ind = true) (F : Frame) (h : RaiseOk k ind F) :
    ind.calcTi E (F.raise k) = ind.calcTi E F := by
  cases ind <;> try (simp [ignoresLevel] at hi; done)
  all_goals simp only [Ind.calcTi]
  case commodityChannelIndex p => exact ignores_cci k p F h.names (h.numbers rfl) h.wf h.count
  case klingerOscillator => exact ignores_klinger k F (h.numbers rfl)
  case projectionOscillator p => exact ignores_posc k (h.coarse rfl) p (by have := h.pos; simp only [Ind.Pos] at this; omega) F (h.numbers rfl)
  case linearRegressionSlope p => exact lrs_raise k p F
  case chandeMomentumOscillator p => exact cmo_raise k p F
  case movingAverageConvergenceDivergence =>
    simp only [Ind.MovingAverageConvergenceDivergence.calcTi, raise_col, raise_len, raise_idx, part, String.reduceEq, if_false,
      ewm_rsl k 26 26 (by norm_num), ewm_rsl k 12 12 (by norm_num), roundS_rsl k (h.coarse rfl), subS_rsl_same]
  all_goals simp only [Ind.AccumulationDistributionLine.calcTi, Ind.AverageTrueRange.calcTi, Ind.ChaikinMoneyFlow.calcTi,
    Ind.ChaikinOscillator.calcTi, Ind.DetrendedPriceOscillator.calcTi, Ind.DirectionalMovementIndex.calcTi,
    Ind.EaseOfMovement.calcTi, Ind.IntradayMomentumIndex.calcTi, Ind.MarketFacilitationIndex.calcTi, Ind.MassIndex.calcTi,
    Ind.OnBalanceVolume.calcTi, Ind.Qstick.calcTi, Ind.RangeIndicator.calcTi, Ind.RelativeMomentumIndex.calcTi,
    Ind.RelativeStrengthIndex.calcTi, Ind.RelativeVolatilityIndex.calcTi, Ind.StandardDeviation.calcTi,
    Ind.StochasticMomentumIndex.calcTi, Ind.StochasticOscillator.calcTi, Ind.SwingIndex.calcTi, Ind.UltimateOscillator.calcTi,
    Ind.VerticalHorizontalFilter.calcTi, Ind.VolatilityChaikins.calcTi, Ind.VolumeOscillator.calcTi,
    Ind.VolumeRateOfChange.calcTi, Ind.WilliamsAccumulationDistribution.calcTi, Ind.WilliamsR.calcTi,
    raise_sub, Ind.moneyFlow_rsl, Ind.trueRange_rsl, Ind.dm_rsl k _ (Ind.plusDm_rsl k), Ind.dm_rsl k _ (Ind.minusDm_rsl k),
    raise_col, raise_len, raise_idx, part, String.reduceEq, if_false, if_true, rsl_zero,
    rolling_rsl k _ _ _ _ (up_mean k), rolling_rsl k _ _ _ _ (up_max k), rolling_rsl k _ _ _ _ (up_min k),
    rolling_rsl k _ _ _ _ (up_std k _ _), shift_rsl, shiftBack_rsl, subS_rsl_same, addS_rsl, halfS_rsl, Ind.rmi_rsl, Ind.rsi_rsl,
    Ind.half_rsl, Ind.signedVolume_rsl, Ind.seeText_rsl, Ind.wad_rsl, minmax_rsl k _ (rs_maxNan k), minmax_rsl k _ (rs_minNan k)]

theorem calcTi_level (E : Env) (ind : Ind) (hi : isLevel ind = true) (F : Frame) (h : RaiseOk k ind F) :
    ind.calcTi E (F.raise k) = (ind.calcTi E F).map (plusAll k) := by
  have hc : Coarse k := h.coarse (by simp [roundsLevel, hi])
  have hok : ∀ (idx : List ℤ) (cols : List (String × List Val)), (Except.ok ⟨idx, cols⟩ : Except Err Frame).map (plusAll k) =
      .ok ⟨idx, cols.map fun c => (c.1, rsl k c.2)⟩ := fun idx cols => by rw [Except.map, plusAll_eq]
  have hite : ∀ (p n : ℕ) (e : Err) (x : Except Err Frame), (if n < p then .error e else x).map (plusAll k) =
      if n < p then .error e else x.map (plusAll k) := by
    intro p n e x; split_ifs <;> rfl
  have pos := h.pos
  cases ind <;> try (simp [isLevel] at hi; done)
  all_goals simp only [Ind.calcTi]
  all_goals simp only [Ind.Pos] at pos
  case projectionBands p => exact bands_raise k hc p (by omega) F (h.numbers rfl)
  case linearRegressionIndicator p => exact lri_raise k hc p (by omega) F (h.numbers rfl)
  case timeSeriesForecast p =>
    unfold Ind.TimeSeriesForecast.calcTi
    rw [forecast_raise k hc p (by omega) F (h.numbers rfl), raise_len]
    cases Ind.TimeSeriesForecast.forecast p F with
    | error e =>
      show (if _ then _ else _) = Except.map _ (if _ then _ else _)
      split_ifs <;> rfl
    | ok l =>
      show (if _ then _ else _) = Except.map _ (if _ then _ else _)
      split_ifs
      · rfl
      · show Except.ok _ = Except.map _ (Except.ok _)
        rw [hok, roundS_rsl k hc]; rfl
  case bollingerBands p sd =>
    simp only [Ind.BollingerBands.calcTi, raise_col, raise_len, raise_idx, part, String.reduceEq, if_false,
      rolling_rsl k _ _ _ _ (up_mean k), rolling_rsl k _ _ _ _ (up_std k _ _), rsl_zero, roundS_rsl k hc, addS_rsl_left,
      subS_rsl_left, hite, hok, List.map_cons, List.map_nil]
  case doubleExponentialMovingAverage p =>
    simp only [Ind.DoubleExponentialMovingAverage.calcTi, raise_col, raise_len, raise_idx, part, String.reduceEq, if_false,
      ewm_rsl k _ _ pos, scaleS_rsl, subS_rsl, show (2 : ℚ) * k - k = k by ring, roundS_rsl k hc, hite, hok, List.map_cons, List.map_nil]
  case tripleExponentialMovingAverage p =>
    simp only [Ind.TripleExponentialMovingAverage.calcTi, raise_col, raise_len, raise_idx, part, String.reduceEq, if_false,
      ewm_rsl k _ _ pos, scaleS_rsl, subS_rsl_same, ← addS_rsl_left]
    have : ∀ xs ys, addS xs (rsl k ys) = rsl k (addS xs ys) := by
      intro xs ys
      have := addS_rsl 0 k xs ys
      rwa [rsl_zero, zero_add] at this
    simp only [this, roundS_rsl k hc, hite, hok, List.map_cons, List.map_nil]
  case fibonacciRetracement =>
    simp only [Ind.FibonacciRetracement.calcTi, raise_col, raise_len, raise_idx, part, String.reduceEq, if_false, maxOf_rsl,
      minOf_rsl, rs_sub_same, hok, List.map_map, Function.comp_def]
    congr 2
    apply List.map_congr_left
    intro l _
    congr 1
    unfold rsl
    rw [List.map_replicate, ← rs_round k hc]
    congr 2
    have := rs_sub k 0 (maxOf (F.col "close")) (Val.mul (.fin l.2) (Val.sub (maxOf (F.col "close")) (minOf (F.col "close"))))
    rwa [rs_zero, sub_zero] at this
  case ichimokuCloud =>
    simp only [Ind.IchimokuCloud.calcTi, Ind.middle_rsl, raise_idx, addS_rsl, halfS_rsl, shift_rsl, roundS_rsl k hc, hok,
      List.map_cons, List.map_nil]
  case medianPrice p =>
    simp only [Ind.MedianPrice.calcTi, raise_col, raise_idx, part, String.reduceEq, if_false, addS_rsl, scaleS_rsl,
      show (1 : ℚ) / 2 * (k + k) = k by ring, roundS_rsl k hc, hok, List.map_cons, List.map_nil]
  case weightedClose =>
    have h4 : ∀ xs : List Val, ((rsl (2 * k + k + k) xs).map fun x => Val.div x 4) = rsl k (xs.map fun x => Val.div x 4) := by
      intro xs
      have := divBy_rsl (2 * k + k + k) 4 four_ne_zero xs
      rwa [show (2 * k + k + k) / 4 = k by ring] at this
    simp only [Ind.WeightedClose.calcTi, raise_col, raise_idx, part, String.reduceEq, if_false, addS_rsl, scaleS_rsl,
      h4, roundS_rsl k hc, hok, List.map_cons, List.map_nil]
  case wildersSmoothing p =>
    simp only [Ind.WildersSmoothing.calcTi, raise_col, raise_len, raise_idx, part, String.reduceEq, if_false, wilder_rsl,
      roundS_rsl k hc, hite, hok, List.map_cons, List.map_nil]
  case priceChannel p =>
    simp only [Ind.PriceChannel.calcTi, raise_col, raise_len, raise_idx, part, String.reduceEq, if_false,
      rolling_rsl k _ _ _ _ (up_max k), rolling_rsl k _ _ _ _ (up_min k), shift_rsl,
      roundS_rsl k hc, hite, hok, List.map_cons, List.map_nil]
  case typicalPrice p =>
    simp only [Ind.TypicalPrice.calcTi, raise_rows k F (no_volume ["high", "low", "close"] (by decide) F h.names), raise_idx, hok, List.map_cons, List.map_nil]
    rw [← roundS_rsl k hc]
    congr 5
    unfold rsl
    rw [List.map_map, List.map_map]
    apply List.map_congr_left
    intro r _
    exact meanSkip_rsl k r
  case parabolicSAR =>
    simp only [Ind.ParabolicSAR.calcTi, raise_col, raise_len, raise_idx, part, String.reduceEq, if_false, Ind.ParabolicSAR.rowAt_rsl,
      Ind.ParabolicSAR.rowRaise, rs_round k hc, hite, hok, List.map_cons, List.map_nil]
    simp only [rsl, List.map_map, Function.comp_def]
  case movingAverage p t =>
    unfold Ind.MovingAverage.calcTi
    simp only [raise_col, raise_len, raise_idx, part, String.reduceEq, if_false]
    have fin : ∀ (c1 c2 : Prop) [Decidable c1] [Decidable c2] (e1 e2 : Err) (x y : Except Err (List Val)), x = y.map (rsl k) →
        (do
          if c1 then throw e1
          if c2 then throw e2
          let ma ← x
          return (⟨F.idx, [(t.column, roundS 4 ma)]⟩ : Frame) : Except Err Frame) =
        Except.map (plusAll k) (do
          if c1 then throw e1
          if c2 then throw e2
          let ma ← y
          return (⟨F.idx, [(t.column, roundS 4 ma)]⟩ : Frame)) := by
      intro c1 c2 _ _ e1 e2 x y hxy
      subst hxy
      by_cases h1 : c1
      · simp only [if_pos h1]; rfl
      · by_cases h2 : c2
        · simp only [if_neg h1, if_pos h2]; rfl
        · simp only [if_neg h1, if_neg h2]
          cases y with
          | error e => rfl
          | ok l =>
            show Except.ok _ = Except.map _ (Except.ok _)
            rw [hok, roundS_rsl k hc]; rfl
    cases t
    case simple => exact fin _ _ _ _ _ _ (by rw [rolling_rsl k _ _ _ _ (up_mean k)]; rfl)
    case exponential => exact fin _ _ _ _ _ _ (by rw [ewm_rsl k _ _ pos.1]; rfl)
    case timeSeries => exact fin _ _ _ _ _ _ (forecast_raise k hc p pos.1 F (h.numbers rfl))
    case triangular => exact fin _ _ _ _ _ _ (by rw [rolling_rsl k _ _ _ _ (up_mean k), rolling_rsl k _ _ _ _ (up_mean k)]; rfl)
    case variableType =>
      refine fin _ _ _ _ _ _ ?_
      rw [raise_sub, cmo_raise]
      cases hC : Ind.ChandeMomentumOscillator.calcTi 9 (F.sub ["close"]) with
      | error e => rfl
      | ok C =>
        show Except.ok _ = Except.ok _
        rw [variableMa_rsl]
        intro v hv
        obtain ⟨w, hw, rfl⟩ := List.mem_map.1 hv
        rcases cmo_plain 9 _ C hC w hw with rfl | ⟨q, rfl⟩
        · exact Or.inl rfl
        · exact Or.inr ⟨_, rfl⟩

end
end TTI
