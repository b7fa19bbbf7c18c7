import Verif.Lemmas.MirrorClass

set_option autoImplicit false

/-!
# All classes on mirrored prices
-/

namespace TTI

open Spec

/-- What the frame has to satisfy. -/
structure MirrorOk (E : Env) (ind : Ind) (F : Frame) : Prop where
  names : ∀ col ∈ F.cols, col.1 ∈ ind.required
  lengths : ∀ n ∈ ind.required, (F.col n).length = F.len
  pos : ind.Pos
  numbers : zeroForMissing ind = true → F.Numbers
  weights : ∀ d, (E.weights d).length ≤ d

theorem reflected_idx (m : Val → Val) (T : Frame) : (reflected m T).idx = T.idx := rfl

theorem closeOnly (n : String) : otherEnd n ∈ ["close"] ↔ n ∈ ["close"] := by
  simp only [List.mem_singleton]; unfold otherEnd; split_ifs <;> simp_all
theorem bars (n : String) : otherEnd n ∈ ["high", "low", "close"] ↔ n ∈ ["high", "low", "close"] := by
  simp only [List.mem_cons, List.not_mem_nil, or_false]; unfold otherEnd; split_ifs <;> simp_all
theorem volumeBars (n : String) : otherEnd n ∈ ["close", "volume", "high", "low"] ↔ n ∈ ["close", "volume", "high", "low"] := by
  simp only [List.mem_cons, List.not_mem_nil, or_false]; unfold otherEnd; split_ifs <;> simp_all

theorem lrs_flip (p : ℕ) (F : Frame) :
    Ind.LinearRegressionSlope.calcTi p F.flip = (Ind.LinearRegressionSlope.calcTi p F).map (reflected Val.neg) := by
  unfold Ind.LinearRegressionSlope.calcTi
  simp only [flip_close, flip_len, flip_idx, mulS_ngl_left, mulS_ngl_right, sum_ngl, scaleS_ngl, subS_ngl, divS_ngl, roundS_ngl]
  split_ifs <;> rfl

theorem lri_flip (p : ℕ) (F : Frame) :
    Ind.LinearRegressionIndicator.calcTi p F.flip = (Ind.LinearRegressionIndicator.calcTi p F).map (reflected Val.neg) := by
  unfold Ind.LinearRegressionIndicator.calcTi
  simp only [flip_close, flip_len, flip_idx, fillna_ngl, lri_ngl]
  split_ifs <;> rfl

theorem reflected_col (m : Val → Val) (T : Frame) (n : String) (h : ∃ c ∈ T.cols, c.1 = n) (hp : partner n = n) :
    (reflected m T).col n = (T.col n).map m := by
  have hc : ∀ l : List (String × List Val), (∃ c ∈ l, c.1 = n) →
      ((l.map fun c => (c.1, (T.col (partner c.1)).map m)).find? fun c => c.1 == n) = some (n, (T.col n).map m) := by
    intro l
    induction l with
    | nil => rintro ⟨c, hc, -⟩; simp at hc
    | cons c l ih =>
      rintro ⟨d, hd, hn⟩
      rw [List.map_cons, List.find?_cons]
      by_cases h : c.1 = n
      · subst h; simp [hp]
      · have : (c.1 == n) = false := by simpa using h
        simp only [this]
        rcases List.mem_cons.1 hd with rfl | hd
        · exact absurd hn h
        · exact ih ⟨d, hd, hn⟩
  show (((T.cols.map fun c => (c.1, (T.col (partner c.1)).map m)).find? fun c => c.1 == n).map (·.2)).getD [] = _
  rw [hc _ h]
  rfl

theorem forecast_flip (p : ℕ) (F : Frame) :
    Ind.TimeSeriesForecast.forecast p F.flip = (Ind.TimeSeriesForecast.forecast p F).map ngl := by
  unfold Ind.TimeSeriesForecast.forecast
  rw [flip_sub _ _ closeOnly, lrs_flip, lri_flip]
  unfold Ind.LinearRegressionSlope.calcTi Ind.LinearRegressionIndicator.calcTi
  split_ifs
  · rfl
  · show Except.ok _ = Except.ok _
    congr 1
    rw [reflected_col _ _ "lrs" ⟨_, List.mem_singleton_self _, rfl⟩ rfl, reflected_col _ _ "lri" ⟨_, List.mem_singleton_self _, rfl⟩ rfl,
      ← maskBefore_ngl, ← sumRows_ngl]
    rfl

theorem cmo_mirror (p : ℕ) (F : Frame) :
    Ind.ChandeMomentumOscillator.calcTi p F.flip = (Ind.ChandeMomentumOscillator.calcTi p F).map (reflected Val.neg) := by
  unfold Ind.ChandeMomentumOscillator.calcTi
  simp only [flip_close, flip_len, flip_idx, diffS_ngl, (cmo_flip p (diffS 1 (F.col "close"))).1,
    (cmo_flip p (diffS 1 (F.col "close"))).2]
  rw [subS_swap (rolling p p aggSum (zeroBelow (diffS 1 (F.col "close"))))
    ((rolling p p aggSum (zeroAbove (diffS 1 (F.col "close")))).map Val.abs), addS_swap
    ((rolling p p aggSum (zeroAbove (diffS 1 (F.col "close")))).map Val.abs), scaleS_ngl, divS_ngl, roundS_ngl]
  split_ifs <;> rfl

theorem bands_flip (p : ℕ) (F : Frame) :
    Ind.ProjectionBands.calcTi p F.flip = (Ind.ProjectionBands.calcTi p F).map (reflected Val.neg) := by
  unfold Ind.ProjectionBands.calcTi
  simp only [flip_high, flip_low, flip_len, flip_idx, fillna_ngl, slopes_ngl, band_ngl _ _ ng_pmax, band_ngl _ _ ng_pmin, roundS_ngl]
  split_ifs <;> rfl

theorem plain_roundS (n : ℕ) (xs : List Val) (h : ∀ v ∈ xs, Plain v) : ∀ v ∈ roundS n xs, Plain v := by
  intro v hv
  obtain ⟨x, hx, rfl⟩ := List.mem_map.1 hv
  rcases h x hx with rfl | ⟨q, rfl⟩
  · exact Or.inl rfl
  · exact Or.inr ⟨_, rfl⟩

theorem plain_slopes (w : ℕ) (xs : List Val) : ∀ v ∈ (rollingOLS w xs).map (·.2), Plain v := by
  intro v hv
  unfold rollingOLS prefixMap at hv
  obtain ⟨q, hq, rfl⟩ := List.mem_map.1 hv
  obtain ⟨j, -, rfl⟩ := List.mem_map.1 hq
  dsimp only
  split_ifs
  · split
    · exact Or.inr ⟨_, rfl⟩
    · exact Or.inl rfl
  · exact Or.inl rfl

theorem plain_band (pick : Val → Val → Val) (hp : ∀ x y, pick x y = x ∨ pick x y = y) (w : ℕ) (xs ys : List Val)
    (hx : ∀ v ∈ xs, Plain v) (hy : ∀ v ∈ ys, Plain v) : ∀ v ∈ Ind.ProjectionBands.band pick w xs ys, Plain v := by
  intro v hv
  unfold Ind.ProjectionBands.band prefixMap at hv
  obtain ⟨j, -, rfl⟩ := List.mem_map.1 hv
  dsimp only
  have hz : ∀ q ∈ ((xs.zip ys).take (j + 1)).reverse, Plain q.1 ∧ Plain q.2 := by
    intro q hq
    have := List.of_mem_zip (List.mem_of_mem_take (List.mem_reverse.1 hq))
    exact ⟨hx _ this.1, hy _ this.2⟩
  split_ifs
  · exact Or.inl rfl
  · revert hz
    cases ((xs.zip ys).take (j + 1)).reverse with
    | nil => intro _; exact Or.inl rfl
    | cons q older =>
      intro hz
      obtain ⟨p0, s⟩ := q
      dsimp only
      have hs : Plain s := (hz _ (by simp : (p0, s) ∈ (p0, s) :: older)).2
      have h0 : Plain p0 := (hz _ (by simp : (p0, s) ∈ (p0, s) :: older)).1
      have hf : ∀ (l : List Val) (z : Val), Plain z → (∀ v ∈ l, Plain v) → Plain (l.foldl pick z) := by
        intro l
        induction l with
        | nil => intro z hz _; exact hz
        | cons x l ih =>
          intro z hz hl
          refine ih _ ?_ fun v hv => hl v (by simp [hv])
          rcases hp z x with h | h <;> rw [h]
          · exact hz
          · exact hl x (by simp)
      refine hf _ _ h0 fun v hv => ?_
      obtain ⟨r, hr, rfl⟩ := List.mem_map.1 hv
      have h1 : r.1 ∈ (older.take (w - 1)).map (·.1) := by
        have := List.mem_zipIdx hr
        rw [this.2.2]; exact List.getElem_mem _
      obtain ⟨t, ht, he⟩ := List.mem_map.1 h1
      refine plain_add ?_ (he ▸ (hz t (by simp [List.mem_of_mem_take ht])).1)
      rcases hs with hs | ⟨a, hs⟩ <;> rw [hs]
      · exact Or.inl rfl
      · exact Or.inr ⟨_, rfl⟩

theorem pmax_either (x y : Val) : Val.pmax x y = x ∨ Val.pmax x y = y := by
  unfold Val.pmax; split_ifs <;> simp
theorem pmin_either (x y : Val) : Val.pmin x y = x ∨ Val.pmin x y = y := by
  unfold Val.pmin; split_ifs <;> simp

theorem po_flip (p : ℕ) (F : Frame) (hw : F.Numbers) :
    Ind.ProjectionOscillator.calcTi p F.flip = (Ind.ProjectionOscillator.calcTi p F).map (reflected (Val.sub (.fin 100))) := by
  unfold Ind.ProjectionOscillator.calcTi
  rw [flip_sub _ _ bars, F.sub_complete hw.complete, bands_flip, flip_len, flip_close, flip_idx]
  by_cases h : F.len < p
  · simp only [h, if_true]; rfl
  simp only [h, if_false]
  have hr := hw.restrict ["high", "low", "close"]
  have hl : (F.restrict ["high", "low", "close"]).len = F.len := rfl
  have hpl : ∀ n, ∀ v ∈ (F.restrict ["high", "low", "close"]).col n, Plain v := fun n v hv => Or.inr (hr.col n v hv)
  unfold Ind.ProjectionBands.calcTi
  rw [hl, if_neg h]
  show Except.ok _ = Except.ok _
  set U := roundS 4 (Ind.ProjectionBands.band Val.pmax p ((F.restrict ["high", "low", "close"]).col "high")
    ((rollingOLS p (fillna 0 ((F.restrict ["high", "low", "close"]).col "high"))).map (·.2))) with hU
  set L := roundS 4 (Ind.ProjectionBands.band Val.pmin p ((F.restrict ["high", "low", "close"]).col "low")
    ((rollingOLS p (fillna 0 ((F.restrict ["high", "low", "close"]).col "low"))).map (·.2))) with hL
  have pU : ∀ v ∈ U, Plain v := plain_roundS _ _ (plain_band _ pmax_either _ _ _ (hpl _) (plain_slopes _ _))
  have pL : ∀ v ∈ L, Plain v := plain_roundS _ _ (plain_band _ pmin_either _ _ _ (hpl _) (plain_slopes _ _))
  have e1 : (reflected Val.neg ⟨(F.restrict ["high", "low", "close"]).idx, [("upper_band", U), ("lower_band", L)]⟩).col "upper_band" = ngl L := rfl
  have e2 : (reflected Val.neg ⟨(F.restrict ["high", "low", "close"]).idx, [("upper_band", U), ("lower_band", L)]⟩).col "lower_band" = ngl U := rfl
  have e3 : (⟨(F.restrict ["high", "low", "close"]).idx, [("upper_band", U), ("lower_band", L)]⟩ : Frame).col "upper_band" = U := rfl
  have e4 : (⟨(F.restrict ["high", "low", "close"]).idx, [("upper_band", U), ("lower_band", L)]⟩ : Frame).col "lower_band" = L := rfl
  rw [e1, e2, e3, e4, subS_ngl', subS_ngl', range_line _ _ _ pU pL, ewm_hundred 3 3 (by norm_num), round_hundred, round_hundred]
  rfl


theorem typical_flip (F : Frame) (hn : ∀ c ∈ F.cols, c.1 ≠ "volume") (f : List Val → Val) (hf : ∀ r, f (ngl r) = Val.neg (f r)) :
    F.flip.rows.map f = ngl (F.rows.map f) := by
  rw [flip_rows F hn]
  unfold ngl
  rw [List.map_map, List.map_map]
  apply List.map_congr_left
  intro r _
  exact hf r

theorem middle_flip (w : ℕ) (F : Frame) : Ind.IchimokuCloud.middle w F.flip = ngl (Ind.IchimokuCloud.middle w F) := by
  unfold Ind.IchimokuCloud.middle
  rw [flip_high, flip_low, max_ngl, min_ngl, addS_ngl, addS_swap, divBy_ngl]

theorem calcTi_mirror (E : Env) (ind : Ind) (m : Val → Val) (hm : reflect 0 ind = some m) (F : Frame) (h : MirrorOk E ind F) :
    ind.calcTi E F.flip = (ind.calcTi E F).map (reflected m) := by
  have pos := h.pos
  cases ind <;> try (simp [reflect] at hm; done)
  all_goals (simp only [reflect, Option.some.injEq] at hm; subst hm)
  all_goals try rw [zero_sub_val]
  all_goals simp only [Ind.calcTi]
  all_goals simp only [Ind.Pos] at pos
  -- levels
  case bollingerBands p sd =>
    unfold Ind.BollingerBands.calcTi
    simp only [flip_close, flip_len, flip_idx, mean_ngl, std_ngl, roundS_ngl, addS_ngl_left, subS_ngl_left]
    split_ifs <;> rfl
  case doubleExponentialMovingAverage p =>
    unfold Ind.DoubleExponentialMovingAverage.calcTi
    simp only [flip_close, flip_len, flip_idx, ewm_ngl, scaleS_ngl, subS_ngl, roundS_ngl]
    split_ifs <;> rfl
  case tripleExponentialMovingAverage p =>
    unfold Ind.TripleExponentialMovingAverage.calcTi
    simp only [flip_close, flip_len, flip_idx, ewm_ngl, scaleS_ngl, subS_ngl, addS_ngl, roundS_ngl]
    split_ifs <;> rfl
  case ichimokuCloud =>
    unfold Ind.IchimokuCloud.calcTi
    simp only [middle_flip, flip_idx, addS_ngl, divBy_ngl, shift_ngl, roundS_ngl]
    rfl
  case linearRegressionIndicator p => exact lri_flip p F
  case medianPrice p =>
    unfold Ind.MedianPrice.calcTi
    simp only [flip_high, flip_low, flip_idx, addS_ngl, scaleS_ngl, roundS_ngl]
    rw [addS_swap]
    rfl
  case movingAverage p t =>
    unfold Ind.MovingAverage.calcTi
    simp only [flip_close, flip_len, flip_idx]
    have fin : ∀ (c1 c2 : Prop) [Decidable c1] [Decidable c2] (e1 e2 : Err) (x y : Except Err (List Val)), x = y.map ngl →
        (do
          if c1 then throw e1
          if c2 then throw e2
          let ma ← x
          return (⟨F.idx, [(t.column, roundS 4 ma)]⟩ : Frame) : Except Err Frame) =
        Except.map (reflected Val.neg) (do
          if c1 then throw e1
          if c2 then throw e2
          let ma ← y
          return (⟨F.idx, [(t.column, roundS 4 ma)]⟩ : Frame)) := by
      intro c1 c2 _ _ e1 e2 x y hxy
      subst hxy
      by_cases h1 : c1
      · simp only [if_pos h1]; rfl
      · by_cases h2 : c2
        · simp only [if_neg h1, if_pos h2]; rfl
        · simp only [if_neg h1, if_neg h2]
          cases y with
          | error e => rfl
          | ok l =>
            show Except.ok _ = Except.map _ (Except.ok _)
            rw [roundS_ngl]
            cases t <;> rfl
    cases t
    case simple => exact fin _ _ _ _ _ _ (by rw [mean_ngl]; rfl)
    case exponential => exact fin _ _ _ _ _ _ (by rw [ewm_ngl]; rfl)
    case timeSeries => exact fin _ _ _ _ _ _ (forecast_flip p F)
    case triangular => exact fin _ _ _ _ _ _ (by rw [mean_ngl, mean_ngl]; rfl)
    case variableType =>
      refine fin _ _ _ _ _ _ ?_
      rw [flip_sub _ _ closeOnly, cmo_mirror]
      unfold Ind.ChandeMomentumOscillator.calcTi
      split_ifs
      · rfl
      · show Except.ok _ = Except.ok _
        rw [reflected_col _ _ "cmo" ⟨_, List.mem_singleton_self _, rfl⟩ rfl, ← variableMa_ngl]
        have : ∀ xs : List Val, ((xs.map Val.neg).map fun x => Val.abs (Val.div x 100)) = xs.map fun x => Val.abs (Val.div x 100) :=
          fun xs => map_ngl_inv (fun x => Val.abs (Val.div x 100)) (fun x => by rw [ng_div, ng_abs]) xs
        rw [this]
  case priceChannel p =>
    unfold Ind.PriceChannel.calcTi
    simp only [flip_high, flip_low, flip_len, flip_idx, max_ngl, min_ngl, shift_ngl, roundS_ngl]
    split_ifs <;> rfl
  case projectionBands p => exact bands_flip p F
  case timeSeriesForecast p =>
    unfold Ind.TimeSeriesForecast.calcTi
    rw [forecast_flip, flip_len, flip_idx]
    cases Ind.TimeSeriesForecast.forecast p F with
    | error e =>
      show (if _ then _ else _) = Except.map _ (if _ then _ else _)
      split_ifs <;> rfl
    | ok l =>
      show (if _ then _ else _) = Except.map _ (if _ then _ else _)
      split_ifs
      · rfl
      · show Except.ok _ = Except.map _ (Except.ok _)
        rw [roundS_ngl]; rfl
  case typicalPrice p =>
    unfold Ind.TypicalPrice.calcTi
    rw [typical_flip F (no_volume ["high", "low", "close"] (by decide) F h.names) _ meanSkip_ngl, roundS_ngl, flip_idx]
    rfl
  case weightedClose =>
    unfold Ind.WeightedClose.calcTi
    simp only [flip_high, flip_low, flip_close, flip_idx, scaleS_ngl, addS_ngl, divBy_ngl, roundS_ngl]
    have : addS (addS (scaleS 2 (F.col "close")) (F.col "low")) (F.col "high") =
        addS (addS (scaleS 2 (F.col "close")) (F.col "high")) (F.col "low") := by
      apply List.ext_getElem
      · simp [addS, zipV, scaleS, min_comm, min_left_comm]
      intro i h1 h2
      simp only [addS, zipV, List.getElem_zipWith]
      exact add_right_swap _ _ _
    rw [this]
    rfl
  case wildersSmoothing p =>
    unfold Ind.WildersSmoothing.calcTi
    simp only [flip_close, flip_len, flip_idx, wilder_ngl, roundS_ngl]
    split_ifs <;> rfl
  -- differences
  case accumulationDistributionLine =>
    unfold Ind.AccumulationDistributionLine.calcTi
    simp only [moneyFlow_flip, flip_idx, cumsum_ngl, astypeInt_ngl]
    rfl
  case chaikinMoneyFlow p =>
    unfold Ind.ChaikinMoneyFlow.calcTi
    simp only [moneyFlow_flip, flip_idx, flip_len, flip_volume, sum_ngl, divS_ngl, roundS_ngl]
    split_ifs <;> rfl
  case chaikinOscillator =>
    unfold Ind.ChaikinOscillator.calcTi
    rw [flip_sub _ _ volumeBars]
    unfold Ind.AccumulationDistributionLine.calcTi
    simp only [moneyFlow_flip, flip_idx, flip_len, cumsum_ngl, astypeInt_ngl]
    show (if _ then _ else _) = Except.map _ (if _ then _ else _)
    split_ifs
    · rfl
    · show Except.ok _ = Except.ok _
      have e : ∀ l : List Val, (⟨F.idx, [("adl", l)]⟩ : Frame).col "adl" = l := fun _ => rfl
      have e' : ∀ l : List Val, (⟨(F.sub ["close", "volume", "high", "low"]).idx, [("adl", l)]⟩ : Frame).col "adl" = l := fun _ => rfl
      rw [e', e', ewm_ngl, ewm_ngl, subS_ngl, roundS_ngl]
      rfl
  case chandeMomentumOscillator p => exact cmo_mirror p F
  case commodityChannelIndex p =>
    unfold Ind.CommodityChannelIndex.calcTi
    rw [typical_flip F (no_volume ["high", "low", "close"] (by decide) F h.names) _ (fun r => by rw [sumSkip_ngl, ng_div])]
    simp only [mean_ngl, differences_ngl, subS_ngl, divS_ngl, roundS_ngl, flip_len, flip_idx]
    split_ifs <;> rfl
  case detrendedPriceOscillator p =>
    unfold Ind.DetrendedPriceOscillator.calcTi
    simp only [flip_close, flip_len, flip_idx, mean_ngl, shiftBack_ngl, subS_ngl, ngl_take, roundS_ngl]
    split_ifs <;> rfl
  case easeOfMovement p =>
    unfold Ind.EaseOfMovement.calcTi
    simp only [flip_high, flip_low, flip_volume, flip_len, flip_idx, shift_ngl, subS_ngl', addS_ngl]
    rw [subS_swap (addS (F.col "low") (F.col "high")), addS_swap (F.col "low"), addS_swap (shift 1 (F.col "low"))]
    simp only [scaleS_ngl, divS_ngl, mean_ngl, roundS_ngl]
    split_ifs <;> rfl
  case linearRegressionSlope p => exact lrs_flip p F
  case movingAverageConvergenceDivergence =>
    unfold Ind.MovingAverageConvergenceDivergence.calcTi
    simp only [flip_close, flip_len, flip_idx, ewm_ngl, roundS_ngl, subS_ngl]
    split_ifs <;> rfl
  case onBalanceVolume =>
    unfold Ind.OnBalanceVolume.calcTi
    simp only [flip_close, flip_volume, flip_idx, shift_ngl, signedVolume_flip, cumsum_ngl]
    rfl
  case qstick p =>
    unfold Ind.Qstick.calcTi
    simp only [flip_close, flip_open, flip_len, flip_idx, subS_ngl, sum_ngl, divBy_ngl, roundS_ngl]
    split_ifs <;> rfl
  case stochasticMomentumIndex p s d =>
    unfold Ind.StochasticMomentumIndex.calcTi
    simp only [flip_high, flip_low, flip_close, flip_len, flip_idx, max_ngl, min_ngl, addS_ngl, divBy_ngl, subS_ngl (F.col "close"), ewm_ngl,
      subS_ngl' (rolling p p aggMin (F.col "low")), divS_ngl, scaleS_ngl, roundS_ngl]
    rw [addS_swap]
    split_ifs <;> rfl
  case swingIndex =>
    unfold Ind.SwingIndex.calcTi
    simp only [flip_high, flip_low, flip_close, flip_open, flip_idx, shift_ngl, subS_ngl' (F.col "low") (F.col "high")]
    simp only [subS_ngl, abs_ngl, scaleS_ngl, addS_ngl, divS_ngl, mulS_ngl_left, map_ngl _ _ clip_neg, roundS_ngl]
    rw [zipV_swap maxSkip maxSkip maxSkip_swap]
    have : ∀ a b c : List Val, zip3 (fun x y z => maxSkip (maxSkip x y) z) a b c = zip3 (fun x y z => maxSkip (maxSkip x y) z) b a c := by
      intro a b c
      apply List.ext_getElem
      · simp [zip3, min_left_comm]
      intro i h1 h2
      simp only [zip3, List.getElem_zipWith, List.getElem_zip]
      rw [maxSkip_swap (a[i]'(by simp [zip3] at h1; omega))]
    rw [this]
    rfl
  case williamsAccumulationDistribution =>
    unfold Ind.WilliamsAccumulationDistribution.calcTi
    simp only [flip_high, flip_low, flip_close, flip_idx, shift_ngl, wad_flip, roundS_ngl]
    rfl
  -- unchanged
  case averageTrueRange =>
    unfold Ind.AverageTrueRange.calcTi
    simp only [trueRange_flip _ maxSkip_right_swap, flip_len, flip_idx]
    split_ifs
    · rfl
    · simp [Except.map, reflected, Frame.col, partner]
  case directionalMovementIndex =>
    unfold Ind.DirectionalMovementIndex.calcTi
    simp only [trueRange_flip _ maxNan_right_swap, dm_flip _ _ plusDm_neg, dm_flip _ _ minusDm_neg, flip_len, flip_idx]
    split_ifs
    · rfl
    · set P := maskBefore 14 (divS (scaleS 100 (Ind.DirectionalMovementIndex.smooth14 (Ind.DirectionalMovementIndex.dm Ind.DirectionalMovementIndex.plusDm F)))
        (Ind.DirectionalMovementIndex.smooth14 (maskBefore 1 (Ind.trueRange maxNan F))))
      set M := maskBefore 14 (divS (scaleS 100 (Ind.DirectionalMovementIndex.smooth14 (Ind.DirectionalMovementIndex.dm Ind.DirectionalMovementIndex.minusDm F)))
        (Ind.DirectionalMovementIndex.smooth14 (maskBefore 1 (Ind.trueRange maxNan F))))
      rw [subS_swap P M, abs_ngl, addS_swap M P]
      simp [Except.map, reflected, Frame.col, partner]
  case marketFacilitationIndex =>
    unfold Ind.MarketFacilitationIndex.calcTi
    simp only [flip_high, flip_low, flip_volume, flip_idx, subS_ngl']
    simp [Except.map, reflected, Frame.col, partner]
  case massIndex =>
    unfold Ind.MassIndex.calcTi
    simp only [flip_high, flip_low, flip_len, flip_idx, subS_ngl']
    split_ifs
    · rfl
    · simp [Except.map, reflected, Frame.col, partner]
  case standardDeviation p =>
    unfold Ind.StandardDeviation.calcTi
    simp only [flip_close, flip_len, flip_idx, std_ngl]
    split_ifs
    · rfl
    · simp [Except.map, reflected, Frame.col, partner]
  case verticalHorizontalFilter p =>
    unfold Ind.VerticalHorizontalFilter.calcTi
    simp only [flip_close, flip_len, flip_idx, max_ngl, min_ngl, shift_ngl, subS_ngl, abs_ngl]
    rw [subS_swap (rolling p p aggMax (F.col "close")), abs_ngl]
    split_ifs
    · rfl
    · simp [Except.map, reflected, Frame.col, partner]
  case volatilityChaikins a b =>
    unfold Ind.VolatilityChaikins.calcTi
    simp only [flip_high, flip_low, flip_len, flip_idx, subS_ngl']
    split_ifs
    · rfl
    · simp [Except.map, reflected, Frame.col, partner]
  case volumeOscillator a b =>
    unfold Ind.VolumeOscillator.calcTi
    simp only [flip_volume, flip_len, flip_idx]
    split_ifs
    · rfl
    · simp [Except.map, reflected, Frame.col, partner]
  case volumeRateOfChange p =>
    unfold Ind.VolumeRateOfChange.calcTi
    simp only [flip_volume, flip_len, flip_idx]
    split_ifs
    · rfl
    · simp [Except.map, reflected, Frame.col, partner]
  -- indices
  case intradayMomentumIndex p =>
    unfold Ind.IntradayMomentumIndex.calcTi
    simp only [flip_close, flip_open, flip_len, flip_idx, subS_ngl']
    rw [share_line _ _ (plain_rolling_sum _ _) (plain_rolling_sum _ _), round_hundred]
    split_ifs <;> rfl
  case projectionOscillator p => exact po_flip p F (h.numbers rfl)
  case relativeStrengthIndex p =>
    unfold Ind.RelativeStrengthIndex.calcTi
    rw [flip_close, rsi_ngl p (by omega), round_hundred, flip_len, flip_idx]
    split_ifs <;> rfl
  case relativeVolatilityIndex p =>
    unfold Ind.RelativeVolatilityIndex.calcTi
    rw [flip_high, flip_low, half_ngl _ p (by omega), half_ngl _ p (by omega), halves_other, addS_swap, round_hundred, flip_len, flip_idx]
    split_ifs <;> rfl
  case stochasticOscillator a s d b =>
    unfold Ind.StochasticOscillator.calcTi
    simp only [flip_high, flip_low, flip_close, flip_len, flip_idx, max_ngl, min_ngl, subS_ngl']
    have hh := h.lengths "high" (by simp [Ind.required])
    have hl := h.lengths "low" (by simp [Ind.required])
    have hc := h.lengths "close" (by simp [Ind.required])
    have hr : ∀ agg (xs : List Val), (rolling a a agg xs).length = xs.length := fun agg xs => by simp [rolling, prefixMap]
    rw [rolling_ends_div s 100 (F.col "close") (rolling a a aggMax (F.col "high")) (rolling a a aggMin (F.col "low"))
      (by rw [hr, hc, hh]) (by rw [hr, hr, hl, hh]), round_hundred]
    split_ifs
    · rfl
    · rw [mean_hundred, round_hundred]; rfl
    · rw [weighted_line _ _ (h.weights d), round_hundred]; rfl
  case ultimateOscillator =>
    unfold Ind.UltimateOscillator.calcTi
    have hh := h.lengths "high" (by simp [Ind.required])
    have hl := h.lengths "low" (by simp [Ind.required])
    have hc := h.lengths "close" (by simp [Ind.required])
    simp only [flip_high, flip_low, flip_close, flip_len, flip_idx, shift_ngl, zipV_ngl _ _ ng_maxNan, zipV_ngl _ _ ng_minNan, subS_ngl']
    have hs : (shift 1 (F.col "close")).length = (F.col "close").length := by simp [shift]
    have e1 : (F.col "close").length = (zipV maxNan (F.col "high") (shift 1 (F.col "close"))).length := by
      simp [zipV, hs, hh, hc]
    have e2 : (zipV minNan (F.col "low") (shift 1 (F.col "close"))).length = (zipV maxNan (F.col "high") (shift 1 (F.col "close"))).length := by
      simp [zipV, hs, hh, hc, hl]
    rw [ratio_other 7 _ _ _ e1 e2, ratio_other 14 _ _ _ e1 e2, ratio_other 28 _ _ _ e1 e2, ultimate_line, round_hundred]
    split_ifs <;> rfl
  case williamsR p =>
    unfold Ind.WilliamsR.calcTi
    simp only [flip_high, flip_low, flip_close, flip_len, flip_idx, max_ngl, min_ngl, subS_ngl']
    rw [range_line_neg _ _ _ (plain_rolling _ plain_max _ _ _) (plain_rolling _ plain_min _ _ _), round_minus_hundred]
    split_ifs <;> rfl

end TTI
