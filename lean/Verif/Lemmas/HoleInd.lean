import Verif.Lemmas.Hole

set_option autoImplicit false

/-!
# The values that a missing entry takes away, class by class
-/

namespace TTI

open Spec Ind

theorem lost_band (pick : Val → Val → Val) (hn : ∀ y, pick .nan y = .nan) (p j : ℕ) (price slope : List Val)
    (h : Lost (days j 1) price) : Lost (days j 1) (ProjectionBands.band pick p price slope) := by
  intro i hi
  have hij : i = j := by unfold days at hi; omega
  subst hij
  by_cases hl : i < price.length ∧ i < slope.length
  · unfold ProjectionBands.band
    have hz : i < (price.zip slope).length := by rw [List.length_zip]; omega
    rw [val_prefixMap' _ _ i hz]
    split_ifs with hc
    · rfl
    · rw [List.take_add_one, List.getElem?_eq_getElem hz, Option.toList_some, List.reverse_append, List.reverse_singleton,
        List.singleton_append, List.getElem_zip]
      have hp : price[i]'hl.1 = .nan := by rw [← val_lt _ _ hl.1]; exact h i hi
      simp only [hp]
      exact Lost.foldl_nan pick hn _
  · exact val_ge _ _ (by simp [ProjectionBands.band]; omega)

theorem lost_variableMa (p j : ℕ) (hj : 21 ≤ j) (close vr : List Val) (h : Lost (days j 1) close) :
    Lost (j ≤ ·) (MovingAverage.variableMa p (close.zip vr)) := by
  intro i hi
  by_cases hl : i < close.length ∧ i < vr.length
  · unfold MovingAverage.variableMa
    have hz : i < (close.zip vr).length := by rw [List.length_zip]; omega
    have hjz : j < (close.zip vr).length := by omega
    dsimp only
    rw [val_prefixMap' _ _ i hz]
    have hm : (close.zip vr)[j] ∈ ((close.zip vr).take (i + 1)).drop 21 := by
      rw [List.mem_drop_iff_getElem]
      refine ⟨j - 21, by rw [List.length_take]; omega, ?_⟩
      rw [List.getElem_take]
      congr 1; omega
    have hn : ((close.zip vr)[j]).1 = .nan := by
      rw [List.getElem_zip]
      have := h j ⟨le_refl _, by omega⟩
      rw [val_lt _ _ (by omega)] at this
      exact this
    cases hd : ((close.zip vr).take (i + 1)).drop 21 with
    | nil => rfl
    | cons first rest =>
      rw [hd] at hm
      dsimp only
      have hg : ∀ y : Val × Val, Val.add (Val.mul (Val.mul (.fin (2 / ((p : ℚ) + 1))) y.1) y.2)
          (Val.mul (Val.sub 1 (Val.mul (.fin (2 / ((p : ℚ) + 1))) y.2)) .nan) = .nan := fun y => by
        rw [Val.mul_nan, Val.add_nan]
      rcases List.mem_cons.1 hm with he | he
      · rw [he] at hn
        rw [hn]
        exact Lost.foldl_nan _ hg _
      · refine Lost.foldl_lost _ hg _ _ ⟨_, he, fun s => ?_⟩
        rw [hn, Val.mul_nan]; rfl
  · exact val_ge _ _ (by simp [MovingAverage.variableMa]; omega)

theorem lost_trend (j : ℕ) (close volume : List Val)
    (h : Lost (days j 1) close ∨ 1 ≤ j ∧ Lost (days j 1) volume) :
    Lost (fun i => 1 ≤ i ∧ j ≤ i) (PriceAndVolumeTrend.trend (close.zip volume)) := by
  intro i hi
  by_cases hl : i < (close.zip volume).length
  · unfold PriceAndVolumeTrend.trend
    rw [val_prefixMap' _ _ i hl]
    have key : ∀ (rest : List (Val × Val)) (st : Val × Val),
        (st.1 = .nan ∨ (st.2 = .nan ∧ rest ≠ []) ∨ ∃ r ∈ rest, r.1 = .nan ∨ r.2 = .nan) →
        (rest.foldl (fun (st : Val × Val) r =>
          (Val.add st.1 (Val.mul (Val.sub r.1 st.2) (Val.div r.2 st.2)), r.1)) st).1 = .nan := by
      intro rest
      induction rest with
      | nil =>
        rintro st (h | h | ⟨r, hr, -⟩)
        · exact h
        · exact absurd rfl h.2
        · cases hr
      | cons x l ih =>
        intro st hst
        rw [List.foldl_cons]
        apply ih
        rcases hst with h | h | ⟨r, hr, h⟩
        · left; simp only [h]; rfl
        · left; simp only [h.1, Val.sub_nan]; exact Val.add_nan _
        · rcases List.mem_cons.1 hr with rfl | hr
          · left
            rcases h with h | h
            · simp only [h]; exact Val.add_nan _
            · simp only [h]
              rw [show Val.div .nan st.2 = .nan from rfl, Val.mul_nan, Val.add_nan]
          · exact Or.inr (Or.inr ⟨r, hr, h⟩)
    have hjl : j < (close.zip volume).length := by omega
    have hjc : j < close.length ∧ j < volume.length := by rw [List.length_zip] at hjl; omega
    have hn : (close.zip volume)[j].1 = .nan ∨ 1 ≤ j ∧ (close.zip volume)[j].2 = .nan := by
      rw [List.getElem_zip]
      rcases h with h | ⟨h1, h⟩
      · left
        have := h j ⟨le_refl _, by omega⟩
        rw [val_lt _ _ hjc.1] at this
        exact this
      · right
        have := h j ⟨le_refl _, by omega⟩
        rw [val_lt _ _ hjc.2] at this
        exact ⟨h1, this⟩
    cases hz : (close.zip volume).take (i + 1) with
    | nil => rfl
    | cons first rest =>
      dsimp only
      apply key
      have hlen : ((close.zip volume).take (i + 1)).length = i + 1 := by rw [List.length_take]; omega
      have hr : rest ≠ [] := by
        intro e
        rw [hz, e] at hlen
        simp at hlen; omega
      have hget : (close.zip volume)[j] = (first :: rest)[j]'(by rw [← hz, hlen]; omega) := by
        simp only [← hz, List.getElem_take]
      rw [hget] at hn
      rcases Nat.eq_zero_or_pos j with rfl | hj
      · rcases hn with hn | hn
        · exact Or.inr (Or.inl ⟨hn, hr⟩)
        · omega
      · obtain ⟨m, rfl⟩ : ∃ m, j = m + 1 := ⟨j - 1, by omega⟩
        refine Or.inr (Or.inr ⟨_, List.getElem_mem (l := rest) (n := m) (by
          have : (first :: rest).length = i + 1 := by rw [← hz, hlen]
          simp at this; omega), ?_⟩)
        rcases hn with hn | hn
        · exact Or.inl hn
        · exact Or.inr hn.2
  · exact val_ge _ _ (by simp [PriceAndVolumeTrend.trend] at hl ⊢; omega)

theorem lost_wad (j : ℕ) (F : Frame) (h : Lost (days j 1) (F.col "close")) (T : Frame)
    (ht : WilliamsAccumulationDistribution.calcTi F = .ok T) : Lost (days j 2) (T.col "wad") := by
  unfold WilliamsAccumulationDistribution.calcTi at ht
  simp only [Except.ok.injEq] at ht
  subst ht
  rw [Frame.col_single]
  apply Lost.round
  intro i hi
  by_cases hl : i < (F.col "close").length ∧ i < (F.col "high").length ∧ i < (F.col "low").length
  · rw [val_lt _ _ (by simp; omega), List.getElem_zipWith]
    simp only [List.getElem_zip]
    have hs : val (shift 1 (F.col "close")) i = (shift 1 (F.col "close"))[i]'(by simp; omega) := val_lt _ _ _
    rw [← val_lt _ _ hl.1, ← hs]
    have hw : Val.sub (val (F.col "close") i) (val (shift 1 (F.col "close")) i) = .nan := by
      have := (h.change (le_refl 1)) i hi
      rwa [val_subS] at this
    unfold WilliamsAccumulationDistribution.row
    dsimp only
    rw [hw]; rfl
  · exact val_ge _ _ (by simp; omega)

theorem lost_trueRange_high (j : ℕ) (F : Frame) (h : Lost (days j 1) (F.col "high")) : Lost (days j 1) (trueRange maxNan F) := by
  unfold trueRange
  refine lost_zip3 _ _ _ _ fun i hi => ?_
  rw [(h.subL (F.col "low")) i hi]; rfl

theorem maxNan_right (x : Val) : maxNan x .nan = .nan := by cases x <;> rfl

theorem minNan_right (x : Val) : minNan x .nan = .nan := by cases x <;> rfl

theorem lost_trueRange_low (j : ℕ) (F : Frame) (h : Lost (days j 1) (F.col "low")) : Lost (days j 1) (trueRange maxNan F) := by
  unfold trueRange
  refine lost_zip3 _ _ _ _ fun i hi => ?_
  rw [(h.subR (F.col "high")) i hi]; rfl

theorem lost_trueRange_close (j : ℕ) (F : Frame) (h : Lost (days j 1) (F.col "close")) :
    Lost (days (j + 1) 1) (trueRange maxNan F) := by
  unfold trueRange
  refine lost_zip3 _ _ _ _ fun i hi => ?_
  rw [((h.shift 1).subR (F.col "high")) i hi, maxNan_right]; rfl

theorem lost_dmi (k : ℕ) (F T : Frame) (hk : 14 ≤ k) (h : val (trueRange maxNan F) k = .nan)
    (ht : DirectionalMovementIndex.calcTi F = .ok T) :
    ∀ c ∈ T.cols, Lost (fun i => k ≤ i ∧ (c.1 = "adx" → i ≠ 27)) c.2 := by
  unfold DirectionalMovementIndex.calcTi at ht
  split_ifs at ht
  simp only [Except.ok.injEq] at ht
  subst ht
  have h1 := Lost.smooth14 k _ hk (Lost.mask (D := fun i => i = k) (fun i hi => by rw [hi]; exact h) 1 k rfl)
  have hd : ∀ xs, Lost (k ≤ ·) (maskBefore 14 (divS xs (DirectionalMovementIndex.smooth14 (maskBefore 1 (trueRange maxNan F))))) :=
    fun xs => (h1.divR xs).mask 14
  simp only [List.forall_mem_cons, List.not_mem_nil, false_implies, implies_true, and_true]
  have hx := ((((hd (scaleS 100 (DirectionalMovementIndex.smooth14 (DirectionalMovementIndex.dm
    DirectionalMovementIndex.plusDm F)))).subL (maskBefore 14 (divS (scaleS 100 (DirectionalMovementIndex.smooth14
      (DirectionalMovementIndex.dm DirectionalMovementIndex.minusDm F))) (DirectionalMovementIndex.smooth14
        (maskBefore 1 (trueRange maxNan F)))))).map Val.abs rfl).scale 100).divL
    ((addS (maskBefore 14 (divS (scaleS 100 (DirectionalMovementIndex.smooth14 (DirectionalMovementIndex.dm
      DirectionalMovementIndex.plusDm F))) (DirectionalMovementIndex.smooth14 (maskBefore 1 (trueRange maxNan F)))))
      (maskBefore 14 (divS (scaleS 100 (DirectionalMovementIndex.smooth14 (DirectionalMovementIndex.dm
      DirectionalMovementIndex.minusDm F))) (DirectionalMovementIndex.smooth14 (maskBefore 1 (trueRange maxNan F)))))).map
      Val.abs)
  have ha := Lost.adxOf (max k 28) _ (by omega) (hx (max k 28) (by simp))
  refine ⟨((hd _).round 4).mono fun i hi => hi.1, ((hd _).round 4).mono fun i hi => hi.1,
    (hx.round 4).mono fun i hi => hi.1, ?_, ?_⟩
  · refine Lost.round ?_ 4
    intro i hi
    rcases lt_or_ge i 27 with h27 | h27
    · exact adxOf_blank _ i h27
    · exact ha i (by have := hi.2 trivial; have := hi.1; show max k 28 ≤ i; omega)
  · refine Lost.round ?_ 4
    intro i hi
    rcases lt_or_ge i 40 with h40 | h40
    · rw [val_maskBefore, if_pos h40]
    · exact ((ha.addL _).map (fun x => Val.div x 2) rfl).mask 40 i (by have := hi.1; show max k 28 ≤ i; omega)

theorem lost_rmi (p m j : ℕ) (close : List Val) (h0 : Lost (days j 1) close) :
    Lost (fun i => p + m ≤ j ∧ j ≤ i ∨ p ≤ j ∧ j + m ≤ i) (RelativeMomentumIndex.raw p m close) := by
  have key : ∀ k, p + m ≤ k → val (subS close (shift m close)) k = .nan →
      Lost (k ≤ ·) (RelativeMomentumIndex.raw p m close) := by
    intro k hk hn
    have h1 := Lost.wilder m p k ((subS close (shift m close)).map RelativeMomentumIndex.upward) (by omega)
      (by rw [val_map _ rfl, hn]; rfl)
    exact ((h1.divL _).scale 100).divL _
  have h1 := (h0.subL (shift m close)) j ⟨le_refl _, by omega⟩
  have h2 := ((h0.shift m).subR close) (j + m) ⟨le_refl _, by omega⟩
  rintro i (⟨h3, h4⟩ | ⟨h3, h4⟩)
  · exact key j h3 h1 i h4
  · exact key (j + m) (by omega) h2 i h4

theorem lost_stochastic (E : Env) (k s d j : ℕ) (b : Bool) (F T : Frame) (source : String)
    (hp : (Ind.stochasticOscillator k s d b).Pos) (h : (Ind.stochasticOscillator k s d b).calcTi E F = .ok T)
    (hs : source ∈ (Ind.stochasticOscillator k s d b).required) (h0 : Lost (days j 1) (F.col source)) :
    ∀ c ∈ T.cols, Lost (fun i => blanks (.stochasticOscillator k s d b) c.1 source j i) c.2 := by
  obtain ⟨hk, hsl, hd⟩ := hp
  have hs1 : 1 ≤ s := by rcases hsl with h | h <;> omega
  have key : ∀ (n : ℕ) (kl : List Val) (agg : List ℚ → Val), Lost (days j (n + (s - 1))) kl → 1 ≤ n →
      Lost (days j (n + (s - 1) + (d - 1))) (roundS 4 (rolling d d agg (roundS 4 kl))) := by
    intro n kl agg hkl hn
    exact (((hkl.round 4).rolling (by omega) d hd agg).round 4).mono (fun i hi => by unfold days at hi ⊢; omega)
  have hline : Lost (days j ((if source = "close" then 1 else k) + (s - 1)))
      (divS (scaleS 100 (rolling s s aggSum (subS (F.col "close") (rolling k k aggMin (F.col "low")))))
        (rolling s s aggSum (subS (rolling k k aggMax (F.col "high")) (rolling k k aggMin (F.col "low"))))) := by
    simp only [required, List.mem_cons, List.not_mem_nil, or_false] at hs
    rcases hs with rfl | rfl | rfl
    · exact (((((h0.rolling (le_refl 1) k hk aggMax).subL _).rolling (by omega) s hs1 aggSum).divR _)).mono
        (fun i hi => by simp [days] at hi ⊢; omega)
    · exact (((((h0.rolling (le_refl 1) k hk aggMin).subR _).rolling (by omega) s hs1 aggSum).divR _)).mono
        (fun i hi => by simp [days] at hi ⊢; omega)
    · exact (((((h0.subL _).rolling (le_refl 1) s hs1 aggSum).scale 100).divL _)).mono
        (fun i hi => by simp [days] at hi ⊢; omega)
  simp only [Ind.calcTi, StochasticOscillator.calcTi] at h
  split_ifs at h
  all_goals
    simp only [Except.ok.injEq] at h
    subst h
    simp only [List.forall_mem_cons, List.not_mem_nil, false_implies, implies_true, and_true]
    have hn : 1 ≤ (if source = "close" then 1 else k) := by split <;> omega
    refine ⟨(hline.round 4).mono fun i hi => ?_, (key _ _ _ hline hn).mono fun i hi => ?_⟩
    · simpa [blanks] using hi
    · simpa [blanks] using hi

set_option maxHeartbeats 1000000 in
/-- What a missing entry takes away, in every class. -/
theorem lost_calcTi (E : Env) (ind : Ind) (F T : Frame) (hp : ind.Pos) (h : ind.calcTi E F = .ok T) (source : String)
    (hs : source ∈ ind.required) (j : ℕ) (h0 : Lost (days j 1) (F.col source)) (name : String) :
    Lost (fun i => blanks ind name source j i) (T.col name) := by
  apply lost_cols (fun name i => blanks ind name source j i) T
  cases ind
  case averageTrueRange => exact fun c _ => Lost.none (fun i hi => hi) _
  case chaikinOscillator => exact fun c _ => Lost.none (fun i hi => hi) _
  case commodityChannelIndex => exact fun c _ => Lost.none (fun i hi => hi) _
  case doubleExponentialMovingAverage => exact fun c _ => Lost.none (fun i hi => hi) _
  case fibonacciRetracement => exact fun c _ => Lost.none (fun i hi => hi) _
  case ichimokuCloud => exact fun c _ => Lost.none (fun i hi => hi) _
  case klingerOscillator => exact fun c _ => Lost.none (fun i hi => hi) _
  case linearRegressionIndicator => exact fun c _ => Lost.none (fun i hi => hi) _
  case massIndex => exact fun c _ => Lost.none (fun i hi => hi) _
  case movingAverageConvergenceDivergence => exact fun c _ => Lost.none (fun i hi => hi) _
  case negativeVolumeIndex => exact fun c _ => Lost.none (fun i hi => hi) _
  case onBalanceVolume => exact fun c _ => Lost.none (fun i hi => hi) _
  case parabolicSAR => exact fun c _ => Lost.none (fun i hi => hi) _
  case positiveVolumeIndex => exact fun c _ => Lost.none (fun i hi => hi) _
  case rangeIndicator => exact fun c _ => Lost.none (fun i hi => hi) _
  case relativeStrengthIndex => exact fun c _ => Lost.none (fun i hi => hi) _
  case relativeVolatilityIndex => exact fun c _ => Lost.none (fun i hi => hi) _
  case stochasticMomentumIndex => exact fun c _ => Lost.none (fun i hi => hi) _
  case timeSeriesForecast => exact fun c _ => Lost.none (fun i hi => hi) _
  case tripleExponentialMovingAverage => exact fun c _ => Lost.none (fun i hi => hi) _
  case typicalPrice => exact fun c _ => Lost.none (fun i hi => hi) _
  case volatilityChaikins => exact fun c _ => Lost.none (fun i hi => hi) _
  case accumulationDistributionLine =>
    simp only [Ind.calcTi, AccumulationDistributionLine.calcTi] at h
    simp only [Except.ok.injEq] at h
    subst h
    simp only [List.forall_mem_cons, List.not_mem_nil, false_implies, implies_true, and_true]
    try simp only [Ind.Pos] at hp
    simp only [required, List.mem_cons, List.not_mem_nil, or_false] at hs
    rcases hs with rfl | rfl | rfl | rfl
    · exact (lost_astype (lost_cumsum ((((h0.subL _).subL _).mulR _).divL _))).mono (fun i hi => by simp [blanks, days] at hi ⊢; omega)
    · exact (lost_astype (lost_cumsum ((h0.mulL _).divL _))).mono (fun i hi => by simp [blanks, days] at hi ⊢; omega)
    · exact (lost_astype (lost_cumsum ((h0.subL _).divR _))).mono (fun i hi => by simp [blanks, days] at hi ⊢; omega)
    · exact (lost_astype (lost_cumsum ((h0.subR _).divR _))).mono (fun i hi => by simp [blanks, days] at hi ⊢; omega)
  case bollingerBands p s =>
    simp only [Ind.calcTi, BollingerBands.calcTi] at h
    split_ifs at h
    simp only [Except.ok.injEq] at h
    subst h
    simp only [List.forall_mem_cons, List.not_mem_nil, false_implies, implies_true, and_true]
    try simp only [Ind.Pos] at hp
    simp only [required, List.mem_cons, List.not_mem_nil, or_false] at hs
    subst hs
    have h1 := ((h0.rolling (le_refl 1) p hp.1 aggMean).round 4)
    exact ⟨h1.mono (fun i hi => by simp [blanks, days] at hi ⊢; omega), ((h1.addL _).round 4).mono (fun i hi => by simp [blanks, days] at hi ⊢; omega), ((h1.subL _).round 4).mono (fun i hi => by simp [blanks, days] at hi ⊢; omega)⟩
  case chaikinMoneyFlow p =>
    simp only [Ind.calcTi, ChaikinMoneyFlow.calcTi] at h
    split_ifs at h
    simp only [Except.ok.injEq] at h
    subst h
    simp only [List.forall_mem_cons, List.not_mem_nil, false_implies, implies_true, and_true]
    try simp only [Ind.Pos] at hp
    simp only [required, List.mem_cons, List.not_mem_nil, or_false] at hs
    rcases hs with rfl | rfl | rfl | rfl
    · exact ((((((h0.subL _).subL _).mulR _).divL _).rolling (le_refl 1) p hp _).divL _ |>.round 4).mono (fun i hi => by simp [blanks, days] at hi ⊢; omega)
    · exact ((h0.rolling (le_refl 1) p hp _).divR _ |>.round 4).mono (fun i hi => by simp [blanks, days] at hi ⊢; omega)
    · exact ((((h0.subL _).divR _).rolling (le_refl 1) p hp _).divL _ |>.round 4).mono (fun i hi => by simp [blanks, days] at hi ⊢; omega)
    · exact ((((h0.subR _).divR _).rolling (le_refl 1) p hp _).divL _ |>.round 4).mono (fun i hi => by simp [blanks, days] at hi ⊢; omega)
  case chandeMomentumOscillator p =>
    simp only [Ind.calcTi, ChandeMomentumOscillator.calcTi] at h
    split_ifs at h
    simp only [Except.ok.injEq] at h
    subst h
    simp only [List.forall_mem_cons, List.not_mem_nil, false_implies, implies_true, and_true]
    try simp only [Ind.Pos] at hp
    simp only [required, List.mem_cons, List.not_mem_nil, or_false] at hs
    subst hs
    exact (((((h0.change (le_refl 1)).below.rolling (by omega) p hp aggSum).addL _).divR _).round 4).mono (fun i hi => by simp [blanks, days] at hi ⊢; omega)
  case detrendedPriceOscillator p =>
    simp only [Ind.calcTi, DetrendedPriceOscillator.calcTi] at h
    split_ifs at h
    simp only [Except.ok.injEq] at h
    subst h
    simp only [List.forall_mem_cons, List.not_mem_nil, false_implies, implies_true, and_true]
    try simp only [Ind.Pos] at hp
    simp only [required, List.mem_cons, List.not_mem_nil, or_false] at hs
    subst hs
    exact (((h0.subL _).both (((h0.rolling (le_refl 1) p hp aggMean).shiftBack (1 + p / 2)).subR _)).take _ |>.round 4).mono
      (fun i hi => by simp [blanks, days] at hi ⊢; omega)
  case easeOfMovement p =>
    simp only [Ind.calcTi, EaseOfMovement.calcTi] at h
    split_ifs at h
    simp only [Except.ok.injEq] at h
    subst h
    simp only [List.forall_mem_cons, List.not_mem_nil, false_implies, implies_true, and_true]
    try simp only [Ind.Pos] at hp
    simp only [required, List.mem_cons, List.not_mem_nil, or_false] at hs
    rcases hs with rfl | rfl | rfl
    · have h1 := ((((h0.addL (F.col "low")).subL _).both (((h0.shift 1).addL (shift 1 (F.col "low"))).subR _)).scale (1 / 2)).divL
        (divS (F.col "volume") (scaleS 10000 (subS (F.col "high") (F.col "low"))))
      have h2 := h1.mono (D' := days j 2) (fun i hi => by unfold days at hi ⊢; omega)
      exact ⟨(h2.round 4).mono (fun i hi => by simp [blanks, days] at hi ⊢; omega), ((h2.rolling (by omega) p hp aggMean).round 4).mono (fun i hi => by simp [blanks, days] at hi ⊢; omega)⟩
    · have h1 := ((((h0.addR (F.col "high")).subL _).both (((h0.shift 1).addR (shift 1 (F.col "high"))).subR _)).scale (1 / 2)).divL
        (divS (F.col "volume") (scaleS 10000 (subS (F.col "high") (F.col "low"))))
      have h2 := h1.mono (D' := days j 2) (fun i hi => by unfold days at hi ⊢; omega)
      exact ⟨(h2.round 4).mono (fun i hi => by simp [blanks, days] at hi ⊢; omega), ((h2.rolling (by omega) p hp aggMean).round 4).mono (fun i hi => by simp [blanks, days] at hi ⊢; omega)⟩
    · have h2 := (h0.divL (scaleS 10000 (subS (F.col "high") (F.col "low")))).divR
        (scaleS (1 / 2) (subS (addS (F.col "high") (F.col "low")) (addS (shift 1 (F.col "high")) (shift 1 (F.col "low")))))
      exact ⟨(h2.round 4).mono (fun i hi => by simp [blanks, days] at hi ⊢; omega), ((h2.rolling (le_refl 1) p hp aggMean).round 4).mono (fun i hi => by simp [blanks, days] at hi ⊢; omega)⟩
  case envelopes p s =>
    simp only [Ind.calcTi, Envelopes.calcTi] at h
    split_ifs at h
    simp only [Except.ok.injEq] at h
    subst h
    simp only [List.forall_mem_cons, List.not_mem_nil, false_implies, implies_true, and_true]
    try simp only [Ind.Pos] at hp
    simp only [required, List.mem_cons, List.not_mem_nil, or_false] at hs
    subst hs
    have h1 := h0.rolling (le_refl 1) p hp.1 aggMean
    exact ⟨((h1.scale _).round 4).mono (fun i hi => by simp [blanks, days] at hi ⊢; omega), ((h1.scale _).round 4).mono (fun i hi => by simp [blanks, days] at hi ⊢; omega)⟩
  case intradayMomentumIndex p =>
    simp only [Ind.calcTi, IntradayMomentumIndex.calcTi] at h
    split_ifs at h
    simp only [Except.ok.injEq] at h
    subst h
    simp only [List.forall_mem_cons, List.not_mem_nil, false_implies, implies_true, and_true]
    try simp only [Ind.Pos] at hp
    simp only [required, List.mem_cons, List.not_mem_nil, or_false] at hs
    rcases hs with rfl | rfl
    · exact (((((h0.subR _).below.rolling (le_refl 1) p hp _).scale 100).divL _).round 4).mono (fun i hi => by simp [blanks, days] at hi ⊢; omega)
    · exact (((((h0.subL _).below.rolling (le_refl 1) p hp _).scale 100).divL _).round 4).mono (fun i hi => by simp [blanks, days] at hi ⊢; omega)
  case linearRegressionSlope p =>
    simp only [Ind.calcTi, LinearRegressionSlope.calcTi] at h
    split_ifs at h
    simp only [Except.ok.injEq] at h
    subst h
    simp only [List.forall_mem_cons, List.not_mem_nil, false_implies, implies_true, and_true]
    try simp only [Ind.Pos] at hp
    simp only [required, List.mem_cons, List.not_mem_nil, or_false] at hs
    subst hs
    exact ((((((h0.mulL _).rolling (le_refl 1) p hp _).scale p).subL _).divL _).round 4).mono (fun i hi => by simp [blanks, days] at hi ⊢; omega)
  case marketFacilitationIndex =>
    simp only [Ind.calcTi, MarketFacilitationIndex.calcTi] at h
    simp only [Except.ok.injEq] at h
    subst h
    simp only [List.forall_mem_cons, List.not_mem_nil, false_implies, implies_true, and_true]
    try simp only [Ind.Pos] at hp
    simp only [required, List.mem_cons, List.not_mem_nil, or_false] at hs
    rcases hs with rfl | rfl | rfl
    · exact (((h0.subL _).divL _).round 10).mono (fun i hi => by simp [blanks, days] at hi ⊢; omega)
    · exact (((h0.subR _).divL _).round 10).mono (fun i hi => by simp [blanks, days] at hi ⊢; omega)
    · exact ((h0.divR _).round 10).mono (fun i hi => by simp [blanks, days] at hi ⊢; omega)
  case medianPrice p =>
    simp only [Ind.calcTi, MedianPrice.calcTi] at h
    simp only [Except.ok.injEq] at h
    subst h
    simp only [List.forall_mem_cons, List.not_mem_nil, false_implies, implies_true, and_true]
    try simp only [Ind.Pos] at hp
    simp only [required, List.mem_cons, List.not_mem_nil, or_false] at hs
    rcases hs with rfl | rfl | rfl
    · exact (((h0.addL _).scale _).round 4).mono (fun i hi => by simp [blanks, days] at hi ⊢; omega)
    · exact (((h0.addR _).scale _).round 4).mono (fun i hi => by simp [blanks, days] at hi ⊢; omega)
    · exact Lost.none (fun i hi => by simp [blanks] at hi) _
  case momentum p =>
    simp only [Ind.calcTi, Momentum.calcTi] at h
    split_ifs at h
    simp only [Except.ok.injEq] at h
    subst h
    simp only [List.forall_mem_cons, List.not_mem_nil, false_implies, implies_true, and_true]
    try simp only [Ind.Pos] at hp
    simp only [required, List.mem_cons, List.not_mem_nil, or_false] at hs
    subst hs
    exact ((((h0.scale 100).divL _).both ((h0.shift p).divR _)).mask p |>.round 4).mono (fun i hi => by simp [blanks, days] at hi ⊢; omega)
  case performance b t =>
    simp only [required, List.mem_cons, List.not_mem_nil, or_false] at hs
    subst hs
    simp only [Ind.calcTi, Performance.calcTi] at h
    cases hc : F.col "close" with
    | nil => rw [hc] at h; cases h
    | cons c0 cs =>
      rw [hc] at h h0
      simp only [List.head?_cons, pure, Except.pure, Except.ok.injEq] at h
      subst h
      simp only [List.forall_mem_cons, List.not_mem_nil, false_implies, implies_true, and_true]
      refine ⟨Lost.round ?_ 4, Lost.none (fun i hi => by cases b <;> simp [blanks, Performance.targetColumn] at hi) _⟩
      intro i hi
      simp only [blanks, true_and] at hi
      rcases hi with rfl | rfl
      · exact (h0.map (fun c => Val.div (Val.sub c c0) c0) rfl) i ⟨le_refl _, by omega⟩
      · have h1 : c0 = .nan := h0 0 ⟨le_refl _, by omega⟩
        subst h1
        have hf : ∀ c, Val.div (Val.sub c .nan) .nan = .nan := fun c => Val.div_nan _
        rw [val_map (fun c => Val.div (Val.sub c .nan) .nan) (hf _)]
        exact hf _
  case priceChannel p =>
    simp only [Ind.calcTi, PriceChannel.calcTi] at h
    split_ifs at h
    simp only [Except.ok.injEq] at h
    subst h
    simp only [List.forall_mem_cons, List.not_mem_nil, false_implies, implies_true, and_true]
    try simp only [Ind.Pos] at hp
    simp only [required, List.mem_cons, List.not_mem_nil, or_false] at hs
    rcases hs with rfl | rfl | rfl
    · exact ⟨(((h0.rolling (le_refl 1) p hp _).shift 1).round 4).mono (fun i hi => by simp [blanks, days] at hi ⊢; omega), Lost.none (fun i hi => by simp [blanks] at hi) _⟩
    · exact ⟨Lost.none (fun i hi => by simp [blanks] at hi) _, (((h0.rolling (le_refl 1) p hp _).shift 1).round 4).mono (fun i hi => by simp [blanks, days] at hi ⊢; omega)⟩
    · exact ⟨Lost.none (fun i hi => by simp [blanks] at hi) _, Lost.none (fun i hi => by simp [blanks] at hi) _⟩
  case priceOscillator l s =>
    simp only [Ind.calcTi, PriceOscillator.calcTi] at h
    split_ifs at h
    simp only [Except.ok.injEq] at h
    subst h
    simp only [List.forall_mem_cons, List.not_mem_nil, false_implies, implies_true, and_true]
    try simp only [Ind.Pos] at hp
    simp only [required, List.mem_cons, List.not_mem_nil, or_false] at hs
    subst hs
    exact (((h0.rolling (le_refl 1) l (by omega) _).divR _).round 4).mono (fun i hi => by simp [blanks, days] at hi ⊢; omega)
  case priceRateOfChange p =>
    simp only [Ind.calcTi, PriceRateOfChange.calcTi] at h
    split_ifs at h
    simp only [Except.ok.injEq] at h
    subst h
    simp only [List.forall_mem_cons, List.not_mem_nil, false_implies, implies_true, and_true]
    try simp only [Ind.Pos] at hp
    simp only [required, List.mem_cons, List.not_mem_nil, or_false] at hs
    subst hs
    exact ((((h0.subL _).scale 100).divL _).both ((h0.shift p).divR _) |>.round 4).mono (fun i hi => by simp [blanks, days] at hi ⊢; omega)
  case projectionBands p =>
    simp only [Ind.calcTi, ProjectionBands.calcTi] at h
    split_ifs at h
    simp only [Except.ok.injEq] at h
    subst h
    simp only [List.forall_mem_cons, List.not_mem_nil, false_implies, implies_true, and_true]
    try simp only [Ind.Pos] at hp
    simp only [required, List.mem_cons, List.not_mem_nil, or_false] at hs
    rcases hs with rfl | rfl | rfl
    · exact ⟨((lost_band _ (fun y => by cases y <;> rfl) p j _ _ h0).round 4).mono (fun i hi => by simp [blanks, days] at hi ⊢; omega), Lost.none (fun i hi => by simp [blanks] at hi) _⟩
    · exact ⟨Lost.none (fun i hi => by simp [blanks] at hi) _, ((lost_band _ (fun y => by cases y <;> rfl) p j _ _ h0).round 4).mono (fun i hi => by simp [blanks, days] at hi ⊢; omega)⟩
    · exact ⟨Lost.none (fun i hi => by simp [blanks] at hi) _, Lost.none (fun i hi => by simp [blanks] at hi) _⟩
  case qstick p =>
    simp only [Ind.calcTi, Qstick.calcTi] at h
    split_ifs at h
    simp only [Except.ok.injEq] at h
    subst h
    simp only [List.forall_mem_cons, List.not_mem_nil, false_implies, implies_true, and_true]
    try simp only [Ind.Pos] at hp
    simp only [required, List.mem_cons, List.not_mem_nil, or_false] at hs
    rcases hs with rfl | rfl
    · exact ((((h0.subR _).rolling (le_refl 1) p hp _).map _ rfl).round 4).mono (fun i hi => by simp [blanks, days] at hi ⊢; omega)
    · exact ((((h0.subL _).rolling (le_refl 1) p hp _).map _ rfl).round 4).mono (fun i hi => by simp [blanks, days] at hi ⊢; omega)
  case relativeMomentumIndex p m =>
    simp only [required, List.mem_cons, List.not_mem_nil, or_false] at hs
    subst hs
    simp only [Ind.calcTi, RelativeMomentumIndex.calcTi] at h
    split_ifs at h
    simp only [Except.ok.injEq] at h
    subst h
    simp only [List.forall_mem_cons, List.not_mem_nil, false_implies, implies_true, and_true]
    exact ((lost_rmi p m j _ h0).round 4).mono (fun i hi => by simpa [blanks] using hi)
  case standardDeviation p =>
    simp only [Ind.calcTi, StandardDeviation.calcTi] at h
    split_ifs at h
    simp only [Except.ok.injEq] at h
    subst h
    simp only [List.forall_mem_cons, List.not_mem_nil, false_implies, implies_true, and_true]
    try simp only [Ind.Pos] at hp
    simp only [required, List.mem_cons, List.not_mem_nil, or_false] at hs
    subst hs
    exact ((h0.rolling (le_refl 1) p hp _).round 4).mono (fun i hi => by simp [blanks, days] at hi ⊢; omega)
  case stochasticOscillator k s d b =>
    exact lost_stochastic E k s d j b F T source hp h hs h0
  case swingIndex =>
    simp only [Ind.calcTi, SwingIndex.calcTi] at h
    simp only [Except.ok.injEq] at h
    subst h
    simp only [List.forall_mem_cons, List.not_mem_nil, false_implies, implies_true, and_true]
    try simp only [Ind.Pos] at hp
    simp only [required, List.mem_cons, List.not_mem_nil, or_false] at hs
    rcases hs with rfl | rfl | rfl | rfl
    · exact ((((((((h0.subR _).scale (1 / 2)).addR _).addL _).both ((((h0.shift 1).subR _).scale (1 / 4)).addR _)).divL _).scale 50 |>.mulL _).map _ rfl |>.round 4).mono (fun i hi => by simp [blanks, days] at hi ⊢; omega)
    · exact Lost.none (fun i hi => by simp [blanks] at hi) _
    · exact Lost.none (fun i hi => by simp [blanks] at hi) _
    · exact ((((((((h0.subL _).addL _).addL _)).both (((((h0.shift 1).subR _)).addL _).addL _)).divL _).scale 50 |>.mulL _).map _ rfl |>.round 4).mono (fun i hi => by simp [blanks, days] at hi ⊢; omega)
  case ultimateOscillator =>
    simp only [Ind.calcTi, UltimateOscillator.calcTi] at h
    split_ifs at h
    simp only [Except.ok.injEq] at h
    subst h
    simp only [List.forall_mem_cons, List.not_mem_nil, false_implies, implies_true, and_true]
    try simp only [Ind.Pos] at hp
    simp only [required, List.mem_cons, List.not_mem_nil, or_false] at hs
    rcases hs with rfl | rfl | rfl
    · exact (((((((((h0.zipL maxNan (fun y => rfl) _).subL _).rolling (le_refl 1) 28 (by omega) aggSum).divR _)).addR _).scale 100).map _ rfl).round 4).mono (fun i hi => by simp [blanks, days] at hi ⊢; omega)
    · exact (((((((((h0.zipL minNan (fun y => rfl) _).subR _).rolling (le_refl 1) 28 (by omega) aggSum).divR _)).addR _).scale 100).map _ rfl).round 4).mono (fun i hi => by simp [blanks, days] at hi ⊢; omega)
    · have h1 := ((h0.subL (zipV minNan (F.col "low") (shift 1 (F.col "close")))).both
        (((h0.shift 1).zipR minNan minNan_right (F.col "low")).subR (F.col "close"))).mono (D' := days j 2)
        (fun i hi => by unfold days at hi ⊢; omega)
      exact (((((((h1.rolling (by omega) 28 (by omega) aggSum).divL _)).addR _).scale 100).map _ rfl).round 4).mono (fun i hi => by simp [blanks, days] at hi ⊢; omega)
  case verticalHorizontalFilter p =>
    simp only [Ind.calcTi, VerticalHorizontalFilter.calcTi] at h
    split_ifs at h
    simp only [Except.ok.injEq] at h
    subst h
    simp only [List.forall_mem_cons, List.not_mem_nil, false_implies, implies_true, and_true]
    try simp only [Ind.Pos] at hp
    simp only [required, List.mem_cons, List.not_mem_nil, or_false] at hs
    subst hs
    exact (((((h0.change (le_refl 1)).map Val.abs rfl).rolling (by omega) p hp aggSum).divR _).round 4).mono (fun i hi => by simp [blanks, days] at hi ⊢; omega)
  case volumeOscillator l s =>
    simp only [Ind.calcTi, VolumeOscillator.calcTi] at h
    split_ifs at h
    simp only [Except.ok.injEq] at h
    subst h
    simp only [List.forall_mem_cons, List.not_mem_nil, false_implies, implies_true, and_true]
    try simp only [Ind.Pos] at hp
    simp only [required, List.mem_cons, List.not_mem_nil, or_false] at hs
    subst hs
    exact (((h0.rolling (le_refl 1) l (by omega) _).subR _).round 4).mono (fun i hi => by simp [blanks, days] at hi ⊢; omega)
  case volumeRateOfChange p =>
    simp only [Ind.calcTi, VolumeRateOfChange.calcTi] at h
    split_ifs at h
    simp only [Except.ok.injEq] at h
    subst h
    simp only [List.forall_mem_cons, List.not_mem_nil, false_implies, implies_true, and_true]
    try simp only [Ind.Pos] at hp
    simp only [required, List.mem_cons, List.not_mem_nil, or_false] at hs
    subst hs
    exact (((h0.subL _).divL _).both ((h0.shift p).divR _) |>.scale 100 |>.round 4).mono (fun i hi => by simp [blanks, days] at hi ⊢; omega)
  case weightedClose =>
    simp only [Ind.calcTi, WeightedClose.calcTi] at h
    simp only [Except.ok.injEq] at h
    subst h
    simp only [List.forall_mem_cons, List.not_mem_nil, false_implies, implies_true, and_true]
    try simp only [Ind.Pos] at hp
    simp only [required, List.mem_cons, List.not_mem_nil, or_false] at hs
    rcases hs with rfl | rfl | rfl
    · exact ((((h0.addR _).addL _).map _ rfl).round 4).mono (fun i hi => by simp [blanks, days] at hi ⊢; omega)
    · exact (((h0.addR _).map _ rfl).round 4).mono (fun i hi => by simp [blanks, days] at hi ⊢; omega)
    · exact (((((h0.scale 2).addL _).addL _).map _ rfl).round 4).mono (fun i hi => by simp [blanks, days] at hi ⊢; omega)
  case wildersSmoothing p =>
    simp only [Ind.calcTi, WildersSmoothing.calcTi] at h
    split_ifs at h
    simp only [Except.ok.injEq] at h
    subst h
    simp only [List.forall_mem_cons, List.not_mem_nil, false_implies, implies_true, and_true]
    try simp only [Ind.Pos] at hp
    simp only [required, List.mem_cons, List.not_mem_nil, or_false] at hs
    subst hs
    by_cases hj : p ≤ j
    · exact ((Lost.wilder 0 p j _ (by omega) (h0 j ⟨le_refl _, by omega⟩)).round 4).mono (fun i hi => by simp [blanks] at hi ⊢; omega)
    · exact Lost.none (fun i hi => by simp [blanks] at hi; omega) _
  case williamsR p =>
    simp only [Ind.calcTi, WilliamsR.calcTi] at h
    split_ifs at h
    simp only [Except.ok.injEq] at h
    subst h
    simp only [List.forall_mem_cons, List.not_mem_nil, false_implies, implies_true, and_true]
    try simp only [Ind.Pos] at hp
    simp only [required, List.mem_cons, List.not_mem_nil, or_false] at hs
    rcases hs with rfl | rfl | rfl
    · exact ((((h0.rolling (le_refl 1) p hp _).subL _).divL _).scale _ |>.round 4).mono (fun i hi => by simp [blanks, days] at hi ⊢; omega)
    · exact ((((h0.rolling (le_refl 1) p hp _).subR _).divR _).scale _ |>.round 4).mono (fun i hi => by simp [blanks, days] at hi ⊢; omega)
    · exact (((h0.subR _).divL _).scale _ |>.round 4).mono (fun i hi => by simp [blanks, days] at hi ⊢; omega)
  case williamsAccumulationDistribution =>
    have hw := fun hc => lost_wad j F hc T h
    simp only [Ind.calcTi, WilliamsAccumulationDistribution.calcTi, Except.ok.injEq] at h
    subst h
    simp only [List.forall_mem_cons, List.not_mem_nil, false_implies, implies_true, and_true]
    simp only [required, List.mem_cons, List.not_mem_nil, or_false] at hs
    rcases hs with rfl | rfl | rfl
    · exact Lost.none (fun i hi => by simp [blanks] at hi) _
    · exact Lost.none (fun i hi => by simp [blanks] at hi) _
    · have := hw h0
      rw [Frame.col_single] at this
      exact this.mono (fun i hi => by simpa [blanks] using hi)
  case priceAndVolumeTrend =>
    simp only [Ind.calcTi, PriceAndVolumeTrend.calcTi] at h
    split_ifs at h
    simp only [Except.ok.injEq] at h
    subst h
    simp only [List.forall_mem_cons, List.not_mem_nil, false_implies, implies_true, and_true]
    simp only [required, List.mem_cons, List.not_mem_nil, or_false] at hs
    rcases hs with rfl | rfl
    · exact ((lost_trend j _ _ (Or.inl h0)).round 4).mono (fun i hi => by simpa [blanks] using hi)
    · by_cases hj : 1 ≤ j
      · exact ((lost_trend j _ _ (Or.inr ⟨hj, h0⟩)).round 4).mono (fun i hi => by simp [blanks] at hi; exact hi.2)
      · exact Lost.none (fun i hi => by simp [blanks] at hi; omega) _
  case directionalMovementIndex =>
    simp only [required, List.mem_cons, List.not_mem_nil, or_false] at hs
    rcases hs with rfl | rfl | rfl
    · intro c hc
      by_cases hj : 14 ≤ j
      · exact (lost_dmi j F T hj (lost_trueRange_high j F h0 j ⟨le_refl _, by omega⟩) h c hc).mono
          (fun i hi => by simp [blanks] at hi; exact hi.2)
      · exact Lost.none (fun i hi => by simp [blanks] at hi; omega) _
    · intro c hc
      by_cases hj : 14 ≤ j
      · exact (lost_dmi j F T hj (lost_trueRange_low j F h0 j ⟨le_refl _, by omega⟩) h c hc).mono
          (fun i hi => by simp [blanks] at hi; exact hi.2)
      · exact Lost.none (fun i hi => by simp [blanks] at hi; omega) _
    · intro c hc
      by_cases hj : 14 ≤ j + 1
      · exact (lost_dmi (j + 1) F T hj (lost_trueRange_close j F h0 (j + 1) ⟨le_refl _, by omega⟩) h c hc).mono
          (fun i hi => by simp [blanks] at hi; exact hi.2)
      · exact Lost.none (fun i hi => by simp [blanks] at hi; omega) _
  case forecastOscillator p =>
    simp only [Ind.calcTi, ForecastOscillator.calcTi] at h
    split_ifs at h
    · cases h
    · simp only [Except.bind_eq_ok, pure, Except.pure, Except.ok.injEq] at h
      obtain ⟨t, ht, rfl⟩ := h
      simp only [List.forall_mem_singleton]
      simp only [required, List.mem_cons, List.not_mem_nil, or_false] at hs
      subst hs
      exact ((h0.divR _).round 4).mono (fun i hi => by simp [blanks, days] at hi ⊢; omega)
  case projectionOscillator p =>
    simp only [Ind.calcTi, ProjectionOscillator.calcTi] at h
    split_ifs at h
    · cases h
    · simp only [Except.bind_eq_ok, pure, Except.pure, Except.ok.injEq] at h
      obtain ⟨t, ht, rfl⟩ := h
      simp only [List.forall_mem_cons, List.not_mem_nil, false_implies, implies_true, and_true]
      simp only [required, List.mem_cons, List.not_mem_nil, or_false] at hs
      rcases hs with rfl | rfl | rfl
      · exact ⟨Lost.none (fun i hi => by simp [blanks] at hi) _, Lost.none (fun i hi => by simp [blanks] at hi) _⟩
      · exact ⟨Lost.none (fun i hi => by simp [blanks] at hi) _, Lost.none (fun i hi => by simp [blanks] at hi) _⟩
      · exact ⟨((((h0.subL _).scale 100).divL _).round 4).mono (fun i hi => by simp [blanks, days] at hi ⊢; omega),
          Lost.none (fun i hi => by simp [blanks] at hi) _⟩
  case movingAverage p t =>
    simp only [Ind.calcTi, MovingAverage.calcTi] at h
    simp only [required, List.mem_cons, List.not_mem_nil, or_false] at hs
    subst hs
    split_ifs at h
    · cases h
    · cases h
    · cases h
    · simp only [Except.bind_eq_ok, pure, Except.pure, Except.ok.injEq] at h
      obtain ⟨ma, hma, rfl⟩ := h
      simp only [List.forall_mem_singleton]
      cases t
      case simple =>
        simp only [Except.ok.injEq] at hma
        subst hma
        exact ((h0.rolling (le_refl 1) p hp.1 _).round 4).mono (fun i hi => by simp [blanks, days] at hi ⊢; omega)
      case exponential => exact Lost.none (fun i hi => by simp [blanks] at hi) _
      case timeSeries => exact Lost.none (fun i hi => by simp [blanks] at hi) _
      case triangular =>
        simp only [Except.ok.injEq] at hma
        subst hma
        have := hp.1
        exact (((h0.rolling (le_refl 1) p hp.1 _).rolling (by omega) p hp.1 _).round 4).mono
          (fun i hi => by simp [blanks, days] at hi ⊢; omega)
      case variableType =>
        simp only [Except.bind_eq_ok, Except.ok.injEq] at hma
        obtain ⟨cmo, -, rfl⟩ := hma
        by_cases hj : 21 ≤ j
        · exact ((lost_variableMa p j hj _ _ h0).round 4).mono (fun i hi => by simp [blanks] at hi; exact hi.2)
        · exact Lost.none (fun i hi => by simp [blanks] at hi; omega) _

end TTI
