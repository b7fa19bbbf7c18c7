import Verif.Lemmas.Scale

set_option autoImplicit false

/-!
# Indicators on scaled data
-/

namespace TTI

/-- The factor of a column: volumes by `v`, prices by `p`. -/
def factor (p v : ℚ) (name : String) : ℚ := if name = "volume" then v else p

/-- All columns multiplied. -/
def Frame.scale (p v : ℚ) (F : Frame) : Frame := ⟨F.idx, F.cols.map fun c => (c.1, scl (factor p v c.1) c.2)⟩

theorem scale_col (p v : ℚ) (F : Frame) (n : String) : (F.scale p v).col n = scl (factor p v n) (F.col n) := by
  unfold Frame.col Frame.scale
  simp only [List.find?_map, Function.comp_def]
  cases h : F.cols.find? fun c => c.1 == n with
  | none => rfl
  | some c =>
    have : c.1 = n := by simpa using List.find?_some h
    simp only [Option.map_some, Option.getD_some, this]

theorem scale_len (p v : ℚ) (F : Frame) : (F.scale p v).len = F.len := rfl
theorem scale_idx (p v : ℚ) (F : Frame) : (F.scale p v).idx = F.idx := rfl

theorem factor_pos (p v : ℚ) (hp : 0 < p) (hv : 0 < v) (n : String) : 0 < factor p v n := by
  unfold factor; split_ifs <;> assumption

theorem scale_sub (p v : ℚ) (hp : 0 < p) (hv : 0 < v) (F : Frame) (ns : List String) :
    (F.scale p v).sub ns = (F.sub ns).scale p v := by
  unfold Frame.sub Frame.restrict Frame.scale
  simp only [List.filter_map, List.map_map, Function.comp_def]
  congr 1
  apply List.map_congr_left
  intro c _
  simp only [ffill_scl (factor_pos p v hp hv c.1), bfill_scl (factor_pos p v hp hv c.1)]

theorem scale_rows (p v : ℚ) (F : Frame) (hn : ∀ c ∈ F.cols, c.1 ≠ "volume") :
    (F.scale p v).rows = F.rows.map (scl p) := by
  unfold Frame.rows Frame.scale
  rw [List.map_map]
  apply List.map_congr_left
  intro i _
  simp only [Function.comp, List.map_map, scl]
  apply List.map_congr_left
  intro c hc
  simp only [Function.comp, factor, if_neg (hn c hc)]
  simp only [List.getD_eq_getElem?_getD, List.getElem?_map]
  cases c.2[i]? <;> rfl

section
variable {c : ℚ} (hc : 0 < c)
include hc

namespace Ind

theorem trueRange_scl (pick : Val → Val → Val) (h : ∀ x y, pick (sc c x) (sc c y) = sc c (pick x y)) (F : Frame) :
    trueRange pick (F.scale c 1) = scl c (trueRange pick F) := by
  unfold trueRange
  simp only [scale_col, factor, String.reduceEq, if_false, shift_scl, subS_scl hc]
  exact zip3_scl hc _ (fun x y z => by rw [h, h]) _ _ _

omit hc in
theorem zip_scl_left (xs ys : List Val) : (scl c xs).zip ys = (xs.zip ys).map fun p => (sc c p.1, p.2) := by
  unfold scl; rw [List.zip_map_left]; rfl

theorem volumeIndex_scl (m : Val → Val → Bool) (xs ys : List Val) :
    volumeIndex m ((scl c xs).zip ys) = volumeIndex m (xs.zip ys) := by
  rw [zip_scl_left]
  unfold volumeIndex
  conv_rhs => rw [← List.map_id (prefixMap _ _)]
  apply prefixMap_map
  intro pre
  cases pre with
  | nil => rfl
  | cons a l =>
    simp only [List.map_cons, id_eq]
    have : ∀ (l : List (Val × Val)) (w : Val) (a : Val × Val),
        ((l.map fun p => (sc c p.1, p.2)).foldl (fun (st : Val × (Val × Val)) r =>
          (if m st.2.2 r.2 then Val.add st.1 (Val.mul (Val.sub r.1 st.2.1) (Val.div st.1 st.2.1)) else st.1, r)) (w, (sc c a.1, a.2))).1 =
        (l.foldl (fun (st : Val × (Val × Val)) r =>
          (if m st.2.2 r.2 then Val.add st.1 (Val.mul (Val.sub r.1 st.2.1) (Val.div st.1 st.2.1)) else st.1, r)) (w, a)).1 := by
      intro l
      induction l with
      | nil => intro w a; rfl
      | cons b l ih =>
        intro w a
        simp only [List.map_cons, List.foldl_cons]
        rw [sc_sub hc, sc_relative hc]
        exact ih _ _
    exact this l _ a

theorem trend_scl (xs ys : List Val) :
    PriceAndVolumeTrend.trend ((scl c xs).zip ys) = PriceAndVolumeTrend.trend (xs.zip ys) := by
  rw [zip_scl_left]
  unfold PriceAndVolumeTrend.trend
  conv_rhs => rw [← List.map_id (prefixMap _ _)]
  apply prefixMap_map
  intro pre
  cases pre with
  | nil => rfl
  | cons a l =>
    simp only [List.map_cons, id_eq]
    have : ∀ (l : List (Val × Val)) (w a : Val),
        ((l.map fun p => (sc c p.1, p.2)).foldl (fun (st : Val × Val) r =>
          (Val.add st.1 (Val.mul (Val.sub r.1 st.2) (Val.div r.2 st.2)), r.1)) (w, sc c a)).1 =
        (l.foldl (fun (st : Val × Val) r =>
          (Val.add st.1 (Val.mul (Val.sub r.1 st.2) (Val.div r.2 st.2)), r.1)) (w, a)).1 := by
      intro l
      induction l with
      | nil => intro w a; rfl
      | cons b l ih =>
        intro w a
        simp only [List.map_cons, List.foldl_cons]
        rw [sc_sub hc, sc_relative hc]
        exact ih _ _
    exact this l _ _

theorem cumulative_scl (ts xs : List Val) :
    KlingerOscillator.cumulative (ts.zip (scl c xs)) = scl c (KlingerOscillator.cumulative (ts.zip xs)) := by
  have hz : ts.zip (scl c xs) = (ts.zip xs).map fun p => (p.1, sc c p.2) := by
    unfold scl; rw [List.zip_map_right]; rfl
  rw [hz]
  unfold KlingerOscillator.cumulative
  apply prefixMap_map
  intro pre
  cases pre with
  | nil => rfl
  | cons a l =>
    simp only [List.map_cons]
    have : ∀ (l : List (Val × Val)) (w : Val) (a : Val × Val),
        ((l.map fun p => (p.1, sc c p.2)).foldl (fun (st : Val × (Val × Val)) r =>
          (if Val.eqv r.1 st.2.1 then Val.add st.1 r.2 else Val.add st.2.2 r.2, r)) (sc c w, (a.1, sc c a.2))).1 =
        sc c (l.foldl (fun (st : Val × (Val × Val)) r =>
          (if Val.eqv r.1 st.2.1 then Val.add st.1 r.2 else Val.add st.2.2 r.2, r)) (w, a)).1 := by
      intro l
      induction l with
      | nil => intro w a; rfl
      | cons b l ih =>
        intro w a
        simp only [List.map_cons, List.foldl_cons]
        rw [sc_add hc, sc_add hc, ← apply_ite (sc c)]
        exact ih _ _
    have := this l 0 a
    rwa [sc_zero] at this

theorem direction_inv (x : Val) : KlingerOscillator.direction (sc c x) = KlingerOscillator.direction x := by
  unfold KlingerOscillator.direction
  simp only [zero_lt_sc hc]
  by_cases h : ((0 : Val) <ᵥ x) = true
  · simp only [if_pos h]
  · simp only [if_neg h, sc_le_zero hc]
    by_cases h2 : (x ≤ᵥ 0) = true
    · simp only [if_pos h2]
    · simp only [if_neg h2]
      cases x with
      | fin q =>
        exfalso
        have a : ¬ (0 < q) := by
          intro hq; apply h; show Val.lt (.fin 0) (.fin q) = true; simp [Val.lt, hq]
        have b : ¬ (q ≤ 0) := by
          intro hq; apply h2; show Val.le (.fin q) (.fin 0) = true; simp [Val.le, hq]
        exact b (not_lt.1 a)
      | nan => rfl
      | pinf => rfl
      | ninf => rfl

theorem dm_scl (f : Val → Val → Val → Val → Val)
    (h : ∀ x y z w, f (sc c x) (sc c y) (sc c z) (sc c w) = sc c (f x y z w)) (F : Frame) :
    DirectionalMovementIndex.dm f (F.scale c 1) = scl c (DirectionalMovementIndex.dm f F) := by
  unfold DirectionalMovementIndex.dm
  simp only [scale_col, factor, String.reduceEq, if_false, shift_scl]
  have hz : ∀ xs ys : List Val, (scl c xs).zip (scl c ys) = (xs.zip ys).map fun p => (sc c p.1, sc c p.2) := by
    intro xs ys; unfold scl; rw [List.zip_map]; rfl
  rw [hz, hz, ← maskBefore_scl]
  congr 1
  exact zipWith_scl _ _ _ _ _ _ fun p q => h _ _ _ _

theorem plusDm_scl (x y z w : Val) : DirectionalMovementIndex.plusDm (sc c x) (sc c y) (sc c z) (sc c w) =
    sc c (DirectionalMovementIndex.plusDm x y z w) := by
  unfold DirectionalMovementIndex.plusDm
  rw [sc_sub hc, sc_sub hc, sc_lt hc, zero_lt_sc hc]
  split_ifs
  · rfl
  · exact sc_zero.symm

theorem minusDm_scl (x y z w : Val) : DirectionalMovementIndex.minusDm (sc c x) (sc c y) (sc c z) (sc c w) =
    sc c (DirectionalMovementIndex.minusDm x y z w) := by
  unfold DirectionalMovementIndex.minusDm
  rw [sc_sub hc, sc_sub hc, sc_lt hc, zero_lt_sc hc]
  split_ifs
  · rfl
  · exact sc_zero.symm

theorem smooth14_scl (xs : List Val) :
    DirectionalMovementIndex.smooth14 (scl c xs) = scl c (DirectionalMovementIndex.smooth14 xs) := by
  unfold DirectionalMovementIndex.smooth14
  apply prefixMap_map
  intro pre
  rw [List.length_map]
  split_ifs
  · rfl
  · have h1 : ∀ (l : List Val) (z : Val), (scl c l).foldl (fun prev x => Val.add (Val.sub prev (Val.div prev 14)) x) (sc c z) =
        sc c (l.foldl (fun prev x => Val.add (Val.sub prev (Val.div prev 14)) x) z) := by
      intro l
      induction l with
      | nil => intro z; rfl
      | cons x l ih =>
        intro z
        simp only [scl, List.map_cons, List.foldl_cons]
        rw [sc_div_left hc, sc_sub hc, sc_add hc]
        exact ih _
    have h2 : sumSkip ((pre.map (sc c)).take 14) = sc c (sumSkip (pre.take 14)) := by
      rw [← sumSkip_scl hc, ← scl_take]; rfl
    rw [h2, ← List.map_drop]
    exact h1 _ _

theorem differences_scl (p : ℕ) (xs ys : List Val) :
    CommodityChannelIndex.differences p ((scl c xs).zip (scl c ys)) =
      scl c (CommodityChannelIndex.differences p (xs.zip ys)) := by
  have hz : (scl c xs).zip (scl c ys) = (xs.zip ys).map fun p => (sc c p.1, sc c p.2) := by
    unfold scl; rw [List.zip_map]; rfl
  rw [hz]
  unfold CommodityChannelIndex.differences
  apply prefixMap_map
  intro pre
  rw [List.length_map]
  split_ifs
  · rfl
  · have hw : window p (pre.map fun p => (sc c p.1, sc c p.2)) = (window p pre).map fun p => (sc c p.1, sc c p.2) := by
      unfold window; rw [List.length_map, List.map_drop]
    simp only [hw, List.getLast?_map]
    cases (window p pre).getLast? with
    | none => exact sc_zero.symm
    | some last =>
      simp only [Option.map_some, List.map_map, Function.comp_def, sc_sub hc, sc_abs hc]
      have := foldl_add_scl hc ((window p pre).map fun r => Val.abs (Val.sub last.1 r.2)) 0
      rw [sc_zero] at this
      simp only [scl, List.map_map, Function.comp_def] at this
      exact this

theorem rmi_inv (p m : ℕ) (xs : List Val) : RelativeMomentumIndex.raw p m (scl c xs) = RelativeMomentumIndex.raw p m xs := by
  unfold RelativeMomentumIndex.raw
  have hu : ∀ ys : List Val, (scl c ys).map RelativeMomentumIndex.upward = scl c (ys.map RelativeMomentumIndex.upward) := by
    intro ys
    apply map_scl
    intro x
    unfold RelativeMomentumIndex.upward
    rw [sc_le_zero hc, zero_lt_sc hc]
    split_ifs
    · exact sc_zero.symm
    · rfl
    · rfl
  have hd : ∀ ys : List Val, (scl c ys).map RelativeMomentumIndex.downward = scl c (ys.map RelativeMomentumIndex.downward) := by
    intro ys
    apply map_scl
    intro x
    unfold RelativeMomentumIndex.downward
    rw [zero_le_sc hc, sc_lt_zero hc]
    split_ifs
    · exact sc_zero.symm
    · exact sc_abs hc x
    · rfl
  simp only [shift_scl, subS_scl hc, hu, hd, wilder_scl hc, divS_scl hc]

theorem selected_scl (sq : ℚ → ℚ) (hq : ∀ q, sq (c ^ 2 * q) = c * sq q) (sel : Val → Bool) (hs : ∀ x, sel (sc c x) = sel x)
    (xs : List Val) : RelativeVolatilityIndex.selected sq sel (scl c xs) = scl c (RelativeVolatilityIndex.selected sq sel xs) := by
  unfold RelativeVolatilityIndex.selected
  rw [shift_scl, subS_scl hc, rolling_scl _ _ _ (agg_std sq hq 0)]
  apply zipV_scl
  intro x y
  rw [hs]
  split_ifs
  · rfl
  · exact sc_zero.symm

theorem half_inv (sq : ℚ → ℚ) (hq : ∀ q, sq (c ^ 2 * q) = c * sq q) (p : ℕ) (xs : List Val) :
    RelativeVolatilityIndex.half sq p (scl c xs) = RelativeVolatilityIndex.half sq p xs := by
  unfold RelativeVolatilityIndex.half
  simp only [selected_scl hc sq hq (fun x => (0 : Val) <ᵥ x) (zero_lt_sc hc), selected_scl hc sq hq (fun x => x <ᵥ 0) (sc_lt_zero hc), wilder_scl hc, scaleS_scl hc,
    addS_scl hc, divS_scl hc]

theorem ratio_inv (w : ℕ) (xs ys : List Val) : UltimateOscillator.ratio w (scl c xs) (scl c ys) = UltimateOscillator.ratio w xs ys := by
  unfold UltimateOscillator.ratio
  rw [rolling_scl _ _ _ agg_sum, rolling_scl _ _ _ agg_sum, divS_scl hc]

theorem argmin_inv (xs : List Val) : UltimateOscillator.argmin (scl c xs) = UltimateOscillator.argmin xs := by
  unfold UltimateOscillator.argmin
  have h1 : (scl c xs).all Val.isNan = xs.all Val.isNan := by
    unfold scl; rw [List.all_map]; congr 1; funext x; exact sc_isNan x
  have h2 : ((scl c xs).map fun x => if x.isNan then Val.pinf else x) = scl c (xs.map fun x => if x.isNan then Val.pinf else x) := by
    apply map_scl; intro x; rw [sc_isNan]; split_ifs <;> rfl
  have h3 : ∀ (ys : List Val) (z : Val), (scl c ys).foldl minSkip (sc c z) = sc c (ys.foldl minSkip z) := by
    intro ys
    induction ys with
    | nil => intro z; rfl
    | cons y ys ih =>
      intro z
      simp only [scl, List.map_cons, List.foldl_cons]
      rw [sc_minSkip hc]; exact ih _
  simp only [h1, h2]
  split_ifs
  · rfl
  · have := h3 (xs.map fun x => if x.isNan then Val.pinf else x) .nan
    rw [sc_nan] at this
    rw [this]
    congr 1
    unfold scl
    rw [List.findIdx_map]
    congr 1
    funext y
    simp only [Function.comp, sc_eqv hc]

theorem moneyFlow_inv (F : Frame) : moneyFlowVolume (F.scale c 1) = moneyFlowVolume F := by
  unfold moneyFlowVolume
  simp only [scale_col, factor, String.reduceEq, if_false, if_true, subS_scl hc, scl_one, mulS_scl_right hc, divS_scl hc]

theorem signedVolume_inv (xs ys zs : List Val) :
    zip3 OnBalanceVolume.signedVolume (scl c xs) (scl c ys) zs = zip3 OnBalanceVolume.signedVolume xs ys zs := by
  unfold zip3
  rw [zip_scl_left]
  unfold scl
  rw [List.zipWith_map]
  congr 1
  funext x p
  unfold OnBalanceVolume.signedVolume
  simp only [sc_lt hc]

end Ind

/-- The classes whose values do not change when all prices are multiplied. -/
def Ind.PriceFree : Ind → Prop
  | .accumulationDistributionLine | .chaikinMoneyFlow _ | .chaikinOscillator | .chandeMomentumOscillator _
  | .commodityChannelIndex _ | .directionalMovementIndex | .intradayMomentumIndex _ | .klingerOscillator | .massIndex
  | .momentum _ | .negativeVolumeIndex | .onBalanceVolume | .performance _ _ | .positiveVolumeIndex
  | .priceAndVolumeTrend | .priceOscillator _ _ | .priceRateOfChange _ | .relativeMomentumIndex _ _
  | .relativeVolatilityIndex _ | .stochasticMomentumIndex _ _ _ | .stochasticOscillator _ _ _ _ | .ultimateOscillator
  | .verticalHorizontalFilter _ | .volatilityChaikins _ _ | .volumeOscillator _ _ | .volumeRateOfChange _ | .williamsR _ => True
  | _ => False

theorem calcTi_price (E : Env) (hq : ∀ q, E.sq (c ^ 2 * q) = c * E.sq q) (ind : Ind) (h : ind.PriceFree) (F : Frame)
    (hn : ∀ col ∈ F.cols, col.1 ∈ ind.required) : ind.calcTi E (F.scale c 1) = ind.calcTi E F := by
  cases ind <;> (try exact h.elim)
  all_goals simp only [Ind.calcTi]
  case commodityChannelIndex p =>
    have hr : (F.scale c 1).rows = F.rows.map (scl c) := scale_rows _ _ _ (by
      intro col hcol
      have := hn col hcol
      intro he
      rw [he] at this
      revert this
      simp only [Ind.required]; decide)
    have ht : ((F.rows.map (scl c)).map fun r => Val.div (sumSkip r) 3) = scl c (F.rows.map fun r => Val.div (sumSkip r) 3) := by
      unfold scl
      rw [List.map_map, List.map_map]
      apply List.map_congr_left
      intro r _
      have := sumSkip_scl hc r
      unfold scl at this
      simp only [Function.comp, this, sc_div_left hc]
    simp only [Ind.CommodityChannelIndex.calcTi, hr, ht, rolling_scl _ _ _ agg_mean, Ind.differences_scl hc, subS_scl hc,
      scale_len, scale_idx]
    rw [map_scl (fun x => Val.div (Val.mul (.fin (15 / 1000)) x) (.fin p)) (fun x => by rw [sc_mul_right hc, sc_div_left hc]),
      divS_scl hc]
  case klingerOscillator =>
    have hz : ∀ xs ys zs : List Val, zip3 (fun x y z => sumSkip [x, y, z]) (scl c xs) (scl c ys) (scl c zs) =
        scl c (zip3 (fun x y z => sumSkip [x, y, z]) xs ys zs) := by
      intro xs ys zs
      exact zip3_scl hc _ (fun x y z => sumSkip_scl hc [x, y, z]) _ _ _
    simp only [Ind.KlingerOscillator.calcTi, scale_col, scale_len, scale_idx, factor, String.reduceEq, if_false, if_true,
      scl_one, hz, shift_scl, subS_scl hc, map_inv _ (Ind.direction_inv hc), Ind.cumulative_scl hc, divS_scl hc]
  case performance long target =>
    simp only [Ind.Performance.calcTi, scale_col, scale_len, scale_idx, factor, String.reduceEq, if_false]
    have hh : (scl c (F.col "close")).head? = (F.col "close").head?.map (sc c) := by unfold scl; rw [List.head?_map]
    rw [hh]
    cases (F.col "close").head? with
    | none => rfl
    | some a =>
      simp only [Option.map_some]
      have hm : ((scl c (F.col "close")).map fun x => Val.div (Val.sub x (sc c a)) (sc c a)) =
          (F.col "close").map fun x => Val.div (Val.sub x a) a := by
        unfold scl
        rw [List.map_map]
        apply List.map_congr_left
        intro x _
        simp only [Function.comp, sc_sub hc, sc_div hc]
      rw [hm]
  all_goals simp only [Ind.AccumulationDistributionLine.calcTi, Ind.ChaikinMoneyFlow.calcTi, Ind.ChaikinOscillator.calcTi, Ind.ChandeMomentumOscillator.calcTi,
    Ind.DirectionalMovementIndex.calcTi, Ind.IntradayMomentumIndex.calcTi, Ind.MassIndex.calcTi, Ind.Momentum.calcTi,
    Ind.NegativeVolumeIndex.calcTi, Ind.OnBalanceVolume.calcTi, Ind.PositiveVolumeIndex.calcTi, Ind.PriceAndVolumeTrend.calcTi,
    Ind.PriceOscillator.calcTi, Ind.PriceRateOfChange.calcTi, Ind.RelativeMomentumIndex.calcTi, Ind.RelativeVolatilityIndex.calcTi,
    Ind.StochasticMomentumIndex.calcTi, Ind.StochasticOscillator.calcTi, Ind.UltimateOscillator.calcTi,
    Ind.VerticalHorizontalFilter.calcTi, Ind.VolatilityChaikins.calcTi, Ind.VolumeOscillator.calcTi,
    Ind.VolumeRateOfChange.calcTi, Ind.WilliamsR.calcTi,
    scale_col, scale_len, scale_idx, scale_sub c 1 hc one_pos, factor, String.reduceEq, if_false, if_true, scl_one,
    Ind.moneyFlow_inv hc, diffS_scl hc, zeroBelow_scl hc, zeroAbove_scl hc, rolling_scl _ _ _ agg_sum,
    rolling_scl _ _ _ agg_mean, rolling_scl _ _ _ (agg_max hc), rolling_scl _ _ _ (agg_min hc), absS_scl hc, addS_scl hc,
    subS_scl hc, scaleS_scl hc, divS_scl hc, divBy_scl hc, shift_scl, maskBefore_scl, ewm_scl hc, Ind.trueRange_scl hc maxNan (sc_maxNan hc),
    Ind.dm_scl hc _ (Ind.plusDm_scl hc), Ind.dm_scl hc _ (Ind.minusDm_scl hc), Ind.smooth14_scl hc, Ind.volumeIndex_scl hc,
    Ind.trend_scl hc, Ind.rmi_inv hc, Ind.half_inv hc E.sq hq, Ind.ratio_inv hc, zipV_scl maxNan (sc_maxNan hc),
    zipV_scl minNan (sc_minNan hc), Ind.signedVolume_inv hc]

end
end TTI
