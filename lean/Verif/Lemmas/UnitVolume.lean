import Verif.Lemmas.UnitInd

set_option autoImplicit false

/-!
# Values that are measured in volumes, and all classes together
-/

namespace TTI

open Spec

theorem sc_one' (x : Val) : sc 1 x = x := by cases x <;> simp [sc]

theorem scale_scale (p q v w : ℚ) (F : Frame) : (F.scale p v).scale q w = F.scale (q * p) (w * v) := by
  unfold Frame.scale
  simp only [List.map_map]
  congr 1
  apply List.map_congr_left
  intro col _
  simp only [Function.comp, Prod.mk.injEq, true_and]
  unfold scl factor
  rw [List.map_map]
  apply List.map_congr_left
  intro x _
  cases x <;> simp only [Function.comp, sc]
  split_ifs <;> simp [mul_assoc]

theorem scale_no_volume' (p v w : ℚ) (F : Frame) (hn : ∀ col ∈ F.cols, col.1 ≠ "volume") : F.scale p v = F.scale p w := by
  unfold Frame.scale
  congr 1
  apply List.map_congr_left
  intro col hcol
  simp only [factor, if_neg (hn col hcol)]

theorem sc_div_right {c : ℚ} (hc : 0 < c) (x y : Val) : Val.div x (sc c y) = sc (1 / c) (Val.div x y) := by
  have hc' : 0 < 1 / c := by positivity
  cases y with
  | fin b =>
    by_cases hb : b = 0
    · subst hb
      rw [show sc c (Val.fin 0) = .fin 0 by simp [sc]]
      have : ∀ z : Val, (z = .nan ∨ z = .pinf ∨ z = .ninf) → z = sc (1 / c) z := by
        rintro z (rfl | rfl | rfl) <;> rfl
      apply this
      cases x with
      | nan => simp [Val.div]
      | pinf => simp [Val.div, Val.infMul]
      | ninf => simp [Val.div, Val.infMul]
      | fin a =>
        simp only [Val.div]
        split_ifs <;> simp
    · have : c * b ≠ 0 := by positivity
      cases x with
      | fin a => simp only [sc, Val.div, if_neg hb, if_neg this, Val.fin.injEq]; field_simp
      | nan => rfl
      | pinf | ninf =>
        simp only [sc, Val.div, Val.infMul]
        have h1 : (0 < c * b) = (0 < b) := by simp [hc]
        have h2 : (c * b < 0) = (b < 0) := by simp [mul_neg_iff, hc, hc.le.not_gt]
        simp only [hb, this, h1, h2, if_false]
        split_ifs <;> rfl
  | nan => cases x <;> rfl
  | pinf | ninf =>
    cases x with
    | fin a => simp [sc, Val.div]
    | nan => rfl
    | pinf => rfl
    | ninf => rfl

section
variable {v : ℚ} (hv : 0 < v)
include hv

theorem divS_scl_right (xs ys : List Val) : divS xs (scl v ys) = scl (1 / v) (divS xs ys) := by
  have := zipWith_scl (c := 1 / v) Val.div Val.div id (sc v) xs ys fun x y => sc_div_right hv x y
  rwa [List.map_id] at this

theorem cumsum_scl (xs : List Val) : cumsum (scl v xs) = scl v (cumsum xs) := by
  unfold cumsum
  apply prefixMap_map
  intro pre
  rw [List.getLast?_map]
  have h : ((pre.getLast?.map (sc v)).getD .nan).isNan = (pre.getLast?.getD .nan).isNan := by
    cases pre.getLast? with
    | none => rfl
    | some x => exact sc_isNan x
  rw [h]
  split_ifs
  · rfl
  · exact sumSkip_scl hv pre

omit hv in
theorem signedVolume_scl (hv : 0 < v) (xs ys zs : List Val) :
    zip3 Ind.OnBalanceVolume.signedVolume xs ys (scl v zs) = scl v (zip3 Ind.OnBalanceVolume.signedVolume xs ys zs) := by
  unfold zip3
  have hz : ys.zip (scl v zs) = (ys.zip zs).map fun p => (p.1, sc v p.2) := by unfold scl; rw [List.zip_map_right]; rfl
  rw [hz]
  have := zipWith_scl (c := v) (fun x (p : Val × Val) => Ind.OnBalanceVolume.signedVolume x p.1 p.2)
    (fun x (p : Val × Val) => Ind.OnBalanceVolume.signedVolume x p.1 p.2) id (fun p => (p.1, sc v p.2)) xs (ys.zip zs) (by
      intro x p
      simp only [Ind.OnBalanceVolume.signedVolume, id_eq, sc_neg hv]
      split_ifs
      · rfl
      · rfl
      · exact sc_zero.symm)
  rwa [List.map_id] at this

theorem trend_volume (xs ys : List Val) :
    Ind.PriceAndVolumeTrend.trend (xs.zip (scl v ys)) = scl v (Ind.PriceAndVolumeTrend.trend (xs.zip ys)) := by
  have hz : xs.zip (scl v ys) = (xs.zip ys).map fun p => (p.1, sc v p.2) := by unfold scl; rw [List.zip_map_right]; rfl
  rw [hz]
  unfold Ind.PriceAndVolumeTrend.trend
  apply prefixMap_map
  intro pre
  cases pre with
  | nil => rfl
  | cons a l =>
    simp only [List.map_cons]
    have : ∀ (l : List (Val × Val)) (w a : Val),
        ((l.map fun p => (p.1, sc v p.2)).foldl (fun (st : Val × Val) r =>
          (Val.add st.1 (Val.mul (Val.sub r.1 st.2) (Val.div r.2 st.2)), r.1)) (sc v w, a)).1 =
        sc v (l.foldl (fun (st : Val × Val) r =>
          (Val.add st.1 (Val.mul (Val.sub r.1 st.2) (Val.div r.2 st.2)), r.1)) (w, a)).1 := by
      intro l
      induction l with
      | nil => intro w a; rfl
      | cons b l ih =>
        intro w a
        simp only [List.map_cons, List.foldl_cons]
        rw [sc_div_left hv, sc_mul_right hv, sc_add hv]
        exact ih _ _
    have h := this l 0 a.1
    rwa [sc_zero] at h

theorem trunc_close (q : ℚ) : |(Ind.truncQ q : ℚ) - q| ≤ 1 := by
  unfold Ind.truncQ
  split_ifs
  · rw [abs_le]; constructor <;> linarith [Int.floor_le q, Int.lt_floor_add_one q]
  · push_cast; rw [abs_le]; constructor <;> linarith [Int.floor_le (-q), Int.lt_floor_add_one (-q)]

theorem follows_astypeInt (xs : List Val) : FollowsS 1 v (Ind.astypeInt xs) (Ind.astypeInt (scl v xs)) := by
  unfold Ind.astypeInt
  rw [allFin_scl]
  cases h : allFin xs with
  | none => exact (followsS_scl hv xs).mono zero_le_one hv
  | some l =>
    simp only [Option.map_some, List.map_map]
    rw [FollowsS, List.forall₂_map_left_iff, List.forall₂_map_right_iff, List.forall₂_same]
    intro q _
    show |(Ind.truncQ (v * q) : ℚ) - v * Ind.truncQ q| ≤ _
    have h1 := trunc_close hv q
    have h2 := trunc_close hv (v * q)
    rw [abs_le] at *
    constructor <;> nlinarith [h1.1, h1.2, h2.1, h2.2]

theorem near_adl (F : Frame) :
    ∃ xs ys, Ind.AccumulationDistributionLine.calcTi F = .ok ⟨F.idx, [("adl", xs)]⟩ ∧
      Ind.AccumulationDistributionLine.calcTi (F.scale 1 v) = .ok ⟨F.idx, [("adl", ys)]⟩ ∧ FollowsS 1 v xs ys := by
  refine ⟨_, _, rfl, rfl, ?_⟩
  rw [mfv_volume hv, cumsum_scl hv]
  exact follows_astypeInt hv _

/-- The classes that measure volumes. -/
theorem calcTi_volumes (E : Env) (ind : Ind) (d : Dimension) (hk : dimension ind = some d) (h0 : d.price = 0) (h1 : d.volume = 1)
    (F : Frame) : Near d.error v (ind.calcTi E F) (ind.calcTi E (F.scale 1 v)) := by
  have R : ∀ (xs ys : List Val), ys = scl v xs → FollowsS (1 / 20000) v (roundS 4 xs) (roundS 4 ys) := by
    rintro xs _ rfl; exact FollowsS.rounded hv xs
  have hcol : ∀ (idx : List ℤ) (n : String) (xs : List Val), Frame.col ⟨idx, [(n, xs)]⟩ n = xs := by
    intro idx n xs; simp [Frame.col]
  cases ind <;> first
    | (simp [dimension, freeOfPriceUnit, freeOfVolumeUnit, Ind.required] at hk; done)
    | (simp only [dimension, Option.some.injEq] at hk; subst hk; norm_num at h1; done)
    | (simp only [dimension, Option.some.injEq] at hk; subst hk; norm_num at h0; done)
    | (simp [dimension, freeOfPriceUnit, freeOfVolumeUnit, Ind.required] at hk; subst hk; norm_num at h1; done)
    | skip
  case movingAverage p t =>
    exfalso
    cases t <;> simp only [dimension, Option.some.injEq] at hk <;> subst hk <;> norm_num at h0
  all_goals (simp only [dimension, Option.some.injEq] at hk; subst hk)
  all_goals simp only [Ind.calcTi]
  case accumulationDistributionLine =>
    obtain ⟨xs, ys, e1, e2, h⟩ := near_adl hv F
    rw [e1, e2]
    exact near_one _ _ h
  case chaikinOscillator =>
    unfold Ind.ChaikinOscillator.calcTi
    by_cases h : F.len < 10
    · have h' : (F.scale 1 v).len < 10 := h
      rw [if_pos h, if_pos h']; exact rfl
    · have h' : ¬ (F.scale 1 v).len < 10 := h
      rw [if_neg h, if_neg h', scale_sub 1 v one_pos hv]
      obtain ⟨xs, ys, e1, e2, h3⟩ := near_adl hv (F.sub ["close", "volume", "high", "low"])
      rw [e1, e2]
      simp only [pure, Except.pure, bind, Except.bind, hcol, scale_idx]
      exact near_one _ _ (((h3.ewm hv 3 3 (by norm_num)).subS hv (h3.ewm hv 10 10 (by norm_num))).round' hv (by norm_num))
  case klingerOscillator =>
    simp only [Ind.KlingerOscillator.calcTi, scale_col, scale_len, scale_idx, factor, String.reduceEq, if_false, if_true,
      scl_one, mulS_scl_left hv, map_scl (c := v) (fun x => Val.mul x 100) (fun x => sc_mul_left hv x 100), ewm_scl hv, subS_scl hv]
    exact Near.guard _ _ (near_one _ _ (R _ _ rfl))
  case onBalanceVolume =>
    simp only [Ind.OnBalanceVolume.calcTi, scale_col, scale_idx, factor, String.reduceEq, if_false, if_true, scl_one,
      signedVolume_scl hv, cumsum_scl hv]
    exact near_one _ _ (followsS_scl hv _)
  case priceAndVolumeTrend =>
    simp only [Ind.PriceAndVolumeTrend.calcTi, scale_col, scale_len, scale_idx, factor, String.reduceEq, if_false, if_true,
      scl_one, trend_volume hv]
    exact Near.guard _ _ (near_one _ _ (R _ _ rfl))
  case volumeOscillator l s =>
    simp only [Ind.VolumeOscillator.calcTi, scale_col, scale_len, scale_idx, factor, if_true, rolling_scl _ _ _ agg_mean,
      subS_scl hv]
    exact Near.guard _ _ (near_one _ _ (R _ _ rfl))

end

theorem scl_scl (a b : ℚ) (xs : List Val) : scl a (scl b xs) = scl (a * b) xs := by
  unfold scl
  rw [List.map_map]
  apply List.map_congr_left
  intro x _
  cases x <;> simp [sc, mul_assoc]

theorem near_refl (k c : ℚ) (hk : 0 ≤ k) (hc : c = 1) (a : Except Err Frame) : Near k c a a := by
  subst hc
  cases a with
  | error e => exact rfl
  | ok T =>
    refine ⟨rfl, ?_⟩
    rw [List.forall₂_same]
    intro col _
    refine ⟨rfl, ?_⟩
    have := (followsS_scl one_pos col.2).mono hk one_pos
    rwa [scl_one] at this

/-- All classes that have a dimension. -/
theorem calcTi_dimension {p v : ℚ} (hp : 0 < p) (hv : 0 < v) (E : Env) (ind : Ind) (d : Dimension) (hk : dimension ind = some d)
    (hq : usesRoot ind = true → ∀ q, E.sq (p ^ 2 * q) = p * E.sq q) (F : Frame)
    (hn : ∀ col ∈ F.cols, col.1 ∈ ind.required) : Near d.error (d.factor p v) (ind.calcTi E F) (ind.calcTi E (F.scale p v)) := by
  -- prices only
  by_cases h1 : d.price = 1 ∧ d.volume = 0
  · have hf : d.factor p v = p := by unfold Dimension.factor; rw [h1.1, h1.2]; simp
    have hnv : "volume" ∉ ind.required := by
      cases ind <;> first
        | (simp only [Ind.required]; decide)
        | (exfalso; simp only [dimension, Option.some.injEq] at hk; subst hk; norm_num at h1; done)
        | (exfalso; simp [dimension, freeOfPriceUnit, freeOfVolumeUnit, Ind.required] at hk; done)
        | (exfalso; simp [dimension, freeOfPriceUnit, freeOfVolumeUnit, Ind.required] at hk; subst hk; norm_num at h1; done)
    rw [hf, scale_no_volume' p v 1 F fun col hc he => hnv (he ▸ hn col hc)]
    exact calcTi_prices hp E ind d hk h1.1 h1.2 hq F hn
  have hpf : ∀ G : Frame, (∀ col ∈ G.cols, col.1 ∈ ind.required) → freeOfPriceUnit ind = true →
      ind.calcTi E (G.scale p 1) = ind.calcTi E G := by
    intro G hG h
    have h' := (priceFree_iff ind).2 h
    by_cases hu : ∃ n, ind = .relativeVolatilityIndex n
    · obtain ⟨n, rfl⟩ := hu
      exact calcTi_price hp E (hq rfl) _ h' G hG
    · have key := calcTi_price hp ⟨fun _ => 0, E.weights⟩ (fun q => by simp) ind h' G hG
      have hE : ∀ G, ind.calcTi ⟨fun _ => 0, E.weights⟩ G = ind.calcTi E G := by
        intro G
        cases ind <;> first | rfl | (exact h'.elim) | exact absurd ⟨_, rfl⟩ hu
      rwa [hE, hE] at key
  have hsplit : F.scale p v = (F.scale 1 v).scale p 1 := by rw [scale_scale, mul_one, one_mul]
  have hn' : ∀ col ∈ (F.scale 1 v).cols, col.1 ∈ ind.required := by
    intro col hcol
    simp only [Frame.scale, List.mem_map] at hcol
    obtain ⟨col', h, rfl⟩ := hcol
    exact hn col' h
  -- volumes only
  by_cases h2 : d.price = 0 ∧ d.volume = 1
  · have hf : d.factor p v = v := by unfold Dimension.factor; rw [h2.1, h2.2]; simp
    have hfree : freeOfPriceUnit ind = true := by
      cases ind <;> first
        | rfl
        | (exfalso; simp only [dimension, Option.some.injEq] at hk; subst hk; norm_num at h2; done)
        | (exfalso; simp [dimension, freeOfPriceUnit, freeOfVolumeUnit, Ind.required] at hk; done)
        | skip
      rename_i p t
      exfalso
      cases t <;> simp only [dimension, Option.some.injEq] at hk <;> subst hk <;> norm_num at h2
    rw [hf, hsplit, hpf _ hn' hfree]
    exact calcTi_volumes hv E ind d hk h2.1 h2.2 F
  -- no unit
  by_cases h3 : freeOfPriceUnit ind = true ∧ freeOfVolumeUnit ind = true
  · have hd : d = ⟨0, 0, 0⟩ := by
      cases ind <;> first
        | (exfalso; simp [freeOfPriceUnit] at h3; done)
        | (exfalso; simp [freeOfVolumeUnit, Ind.required] at h3; done)
        | (simp [dimension, freeOfPriceUnit, freeOfVolumeUnit, Ind.required] at hk; exact hk.symm)
    rw [hsplit, hpf _ hn' h3.1, calcTi_volume hv E ind h3.2 F hn]
    subst hd
    exact near_refl _ _ le_rfl (by simp [Dimension.factor]) _
  -- the rest
  cases ind <;> first
    | (exfalso; simp [dimension, freeOfPriceUnit, freeOfVolumeUnit, Ind.required] at hk; done)
    | (exfalso; apply h3; exact ⟨rfl, rfl⟩)
    | (exfalso; simp only [dimension, Option.some.injEq] at hk; subst hk; first | exact h1 ⟨rfl, rfl⟩ | exact h2 ⟨rfl, rfl⟩)
    | skip
  case movingAverage p t =>
    exfalso
    cases t <;> simp only [dimension, Option.some.injEq] at hk <;> subst hk <;> exact h1 ⟨rfl, rfl⟩
  all_goals (simp only [dimension, Option.some.injEq] at hk; subst hk)
  all_goals simp only [Ind.calcTi]
  case marketFacilitationIndex =>
    have hf : Dimension.factor ⟨1, -1, 1 / 20000000000⟩ p v = 1 / v * p := by simp [Dimension.factor]; ring
    have hpos : 0 < 1 / v * p := by positivity
    simp only [Ind.MarketFacilitationIndex.calcTi, scale_col, scale_idx, factor, String.reduceEq, if_false, if_true, hf,
      subS_scl hp, divS_scl_left hp, divS_scl_right hv, scl_scl]
    apply near_one
    unfold roundS
    rw [FollowsS, List.forall₂_map_left_iff, List.forall₂_map_right_iff]
    unfold scl
    rw [List.forall₂_map_right_iff, List.forall₂_same]
    intro x _
    have h := Follows.roundTo hpos 10 (follows_sc hpos x)
    rw [mul_comm p (1 / v)]
    rwa [show (0 + 1 / (2 * 10 ^ 10) : ℚ) = 1 / 20000000000 by norm_num] at h
  case easeOfMovement n =>
    have hf : Dimension.factor ⟨2, -1, 1 / 20000⟩ p v = p * (1 / (1 / p * v)) := by
      simp [Dimension.factor]; field_simp
    have hpos : 0 < p * (1 / (1 / p * v)) := by positivity
    have hb : 0 < v * (1 / p) := by positivity
    simp only [Ind.EaseOfMovement.calcTi, scale_col, scale_len, scale_idx, factor, String.reduceEq, if_false, if_true, hf,
      subS_scl hp, addS_scl hp, shift_scl, scaleS_scl hp, divS_scl_left hp, divS_scl_left hv, divS_scl_right hp, scl_scl]
    rw [show 1 / p * v = v * (1 / p) by ring] at *
    simp only [divS_scl_right hb, scl_scl, rolling_scl _ _ _ agg_mean]
    apply Near.guard
    exact ⟨rfl, .cons ⟨rfl, FollowsS.rounded hpos _⟩ (.cons ⟨rfl, FollowsS.rounded hpos _⟩ .nil)⟩

end TTI
