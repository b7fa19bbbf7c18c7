import Verif.Lemmas.Unit

set_option autoImplicit false

/-!
# The price-like indicators of scaled prices, class by class
-/

namespace TTI

open Spec

section
variable {c : ℚ} (hc : 0 < c)
include hc

omit hc in
theorem fillna_scl (xs : List Val) : fillna 0 (scl c xs) = scl c (fillna 0 xs) := by
  apply map_scl
  intro x
  rw [sc_isNan]
  split_ifs
  · exact sc_zero.symm
  · rfl

omit hc in
theorem shiftBack_scl (k : ℕ) (xs : List Val) : shiftBack k (scl c xs) = scl c (shiftBack k xs) := by
  unfold shiftBack
  have : scl c xs ++ List.replicate k Val.nan = scl c (xs ++ List.replicate k Val.nan) := by
    unfold scl; rw [List.map_append, List.map_replicate]; rfl
  rw [this, scl_drop, scl_take, scl_length]

omit hc in
theorem allFin_scl (xs : List Val) : allFin (scl c xs) = (allFin xs).map (List.map (c * ·)) := by
  induction xs with
  | nil => rfl
  | cons x xs ih =>
    cases x <;> try rfl
    simp only [scl, List.map_cons, sc, allFin]
    rw [show List.map (sc c) xs = scl c xs from rfl, ih]
    cases allFin xs <;> rfl

omit hc in
theorem lsFit_scl (v w : List ℚ) :
    lsFit ((v.map (c * ·)).zip w) = (c * (lsFit (v.zip w)).1, c * (lsFit (v.zip w)).2) := by
  have hz : (v.map (c * ·)).zip w = (v.zip w).map fun p => (c * p.1, p.2) := by rw [List.zip_map_left]; rfl
  rw [hz]
  have hs : ∀ f : ℚ × ℚ → ℚ, (((v.zip w).map fun p => (c * p.1, p.2)).map fun p => p.1 * f p).sum = ((v.zip w).map fun p => c * (p.1 * f (c * p.1, p.2))).sum := by
    intro f
    rw [List.map_map]
    congr 1
    apply List.map_congr_left
    intro p _
    simp only [Function.comp]
    ring
  have h1 : (((v.zip w).map fun p => (c * p.1, p.2)).map fun p => p.1).sum = c * ((v.zip w).map fun p => p.1).sum := by
    rw [List.map_map, ← sum_map_mul, List.map_map]; rfl
  have h2 : (((v.zip w).map fun p => (c * p.1, p.2)).map fun p => p.1 * p.2).sum = c * ((v.zip w).map fun p => p.1 * p.2).sum := by
    rw [List.map_map, ← sum_map_mul, List.map_map]
    congr 1
    apply List.map_congr_left
    intro p _
    simp only [Function.comp]; ring
  have h3 : (((v.zip w).map fun p => (c * p.1, p.2)).map fun p => p.2) = (v.zip w).map fun p => p.2 := by
    rw [List.map_map]; rfl
  have h4 : (((v.zip w).map fun p => (c * p.1, p.2)).map fun p => p.2 * p.2) = (v.zip w).map fun p => p.2 * p.2 := by
    rw [List.map_map]; rfl
  unfold lsFit
  simp only [h1, h2, h3, h4, List.length_map, Prod.mk.injEq]
  constructor <;> ring

omit hc in
theorem rollingOLS_scl (w : ℕ) (xs : List Val) :
    rollingOLS w (scl c xs) = (rollingOLS w xs).map fun p => (sc c p.1, sc c p.2) := by
  unfold rollingOLS
  apply prefixMap_map
  intro pre
  rw [List.length_map]
  split_ifs
  · have : window w (pre.map (sc c)) = scl c (window w pre) := scl_window _ _
    rw [this, allFin_scl]
    cases allFin (window w pre) with
    | none => rfl
    | some v => simp only [Option.map_some, lsFit_scl]; rfl
  · rfl

omit hc in
theorem slopes_scl (w : ℕ) (xs : List Val) :
    (rollingOLS w (scl c xs)).map (·.2) = scl c ((rollingOLS w xs).map (·.2)) := by
  rw [rollingOLS_scl]; unfold scl; rw [List.map_map, List.map_map]; rfl

theorem lri_scl (w n : ℕ) (xs : List Val) :
    List.zipWith (fun (p : Val × Val) i => Val.add p.1 (Val.mul (.fin ((i : ℕ) : ℚ)) p.2)) (rollingOLS w (scl c xs)) (List.range n) =
      scl c (List.zipWith (fun (p : Val × Val) i => Val.add p.1 (Val.mul (.fin ((i : ℕ) : ℚ)) p.2)) (rollingOLS w xs) (List.range n)) := by
  rw [rollingOLS_scl, List.zipWith_map_left]
  unfold scl
  rw [List.map_zipWith]
  congr 1
  funext p i
  rw [sc_mul_right hc, sc_add hc]

omit hc in
theorem lri_round (w n : ℕ) (xs : List Val) :
    List.zipWith (fun (p : Val × Val) i => Val.round 4 (Val.add p.1 (Val.mul (.fin ((i : ℕ) : ℚ)) p.2))) (rollingOLS w xs) (List.range n) =
      roundS 4 (List.zipWith (fun (p : Val × Val) i => Val.add p.1 (Val.mul (.fin ((i : ℕ) : ℚ)) p.2)) (rollingOLS w xs) (List.range n)) := by
  unfold roundS
  rw [List.map_zipWith]

theorem band_scl (pick : Val → Val → Val) (hp : ∀ x y, pick (sc c x) (sc c y) = sc c (pick x y)) (w : ℕ) (xs ys : List Val) :
    Ind.ProjectionBands.band pick w (scl c xs) (scl c ys) = scl c (Ind.ProjectionBands.band pick w xs ys) := by
  have hz : (scl c xs).zip (scl c ys) = (xs.zip ys).map fun p => (sc c p.1, sc c p.2) := by
    unfold scl; rw [List.zip_map]; rfl
  unfold Ind.ProjectionBands.band
  rw [hz]
  apply prefixMap_map
  intro pre
  rw [List.length_map]
  split_ifs
  · rfl
  · rw [← List.map_reverse]
    cases pre.reverse with
    | nil => rfl
    | cons a older =>
      obtain ⟨p0, s⟩ := a
      simp only [List.map_cons]
      have hf : ∀ (l : List Val) (z : Val), (scl c l).foldl pick (sc c z) = sc c (l.foldl pick z) := by
        intro l
        induction l with
        | nil => intro z; rfl
        | cons x l ih => intro z; simp only [scl, List.map_cons, List.foldl_cons, hp]; exact ih _
      rw [← hf]
      congr 1
      have h1 : (List.map (fun x => x.1) (List.take (w - 1) (List.map (fun p : Val × Val => (sc c p.1, sc c p.2)) older))) =
          (List.map (fun x => x.1) (List.take (w - 1) older)).map (sc c) := by
        rw [← List.map_take, List.map_map, List.map_map]; rfl
      rw [h1, List.zipIdx_map]
      unfold scl
      rw [List.map_map, List.map_map]
      apply List.map_congr_left
      intro q _
      simp only [Function.comp, Prod.map, id_eq]
      rw [sc_mul_right hc, sc_add hc]

/-! ### Parabolic SAR -/

open Ind.ParabolicSAR

omit hc in
theorem foldl_scl (f : Val → Val → Val) (hf : ∀ x y, f (sc c x) (sc c y) = sc c (f x y)) (l : List Val) (z : Val) :
    (scl c l).foldl f (sc c z) = sc c (l.foldl f z) := by
  induction l generalizing z with
  | nil => rfl
  | cons x l ih => simp only [scl, List.map_cons, List.foldl_cons, hf]; exact ih _

omit hc in
theorem getD_scl (xs : List Val) (i : ℕ) : (scl c xs).getD i .nan = sc c (xs.getD i .nan) := by
  unfold scl
  rw [List.getD_eq_getElem?_getD, List.getD_eq_getElem?_getD, List.getElem?_map]
  cases xs[i]? <;> rfl

theorem sliceMax_scl (xs : List Val) (a b : ℕ) : sliceMax (scl c xs) a b = sc c (sliceMax xs a b) := by
  unfold sliceMax
  rw [scl_take, scl_drop]
  cases (xs.take b).drop a with
  | nil => rfl
  | cons x l => exact foldl_scl _ (sc_maxNan hc) _ _

theorem sliceMin_scl (xs : List Val) (a b : ℕ) : sliceMin (scl c xs) a b = sc c (sliceMin xs a b) := by
  unfold sliceMin
  rw [scl_take, scl_drop]
  cases (xs.take b).drop a with
  | nil => rfl
  | cons x l => exact foldl_scl _ (sc_minNan hc) _ _

/-- A row of the SAR table with scaled prices. -/
def rowScale (c : ℚ) (r : Row) : Row := ⟨r.af, sc c r.ep, sc c r.sar, r.long, r.start⟩

theorem firstRow_scl (h l : List Val) : firstRow (scl c h) (scl c l) = rowScale c (firstRow h l) := by
  unfold firstRow
  simp only [getD_scl, sc_lt hc]
  split_ifs <;> rfl

theorem sarOf_scl (h l : List Val) (i : ℕ) (r : Row) : sarOf (scl c h) (scl c l) i (rowScale c r) = sc c (sarOf h l i r) := by
  unfold sarOf rowScale
  simp only [sliceMin_scl hc, sliceMax_scl hc, sc_sub hc, sc_mul_right hc, sc_add hc, sc_pmin hc, sc_pmax hc]
  split_ifs <;> rfl

theorem rowAt_scl (h l : List Val) (i : ℕ) : rowAt (scl c h) (scl c l) i = rowScale c (rowAt h l i) := by
  induction i with
  | zero => exact firstRow_scl hc h l
  | succ i ih =>
    unfold rowAt
    rw [ih]
    generalize rowAt h l i = r
    have hp : penetrated (scl c h) (scl c l) (i + 1) (rowScale c r) = penetrated h l (i + 1) r := by
      unfold penetrated
      rw [sarOf_scl hc]
      simp only [rowScale, getD_scl, sc_lt hc]
    have he : extreme (scl c h) (scl c l) (i + 1) (rowScale c r) = sc c (extreme h l (i + 1) r) := by
      unfold extreme rowScale
      simp only [sliceMax_scl hc, sliceMin_scl hc]
      split_ifs <;> rfl
    unfold nextRow
    rw [hp, he, sarOf_scl hc]
    split_ifs
    · unfold reversed rowScale
      simp only [sliceMax_scl hc, sliceMin_scl hc, getD_scl]
      split_ifs <;> rfl
    · simp only [rowScale, accel, sc_lt hc]

theorem variableMa_scl (p : ℕ) (xs ys : List Val) :
    Ind.MovingAverage.variableMa p ((scl c xs).zip ys) = scl c (Ind.MovingAverage.variableMa p (xs.zip ys)) := by
  rw [Ind.zip_scl_left]
  unfold Ind.MovingAverage.variableMa
  apply prefixMap_map
  intro pre
  rw [← List.map_drop]
  cases pre.drop 21 with
  | nil => rfl
  | cons a l =>
    simp only [List.map_cons]
    generalize a.1 = z
    induction l generalizing z with
    | nil => rfl
    | cons x l ih =>
      simp only [List.map_cons, List.foldl_cons]
      rw [sc_mul_right hc, sc_mul_left hc, sc_mul_right hc, sc_add hc]
      exact ih _

theorem wadRow_scl (x y z w : Val) : Ind.WilliamsAccumulationDistribution.row (sc c x) (sc c y) (sc c z) (sc c w) =
    sc c (Ind.WilliamsAccumulationDistribution.row x y z w) := by
  unfold Ind.WilliamsAccumulationDistribution.row
  simp only [sc_maxNan hc, sc_minNan hc, sc_sub hc, sc_lt_zero hc, zero_lt_sc hc]
  split_ifs <;> rfl

theorem wad_scl (xs ys zs ws : List Val) :
    List.zipWith (fun (p q : Val × Val) => Ind.WilliamsAccumulationDistribution.row p.1 p.2 q.1 q.2) ((scl c xs).zip (scl c ys)) ((scl c zs).zip (scl c ws)) =
      scl c (List.zipWith (fun (p q : Val × Val) => Ind.WilliamsAccumulationDistribution.row p.1 p.2 q.1 q.2) (xs.zip ys) (zs.zip ws)) := by
  have hz : ∀ xs ys : List Val, (scl c xs).zip (scl c ys) = (xs.zip ys).map fun p => (sc c p.1, sc c p.2) := by
    intro xs ys; unfold scl; rw [List.zip_map]; rfl
  rw [hz, hz]
  exact zipWith_scl _ _ _ _ _ _ fun p q => wadRow_scl hc _ _ _ _

theorem maxOf_scl (xs : List Val) : maxOf (scl c xs) = sc c (maxOf xs) := by
  have := foldl_scl maxSkip (sc_maxSkip hc) xs .nan
  rwa [sc_nan] at this

theorem minOf_scl (xs : List Val) : minOf (scl c xs) = sc c (minOf xs) := by
  have := foldl_scl minSkip (sc_minSkip hc) xs .nan
  rwa [sc_nan] at this

theorem middle_scl (w : ℕ) (F : Frame) : Ind.IchimokuCloud.middle w (F.scale c 1) = scl c (Ind.IchimokuCloud.middle w F) := by
  unfold Ind.IchimokuCloud.middle
  simp only [scale_col, factor, String.reduceEq, if_false, rolling_scl _ _ _ (agg_max hc), rolling_scl _ _ _ (agg_min hc),
    addS_scl hc, divBy_scl hc]

theorem rowMeans_scl (F : Frame) (hn : ∀ col ∈ F.cols, col.1 ≠ "volume") :
    (F.scale c 1).rows.map meanSkip = scl c (F.rows.map meanSkip) := by
  rw [scale_rows _ _ _ hn]
  unfold scl
  rw [List.map_map, List.map_map]
  apply List.map_congr_left
  intro r _
  exact meanSkip_scl hc r

/-! ## Outcomes -/

/-- Two outcomes whose columns follow each other. -/
def Near (k : ℚ) (c : ℚ) : Except Err Frame → Except Err Frame → Prop
  | .ok T, .ok T' => T'.idx = T.idx ∧ List.Forall₂ (fun a b => a.1 = b.1 ∧ FollowsS k c a.2 b.2) T.cols T'.cols
  | .error e, .error e' => e = e'
  | _, _ => False

omit hc in
theorem Near.sameUpTo {k : ℚ} {a b : Except Err Frame} (h : Near k c a b) : SameUpTo (Follows k c) a b := by
  cases a <;> cases b <;> try exact h
  rename_i T T'
  obtain ⟨h1, h2⟩ := h
  obtain ⟨idx, cols⟩ := T
  obtain ⟨idx', cols'⟩ := T'
  simp only at h2
  refine ⟨h1, ?_, ?_⟩
  · simp only
    clear h1
    induction h2 with
    | nil => rfl
    | cons h _ ih => simp only [List.map_cons, ih, h.1]
  · intro name i
    have : FollowsS k c (Frame.col ⟨idx, cols⟩ name) (Frame.col ⟨idx', cols'⟩ name) := by
      unfold Frame.col
      clear h1
      simp only
      induction h2 with
      | nil => exact .nil
      | @cons x y _ _ h _ ih =>
        simp only [List.find?_cons, ← h.1]
        cases hx : x.1 == name
        · exact ih
        · exact h.2
    exact this.val i

omit hc in
theorem Near.guard {k : ℚ} (p : Prop) [Decidable p] (e : Err) {a b : Except Err Frame} (h : Near k c a b) :
    Near k c (if p then .error e else a) (if p then .error e else b) := by
  split_ifs
  · exact rfl
  · exact h

omit hc in
theorem near_one {k : ℚ} (idx : List ℤ) (n : String) {xs ys : List Val} (h : FollowsS k c xs ys) :
    Near k c (.ok ⟨idx, [(n, xs)]⟩) (.ok ⟨idx, [(n, ys)]⟩) := ⟨rfl, .cons ⟨rfl, h⟩ .nil⟩

/-- The sum of two columns with missing values skipped. -/
theorem Follows.sum2 {k l : ℚ} (hk : 0 ≤ k) (hl : 0 ≤ l) {v w v' w' : Val} (h : Follows k c v w) (h' : Follows l c v' w') :
    Follows (k + l) c (sumSkip [v, v']) (sumSkip [w, w']) := by
  have hz : Follows 0 c 0 0 := by
    show |(0 : ℚ) - c * 0| ≤ _
    simp
  have hn : v.isNan = w.isNan := by cases v <;> cases w <;> simp_all [Follows, Val.isNan]
  have hn' : v'.isNan = w'.isNan := by cases v' <;> cases w' <;> simp_all [Follows, Val.isNan]
  have e : ∀ a b : Val, sumSkip [a, b] = if a.isNan then (if b.isNan then 0 else Val.add 0 b) else
      if b.isNan then Val.add 0 a else Val.add (Val.add 0 a) b := by
    intro a b
    cases a <;> cases b <;> rfl
  rw [e, e, ← hn, ← hn']
  have h1 := Follows.add hc hz h
  have h2 := Follows.add hc hz h'
  rw [zero_add] at h1 h2
  split_ifs
  · exact Follows.mono (by linarith) hc hz
  · exact Follows.mono (by linarith) hc h2
  · exact Follows.mono (by linarith) hc h1
  · exact Follows.add hc h1 h'

theorem near_forecast (p : ℕ) (F : Frame) :
    (∃ e, Ind.TimeSeriesForecast.forecast p F = .error e ∧ Ind.TimeSeriesForecast.forecast p (F.scale c 1) = .error e) ∨
    ∃ xs ys, Ind.TimeSeriesForecast.forecast p F = .ok xs ∧ Ind.TimeSeriesForecast.forecast p (F.scale c 1) = .ok ys ∧
      FollowsS (2 / 20000) c xs ys := by
  have hcol : ∀ (idx : List ℤ) (n : String) (xs : List Val), Frame.col ⟨idx, [(n, xs)]⟩ n = xs := by
    intro idx n xs; simp [Frame.col]
  unfold Ind.TimeSeriesForecast.forecast
  rw [scale_sub c 1 hc one_pos]
  generalize F.sub ["close"] = G
  by_cases h : G.len < p
  · left
    have h' : (G.scale c 1).len < p := h
    unfold Ind.LinearRegressionSlope.calcTi
    rw [if_pos h, if_pos h']
    exact ⟨_, rfl, rfl⟩
  · right
    have h' : ¬ (G.scale c 1).len < p := h
    unfold Ind.LinearRegressionSlope.calcTi Ind.LinearRegressionIndicator.calcTi
    rw [if_neg h, if_neg h', if_neg h, if_neg h']
    simp only [bind, Except.bind, pure, Except.pure, hcol]
    refine ⟨_, _, rfl, rfl, FollowsS.maskBefore ?_ _⟩
    simp only [scale_len, scale_col, factor, String.reduceEq, if_false, mulS_scl_left hc, mulS_scl_right hc,
      rolling_scl _ _ _ agg_sum, scaleS_scl hc, subS_scl hc, divS_scl_left hc, fillna_scl, lri_round, lri_scl hc]
    have hs : ∀ v w v' w', Follows (1 / 20000) c v w → Follows (1 / 20000) c v' w' →
        Follows (2 / 20000) c (sumSkip [v, v']) (sumSkip [w, w']) := by
      intro v w v' w' h h'
      have := Follows.sum2 hc (by norm_num) (by norm_num) h h'
      rwa [show (1 / 20000 + 1 / 20000 : ℚ) = 2 / 20000 by norm_num] at this
    unfold sumRows
    exact FollowsS.zip (fun x y => sumSkip [x, y]) (2 / 20000) hs (FollowsS.rounded hc _) (FollowsS.rounded hc _)

theorem cmo_inv (p : ℕ) (F : Frame) : Ind.ChandeMomentumOscillator.calcTi p (F.scale c 1) = Ind.ChandeMomentumOscillator.calcTi p F := by
  simp only [Ind.ChandeMomentumOscillator.calcTi, scale_col, scale_len, scale_idx, factor, String.reduceEq, if_false,
    diffS_scl hc, zeroBelow_scl hc, zeroAbove_scl hc, rolling_scl _ _ _ agg_sum, absS_scl hc, addS_scl hc, subS_scl hc,
    scaleS_scl hc, divS_scl hc]

theorem near_movingAverage (p : ℕ) (t : Ind.MaType) (d : Dimension) (hk : dimension (.movingAverage p t) = some d) (F : Frame) :
    d.price = 1 ∧ d.volume = 0 ∧ Near d.error c (Ind.MovingAverage.calcTi p t F) (Ind.MovingAverage.calcTi p t (F.scale c 1)) := by
  have hd : d.price = 1 ∧ d.volume = 0 := by
    cases t <;> simp only [dimension, Option.some.injEq] at hk <;> subst hk <;> exact ⟨rfl, rfl⟩
  refine ⟨hd.1, hd.2, ?_⟩
  unfold Ind.MovingAverage.calcTi
  by_cases h1 : F.len < p ∧ t ≠ .variableType
  · have h1' : (F.scale c 1).len < p ∧ t ≠ .variableType := h1
    rw [if_pos h1, if_pos h1']; exact rfl
  have h1' : ¬ ((F.scale c 1).len < p ∧ t ≠ .variableType) := h1
  by_cases h2 : F.len < 22 ∧ t = .variableType
  · have h2' : (F.scale c 1).len < 22 ∧ t = .variableType := h2
    rw [if_neg h1, if_neg h1', if_pos h2, if_pos h2']; exact rfl
  have h2' : ¬ ((F.scale c 1).len < 22 ∧ t = .variableType) := h2
  rw [if_neg h1, if_neg h1', if_neg h2, if_neg h2']
  simp only [scale_col, factor, String.reduceEq, if_false, scale_idx]
  cases t <;> simp only [dimension, Option.some.injEq] at hk <;> subst hk
  · simp only [rolling_scl _ _ _ agg_mean]; exact near_one _ _ (FollowsS.rounded hc _)
  · simp only [ewm_scl hc]; exact near_one _ _ (FollowsS.rounded hc _)
  · rcases near_forecast hc p F with ⟨e, h3, h4⟩ | ⟨xs, ys, h3, h4, h5⟩
    · simp only [h3, h4]; exact rfl
    · simp only [h3, h4]; exact near_one _ _ (h5.round' hc (by norm_num))
  · simp only [rolling_scl _ _ _ agg_mean]; exact near_one _ _ (FollowsS.rounded hc _)
  · rw [scale_sub c 1 hc one_pos, cmo_inv hc]
    cases Ind.ChandeMomentumOscillator.calcTi 9 (F.sub ["close"]) with
    | error e => exact rfl
    | ok T =>
      simp only [variableMa_scl hc]
      exact near_one _ _ (FollowsS.rounded hc _)

theorem near_timeSeriesForecast (p : ℕ) (F : Frame) :
    Near (3 / 20000) c (Ind.TimeSeriesForecast.calcTi p F) (Ind.TimeSeriesForecast.calcTi p (F.scale c 1)) := by
  unfold Ind.TimeSeriesForecast.calcTi
  by_cases h1 : F.len < p
  · have h1' : (F.scale c 1).len < p := h1
    rw [if_pos h1, if_pos h1']; exact rfl
  have h1' : ¬ (F.scale c 1).len < p := h1
  rw [if_neg h1, if_neg h1']
  rcases near_forecast hc p F with ⟨e, h3, h4⟩ | ⟨xs, ys, h3, h4, h5⟩
  · simp only [h3, h4]; exact rfl
  · simp only [h3, h4]; exact near_one _ _ (h5.round' hc (by norm_num))

/-- The classes that measure prices. -/
theorem calcTi_prices (E : Env) (ind : Ind) (d : Dimension) (hk : dimension ind = some d) (h1 : d.price = 1) (h0 : d.volume = 0)
    (hq : usesRoot ind = true → ∀ q, E.sq (c ^ 2 * q) = c * E.sq q) (F : Frame)
    (hn : ∀ col ∈ F.cols, col.1 ∈ ind.required) : Near d.error c (ind.calcTi E F) (ind.calcTi E (F.scale c 1)) := by
  have R : ∀ (xs ys : List Val), ys = scl c xs → FollowsS (1 / 20000) c (roundS 4 xs) (roundS 4 ys) := by
    rintro xs _ rfl; exact FollowsS.rounded hc xs
  cases ind <;> first
    | (simp [dimension, freeOfPriceUnit, freeOfVolumeUnit, Ind.required] at hk; done)
    | (simp only [dimension, Option.some.injEq] at hk; subst hk; norm_num at h1; done)
    | (simp only [dimension, Option.some.injEq] at hk; subst hk; norm_num at h0; done)
    | (simp [dimension, freeOfPriceUnit, freeOfVolumeUnit, Ind.required] at hk; subst hk; norm_num at h1; done)
    | skip
  case movingAverage p t => exact (near_movingAverage hc p t d hk F).2.2
  case timeSeriesForecast p =>
    simp only [dimension, Option.some.injEq] at hk; subst hk
    exact near_timeSeriesForecast hc p F
  all_goals (simp only [dimension, Option.some.injEq] at hk; subst hk)
  all_goals simp only [Ind.calcTi]
  case averageTrueRange =>
    simp only [Ind.AverageTrueRange.calcTi, scale_len, scale_idx, Ind.trueRange_scl hc maxSkip (sc_maxSkip hc), scl_take,
      scl_drop, meanSkip_scl hc]
    apply Near.guard
    apply near_one
    apply FollowsS.append (followsS_replicate _ _ (follows_nan _ _))
    apply R
    exact ewmAlpha_scl hc _ _ (_ :: _)
  case fibonacciRetracement =>
    simp only [Ind.FibonacciRetracement.calcTi, scale_col, scale_len, scale_idx, factor, String.reduceEq, if_false,
      maxOf_scl hc, minOf_scl hc, sc_sub hc, sc_mul_right hc]
    refine ⟨rfl, ?_⟩
    simp only
    rw [List.forall₂_map_left_iff, List.forall₂_map_right_iff, List.forall₂_same]
    intro l _
    refine ⟨rfl, followsS_replicate _ _ ?_⟩
    have := Follows.round hc (follows_sc hc (Val.sub (maxOf (F.col "close")) (Val.mul (.fin l.2) (Val.sub (maxOf (F.col "close")) (minOf (F.col "close"))))))
    rwa [zero_add] at this
  case ichimokuCloud =>
    simp only [Ind.IchimokuCloud.calcTi, middle_scl hc, scale_idx, addS_scl hc, divBy_scl hc, shift_scl]
    exact ⟨rfl, .cons ⟨rfl, R _ _ rfl⟩ (.cons ⟨rfl, R _ _ rfl⟩ (.cons ⟨rfl, R _ _ rfl⟩ (.cons ⟨rfl, R _ _ rfl⟩ .nil)))⟩
  case parabolicSAR =>
    simp only [Ind.ParabolicSAR.calcTi, scale_col, scale_len, scale_idx, factor, String.reduceEq, if_false, rowAt_scl hc]
    apply Near.guard
    apply near_one
    rw [FollowsS, List.forall₂_map_left_iff, List.forall₂_map_right_iff, List.forall₂_same]
    intro i _
    have := Follows.round hc (follows_sc hc (rowAt (F.col "high") (F.col "low") i).sar)
    rwa [zero_add] at this
  case typicalPrice p =>
    simp only [Ind.TypicalPrice.calcTi, scale_idx]
    rw [rowMeans_scl hc F (by
      intro col hcol
      have := hn col hcol
      intro he
      rw [he] at this
      revert this
      simp only [Ind.required]; decide)]
    exact near_one _ _ (R _ _ rfl)
  case bollingerBands p s =>
    simp only [Ind.BollingerBands.calcTi, scale_col, scale_len, scale_idx, factor, String.reduceEq, if_false,
      rolling_scl _ _ _ agg_mean, rolling_scl _ _ _ (agg_std E.sq (hq rfl) 0),
      map_scl (c := c) (fun x => Val.mul x s) (fun x => sc_mul_left hc x s)]
    apply Near.guard
    exact ⟨rfl, .cons ⟨rfl, (R _ _ rfl).mono (by norm_num) hc⟩ (.cons ⟨rfl, ((R _ _ rfl).addS hc (followsS_scl hc _)).round' hc (by norm_num)⟩
      (.cons ⟨rfl, ((R _ _ rfl).subS hc (followsS_scl hc _)).round' hc (by norm_num)⟩ .nil))⟩
  case movingAverageConvergenceDivergence =>
    simp only [Ind.MovingAverageConvergenceDivergence.calcTi, scale_col, scale_len, scale_idx, factor, String.reduceEq,
      if_false, ewm_scl hc]
    apply Near.guard
    have hm := (R (ewm 12 12 (F.col "close")) _ rfl).subS hc (R (ewm 26 26 (F.col "close")) _ rfl)
    exact ⟨rfl, .cons ⟨rfl, hm.round' hc (by norm_num)⟩ (.cons ⟨rfl, (hm.ewm hc 9 9 (by norm_num)).round' hc (by norm_num)⟩ .nil)⟩
  case standardDeviation p =>
    simp only [Ind.StandardDeviation.calcTi, scale_col, scale_len, scale_idx, factor, String.reduceEq, if_false,
      rolling_scl _ _ _ (agg_std E.sq (hq rfl) 0)]
    exact Near.guard _ _ (near_one _ _ (R _ _ rfl))
  case envelopes p s =>
    simp only [Ind.Envelopes.calcTi, scale_col, scale_len, scale_idx, factor, String.reduceEq, if_false,
      rolling_scl _ _ _ agg_mean, scaleS_scl hc]
    exact Near.guard _ _ ⟨rfl, .cons ⟨rfl, R _ _ rfl⟩ (.cons ⟨rfl, R _ _ rfl⟩ .nil)⟩
  case priceChannel p =>
    simp only [Ind.PriceChannel.calcTi, scale_col, scale_len, scale_idx, factor, String.reduceEq, if_false,
      rolling_scl _ _ _ (agg_max hc), rolling_scl _ _ _ (agg_min hc), shift_scl]
    exact Near.guard _ _ ⟨rfl, .cons ⟨rfl, R _ _ rfl⟩ (.cons ⟨rfl, R _ _ rfl⟩ .nil)⟩
  case projectionBands p =>
    simp only [Ind.ProjectionBands.calcTi, scale_col, scale_len, scale_idx, factor, String.reduceEq, if_false,
      fillna_scl, slopes_scl, band_scl hc _ (sc_pmax hc), band_scl hc _ (sc_pmin hc)]
    exact Near.guard _ _ ⟨rfl, .cons ⟨rfl, R _ _ rfl⟩ (.cons ⟨rfl, R _ _ rfl⟩ .nil)⟩
  case detrendedPriceOscillator p =>
    simp only [Ind.DetrendedPriceOscillator.calcTi, scale_col, scale_len, scale_idx, factor, String.reduceEq, if_false,
      rolling_scl _ _ _ agg_mean, shiftBack_scl, subS_scl hc, scl_take]
    exact Near.guard _ _ (near_one _ _ (R _ _ rfl))
  case medianPrice p =>
    simp only [Ind.MedianPrice.calcTi, scale_col, scale_idx, factor, String.reduceEq, if_false, addS_scl hc, scaleS_scl hc]
    exact near_one _ _ (R _ _ rfl)
  case weightedClose =>
    simp only [Ind.WeightedClose.calcTi, scale_col, scale_idx, factor, String.reduceEq, if_false, addS_scl hc, scaleS_scl hc, divBy_scl hc]
    exact near_one _ _ (R _ _ rfl)
  case williamsAccumulationDistribution =>
    simp only [Ind.WilliamsAccumulationDistribution.calcTi, scale_col, scale_idx, factor, String.reduceEq, if_false, shift_scl, wad_scl hc]
    exact near_one _ _ (R _ _ rfl)
  all_goals
    simp only [Ind.DoubleExponentialMovingAverage.calcTi, Ind.TripleExponentialMovingAverage.calcTi, Ind.Qstick.calcTi,
      Ind.WildersSmoothing.calcTi, Ind.LinearRegressionIndicator.calcTi, Ind.LinearRegressionSlope.calcTi,
      scale_col, scale_len, scale_idx, factor, String.reduceEq, if_false, ewm_scl hc, scaleS_scl hc, subS_scl hc, addS_scl hc,
      rolling_scl _ _ _ agg_sum, divBy_scl hc, wilder_scl hc, fillna_scl, lri_round, lri_scl hc, mulS_scl_left hc, mulS_scl_right hc,
      divS_scl_left hc]
    exact Near.guard _ _ (near_one _ _ (R _ _ rfl))

end
end TTI
