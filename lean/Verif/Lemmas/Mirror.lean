import Verif.Lemmas.RaiseInd

set_option autoImplicit false

/-!
# Negating columns
-/

namespace TTI

/-- A negated column. -/
def ngl (xs : List Val) : List Val := xs.map Val.neg

theorem ng_ng (x : Val) : Val.neg (Val.neg x) = x := by cases x <;> simp [Val.neg]
theorem ng_zero : Val.neg 0 = 0 := by show Val.fin (-0) = Val.fin 0; rw [neg_zero]
theorem ng_add (x y : Val) : Val.add (Val.neg x) (Val.neg y) = Val.neg (Val.add x y) := by
  cases x <;> cases y <;> simp [Val.neg, Val.add]
  ring
theorem add_swap (x y : Val) : Val.add x y = Val.add y x := by
  cases x <;> cases y <;> simp [Val.add, add_comm]
theorem add_right_swap (x y z : Val) : Val.add (Val.add x y) z = Val.add (Val.add x z) y := by
  cases x <;> cases y <;> cases z <;> simp [Val.add]
  ring
theorem sub_swap (x y : Val) : Val.sub y x = Val.neg (Val.sub x y) := by
  cases x <;> cases y <;> simp [Val.neg, Val.add, Val.sub]
theorem ng_sub (x y : Val) : Val.sub (Val.neg x) (Val.neg y) = Val.neg (Val.sub x y) := by
  unfold Val.sub; rw [ng_add]
/-- The difference of negated values is the difference in the other order. -/
theorem ng_sub' (x y : Val) : Val.sub (Val.neg x) (Val.neg y) = Val.sub y x := by rw [ng_sub, ← sub_swap]
theorem ng_add_left (x y : Val) : Val.add (Val.neg x) y = Val.neg (Val.sub x y) := by
  unfold Val.sub; rw [← ng_add, ng_ng]
theorem ng_sub_left (x y : Val) : Val.sub (Val.neg x) y = Val.neg (Val.add x y) := by
  unfold Val.sub; rw [ng_add]

theorem ng_infMul (b : Bool) (q : ℚ) : Val.infMul (!b) q = Val.neg (Val.infMul b q) := by
  unfold Val.infMul
  by_cases h0 : q = 0
  · simp [h0, Val.neg]
  · cases b <;> simp only [if_neg h0, Bool.not_true, Bool.not_false] <;> by_cases h : 0 < q <;> simp [h, Val.neg]

theorem infMul_ng (b : Bool) (q : ℚ) : Val.infMul b (-q) = Val.neg (Val.infMul b q) := by
  unfold Val.infMul
  by_cases h0 : q = 0
  · simp [h0, Val.neg]
  · have : ¬ -q = 0 := by simpa using h0
    rw [if_neg h0, if_neg this]
    rcases lt_or_gt_of_ne h0 with h | h
    · have h1 : ¬ 0 < q := by linarith
      have h2 : 0 < -q := by linarith
      cases b <;> simp [h1, h2, Val.neg]
    · have h1 : ¬ 0 < -q := by linarith
      cases b <;> simp [h1, h, Val.neg]

theorem ng_mul_left (x y : Val) : Val.mul (Val.neg x) y = Val.neg (Val.mul x y) := by
  cases x <;> cases y <;> simp only [Val.neg, Val.mul, neg_mul] <;> first
  | exact infMul_ng _ _
  | exact ng_infMul true _
  | exact ng_infMul false _

theorem ng_mul_right (x y : Val) : Val.mul x (Val.neg y) = Val.neg (Val.mul x y) := by
  cases x <;> cases y <;> simp only [Val.neg, Val.mul, mul_neg] <;> first
  | exact infMul_ng _ _
  | exact ng_infMul true _
  | exact ng_infMul false _

theorem ng_div (x y : Val) : Val.div (Val.neg x) y = Val.neg (Val.div x y) := by
  cases x <;> cases y <;> simp only [Val.neg, Val.div, neg_zero]
  · split_ifs
    · rfl
    · exact ng_infMul true _
  · split_ifs
    · rfl
    · exact ng_infMul false _
  · rename_i a b
    by_cases hb : b = 0
    · simp only [if_pos hb]
      by_cases ha : a = 0
      · simp [ha]
      · have h0 : ¬ -a = 0 := by simpa using ha
        rw [if_neg ha, if_neg h0]
        rcases lt_or_gt_of_ne ha with h | h
        · rw [if_pos (by linarith), if_neg (by linarith)]
        · rw [if_neg (by linarith), if_pos h]
    · simp only [if_neg hb, neg_div]

theorem ng_abs (x : Val) : Val.abs (Val.neg x) = Val.abs x := by cases x <;> simp [Val.neg, Val.abs]
theorem ng_lt (x y : Val) : Val.lt (Val.neg x) (Val.neg y) = Val.lt y x := by
  cases x <;> cases y <;> simp [Val.neg, Val.lt]
theorem ng_le (x y : Val) : Val.le (Val.neg x) (Val.neg y) = Val.le y x := by
  cases x <;> cases y <;> simp [Val.neg, Val.le]
theorem ng_eqv (x y : Val) : Val.eqv (Val.neg x) (Val.neg y) = Val.eqv x y := by
  cases x <;> cases y <;> simp [Val.neg, Val.eqv]
theorem ng_lt_zero (x : Val) : Val.lt (Val.neg x) 0 = Val.lt 0 x := by rw [← ng_lt, ng_zero]; rw [ng_ng]
theorem zero_lt_ng (x : Val) : Val.lt 0 (Val.neg x) = Val.lt x 0 := by rw [← ng_lt, ng_zero]; rw [ng_ng]
theorem ng_isNan (x : Val) : (Val.neg x).isNan = x.isNan := by cases x <;> rfl

theorem ng_maxSkip (x y : Val) : maxSkip (Val.neg x) (Val.neg y) = Val.neg (minSkip x y) := by
  unfold maxSkip minSkip; simp only [ng_isNan, ng_lt]; split_ifs <;> rfl
theorem ng_minSkip (x y : Val) : minSkip (Val.neg x) (Val.neg y) = Val.neg (maxSkip x y) := by
  unfold maxSkip minSkip; simp only [ng_isNan, ng_lt]; split_ifs <;> rfl
theorem ng_maxNan (x y : Val) : maxNan (Val.neg x) (Val.neg y) = Val.neg (minNan x y) := by
  unfold maxNan minNan; simp only [ng_isNan, ng_lt]; split_ifs <;> rfl
theorem ng_minNan (x y : Val) : minNan (Val.neg x) (Val.neg y) = Val.neg (maxNan x y) := by
  unfold maxNan minNan; simp only [ng_isNan, ng_lt]; split_ifs <;> rfl
theorem ng_pmax (x y : Val) : Val.pmax (Val.neg x) (Val.neg y) = Val.neg (Val.pmin x y) := by
  unfold Val.pmax Val.pmin; simp only [ng_lt]; split_ifs <;> rfl
theorem ng_pmin (x y : Val) : Val.pmin (Val.neg x) (Val.neg y) = Val.neg (Val.pmax x y) := by
  unfold Val.pmax Val.pmin; simp only [ng_lt]; split_ifs <;> rfl

theorem maxSkip_swap (x y : Val) : maxSkip x y = maxSkip y x := by
  cases x <;> cases y <;> simp [maxSkip, Val.isNan, Val.lt]
  split_ifs <;> simp <;> linarith
theorem maxSkip_right_swap (x y z : Val) : maxSkip (maxSkip x y) z = maxSkip (maxSkip x z) y := by
  cases x <;> cases y <;> cases z <;> simp [maxSkip, Val.isNan, Val.lt]
  all_goals split_ifs <;> simp_all [Val.isNan, Val.lt] <;> linarith
theorem maxNan_right_swap (x y z : Val) : maxNan (maxNan x y) z = maxNan (maxNan x z) y := by
  cases x <;> cases y <;> cases z <;> simp [maxNan, Val.isNan, Val.lt]
  all_goals split_ifs <;> simp_all [Val.isNan, Val.lt] <;> linarith

/-! ## Rounding -/

theorem rint_neg (q : ℚ) : rint (-q) = - rint q := by
  unfold rint
  dsimp only
  have hf1 := Int.floor_le q
  have hf2 := Int.lt_floor_add_one q
  by_cases h : q = ⌊q⌋
  · have hf : ⌊-q⌋ = -⌊q⌋ := by
      conv_lhs => rw [h]
      rw [← Int.cast_neg, Int.floor_intCast]
    have h1 : -q - (⌊-q⌋ : ℚ) = 0 := by rw [hf]; push_cast; linarith
    have h2 : q - (⌊q⌋ : ℚ) = 0 := by linarith
    rw [h1, h2, hf]
    norm_num
  · have hlt : (⌊q⌋ : ℚ) < q := lt_of_le_of_ne hf1 (Ne.symm h)
    have hf : ⌊-q⌋ = -⌊q⌋ - 1 := by
      rw [Int.floor_eq_iff]
      push_cast
      constructor <;> linarith
    have h1 : -q - (⌊-q⌋ : ℚ) = 1 - (q - ⌊q⌋) := by rw [hf]; push_cast; ring
    rw [h1, hf]
    generalize q - (⌊q⌋ : ℚ) = d
    rcases lt_trichotomy d (1 / 2) with hd | hd | hd
    · rw [if_neg (by linarith), if_pos (by linarith), if_pos hd]; omega
    · subst hd
      norm_num
      split_ifs <;> omega
    · rw [if_pos (by linarith), if_neg (by linarith), if_pos hd]; omega

theorem roundQ_neg (n : ℕ) (q : ℚ) : roundQ n (-q) = - roundQ n q := by
  unfold roundQ
  rw [neg_mul, rint_neg]
  push_cast
  ring

theorem ng_round (n : ℕ) (x : Val) : Val.round n (Val.neg x) = Val.neg (Val.round n x) := by
  cases x <;> simp [Val.neg, Val.round, roundQ_neg]

/-! ## Columns -/

theorem ngl_ngl (xs : List Val) : ngl (ngl xs) = xs := by
  unfold ngl
  rw [List.map_map]
  conv_rhs => rw [← List.map_id xs]
  exact List.map_congr_left fun x _ => ng_ng x
theorem ngl_length (xs : List Val) : (ngl xs).length = xs.length := List.length_map _
theorem ngl_take (xs : List Val) (n : ℕ) : (ngl xs).take n = ngl (xs.take n) := List.map_take.symm
theorem ngl_drop (xs : List Val) (n : ℕ) : (ngl xs).drop n = ngl (xs.drop n) := List.map_drop.symm
theorem ngl_window (xs : List Val) (n : ℕ) : window n (ngl xs) = ngl (window n xs) := by
  unfold window; rw [ngl_length, ngl_drop]

theorem finVals_ngl (xs : List Val) : finVals (ngl xs) = (finVals xs).map (- ·) := by
  unfold finVals ngl
  rw [List.filterMap_map, List.map_filterMap]
  congr 1
  funext x
  cases x <;> rfl

/-- An aggregation of negated data. -/
def AggNg (agg agg' : List ℚ → Val) (m : Val → Val) : Prop := ∀ v : List ℚ, agg (v.map (- ·)) = m (agg' v)

theorem sum_map_neg (v : List ℚ) : (v.map (- ·)).sum = - v.sum := by
  induction v with
  | nil => simp
  | cons a v ih => simp only [List.map_cons, List.sum_cons, ih]; ring

theorem ng_aggSum : AggNg aggSum aggSum Val.neg := by
  intro v; simp only [aggSum, sum_map_neg, Val.neg]
theorem ng_aggMean : AggNg aggMean aggMean Val.neg := by
  intro v
  simp only [aggMean, List.map_eq_nil_iff, List.length_map, sum_map_neg]
  split_ifs
  · rfl
  · simp only [Val.neg, neg_div]
theorem max_neg' (a b : ℚ) : max (-a) (-b) = -min a b := by
  rcases le_total a b with h | h
  · rw [min_eq_left h, max_eq_left (neg_le_neg h)]
  · rw [min_eq_right h, max_eq_right (neg_le_neg h)]
theorem min_neg' (a b : ℚ) : min (-a) (-b) = -max a b := by
  rcases le_total a b with h | h
  · rw [max_eq_right h, min_eq_right (neg_le_neg h)]
  · rw [max_eq_left h, min_eq_left (neg_le_neg h)]
theorem ng_aggMax : AggNg aggMax aggMin Val.neg := by
  intro v
  cases v with
  | nil => rfl
  | cons a l =>
    simp only [aggMax, aggMin, maxQ, minQ, List.map_cons, ofOption, Val.neg]
    congr 1
    induction l generalizing a with
    | nil => rfl
    | cons b l ih => simp only [List.map_cons, List.foldl_cons, max_neg', ih]
theorem ng_aggMin : AggNg aggMin aggMax Val.neg := by
  intro v
  cases v with
  | nil => rfl
  | cons a l =>
    simp only [aggMax, aggMin, maxQ, minQ, List.map_cons, ofOption, Val.neg]
    congr 1
    induction l generalizing a with
    | nil => rfl
    | cons b l ih => simp only [List.map_cons, List.foldl_cons, min_neg', ih]
theorem ng_aggStd (sq : ℚ → ℚ) (d : ℕ) : AggNg (aggStd sq d) (aggStd sq d) id := by
  intro v
  unfold aggStd variance
  simp only [List.length_map, List.map_map, sum_map_neg, id]
  congr 2
  split_ifs
  · rfl
  · congr 3
    apply List.map_congr_left
    intro x _
    simp only [Function.comp]
    ring

theorem rolling_ngl' (w n : ℕ) (agg agg' : List ℚ → Val) (m : Val → Val) (hm : m .nan = .nan) (ha : AggNg agg agg' m)
    (xs : List Val) : rolling w n agg (ngl xs) = (rolling w n agg' xs).map m := by
  unfold rolling
  apply prefixMap_map
  intro pre
  have : finVals (window w (pre.map Val.neg)) = (finVals (window w pre)).map (- ·) := by
    rw [← finVals_ngl, ← ngl_window]; rfl
  simp only [this, List.length_map]
  split_ifs
  · exact ha _
  · exact hm.symm

theorem sum_ngl (w n : ℕ) (xs : List Val) : rolling w n aggSum (ngl xs) = ngl (rolling w n aggSum xs) :=
  rolling_ngl' _ _ _ _ _ rfl ng_aggSum _
theorem mean_ngl (w n : ℕ) (xs : List Val) : rolling w n aggMean (ngl xs) = ngl (rolling w n aggMean xs) :=
  rolling_ngl' _ _ _ _ _ rfl ng_aggMean _
theorem max_ngl (w n : ℕ) (xs : List Val) : rolling w n aggMax (ngl xs) = ngl (rolling w n aggMin xs) :=
  rolling_ngl' _ _ _ _ _ rfl ng_aggMax _
theorem min_ngl (w n : ℕ) (xs : List Val) : rolling w n aggMin (ngl xs) = ngl (rolling w n aggMax xs) :=
  rolling_ngl' _ _ _ _ _ rfl ng_aggMin _
theorem std_ngl (sq : ℚ → ℚ) (d w n : ℕ) (xs : List Val) : rolling w n (aggStd sq d) (ngl xs) = rolling w n (aggStd sq d) xs := by
  rw [rolling_ngl' _ _ _ _ _ rfl (ng_aggStd sq d), List.map_id]

theorem ewmStep_neg (a : ℚ) (st : EwmState) (x : Val) :
    ewmStep a ⟨st.mean.map fun p => (-p.1, p.2), st.nobs⟩ (Val.neg x) =
      ⟨(ewmStep a st x).mean.map fun p => (-p.1, p.2), (ewmStep a st x).nobs⟩ := by
  obtain ⟨m, n⟩ := st
  cases m with
  | none => cases x <;> rfl
  | some p =>
    obtain ⟨w, o⟩ := p
    cases x with
    | fin q =>
      simp only [ewmStep, Val.neg, Option.map_some, EwmState.mk.injEq, and_true, Option.some.injEq, Prod.mk.injEq, neg_inj]
      split_ifs
      · rfl
      · rw [← neg_div]; congr 1; ring
      · rw [← neg_div]; congr 1; ring
    | nan => rfl
    | pinf => rfl
    | ninf => rfl

theorem ewmAlpha_ngl (a : ℚ) (m : ℕ) (xs : List Val) : ewmAlpha a m (ngl xs) = ngl (ewmAlpha a m xs) := by
  have hf : ∀ (xs : List Val) (st : EwmState), (xs.map Val.neg).foldl (ewmStep a) ⟨st.mean.map fun p => (-p.1, p.2), st.nobs⟩ =
      ⟨(xs.foldl (ewmStep a) st).mean.map fun p => (-p.1, p.2), (xs.foldl (ewmStep a) st).nobs⟩ := by
    intro xs
    induction xs with
    | nil => intro st; rfl
    | cons x xs ih => intro st; simp only [List.map_cons, List.foldl_cons, ewmStep_neg]; exact ih _
  unfold ewmAlpha
  apply prefixMap_map
  intro pre
  have := hf pre ⟨none, 0⟩
  simp only [Option.map_none] at this
  simp only [this]
  split_ifs
  · cases (pre.foldl (ewmStep a) ⟨none, 0⟩).mean <;> rfl
  · rfl

theorem ewm_ngl (s m : ℕ) (xs : List Val) : ewm s m (ngl xs) = ngl (ewm s m xs) := ewmAlpha_ngl _ _ _

theorem shift_ngl (n : ℕ) (xs : List Val) : shift n (ngl xs) = ngl (shift n xs) := by
  simp only [shift, ngl, List.map_take, List.map_append, List.map_replicate, List.length_map, Val.neg]
theorem shiftBack_ngl (n : ℕ) (xs : List Val) : shiftBack n (ngl xs) = ngl (shiftBack n xs) := by
  simp only [shiftBack, ngl, List.map_take, List.map_append, List.map_replicate, List.length_map, Val.neg, List.map_drop]
theorem maskBefore_ngl (n : ℕ) (xs : List Val) : maskBefore n (ngl xs) = ngl (maskBefore n xs) := by
  simp only [maskBefore, ngl, List.map_take, List.map_append, List.map_replicate, List.length_map, Val.neg, List.map_drop]

theorem zipV_ngl (f g : Val → Val → Val) (h : ∀ x y, f (Val.neg x) (Val.neg y) = Val.neg (g x y)) (xs ys : List Val) :
    zipV f (ngl xs) (ngl ys) = ngl (zipV g xs ys) := by
  unfold zipV ngl
  rw [List.zipWith_map, List.map_zipWith]
  congr 1
  funext x y
  exact h x y
theorem zipV_ngl_left (f g : Val → Val → Val) (h : ∀ x y, f (Val.neg x) y = Val.neg (g x y)) (xs ys : List Val) :
    zipV f (ngl xs) ys = ngl (zipV g xs ys) := by
  unfold zipV ngl
  rw [List.zipWith_map_left, List.map_zipWith]
  congr 1
  funext x y
  exact h x y
theorem zipV_swap (f g : Val → Val → Val) (h : ∀ x y, f x y = g y x) (xs ys : List Val) : zipV f xs ys = zipV g ys xs := by
  unfold zipV
  rw [List.zipWith_comm]
  congr 1
  funext x y
  exact h y x

theorem addS_ngl (xs ys : List Val) : addS (ngl xs) (ngl ys) = ngl (addS xs ys) := zipV_ngl _ _ ng_add _ _
theorem addS_swap (xs ys : List Val) : addS xs ys = addS ys xs := zipV_swap _ _ add_swap _ _
theorem subS_ngl (xs ys : List Val) : subS (ngl xs) (ngl ys) = ngl (subS xs ys) := zipV_ngl _ _ ng_sub _ _
theorem subS_swap (xs ys : List Val) : subS ys xs = ngl (subS xs ys) := by
  unfold subS zipV ngl
  rw [List.zipWith_comm, List.map_zipWith]
  congr 1
  funext x y
  exact sub_swap x y
theorem subS_ngl' (xs ys : List Val) : subS (ngl xs) (ngl ys) = subS ys xs := by rw [subS_ngl, ← subS_swap]
theorem diffS_ngl (n : ℕ) (xs : List Val) : diffS n (ngl xs) = ngl (diffS n xs) := by
  unfold diffS; rw [shift_ngl, subS_ngl]
theorem addS_ngl_left (xs ys : List Val) : addS (ngl xs) ys = ngl (subS xs ys) := zipV_ngl_left _ _ ng_add_left _ _
theorem subS_ngl_left (xs ys : List Val) : subS (ngl xs) ys = ngl (addS xs ys) := zipV_ngl_left _ _ ng_sub_left _ _
theorem mulS_ngl_left (xs ys : List Val) : mulS (ngl xs) ys = ngl (mulS xs ys) := zipV_ngl_left _ _ ng_mul_left _ _
theorem mulS_ngl_right (xs ys : List Val) : mulS xs (ngl ys) = ngl (mulS xs ys) := by
  unfold mulS zipV ngl
  rw [List.zipWith_map_right, List.map_zipWith]
  congr 1
  funext x y
  exact ng_mul_right x y
theorem divS_ngl (xs ys : List Val) : divS (ngl xs) ys = ngl (divS xs ys) := zipV_ngl_left _ _ ng_div _ _

theorem map_ngl (f g : Val → Val) (h : ∀ x, f (Val.neg x) = Val.neg (g x)) (xs : List Val) :
    (ngl xs).map f = ngl (xs.map g) := by
  unfold ngl
  rw [List.map_map, List.map_map]
  exact List.map_congr_left fun x _ => h x
theorem map_ngl_inv (f : Val → Val) (h : ∀ x, f (Val.neg x) = f x) (xs : List Val) : (ngl xs).map f = xs.map f := by
  unfold ngl
  rw [List.map_map]
  exact List.map_congr_left fun x _ => h x
theorem scaleS_ngl (c : ℚ) (xs : List Val) : scaleS c (ngl xs) = ngl (scaleS c xs) := map_ngl _ _ (fun x => ng_mul_right _ x) _
theorem divBy_ngl (c : Val) (xs : List Val) : ((ngl xs).map fun x => Val.div x c) = ngl (xs.map fun x => Val.div x c) :=
  map_ngl _ _ (fun x => ng_div x c) _
theorem roundS_ngl (n : ℕ) (xs : List Val) : roundS n (ngl xs) = ngl (roundS n xs) := map_ngl _ _ (ng_round n) _
theorem abs_ngl (xs : List Val) : (ngl xs).map Val.abs = xs.map Val.abs := map_ngl_inv _ ng_abs _
theorem fillna_ngl (xs : List Val) : fillna 0 (ngl xs) = ngl (fillna 0 xs) :=
  map_ngl _ _ (fun x => by rw [ng_isNan]; split_ifs; exact ng_zero.symm; rfl) _

theorem foldl_add_ngl (xs : List Val) (z : Val) : (ngl xs).foldl Val.add (Val.neg z) = Val.neg (xs.foldl Val.add z) := by
  unfold ngl
  induction xs generalizing z with
  | nil => rfl
  | cons x xs ih => simp only [List.map_cons, List.foldl_cons, ng_add]; exact ih _
theorem known_ngl (xs : List Val) : (ngl xs).filter (fun x => !x.isNan) = ngl (xs.filter fun x => !x.isNan) := by
  unfold ngl
  rw [List.filter_map]
  congr 1
  apply List.filter_congr
  intro x _
  simp [ng_isNan]
theorem sumSkip_ngl (xs : List Val) : sumSkip (ngl xs) = Val.neg (sumSkip xs) := by
  unfold sumSkip
  rw [known_ngl, ← foldl_add_ngl, ng_zero]
theorem meanSkip_ngl (xs : List Val) : meanSkip (ngl xs) = Val.neg (meanSkip xs) := by
  unfold meanSkip
  have h := foldl_add_ngl (xs.filter fun x => !x.isNan) 0
  rw [ng_zero] at h
  simp only [known_ngl, ngl_length, h, ng_div]
  have he : (ngl (xs.filter fun x => !x.isNan) = []) ↔ ((xs.filter fun x => !x.isNan) = []) := by
    unfold ngl; rw [List.map_eq_nil_iff]
  by_cases h : (xs.filter fun x => !x.isNan) = []
  · rw [if_pos (he.2 h), if_pos h]; rfl
  · rw [if_neg (fun h' => h (he.1 h')), if_neg h]
theorem cumsum_ngl (xs : List Val) : cumsum (ngl xs) = ngl (cumsum xs) := by
  unfold cumsum
  apply prefixMap_map
  intro pre
  have h1 : sumSkip (pre.map Val.neg) = Val.neg (sumSkip pre) := sumSkip_ngl pre
  rw [h1, List.getLast?_map]
  cases pre.getLast? with
  | none => rfl
  | some x => simp only [Option.map_some, Option.getD_some, ng_isNan]; split_ifs <;> rfl

theorem wilder_ngl (s p : ℕ) (xs : List Val) : wilder s p (ngl xs) = ngl (wilder s p xs) := by
  unfold wilder
  apply prefixMap_map
  intro pre
  rw [List.length_map]
  split_ifs
  · rfl
  · have h1 : ∀ (l : List Val) (z : Val), (ngl l).foldl (fun prev x => Val.add prev (Val.div (Val.sub x prev) (.fin p))) (Val.neg z) =
        Val.neg (l.foldl (fun prev x => Val.add prev (Val.div (Val.sub x prev) (.fin p))) z) := by
      intro l
      induction l with
      | nil => intro z; rfl
      | cons x l ih =>
        intro z
        simp only [ngl, List.map_cons, List.foldl_cons]
        rw [ng_sub, ng_div, ng_add]
        exact ih _
    have h2 : meanSkip (((pre.map Val.neg).drop s).take p) = Val.neg (meanSkip ((pre.drop s).take p)) := by
      rw [← meanSkip_ngl, ← ngl_take, ← ngl_drop]; rfl
    rw [h2, ← List.map_drop]
    exact h1 _ _

theorem ffill_ngl (xs : List Val) : ffill (ngl xs) = ngl (ffill xs) := by
  unfold ffill
  apply prefixMap_map
  intro pre
  have := known_ngl pre
  unfold ngl at this
  rw [this, List.getLast?_map]
  cases (pre.filter fun x => !x.isNan).getLast? <;> rfl
theorem bfill_ngl (xs : List Val) : bfill (ngl xs) = ngl (bfill xs) := by
  unfold bfill
  have : (ngl xs).reverse = ngl xs.reverse := List.map_reverse.symm
  rw [this, ffill_ngl]
  exact List.map_reverse.symm

theorem iat_map (m : Val → Val) (xs : List Val) (n : ℕ) : iat (xs.map m) n = m <$> iat xs n := by
  unfold iat fromEnd
  rw [List.length_map]
  split_ifs
  · rw [List.getElem?_map]
    cases xs[xs.length - n]? <;> rfl
  · rfl
theorem iat_ngl (xs : List Val) (n : ℕ) : iat (ngl xs) n = Val.neg <$> iat xs n := iat_map _ _ _

theorem zip_ngl (xs ys : List Val) : (ngl xs).zip (ngl ys) = (xs.zip ys).map fun p => (Val.neg p.1, Val.neg p.2) := by
  unfold ngl; rw [List.zip_map]; rfl
theorem maxOf_ngl (xs : List Val) : maxOf (ngl xs) = Val.neg (minOf xs) := by
  have : ∀ (xs : List Val) (z : Val), (ngl xs).foldl maxSkip (Val.neg z) = Val.neg (xs.foldl minSkip z) := by
    intro xs
    induction xs with
    | nil => intro z; rfl
    | cons x xs ih => intro z; simp only [ngl, List.map_cons, List.foldl_cons, ng_maxSkip]; exact ih _
  exact this xs .nan
theorem minOf_ngl (xs : List Val) : minOf (ngl xs) = Val.neg (maxOf xs) := by
  have := maxOf_ngl (ngl xs)
  rw [ngl_ngl] at this
  rw [this, ng_ng]

theorem zip3_ngl (f g : Val → Val → Val → Val) (h : ∀ x y z, f (Val.neg x) (Val.neg y) (Val.neg z) = Val.neg (g x y z))
    (xs ys zs : List Val) : zip3 f (ngl xs) (ngl ys) (ngl zs) = ngl (zip3 g xs ys zs) := by
  unfold zip3
  rw [zip_ngl]
  unfold ngl
  rw [List.zipWith_map, List.map_zipWith]
  congr 1
  funext x p
  exact h _ _ _
theorem zip3_swap (f : Val → Val → Val → Val) (h : ∀ x y z, f x y z = f x z y) (xs ys zs : List Val) :
    zip3 f xs ys zs = zip3 f xs zs ys := by
  unfold zip3
  have : zs.zip ys = (ys.zip zs).map Prod.swap := by rw [List.zip_swap]
  rw [this, List.zipWith_map_right]
  congr 1
  funext x p
  exact h _ _ _

/-! ## Regression -/

theorem allFin_ngl (xs : List Val) : allFin (ngl xs) = (allFin xs).map (List.map (- ·)) := by
  induction xs with
  | nil => rfl
  | cons x xs ih =>
    cases x <;> try rfl
    simp only [ngl, List.map_cons, Val.neg, allFin]
    rw [show List.map Val.neg xs = ngl xs from rfl, ih]
    cases allFin xs <;> rfl

theorem lsFit_neg (v w : List ℚ) : lsFit ((v.map (- ·)).zip w) = (-(lsFit (v.zip w)).1, -(lsFit (v.zip w)).2) := by
  have hz : (v.map (- ·)).zip w = (v.zip w).map fun p => (-p.1, p.2) := by rw [List.zip_map_left]; rfl
  rw [hz]
  generalize v.zip w = l
  have h1 : ((l.map fun p : ℚ × ℚ => (-p.1, p.2)).map fun p => p.1).sum = -(l.map fun p => p.1).sum := by
    rw [← sum_map_neg, List.map_map, List.map_map]; rfl
  have h2 : ((l.map fun p : ℚ × ℚ => (-p.1, p.2)).map fun p => p.1 * p.2).sum = -(l.map fun p => p.1 * p.2).sum := by
    rw [← sum_map_neg, List.map_map, List.map_map]
    congr 1
    apply List.map_congr_left
    intro p _
    simp only [Function.comp]
    ring
  have h3 : ((l.map fun p : ℚ × ℚ => (-p.1, p.2)).map fun p => p.2) = l.map fun p => p.2 := by
    rw [List.map_map]; rfl
  have h4 : ((l.map fun p : ℚ × ℚ => (-p.1, p.2)).map fun p => p.2 * p.2) = l.map fun p => p.2 * p.2 := by
    rw [List.map_map]; rfl
  unfold lsFit
  simp only [h1, h2, h3, h4, List.length_map, Prod.mk.injEq]
  have hs : (l.length : ℚ) * -(l.map fun p => p.1 * p.2).sum - (l.map fun p => p.2).sum * -(l.map fun p => p.1).sum =
      -(l.length * (l.map fun p => p.1 * p.2).sum - (l.map fun p => p.2).sum * (l.map fun p => p.1).sum) := by ring
  rw [hs, neg_div]
  refine ⟨?_, rfl⟩
  rw [← neg_div]
  congr 1
  ring

theorem rollingOLS_ngl (w : ℕ) (xs : List Val) :
    rollingOLS w (ngl xs) = (rollingOLS w xs).map fun p => (Val.neg p.1, Val.neg p.2) := by
  unfold rollingOLS
  apply prefixMap_map
  intro pre
  rw [List.length_map]
  split_ifs with h
  · have : window w (pre.map Val.neg) = ngl (window w pre) := ngl_window _ _
    rw [this, allFin_ngl]
    cases hv : allFin (window w pre) with
    | none => rfl
    | some v =>
      simp only [Option.map_some]
      rw [lsFit_neg]
      rfl
  · rfl

theorem slopes_ngl (w : ℕ) (xs : List Val) : (rollingOLS w (ngl xs)).map (·.2) = ngl ((rollingOLS w xs).map (·.2)) := by
  rw [rollingOLS_ngl, List.map_map]; unfold ngl; rw [List.map_map]; rfl

theorem lri_ngl (w n : ℕ) (xs : List Val) :
    List.zipWith (fun (p : Val × Val) i => Val.round 4 (Val.add p.1 (Val.mul (.fin ((i : ℕ) : ℚ)) p.2))) (rollingOLS w (ngl xs)) (List.range n) =
      ngl (List.zipWith (fun (p : Val × Val) i => Val.round 4 (Val.add p.1 (Val.mul (.fin ((i : ℕ) : ℚ)) p.2))) (rollingOLS w xs) (List.range n)) := by
  rw [rollingOLS_ngl, List.zipWith_map_left]
  unfold ngl
  rw [List.map_zipWith]
  congr 1
  funext p i
  rw [ng_mul_right, ng_add, ng_round]

theorem band_ngl (pick pick' : Val → Val → Val) (hp : ∀ x y, pick (Val.neg x) (Val.neg y) = Val.neg (pick' x y)) (w : ℕ)
    (xs ys : List Val) :
    Ind.ProjectionBands.band pick w (ngl xs) (ngl ys) = ngl (Ind.ProjectionBands.band pick' w xs ys) := by
  unfold Ind.ProjectionBands.band
  rw [zip_ngl]
  apply prefixMap_map
  intro pre
  rw [List.length_map, ← List.map_reverse]
  split_ifs
  · rfl
  · cases pre.reverse with
    | nil => rfl
    | cons p older =>
      obtain ⟨p0, s⟩ := p
      simp only [List.map_cons]
      have h1 : ((List.map (fun p : Val × Val => (Val.neg p.1, Val.neg p.2)) older).take (w - 1)).map (·.1) =
          ngl ((older.take (w - 1)).map (·.1)) := by
        rw [← List.map_take, List.map_map]; unfold ngl; rw [List.map_map]; rfl
      rw [h1]
      have h2 : ∀ l : List Val, ((ngl l).zipIdx.map fun q => Val.add (Val.mul (.fin ((q.2 : ℚ) + 1)) (Val.neg s)) q.1) =
          ngl (l.zipIdx.map fun q => Val.add (Val.mul (.fin ((q.2 : ℚ) + 1)) s) q.1) := by
        intro l
        unfold ngl
        rw [List.zipIdx_map, List.map_map, List.map_map]
        apply List.map_congr_left
        intro q _
        simp only [Function.comp, Prod.map_fst, Prod.map_snd, id]
        rw [ng_mul_right, ng_add]
      rw [h2]
      generalize (((older.take (w - 1)).map (·.1)).zipIdx.map fun q => Val.add (Val.mul (.fin ((q.2 : ℚ) + 1)) s) q.1) = l
      clear h1 h2
      induction l generalizing p0 with
      | nil => rfl
      | cons x l ih => simp only [ngl, List.map_cons, List.foldl_cons, hp]; exact ih _

end TTI
