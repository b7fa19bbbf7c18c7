import Verif.Model.Api
import Verif.Lemmas.Frame
import Verif.Lemmas.Num
import Mathlib.Tactic.Ring
import Mathlib.Tactic.FieldSimp
import Mathlib.Algebra.BigOperators.Group.List.Basic
import Mathlib.Algebra.BigOperators.Ring.List

set_option autoImplicit false

/-!
# Multiplying columns by a positive number
-/

namespace TTI

/-- A float times a positive number. -/
def sc (c : ℚ) : Val → Val
  | .fin q => .fin (c * q)
  | v => v

/-- A column times a positive number. -/
def scl (c : ℚ) (xs : List Val) : List Val := xs.map (sc c)

theorem mul_eq_sc (c : ℚ) (hc : 0 < c) (x : Val) : Val.mul (.fin c) x = sc c x := by
  cases x <;> simp [sc, Val.mul, Val.infMul, hc.ne', hc]

section
variable {c : ℚ} (hc : 0 < c)
include hc

theorem sc_add (x y : Val) : Val.add (sc c x) (sc c y) = sc c (Val.add x y) := by
  cases x <;> cases y <;> simp [sc, Val.add, mul_add]

theorem sc_neg (x : Val) : Val.neg (sc c x) = sc c (Val.neg x) := by cases x <;> simp [sc, Val.neg]

theorem sc_sub (x y : Val) : Val.sub (sc c x) (sc c y) = sc c (Val.sub x y) := by
  unfold Val.sub; rw [sc_neg hc, sc_add hc]

theorem sc_abs (x : Val) : Val.abs (sc c x) = sc c (Val.abs x) := by
  cases x <;> simp [sc, Val.abs, abs_mul, abs_of_pos hc]

theorem sc_lt (x y : Val) : Val.lt (sc c x) (sc c y) = Val.lt x y := by
  cases x <;> cases y <;> simp [sc, Val.lt, mul_lt_mul_iff_right₀ hc]

theorem sc_le (x y : Val) : Val.le (sc c x) (sc c y) = Val.le x y := by
  cases x <;> cases y <;> simp [sc, Val.le, mul_le_mul_iff_right₀ hc]

omit hc in
theorem sc_zero : sc c 0 = 0 := by show Val.fin (c * 0) = Val.fin 0; rw [mul_zero]

omit hc in
theorem sc_nan : sc c .nan = .nan := rfl

theorem sc_lt_zero (x : Val) : Val.lt (sc c x) 0 = Val.lt x 0 := by
  have := sc_lt hc x 0; rwa [sc_zero] at this

theorem zero_lt_sc (x : Val) : Val.lt 0 (sc c x) = Val.lt 0 x := by
  have := sc_lt hc 0 x; rwa [sc_zero] at this

theorem sc_le_zero (x : Val) : Val.le (sc c x) 0 = Val.le x 0 := by
  have := sc_le hc x 0; rwa [sc_zero] at this

theorem zero_le_sc (x : Val) : Val.le 0 (sc c x) = Val.le 0 x := by
  have := sc_le hc 0 x; rwa [sc_zero] at this

theorem sc_inj (x y : Val) : sc c x = sc c y ↔ x = y := by
  cases x <;> cases y <;> simp [sc, hc.ne']

omit hc in
theorem sc_isNan (x : Val) : (sc c x).isNan = x.isNan := by cases x <;> rfl

theorem sc_eqv (x y : Val) : Val.eqv (sc c x) (sc c y) = Val.eqv x y := by
  cases x <;> cases y <;> simp [sc, Val.eqv, hc.ne']

theorem infMul_scale (b : Bool) (q : ℚ) : Val.infMul b (c * q) = Val.infMul b q := by
  unfold Val.infMul
  simp [hc.ne', mul_pos_iff_of_pos_left hc]

theorem sc_infMul (b : Bool) (q : ℚ) : sc c (Val.infMul b q) = Val.infMul b q := by
  unfold Val.infMul; split_ifs <;> rfl

theorem sc_div (x y : Val) : Val.div (sc c x) (sc c y) = Val.div x y := by
  cases x <;> cases y <;> simp only [sc, Val.div, infMul_scale hc]
  · simp [hc.ne']
  · simp [hc.ne']
  · rename_i a b
    simp only [mul_eq_zero, hc.ne', false_or, mul_pos_iff_of_pos_left hc, mul_div_mul_left a b hc.ne']

theorem sc_div_left (x y : Val) : Val.div (sc c x) y = sc c (Val.div x y) := by
  cases x <;> cases y <;> simp only [sc, Val.div, mul_zero]
  · split_ifs
    · rfl
    · exact (sc_infMul hc _ _).symm
  · split_ifs
    · rfl
    · exact (sc_infMul hc _ _).symm
  · rename_i a b
    simp only [mul_eq_zero, hc.ne', false_or, mul_pos_iff_of_pos_left hc]
    by_cases hb : b = 0
    · rw [if_pos hb, if_pos hb]; split_ifs <;> rfl
    · rw [if_neg hb, if_neg hb]; simp [sc, mul_div_assoc]

theorem sc_mul_left (x y : Val) : Val.mul (sc c x) y = sc c (Val.mul x y) := by
  cases x <;> cases y <;> simp only [sc, Val.mul, infMul_scale hc, mul_assoc]
  all_goals first | rfl | exact (sc_infMul hc _ _).symm

theorem sc_mul_right (x y : Val) : Val.mul x (sc c y) = sc c (Val.mul x y) := by
  cases x <;> cases y <;> simp only [sc, Val.mul, infMul_scale hc, mul_left_comm]
  all_goals first | rfl | exact (sc_infMul hc _ _).symm

/-- A relative change. -/
theorem sc_relative (x v y : Val) : Val.mul (sc c x) (Val.div v (sc c y)) = Val.mul x (Val.div v y) := by
  rw [sc_mul_left hc, ← sc_mul_right hc]
  congr 1
  rw [← sc_div_left hc, sc_div hc]

theorem sc_maxSkip (x y : Val) : maxSkip (sc c x) (sc c y) = sc c (maxSkip x y) := by
  unfold maxSkip; simp only [sc_isNan, sc_lt hc]; split_ifs <;> rfl
theorem sc_minSkip (x y : Val) : minSkip (sc c x) (sc c y) = sc c (minSkip x y) := by
  unfold minSkip; simp only [sc_isNan, sc_lt hc]; split_ifs <;> rfl
theorem sc_maxNan (x y : Val) : maxNan (sc c x) (sc c y) = sc c (maxNan x y) := by
  unfold maxNan; simp only [sc_isNan, sc_lt hc]; split_ifs <;> rfl
theorem sc_minNan (x y : Val) : minNan (sc c x) (sc c y) = sc c (minNan x y) := by
  unfold minNan; simp only [sc_isNan, sc_lt hc]; split_ifs <;> rfl
theorem sc_pmax (x y : Val) : Val.pmax (sc c x) (sc c y) = sc c (Val.pmax x y) := by
  unfold Val.pmax; simp only [sc_lt hc]; split_ifs <;> rfl
theorem sc_pmin (x y : Val) : Val.pmin (sc c x) (sc c y) = sc c (Val.pmin x y) := by
  unfold Val.pmin; simp only [sc_lt hc]; split_ifs <;> rfl

end

/-! ## Columns -/

/-- A causal operator. -/
theorem prefixMap_map {α β γ δ : Type} (g : List γ → δ) (g' : List α → β) (s : α → γ) (t : β → δ) (xs : List α)
    (h : ∀ pre, g (pre.map s) = t (g' pre)) : prefixMap g (xs.map s) = (prefixMap g' xs).map t := by
  unfold prefixMap
  rw [List.length_map, List.map_map]
  apply List.map_congr_left
  intro i _
  rw [← List.map_take]
  exact h _

section
variable {c : ℚ} (hc : 0 < c)

theorem scl_one (xs : List Val) : scl 1 xs = xs := by
  unfold scl
  conv_rhs => rw [← List.map_id xs]
  apply List.map_congr_left
  intro x _
  cases x <;> simp [sc]

theorem scl_length (xs : List Val) : (scl c xs).length = xs.length := List.length_map _

theorem scl_take (xs : List Val) (n : ℕ) : (scl c xs).take n = scl c (xs.take n) := List.map_take.symm
theorem scl_drop (xs : List Val) (n : ℕ) : (scl c xs).drop n = scl c (xs.drop n) := List.map_drop.symm
theorem scl_window (xs : List Val) (n : ℕ) : window n (scl c xs) = scl c (window n xs) := by
  unfold window; rw [scl_length, scl_drop]

theorem finVals_scl (xs : List Val) : finVals (scl c xs) = (finVals xs).map (c * ·) := by
  unfold finVals scl
  rw [List.filterMap_map, List.map_filterMap]
  congr 1
  funext x
  cases x <;> rfl

/-- An aggregation that commutes with multiplication. -/
def Agg (c : ℚ) (agg : List ℚ → Val) : Prop := ∀ v : List ℚ, agg (v.map (c * ·)) = sc c (agg v)

theorem sum_map_mul (v : List ℚ) : (v.map (c * ·)).sum = c * v.sum := by
  induction v with
  | nil => simp
  | cons a v ih => simp only [List.map_cons, List.sum_cons, ih, mul_add]

theorem agg_sum : Agg c aggSum := by
  intro v
  simp only [aggSum, sc, sum_map_mul]

theorem agg_mean : Agg c aggMean := by
  intro v
  simp only [aggMean, List.map_eq_nil_iff, List.length_map, sum_map_mul]
  split_ifs
  · rfl
  · simp [sc, mul_div_assoc]

include hc in
theorem agg_max : Agg c aggMax := by
  intro v
  cases v with
  | nil => rfl
  | cons a l =>
    simp only [aggMax, maxQ, List.map_cons, ofOption, sc]
    congr 1
    induction l generalizing a with
    | nil => rfl
    | cons b l ih => simp only [List.map_cons, List.foldl_cons, ← mul_max_of_nonneg _ _ hc.le, ih]

include hc in
theorem agg_min : Agg c aggMin := by
  intro v
  cases v with
  | nil => rfl
  | cons a l =>
    simp only [aggMin, minQ, List.map_cons, ofOption, sc]
    congr 1
    induction l generalizing a with
    | nil => rfl
    | cons b l ih => simp only [List.map_cons, List.foldl_cons, ← mul_min_of_nonneg _ _ hc.le, ih]

theorem variance_scale (d : ℕ) (v : List ℚ) : variance d (v.map (c * ·)) = (variance d v).map (c ^ 2 * ·) := by
  unfold variance
  simp only [List.length_map, List.map_map]
  split_ifs
  · rfl
  · simp only [Option.map_some]
    congr 1
    rw [sum_map_mul, ← mul_div_assoc, ← List.sum_map_mul_left]
    congr 2
    apply List.map_congr_left
    intro x _
    simp only [Function.comp]
    ring

theorem agg_std (sq : ℚ → ℚ) (hq : ∀ q, sq (c ^ 2 * q) = c * sq q) (d : ℕ) : Agg c (aggStd sq d) := by
  intro v
  unfold aggStd
  rw [variance_scale]
  cases variance d v with
  | none => rfl
  | some q => simp only [Option.map_some, ofOption, hq, sc]

theorem rolling_scl (w m : ℕ) (agg : List ℚ → Val) (ha : Agg c agg) (xs : List Val) :
    rolling w m agg (scl c xs) = scl c (rolling w m agg xs) := by
  unfold rolling
  apply prefixMap_map
  intro pre
  have : finVals (window w (pre.map (sc c))) = (finVals (window w pre)).map (c * ·) := by
    rw [← finVals_scl, ← scl_window]; rfl
  simp only [this, List.length_map]
  split_ifs
  · exact ha _
  · rfl

include hc in
theorem ewmStep_scale (a : ℚ) (m : Option (ℚ × ℚ)) (n : ℕ) (x : Val) :
    ewmStep a ⟨m.map fun p => (c * p.1, p.2), n⟩ (sc c x) =
      ⟨(ewmStep a ⟨m, n⟩ x).mean.map fun p => (c * p.1, p.2), (ewmStep a ⟨m, n⟩ x).nobs⟩ := by
  cases m with
  | none => cases x <;> rfl
  | some p =>
    obtain ⟨w, o⟩ := p
    cases x with
    | fin q =>
      simp only [ewmStep, sc, Option.map_some, EwmState.mk.injEq, and_true, Option.some.injEq, Prod.mk.injEq, mul_right_inj' hc.ne']
      by_cases h : w = q
      · rw [if_pos h, if_pos h]
      · rw [if_neg h, if_neg h, ← mul_div_assoc]
        congr 1
        ring
    | nan => rfl
    | pinf => rfl
    | ninf => rfl

include hc in
theorem ewmFold_scale (a : ℚ) (xs : List Val) (st : EwmState) :
    (scl c xs).foldl (ewmStep a) ⟨st.mean.map fun p => (c * p.1, p.2), st.nobs⟩ =
      ⟨(xs.foldl (ewmStep a) st).mean.map fun p => (c * p.1, p.2), (xs.foldl (ewmStep a) st).nobs⟩ := by
  induction xs generalizing st with
  | nil => rfl
  | cons x xs ih =>
    simp only [scl, List.map_cons, List.foldl_cons]
    rw [ewmStep_scale hc]
    exact ih _

include hc in
theorem ewmAlpha_scl (a : ℚ) (m : ℕ) (xs : List Val) : ewmAlpha a m (scl c xs) = scl c (ewmAlpha a m xs) := by
  unfold ewmAlpha
  apply prefixMap_map
  intro pre
  have := ewmFold_scale hc a pre ⟨none, 0⟩
  simp only [Option.map_none, scl] at this
  simp only [this]
  split_ifs
  · cases (pre.foldl (ewmStep a) ⟨none, 0⟩).mean <;> rfl
  · rfl

include hc in
theorem ewm_scl (s m : ℕ) (xs : List Val) : ewm s m (scl c xs) = scl c (ewm s m xs) := ewmAlpha_scl hc _ _ _

theorem shift_scl (k : ℕ) (xs : List Val) : shift k (scl c xs) = scl c (shift k xs) := by
  simp only [shift, scl, List.map_take, List.map_append, List.map_replicate, List.length_map, sc_nan]

theorem maskBefore_scl (k : ℕ) (xs : List Val) : maskBefore k (scl c xs) = scl c (maskBefore k xs) := by
  simp only [maskBefore, scl, List.map_take, List.map_append, List.map_replicate, List.length_map, sc_nan, List.map_drop]

theorem zipWith_scl {α β : Type} (f g : α → β → Val) (s : α → α) (t : β → β) (xs : List α) (ys : List β)
    (h : ∀ x y, f (s x) (t y) = sc c (g x y)) :
    List.zipWith f (xs.map s) (ys.map t) = scl c (List.zipWith g xs ys) := by
  unfold scl
  rw [List.zipWith_map, List.map_zipWith]
  congr 1
  funext x y
  exact h x y

theorem zipV_scl (f : Val → Val → Val) (h : ∀ x y, f (sc c x) (sc c y) = sc c (f x y)) (xs ys : List Val) :
    zipV f (scl c xs) (scl c ys) = scl c (zipV f xs ys) := zipWith_scl _ _ _ _ _ _ h

/-- The operation does not see the factor. -/
theorem zipV_inv (f : Val → Val → Val) (h : ∀ x y, f (sc c x) (sc c y) = f x y) (xs ys : List Val) :
    zipV f (scl c xs) (scl c ys) = zipV f xs ys := by
  unfold zipV scl
  rw [List.zipWith_map]
  congr 1
  funext x y
  exact h x y

include hc
theorem addS_scl (xs ys : List Val) : addS (scl c xs) (scl c ys) = scl c (addS xs ys) := zipV_scl _ (sc_add hc) _ _
theorem subS_scl (xs ys : List Val) : subS (scl c xs) (scl c ys) = scl c (subS xs ys) := zipV_scl _ (sc_sub hc) _ _
theorem divS_scl (xs ys : List Val) : divS (scl c xs) (scl c ys) = divS xs ys := zipV_inv _ (sc_div hc) _ _
theorem diffS_scl (k : ℕ) (xs : List Val) : diffS k (scl c xs) = scl c (diffS k xs) := by
  unfold diffS; rw [shift_scl, subS_scl hc]
theorem mulS_scl_left (xs ys : List Val) : mulS (scl c xs) ys = scl c (mulS xs ys) := by
  have := zipWith_scl (c := c) Val.mul Val.mul (sc c) id xs ys fun x y => sc_mul_left hc x y
  rwa [List.map_id] at this
theorem mulS_scl_right (xs ys : List Val) : mulS xs (scl c ys) = scl c (mulS xs ys) := by
  have := zipWith_scl (c := c) Val.mul Val.mul id (sc c) xs ys fun x y => sc_mul_right hc x y
  rwa [List.map_id] at this

omit hc in
theorem map_scl (f : Val → Val) (h : ∀ x, f (sc c x) = sc c (f x)) (xs : List Val) :
    (scl c xs).map f = scl c (xs.map f) := by
  unfold scl
  rw [List.map_map, List.map_map]
  apply List.map_congr_left
  intro x _
  exact h x

omit hc in
theorem map_inv {β : Type} (f : Val → β) (h : ∀ x, f (sc c x) = f x) (xs : List Val) : (scl c xs).map f = xs.map f := by
  unfold scl
  rw [List.map_map]
  apply List.map_congr_left
  intro x _
  exact h x

theorem scaleS_scl (k : ℚ) (xs : List Val) : scaleS k (scl c xs) = scl c (scaleS k xs) :=
  map_scl _ (fun x => sc_mul_right hc _ x) _
theorem absS_scl (xs : List Val) : (scl c xs).map Val.abs = scl c (xs.map Val.abs) := map_scl _ (sc_abs hc) _
theorem divBy_scl (k : Val) (xs : List Val) : ((scl c xs).map fun x => Val.div x k) = scl c (xs.map fun x => Val.div x k) :=
  map_scl _ (fun x => sc_div_left hc x k) _
theorem zeroBelow_scl (xs : List Val) : zeroBelow (scl c xs) = scl c (zeroBelow xs) :=
  map_scl _ (fun x => by rw [sc_lt_zero hc]; split_ifs; exacts [sc_zero.symm, rfl]) _
theorem zeroAbove_scl (xs : List Val) : zeroAbove (scl c xs) = scl c (zeroAbove xs) :=
  map_scl _ (fun x => by rw [zero_lt_sc hc]; split_ifs; exacts [sc_zero.symm, rfl]) _

theorem zip3_scl (f : Val → Val → Val → Val) (h : ∀ x y z, f (sc c x) (sc c y) (sc c z) = sc c (f x y z))
    (xs ys zs : List Val) : zip3 f (scl c xs) (scl c ys) (scl c zs) = scl c (zip3 f xs ys zs) := by
  unfold zip3
  have hz : (scl c ys).zip (scl c zs) = (ys.zip zs).map fun p => (sc c p.1, sc c p.2) := by
    unfold scl; rw [List.zip_map]; rfl
  rw [hz]
  exact zipWith_scl _ _ _ _ _ _ fun x p => h x p.1 p.2

theorem foldl_add_scl (xs : List Val) (z : Val) : (scl c xs).foldl Val.add (sc c z) = sc c (xs.foldl Val.add z) := by
  induction xs generalizing z with
  | nil => rfl
  | cons x xs ih =>
    simp only [scl, List.map_cons, List.foldl_cons]
    rw [sc_add hc]; exact ih _

omit hc in
theorem known_scl (xs : List Val) : (scl c xs).filter (fun x => !x.isNan) = scl c (xs.filter fun x => !x.isNan) := by
  unfold scl
  rw [List.filter_map]
  congr 1
  apply List.filter_congr
  intro x _
  simp [sc_isNan]

theorem sumSkip_scl (xs : List Val) : sumSkip (scl c xs) = sc c (sumSkip xs) := by
  unfold sumSkip
  rw [known_scl]
  have := foldl_add_scl hc (xs.filter fun x => !x.isNan) 0
  rwa [sc_zero] at this

theorem meanSkip_scl (xs : List Val) : meanSkip (scl c xs) = sc c (meanSkip xs) := by
  unfold meanSkip
  have := foldl_add_scl hc (xs.filter fun x => !x.isNan) 0
  rw [sc_zero] at this
  simp only [known_scl, this, scl_length]
  have he : (scl c (xs.filter fun x => !x.isNan) = []) ↔ ((xs.filter fun x => !x.isNan) = []) := by
    unfold scl; rw [List.map_eq_nil_iff]
  by_cases h : (xs.filter fun x => !x.isNan) = []
  · rw [if_pos (he.2 h), if_pos h]; rfl
  · rw [if_neg (fun h' => h (he.1 h')), if_neg h]
    exact sc_div_left hc _ _

theorem wilder_scl (s p : ℕ) (xs : List Val) : wilder s p (scl c xs) = scl c (wilder s p xs) := by
  unfold wilder
  apply prefixMap_map
  intro pre
  rw [List.length_map]
  split_ifs
  · rfl
  · have h1 : ∀ (l : List Val) (z : Val), (scl c l).foldl (fun prev x => Val.add prev (Val.div (Val.sub x prev) (.fin p))) (sc c z) =
        sc c (l.foldl (fun prev x => Val.add prev (Val.div (Val.sub x prev) (.fin p))) z) := by
      intro l
      induction l with
      | nil => intro z; rfl
      | cons x l ih =>
        intro z
        simp only [scl, List.map_cons, List.foldl_cons]
        rw [sc_sub hc, sc_div_left hc, sc_add hc]
        exact ih _
    have h2 : meanSkip (((pre.map (sc c)).drop s).take p) = sc c (meanSkip ((pre.drop s).take p)) := by
      rw [← meanSkip_scl hc, ← scl_take, ← scl_drop]; rfl
    rw [h2, ← List.map_drop]
    exact h1 _ _

theorem ffill_scl (xs : List Val) : ffill (scl c xs) = scl c (ffill xs) := by
  unfold ffill
  apply prefixMap_map
  intro pre
  have := known_scl (c := c) pre
  unfold scl at this
  rw [this, List.getLast?_map]
  cases (pre.filter fun x => !x.isNan).getLast? <;> rfl

theorem bfill_scl (xs : List Val) : bfill (scl c xs) = scl c (bfill xs) := by
  unfold bfill
  have : (scl c xs).reverse = scl c xs.reverse := List.map_reverse.symm
  rw [this, ffill_scl hc]
  exact List.map_reverse.symm

omit hc in
theorem iat_scl (xs : List Val) (k : ℕ) : iat (scl c xs) k = (sc c) <$> iat xs k := by
  unfold iat fromEnd
  rw [scl_length]
  split_ifs
  · have : (scl c xs)[xs.length - k]? = (xs[xs.length - k]?).map (sc c) := by unfold scl; rw [List.getElem?_map]
    rw [this]
    cases xs[xs.length - k]? <;> rfl
  · rfl

end

end TTI
