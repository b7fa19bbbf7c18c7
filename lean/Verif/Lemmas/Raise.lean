import Verif.Lemmas.Scale

set_option autoImplicit false

/-!
# Adding a number to columns
-/

namespace TTI

/-- A float plus a number. -/
def rs (k : ℚ) : Val → Val
  | .fin q => .fin (q + k)
  | v => v

/-- A column plus a number. -/
def rsl (k : ℚ) (xs : List Val) : List Val := xs.map (rs k)

theorem add_eq_rs (k : ℚ) (x : Val) : Val.add x (.fin k) = rs k x := by cases x <;> rfl

theorem rs_zero (x : Val) : rs 0 x = x := by cases x <;> simp [rs]

theorem rsl_zero (xs : List Val) : rsl 0 xs = xs := by
  unfold rsl
  conv_rhs => rw [← List.map_id xs]
  exact List.map_congr_left fun x _ => rs_zero x

theorem rs_nan (k : ℚ) : rs k .nan = .nan := rfl

theorem rs_add (a b : ℚ) (x y : Val) : Val.add (rs a x) (rs b y) = rs (a + b) (Val.add x y) := by
  cases x <;> cases y <;> simp [rs, Val.add]
  ring

theorem rs_add_left (k : ℚ) (x y : Val) : Val.add (rs k x) y = rs k (Val.add x y) := by
  have := rs_add k 0 x y; rwa [rs_zero, add_zero] at this

theorem rs_neg (a : ℚ) (x : Val) : Val.neg (rs a x) = rs (-a) (Val.neg x) := by
  cases x <;> simp [rs, Val.neg]
  ring

theorem rs_sub (a b : ℚ) (x y : Val) : Val.sub (rs a x) (rs b y) = rs (a - b) (Val.sub x y) := by
  unfold Val.sub; rw [rs_neg, rs_add, sub_eq_add_neg]

theorem rs_sub_same (k : ℚ) (x y : Val) : Val.sub (rs k x) (rs k y) = Val.sub x y := by
  rw [rs_sub, sub_self, rs_zero]

theorem rs_infMul (k : ℚ) (b : Bool) (q : ℚ) : rs k (Val.infMul b q) = Val.infMul b q := by
  unfold Val.infMul; split_ifs <;> rfl

theorem rs_mul (c k : ℚ) (x : Val) : Val.mul (.fin c) (rs k x) = rs (c * k) (Val.mul (.fin c) x) := by
  cases x <;> simp only [rs, Val.mul, mul_add]
  all_goals exact (rs_infMul _ _ _).symm

theorem rs_div (c k : ℚ) (hc : c ≠ 0) (x : Val) : Val.div (rs k x) (.fin c) = rs (k / c) (Val.div x (.fin c)) := by
  cases x <;> simp only [rs, Val.div, if_neg hc, add_div]
  all_goals exact (rs_infMul _ _ _).symm

section
variable (k : ℚ)

theorem rs_isNan (x : Val) : (rs k x).isNan = x.isNan := by cases x <;> rfl

theorem rs_lt (x y : Val) : Val.lt (rs k x) (rs k y) = Val.lt x y := by
  cases x <;> cases y <;> simp [rs, Val.lt]

theorem rs_le (x y : Val) : Val.le (rs k x) (rs k y) = Val.le x y := by
  cases x <;> cases y <;> simp [rs, Val.le]

theorem rs_eqv (x y : Val) : Val.eqv (rs k x) (rs k y) = Val.eqv x y := by
  cases x <;> cases y <;> simp [rs, Val.eqv]

theorem rs_maxSkip (x y : Val) : maxSkip (rs k x) (rs k y) = rs k (maxSkip x y) := by
  unfold maxSkip; simp only [rs_isNan, rs_lt]; split_ifs <;> rfl
theorem rs_minSkip (x y : Val) : minSkip (rs k x) (rs k y) = rs k (minSkip x y) := by
  unfold minSkip; simp only [rs_isNan, rs_lt]; split_ifs <;> rfl
theorem rs_maxNan (x y : Val) : maxNan (rs k x) (rs k y) = rs k (maxNan x y) := by
  unfold maxNan; simp only [rs_isNan, rs_lt]; split_ifs <;> rfl
theorem rs_minNan (x y : Val) : minNan (rs k x) (rs k y) = rs k (minNan x y) := by
  unfold minNan; simp only [rs_isNan, rs_lt]; split_ifs <;> rfl
theorem rs_pmax (x y : Val) : Val.pmax (rs k x) (rs k y) = rs k (Val.pmax x y) := by
  unfold Val.pmax; simp only [rs_lt]; split_ifs <;> rfl
theorem rs_pmin (x y : Val) : Val.pmin (rs k x) (rs k y) = rs k (Val.pmin x y) := by
  unfold Val.pmin; simp only [rs_lt]; split_ifs <;> rfl

/-! ## Rounding -/

/-- The number is a whole multiple of 0.0002, so that adding it commutes with rounding (half to even) to 4 decimals. -/
def Coarse (k : ℚ) : Prop := ∃ m : ℤ, k = m / 5000

theorem rint_add_two_mul (q : ℚ) (m : ℤ) : rint (q + 2 * m) = rint q + 2 * m := by
  unfold rint
  have hf : ⌊q + 2 * (m : ℚ)⌋ = ⌊q⌋ + 2 * m := by
    have : (q + 2 * (m : ℚ)) = q + ((2 * m : ℤ) : ℚ) := by push_cast; ring
    rw [this, Int.floor_add_intCast]
  have hd : q + 2 * (m : ℚ) - ((⌊q⌋ + 2 * m : ℤ) : ℚ) = q - ⌊q⌋ := by push_cast; ring
  simp only [hf, hd]
  have hm : (⌊q⌋ + 2 * m) % 2 = ⌊q⌋ % 2 := by omega
  rw [hm]
  split_ifs <;> omega

theorem roundQ_add_coarse (hk : Coarse k) (q : ℚ) : roundQ 4 (q + k) = roundQ 4 q + k := by
  obtain ⟨m, rfl⟩ := hk
  unfold roundQ
  have : (q + (m : ℚ) / 5000) * 10 ^ 4 = q * 10 ^ 4 + 2 * m := by ring
  rw [this, rint_add_two_mul]
  push_cast
  ring

theorem rs_round (hk : Coarse k) (x : Val) : Val.round 4 (rs k x) = rs k (Val.round 4 x) := by
  cases x <;> simp [rs, Val.round, roundQ_add_coarse k hk]

/-! ## Columns -/

theorem rsl_length (xs : List Val) : (rsl k xs).length = xs.length := List.length_map _
theorem rsl_take (xs : List Val) (n : ℕ) : (rsl k xs).take n = rsl k (xs.take n) := List.map_take.symm
theorem rsl_drop (xs : List Val) (n : ℕ) : (rsl k xs).drop n = rsl k (xs.drop n) := List.map_drop.symm
theorem rsl_window (xs : List Val) (n : ℕ) : window n (rsl k xs) = rsl k (window n xs) := by
  unfold window; rw [rsl_length, rsl_drop]

theorem finVals_rsl (xs : List Val) : finVals (rsl k xs) = (finVals xs).map (· + k) := by
  unfold finVals rsl
  rw [List.filterMap_map, List.map_filterMap]
  congr 1
  funext x
  cases x <;> rfl

/-- An aggregation that moves with the data. -/
def AggUp (k a : ℚ) (agg : List ℚ → Val) : Prop := ∀ v : List ℚ, agg (v.map (· + k)) = rs a (agg v)

theorem sum_map_add (v : List ℚ) : (v.map (· + k)).sum = v.sum + v.length * k := by
  induction v with
  | nil => simp
  | cons a v ih => simp only [List.map_cons, List.sum_cons, ih, List.length_cons]; push_cast; ring

theorem up_mean : AggUp k k aggMean := by
  intro v
  simp only [aggMean, List.map_eq_nil_iff, List.length_map, sum_map_add]
  split_ifs with h
  · rfl
  · simp only [rs, Val.fin.injEq]
    have : (v.length : ℚ) ≠ 0 := by
      have := List.length_pos_of_ne_nil h
      exact_mod_cast this.ne'
    field_simp

theorem up_max : AggUp k k aggMax := by
  intro v
  cases v with
  | nil => rfl
  | cons a l =>
    simp only [aggMax, maxQ, List.map_cons, ofOption, rs]
    congr 1
    induction l generalizing a with
    | nil => rfl
    | cons b l ih => simp only [List.map_cons, List.foldl_cons, max_add_add_right, ih]

theorem up_min : AggUp k k aggMin := by
  intro v
  cases v with
  | nil => rfl
  | cons a l =>
    simp only [aggMin, minQ, List.map_cons, ofOption, rs]
    congr 1
    induction l generalizing a with
    | nil => rfl
    | cons b l ih => simp only [List.map_cons, List.foldl_cons, min_add_add_right, ih]

theorem variance_add (d : ℕ) (v : List ℚ) : variance d (v.map (· + k)) = variance d v := by
  unfold variance
  simp only [List.length_map, List.map_map, sum_map_add]
  by_cases h0 : v = []
  · subst h0; rfl
  have h : (v.length : ℚ) ≠ 0 := by
    have := List.length_pos_of_ne_nil h0
    exact_mod_cast this.ne'
  split_ifs
  · rfl
  · congr 3
    apply List.map_congr_left
    intro x _
    simp only [Function.comp]
    congr 1
    field_simp
    ring

theorem up_std (sq : ℚ → ℚ) (d : ℕ) : AggUp k 0 (aggStd sq d) := by
  intro v
  unfold aggStd
  rw [variance_add, rs_zero]

theorem rolling_rsl (w m : ℕ) (a : ℚ) (agg : List ℚ → Val) (ha : AggUp k a agg) (xs : List Val) :
    rolling w m agg (rsl k xs) = rsl a (rolling w m agg xs) := by
  unfold rolling
  apply prefixMap_map
  intro pre
  have : finVals (window w (pre.map (rs k))) = (finVals (window w pre)).map (· + k) := by
    rw [← finVals_rsl, ← rsl_window]; rfl
  simp only [this, List.length_map]
  split_ifs
  · exact ha _
  · rfl

theorem finVals_length_le (xs : List Val) : (finVals xs).length ≤ xs.length := List.length_filterMap_le _ _

/-- The sum over full windows moves by the window length. -/
theorem rolling_sum_rsl (w : ℕ) (xs : List Val) :
    rolling w w aggSum (rsl k xs) = rsl (w * k) (rolling w w aggSum xs) := by
  unfold rolling
  apply prefixMap_map
  intro pre
  have : finVals (window w (pre.map (rs k))) = (finVals (window w pre)).map (· + k) := by
    rw [← finVals_rsl, ← rsl_window]; rfl
  simp only [this, List.length_map]
  split_ifs with h
  · have hl : (finVals (window w pre)).length = w := by
      have h1 := finVals_length_le (window w pre)
      have h2 : (window w pre).length ≤ w := by unfold window; rw [List.length_drop]; omega
      omega
    simp only [aggSum, sum_map_add, hl, rs]
  · rfl

theorem ewmStep_raise (a : ℚ) (ha : 0 < a) (ha' : a ≤ 1) (m : Option (ℚ × ℚ)) (ho : ∀ p ∈ m, 0 ≤ p.2) (n : ℕ) (x : Val) :
    ewmStep a ⟨m.map fun p => (p.1 + k, p.2), n⟩ (rs k x) =
      ⟨(ewmStep a ⟨m, n⟩ x).mean.map fun p => (p.1 + k, p.2), (ewmStep a ⟨m, n⟩ x).nobs⟩ := by
  cases m with
  | none => cases x <;> rfl
  | some p =>
    obtain ⟨w, o⟩ := p
    have ho : 0 ≤ o := ho _ rfl
    cases x with
    | fin q =>
      simp only [ewmStep, rs, Option.map_some, EwmState.mk.injEq, and_true, Option.some.injEq, Prod.mk.injEq, add_left_inj]
      by_cases h : w = q
      · rw [if_pos h, if_pos h]
      · rw [if_neg h, if_neg h]
        have hne : o * (1 - a) + (if a = 1 / 2 then 1 - o * (1 - a) else a) ≠ 0 := by
          split_ifs
          · rw [add_sub_cancel]; exact one_ne_zero
          · have : 0 ≤ o * (1 - a) := mul_nonneg ho (by linarith)
            linarith
        rw [div_add' _ _ _ hne]
        congr 1
        ring
    | nan => rfl
    | pinf => rfl
    | ninf => rfl

theorem ewmStep_weight (a : ℚ) (ha' : a ≤ 1) (st : EwmState) (ho : ∀ p ∈ st.mean, 0 ≤ p.2) (x : Val) :
    ∀ p ∈ (ewmStep a st x).mean, 0 ≤ p.2 := by
  obtain ⟨m, n⟩ := st
  cases m with
  | none =>
    cases x <;> simp [ewmStep]
  | some p =>
    obtain ⟨w, o⟩ := p
    have ho : 0 ≤ o := ho _ rfl
    have h1 : 0 ≤ o * (1 - a) := mul_nonneg ho (by linarith)
    cases x <;> simp [ewmStep, h1]

theorem ewmFold_raise (a : ℚ) (ha : 0 < a) (ha' : a ≤ 1) (xs : List Val) (st : EwmState) (ho : ∀ p ∈ st.mean, 0 ≤ p.2) :
    (rsl k xs).foldl (ewmStep a) ⟨st.mean.map fun p => (p.1 + k, p.2), st.nobs⟩ =
      ⟨(xs.foldl (ewmStep a) st).mean.map fun p => (p.1 + k, p.2), (xs.foldl (ewmStep a) st).nobs⟩ := by
  induction xs generalizing st with
  | nil => rfl
  | cons x xs ih =>
    simp only [rsl, List.map_cons, List.foldl_cons]
    rw [ewmStep_raise k a ha ha' st.mean ho]
    exact ih _ (ewmStep_weight a ha' st ho x)

theorem ewmAlpha_rsl (a : ℚ) (ha : 0 < a) (ha' : a ≤ 1) (m : ℕ) (xs : List Val) :
    ewmAlpha a m (rsl k xs) = rsl k (ewmAlpha a m xs) := by
  unfold ewmAlpha
  apply prefixMap_map
  intro pre
  have := ewmFold_raise k a ha ha' pre ⟨none, 0⟩ (by simp)
  simp only [Option.map_none, rsl] at this
  simp only [this]
  split_ifs
  · cases (pre.foldl (ewmStep a) ⟨none, 0⟩).mean <;> rfl
  · rfl

theorem ewm_rsl (s m : ℕ) (hs : 1 ≤ s) (xs : List Val) : ewm s m (rsl k xs) = rsl k (ewm s m xs) := by
  have h : (1 : ℚ) ≤ s := by exact_mod_cast hs
  exact ewmAlpha_rsl k _ (by positivity) (by rw [div_le_one (by positivity)]; linarith) _ _

theorem shift_rsl (n : ℕ) (xs : List Val) : shift n (rsl k xs) = rsl k (shift n xs) := by
  simp only [shift, rsl, List.map_take, List.map_append, List.map_replicate, List.length_map, rs_nan]

theorem shiftBack_rsl (n : ℕ) (xs : List Val) : shiftBack n (rsl k xs) = rsl k (shiftBack n xs) := by
  simp only [shiftBack, rsl, List.map_take, List.map_append, List.map_replicate, List.length_map, rs_nan, List.map_drop]

theorem maskBefore_rsl (n : ℕ) (xs : List Val) : maskBefore n (rsl k xs) = rsl k (maskBefore n xs) := by
  simp only [maskBefore, rsl, List.map_take, List.map_append, List.map_replicate, List.length_map, rs_nan, List.map_drop]

/-- Row-wise operations. -/
theorem zipV_rsl (f : Val → Val → Val) (a b c : ℚ) (h : ∀ x y, f (rs a x) (rs b y) = rs c (f x y)) (xs ys : List Val) :
    zipV f (rsl a xs) (rsl b ys) = rsl c (zipV f xs ys) := by
  unfold zipV rsl
  rw [List.zipWith_map, List.map_zipWith]
  congr 1
  funext x y
  exact h x y

theorem zipV_rs_inv (f : Val → Val → Val) (h : ∀ x y, f (rs k x) (rs k y) = f x y) (xs ys : List Val) :
    zipV f (rsl k xs) (rsl k ys) = zipV f xs ys := by
  have := zipV_rsl f k k 0 (fun x y => by rw [h, rs_zero]) xs ys
  rwa [rsl_zero] at this

theorem addS_rsl (a b : ℚ) (xs ys : List Val) : addS (rsl a xs) (rsl b ys) = rsl (a + b) (addS xs ys) :=
  zipV_rsl _ _ _ _ (rs_add a b) _ _
theorem addS_rsl_left (xs ys : List Val) : addS (rsl k xs) ys = rsl k (addS xs ys) := by
  have := addS_rsl k 0 xs ys; rwa [rsl_zero, add_zero] at this
theorem subS_rsl (a b : ℚ) (xs ys : List Val) : subS (rsl a xs) (rsl b ys) = rsl (a - b) (subS xs ys) :=
  zipV_rsl _ _ _ _ (rs_sub a b) _ _
theorem subS_rsl_left (xs ys : List Val) : subS (rsl k xs) ys = rsl k (subS xs ys) := by
  have := subS_rsl k 0 xs ys; rwa [rsl_zero, sub_zero] at this
theorem subS_rsl_same (xs ys : List Val) : subS (rsl k xs) (rsl k ys) = subS xs ys := by
  rw [subS_rsl, sub_self, rsl_zero]
theorem diffS_rsl (n : ℕ) (xs : List Val) : diffS n (rsl k xs) = diffS n xs := by
  unfold diffS; rw [shift_rsl, subS_rsl_same]

theorem map_rsl (f : Val → Val) (a : ℚ) (h : ∀ x, f (rs k x) = rs a (f x)) (xs : List Val) :
    (rsl k xs).map f = rsl a (xs.map f) := by
  unfold rsl
  rw [List.map_map, List.map_map]
  exact List.map_congr_left fun x _ => h x

theorem scaleS_rsl (c : ℚ) (xs : List Val) : scaleS c (rsl k xs) = rsl (c * k) (scaleS c xs) :=
  map_rsl k _ _ (fun x => rs_mul c k x) _

theorem divBy_rsl (c : ℚ) (hc : c ≠ 0) (xs : List Val) :
    ((rsl k xs).map fun x => Val.div x (.fin c)) = rsl (k / c) (xs.map fun x => Val.div x (.fin c)) :=
  map_rsl k _ _ (fun x => rs_div c k hc x) _

theorem roundS_rsl (hk : Coarse k) (xs : List Val) : roundS 4 (rsl k xs) = rsl k (roundS 4 xs) :=
  map_rsl k _ _ (fun x => rs_round k hk x) _

theorem foldl_add_rsl (xs : List Val) (z : Val) :
    (rsl k xs).foldl Val.add z = rs (xs.length * k) (xs.foldl Val.add z) := by
  have : ∀ (xs : List Val) (a : ℚ) (z : Val), (rsl k xs).foldl Val.add (rs a z) = rs (a + xs.length * k) (xs.foldl Val.add z) := by
    intro xs
    induction xs with
    | nil => intro a z; simp [rsl]
    | cons x xs ih =>
      intro a z
      simp only [rsl, List.map_cons, List.foldl_cons]
      rw [rs_add]
      have := ih (a + k) (Val.add z x)
      simp only [rsl] at this
      rw [this]
      congr 1
      push_cast [List.length_cons]
      ring
  have := this xs 0 z
  rwa [rs_zero, zero_add] at this

theorem known_rsl (xs : List Val) : (rsl k xs).filter (fun x => !x.isNan) = rsl k (xs.filter fun x => !x.isNan) := by
  unfold rsl
  rw [List.filter_map]
  congr 1
  apply List.filter_congr
  intro x _
  simp [rs_isNan]

theorem meanSkip_rsl (xs : List Val) : meanSkip (rsl k xs) = rs k (meanSkip xs) := by
  unfold meanSkip
  simp only [known_rsl, foldl_add_rsl, rsl_length]
  have he : (rsl k (xs.filter fun x => !x.isNan) = []) ↔ ((xs.filter fun x => !x.isNan) = []) := by
    unfold rsl; rw [List.map_eq_nil_iff]
  by_cases h : (xs.filter fun x => !x.isNan) = []
  · rw [if_pos (he.2 h), if_pos h]; rfl
  · rw [if_neg (fun h' => h (he.1 h')), if_neg h]
    have hl : ((xs.filter fun x => !x.isNan).length : ℚ) ≠ 0 := by
      have := List.length_pos_of_ne_nil h
      exact_mod_cast this.ne'
    rw [rs_div _ _ hl, mul_div_cancel_left₀ _ hl]

/-- The sum of a complete row moves by its length. -/
theorem sumSkip_rsl (xs : List Val) (h : ∀ x ∈ xs, x ≠ .nan) : sumSkip (rsl k xs) = rs (xs.length * k) (sumSkip xs) := by
  unfold sumSkip
  rw [known_rsl, foldl_add_rsl]
  have : (xs.filter fun x => !x.isNan) = xs := by
    apply List.filter_eq_self.2
    intro x hx
    have := h x hx
    cases x <;> simp_all [Val.isNan]
  rw [this]

theorem wilder_rsl (s p : ℕ) (xs : List Val) : wilder s p (rsl k xs) = rsl k (wilder s p xs) := by
  unfold wilder
  apply prefixMap_map
  intro pre
  rw [List.length_map]
  split_ifs
  · rfl
  · have h1 : ∀ (l : List Val) (z : Val), (rsl k l).foldl (fun prev x => Val.add prev (Val.div (Val.sub x prev) (.fin p))) (rs k z) =
        rs k (l.foldl (fun prev x => Val.add prev (Val.div (Val.sub x prev) (.fin p))) z) := by
      intro l
      induction l with
      | nil => intro z; rfl
      | cons x l ih =>
        intro z
        simp only [rsl, List.map_cons, List.foldl_cons]
        rw [rs_sub_same, rs_add_left]
        exact ih _
    have h2 : meanSkip (((pre.map (rs k)).drop s).take p) = rs k (meanSkip ((pre.drop s).take p)) := by
      rw [← meanSkip_rsl, ← rsl_take, ← rsl_drop]; rfl
    rw [h2, ← List.map_drop]
    exact h1 _ _

theorem ffill_rsl (xs : List Val) : ffill (rsl k xs) = rsl k (ffill xs) := by
  unfold ffill
  apply prefixMap_map
  intro pre
  have := known_rsl k pre
  unfold rsl at this
  rw [this, List.getLast?_map]
  cases (pre.filter fun x => !x.isNan).getLast? <;> rfl

theorem bfill_rsl (xs : List Val) : bfill (rsl k xs) = rsl k (bfill xs) := by
  unfold bfill
  have : (rsl k xs).reverse = rsl k xs.reverse := List.map_reverse.symm
  rw [this, ffill_rsl]
  exact List.map_reverse.symm

theorem iat_rsl (xs : List Val) (n : ℕ) : iat (rsl k xs) n = (rs k) <$> iat xs n := by
  unfold iat fromEnd
  rw [rsl_length]
  split_ifs
  · have : (rsl k xs)[xs.length - n]? = (xs[xs.length - n]?).map (rs k) := by unfold rsl; rw [List.getElem?_map]
    rw [this]
    cases xs[xs.length - n]? <;> rfl
  · rfl

theorem getD_rsl (xs : List Val) (i : ℕ) : (rsl k xs).getD i .nan = rs k (xs.getD i .nan) := by
  unfold rsl
  simp only [List.getD_eq_getElem?_getD, List.getElem?_map]
  cases xs[i]? <;> rfl

theorem zip_rsl (xs ys : List Val) : (rsl k xs).zip (rsl k ys) = (xs.zip ys).map fun p => (rs k p.1, rs k p.2) := by
  unfold rsl; rw [List.zip_map]; rfl

theorem maxOf_rsl (xs : List Val) : maxOf (rsl k xs) = rs k (maxOf xs) := by
  have : ∀ (xs : List Val) (z : Val), (rsl k xs).foldl maxSkip (rs k z) = rs k (xs.foldl maxSkip z) := by
    intro xs
    induction xs with
    | nil => intro z; rfl
    | cons x xs ih => intro z; simp only [rsl, List.map_cons, List.foldl_cons, rs_maxSkip]; exact ih _
  exact this xs .nan

theorem minOf_rsl (xs : List Val) : minOf (rsl k xs) = rs k (minOf xs) := by
  have : ∀ (xs : List Val) (z : Val), (rsl k xs).foldl minSkip (rs k z) = rs k (xs.foldl minSkip z) := by
    intro xs
    induction xs with
    | nil => intro z; rfl
    | cons x xs ih => intro z; simp only [rsl, List.map_cons, List.foldl_cons, rs_minSkip]; exact ih _
  exact this xs .nan

end
end TTI
