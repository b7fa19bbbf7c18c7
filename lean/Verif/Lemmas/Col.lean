import Verif.Lemmas.Constant
import Verif.Lemmas.Volume
import Verif.Lemmas.Bands
import Verif.Spec.Formula

set_option autoImplicit false

/-!
# Columns that are missing up to a row and given by a function of the row from there on
-/

namespace TTI

open Spec

/-- `n` rows, missing before row `k`, then the values of `v`. -/
structure Col (n k : ℕ) (v : ℕ → Val) (xs : List Val) : Prop where
  len : xs.length = n
  val : ∀ i < n, TTI.val xs i = if i < k then .nan else v i

/-- `n` rows, missing before row `k`, then the numbers of `g`. -/
structure Nums (n k : ℕ) (g : ℕ → ℚ) (xs : List Val) : Prop where
  len : xs.length = n
  val : ∀ i < n, TTI.val xs i = if i < k then .nan else .fin (g i)

namespace Col

variable {n k l : ℕ} {v w : ℕ → Val} {xs ys : List Val}

theorem round (h : Col n k v xs) (d : ℕ) : Col n k (fun i => Val.round d (v i)) (roundS d xs) :=
  ⟨by simp [h.len], fun i hi => by rw [val_roundS, h.val i hi]; split <;> simp⟩

theorem eq (h : Col n k v xs) {i : ℕ} (hi : i < n) {k' : ℕ} {v' : Val} (hk : k = k') (hv : k ≤ i → v i = v') :
    TTI.val xs i = since k' i v' := by
  rw [h.val i hi, ← hk]
  unfold since
  split
  · rfl
  · exact hv (by omega)

theorem congr (h : Col n k v xs) {k' : ℕ} (hk : k = k') (hv : ∀ i < n, k ≤ i → v i = w i) : Col n k' w xs :=
  ⟨h.len, fun i hi => by
    rw [h.val i hi, ← hk]
    split
    · rfl
    · exact hv i hi (by omega)⟩

theorem mapV (h : Col n k v xs) (f : Val → Val) (hf : f .nan = .nan) : Col n k (fun i => f (v i)) (xs.map f) :=
  ⟨by simp [h.len], fun i hi => by rw [val_map f hf, h.val i hi]; split <;> simp [hf]⟩

theorem toNums (h : Col n k v xs) (g : ℕ → ℚ) (hg : ∀ i < n, k ≤ i → v i = .fin (g i)) : Nums n k g xs :=
  ⟨h.len, fun i hi => by
    rw [h.val i hi]
    split
    · rfl
    · exact hg i hi (by omega)⟩

theorem add (h : Col n k v xs) (h' : Col n l w ys) : Col n (max k l) (fun i => Val.add (v i) (w i)) (addS xs ys) :=
  ⟨by simp [h.len, h'.len], fun i hi => by
    rw [val_addS, h.val i hi, h'.val i hi]
    split_ifs <;> first | omega | simp⟩

theorem scale (h : Col n k v xs) (c : ℚ) : Col n k (fun i => Val.mul (.fin c) (v i)) (scaleS c xs) :=
  ⟨by simp [h.len], fun i hi => by rw [val_scaleS, h.val i hi]; split <;> simp⟩

theorem mask (h : Col n k v xs) (m : ℕ) : Col n (max k m) v (maskBefore m xs) :=
  ⟨by simp [h.len], fun i hi => by
    rw [val_maskBefore, h.val i hi]
    split_ifs <;> first | omega | rfl⟩

theorem shift (h : Col n k v xs) (m : ℕ) : Col n (k + m) (fun i => v (i - m)) (shift m xs) :=
  ⟨by simp [h.len], fun i hi => by
    rw [val_shift _ _ _ (by rw [h.len]; exact hi)]
    split_ifs with h1 h2
    · rfl
    · omega
    · rw [h.val _ (by omega), if_pos (by omega)]
    · rw [h.val _ (by omega), if_neg (by omega)]⟩

end Col

theorem quotient_eq (a b : ℚ) : Val.div (.fin a) (.fin b) = quotient a b := by
  unfold Val.div quotient
  by_cases hb : b = 0
  · simp only [hb, if_true, ne_eq, not_true, if_false]
    rcases lt_trichotomy a 0 with h | h | h
    · simp [h, h.ne, h.not_gt]
    · simp [h]
    · simp [h, h.ne']
  · simp [hb]

theorem quotient_ne (a b : ℚ) (h : b ≠ 0) : quotient a b = .fin (a / b) := by simp [quotient, h]

theorem mul_quotient (c a b : ℚ) (hc : c ≠ 0) : Val.mul (.fin c) (quotient a b) = quotient (c * a) b := by
  unfold quotient
  by_cases hb : b = 0
  · simp only [hb, ne_eq, not_true, if_false]
    rcases lt_trichotomy a 0 with h | h | h <;> rcases lt_or_gt_of_ne hc with h' | h'
    · simp [h, h.not_gt, mul_pos_of_neg_of_neg h' h, Val.mul, Val.infMul, hc, h'.not_gt]
    · have := mul_neg_of_pos_of_neg h' h
      simp [h, h.not_gt, this, this.not_gt, Val.mul, Val.infMul, hc, h']
    · simp [h]
    · simp [h]
    · have := mul_neg_of_neg_of_pos h' h
      simp [h, this, this.not_gt, Val.mul, Val.infMul, hc, h'.not_gt]
    · simp [h, mul_pos h' h, Val.mul, Val.infMul, hc, h']
  · simp [hb, mul_div_assoc]

namespace Nums

variable {n k l : ℕ} {g h' : ℕ → ℚ} {xs ys : List Val}

theorem col (h : Nums n k g xs) : Col n k (fun i => .fin (g i)) xs := ⟨h.len, h.val⟩

theorem fin (h : Nums n k g xs) {i : ℕ} (hi : i < n) (hk : k ≤ i) : TTI.val xs i = .fin (g i) := by
  rw [h.val i hi, if_neg (by omega)]

theorem nan (h : Nums n k g xs) {i : ℕ} (hi : i < n) (hk : i < k) : TTI.val xs i = .nan := by
  rw [h.val i hi, if_pos hk]

theorem congr (h : Nums n k g xs) {k' : ℕ} {g' : ℕ → ℚ} (hk : k = k') (hv : ∀ i < n, k ≤ i → g i = g' i) : Nums n k' g' xs :=
  h.col.congr hk (fun i hi hk => congrArg Val.fin (hv i hi hk)) |>.toNums _ fun _ _ _ => rfl

theorem round (h : Nums n k g xs) (d : ℕ) : Nums n k (fun i => roundQ d (g i)) (roundS d xs) :=
  (h.col.round d).toNums _ fun _ _ _ => rfl

/-- The reported value of a rounded column. -/
theorem eq4 (h : Nums n k g xs) {i : ℕ} (hi : i < n) {k' : ℕ} {q : ℚ} (hk : k = k') (hv : k ≤ i → g i = q) :
    TTI.val (roundS 4 xs) i = since k' i (to4 q) :=
  (h.round 4).col.eq hi hk fun hk => by rw [hv hk]; rfl

theorem op (h : Nums n k g xs) (h2 : Nums n l h' ys) (f : Val → Val → Val) (q : ℚ → ℚ → ℚ) (h1 : ∀ y, f .nan y = .nan)
    (h3 : ∀ x, f x .nan = .nan) (hf : ∀ a b, f (.fin a) (.fin b) = .fin (q a b)) :
    Nums n (max k l) (fun i => q (g i) (h' i)) (zipV f xs ys) :=
  ⟨by simp [h.len, h2.len], fun i hi => by
    rw [val_zipV_nan _ h1 h3, h.val i hi, h2.val i hi]
    split_ifs <;> first | omega | simp [h1, h3, hf]⟩

theorem add (h : Nums n k g xs) (h2 : Nums n l h' ys) : Nums n (max k l) (fun i => g i + h' i) (addS xs ys) :=
  h.op h2 _ _ Val.nan_add Val.add_nan fun _ _ => rfl

theorem sub (h : Nums n k g xs) (h2 : Nums n l h' ys) : Nums n (max k l) (fun i => g i - h' i) (subS xs ys) :=
  h.op h2 _ _ Val.nan_sub Val.sub_nan Val.fin_sub

theorem mul (h : Nums n k g xs) (h2 : Nums n l h' ys) : Nums n (max k l) (fun i => g i * h' i) (mulS xs ys) :=
  h.op h2 _ _ Val.nan_mul Val.mul_nan fun _ _ => rfl

theorem quot (h : Nums n k g xs) (h2 : Nums n l h' ys) : Col n (max k l) (fun i => quotient (g i) (h' i)) (divS xs ys) :=
  ⟨by simp [h.len, h2.len], fun i hi => by
    rw [val_divS, h.val i hi, h2.val i hi]
    split_ifs <;> first | omega | simp [quotient_eq]⟩

theorem div (h : Nums n k g xs) (h2 : Nums n l h' ys) (h0 : ∀ i < n, max k l ≤ i → h' i ≠ 0) :
    Nums n (max k l) (fun i => g i / h' i) (divS xs ys) :=
  (h.quot h2).toNums _ fun i hi hk => quotient_ne _ _ (h0 i hi hk)

theorem scale (h : Nums n k g xs) (c : ℚ) : Nums n k (fun i => c * g i) (scaleS c xs) :=
  (h.col.scale c).toNums _ fun _ _ _ => rfl

theorem mapV (h : Nums n k g xs) (f : Val → Val) (q : ℚ → ℚ) (h0 : f .nan = .nan) (hf : ∀ a, f (.fin a) = .fin (q a)) :
    Nums n k (fun i => q (g i)) (xs.map f) :=
  (h.col.mapV f h0).toNums _ fun _ _ _ => hf _

theorem divConst (h : Nums n k g xs) (c : ℚ) (hc : c ≠ 0) : Nums n k (fun i => g i / c) (xs.map fun x => Val.div x (.fin c)) :=
  h.mapV _ (· / c) rfl fun a => Val.fin_div a c hc

theorem abs (h : Nums n k g xs) : Nums n k (fun i => |g i|) (xs.map Val.abs) := h.mapV _ _ rfl fun _ => rfl

theorem zeroBelow (h : Nums n k g xs) : Nums n k (fun i => max (g i) 0) (zeroBelow xs) :=
  h.mapV (fun x => if x <ᵥ 0 then 0 else x) (fun q => max q 0) rfl fun a => by
    rw [Val.zero_eq]
    simp only [Val.fin_lt, decide_eq_true_eq]
    split
    · next h => rw [max_eq_right h.le]
    · next h => rw [max_eq_left (not_lt.1 h)]

theorem zeroAbove (h : Nums n k g xs) : Nums n k (fun i => min (g i) 0) (zeroAbove xs) :=
  h.mapV (fun x => if (0 : Val) <ᵥ x then 0 else x) (fun q => min q 0) rfl fun a => by
    rw [Val.zero_eq]
    simp only [Val.fin_lt, decide_eq_true_eq]
    split
    · next h => rw [min_eq_right h.le]
    · next h => rw [min_eq_left (not_lt.1 h)]

theorem shift (h : Nums n k g xs) (m : ℕ) : Nums n (k + m) (fun i => g (i - m)) (TTI.shift m xs) :=
  (h.col.shift m).toNums _ fun _ _ _ => rfl

theorem mask (h : Nums n k g xs) (m : ℕ) : Nums n (max k m) g (maskBefore m xs) := (h.col.mask m).toNums _ fun _ _ _ => rfl

/-! ### Rolling windows -/

theorem roll (h : Nums n k g xs) (w : ℕ) (hw : 1 ≤ w) (agg : List ℚ → Val) :
    Col n (k + w - 1) (fun i => agg ((List.range w).map fun t => g (i + 1 - w + t))) (rolling w w agg xs) :=
  ⟨by simp [h.len], fun i hi => by
    split
    · next h1 =>
      rcases rolling_full_cases w agg xs i (by rw [h.len]; exact hi) with h2 | ⟨hwi, f, hf, -⟩
      · exact h2
      · have := hf (i + 1 - w) (by omega) (by omega)
        rw [h.nan (by omega) (by omega)] at this
        simp at this
    · next h1 =>
      rw [val_rolling_fin w w agg xs g i (by rw [h.len]; exact hi) fun j h2 h3 => h.fin (by omega) (by omega)]
      have e : min w (i + 1) = w := by omega
      rw [e, if_pos (le_refl _)]⟩

theorem window_sum (w : ℕ) (g : ℕ → ℚ) (i : ℕ) (hi : w ≤ i + 1) :
    ((List.range w).map fun t => g (i + 1 - w + t)).sum = sumLast w g i := by
  have e : ((List.range w).map fun t => g (i + 1 - w + t)).sum = ∑ t ∈ Finset.range w, g (i + 1 - w + t) := by
    clear hi
    generalize i + 1 - w = s
    induction w with
    | zero => simp
    | succ w ih => rw [List.range_succ, List.map_append, List.sum_append, ih, Finset.sum_range_succ]; simp
  rw [e, ← Finset.sum_range_reflect]
  unfold sumLast
  apply Finset.sum_congr rfl
  intro t ht
  rw [Finset.mem_range] at ht
  congr 1; omega

theorem rollSum (h : Nums n k g xs) (w : ℕ) (hw : 1 ≤ w) : Nums n (k + w - 1) (sumLast w g) (rolling w w aggSum xs) :=
  (h.roll w hw aggSum).toNums _ fun i _ hk => by rw [aggSum, window_sum w g i (by omega)]

theorem rollMean (h : Nums n k g xs) (w : ℕ) (hw : 1 ≤ w) : Nums n (k + w - 1) (meanLast w g) (rolling w w aggMean xs) :=
  (h.roll w hw aggMean).toNums _ fun i _ hk => by
    rw [aggMean, if_neg (by simp; omega), window_sum w g i (by omega)]; simp [meanLast]

theorem highest_spec (w : ℕ) (hw : 1 ≤ w) (g : ℕ → ℚ) (i : ℕ) :
    (∀ t < w, g (i - t) ≤ highest w g i) ∧ ∃ t < w, highest w g i = g (i - t) := by
  unfold highest
  have key : ∀ (l : List ℕ) (a : ℚ), a ≤ l.foldl (fun m t => max m (g (i - t))) a ∧
      (∀ t ∈ l, g (i - t) ≤ l.foldl (fun m t => max m (g (i - t))) a) ∧
      (l.foldl (fun m t => max m (g (i - t))) a = a ∨ ∃ t ∈ l, l.foldl (fun m t => max m (g (i - t))) a = g (i - t)) := by
    intro l
    induction l with
    | nil => intro a; simp
    | cons b l ih =>
      intro a
      obtain ⟨h1, h2, h3⟩ := ih (max a (g (i - b)))
      rw [List.foldl_cons]
      refine ⟨(le_max_left _ _).trans h1, ?_, ?_⟩
      · intro t ht
        rcases List.mem_cons.1 ht with rfl | ht
        · exact (le_max_right _ _).trans h1
        · exact h2 t ht
      · rcases h3 with h3 | ⟨t, ht, h3⟩
        · rw [h3]
          rcases max_choice a (g (i - b)) with h | h
          · left; exact h
          · right; exact ⟨b, by simp, h⟩
        · right; exact ⟨t, by simp [ht], h3⟩
  obtain ⟨-, h2, h3⟩ := key (List.range w) (g i)
  refine ⟨fun t ht => h2 t (List.mem_range.2 ht), ?_⟩
  rcases h3 with h3 | ⟨t, ht, h3⟩
  · exact ⟨0, by omega, h3⟩
  · exact ⟨t, List.mem_range.1 ht, h3⟩

theorem lowest_spec (w : ℕ) (hw : 1 ≤ w) (g : ℕ → ℚ) (i : ℕ) :
    (∀ t < w, lowest w g i ≤ g (i - t)) ∧ ∃ t < w, lowest w g i = g (i - t) := by
  have e : ∀ (l : List ℕ) (a : ℚ), l.foldl (fun m t => min m (g (i - t))) a =
      - l.foldl (fun m t => max m (-g (i - t))) (-a) := by
    intro l
    induction l with
    | nil => intro a; simp
    | cons b l ih => intro a; rw [List.foldl_cons, List.foldl_cons, ih, neg_inf]
  have hl : lowest w g i = - highest w (fun j => - g j) i := e _ _
  obtain ⟨h1, t, ht, h2⟩ := highest_spec w hw (fun j => - g j) i
  rw [hl]
  refine ⟨fun t ht => by have := h1 t ht; linarith, t, ht, by rw [h2]; ring⟩

theorem rollMax (h : Nums n k g xs) (w : ℕ) (hw : 1 ≤ w) : Nums n (k + w - 1) (highest w g) (rolling w w aggMax xs) :=
  (h.roll w hw aggMax).toNums _ fun i _ hk => by
    obtain ⟨m, h1, h2, h3⟩ := aggMax_spec ((List.range w).map fun t => g (i + 1 - w + t)) (by simp; omega)
    obtain ⟨h4, t, ht, h5⟩ := highest_spec w hw g i
    rw [h1]
    congr 1
    apply le_antisymm
    · rw [List.mem_map] at h2
      obtain ⟨s, hs, rfl⟩ := h2
      rw [List.mem_range] at hs
      have := h4 (w - 1 - s) (by omega)
      rwa [show i - (w - 1 - s) = i + 1 - w + s by omega] at this
    · rw [h5]
      apply h3
      rw [List.mem_map]
      exact ⟨w - 1 - t, by rw [List.mem_range]; omega, by congr 1; omega⟩

theorem rollMin (h : Nums n k g xs) (w : ℕ) (hw : 1 ≤ w) : Nums n (k + w - 1) (lowest w g) (rolling w w aggMin xs) :=
  (h.roll w hw aggMin).toNums _ fun i _ hk => by
    obtain ⟨m, h1, h2, h3⟩ := aggMin_spec ((List.range w).map fun t => g (i + 1 - w + t)) (by simp; omega)
    obtain ⟨h4, t, ht, h5⟩ := lowest_spec w hw g i
    rw [h1]
    congr 1
    apply le_antisymm
    · rw [h5]
      apply h3
      rw [List.mem_map]
      exact ⟨w - 1 - t, by rw [List.mem_range]; omega, by congr 1; omega⟩
    · rw [List.mem_map] at h2
      obtain ⟨s, hs, rfl⟩ := h2
      rw [List.mem_range] at hs
      have := h4 (w - 1 - s) (by omega)
      rwa [show i - (w - 1 - s) = i + 1 - w + s by omega] at this

theorem rollStd (h : Nums n k g xs) (w : ℕ) (hw : 1 ≤ w) (sq : ℚ → ℚ) :
    Nums n (k + w - 1) (fun i => sq (varianceLast w g i)) (rolling w w (aggStd sq 0) xs) :=
  (h.roll w hw (aggStd sq 0)).toNums _ fun i _ hk => by
    have e : variance 0 ((List.range w).map fun t => g (i + 1 - w + t)) = some (varianceLast w g i) := by
      unfold variance
      rw [if_neg (by simp; omega), List.map_map, window_sum w g i (by omega)]
      congr 1
      have := window_sum w (fun j => (g j - meanLast w g i) ^ 2) i (by omega)
      simp only [List.length_map, List.length_range, Nat.cast_zero, sub_zero]
      show _ = sumLast w (fun j => (g j - meanLast w g i) ^ 2) i / w
      rw [← this]
      rfl
    unfold aggStd
    rw [e]
    rfl

/-- A full window of values that are numbers where it counts. -/
theorem _root_.TTI.Col.rollLocal {v : ℕ → Val} (h : Col n k v xs) (w : ℕ) (hw : 1 ≤ w) (agg : List ℚ → Val) {i : ℕ} (hi : i < n)
    (hg : ∀ j ≤ i, i < j + w → k ≤ j → v j = .fin (g j)) :
    TTI.val (rolling w w agg xs) i = since (k + w - 1) i (agg ((List.range w).map fun t => g (i + 1 - w + t))) := by
  unfold since
  split
  · next h1 =>
    rcases rolling_full_cases w agg xs i (by rw [h.len]; exact hi) with h2 | ⟨hwi, f, hf, -⟩
    · exact h2
    · have := hf (i + 1 - w) (by omega) (by omega)
      rw [h.val _ (by omega), if_pos (by omega)] at this
      simp at this
  · next h1 =>
    rw [val_rolling_fin w w agg xs g i (by rw [h.len]; exact hi) fun j h2 h3 => by
      rw [h.val _ (by omega), if_neg (by omega)]
      exact hg j (by omega) (by omega) (by omega)]
    have e : Min.min w (i + 1) = w := by omega
    rw [e, if_pos (le_refl _)]

theorem _root_.TTI.since_congr {k k' i : ℕ} {v v' : Val} (hk : k = k') (hv : k ≤ i → v = v') : since k i v = since k' i v' := by
  subst hk
  unfold since
  split
  · rfl
  · exact hv (by omega)

theorem _root_.TTI.round_since (d k i : ℕ) (v : Val) : Val.round d (since k i v) = since k i (Val.round d v) := by
  unfold since; split <;> simp

theorem _root_.TTI.Col.meanLocal {v : ℕ → Val} (h : Col n k v xs) (w : ℕ) (hw : 1 ≤ w) {i : ℕ} (hi : i < n)
    (hg : ∀ j ≤ i, i < j + w → k ≤ j → v j = .fin (g j)) :
    TTI.val (rolling w w aggMean xs) i = since (k + w - 1) i (.fin (meanLast w g i)) :=
  (h.rollLocal w hw aggMean hi hg).trans (since_congr rfl fun hk => by
    rw [aggMean, if_neg (by simp; omega), window_sum w g i (by omega)]; simp [meanLast])

theorem _root_.TTI.Col.sumLocal {v : ℕ → Val} (h : Col n k v xs) (w : ℕ) (hw : 1 ≤ w) {i : ℕ} (hi : i < n)
    (hg : ∀ j ≤ i, i < j + w → k ≤ j → v j = .fin (g j)) :
    TTI.val (rolling w w aggSum xs) i = since (k + w - 1) i (.fin (sumLast w g i)) :=
  (h.rollLocal w hw aggSum hi hg).trans (since_congr rfl fun hk => by rw [aggSum, window_sum w g i (by omega)])

/-! ### Exponential averages -/

theorem smoothed_start (a : ℚ) (s : ℕ) (seed : ℚ) (g : ℕ → ℚ) (i : ℕ) (h : i ≤ s) : smoothed a s seed g i = seed := by
  cases i with
  | zero => rfl
  | succ i => rw [smoothed, if_pos h]

theorem smoothed_next (a : ℚ) (s : ℕ) (seed : ℚ) (g : ℕ → ℚ) (i : ℕ) (h : s ≤ i) :
    smoothed a s seed g (i + 1) = smoothed a s seed g i + a * (g (i + 1) - smoothed a s seed g i) := by
  rw [smoothed, if_neg (by omega)]

theorem ewmAlpha (h : Nums n k g xs) (a : ℚ) (m : ℕ) (hm : 1 ≤ m) :
    Nums n (k + m - 1) (smoothed a k (g k) g) (TTI.ewmAlpha a m xs) :=
  ⟨by simp [h.len], fun i hi => by
    have key : ∀ j ≤ n, (xs.take j).foldl (ewmStep a) ⟨none, 0⟩ =
        if j ≤ k then ⟨none, 0⟩ else ⟨some (smoothed a k (g k) g (j - 1), 1), j - k⟩ := by
      intro j
      induction j with
      | zero => intro _; simp
      | succ j ih =>
        intro hj
        rw [foldl_take_succ _ _ _ _ (by rw [h.len]; omega), ih (by omega), ← val_lt xs j (by rw [h.len]; omega), h.val j (by omega)]
        by_cases h1 : j < k
        · rw [if_pos (by omega), if_pos h1, if_pos (by omega)]; rfl
        · rw [if_neg h1, if_neg (show ¬ j + 1 ≤ k by omega)]
          by_cases h2 : j ≤ k
          · have : j = k := by omega
            subst this
            rw [if_pos (le_refl _), show j + 1 - j = 1 by omega, show j + 1 - 1 = j by omega, smoothed_start _ _ _ _ _ (le_refl _)]
            rfl
          · rw [if_neg h2, show j + 1 - k = j - k + 1 by omega, show j + 1 - 1 = (j - 1) + 1 by omega,
              smoothed_next _ _ _ _ _ (show k ≤ j - 1 by omega), show j - 1 + 1 = j by omega]
            simp only [ewmStep, one_mul]
            have e : (if a = 1 / 2 then 1 - (1 - a) else a) = a := by split <;> ring
            rw [e]
            congr 3
            split
            · next e => rw [e]; ring
            · rw [show 1 - a + a = 1 by ring]; ring
    unfold TTI.ewmAlpha
    rw [val_prefixMap _ _ _ (by rw [h.len]; exact hi)]
    simp only
    rw [key (i + 1) (by omega)]
    by_cases h1 : i + 1 ≤ k
    · rw [if_pos h1, if_neg (show ¬ m ≤ 0 by omega), if_pos (by omega)]
    · rw [if_neg h1]
      by_cases h2 : i < k + m - 1
      · rw [if_pos h2, if_neg (show ¬ m ≤ i + 1 - k by omega)]
      · rw [if_neg h2, if_pos (show m ≤ i + 1 - k by omega)]; rfl⟩

theorem ewm (h : Nums n k g xs) (s m : ℕ) (hm : 1 ≤ m) : Nums n (k + m - 1) (ema s k g) (TTI.ewm s m xs) := h.ewmAlpha _ m hm

/-- Skipping rows that have numbers is as good as missing ones. -/
theorem take_drop (h : Nums n k g xs) (a w : ℕ) (ha : k ≤ a) (hl : a + w ≤ n) :
    (xs.drop a).take w = ((List.range w).map fun t => g (a + t)).map Val.fin := by
  apply List.ext_getElem
  · simp [h.len]; omega
  · intro j h1 h2
    simp only [List.length_map, List.length_range] at h2
    rw [List.getElem_take, List.getElem_drop, ← val_lt _ _ (by rw [h.len]; omega), h.fin (by omega) (by omega)]
    simp

theorem meanSkip_fin (v : List ℚ) (hv : v ≠ []) : meanSkip (v.map Val.fin) = .fin (v.sum / v.length) := by
  unfold meanSkip
  have ef : (v.map Val.fin).filter (fun x => !x.isNan) = v.map Val.fin :=
    List.filter_eq_self.2 (by intro x hx; rw [List.mem_map] at hx; obtain ⟨q, -, rfl⟩ := hx; rfl)
  rw [ef]
  simp only
  have hl : (v.length : ℚ) ≠ 0 := by
    have := List.length_pos_iff.2 hv
    positivity
  rw [if_neg (by simpa using hv), Val.zero_eq, TTI.foldl_add_fin, zero_add, List.length_map, Val.fin_div _ _ hl]

theorem wilder (h : Nums n k g xs) (skip p : ℕ) (hs : k ≤ skip) (hp : 1 ≤ p) :
    Nums n (skip + p - 1) (wilderAverage p skip g) (TTI.wilder skip p xs) :=
  ⟨by simp [h.len], fun i hi => by
    have hp0 : (p : ℚ) ≠ 0 := by positivity
    unfold TTI.wilder
    rw [val_prefixMap _ _ _ (by rw [h.len]; exact hi), List.length_take, h.len]
    by_cases h1 : i < skip + p - 1
    · rw [if_pos h1, if_pos (by omega)]
    · rw [if_neg h1, if_neg (by omega)]
      have e1 : ((xs.take (i + 1)).drop skip).take p = (xs.drop skip).take p := by
        rw [List.drop_take, List.take_take]; congr 1; omega
      rw [e1, h.take_drop skip p hs (by omega), meanSkip_fin _ (by simp; omega)]
      have e2 := window_sum p g (skip + p - 1) (by omega)
      rw [show skip + p - 1 + 1 - p = skip by omega] at e2
      rw [e2, List.length_map, List.length_range]
      have key : ∀ t, skip + p + t ≤ n → ((xs.take (skip + p + t)).drop (skip + p)).foldl
          (fun prev x => Val.add prev (Val.div (Val.sub x prev) (.fin (p : ℚ)))) (.fin (sumLast p g (skip + p - 1) / p)) =
          .fin (wilderAverage p skip g (skip + p - 1 + t)) := by
        intro t
        induction t with
        | zero =>
          intro _
          rw [List.drop_take]
          simp only [add_zero, Nat.sub_self, List.take_zero, List.foldl_nil]
          unfold wilderAverage
          rw [smoothed_start _ _ _ _ _ (le_refl _)]; rfl
        | succ t ih =>
          intro ht
          have e : (xs.take (skip + p + (t + 1))).drop (skip + p) =
              (xs.take (skip + p + t)).drop (skip + p) ++ [Val.fin (g (skip + p + t))] := by
            rw [← h.fin (by omega) (by omega), val_lt _ _ (by rw [h.len]; omega), ← add_assoc,
              List.take_succ_eq_append_getElem (by rw [h.len]; omega), List.drop_append]
            simp [h.len]
            rw [show skip + p - min (skip + p + t) n = 0 by omega]
            rfl
          rw [e, List.foldl_append, ih (by omega), List.foldl_cons, List.foldl_nil, Val.fin_sub, Val.fin_div _ _ hp0, Val.fin_add]
          congr 1
          conv_rhs => unfold wilderAverage
          rw [show skip + p - 1 + (t + 1) = (skip + p - 1 + t) + 1 by omega, smoothed_next _ _ _ _ _ (by omega)]
          rw [show skip + p - 1 + t + 1 = skip + p + t by omega]
          unfold wilderAverage
          ring
      have := key (i + 1 - (skip + p)) (by omega)
      rw [show skip + p + (i + 1 - (skip + p)) = i + 1 by omega, show skip + p - 1 + (i + 1 - (skip + p)) = i by omega] at this
      exact this⟩

end Nums

/-! ## Chande momentum -/

theorem abs_sum_falls (n : ℕ) (g : ℕ → ℚ) (i : ℕ) :
    |sumLast n (fun j => min (g j - g (j - 1)) 0) i| = sumLast n (loss g) i := by
  have e : sumLast n (loss g) i = - sumLast n (fun j => min (g j - g (j - 1)) 0) i := by
    unfold sumLast
    rw [← Finset.sum_neg_distrib]
    apply Finset.sum_congr rfl
    intro t _
    show max (g (i - t - 1) - g (i - t)) 0 = - min (g (i - t) - g (i - t - 1)) 0
    rcases le_total (g (i - t) - g (i - t - 1)) 0 with h | h
    · rw [min_eq_left h, max_eq_left (by linarith)]; ring
    · rw [min_eq_right h, max_eq_right (by linarith)]; ring
  have h0 : 0 ≤ sumLast n (loss g) i := Finset.sum_nonneg fun t _ => le_max_right _ _
  rw [e] at h0 ⊢
  exact abs_of_nonpos (by linarith)

theorem Nums.cmo {n : ℕ} {g : ℕ → ℚ} {xs : List Val} (h : Nums n 0 g xs) (w : ℕ) (hw : 1 ≤ w) :
    Col n w (fun i => round4 (chande w g i)) (roundS 4 (divS (scaleS 100 (subS
      (rolling w w aggSum (TTI.zeroBelow (diffS 1 xs))) ((rolling w w aggSum (TTI.zeroAbove (diffS 1 xs))).map Val.abs)))
      (addS (rolling w w aggSum (TTI.zeroBelow (diffS 1 xs))) ((rolling w w aggSum (TTI.zeroAbove (diffS 1 xs))).map Val.abs)))) := by
  have h1 : Nums n (max 0 (0 + 1)) _ (diffS 1 xs) := h.sub (h.shift 1)
  have h2 := h1.zeroBelow.rollSum w hw
  have h3 := (h1.zeroAbove.rollSum w hw).abs
  exact ((((h2.sub h3).scale 100).quot (h2.add h3)).round 4).congr (by omega) fun i _ _ => by
    simp only [abs_sum_falls]; rfl

/-! ## Running folds -/

section Fold
variable {α β : Type} (f : β → α → β) (a : β) (xs : List α)

theorem foldl_window_zero (s : ℕ) : ((xs.take s).drop s).foldl f a = a := by
  rw [List.drop_eq_nil_of_le (by simp)]; rfl

theorem foldl_window_succ (s m : ℕ) (hs : s ≤ m) (hm : m < xs.length) :
    ((xs.take (m + 1)).drop s).foldl f a = f (((xs.take m).drop s).foldl f a) xs[m] := by
  rw [List.take_succ_eq_append_getElem hm, List.drop_append_of_le_length (by simp; omega), List.foldl_append]; rfl

end Fold

/-! ## The columns of a constructed object -/

theorem Spec.BuiltOn.cols {E : Env} {c : Call} {f : RawFrame} {fill : Bool} {o : Obj} {P : (String → ℚ) → Prop}
    (h : BuiltOn E c f fill o P) :
    ∃ F : Frame, F.len = f.idx.length ∧ (∀ n ∈ o.ind.required, Nums F.len 0 (price f n) (F.col n)) ∧
      (∀ i < F.len, ∃ x : String → ℚ, (∀ n ∈ o.ind.required, x n = price f n i) ∧ P x) ∧
      o.ind.calcTi E F = .ok o.ti ∧ o.ind.Pos ∧ F.Good o.ind.required := by
  obtain ⟨F, x, hg, hlen, -, h1, h2, h3, h4, ht, -, hc⟩ := construct_days E c f fill o _ h.wf h.ok h.rows
  have key : ∀ n ∈ o.ind.required, ∀ i < F.len, x n i = price f n i := fun n hn i hi => by
    unfold price; rw [h3 n hn i hi]; rfl
  refine ⟨F, hlen, fun n hn => ⟨h1 n hn, fun i hi => ?_⟩, fun i hi => ⟨fun n => x n i, fun n hn => key n hn i hi, h4 i hi⟩, ht,
    check_pos _ _ hc, hg⟩
  rw [if_neg (by omega), h2 n hn i hi, key n hn i hi]

theorem Spec.BuiltOn.on {E : Env} {c : Call} {f : RawFrame} {fill : Bool} {o : Obj} {P : (String → ℚ) → Prop} {ind : Ind}
    (h : BuiltOn E c f fill o P) (ho : o.ind = ind) :
    ∃ F : Frame, F.len = f.idx.length ∧ (∀ n ∈ ind.required, Nums F.len 0 (price f n) (F.col n)) ∧
      (∀ i < F.len, ∃ x : String → ℚ, (∀ n ∈ ind.required, x n = price f n i) ∧ P x) ∧
      ind.calcTi E F = .ok o.getTiData ∧ ind.Pos ∧ F.Good ind.required := by
  subst ho; exact h.cols

/-- The indicators that first check the number of rows. -/
theorem guard_ok {p : Prop} [Decidable p] {e : Err} {T T' : Frame}
    (h : (if p then .error e else .ok T : Except Err Frame) = .ok T') : T' = T := by
  split at h
  · simp at h
  · simp only [Except.ok.injEq] at h; exact h.symm

theorem Nums.ofSub {F : Frame} {names : List String} {name : String} {g : ℕ → ℚ} (hn : name ∈ names)
    (h : Nums F.len 0 g (F.col name)) : Nums (F.sub names).len 0 g ((F.sub names).col name) := by
  have e := Ind.sub_col_fin F names name hn g h.len fun i hi => h.fin hi (by omega)
  rw [e]; exact h

end TTI
