import Verif.Spec.Gaps
import Verif.Lemmas.Col5

set_option autoImplicit false

/-!
# `ewm` on columns with gaps
-/

namespace TTI

open Spec

variable {n k : ℕ} {v : ℕ → Val} {g : ℕ → ℚ} {xs : List Val}

theorem ewmStep_eq (a : ℚ) (st : EwmState) (x y : Val) (h : found x = found y) : ewmStep a st x = ewmStep a st y := by
  obtain ⟨m, c⟩ := st
  cases m <;> cases x <;> cases y <;> simp_all [found, ewmStep]

theorem seen_succ (s : ℕ → Option ℚ) (i : ℕ) : seen s (i + 1) = seen s i + if (s (i + 1)).isSome then 1 else 0 := by
  unfold seen
  rw [Finset.range_add_one, Finset.filter_insert]
  split
  · rw [Finset.card_insert_of_notMem (by simp)]
  · simp

theorem seen_zero (s : ℕ → Option ℚ) : seen s 0 = if (s 0).isSome then 1 else 0 := by
  unfold seen
  rw [Finset.range_one, Finset.filter_singleton]
  split <;> simp

theorem lastSeen_lt (s : ℕ → Option ℚ) (i j : ℕ) (h : lastSeen s i = some j) : j < i := by
  induction i with
  | zero => simp [lastSeen] at h
  | succ i ih =>
    rw [lastSeen] at h
    split at h
    · cases h; omega
    · have := ih h; omega

theorem half_iff (n : ℕ) : (2 / ((n : ℚ) + 1) = 1 / 2) ↔ n = 3 := by
  have : (0 : ℚ) < (n : ℚ) + 1 := by positivity
  rw [div_eq_div_iff this.ne' (by norm_num)]
  constructor
  · intro h
    have : (n : ℚ) = 3 := by linarith
    exact_mod_cast this
  · rintro rfl; norm_num

/-- The state of the `ewm` loop after the rows `0..i`. -/
theorem ewm_state (N : ℕ) (hN : 1 ≤ N) (s : ℕ → Option ℚ) (xs : List Val)
    (i : ℕ) (hi : i < xs.length) (h : ∀ j ≤ i, found (val xs j) = s j) :
    (xs.take (i + 1)).foldl (ewmStep (2 / ((N : ℚ) + 1))) ⟨none, 0⟩ =
      ⟨(lastSeen s (i + 1)).map fun j => (gapAverage N s i, (1 - 2 / ((N : ℚ) + 1)) ^ (i - j)), seen s i⟩ := by
  have hx : ∀ j ≤ i, ∀ st, ewmStep (2 / ((N : ℚ) + 1)) st (val xs j) =
      ewmStep (2 / ((N : ℚ) + 1)) st ((s j).elim .nan .fin) := by
    intro j hj st
    refine ewmStep_eq _ _ _ _ ?_
    rw [h j hj]
    cases s j <;> rfl
  have ha : (0 : ℚ) < 2 / ((N : ℚ) + 1) := by positivity
  have ha1 : 2 / ((N : ℚ) + 1) ≤ 1 := by
    rw [div_le_one (by positivity)]
    have : (1 : ℚ) ≤ N := by exact_mod_cast hN
    linarith
  have hhalf := half_iff N
  have step : ∀ i, gapAverage N s (i + 1) = match s (i + 1), lastSeen s (i + 1) with
      | none, _ => gapAverage N s i
      | some q, none => q
      | some q, some j => gapAverage N s i + gapMove N (i + 1 - j) * (q - gapAverage N s i) := fun _ => rfl
  have mv : ∀ d, gapMove N d = if N = 3 then 1 - (1 - 2 / ((N : ℚ) + 1)) ^ d
      else 2 / ((N : ℚ) + 1) / (2 / ((N : ℚ) + 1) + (1 - 2 / ((N : ℚ) + 1)) ^ d) := fun _ => rfl
  have lat : ∀ i, lastSeen s (i + 1) = if (s i).isSome then some i else lastSeen s i := fun _ => rfl
  induction i with
  | zero =>
    rw [foldl_take_succ _ _ _ _ hi, ← val_lt xs 0 hi, hx 0 (by omega), seen_zero]
    cases e : s 0 with
    | none => simp [lastSeen, e, ewmStep]
    | some q => simp [lastSeen, e, ewmStep, gapAverage]
  | succ i ih =>
    rw [foldl_take_succ _ _ _ _ hi, ← val_lt xs (i + 1) hi, hx (i + 1) (le_refl _),
      ih (by omega) (fun j hj => h j (by omega)) (fun j hj => hx j (by omega)), seen_succ, step, lat (i + 1)]
    generalize hm : gapAverage N s i = m
    generalize 2 / ((N : ℚ) + 1) = a at *
    cases e : s (i + 1) with
    | none =>
      cases e2 : lastSeen s (i + 1) with
      | none => simp [ewmStep]
      | some j =>
        have := lastSeen_lt _ _ _ e2
        simp only [ewmStep, Option.elim, Option.map, Option.isSome]
        rw [← pow_succ, show i - j + 1 = i + 1 - j by omega]
        simp
    | some q =>
      cases e2 : lastSeen s (i + 1) with
      | none => simp [ewmStep]
      | some j =>
        have := lastSeen_lt _ _ _ e2
        simp only [ewmStep, Option.elim, Option.map, Option.isSome]
        rw [← pow_succ, show i - j + 1 = i + 1 - j by omega]
        have ho : 0 ≤ (1 - a) ^ (i + 1 - j) := pow_nonneg (by linarith) _
        rw [mv]
        generalize (1 - a) ^ (i + 1 - j) = o at ho ⊢
        simp only [hhalf, if_true, Nat.sub_self, pow_zero]
        congr 3
        by_cases h3 : N = 3
        · rw [if_pos h3, if_pos h3, show o + (1 - o) = 1 by ring, div_one]
          split <;> [(next h => rw [h]; ring); ring]
        · rw [if_neg h3, if_neg h3]
          have : o + a ≠ 0 := by positivity
          have h4 : a + o ≠ 0 := by positivity
          split
          · next h => rw [h]; ring
          · rw [add_comm o a]
            field_simp
            ring

/-- `ewm(span=N, min_periods=m)` at a row. -/
theorem val_ewm_gaps (N m : ℕ) (hN : 1 ≤ N) (hm : 1 ≤ m) (s : ℕ → Option ℚ) (xs : List Val)
    (i : ℕ) (hi : i < xs.length) (h : ∀ j ≤ i, found (val xs j) = s j) :
    val (ewm N m xs) i = onceSeen s m i (.fin (gapAverage N s i)) := by
  have hnone : ∀ i, lastSeen s (i + 1) = none → seen s i = 0 := by
    intro i
    induction i with
    | zero =>
      rw [seen_zero, lastSeen]
      cases s 0 <;> simp
    | succ i ih =>
      rw [seen_succ, lastSeen]
      cases e : s (i + 1) <;> simp
      exact ih
  unfold ewm ewmAlpha onceSeen
  rw [val_prefixMap _ _ _ hi]
  simp only
  rw [ewm_state N hN s xs i hi h]
  by_cases h1 : seen s i < m
  · rw [if_pos h1, if_neg (by simpa using h1)]
  · rw [if_neg h1, if_pos (by simpa using h1)]
    cases e : lastSeen s (i + 1) with
    | none => have := hnone i e; omega
    | some j => rfl

/-! ### Cells without a number -/

theorem found_infMul (b : Bool) (q : ℚ) : found (Val.infMul b q) = none := by
  unfold Val.infMul
  split_ifs <;> rfl

theorem found_mul_left {x : Val} (y : Val) (h : found x = none) : found (Val.mul x y) = none := by
  cases x <;> cases y <;> first | (simp [found] at h; done) | exact found_infMul _ _ | rfl

theorem found_mul_right {y : Val} (x : Val) (h : found y = none) : found (Val.mul x y) = none := by
  cases x <;> cases y <;> first | (simp [found] at h; done) | exact found_infMul _ _ | rfl

theorem found_sub_left {x : Val} (y : Val) (h : found x = none) : found (Val.sub x y) = none := by
  cases x <;> cases y <;> first | (simp [found] at h; done) | rfl

theorem found_abs {x : Val} (h : found x = none) : found (Val.abs x) = none := by
  cases x <;> first | (simp [found] at h; done) | rfl

theorem found_quotient_zero (a : ℚ) : found (quotient a 0) = none := by
  unfold quotient
  split_ifs <;> first | rfl | simp_all

theorem found_round (k : ℕ) {x : Val} (h : found x = none) : found (Val.round k x) = none := by
  cases x <;> first | (simp [found] at h; done) | rfl

/-! ## Wilder totals and the directional average -/

theorem total14_succ (g : ℕ → ℚ) (i : ℕ) (h : 13 ≤ i) : total14 g (i + 1) = total14 g i - total14 g i / 14 + g (i + 1) := by
  unfold total14
  rw [running, if_neg (by omega)]

theorem total14_start (g : ℕ → ℚ) : total14 g 13 = ∑ t ∈ Finset.range 13, g (t + 1) := running_start _ _ _ _ _ (le_refl _)

theorem total14_nonneg (g : ℕ → ℚ) (i : ℕ) (hi : 13 ≤ i) (h : ∀ j, 1 ≤ j → j ≤ i → 0 ≤ g j) : 0 ≤ total14 g i := by
  induction i, hi using Nat.le_induction with
  | base => rw [total14_start]; exact Finset.sum_nonneg fun t ht => h _ (by omega) (by simp at ht; omega)
  | succ i hi ih =>
    rw [total14_succ _ _ hi]
    have := ih fun j h1 h2 => h j h1 (by omega)
    have := h (i + 1) (by omega) (le_refl _)
    linarith

theorem total14_eq_zero (g : ℕ → ℚ) (i : ℕ) (hi : 13 ≤ i) (h : ∀ j, 1 ≤ j → j ≤ i → 0 ≤ g j) :
    total14 g i = 0 ↔ ∀ j, 1 ≤ j → j ≤ i → g j = 0 := by
  induction i, hi using Nat.le_induction with
  | base =>
    rw [total14_start, Finset.sum_eq_zero_iff_of_nonneg fun t ht => h _ (by omega) (by simp at ht; omega)]
    constructor
    · intro h1 j h2 h3
      have := h1 (j - 1) (by simp; omega)
      rwa [Nat.sub_add_cancel h2] at this
    · intro h1 t ht
      exact h1 _ (by omega) (by simp at ht; omega)
  | succ i hi ih =>
    have ih := ih fun j h1 h2 => h j h1 (by omega)
    have h1 := total14_nonneg g i hi fun j h1 h2 => h j h1 (by omega)
    have h2 := h (i + 1) (by omega) (le_refl _)
    rw [total14_succ _ _ hi]
    constructor
    · intro h3 j h4 h5
      have h6 : total14 g i = 0 := by linarith
      have h7 : g (i + 1) = 0 := by linarith
      rcases Nat.lt_or_ge i j with h8 | h8
      · rw [show j = i + 1 by omega, h7]
      · exact ih.1 h6 j h4 h8
    · intro h3
      rw [ih.2 fun j h4 h5 => h3 j h4 (by omega), h3 _ (by omega) (le_refl _)]
      norm_num

theorem foldl_add_found (l : List Val) (h : ∀ x ∈ l, x = .nan ∨ ∃ q, x = .fin q) (a : ℚ) :
    (l.filter fun x => !x.isNan).foldl Val.add (.fin a) = .fin (a + (l.map fun x => (found x).getD 0).sum) := by
  induction l generalizing a with
  | nil => simp
  | cons x l ih =>
    have ih := ih fun y hy => h y (List.mem_cons_of_mem _ hy)
    rcases h x List.mem_cons_self with rfl | ⟨q, rfl⟩
    · rw [List.filter_cons_of_neg (by simp [Val.isNan]), ih]; simp [found]
    · rw [List.filter_cons_of_pos (by simp [Val.isNan]), List.foldl_cons, Val.fin_add, ih]
      simp [found, add_assoc]

theorem sumSkip_found (l : List Val) (h : ∀ x ∈ l, x = .nan ∨ ∃ q, x = .fin q) :
    sumSkip l = .fin (l.map fun x => (found x).getD 0).sum := by
  unfold sumSkip
  rw [Val.zero_eq, foldl_add_found l h, zero_add]

/-- A loop with a missing number stays missing. -/
theorem foldl_nan (step : Val → Val → Val) (h1 : ∀ x, step .nan x = .nan) (h2 : ∀ a, step a .nan = .nan) (l : List Val)
    (h : Val.nan ∈ l) (a : Val) : l.foldl step a = .nan := by
  induction l generalizing a with
  | nil => simp at h
  | cons x l ih =>
    rw [List.foldl_cons]
    by_cases hx : Val.nan ∈ l
    · exact ih hx _
    · have : x = .nan := by simpa [hx, eq_comm] using h
      rw [this, h2]
      clear ih h hx this
      induction l with
      | nil => rfl
      | cons y l ih => rw [List.foldl_cons, h1, ih]

/-- The directional average when some of the first contrasts are missing. -/
theorem Nums.adxGaps {D : List Val} (hlen : D.length = n) {w : ℕ → ℚ} {i : ℕ} (hi : i < n) (h0 : ∀ j < 14, j < n → TTI.val D j = .nan)
    (h1 : ∀ j, 14 ≤ j → j < 28 → j < n → TTI.val D j = .fin (w j) ∨ TTI.val D j = .nan ∧ w j = 0)
    (h2 : ∀ j ≤ i, 28 ≤ j → TTI.val D j = .fin (w j)) :
    TTI.val (Ind.DirectionalMovementIndex.adxOf D) i = since 27 i (.fin (wilderAverage 14 14 w i)) := by
  unfold Ind.DirectionalMovementIndex.adxOf
  rw [val_prefixMap_upto _ _ _ (by rw [hlen]; exact hi)]
  have e : (D.take (i + 1)).length = i + 1 := by simp [hlen]; omega
  have key : i + 1 ≤ n := hi
  have := (scan_from (g := w) e 28 (fun j hj hj28 => by rw [val_take _ _ _ (by omega)]; exact h2 j (by omega) hj28) (by omega)
    (fun prev x => Val.div (Val.add (Val.mul 13 prev) x) 14)
    (fun b x => b + 1 / 14 * (x - b)) (fun a x => by
      show Val.div (Val.add (Val.mul (.fin 13) (.fin a)) (.fin x)) (.fin 14) = _
      rw [Val.fin_mul, Val.fin_add, Val.fin_div _ _ (by norm_num)]
      congr 1; ring) (fun l => Val.div (sumSkip l) 14) (meanLast 14 w 27) fun hs => by
      rw [List.take_take, show min 28 (i + 1) = 28 by omega]
      have e2 : (D.take 28).map (fun x => (found x).getD 0) = List.replicate 14 0 ++ (List.range 14).map fun t => w (14 + t) := by
        apply List.ext_getElem
        · simp [hlen]; omega
        · intro j h3 h4
          simp only [List.length_append, List.length_replicate, List.length_map, List.length_range] at h4
          rw [List.getElem_map, List.getElem_take, ← val_lt _ _ (by rw [hlen]; omega), List.getElem_append]
          simp only [List.length_replicate, List.getElem_replicate, List.getElem_map, List.getElem_range]
          split
          · next h5 => rw [h0 j h5 (by omega)]; rfl
          · next h5 =>
            rw [show 14 + (j - 14) = j by omega]
            rcases h1 j (by omega) (by omega) (by omega) with h6 | ⟨h6, h7⟩
            · rw [h6]; rfl
            · rw [h6, h7]; rfl
      rw [sumSkip_found _ fun x hx => by
        obtain ⟨j, hj, rfl⟩ := List.mem_iff_getElem.1 hx
        rw [List.length_take] at hj
        rw [List.getElem_take, ← val_lt _ _ (by omega)]
        rcases Nat.lt_or_ge j 14 with h5 | h5
        · exact .inl (h0 j h5 (by omega))
        · rcases h1 j h5 (by omega) (by omega) with h6 | h6
          · exact .inr ⟨_, h6⟩
          · exact .inl h6.1]
      rw [e2, List.sum_append, sum_map_range]
      have e := Nums.window_sum 14 w 27 (by omega)
      rw [show 27 + 1 - 14 = 14 by rfl, sum_map_range] at e
      rw [e]
      show Val.div _ (.fin 14) = _
      rw [Val.fin_div _ _ (by norm_num)]; simp [meanLast]).val i (by omega)
  rw [this]
  unfold since wilderAverage
  rw [smoothed_eq_running]
  rfl

/-- If the contrast of day 28 is missing, the directional average is missing from then on. -/
theorem Nums.adxLost {D : List Val} {i : ℕ} (hi : i < D.length) (h28 : 28 ≤ i) (h : TTI.val D 28 = .nan) :
    TTI.val (Ind.DirectionalMovementIndex.adxOf D) i = .nan := by
  unfold Ind.DirectionalMovementIndex.adxOf
  rw [val_prefixMap _ _ _ hi, if_neg (by simp; omega)]
  refine foldl_nan _ (fun x => by simp) (fun a => by simp) _ ?_ _
  rw [List.mem_iff_getElem]
  refine ⟨0, by simp; omega, ?_⟩
  rw [List.getElem_drop, List.getElem_take, ← val_lt _ _ (by omega)]
  exact h

end TTI
