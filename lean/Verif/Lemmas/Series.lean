import Verif.Model.Series
import Mathlib.Data.List.Induction
import Mathlib.Tactic.Linarith
import Mathlib.Tactic.Ring
import Mathlib.Algebra.Order.BigOperators.Group.List

set_option autoImplicit false

/-!
# Facts about the series operations
-/

namespace TTI

variable {α β : Type}

@[simp] theorem prefixMap_length (g : List α → β) (xs : List α) : (prefixMap g xs).length = xs.length := by
  simp [prefixMap]

theorem prefixMap_getElem? (g : List α → β) (xs : List α) (i : ℕ) :
    (prefixMap g xs)[i]? = if i < xs.length then some (g (xs.take (i + 1))) else none := by
  unfold prefixMap
  rw [List.getElem?_map]
  split
  · next h => simp [List.getElem?_range h]
  · next h => simp [h]

theorem prefixMap_getElem?_of_lt (g : List α → β) (xs : List α) (i : ℕ) (h : i < xs.length) :
    (prefixMap g xs)[i]? = some (g (xs.take (i + 1))) := by
  rw [prefixMap_getElem?, if_pos h]

theorem prefixMap_take (g : List α → β) (xs : List α) (n : ℕ) :
    prefixMap g (xs.take n) = (prefixMap g xs).take n := by
  apply List.ext_getElem?
  intro i
  rw [prefixMap_getElem?, List.getElem?_take, prefixMap_getElem?, List.length_take]
  by_cases h1 : i < n
  · by_cases h2 : i < xs.length
    · rw [if_pos (by omega), if_pos h1, if_pos h2, List.take_take, min_eq_left (by omega)]
    · rw [if_neg (by omega), if_pos h1, if_neg h2]
  · rw [if_neg (by omega), if_neg h1]

theorem prefixMap_snoc (g : List α → β) (xs : List α) (x : α) :
    prefixMap g (xs ++ [x]) = prefixMap g xs ++ [g (xs ++ [x])] := by
  have h := prefixMap_take g (xs ++ [x]) xs.length
  rw [List.take_left] at h
  apply List.ext_getElem?
  intro i
  rw [prefixMap_getElem?]
  by_cases h1 : i < xs.length
  · rw [if_pos (by simp; omega), List.getElem?_append_left (by simpa using h1), prefixMap_getElem?, if_pos h1,
      List.take_append_of_le_length (by omega)]
  · by_cases h2 : i = xs.length
    · subst h2
      rw [if_pos (by simp), List.getElem?_append_right (by simp)]
      simp [List.take_of_length_le]
    · rw [if_neg (by simp; omega), List.getElem?_eq_none]
      simp; omega

@[simp] theorem prefixMap_nil (g : List α → β) : prefixMap g [] = [] := rfl

theorem prefixMap_congr (g k : List α → β) (xs : List α)
    (h : ∀ i < xs.length, g (xs.take (i + 1)) = k (xs.take (i + 1))) : prefixMap g xs = prefixMap k xs := by
  unfold prefixMap
  apply List.map_congr_left
  intro i hi
  exact h i (List.mem_range.1 hi)

theorem prefixMap_eq_self (g : List α → α) (xs : List α)
    (h : ∀ i x, xs[i]? = some x → g (xs.take (i + 1)) = x) : prefixMap g xs = xs := by
  apply List.ext_getElem?
  intro i
  rw [prefixMap_getElem?]
  split
  · next hi => rw [List.getElem?_eq_getElem hi]; rw [h i _ (List.getElem?_eq_getElem hi)]
  · next hi => rw [List.getElem?_eq_none (by omega)]

/-- Known (non-missing) entries. -/
def known (xs : List Val) : List Val := xs.filter fun x => !x.isNan

theorem isNan_iff (x : Val) : x.isNan = true ↔ x = .nan := by cases x <;> simp [Val.isNan]

theorem not_isNan_iff (x : Val) : x.isNan = false ↔ x ≠ .nan := by cases x <;> simp [Val.isNan]

theorem known_ne_nan {xs : List Val} {v : Val} (h : v ∈ known xs) : v ≠ .nan := by
  have := (List.mem_filter.1 h).2
  rw [← not_isNan_iff]; simpa using this

theorem known_eq_nil_iff (xs : List Val) : known xs = [] ↔ ∀ x ∈ xs, x = .nan := by
  unfold known
  rw [List.filter_eq_nil_iff]
  constructor
  · intro h x hx; have := h x hx; rw [← isNan_iff]; simpa using this
  · intro h x hx; rw [h x hx]; simp [Val.isNan]

@[simp] theorem ffill_length (xs : List Val) : (ffill xs).length = xs.length := by simp [ffill]

@[simp] theorem bfill_length (xs : List Val) : (bfill xs).length = xs.length := by simp [bfill]

theorem ffill_take (xs : List Val) (n : ℕ) : ffill (xs.take n) = (ffill xs).take n := prefixMap_take _ _ _

theorem ffill_getElem? (xs : List Val) (i : ℕ) (h : i < xs.length) :
    (ffill xs)[i]? = some ((known (xs.take (i + 1))).getLast?.getD .nan) :=
  prefixMap_getElem?_of_lt _ _ _ h

theorem ffill_snoc (xs : List Val) (x : Val) :
    ffill (xs ++ [x]) = ffill xs ++ [(known (xs ++ [x])).getLast?.getD .nan] := prefixMap_snoc _ _ _

theorem known_snoc (xs : List Val) (x : Val) : known (xs ++ [x]) = known xs ++ (if x.isNan then [] else [x]) := by
  unfold known
  rw [List.filter_append]
  cases h : x.isNan <;> simp [h]

/-- Forward fill: the value at `i` is the last known entry at or before `i`. -/
theorem ffill_last_known (xs : List Val) (i j : ℕ) (v : Val) (hj : xs[j]? = some v) (hv : v ≠ .nan) (hji : j ≤ i)
    (hi : i < xs.length) (hbetween : ∀ k, j < k → k ≤ i → xs[k]? = some .nan) : (ffill xs)[i]? = some v := by
  rw [ffill_getElem? xs i hi]
  congr 1
  have h1 : xs.take (i + 1) = xs.take j ++ [v] ++ List.replicate (i - j) Val.nan := by
    apply List.ext_getElem?
    intro k
    have hjlen : j < xs.length := (List.getElem?_eq_some_iff.1 hj).1
    rw [List.getElem?_take]
    rcases lt_trichotomy k j with hk | hk | hk
    · rw [if_pos (by omega), List.append_assoc, List.getElem?_append_left (by simp; omega),
        List.getElem?_take_of_lt hk]
    · subst hk
      rw [if_pos (by omega), List.append_assoc, List.getElem?_append_right (by simp)]
      simp [min_eq_left hjlen.le, hj]
    · by_cases hki : k ≤ i
      · rw [if_pos (by omega), hbetween k hk hki, List.getElem?_append_right (by simp; omega)]
        rw [List.getElem?_replicate]
        simp [min_eq_left hjlen.le]
        omega
      · rw [if_neg (by omega), List.getElem?_eq_none]
        simp [min_eq_left hjlen.le]; omega
  rw [h1]
  unfold known
  rw [List.filter_append, List.filter_append]
  have h2 : (List.replicate (i - j) Val.nan).filter (fun x => !x.isNan) = [] := by
    rw [List.filter_eq_nil_iff]; intro x hx; rw [List.eq_of_mem_replicate hx]; simp [Val.isNan]
  have h3 : v.isNan = false := (not_isNan_iff v).2 hv
  rw [h2]
  simp [h3]

theorem ffill_no_known (xs : List Val) (i : ℕ) (hi : i < xs.length) (h : ∀ k ≤ i, xs[k]? = some .nan) :
    (ffill xs)[i]? = some .nan := by
  rw [ffill_getElem? xs i hi]
  have : known (xs.take (i + 1)) = [] := by
    rw [known_eq_nil_iff]
    intro x hx
    obtain ⟨k, hk⟩ := List.mem_iff_getElem?.1 hx
    rw [List.getElem?_take] at hk
    split at hk
    · rw [h k (by omega)] at hk; exact (Option.some.inj hk).symm
    · exact absurd hk (by simp)
  rw [this]; rfl

/-- The last known entry at or before `i`, if there is one. -/
theorem exists_last_known (xs : List Val) (i : ℕ) (hi : i < xs.length) :
    (∃ j v, j ≤ i ∧ xs[j]? = some v ∧ v ≠ .nan ∧ ∀ k, j < k → k ≤ i → xs[k]? = some .nan) ∨
      ∀ k ≤ i, xs[k]? = some .nan := by
  induction i with
  | zero =>
    by_cases h : xs[0] = .nan
    · right
      intro k hk
      rw [Nat.le_zero.1 hk, List.getElem?_eq_getElem hi, h]
    · left
      exact ⟨0, xs[0], le_refl _, List.getElem?_eq_getElem hi, h, by omega⟩
  | succ i ih =>
    by_cases h : xs[i + 1] = .nan
    · have hn : xs[i + 1]? = some .nan := by rw [List.getElem?_eq_getElem hi, h]
      rcases ih (by omega) with ⟨j, v, hj, h1, h2, h3⟩ | h1
      · left
        refine ⟨j, v, by omega, h1, h2, ?_⟩
        intro k hk hk2
        rcases Nat.lt_or_ge i k with h4 | h4
        · rw [show k = i + 1 by omega, hn]
        · exact h3 k hk h4
      · right
        intro k hk
        rcases Nat.lt_or_ge i k with h4 | h4
        · rw [show k = i + 1 by omega, hn]
        · exact h1 k h4
    · left
      exact ⟨i + 1, xs[i + 1], le_refl _, List.getElem?_eq_getElem hi, h, by omega⟩

theorem ffill_known (xs : List Val) (i : ℕ) (v : Val) (h : xs[i]? = some v) (hv : v ≠ .nan) :
    (ffill xs)[i]? = some v :=
  ffill_last_known xs i i v h hv le_rfl (List.getElem?_eq_some_iff.1 h).1 (by omega)

theorem reverse_getElem? (xs : List α) (i : ℕ) (h : i < xs.length) : xs.reverse[i]? = xs[xs.length - 1 - i]? :=
  List.getElem?_reverse h

/-- Backward fill: the value at `i` is the first known entry at or after `i`. -/
theorem bfill_first_known (xs : List Val) (i j : ℕ) (v : Val) (hj : xs[j]? = some v) (hv : v ≠ .nan) (hij : i ≤ j)
    (hbetween : ∀ k, i ≤ k → k < j → xs[k]? = some .nan) : (bfill xs)[i]? = some v := by
  have hjl : j < xs.length := (List.getElem?_eq_some_iff.1 hj).1
  unfold bfill
  rw [reverse_getElem? _ _ (by simp; omega), ffill_length, List.length_reverse]
  apply ffill_last_known xs.reverse _ (xs.length - 1 - j) v
  · rw [reverse_getElem? _ _ (by omega), show xs.length - 1 - (xs.length - 1 - j) = j by omega, hj]
  · exact hv
  · omega
  · simp; omega
  · intro k hk1 hk2
    rw [reverse_getElem? _ _ (by omega)]
    exact hbetween _ (by omega) (by omega)

theorem bfill_no_known (xs : List Val) (i : ℕ) (hi : i < xs.length)
    (h : ∀ k, i ≤ k → k < xs.length → xs[k]? = some .nan) : (bfill xs)[i]? = some .nan := by
  unfold bfill
  rw [reverse_getElem? _ _ (by simp; omega), ffill_length, List.length_reverse]
  apply ffill_no_known
  · simp; omega
  · intro k hk
    rw [reverse_getElem? _ _ (by omega)]
    exact h _ (by omega) (by omega)

theorem bfill_known (xs : List Val) (i : ℕ) (v : Val) (h : xs[i]? = some v) (hv : v ≠ .nan) :
    (bfill xs)[i]? = some v := bfill_first_known xs i i v h hv le_rfl (by omega)

theorem ffill_eq_self (xs : List Val) (h : ∀ x ∈ xs, x ≠ .nan) : ffill xs = xs := by
  apply List.ext_getElem?
  intro i
  by_cases hi : i < xs.length
  · rw [ffill_known xs i _ (List.getElem?_eq_getElem hi) (h _ (List.getElem_mem hi)), List.getElem?_eq_getElem hi]
  · rw [List.getElem?_eq_none (by simp; omega), List.getElem?_eq_none (by omega)]

theorem ffill_all_nan (xs : List Val) (h : ∀ x ∈ xs, x = .nan) : ffill xs = xs := by
  apply List.ext_getElem?
  intro i
  by_cases hi : i < xs.length
  · have hx : ∀ k, k < xs.length → xs[k]? = some .nan := fun k hk => by
      rw [List.getElem?_eq_getElem hk, h _ (List.getElem_mem hk)]
    rw [ffill_no_known xs i hi fun k hk => hx k (by omega), hx i hi]
  · rw [List.getElem?_eq_none (by simp; omega), List.getElem?_eq_none (by omega)]

theorem bfill_eq_self (xs : List Val) (h : ∀ x ∈ xs, x ≠ .nan) : bfill xs = xs := by
  unfold bfill
  rw [ffill_eq_self _ (by simpa using h), List.reverse_reverse]

theorem bfill_all_nan (xs : List Val) (h : ∀ x ∈ xs, x = .nan) : bfill xs = xs := by
  unfold bfill
  rw [ffill_all_nan _ (by simpa using h), List.reverse_reverse]

/-- If the first entry is known, forward filling leaves nothing missing. -/
theorem ffill_no_nan (x : Val) (xs : List Val) (hx : x ≠ .nan) : ∀ y ∈ ffill (x :: xs), y ≠ .nan := by
  intro y hy
  obtain ⟨i, hi⟩ := List.mem_iff_getElem?.1 hy
  have hil : i < (x :: xs).length := by
    have := (List.getElem?_eq_some_iff.1 hi).1; simpa using this
  rcases exists_last_known (x :: xs) i hil with ⟨j, v, h1, h2, h3, h4⟩ | h
  · rw [ffill_last_known _ i j v h2 h3 h1 hil h4] at hi
    rw [← Option.some.inj hi]; exact h3
  · exact absurd (Option.some.inj (h 0 (by omega))) hx

end TTI
