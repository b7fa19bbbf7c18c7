import Verif.Spec.WarmUp
import Verif.Lemmas.Params
import Verif.Lemmas.Roll
import Verif.Lemmas.Num

set_option autoImplicit false

/-!
# The missing values at the beginning of the columns
-/

namespace TTI

/-- The first `k` values are missing. -/
def Blank (k : ℕ) (xs : List Val) : Prop := ∀ i < k, val xs i = .nan

namespace Blank

variable {k m : ℕ} {xs ys : List Val}

theorem any (xs : List Val) : Blank 0 xs := fun _ h => absurd h (Nat.not_lt_zero _)

theorem mono (h : Blank k xs) (hm : m ≤ k) : Blank m xs := fun i hi => h i (by omega)

theorem map (h : Blank k xs) (f : Val → Val) (hf : f .nan = .nan) : Blank k (xs.map f) := fun i hi => by
  rw [val_map f hf, h i hi, hf]

theorem zipR (h : Blank k ys) (f : Val → Val → Val) (hf : ∀ x, f x .nan = .nan) (xs : List Val) : Blank k (zipV f xs ys) := by
  intro i hi
  by_cases hx : i < xs.length
  · by_cases hy : i < ys.length
    · rw [val_zipV f xs ys i hx hy, h i hi, hf]
    · rw [val_ge _ _ (by simp; omega)]
  · rw [val_ge _ _ (by simp; omega)]

theorem zipL (h : Blank k xs) (f : Val → Val → Val) (hf : ∀ y, f .nan y = .nan) (ys : List Val) : Blank k (zipV f xs ys) := by
  intro i hi
  by_cases hx : i < xs.length
  · by_cases hy : i < ys.length
    · rw [val_zipV f xs ys i hx hy, h i hi, hf]
    · rw [val_ge _ _ (by simp; omega)]
  · rw [val_ge _ _ (by simp; omega)]

theorem add (h : Blank k xs) (h' : Blank m ys) : Blank (max k m) (addS xs ys) := fun i hi => by
  rw [val_addS]
  rcases lt_or_ge i k with h1 | h1
  · rw [h i h1]; rfl
  · rw [h' i (by omega), Val.add_nan]

theorem sub (h : Blank k xs) (h' : Blank m ys) : Blank (max k m) (subS xs ys) := fun i hi => by
  rw [val_subS]
  rcases lt_or_ge i k with h1 | h1
  · rw [h i h1]; rfl
  · rw [h' i (by omega), Val.sub_nan]

theorem mul (h : Blank k xs) (h' : Blank m ys) : Blank (max k m) (mulS xs ys) := fun i hi => by
  rw [val_mulS]
  rcases lt_or_ge i k with h1 | h1
  · rw [h i h1]; rfl
  · rw [h' i (by omega), Val.mul_nan]

theorem div (h : Blank k xs) (h' : Blank m ys) : Blank (max k m) (divS xs ys) := fun i hi => by
  rw [val_divS]
  rcases lt_or_ge i k with h1 | h1
  · rw [h i h1]; rfl
  · rw [h' i (by omega), Val.div_nan]

theorem scale (h : Blank k xs) (c : ℚ) : Blank k (scaleS c xs) := h.map _ rfl

theorem round (h : Blank k xs) (d : ℕ) : Blank k (roundS d xs) := h.map _ rfl

theorem below (h : Blank k xs) : Blank k (zeroBelow xs) := h.map _ rfl

theorem above (h : Blank k xs) : Blank k (zeroAbove xs) := h.map _ rfl

theorem shift (h : Blank k xs) (m : ℕ) : Blank (k + m) (shift m xs) := fun i hi => by
  rcases lt_or_ge i m with h1 | h1
  · exact val_shift_nan m xs i h1
  · by_cases hl : i < xs.length
    · rw [val_shift m xs i hl, if_neg (by omega), h _ (by omega)]
    · exact val_ge _ _ (by simp; omega)

theorem shiftBack (h : Blank k xs) (m : ℕ) : Blank (k - m) (shiftBack m xs) := fun i hi => by
  by_cases hl : i < xs.length
  · rw [val_shiftBack m xs i hl, h _ (by omega)]
  · exact val_ge _ _ (by simp; omega)

theorem mask (h : Blank k xs) (m : ℕ) : Blank (max k m) (maskBefore m xs) := fun i hi => by
  rw [val_maskBefore]
  split
  · rfl
  · exact h i (by omega)

theorem take (h : Blank k xs) (m : ℕ) : Blank k (xs.take m) := fun i hi => by
  by_cases hl : i < m ∧ i < xs.length
  · rw [val_lt _ _ (by simp; omega), List.getElem_take, ← val_lt]
    exact h i hi
  · exact val_ge _ _ (by simp; omega)

theorem cons (h : Blank k xs) : Blank (k + 1) (Val.nan :: xs) := by
  intro i hi
  cases i with
  | zero => rfl
  | succ i => exact h i (by omega)

theorem finVals_le (h : Blank k xs) (i : ℕ) : (finVals (xs.take (i + 1))).length ≤ i + 1 - k := by
  have e : finVals (xs.take (i + 1)) = finVals ((xs.take (i + 1)).drop k) := by
    conv_lhs => rw [← List.take_append_drop k (xs.take (i + 1))]
    unfold finVals
    rw [List.filterMap_append, List.filterMap_eq_nil_iff.2 ?_, List.nil_append]
    intro a ha
    obtain ⟨j, hj, rfl⟩ := List.getElem_of_mem ha
    rw [List.length_take, List.length_take] at hj
    rw [List.getElem_take, List.getElem_take, ← val_lt, h j (by omega)]
  rw [e]
  refine (finVals_length_le _).trans ?_
  rw [List.length_drop, List.length_take]
  omega

theorem pre {α : Type} (g : List α → Val) (rows : List α) (hg : ∀ i < k, i < rows.length → g (rows.take (i + 1)) = .nan) :
    Blank k (prefixMap g rows) := fun i hi => by
  by_cases hl : i < rows.length
  · rw [val_prefixMap' g rows i hl, hg i hi hl]
  · exact val_ge _ _ (by simp; omega)

theorem rolling (h : Blank k xs) (w : ℕ) (hm : 1 ≤ m) (agg : List ℚ → Val) : Blank (k + m - 1) (rolling w m agg xs) := by
  refine pre _ _ fun i hi hl => ?_
  have h1 := h.finVals_le i
  have h2 : (finVals (window w (xs.take (i + 1)))).length ≤ (finVals (xs.take (i + 1))).length := by
    unfold window finVals
    exact ((List.drop_sublist _ _).filterMap _).length_le
  dsimp only
  rw [if_neg (by omega)]

theorem nobs_le (a : ℚ) (xs : List Val) (st : EwmState) : (xs.foldl (ewmStep a) st).nobs ≤ st.nobs + (finVals xs).length := by
  induction xs generalizing st with
  | nil => simp [finVals]
  | cons x l ih =>
    rw [List.foldl_cons]
    refine (ih _).trans ?_
    have : (ewmStep a st x).nobs + (finVals l).length ≤ st.nobs + (finVals (x :: l)).length := by
      cases x <;> cases hs : st.mean <;> simp [ewmStep, hs, finVals] <;> omega
    exact this

theorem ewmAlpha (h : Blank k xs) (a : ℚ) (hm : 1 ≤ m) : Blank (k + m - 1) (ewmAlpha a m xs) := by
  refine pre _ _ fun i hi hl => ?_
  have h1 := h.finVals_le i
  have h2 := nobs_le a (xs.take (i + 1)) ⟨none, 0⟩
  dsimp only at h2 ⊢
  rw [if_neg (by omega)]

theorem ewm (h : Blank k xs) (s : ℕ) (hm : 1 ≤ m) : Blank (k + m - 1) (ewm s m xs) := h.ewmAlpha _ hm

theorem wilder (skip p : ℕ) (xs : List Val) : Blank (skip + p - 1) (wilder skip p xs) := by
  refine pre _ _ fun i hi hl => ?_
  rw [if_pos (by rw [List.length_take]; omega)]

theorem ols2 (w : ℕ) (xs : List Val) : Blank (w - 1) ((rollingOLS w xs).map (·.2)) := by
  have e : (rollingOLS w xs).map (·.2) = prefixMap (fun pre => (if w ≤ pre.length then
      match allFin (window w pre) with
      | some v =>
        let fit := lsFit (v.zip ((List.range w).map fun (i : ℕ) => ((pre.length - w + i : ℕ) : ℚ)))
        (Val.fin fit.1, Val.fin fit.2)
      | none => (.nan, .nan)
    else (.nan, .nan)).2) xs := by
    unfold rollingOLS prefixMap
    rw [List.map_map]
    rfl
  rw [e]
  refine pre _ _ fun i hi hl => ?_
  rw [if_neg (by rw [List.length_take]; omega)]

end Blank

end TTI
