import Verif.Lemmas.Averages
import Mathlib.Algebra.BigOperators.Intervals
import Mathlib.Algebra.Order.BigOperators.Ring.Finset

set_option autoImplicit false

/-!
# Closed forms of the cumulative volume indicators
-/

namespace TTI

open Finset

theorem foldl_take_succ {α β : Type} (g : β → α → β) (b : β) (l : List α) (i : ℕ) (h : i < l.length) :
    (l.take (i + 1)).foldl g b = g ((l.take i).foldl g b) l[i] := by
  rw [List.take_succ_eq_append_getElem h, List.foldl_append]; rfl

/-- A fold over `rest` started at the first element, as a recursion over the rows. -/
theorem foldl_rows {α β : Type} (g : β → α → β) (init : α → β) (S : ℕ → β) (first : α) (rest : List α)
    (h0 : init first = S 0) (hs : ∀ i, (h : i + 1 < (first :: rest).length) → g (S i) (first :: rest)[i + 1] = S (i + 1))
    (i : ℕ) (hi : i ≤ rest.length) : (rest.take i).foldl g (init first) = S i := by
  induction i with
  | zero => simpa using h0
  | succ i ih =>
    rw [foldl_take_succ _ _ _ _ (by omega), ih (by omega), ← hs i (by simp; omega)]
    rfl

theorem val_zip (xs ys : List Val) (x y : ℕ → ℚ) (n : ℕ) (lx : xs.length = n) (ly : ys.length = n)
    (hx : ∀ i < n, val xs i = .fin (x i)) (hy : ∀ i < n, val ys i = .fin (y i)) (i : ℕ) (h : i < (xs.zip ys).length) :
    (xs.zip ys)[i] = (.fin (x i), .fin (y i)) := by
  have hi : i < n := by rw [List.length_zip] at h; omega
  rw [List.getElem_zip, ← hx i hi, ← hy i hi, val_lt _ _ (by omega), val_lt _ _ (by omega)]

namespace Ind

/-- The product over the days on which the volume moved. -/
def followed (moves : ℚ → ℚ → Bool) (c v : ℕ → ℚ) (i : ℕ) : ℚ :=
  1000 * ∏ j ∈ (Ico 1 (i + 1)).filter (fun j => moves (v (j - 1)) (v j) = true), c j / c (j - 1)

theorem followed_succ (moves : ℚ → ℚ → Bool) (c v : ℕ → ℚ) (i : ℕ) :
    followed moves c v (i + 1) =
      if moves (v i) (v (i + 1)) then followed moves c v i * (c (i + 1) / c i) else followed moves c v i := by
  unfold followed
  have e : Ico 1 (i + 1 + 1) = insert (i + 1) (Ico 1 (i + 1)) := by
    ext j; simp only [mem_Ico, mem_insert]; omega
  rw [e, filter_insert]
  simp only [Nat.add_sub_cancel]
  split
  · rw [prod_insert (by simp)]
    simp only [Nat.add_sub_cancel]
    ring
  · rfl

theorem volumeIndex_val (m : Val → Val → Bool) (moves : ℚ → ℚ → Bool) (hm : ∀ a b, m (.fin a) (.fin b) = moves a b)
    (xs ys : List Val) (c v : ℕ → ℚ) (n : ℕ) (lx : xs.length = n) (ly : ys.length = n)
    (hx : ∀ i < n, val xs i = .fin (c i)) (hy : ∀ i < n, val ys i = .fin (v i)) (h0 : ∀ i < n, c i ≠ 0) (i : ℕ) (hi : i < n) :
    val (volumeIndex m (xs.zip ys)) i = .fin (followed moves c v i) := by
  have hl : (xs.zip ys).length = n := by rw [List.length_zip]; omega
  have hz := val_zip xs ys c v n lx ly hx hy
  unfold volumeIndex val
  rw [List.getD_eq_getElem?_getD, prefixMap_getElem?_of_lt _ _ _ (by omega)]
  simp only [Option.getD_some]
  generalize xs.zip ys = rows at *
  cases rows with
  | nil => simp at hl; omega
  | cons first rest =>
    simp only [List.length_cons] at hl
    rw [List.take_succ_cons]
    simp only
    have := foldl_rows (fun (st : Val × (Val × Val)) r =>
        (if m st.2.2 r.2 then Val.add st.1 (Val.mul (Val.sub r.1 st.2.1) (Val.div st.1 st.2.1)) else st.1, r))
      (fun first => ((1000 : Val), first)) (fun i => (.fin (followed moves c v i), (.fin (c i), .fin (v i)))) first rest
      (by
        have := hz 0 (by simp)
        simp only [List.getElem_cons_zero] at this
        rw [this]
        simp [followed]
        rfl)
      (by
        intro j hj
        rw [hz (j + 1) hj]
        simp only [hm, followed_succ]
        have hcj := h0 j (by simp only [List.length_cons] at hj; omega)
        split
        · rw [Val.fin_div _ _ hcj, Val.fin_sub, Val.fin_mul, Val.fin_add]
          congr 2
          field_simp
          ring
        · rfl)
      i (by omega)
    rw [this]

theorem followed_pos (moves : ℚ → ℚ → Bool) (c v : ℕ → ℚ) (i : ℕ) (h : ∀ j ≤ i, 0 < c j) : 0 < followed moves c v i := by
  unfold followed
  apply mul_pos (by norm_num)
  apply prod_pos
  intro j hj
  rw [mem_filter, mem_Ico] at hj
  exact div_pos (h _ (by omega)) (h _ (by omega))

theorem trend_val (xs ys : List Val) (c v : ℕ → ℚ) (n : ℕ) (lx : xs.length = n) (ly : ys.length = n)
    (hx : ∀ i < n, val xs i = .fin (c i)) (hy : ∀ i < n, val ys i = .fin (v i)) (h0 : ∀ i < n, c i ≠ 0) (i : ℕ) (hi : i < n) :
    val (PriceAndVolumeTrend.trend (xs.zip ys)) i = .fin (∑ j ∈ Ico 1 (i + 1), v j * ((c j - c (j - 1)) / c (j - 1))) := by
  have hl : (xs.zip ys).length = n := by rw [List.length_zip]; omega
  have hz := val_zip xs ys c v n lx ly hx hy
  unfold PriceAndVolumeTrend.trend val
  rw [List.getD_eq_getElem?_getD, prefixMap_getElem?_of_lt _ _ _ (by omega)]
  simp only [Option.getD_some]
  generalize xs.zip ys = rows at *
  cases rows with
  | nil => simp at hl; omega
  | cons first rest =>
    simp only [List.length_cons] at hl
    rw [List.take_succ_cons]
    simp only
    have := foldl_rows (fun (st : Val × Val) (r : Val × Val) =>
        (Val.add st.1 (Val.mul (Val.sub r.1 st.2) (Val.div r.2 st.2)), r.1))
      (fun first => ((0 : Val), first.1))
      (fun i => (.fin (∑ j ∈ Ico 1 (i + 1), v j * ((c j - c (j - 1)) / c (j - 1))), .fin (c i))) first rest
      (by
        have := hz 0 (by simp)
        simp only [List.getElem_cons_zero] at this
        rw [this]
        simp
        rfl)
      (by
        intro j hj
        rw [hz (j + 1) hj]
        have hcj := h0 j (by simp only [List.length_cons] at hj; omega)
        rw [Val.fin_div _ _ hcj, Val.fin_sub, Val.fin_mul, Val.fin_add, sum_Ico_succ_top (show 1 ≤ j + 1 by omega)]
        simp only [Nat.add_sub_cancel]
        congr 2
        field_simp)
      i (by omega)
    rw [this]

theorem foldl_add_fin (l : List ℕ) (g : ℕ → Val) (y : ℕ → ℚ) (h : ∀ t ∈ l, g t = .fin (y t)) (b : ℚ) :
    ((l.map g).filter fun x => !x.isNan).foldl Val.add (.fin b) = .fin (b + (l.map y).sum) := by
  induction l generalizing b with
  | nil => simp
  | cons a l ih =>
    rw [List.map_cons, h a (by simp), List.filter_cons_of_pos (by rfl), List.foldl_cons, Val.fin_add,
      ih (fun t ht => h t (by simp [ht]))]
    simp [add_assoc]

theorem cumsum_val (xs : List Val) (x : ℕ → ℚ) (hx : ∀ i < xs.length, val xs i = .fin (x i)) (i : ℕ) (hi : i < xs.length) :
    val (cumsum xs) i = .fin (∑ j ∈ range (i + 1), x j) := by
  unfold cumsum
  have e : xs.take (i + 1) = (List.range (i + 1)).map (val xs) := by
    apply List.ext_getElem
    · simp; omega
    · intro j h1 h2
      simp only [List.length_take] at h1
      rw [List.getElem_take, List.getElem_map, List.getElem_range, val_lt _ _ (by omega)]
  conv_lhs => unfold val
  rw [List.getD_eq_getElem?_getD, prefixMap_getElem?_of_lt _ _ _ hi, Option.getD_some, e, List.getLast?_map, List.range_succ, List.getLast?_append]
  simp only [List.getLast?_singleton, Option.some_or, Option.map_some, Option.getD_some, hx i hi, Val.isNan]
  rw [← List.range_succ]
  have := foldl_add_fin (List.range (i + 1)) (val xs) x (fun t ht => hx t (by rw [List.mem_range] at ht; omega)) 0
  simp only [sumSkip, Val.zero_eq]
  rw [if_neg (by simp), this]
  congr 1
  rw [zero_add]
  clear this e
  induction (i + 1) with
  | zero => simp
  | succ p ih => rw [List.range_succ, List.map_append, List.sum_append, ih, sum_range_succ]; simp

/-- Signed volume of a day. -/
def signedQ (c v : ℕ → ℚ) (j : ℕ) : ℚ :=
  if j = 0 then 0 else if c j < c (j - 1) then - v j else if c (j - 1) < c j then v j else 0

theorem OnBalanceVolume.exact (F T : Frame) (c v : ℕ → ℚ) (lc : (F.col "close").length = F.len)
    (lv : (F.col "volume").length = F.len)
    (hc : ∀ i < F.len, val (F.col "close") i = .fin (c i)) (hv : ∀ i < F.len, val (F.col "volume") i = .fin (v i))
    (h : calcTi F = .ok T) (i : ℕ) (hi : i < F.len) :
    val (T.col "obv") i = .fin ((∑ j ∈ (Ico 1 (i + 1)).filter (fun j => c (j - 1) < c j), v j) -
      ∑ j ∈ (Ico 1 (i + 1)).filter (fun j => c j < c (j - 1)), v j) := by
  unfold calcTi at h
  simp only [Except.ok.injEq] at h
  subst h
  rw [Frame.col_single, cumsum_val _ (signedQ c v) ?_ i (by simp [lc, lv, hi])]
  · congr 1
    rw [range_eq_Ico, sum_eq_sum_Ico_succ_bot (by omega)]
    rw [sum_filter, sum_filter, ← sum_sub_distrib]
    simp only [signedQ, if_true, zero_add]
    apply sum_congr rfl
    intro j hj
    rw [mem_Ico] at hj
    rw [if_neg (by omega)]
    split
    · next h1 => rw [if_neg (by linarith)]; ring
    · next h1 => split <;> simp
  · intro j hj
    simp [lc, lv] at hj
    rw [val_zip3 _ _ _ _ _ (by omega) (by simp; omega) (by omega), val_shift _ _ _ (by omega), hc j hj, hv j hj]
    unfold signedVolume signedQ
    by_cases h0 : j < 1
    · have hz : j = 0 := by omega
      subst hz
      rfl
    · simp only [if_neg h0, if_neg (show j ≠ 0 by omega)]
      rw [hc _ (by omega)]
      simp only [Val.fin_lt, decide_eq_true_eq]
      split
      · rfl
      · split <;> rfl

end Ind
end TTI
