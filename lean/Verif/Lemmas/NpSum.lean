import Verif.Model.Sim
import Mathlib.Algebra.BigOperators.Group.List.Basic
import Mathlib.Data.List.Perm.Basic

set_option autoImplicit false

/-! numpy's summation: whatever is respected by adding two sums is respected by `np.sum`. -/

namespace TTI.Sim

variable {α β : Type} [Num α]

/-- What a property needs in order to hold for `np.sum`: it does not depend on the order of the values, it holds for nothing,
for one value, and for the sum of two sums. -/
structure SumLaw (f : β → α) (P : List β → α → Prop) : Prop where
  perm : ∀ l m x, l.Perm m → P l x → P m x
  nil : P [] (Num.ofInt 0)
  one : ∀ b, P [b] (f b)
  zero : ∀ b, P [b] (Num.add (Num.ofInt 0) (f b))
  add : ∀ l m x y, l ≠ [] → m ≠ [] → P l x → P m y → P (l ++ m) (Num.add x y)

variable {f : β → α} {P : List β → α → Prop}

theorem SumLaw.fold (h : SumLaw f P) (t l : List β) (x : α) (hl : l ≠ []) (hx : P l x) :
    P (l ++ t) ((t.map f).foldl Num.add x) := by
  induction t generalizing l x with
  | nil => simpa using hx
  | cons b t ih =>
    have := ih (l ++ [b]) _ (by simp) (h.add l [b] x (f b) hl (by simp) hx (h.one b))
    simpa using this

theorem SumLaw.fold0 (h : SumLaw f P) (t : List β) : P t ((t.map f).foldl Num.add (Num.ofInt 0)) := by
  cases t with
  | nil => exact h.nil
  | cons b t =>
    have := h.fold t [b] _ (by simp) (h.zero b)
    simpa using this

theorem SumLaw.lanes (h : SumLaw f P) (n : ℕ) : ∀ (t l0 l1 l2 l3 l4 l5 l6 l7 : List β) (r0 r1 r2 r3 r4 r5 r6 r7 : α), t.length ≤ n →
    l0 ≠ [] → l1 ≠ [] → l2 ≠ [] → l3 ≠ [] → l4 ≠ [] → l5 ≠ [] → l6 ≠ [] → l7 ≠ [] →
    P l0 r0 → P l1 r1 → P l2 r2 → P l3 r3 → P l4 r4 → P l5 r5 → P l6 r6 → P l7 r7 →
    P (l0 ++ l1 ++ (l2 ++ l3) ++ (l4 ++ l5 ++ (l6 ++ l7)) ++ t) (lanes r0 r1 r2 r3 r4 r5 r6 r7 (t.map f)) := by
  induction n with
  | zero =>
    intro t l0 l1 l2 l3 l4 l5 l6 l7 r0 r1 r2 r3 r4 r5 r6 r7 ht n0 n1 n2 n3 n4 n5 n6 n7 h0 h1 h2 h3 h4 h5 h6 h7
    obtain rfl : t = [] := List.length_eq_zero_iff.1 (by omega)
    simp only [List.append_nil, List.map_nil, Sim.lanes, List.foldl_nil]
    exact h.add _ _ _ _ (by simp [n0]) (by simp [n4]) (h.add _ _ _ _ (by simp [n0]) (by simp [n2]) (h.add _ _ _ _ n0 n1 h0 h1)
      (h.add _ _ _ _ n2 n3 h2 h3)) (h.add _ _ _ _ (by simp [n4]) (by simp [n6]) (h.add _ _ _ _ n4 n5 h4 h5) (h.add _ _ _ _ n6 n7 h6 h7))
  | succ n ih =>
    intro t l0 l1 l2 l3 l4 l5 l6 l7 r0 r1 r2 r3 r4 r5 r6 r7 ht n0 n1 n2 n3 n4 n5 n6 n7 h0 h1 h2 h3 h4 h5 h6 h7
    have tail := h.fold t (l0 ++ l1 ++ (l2 ++ l3) ++ (l4 ++ l5 ++ (l6 ++ l7))) _ (by simp [n0])
      (h.add _ _ _ _ (by simp [n0]) (by simp [n4]) (h.add _ _ _ _ (by simp [n0]) (by simp [n2]) (h.add _ _ _ _ n0 n1 h0 h1)
        (h.add _ _ _ _ n2 n3 h2 h3)) (h.add _ _ _ _ (by simp [n4]) (by simp [n6]) (h.add _ _ _ _ n4 n5 h4 h5) (h.add _ _ _ _ n6 n7 h6 h7)))
    match t, ht, tail with
    | a0 :: a1 :: a2 :: a3 :: a4 :: a5 :: a6 :: a7 :: t, ht, _ =>
      have := ih t (l0 ++ [a0]) (l1 ++ [a1]) (l2 ++ [a2]) (l3 ++ [a3]) (l4 ++ [a4]) (l5 ++ [a5]) (l6 ++ [a6]) (l7 ++ [a7])
        _ _ _ _ _ _ _ _ (by simp only [List.length_cons] at ht; omega)
        (by simp) (by simp) (by simp) (by simp) (by simp) (by simp) (by simp) (by simp)
        (h.add _ _ _ _ n0 (by simp) h0 (h.one a0)) (h.add _ _ _ _ n1 (by simp) h1 (h.one a1))
        (h.add _ _ _ _ n2 (by simp) h2 (h.one a2)) (h.add _ _ _ _ n3 (by simp) h3 (h.one a3))
        (h.add _ _ _ _ n4 (by simp) h4 (h.one a4)) (h.add _ _ _ _ n5 (by simp) h5 (h.one a5))
        (h.add _ _ _ _ n6 (by simp) h6 (h.one a6)) (h.add _ _ _ _ n7 (by simp) h7 (h.one a7))
      refine h.perm _ _ _ ?_ this
      classical
      rw [List.perm_iff_count]
      intro b
      simp only [List.count_append, List.count_cons, List.count_nil]
      omega
    | [], _, tail => exact tail
    | [_], _, tail => exact tail
    | [_, _], _, tail => exact tail
    | [_, _, _], _, tail => exact tail
    | [_, _, _, _], _, tail => exact tail
    | [_, _, _, _, _], _, tail => exact tail
    | [_, _, _, _, _, _], _, tail => exact tail
    | [_, _, _, _, _, _, _], _, tail => exact tail

theorem SumLaw.blockSum (h : SumLaw f P) (l : List β) : P l (blockSum (l.map f)) := by
  have tail := h.fold0 l
  match l, tail with
  | a0 :: a1 :: a2 :: a3 :: a4 :: a5 :: a6 :: a7 :: t, _ =>
    have := h.lanes t.length t [a0] [a1] [a2] [a3] [a4] [a5] [a6] [a7] _ _ _ _ _ _ _ _ le_rfl
      (by simp) (by simp) (by simp) (by simp) (by simp) (by simp) (by simp) (by simp)
      (h.one a0) (h.one a1) (h.one a2) (h.one a3) (h.one a4) (h.one a5) (h.one a6) (h.one a7)
    simpa [Sim.blockSum] using this
  | [], tail => exact tail
  | [_], tail => exact tail
  | [_, _], tail => exact tail
  | [_, _, _], tail => exact tail
  | [_, _, _, _], tail => exact tail
  | [_, _, _, _, _], tail => exact tail
  | [_, _, _, _, _, _], tail => exact tail
  | [_, _, _, _, _, _, _], tail => exact tail

theorem SumLaw.pairwise (h : SumLaw f P) (n : ℕ) (l : List β) : P l (pairwiseSum n (l.map f)) := by
  induction n generalizing l with
  | zero => exact h.blockSum l
  | succ n ih =>
    unfold pairwiseSum
    split
    · exact h.blockSum l
    · next hl =>
      simp only [List.length_map] at hl ⊢
      have h1 := ih (l.take (l.length / 2 - l.length / 2 % 8))
      have h2 := ih (l.drop (l.length / 2 - l.length / 2 % 8))
      rw [List.map_take] at h1
      rw [List.map_drop] at h2
      have := h.add _ _ _ _ (by
        intro e
        have := congrArg List.length e
        simp only [List.length_take, List.length_nil] at this
        omega) (by
        intro e
        have := congrArg List.length e
        simp only [List.length_drop, List.length_nil] at this
        omega) h1 h2
      rwa [List.take_append_drop] at this

theorem SumLaw.npSum (h : SumLaw f P) (l : List β) : P l (npSum (l.map f)) := by
  unfold Sim.npSum
  exact h.pairwise _ l

/-- Exactly computed, it is the sum. -/
theorem npSum_rat (l : List ℚ) : npSum l = l.sum := by
  have : SumLaw (id : ℚ → ℚ) (fun l x => x = l.sum) :=
    ⟨fun l m x hp hx => by rw [hx, hp.sum_eq], by simp [Num.ofInt], by simp, by simp [Num.ofInt, Num.add],
      fun l m x y _ _ hx hy => by rw [hx, hy, List.sum_append]; rfl⟩
  simpa using this.npSum l

/-! A map that respects addition and zero respects `np.sum`. -/

section
variable {γ : Type} [Num γ] (φ : α → γ) (ha : ∀ x y, φ (Num.add x y) = Num.add (φ x) (φ y)) (hz : φ (Num.ofInt 0) = Num.ofInt 0)
include ha

theorem fold_map (t : List α) (x : α) : (t.map φ).foldl Num.add (φ x) = φ (t.foldl Num.add x) := by
  induction t generalizing x with
  | nil => rfl
  | cons b t ih => simp only [List.map_cons, List.foldl_cons]; rw [← ih, ha]

theorem lanes_map (n : ℕ) : ∀ (t : List α) (r0 r1 r2 r3 r4 r5 r6 r7 : α), t.length ≤ n →
    lanes (φ r0) (φ r1) (φ r2) (φ r3) (φ r4) (φ r5) (φ r6) (φ r7) (t.map φ) = φ (lanes r0 r1 r2 r3 r4 r5 r6 r7 t) := by
  induction n with
  | zero =>
    intro t r0 r1 r2 r3 r4 r5 r6 r7 ht
    obtain rfl : t = [] := List.length_eq_zero_iff.1 (by omega)
    simp [lanes, ha]
  | succ n ih =>
    intro t r0 r1 r2 r3 r4 r5 r6 r7 ht
    match t, ht with
    | a0 :: a1 :: a2 :: a3 :: a4 :: a5 :: a6 :: a7 :: t, ht =>
      simp only [List.map_cons, lanes]
      rw [← ih t _ _ _ _ _ _ _ _ (by simp only [List.length_cons] at ht; omega)]
      simp only [ha]
    | [], _ => simp [lanes, ha]
    | [_], _ => simp [lanes, ha]
    | [_, _], _ => simp [lanes, ha]
    | [_, _, _], _ => simp [lanes, ha]
    | [_, _, _, _], _ => simp [lanes, ha]
    | [_, _, _, _, _], _ => simp [lanes, ha]
    | [_, _, _, _, _, _], _ => simp [lanes, ha]
    | [_, _, _, _, _, _, _], _ => simp [lanes, ha]

include hz

theorem blockSum_map (l : List α) : blockSum (l.map φ) = φ (blockSum l) := by
  match l with
  | a0 :: a1 :: a2 :: a3 :: a4 :: a5 :: a6 :: a7 :: t => exact lanes_map φ ha _ t _ _ _ _ _ _ _ _ le_rfl
  | [] => simp [blockSum, hz]
  | [_] => simp [blockSum, ha, hz]
  | [_, _] => simp [blockSum, ha, hz]
  | [_, _, _] => simp [blockSum, ha, hz]
  | [_, _, _, _] => simp [blockSum, ha, hz]
  | [_, _, _, _, _] => simp [blockSum, ha, hz]
  | [_, _, _, _, _, _] => simp [blockSum, ha, hz]
  | [_, _, _, _, _, _, _] => simp [blockSum, ha, hz]

theorem npSum_map (l : List α) : npSum (l.map φ) = φ (npSum l) := by
  unfold npSum
  rw [List.length_map]
  generalize l.length = n
  induction n generalizing l with
  | zero => exact blockSum_map φ ha hz l
  | succ n ih =>
    unfold pairwiseSum
    rw [List.length_map]
    split
    · exact blockSum_map φ ha hz l
    · simp only
      rw [ha, ← ih, ← ih, List.map_take, List.map_drop]

end

end TTI.Sim
