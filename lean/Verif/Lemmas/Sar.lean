import Verif.Spec.Sar
import Verif.Lemmas.Averages

set_option autoImplicit false

/-!
# Parabolic SAR
-/

namespace TTI

open Spec

theorem foldl_maxNan_fin (x : ℕ → ℚ) (a k : ℕ) : ∃ m, ((List.range k).map fun t => Val.fin (x (a + 1 + t))).foldl maxNan (.fin (x a)) = .fin m ∧
    Highest x a (a + k) m := by
  induction k with
  | zero => exact ⟨x a, rfl, ⟨a, by simp⟩, fun k h1 h2 => by rw [show k = a by omega]⟩
  | succ k ih =>
    obtain ⟨m, h1, ⟨j, j1, j2, j3⟩, h3⟩ := ih
    refine ⟨max m (x (a + 1 + k)), ?_, ?_, ?_⟩
    · rw [List.range_succ, List.map_append, List.foldl_append, h1]
      simp only [List.map_cons, List.map_nil, List.foldl_cons, List.foldl_nil, maxNan_fin]
    · rcases le_total m (x (a + 1 + k)) with h | h
      · exact ⟨a + 1 + k, by omega, by omega, by rw [max_eq_right h]⟩
      · exact ⟨j, j1, by omega, by rw [max_eq_left h, j3]⟩
    · intro t t1 t2
      by_cases ht : t ≤ a + k
      · exact (h3 t t1 ht).trans (le_max_left _ _)
      · rw [show t = a + 1 + k by omega]; exact le_max_right _ _

theorem foldl_minNan_fin (x : ℕ → ℚ) (a k : ℕ) : ∃ m, ((List.range k).map fun t => Val.fin (x (a + 1 + t))).foldl minNan (.fin (x a)) = .fin m ∧
    Lowest x a (a + k) m := by
  induction k with
  | zero => exact ⟨x a, rfl, ⟨a, by simp⟩, fun k h1 h2 => by rw [show k = a by omega]⟩
  | succ k ih =>
    obtain ⟨m, h1, ⟨j, j1, j2, j3⟩, h3⟩ := ih
    refine ⟨min m (x (a + 1 + k)), ?_, ?_, ?_⟩
    · rw [List.range_succ, List.map_append, List.foldl_append, h1]
      simp only [List.map_cons, List.map_nil, List.foldl_cons, List.foldl_nil, minNan_fin]
    · rcases le_total m (x (a + 1 + k)) with h | h
      · exact ⟨j, j1, by omega, by rw [min_eq_left h, j3]⟩
      · exact ⟨a + 1 + k, by omega, by omega, by rw [min_eq_right h]⟩
    · intro t t1 t2
      by_cases ht : t ≤ a + k
      · exact (min_le_left _ _).trans (h3 t t1 ht)
      · rw [show t = a + 1 + k by omega]; exact min_le_right _ _

theorem slice_eq (xs : List Val) (x : ℕ → ℚ) (hx : ∀ i < xs.length, val xs i = .fin (x i)) (a b : ℕ) (hab : a ≤ b)
    (hb : b < xs.length) : (xs.take (b + 1)).drop a = .fin (x a) :: (List.range (b - a)).map fun t => Val.fin (x (a + 1 + t)) := by
  apply List.ext_getElem
  · simp; omega
  · intro i h1 h2
    simp only [List.length_drop, List.length_take] at h1
    rw [List.getElem_drop, List.getElem_take, ← val_lt _ _ (by omega), hx _ (by omega)]
    cases i with
    | zero => simp
    | succ i =>
      rw [List.getElem_cons_succ, List.getElem_map, List.getElem_range]
      congr 2
      omega

namespace Ind.ParabolicSAR

theorem sliceMax_fin (xs : List Val) (x : ℕ → ℚ) (hx : ∀ i < xs.length, val xs i = .fin (x i)) (a b : ℕ) (hab : a ≤ b)
    (hb : b < xs.length) : ∃ m, sliceMax xs a (b + 1) = .fin m ∧ Highest x a b m := by
  unfold sliceMax
  rw [slice_eq xs x hx a b hab hb]
  obtain ⟨m, h1, h2⟩ := foldl_maxNan_fin x a (b - a)
  rw [show a + (b - a) = b by omega] at h2
  exact ⟨m, h1, h2⟩

theorem sliceMin_fin (xs : List Val) (x : ℕ → ℚ) (hx : ∀ i < xs.length, val xs i = .fin (x i)) (a b : ℕ) (hab : a ≤ b)
    (hb : b < xs.length) : ∃ m, sliceMin xs a (b + 1) = .fin m ∧ Lowest x a b m := by
  unfold sliceMin
  rw [slice_eq xs x hx a b hab hb]
  obtain ⟨m, h1, h2⟩ := foldl_minNan_fin x a (b - a)
  rw [show a + (b - a) = b by omega] at h2
  exact ⟨m, h1, h2⟩

theorem highest_two (x : ℕ → ℚ) (i : ℕ) (m : ℚ) (h : Highest x (i - 1) i m) : m = max (x (i - 1)) (x i) := by
  obtain ⟨⟨k, k1, k2, k3⟩, h2⟩ := h
  apply le_antisymm
  · have : k = i - 1 ∨ k = i := by omega
    rcases this with rfl | rfl
    · rw [← k3]; exact le_max_left _ _
    · rw [← k3]; exact le_max_right _ _
  · exact max_le (h2 _ le_rfl (by omega)) (h2 _ (by omega) le_rfl)

theorem lowest_two (x : ℕ → ℚ) (i : ℕ) (m : ℚ) (h : Lowest x (i - 1) i m) : m = min (x (i - 1)) (x i) := by
  obtain ⟨⟨k, k1, k2, k3⟩, h2⟩ := h
  apply le_antisymm
  · exact le_min (h2 _ le_rfl (by omega)) (h2 _ (by omega) le_rfl)
  · have : k = i - 1 ∨ k = i := by omega
    rcases this with rfl | rfl
    · rw [← k3]; exact min_le_left _ _
    · rw [← k3]; exact min_le_right _ _

theorem highest_unique {x : ℕ → ℚ} {a b : ℕ} {m m' : ℚ} (h : Highest x a b m) (h' : Highest x a b m') : m = m' := by
  obtain ⟨⟨k, k1, k2, k3⟩, h2⟩ := h
  obtain ⟨⟨k', k1', k2', k3'⟩, h2'⟩ := h'
  apply le_antisymm
  · rw [← k3]; exact h2' _ k1 k2
  · rw [← k3']; exact h2 _ k1' k2'

theorem lowest_unique {x : ℕ → ℚ} {a b : ℕ} {m m' : ℚ} (h : Lowest x a b m) (h' : Lowest x a b m') : m = m' := by
  obtain ⟨⟨k, k1, k2, k3⟩, h2⟩ := h
  obtain ⟨⟨k', k1', k2', k3'⟩, h2'⟩ := h'
  apply le_antisymm
  · rw [← k3']; exact h2 _ k1' k2'
  · rw [← k3]; exact h2' _ k1 k2

theorem newHighs_succ (x : ℕ → ℚ) (a i : ℕ) (ha : a ≤ i) (m m' : ℚ) (h : Highest x a i m) (h' : Highest x a (i + 1) m') :
    newHighs x a (i + 1) = newHighs x a i + if m < m' then 1 else 0 := by
  unfold newHighs
  have e : Finset.Ioc a (i + 1) = insert (i + 1) (Finset.Ioc a i) := by
    ext j; simp only [Finset.mem_Ioc, Finset.mem_insert]; omega
  have hiff : (∀ k ∈ Finset.Ico a (i + 1), x k < x (i + 1)) ↔ m < m' := by
    obtain ⟨⟨k, k1, k2, k3⟩, h2⟩ := h
    obtain ⟨⟨k', k1', k2', k3'⟩, h2'⟩ := h'
    constructor
    · intro hall
      rw [← k3]
      exact lt_of_lt_of_le (hall k (by rw [Finset.mem_Ico]; omega)) (h2' _ (by omega) le_rfl)
    · intro hlt j hj
      rw [Finset.mem_Ico] at hj
      have : k' = i + 1 := by
        by_contra hne
        have := h2 k' k1' (by omega)
        linarith
      subst this
      have := h2 j hj.1 (by omega)
      linarith
  rw [e, Finset.filter_insert]
  by_cases hc : m < m'
  · rw [if_pos (hiff.2 hc), if_pos hc, Finset.card_insert_of_notMem (by simp)]
  · rw [if_neg (fun h => hc (hiff.1 h)), if_neg hc]; rfl

theorem newLows_succ (x : ℕ → ℚ) (a i : ℕ) (ha : a ≤ i) (m m' : ℚ) (h : Lowest x a i m) (h' : Lowest x a (i + 1) m') :
    newLows x a (i + 1) = newLows x a i + if m' < m then 1 else 0 := by
  unfold newLows
  have e : Finset.Ioc a (i + 1) = insert (i + 1) (Finset.Ioc a i) := by
    ext j; simp only [Finset.mem_Ioc, Finset.mem_insert]; omega
  have hiff : (∀ k ∈ Finset.Ico a (i + 1), x (i + 1) < x k) ↔ m' < m := by
    obtain ⟨⟨k, k1, k2, k3⟩, h2⟩ := h
    obtain ⟨⟨k', k1', k2', k3'⟩, h2'⟩ := h'
    constructor
    · intro hall
      rw [← k3]
      exact lt_of_le_of_lt (h2' _ (by omega) le_rfl) (hall k (by rw [Finset.mem_Ico]; omega))
    · intro hlt j hj
      rw [Finset.mem_Ico] at hj
      have : k' = i + 1 := by
        by_contra hne
        have := h2 k' k1' (by omega)
        linarith
      subst this
      have := h2 j hj.1 (by omega)
      linarith
  rw [e, Finset.filter_insert]
  by_cases hc : m' < m
  · rw [if_pos (hiff.2 hc), if_pos hc, Finset.card_insert_of_notMem (by simp)]
  · rw [if_neg (fun h => hc (hiff.1 h)), if_neg hc]; rfl

theorem af_step (k : ℕ) : min (2 / 10 : ℚ) (min (1 / 5) ((1 + (k : ℚ)) / 50) + 2 / 100) = min (1 / 5) ((1 + ((k + 1 : ℕ) : ℚ)) / 50) := by
  push_cast
  rcases le_total (1 / 5 : ℚ) ((1 + (k : ℚ)) / 50) with h | h
  · rw [min_eq_left h, min_eq_left (by norm_num), min_eq_left (by linarith)]; norm_num
  · rw [min_eq_right h]
    congr 1
    · norm_num
    · ring

/-- A row of the model in the words of the specification. -/
def dayOf (r : Row) : SarDay := ⟨r.long, r.start, r.af, number r.ep, number r.sar⟩

variable (hs ls : List Val) (high low : ℕ → ℚ) (n : ℕ)

/-- What holds of a row, apart from the SAR. -/
structure Inv (i : ℕ) (r : Row) : Prop where
  start : r.start ≤ i
  ep : ∃ m, r.ep = .fin m ∧ if r.long then Highest high r.start i m else Lowest low r.start i m
  sar : ∃ s, r.sar = .fin s
  af : r.af = min (1 / 5) ((1 + ((if r.long then newHighs high r.start i else newLows low r.start i : ℕ) : ℚ)) / 50)

variable {hs ls high low n}
variable (hl : hs.length = n) (ll : ls.length = n) (hh : ∀ i < n, val hs i = .fin (high i)) (hlo : ∀ i < n, val ls i = .fin (low i))

include hl ll hh hlo

theorem inv_first (hn : 2 ≤ n) : Inv high low 0 (firstRow hs ls) ∧ (firstRow hs ls).long = decide (high 0 < high 1) ∧
    (firstRow hs ls).sar = .fin (if high 0 < high 1 then low 0 else high 0) := by
  unfold firstRow
  have e0 : hs.getD 0 .nan = .fin (high 0) := hh 0 (by omega)
  have e1 : hs.getD 1 .nan = .fin (high 1) := hh 1 (by omega)
  have e2 : ls.getD 0 .nan = .fin (low 0) := hlo 0 (by omega)
  simp only [e0, e1, e2, Val.fin_lt, decide_eq_true_eq]
  by_cases h : high 0 < high 1
  · simp only [if_pos h, decide_eq_true h]
    refine ⟨⟨le_rfl, ⟨_, rfl, ?_⟩, ⟨_, rfl⟩, ?_⟩, trivial, trivial⟩
    · simp only [if_true]; exact ⟨⟨0, le_rfl, le_rfl, rfl⟩, fun k _ h2 => by rw [show k = 0 by omega]⟩
    · simp [newHighs]; norm_num
  · simp only [if_neg h, decide_eq_false h]
    refine ⟨⟨le_rfl, ⟨_, rfl, ?_⟩, ⟨_, rfl⟩, ?_⟩, trivial, trivial⟩
    · simp only [Bool.false_eq_true, if_false]; exact ⟨⟨0, le_rfl, le_rfl, rfl⟩, fun k _ h2 => by rw [show k = 0 by omega]⟩
    · simp [newLows]; norm_num

theorem sarOf_fin (i : ℕ) (hi : i + 1 < n) (r : Row) (m s : ℚ) (h1 : r.ep = .fin m) (h2 : r.sar = .fin s) :
    sarOf hs ls (i + 1) r = .fin (if r.long then longStop low i (dayOf r) else shortStop high i (dayOf r)) := by
  unfold sarOf
  rw [h1, h2, Val.fin_sub, Val.fin_mul, Val.fin_add]
  simp only [dayOf, longStop, shortStop, h1, h2, number]
  cases r.long with
  | true =>
    simp only [if_true]
    obtain ⟨m', e1, e2⟩ := sliceMin_fin ls low (by rw [ll]; exact hlo) (i - 1) i (by omega) (by omega)
    rw [show i + 1 - 2 = i - 1 by omega, e1, lowest_two low i m' e2, Val.pmin]
    simp only [Val.fin_lt, decide_eq_true_eq]
    split
    · next h => rw [min_eq_right h.le]
    · next h => rw [min_eq_left (not_lt.1 h)]
  | false =>
    simp only [Bool.false_eq_true, if_false]
    obtain ⟨m', e1, e2⟩ := sliceMax_fin hs high (by rw [hl]; exact hh) (i - 1) i (by omega) (by omega)
    rw [show i + 1 - 2 = i - 1 by omega, e1, highest_two high i m' e2, Val.pmax]
    simp only [Val.fin_lt, decide_eq_true_eq]
    split
    · next h => rw [max_eq_right h.le]
    · next h => rw [max_eq_left (not_lt.1 h)]

/-- The position after a day, and the SAR. -/
theorem step (i : ℕ) (hi : i + 1 < n) (r : Row) (hr : Inv high low i r) :
    Inv high low (i + 1) (nextRow hs ls (i + 1) r) ∧
    (r.long = true → if low (i + 1) < longStop low i (dayOf r) then
        (nextRow hs ls (i + 1) r).long = false ∧ (nextRow hs ls (i + 1) r).start = i + 1 ∧
        Highest high r.start i (number (nextRow hs ls (i + 1) r).sar)
      else (nextRow hs ls (i + 1) r).long = true ∧ (nextRow hs ls (i + 1) r).start = r.start ∧
        number (nextRow hs ls (i + 1) r).sar = longStop low i (dayOf r)) ∧
    (r.long = false → if shortStop high i (dayOf r) < high (i + 1) then
        (nextRow hs ls (i + 1) r).long = true ∧ (nextRow hs ls (i + 1) r).start = i + 1 ∧
        Lowest low r.start i (number (nextRow hs ls (i + 1) r).sar)
      else (nextRow hs ls (i + 1) r).long = false ∧ (nextRow hs ls (i + 1) r).start = r.start ∧
        number (nextRow hs ls (i + 1) r).sar = shortStop high i (dayOf r)) := by
  obtain ⟨h1, ⟨m, hm, hm'⟩, ⟨s, hs'⟩, ha⟩ := hr
  have hsar := sarOf_fin hl ll hh hlo i hi r m s hm hs'
  have eh : hs.getD (i + 1) .nan = .fin (high (i + 1)) := hh (i + 1) hi
  have el : ls.getD (i + 1) .nan = .fin (low (i + 1)) := hlo (i + 1) hi
  unfold nextRow penetrated
  simp only [hsar, eh, el, Val.fin_lt]
  obtain ⟨rl, re, rs, rg, rt⟩ := r
  simp only at *
  cases rg with
  | true =>
    simp only [if_true, Bool.not_true, Bool.false_and, Bool.true_and, Bool.false_or, decide_eq_true_eq, reduceCtorEq,
      false_implies, and_true, forall_const] at *
    split
    · next hlt =>
      obtain ⟨M, hM, hM'⟩ := sliceMax_fin hs high (by rw [hl]; exact hh) rt i h1 (by omega)
      simp only [reversed, if_true, el, hM, number, true_and]
      refine ⟨⟨le_rfl, ⟨_, rfl, ?_⟩, ⟨_, rfl⟩, ?_⟩, hM'⟩
      · simp only [Bool.false_eq_true, if_false]
        exact ⟨⟨i + 1, le_rfl, le_rfl, rfl⟩, fun k a b => by rw [show k = i + 1 by omega]⟩
      · simp [newLows]; norm_num
    · next hlt =>
      obtain ⟨M, hM, hM'⟩ := sliceMax_fin hs high (by rw [hl]; exact hh) rt (i + 1) (by omega) (by omega)
      refine ⟨⟨by simp only; omega, ?_, ⟨_, rfl⟩, ?_⟩, rfl, rfl, rfl⟩
      · simp only [extreme, if_true]
        exact ⟨M, hM, hM'⟩
      · simp only [extreme, if_true, hM, accel, hm, Val.fin_lt, Bool.true_and, decide_eq_true_eq, Bool.not_true, Bool.false_and,
          Bool.false_eq_true, if_false]
        rw [newHighs_succ high rt i h1 m M hm' hM', ha]
        split
        · rw [af_step]
        · simp
  | false =>
    simp only [if_false, Bool.not_false, Bool.false_and, Bool.true_and, Bool.or_false, decide_eq_true_eq, reduceCtorEq,
      false_implies, true_and, forall_const, Bool.false_eq_true] at *
    split
    · next hlt =>
      obtain ⟨M, hM, hM'⟩ := sliceMin_fin ls low (by rw [ll]; exact hlo) rt i h1 (by omega)
      simp only [reversed, Bool.false_eq_true, if_false, eh, hM, number, true_and]
      refine ⟨⟨le_rfl, ⟨_, rfl, ?_⟩, ⟨_, rfl⟩, ?_⟩, hM'⟩
      · simp only [if_true]
        exact ⟨⟨i + 1, le_rfl, le_rfl, rfl⟩, fun k a b => by rw [show k = i + 1 by omega]⟩
      · simp [newHighs]; norm_num
    · next hlt =>
      obtain ⟨M, hM, hM'⟩ := sliceMin_fin ls low (by rw [ll]; exact hlo) rt (i + 1) (by omega) (by omega)
      refine ⟨⟨by simp only; omega, ?_, ⟨_, rfl⟩, ?_⟩, rfl, rfl, rfl⟩
      · simp only [extreme, Bool.false_eq_true, if_false]
        exact ⟨M, hM, hM'⟩
      · simp only [extreme, if_true, hM, accel, hm, Val.fin_lt, Bool.true_and, decide_eq_true_eq, Bool.not_false, Bool.false_and,
          Bool.false_eq_true, if_false]
        rw [newLows_succ low rt i h1 m M hm' hM', ha]
        split
        · rw [af_step]
        · simp

theorem inv_all (hn : 2 ≤ n) (i : ℕ) (hi : i < n) : Inv high low i (rowAt hs ls i) := by
  induction i with
  | zero => exact (inv_first hl ll hh hlo hn).1
  | succ i ih => exact (step hl ll hh hlo i hi _ (ih (by omega))).1

theorem since_all (hn : 2 ≤ n) (i : ℕ) (hi : i < n) :
    (∀ k, (rowAt hs ls i).start ≤ k → k ≤ i → (rowAt hs ls k).long = (rowAt hs ls i).long) ∧
    (0 < (rowAt hs ls i).start → (rowAt hs ls ((rowAt hs ls i).start - 1)).long = !(rowAt hs ls i).long) := by
  induction i with
  | zero =>
    have := (inv_first hl ll hh hlo hn).1.start
    refine ⟨fun k _ h => by rw [show k = 0 by omega], fun h => ?_⟩
    change 0 < (firstRow hs ls).start at h
    omega
  | succ i ih =>
    obtain ⟨ih1, ih2⟩ := ih (by omega)
    obtain ⟨-, s1, s2⟩ := step hl ll hh hlo i hi _ (inv_all hl ll hh hlo hn i (by omega))
    have key : ((rowAt hs ls (i + 1)).long = (rowAt hs ls i).long ∧ (rowAt hs ls (i + 1)).start = (rowAt hs ls i).start) ∨
        ((rowAt hs ls (i + 1)).long = !(rowAt hs ls i).long ∧ (rowAt hs ls (i + 1)).start = i + 1) := by
      cases hlong : (rowAt hs ls i).long with
      | true =>
        replace s1 := s1 hlong
        split at s1
        · exact .inr ⟨s1.1, s1.2.1⟩
        · exact .inl ⟨s1.1, s1.2.1⟩
      | false =>
        replace s2 := s2 hlong
        split at s2
        · exact .inr ⟨s2.1, s2.2.1⟩
        · exact .inl ⟨s2.1, s2.2.1⟩
    rcases key with ⟨k1, k2⟩ | ⟨k1, k2⟩
    · rw [k1, k2]
      refine ⟨fun k h1 h2 => ?_, ih2⟩
      by_cases hk : k ≤ i
      · exact ih1 k h1 hk
      · rw [show k = i + 1 by omega, k1]
    · rw [k1, k2]
      refine ⟨fun k h1 h2 => ?_, fun _ => ?_⟩
      · rw [show k = i + 1 by omega, k1]
      · simp

theorem run (hn : 2 ≤ n) : SarRun high low n fun i => dayOf (rowAt hs ls i) where
  first := by
    obtain ⟨-, h1, h2⟩ := inv_first hl ll hh hlo hn
    exact ⟨h1, congrArg number h2⟩
  since := fun i hi => ⟨(inv_all hl ll hh hlo hn i hi).start, since_all hl ll hh hlo hn i hi⟩
  extreme := fun i hi => by
    obtain ⟨m, h1, h2⟩ := (inv_all hl ll hh hlo hn i hi).ep
    simp only [dayOf, h1, number]
    exact h2
  accel := fun i hi => (inv_all hl ll hh hlo hn i hi).af
  long := fun i hi h => by
    have := (step hl ll hh hlo i hi _ (inv_all hl ll hh hlo hn i (by omega))).2.1 h
    by_cases hc : low (i + 1) < longStop low i (dayOf (rowAt hs ls i))
    · rw [if_pos hc] at this ⊢; exact ⟨this.1, this.2.2⟩
    · rw [if_neg hc] at this ⊢; exact ⟨this.1, this.2.2⟩
  short := fun i hi h => by
    have := (step hl ll hh hlo i hi _ (inv_all hl ll hh hlo hn i (by omega))).2.2 h
    by_cases hc : shortStop high i (dayOf (rowAt hs ls i)) < high (i + 1)
    · rw [if_pos hc] at this ⊢; exact ⟨this.1, this.2.2⟩
    · rw [if_neg hc] at this ⊢; exact ⟨this.1, this.2.2⟩

theorem sar_fin (hn : 2 ≤ n) (i : ℕ) (hi : i < n) : (rowAt hs ls i).sar = .fin (dayOf (rowAt hs ls i)).sar := by
  obtain ⟨s, h⟩ := (inv_all hl ll hh hlo hn i hi).sar
  simp only [dayOf, h, number]

end Ind.ParabolicSAR
end TTI
