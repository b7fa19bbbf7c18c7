import Verif.Spec.Hole
import Verif.Lemmas.WarmUpInd

set_option autoImplicit false

/-!
# The values that a missing entry takes away
-/

namespace TTI

open Spec Ind

/-- The values on the days `D` are missing. -/
def Lost (D : ℕ → Prop) (xs : List Val) : Prop := ∀ i, D i → val xs i = .nan

namespace Lost

variable {D D' : ℕ → Prop} {xs ys : List Val} {a n : ℕ}

theorem mono (h : Lost D xs) (hm : ∀ i, D' i → D i) : Lost D' xs := fun i hi => h i (hm i hi)

theorem none (hD : ∀ i, ¬ D i) (xs : List Val) : Lost D xs := fun i hi => absurd hi (hD i)

theorem both (h : Lost D xs) (h' : Lost D' xs) : Lost (fun i => D i ∨ D' i) xs := fun i hi => hi.elim (h i) (h' i)

theorem map (h : Lost D xs) (f : Val → Val) (hf : f .nan = .nan) : Lost D (xs.map f) := fun i hi => by
  rw [val_map f hf, h i hi, hf]

theorem zipR (h : Lost D ys) (f : Val → Val → Val) (hf : ∀ x, f x .nan = .nan) (xs : List Val) : Lost D (zipV f xs ys) := by
  intro i hi
  by_cases hx : i < xs.length
  · by_cases hy : i < ys.length
    · rw [val_zipV f xs ys i hx hy, h i hi, hf]
    · rw [val_ge _ _ (by simp; omega)]
  · rw [val_ge _ _ (by simp; omega)]

theorem zipL (h : Lost D xs) (f : Val → Val → Val) (hf : ∀ y, f .nan y = .nan) (ys : List Val) : Lost D (zipV f xs ys) := by
  intro i hi
  by_cases hx : i < xs.length
  · by_cases hy : i < ys.length
    · rw [val_zipV f xs ys i hx hy, h i hi, hf]
    · rw [val_ge _ _ (by simp; omega)]
  · rw [val_ge _ _ (by simp; omega)]

theorem addL (h : Lost D xs) (ys : List Val) : Lost D (addS xs ys) := h.zipL _ (fun _ => rfl) ys
theorem addR (h : Lost D ys) (xs : List Val) : Lost D (addS xs ys) := h.zipR _ Val.add_nan xs
theorem subL (h : Lost D xs) (ys : List Val) : Lost D (subS xs ys) := h.zipL _ (fun _ => rfl) ys
theorem subR (h : Lost D ys) (xs : List Val) : Lost D (subS xs ys) := h.zipR _ Val.sub_nan xs
theorem mulL (h : Lost D xs) (ys : List Val) : Lost D (mulS xs ys) := h.zipL _ (fun _ => rfl) ys
theorem mulR (h : Lost D ys) (xs : List Val) : Lost D (mulS xs ys) := h.zipR _ Val.mul_nan xs
theorem divL (h : Lost D xs) (ys : List Val) : Lost D (divS xs ys) := h.zipL _ (fun _ => rfl) ys
theorem divR (h : Lost D ys) (xs : List Val) : Lost D (divS xs ys) := h.zipR _ Val.div_nan xs

theorem scale (h : Lost D xs) (c : ℚ) : Lost D (scaleS c xs) := h.map _ rfl

theorem round (h : Lost D xs) (d : ℕ) : Lost D (roundS d xs) := h.map _ rfl

theorem below (h : Lost D xs) : Lost D (zeroBelow xs) := h.map _ rfl

theorem above (h : Lost D xs) : Lost D (zeroAbove xs) := h.map _ rfl

theorem shift (h : Lost (days a n) xs) (m : ℕ) : Lost (days (a + m) n) (shift m xs) := fun i hi => by
  unfold days at hi
  by_cases hl : i < xs.length
  · rw [val_shift m xs i hl, if_neg (by omega), h _ ⟨by omega, by omega⟩]
  · exact val_ge _ _ (by simp; omega)

theorem shiftBack (h : Lost D xs) (m : ℕ) : Lost (fun i => D (i + m)) (shiftBack m xs) := fun i hi => by
  by_cases hl : i < xs.length
  · rw [val_shiftBack m xs i hl, h _ hi]
  · exact val_ge _ _ (by simp; omega)

theorem mask (h : Lost D xs) (m : ℕ) : Lost D (maskBefore m xs) := fun i hi => by
  rw [val_maskBefore]
  split
  · rfl
  · exact h i hi

theorem take (h : Lost D xs) (m : ℕ) : Lost D (xs.take m) := fun i hi => by
  by_cases hl : i < m ∧ i < xs.length
  · rw [val_lt _ _ (by simp; omega), List.getElem_take, ← val_lt]
    exact h i hi
  · exact val_ge _ _ (by simp; omega)

/-- Changes from one day to the next. -/
theorem change (h : Lost (days a n) xs) (hn : 1 ≤ n) : Lost (days a (n + 1)) (subS xs (TTI.shift 1 xs)) := by
  refine ((h.subL (TTI.shift 1 xs)).both ((h.shift 1).subR xs)).mono fun i hi => ?_
  unfold days at hi ⊢
  omega

theorem finVals_lt (xs : List Val) (w : ℕ) (h : ∃ x ∈ window w xs, x = Val.nan) : (finVals (window w xs)).length < w := by
  obtain ⟨x, hx, rfl⟩ := h
  have h1 : (finVals (window w xs)).length < (window w xs).length := by
    unfold finVals
    refine List.length_filterMap_lt_length_iff_exists.2 ⟨_, hx, rfl⟩
  have h2 : (window w xs).length ≤ w := by unfold window; rw [List.length_drop]; omega
  omega

theorem rolling (h : Lost (days a n) xs) (hn : 1 ≤ n) (w : ℕ) (hw : 1 ≤ w) (agg : List ℚ → Val) :
    Lost (days a (n + w - 1)) (rolling w w agg xs) := by
  intro i hi
  unfold days at hi
  by_cases hl : i < xs.length
  · unfold TTI.rolling
    rw [val_prefixMap' _ _ i hl]
    dsimp only
    rw [if_neg]
    have := finVals_lt (xs.take (i + 1)) w
      ⟨val xs (min i (a + n - 1)), by
        unfold window
        rw [val_lt _ _ (by omega), List.mem_drop_iff_getElem]
        refine ⟨min i (a + n - 1) - (i + 1 - w), by rw [List.length_take]; omega, ?_⟩
        rw [List.getElem_take]
        congr 1
        rw [List.length_take]; omega, h _ ⟨by omega, by omega⟩⟩
    omega
  · exact val_ge _ _ (by unfold TTI.rolling; simp; omega)

theorem foldl_nan {α : Type} (g : Val → α → Val) (hn : ∀ y, g .nan y = .nan) (l : List α) : l.foldl g .nan = .nan := by
  induction l with
  | nil => rfl
  | cons x l ih => rw [List.foldl_cons, hn, ih]

theorem foldl_lost {α : Type} (g : Val → α → Val) (hn : ∀ y, g .nan y = .nan) (l : List α) (s : Val)
    (h : ∃ x ∈ l, ∀ s, g s x = .nan) : l.foldl g s = .nan := by
  induction l generalizing s with
  | nil => obtain ⟨x, hx, -⟩ := h; cases hx
  | cons x l ih =>
    rw [List.foldl_cons]
    obtain ⟨y, hy, hg⟩ := h
    rcases List.mem_cons.1 hy with rfl | hy
    · rw [hg]; exact foldl_nan g hn l
    · exact ih _ ⟨y, hy, hg⟩

theorem mem_tail (xs : List Val) (i k m : ℕ) (hi : i < xs.length) (hm : m ≤ k) (hk : k ≤ i) :
    val xs k ∈ (xs.take (i + 1)).drop m := by
  rw [val_lt _ _ (by omega), List.mem_drop_iff_getElem]
  refine ⟨k - m, by rw [List.length_take]; omega, ?_⟩
  rw [List.getElem_take]
  congr 1; omega

/-- A missing entry of a recursion that starts at day `m` is never forgotten. -/
theorem recursion (g : Val → Val → Val) (hn : ∀ y, g .nan y = .nan) (hm : ∀ s, g s .nan = .nan) (m k : ℕ) (hk : m ≤ k)
    (s : List Val → Val) (xs : List Val) (h : val xs k = .nan) :
    Lost (k ≤ ·) (prefixMap (fun pre => if pre.length < m then .nan else (pre.drop m).foldl g (s pre)) xs) := by
  intro i hi
  by_cases hl : i < xs.length
  · rw [val_prefixMap' _ _ i hl]
    split_ifs with hc
    · rfl
    · exact foldl_lost g hn _ _ ⟨_, mem_tail xs i k m hl hk hi, by rw [h]; exact hm⟩
  · exact val_ge _ _ (by simp; omega)

theorem wilder (skip p k : ℕ) (xs : List Val) (hk : skip + p ≤ k) (h : val xs k = .nan) : Lost (k ≤ ·) (wilder skip p xs) :=
  recursion (fun prev x => Val.add prev (Val.div (Val.sub x prev) (.fin p))) (fun y => by cases y <;> rfl)
    (fun s => by cases s <;> rfl) _ k hk _ xs h

theorem smooth14 (k : ℕ) (xs : List Val) (hk : 14 ≤ k) (h : val xs k = .nan) :
    Lost (k ≤ ·) (DirectionalMovementIndex.smooth14 xs) :=
  recursion (fun prev x => Val.add (Val.sub prev (Val.div prev 14)) x) (fun y => by cases y <;> rfl)
    (fun s => Val.add_nan _) _ k hk _ xs h

theorem adxOf (k : ℕ) (xs : List Val) (hk : 28 ≤ k) (h : val xs k = .nan) :
    Lost (k ≤ ·) (DirectionalMovementIndex.adxOf xs) :=
  recursion (fun prev x => Val.div (Val.add (Val.mul 13 prev) x) 14) (fun y => by cases y <;> rfl)
    (fun s => by rw [Val.add_nan]; rfl) _ k hk _ xs h

end Lost

theorem lost_cols (D : String → ℕ → Prop) (T : Frame) (h : ∀ c ∈ T.cols, Lost (D c.1) c.2) (name : String) :
    Lost (D name) (T.col name) := by
  unfold Frame.col
  cases hf : T.cols.find? (fun c => c.1 == name) with
  | none => exact fun i _ => val_ge _ _ (by simp)
  | some c =>
    have h1 := List.find?_some hf
    simp only [beq_iff_eq] at h1
    subst h1
    exact h c (List.mem_of_find?_eq_some hf)

theorem lost_zip3 {D : ℕ → Prop} (f : Val → Val → Val → Val) (xs ys zs : List Val)
    (h : ∀ i, D i → f (val xs i) (val ys i) (val zs i) = .nan) : Lost D (zip3 f xs ys zs) := by
  intro i hi
  by_cases hl : i < xs.length ∧ i < ys.length ∧ i < zs.length
  · rw [val_zip3 f xs ys zs i hl.1 hl.2.1 hl.2.2, h i hi]
  · exact val_ge _ _ (by simp; omega)

theorem lost_astype {D : ℕ → Prop} {xs : List Val} (h : Lost D xs) : Lost D (astypeInt xs) := by
  intro i hi
  unfold astypeInt
  have hx : ∀ l : List Val, ∀ v, allFin l = some v → ∀ i, val l i = .nan → l.length ≤ i := by
    intro l
    induction l with
    | nil => intro v _ i _; simp
    | cons x l ih =>
      intro v hv i hn
      cases x with
      | fin q =>
        simp only [allFin, Option.map_eq_some_iff] at hv
        obtain ⟨w, hw, -⟩ := hv
        cases i with
        | zero => cases hn
        | succ i => exact Nat.succ_le_succ (ih w hw i hn)
      | nan => simp [allFin] at hv
      | pinf => simp [allFin] at hv
      | ninf => simp [allFin] at hv
  have hlen : ∀ l : List Val, ∀ v, allFin l = some v → v.length = l.length := by
    intro l
    induction l with
    | nil => intro v hv; simp only [allFin, Option.some.injEq] at hv; rw [← hv]; rfl
    | cons x l ih =>
      intro v hv
      cases x with
      | fin q =>
        simp only [allFin, Option.map_eq_some_iff] at hv
        obtain ⟨w, hw, rfl⟩ := hv
        simp [ih w hw]
      | nan => simp [allFin] at hv
      | pinf => simp [allFin] at hv
      | ninf => simp [allFin] at hv
  cases hf : allFin xs with
  | none => exact h i hi
  | some v => exact val_ge _ _ (by rw [List.length_map, hlen xs v hf]; exact hx xs v hf i (h i hi))

theorem lost_cumsum {D : ℕ → Prop} {xs : List Val} (h : Lost D xs) : Lost D (cumsum xs) := by
  intro i hi
  by_cases hl : i < xs.length
  · unfold cumsum
    rw [val_prefixMap' _ _ i hl]
    have e : ((xs.take (i + 1)).getLast?.getD .nan) = .nan := by
      rw [List.getLast?_take, if_neg (by omega), Nat.add_sub_cancel, ← h i hi]
      rw [List.getElem?_eq_getElem hl, val_lt _ _ hl]; rfl
    rw [e]; rfl
  · exact val_ge _ _ (by simp [cumsum]; omega)

end TTI
