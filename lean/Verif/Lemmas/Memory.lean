import Verif.Lemmas.Causal
import Verif.Lemmas.Regression

set_option autoImplicit false

/-!
# Finite memory: the operators on data whose oldest rows were dropped

`Recent k m ys xs`: the series `ys` is the series `xs` without its first `k` rows, as far as row `m` and later are concerned.
-/

namespace TTI

variable {α β γ : Type}

/-- From row `m` on, `ys` is `xs` without the first `k` rows. -/
def Recent (k m : ℕ) (ys xs : List α) : Prop := ∀ i, m ≤ i → ys[i]? = xs[i + k]?

namespace Recent

variable {k m n : ℕ}

theorem drop (k : ℕ) (xs : List α) : Recent k 0 (xs.drop k) xs := by
  intro i _
  rw [List.getElem?_drop, Nat.add_comm]

theorem mono {ys xs : List α} (h : m ≤ n) (hr : Recent k m ys xs) : Recent k n ys xs := fun i hi => hr i (by omega)

theorem lt_iff {ys xs : List α} (hr : Recent k m ys xs) (i : ℕ) (hi : m ≤ i) : i < ys.length ↔ i + k < xs.length := by
  have := hr i hi
  constructor
  · intro h
    rw [List.getElem?_eq_getElem h] at this
    exact (List.getElem?_eq_some_iff.1 this.symm).1
  · intro h
    rw [List.getElem?_eq_getElem h] at this
    exact (List.getElem?_eq_some_iff.1 this).1

theorem map (f : α → β) {ys xs : List α} (hr : Recent k m ys xs) : Recent k m (ys.map f) (xs.map f) := by
  intro i hi
  rw [List.getElem?_map, List.getElem?_map, hr i hi]

theorem zipWith (f : α → β → γ) {ys xs : List α} {vs us : List β} (h1 : Recent k m ys xs) (h2 : Recent k n vs us) :
    Recent k (max m n) (List.zipWith f ys vs) (List.zipWith f xs us) := by
  intro i hi
  rw [List.getElem?_zipWith, List.getElem?_zipWith, h1 i (by omega), h2 i (by omega)]

theorem zip {ys xs : List α} {vs us : List β} (h1 : Recent k m ys xs) (h2 : Recent k n vs us) :
    Recent k (max m n) (ys.zip vs) (xs.zip us) := zipWith _ h1 h2

theorem slice {ys xs : List α} (hr : Recent k m ys xs) (a w : ℕ) (ha : m ≤ a) :
    (ys.drop a).take w = (xs.drop (a + k)).take w := by
  apply List.ext_getElem?
  intro j
  rw [List.getElem?_take, List.getElem?_take, List.getElem?_drop, List.getElem?_drop, hr (a + j) (by omega)]
  rw [show a + j + k = a + k + j by omega]

/-- A row-wise function of the last `w` rows. -/
theorem prefixMap (g : List α → β) (w : ℕ) (hw : 1 ≤ w) (hg : ∀ a l, l.length = w → g (a ++ l) = g l) {ys xs : List α}
    (hr : Recent k m ys xs) : Recent k (m + (w - 1)) (prefixMap g ys) (prefixMap g xs) := by
  intro i hi
  rw [prefixMap_getElem?, prefixMap_getElem?]
  have hlt := hr.lt_iff i (by omega)
  by_cases h : i < ys.length
  · have h' := hlt.1 h
    rw [if_pos h, if_pos h']
    have e : ∀ (zs : List α) (j : ℕ), w ≤ j + 1 → zs.take (j + 1) = zs.take (j + 1 - w) ++ (zs.drop (j + 1 - w)).take w := by
      intro zs j hj
      rw [← List.take_add]
      congr 1; omega
    rw [e ys i (by omega), e xs (i + k) (by omega), hg _ _ (by simp; omega), hg _ _ (by simp; omega),
      hr.slice (i + 1 - w) w (by omega)]
    congr 4; omega
  · rw [if_neg h, if_neg fun h' => h (hlt.2 h')]

/-- A row-wise function of `f` of the last `w` rows and of the last row. -/
theorem prefixMap_last {δ : Type} (f : α → δ) (g : List α → β) (w : ℕ) (hw : 1 ≤ w)
    (hg : ∀ a b l l', l.length = w → l'.length = w → l.map f = l'.map f → l.getLast? = l'.getLast? → g (a ++ l) = g (b ++ l'))
    {ys xs : List α} (hf : ∀ j, m ≤ j → (h : j < ys.length) → (h' : j + k < xs.length) → f ys[j] = f xs[j + k])
    (hr : Recent k n ys xs) : Recent k (max (m + (w - 1)) n) (TTI.prefixMap g ys) (TTI.prefixMap g xs) := by
  intro i hi
  rw [prefixMap_getElem?, prefixMap_getElem?]
  have hlt := hr.lt_iff i (by omega)
  by_cases h : i < ys.length
  · have h' := hlt.1 h
    rw [if_pos h, if_pos h']
    have e : ∀ (zs : List α) (j : ℕ), w ≤ j + 1 → zs.take (j + 1) = zs.take (j + 1 - w) ++ (zs.drop (j + 1 - w)).take w := by
      intro zs j hj
      rw [← List.take_add]
      congr 1; omega
    rw [e ys i (by omega), e xs (i + k) (by omega)]
    congr 1
    apply hg
    · simp; omega
    · simp; omega
    · apply List.ext_getElem
      · simp; omega
      · intro j h1 h2
        simp only [List.length_map, List.length_take, List.length_drop] at h1
        simp only [List.getElem_map, List.getElem_take, List.getElem_drop]
        rw [hf _ (by omega) (by omega) (by omega)]
        congr 2; omega
    · rw [List.getLast?_eq_getElem?, List.getLast?_eq_getElem?]
      simp only [List.length_take, List.length_drop, List.getElem?_take, List.getElem?_drop]
      rw [if_pos (by omega), if_pos (by omega), show i + 1 - w + (min w (ys.length - (i + 1 - w)) - 1) = i by omega,
        show i + k + 1 - w + (min w (xs.length - (i + k + 1 - w)) - 1) = i + k by omega, hr i (by omega)]
  · rw [if_neg h, if_neg fun h' => h (hlt.2 h')]

theorem window_append (w : ℕ) (a l : List α) (h : l.length = w) : window w (a ++ l) = window w l := by
  unfold window
  simp [h]

theorem rolling (w r : ℕ) (hw : 1 ≤ w) (agg : List ℚ → Val) {ys xs : List Val} (hr : Recent k m ys xs) :
    Recent k (m + (w - 1)) (rolling w r agg ys) (rolling w r agg xs) := by
  apply prefixMap _ w hw _ hr
  intro a l hl
  simp only [window_append w a l hl]

theorem shift (s : ℕ) {ys xs : List Val} (hr : Recent k m ys xs) : Recent k (m + s) (shift s ys) (shift s xs) := by
  intro i hi
  have hlt := hr.lt_iff i (by omega)
  have h1 := hr (i - s) (by omega)
  simp only [TTI.shift, List.getElem?_take, List.getElem?_append, List.length_replicate, List.getElem?_replicate]
  rw [if_neg (show ¬ i < s by omega), if_neg (show ¬ i + k < s by omega), h1, show i - s + k = i + k - s by omega]
  by_cases h : i < ys.length
  · rw [if_pos h, if_pos (hlt.1 h)]
  · rw [if_neg h, if_neg fun h' => h (hlt.2 h')]

theorem maskBefore (s : ℕ) {ys xs : List Val} (hr : Recent k m ys xs) :
    Recent k (max m s) (maskBefore s ys) (maskBefore s xs) := by
  intro i hi
  have hlt := hr.lt_iff i (by omega)
  have h1 := hr i (by omega)
  simp only [TTI.maskBefore, List.getElem?_take, List.getElem?_append, List.length_replicate, List.getElem?_replicate,
    List.getElem?_drop]
  rw [if_neg (show ¬ i < s by omega), if_neg (show ¬ i + k < s by omega), show s + (i - s) = i by omega,
    show s + (i + k - s) = i + k by omega, h1]
  by_cases h : i < ys.length
  · rw [if_pos h, if_pos (hlt.1 h)]
  · rw [if_neg h, if_neg fun h' => h (hlt.2 h')]

section
variable {ys xs vs us ws ts : List Val} {o : ℕ}

theorem zipV (f : Val → Val → Val) (h1 : Recent k m ys xs) (h2 : Recent k n vs us) :
    Recent k (max m n) (zipV f ys vs) (zipV f xs us) := zipWith _ h1 h2
theorem addS (h1 : Recent k m ys xs) (h2 : Recent k n vs us) : Recent k (max m n) (addS ys vs) (addS xs us) := zipWith _ h1 h2
theorem subS (h1 : Recent k m ys xs) (h2 : Recent k n vs us) : Recent k (max m n) (subS ys vs) (subS xs us) := zipWith _ h1 h2
theorem mulS (h1 : Recent k m ys xs) (h2 : Recent k n vs us) : Recent k (max m n) (mulS ys vs) (mulS xs us) := zipWith _ h1 h2
theorem divS (h1 : Recent k m ys xs) (h2 : Recent k n vs us) : Recent k (max m n) (divS ys vs) (divS xs us) := zipWith _ h1 h2
theorem sumRows (h1 : Recent k m ys xs) (h2 : Recent k n vs us) : Recent k (max m n) (sumRows ys vs) (sumRows xs us) :=
  zipWith _ h1 h2
theorem zip3 (f : Val → Val → Val → Val) (h1 : Recent k m ys xs) (h2 : Recent k n vs us) (h3 : Recent k o ws ts) :
    Recent k (max m (max n o)) (zip3 f ys vs ws) (zip3 f xs us ts) := zipWith _ h1 (zip h2 h3)
theorem scaleS (c : ℚ) (h : Recent k m ys xs) : Recent k m (scaleS c ys) (scaleS c xs) := map _ h
theorem roundS (c : ℕ) (h : Recent k m ys xs) : Recent k m (roundS c ys) (roundS c xs) := map _ h
theorem fillna (v : Val) (h : Recent k m ys xs) : Recent k m (fillna v ys) (fillna v xs) := map _ h
theorem zeroBelow (h : Recent k m ys xs) : Recent k m (zeroBelow ys) (zeroBelow xs) := map _ h
theorem zeroAbove (h : Recent k m ys xs) : Recent k m (zeroAbove ys) (zeroAbove xs) := map _ h
theorem diffS (s : ℕ) (h : Recent k m ys xs) : Recent k (max m (m + s)) (diffS s ys) (diffS s xs) := subS h (shift s h)
end

theorem val {ys xs : List Val} (h : Recent k m ys xs) (i : ℕ) (hi : m ≤ i) : val ys i = val xs (i + k) := by
  unfold TTI.val
  rw [List.getD_eq_getElem?_getD, List.getD_eq_getElem?_getD, h i hi]

theorem of_val {ys xs : List Val} (hl : ys.length + k = xs.length)
    (h : ∀ i, m ≤ i → i < ys.length → TTI.val ys i = TTI.val xs (i + k)) : Recent k m ys xs := by
  intro i hi
  by_cases h1 : i < ys.length
  · rw [val_getElem? _ _ h1, val_getElem? _ _ (by omega), h i hi h1]
  · rw [List.getElem?_eq_none (by omega), List.getElem?_eq_none (by omega)]

end Recent

/-! ## Frames -/

/-- `df.iloc[k:]`. -/
def Frame.drop (k : ℕ) (F : Frame) : Frame := ⟨F.idx.drop k, F.cols.map fun c => (c.1, c.2.drop k)⟩

@[simp] theorem Frame.drop_idx (F : Frame) (k : ℕ) : (F.drop k).idx = F.idx.drop k := rfl

@[simp] theorem Frame.drop_len (F : Frame) (k : ℕ) : (F.drop k).len = F.len - k := by simp [Frame.drop, Frame.len]

@[simp] theorem Frame.drop_col (F : Frame) (k : ℕ) (name : String) : (F.drop k).col name = (F.col name).drop k := by
  unfold Frame.drop Frame.col
  simp only
  rw [List.find?_map]
  have : ((fun c : String × List Val => c.1 == name) ∘ fun c : String × List Val => (c.1, c.2.drop k)) =
      fun c => c.1 == name := rfl
  rw [this]
  cases F.cols.find? fun c => c.1 == name with
  | none => simp
  | some c => rfl

theorem Frame.rows_drop (F : Frame) (k : ℕ) : (F.drop k).rows = F.rows.drop k := by
  unfold Frame.rows
  rw [Frame.drop_len]
  apply List.ext_getElem?
  intro i
  rw [List.getElem?_drop, List.getElem?_map, List.getElem?_map]
  by_cases h : i < F.len - k
  · rw [List.getElem?_range h, List.getElem?_range (by omega)]
    simp only [Option.map_some, Frame.drop, List.map_map, Function.comp_def]
    congr 1
    apply List.map_congr_left
    intro c _
    simp [List.getD_eq_getElem?_getD]
  · rw [List.getElem?_eq_none (by simp; omega), List.getElem?_eq_none (by simp; omega)]
    rfl

/-! ## Inner indicators -/

/-- The first row left is known in every column. -/
def Frame.KnownFrom (k : ℕ) (F : Frame) : Prop := ∀ c ∈ F.cols, ∃ v, (c.2.drop k).head? = some v ∧ v ≠ .nan

theorem ffill_drop (xs : List Val) (k : ℕ) (h : ∃ v, (xs.drop k).head? = some v ∧ v ≠ .nan) :
    ffill (xs.drop k) = (ffill xs).drop k := by
  obtain ⟨v, hv, hn⟩ := h
  unfold ffill
  apply List.ext_getElem?
  intro i
  rw [List.getElem?_drop, prefixMap_getElem?, prefixMap_getElem?, List.length_drop]
  by_cases hi : i < xs.length - k
  · rw [if_pos hi, if_pos (by omega)]
    congr 1
    have e : xs.take (k + i + 1) = xs.take k ++ (xs.drop k).take (i + 1) := by
      rw [← List.take_add]; rfl
    rw [e, List.filter_append]
    have hne : ((xs.drop k).take (i + 1)).filter (fun x => !x.isNan) ≠ [] := by
      intro h0
      rw [List.filter_eq_nil_iff] at h0
      cases hd : xs.drop k with
      | nil => rw [hd] at hv; simp at hv
      | cons a l =>
        rw [hd] at hv h0
        simp only [List.head?_cons, Option.some.injEq] at hv
        subst hv
        have := h0 a (by simp)
        cases a <;> simp_all [Val.isNan]
    rw [List.getLast?_append, List.getLast?_eq_some_getLast hne]
    rfl
  · rw [if_neg hi, if_neg (by omega)]

theorem bfill_drop (ys : List Val) (k : ℕ) : bfill (ys.drop k) = (bfill ys).drop k := by
  unfold bfill
  rw [List.reverse_drop]
  have : ffill (ys.reverse.take (ys.length - k)) = (ffill ys.reverse).take (ys.length - k) := prefixMap_take _ _ _
  rw [this, List.reverse_take]
  have hl : (ffill ys.reverse).length = ys.length := by unfold ffill; simp
  rw [hl]
  by_cases h : k ≤ ys.length
  · congr 1; omega
  · rw [List.drop_of_length_le (by rw [List.length_reverse, hl]; omega), List.drop_of_length_le (by rw [List.length_reverse, hl]; omega)]

theorem Frame.sub_drop (F : Frame) (k : ℕ) (h : F.KnownFrom k) (names : List String) :
    (F.drop k).sub names = (F.sub names).drop k := by
  unfold Frame.sub Frame.restrict Frame.drop
  simp only [List.filter_map, List.map_map, Function.comp_def]
  congr 1
  apply List.map_congr_left
  intro c hc
  rw [ffill_drop _ _ (h c (List.mem_filter.1 hc).1), bfill_drop]

theorem Frame.KnownFrom.sub {F : Frame} {k : ℕ} (h : F.KnownFrom k) (names : List String) : (F.sub names).KnownFrom k := by
  intro c hc
  unfold Frame.sub Frame.restrict at hc
  simp only [List.mem_map, List.mem_filter] at hc
  obtain ⟨d, ⟨hd, -⟩, rfl⟩ := hc
  obtain ⟨v, hv, hn⟩ := h d hd
  refine ⟨v, ?_, hn⟩
  rw [← bfill_drop, ← ffill_drop _ _ ⟨v, hv, hn⟩]
  cases hx : d.2.drop k with
  | nil => rw [hx] at hv; simp at hv
  | cons x xs =>
    rw [hx] at hv
    simp only [List.head?_cons, Option.some.injEq] at hv
    subst hv
    have hno := ffill_no_nan x xs hn
    rw [bfill_eq_self _ hno]
    unfold ffill
    cases x <;> simp_all [TTI.prefixMap, Val.isNan, List.range_succ_eq_map]

/-! ## Regression lines -/

/-- Moving the points along the axis moves the intercept and leaves the slope. -/
theorem lsFit_shift (pts : List (ℚ × ℚ)) (hne : pts ≠ []) (c : ℚ) :
    lsFit (pts.map fun p => (p.1, p.2 + c)) = ((lsFit pts).1 - c * (lsFit pts).2, (lsFit pts).2) := by
  have hn : (pts.length : ℚ) ≠ 0 := by
    rw [Ne, Nat.cast_eq_zero, List.length_eq_zero_iff]; exact hne
  have e1 : (pts.map fun p : ℚ × ℚ => p.2 + c).sum = (pts.map fun p => p.2).sum + pts.length * c := by
    induction pts with
    | nil => simp
    | cons a l ih =>
      by_cases hl : l = []
      · subst hl; simp
      · have := ih hl (by rw [Ne, Nat.cast_eq_zero, List.length_eq_zero_iff]; exact hl)
        simp only [List.map_cons, List.sum_cons, this, List.length_cons, Nat.cast_add, Nat.cast_one]; ring
  have e2 : (pts.map fun p : ℚ × ℚ => p.1 * (p.2 + c)).sum = (pts.map fun p => p.1 * p.2).sum + c * (pts.map fun p => p.1).sum := by
    clear hne hn e1
    induction pts with
    | nil => simp
    | cons a l ih => simp only [List.map_cons, List.sum_cons, ih]; ring
  have e3 : (pts.map fun p : ℚ × ℚ => (p.2 + c) * (p.2 + c)).sum =
      (pts.map fun p => p.2 * p.2).sum + 2 * c * (pts.map fun p => p.2).sum + pts.length * c * c := by
    clear hne hn e1 e2
    induction pts with
    | nil => simp
    | cons a l ih => simp only [List.map_cons, List.sum_cons, ih, List.length_cons, Nat.cast_add, Nat.cast_one]; ring
  unfold lsFit
  simp only [List.map_map, Function.comp_def, List.length_map]
  simp only [e1, e2, e3]
  generalize (pts.map fun p => p.2).sum = sx
  generalize (pts.map fun p => p.1).sum = sy
  generalize (pts.map fun p => p.1 * p.2).sum = sxy
  generalize (pts.map fun p => p.2 * p.2).sum = sxx
  generalize (pts.length : ℚ) = n at hn
  have h1 : n * (sxy + c * sy) - (sx + n * c) * sy = n * sxy - sx * sy := by ring
  have h2 : n * (sxx + 2 * c * sx + n * c * c) - (sx + n * c) * (sx + n * c) = n * sxx - sx * sx := by ring
  rw [h1, h2]
  generalize (n * sxy - sx * sy) / (n * sxx - sx * sx) = b
  rw [Prod.mk.injEq]
  refine ⟨?_, rfl⟩
  field_simp
  ring

/-- The pair of parameters of a regression line seen from `k` rows later. -/
def movedLine (k : ℕ) (p : Val × Val) : Val × Val := (Val.add p.1 (Val.mul (.fin k) p.2), p.2)

theorem rollingOLS_recent {k m w : ℕ} (hw : 1 ≤ w) {ys xs : List Val} (hr : Recent k m ys xs) :
    Recent k (m + (w - 1)) (rollingOLS w ys) ((rollingOLS w xs).mapIdx fun i p => if i < k then p else movedLine k p) := by
  intro i hi
  unfold rollingOLS
  rw [List.getElem?_mapIdx, prefixMap_getElem?, prefixMap_getElem?]
  have hlt := hr.lt_iff i (by omega)
  by_cases h : i < ys.length
  · have h' := hlt.1 h
    rw [if_pos h, if_pos h']
    simp only [Option.map_some, if_neg (show ¬ i + k < k by omega)]
    have hy : (ys.take (i + 1)).length = i + 1 := by rw [List.length_take]; omega
    have hx : (xs.take (i + k + 1)).length = i + k + 1 := by rw [List.length_take]; omega
    rw [hy, hx, if_pos (by omega), if_pos (by omega)]
    have hwin : window w (ys.take (i + 1)) = window w (xs.take (i + k + 1)) := by
      rw [window_take _ _ _ h, window_take _ _ _ h', show min w (i + 1) = w by omega, show min w (i + k + 1) = w by omega]
      apply List.map_congr_left
      intro t _
      rw [hr.val _ (by omega)]
      congr 1; omega
    rw [hwin]
    have hlen : (window w (xs.take (i + k + 1))).length = w := by unfold window; simp; omega
    cases hf : allFin (window w (xs.take (i + k + 1))) with
    | none => rfl
    | some v =>
      have hv : v.length = w := by
        rw [← hlen]
        clear hlen hwin hy hx
        generalize window w (xs.take (i + k + 1)) = l at hf
        induction l generalizing v with
        | nil => simp only [allFin, Option.some.injEq] at hf; subst hf; rfl
        | cons a l ih =>
          cases a <;> simp only [allFin, reduceCtorEq, Option.map_eq_some_iff] at hf
          obtain ⟨u, hu, rfl⟩ := hf
          simp [ih u hu]
      dsimp only
      have hz : v.zip ((List.range w).map fun t : ℕ => ((i + k + 1 - w + t : ℕ) : ℚ)) =
          (v.zip ((List.range w).map fun t : ℕ => ((i + 1 - w + t : ℕ) : ℚ))).map fun p => (p.1, p.2 + (k : ℚ)) := by
        have : (List.range w).map (fun t : ℕ => ((i + k + 1 - w + t : ℕ) : ℚ)) =
            ((List.range w).map fun t : ℕ => ((i + 1 - w + t : ℕ) : ℚ)).map fun x => x + (k : ℚ) := by
          rw [List.map_map]
          apply List.map_congr_left
          intro t _
          simp only [Function.comp]
          rw [show i + k + 1 - w + t = i + 1 - w + t + k by omega]
          push_cast; ring
        rw [this, List.zip_map_right]
        apply List.map_congr_left
        intro p _; rfl
      have hne : v.zip ((List.range w).map fun t : ℕ => ((i + 1 - w + t : ℕ) : ℚ)) ≠ [] := by
        intro h0
        have := congrArg List.length h0
        rw [List.length_zip] at this
        simp [hv] at this
        omega
      rw [hz, lsFit_shift _ hne]
      simp only [movedLine, Val.fin_mul, Val.fin_add]
      congr 3; ring
  · rw [if_neg h, if_neg fun h' => h (hlt.2 h')]
    rfl

theorem rollingOLS_slope {k m w : ℕ} (hw : 1 ≤ w) {ys xs : List Val} (hr : Recent k m ys xs) :
    Recent k (m + (w - 1)) ((rollingOLS w ys).map (·.2)) ((rollingOLS w xs).map (·.2)) := by
  intro i hi
  have h := rollingOLS_recent hw hr i hi
  rw [List.getElem?_map, List.getElem?_map, h, List.getElem?_mapIdx, Option.map_map]
  rw [show (fun x : Val × Val => x.2) ∘ (fun p => if i + k < k then p else movedLine k p) = fun x => x.2 by
    funext p; simp only [Function.comp, if_neg (show ¬ i + k < k by omega), movedLine]]

theorem rollingOLS_shape (w : ℕ) (xs : List Val) (p : Val × Val) (h : p ∈ rollingOLS w xs) :
    p = (.nan, .nan) ∨ ∃ a b, p = (.fin a, .fin b) := by
  unfold rollingOLS TTI.prefixMap at h
  rw [List.mem_map] at h
  obtain ⟨i, -, rfl⟩ := h
  dsimp only
  split
  · cases allFin (window w (xs.take (i + 1))) with
    | none => left; rfl
    | some v => right; exact ⟨_, _, rfl⟩
  · left; rfl

/-- The end value of the regression line. -/
theorem rollingOLS_end {k m w N : ℕ} (hw : 1 ≤ w) {ys xs : List Val} (hr : Recent k m ys xs) (hN : k ≤ N) :
    Recent k (m + (w - 1))
      (List.zipWith (fun (p : Val × Val) (i : ℕ) => Val.round 4 (Val.add p.1 (Val.mul (.fin (i : ℕ)) p.2))) (rollingOLS w ys)
        (List.range (N - k)))
      (List.zipWith (fun (p : Val × Val) (i : ℕ) => Val.round 4 (Val.add p.1 (Val.mul (.fin (i : ℕ)) p.2))) (rollingOLS w xs)
        (List.range N)) := by
  intro i hi
  have h := rollingOLS_recent hw hr i hi
  rw [List.getElem?_zipWith, List.getElem?_zipWith, h, List.getElem?_mapIdx]
  cases hx : (rollingOLS w xs)[i + k]? with
  | none => rfl
  | some p =>
    by_cases hiN : i < N - k
    · rw [List.getElem?_range hiN, List.getElem?_range (by omega)]
      simp only [Option.map_some, if_neg (show ¬ i + k < k by omega), movedLine]
      rcases rollingOLS_shape w xs p (List.mem_of_getElem? hx) with rfl | ⟨a, b, rfl⟩
      · rfl
      · simp only [Val.fin_mul, Val.fin_add]
        congr 3
        push_cast; ring
    · rw [List.getElem?_eq_none (by simp; omega), List.getElem?_eq_none (by simp; omega)]
      rfl

/-! ## Indicators with operations of their own -/

namespace Ind

variable {k m n : ℕ}

theorem LinearRegressionSlope.exact_window (p : ℕ) (hp : 1 ≤ p) (close : List Val) (N : ℕ) (lc : close.length = N) (y : ℕ → ℚ)
    (i : ℕ) (hi : i < N) (hpi : p ≤ i + 1) (hc : ∀ j, i < j + p → j ≤ i → val close j = .fin (y j)) :
    val (roundS 4 (divS (subS (scaleS p (rolling p p aggSum (mulS close (rowNumbers N))))
        (mulS (rolling p p aggSum (rowNumbers N)) (rolling p p aggSum close)))
      (subS (scaleS p (rolling p p aggSum ((rowNumbers N).map fun x => Val.mul x x)))
        (mulS (rolling p p aggSum (rowNumbers N)) (rolling p p aggSum (rowNumbers N)))))) i =
      if p = 1 then .nan else .fin (roundQ 4 (slopeQ y (i + 1 - p) p)) := by
  let F : Frame := ⟨(List.range N).map fun i => (i : ℤ), [("close", (List.range N).map fun j => Val.fin (y j))]⟩
  have hF : F.len = N := by simp [F, Frame.len]
  have hcol : F.col "close" = (List.range N).map fun j => Val.fin (y j) := by simp [F]
  have hval : ∀ j < N, val ((List.range N).map fun j => Val.fin (y j)) j = .fin (y j) := by
    intro j hj
    rw [val_lt _ _ (by simpa using hj)]; simp
  have hx := LinearRegressionSlope.exact p hp F _ y (by rw [hcol, hF]; simp) (by rw [hcol, hF]; exact hval)
    (by unfold calcTi; rw [if_neg (by rw [hF]; omega)]) i (by rw [hF]; exact hi)
  rw [if_pos hpi] at hx
  rw [← hx]
  simp only [Frame.col_single, hF, hcol]
  have hn : ∀ j < N, val (rowNumbers N) j = .fin ((j : ℚ) + 1) := fun j hj => val_rowNumbers _ _ hj
  simp only [val_roundS, val_divS, val_subS, val_scaleS, val_mulS]
  rw [val_rolling_fin p p aggSum (mulS close (rowNumbers N)) (fun j => y j * ((j : ℚ) + 1)) i (by simp [lc, hi])
      (fun j h1 h2 => by rw [val_mulS, hc j h1 h2, hn j (by omega), Val.fin_mul]),
    val_rolling_fin p p aggSum close y i (by omega) hc,
    val_rolling_fin p p aggSum (mulS ((List.range N).map fun j => Val.fin (y j)) (rowNumbers N)) (fun j => y j * ((j : ℚ) + 1)) i
      (by simp [hi]) (fun j h1 h2 => by rw [val_mulS, hval j (by omega), hn j (by omega), Val.fin_mul]),
    val_rolling_fin p p aggSum ((List.range N).map fun j => Val.fin (y j)) y i (by simp; omega)
      (fun j h1 h2 => hval j (by omega))]

theorem slopeQ_move (y : ℕ → ℚ) (s p k : ℕ) : slopeQ (fun j => y (j + k)) s p = slopeQ y (s + k) p := by
  have h1 := lsFit_eq (fun j => y (j + k)) s p
  have h2 := lsFit_eq y (s + k) p
  by_cases hp : p = 0
  · subst hp; simp [slopeQ]
  have hz : ((List.range p).map fun t => y (s + k + t)).zip ((List.range p).map fun t => ((s + k + t : ℕ) : ℚ)) =
      (((List.range p).map fun t => y (s + t + k)).zip ((List.range p).map fun t => ((s + t : ℕ) : ℚ))).map
        fun p => (p.1, p.2 + (k : ℚ)) := by
    rw [List.zip_map', List.zip_map', List.map_map]
    apply List.map_congr_left
    intro t _
    simp only [Function.comp, Prod.mk.injEq]
    refine ⟨by congr 1; omega, by push_cast; ring⟩
  rw [hz, lsFit_shift _ (by simp [List.zip_map', hp]), h1] at h2
  exact (Prod.mk.inj h2).2

theorem LinearRegressionSlope.recent (p : ℕ) (hp : 1 ≤ p) (F T T' : Frame) (k : ℕ) (lc : (F.col "close").length = F.len)
    (hk : k ≤ F.len) (h : calcTi p F = .ok T) (h' : calcTi p (F.drop k) = .ok T') :
    Recent k (p - 1) (T'.col "lrs") (T.col "lrs") := by
  unfold calcTi at h h'
  split at h
  · simp at h
  split at h'
  · simp at h'
  simp only [Except.ok.injEq] at h h'
  subst h h'
  rw [Frame.col_single, Frame.col_single, Frame.drop_col, Frame.drop_len]
  set close := F.col "close"
  have lc' : (close.drop k).length = F.len - k := by rw [List.length_drop, lc]
  apply Recent.of_val
  · simp [lc, lc']; omega
  · intro i hi hlt
    have hlt' : i < F.len - k := by simpa [lc, lc'] using hlt
    have hr : Recent k (p - 1) (rolling p p aggSum (close.drop k)) (rolling p p aggSum close) := by
      have := (Recent.drop k close).rolling p p hp aggSum
      rwa [Nat.zero_add] at this
    rcases rolling_full_cases p aggSum (close.drop k) i (by omega) with h0 | ⟨hpi, f, hf, h0⟩
    · have h1 := hr.val i hi
      rw [h0] at h1
      simp only [val_roundS, val_divS, val_subS, val_scaleS, val_mulS, h0, ← h1, Val.mul_nan, Val.sub_nan, Val.nan_div]
    · rw [exact_window p hp (close.drop k) (F.len - k) lc' f i hlt' hpi hf,
        exact_window p hp close F.len lc (fun j => f (j - k)) (i + k) (by omega) (by omega) ?_]
      · have := slopeQ_move (fun j => f (j - k)) (i + 1 - p) p k
        simp only [Nat.add_sub_cancel] at this
        rw [show i + k + 1 - p = i + 1 - p + k by omega, ← this]
      · intro j h1 h2
        have := hf (j - k) (by omega) (by omega)
        rw [(Recent.drop k close).val (j - k) (by omega), show j - k + k = j by omega] at this
        exact this

theorem CommodityChannelIndex.recent {p : ℕ} (hp : 1 ≤ p) {ys xs vs us : List Val} (h1 : Recent k m ys xs)
    (h2 : Recent k n vs us) :
    Recent k (max (n + (p - 1)) (max m n)) (differences p (ys.zip vs)) (differences p (xs.zip us)) := by
  unfold differences
  apply Recent.prefixMap_last (fun r : Val × Val => r.2) _ p hp _ _ (h1.zip h2)
  · intro a b l l' hl hl' hm hlast
    simp only [List.length_append, hl, hl', if_neg (show ¬ a.length + p < p by omega), if_neg (show ¬ b.length + p < p by omega),
      Recent.window_append p a l hl, Recent.window_append p b l' hl']
    have hw : window p l = l := by unfold window; simp [hl]
    have hw' : window p l' = l' := by unfold window; simp [hl']
    rw [hw, hw', hlast]
    cases l'.getLast? with
    | none => rfl
    | some last =>
      dsimp only
      have : ∀ l : List (Val × Val), l.map (fun r => Val.abs (Val.sub last.1 r.2)) =
          (l.map fun r => r.2).map fun x => Val.abs (Val.sub last.1 x) := by
        intro l; rw [List.map_map]; rfl
      rw [this, this, hm]
  · intro j hj h h'
    simp only [List.getElem_zip]
    have := h2 j hj
    rw [List.getElem?_eq_getElem (by simp at h; omega), List.getElem?_eq_getElem (by simp at h'; omega)] at this
    exact Option.some.inj this

theorem ProjectionBands.recent (pick : Val → Val → Val) {p : ℕ} (hp : 1 ≤ p) {ys xs vs us : List Val} (h1 : Recent k m ys xs)
    (h2 : Recent k n vs us) :
    Recent k (max (m + (p - 1)) (max m n)) (band pick p ys vs) (band pick p xs us) := by
  unfold band
  apply Recent.prefixMap_last (fun r : Val × Val => r.1) _ p hp _ _ (h1.zip h2)
  · intro a b l l' hl hl' hm hlast
    simp only [List.length_append, hl, hl', if_neg (show ¬ a.length + p < p by omega), if_neg (show ¬ b.length + p < p by omega),
      List.reverse_append]
    have hl2 : l.reverse.length = p := by simp [hl]
    have hl2' : l'.reverse.length = p := by simp [hl']
    rw [← List.head?_reverse, ← List.head?_reverse] at hlast
    have hm2 : l.reverse.map (fun r => r.1) = l'.reverse.map fun r => r.1 := by
      rw [List.map_reverse, List.map_reverse, hm]
    generalize l.reverse = r at *
    generalize l'.reverse = r' at *
    cases r with
    | nil => simp at hl2; omega
    | cons c r =>
      cases r' with
      | nil => simp at hl2'; omega
      | cons c' r' =>
        simp only [List.head?_cons, Option.some.injEq] at hlast
        subst hlast
        simp only [List.map_cons, List.cons.injEq, true_and] at hm2
        simp only [List.length_cons] at hl2 hl2'
        simp only [List.cons_append]
        rw [List.take_append_of_le_length (by omega), List.take_append_of_le_length (by omega),
          List.take_of_length_le (by omega), List.take_of_length_le (by omega), hm2]
  · intro j hj h h'
    simp only [List.getElem_zip]
    have := h1 j hj
    rw [List.getElem?_eq_getElem (by simp at h; omega), List.getElem?_eq_getElem (by simp at h'; omega)] at this
    exact Option.some.inj this

theorem UltimateOscillator.recent {w : ℕ} (hw : 1 ≤ w) {ys xs vs us : List Val} (h1 : Recent k m ys xs) (h2 : Recent k n vs us) :
    Recent k (max (m + (w - 1)) (n + (w - 1))) (ratio w ys vs) (ratio w xs us) :=
  (h1.rolling w w hw aggSum).divS (h2.rolling w w hw aggSum)

theorem moneyFlowVolume_recent (F : Frame) (k : ℕ) : Recent k 0 (moneyFlowVolume (F.drop k)) (moneyFlowVolume F) := by
  have h : ∀ n : String, Recent k 0 ((F.drop k).col n) (F.col n) := fun n => by rw [Frame.drop_col]; exact Recent.drop k _
  exact ((h _).mulS (((h _).subS (h _)).subS ((h _).subS (h _)))).divS ((h _).subS (h _))

theorem IchimokuCloud.recent (F : Frame) (k w : ℕ) (hw : 1 ≤ w) : Recent k (w - 1) (middle w (F.drop k)) (middle w F) := by
  have h : ∀ n : String, Recent k 0 ((F.drop k).col n) (F.col n) := fun n => by rw [Frame.drop_col]; exact Recent.drop k _
  have := (((h "high").rolling w 1 hw aggMax).addS ((h "low").rolling w 1 hw aggMin)).map fun x => Val.div x 2
  rw [Nat.zero_add, Nat.max_self] at this
  exact this

end Ind

end TTI
