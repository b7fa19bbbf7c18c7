import Verif.Lemmas.Num

set_option autoImplicit false

/-!
# Rolling windows, exponential and Wilder averages: bounds and relations between columns
-/

namespace TTI

/-! ## Windows -/

theorem window_take (w : ℕ) (xs : List Val) (i : ℕ) (h : i < xs.length) :
    window w (xs.take (i + 1)) = (List.range (min w (i + 1))).map fun t => val xs (i + 1 - w + t) := by
  have hl : (xs.take (i + 1)).length = i + 1 := by rw [List.length_take]; omega
  unfold window
  rw [hl]
  apply List.ext_getElem
  · simp; omega
  · intro n h1 h2
    simp only [List.length_drop, hl] at h1
    rw [List.getElem_drop, List.getElem_take, List.getElem_map, List.getElem_range, val_lt]

theorem mem_finVals (xs : List Val) (q : ℚ) : q ∈ finVals xs ↔ Val.fin q ∈ xs := by
  unfold finVals
  rw [List.mem_filterMap]
  constructor
  · rintro ⟨a, ha, h⟩
    cases a <;> simp at h
    subst h; exact ha
  · intro h; exact ⟨_, h, rfl⟩

theorem finVals_length_le (xs : List Val) : (finVals xs).length ≤ xs.length := List.length_filterMap_le _ _

theorem finVals_full (xs : List Val) (h : xs.length ≤ (finVals xs).length) : xs = (finVals xs).map Val.fin := by
  induction xs with
  | nil => rfl
  | cons a l ih =>
    have hl := finVals_length_le l
    cases a with
    | fin q =>
      have e : finVals (Val.fin q :: l) = q :: finVals l := rfl
      rw [e, List.map_cons, ← ih (by rw [e] at h; simpa using h)]
    | nan => have e : finVals (Val.nan :: l) = finVals l := rfl
             rw [e] at h; simp at h; omega
    | pinf => have e : finVals (Val.pinf :: l) = finVals l := rfl
              rw [e] at h; simp at h; omega
    | ninf => have e : finVals (Val.ninf :: l) = finVals l := rfl
              rw [e] at h; simp at h; omega

theorem finVals_map_fin (v : List ℚ) : finVals (v.map Val.fin) = v := by
  induction v with
  | nil => rfl
  | cons a l ih => simp only [List.map_cons]; exact congrArg (a :: ·) ih

/-- The value of a rolling aggregation at a row. -/
theorem val_rolling (w m : ℕ) (agg : List ℚ → Val) (xs : List Val) (i : ℕ) (h : i < xs.length) :
    val (rolling w m agg xs) i =
      if m ≤ (finVals ((List.range (min w (i + 1))).map fun t => val xs (i + 1 - w + t))).length
      then agg (finVals ((List.range (min w (i + 1))).map fun t => val xs (i + 1 - w + t))) else .nan := by
  unfold rolling
  rw [val_prefixMap _ _ _ h, window_take w xs i h]

/-- A rolling aggregation over numbers. -/
theorem val_rolling_fin (w m : ℕ) (agg : List ℚ → Val) (xs : List Val) (f : ℕ → ℚ) (i : ℕ) (h : i < xs.length)
    (hf : ∀ j, i < j + w → j ≤ i → val xs j = .fin (f j)) :
    val (rolling w m agg xs) i =
      if m ≤ min w (i + 1) then agg ((List.range (min w (i + 1))).map fun t => f (i + 1 - w + t)) else .nan := by
  rw [val_rolling w m agg xs i h]
  have e : (List.range (min w (i + 1))).map (fun t => val xs (i + 1 - w + t)) =
      ((List.range (min w (i + 1))).map fun t => f (i + 1 - w + t)).map Val.fin := by
    rw [List.map_map]
    apply List.map_congr_left
    intro t ht
    rw [List.mem_range] at ht
    exact hf _ (by omega) (by omega)
  rw [e, finVals_map_fin]
  simp

/-- A full rolling window is missing, or an aggregation of the numbers in it. -/
theorem rolling_full_cases (w : ℕ) (agg : List ℚ → Val) (xs : List Val) (i : ℕ) (h : i < xs.length) :
    val (rolling w w agg xs) i = .nan ∨
    (w ≤ i + 1 ∧ ∃ f : ℕ → ℚ, (∀ j, i < j + w → j ≤ i → val xs j = .fin (f j)) ∧
      val (rolling w w agg xs) i = agg ((List.range w).map fun t => f (i + 1 - w + t))) := by
  rw [val_rolling w w agg xs i h]
  set ws := (List.range (min w (i + 1))).map fun t => val xs (i + 1 - w + t) with hws
  by_cases hw : w ≤ (finVals ws).length
  · right
    have hlen : ws.length = min w (i + 1) := by simp [hws]
    have hle := finVals_length_le ws
    have hwi : w ≤ i + 1 := by omega
    have hfull := finVals_full ws (by omega)
    refine ⟨hwi, fun j => (finVals ws).getD (j - (i + 1 - w)) 0, ?_, ?_⟩
    · intro j h1 h2
      have hj : j - (i + 1 - w) < ws.length := by omega
      have hj2 : j - (i + 1 - w) < (finVals ws).length := by omega
      have e1 : ws[j - (i + 1 - w)] = val xs j := by
        simp only [hws, List.getElem_map, List.getElem_range]
        congr 1; omega
      have e2 : ws[j - (i + 1 - w)] = Val.fin ((finVals ws)[j - (i + 1 - w)]) := by
        have := congrArg (fun l => l[j - (i + 1 - w)]?) hfull
        simp only [List.getElem?_map] at this
        rw [List.getElem?_eq_getElem hj, List.getElem?_eq_getElem hj2] at this
        simpa using this
      rw [← e1, e2]
      show _ = Val.fin ((finVals ws).getD _ 0)
      rw [List.getD_eq_getElem _ _ hj2]
    · rw [if_pos hw]
      congr 1
      apply List.ext_getElem
      · simp; omega
      · intro n h1 h2
        rw [List.getElem_map, List.getElem_range]
        show _ = (finVals ws).getD _ 0
        rw [List.getD_eq_getElem _ _ (by omega)]
        congr 1; omega
  · left; rw [if_neg hw]

/-! ## Sums -/

/-- A relation that is kept by sums. -/
structure Additive (Q : ℚ → ℚ → Prop) : Prop where
  zero : Q 0 0
  add : ∀ a b c d, Q a b → Q c d → Q (a + c) (b + d)

theorem Additive.sum {Q : ℚ → ℚ → Prop} (hQ : Additive Q) (f g : ℕ → ℚ) (l : List ℕ) (h : ∀ t ∈ l, Q (f t) (g t)) :
    Q (l.map f).sum (l.map g).sum := by
  induction l with
  | nil => exact hQ.zero
  | cons a l ih =>
    simp only [List.map_cons, List.sum_cons]
    exact hQ.add _ _ _ _ (h a (by simp)) (ih fun t ht => h t (by simp [ht]))

theorem additive_unit : Additive fun a b => 0 ≤ a ∧ a ≤ b :=
  ⟨⟨le_refl _, le_refl _⟩, fun _ _ _ _ h1 h2 => ⟨add_nonneg h1.1 h2.1, add_le_add h1.2 h2.2⟩⟩

theorem additive_abs : Additive fun a b => |a| ≤ b :=
  ⟨by simp, fun a b c d h1 h2 => (abs_add_le a c).trans (add_le_add h1 h2)⟩

theorem additive_nonneg : Additive fun a b => 0 ≤ a ∧ 0 ≤ b :=
  ⟨⟨le_refl _, le_refl _⟩, fun _ _ _ _ h1 h2 => ⟨add_nonneg h1.1 h2.1, add_nonneg h1.2 h2.2⟩⟩

/-- Rolling sums of two columns that are row by row in an additive relation. -/
theorem rolling_sum_sat2 {Q : ℚ → ℚ → Prop} (hQ : Additive Q) (w : ℕ) (xs ys : List Val) (i : ℕ) (hx : i < xs.length)
    (hy : i < ys.length) (h : ∀ j ≤ i, Val.Sat2 Q (val xs j) (val ys j)) :
    Val.Sat2 Q (val (rolling w w aggSum xs) i) (val (rolling w w aggSum ys) i) := by
  rcases rolling_full_cases w aggSum xs i hx with h1 | ⟨hw, f, hf, h1⟩
  · rw [h1]
    rcases rolling_full_cases w aggSum ys i hy with h2 | ⟨_, g, hg, h2⟩
    · rw [h2]; simp
    · rw [h2]; simp [aggSum]
  · rcases rolling_full_cases w aggSum ys i hy with h2 | ⟨_, g, hg, h2⟩
    · rw [h1, h2]; simp [aggSum]
    · rw [h1, h2]
      simp only [aggSum, Val.sat2_fin]
      have := hQ.sum (fun t => f (i + 1 - w + t)) (fun t => g (i + 1 - w + t)) (List.range w) ?_
      · exact this
      · intro t ht
        rw [List.mem_range] at ht
        have := h (i + 1 - w + t) (by omega)
        rwa [hf _ (by omega) (by omega), hg _ (by omega) (by omega)] at this

theorem rolling_sum_nonneg (w : ℕ) (xs : List Val) (i : ℕ) (hx : i < xs.length)
    (h : ∀ j ≤ i, Val.Sat (fun q => 0 ≤ q) (val xs j)) :
    Val.Sat (fun q => 0 ≤ q) (val (rolling w w aggSum xs) i) := by
  have := rolling_sum_sat2 additive_nonneg w xs xs i hx hx fun j hj => Val.Sat2.of_sat (h j hj) (h j hj)
  revert this
  cases val (rolling w w aggSum xs) i <;> intro this
  · trivial
  · exact this
  · exact this
  · exact this.1

/-! ## Means -/

theorem sum_between {lo hi : ℚ} (v : List ℚ) (h : ∀ q ∈ v, lo ≤ q ∧ q ≤ hi) : v.length * lo ≤ v.sum ∧ v.sum ≤ v.length * hi := by
  induction v with
  | nil => simp
  | cons a l ih =>
    have h1 := h a (by simp)
    have h2 := ih fun q hq => h q (by simp [hq])
    simp only [List.length_cons, List.sum_cons]
    push_cast
    constructor <;> linarith [h1.1, h1.2, h2.1, h2.2]

theorem mean_between {lo hi : ℚ} (v : List ℚ) (hv : v ≠ []) (h : ∀ q ∈ v, lo ≤ q ∧ q ≤ hi) :
    lo ≤ v.sum / v.length ∧ v.sum / v.length ≤ hi := by
  have hl : (0 : ℚ) < v.length := by exact_mod_cast List.length_pos_iff.2 hv
  have hb := sum_between v h
  rw [le_div_iff₀ hl, div_le_iff₀ hl]
  constructor <;> linarith [hb.1, hb.2]

theorem aggMean_sat {lo hi : ℚ} (v : List ℚ) (h : ∀ q ∈ v, lo ≤ q ∧ q ≤ hi) :
    Val.Sat (fun q => lo ≤ q ∧ q ≤ hi) (aggMean v) := by
  unfold aggMean
  split
  · trivial
  · next hv => exact mean_between v hv h

/-- The value of a rolling aggregation is NaN or the aggregation of some numbers found in the column up to the row. -/
theorem rolling_sat (P P' : ℚ → Prop) (w m : ℕ) (agg : List ℚ → Val) (xs : List Val) (i : ℕ) (hx : i < xs.length)
    (h : ∀ j ≤ i, Val.Sat P (val xs j)) (ha : ∀ v : List ℚ, (∀ q ∈ v, P q) → Val.Sat P' (agg v)) :
    Val.Sat P' (val (rolling w m agg xs) i) := by
  rw [val_rolling w m agg xs i hx]
  split
  · apply ha
    intro q hq
    rw [mem_finVals, List.mem_map] at hq
    obtain ⟨t, ht, h2⟩ := hq
    rw [List.mem_range] at ht
    have := h (i + 1 - w + t) (by omega)
    rwa [h2] at this
  · trivial

theorem rolling_mean_between {lo hi : ℚ} (w m : ℕ) (xs : List Val) (i : ℕ) (hx : i < xs.length)
    (h : ∀ j ≤ i, Val.Sat (fun q => lo ≤ q ∧ q ≤ hi) (val xs j)) :
    Val.Sat (fun q => lo ≤ q ∧ q ≤ hi) (val (rolling w m aggMean xs) i) :=
  rolling_sat _ _ w m aggMean xs i hx h aggMean_sat

/-! ## Extremes -/

theorem foldl_max_spec (l : List ℚ) (a : ℚ) : a ≤ l.foldl max a ∧ (∀ q ∈ l, q ≤ l.foldl max a) ∧
    (l.foldl max a = a ∨ l.foldl max a ∈ l) := by
  induction l generalizing a with
  | nil => simp
  | cons b l ih =>
    simp only [List.foldl_cons]
    obtain ⟨h1, h2, h3⟩ := ih (max a b)
    refine ⟨(le_max_left a b).trans h1, ?_, ?_⟩
    · intro q hq
      rcases List.mem_cons.1 hq with rfl | hq
      · exact (le_max_right a q).trans h1
      · exact h2 q hq
    · rcases h3 with h3 | h3
      · rw [h3]
        rcases max_choice a b with h | h
        · left; exact h
        · right; rw [h]; simp
      · right; simp [h3]

theorem foldl_min_spec (l : List ℚ) (a : ℚ) : l.foldl min a ≤ a ∧ (∀ q ∈ l, l.foldl min a ≤ q) ∧
    (l.foldl min a = a ∨ l.foldl min a ∈ l) := by
  induction l generalizing a with
  | nil => simp
  | cons b l ih =>
    simp only [List.foldl_cons]
    obtain ⟨h1, h2, h3⟩ := ih (min a b)
    refine ⟨h1.trans (min_le_left a b), ?_, ?_⟩
    · intro q hq
      rcases List.mem_cons.1 hq with rfl | hq
      · exact h1.trans (min_le_right a q)
      · exact h2 q hq
    · rcases h3 with h3 | h3
      · rw [h3]
        rcases min_choice a b with h | h
        · left; exact h
        · right; rw [h]; simp
      · right; simp [h3]

theorem aggMax_spec (v : List ℚ) (hv : v ≠ []) : ∃ m, aggMax v = .fin m ∧ m ∈ v ∧ ∀ q ∈ v, q ≤ m := by
  cases v with
  | nil => exact absurd rfl hv
  | cons a l =>
    obtain ⟨h1, h2, h3⟩ := foldl_max_spec l a
    refine ⟨_, rfl, ?_, ?_⟩
    · rcases h3 with h3 | h3
      · rw [h3]; simp
      · simp [h3]
    · intro q hq
      rcases List.mem_cons.1 hq with rfl | hq
      · exact h1
      · exact h2 q hq

theorem aggMin_spec (v : List ℚ) (hv : v ≠ []) : ∃ m, aggMin v = .fin m ∧ m ∈ v ∧ ∀ q ∈ v, m ≤ q := by
  cases v with
  | nil => exact absurd rfl hv
  | cons a l =>
    obtain ⟨h1, h2, h3⟩ := foldl_min_spec l a
    refine ⟨_, rfl, ?_, ?_⟩
    · rcases h3 with h3 | h3
      · rw [h3]; simp
      · simp [h3]
    · intro q hq
      rcases List.mem_cons.1 hq with rfl | hq
      · exact h1
      · exact h2 q hq

/-- The highest value of a full window of numbers. -/
theorem val_rolling_max (w : ℕ) (hw : 1 ≤ w) (xs : List Val) (f : ℕ → ℚ) (i : ℕ) (h : i < xs.length)
    (hf : ∀ j ≤ i, val xs j = .fin (f j)) :
    (i + 1 < w ∧ val (rolling w w aggMax xs) i = .nan) ∨
    (w ≤ i + 1 ∧ ∃ m, val (rolling w w aggMax xs) i = .fin m ∧ (∃ j, i < j + w ∧ j ≤ i ∧ m = f j) ∧
      ∀ j, i < j + w → j ≤ i → f j ≤ m) := by
  rw [val_rolling_fin w w aggMax xs f i h fun j _ h2 => hf j h2]
  by_cases hi : w ≤ i + 1
  · right
    refine ⟨hi, ?_⟩
    have e : min w (i + 1) = w := by omega
    rw [e, if_pos (le_refl _)]
    obtain ⟨m, h1, h2, h3⟩ := aggMax_spec ((List.range w).map fun t => f (i + 1 - w + t)) (by simp; omega)
    refine ⟨m, h1, ?_, ?_⟩
    · rw [List.mem_map] at h2
      obtain ⟨t, ht, rfl⟩ := h2
      rw [List.mem_range] at ht
      exact ⟨i + 1 - w + t, by omega, by omega, rfl⟩
    · intro j h4 h5
      apply h3
      rw [List.mem_map]
      exact ⟨j - (i + 1 - w), by rw [List.mem_range]; omega, by congr 1; omega⟩
  · left
    exact ⟨by omega, by rw [if_neg]; omega⟩

/-- The lowest value of a full window of numbers. -/
theorem val_rolling_min (w : ℕ) (hw : 1 ≤ w) (xs : List Val) (f : ℕ → ℚ) (i : ℕ) (h : i < xs.length)
    (hf : ∀ j ≤ i, val xs j = .fin (f j)) :
    (i + 1 < w ∧ val (rolling w w aggMin xs) i = .nan) ∨
    (w ≤ i + 1 ∧ ∃ m, val (rolling w w aggMin xs) i = .fin m ∧ (∃ j, i < j + w ∧ j ≤ i ∧ m = f j) ∧
      ∀ j, i < j + w → j ≤ i → m ≤ f j) := by
  rw [val_rolling_fin w w aggMin xs f i h fun j _ h2 => hf j h2]
  by_cases hi : w ≤ i + 1
  · right
    refine ⟨hi, ?_⟩
    have e : min w (i + 1) = w := by omega
    rw [e, if_pos (le_refl _)]
    obtain ⟨m, h1, h2, h3⟩ := aggMin_spec ((List.range w).map fun t => f (i + 1 - w + t)) (by simp; omega)
    refine ⟨m, h1, ?_, ?_⟩
    · rw [List.mem_map] at h2
      obtain ⟨t, ht, rfl⟩ := h2
      rw [List.mem_range] at ht
      exact ⟨i + 1 - w + t, by omega, by omega, rfl⟩
    · intro j h4 h5
      apply h3
      rw [List.mem_map]
      exact ⟨j - (i + 1 - w), by rw [List.mem_range]; omega, by congr 1; omega⟩
  · left
    exact ⟨by omega, by rw [if_neg]; omega⟩

/-! ## Exponential averages -/

/-- A relation that is kept by weighted means. -/
def Convex (Q : ℚ → ℚ → Prop) : Prop :=
  ∀ a b c d s t, Q a b → Q c d → 0 ≤ s → 0 ≤ t → s + t = 1 → Q (s * a + t * c) (s * b + t * d)

theorem convex_between (lo hi : ℚ) : Convex fun a b => (lo ≤ a ∧ a ≤ hi) ∧ a = b := by
  rintro a b c d s t ⟨h1, rfl⟩ ⟨h2, rfl⟩ hs ht hst
  have e : t = 1 - s := by linarith
  subst e
  refine ⟨⟨?_, ?_⟩, rfl⟩ <;> nlinarith [h1.1, h1.2, h2.1, h2.2]

theorem convex_abs (k : ℚ) : Convex fun a b => |a| ≤ k * b := by
  intro a b c d s t h1 h2 hs ht _
  rw [abs_le] at *
  constructor <;> nlinarith [mul_nonneg hs (sub_nonneg.2 h1.1), mul_nonneg hs (sub_nonneg.2 h1.2),
    mul_nonneg ht (sub_nonneg.2 h2.1), mul_nonneg ht (sub_nonneg.2 h2.2)]

/-- Two states of the loop with equal weights whose means are in the relation. -/
def EwmRel (Q : ℚ → ℚ → Prop) (s t : EwmState) : Prop :=
  s.nobs = t.nobs ∧
  match s.mean, t.mean with
  | none, none => True
  | some (w, o), some (w', o') => Q w w' ∧ o = o' ∧ 0 ≤ o ∧ o ≤ 1
  | _, _ => False

theorem ewm_mix (w c o' n : ℚ) (h : o' + n ≠ 0) :
    (if w = c then w else (o' * w + n * c) / (o' + n)) = o' / (o' + n) * w + n / (o' + n) * c := by
  split
  · next e => subst e; field_simp
  · field_simp

theorem ewmStep_rel {Q : ℚ → ℚ → Prop} (hQ : Convex Q) (a : ℚ) (ha : 0 < a) (ha1 : a ≤ 1) (s t : EwmState) (x y : Val)
    (hst : EwmRel Q s t) (hxy : Val.Both Q x y) : EwmRel Q (ewmStep a s x) (ewmStep a t y) := by
  obtain ⟨ms, ns⟩ := s
  obtain ⟨mt, nt⟩ := t
  obtain ⟨hn, hm⟩ := hst
  simp only at hn hm
  subst hn
  rcases ms with _ | ⟨w, o⟩ <;> rcases mt with _ | ⟨w', o'⟩
  · rcases hxy.cases with ⟨rfl, rfl⟩ | ⟨c, d, rfl, rfl, hcd⟩
    · exact ⟨rfl, trivial⟩
    · exact ⟨rfl, hcd, rfl, by norm_num, le_refl _⟩
  · exact False.elim hm
  · exact False.elim hm
  · obtain ⟨hw, rfl, h0, h1⟩ := hm
    have hp : 0 ≤ o * (1 - a) := mul_nonneg h0 (by linarith)
    have hp1 : o * (1 - a) ≤ 1 := by nlinarith
    rcases hxy.cases with ⟨rfl, rfl⟩ | ⟨c, d, rfl, rfl, hcd⟩
    · exact ⟨rfl, hw, rfl, hp, hp1⟩
    · simp only [ewmStep]
      have hn : 0 < (if a = 1 / 2 then 1 - o * (1 - a) else a) := by
        split
        · next e => rw [e]; nlinarith
        · exact ha
      set n := (if a = 1 / 2 then 1 - o * (1 - a) else a) with hn'
      have hs : 0 < o * (1 - a) + n := by linarith
      refine ⟨rfl, ?_, rfl, by norm_num, le_refl _⟩
      rw [ewm_mix _ _ _ _ hs.ne', ewm_mix _ _ _ _ hs.ne']
      exact hQ _ _ _ _ _ _ hw hcd (div_nonneg hp hs.le) (div_nonneg hn.le hs.le) (by field_simp)

theorem ewm_foldl_rel {Q : ℚ → ℚ → Prop} (hQ : Convex Q) (a : ℚ) (ha : 0 < a) (ha1 : a ≤ 1) (xs ys : List Val)
    (h : List.Forall₂ (Val.Both Q) xs ys) (s t : EwmState) (hst : EwmRel Q s t) :
    EwmRel Q (xs.foldl (ewmStep a) s) (ys.foldl (ewmStep a) t) := by
  induction h generalizing s t with
  | nil => exact hst
  | cons hxy _ ih => exact ih _ _ (ewmStep_rel hQ a ha ha1 s t _ _ hst hxy)

theorem forall₂_take_of_val {R : Val → Val → Prop} (xs ys : List Val) (i : ℕ) (hx : i < xs.length) (hy : i < ys.length)
    (h : ∀ j ≤ i, R (val xs j) (val ys j)) : List.Forall₂ R (xs.take (i + 1)) (ys.take (i + 1)) := by
  rw [List.forall₂_iff_get]
  refine ⟨by simp only [List.length_take]; omega, ?_⟩
  intro n h1 h2
  rw [List.length_take] at h1
  have := h n (by omega)
  rw [val_lt _ _ (by omega), val_lt _ _ (by omega)] at this
  simpa using this

theorem ewmAlpha_both {Q : ℚ → ℚ → Prop} (hQ : Convex Q) (a : ℚ) (ha : 0 < a) (ha1 : a ≤ 1) (m : ℕ) (xs ys : List Val)
    (i : ℕ) (hx : i < xs.length) (hy : i < ys.length) (h : ∀ j ≤ i, Val.Both Q (val xs j) (val ys j)) :
    Val.Both Q (val (ewmAlpha a m xs) i) (val (ewmAlpha a m ys) i) := by
  unfold ewmAlpha
  rw [val_prefixMap _ _ _ hx, val_prefixMap _ _ _ hy]
  have := ewm_foldl_rel hQ a ha ha1 _ _ (forall₂_take_of_val xs ys i hx hy h) ⟨none, 0⟩ ⟨none, 0⟩ ⟨rfl, trivial⟩
  simp only
  revert this
  generalize (xs.take (i + 1)).foldl (ewmStep a) ⟨none, 0⟩ = s
  generalize (ys.take (i + 1)).foldl (ewmStep a) ⟨none, 0⟩ = t
  rcases s with ⟨ms, ns⟩
  rcases t with ⟨mt, nt⟩
  rintro ⟨hn, hm⟩
  simp only at hn hm ⊢
  subst hn
  split
  · rcases ms with _ | ⟨w, o⟩ <;> rcases mt with _ | ⟨w', o'⟩
    · trivial
    · exact False.elim hm
    · exact False.elim hm
    · exact hm.1
  · trivial

theorem ewm_alpha_bounds (s : ℕ) (hs : 1 ≤ s) : (0 : ℚ) < 2 / ((s : ℚ) + 1) ∧ 2 / ((s : ℚ) + 1) ≤ 1 := by
  have h : (1 : ℚ) ≤ s := by exact_mod_cast hs
  constructor
  · positivity
  · rw [div_le_one (by linarith)]; linarith

theorem ewm_both {Q : ℚ → ℚ → Prop} (hQ : Convex Q) (s m : ℕ) (hs : 1 ≤ s) (xs ys : List Val)
    (i : ℕ) (hx : i < xs.length) (hy : i < ys.length) (h : ∀ j ≤ i, Val.Both Q (val xs j) (val ys j)) :
    Val.Both Q (val (ewm s m xs) i) (val (ewm s m ys) i) :=
  ewmAlpha_both hQ _ (ewm_alpha_bounds s hs).1 (ewm_alpha_bounds s hs).2 m xs ys i hx hy h

theorem Val.Both.sat_left {P : ℚ → Prop} {x y : Val} (h : Val.Both (fun a b => P a ∧ a = b) x y) : Val.Sat P x := by
  cases x <;> cases y <;> first | exact False.elim h | trivial | exact h.1

theorem ewmAlpha_between {lo hi : ℚ} (a : ℚ) (ha : 0 < a) (ha1 : a ≤ 1) (m : ℕ) (xs : List Val)
    (i : ℕ) (hx : i < xs.length) (h : ∀ j ≤ i, Val.Sat (fun q => lo ≤ q ∧ q ≤ hi) (val xs j)) :
    Val.Sat (fun q => lo ≤ q ∧ q ≤ hi) (val (ewmAlpha a m xs) i) :=
  (ewmAlpha_both (convex_between lo hi) a ha ha1 m xs xs i hx hx fun j hj => (h j hj).both).sat_left

theorem ewm_between {lo hi : ℚ} (s m : ℕ) (hs : 1 ≤ s) (xs : List Val)
    (i : ℕ) (hx : i < xs.length) (h : ∀ j ≤ i, Val.Sat (fun q => lo ≤ q ∧ q ≤ hi) (val xs j)) :
    Val.Sat (fun q => lo ≤ q ∧ q ≤ hi) (val (ewm s m xs) i) :=
  ewmAlpha_between _ (ewm_alpha_bounds s hs).1 (ewm_alpha_bounds s hs).2 m xs i hx h

theorem convex_nonneg : Convex fun a b => 0 ≤ a ∧ a = b := by
  rintro a b c d s t ⟨h1, rfl⟩ ⟨h2, rfl⟩ hs ht _
  exact ⟨add_nonneg (mul_nonneg hs h1) (mul_nonneg ht h2), rfl⟩

theorem ewmAlpha_nonneg (a : ℚ) (ha : 0 < a) (ha1 : a ≤ 1) (m : ℕ) (xs : List Val)
    (i : ℕ) (hx : i < xs.length) (h : ∀ j ≤ i, Val.Sat (fun q => 0 ≤ q) (val xs j)) :
    Val.Sat (fun q => 0 ≤ q) (val (ewmAlpha a m xs) i) :=
  (ewmAlpha_both convex_nonneg a ha ha1 m xs xs i hx hx fun j hj => (h j hj).both).sat_left

/-! ## Sums and means that skip missing values -/

/-- A property kept by weighted means. -/
def ConvexP (P : ℚ → Prop) : Prop := ∀ a b s t, P a → P b → 0 ≤ s → 0 ≤ t → s + t = 1 → P (s * a + t * b)

theorem convexP_between (lo hi : ℚ) : ConvexP fun q => lo ≤ q ∧ q ≤ hi := by
  rintro a b s t h1 h2 hs ht hst
  have e : t = 1 - s := by linarith
  subst e
  constructor <;> nlinarith [h1.1, h1.2, h2.1, h2.2]

theorem convexP_nonneg : ConvexP fun q => 0 ≤ q :=
  fun _ _ _ _ h1 h2 hs ht _ => add_nonneg (mul_nonneg hs h1) (mul_nonneg ht h2)

theorem foldl_add_fin (v : List ℚ) (a : ℚ) : (v.map Val.fin).foldl Val.add (.fin a) = .fin (a + v.sum) := by
  induction v generalizing a with
  | nil => simp
  | cons b l ih => simp only [List.map_cons, List.foldl_cons, List.sum_cons, Val.fin_add]; rw [ih]; congr 1; ring

theorem known_sat {P : ℚ → Prop} (xs : List Val) (h : ∀ x ∈ xs, Val.Sat P x) :
    ∃ v : List ℚ, (xs.filter fun x => !x.isNan) = v.map Val.fin ∧ (∀ q ∈ v, P q) ∧ v.length ≤ xs.length ∧
      (∀ q ∈ v, Val.fin q ∈ xs) := by
  induction xs with
  | nil => exact ⟨[], rfl, by simp, by simp, by simp⟩
  | cons x l ih =>
    obtain ⟨v, h1, h2, h3, h4⟩ := ih fun y hy => h y (by simp [hy])
    rcases (h x (by simp)).cases with rfl | ⟨q, rfl, hq⟩
    · exact ⟨v, by simpa [Val.isNan] using h1, h2, by simp; omega, fun q hq => by simp [h4 q hq]⟩
    · refine ⟨q :: v, by rw [List.filter_cons_of_pos (by rfl), h1, List.map_cons], ?_, by simp; omega, ?_⟩
      · intro r hr
        rcases List.mem_cons.1 hr with rfl | hr
        · exact hq
        · exact h2 r hr
      · intro r hr
        rcases List.mem_cons.1 hr with rfl | hr
        · simp
        · simp [h4 r hr]

theorem sumSkip_sat {P : ℚ → Prop} (xs : List Val) (h : ∀ x ∈ xs, Val.Sat P x) :
    ∃ v : List ℚ, sumSkip xs = .fin v.sum ∧ (∀ q ∈ v, P q) ∧ v.length ≤ xs.length ∧ (∀ q ∈ v, Val.fin q ∈ xs) := by
  obtain ⟨v, h1, h2, h3, h4⟩ := known_sat xs h
  refine ⟨v, ?_, h2, h3, h4⟩
  unfold sumSkip
  rw [h1]
  show (v.map Val.fin).foldl Val.add (.fin ((0 : ℕ) : ℚ)) = _
  rw [foldl_add_fin]; simp

theorem convexP_mean {P : ℚ → Prop} (hP : ConvexP P) (v : List ℚ) (hv : v ≠ []) (h : ∀ q ∈ v, P q) :
    P (v.sum / v.length) := by
  induction v with
  | nil => exact absurd rfl hv
  | cons a l ih =>
    rcases l.eq_nil_or_concat with rfl | _
    · simpa using h a (by simp)
    · have hl : l ≠ [] := by rintro rfl; simp_all
      have hl0 : (0 : ℚ) < l.length := by exact_mod_cast List.length_pos_iff.2 hl
      have := hP a (l.sum / l.length) (1 / (l.length + 1)) (l.length / (l.length + 1)) (h a (by simp))
        (ih hl fun q hq => h q (by simp [hq])) (by positivity) (by positivity) (by field_simp; ring)
      have e : (a :: l).sum / ((a :: l).length : ℚ) =
          1 / (l.length + 1) * a + l.length / (l.length + 1) * (l.sum / l.length) := by
        simp only [List.sum_cons, List.length_cons]; push_cast; field_simp
      rw [e]; exact this

theorem meanSkip_sat {P : ℚ → Prop} (hP : ConvexP P) (xs : List Val) (h : ∀ x ∈ xs, Val.Sat P x) :
    Val.Sat P (meanSkip xs) := by
  obtain ⟨v, h1, h2, -, -⟩ := known_sat xs h
  unfold meanSkip
  simp only [h1]
  split
  · trivial
  · next hv =>
    have hv' : v ≠ [] := by rintro rfl; simp at hv
    have hl : (v.length : ℚ) ≠ 0 := by
      have : v.length ≠ 0 := fun h => hv' (List.length_eq_zero_iff.1 h)
      exact_mod_cast this
    have e : (v.map Val.fin).foldl Val.add (0 : Val) = .fin v.sum := by
      show (v.map Val.fin).foldl Val.add (.fin ((0 : ℕ) : ℚ)) = _
      rw [foldl_add_fin]; simp
    rw [e]
    simp only [List.length_map]
    rw [Val.fin_div _ _ hl]
    exact convexP_mean hP v hv' h2

/-! ## Wilder's smoothing -/

theorem wilder_step_sat {P : ℚ → Prop} (hP : ConvexP P) (p : ℕ) (hp : 1 ≤ p) (prev x : Val) (h1 : Val.Sat P prev)
    (h2 : Val.Sat P x) : Val.Sat P (Val.add prev (Val.div (Val.sub x prev) (.fin p))) := by
  have hp0 : (1 : ℚ) ≤ p := by exact_mod_cast hp
  rcases h1.cases with rfl | ⟨a, rfl, ha⟩
  · simp
  · rcases h2.cases with rfl | ⟨b, rfl, hb⟩
    · simp
    · rw [Val.fin_sub, Val.fin_div _ _ (by linarith), Val.fin_add]
      have := hP a b (1 - 1 / p) (1 / p) ha hb (by rw [sub_nonneg, div_le_one (by linarith)]; exact hp0) (by positivity)
        (by ring)
      have e : a + (b - a) / p = (1 - 1 / (p : ℚ)) * a + 1 / p * b := by ring
      rw [Val.sat_fin, e]; exact this

theorem foldl_sat {P : ℚ → Prop} (step : Val → Val → Val)
    (hs : ∀ prev x, Val.Sat P prev → Val.Sat P x → Val.Sat P (step prev x)) (xs : List Val) (h : ∀ x ∈ xs, Val.Sat P x)
    (init : Val) (hi : Val.Sat P init) : Val.Sat P (xs.foldl step init) := by
  induction xs generalizing init with
  | nil => exact hi
  | cons x l ih => exact ih (fun y hy => h y (by simp [hy])) _ (hs _ _ hi (h x (by simp)))

theorem wilder_sat {P : ℚ → Prop} (hP : ConvexP P) (skip p : ℕ) (hp : 1 ≤ p) (xs : List Val) (i : ℕ) (hx : i < xs.length)
    (h : ∀ j ≤ i, Val.Sat P (val xs j)) : Val.Sat P (val (wilder skip p xs) i) := by
  unfold wilder
  rw [val_prefixMap _ _ _ hx]
  have hmem : ∀ x ∈ xs.take (i + 1), Val.Sat P x := by
    intro x hx
    obtain ⟨j, hj, -, rfl⟩ := mem_take_val hx
    exact h j hj
  split
  · trivial
  · exact foldl_sat _ (wilder_step_sat hP p hp) _ (fun x hx => hmem x (List.mem_of_mem_drop hx)) _
      (meanSkip_sat hP _ fun x hx => hmem x (List.mem_of_mem_drop (List.mem_of_mem_take hx)))

end TTI
