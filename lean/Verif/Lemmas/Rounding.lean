import Verif.Spec.Rounding
import Verif.Lemmas.SimRows

set_option autoImplicit false

/-! The simulator in rounded arithmetic. -/

namespace TTI.Sim

open Spec

variable (R : Rounding)

@[simp] theorem rnum_add (a b : ℚ) : @Num.add ℚ R.num a b = R.fl (a + b) := rfl
@[simp] theorem rnum_sub (a b : ℚ) : @Num.sub ℚ R.num a b = R.fl (a - b) := rfl
@[simp] theorem rnum_mul (a b : ℚ) : @Num.mul ℚ R.num a b = R.fl (a * b) := rfl
@[simp] theorem rnum_div (a b : ℚ) : @Num.div ℚ R.num a b = R.fl (a / b) := rfl
@[simp] theorem rnum_ofInt (n : ℤ) : @Num.ofInt ℚ R.num n = n := rfl
@[simp] theorem rnum_lt (a b : ℚ) : @Num.lt ℚ R.num a b = decide (a < b) := rfl

/-! ## Propagation of errors -/

/-- `a` is `x` up to `k` roundings, measured by `A`. -/
def Near (k : ℕ) (a x A : ℚ) : Prop := |x| ≤ A ∧ |a - x| ≤ ((1 + R.unit) ^ k - 1) * A

theorem pow_ge_one (k : ℕ) : 1 ≤ (1 + R.unit) ^ k := one_le_pow₀ (by linarith [R.nonneg])

theorem Near.nonneg {R : Rounding} {k : ℕ} {a x A : ℚ} (h : Near R k a x A) : 0 ≤ A := (abs_nonneg x).trans h.1

theorem near_exact (x : ℚ) : Near R 0 x x |x| := ⟨le_refl _, by simp⟩

theorem near_exact_nonneg (x : ℚ) (h : 0 ≤ x) : Near R 0 x x x := by
  have := near_exact R x
  rwa [abs_of_nonneg h] at this

theorem Near.mono {R : Rounding} {k k' : ℕ} {a x A : ℚ} (h : Near R k a x A) (hk : k ≤ k') : Near R k' a x A := by
  refine ⟨h.1, h.2.trans ?_⟩
  apply mul_le_mul_of_nonneg_right _ h.nonneg
  have : (1 + R.unit) ^ k ≤ (1 + R.unit) ^ k' := pow_le_pow_right₀ (by linarith [R.nonneg]) hk
  linarith

/-- One more rounding. -/
theorem Near.fl {R : Rounding} {k : ℕ} {a x A : ℚ} (h : Near R k a x A) : Near R (k + 1) (R.fl a) x A := by
  refine ⟨h.1, ?_⟩
  have h1 := R.error a
  have h2 : |a| ≤ (1 + R.unit) ^ k * A := by
    have : |a| ≤ |a - x| + |x| := by
      have := abs_add_le (a - x) x
      rwa [sub_add_cancel] at this
    nlinarith [h.1, h.2]
  have h3 : |R.fl a - x| ≤ |R.fl a - a| + |a - x| := by
    have := abs_add_le (R.fl a - a) (a - x)
    rwa [sub_add_sub_cancel] at this
  have h4 : R.unit * |a| ≤ R.unit * ((1 + R.unit) ^ k * A) := mul_le_mul_of_nonneg_left h2 R.nonneg
  calc |R.fl a - x| ≤ R.unit * ((1 + R.unit) ^ k * A) + ((1 + R.unit) ^ k - 1) * A := by linarith [h.2]
    _ = ((1 + R.unit) ^ (k + 1) - 1) * A := by ring

theorem Near.add_exact {R : Rounding} {k : ℕ} {a x A b y B : ℚ} (h : Near R k a x A) (h' : Near R k b y B) :
    Near R k (a + b) (x + y) (A + B) := by
  refine ⟨(abs_add_le x y).trans (add_le_add h.1 h'.1), ?_⟩
  have : |a + b - (x + y)| ≤ |a - x| + |b - y| := by
    have := abs_add_le (a - x) (b - y)
    rwa [show a - x + (b - y) = a + b - (x + y) by ring] at this
  calc _ ≤ _ := this
    _ ≤ _ := add_le_add h.2 h'.2
    _ = _ := by ring

theorem Near.neg {R : Rounding} {k : ℕ} {a x A : ℚ} (h : Near R k a x A) : Near R k (-a) (-x) A := by
  refine ⟨by rw [abs_neg]; exact h.1, ?_⟩
  rw [show -a - -x = -(a - x) by ring, abs_neg]
  exact h.2

theorem Near.mul_exact {R : Rounding} {k : ℕ} {a x A : ℚ} (h : Near R k a x A) (c : ℚ) (hc : 0 ≤ c) :
    Near R k (c * a) (c * x) (c * A) := by
  refine ⟨by rw [abs_mul, abs_of_nonneg hc]; exact mul_le_mul_of_nonneg_left h.1 hc, ?_⟩
  rw [← mul_sub, abs_mul, abs_of_nonneg hc]
  calc _ ≤ c * (((1 + R.unit) ^ k - 1) * A) := mul_le_mul_of_nonneg_left h.2 hc
    _ = _ := by ring

theorem Near.add {R : Rounding} {k k' m : ℕ} {a x A b y B : ℚ} (h : Near R k a x A) (h' : Near R k' b y B)
    (hk : k ≤ m) (hk' : k' ≤ m) : Near R (m + 1) (R.fl (a + b)) (x + y) (A + B) :=
  ((h.mono hk).add_exact (h'.mono hk')).fl

theorem Near.sub {R : Rounding} {k k' m : ℕ} {a x A b y B : ℚ} (h : Near R k a x A) (h' : Near R k' b y B)
    (hk : k ≤ m) (hk' : k' ≤ m) : Near R (m + 1) (R.fl (a - b)) (x - y) (A + B) := by
  have := h.add h'.neg hk hk'
  rwa [← sub_eq_add_neg, ← sub_eq_add_neg] at this

theorem Near.div {R : Rounding} {k : ℕ} {a x A : ℚ} (h : Near R k a x A) (c : ℚ) (hc : 0 < c) :
    Near R (k + 1) (R.fl (a / c)) (x / c) (A / c) := by
  have := (h.mul_exact c⁻¹ (inv_nonneg.2 hc.le)).fl
  rwa [inv_mul_eq_div, inv_mul_eq_div, inv_mul_eq_div] at this

theorem fl_zero : R.fl 0 = 0 := by
  have := R.error 0
  simpa using this

theorem fl_nonneg (x : ℚ) (h : 0 ≤ x) : 0 ≤ R.fl x := by
  rw [← fl_zero R]
  exact R.mono 0 x h

/-! ## The portfolio -/

/-- The portfolio row in rounded arithmetic: the exposure of a short position is a rounded product. -/
def roundPos (p : Pos ℚ) : Pos ℚ := if p.side = .short then { p with exposure := R.fl p.exposure } else p

theorem closes_rounded (P : Params ℚ) (hf : 0 < P.factor) (r s : Row ℚ)
    (ha : s.stock < r.stock → R.fl (P.factor * s.stock) < R.fl (P.factor * r.stock)) :
    @closes ℚ R.num P r s = closes P r s := by
  unfold closes
  cases r.action with
  | none => rfl
  | long => rfl
  | short =>
    simp only [rnum_lt, rnum_mul, num_lt, num_mul, decide_eq_decide, mul_lt_mul_iff_right₀ hf]
    constructor
    · intro h
      by_contra hn
      exact absurd (R.mono _ _ (mul_le_mul_of_nonneg_left (not_lt.1 hn) hf.le)) (not_le.2 h)
    · exact ha

theorem pfOf_rounded (P : Params ℚ) (hf : 0 < P.factor) (h : List (Row ℚ))
    (ha : ∀ r ∈ h, ∀ s ∈ h, s.stock < r.stock → R.fl (P.factor * s.stock) < R.fl (P.factor * r.stock)) :
    @pfOf ℚ R.num P h = (pfOf P h).map (roundPos R) := by
  induction h with
  | nil => rfl
  | cons r h ih =>
    simp only [pfOf, List.map_cons]
    rw [ih fun x hx y hy => ha x (by simp [hx]) y (by simp [hy])]
    congr 1
    have hany : h.any (@closes ℚ R.num P r) = h.any (closes P r) := by
      rw [Bool.eq_iff_iff, List.any_eq_true, List.any_eq_true]
      constructor
      · rintro ⟨s, hs, hc⟩
        exact ⟨s, hs, by rwa [closes_rounded R P hf r s (ha r (by simp) s (by simp [hs]))] at hc⟩
      · rintro ⟨s, hs, hc⟩
        exact ⟨s, hs, by rwa [closes_rounded R P hf r s (ha r (by simp) s (by simp [hs]))]⟩
    unfold posOf
    cases r.action with
    | none => rfl
    | long => simp [roundPos, hany]
    | short => simp [roundPos, hany]

/-- The positions that a price closes are the same. -/
theorem filter_long_rounded (pf : List (Pos ℚ)) (p : ℚ) :
    (pf.map (roundPos R)).filter (@longMask ℚ R.num p) = pf.filter (longMask p) := by
  induction pf with
  | nil => rfl
  | cons x pf ih =>
    obtain ⟨sd, st, e⟩ := x
    simp only [List.map_cons, List.filter_cons, ih]
    cases sd <;> simp [roundPos, longMask]

theorem filter_short_rounded (P : Params ℚ) (hf : 0 < P.factor) (h : List (Row ℚ)) (p : ℚ)
    (ha : ∀ r ∈ h, p < r.stock → R.fl (P.factor * p) < R.fl (P.factor * r.stock)) :
    ((pfOf P h).map (roundPos R)).filter (@shortMask ℚ R.num P.factor p) =
      ((pfOf P h).filter (shortMask P.factor p)).map (roundPos R) := by
  induction h with
  | nil => rfl
  | cons r h ih =>
    simp only [pfOf, List.map_cons, List.filter_cons, ih fun x hx => ha x (by simp [hx])]
    have : @shortMask ℚ R.num P.factor p (roundPos R (posOf P r h)) = shortMask P.factor p (posOf P r h) := by
      have hd : decide (R.fl (P.factor * p) < R.fl (P.factor * r.stock)) = decide (P.factor * p < P.factor * r.stock) := by
        rw [decide_eq_decide, mul_lt_mul_iff_right₀ hf]
        constructor
        · intro h
          by_contra hn
          exact absurd (R.mono _ _ (mul_le_mul_of_nonneg_left (not_lt.1 hn) hf.le)) (not_le.2 h)
        · exact ha r (by simp)
      unfold posOf
      cases r.action with
      | none => simp [roundPos, shortMask, noPos, show (Side.none == Side.short) = false from rfl]
      | long => simp [roundPos, shortMask, show (Side.long == Side.short) = false from rfl]
      | short => simp only [roundPos, shortMask, if_true, rnum_lt, rnum_mul, num_lt, num_mul, hd]
    rw [this]
    split <;> simp

theorem near_sumExposure (l : List (Pos ℚ)) (φ : Pos ℚ → Pos ℚ) (k : ℕ)
    (hl : ∀ p ∈ l, Near R k (φ p).exposure p.exposure p.exposure) :
    Near R (k + l.length) (@sumExposure ℚ R.num (l.map φ)) (sumExposure l) (sumExposure l) := by
  have law : @SumLaw ℚ (Pos ℚ) R.num (fun p => (φ p).exposure) (fun m x => (∀ p ∈ m, Near R k (φ p).exposure p.exposure p.exposure) →
      Near R (k + m.length) x (m.map (·.exposure)).sum (m.map (·.exposure)).sum) := by
    refine @SumLaw.mk ℚ (Pos ℚ) R.num _ _ ?_ ?_ ?_ ?_ ?_
    · intro m m' x hp hx hm
      have := hx fun p h => hm p (hp.mem_iff.1 h)
      rwa [hp.length_eq, (hp.map _).sum_eq] at this
    · intro _
      exact ⟨by simp, by simp⟩
    · intro b hb
      have := (hb b (by simp)).mono (k' := k + 1) (by omega)
      simpa using this
    · intro b hb
      have h0 : Near R 0 0 0 0 := ⟨by simp, by simp⟩
      have := h0.add (hb b (by simp)) (m := k) (by omega) le_rfl
      simpa using this
    · intro m m' x y n n' hx hy hm
      have h1 : 0 < m.length := List.length_pos_iff.2 n
      have h2 : 0 < m'.length := List.length_pos_iff.2 n'
      have := (hx fun p h => hm p (by simp [h])).add (hy fun p h => hm p (by simp [h])) (m := k + (m ++ m').length - 1)
        (by simp only [List.length_append]; omega) (by simp only [List.length_append]; omega)
      rw [show k + (m ++ m').length - 1 + 1 = k + (m ++ m').length by simp only [List.length_append]; omega] at this
      simpa using this
  have := @SumLaw.npSum ℚ (Pos ℚ) R.num _ _ law l hl
  unfold sumExposure
  rw [npSum_rat, List.map_map]
  exact this

theorem pfOf_nonneg (P : Params ℚ) (hf : 0 < P.factor) (h : List (Row ℚ)) (hp : ∀ r ∈ h, 0 ≤ r.stock) :
    ∀ p ∈ pfOf P h, 0 ≤ p.exposure := by
  induction h with
  | nil => simp [pfOf]
  | cons r h ih =>
    intro p hm
    simp only [pfOf, List.mem_cons] at hm
    rcases hm with rfl | hm
    · have := hp r (by simp)
      unfold posOf
      cases r.action with
      | none => simp [noPos]
      | long => simpa using this
      | short => simpa using mul_nonneg hf.le this
    · exact ih (fun x hx => hp x (by simp [hx])) p hm

theorem closing_turnover (P : Params ℚ) (hf : 0 < P.factor) (h : List (Row ℚ)) (p : ℚ) :
    (((pfOf P h).filter (longMask p)).length * p + sumExposure ((pfOf P h).filter (longMask p))) +
      (sumExposure ((pfOf P h).filter (shortMask P.factor p)) / P.factor +
        ((pfOf P h).filter (shortMask P.factor p)).length * p) =
      closedBy (fun _ e => e + p) p h := by
  induction h with
  | nil => simp [pfOf, closedBy, sumExposure_nil]
  | cons r h ih =>
    simp only [pfOf, closedBy, List.filter_cons, longMask_posOf P hf, shortMask_posOf P hf, ← ih]
    by_cases ho : isOpen r h
    · cases ha : r.action with
      | none => exact absurd ha ho.1
      | long =>
        by_cases hp : r.stock < p <;>
          simp [ho, hp, sumExposure_cons, posOf, ha]
        ring
      | short =>
        by_cases hp : p < r.stock <;>
          simp [ho, hp, sumExposure_cons, posOf, ha]
        have := hf.ne'
        field_simp
        ring
    · simp [ho]

/-- One closing pass. -/
theorem closing_rounded (P : Params ℚ) (hf : 0 < P.factor) (h : List (Row ℚ)) (p : ℚ) (hp : 0 ≤ p)
    (hs : ∀ r ∈ h, 0 ≤ r.stock)
    (ha : ∀ r ∈ h, ∀ s ∈ h, s.stock < r.stock → R.fl (P.factor * s.stock) < R.fl (P.factor * r.stock))
    (ha' : ∀ r ∈ h, p < r.stock → R.fl (P.factor * p) < R.fl (P.factor * r.stock)) :
    Near R (h.length + 4) (@closeOpenPositions ℚ R.num P p (@pfOf ℚ R.num P h)).earnings
      (closedBy (fun s e => profit s e p) p h) (closedBy (fun _ e => e + p) p h) ∧
    Near R (h.length + 2) (@closeOpenPositions ℚ R.num P p (@pfOf ℚ R.num P h)).closedExposure
      (closedBy (entryExposure P.factor) p h) (closedBy (entryExposure P.factor) p h) := by
  rw [← closing_earnings P hf, ← closing_turnover P hf, ← closing_exposure P hf]
  simp only [closeOpenPositions, pfOf_rounded R P hf h ha, filter_long_rounded, filter_short_rounded R P hf h p ha',
    num_add, num_sub, num_mul, num_div, num_ofInt, rnum_add, rnum_sub, rnum_mul, rnum_div, rnum_ofInt, List.length_map,
    Int.cast_natCast]
  have hnn := pfOf_nonneg P hf h hs
  set L := (pfOf P h).filter (longMask p) with hL
  set S := (pfOf P h).filter (shortMask P.factor p) with hS
  have hLl : L.length ≤ h.length := by rw [← pfOf_length P h]; exact List.length_filter_le _ _
  have hSl : S.length ≤ h.length := by rw [← pfOf_length P h]; exact List.length_filter_le _ _
  have nL : Near R (0 + L.length) (@sumExposure ℚ R.num L) (sumExposure L) (sumExposure L) := by
    have := near_sumExposure R L id 0 fun q hq => near_exact_nonneg R _ (hnn q (List.mem_filter.1 hq).1)
    simpa using this
  have nS : Near R (1 + S.length) (@sumExposure ℚ R.num (S.map (roundPos R))) (sumExposure S) (sumExposure S) := by
    apply near_sumExposure R S (roundPos R) 1
    intro q hq
    have h0 := near_exact_nonneg R _ (hnn q (List.mem_filter.1 hq).1)
    unfold roundPos
    split
    · exact h0.fl
    · exact h0.mono (by omega)
  have mul (n : ℕ) : Near R 1 (R.fl (n * p)) (n * p) (n * p) := (near_exact_nonneg R _ (by positivity)).fl
  constructor
  · have h1 := (mul L.length).sub nL (m := h.length + 1) (by omega) (by omega)
    have h2 := (nS.div P.factor hf).sub (mul S.length) (m := h.length + 2) (by omega) (by omega)
    exact h1.add h2 (by omega) (by omega)
  · exact nL.add nS (by omega) (by omega)

theorem turnover_snoc (h : List (Row ℚ)) (x : Row ℚ) :
    turnover (h ++ [x]) = turnover h + closedBy (fun _ e => e + x.stock) x.stock h := by
  induction h with
  | nil =>
    rcases x with ⟨sig, act, st, ex, pv, ea, ba⟩
    cases act <;> simp [turnover, closedBy, closingPrice]
  | cons r h ih =>
    simp only [List.cons_append, turnover, closedBy, ih, closingPrice_snoc, isOpen]
    rcases Option.eq_none_or_eq_some (closingPrice r.action r.stock h) with hc | ⟨q, hc⟩
    · by_cases hx : (r.action = .long ∧ r.stock < x.stock) ∨ (r.action = .short ∧ x.stock < r.stock)
      · have ha : r.action ≠ .none := by rintro h; simp [h] at hx
        simp [ha, hc, hx]; ring
      · simp [hc, hx]
    · simp [hc]; ring

theorem exposureFlow_snoc (f : ℚ) (h : List (Row ℚ)) (x : Row ℚ) :
    exposureFlow f (h ++ [x]) = exposureFlow f h + closedBy (entryExposure f) x.stock h + entryExposure f x.action x.stock := by
  induction h with
  | nil =>
    rcases x with ⟨sig, act, st, ex, pv, ea, ba⟩
    cases act <;> simp [exposureFlow, closedBy, closingPrice]
  | cons r h ih =>
    simp only [List.cons_append, exposureFlow, closedBy, ih, closingPrice_snoc, isOpen]
    rcases Option.eq_none_or_eq_some (closingPrice r.action r.stock h) with hc | ⟨q, hc⟩
    · by_cases hx : (r.action = .long ∧ r.stock < x.stock) ∨ (r.action = .short ∧ x.stock < r.stock)
      · have ha : r.action ≠ .none := by rintro h; simp [h] at hx
        simp [ha, hc, hx]; ring
      · simp [hc, hx]; ring
    · simp [hc]; ring

theorem stock_of_row (P : Params ℚ) (ds : List (Day ℚ)) (r : Row ℚ) (hr : r ∈ (roundedRun R P ds).rows) :
    ∃ d ∈ ds, d.1 = r.stock :=
  ⟨_, @rows_stock_mem ℚ R.num P ds r hr, rfl⟩

theorem rounded_take (P : Params ℚ) (ds : List (Day ℚ)) (i : ℕ) :
    (@run ℚ R.num P (ds.take i)).portfolio = @pfOf ℚ R.num P ((roundedRun R P ds).rows.take i) := by
  rw [@run_portfolio ℚ R.num, @run_rows_take ℚ R.num, roundedRun]

theorem take_succ_row {α : Type} (l : List α) (i : ℕ) (x : α) (hx : l[i]? = some x) :
    l.take (i + 1) = l.take i ++ [x] := by
  rw [List.take_add_one, hx]; rfl

/-- Earnings and exposure of a row in rounded arithmetic. -/
theorem rounded_row (P : Params ℚ) (hf : 0 < P.factor) (ds : List (Day ℚ)) (hp : ∀ d ∈ ds, 0 ≤ d.1)
    (ha : KeepsApart R P.factor ds) (i : ℕ) (x : Row ℚ) (hx : (roundedRun R P ds).rows[i]? = some x) :
    Near R (i + 5) x.earnings (realised ((roundedRun R P ds).rows.take (i + 1)))
      (turnover ((roundedRun R P ds).rows.take (i + 1))) ∧
    Near R (2 * i + 3) x.exposure (exposure P.factor ((roundedRun R P ds).rows.take (i + 1)))
      (exposureFlow P.factor ((roundedRun R P ds).rows.take (i + 1))) := by
  have hst : ∀ r ∈ (roundedRun R P ds).rows, 0 ≤ r.stock := by
    intro r hr
    obtain ⟨d, hd, he⟩ := stock_of_row R P ds r hr
    exact he ▸ hp d hd
  have hap : ∀ r ∈ (roundedRun R P ds).rows, ∀ s ∈ (roundedRun R P ds).rows, s.stock < r.stock →
      R.fl (P.factor * s.stock) < R.fl (P.factor * r.stock) := by
    intro r hr s hs
    obtain ⟨d, hd, he⟩ := stock_of_row R P ds r hr
    obtain ⟨d', hd', he'⟩ := stock_of_row R P ds s hs
    rw [← he, ← he']
    exact ha d' hd' d hd
  induction i generalizing x with
  | zero =>
    have hz := @row_zero ℚ R.num P ds x hx
    rw [take_succ_row _ 0 x hx, List.take_zero]
    rw [hz]
    simp [exposure, sumOpen, realised, closingPrice, turnover, exposureFlow, entryExposure, Near]
  | succ i ih =>
    obtain ⟨prev, hprev, c, hc, ex, hex, hact, hexp, hear, -⟩ := @row_succ ℚ R.num P ds i x hx
    obtain ⟨ih1, ih2⟩ := ih prev hprev
    rw [rounded_take] at hc
    have hlen : ((roundedRun R P ds).rows.take (i + 1)).length ≤ i + 1 := List.length_take_le _ _
    have hmem : x ∈ (roundedRun R P ds).rows := List.mem_of_getElem? hx
    rw [take_succ_row _ (i + 1) x hx]
    set h := (roundedRun R P ds).rows.take (i + 1) with hh
    have hsub : ∀ r ∈ h, r ∈ (roundedRun R P ds).rows := fun r hr => List.mem_of_mem_take hr
    have hcl := closing_rounded R P hf h x.stock (hst x hmem) (fun r hr => hst r (hsub r hr))
      (fun r hr s hs => hap r (hsub r hr) s (hsub s hs)) (fun r hr => hap r (hsub r hr) x hmem)
    rw [← hc] at hcl
    obtain ⟨hc1, hc2⟩ := hcl
    rw [realised_snoc, turnover_snoc, exposure, sumOpen_snoc, ← exposure, exposureFlow_snoc]
    constructor
    · rw [hear]
      exact ih1.add hc1 (m := i + 5) (by omega) (by omega)
    · have hex' : Near R (2 * i + 4) ex (exposure P.factor h - closedBy (entryExposure P.factor) x.stock h)
          (exposureFlow P.factor h + closedBy (entryExposure P.factor) x.stock h) := by
        rw [hex]
        exact ih2.sub hc2 (m := 2 * i + 3) (by omega) (by omega)
      rw [hexp]
      have hx0 := hst x hmem
      cases x.action with
      | none => simpa [nextExposure, entryExposure] using hex'.mono (by omega : 2 * i + 4 ≤ 2 * (i + 1) + 3)
      | long => exact hex'.add (near_exact_nonneg R _ hx0) (m := 2 * i + 4) (by omega) (by omega)
      | short =>
        exact hex'.add (near_exact_nonneg R _ (mul_nonneg hf.le hx0)).fl (m := 2 * i + 4) (by omega) (by omega)

theorem countOpen_rounded (s : Side) (pf : List (Pos ℚ)) : countOpen s (pf.map (roundPos R)) = countOpen s pf := by
  unfold countOpen
  rw [List.filter_map, List.length_map]
  congr 1
  apply List.filter_congr
  intro p _
  simp only [Function.comp, roundPos]
  split <;> rfl

/-- Portfolio value and balance. -/
theorem rounded_balance (P : Params ℚ) (hf : 0 < P.factor) (ds : List (Day ℚ)) (hp : ∀ d ∈ ds, 0 ≤ d.1)
    (ha : KeepsApart R P.factor ds) (i : ℕ) (x : Row ℚ) (hx : (roundedRun R P ds).rows[i]? = some x) :
    Near R 1 x.portfolio
      (x.stock * (numOpen .long ((roundedRun R P ds).rows.take (i + 1)) - numOpen .short ((roundedRun R P ds).rows.take (i + 1))))
      (x.stock * (numOpen .long ((roundedRun R P ds).rows.take (i + 1)) + numOpen .short ((roundedRun R P ds).rows.take (i + 1)))) ∧
    x.balance = R.fl (x.portfolio + x.earnings) := by
  have hmem : x ∈ (roundedRun R P ds).rows := List.mem_of_getElem? hx
  have hx0 : 0 ≤ x.stock := by
    obtain ⟨d, hd, he⟩ := stock_of_row R P ds x hmem
    exact he ▸ hp d hd
  have hap : ∀ r ∈ (roundedRun R P ds).rows.take (i + 1), ∀ s ∈ (roundedRun R P ds).rows.take (i + 1), s.stock < r.stock →
      R.fl (P.factor * s.stock) < R.fl (P.factor * r.stock) := by
    intro r hr s hs
    obtain ⟨d, hd, he⟩ := stock_of_row R P ds r (List.mem_of_mem_take hr)
    obtain ⟨d', hd', he'⟩ := stock_of_row R P ds s (List.mem_of_mem_take hs)
    rw [← he, ← he']
    exact ha d' hd' d hd
  cases i with
  | zero =>
    have hz := @row_zero ℚ R.num P ds x hx
    rw [take_succ_row _ 0 x hx, List.take_zero]
    rw [hz]
    simp [numOpen, sumOpen, closingPrice, Near, fl_zero]
  | succ i =>
    obtain ⟨prev, hprev, c, hc, ex, hex, hact, hexp, hear, hpv, hb, -⟩ := @row_succ ℚ R.num P ds i x hx
    refine ⟨?_, hb⟩
    rw [hpv, rounded_take, pfOf_rounded R P hf _ hap]
    simp only [portfolioValue, countOpen_rounded, rnum_mul, rnum_ofInt]
    rw [← countOpen_pfOf P hf _ .long (by decide), ← countOpen_pfOf P hf _ .short (by decide)]
    push_cast
    set a : ℚ := (countOpen .long (pfOf P ((roundedRun R P ds).rows.take (i + 1 + 1))) : ℚ)
    set b : ℚ := (countOpen .short (pfOf P ((roundedRun R P ds).rows.take (i + 1 + 1))) : ℚ)
    have ha0 : 0 ≤ a := Nat.cast_nonneg _
    have hb0 : 0 ≤ b := Nat.cast_nonneg _
    have : Near R 0 (x.stock * (a - b)) (x.stock * (a - b)) (x.stock * (a + b)) := by
      refine ⟨?_, by simp⟩
      rw [abs_mul, abs_of_nonneg hx0]
      apply mul_le_mul_of_nonneg_left _ hx0
      rw [abs_le]
      constructor <;> linarith
    exact this.fl

/-! ## The limit -/

theorem sum_rounded_nonneg (pf : List (Pos ℚ)) (h : ∀ p ∈ pf, 0 ≤ p.exposure) : 0 ≤ @sumExposure ℚ R.num pf := by
  have law : @SumLaw ℚ (Pos ℚ) R.num (·.exposure) (fun m x => (∀ p ∈ m, 0 ≤ p.exposure) → 0 ≤ x) := by
    refine @SumLaw.mk ℚ (Pos ℚ) R.num _ _ ?_ ?_ ?_ ?_ ?_
    · exact fun m m' x hp hx hm => hx fun p h => hm p (hp.mem_iff.1 h)
    · exact fun _ => by simp
    · exact fun b hb => hb b (by simp)
    · exact fun b hb => fl_nonneg R _ (add_nonneg (by simp) (hb b (by simp)))
    · exact fun m m' x y _ _ hx hy hm =>
        fl_nonneg R _ (add_nonneg (hx fun p h => hm p (by simp [h])) (hy fun p h => hm p (by simp [h])))
  exact @SumLaw.npSum ℚ (Pos ℚ) R.num _ _ law pf h

theorem pfOf_rounded_nonneg (P : Params ℚ) (hf : 0 < P.factor) (h : List (Row ℚ)) (hp : ∀ r ∈ h, 0 ≤ r.stock) :
    ∀ p ∈ @pfOf ℚ R.num P h, 0 ≤ p.exposure := by
  induction h with
  | nil => simp [pfOf]
  | cons r h ih =>
    intro p hm
    simp only [pfOf, List.mem_cons] at hm
    rcases hm with rfl | hm
    · have := hp r (by simp)
      unfold posOf
      cases r.action with
      | none => simp [noPos]
      | long => simpa using this
      | short => simpa using fl_nonneg R _ (mul_nonneg hf.le this)
    · exact ih (fun x hx => hp x (by simp [hx])) p hm

theorem closed_nonneg (P : Params ℚ) (hf : 0 < P.factor) (h : List (Row ℚ)) (hp : ∀ r ∈ h, 0 ≤ r.stock) (p : ℚ) :
    0 ≤ (@closeOpenPositions ℚ R.num P p (@pfOf ℚ R.num P h)).closedExposure := by
  have hn := pfOf_rounded_nonneg R P hf h hp
  apply fl_nonneg
  apply add_nonneg
  · apply sum_rounded_nonneg
    exact fun q hq => hn q (List.mem_filter.1 hq).1
  · apply sum_rounded_nonneg
    exact fun q hq => hn q (List.mem_filter.1 hq).1

/-- With a limit that is not negative, each exposure recorded is within it, and rounded already. -/
theorem rounded_limit (P : Params ℚ) (hf : 0 < P.factor) (ds : List (Day ℚ)) (hp : ∀ d ∈ ds, 0 ≤ d.1)
    (m : ℚ) (hm : P.maxExposure = some m) (hm0 : 0 ≤ m) (i : ℕ) (x : Row ℚ)
    (hx : (roundedRun R P ds).rows[i]? = some x) : x.exposure ≤ m ∧ R.fl x.exposure = x.exposure := by
  induction i generalizing x with
  | zero =>
    have hz := @row_zero ℚ R.num P ds x hx
    rw [hz]
    simp [hm0, fl_zero]
  | succ i ih =>
    obtain ⟨prev, hprev, c, hc, ex, hex, hact, hexp, -⟩ := @row_succ ℚ R.num P ds i x hx
    obtain ⟨ih1, ih2⟩ := ih prev hprev
    rw [rounded_take] at hc
    have hc0 : 0 ≤ c.closedExposure := by
      rw [hc]
      apply closed_nonneg R P hf
      intro r hr
      obtain ⟨d, hd, he⟩ := stock_of_row R P ds r (List.mem_of_mem_take hr)
      exact he ▸ hp d hd
    have hex' : ex ≤ m ∧ R.fl ex = ex := by
      rw [hex, rnum_sub]
      refine ⟨(R.mono _ prev.exposure (by linarith)).trans ?_, R.again _⟩
      rw [ih2]; exact ih1
    rw [hexp, hact]
    cases x.signal with
    | hold => exact hex'
    | buy =>
      simp only [nextAction, limitReached, hm, rnum_lt, rnum_add, decide_eq_true_eq]
      split
      · exact hex'
      · rename_i hn
        exact ⟨not_lt.1 hn, R.again _⟩
    | sell =>
      simp only [nextAction, limitReached, hm, rnum_lt, rnum_add, rnum_mul, decide_eq_true_eq]
      split
      · exact hex'
      · rename_i hn
        exact ⟨not_lt.1 hn, R.again _⟩

end TTI.Sim
