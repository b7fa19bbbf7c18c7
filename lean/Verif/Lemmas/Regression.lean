import Verif.Lemmas.Bands
import Mathlib.Tactic.LinearCombination
import Mathlib.Algebra.BigOperators.Ring.Finset

set_option autoImplicit false

/-!
# Least squares
-/

namespace TTI

open Finset

theorem list_range_sum (p : ℕ) (f : ℕ → ℚ) : ((List.range p).map f).sum = ∑ t ∈ range p, f t := by
  induction p with
  | zero => simp
  | succ p ih => rw [List.range_succ, List.map_append, List.sum_append, ih, sum_range_succ]; simp

/-- Slope of the least squares line through the points `(s + t, y (s + t))`, `t < p`. -/
def slopeQ (y : ℕ → ℚ) (s p : ℕ) : ℚ :=
  (p * (∑ t ∈ range p, y (s + t) * (s + t : ℕ)) - (∑ t ∈ range p, ((s + t : ℕ) : ℚ)) * ∑ t ∈ range p, y (s + t)) /
  (p * (∑ t ∈ range p, ((s + t : ℕ) : ℚ) * (s + t : ℕ)) - (∑ t ∈ range p, ((s + t : ℕ) : ℚ)) * ∑ t ∈ range p, ((s + t : ℕ) : ℚ))

/-- Its intercept. -/
def interceptQ (y : ℕ → ℚ) (s p : ℕ) : ℚ :=
  ((∑ t ∈ range p, y (s + t)) - slopeQ y s p * ∑ t ∈ range p, ((s + t : ℕ) : ℚ)) / p

theorem sum_x (s p : ℕ) : ∑ t ∈ range p, ((s + t : ℕ) : ℚ) = p * s + p * (p - 1) / 2 := by
  induction p with
  | zero => simp
  | succ p ih => rw [sum_range_succ, ih]; push_cast; ring

theorem sum_xx (s p : ℕ) : ∑ t ∈ range p, ((s + t : ℕ) : ℚ) * (s + t : ℕ) =
    p * s * s + s * (p * (p - 1)) + p * (p - 1) * (2 * p - 1) / 6 := by
  induction p with
  | zero => simp
  | succ p ih => rw [sum_range_succ, ih]; push_cast; ring

theorem det_eq (s p : ℕ) : (p : ℚ) * (∑ t ∈ range p, ((s + t : ℕ) : ℚ) * (s + t : ℕ)) -
    (∑ t ∈ range p, ((s + t : ℕ) : ℚ)) * ∑ t ∈ range p, ((s + t : ℕ) : ℚ) = p * p * (p - 1) * (p + 1) / 12 := by
  rw [sum_x, sum_xx]; ring

theorem det_pos (s p : ℕ) (hp : 2 ≤ p) : 0 < (p : ℚ) * (∑ t ∈ range p, ((s + t : ℕ) : ℚ) * (s + t : ℕ)) -
    (∑ t ∈ range p, ((s + t : ℕ) : ℚ)) * ∑ t ∈ range p, ((s + t : ℕ) : ℚ) := by
  rw [det_eq]
  have : (2 : ℚ) ≤ p := by exact_mod_cast hp
  have h1 : (0 : ℚ) < p - 1 := by linarith
  positivity

/-- The normal equations. -/
theorem normal_eqs (y : ℕ → ℚ) (s p : ℕ) (hp : 2 ≤ p) :
    ∑ t ∈ range p, (y (s + t) - (interceptQ y s p + slopeQ y s p * (s + t : ℕ))) = 0 ∧
    ∑ t ∈ range p, (y (s + t) - (interceptQ y s p + slopeQ y s p * (s + t : ℕ))) * (s + t : ℕ) = 0 := by
  have hd := det_pos s p hp
  have hp0 : (p : ℚ) ≠ 0 := by
    have : (2 : ℚ) ≤ p := by exact_mod_cast hp
    linarith
  have hb : slopeQ y s p * ((p : ℚ) * (∑ t ∈ range p, ((s + t : ℕ) : ℚ) * (s + t : ℕ)) -
      (∑ t ∈ range p, ((s + t : ℕ) : ℚ)) * ∑ t ∈ range p, ((s + t : ℕ) : ℚ)) =
      p * (∑ t ∈ range p, y (s + t) * (s + t : ℕ)) - (∑ t ∈ range p, ((s + t : ℕ) : ℚ)) * ∑ t ∈ range p, y (s + t) := by
    unfold slopeQ
    exact div_mul_cancel₀ _ hd.ne'
  have ha : interceptQ y s p * p = (∑ t ∈ range p, y (s + t)) - slopeQ y s p * ∑ t ∈ range p, ((s + t : ℕ) : ℚ) := by
    unfold interceptQ
    exact div_mul_cancel₀ _ hp0
  generalize slopeQ y s p = b at *
  generalize interceptQ y s p = a at *
  have e1 : ∑ t ∈ range p, (y (s + t) - (a + b * (s + t : ℕ))) =
      (∑ t ∈ range p, y (s + t)) - (p * a + b * ∑ t ∈ range p, ((s + t : ℕ) : ℚ)) := by
    rw [sum_sub_distrib, sum_add_distrib, sum_const, card_range, ← mul_sum, nsmul_eq_mul]
  have e2 : ∑ t ∈ range p, (y (s + t) - (a + b * (s + t : ℕ))) * (s + t : ℕ) =
      (∑ t ∈ range p, y (s + t) * (s + t : ℕ)) - (a * (∑ t ∈ range p, ((s + t : ℕ) : ℚ)) +
        b * ∑ t ∈ range p, ((s + t : ℕ) : ℚ) * (s + t : ℕ)) := by
    rw [mul_sum, mul_sum, ← sum_add_distrib, ← sum_sub_distrib]
    apply sum_congr rfl
    intro t _
    ring
  constructor
  · rw [e1]; linear_combination -ha
  · rw [e2]
    have : (p : ℚ) * ((∑ t ∈ range p, y (s + t) * (s + t : ℕ)) - (a * (∑ t ∈ range p, ((s + t : ℕ) : ℚ)) +
        b * ∑ t ∈ range p, ((s + t : ℕ) : ℚ) * (s + t : ℕ))) = 0 := by
      linear_combination -hb - (∑ t ∈ range p, ((s + t : ℕ) : ℚ)) * ha
    exact (mul_eq_zero.1 this).resolve_left hp0

/-- The error of any line is the least error plus the squared distances of the two lines. -/
theorem sq_error (y : ℕ → ℚ) (s p : ℕ) (hp : 2 ≤ p) (a b : ℚ) :
    ∑ t ∈ range p, (y (s + t) - (a + b * (s + t : ℕ))) ^ 2 =
      (∑ t ∈ range p, (y (s + t) - (interceptQ y s p + slopeQ y s p * (s + t : ℕ))) ^ 2) +
      ∑ t ∈ range p, ((interceptQ y s p - a) + (slopeQ y s p - b) * (s + t : ℕ)) ^ 2 := by
  obtain ⟨h1, h2⟩ := normal_eqs y s p hp
  generalize slopeQ y s p = b' at *
  generalize interceptQ y s p = a' at *
  have h3 : ∑ t ∈ range p, 2 * (a' - a) * (y (s + t) - (a' + b' * (s + t : ℕ))) = 0 := by rw [← mul_sum, h1, mul_zero]
  have h4 : ∑ t ∈ range p, 2 * (b' - b) * ((y (s + t) - (a' + b' * (s + t : ℕ))) * (s + t : ℕ)) = 0 := by rw [← mul_sum, h2, mul_zero]
  have : ∑ t ∈ range p, (y (s + t) - (a + b * (s + t : ℕ))) ^ 2 =
      (∑ t ∈ range p, (y (s + t) - (a' + b' * (s + t : ℕ))) ^ 2) +
      (∑ t ∈ range p, ((a' - a) + (b' - b) * (s + t : ℕ)) ^ 2) +
      (∑ t ∈ range p, 2 * (a' - a) * (y (s + t) - (a' + b' * (s + t : ℕ)))) +
      ∑ t ∈ range p, 2 * (b' - b) * ((y (s + t) - (a' + b' * (s + t : ℕ))) * (s + t : ℕ)) := by
    rw [← sum_add_distrib, ← sum_add_distrib, ← sum_add_distrib]
    apply sum_congr rfl
    intro t _
    ring
  rw [this, h3, h4]; ring

/-- Two lines that agree at two points. -/
theorem line_eq (s p : ℕ) (hp : 2 ≤ p) (a b : ℚ) (h : ∑ t ∈ range p, (a + b * (s + t : ℕ)) ^ 2 = 0) : a = 0 ∧ b = 0 := by
  rw [sum_eq_zero_iff_of_nonneg fun t _ => sq_nonneg _] at h
  have h0 := h 0 (by rw [mem_range]; omega)
  have h1 := h 1 (by rw [mem_range]; omega)
  have h0' : a + b * ((s + 0 : ℕ) : ℚ) = 0 := pow_eq_zero_iff (by norm_num) |>.1 h0
  have h1' : a + b * ((s + 1 : ℕ) : ℚ) = 0 := pow_eq_zero_iff (by norm_num) |>.1 h1
  push_cast at h0' h1'
  have hb : b = 0 := by linear_combination h1' - h0'
  refine ⟨?_, hb⟩
  rw [hb] at h0'; linarith

theorem allFin_map (l : List ℕ) (g : ℕ → Val) (y : ℕ → ℚ) (h : ∀ t ∈ l, g t = .fin (y t)) : allFin (l.map g) = some (l.map y) := by
  induction l with
  | nil => rfl
  | cons a l ih =>
    simp only [List.map_cons]
    rw [h a (by simp)]
    simp only [allFin, ih fun t ht => h t (by simp [ht]), Option.map_some]

theorem lsFit_eq (y : ℕ → ℚ) (s p : ℕ) :
    lsFit (((List.range p).map fun t => y (s + t)).zip ((List.range p).map fun t => ((s + t : ℕ) : ℚ))) =
      (interceptQ y s p, slopeQ y s p) := by
  have hz : ((List.range p).map fun t => y (s + t)).zip ((List.range p).map fun t => ((s + t : ℕ) : ℚ)) =
      (List.range p).map fun t => (y (s + t), ((s + t : ℕ) : ℚ)) := by
    rw [List.zip_map']
  unfold lsFit
  simp only [hz, List.length_map, List.length_range, List.map_map, Function.comp_def, list_range_sum]
  rfl

theorem val_rollingOLS (p : ℕ) (hp : 1 ≤ p) (ys : List Val) (y : ℕ → ℚ) (i : ℕ) (hi : i < ys.length)
    (hy : ∀ j < ys.length, val ys j = .fin (y j)) :
    (rollingOLS p ys).getD i (.nan, .nan) =
      if p ≤ i + 1 then (.fin (interceptQ y (i + 1 - p) p), .fin (slopeQ y (i + 1 - p) p)) else (.nan, .nan) := by
  unfold rollingOLS
  rw [List.getD_eq_getElem?_getD]
  rw [prefixMap_getElem?_of_lt _ ys i hi]
  simp only [Option.getD_some]
  have hl : (ys.take (i + 1)).length = i + 1 := by rw [List.length_take]; omega
  rw [hl]
  split
  · next h =>
    rw [window_take p ys i hi, show min p (i + 1) = p by omega,
      allFin_map (List.range p) _ (fun t => y (i + 1 - p + t)) (fun t ht => hy _ (by rw [List.mem_range] at ht; omega))]
    simp only
    rw [lsFit_eq]
  · rfl

namespace Ind

theorem val_rowNumbers (n i : ℕ) (h : i < n) : val (rowNumbers n) i = .fin ((i : ℚ) + 1) := by
  rw [val_lt _ _ (by simpa using h)]; simp [rowNumbers]

theorem LinearRegressionSlope.exact (p : ℕ) (hp : 1 ≤ p) (F T : Frame) (y : ℕ → ℚ) (lc : (F.col "close").length = F.len)
    (hc : ∀ i < F.len, val (F.col "close") i = .fin (y i)) (h : calcTi p F = .ok T) (i : ℕ) (hi : i < F.len) :
    val (T.col "lrs") i = if p ≤ i + 1 then (if p = 1 then .nan else .fin (roundQ 4 (slopeQ y (i + 1 - p) p))) else .nan := by
  unfold calcTi at h
  split at h
  · simp at h
  simp only [Except.ok.injEq] at h
  subst h
  rw [Frame.col_single, val_roundS, val_divS, val_subS, val_subS, val_scaleS, val_scaleS, val_mulS, val_mulS]
  have hn : ∀ j < F.len, val (rowNumbers F.len) j = .fin ((j : ℚ) + 1) := fun j hj => val_rowNumbers _ _ hj
  rw [val_rolling_fin p p aggSum _ (fun j => y j * ((j : ℚ) + 1)) i (by simp [lc, hi])
      (fun j _ hj => by rw [val_mulS, hc j (by omega), hn j (by omega), Val.fin_mul]),
    val_rolling_fin p p aggSum _ (fun j => (j : ℚ) + 1) i (by simp [hi]) (fun j _ hj => hn j (by omega)),
    val_rolling_fin p p aggSum (F.col "close") y i (by omega) (fun j _ hj => hc j (by omega)),
    val_rolling_fin p p aggSum _ (fun j => ((j : ℚ) + 1) * ((j : ℚ) + 1)) i (by simp [hi])
      (fun j _ hj => by rw [val_map _ rfl, hn j (by omega), Val.fin_mul])]
  by_cases hpi : p ≤ i + 1
  · simp only [show min p (i + 1) = p by omega, le_refl, if_true, aggSum, if_pos hpi, Val.fin_mul, Val.fin_sub, list_range_sum]
    set s := i + 1 - p with hs
    have e1 : ∑ t ∈ range p, y (s + t) * (((s + t : ℕ) : ℚ) + 1) =
        (∑ t ∈ range p, y (s + t) * (s + t : ℕ)) + ∑ t ∈ range p, y (s + t) := by
      rw [← sum_add_distrib]; apply sum_congr rfl; intro t _; ring
    have e2 : ∑ t ∈ range p, (((s + t : ℕ) : ℚ) + 1) = (∑ t ∈ range p, ((s + t : ℕ) : ℚ)) + p := by
      rw [sum_add_distrib, sum_const, card_range]; simp
    have e3 : ∑ t ∈ range p, (((s + t : ℕ) : ℚ) + 1) * (((s + t : ℕ) : ℚ) + 1) =
        (∑ t ∈ range p, ((s + t : ℕ) : ℚ) * (s + t : ℕ)) + 2 * (∑ t ∈ range p, ((s + t : ℕ) : ℚ)) + p := by
      have : (p : ℚ) = ∑ _t ∈ range p, (1 : ℚ) := by simp
      rw [mul_sum]
      conv_rhs => rw [this]
      rw [← sum_add_distrib, ← sum_add_distrib]; apply sum_congr rfl; intro t _; ring
    rw [e1, e2, e3]
    have hden : (p : ℚ) * ((∑ t ∈ range p, ((s + t : ℕ) : ℚ) * (s + t : ℕ)) + 2 * (∑ t ∈ range p, ((s + t : ℕ) : ℚ)) + p) -
        ((∑ t ∈ range p, ((s + t : ℕ) : ℚ)) + p) * ((∑ t ∈ range p, ((s + t : ℕ) : ℚ)) + p) =
        (p : ℚ) * (∑ t ∈ range p, ((s + t : ℕ) : ℚ) * (s + t : ℕ)) -
        (∑ t ∈ range p, ((s + t : ℕ) : ℚ)) * ∑ t ∈ range p, ((s + t : ℕ) : ℚ) := by ring
    have hnum : (p : ℚ) * ((∑ t ∈ range p, y (s + t) * (s + t : ℕ)) + ∑ t ∈ range p, y (s + t)) -
        ((∑ t ∈ range p, ((s + t : ℕ) : ℚ)) + p) * ∑ t ∈ range p, y (s + t) =
        p * (∑ t ∈ range p, y (s + t) * (s + t : ℕ)) - (∑ t ∈ range p, ((s + t : ℕ) : ℚ)) * ∑ t ∈ range p, y (s + t) := by ring
    rw [hden, hnum]
    by_cases h1 : p = 1
    · subst h1
      simp only [if_true, range_one, sum_singleton]
      have z1 : ((1 : ℕ) : ℚ) * (y (s + 0) * ((s + 0 : ℕ) : ℚ)) - ((s + 0 : ℕ) : ℚ) * y (s + 0) = 0 := by push_cast; ring
      have z2 : ((1 : ℕ) : ℚ) * (((s + 0 : ℕ) : ℚ) * ((s + 0 : ℕ) : ℚ)) - ((s + 0 : ℕ) : ℚ) * ((s + 0 : ℕ) : ℚ) = 0 := by
        push_cast; ring
      rw [z1, z2]
      simp [Val.div, Val.round]
    · rw [Val.fin_div _ _ (det_pos s p (by omega)).ne', if_neg h1]
      rfl
  · simp only [show ¬ p ≤ min p (i + 1) by omega, if_false, if_neg hpi]
    simp [Val.round]

theorem fillna_fin (xs : List Val) (x : ℕ → ℚ) (hx : ∀ j < xs.length, val xs j = .fin (x j)) : fillna 0 xs = xs := by
  unfold fillna
  conv_rhs => rw [← List.map_id xs]
  apply List.map_congr_left
  intro v hv
  obtain ⟨j, hj, rfl⟩ := mem_val hv
  rw [hx j hj]; rfl

theorem LinearRegressionIndicator.exact (p : ℕ) (hp : 1 ≤ p) (F T : Frame) (y : ℕ → ℚ) (lc : (F.col "close").length = F.len)
    (hc : ∀ i < F.len, val (F.col "close") i = .fin (y i)) (h : calcTi p F = .ok T) (i : ℕ) (hi : i < F.len) :
    val (T.col "lri") i =
      if p ≤ i + 1 then .fin (roundQ 4 (interceptQ y (i + 1 - p) p + slopeQ y (i + 1 - p) p * i)) else .nan := by
  unfold calcTi at h
  split at h
  · simp at h
  simp only [Except.ok.injEq] at h
  subst h
  rw [Frame.col_single, fillna_fin _ y (by rw [lc]; exact hc)]
  have := val_rollingOLS p hp (F.col "close") y i (by omega) (by rw [lc]; exact hc)
  rw [List.getD_eq_getElem _ _ (by simp [lc, hi])] at this
  rw [val_lt _ _ (by simp [lc, hi]), List.getElem_zipWith, this, List.getElem_range]
  split
  · simp only [Val.fin_mul, Val.fin_add, Val.fin_round]
    rw [mul_comm]
  · simp [Val.round]

theorem roundQ_add (k : ℕ) (a b : ℚ) : roundQ k (roundQ k a + roundQ k b) = roundQ k a + roundQ k b := by
  have : roundQ k a + roundQ k b = ((rint (a * 10 ^ k) + rint (b * 10 ^ k) : ℤ) : ℚ) / 10 ^ k := by
    unfold roundQ; push_cast; ring
  rw [this]; exact roundQ_div k _

theorem TimeSeriesForecast.exact (p : ℕ) (hp : 2 ≤ p) (F T : Frame) (y : ℕ → ℚ) (lc : (F.col "close").length = F.len)
    (hc : ∀ i < F.len, val (F.col "close") i = .fin (y i)) (h : calcTi p F = .ok T) (i : ℕ) (hi : i < F.len) :
    val (T.col "tsf") i = if p ≤ i + 1 then
      .fin (roundQ 4 (slopeQ y (i + 1 - p) p) + roundQ 4 (interceptQ y (i + 1 - p) p + slopeQ y (i + 1 - p) p * i)) else .nan := by
  have hsub : (F.sub ["close"]).col "close" = F.col "close" := sub_col_fin F _ _ (by simp) y lc hc
  have hlen : (F.sub ["close"]).len = F.len := rfl
  unfold calcTi forecast at h
  split at h
  · simp [bind, Except.bind, throw, throwThe, MonadExceptOf.throw] at h
  cases hs : LinearRegressionSlope.calcTi p (F.sub ["close"]) with
  | error e => rw [hs] at h; simp [bind, Except.bind, pure, Except.pure] at h
  | ok S =>
    cases hr : LinearRegressionIndicator.calcTi p (F.sub ["close"]) with
    | error e => rw [hs, hr] at h; simp [bind, Except.bind, pure, Except.pure] at h
    | ok R =>
      rw [hs, hr] at h
      simp only [pure, Except.pure, bind, Except.bind, Except.ok.injEq] at h
      subst h
      have h1 := LinearRegressionSlope.exact p (by omega) _ S y (by rw [hsub, hlen, lc]) (by rw [hsub, hlen]; exact hc) hs i hi
      have h2 := LinearRegressionIndicator.exact p (by omega) _ R y (by rw [hsub, hlen, lc]) (by rw [hsub, hlen]; exact hc) hr i hi
      by_cases hpi : p ≤ i + 1
      · rw [if_pos hpi, if_neg (by omega)] at h1
        rw [if_pos hpi] at h2
        have l1 : i < (S.col "lrs").length := by
          by_contra hcon
          rw [val_ge _ _ (by omega)] at h1; simp at h1
        have l2 : i < (R.col "lri").length := by
          by_contra hcon
          rw [val_ge _ _ (by omega)] at h2; simp at h2
        rw [Frame.col_single, val_roundS, val_maskBefore, if_neg (by omega), sumRows, val_zipV _ _ _ _ l1 l2, h1, h2, if_pos hpi]
        simp only [sumSkip, List.filter_cons, Val.isNan, Bool.not_false, if_true, List.filter_nil, List.foldl_cons, List.foldl_nil,
          Val.zero_eq, Val.fin_add, Val.fin_round, zero_add, roundQ_add]
      · rw [Frame.col_single, val_roundS, val_maskBefore, if_pos (by omega), if_neg hpi]; rfl

end Ind
end TTI
