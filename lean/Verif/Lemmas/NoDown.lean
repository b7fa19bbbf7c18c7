import Verif.Lemmas.Volume

set_option autoImplicit false

/-!
# RMI and RSI without down moves
-/

namespace TTI
namespace Ind

theorem rmi_no_down {u d : Val} (hu : Val.Sat (fun q => 0 ≤ q) u) (hd : Val.Sat (fun q => 0 ≤ q ∧ q ≤ 0) d) :
    Val.div (Val.mul (.fin 100) (Val.div u d)) (Val.add 1 (Val.div u d)) = .nan := by
  cases d with
  | nan => simp
  | pinf => simp [Val.Sat] at hd
  | ninf => simp [Val.Sat] at hd
  | fin b =>
    have hb : b = 0 := le_antisymm hd.2 hd.1
    subst hb
    cases u with
    | nan => simp
    | pinf => simp [Val.Sat] at hu
    | ninf => simp [Val.Sat] at hu
    | fin a =>
      have ha : 0 ≤ a := hu
      rcases eq_or_lt_of_le ha with rfl | h
      · simp [Val.div]
      · have e : Val.infMul true 100 = .pinf := by decide +kernel
        simp [Val.div, h, h.ne', Val.one_eq, Val.add, Val.mul, e]

theorem RelativeMomentumIndex.no_down (F : Frame) (c : ℕ → ℚ) (p m : ℕ) (hp : 1 ≤ p) (T : Frame) (lc : (F.col "close").length = F.len)
    (hc : ∀ i < F.len, val (F.col "close") i = .fin (c i)) (hd : ∀ j < F.len, m ≤ j → c (j - m) ≤ c j)
    (h : calcTi p m F = .ok T) (i : ℕ) (hi : i < F.len) : val (T.col "rmi") i = .nan := by
  unfold calcTi at h
  simp only at h
  split at h
  · simp at h
  simp only [Except.ok.injEq] at h
  subst h
  rw [Frame.col_single, val_roundS]
  unfold raw
  simp only
  rw [val_divS, val_scaleS, val_map _ (by simp), val_divS]
  have hch : ∀ j ≤ i, val (subS (F.col "close") (shift m (F.col "close"))) j =
      if j < m then .nan else .fin (c j - c (j - m)) := by
    intro j hj
    exact val_change m _ _ j (by omega) (by rw [lc]; exact hc)
  rw [rmi_no_down]
  · rfl
  · apply wilder_sat convexP_nonneg _ _ hp _ _ (by simp [lc, hi])
    intro j hj
    rw [val_map_lt _ _ _ (by simp [lc]; omega), hch j hj]
    split
    · simp [upward, Val.le, Val.lt]
    · simp only [upward, Val.zero_eq, Val.fin_le, Val.fin_lt, decide_eq_true_eq]
      split_ifs <;> simp only [Val.sat_fin, Val.sat_nan] <;> linarith
  · apply wilder_sat (convexP_between 0 0) _ _ hp _ _ (by simp [lc, hi])
    intro j hj
    rw [val_map_lt _ _ _ (by simp [lc]; omega), hch j hj]
    split
    · simp [downward, Val.le, Val.lt]
    · next hjm =>
      have := hd j (by omega) (by omega)
      simp only [downward, Val.zero_eq, Val.fin_le, Val.fin_lt, decide_eq_true_eq]
      rw [if_pos (by linarith)]
      exact ⟨le_rfl, le_rfl⟩

theorem RelativeStrengthIndex.smooth_before (p : ℕ) (xs : List Val) (i : ℕ) (hi : i < p) : val (smooth p xs) i = .nan := by
  by_cases hx : i < xs.length
  · unfold smooth
    rw [val_prefixMap _ _ _ hx, if_pos (by rw [List.length_take]; omega)]
  · rw [val_ge _ _ (by simp; omega)]

theorem RelativeStrengthIndex.smooth_first (p : ℕ) (xs : List Val) (hp : p < xs.length) :
    val (smooth p xs) p = meanSkip (xs.take (p + 1)) := by
  unfold smooth
  rw [val_prefixMap _ _ _ hp, if_neg (by rw [List.length_take]; omega), List.take_take, Nat.min_self, List.drop_take]
  simp

theorem RelativeStrengthIndex.smooth_next (p : ℕ) (xs : List Val) (i : ℕ) (hp : p ≤ i) (hi : i + 1 < xs.length) :
    val (smooth p xs) (i + 1) = Val.round 4 (Val.add (val (smooth p xs) i)
      (Val.div (Val.sub (val xs (i + 1)) (val (smooth p xs) i)) (.fin p))) := by
  unfold smooth
  rw [val_prefixMap _ _ _ hi, val_prefixMap _ _ _ (by omega), if_neg (by rw [List.length_take]; omega),
    if_neg (by rw [List.length_take]; omega), List.take_take, List.take_take, show min (p + 1) (i + 1) = p + 1 by omega,
    show min (p + 1) (i + 1 + 1) = p + 1 by omega, List.take_succ_eq_append_getElem hi, List.drop_append,
    List.length_take, show p + 1 - min (i + 1) xs.length = 0 by omega, List.drop_zero, List.foldl_append, val_lt _ _ hi]
  rfl

/-- The smoothed changes as numbers. -/
theorem RelativeStrengthIndex.smooth_fin (p : ℕ) (hp : 1 ≤ p) (xs : List Val) (u : ℕ → ℚ) (h0 : val xs 0 = .nan)
    (hu : ∀ j, 0 < j → j < xs.length → val xs j = .fin (u j)) (hlen : p < xs.length) :
    val (smooth p xs) p = .fin ((∑ j ∈ Finset.range p, u (j + 1)) / p) := by
  rw [smooth_first p xs hlen]
  have e : xs.take (p + 1) = .nan :: ((List.range p).map fun t => Val.fin (u (t + 1))) := by
    apply List.ext_getElem
    · simp; omega
    · intro i h1 h2
      simp only [List.length_take] at h1
      rw [List.getElem_take, ← val_lt _ _ (by omega)]
      cases i with
      | zero => simpa using h0
      | succ i => rw [List.getElem_cons_succ, List.getElem_map, List.getElem_range, hu _ (by omega) (by omega)]
  have e2 : ((Val.nan :: ((List.range p).map fun t => Val.fin (u (t + 1)))).filter fun x => !x.isNan) =
      (List.range p).map fun t => Val.fin (u (t + 1)) := by
    rw [List.filter_cons_of_neg (by simp [Val.isNan]), List.filter_eq_self]
    intro x hx
    rw [List.mem_map] at hx
    obtain ⟨t, -, rfl⟩ := hx
    rfl
  unfold meanSkip
  rw [e, e2]
  have hne : ((List.range p).map fun t => Val.fin (u (t + 1))) ≠ [] := by
    intro hc
    rw [List.map_eq_nil_iff, List.range_eq_nil] at hc
    omega
  simp only
  rw [if_neg hne]
  have := Ind.foldl_add_fin (List.range p) (fun t => Val.fin (u (t + 1))) (fun t => u (t + 1)) (fun _ _ => rfl) 0
  rw [List.filter_eq_self.2 (by
    intro x hx
    rw [List.mem_map] at hx
    obtain ⟨t, -, rfl⟩ := hx
    rfl)] at this
  rw [Val.zero_eq, this]
  simp only [List.length_map, List.length_range, zero_add]
  rw [Val.fin_div _ _ (by
    have : (0 : ℚ) < p := by exact_mod_cast hp
    exact this.ne')]
  congr 2

theorem roundQ_two_thirds : roundQ 4 (2 / 30000) = 1 / 10000 := by decide +kernel

theorem RelativeStrengthIndex.smooth_zero (p : ℕ) (hp : 1 ≤ p) (xs : List Val) (h0 : val xs 0 = .nan)
    (hu : ∀ j, 0 < j → j < xs.length → val xs j = .fin 0) (i : ℕ) (hpi : p ≤ i) (hi : i < xs.length) :
    val (smooth p xs) i = .fin 0 := by
  induction i with
  | zero => omega
  | succ i ih =>
    rcases Nat.lt_or_ge i p with h | h
    · rw [show i + 1 = p by omega, smooth_fin p hp xs (fun _ => 0) h0 hu (by omega)]
      simp
    · rw [smooth_next p xs i h hi, ih h (by omega), hu _ (by omega) hi]
      have : (p : ℚ) ≠ 0 := by
        have : (0 : ℚ) < p := by exact_mod_cast hp
        exact this.ne'
      simp [Val.fin_div _ _ this]

theorem RelativeStrengthIndex.smooth_kept (p : ℕ) (hp : 3 ≤ p) (xs : List Val) (u : ℕ → ℚ) (h0 : val xs 0 = .nan)
    (hu : ∀ j, 0 < j → j < xs.length → val xs j = .fin (u j)) (hpos : ∀ j, 0 < j → j < xs.length → 0 ≤ u j)
    (i : ℕ) (hpi : p ≤ i) (hi : i < xs.length) (j : ℕ) (hj : 0 < j) (hji : j ≤ i) (hup : (p : ℚ) / 10000 ≤ u j) :
    ∃ s, val (smooth p xs) i = .fin s ∧ 1 / 10000 ≤ s := by
  have hp3 : (3 : ℚ) ≤ p := by exact_mod_cast hp
  have hp0 : (0 : ℚ) < p := by linarith
  have hnn : ∀ k, p ≤ k → k < xs.length → ∃ s, val (smooth p xs) k = .fin s ∧ 0 ≤ s := by
    intro k
    induction k with
    | zero => intro h; omega
    | succ k ih =>
      intro hk hk'
      rcases Nat.lt_or_ge k p with h | h
      · rw [show k + 1 = p by omega, smooth_fin p (by omega) xs u h0 hu (by omega)]
        refine ⟨_, rfl, div_nonneg (Finset.sum_nonneg fun t ht => ?_) hp0.le⟩
        rw [Finset.mem_range] at ht
        exact hpos _ (by omega) (by omega)
      · obtain ⟨s, hs, hs0⟩ := ih h (by omega)
        rw [smooth_next p xs k h hk', hs, hu _ (by omega) hk', Val.fin_sub, Val.fin_div _ _ hp0.ne', Val.fin_add, Val.fin_round]
        refine ⟨_, rfl, ?_⟩
        have hx := hpos (k + 1) (by omega) hk'
        have e : s + (u (k + 1) - s) / p = s * (p - 1) / p + u (k + 1) / p := by field_simp; ring
        have : 0 ≤ s + (u (k + 1) - s) / p := by
          rw [e]
          apply add_nonneg
          · apply div_nonneg _ hp0.le
            exact mul_nonneg hs0 (by linarith)
          · exact div_nonneg hx hp0.le
        have := roundQ_mono 4 this
        simpa using this
  induction i with
  | zero => omega
  | succ i ih =>
    rcases Nat.lt_or_ge i p with h | h
    · have e : i + 1 = p := by omega
      rw [e, smooth_fin p (by omega) xs u h0 hu (by omega)]
      refine ⟨_, rfl, ?_⟩
      rw [le_div_iff₀ hp0]
      have : u j ≤ ∑ t ∈ Finset.range p, u (t + 1) := by
        have := Finset.single_le_sum (f := fun t => u (t + 1)) (s := Finset.range p) (fun t ht => by
          rw [Finset.mem_range] at ht
          exact hpos _ (by omega) (by omega)) (show j - 1 ∈ Finset.range p by rw [Finset.mem_range]; omega)
        simpa [show j - 1 + 1 = j by omega] using this
      linarith
    · rcases Nat.lt_or_ge i j with hlt | hge
      · have e : j = i + 1 := by omega
        subst e
        obtain ⟨s, hs, hs0⟩ := hnn i h (by omega)
        rw [smooth_next p xs i h hi, hs, hu _ (by omega) hi, Val.fin_sub, Val.fin_div _ _ hp0.ne', Val.fin_add, Val.fin_round]
        refine ⟨_, rfl, ?_⟩
        have e : s + (u (i + 1) - s) / p = s * (p - 1) / p + u (i + 1) / p := by field_simp; ring
        have h1 : 2 / 30000 ≤ s + (u (i + 1) - s) / p := by
          rw [e]
          have a : 0 ≤ s * (p - 1) / p := by
            apply div_nonneg _ hp0.le
            exact mul_nonneg hs0 (by linarith)
          have b : 1 / 10000 ≤ u (i + 1) / p := by rw [le_div_iff₀ hp0]; linarith
          linarith
        have := roundQ_mono 4 h1
        rwa [roundQ_two_thirds] at this
      · obtain ⟨s, hs, hs0⟩ := ih h (by omega) hge
        rw [smooth_next p xs i h hi, hs, hu _ (by omega) hi, Val.fin_sub, Val.fin_div _ _ hp0.ne', Val.fin_add, Val.fin_round]
        refine ⟨_, rfl, ?_⟩
        have hx := hpos (i + 1) (by omega) hi
        have e : s + (u (i + 1) - s) / p = s * (1 - 1 / p) + u (i + 1) / p := by field_simp; ring
        have h1 : 2 / 30000 ≤ s + (u (i + 1) - s) / p := by
          rw [e]
          have a : 2 / 3 ≤ 1 - 1 / (p : ℚ) := by
            have : 1 / (p : ℚ) ≤ 1 / 3 := one_div_le_one_div_of_le (by norm_num) hp3
            linarith
          have b : 0 ≤ u (i + 1) / p := div_nonneg hx hp0.le
          nlinarith
        have := roundQ_mono 4 h1
        rwa [roundQ_two_thirds] at this

theorem RelativeStrengthIndex.no_down (F : Frame) (c : ℕ → ℚ) (p : ℕ) (T : Frame) (lc : (F.col "close").length = F.len)
    (hc : ∀ i < F.len, val (F.col "close") i = .fin (c i)) (hd : ∀ j < F.len, 1 ≤ j → c (j - 1) ≤ c j)
    (h : calcTi p F = .ok T) (hp : 3 ≤ p) (i : ℕ) (hi : i < F.len) (hpi : p ≤ i) (j : ℕ) (hj : 0 < j) (hji : j ≤ i)
    (hup : (p : ℚ) / 10000 ≤ c j - c (j - 1)) : val (T.col "rsi") i = .fin 100 := by
  unfold calcTi at h
  split at h
  · simp at h
  simp only [Except.ok.injEq] at h
  subst h
  rw [Frame.col_single, val_roundS]
  unfold raw
  simp only
  rw [val_map _ (by simp), val_divS]
  set up := maskBefore 1 (zipV upward (F.col "close") (shift 1 (F.col "close"))) with hup'
  set down := maskBefore 1 (zipV downward (F.col "close") (shift 1 (F.col "close"))) with hdown'
  have lu : up.length = F.len := by simp [hup', lc]
  have ld : down.length = F.len := by simp [hdown', lc]
  have vu : ∀ k, 0 < k → k < up.length → val up k = .fin (roundQ 4 (c k - c (k - 1))) := by
    intro k hk hk'
    rw [hup', val_maskBefore, if_neg (by omega), val_zipV _ _ _ _ (by omega) (by simp; omega), val_shift _ _ _ (by omega),
      if_neg (by omega), hc k (by omega), hc (k - 1) (by omega)]
    unfold upward
    simp only [Val.fin_lt, decide_eq_true_eq]
    have := hd k (by omega) hk
    split
    · simp
    · next hn =>
      have e : c k - c (k - 1) = 0 := by linarith
      rw [e]; rfl
  have vd : ∀ k, 0 < k → k < down.length → val down k = .fin 0 := by
    intro k hk hk'
    rw [hdown', val_maskBefore, if_neg (by omega), val_zipV _ _ _ _ (by omega) (by simp; omega), val_shift _ _ _ (by omega),
      if_neg (by omega), hc k (by omega), hc (k - 1) (by omega)]
    unfold downward
    simp only [Val.fin_lt, decide_eq_true_eq]
    have := hd k (by omega) hk
    rw [if_neg (by linarith), Val.zero_eq]
    simp
  obtain ⟨s, hs, hs0⟩ := smooth_kept p hp up _ (by rw [hup', val_maskBefore, if_pos (by omega)]) vu
    (fun k hk hk' => by
      have := roundQ_mono 4 (show 0 ≤ c k - c (k - 1) by have := hd k (by omega) hk; linarith)
      simpa using this) i hpi (by omega) j hj hji
    (by
      have h1 := roundQ_mono 4 hup
      have h2 := roundQ_div 4 p
      norm_num at h2
      rwa [h2] at h1)
  rw [hs, smooth_zero p (by omega) down (by rw [hdown', val_maskBefore, if_pos (by omega)]) vd i hpi (by omega)]
  have hs1 : 0 < s := by linarith
  simp [Val.div, hs1.ne', hs1, Val.one_eq, Val.add, Val.hundred_eq]

end Ind
end TTI
