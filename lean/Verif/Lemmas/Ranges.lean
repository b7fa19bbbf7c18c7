import Verif.Lemmas.Prices
import Verif.Lemmas.Params

set_option autoImplicit false

/-!
# Ranges of the oscillators
-/

namespace TTI

/-- The named columns of the frame are the numbers `x`, and every row is a proper bar. -/
structure Prices (F : Frame) (names : List String) (x : String → ℕ → ℚ) : Prop where
  len : ∀ n ∈ names, (F.col n).length = F.len
  num : ∀ n ∈ names, ∀ i < F.len, val (F.col n) i = .fin (x n i)
  bar : ∀ i < F.len, Spec.Bar fun n => x n i

theorem Val.zero_eq : (0 : Val) = .fin 0 := congrArg Val.fin Nat.cast_zero
theorem Val.one_eq : (1 : Val) = .fin 1 := congrArg Val.fin Nat.cast_one
theorem Val.two_eq : (2 : Val) = .fin 2 := rfl
theorem Val.hundred_eq : (100 : Val) = .fin 100 := rfl

@[simp] theorem roundQ_hundred (k : ℕ) : roundQ k 100 = 100 := by
  have := roundQ_intCast k 100; exact_mod_cast this
@[simp] theorem roundQ_neg_hundred (k : ℕ) : roundQ k (-100) = -100 := by
  have := roundQ_intCast k (-100); exact_mod_cast this
@[simp] theorem roundQ_minus_one (k : ℕ) : roundQ k (-1) = -1 := by
  have := roundQ_intCast k (-1); exact_mod_cast this

theorem roundS_range {lo hi : ℚ} (hlo : roundQ 4 lo = lo) (hhi : roundQ 4 hi = hi) (xs : List Val)
    (h : ∀ i < xs.length, Val.Sat (fun q => lo ≤ q ∧ q ≤ hi) (val xs i)) :
    ∀ v ∈ roundS 4 xs, Val.Sat (fun q => lo ≤ q ∧ q ≤ hi) v := by
  intro v hv
  unfold roundS at hv
  rw [List.mem_map] at hv
  obtain ⟨w, hw, rfl⟩ := hv
  obtain ⟨i, hi', rfl⟩ := mem_val hw
  exact (h i hi').round hlo hhi

theorem Val.Sat2.isFin {Q : ℚ → ℚ → Prop} {x y : Val} (h : Val.Sat2 Q x y) : x.isFin ∨ x = .nan := by
  rcases h.cases with ⟨rfl, -⟩ | ⟨-, a, rfl⟩ | ⟨a, b, rfl, -, -⟩ <;> simp [Val.isFin]

theorem Val.Sat2.pct {x y : Val} (h : Val.Sat2 (fun a b => 0 ≤ a ∧ a ≤ b) x y) :
    Val.Sat (fun q => 0 ≤ q ∧ q ≤ 100) (Val.div (Val.mul (.fin 100) x) y) := by
  rw [Val.div_scale 100 (by norm_num) _ _ h.isFin]
  have := h.div_unit.scale (c := 100) (by norm_num)
  exact this.mono fun q hq => ⟨by linarith [hq.1], by linarith [hq.2]⟩

theorem Val.Sat2.pct_sym {x y : Val} (h : Val.Sat2 (fun a b => |a| ≤ b) x y) :
    Val.Sat (fun q => -100 ≤ q ∧ q ≤ 100) (Val.div (Val.mul (.fin 100) x) y) := by
  rw [Val.div_scale 100 (by norm_num) _ _ h.isFin]
  have := h.div_sym.scale (c := 100) (by norm_num)
  exact this.mono fun q hq => ⟨by linarith [hq.1], by linarith [hq.2]⟩

/-- Up moves over all moves. -/
theorem Val.Sat2.share {u d : Val} (h : Val.Sat2 (fun a b => 0 ≤ a ∧ 0 ≤ b) u d) :
    Val.Sat2 (fun a b => 0 ≤ a ∧ a ≤ b) u (Val.add u d) := by
  rcases h.cases with ⟨rfl, rfl | ⟨b, rfl⟩⟩ | ⟨rfl, a, rfl⟩ | ⟨a, b, rfl, rfl, h1, h2⟩
  · simp
  · simp
  · simp
  · simp only [Val.fin_add, Val.sat2_fin]; exact ⟨h1, by linarith⟩

theorem Val.Sat2.balance {u d : Val} (h : Val.Sat2 (fun a b => 0 ≤ a ∧ 0 ≤ b) u d) :
    Val.Sat2 (fun a b => |a| ≤ b) (Val.sub u d) (Val.add u d) := by
  rcases h.cases with ⟨rfl, rfl | ⟨b, rfl⟩⟩ | ⟨rfl, a, rfl⟩ | ⟨a, b, rfl, rfl, h1, h2⟩
  · simp
  · simp
  · simp
  · simp only [Val.fin_add, Val.fin_sub, Val.sat2_fin]
    rw [abs_le]; constructor <;> linarith

/-- Change of a column against an earlier row. -/
theorem val_change (k : ℕ) (xs : List Val) (x : ℕ → ℚ) (i : ℕ) (h : i < xs.length)
    (hx : ∀ j < xs.length, val xs j = .fin (x j)) :
    val (subS xs (shift k xs)) i = if i < k then .nan else .fin (x i - x (i - k)) := by
  rw [val_subS, val_shift k xs i h, hx i h]
  split
  · simp
  · rw [hx (i - k) (by omega), Val.fin_sub]

namespace Ind

/-! ## Intraday Momentum Index, Chande Momentum Oscillator -/

theorem IntradayMomentumIndex.range (F : Frame) (x : String → ℕ → ℚ) (p : ℕ) (T : Frame)
    (hx : Prices F ["close", "open"] x) (h : calcTi p F = .ok T) :
    ∀ v ∈ T.col "imi", Val.Sat (fun q => 0 ≤ q ∧ q ≤ 100) v := by
  have lc := hx.len "close" (by simp)
  have lo := hx.len "open" (by simp)
  have hc := hx.num "close" (by simp)
  have ho := hx.num "open" (by simp)
  unfold calcTi at h
  split at h
  · simp at h
  simp only [Except.ok.injEq] at h
  subst h
  rw [Frame.col_single]
  refine roundS_range (by simp) (by simp) _ ?_
  intro i hi
  simp [lc, lo] at hi
  rw [val_divS, val_scaleS, val_addS]
  apply Val.Sat2.pct
  apply Val.Sat2.share
  apply rolling_sum_sat2 additive_nonneg
  · simp [lc, lo, hi]
  · simp [lc, lo, hi]
  · intro j hj
    simp only [val_zeroBelow, val_subS, hc j (by omega), ho j (by omega), Val.fin_sub, Val.zero_eq, Val.fin_lt,
      decide_eq_true_eq]
    split_ifs <;> simp only [Val.sat2_fin] <;> constructor <;> linarith

theorem ChandeMomentumOscillator.range (F : Frame) (x : ℕ → ℚ) (p : ℕ) (T : Frame)
    (lc : (F.col "close").length = F.len) (hc : ∀ i < F.len, val (F.col "close") i = .fin (x i)) (h : calcTi p F = .ok T) :
    ∀ v ∈ T.col "cmo", Val.Sat (fun q => -100 ≤ q ∧ q ≤ 100) v := by
  unfold calcTi at h
  split at h
  · simp at h
  simp only [Except.ok.injEq] at h
  subst h
  rw [Frame.col_single]
  refine roundS_range (by simp) (by simp) _ ?_
  intro i hi
  simp [lc] at hi
  rw [val_divS, val_scaleS, val_addS, val_subS]
  apply Val.Sat2.pct_sym
  apply Val.Sat2.balance
  rw [val_map _ rfl]
  have hch : ∀ j ≤ i, val (diffS 1 (F.col "close")) j = if j < 1 then .nan else .fin (x j - x (j - 1)) := by
    intro j hj
    exact val_change 1 _ x j (by omega) (by rw [lc]; exact hc)
  have h2 : Val.Sat2 (fun a b => 0 ≤ a ∧ b ≤ 0) (val (rolling p p aggSum (zeroBelow (diffS 1 (F.col "close")))) i)
      (val (rolling p p aggSum (zeroAbove (diffS 1 (F.col "close")))) i) := by
    apply rolling_sum_sat2 ⟨⟨le_refl _, le_refl _⟩, fun _ _ _ _ h1 h2 => ⟨add_nonneg h1.1 h2.1, add_nonpos h1.2 h2.2⟩⟩
    · simp [lc, hi]
    · simp [lc, hi]
    · intro j hj
      simp only [val_zeroBelow, val_zeroAbove, hch j hj]
      by_cases h0 : j < 1
      · simp [h0, Val.lt, Val.zero_eq]
      · simp only [if_neg h0, Val.zero_eq, Val.fin_lt, decide_eq_true_eq]
        split_ifs <;> simp only [Val.sat2_fin] <;> constructor <;> linarith
  rcases h2.cases with ⟨h1, h2 | ⟨b, h2⟩⟩ | ⟨h2, a, h1⟩ | ⟨a, b, h1, h2, h3⟩ <;> rw [h1, h2]
  · simp
  · simp
  · simp
  · simp only [Val.fin_abs, Val.sat2_fin]
    exact ⟨h3.1, abs_nonneg _⟩

/-! ## Relative Momentum Index, Relative Strength Index, Relative Volatility Index -/

theorem rmi_ratio {u d : Val} (h : Val.Sat2 (fun a b => 0 ≤ a ∧ 0 ≤ b) u d) :
    Val.Sat (fun q => 0 ≤ q ∧ q ≤ 100) (Val.div (Val.mul (.fin 100) (Val.div u d)) (Val.add 1 (Val.div u d))) := by
  rcases h.cases with ⟨rfl, -⟩ | ⟨rfl, a, rfl⟩ | ⟨a, b, rfl, rfl, h1, h2⟩
  · simp
  · simp
  · rcases eq_or_ne b 0 with rfl | hb
    · rcases eq_or_ne a 0 with rfl | ha
      · simp [Val.div]
      · have hp : 0 < a := lt_of_le_of_ne h1 (Ne.symm ha)
        simp [Val.div, ha, hp, Val.mul, Val.infMul, Val.one_eq, Val.add]
    · have hp : 0 < b := lt_of_le_of_ne h2 (Ne.symm hb)
      have hq : 0 ≤ a / b := div_nonneg h1 h2
      rw [Val.fin_div _ _ hb, Val.one_eq, Val.fin_add, Val.fin_mul, Val.fin_div _ _ (by linarith)]
      refine ⟨div_nonneg (by linarith) (by linarith), ?_⟩
      rw [div_le_iff₀ (by linarith)]; linarith

theorem RelativeMomentumIndex.range (F : Frame) (x : String → ℕ → ℚ) (p m : ℕ) (hp : 1 ≤ p) (T : Frame)
    (hx : Prices F ["close"] x) (h : calcTi p m F = .ok T) :
    ∀ v ∈ T.col "rmi", Val.Sat (fun q => 0 ≤ q ∧ q ≤ 100) v := by
  have lc := hx.len "close" (by simp)
  have hc := hx.num "close" (by simp)
  unfold calcTi at h
  simp only at h
  split at h
  · simp at h
  simp only [Except.ok.injEq] at h
  subst h
  rw [Frame.col_single]
  refine roundS_range (by simp) (by simp) _ ?_
  intro i hi
  simp [lc, raw] at hi
  unfold raw
  simp only
  rw [val_divS, val_scaleS, val_map _ (by simp), val_divS]
  apply rmi_ratio
  have hch : ∀ j ≤ i, val (subS (F.col "close") (shift m (F.col "close"))) j =
      if j < m then .nan else .fin (x "close" j - x "close" (j - m)) := by
    intro j hj
    exact val_change m _ _ j (by omega) (by rw [lc]; exact hc)
  apply Val.Sat2.of_sat (P := fun q => 0 ≤ q) (P' := fun q => 0 ≤ q)
  · apply wilder_sat convexP_nonneg _ _ hp _ _ (by simp [lc, hi])
    intro j hj
    rw [val_map_lt _ _ _ (by simp [lc]; omega), hch j hj]
    split
    · simp [upward, Val.le, Val.lt]
    · simp only [upward, Val.zero_eq, Val.fin_le, Val.fin_lt, decide_eq_true_eq]
      split_ifs <;> simp only [Val.sat_fin, Val.sat_nan] <;> linarith
  · apply wilder_sat convexP_nonneg _ _ hp _ _ (by simp [lc, hi])
    intro j hj
    rw [val_map_lt _ _ _ (by simp [lc]; omega), hch j hj]
    split
    · simp [downward, Val.le, Val.lt]
    · simp only [downward, Val.zero_eq, Val.fin_le, Val.fin_lt, decide_eq_true_eq]
      split_ifs <;> simp only [Val.sat_fin, Val.sat_nan, Val.fin_abs]
      · exact le_refl _
      · exact abs_nonneg _

theorem RelativeStrengthIndex.smooth_nonneg (p : ℕ) (hp : 1 ≤ p) (xs : List Val) (i : ℕ) (hi : i < xs.length)
    (h : ∀ j ≤ i, Val.Sat (fun q => 0 ≤ q) (val xs j)) : Val.Sat (fun q => 0 ≤ q) (val (smooth p xs) i) := by
  unfold smooth
  rw [val_prefixMap _ _ _ hi]
  have hmem : ∀ x ∈ xs.take (i + 1), Val.Sat (fun q => 0 ≤ q) x := by
    intro x hx
    obtain ⟨j, hj, -, rfl⟩ := mem_take_val hx
    exact h j hj
  split
  · trivial
  · exact foldl_sat _ (fun prev x h1 h2 => (wilder_step_sat convexP_nonneg p hp prev x h1 h2).round_nonneg) _
      (fun x hx => hmem x (List.mem_of_mem_drop hx)) _
      (meanSkip_sat convexP_nonneg _ fun x hx => hmem x (List.mem_of_mem_take hx))

theorem rsi_ratio {u d : Val} (h : Val.Sat2 (fun a b => 0 ≤ a ∧ 0 ≤ b) u d) :
    Val.Sat (fun q => 0 ≤ q ∧ q ≤ 100) (Val.sub 100 (Val.div 100 (Val.add (Val.div u d) 1))) := by
  rcases h.cases with ⟨rfl, -⟩ | ⟨rfl, a, rfl⟩ | ⟨a, b, rfl, rfl, h1, h2⟩
  · simp
  · simp
  · rcases eq_or_ne b 0 with rfl | hb
    · rcases eq_or_ne a 0 with rfl | ha
      · simp [Val.div]
      · have hp : 0 < a := lt_of_le_of_ne h1 (Ne.symm ha)
        simp [Val.div, ha, hp, Val.one_eq, Val.add, Val.hundred_eq]
    · have hp : 0 < b := lt_of_le_of_ne h2 (Ne.symm hb)
      have hq : 0 ≤ a / b := div_nonneg h1 h2
      have h1' : 0 < a / b + 1 := by linarith
      rw [Val.fin_div _ _ hb, Val.one_eq, Val.hundred_eq, Val.fin_add, Val.fin_div _ _ h1'.ne', Val.fin_sub]
      have h3 : 100 / (a / b + 1) ≤ 100 := by rw [div_le_iff₀ h1']; linarith
      have h4 : 0 ≤ 100 / (a / b + 1) := div_nonneg (by norm_num) h1'.le
      exact ⟨by linarith, by linarith⟩

theorem RelativeStrengthIndex.range (F : Frame) (x : String → ℕ → ℚ) (p : ℕ) (hp : 1 ≤ p) (T : Frame)
    (hx : Prices F ["close"] x) (h : calcTi p F = .ok T) :
    ∀ v ∈ T.col "rsi", Val.Sat (fun q => 0 ≤ q ∧ q ≤ 100) v := by
  have lc := hx.len "close" (by simp)
  have hc := hx.num "close" (by simp)
  unfold calcTi at h
  split at h
  · simp at h
  simp only [Except.ok.injEq] at h
  subst h
  rw [Frame.col_single]
  refine roundS_range (by simp) (by simp) _ ?_
  intro i hi
  have hi' : i < F.len := by
    have := hi
    simp [lc, raw] at this
    omega
  unfold raw
  simp only
  rw [val_map _ (by simp), val_divS]
  apply rsi_ratio
  apply Val.Sat2.of_sat (P := fun q => 0 ≤ q) (P' := fun q => 0 ≤ q)
  · apply RelativeStrengthIndex.smooth_nonneg _ hp _ _ (by simp [lc, hi'])
    intro j hj
    rw [val_maskBefore]
    split
    · trivial
    · rw [val_zipV _ _ _ _ (by omega) (by simp; omega), val_shift _ _ _ (by omega), if_neg (by assumption), hc j (by omega),
        hc (j - 1) (by omega)]
      apply Val.Sat.round_nonneg
      simp only [Val.fin_lt, decide_eq_true_eq, Val.fin_sub, Val.zero_eq]
      split_ifs <;> simp only [Val.sat_fin] <;> linarith
  · apply RelativeStrengthIndex.smooth_nonneg _ hp _ _ (by simp [lc, hi'])
    intro j hj
    rw [val_maskBefore]
    split
    · trivial
    · rw [val_zipV _ _ _ _ (by omega) (by simp; omega), val_shift _ _ _ (by omega), if_neg (by assumption), hc j (by omega),
        hc (j - 1) (by omega)]
      apply Val.Sat.round_nonneg
      simp only [Val.fin_lt, decide_eq_true_eq, Val.fin_sub, Val.zero_eq]
      split_ifs <;> simp only [Val.sat_fin] <;> linarith

end Ind

theorem variance_nonneg (d : ℕ) (v : List ℚ) (q : ℚ) (h : variance d v = some q) : 0 ≤ q := by
  unfold variance at h
  split at h
  · simp at h
  · next hd =>
    simp only [Option.some.injEq] at h
    subst h
    have hd' : (d : ℚ) < v.length := by exact_mod_cast not_le.1 hd
    apply div_nonneg
    · apply List.sum_nonneg
      intro x hx
      rw [List.mem_map] at hx
      obtain ⟨y, -, rfl⟩ := hx
      positivity
    · linarith

theorem aggStd_nonneg (sq : ℚ → ℚ) (hs : ∀ q, 0 ≤ q → 0 ≤ sq q) (d : ℕ) (v : List ℚ) :
    Val.Sat (fun q => 0 ≤ q) (aggStd sq d v) := by
  unfold aggStd
  cases h : variance d v with
  | none => trivial
  | some q => exact hs q (variance_nonneg d v q h)

theorem rolling_std_nonneg (sq : ℚ → ℚ) (hs : ∀ q, 0 ≤ q → 0 ≤ sq q) (d w m : ℕ) (xs : List Val) (i : ℕ) (hi : i < xs.length) :
    Val.Sat (fun q => 0 ≤ q) (val (rolling w m (aggStd sq d) xs) i) := by
  rw [val_rolling _ _ _ _ _ hi]
  split
  · exact aggStd_nonneg sq hs d _
  · trivial

namespace Ind

theorem RelativeVolatilityIndex.half_range (sq : ℚ → ℚ) (hs : ∀ q, 0 ≤ q → 0 ≤ sq q) (p : ℕ) (hp : 1 ≤ p) (xs : List Val)
    (i : ℕ) (hi : i < xs.length) : Val.Sat (fun q => 0 ≤ q ∧ q ≤ 100) (val (half sq p xs) i) := by
  unfold half
  simp only
  rw [val_divS, val_scaleS, val_addS]
  apply Val.Sat2.pct
  apply Val.Sat2.share
  have hsel : ∀ sel : Val → Bool, ∀ j ≤ i, Val.Sat (fun q => 0 ≤ q) (val (selected sq sel xs) j) := by
    intro sel j hj
    unfold selected
    rw [val_zipV _ _ _ _ (by simp; omega) (by simp; omega)]
    split
    · exact rolling_std_nonneg sq hs 0 10 10 xs j (by omega)
    · rw [Val.zero_eq]; exact le_refl _
  apply Val.Sat2.of_sat (P := fun q => 0 ≤ q) (P' := fun q => 0 ≤ q)
  · exact wilder_sat convexP_nonneg _ _ hp _ _ (by simp [selected, hi]) (hsel _)
  · exact wilder_sat convexP_nonneg _ _ hp _ _ (by simp [selected, hi]) (hsel _)

theorem mid_range {lo hi : ℚ} {x y : Val} (h1 : Val.Sat (fun q => lo ≤ q ∧ q ≤ hi) x)
    (h2 : Val.Sat (fun q => lo ≤ q ∧ q ≤ hi) y) : Val.Sat (fun q => lo ≤ q ∧ q ≤ hi) (Val.div (Val.add x y) 2) := by
  rcases h1.cases with rfl | ⟨a, rfl, ha⟩
  · simp
  · rcases h2.cases with rfl | ⟨b, rfl, hb⟩
    · simp
    · rw [Val.fin_add, Val.two_eq, Val.fin_div _ _ (by norm_num)]
      exact ⟨by linarith [ha.1, hb.1], by linarith [ha.2, hb.2]⟩

theorem RelativeVolatilityIndex.range (sq : ℚ → ℚ) (hs : ∀ q, 0 ≤ q → 0 ≤ sq q) (F : Frame) (x : String → ℕ → ℚ) (p : ℕ)
    (hp : 1 ≤ p) (T : Frame) (hx : Prices F ["high", "low"] x) (h : calcTi sq p F = .ok T) :
    ∀ v ∈ T.col "rvi", Val.Sat (fun q => 0 ≤ q ∧ q ≤ 100) v := by
  have lh := hx.len "high" (by simp)
  have ll := hx.len "low" (by simp)
  unfold calcTi at h
  split at h
  · simp at h
  simp only [Except.ok.injEq] at h
  subst h
  rw [Frame.col_single]
  refine roundS_range (by simp) (by simp) _ ?_
  intro i hi
  have hi' : i < F.len := by
    have := hi
    simp [lh, ll, half, selected] at this
    omega
  rw [val_map _ (by simp), val_addS]
  exact mid_range (half_range sq hs p hp _ i (by omega)) (half_range sq hs p hp _ i (by omega))

/-! ## Stochastic Oscillator, Williams %R, Stochastic Momentum Index -/

/-- Lowest low, close and highest high of a window. -/
theorem window_extremes (F : Frame) (x : String → ℕ → ℚ) (k : ℕ) (hk : 1 ≤ k) (hx : Prices F ["high", "low", "close"] x)
    (i : ℕ) (hi : i < F.len) :
    (val (rolling k k aggMin (F.col "low")) i = .nan ∧ val (rolling k k aggMax (F.col "high")) i = .nan) ∨
    ∃ l h, val (rolling k k aggMin (F.col "low")) i = .fin l ∧ val (rolling k k aggMax (F.col "high")) i = .fin h ∧
      val (F.col "close") i = .fin (x "close" i) ∧ l ≤ x "close" i ∧ x "close" i ≤ h := by
  have ll := hx.len "low" (by simp)
  have lh := hx.len "high" (by simp)
  have hl := hx.num "low" (by simp)
  have hh := hx.num "high" (by simp)
  have hb := hx.bar i hi
  rcases val_rolling_min k hk _ (x "low") i (by omega) (fun j hj => hl j (by omega)) with ⟨h1, h2⟩ | ⟨h1, m, h2, -, h3⟩
  · rcases val_rolling_max k hk _ (x "high") i (by omega) (fun j hj => hh j (by omega)) with ⟨h4, h5⟩ | ⟨h4, -⟩
    · exact Or.inl ⟨h2, h5⟩
    · omega
  · rcases val_rolling_max k hk _ (x "high") i (by omega) (fun j hj => hh j (by omega)) with ⟨h4, -⟩ | ⟨h4, m', h5, -, h6⟩
    · omega
    · right
      refine ⟨m, m', h2, h5, hx.num "close" (by simp) i hi, ?_, ?_⟩
      · exact (h3 i (by omega) (le_refl _)).trans hb.2.2.1
      · exact hb.2.2.2.1.trans (h6 i (by omega) (le_refl _))

theorem aggWeighted_range (w : List ℚ) (hw : ∀ q ∈ w, 0 ≤ q) (v : List ℚ) (h : ∀ q ∈ v, 0 ≤ q ∧ q ≤ 100) :
    Val.Sat (fun q => 0 ≤ q ∧ q ≤ 100) (StochasticOscillator.aggWeighted w v) := by
  unfold StochasticOscillator.aggWeighted
  split
  · trivial
  · next hne =>
    have key : ∀ (w v : List ℚ), (∀ q ∈ w, 0 ≤ q) → (∀ q ∈ v, 0 ≤ q ∧ q ≤ 100) →
        0 ≤ (List.zipWith (· * ·) w v).sum ∧ (List.zipWith (· * ·) w v).sum ≤ 100 * w.sum := by
      intro w
      induction w with
      | nil => simp
      | cons a w ih =>
        intro v hw hv
        have ha := hw a (by simp)
        have hws : 0 ≤ w.sum := List.sum_nonneg fun q hq => hw q (by simp [hq])
        cases v with
        | nil => simp; linarith
        | cons b v =>
          have hb := hv b (by simp)
          have := ih v (fun q hq => hw q (by simp [hq])) (fun q hq => hv q (by simp [hq]))
          simp only [List.zipWith_cons_cons, List.sum_cons]
          constructor
          · nlinarith [this.1, mul_nonneg ha hb.1]
          · nlinarith [this.2, mul_nonneg ha (sub_nonneg.2 hb.2)]
    have hk := key w v hw h
    have hpos : 0 < w.sum := lt_of_le_of_ne (List.sum_nonneg hw) (Ne.symm hne)
    exact ⟨div_nonneg hk.1 hpos.le, by rw [div_le_iff₀ hpos]; exact hk.2⟩

theorem StochasticOscillator.range (weights : ℕ → List ℚ) (hw : ∀ d, ∀ q ∈ weights d, 0 ≤ q) (F : Frame)
    (x : String → ℕ → ℚ) (k s d : ℕ) (simple : Bool) (hk : 1 ≤ k) (T : Frame)
    (hx : Prices F ["high", "low", "close"] x) (h : calcTi weights k s d simple F = .ok T) :
    (∀ v ∈ T.col "%K", Val.Sat (fun q => 0 ≤ q ∧ q ≤ 100) v) ∧ ∀ v ∈ T.col "%D", Val.Sat (fun q => 0 ≤ q ∧ q ≤ 100) v := by
  have lc := hx.len "close" (by simp)
  have ll := hx.len "low" (by simp)
  have lh := hx.len "high" (by simp)
  unfold calcTi at h
  split at h
  · simp at h
  simp only [Except.ok.injEq] at h
  subst h
  have hK : ∀ v ∈ roundS 4 (divS (scaleS 100 (rolling s s aggSum (subS (F.col "close") (rolling k k aggMin (F.col "low")))))
      (rolling s s aggSum (subS (rolling k k aggMax (F.col "high")) (rolling k k aggMin (F.col "low"))))),
      Val.Sat (fun q => 0 ≤ q ∧ q ≤ 100) v := by
    refine roundS_range (by simp) (by simp) _ ?_
    intro i hi
    simp [lc, ll, lh] at hi
    rw [val_divS, val_scaleS]
    apply Val.Sat2.pct
    apply rolling_sum_sat2 additive_unit
    · simp [lc, ll, hi]
    · simp [lh, ll, hi]
    · intro j hj
      rw [val_subS, val_subS]
      rcases window_extremes F x k hk hx j (by omega) with ⟨h1, h2⟩ | ⟨l, h', h1, h2, h3, h4, h5⟩
      · rw [h1, h2, hx.num "close" (by simp) j (by omega)]; simp
      · rw [h1, h2, h3]
        simp only [Val.fin_sub, Val.sat2_fin]
        constructor <;> linarith
  refine ⟨?_, ?_⟩
  · simpa [Frame.col] using hK
  · have : ∀ v ∈ roundS 4 (rolling d d (if simple then aggMean else aggWeighted (weights d))
        (roundS 4 (divS (scaleS 100 (rolling s s aggSum (subS (F.col "close") (rolling k k aggMin (F.col "low")))))
      (rolling s s aggSum (subS (rolling k k aggMax (F.col "high")) (rolling k k aggMin (F.col "low"))))))),
        Val.Sat (fun q => 0 ≤ q ∧ q ≤ 100) v := by
      refine roundS_range (by simp) (by simp) _ ?_
      intro i hi
      rw [rolling_length] at hi
      apply rolling_sat (fun q => 0 ≤ q ∧ q ≤ 100) _ _ _ _ _ _ hi
      · intro j hj
        apply hK
        rw [val_lt _ _ (by omega)]
        exact List.getElem_mem _
      · intro v hv
        cases simple
        · exact aggWeighted_range _ (hw d) v hv
        · exact aggMean_sat v hv
    simpa [Frame.col] using this

theorem WilliamsR.range (F : Frame) (x : String → ℕ → ℚ) (p : ℕ) (hp : 1 ≤ p) (T : Frame)
    (hx : Prices F ["high", "low", "close"] x) (h : calcTi p F = .ok T) :
    ∀ v ∈ T.col "wr", Val.Sat (fun q => -100 ≤ q ∧ q ≤ 0) v := by
  have lc := hx.len "close" (by simp)
  have ll := hx.len "low" (by simp)
  have lh := hx.len "high" (by simp)
  unfold calcTi at h
  split at h
  · simp at h
  simp only [Except.ok.injEq] at h
  subst h
  rw [Frame.col_single]
  refine roundS_range (by simp) (by simp) _ ?_
  intro i hi
  simp [lc, ll, lh] at hi
  rw [val_scaleS, val_divS, val_subS, val_subS]
  have h2 : Val.Sat2 (fun a b => 0 ≤ a ∧ a ≤ b)
      (Val.sub (val (rolling p p aggMax (F.col "high")) i) (val (F.col "close") i))
      (Val.sub (val (rolling p p aggMax (F.col "high")) i) (val (rolling p p aggMin (F.col "low")) i)) := by
    rcases window_extremes F x p hp hx i hi with ⟨h1, h2⟩ | ⟨l, h', h1, h2, h3, h4, h5⟩
    · rw [h1, h2]; simp
    · rw [h1, h2, h3]
      simp only [Val.fin_sub, Val.sat2_fin]
      constructor <;> linarith
  rcases h2.div_unit.cases with h3 | ⟨q, h3, h4, h5⟩
  · rw [h3]; simp
  · rw [h3, Val.fin_mul]
    exact ⟨by linarith, by linarith⟩

theorem StochasticMomentumIndex.range (F : Frame) (x : String → ℕ → ℚ) (p s d : ℕ) (hp : 1 ≤ p) (hs : 1 ≤ s) (hd : 1 ≤ d)
    (T : Frame) (hx : Prices F ["high", "low", "close"] x) (h : calcTi p s d F = .ok T) :
    ∀ v ∈ T.col "smi", Val.Sat (fun q => -100 ≤ q ∧ q ≤ 100) v := by
  have lc := hx.len "close" (by simp)
  have ll := hx.len "low" (by simp)
  have lh := hx.len "high" (by simp)
  unfold calcTi at h
  split at h
  · simp at h
  simp only [Except.ok.injEq] at h
  subst h
  rw [Frame.col_single]
  refine roundS_range (by simp) (by simp) _ ?_
  intro i hi
  simp [lc, ll, lh] at hi
  rw [val_scaleS, val_divS, val_scaleS]
  have hb : Val.Both (fun a b => |a| ≤ 1 / 2 * b)
      (val (ewm d d (ewm s s (subS (F.col "close") ((addS (rolling p p aggMax (F.col "high"))
        (rolling p p aggMin (F.col "low"))).map fun x => Val.div x 2)))) i)
      (val (ewm d d (ewm s s (subS (rolling p p aggMax (F.col "high")) (rolling p p aggMin (F.col "low"))))) i) := by
    apply ewm_both (convex_abs _) _ _ hd _ _ _ (by simp [lc, ll, lh, hi]) (by simp [ll, lh, hi])
    intro j hj
    apply ewm_both (convex_abs _) _ _ hs _ _ _ (by simp [lc, ll, lh]; omega) (by simp [ll, lh]; omega)
    intro k hk
    rw [val_subS, val_subS, val_map _ (by simp), val_addS]
    rcases window_extremes F x p hp hx k (by omega) with ⟨h1, h2⟩ | ⟨l, h', h1, h2, h3, h4, h5⟩
    · rw [h1, h2]; simp
    · rw [h1, h2, h3, Val.fin_add, Val.two_eq, Val.fin_div _ _ (by norm_num)]
      simp only [Val.fin_sub, Val.both_fin]
      rw [abs_le]; constructor <;> linarith
  rcases hb.cases with ⟨h1, h2⟩ | ⟨a, b, h1, h2, h3⟩
  · rw [h1, h2]; simp
  · rw [h1, h2, Val.fin_mul]
    have := (Val.sat2_fin (fun a b => |a| ≤ b) a (1 / 2 * b)).2 h3
    have := this.div_sym.scale (c := 100) (by norm_num)
    exact this.mono fun q hq => ⟨by linarith [hq.1], by linarith [hq.2]⟩

/-! ## Swing Index, Chaikin Money Flow, Vertical Horizontal Filter -/

theorem SwingIndex.clip_range (v : Val) : Val.Sat (fun q => -100 ≤ q ∧ q ≤ 100) (clip v) := by
  cases v with
  | nan => simp [clip, Val.lt, Val.hundred_eq]
  | pinf => simp [clip, Val.lt, Val.hundred_eq]; norm_num
  | ninf => simp [clip, Val.lt, Val.hundred_eq]
  | fin q =>
    simp only [clip, Val.hundred_eq, Val.fin_lt, decide_eq_true_eq]
    split_ifs <;> simp_all <;> first | norm_num | linarith | (constructor <;> linarith)

theorem SwingIndex.range (F : Frame) (T : Frame) (h : calcTi F = .ok T) :
    ∀ v ∈ T.col "swi", Val.Sat (fun q => -100 ≤ q ∧ q ≤ 100) v := by
  unfold calcTi at h
  simp only [Except.ok.injEq] at h
  subst h
  rw [Frame.col_single]
  refine roundS_range (by simp) (by simp) _ ?_
  intro i hi
  rw [val_map_lt _ _ _ (by simpa using hi)]
  exact clip_range _

theorem ChaikinMoneyFlow.range (F : Frame) (x : String → ℕ → ℚ) (p : ℕ) (T : Frame)
    (hx : Prices F ["high", "low", "close", "volume"] x) (h : calcTi p F = .ok T) :
    ∀ v ∈ T.col "cmf", Val.Sat (fun q => -1 ≤ q ∧ q ≤ 1) v := by
  have lc := hx.len "close" (by simp)
  have ll := hx.len "low" (by simp)
  have lh := hx.len "high" (by simp)
  have lv := hx.len "volume" (by simp)
  unfold calcTi at h
  split at h
  · simp at h
  simp only [Except.ok.injEq] at h
  subst h
  rw [Frame.col_single]
  refine roundS_range (by simp) (by simp) _ ?_
  intro i hi
  simp [lc, ll, lh, lv, moneyFlowVolume] at hi
  rw [val_divS]
  apply Val.Sat2.div_sym
  apply rolling_sum_sat2 additive_abs
  · simp [lc, ll, lh, lv, moneyFlowVolume, hi]
  · omega
  · intro j hj
    have hb := hx.bar j (by omega)
    unfold moneyFlowVolume
    simp only [val_divS, val_mulS, val_subS, hx.num "close" (by simp) j (by omega), hx.num "low" (by simp) j (by omega),
      hx.num "high" (by simp) j (by omega), hx.num "volume" (by simp) j (by omega), Val.fin_sub, Val.fin_mul]
    obtain ⟨-, -, h1, h2, h3⟩ := hb
    by_cases he : x "high" j - x "low" j = 0
    · have e1 : x "close" j = x "low" j := by linarith
      have e2 : x "high" j = x "low" j := by linarith
      simp [e1, e2, Val.div]
    · rw [Val.fin_div _ _ he, Val.sat2_fin]
      have hpos : 0 < x "high" j - x "low" j := lt_of_le_of_ne (by linarith) (Ne.symm he)
      rw [abs_div, abs_of_pos hpos, div_le_iff₀ hpos, abs_mul, abs_of_nonneg h3]
      apply mul_le_mul_of_nonneg_left _ h3
      rw [abs_le]; constructor <;> linarith

/-- The distance of two prices of a window is at most the sum of the absolute changes. -/
theorem abs_path (c : ℕ → ℚ) (s p : ℕ) : ∀ a b, s ≤ a → a < s + p → s ≤ b → b < s + p →
    |c a - c b| ≤ ((List.range p).map fun t => |c (s + t) - c (s + t - 1)|).sum := by
  induction p with
  | zero => intro a b _ _ _ _; omega
  | succ p ih =>
    intro a b h1 h2 h3 h4
    rw [List.range_succ, List.map_append, List.sum_append]
    simp only [List.map_cons, List.map_nil, List.sum_cons, List.sum_nil, add_zero]
    have hn := abs_nonneg (c (s + p) - c (s + p - 1))
    have step : ∀ d, s ≤ d → d < s + p → |c (s + p) - c d| ≤
        ((List.range p).map fun t => |c (s + t) - c (s + t - 1)|).sum + |c (s + p) - c (s + p - 1)| := by
      intro d h5 h6
      have := ih (s + p - 1) d (by omega) (by omega) h5 h6
      have h7 := abs_sub_le (c (s + p)) (c (s + p - 1)) (c d)
      linarith
    have hnn : 0 ≤ ((List.range p).map fun t => |c (s + t) - c (s + t - 1)|).sum := by
      apply List.sum_nonneg
      intro y hy
      rw [List.mem_map] at hy
      obtain ⟨t, -, rfl⟩ := hy
      exact abs_nonneg _
    rcases Nat.lt_or_ge a (s + p) with ha | ha
    · rcases Nat.lt_or_ge b (s + p) with hb | hb
      · linarith [ih a b h1 ha h3 hb]
      · have : b = s + p := by omega
        subst this
        rw [abs_sub_comm]; exact step a h1 ha
    · have : a = s + p := by omega
      subst this
      rcases Nat.lt_or_ge b (s + p) with hb | hb
      · exact step b h3 hb
      · have : b = s + p := by omega
        subst this
        simp; linarith

theorem VerticalHorizontalFilter.range (F : Frame) (x : String → ℕ → ℚ) (p : ℕ) (hp : 1 ≤ p) (T : Frame)
    (hx : Prices F ["close"] x) (h : calcTi p F = .ok T) :
    ∀ v ∈ T.col "vhf", Val.Sat (fun q => 0 ≤ q ∧ q ≤ 1) v := by
  have lc := hx.len "close" (by simp)
  have hc := hx.num "close" (by simp)
  unfold calcTi at h
  split at h
  · simp at h
  simp only [Except.ok.injEq] at h
  subst h
  rw [Frame.col_single]
  refine roundS_range (by simp) (by simp) _ ?_
  intro i hi
  simp [lc] at hi
  rw [val_divS]
  apply Val.Sat2.div_unit
  rw [val_map _ rfl, val_subS]
  have hch : ∀ j < F.len, val ((subS (F.col "close") (shift 1 (F.col "close"))).map Val.abs) j =
      if j < 1 then .nan else .fin |x "close" j - x "close" (j - 1)| := by
    intro j hj
    rw [val_map _ rfl, val_change 1 _ (x "close") j (by omega) (by rw [lc]; exact hc)]
    split <;> rfl
  rcases rolling_full_cases p aggSum ((subS (F.col "close") (shift 1 (F.col "close"))).map Val.abs) i (by simp [lc, hi]) with
    h1 | ⟨hw, g, hg, h1⟩
  · rw [h1]
    rcases val_rolling_max p hp _ (x "close") i (by omega) (fun j hj => hc j (by omega)) with ⟨h4, h5⟩ | ⟨h4, m', h5, -, h6⟩
    · rw [h5]; simp
    · rw [h5]
      rcases val_rolling_min p hp _ (x "close") i (by omega) (fun j hj => hc j (by omega)) with ⟨h4, h7⟩ | ⟨h4, m, h7, -, h8⟩
      · rw [h7]; simp
      · rw [h7]; simp
  · rw [h1]
    rcases val_rolling_max p hp _ (x "close") i (by omega) (fun j hj => hc j (by omega)) with ⟨h4, -⟩ | ⟨h4, M, h5, ⟨a, ha1, ha2, ha3⟩, h6⟩
    · omega
    rcases val_rolling_min p hp _ (x "close") i (by omega) (fun j hj => hc j (by omega)) with ⟨h4, -⟩ | ⟨h4, m, h7, ⟨b, hb1, hb2, hb3⟩, h8⟩
    · omega
    rw [h5, h7]
    simp only [Val.fin_sub, Val.fin_abs, aggSum, Val.sat2_fin]
    refine ⟨abs_nonneg _, ?_⟩
    have e : ((List.range p).map fun t => g (i + 1 - p + t)) =
        (List.range p).map fun t => |x "close" (i + 1 - p + t) - x "close" (i + 1 - p + t - 1)| := by
      apply List.map_congr_left
      intro t ht
      rw [List.mem_range] at ht
      have h9 := hg (i + 1 - p + t) (by omega) (by omega)
      rw [hch _ (by omega)] at h9
      split at h9
      · simp at h9
      · simpa using h9.symm
    rw [e, ha3, hb3]
    exact abs_path (x "close") (i + 1 - p) p a b (by omega) (by omega) (by omega) (by omega)

end Ind
end TTI
