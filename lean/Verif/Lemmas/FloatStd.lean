import Verif.Lemmas.FloatRange

set_option autoImplicit false

/-! Lemmas for C96. -/

namespace TTI

open Spec Flt

variable {R : Rounding} {A : Arith}

theorem val_rollStd (A : Arith) (sq : ℚ → ℚ) (w m : ℕ) (xs : List Val) (i : ℕ) (hi : i < xs.length) :
    val (A.rollStd sq w m xs) i = A.zsqrt sq (A.calcVar m (A.varState w xs i)) := by
  unfold val Arith.rollStd
  rw [List.getD_eq_getElem _ _ (by simpa using hi), List.getElem_map, List.getElem_range]

/-- A deviation is missing or not negative. -/
theorem gain_zsqrt (hA : A.fl = R.fl) (hF : Fair R) (sq : ℚ → ℚ) (hs : ∀ x, 0 ≤ x → 0 ≤ sq x) (m : ℕ) (st : Arith.VarRoll) :
    Gain R (A.zsqrt sq (A.calcVar m st)) := by
  have key : ∀ q : ℚ, Gain R (A.zsqrt sq (.fin q)) := fun q => by
    unfold Arith.zsqrt
    simp only
    split_ifs with h
    · exact gain_zero hF
    · rw [hA]; exact gain_fl hF (hs _ (not_lt.1 h))
  unfold Arith.calcVar
  split_ifs
  · exact key _
  · exact key _
  · exact gain_nan

theorem gain_rollStd (hA : A.fl = R.fl) (hF : Fair R) (sq : ℚ → ℚ) (hs : ∀ x, 0 ≤ x → 0 ≤ sq x) (w m : ℕ) (xs : List Val) :
    ∀ v ∈ A.rollStd sq w m xs, Gain R v := by
  intro v hv
  unfold Arith.rollStd at hv
  rw [List.mem_map] at hv
  obtain ⟨i, -, rfl⟩ := hv
  exact gain_zsqrt hA hF sq hs m _

theorem finVals_length_fin (l : List Val) (h : ∀ x ∈ l, ∃ q, x = .fin q) : (finVals l).length = l.length := by
  induction l with
  | nil => rfl
  | cons x l ih =>
    obtain ⟨q, rfl⟩ := h x (by simp)
    have := ih fun y hy => h y (by simp [hy])
    simp only [finVals, List.filterMap_cons, List.length_cons] at this ⊢
    omega

/-- How many numbers the window holds. -/
theorem Nums.nobs {n : ℕ} {g : ℕ → ℚ} {xs : List Val} (h : Nums n 0 g xs) (A : Arith) (w : ℕ) (hw : 1 ≤ w) (i : ℕ) (hi : i < n) :
    (A.rollState w xs i).nobs = min w (i + 1) := by
  have hl := h.len
  rw [(roll_counts A w hw xs i (by omega)).1]
  unfold inWindow
  rw [finVals_length_fin]
  · unfold window; rw [List.length_drop, List.length_take]; omega
  · intro x hx
    have : x ∈ xs := List.mem_of_mem_take (List.mem_of_mem_drop hx)
    obtain ⟨j, hj, rfl⟩ := mem_val this
    exact ⟨_, h.fin (by omega) (by omega)⟩

theorem Nums.std_missing {n : ℕ} {g : ℕ → ℚ} {xs : List Val} (h : Nums n 0 g xs) (A : Arith) (sq : ℚ → ℚ) (w : ℕ) (hw : 1 ≤ w) (i : ℕ)
    (hi : i < n) (hlt : i + 1 < w) : TTI.val (A.rollStd sq w w xs) i = .nan := by
  rw [val_rollStd A sq w w xs i (by rw [h.len]; exact hi)]
  have hn : (A.varState w xs i).nobs = min w (i + 1) := (Exact.varState_counts A w xs i).1.trans (h.nobs A w hw i hi)
  unfold Arith.calcVar
  rw [if_neg (by omega)]
  rfl

theorem Nums.std_number {n : ℕ} {g : ℕ → ℚ} {xs : List Val} (h : Nums n 0 g xs) (A : Arith) (sq : ℚ → ℚ) (w : ℕ) (hw : 1 ≤ w) (i : ℕ)
    (hi : i < n) (hle : w ≤ i + 1) : ∃ q, TTI.val (A.rollStd sq w w xs) i = .fin q := by
  rw [val_rollStd A sq w w xs i (by rw [h.len]; exact hi)]
  have hn : (A.varState w xs i).nobs = min w (i + 1) := (Exact.varState_counts A w xs i).1.trans (h.nobs A w hw i hi)
  unfold Arith.calcVar
  rw [if_pos (by omega)]
  split_ifs <;> unfold Arith.zsqrt <;> simp only <;> split_ifs <;> exact ⟨_, rfl⟩

theorem Nums.mean_number {n : ℕ} {g : ℕ → ℚ} {xs : List Val} (h : Nums n 0 g xs) (A : Arith) (w : ℕ) (hw : 1 ≤ w) (i : ℕ)
    (hi : i < n) (hle : w ≤ i + 1) : ∃ q, TTI.val (A.rollMean w w xs) i = .fin q := by
  have hl := h.len
  have hn := h.nobs A w hw i hi
  have hc := roll_counts A w hw xs i (by omega)
  unfold TTI.val Arith.rollMean
  rw [List.getD_eq_getElem _ _ (by simpa using (by omega : i < xs.length)), List.getElem_map, List.getElem_range]
  unfold Arith.calcMean
  rw [if_pos (by omega)]
  simp only
  split_ifs with h1
  · obtain ⟨q, -, e⟩ := hc.2.2 (by rw [ne_eq, ← List.length_eq_zero_iff, ← hc.1]; omega) h1
    exact ⟨q, e⟩
  all_goals exact ⟨_, rfl⟩

/-- The deviation of equal values. -/
theorem Nums.flat_std {n : ℕ} {g : ℕ → ℚ} {xs : List Val} (h : Nums n 0 g xs) (A : Arith) (sq : ℚ → ℚ) (h0 : A.fl (sq 0) = 0) (w : ℕ)
    (hw : 1 ≤ w) (i : ℕ) (hi : i < n) (hs : Still w g i) : TTI.val (A.rollStd sq w w xs) i = .fin 0 := by
  rw [val_rollStd A sq w w xs i (by rw [h.len]; exact hi)]
  obtain ⟨f1, f2, -⟩ := Exact.varState_counts A w xs i
  have hn := h.nobs A w hw i hi
  have hr := (run_of_equal A w xs (g i) i w hw (le_refl _) hs.1 fun t ht => by
    rw [rollState_val, h.val _ (by omega), if_neg (by omega), hs.2 t ht]; rfl).2
  have := hs.1
  unfold Arith.calcVar
  rw [if_pos (by omega), if_pos (by omega)]
  simp [Arith.zsqrt, h0]

/-! ## Rounding to four decimals -/

theorem round4_fin (A : Arith) (q : ℚ) : A.round 4 (.fin q) = .fin (A.fl (rint (A.fl (q * 10 ^ 4)) / 10 ^ 4)) := by
  simp [Arith.round]

theorem round4_mono (hA : A.fl = R.fl) {x y a b : ℚ} (h : x ≤ y) (hx : A.round 4 (.fin x) = .fin a) (hy : A.round 4 (.fin y) = .fin b) :
    a ≤ b := by
  rw [round4_fin, Val.fin.injEq] at hx hy
  subst hx hy
  rw [hA]
  refine R.mono _ _ (div_le_div_of_nonneg_right ?_ (by positivity))
  exact_mod_cast rint_mono (R.mono _ _ (mul_le_mul_of_nonneg_right h (by positivity)))

/-- A number with four decimals is rounded to itself, unless it is very large. -/
theorem round4_again (hA : A.fl = R.fl) (hF : Fair R) {q m : ℚ} (h : A.round 4 (.fin q) = .fin m) (hm : 10 ^ 5 * R.unit * |m| ≤ 1) :
    A.round 4 (.fin m) = .fin m := by
  have hu0 := R.nonneg
  have hu := hF.small
  rw [round4_fin, Val.fin.injEq, hA] at h
  generalize rint (R.fl (q * 10 ^ 4)) = k at h
  have e1 := R.error ((k : ℚ) / 10 ^ 4)
  rw [h, abs_div, abs_of_pos (by norm_num : (0 : ℚ) < 10 ^ 4)] at e1
  have e2 := R.error (m * 10 ^ 4)
  rw [abs_mul, abs_of_pos (by norm_num : (0 : ℚ) < 10 ^ 4)] at e2
  have hk : |(k : ℚ)| ≤ 2 * (10 ^ 4 * |m|) := by
    have h1 : |(k : ℚ)| / 10 ^ 4 ≤ |m| + R.unit * (|(k : ℚ)| / 10 ^ 4) := by
      have := abs_sub_abs_le_abs_sub ((k : ℚ) / 10 ^ 4) m
      rw [abs_sub_comm, abs_div, abs_of_pos (by norm_num : (0 : ℚ) < 10 ^ 4)] at this
      linarith
    have h2 : 0 ≤ |(k : ℚ)| / 10 ^ 4 := by positivity
    have h3 : R.unit ≤ 1 / 2 := by linarith
    have h4 : R.unit * (|(k : ℚ)| / 10 ^ 4) ≤ 1 / 2 * (|(k : ℚ)| / 10 ^ 4) := mul_le_mul_of_nonneg_right h3 h2
    linarith
  have e3 : |R.fl (m * 10 ^ 4) - k| < 1 / 2 := by
    have t1 : |m * 10 ^ 4 - k| ≤ R.unit * |(k : ℚ)| := by
      have : m * 10 ^ 4 - k = (m - k / 10 ^ 4) * 10 ^ 4 := by ring
      rw [this, abs_mul, abs_of_pos (by norm_num : (0 : ℚ) < 10 ^ 4)]
      calc |m - k / 10 ^ 4| * 10 ^ 4 ≤ R.unit * (|(k : ℚ)| / 10 ^ 4) * 10 ^ 4 := mul_le_mul_of_nonneg_right e1 (by norm_num)
        _ = R.unit * |(k : ℚ)| := by ring
    have t2 : R.unit * |(k : ℚ)| ≤ R.unit * (2 * (10 ^ 4 * |m|)) := mul_le_mul_of_nonneg_left hk hu0
    have t3 := abs_add_le (R.fl (m * 10 ^ 4) - m * 10 ^ 4) (m * 10 ^ 4 - k)
    rw [show R.fl (m * 10 ^ 4) - m * 10 ^ 4 + (m * 10 ^ 4 - k) = R.fl (m * 10 ^ 4) - k by ring] at t3
    have t4 : 10 ^ 5 * (R.unit * |m|) ≤ 1 := by linarith
    have t5 : R.unit * (|m| * 10 ^ 4) = 10 ^ 4 * (R.unit * |m|) := by ring
    have t6 : R.unit * (2 * (10 ^ 4 * |m|)) = 2 * 10 ^ 4 * (R.unit * |m|) := by ring
    rw [t5] at e2
    rw [t6] at t2
    generalize R.unit * |m| = z at *
    generalize |R.fl (m * 10 ^ 4) - k| = b1 at *
    generalize |R.fl (m * 10 ^ 4) - m * 10 ^ 4| = b2 at *
    generalize |m * 10 ^ 4 - k| = b3 at *
    norm_num at t4 e2 t2
    linarith
  have e4 : rint (R.fl (m * 10 ^ 4)) = k := by
    have r := abs_le.1 (rint_close (R.fl (m * 10 ^ 4)))
    have e3 := abs_lt.1 e3
    generalize R.fl (m * 10 ^ 4) = x at r e3 ⊢
    have l1 : (rint x : ℚ) - k < 1 := by linarith [r.1, r.2, e3.1, e3.2]
    have l2 : (-1 : ℚ) < (rint x : ℚ) - k := by linarith [r.1, r.2, e3.1, e3.2]
    have l1' : rint x - k < 1 := by exact_mod_cast l1
    have l2' : -1 < rint x - k := by exact_mod_cast l2
    omega
  rw [round4_fin, hA, e4, h]

theorem flat_small (hA : A.fl = R.fl) (hF : Fair R) {q m : ℚ} (h : A.fl (rint (A.fl (q * 10 ^ 4)) / 10 ^ 4) = m)
    (hs : 10 ^ 5 * R.unit * (|q| + 1) ≤ 1) : 10 ^ 5 * R.unit * |m| ≤ 1 := by
  have hu0 := R.nonneg
  have hu := hF.small
  rw [hA] at h
  have hb : ∀ x, |R.fl x| ≤ (1 + R.unit) * |x| := fun x => by
    have h1 := R.error x
    have h2 := abs_sub_abs_le_abs_sub (R.fl x) x
    linarith
  have hu1 : R.unit ≤ 1 / 10 ^ 10 := by rw [le_div_iff₀ (by norm_num)]; linarith
  have h1 := hb (q * 10 ^ 4)
  have h2 := rint_close (R.fl (q * 10 ^ 4))
  have h3 := hb ((rint (R.fl (q * 10 ^ 4)) : ℚ) / 10 ^ 4)
  rw [h, abs_div, abs_of_pos (by norm_num : (0 : ℚ) < 10 ^ 4)] at h3
  rw [abs_mul, abs_of_pos (by norm_num : (0 : ℚ) < 10 ^ 4)] at h1
  have h4 := abs_sub_abs_le_abs_sub (rint (R.fl (q * 10 ^ 4)) : ℚ) (R.fl (q * 10 ^ 4))
  have h4 := h4.trans h2
  clear h2 hb h
  generalize |R.fl (q * 10 ^ 4)| = x at *
  generalize |(rint (R.fl (q * 10 ^ 4)) : ℚ)| = y at *
  generalize |m| = z at *
  have hq := abs_nonneg q
  generalize |q| = w at *
  generalize R.unit = u at *
  have h5 : y ≤ (1 + u) * (w * 10 ^ 4) + 1 / 2 := by linarith
  have h6 : z ≤ (1 + u) * (((1 + u) * (w * 10 ^ 4) + 1 / 2) / 10 ^ 4) :=
    h3.trans (mul_le_mul_of_nonneg_left (by gcongr) (by linarith))
  have h7 : u * w ≤ 1 / 10 ^ 5 := by rw [le_div_iff₀ (by norm_num)]; nlinarith
  have h8 : z ≤ w + 1 := by
    have : u * (u * w) ≤ 1 * (1 / 10 ^ 5) := mul_le_mul (by linarith) h7 (by positivity) (by norm_num)
    nlinarith
  calc 10 ^ 5 * u * z ≤ 10 ^ 5 * u * (w + 1) := mul_le_mul_of_nonneg_left h8 (by positivity)
    _ ≤ 1 := hs

/-! ## The relative volatility index -/

theorem gain_selected (hA : A.fl = R.fl) (hF : Fair R) (sq : ℚ → ℚ) (hs : ∀ x, 0 ≤ x → 0 ≤ sq x) (sel : Val → Bool) (xs : List Val) :
    ∀ v ∈ volatilitySelected A sq sel xs, Gain R v := by
  intro v hv
  unfold volatilitySelected zipV at hv
  rw [List.mem_iff_getElem] at hv
  obtain ⟨i, hi, rfl⟩ := hv
  rw [List.getElem_zipWith]
  split_ifs
  · exact gain_rollStd hA hF sq hs 10 10 xs _ (List.getElem_mem _)
  · exact gain_zero hF

theorem share_range (hA : A.fl = R.fl) (hF : Fair R) {v w : Val} (hv : Gain R v) (hw : Gain R w) :
    InRange 0 (100 + 600 * R.unit) (A.div (A.mul (.fin 100) v) (A.add v w)) := by
  have hu0 := R.nonneg
  have hu := hF.small
  rcases hv with rfl | ⟨p, rfl, p0, -⟩
  · exact .inl (by simp [Arith.div, Arith.mul, Arith.rd])
  rcases hw with rfl | ⟨q, rfl, q0, -⟩
  · exact .inl (by simp [Arith.div, Arith.mul, Arith.add, Arith.rd])
  rw [fl_mul, fl_add, hA]
  have hs := hF.lower (p + q)
  rw [abs_of_nonneg (by linarith)] at hs
  have hp := hF.upper (100 * p)
  rw [abs_of_nonneg (by linarith)] at hp
  have hp0 : 0 ≤ R.fl (100 * p) := hF.pos (by linarith)
  rcases eq_or_ne (R.fl (p + q)) 0 with h0 | h0
  · have h1 : p + q = 0 := by
      rw [h0] at hs
      have : 0 ≤ (p + q) * (1 - R.unit) := mul_nonneg (by linarith) (by linarith)
      have h2 : (p + q) * (1 - R.unit) ≤ 0 := by linarith
      have h3 : (p + q) * (1 - R.unit) = 0 := le_antisymm h2 this
      rcases mul_eq_zero.1 h3 with h | h
      · exact h
      · linarith
    have : p = 0 := by linarith
    rw [h0, this, mul_zero, hF.zero, fl_zero_div_zero]
    exact .inl rfl
  · have hpos : 0 < R.fl (p + q) := lt_of_le_of_ne (hF.pos (by linarith)) (Ne.symm h0)
    rw [fl_div _ _ _ h0, hA]
    refine .inr ⟨_, rfl, hF.pos (div_nonneg hp0 hpos.le), ?_⟩
    have hd : R.fl (100 * p) / R.fl (p + q) ≤ 100 + 400 * R.unit := by
      rw [div_le_iff₀ hpos]
      have h1 : (p + q) * (1 - R.unit) ≤ R.fl (p + q) := by linarith
      have h2 : (100 + 400 * R.unit) * ((p + q) * (1 - R.unit)) ≤ (100 + 400 * R.unit) * R.fl (p + q) :=
        mul_le_mul_of_nonneg_left h1 (by linarith)
      refine le_trans ?_ h2
      have h3 : 100 * p + R.unit * (100 * p) ≤ (100 + 100 * R.unit) * (p + q) := by nlinarith
      refine hp.trans (h3.trans ?_)
      have h4 : (100 + 100 * R.unit) ≤ (100 + 400 * R.unit) * (1 - R.unit) := by nlinarith
      calc (100 + 100 * R.unit) * (p + q) ≤ (100 + 400 * R.unit) * (1 - R.unit) * (p + q) :=
            mul_le_mul_of_nonneg_right h4 (by linarith)
        _ = _ := by ring
    have h5 := hF.upper (R.fl (100 * p) / R.fl (p + q))
    rw [abs_of_nonneg (div_nonneg hp0 hpos.le)] at h5
    generalize R.fl (100 * p) / R.fl (p + q) = z at *
    have : R.unit * z ≤ R.unit * (100 + 400 * R.unit) := mul_le_mul_of_nonneg_left hd hu0
    nlinarith

theorem halves_range (hA : A.fl = R.fl) (hF : Fair R) {v w : Val} (hv : InRange 0 (100 + 600 * R.unit) v)
    (hw : InRange 0 (100 + 600 * R.unit) w) : Slack ((0 : ℤ) : ℚ) ((100 : ℤ) : ℚ) (A.div (A.add v w) (.fin 2)) := by
  have hu0 := R.nonneg
  have hu := hF.small
  rcases hv with rfl | ⟨p, rfl, p0, p1⟩
  · exact .inl (by simp [Arith.div, Arith.add, Arith.rd])
  rcases hw with rfl | ⟨q, rfl, q0, q1⟩
  · exact .inl (by simp [Arith.div, Arith.add, Arith.rd])
  rw [fl_add, fl_div _ _ _ (by norm_num), hA]
  have a0 : 0 ≤ R.fl (p + q) := hF.pos (by linarith)
  have b0 : 0 ≤ R.fl (R.fl (p + q) / 2) := hF.pos (by linarith)
  have a1 := hF.upper (p + q)
  rw [abs_of_nonneg (by linarith)] at a1
  have a2 : R.unit * (p + q) ≤ R.unit * 300 := mul_le_mul_of_nonneg_left (by linarith) hu0
  have b1 := hF.upper (R.fl (p + q) / 2)
  rw [abs_of_nonneg (by linarith)] at b1
  have b2 : R.unit * (R.fl (p + q) / 2) ≤ R.unit * 300 := mul_le_mul_of_nonneg_left (by linarith) hu0
  refine .inr ⟨_, rfl, ?_, ?_⟩
  · push_cast; linarith
  · push_cast; linarith

theorem half_range (hA : Rounded R A) (hF : Fair R) (sq : ℚ → ℚ) (hs : ∀ x, 0 ≤ x → 0 ≤ sq x) (p : ℕ) (hp : 1 ≤ p) (xs : List Val) (i : ℕ) :
    InRange 0 (100 + 600 * R.unit) (val (volatilityHalf A sq p xs) i) := by
  unfold volatilityHalf
  simp only
  have mem : ∀ (ys : List Val), (∀ v ∈ ys, Gain R v) → Gain R (val ys i) := by
    intro ys h
    rcases Nat.lt_or_ge i ys.length with hi | hi
    · unfold val; rw [List.getD_eq_getElem _ _ hi]; exact h _ (List.getElem_mem hi)
    · rw [val_ge _ _ hi]; exact gain_nan
  rw [val_fdiv, val_fscale, val_fadd]
  exact share_range hA.fl hF
    (mem _ (gain_wilder hA hF 9 p hp (gain_selected hA.fl hF sq hs _ xs)))
    (mem _ (gain_wilder hA hF 9 p hp (gain_selected hA.fl hF sq hs _ xs)))

end TTI
