import Verif.Lemmas.FloatRoll

set_option autoImplicit false

/-! Reported values in rounded arithmetic. -/

namespace TTI

open Spec Flt Sim

variable {R : Rounding}

/-! ## Errors of products and quotients -/

/-- A factor that is rounded itself. -/
theorem _root_.TTI.Sim.Near.factor {k : ℕ} {a x A : ℚ} (h : Near R k a x A) (c : ℚ) (hc : 0 ≤ c) :
    Near R (k + 2) (R.fl (R.fl c * a)) (c * x) (c * A) := by
  apply Near.fl
  have hu := R.nonneg
  have hA := h.nonneg
  refine ⟨(h.mul_exact c hc).1, ?_⟩
  have h1 := R.error c
  rw [abs_of_nonneg hc] at h1
  have h2 := h.size
  have e : R.fl c * a - c * x = (R.fl c - c) * a + c * (a - x) := by ring
  rw [e]
  refine (abs_add_le _ _).trans ?_
  rw [abs_mul, abs_mul, abs_of_nonneg hc]
  have h3 : |R.fl c - c| * |a| ≤ R.unit * c * ((1 + R.unit) ^ k * A) := by
    apply mul_le_mul h1 h2 (abs_nonneg _) (by positivity)
  have h4 : c * |a - x| ≤ c * (((1 + R.unit) ^ k - 1) * A) := mul_le_mul_of_nonneg_left h.2 hc
  calc _ ≤ _ := add_le_add h3 h4
    _ = _ := by rw [pow_succ]; ring

theorem _root_.TTI.Sim.Near.negScale {k : ℕ} {a x A : ℚ} (h : Near R k a x A) (c : ℚ) (hc : 0 ≤ c) :
    Near R (k + 1) (R.fl (-c * a)) (-c * x) (c * A) := by
  have := (h.neg.mul_exact c hc).fl
  rwa [show c * -a = -c * a by ring, show c * -x = -c * x by ring] at this

/-- A quotient of two differences. -/
theorem near_quotient (hu : R.unit ≤ 1 / 2) (x y : ℚ) (hy : 0 < y) :
    0 < R.fl y ∧ Near R 4 (R.fl (R.fl x / R.fl y)) (x / y) |x / y| := by
  have hu0 := R.nonneg
  have e1 := R.error x
  have e2 := R.error y
  rw [abs_of_pos hy] at e2
  have e3 := abs_le.1 e2
  have hpos : 0 < R.fl y := by nlinarith [e3.1]
  refine ⟨hpos, ?_⟩
  apply Near.fl (k := 3)
  refine ⟨le_refl _, ?_⟩
  have k1 : R.fl x / R.fl y - x / y = ((R.fl x - x) * y + x * (y - R.fl y)) / (R.fl y * y) := by
    field_simp
    ring
  rw [k1, abs_div, abs_div, abs_of_pos hy, abs_of_pos (mul_pos hpos hy), div_le_iff₀ (mul_pos hpos hy)]
  have k2 : |(R.fl x - x) * y + x * (y - R.fl y)| ≤ 2 * R.unit * |x| * y := by
    refine (abs_add_le _ _).trans ?_
    rw [abs_mul, abs_mul, abs_of_pos hy, abs_sub_comm y]
    have := mul_le_mul_of_nonneg_right e1 hy.le
    have := mul_le_mul_of_nonneg_left e2 (abs_nonneg x)
    linarith
  refine k2.trans ?_
  have k3 : ((1 + R.unit) ^ 3 - 1) * (|x| / y) * (R.fl y * y) = ((1 + R.unit) ^ 3 - 1) * |x| * R.fl y := by
    field_simp
  rw [k3]
  have k4 : 2 * R.unit * y ≤ ((1 + R.unit) ^ 3 - 1) * R.fl y := by
    have h1 : 3 * R.unit ≤ (1 + R.unit) ^ 3 - 1 := by nlinarith [mul_nonneg hu0 hu0, mul_nonneg hu0 (mul_nonneg hu0 hu0)]
    have h2 : y * (1 - R.unit) ≤ R.fl y := by linarith [e3.1]
    have h3 : (1 + R.unit) ^ 3 - 1 = R.unit * (3 + 3 * R.unit + R.unit ^ 2) := by ring
    have h4 : ((1 + R.unit) ^ 3 - 1) * (y * (1 - R.unit)) ≤ ((1 + R.unit) ^ 3 - 1) * R.fl y :=
      mul_le_mul_of_nonneg_left h2 (by linarith)
    refine le_trans ?_ h4
    have h5 : 2 ≤ (3 + 3 * R.unit + R.unit ^ 2) * (1 - R.unit) := by nlinarith [mul_nonneg hu0 hu0]
    have h6 := mul_le_mul_of_nonneg_left h5 (mul_nonneg hu0 hy.le)
    rw [h3]
    linarith
  have := mul_le_mul_of_nonneg_left k4 (abs_nonneg x)
  linarith

/-! ## Reported values -/

theorem val_fround (A : Arith) (d : ℕ) (xs : List Val) (i : ℕ) : val (A.roundS d xs) i = A.round d (val xs i) :=
  val_map (A.round d) rfl xs i

theorem val_fscale (A : Arith) (c : ℚ) (xs : List Val) (i : ℕ) : val (A.scaleS c xs) i = A.mul (.fin c) (val xs i) :=
  val_map (fun x => A.mul (.fin c) x) (by simp [Arith.mul, Arith.rd]) xs i

theorem val_fsub (A : Arith) (xs ys : List Val) (i : ℕ) : val (A.subS xs ys) i = A.sub (val xs i) (val ys i) :=
  val_zipV_nan _ (fun y => by simp [Arith.sub, Arith.rd]) (fun x => by simp [Arith.sub, Arith.rd]) _ _ _

theorem val_fdiv (A : Arith) (xs ys : List Val) (i : ℕ) : val (A.divS xs ys) i = A.div (val xs i) (val ys i) :=
  val_zipV_nan _ (fun y => by simp [Arith.div, Arith.rd]) (fun x => by simp [Arith.div, Arith.rd]) _ _ _

theorem report_at (A : Arith) (hA : A.fl = R.fl) (d : ℕ) {v : Val} {i k : ℕ} {a x M e : ℚ} {K : ℕ} (hv : v = since k i (.fin a))
    (hN : k ≤ i → Near R K a x M) (hK : K * R.unit ≤ 1 / 100) (he : 1 / 2 / 10 ^ d + (101 / 100 * K + 4) * R.unit * (M + 1) ≤ e)
    (hu : R.unit ≤ 1) : NearSince k i (A.round d v) x e := by
  unfold NearSince
  rw [hv]
  unfold since
  split
  · rfl
  · next h => exact ⟨A.roundNum d a, rfl, ((hN (by omega)).reported hA d hK hu).trans he⟩

theorem Nums.since {n k : ℕ} {g : ℕ → ℚ} {xs : List Val} (h : Nums n k g xs) {i : ℕ} (hi : i < n) : TTI.val xs i = since k i (.fin (g i)) :=
  h.val i hi

theorem Nums.report (A : Arith) (hA : A.fl = R.fl) {n k : ℕ} {g : ℕ → ℚ} {xs : List Val} (h : Nums n k g xs) {i : ℕ} (hi : i < n) {k' : ℕ}
    (hk : k = k') {x M e : ℚ} {K : ℕ} (hN : k ≤ i → Near R K (g i) x M) (hK : K * R.unit ≤ 1 / 100)
    (he : 1 / 20000 + (101 / 100 * K + 4) * R.unit * (M + 1) ≤ e) (hu : R.unit ≤ 1) :
    NearSince k' i (TTI.val (A.roundS 4 xs) i) x e := by
  subst hk
  rw [val_fround]
  exact report_at A hA 4 (h.since hi) hN hK (by norm_num at he ⊢; exact he) hu

/-- `(1 + u) ^ k` is near 1. -/
theorem pow_small (R : Rounding) (k : ℕ) (h : 110 * (k * R.unit) ≤ 1) : (1 + R.unit) ^ k ≤ 101 / 100 := by
  have h1 := pow_lin R.unit R.nonneg k (by linarith)
  have h2 : 0 ≤ (k : ℚ) * R.unit := mul_nonneg (by positivity) R.nonneg
  nlinarith

/-- Exponential averages of numbers that differ little differ little. -/
theorem smoothed_close (a : ℚ) (h0 : 0 ≤ a) (h1 : a ≤ 1) (s : ℕ) (g x : ℕ → ℚ) (e : ℚ) (i : ℕ) (hs : s ≤ i)
    (h : ∀ j, s ≤ j → j ≤ i → |g j - x j| ≤ e) : |smoothed a s (g s) g i - smoothed a s (x s) x i| ≤ e := by
  induction i with
  | zero =>
    rw [Nums.smoothed_start _ _ _ _ _ (by omega), Nums.smoothed_start _ _ _ _ _ (by omega)]
    exact h s (le_refl _) hs
  | succ i ih =>
    by_cases hsi : s ≤ i
    · rw [Nums.smoothed_next _ _ _ _ _ hsi, Nums.smoothed_next _ _ _ _ _ hsi]
      have e1 := ih hsi fun j hj hji => h j hj (by omega)
      have e2 := h (i + 1) hs (le_refl _)
      generalize smoothed a s (g s) g i = p at *
      generalize smoothed a s (x s) x i = q at *
      rw [show p + a * (g (i + 1) - p) - (q + a * (x (i + 1) - q)) = (1 - a) * (p - q) + a * (g (i + 1) - x (i + 1)) by ring]
      refine (abs_add_le _ _).trans ?_
      rw [abs_mul, abs_mul, abs_of_nonneg h0, abs_of_nonneg (by linarith : 0 ≤ 1 - a)]
      have := mul_le_mul_of_nonneg_left e1 (by linarith : 0 ≤ 1 - a)
      have := mul_le_mul_of_nonneg_left e2 h0
      linarith
    · have : s = i + 1 := by omega
      subst this
      rw [Nums.smoothed_start _ _ _ _ _ (le_refl _), Nums.smoothed_start _ _ _ _ _ (le_refl _)]
      exact h _ (le_refl _) hs

theorem ema_close (n s : ℕ) (hn : 1 ≤ n) (g x : ℕ → ℚ) (e : ℚ) (i : ℕ) (hs : s ≤ i) (h : ∀ j, s ≤ j → j ≤ i → |g j - x j| ≤ e) :
    |Spec.ema n s g i - Spec.ema n s x i| ≤ e := by
  have hn' : (1 : ℚ) ≤ n := by exact_mod_cast hn
  exact smoothed_close _ (by positivity) (by rw [div_le_iff₀ (by positivity)]; linarith) s g x e i hs h

theorem highest_abs (w : ℕ) (hw : 1 ≤ w) (g : ℕ → ℚ) (i : ℕ) (M : ℚ) (h : ∀ j ≤ i, |g j| ≤ M) : |highest w g i| ≤ M := by
  obtain ⟨-, t, -, e⟩ := Nums.highest_spec w hw g i
  rw [e]; exact h _ (by omega)

theorem lowest_abs (w : ℕ) (hw : 1 ≤ w) (g : ℕ → ℚ) (i : ℕ) (M : ℚ) (h : ∀ j ≤ i, |g j| ≤ M) : |lowest w g i| ≤ M := by
  obtain ⟨-, t, -, e⟩ := Nums.lowest_spec w hw g i
  rw [e]; exact h _ (by omega)

/-- The mean of the cells of a row. -/
theorem mean_row {A : Arith} (hA : Rounded R A) {F : Frame} {names : List String} (hF : F.SameCols ⟨F.idx, names.map fun n => (n, F.col n)⟩)
    (f : RawFrame) (hn : ∀ n ∈ names, Nums F.len 0 (price f n) (F.col n)) (hne : names ≠ []) (M : ℚ) (hM : ∀ n ∈ names, AtMost f n M)
    (hl : F.len = f.idx.length) :
    ∃ gm : ℕ → ℚ, Nums F.len 0 gm (F.rows.map A.mean) ∧
      ∀ i < F.len, Near R names.length (gm i) ((names.map fun n => price f n i).sum / names.length) M := by
  have all : ∀ i, ∃ r : ℚ, i < F.len → TTI.val (F.rows.map A.mean) i = .fin r ∧
      Near R names.length r ((names.map fun n => price f n i).sum / names.length) M := by
    intro i
    by_cases hi : i < F.len
    swap
    · exact ⟨0, fun h => absurd h hi⟩
    have e : TTI.val (F.rows.map A.mean) i = A.mean (F.cols.map fun c => c.2.getD i .nan) := by
      unfold Frame.rows
      rw [List.map_map, val_lt _ _ (by simpa using hi)]
      simp
    have hp : (F.cols.map fun c => c.2.getD i .nan).Perm ((names.map fun n => price f n i).map Val.fin) := by
      refine (hF.cols.map _).trans (List.Perm.of_eq ?_)
      simp only [List.map_map]
      refine List.map_congr_left fun n hn' => ?_
      exact (hn n hn').fin hi (by omega)
    have ev : (F.cols.map fun c => c.2.getD i .nan) = ((F.cols.map fun c => c.2.getD i .nan).map number).map Val.fin := by
      rw [List.map_map]
      conv_lhs => rw [← List.map_id (F.cols.map fun c => c.2.getD i .nan)]
      refine List.map_congr_left fun v hv => ?_
      have := (hp.mem_iff).1 hv
      simp only [List.mem_map] at this
      obtain ⟨q, -, rfl⟩ := this
      rfl
    have hp2 : ((F.cols.map fun c => c.2.getD i .nan).map number).Perm (names.map fun n => price f n i) := by
      refine (hp.map number).trans (List.Perm.of_eq ?_)
      rw [List.map_map]
      conv_rhs => rw [← List.map_id (names.map fun n => price f n i)]
      rfl
    obtain ⟨v, hv⟩ : ∃ v, v = (F.cols.map fun c => c.2.getD i .nan).map number := ⟨_, rfl⟩
    rw [← hv] at ev hp2
    have hvl : v.length = names.length := by rw [hp2.length_eq]; simp
    have hv0 : v ≠ [] := by
      intro h
      rw [h] at hvl
      exact hne (List.length_eq_zero_iff.1 hvl.symm)
    refine ⟨A.fl (A.sum v / v.length), fun _ => ⟨by rw [e, ev, A.mean_fin v hv0], ?_⟩⟩
    have := mean_near hA v hv0 M fun x hx => by
      have := hp2.mem_iff.1 hx
      simp only [List.mem_map] at this
      obtain ⟨n, hn', rfl⟩ := this
      exact hM n hn' i (by omega)
    rw [hp2.sum_eq, hvl] at this
    rwa [hvl]
  choose gm hgm using all
  exact ⟨gm, ⟨by simp [Frame.rows], fun i hi => by rw [if_neg (by omega), (hgm i hi).1]⟩, fun i hi => (hgm i hi).2⟩

end TTI
