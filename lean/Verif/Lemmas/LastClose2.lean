import Verif.Lemmas.LastClose
import Verif.Spec.Close
import Verif.Spec.Signals
import Verif.Lemmas.Col6

set_option autoImplicit false

/-!
# Signals of values that grow on the last day (C106)
-/

namespace TTI.LastClose

open Spec

/-- What is above a level stays above it, what is below a level was below it. -/
def Raised (x y : Val) : Prop := (∀ l : Val, l <ᵥ x → l <ᵥ y) ∧ ∀ l : Val, y <ᵥ l → x <ᵥ l

theorem Raised.refl (x : Val) : Raised x x := ⟨fun _ h => h, fun _ h => h⟩

theorem raised_fin {a b : ℚ} (h : a ≤ b) : Raised (.fin a) (.fin b) := by
  constructor <;> intro l <;> cases l <;> simp only [Val.lt, decide_eq_true_eq] <;> intro h' <;>
    first | trivial | exact h'.trans_le h | exact h.trans_lt h' | simp at h'

theorem raised_to4 {a b : ℚ} (h : a ≤ b) : Raised (to4 a) (to4 b) := raised_fin (roundQ_mono 4 h)

theorem raised_since {x y : Val} (k i : ℕ) (h : k ≤ i → Raised x y) : Raised (since k i x) (since k i y) := by
  unfold since
  split
  · exact .refl _
  · exact h (by omega)

theorem raised_quotient {a a' b : ℚ} (h : a ≤ a') (hb : 0 ≤ b) : Raised (round4 (quotient a b)) (round4 (quotient a' b)) := by
  unfold quotient
  by_cases h0 : b ≠ 0
  · rw [if_pos h0, if_pos h0]
    simp only [round4, Val.fin_round]
    exact raised_fin (roundQ_mono 4 (div_le_div_of_nonneg_right h hb))
  · rw [if_neg h0, if_neg h0]
    constructor <;> intro l <;> split_ifs <;> cases l <;> simp [round4, Val.round, Val.lt] <;> linarith

/-! ## The rules -/

variable {x y c c' : ℕ → Val}

/-- Raising the last value: the conditions of `extremes`. -/
theorem extremes_opposes {low high : Val} (h1 : y 1 = x 1) (hh : high <ᵥ x 0 → high <ᵥ y 0) (hl : y 0 <ᵥ low → x 0 <ᵥ low) :
    ((extremes low high y).buy → (extremes low high x).buy) ∧ ((extremes low high x).sell → (extremes low high y).sell) := by
  unfold extremes Falls Rises
  simp only [h1]
  exact ⟨fun h => ⟨h.1, hl h.2⟩, fun h => ⟨h.1, hh h.2⟩⟩

theorem extremes_raised {low high : Val} (h1 : y 1 = x 1) (h : Raised (x 0) (y 0)) :
    ((extremes low high y).buy → (extremes low high x).buy) ∧ ((extremes low high x).sell → (extremes low high y).sell) :=
  extremes_opposes h1 (h.1 _) (h.2 _)

theorem zeroLine_raised (h1 : y 1 = x 1) (h : Raised (x 0) (y 0)) :
    ((zeroLine x).buy → (zeroLine y).buy) ∧ ((zeroLine y).sell → (zeroLine x).sell) := by
  unfold zeroLine Falls Rises
  simp only [h1]
  exact ⟨fun k => ⟨k.1, h.1 _ k.2⟩, fun k => ⟨k.1, h.2 _ k.2⟩⟩

/-- Raising a line and the close. -/
structure Nearer (x y c c' : Val) : Prop where
  above : c' <ᵥ y → c <ᵥ x
  below : x <ᵥ c → y <ᵥ c'

theorem contrary_opposes (h1 : y 1 = x 1) (h2 : c' 1 = c 1) (h : Nearer (x 0) (y 0) (c 0) (c' 0)) :
    ((contrary y c').buy → (contrary x c).buy) ∧ ((contrary x c).sell → (contrary y c').sell) := by
  unfold contrary Overtakes
  simp only [h1, h2]
  exact ⟨fun k => ⟨k.1, h.above k.2⟩, fun k => ⟨k.1, h.below k.2⟩⟩

theorem follow_follows (h1 : y 1 = x 1) (h2 : c' 1 = c 1) (h : Nearer (x 0) (y 0) (c 0) (c' 0)) :
    ((follow x c).buy → (follow y c').buy) ∧ ((follow y c').sell → (follow x c).sell) := by
  unfold follow Overtakes
  simp only [h1, h2]
  exact ⟨fun k => ⟨k.1, h.below k.2⟩, fun k => ⟨k.1, h.above k.2⟩⟩

theorem nearer_fin {x y a b : ℚ} (h : y - x ≤ b - a) : Nearer (.fin x) (.fin y) (.fin a) (.fin b) := by
  constructor <;> simp only [Val.lt, decide_eq_true_eq] <;> intro <;> linarith

theorem nearer_since {x y a b : Val} (k i : ℕ) (h : k ≤ i → Nearer x y a b) : Nearer (since k i x) (since k i y) a b := by
  unfold since
  split
  · constructor
    · intro h; cases b <;> simp [Val.lt] at h
    · intro h; simp [Val.lt] at h
  · exact h (by omega)

theorem nearer_slower {a b x y : ℚ} (h : Slower a b x y) (hab : a ≤ b) (ha : ∃ m : ℤ, a = m / 10000) (hb : ∃ m : ℤ, b = m / 10000) :
    Nearer (to4 x) (to4 y) (.fin a) (.fin b) := by
  have := h.round hab ha hb
  exact nearer_fin (by linarith [this.2])

theorem outside_opposes {l l' : ℕ → Val} (h1 : x 0 <ᵥ c 0 → y 0 <ᵥ c' 0) (h2 : c' 0 <ᵥ l' 0 → c 0 <ᵥ l 0) :
    ((outside y l' c').buy → (outside x l c).buy) ∧ ((outside x l c).sell → (outside y l' c').sell) := by
  unfold outside
  exact ⟨fun k => ⟨h2 k.1, fun k' => k.2 (h1 k')⟩, fun k => h1 k⟩

/-- Raising the last value: one level from below, one from above. -/
def Pushed (lo hi : ℚ) (x y : Val) : Prop := (Val.fin hi <ᵥ x → Val.fin hi <ᵥ y) ∧ (y <ᵥ Val.fin lo → x <ᵥ Val.fin lo)

theorem Raised.pushed {x y : Val} (h : Raised x y) (lo hi : ℚ) : Pushed lo hi x y := ⟨h.1 _, h.2 _⟩

theorem pushed_since {x y : Val} {lo hi : ℚ} (k i : ℕ) (h : k ≤ i → Pushed lo hi x y) : Pushed lo hi (since k i x) (since k i y) := by
  unfold since
  split
  · exact ⟨fun h => h, fun h => h⟩
  · exact h (by omega)

theorem extremes_pushed {lo hi : ℚ} (h1 : y 1 = x 1) (h : Pushed lo hi (x 0) (y 0)) :
    ((extremes (.fin lo) (.fin hi) y).buy → (extremes (.fin lo) (.fin hi) x).buy) ∧
    ((extremes (.fin lo) (.fin hi) x).sell → (extremes (.fin lo) (.fin hi) y).sell) :=
  extremes_opposes h1 h.1 h.2

theorem down3_raised (h1 : ∀ k, 1 ≤ k → y k = x k) (h : Raised (x 0) (y 0)) : (Down3 y → Down3 x) ∧ (Up3 x → Up3 y) := by
  unfold Down3 Up3
  simp only [h1 1 le_rfl, h1 2 (by omega)]
  exact ⟨fun k => ⟨k.1, h.2 _ k.2⟩, fun k => ⟨k.1, h.1 _ k.2⟩⟩

/-! ## Shares of rises and falls -/

/-- The share of `R` in `R + F`, in percent: it grows with `R` and falls with `F`; missing values never help. -/
theorem share_raised {R F R' F' lo hi : ℚ} (hR : 0 ≤ R) (hF : 0 ≤ F') (h1 : R ≤ R') (h2 : F' ≤ F) (hlo : lo ≤ 100) (hhi : 0 ≤ hi) :
    (Val.fin hi <ᵥ round4 (quotient (100 * R) (R + F)) → Val.fin hi <ᵥ round4 (quotient (100 * R') (R' + F'))) ∧
    (round4 (quotient (100 * R') (R' + F')) <ᵥ Val.fin lo → round4 (quotient (100 * R) (R + F)) <ᵥ Val.fin lo) := by
  unfold quotient
  by_cases h0 : R + F ≠ 0
  · rw [if_pos h0]
    have hp : 0 < R + F := lt_of_le_of_ne (by linarith) (Ne.symm h0)
    by_cases h0' : R' + F' ≠ 0
    · rw [if_pos h0']
      have hp' : 0 < R' + F' := lt_of_le_of_ne (by linarith) (Ne.symm h0')
      have : 100 * R / (R + F) ≤ 100 * R' / (R' + F') := by
        rw [div_le_div_iff₀ hp hp']
        nlinarith [mul_nonneg hR (by linarith : 0 ≤ F - F'), mul_nonneg (by linarith : 0 ≤ F) (by linarith : 0 ≤ R' - R)]
      have := raised_fin (roundQ_mono 4 this)
      exact ⟨this.1 _, this.2 _⟩
    · have e : R' = 0 := by push Not at h0'; linarith
      have e1 : R = 0 := by linarith
      subst e e1
      rw [if_neg h0']
      simp [round4, Val.round, Val.lt, hhi]
  · have e : R + F = 0 := by push Not at h0; exact h0
    have e1 : R = 0 := by linarith
    have e2 : F = 0 := by linarith
    have e3 : F' = 0 := by linarith
    subst e1 e2 e3
    rw [if_neg h0]
    constructor
    · simp [round4, Val.round, Val.lt]
    · by_cases h0' : R' + 0 ≠ 0
      · rw [if_pos h0']
        have : 100 * R' / (R' + 0) = 100 := by rw [add_zero] at *; field_simp
        rw [this]
        simpa [round4, Val.lt] using hlo
      · rw [if_neg h0']
        push Not at h0'
        have : R' = 0 := by linarith
        subst this
        simp [round4, Val.round, Val.lt]

theorem balance_raised {R F R' F' lo hi : ℚ} (hR : 0 ≤ R) (hF : 0 ≤ F') (h1 : R ≤ R') (h2 : F' ≤ F) (hlo : lo ≤ 100) (hhi : -100 ≤ hi) :
    (Val.fin hi <ᵥ round4 (quotient (100 * (R - F)) (R + F)) → Val.fin hi <ᵥ round4 (quotient (100 * (R' - F')) (R' + F'))) ∧
    (round4 (quotient (100 * (R' - F')) (R' + F')) <ᵥ Val.fin lo → round4 (quotient (100 * (R - F)) (R + F)) <ᵥ Val.fin lo) := by
  unfold quotient
  by_cases h0 : R + F ≠ 0
  · rw [if_pos h0]
    have hp : 0 < R + F := lt_of_le_of_ne (by linarith) (Ne.symm h0)
    by_cases h0' : R' + F' ≠ 0
    · rw [if_pos h0']
      have hp' : 0 < R' + F' := lt_of_le_of_ne (by linarith) (Ne.symm h0')
      have : 100 * (R - F) / (R + F) ≤ 100 * (R' - F') / (R' + F') := by
        rw [div_le_div_iff₀ hp hp']
        nlinarith [mul_nonneg hR (by linarith : 0 ≤ F - F'), mul_nonneg (by linarith : 0 ≤ F) (by linarith : 0 ≤ R' - R)]
      have := raised_fin (roundQ_mono 4 this)
      exact ⟨this.1 _, this.2 _⟩
    · have e : R' = 0 := by push Not at h0'; linarith
      have e1 : R = 0 := by linarith
      have e2 : F' = 0 := by push Not at h0'; linarith
      subst e e1 e2
      have hF0 : F ≠ 0 := by simpa using h0
      rw [if_neg h0']
      have : 100 * (0 - F) / (0 + F) = -100 := by rw [zero_add, zero_sub]; field_simp
      rw [this]
      simp [round4, Val.round, Val.lt, hhi]
  · have e : R + F = 0 := by push Not at h0; exact h0
    have e1 : R = 0 := by linarith
    have e2 : F = 0 := by linarith
    have e3 : F' = 0 := by linarith
    subst e1 e2 e3
    rw [if_neg h0]
    constructor
    · simp [round4, Val.round, Val.lt]
    · by_cases h0' : R' + 0 ≠ 0
      · rw [if_pos h0']
        have : 100 * (R' - 0) / (R' + 0) = 100 := by rw [add_zero] at *; rw [sub_zero]; field_simp
        rw [this]
        simpa [round4, Val.lt] using hlo
      · rw [if_neg h0']
        push Not at h0'
        have : R' = 0 := by linarith
        subst this
        simp [round4, Val.round, Val.lt]

/-! ## The commodity channel index -/

/-- The numbers `e` around their mean 0, as seen from a point: `z` times the distances grows slower than linear. -/
theorem distance_share {n : ℕ} (e : ℕ → ℚ) (he : ∑ t ∈ Finset.range n, e t = 0) {z z' r : ℚ} (h0 : 0 < z) (h : z ≤ z') (hr : 0 ≤ r) :
    z * ∑ t ∈ Finset.range n, |e t - z' * r| ≤ z' * ∑ t ∈ Finset.range n, |e t - z * r| := by
  have h0' : 0 < z' := by linarith
  set k := z * z' * r with hk
  have hk0 : 0 ≤ k := by positivity
  have e1 : z * ∑ t ∈ Finset.range n, |e t - z' * r| = ∑ t ∈ Finset.range n, |z * e t - k| := by
    rw [Finset.mul_sum]
    refine Finset.sum_congr rfl fun t _ => ?_
    rw [← abs_of_pos h0, ← abs_mul, abs_of_pos h0, hk]
    congr 1; ring
  have e2 : z' * ∑ t ∈ Finset.range n, |e t - z * r| = ∑ t ∈ Finset.range n, |z' * e t - k| := by
    rw [Finset.mul_sum]
    refine Finset.sum_congr rfl fun t _ => ?_
    rw [← abs_of_pos h0', ← abs_mul, abs_of_pos h0', hk]
    congr 1; ring
  rw [e1, e2]
  set lam := z / z' with hlam
  have l0 : 0 ≤ lam := by positivity
  have l1 : lam ≤ 1 := by rw [hlam, div_le_one h0']; exact h
  have hz : z = lam * z' := by rw [hlam]; field_simp
  have k1 : ∑ t ∈ Finset.range n, |z * e t - k| ≤ ∑ t ∈ Finset.range n, (lam * |z' * e t - k| + (1 - lam) * k) := by
    refine Finset.sum_le_sum fun t _ => ?_
    have : z * e t - k = lam * (z' * e t - k) + (1 - lam) * (-k) := by rw [hz]; ring
    rw [this]
    refine (abs_add_le _ _).trans ?_
    rw [abs_mul, abs_mul, abs_of_nonneg l0, abs_of_nonneg (by linarith : 0 ≤ 1 - lam), abs_neg, abs_of_nonneg hk0]
  have k2 : (n : ℚ) * k ≤ ∑ t ∈ Finset.range n, |z' * e t - k| := by
    have : |∑ t ∈ Finset.range n, (z' * e t - k)| ≤ ∑ t ∈ Finset.range n, |z' * e t - k| := Finset.abs_sum_le_sum_abs _ _
    rw [Finset.sum_sub_distrib, ← Finset.mul_sum, he, mul_zero, zero_sub, Finset.sum_const, Finset.card_range, nsmul_eq_mul, abs_neg,
      abs_of_nonneg (by positivity)] at this
    exact this
  rw [Finset.sum_add_distrib, ← Finset.mul_sum, Finset.sum_const, Finset.card_range, nsmul_eq_mul] at k1
  nlinarith

/-- A number divided by a spread that vanishes only together with it. -/
theorem spread_raised {N D N' D' k lo hi : ℚ} (hk : 0 < k) (hD : 0 ≤ D) (hD' : 0 ≤ D') (h0 : D = 0 → N = 0) (h0' : D' = 0 → N' = 0)
    (h : N ≤ N') (hm : N * D' ≤ N' * D) (hlo : lo ≤ 0) (hhi : 0 ≤ hi) :
    (Val.fin hi <ᵥ round4 (quotient N (k * D)) → Val.fin hi <ᵥ round4 (quotient N' (k * D'))) ∧
    (round4 (quotient N' (k * D')) <ᵥ Val.fin lo → round4 (quotient N (k * D)) <ᵥ Val.fin lo) := by
  unfold quotient
  by_cases e : D = 0
  · have e1 := h0 e
    subst e e1
    rw [mul_zero, if_neg (by simp)]
    refine ⟨by simp [round4, Val.round, Val.lt], ?_⟩
    by_cases e' : D' = 0
    · have e1 := h0' e'
      subst e' e1
      simp [round4, Val.round, Val.lt]
    · rw [if_pos (by positivity)]
      have : 0 ≤ N' / (k * D') := by positivity
      have := roundQ_nonneg 4 this
      simp only [round4, Val.fin_round, Val.lt, decide_eq_true_eq]
      intro; linarith
  · by_cases e' : D' = 0
    · have e1 := h0' e'
      subst e' e1
      rw [if_pos (by positivity), mul_zero, if_neg (by simp)]
      refine ⟨?_, by simp [round4, Val.round, Val.lt]⟩
      have : N / (k * D) ≤ 0 := div_nonpos_of_nonpos_of_nonneg h (by positivity)
      have := roundQ_mono 4 this
      rw [roundQ_zero] at this
      simp only [round4, Val.fin_round, Val.lt, decide_eq_true_eq]
      intro; linarith
    · rw [if_pos (by positivity), if_pos (by positivity)]
      have p1 : 0 < D := lt_of_le_of_ne hD (Ne.symm e)
      have p2 : 0 < D' := lt_of_le_of_ne hD' (Ne.symm e')
      have : N / (k * D) ≤ N' / (k * D') := by
        rw [div_le_div_iff₀ (by positivity) (by positivity)]
        nlinarith
      have := raised_fin (roundQ_mono 4 this)
      exact ⟨this.1 _, this.2 _⟩

/-- Distance of the last number from the mean of the last `n`, and the mean distance from that mean, in terms of the distance `Z` from the
mean of the `k = n - 1` numbers before. -/
theorem channel_parts (k L : ℕ) (u : ℕ → ℚ) (hk : 1 ≤ k) :
    let M := (∑ t ∈ Finset.range k, u (L - (t + 1))) / k
    let Z := u L - M
    u L - meanLast (k + 1) u L = k / (k + 1) * Z ∧
    meanLast (k + 1) (fun j => |meanLast (k + 1) u L - u j|) L =
      (k / (k + 1) * |Z| + ∑ t ∈ Finset.range k, |(u (L - (t + 1)) - M) - Z * (1 / (k + 1))|) / (k + 1) := by
  intro M Z
  have hk0 : (0 : ℚ) < k := by exact_mod_cast hk
  have e : meanLast (k + 1) u L = M + Z * (1 / (k + 1)) := by
    unfold meanLast sumLast
    rw [Finset.sum_range_succ']
    have : ∑ t ∈ Finset.range k, u (L - (t + 1)) = k * M := by simp only [M]; field_simp
    rw [this]
    simp only [Nat.sub_zero, Z]
    push_cast
    field_simp
    ring
  have e0 : u L - meanLast (k + 1) u L = k / (k + 1) * Z := by
    rw [e]
    have : u L = M + Z := by simp [Z]
    rw [this]
    field_simp
    ring
  refine ⟨e0, ?_⟩
  show sumLast (k + 1) _ L / _ = _
  unfold sumLast
  rw [Finset.sum_range_succ', Nat.sub_zero]
  beta_reduce
  rw [abs_sub_comm (meanLast (k + 1) u L) (u L), e0, abs_mul, abs_of_nonneg (by positivity : (0 : ℚ) ≤ k / (k + 1))]
  push_cast
  congr 1
  rw [add_comm]
  congr 1
  refine Finset.sum_congr rfl fun t _ => ?_
  rw [abs_sub_comm, e]
  congr 1
  ring

theorem channel_raised {L : ℕ} {u v : ℕ → ℚ} (n : ℕ) (hn : 1 ≤ n) (hL : n ≤ L + 1) (hs : ∀ j < L, v j = u j) (hl : u L ≤ v L) :
    (Val.fin 100 <ᵥ round4 (quotient (u L - meanLast n u L) (15 / 1000 * meanLast n (fun j => |meanLast n u L - u j|) L)) →
      Val.fin 100 <ᵥ round4 (quotient (v L - meanLast n v L) (15 / 1000 * meanLast n (fun j => |meanLast n v L - v j|) L))) ∧
    (round4 (quotient (v L - meanLast n v L) (15 / 1000 * meanLast n (fun j => |meanLast n v L - v j|) L)) <ᵥ Val.fin (-100) →
      round4 (quotient (u L - meanLast n u L) (15 / 1000 * meanLast n (fun j => |meanLast n u L - u j|) L)) <ᵥ Val.fin (-100)) := by
  obtain ⟨k, rfl⟩ : ∃ k, n = k + 1 := ⟨n - 1, by omega⟩
  rcases Nat.eq_zero_or_pos k with rfl | hk
  · have : ∀ w : ℕ → ℚ, w L - meanLast 1 w L = 0 := fun w => by simp [meanLast, sumLast]
    have h2 : ∀ w : ℕ → ℚ, meanLast 1 (fun j => |meanLast 1 w L - w j|) L = 0 := fun w => by simp [meanLast, sumLast]
    simp only [Nat.zero_add]
    rw [this, this, h2, h2]
    simp [quotient, round4, Val.round, Val.lt]
  · have hk0 : (0 : ℚ) < k := by exact_mod_cast hk
    have eM : ∑ t ∈ Finset.range k, v (L - (t + 1)) = ∑ t ∈ Finset.range k, u (L - (t + 1)) :=
      Finset.sum_congr rfl fun t ht => hs _ (by rw [Finset.mem_range] at ht; omega)
    obtain ⟨a1, a2⟩ := channel_parts k L u hk
    obtain ⟨b1, b2⟩ := channel_parts k L v hk
    rw [eM] at b1 b2
    have eS : ∀ (M q : ℚ), ∑ t ∈ Finset.range k, |(v (L - (t + 1)) - M) - q| = ∑ t ∈ Finset.range k, |(u (L - (t + 1)) - M) - q| :=
      fun M q => Finset.sum_congr rfl fun t ht => by rw [hs _ (by rw [Finset.mem_range] at ht; omega)]
    rw [eS] at b2
    set M := (∑ t ∈ Finset.range k, u (L - (t + 1))) / k with hM
    set Z := u L - M with hZ
    set Z' := v L - M with hZ'
    set e : ℕ → ℚ := fun t => u (L - (t + 1)) - M with he
    have hee : ∑ t ∈ Finset.range k, e t = 0 := by
      simp only [he]
      rw [Finset.sum_sub_distrib, Finset.sum_const, Finset.card_range, nsmul_eq_mul, hM]
      field_simp
      ring
    have hZZ : Z ≤ Z' := by linarith
    set r : ℚ := 1 / (k + 1) with hr
    have hr0 : 0 ≤ r := by positivity
    have s0 : ∀ z : ℚ, 0 ≤ ∑ t ∈ Finset.range k, |e t - z * r| := fun z => Finset.sum_nonneg fun _ _ => abs_nonneg _
    have key : Z * ∑ t ∈ Finset.range k, |e t - Z' * r| + k / (k + 1) * (Z * |Z'|) ≤
        Z' * ∑ t ∈ Finset.range k, |e t - Z * r| + k / (k + 1) * (Z' * |Z|) := by
      rcases lt_or_ge 0 Z with h | h
      · have := distance_share e hee h hZZ hr0
        rw [abs_of_pos h, abs_of_pos (h.trans_le hZZ), mul_comm Z Z']
        linarith
      · rcases lt_or_ge Z' 0 with h' | h'
        · have := distance_share (fun t => - e t) (by rw [Finset.sum_neg_distrib, hee, neg_zero]) (z := -Z') (z' := -Z) (by linarith)
            (by linarith) hr0
          have en : ∀ z : ℚ, ∑ t ∈ Finset.range k, |-e t - -z * r| = ∑ t ∈ Finset.range k, |e t - z * r| := fun z =>
            Finset.sum_congr rfl fun t _ => by rw [← abs_neg]; congr 1; ring
          rw [en, en] at this
          rw [abs_of_neg h', abs_of_nonpos h]
          linarith
        · have q1 := mul_nonneg (neg_nonneg.2 h) (s0 Z')
          have q2 := mul_nonneg h' (s0 Z)
          have q3 : Z * |Z'| ≤ Z' * |Z| := by nlinarith [abs_nonneg Z, abs_nonneg Z']
          have q4 : (k : ℚ) / (k + 1) * (Z * |Z'|) ≤ k / (k + 1) * (Z' * |Z|) := mul_le_mul_of_nonneg_left q3 (by positivity)
          linarith
    have z0 : ∀ z : ℚ, (k / (k + 1) * |z| + ∑ t ∈ Finset.range k, |e t - z * r|) / (k + 1) = 0 → k / (k + 1) * z = 0 := fun z hz => by
      have h1 : k / ((k : ℚ) + 1) * |z| + ∑ t ∈ Finset.range k, |e t - z * r| = 0 := by
        rcases div_eq_zero_iff.1 hz with h | h
        · exact h
        · linarith
      have h2 : 0 ≤ k / ((k : ℚ) + 1) * |z| := by positivity
      have h3 : k / ((k : ℚ) + 1) * |z| = 0 := by linarith [s0 z]
      rcases mul_eq_zero.1 h3 with h | h
      · rw [h, zero_mul]
      · rw [abs_eq_zero.1 h, mul_zero]
    rw [a1, b1, a2, b2]
    have hkk : (0 : ℚ) ≤ k / (k + 1) := by positivity
    have d0 : ∀ z : ℚ, 0 ≤ (k / (k + 1) * |z| + ∑ t ∈ Finset.range k, |e t - z * r|) / (k + 1) := fun z =>
      div_nonneg (add_nonneg (mul_nonneg hkk (abs_nonneg z)) (s0 z)) (by positivity)
    refine spread_raised (by norm_num) (d0 Z) (d0 Z') (z0 Z) (z0 Z')
      (mul_le_mul_of_nonneg_left hZZ hkk) ?_ (by norm_num) (by norm_num)
    have hfin : ∀ S S' : ℚ, Z * S' + k / (k + 1) * (Z * |Z'|) ≤ Z' * S + k / (k + 1) * (Z' * |Z|) →
        k / (k + 1) * Z * ((k / (k + 1) * |Z'| + S') / (k + 1)) ≤ k / (k + 1) * Z' * ((k / (k + 1) * |Z| + S) / (k + 1)) :=
      fun S S' hS => by
        have h1 : (0 : ℚ) ≤ k / (k + 1) / (k + 1) := div_nonneg hkk (by positivity)
        have := mul_le_mul_of_nonneg_left hS h1
        have e1 : (k : ℚ) / (k + 1) * Z * ((k / (k + 1) * |Z'| + S') / (k + 1)) =
          k / (k + 1) / (k + 1) * (Z * S' + k / (k + 1) * (Z * |Z'|)) := by ring
        have e2 : (k : ℚ) / (k + 1) * Z' * ((k / (k + 1) * |Z| + S) / (k + 1)) =
          k / (k + 1) / (k + 1) * (Z' * S + k / (k + 1) * (Z' * |Z|)) := by ring
        rw [e1, e2]
        exact this
    exact hfin _ _ key

end TTI.LastClose
