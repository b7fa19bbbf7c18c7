import Verif.Lemmas.Unlimited5

set_option autoImplicit false

/-!
# The range indicator never forgets (C68)

Its numbers lie between 0 and 100 and an early one counts less and less; the table is made such that what is left of it moves
the value across the middle between two reported numbers.
-/

namespace TTI.Past

open Spec Props

variable (E : Env) (c : Call)

/-- The middle between two reported numbers goes to the even one. -/
theorem roundQ_middle (w : ℤ) : roundQ 4 ((2 * w + 1 / 2) / 10 ^ 4) = (2 * w : ℤ) / 10 ^ 4 := by
  unfold roundQ
  congr 1
  rw [div_mul_cancel₀ _ (by norm_num)]
  have hf : ⌊(2 * w + 1 / 2 : ℚ)⌋ = 2 * w := by
    rw [Int.floor_eq_iff]
    push_cast
    constructor <;> linarith
  unfold rint
  simp only [hf]
  rw [if_neg (by push_cast; linarith), if_neg (by push_cast; linarith), if_pos (by omega)]

/-- Numbers of the day with a zero among the last ones. -/
theorem place_of (f : RawFrame) (w j : ℕ) (hw : 1 ≤ w) (h : ℕ → ℚ) (hj : w ≤ j) (h0 : ∀ i ≤ j, 0 ≤ h i)
    (hf : ∀ i ≤ j, 1 ≤ i → rangePerRise f i = h i) (hz : ∃ t < w, h (j - t) = 0) (M : ℚ) (hM : ∀ t < w, h (j - t) ≤ M)
    (hM' : ∃ t < w, h (j - t) = M) : rangePlace f w j = if M = 0 then 0 else 100 * h j / M := by
  obtain ⟨l1, t, ht, l2⟩ := Nums.lowest_spec w hw (rangePerRise f) j
  obtain ⟨m1, u, hu, m2⟩ := Nums.highest_spec w hw (rangePerRise f) j
  have lo : lowest w (rangePerRise f) j = 0 := by
    refine le_antisymm ?_ ?_
    · obtain ⟨t, ht, hz⟩ := hz
      have := l1 t ht
      rwa [hf _ (by omega) (by omega), hz] at this
    · rw [l2, hf _ (by omega) (by omega)]
      exact h0 _ (by omega)
  have hi : highest w (rangePerRise f) j = M := by
    refine le_antisymm ?_ ?_
    · rw [m2, hf _ (by omega) (by omega)]
      exact hM u hu
    · obtain ⟨t, ht, hz⟩ := hM'
      have := m1 t ht
      rwa [hf _ (by omega) (by omega), hz] at this
  unfold rangePlace
  simp only [lo, hi, hf j (le_refl _) (by omega), sub_zero]

theorem never_range (p s : ℕ) (hc : c.check = .ok (.rangeIndicator p s)) (hp : 3 ≤ p) (hs : 2 ≤ s) (hs' : s < 1000000) :
    NeverForgets E c "ri" := by
  obtain ⟨a, ha⟩ : ∃ a : ℚ, a = 2 / ((s : ℚ) + 1) := ⟨_, rfl⟩
  have ha0 : 0 < a := by rw [ha]; exact (weight_range (by omega)).1
  have hr : 0 < 1 - a := by rw [ha]; exact rest_pos hs
  have hbig : 2 / 10 ^ 4 ≤ 100 * a := by
    have : (s : ℚ) + 1 ≤ 1000000 := by exact_mod_cast (by omega : s + 1 ≤ 1000000)
    rw [ha, mul_div_assoc', div_le_div_iff₀ (by norm_num) (by positivity)]
    linarith
  obtain ⟨w, hw1, hw2⟩ : ∃ w : ℤ, 100 * a * (1 - a) ≤ (2 * w + 1 / 2) / 10 ^ 4 ∧
      ((2 * w + 1 / 2 : ℚ)) / 10 ^ 4 ≤ 100 * a * (1 - a) + 100 * a := by
    refine ⟨⌈(10 ^ 4 * (100 * a * (1 - a)) - 1 / 2) / 2⌉, ?_, ?_⟩
    · have := Int.le_ceil ((10 ^ 4 * (100 * a * (1 - a)) - 1 / 2) / 2)
      rw [le_div_iff₀ (by norm_num)]
      linarith
    · have := Int.ceil_lt_add_one ((10 ^ 4 * (100 * a * (1 - a)) - 1 / 2) / 2)
      rw [div_le_iff₀ (by norm_num)]
      linarith
  obtain ⟨P, hP⟩ : ∃ P : ℚ, P = ((2 * w + 1 / 2) / 10 ^ 4 - 100 * a * (1 - a)) / a := ⟨_, rfl⟩
  have hPa : a * P = (2 * w + 1 / 2) / 10 ^ 4 - 100 * a * (1 - a) := by rw [hP]; field_simp
  have hP0 : 0 ≤ P := by rw [hP]; exact div_nonneg (by linarith) ha0.le
  have hP1 : P ≤ 100 := by rw [hP, div_le_iff₀ ha0]; linarith
  let h : ℕ → ℚ → ℕ → ℚ := fun N b j => if j = p then b else if j = N - 1 then 100 else if j = N then P else 0
  let x : ℕ → ℚ → String → ℕ → ℚ := fun N b n j => if n = "high" then h N b j else 0
  have h0 : ∀ N : ℕ, ∀ b : ℚ, 0 ≤ b → ∀ j, 0 ≤ h N b j := by
    intro N b hb j
    simp only [h]
    split
    · exact hb
    · split
      · norm_num
      · split
        · exact hP0
        · exact le_refl _
  have hhigh : ∀ N : ℕ, ∀ b : ℚ, ∀ j ≤ N, high (table (N + 1) (x N b)) j = h N b j :=
    fun N b j hj => (table_price _ _ _ high_ohlcv _ (by omega)).trans (by simp [x])
  have hlow : ∀ N : ℕ, ∀ b : ℚ, ∀ j ≤ N, low (table (N + 1) (x N b)) j = 0 :=
    fun N b j hj => (table_price _ _ _ low_ohlcv _ (by omega)).trans (by simp [x])
  have hclose : ∀ N : ℕ, ∀ b : ℚ, ∀ j ≤ N, close (table (N + 1) (x N b)) j = 0 :=
    fun N b j hj => (table_price _ _ _ close_ohlcv _ (by omega)).trans (by simp [x])
  have hrise : ∀ N : ℕ, ∀ b : ℚ, 0 ≤ b → ∀ j ≤ N, 1 ≤ j → rangePerRise (table (N + 1) (x N b)) j = h N b j := by
    intro N b hb j hj h1
    have := h0 N b hb j
    rw [rangePerRise, hclose _ _ _ hj, hclose _ _ _ (by omega), if_neg (lt_irrefl _), trueRange, if_neg (by omega), hhigh _ _ _ hj,
      hlow _ _ _ hj, hclose _ _ _ (by omega), sub_zero, max_self, sub_self, max_eq_left this]
  -- the places: 100 or 0 on day p, then 0, on the last days 100 and P
  have place : ∀ N : ℕ, p + 4 ≤ N → ∀ b : ℚ, (b = 0 ∨ b = 1) → rangePlace (table (N + 1) (x N b)) p p = 100 * b ∧
      (∀ j, p < j → j ≤ N - 2 → rangePlace (table (N + 1) (x N b)) p j = 0) ∧
      rangePlace (table (N + 1) (x N b)) p (N - 1) = 100 ∧ rangePlace (table (N + 1) (x N b)) p N = P := by
    intro N hN b hb
    have hb0 : 0 ≤ b := by rcases hb with rfl | rfl <;> norm_num
    have hb1 : b ≤ 1 := by rcases hb with rfl | rfl <;> norm_num
    have hpl := fun (j : ℕ) (hj : j ≤ N) (hpj : p ≤ j) hz M hM hM' => place_of (table (N + 1) (x N b)) p j (by omega) (h N b) hpj (fun i _ => h0 N b hb0 i)
      (fun i hi h1 => hrise N b hb0 i (by omega) h1) hz M hM hM'
    have hat : ∀ j, j ≠ p → j ≠ N - 1 → j ≠ N → h N b j = 0 := fun j h1 h2 h3 => by simp only [h, if_neg h1, if_neg h2, if_neg h3]
    have hatp : h N b p = b := by simp only [h, if_true]
    have hatN : h N b N = P := by
      simp only [h, if_neg (show ¬ N = p by omega), if_neg (show ¬ N = N - 1 by omega), if_true]
    have hatN1 : h N b (N - 1) = 100 := by simp only [h, if_neg (show ¬ N - 1 = p by omega), if_true]
    have hle : ∀ j, h N b j ≤ 100 := by
      intro j
      simp only [h]
      split
      · linarith
      · split
        · exact le_refl _
        · split
          · exact hP1
          · norm_num
    refine ⟨?_, fun j h1 h2 => ?_, ?_, ?_⟩
    · rw [hpl p (by omega) (le_refl _) ⟨1, by omega, hat _ (by omega) (by omega) (by omega)⟩ b (fun t ht => by
        by_cases h3 : t = 0
        · subst h3; rw [Nat.sub_zero, hatp]
        · rw [hat _ (by omega) (by omega) (by omega)]; exact hb0) ⟨0, by omega, hatp⟩, hatp]
      rcases hb with rfl | rfl <;> simp
    · by_cases h3 : j < 2 * p
      · rw [hpl j (by omega) (by omega) ⟨0, by omega, hat _ (by omega) (by omega) (by omega)⟩ b (fun t ht => by
          by_cases h4 : j - t = p
          · rw [h4, hatp]
          · rw [hat _ h4 (by omega) (by omega)]; exact hb0) ⟨j - p, by omega, by rw [show j - (j - p) = p by omega, hatp]⟩,
          hat _ (by omega) (by omega) (by omega)]
        simp
      · rw [hpl j (by omega) (by omega) ⟨0, by omega, hat _ (by omega) (by omega) (by omega)⟩ 0 (fun t ht => by
          rw [hat _ (by omega) (by omega) (by omega)]) ⟨0, by omega, hat _ (by omega) (by omega) (by omega)⟩]
        simp
    · rw [hpl (N - 1) (by omega) (by omega) ⟨1, by omega, hat _ (by omega) (by omega) (by omega)⟩ 100 (fun t _ => hle _)
        ⟨0, by omega, hatN1⟩, hatN1]
      norm_num
    · rw [hpl N (le_refl _) (by omega) ⟨2, by omega, hat _ (by omega) (by omega) (by omega)⟩ 100 (fun t _ => hle _)
        ⟨1, by omega, hatN1⟩, hatN]
      norm_num
  have hv : ∀ b : ℚ, (b = 0 ∨ b = 1) → ∀ k, Shows E c (.rangeIndicator p s) "ri" (k + p + s + 4) (x (k + p + s + 4) b)
      (to4 ((2 * w + 1 / 2) / 10 ^ 4 + (1 - a) ^ 2 * ((1 - a) ^ (k + s + 2) * (100 * b)))) := by
    intro b hb k o ho hi
    obtain ⟨p1, p2, p3, p4⟩ := place (k + p + s + 4) (by omega) b hb
    rw [C58_range_indicator ho p s hi _ (by rw [table_length]; omega), since, if_neg (by omega)]
    congr 1
    have e1 := ema_fade s p (rangePlace (table (k + p + s + 4 + 1) (x (k + p + s + 4) b)) p) (k + p + s + 2) (by omega)
      fun j h1 h2 => p2 j h1 (by omega)
    have e2 : ema s p (rangePlace (table (k + p + s + 4 + 1) (x (k + p + s + 4) b)) p) (k + p + s + 2 + 1) = _ :=
      Nums.smoothed_next _ _ _ _ _ (by omega)
    have e3 : ema s p (rangePlace (table (k + p + s + 4 + 1) (x (k + p + s + 4) b)) p) (k + p + s + 2 + 1 + 1) = _ :=
      Nums.smoothed_next _ _ _ _ _ (by omega)
    rw [← ha, p1, show k + p + s + 2 - p = k + s + 2 by omega] at e1
    rw [show k + p + s + 2 + 1 = k + p + s + 4 - 1 by omega, p3] at e2
    rw [show k + p + s + 2 + 1 + 1 = k + p + s + 4 by omega, show k + p + s + 2 + 1 = k + p + s + 4 - 1 by omega, p4] at e3
    unfold ema at e1 e2 e3 ⊢
    rw [← ha] at e1 e2 e3 ⊢
    rw [e3, e2, e1]
    linear_combination hPa
  refine neverForgets E c _ hc _ fun k => ⟨k + p + s + 4, p + 1, x (k + p + s + 4) 1, x (k + p + s + 4) 0, _, _,
    by simp only [minRows]; omega, by omega, fun n j hj => ?_, ?_, hv 1 (Or.inr rfl) k, hv 0 (Or.inl rfl) k⟩
  · simp only [x, h, if_neg (show ¬ j = p by omega)]
  · simp only [to4, mul_zero, add_zero, mul_one, ne_eq, Val.fin.injEq, roundQ_middle]
    intro he
    have h1 := (abs_le.1 (roundQ_close 4 ((2 * w + 1 / 2) / 10 ^ 4 + (1 - a) ^ 2 * ((1 - a) ^ (k + s + 2) * 100)))).1
    rw [he] at h1
    push_cast at h1
    have : 0 < (1 - a) ^ 2 * ((1 - a) ^ (k + s + 2) * 100) := by positivity
    norm_num at h1
    linarith

end TTI.Past
