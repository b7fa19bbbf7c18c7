import Verif.Spec.FloatRange
import Verif.Lemmas.FloatCorrect
import Verif.Lemmas.FloatErr

set_option autoImplicit false

/-! Lemmas for C92. -/

namespace TTI

open Spec Flt

theorem fair_double : Fair double where
  small := by decide +kernel
  whole z h := toDouble_whole z (h.trans (by norm_num))
  neg := toDouble_neg

variable {R : Rounding} {A : Arith}

namespace Spec.Fair

theorem zero (hF : Fair R) : R.fl 0 = 0 := by simpa using hF.whole 0 (by norm_num)
theorem one (hF : Fair R) : R.fl 1 = 1 := by simpa using hF.whole 1 (by norm_num)
theorem hundred (hF : Fair R) : R.fl 100 = 100 := by simpa using hF.whole 100 (by norm_num)

theorem pos (hF : Fair R) {x : ℚ} (h : 0 ≤ x) : 0 ≤ R.fl x := by
  have := R.mono 0 x h
  rwa [hF.zero] at this

theorem le_whole (hF : Fair R) {x : ℚ} (z : ℤ) (hz : |z| ≤ 10 ^ 6) (h : x ≤ z) : R.fl x ≤ z := by
  have := R.mono x z h
  rwa [hF.whole z hz] at this

theorem whole_le (hF : Fair R) {x : ℚ} (z : ℤ) (hz : |z| ≤ 10 ^ 6) (h : (z : ℚ) ≤ x) : (z : ℚ) ≤ R.fl x := by
  have := R.mono z x h
  rwa [hF.whole z hz] at this

theorem upper (_ : Fair R) (x : ℚ) : R.fl x ≤ x + R.unit * |x| := by
  have := (abs_le.1 (R.error x)).2
  linarith

theorem lower (_ : Fair R) (x : ℚ) : x - R.unit * |x| ≤ R.fl x := by
  have := (abs_le.1 (R.error x)).1
  linarith

end Spec.Fair

/-- Missing, or a number at most 1/40000 outside the range. -/
def Slack (lo hi : ℚ) (v : Val) : Prop := v = .nan ∨ ∃ q, v = .fin q ∧ lo - 1 / 40000 ≤ q ∧ q ≤ hi + 1 / 40000

theorem slack_of_range {lo hi : ℚ} {v : Val} (h : InRange lo hi v) : Slack lo hi v := by
  rcases h with h | ⟨q, h, h1, h2⟩
  · exact .inl h
  · exact .inr ⟨q, h, by linarith, by linarith⟩

/-- The rounding to four decimals removes the excess. -/
theorem round_range (hA : A.fl = R.fl) (hF : Fair R) (a b : ℤ) (ha : |a| ≤ 100) (hb : |b| ≤ 100) {v : Val} (h : Slack a b v) :
    InRange a b (A.round 4 v) := by
  rcases h with rfl | ⟨q, rfl, h1, h2⟩
  · exact .inl rfl
  refine .inr ⟨_, rfl, ?_⟩
  rw [hA]
  have hu := hF.small
  have hu0 := R.nonneg
  have ha' := abs_le.1 ha
  have hb' := abs_le.1 hb
  have ha1 : (-100 : ℚ) ≤ a := by exact_mod_cast ha'.1
  have hb1 : (b : ℚ) ≤ 100 := by exact_mod_cast hb'.2
  have hq : |q * 10 ^ 4| ≤ 10 ^ 6 + 1 := abs_le.2 ⟨by linarith, by linarith⟩
  have g1 : (a : ℚ) * 10000 - 1 / 4 ≤ q * 10 ^ 4 := by linarith
  have g2 : q * 10 ^ 4 ≤ b * 10000 + 1 / 4 := by linarith
  clear h1 h2
  generalize q * 10 ^ 4 = q at hq g1 g2 ⊢
  have hum := mul_le_mul_of_nonneg_left hq hu0
  have e1 := hF.upper q
  have e2 := hF.lower q
  have r := abs_le.1 (rint_close (R.fl q))
  generalize rint (R.fl q) = k at r ⊢
  have k1 : a * 10000 ≤ k := by
    have : ((a * 10000 - 1 : ℤ) : ℚ) < k := by push_cast; linarith [r.1]
    have : a * 10000 - 1 < k := by exact_mod_cast this
    omega
  have k2 : k ≤ b * 10000 := by
    have : (k : ℚ) < ((b * 10000 + 1 : ℤ) : ℚ) := by push_cast; linarith [r.2]
    have : k < b * 10000 + 1 := by exact_mod_cast this
    omega
  have k1' : (a : ℚ) * 10000 ≤ k := by exact_mod_cast k1
  have k2' : (k : ℚ) ≤ b * 10000 := by exact_mod_cast k2
  exact ⟨hF.whole_le a (ha.trans (by norm_num)) (by rw [le_div_iff₀ (by norm_num)]; linarith),
    hF.le_whole b (hb.trans (by norm_num)) (by rw [div_le_iff₀ (by norm_num)]; linarith)⟩

/-- The quotient of two rounded differences of which the first is not larger. -/
theorem div_range (hA : A.fl = R.fl) (hF : Fair R) {a b : ℚ} (h0 : 0 ≤ a) (h1 : a ≤ b) :
    InRange 0 1 (A.div (.fin a) (.fin b)) := by
  rcases eq_or_ne b 0 with rfl | hb
  · have : a = 0 := le_antisymm h1 h0
    subst this
    rw [fl_zero_div_zero]
    exact .inl rfl
  · rw [fl_div _ _ _ hb, hA]
    have hb' : 0 < b := lt_of_le_of_ne (h0.trans h1) (Ne.symm hb)
    exact .inr ⟨_, rfl, hF.pos (div_nonneg h0 hb'.le), by
      have := hF.le_whole (x := a / b) 1 (by norm_num) (by rw [div_le_iff₀ hb']; simpa using h1)
      simpa using this⟩

/-! ## Numbers that are not negative -/

/-- Missing, or a number of the arithmetic that is not negative. -/
def Gain (R : Rounding) (v : Val) : Prop := v = .nan ∨ ∃ q, v = .fin q ∧ 0 ≤ q ∧ R.fl q = q

theorem gain_nan : Gain R .nan := .inl rfl

theorem gain_fl (hF : Fair R) {q : ℚ} (h : 0 ≤ q) : Gain R (.fin (R.fl q)) := .inr ⟨_, rfl, hF.pos h, R.again q⟩

theorem gain_zero (hF : Fair R) : Gain R 0 := .inr ⟨0, rfl, le_refl _, hF.zero⟩

theorem gain_round (hA : A.fl = R.fl) (hF : Fair R) {v : Val} (h : Gain R v) : Gain R (A.round 4 v) := by
  rcases h with rfl | ⟨q, rfl, h0, -⟩
  · exact .inl rfl
  show Gain R (.fin (A.fl _))
  rw [hA]
  refine gain_fl hF (div_nonneg ?_ (by positivity))
  have h1 : 0 ≤ R.fl (q * 10 ^ 4) := hF.pos (by positivity)
  have h2 := rint_mono h1
  have h3 : rint 0 = 0 := by decide +kernel
  rw [h3] at h2
  exact_mod_cast h2

theorem gain_add (hA : A.fl = R.fl) (hF : Fair R) {v w : Val} (h : Gain R v) (h' : Gain R w) : Gain R (A.add v w) := by
  rcases h with rfl | ⟨q, rfl, h0, -⟩
  · exact .inl (by simp [Arith.add, Arith.rd])
  rcases h' with rfl | ⟨p, rfl, h1, -⟩
  · exact .inl (by simp [Arith.add, Arith.rd])
  rw [fl_add, hA]
  exact gain_fl hF (add_nonneg h0 h1)

/-- Wilder's step. -/
theorem gain_step (hA : A.fl = R.fl) (hF : Fair R) (p : ℕ) (hp : 1 ≤ p) {v w : Val} (h : Gain R v) (h' : Gain R w) :
    Gain R (A.add v (A.div (A.sub w v) (.fin p))) := by
  have hp' : (1 : ℚ) ≤ p := by exact_mod_cast hp
  rcases h with rfl | ⟨q, rfl, h0, hq⟩
  · exact .inl (by simp [Arith.add, Arith.rd])
  rcases h' with rfl | ⟨r, rfl, h1, hr⟩
  · exact .inl (by simp [Arith.add, Arith.sub, Arith.div, Arith.rd])
  rw [fl_sub, fl_div _ _ _ (by linarith), fl_add, hA]
  have h2 : -q ≤ R.fl (r - q) := by
    have := R.mono (-q) (r - q) (by linarith)
    rwa [hF.neg, hq] at this
  have h3 : -q ≤ R.fl (R.fl (r - q) / p) := by
    have h4 : -q ≤ R.fl (r - q) / p := by
      rw [le_div_iff₀ (by linarith)]
      have : q ≤ q * p := le_mul_of_one_le_right h0 hp'
      linarith
    have := R.mono _ _ h4
    rwa [hF.neg, hq] at this
  exact gain_fl hF (by linarith)

theorem sumsTo_gain (hF : Fair R) {l : List ℚ} {s : ℚ} (h : SumsTo R.fl l s) : (∀ x ∈ l, 0 ≤ x ∧ R.fl x = x) → 0 ≤ s ∧ R.fl s = s := by
  induction h with
  | one x => intro hx; exact hx x (by simp)
  | @add l m k a b _ _ hp ih1 ih2 =>
    intro hx
    have h1 := ih1 fun x hx' => hx x (hp.subset (by simp [hx']))
    have h2 := ih2 fun x hx' => hx x (hp.subset (by simp [hx']))
    exact ⟨hF.pos (add_nonneg h1.1 h2.1), R.again _⟩

theorem finVals_gain {xs : List Val} (h : ∀ v ∈ xs, Gain R v) : ∀ x ∈ finVals xs, 0 ≤ x ∧ R.fl x = x := by
  intro x hx
  have : Val.fin x ∈ xs := by
    unfold finVals at hx
    rw [List.mem_filterMap] at hx
    obtain ⟨v, hv, e⟩ := hx
    cases v <;> simp at e
    subst e
    exact hv
  rcases h _ this with h | ⟨q, e, h0, h1⟩
  · cases h
  · cases e
    exact ⟨h0, h1⟩

theorem all_fin_of_gain {xs : List Val} (h : ∀ v ∈ xs, Gain R v) : (xs.filter fun x => !x.isNan).all Val.isFin = true := by
  rw [List.all_eq_true]
  intro v hv
  rw [List.mem_filter] at hv
  rcases h v hv.1 with rfl | ⟨q, rfl, -⟩
  · simp [Val.isNan] at hv
  · rfl

theorem gain_mean (hA : Rounded R A) (hF : Fair R) {xs : List Val} (h : ∀ v ∈ xs, Gain R v) : Gain R (A.mean xs) := by
  unfold Arith.mean
  dsimp only
  split_ifs with h1 h2
  · exact .inl rfl
  · rw [hA.fl]
    refine gain_fl hF (div_nonneg ?_ (by positivity))
    have hne : finVals (xs.filter fun x => !x.isNan) ≠ [] := by
      obtain ⟨v, hv⟩ := List.exists_mem_of_ne_nil _ h1
      rw [List.all_eq_true] at h2
      have hf := h2 v hv
      cases v with
      | fin q =>
        intro h3
        have : q ∈ finVals (xs.filter fun x => !x.isNan) := by
          unfold finVals
          rw [List.mem_filterMap]
          exact ⟨_, hv, rfl⟩
        rw [h3] at this
        simp at this
      | _ => simp [Val.isFin] at hf
    exact (sumsTo_gain hF (hA.sum _ hne) (finVals_gain fun v hv => h v (List.mem_of_mem_filter hv))).1
  · exact absurd (all_fin_of_gain h) (by simpa using h2)

theorem gain_total (hA : Rounded R A) (hF : Fair R) {xs : List Val} (h : ∀ v ∈ xs, Gain R v) : Gain R (A.total xs) := by
  unfold Arith.total
  rw [if_pos (all_fin_of_gain h)]
  split_ifs with h1
  · exact gain_zero hF
  · have := sumsTo_gain hF (hA.sum _ h1) (finVals_gain h)
    exact .inr ⟨_, rfl, this.1, this.2⟩

theorem gain_foldl {f : Val → Val → Val} (hf : ∀ v w, Gain R v → Gain R w → Gain R (f v w)) (xs : List Val) :
    ∀ v, Gain R v → (∀ w ∈ xs, Gain R w) → Gain R (xs.foldl f v) := by
  induction xs with
  | nil => intro v hv _; exact hv
  | cons x xs ih =>
    intro v hv hx
    exact ih _ (hf _ _ hv (hx x (by simp))) fun w hw => hx w (by simp [hw])

theorem mem_prefixMap {f : List Val → Val} {xs : List Val} {v : Val} (h : v ∈ prefixMap f xs) : ∃ n, v = f (xs.take n) := by
  unfold prefixMap at h
  simp only [List.mem_map] at h
  obtain ⟨a, -, rfl⟩ := h
  exact ⟨_, rfl⟩

theorem gain_wilder (hA : Rounded R A) (hF : Fair R) (s p : ℕ) (hp : 1 ≤ p) {xs : List Val} (h : ∀ v ∈ xs, Gain R v) :
    ∀ v ∈ A.wilder s p xs, Gain R v := by
  intro v hv
  obtain ⟨n, rfl⟩ := mem_prefixMap hv
  split_ifs with h1
  · exact gain_nan
  · have hx : ∀ w ∈ xs.take n, Gain R w := fun w hw => h w (List.mem_of_mem_take hw)
    exact gain_foldl (fun v w hv hw => gain_step hA.fl hF p hp hv hw) _ _
      (gain_mean hA hF fun w hw => hx w (List.mem_of_mem_drop (List.mem_of_mem_take hw))) fun w hw => hx w (List.mem_of_mem_drop hw)

theorem gain_strength (hA : Rounded R A) (hF : Fair R) (p : ℕ) (hp : 1 ≤ p) {xs : List Val} (h : ∀ v ∈ xs, Gain R v) :
    ∀ v ∈ strengthSmooth A p xs, Gain R v := by
  intro v hv
  obtain ⟨n, rfl⟩ := mem_prefixMap hv
  split_ifs with h1
  · exact gain_nan
  · have hx : ∀ w ∈ xs.take n, Gain R w := fun w hw => h w (List.mem_of_mem_take hw)
    exact gain_foldl (fun v w hv hw => gain_round hA.fl hF (gain_step hA.fl hF p hp hv hw)) _ _
      (gain_mean hA hF fun w hw => hx w (List.mem_of_mem_take hw)) fun w hw => hx w (List.mem_of_mem_drop hw)

theorem gain_smooth14 (hA : Rounded R A) (hF : Fair R) {xs : List Val} (h : ∀ v ∈ xs, Gain R v) :
    ∀ v ∈ smooth14 A xs, Gain R v := by
  intro v hv
  obtain ⟨n, rfl⟩ := mem_prefixMap hv
  split_ifs with h1
  · exact gain_nan
  · have hx : ∀ w ∈ xs.take n, Gain R w := fun w hw => h w (List.mem_of_mem_take hw)
    refine gain_foldl (fun v w hv hw => gain_add hA.fl hF ?_ hw) _ _
      (gain_total hA hF fun w hw => hx w (List.mem_of_mem_take hw)) fun w hw => hx w (List.mem_of_mem_drop hw)
    rcases hv with rfl | ⟨q, rfl, h0, hq⟩
    · exact .inl (by simp [Arith.sub, Arith.rd])
    · have e : A.div (.fin q) 14 = .fin (A.fl (q / 14)) := fl_div A q 14 (by norm_num)
      rw [e, fl_sub, hA.fl]
      refine gain_fl hF ?_
      have := R.mono (q / 14) q (by linarith)
      rw [hq] at this
      linarith

/-- Quotient of two of them: missing, +infinity, or a number that is not negative. -/
theorem gain_div (hA : A.fl = R.fl) (hF : Fair R) {v w : Val} (hv : Gain R v) (hw : Gain R w) :
    A.div v w = .pinf ∨ Gain R (A.div v w) := by
  rcases hv with rfl | ⟨q, rfl, h0, -⟩
  · exact .inr (.inl (by simp [Arith.div, Arith.rd]))
  rcases hw with rfl | ⟨p, rfl, h1, -⟩
  · exact .inr (.inl (by simp [Arith.div, Arith.rd]))
  rcases eq_or_ne p 0 with rfl | hp
  · rcases eq_or_ne q 0 with rfl | hq
    · exact .inr (.inl (fl_zero_div_zero A))
    · left
      have : 0 < q := lt_of_le_of_ne h0 (Ne.symm hq)
      simp [Arith.div, Arith.rd, quotient_eq, quotient, this]
  · right
    rw [fl_div _ _ _ hp, hA]
    exact gain_fl hF (div_nonneg h0 h1)

/-- `100 - 100 / (x + 1)`. -/
theorem strength_range (hA : A.fl = R.fl) (hF : Fair R) {v : Val} (h : v = .pinf ∨ Gain R v) :
    InRange 0 100 (A.sub 100 (A.div 100 (A.add v 1))) := by
  have e100 : (100 : Val) = .fin 100 := rfl
  have e1 : (1 : Val) = .fin 1 := rfl
  rw [e100, e1]
  rcases h with rfl | rfl | ⟨q, rfl, h0, -⟩
  · have : A.div (.fin 100) (A.add .pinf (.fin 1)) = .fin (A.fl 0) := rfl
    rw [this, fl_sub, hA, hF.zero, sub_zero, hF.hundred]
    exact .inr ⟨_, rfl, by norm_num, le_refl _⟩
  · exact .inl rfl
  · have h1 : 1 ≤ R.fl (q + 1) := by
      have := hF.whole_le (x := q + 1) 1 (by norm_num) (by push_cast; linarith)
      simpa using this
    rw [fl_add, hA, fl_div _ _ _ (by linarith), fl_sub, hA]
    have h2 : 0 ≤ R.fl (100 / R.fl (q + 1)) := hF.pos (div_nonneg (by norm_num) (by linarith))
    have h3 : R.fl (100 / R.fl (q + 1)) ≤ 100 := by
      have := hF.le_whole (x := 100 / R.fl (q + 1)) 100 (by norm_num) (by
        rw [div_le_iff₀ (by linarith)]; push_cast; linarith)
      simpa using this
    refine .inr ⟨_, rfl, hF.pos (by linarith), ?_⟩
    have := hF.le_whole (x := 100 - R.fl (100 / R.fl (q + 1))) 100 (by norm_num) (by push_cast; linarith)
    simpa using this

/-- `100 x / (1 + x)`. -/
theorem momentum_range (hA : A.fl = R.fl) (hF : Fair R) {v : Val} (h : v = .pinf ∨ Gain R v) :
    Slack 0 100 (A.div (A.mul (.fin 100) v) (A.add 1 v)) := by
  have e1 : (1 : Val) = .fin 1 := rfl
  rw [e1]
  rcases h with rfl | rfl | ⟨q, rfl, h0, -⟩
  · have : A.div (A.mul (.fin 100) .pinf) (A.add (.fin 1) .pinf) = .nan := by
      simp [Arith.div, Arith.mul, Arith.add, Arith.rd]
      rfl
    exact .inl this
  · exact .inl (by simp [Arith.div, Arith.mul, Arith.rd])
  · have hu := hF.small
    have hu0 := R.nonneg
    have h1 : 1 ≤ R.fl (1 + q) := by
      have := hF.whole_le (x := 1 + q) 1 (by norm_num) (by push_cast; linarith)
      simpa using this
    rw [fl_add, fl_mul, hA, fl_div _ _ _ (by linarith), hA]
    have n0 : 0 ≤ R.fl (100 * q) := hF.pos (by linarith)
    have a1 := hF.upper (100 * q)
    rw [abs_of_nonneg (by linarith)] at a1
    have a2 := hF.lower (1 + q)
    rw [abs_of_nonneg (by linarith)] at a2
    have b1 : R.fl (100 * q) / R.fl (1 + q) ≤ 100 + 1 / 80000 := by
      rw [div_le_iff₀ (by linarith)]
      have : R.unit * q ≤ 1 / 10 ^ 8 * q := mul_le_mul_of_nonneg_right (by linarith) h0
      linarith
    have b0 : 0 ≤ R.fl (100 * q) / R.fl (1 + q) := div_nonneg n0 (by linarith)
    have c1 := hF.upper (R.fl (100 * q) / R.fl (1 + q))
    rw [abs_of_nonneg b0] at c1
    have c2 := mul_le_mul_of_nonneg_left b1 hu0
    exact .inr ⟨_, rfl, by have := hF.pos b0; linarith, by linarith⟩

/-! ## Directional movement -/

theorem gain_hundred (hA : A.fl = R.fl) (hF : Fair R) {v : Val} (h : Gain R v) : Gain R (A.mul (.fin 100) v) := by
  rcases h with rfl | ⟨q, rfl, h0, -⟩
  · exact .inl (by simp [Arith.mul, Arith.rd])
  · rw [fl_mul, hA]
    exact gain_fl hF (by linarith)

theorem dx_range (hA : A.fl = R.fl) (hF : Fair R) {v w : Val} (hv : v = .pinf ∨ Gain R v) (hw : w = .pinf ∨ Gain R w) :
    InRange 0 (100 + 300 * R.unit) (A.div (A.mul (.fin 100) (Val.abs (A.sub v w))) (Val.abs (A.add v w))) := by
  rcases hv with rfl | rfl | ⟨p, rfl, p0, -⟩
  · rcases hw with rfl | rfl | ⟨m, rfl, m0, -⟩
    · exact .inl rfl
    · exact .inl rfl
    · refine .inl ?_
      simp [Arith.div, Arith.mul, Arith.add, Arith.sub, Arith.rd]
      rfl
  · exact .inl rfl
  · rcases hw with rfl | rfl | ⟨m, rfl, m0, -⟩
    · refine .inl ?_
      simp [Arith.div, Arith.mul, Arith.add, Arith.sub, Arith.rd]
      rfl
    · exact .inl (by simp [Arith.div, Arith.add, Arith.sub, Arith.mul, Arith.rd])
    · have hu := hF.small
      have hu0 := R.nonneg
      rw [fl_sub, fl_add, hA]
      show InRange _ _ (A.div (A.mul (.fin 100) (.fin |R.fl (p - m)|)) (.fin |R.fl (p + m)|))
      have s0 : 0 ≤ R.fl (p + m) := hF.pos (by linarith)
      rw [fl_mul, hA, abs_of_nonneg s0]
      have d1 : |R.fl (p - m)| ≤ R.fl (p + m) := by
        refine abs_le.2 ⟨?_, R.mono _ _ (by linarith)⟩
        have := R.mono (-(p + m)) (p - m) (by linarith)
        rwa [hF.neg] at this
      have d0 := abs_nonneg (R.fl (p - m))
      generalize |R.fl (p - m)| = d at d1 d0 ⊢
      generalize R.fl (p + m) = s at d1 s0 ⊢
      rcases eq_or_ne s 0 with rfl | hs
      · have : d = 0 := le_antisymm d1 d0
        subst this
        rw [mul_zero, hF.zero, fl_zero_div_zero]
        exact .inl rfl
      · have hs' : 0 < s := lt_of_le_of_ne s0 (Ne.symm hs)
        rw [fl_div _ _ _ hs, hA]
        have a1 := hF.upper (100 * d)
        rw [abs_of_nonneg (by linarith)] at a1
        have n0 : 0 ≤ R.fl (100 * d) := hF.pos (by linarith)
        have b1 : R.fl (100 * d) / s ≤ 100 + 100 * R.unit := by
          rw [div_le_iff₀ hs']
          have := mul_le_mul_of_nonneg_left d1 hu0
          linarith
        have b0 : 0 ≤ R.fl (100 * d) / s := div_nonneg n0 s0
        have c1 := hF.upper (R.fl (100 * d) / s)
        rw [abs_of_nonneg b0] at c1
        have c2 := mul_le_mul_of_nonneg_left b1 hu0
        have c3 : R.unit * (100 * R.unit) ≤ R.unit * 1 := mul_le_mul_of_nonneg_left (by linarith) hu0
        exact .inr ⟨_, rfl, hF.pos b0, by linarith⟩

theorem sumsTo_bound (hF : Fair R) {l : List ℚ} {s D : ℚ} (h : SumsTo R.fl l s) : (∀ x ∈ l, 0 ≤ x ∧ x ≤ D) → 0 ≤ D →
    (l.length : ℚ) * (D + 1500 * R.unit) ≤ 1500 → 1 ≤ l.length ∧ 0 ≤ s ∧ s ≤ l.length * D + (l.length - 1) * (1500 * R.unit) := by
  induction h with
  | one x => intro hx _ _; exact ⟨by simp, (hx x (by simp)).1, by simpa using (hx x (by simp)).2⟩
  | @add l m k a b _ _ hp ih1 ih2 =>
    intro hx hD hk
    have hu0 := R.nonneg
    have hl : k.length = l.length + m.length := by rw [← hp.length_eq]; simp
    have hl' : (k.length : ℚ) = l.length + m.length := by exact_mod_cast hl
    have t1 : 0 ≤ (l.length : ℚ) * (D + 1500 * R.unit) := by positivity
    have t2 : 0 ≤ (m.length : ℚ) * (D + 1500 * R.unit) := by positivity
    rw [hl'] at hk ⊢
    obtain ⟨l1, l2, l3⟩ := ih1 (fun x hx' => hx x (hp.subset (by simp [hx']))) hD (by linarith)
    obtain ⟨m1, m2, m3⟩ := ih2 (fun x hx' => hx x (hp.subset (by simp [hx']))) hD (by linarith)
    have e1 := hF.upper (a + b)
    rw [abs_of_nonneg (by linarith)] at e1
    have e2 : R.unit * (a + b) ≤ R.unit * 1500 := mul_le_mul_of_nonneg_left (by linarith) hu0
    exact ⟨by omega, hF.pos (by linarith), by linarith⟩

/-- The range that the recursion of ADX keeps. -/
def AdxRange (v : Val) : Prop := InRange 0 (100 + 1 / 10 ^ 5) v

theorem adx_start (hA : Rounded R A) (hF : Fair R) {xs : List Val} (hx : ∀ v ∈ xs, InRange 0 (100 + 300 * R.unit) v)
    (hl : (finVals xs).length ≤ 14) : AdxRange (A.div (A.total xs) 14) := by
  have hu := hF.small
  have hu0 := R.nonneg
  have e14 : (14 : Val) = .fin 14 := rfl
  have hall : (xs.filter fun x => !x.isNan).all Val.isFin = true := by
    rw [List.all_eq_true]
    intro v hv
    rw [List.mem_filter] at hv
    rcases hx v hv.1 with rfl | ⟨q, rfl, -⟩
    · simp [Val.isNan] at hv
    · rfl
  unfold Arith.total
  rw [if_pos hall, e14]
  have key : ∀ s : ℚ, 0 ≤ s → s ≤ 14 * (100 + 1 / 10 ^ 6) → AdxRange (A.div (.fin s) (.fin 14)) := by
    intro s h0 h1
    rw [fl_div _ _ _ (by norm_num), hA.fl]
    have e1 := hF.upper (s / 14)
    rw [abs_of_nonneg (by positivity)] at e1
    have e2 : R.unit * (s / 14) ≤ R.unit * 101 := mul_le_mul_of_nonneg_left (by linarith) hu0
    exact .inr ⟨_, rfl, hF.pos (by positivity), by linarith⟩
  split_ifs with h1
  · exact key 0 (le_refl _) (by norm_num)
  · have hl' : ((finVals xs).length : ℚ) ≤ 14 := by exact_mod_cast hl
    have hlu : ((finVals xs).length : ℚ) * R.unit ≤ 14 * R.unit := mul_le_mul_of_nonneg_right hl' hu0
    have := sumsTo_bound hF (D := 100 + 300 * R.unit) (hA.sum _ h1) (fun x hx' => by
      unfold finVals at hx'
      rw [List.mem_filterMap] at hx'
      obtain ⟨v, hv, e⟩ := hx'
      rcases hx v hv with rfl | ⟨q, rfl, h2⟩
      · simp at e
      · simp at e
        rw [← e]
        exact h2) (by linarith) (by linarith)
    exact key _ this.2.1 (by linarith [this.2.2])

theorem adx_step (hA : A.fl = R.fl) (hF : Fair R) {v w : Val} (hv : AdxRange v) (hw : InRange 0 (100 + 300 * R.unit) w) :
    AdxRange (A.div (A.add (A.mul 13 v) w) 14) := by
  have hu := hF.small
  have hu0 := R.nonneg
  have e14 : (14 : Val) = .fin 14 := rfl
  have e13 : (13 : Val) = .fin 13 := rfl
  rw [e14, e13]
  rcases hv with rfl | ⟨p, rfl, p0, p1⟩
  · exact .inl (by simp [Arith.div, Arith.mul, Arith.add, Arith.rd])
  rcases hw with rfl | ⟨x, rfl, x0, x1⟩
  · exact .inl (by simp [Arith.div, Arith.add, Arith.rd])
  rw [fl_mul, fl_add, fl_div _ _ _ (by norm_num), hA]
  have a1 := hF.upper (13 * p)
  rw [abs_of_nonneg (by linarith)] at a1
  have a2 : R.unit * (13 * p) ≤ R.unit * 1400 := mul_le_mul_of_nonneg_left (by linarith) hu0
  have a0 : 0 ≤ R.fl (13 * p) := hF.pos (by linarith)
  generalize R.fl (13 * p) = y at a1 a0 ⊢
  have b1 := hF.upper (y + x)
  rw [abs_of_nonneg (by linarith)] at b1
  have b2 : R.unit * (y + x) ≤ R.unit * 1500 := mul_le_mul_of_nonneg_left (by linarith) hu0
  have b0 : 0 ≤ R.fl (y + x) := hF.pos (by linarith)
  generalize R.fl (y + x) = z at b1 b0 ⊢
  have c1 := hF.upper (z / 14)
  rw [abs_of_nonneg (by linarith)] at c1
  have c2 : R.unit * (z / 14) ≤ R.unit * 200 := mul_le_mul_of_nonneg_left (by linarith) hu0
  exact .inr ⟨_, rfl, hF.pos (by linarith), by linarith⟩

theorem adx_all (hA : Rounded R A) (hF : Fair R) {dx : List Val} (hx : ∀ v ∈ dx, InRange 0 (100 + 300 * R.unit) v)
    (hn : ∀ i < 14, val dx i = .nan) : ∀ v ∈ adxOf A dx, AdxRange v := by
  intro v hv
  obtain ⟨n, rfl⟩ := mem_prefixMap hv
  split_ifs with h1
  · exact .inl rfl
  have h28 : 28 ≤ dx.length := by
    simp only [List.length_take] at h1
    omega
  have fold : ∀ (l : List Val) (v : Val), AdxRange v → (∀ w ∈ l, InRange 0 (100 + 300 * R.unit) w) →
      AdxRange (l.foldl (fun prev x => A.div (A.add (A.mul 13 prev) x) 14) v) := by
    intro l
    induction l with
    | nil => intro v hv _; exact hv
    | cons x l ih => intro v hv hl; exact ih _ (adx_step hA.fl hF hv (hl x (by simp))) fun w hw => hl w (by simp [hw])
  refine fold _ _ (adx_start hA hF (fun v hv => hx v (List.mem_of_mem_take (List.mem_of_mem_take hv))) ?_)
    fun w hw => hx w (List.mem_of_mem_take (List.mem_of_mem_drop hw))
  have e1 : (dx.take n).take 28 = dx.take 14 ++ ((dx.take n).take 28).drop 14 := by
    have : dx.take 14 = ((dx.take n).take 28).take 14 := by
      simp only [List.length_take] at h1
      rw [List.take_take, List.take_take]
      congr 1
      omega
    rw [this, List.take_append_drop]
  have e2 : finVals (dx.take 14) = [] := by
    unfold finVals
    rw [List.filterMap_eq_nil_iff]
    intro v hv
    obtain ⟨i, hi, rfl⟩ := List.mem_iff_getElem.1 hv
    have hi' : i < 14 := by simp only [List.length_take] at hi; omega
    have := hn i hi'
    rw [val_lt _ _ (by omega)] at this
    rw [List.getElem_take, this]
  rw [e1]
  unfold finVals at e2 ⊢
  rw [List.filterMap_append, e2, List.nil_append]
  refine (List.length_filterMap_le _ _).trans ?_
  simp only [List.length_drop, List.length_take]
  omega

theorem adxr_range (hA : A.fl = R.fl) (hF : Fair R) {v w : Val} (hv : AdxRange v) (hw : AdxRange w) :
    Slack 0 100 (A.div (A.add v w) 2) := by
  have hu := hF.small
  have hu0 := R.nonneg
  have e2 : (2 : Val) = .fin 2 := rfl
  rw [e2]
  rcases hv with rfl | ⟨p, rfl, p0, p1⟩
  · exact .inl (by simp [Arith.div, Arith.add, Arith.rd])
  rcases hw with rfl | ⟨x, rfl, x0, x1⟩
  · exact .inl (by simp [Arith.div, Arith.add, Arith.rd])
  rw [fl_add, fl_div _ _ _ (by norm_num), hA]
  have b1 := hF.upper (p + x)
  rw [abs_of_nonneg (by linarith)] at b1
  have b2 : R.unit * (p + x) ≤ R.unit * 300 := mul_le_mul_of_nonneg_left (by linarith) hu0
  have b0 : 0 ≤ R.fl (p + x) := hF.pos (by linarith)
  generalize R.fl (p + x) = z at b1 b0 ⊢
  have c1 := hF.upper (z / 2)
  rw [abs_of_nonneg (by linarith)] at c1
  have c2 : R.unit * (z / 2) ≤ R.unit * 200 := mul_le_mul_of_nonneg_left (by linarith) hu0
  have c0 : 0 ≤ R.fl (z / 2) := hF.pos (by linarith)
  exact .inr ⟨_, rfl, by linarith, by linarith⟩

/-! ## Columns -/

theorem val_of_mem {P : Val → Prop} {xs : List Val} (h : ∀ v ∈ xs, P v) (h0 : P .nan) (i : ℕ) : P (val xs i) := by
  by_cases hi : i < xs.length
  · rw [val_lt _ _ hi]
    exact h _ (List.getElem_mem hi)
  · rw [val_ge _ _ (by omega)]
    exact h0

theorem mem_of_val {P : Val → Prop} {xs : List Val} (h : ∀ i < xs.length, P (val xs i)) : ∀ v ∈ xs, P v := by
  intro v hv
  obtain ⟨i, hi, rfl⟩ := mem_val hv
  exact h i hi

theorem rollSum_one (A : Arith) (xs : List Val) (i : ℕ) (q : ℚ) (h : val xs i = .fin q) :
    val (A.rollSum 1 1 xs) i = .fin (A.fl q) := by
  have hi : i < xs.length := by
    by_contra hi
    rw [val_ge _ _ (by omega)] at h
    cases h
  unfold Arith.rollSum
  rw [val_lt _ _ (by simpa using hi)]
  simp only [List.getElem_map, List.getElem_range]
  have hv : Arith.rollState.val xs i = .fin q := by
    unfold Arith.rollState.val
    unfold val at h
    rw [h]
    rfl
  have e : A.rollState 1 xs i = A.rollAdd ⟨0, 0, 0, 0, 0, 0, .fin q⟩ (.fin q) := by
    cases i with
    | zero => unfold Arith.rollState; rw [hv]
    | succ i => unfold Arith.rollState; rw [if_pos (le_refl _), hv]
  rw [e]
  simp [Arith.rollAdd, Arith.calcSum, fl_mul]

theorem rollSum_one_nan (A : Arith) (xs : List Val) (i : ℕ) (h : val xs i = .nan) : val (A.rollSum 1 1 xs) i = .nan := by
  by_cases hi : i < xs.length
  swap
  · rw [val_ge _ _ (by simp [Arith.rollSum]; omega)]
  unfold Arith.rollSum
  rw [val_lt _ _ (by simpa using hi)]
  simp only [List.getElem_map, List.getElem_range]
  have hv : Arith.rollState.val xs i = .nan := by
    unfold Arith.rollState.val
    unfold val at h
    rw [h]
    rfl
  have e : A.rollState 1 xs i = ⟨0, 0, 0, 0, 0, 0, .nan⟩ := by
    cases i with
    | zero => unfold Arith.rollState; rw [hv]; rfl
    | succ i => unfold Arith.rollState; rw [if_pos (le_refl _), hv]; rfl
  rw [e]
  simp [Arith.calcSum]

/-- A difference of numbers or missing values. -/
theorem sub_cases (A : Arith) (hA : A.fl = R.fl) {v w : Val} (hv : v = .nan ∨ ∃ q, v = .fin q) (hw : w = .nan ∨ ∃ q, w = .fin q) :
    A.sub v w = .nan ∨ ∃ q, A.sub v w = .fin (R.fl q) := by
  rcases hv with rfl | ⟨p, rfl⟩
  · exact .inl (by simp [Arith.sub, Arith.rd])
  rcases hw with rfl | ⟨q, rfl⟩
  · exact .inl (by simp [Arith.sub, Arith.rd])
  rw [fl_sub, hA]
  exact .inr ⟨_, rfl⟩

theorem zero_lt_gain {v : Val} (h : v = .nan ∨ ∃ q, v = .fin (R.fl q)) (h0 : ((0 : Val) <ᵥ v) = true) : Gain R v := by
  rcases h with rfl | ⟨q, rfl⟩
  · exact .inl rfl
  · have : ((0 : ℕ) : ℚ) < R.fl q := of_decide_eq_true h0
    rw [Nat.cast_zero] at this
    exact .inr ⟨_, rfl, this.le, R.again q⟩

theorem percent_range (hA : A.fl = R.fl) (hF : Fair R) {d s : ℚ} (d0 : 0 ≤ d) (d1 : d ≤ s) :
    Slack 0 100 (A.div (A.mul (.fin 100) (.fin d)) (.fin s)) := by
  have hu := hF.small
  have hu0 := R.nonneg
  rw [fl_mul, hA]
  rcases eq_or_ne s 0 with rfl | hs
  · have : d = 0 := le_antisymm d1 d0
    subst this
    rw [mul_zero, hF.zero, fl_zero_div_zero]
    exact .inl rfl
  · have hs' : 0 < s := lt_of_le_of_ne (d0.trans d1) (Ne.symm hs)
    rw [fl_div _ _ _ hs, hA]
    have a1 := hF.upper (100 * d)
    rw [abs_of_nonneg (by linarith)] at a1
    have n0 : 0 ≤ R.fl (100 * d) := hF.pos (by linarith)
    have b1 : R.fl (100 * d) / s ≤ 100 + 100 * R.unit := by
      rw [div_le_iff₀ hs']
      have := mul_le_mul_of_nonneg_left d1 hu0
      linarith
    have b0 : 0 ≤ R.fl (100 * d) / s := div_nonneg n0 hs'.le
    have c1 := hF.upper (R.fl (100 * d) / s)
    rw [abs_of_nonneg b0] at c1
    have c2 := mul_le_mul_of_nonneg_left b1 hu0
    have c3 : R.unit * (100 * R.unit) ≤ R.unit * 1 := mul_le_mul_of_nonneg_left (by linarith) hu0
    have c4 := hF.pos b0
    exact .inr ⟨_, rfl, by linarith, by linarith⟩

/-- The whole of the range gives 100 to the last bit, after the rounding to four decimals. -/
theorem percent_full (hA : A.fl = R.fl) (hF : Fair R) {s : ℚ} (s0 : 0 < s) :
    A.round 4 (A.div (A.mul (.fin 100) (.fin s)) (.fin s)) = .fin 100 := by
  have hu := hF.small
  have hu0 := R.nonneg
  have h : Slack (100 : ℤ) (100 : ℤ) (A.div (A.mul (.fin 100) (.fin s)) (.fin s)) := by
    rcases percent_range hA hF s0.le (le_refl s) with h | ⟨q, h, -, h1⟩
    · rw [fl_mul, fl_div _ _ _ s0.ne'] at h
      cases h
    · refine .inr ⟨q, h, ?_, by simpa using h1⟩
      rw [fl_mul, fl_div _ _ _ s0.ne', hA] at h
      cases h
      have a1 := hF.lower (100 * s)
      rw [abs_of_nonneg (by linarith)] at a1
      have b1 : 100 - 100 * R.unit ≤ R.fl (100 * s) / s := by
        rw [le_div_iff₀ s0]
        linarith
      have := R.mono _ _ b1
      have c1 := hF.lower (100 - 100 * R.unit)
      rw [abs_of_nonneg (by linarith)] at c1
      have c3 : 0 ≤ R.unit * (100 * R.unit) := by positivity
      push_cast
      linarith
  rcases round_range hA hF 100 100 (by norm_num) (by norm_num) h with h' | ⟨q, h', h1, h2⟩
  · rw [fl_mul, fl_div _ _ _ s0.ne'] at h'
    cases h'
  · rw [h', le_antisymm h2 h1]
    norm_num

/-- The lines of the directional movement index. -/
def dmiLine (A : Arith) (f : Val → Val → Val → Val → Val) (F : Frame) : List Val :=
  maskBefore 14 (A.divS (A.scaleS 100 (smooth14 A (Ind.DirectionalMovementIndex.dm f F)))
    (smooth14 A (maskBefore 1 (Flt.trueRange A maxNan F))))

def dmiDx (A : Arith) (F : Frame) : List Val :=
  A.divS (A.scaleS 100 ((A.subS (dmiLine A (plusDm A) F) (dmiLine A (minusDm A) F)).map Val.abs))
    ((A.addS (dmiLine A (plusDm A) F) (dmiLine A (minusDm A) F)).map Val.abs)

theorem dmi_columns (A : Arith) (E : Env) (F : Frame) : Flt.calcTi A E F .directionalMovementIndex =
    if F.len < 28 then .error (.notEnough 28 F.len)
    else .ok ⟨F.idx, [("+di", A.roundS 4 (dmiLine A (plusDm A) F)), ("-di", A.roundS 4 (dmiLine A (minusDm A) F)),
      ("dx", A.roundS 4 (dmiDx A F)), ("adx", A.roundS 4 (adxOf A (dmiDx A F))),
      ("adxr", A.roundS 4 (maskBefore 40 ((A.addS (adxOf A (dmiDx A F)) (shift 13 (adxOf A (dmiDx A F)))).map fun x => A.div x 2)))]⟩ := rfl

end TTI
