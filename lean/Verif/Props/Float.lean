import Verif.Lemmas.FloatSample

set_option autoImplicit false

/-!
# Running averages, ranges, levels and rates in float64 arithmetic: C85

`R` is the rounding of the arithmetic (`R.unit` is 1/2^53 for float64), `A` the arithmetic itself. Every statement holds for
every table of numbers, on every day, however many days there are. The error bounds are the half unit of the last decimal
(`1 / 20000`) plus a multiple of `R.unit` that does not grow with the number of days.
-/

namespace TTI.Props

open Spec Flt Sim

variable {R : Rounding} {A : Arith} {E : Env} {c : Call} {f : RawFrame} {fill : Bool} {o : Obj}

/-- C85: float64 arithmetic, with sums from left to right, is an arithmetic that the statements below are about. -/
theorem C85_double : Rounded double doubleArith ∧ double.unit = 1 / 2 ^ 53 :=
  ⟨⟨rfl, fun l hl => leftSum_sums _ l hl⟩, rfl⟩

example : doubleArith.sum [toDouble (1 / 10), toDouble (2 / 10)] ≠ toDouble (3 / 10) := by decide +kernel

theorem atMost_nonneg {name : String} {M : ℚ} (h : AtMost f name M) {i : ℕ} (hi : i < f.idx.length) : 0 ≤ M :=
  (abs_nonneg _).trans (h i hi)

/-- C85: the exponential moving average. -/
theorem C85_exponential (hA : Rounded R A) (hB : FloatBuilt A E c f fill o AnyPrices) (n : ℕ) (ho : o.ind = .movingAverage n .exponential)
    (M : ℚ) (hM : AtMost f "close" M) (hu : 10000 * (n + 1) * R.unit ≤ 1) (i : ℕ) (hi : i < f.idx.length) :
    NearSince (n - 1) i (o.getTiData.day "ma-exponential" i) (ema n 0 (close f) i) (1 / 20000 + 31 * R.unit * (n + 1) * (M + 1)) := by
  obtain ⟨F, hl, hn, ht, hp, -⟩ := hB.on ho (by simp [Ind.required])
  have hcl : Nums F.len 0 (close f) (F.col "close") := hn _ (by simp [Ind.required])
  have hp : 1 ≤ n := hp.1
  have hn' : (1 : ℚ) ≤ n := by exact_mod_cast hp
  have hu0 := R.nonneg
  have hM0 := atMost_nonneg hM hi
  rw [guard_ok ht]
  have hK : 110 * (((0 + 28 * (n + 1) : ℕ) : ℚ) * R.unit) ≤ 1 := by push_cast; nlinarith
  refine (hcl.fewm A n n hp).report A hA.fl (hl ▸ hi) (by omega) (M := M) (K := 0 + 28 * (n + 1)) (fun _ => ?_) (by linarith) ?_ (by nlinarith)
  · exact ema_near A hA.fl n hp 0 0 _ _ M i (fun j _ hj => near_of_abs (hM j (by omega))) (by omega) (by nlinarith) (pow_small R _ hK)
  · have h1 : 0 ≤ R.unit * (M + 1) := by positivity
    push_cast
    nlinarith

/-- The hypotheses of `C85_exponential` on the sample. -/
example : (∃ o, FloatBuilt doubleArith demoEnv (.movingAverage (.int 4) (.str "exponential")) (sample 6) true o AnyPrices ∧
      o.ind = .movingAverage 4 .exponential ∧ o.getTiData.day "ma-exponential" 5 = .fin (toDouble (543021 / 10000))) ∧
    AtMost (sample 6) "close" 60 ∧ 10000 * ((4 : ℕ) + 1) * double.unit ≤ 1 :=
  ⟨sample_float 6 "ma-exponential" 5 _ (by decide +kernel) (by decide) fun _ _ => trivial, by unfold AtMost; decide +kernel, by decide +kernel⟩

/-- C85: the double exponential moving average. -/
theorem C85_double_exponential (hA : Rounded R A) (hB : FloatBuilt A E c f fill o AnyPrices) (n : ℕ)
    (ho : o.ind = .doubleExponentialMovingAverage n) (M : ℚ) (hM : AtMost f "close" M) (hu : 10000 * (n + 1) * R.unit ≤ 1)
    (i : ℕ) (hi : i < f.idx.length) :
    NearSince (2 * n - 2) i (o.getTiData.day "dema" i) (2 * ema n 0 (close f) i - ema n (n - 1) (ema n 0 (close f)) i)
      (1 / 20000 + 180 * R.unit * (n + 1) * (M + 1)) := by
  obtain ⟨F, hl, hn, ht, hp, -⟩ := hB.on ho (by simp [Ind.required])
  have hcl : Nums F.len 0 (close f) (F.col "close") := hn _ (by simp [Ind.required])
  have hp : 1 ≤ n := hp
  have hn' : (1 : ℚ) ≤ n := by exact_mod_cast hp
  have hu0 := R.nonneg
  have hM0 := atMost_nonneg hM hi
  rw [guard_ok ht]
  have hK : 110 * (((0 + 28 * (n + 1) + 28 * (n + 1) + 1 : ℕ) : ℚ) * R.unit) ≤ 1 := by push_cast; nlinarith
  have hK1 : 110 * (((0 + 28 * (n + 1) : ℕ) : ℚ) * R.unit) ≤ 1 := by push_cast at hK ⊢; nlinarith
  have hK2 : 110 * (((0 + 28 * (n + 1) + 28 * (n + 1) : ℕ) : ℚ) * R.unit) ≤ 1 := by push_cast at hK ⊢; nlinarith
  have hu4 : R.unit ≤ 1 / 10000 := by nlinarith
  have h1 := (hcl.fewm A n n hp).congr (k' := n - 1) (by omega) fun _ _ _ => rfl
  have n1 : ∀ j ≤ i, Sim.Near R (0 + 28 * (n + 1)) (A.ema n 0 (close f) j) (ema n 0 (close f) j) M := fun j hj =>
    ema_near A hA.fl n hp 0 0 _ _ M j (fun t _ ht => near_of_abs (hM t (by omega))) (by omega) hu4 (pow_small R _ hK1)
  refine ((h1.fscale A 2).fsub A (h1.fewm A n n hp)).report A hA.fl (hl ▸ hi) (by omega) (M := 3 * M)
    (K := 0 + 28 * (n + 1) + 28 * (n + 1) + 1) (fun hk => ?_) (by linarith) ?_ (by linarith)
  · rw [hA.fl]
    have n2 := ema_near A hA.fl n hp _ (n - 1) _ _ M i (fun j _ hj => n1 j hj) (by omega) hu4 (pow_small R _ hK2)
    exact (((n1 i (le_refl _)).scale 2 (by norm_num)).sub n2 (by omega) (le_refl _)).scope (by linarith)
  · have h1 : 0 ≤ R.unit * M := by positivity
    push_cast
    nlinarith

/-- The hypotheses of `C85_double_exponential` on the sample. -/
example : (∃ o, FloatBuilt doubleArith demoEnv (.doubleExponentialMovingAverage (.int 2)) (sample 6) true o AnyPrices ∧
      o.ind = .doubleExponentialMovingAverage 2 ∧ o.getTiData.day "dema" 4 = .fin (toDouble (28321 / 500))) ∧
    AtMost (sample 6) "close" 60 ∧ 10000 * ((2 : ℕ) + 1) * double.unit ≤ 1 :=
  ⟨sample_float 6 "dema" 4 _ (by decide +kernel) (by decide) fun _ _ => trivial, by unfold AtMost; decide +kernel, by decide +kernel⟩

/-- C85: the triple exponential moving average. -/
theorem C85_triple_exponential (hA : Rounded R A) (hB : FloatBuilt A E c f fill o AnyPrices) (n : ℕ)
    (ho : o.ind = .tripleExponentialMovingAverage n) (M : ℚ) (hM : AtMost f "close" M) (hu : 10000 * (n + 1) * R.unit ≤ 1)
    (i : ℕ) (hi : i < f.idx.length) :
    NearSince (3 * n - 3) i (o.getTiData.day "tema" i) (3 * ema n 0 (close f) i - 3 * ema n (n - 1) (ema n 0 (close f)) i +
        ema n (2 * n - 2) (ema n (n - 1) (ema n 0 (close f))) i)
      (1 / 20000 + 620 * R.unit * (n + 1) * (M + 1)) := by
  obtain ⟨F, hl, hn, ht, hp, -⟩ := hB.on ho (by simp [Ind.required])
  have hcl : Nums F.len 0 (close f) (F.col "close") := hn _ (by simp [Ind.required])
  have hp : 1 ≤ n := hp
  have hn' : (1 : ℚ) ≤ n := by exact_mod_cast hp
  have hu0 := R.nonneg
  have hM0 := atMost_nonneg hM hi
  rw [guard_ok ht]
  have hK : 110 * (((0 + 28 * (n + 1) + 28 * (n + 1) + 28 * (n + 1) + 1 : ℕ) : ℚ) * R.unit) ≤ 1 := by push_cast; nlinarith
  have hK1 : 110 * (((0 + 28 * (n + 1) : ℕ) : ℚ) * R.unit) ≤ 1 := by push_cast at hK ⊢; nlinarith
  have hK2 : 110 * (((0 + 28 * (n + 1) + 28 * (n + 1) : ℕ) : ℚ) * R.unit) ≤ 1 := by push_cast at hK ⊢; nlinarith
  have hK3 : 110 * (((0 + 28 * (n + 1) + 28 * (n + 1) + 28 * (n + 1) : ℕ) : ℚ) * R.unit) ≤ 1 := by push_cast at hK ⊢; nlinarith
  have hu4 : R.unit ≤ 1 / 10000 := by nlinarith
  have h1 := (hcl.fewm A n n hp).congr (k' := n - 1) (by omega) fun _ _ _ => rfl
  have h2 := (h1.fewm A n n hp).congr (k' := 2 * n - 2) (by omega) fun _ _ _ => rfl
  have n1 : ∀ j ≤ i, Sim.Near R (0 + 28 * (n + 1)) (A.ema n 0 (close f) j) (ema n 0 (close f) j) M := fun j hj =>
    ema_near A hA.fl n hp 0 0 _ _ M j (fun t _ ht => near_of_abs (hM t (by omega))) (by omega) hu4 (pow_small R _ hK1)
  have n2 : ∀ j ≤ i, n - 1 ≤ j → Sim.Near R (0 + 28 * (n + 1) + 28 * (n + 1)) (A.ema n (n - 1) (A.ema n 0 (close f)) j)
      (ema n (n - 1) (ema n 0 (close f)) j) M := fun j hj hnj =>
    ema_near A hA.fl n hp _ (n - 1) _ _ M j (fun t _ ht => n1 t (by omega)) hnj hu4 (pow_small R _ hK2)
  refine (((h1.fscale A 3).fsub A (h2.fscale A 3)).fadd A (h2.fewm A n n hp)).report A hA.fl (hl ▸ hi) (by omega) (M := 7 * M)
    (K := 0 + 28 * (n + 1) + 28 * (n + 1) + 28 * (n + 1) + 1) (fun hk => ?_) (by linarith) ?_ (by linarith)
  · rw [hA.fl]
    have n3 := ema_near A hA.fl n hp _ (2 * n - 2) _ _ M i (fun j h2 hj => n2 j hj (by omega)) (by omega) hu4 (pow_small R _ hK3)
    have s1 := ((n1 i (le_refl _)).scale 3 (by norm_num)).sub ((n2 i (le_refl _) (by omega)).scale 3 (by norm_num))
      (m := 0 + 28 * (n + 1) + 28 * (n + 1) + 1) (by omega) (le_refl _)
    exact (s1.add n3 (by omega) (le_refl _)).scope (by linarith)
  · have h1 : 0 ≤ R.unit * M := by positivity
    push_cast
    nlinarith

/-- The hypotheses of `C85_triple_exponential` on the sample. -/
example : (∃ o, FloatBuilt doubleArith demoEnv (.tripleExponentialMovingAverage (.int 2)) (sample 6) true o AnyPrices ∧
      o.ind = .tripleExponentialMovingAverage 2 ∧ o.getTiData.day "tema" 4 = .fin (toDouble (281797 / 5000))) ∧
    AtMost (sample 6) "close" 60 ∧ 10000 * ((2 : ℕ) + 1) * double.unit ≤ 1 :=
  ⟨sample_float 6 "tema" 4 _ (by decide +kernel) (by decide) fun _ _ => trivial, by unfold AtMost; decide +kernel, by decide +kernel⟩

/-- C85: Wilder's smoothing. -/
theorem C85_wilders_smoothing (hA : Rounded R A) (hB : FloatBuilt A E c f fill o AnyPrices) (n : ℕ)
    (ho : o.ind = .wildersSmoothing n) (M : ℚ) (hM : AtMost f "close" M) (hu : 10000 * n * R.unit ≤ 1) (i : ℕ) (hi : i < f.idx.length) :
    NearSince (n - 1) i (o.getTiData.day "ws" i) (wilderAverage n 0 (close f) i) (1 / 20000 + 13 * R.unit * n * (M + 1)) := by
  obtain ⟨F, hl, hn, ht, hp, -⟩ := hB.on ho (by simp [Ind.required])
  have hcl : Nums F.len 0 (close f) (F.col "close") := hn _ (by simp [Ind.required])
  have hp : 1 ≤ n := hp
  have hn' : (1 : ℚ) ≤ n := by exact_mod_cast hp
  have hu0 := R.nonneg
  have hM0 := atMost_nonneg hM hi
  rw [guard_ok ht]
  have hK : 110 * (((n + 7 * n : ℕ) : ℚ) * R.unit) ≤ 1 := by push_cast; nlinarith
  refine (hcl.fwilder A n hp).report A hA.fl (hl ▸ hi) rfl (M := M) (K := n + 7 * n) (fun hk => ?_) (by linarith) ?_ (by nlinarith)
  · exact wilder_near hA n hp _ M i (fun j hj => hM j (by omega)) hk (by nlinarith) (pow_small R _ hK)
  · have h1 : 0 ≤ R.unit * (M + 1) := by positivity
    push_cast
    nlinarith

/-- The hypotheses of `C85_wilders_smoothing` on the sample. -/
example : (∃ o, FloatBuilt doubleArith demoEnv (.wildersSmoothing (.int 3)) (sample 6) true o AnyPrices ∧
      o.ind = .wildersSmoothing 3 ∧ o.getTiData.day "ws" 4 = .fin (toDouble (557037 / 10000))) ∧
    AtMost (sample 6) "close" 60 ∧ 10000 * (3 : ℕ) * double.unit ≤ 1 :=
  ⟨sample_float 6 "ws" 4 _ (by decide +kernel) (by decide) fun _ _ => trivial, by unfold AtMost; decide +kernel, by decide +kernel⟩

/-- C85: MACD and its signal line; the two averages are rounded to four decimals before they are subtracted, so that three
roundings add up. -/
theorem C85_macd (hA : Rounded R A) (hB : FloatBuilt A E c f fill o AnyPrices) (ho : o.ind = .movingAverageConvergenceDivergence)
    (M : ℚ) (hM : AtMost f "close" M) (hu : 1000000 * R.unit ≤ 1) (i : ℕ) (hi : i < f.idx.length) :
    NearSince 25 i (o.getTiData.day "macd" i) (ema 12 0 (close f) i - ema 26 0 (close f) i) (3 / 20000 + 2000 * R.unit * (M + 1)) ∧
    NearSince 33 i (o.getTiData.day "signal_line" i) (ema 9 25 (fun j => ema 12 0 (close f) j - ema 26 0 (close f) j) i)
      (3 / 20000 + 4000 * R.unit * (M + 1)) := by
  obtain ⟨F, hl, hn, ht, -⟩ := hB.on ho (by simp [Ind.required])
  have hcl : Nums F.len 0 (close f) (F.col "close") := hn _ (by simp [Ind.required])
  have hu0 := R.nonneg
  have hM0 := atMost_nonneg hM hi
  have hu4 : R.unit ≤ 1 / 10000 := by linarith
  have huM : 0 ≤ R.unit * M := by positivity
  rw [guard_ok ht]
  have h1 : Nums F.len 25 (fun j => A.fl (A.roundNum 4 (A.ema 12 0 (close f) j) - A.roundNum 4 (A.ema 26 0 (close f) j))) _ :=
    ((hcl.fewm A 12 12 (by omega)).fround A 4).fsub A ((hcl.fewm A 26 26 (by omega)).fround A 4)
  obtain ⟨d, hd⟩ : ∃ d, d = fun j => A.fl (A.roundNum 4 (A.ema 12 0 (close f) j) - A.roundNum 4 (A.ema 26 0 (close f) j)) := ⟨_, rfl⟩
  obtain ⟨x, hx⟩ : ∃ x, x = fun j => ema 12 0 (close f) j - ema 26 0 (close f) j := ⟨_, rfl⟩
  rw [← hd] at h1
  have r : ∀ s : ℕ, 1 ≤ s → s ≤ 26 → ∀ j ≤ i, |A.roundNum 4 (A.ema s 0 (close f) j) - ema s 0 (close f) j| ≤
      1 / 20000 + 768 * R.unit * (M + 1) ∧ |ema s 0 (close f) j| ≤ M := by
    intro s hs1 hs2 j hj
    have hs2' : (s : ℚ) ≤ 26 := by exact_mod_cast hs2
    have hK : 110 * (((0 + 28 * (s + 1) : ℕ) : ℚ) * R.unit) ≤ 1 := by push_cast; nlinarith
    have := ema_near A hA.fl s hs1 0 0 (close f) (close f) M j (fun t _ ht => near_of_abs (hM t (by omega))) (by omega) hu4 (pow_small R _ hK)
    have h2 := this.reported hA.fl 4 (by linarith) (by linarith)
    refine ⟨h2.trans ?_, this.1⟩
    have h3 : (s : ℚ) * (R.unit * (M + 1)) ≤ 26 * (R.unit * (M + 1)) := mul_le_mul_of_nonneg_right hs2' (by positivity)
    push_cast
    norm_num
    nlinarith
  have hx2 : ∀ j ≤ i, |x j| ≤ 2 * M := fun j hj => by
    have r1 := (r 12 (by norm_num) (by norm_num) j hj).2
    have r2 := (r 26 (by norm_num) (by norm_num) j hj).2
    have := abs_sub (ema 12 0 (close f) j) (ema 26 0 (close f) j)
    rw [hx]
    simp only
    linarith
  have hdx : ∀ j ≤ i, |d j - x j| ≤ 2 / 20000 + 1600 * R.unit * (M + 1) := fun j hj => by
    have r1 := r 12 (by norm_num) (by norm_num) j hj
    have r2 := r 26 (by norm_num) (by norm_num) j hj
    have hxj := hx2 j hj
    rw [hx] at hxj ⊢
    rw [hd]
    simp only [hA.fl] at hxj ⊢
    generalize A.roundNum 4 (A.ema 12 0 (close f) j) = a at *
    generalize A.roundNum 4 (A.ema 26 0 (close f) j) = b at *
    generalize ema 12 0 (close f) j = y at *
    generalize ema 26 0 (close f) j = z at *
    have e1 := R.error (a - b)
    have e2 := abs_sub (a - y) (b - z)
    rw [show a - y - (b - z) = a - b - (y - z) by ring] at e2
    have e3 := abs_add_le (a - b - (y - z)) (y - z)
    rw [sub_add_cancel] at e3
    have e4 := abs_add_le (R.fl (a - b) - (a - b)) (a - b - (y - z))
    rw [sub_add_sub_cancel] at e4
    have e5 : |a - b| ≤ 4 * (M + 1) := by nlinarith
    have e6 := mul_le_mul_of_nonneg_left e5 hu0
    linarith
  have hsize : ∀ j ≤ i, |d j| ≤ 4 * (M + 1) := fun j hj => by
    have e1 := hdx j hj
    have e2 := hx2 j hj
    have e3 := abs_add_le (d j - x j) (x j)
    rw [sub_add_cancel] at e3
    nlinarith
  constructor
  · have hv := h1.since (hl ▸ hi : i < F.len)
    show NearSince 25 i (TTI.val (A.roundS 4 _) i) _ _
    rw [val_fround]
    unfold NearSince
    rw [hv]
    unfold Spec.since
    split
    · rfl
    · refine ⟨A.roundNum 4 (d i), rfl, ?_⟩
      have e1 := round_error A hA.fl 4 (d i) (by linarith)
      have e2 := hdx i (le_refl _)
      have e3 := abs_add_le (A.roundNum 4 (d i) - d i) (d i - x i)
      rw [sub_add_sub_cancel] at e3
      have e4 := mul_le_mul_of_nonneg_left (hsize i (le_refl _)) hu0
      rw [hx] at e3
      norm_num at e1
      simp only at e3
      rw [hx] at e2
      simp only at e2
      linarith
  · have hv := (h1.fewm A 9 9 (by omega)).since (hl ▸ hi : i < F.len)
    show NearSince 33 i (TTI.val (A.roundS 4 _) i) _ _
    rw [val_fround]
    unfold NearSince
    rw [hv]
    unfold Spec.since
    by_cases h33 : i < 33
    · rw [if_pos h33, if_pos (by omega)]; rfl
    · rw [if_neg h33, if_neg (by omega)]
      refine ⟨A.roundNum 4 (A.ema 9 25 d i), rfl, ?_⟩
      have hK : 110 * (((0 + 28 * (9 + 1) : ℕ) : ℚ) * R.unit) ≤ 1 := by push_cast; linarith
      have n1 := ema_near A hA.fl 9 (by norm_num) 0 25 d d (4 * (M + 1)) i (fun j _ hj => near_of_abs (hsize j hj)) (by omega) hu4 (pow_small R _ hK)
      have e1 := n1.reported hA.fl 4 (by linarith) (by linarith)
      have e2 := ema_close 9 25 (by norm_num) d x _ i (by omega) fun j _ hj => hdx j hj
      have e3 := abs_add_le (A.roundNum 4 (A.ema 9 25 d i) - ema 9 25 d i) (ema 9 25 d i - ema 9 25 x i)
      rw [sub_add_sub_cancel] at e3
      rw [← hx]
      push_cast at e1
      norm_num at e1
      linarith

/-- The hypotheses of `C85_macd` on the sample. -/
example : (∃ o, FloatBuilt doubleArith demoEnv .movingAverageConvergenceDivergence (sample 36) true o AnyPrices ∧
      o.ind = .movingAverageConvergenceDivergence ∧ o.getTiData.day "signal_line" 34 = .fin (toDouble (79 / 200))) ∧
    AtMost (sample 36) "close" 60 ∧ 1000000 * double.unit ≤ 1 :=
  ⟨sample_float 36 "signal_line" 34 _ (by decide +kernel) (by decide) fun _ _ => trivial, by unfold AtMost; decide +kernel, by decide +kernel⟩

end TTI.Props
