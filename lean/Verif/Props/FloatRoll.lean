import Verif.Props.Float

set_option autoImplicit false

/-!
# Windows in float64 arithmetic: C86

The means and sums over a window are kept up to date from day to day: the value that leaves is subtracted, the new one is added,
both with a correction of the last rounding error. The statements hold for every table of numbers; the error bounds grow with the
number of days of the table, because the errors of earlier days stay in the running sum.
-/

namespace TTI.Props

open Spec Flt Sim

variable {R : Rounding} {A : Arith} {E : Env} {c : Call} {f : RawFrame} {fill : Bool} {o : Obj}

/-- C86: the simple moving average. -/
theorem C86_simple (hA : Rounded R A) (hB : FloatBuilt A E c f fill o AnyPrices) (n : ℕ) (ho : o.ind = .movingAverage n .simple)
    (M : ℚ) (hM : AtMost f "close" M) (hu : 10000 * f.idx.length * R.unit ≤ 1) (i : ℕ) (hi : i < f.idx.length) :
    NearSince (n - 1) i (o.getTiData.day "ma-simple" i) (meanLast n (close f) i)
      (1 / 20000 + 19 * R.unit * f.idx.length * (M + 1)) := by
  obtain ⟨F, hl, hn, ht, hp, -⟩ := hB.on ho (by simp [Ind.required])
  have hcl : Nums F.len 0 (close f) (F.col "close") := hn _ (by simp [Ind.required])
  have hp : 1 ≤ n := hp.1
  have hL : (1 : ℚ) ≤ f.idx.length := by exact_mod_cast (by omega : 1 ≤ f.idx.length)
  have hu0 := R.nonneg
  have hM0 := atMost_nonneg hM hi
  have huM : 0 ≤ R.unit * (M + 1) := by positivity
  have huL := mul_le_mul_of_nonneg_left hL huM
  have hu1 := mul_le_mul_of_nonneg_left hL hu0
  rw [guard_ok ht]
  obtain ⟨gm, h1, h2⟩ := hcl.frollMean_near A hA.fl (close f) n hp M hM0 0 (fun j hj _ => near_of_abs (hM j (by omega))) (by norm_num)
    (by linarith) (by rw [hl]; linarith)
  rw [hl] at h2
  refine h1.report A hA.fl (hl ▸ hi) (by omega) (fun hk => h2 i hi hk) (by push_cast; linarith) (by push_cast; linarith) (by linarith)

/-- The hypotheses of `C86_simple` on the sample. -/
example : (∃ o, FloatBuilt doubleArith demoEnv (.movingAverage (.int 3) (.str "simple")) (sample 6) true o AnyPrices ∧
      o.ind = .movingAverage 3 .simple ∧ o.getTiData.day "ma-simple" 4 = .fin (toDouble (563333 / 10000))) ∧
    AtMost (sample 6) "close" 60 ∧ 10000 * (sample 6).idx.length * double.unit ≤ 1 :=
  ⟨sample_float 6 "ma-simple" 4 _ (by decide +kernel) (by decide) fun _ _ => trivial, by unfold AtMost; decide +kernel, by decide +kernel⟩

/-- C86: the triangular moving average, a window of windows. -/
theorem C86_triangular (hA : Rounded R A) (hB : FloatBuilt A E c f fill o AnyPrices) (n : ℕ) (ho : o.ind = .movingAverage n .triangular)
    (M : ℚ) (hM : AtMost f "close" M) (hu : 10000 * f.idx.length * R.unit ≤ 1) (i : ℕ) (hi : i < f.idx.length) :
    NearSince (2 * n - 2) i (o.getTiData.day "ma-triangular" i) (meanLast n (meanLast n (close f)) i)
      (1 / 20000 + 33 * R.unit * f.idx.length * (M + 1)) := by
  obtain ⟨F, hl, hn, ht, hp, -⟩ := hB.on ho (by simp [Ind.required])
  have hcl : Nums F.len 0 (close f) (F.col "close") := hn _ (by simp [Ind.required])
  have hp : 1 ≤ n := hp.1
  have hL : (1 : ℚ) ≤ f.idx.length := by exact_mod_cast (by omega : 1 ≤ f.idx.length)
  have hu0 := R.nonneg
  have hM0 := atMost_nonneg hM hi
  have huM : 0 ≤ R.unit * (M + 1) := by positivity
  have huL := mul_le_mul_of_nonneg_left hL huM
  have hu1 := mul_le_mul_of_nonneg_left hL hu0
  rw [guard_ok ht]
  obtain ⟨gm, h1, h2⟩ := hcl.frollMean_near A hA.fl (close f) n hp M hM0 0 (fun j hj _ => near_of_abs (hM j (by omega))) (by norm_num)
    (by linarith) (by rw [hl]; linarith)
  obtain ⟨gt, h3, h4⟩ := h1.frollMean_near A hA.fl (meanLast n (close f)) n hp M hM0 _ (fun j hj hk => h2 j hj hk)
    ((pow_small R _ (by rw [hl]; push_cast; linarith)).trans (by norm_num)) (by linarith) (by rw [hl]; linarith)
  rw [hl] at h4
  refine h3.report A hA.fl (hl ▸ hi) (by omega) (fun hk => h4 i hi hk) (by push_cast; linarith) (by push_cast; linarith) (by linarith)

/-- The hypotheses of `C86_triangular` on the sample. -/
example : (∃ o, FloatBuilt doubleArith demoEnv (.movingAverage (.int 3) (.str "triangular")) (sample 6) true o AnyPrices ∧
      o.ind = .movingAverage 3 .triangular ∧ o.getTiData.day "ma-triangular" 5 = .fin (toDouble (563333 / 10000))) ∧
    AtMost (sample 6) "close" 60 ∧ 10000 * (sample 6).idx.length * double.unit ≤ 1 :=
  ⟨sample_float 6 "ma-triangular" 5 _ (by decide +kernel) (by decide) fun _ _ => trivial, by unfold AtMost; decide +kernel, by decide +kernel⟩

/-- C86: the envelopes. -/
theorem C86_envelopes (hA : Rounded R A) (hB : FloatBuilt A E c f fill o AnyPrices) (n : ℕ) (s : ℚ) (ho : o.ind = .envelopes n s)
    (M : ℚ) (hM : AtMost f "close" M) (hu : 10000 * f.idx.length * R.unit ≤ 1) (i : ℕ) (hi : i < f.idx.length) :
    NearSince (n - 1) i (o.getTiData.day "upper_band" i) ((1 + s) * meanLast n (close f) i)
      (1 / 20000 + 42 * R.unit * f.idx.length * (M + 1)) ∧
    NearSince (n - 1) i (o.getTiData.day "lower_band" i) ((1 - s) * meanLast n (close f) i)
      (1 / 20000 + 42 * R.unit * f.idx.length * (M + 1)) := by
  obtain ⟨F, hl, hn, ht, hp, -⟩ := hB.on ho (by simp [Ind.required])
  have hcl : Nums F.len 0 (close f) (F.col "close") := hn _ (by simp [Ind.required])
  obtain ⟨hp, hs0, hs1⟩ : 1 ≤ n ∧ 0 < s ∧ s < 1 := hp
  have hL : (1 : ℚ) ≤ f.idx.length := by exact_mod_cast (by omega : 1 ≤ f.idx.length)
  have hu0 := R.nonneg
  have hM0 := atMost_nonneg hM hi
  have huM : 0 ≤ R.unit * M := by positivity
  have huL := mul_le_mul_of_nonneg_left hL huM
  have hu1 := mul_le_mul_of_nonneg_left hL hu0
  rw [guard_ok ht]
  obtain ⟨gm, h1, h2⟩ := hcl.frollMean_near A hA.fl (close f) n hp M hM0 0 (fun j hj _ => near_of_abs (hM j (by omega))) (by norm_num)
    (by linarith) (by rw [hl]; linarith)
  rw [hl] at h2
  have key (q : ℚ) (h0 : 0 ≤ q) (h2' : q ≤ 2) (hk : 0 + n - 1 ≤ i) :
      Sim.Near R (0 + 14 * f.idx.length + 2) (A.fl (A.fl q * gm i)) (q * meanLast n (close f) i) (2 * M) := by
    rw [hA.fl]
    exact ((h2 i hi hk).factor q h0).scope (by nlinarith)
  exact ⟨(h1.fscale A _).report A hA.fl (hl ▸ hi) (by omega) (fun hk => key (1 + s) (by linarith) (by linarith) hk)
      (by push_cast; linarith) (by push_cast; linarith) (by linarith),
    (h1.fscale A _).report A hA.fl (hl ▸ hi) (by omega) (fun hk => key (1 - s) (by linarith) (by linarith) hk)
      (by push_cast; linarith) (by push_cast; linarith) (by linarith)⟩

/-- The hypotheses of `C86_envelopes` on the sample. -/
example : (∃ o, FloatBuilt doubleArith demoEnv (.envelopes (.int 3) (.float (.fin (1 / 10)))) (sample 6) true o AnyPrices ∧
      o.ind = .envelopes 3 (1 / 10) ∧ o.getTiData.day "upper_band" 4 = .fin (toDouble (619667 / 10000))) ∧
    AtMost (sample 6) "close" 60 ∧ 10000 * (sample 6).idx.length * double.unit ≤ 1 :=
  ⟨sample_float 6 "upper_band" 4 _ (by decide +kernel) (by decide) fun _ _ => trivial, by unfold AtMost; decide +kernel, by decide +kernel⟩

/-- C86: the volume oscillator. -/
theorem C86_volume_oscillator (hA : Rounded R A) (hB : FloatBuilt A E c f fill o AnyPrices) (long short : ℕ)
    (ho : o.ind = .volumeOscillator long short) (M : ℚ) (hM : AtMost f "volume" M) (hu : 10000 * f.idx.length * R.unit ≤ 1)
    (i : ℕ) (hi : i < f.idx.length) :
    NearSince (long - 1) i (o.getTiData.day "vosc" i) (meanLast short (volume f) i - meanLast long (volume f) i)
      (1 / 20000 + 40 * R.unit * f.idx.length * (M + 1)) := by
  obtain ⟨F, hl, hn, ht, hp, -⟩ := hB.on ho (by simp [Ind.required])
  have hv : Nums F.len 0 (volume f) (F.col "volume") := hn _ (by simp [Ind.required])
  have hL : (1 : ℚ) ≤ f.idx.length := by exact_mod_cast (by omega : 1 ≤ f.idx.length)
  have hu0 := R.nonneg
  have hM0 := atMost_nonneg hM hi
  have huM : 0 ≤ R.unit * M := by positivity
  have huL := mul_le_mul_of_nonneg_left hL huM
  have hu1 := mul_le_mul_of_nonneg_left hL hu0
  simp only [Ind.Pos] at hp
  rw [guard_ok ht]
  have key (w : ℕ) (hw : 1 ≤ w) := hv.frollMean_near A hA.fl (volume f) w hw M hM0 0 (fun j hj _ => near_of_abs (hM j (by omega)))
    (by norm_num) (by linarith) (by rw [hl]; linarith)
  obtain ⟨g1, h1, e1⟩ := key short (by omega)
  obtain ⟨g2, h2, e2⟩ := key long (by omega)
  rw [hl] at e1 e2
  refine (h1.fsub A h2).report A hA.fl (hl ▸ hi) (by omega) (M := 2 * M) (K := 0 + 14 * f.idx.length + 1) (fun hk => ?_)
    (by push_cast; linarith) (by push_cast; linarith) (by linarith)
  rw [hA.fl]
  exact ((e1 i hi (by omega)).sub (e2 i hi (by omega)) (le_refl _) (le_refl _)).scope (by linarith)

/-- The hypotheses of `C86_volume_oscillator` on the sample. -/
example : (∃ o, FloatBuilt doubleArith demoEnv (.volumeOscillator (.int 4) (.int 2)) (sample 6) true o AnyPrices ∧
      o.ind = .volumeOscillator 4 2 ∧ o.getTiData.day "vosc" 4 = .fin (toDouble (-100))) ∧
    AtMost (sample 6) "volume" 5000 ∧ 10000 * (sample 6).idx.length * double.unit ≤ 1 :=
  ⟨sample_float 6 "vosc" 4 _ (by decide +kernel) (by decide) fun _ _ => trivial, by unfold AtMost; decide +kernel, by decide +kernel⟩

/-- C86: qstick. -/
theorem C86_qstick (hA : Rounded R A) (hB : FloatBuilt A E c f fill o AnyPrices) (n : ℕ) (ho : o.ind = .qstick n)
    (M : ℚ) (hM : AtMost f "close" M) (hO : AtMost f "open" M) (hu : 10000 * f.idx.length * R.unit ≤ 1) (i : ℕ) (hi : i < f.idx.length) :
    NearSince (n - 1) i (o.getTiData.day "qstick" i) (meanLast n (fun j => close f j - opening f j) i)
      (1 / 20000 + 42 * R.unit * f.idx.length * (M + 1)) := by
  obtain ⟨F, hl, hn, ht, hp, -⟩ := hB.on ho (by simp [Ind.required])
  have hcl : Nums F.len 0 (close f) (F.col "close") := hn _ (by simp [Ind.required])
  have hop : Nums F.len 0 (opening f) (F.col "open") := hn _ (by simp [Ind.required])
  replace hp : 1 ≤ n := hp
  have hn0 : (0 : ℚ) < n := by exact_mod_cast hp
  have hL : (1 : ℚ) ≤ f.idx.length := by exact_mod_cast (by omega : 1 ≤ f.idx.length)
  have hu0 := R.nonneg
  have hM0 := atMost_nonneg hM hi
  have huM : 0 ≤ R.unit * M := by positivity
  have huL := mul_le_mul_of_nonneg_left hL huM
  have hu1 := mul_le_mul_of_nonneg_left hL hu0
  rw [guard_ok ht]
  obtain ⟨gs, h1, h2⟩ := (hcl.fsub A hop).frollSum_near A hA.fl (fun j => close f j - opening f j) n hp (M + M) (by linarith) 1
    (fun j hj _ => by
      rw [hA.fl]
      exact (near_of_abs (hM j (by omega))).sub (near_of_abs (hO j (by omega))) (le_refl 0) (le_refl 0))
    (by rw [pow_one]; linarith) (by linarith) (by rw [hl]; linarith)
  rw [hl] at h2
  refine (h1.fdivConst A n hn0.ne').report A hA.fl (hl ▸ hi) (by omega) (M := 2 * M) (K := 1 + 14 * f.idx.length + 1) (fun hk => ?_)
    (by push_cast; linarith) (by push_cast; linarith) (by linarith)
  rw [hA.fl]
  refine ((h2 i hi (by omega)).div n hn0).scope (le_of_eq ?_)
  field_simp
  ring

/-- The hypotheses of `C86_qstick` on the sample. -/
example : (∃ o, FloatBuilt doubleArith demoEnv (.qstick (.int 3)) (sample 6) true o AnyPrices ∧
      o.ind = .qstick 3 ∧ o.getTiData.day "qstick" 4 = .fin (toDouble (33333 / 10000))) ∧
    AtMost (sample 6) "close" 60 ∧ AtMost (sample 6) "open" 60 ∧ 10000 * (sample 6).idx.length * double.unit ≤ 1 :=
  ⟨sample_float 6 "qstick" 4 _ (by decide +kernel) (by decide) fun _ _ => trivial, by unfold AtMost; decide +kernel,
    by unfold AtMost; decide +kernel, by decide +kernel⟩

/-- C86: the detrended price. -/
theorem C86_detrended (hA : Rounded R A) (hB : FloatBuilt A E c f fill o AnyPrices) (n : ℕ) (ho : o.ind = .detrendedPriceOscillator n)
    (M : ℚ) (hM : AtMost f "close" M) (hu : 10000 * f.idx.length * R.unit ≤ 1) (i : ℕ) (hi : i + (1 + n / 2) < f.idx.length) :
    NearSince (n - 1 - (1 + n / 2)) i (o.getTiData.day "dpo" i) (close f i - meanLast n (close f) (i + (1 + n / 2)))
      (1 / 20000 + 40 * R.unit * f.idx.length * (M + 1)) ∧
    o.getTiData.len = f.idx.length - (1 + n / 2) := by
  obtain ⟨F, hl, hn, ht, hp, -⟩ := hB.on ho (by simp [Ind.required])
  have hcl : Nums F.len 0 (close f) (F.col "close") := hn _ (by simp [Ind.required])
  replace hp : 1 ≤ n := hp
  have hL : (1 : ℚ) ≤ f.idx.length := by exact_mod_cast (by omega : 1 ≤ f.idx.length)
  have hu0 := R.nonneg
  have hM0 := atMost_nonneg hM (show i < f.idx.length by omega)
  have huM : 0 ≤ R.unit * M := by positivity
  have huL := mul_le_mul_of_nonneg_left hL huM
  have hu1 := mul_le_mul_of_nonneg_left hL hu0
  rw [guard_ok ht]
  obtain ⟨gm, hm, h2⟩ := hcl.frollMean_near A hA.fl (close f) n hp M hM0 0 (fun j hj _ => near_of_abs (hM j (by omega))) (by norm_num)
    (by linarith) (by rw [hl]; linarith)
  rw [hl] at h2
  refine ⟨?_, by simp [Frame.len] at hl ⊢; omega⟩
  show NearSince _ i (TTI.val (A.roundS 4 ((A.subS _ _).take _)) i) _ _
  rw [val_fround, val_take _ _ _ (by omega), val_fsub, hcl.fin (by omega) (by omega), val_shiftBack _ _ _ (by rw [hm.len]; omega),
    hm.val _ (by omega)]
  refine report_at A hA.fl 4 (M := 2 * M) (K := 0 + 14 * f.idx.length + 1) (a := A.fl (close f i - gm (i + (1 + n / 2))))
    ?_ (fun hk => ?_) (by push_cast; linarith) (by push_cast; linarith) (by linarith)
  · unfold Spec.since
    split
    · rw [if_pos (by omega)]; rfl
    · rw [if_neg (by omega)]; simp only [Arith.sub, Arith.rd, Val.fin_sub]
  · rw [hA.fl]
    exact ((near_of_abs (hM i (by omega))).sub (h2 _ hi (by omega)) (Nat.zero_le _) (le_refl _)).scope (by linarith)

/-- The hypotheses of `C86_detrended` on the sample. -/
example : (∃ o, FloatBuilt doubleArith demoEnv (.detrendedPriceOscillator (.int 4)) (sample 8) true o AnyPrices ∧
      o.ind = .detrendedPriceOscillator 4 ∧ o.getTiData.day "dpo" 3 = .fin (toDouble (13 / 4))) ∧
    AtMost (sample 8) "close" 60 ∧ 10000 * (sample 8).idx.length * double.unit ≤ 1 :=
  ⟨sample_float 8 "dpo" 3 _ (by decide +kernel) (by decide) fun _ _ => trivial, by unfold AtMost; decide +kernel, by decide +kernel⟩

end TTI.Props
