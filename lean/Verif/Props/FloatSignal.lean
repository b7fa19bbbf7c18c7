import Verif.Props.FloatPrices
import Verif.Props.FloatRoll
import Verif.Lemmas.FloatSignal

set_option autoImplicit false

/-!
# Signals in float64 arithmetic: C87

The signals of these classes compare the last closes with the last values. When the close is further from the exact value than the
error bound of C85 and C86, the comparison has the result that exact numbers give.
-/

namespace TTI.Props

open Spec Flt Sim

variable {R : Rounding} {A : Arith} {E : Env} {c : Call} {f : RawFrame} {fill : Bool} {o : Obj}

theorem guard_not {p : Prop} [Decidable p] {e : Err} {T T' : Frame} (h : (if p then Except.error e else Except.ok T) = .ok T') : ¬ p := by
  intro hp
  rw [if_pos hp] at h
  cases h

/-- C87: the simple moving average. -/
theorem C87_simple (hA : Rounded R A) (hB : FloatBuilt A E c f fill o AnyPrices) (n : ℕ) (ho : o.ind = .movingAverage n .simple)
    (M : ℚ) (hM : AtMost f "close" M) (hu : 10000 * f.idx.length * R.unit ≤ 1) (day : ℕ) (hd : day + 1 = f.idx.length) :
    (meanLast n (close f) day + (1 / 20000 + 19 * R.unit * f.idx.length * (M + 1)) < close f day → o.getTiSignal = .ok .buy) ∧
    (close f day + (1 / 20000 + 19 * R.unit * f.idx.length * (M + 1)) < meanLast n (close f) day → o.getTiSignal = .ok .hold) := by
  have hN := C86_simple hA hB n ho M hM hu day (by omega)
  obtain ⟨F, hl, hn, ht, hp, -, hin, -⟩ := hB.on ho (by simp [Ind.required])
  have hcl : Nums F.len 0 (close f) (F.col "close") := hn _ (by simp [Ind.required])
  have hlen := guard_not ht
  obtain ⟨r, h1, h2⟩ := iat_near (xs := o.getTiData.col "ma-simple") (L := f.idx.length) (k := n - 1)
    (by rw [guard_ok ht]; show (A.roundS 4 _).length = _; simp [Arith.roundS, Arith.rollMean, hcl.len, hl]) 1 (le_refl _) (by have := hp.1; omega)
    (by rw [← hd]; exact hN)
  show (_ → o.ind.signal o.input o.getTiData = _) ∧ (_ → o.ind.signal o.input o.getTiData = _)
  rw [ho, hin]
  have hc := hcl.iat_fin 1 (le_refl _) (by omega)
  rw [show F.len - 1 = day by omega] at hc
  exact ma_signal_near .simple (by rw [guard_ok ht]; show 1 ≤ F.len; omega) hc h1 h2

/-- The hypotheses of `C87_simple` on the sample, with a close far above the average. -/
example : (∃ o, FloatBuilt doubleArith demoEnv (.movingAverage (.int 3) (.str "simple")) (sample 4) true o AnyPrices ∧
      o.ind = .movingAverage 3 .simple ∧ o.getTiData.day "ma-simple" 3 = .fin (toDouble (566667 / 10000))) ∧
    AtMost (sample 4) "close" 60 ∧ 10000 * (sample 4).idx.length * double.unit ≤ 1 ∧
    meanLast 3 (close (sample 4)) 3 + (1 / 20000 + 19 * double.unit * (sample 4).idx.length * (60 + 1)) < close (sample 4) 3 :=
  ⟨sample_float 4 "ma-simple" 3 _ (by decide +kernel) (by decide) fun _ _ => trivial, by unfold AtMost; decide +kernel, by decide +kernel,
    by decide +kernel⟩

/-- C87: the exponential moving average. -/
theorem C87_exponential (hA : Rounded R A) (hB : FloatBuilt A E c f fill o AnyPrices) (n : ℕ) (ho : o.ind = .movingAverage n .exponential)
    (M : ℚ) (hM : AtMost f "close" M) (hu : 10000 * (n + 1) * R.unit ≤ 1) (day : ℕ) (hd : day + 1 = f.idx.length) :
    (ema n 0 (close f) day + (1 / 20000 + 31 * R.unit * (n + 1) * (M + 1)) < close f day → o.getTiSignal = .ok .buy) ∧
    (close f day + (1 / 20000 + 31 * R.unit * (n + 1) * (M + 1)) < ema n 0 (close f) day → o.getTiSignal = .ok .hold) := by
  have hN := C85_exponential hA hB n ho M hM hu day (by omega)
  obtain ⟨F, hl, hn, ht, hp, -, hin, -⟩ := hB.on ho (by simp [Ind.required])
  have hcl : Nums F.len 0 (close f) (F.col "close") := hn _ (by simp [Ind.required])
  have hlen := guard_not ht
  obtain ⟨r, h1, h2⟩ := iat_near (xs := o.getTiData.col "ma-exponential") (L := f.idx.length) (k := n - 1)
    (by rw [guard_ok ht]; show (A.roundS 4 _).length = _; simp [Arith.roundS, Arith.ewm, hcl.len, hl]) 1 (le_refl _) (by have := hp.1; omega)
    (by rw [← hd]; exact hN)
  show (_ → o.ind.signal o.input o.getTiData = _) ∧ (_ → o.ind.signal o.input o.getTiData = _)
  rw [ho, hin]
  have hc := hcl.iat_fin 1 (le_refl _) (by omega)
  rw [show F.len - 1 = day by omega] at hc
  exact ma_signal_near .exponential (by rw [guard_ok ht]; show 1 ≤ F.len; omega) hc h1 h2

/-- The hypotheses of `C87_exponential` on the sample, with a close far below the average. -/
example : (∃ o, FloatBuilt doubleArith demoEnv (.movingAverage (.int 4) (.str "exponential")) (sample 6) true o AnyPrices ∧
      o.ind = .movingAverage 4 .exponential ∧ o.getTiData.day "ma-exponential" 5 = .fin (toDouble (543021 / 10000))) ∧
    AtMost (sample 6) "close" 60 ∧ 10000 * ((4 : ℕ) + 1) * double.unit ≤ 1 ∧
    close (sample 6) 5 + (1 / 20000 + 31 * double.unit * ((4 : ℕ) + 1) * (60 + 1)) < ema 4 0 (close (sample 6)) 5 :=
  ⟨sample_float 6 "ma-exponential" 5 _ (by decide +kernel) (by decide) fun _ _ => trivial, by unfold AtMost; decide +kernel, by decide +kernel,
    by decide +kernel⟩

/-- C87: the triangular moving average. -/
theorem C87_triangular (hA : Rounded R A) (hB : FloatBuilt A E c f fill o AnyPrices) (n : ℕ) (ho : o.ind = .movingAverage n .triangular)
    (M : ℚ) (hM : AtMost f "close" M) (hu : 10000 * f.idx.length * R.unit ≤ 1) (day : ℕ) (hd : day + 1 = f.idx.length)
    (hlen : 2 * n - 2 ≤ day) :
    (meanLast n (meanLast n (close f)) day + (1 / 20000 + 33 * R.unit * f.idx.length * (M + 1)) < close f day → o.getTiSignal = .ok .buy) ∧
    (close f day + (1 / 20000 + 33 * R.unit * f.idx.length * (M + 1)) < meanLast n (meanLast n (close f)) day →
      o.getTiSignal = .ok .hold) := by
  have hN := C86_triangular hA hB n ho M hM hu day (by omega)
  obtain ⟨F, hl, hn, ht, hp, -, hin, -⟩ := hB.on ho (by simp [Ind.required])
  have hcl : Nums F.len 0 (close f) (F.col "close") := hn _ (by simp [Ind.required])
  obtain ⟨r, h1, h2⟩ := iat_near (xs := o.getTiData.col "ma-triangular") (L := f.idx.length) (k := 2 * n - 2)
    (by rw [guard_ok ht]; show (A.roundS 4 _).length = _; simp [Arith.roundS, Arith.rollMean, hcl.len, hl]) 1 (le_refl _) (by omega)
    (by rw [← hd]; exact hN)
  show (_ → o.ind.signal o.input o.getTiData = _) ∧ (_ → o.ind.signal o.input o.getTiData = _)
  rw [ho, hin]
  have hc := hcl.iat_fin 1 (le_refl _) (by omega)
  rw [show F.len - 1 = day by omega] at hc
  exact ma_signal_near .triangular (by rw [guard_ok ht]; show 1 ≤ F.len; omega) hc h1 h2

/-- The hypotheses of `C87_triangular` on the sample, with a close far below the average. -/
example : (∃ o, FloatBuilt doubleArith demoEnv (.movingAverage (.int 3) (.str "triangular")) (sample 6) true o AnyPrices ∧
      o.ind = .movingAverage 3 .triangular ∧ o.getTiData.day "ma-triangular" 5 = .fin (toDouble (563333 / 10000))) ∧
    AtMost (sample 6) "close" 60 ∧ 10000 * (sample 6).idx.length * double.unit ≤ 1 ∧
    close (sample 6) 5 + (1 / 20000 + 33 * double.unit * (sample 6).idx.length * (60 + 1)) < meanLast 3 (meanLast 3 (close (sample 6))) 5 :=
  ⟨sample_float 6 "ma-triangular" 5 _ (by decide +kernel) (by decide) fun _ _ => trivial, by unfold AtMost; decide +kernel, by decide +kernel,
    by decide +kernel⟩

/-- C87: the double exponential moving average. -/
theorem C87_double_exponential (hA : Rounded R A) (hB : FloatBuilt A E c f fill o AnyPrices) (n : ℕ)
    (ho : o.ind = .doubleExponentialMovingAverage n) (M : ℚ) (hM : AtMost f "close" M) (hu : 10000 * (n + 1) * R.unit ≤ 1)
    (day : ℕ) (hd : day + 1 = f.idx.length) (hlen : 2 * n - 2 ≤ day) (x e : ℚ)
    (hx : x = 2 * ema n 0 (close f) day - ema n (n - 1) (ema n 0 (close f)) day)
    (he : e = 1 / 20000 + 180 * R.unit * (n + 1) * (M + 1)) :
    (close f day + e < x → o.getTiSignal = .ok .buy) ∧ (x + e < close f day → o.getTiSignal = .ok .hold) := by
  have hN := C85_double_exponential hA hB n ho M hM hu day (by omega)
  obtain ⟨F, hl, hn, ht, hp, -, hin, -⟩ := hB.on ho (by simp [Ind.required])
  have hcl : Nums F.len 0 (close f) (F.col "close") := hn _ (by simp [Ind.required])
  obtain ⟨r, h1, h2⟩ := iat_near (xs := o.getTiData.col "dema") (L := f.idx.length) (k := 2 * n - 2)
    (by rw [guard_ok ht]; show (A.roundS 4 _).length = _; simp [Arith.roundS, Arith.subS, Arith.scaleS, Arith.ewm, hcl.len, hl]) 1 (le_refl _) (by omega)
    (by rw [← hd]; exact hN)
  show (_ → o.ind.signal o.input o.getTiData = _) ∧ (_ → o.ind.signal o.input o.getTiData = _)
  rw [ho, hin]
  have hc := hcl.iat_fin 1 (le_refl _) (by omega)
  rw [show F.len - 1 = day by omega] at hc
  exact dema_signal_near (by rw [guard_ok ht]; show 1 ≤ F.len; omega) hc h1 (by rw [hx, he]; exact h2)

/-- The hypotheses of `C87_double_exponential` on the sample, with a close far below the average. -/
example : (∃ o, FloatBuilt doubleArith demoEnv (.doubleExponentialMovingAverage (.int 3)) (sample 6) true o AnyPrices ∧
      o.ind = .doubleExponentialMovingAverage 3 ∧ o.getTiData.day "dema" 5 = .fin (toDouble (534219 / 10000))) ∧
    AtMost (sample 6) "close" 60 ∧ 10000 * ((3 : ℕ) + 1) * double.unit ≤ 1 ∧
    close (sample 6) 5 + (1 / 20000 + 180 * double.unit * ((3 : ℕ) + 1) * (60 + 1)) <
      2 * ema 3 0 (close (sample 6)) 5 - ema 3 (3 - 1) (ema 3 0 (close (sample 6))) 5 :=
  ⟨sample_float 6 "dema" 5 _ (by decide +kernel) (by decide) fun _ _ => trivial, by unfold AtMost; decide +kernel, by decide +kernel,
    by decide +kernel⟩

/-- C87: the triple exponential moving average. -/
theorem C87_triple_exponential (hA : Rounded R A) (hB : FloatBuilt A E c f fill o AnyPrices) (n : ℕ)
    (ho : o.ind = .tripleExponentialMovingAverage n) (M : ℚ) (hM : AtMost f "close" M) (hu : 10000 * (n + 1) * R.unit ≤ 1)
    (day : ℕ) (hd : day + 1 = f.idx.length) (hlen : 3 * n - 3 ≤ day) (x e : ℚ)
    (hx : x = 3 * ema n 0 (close f) day - 3 * ema n (n - 1) (ema n 0 (close f)) day +
      ema n (2 * n - 2) (ema n (n - 1) (ema n 0 (close f))) day)
    (he : e = 1 / 20000 + 620 * R.unit * (n + 1) * (M + 1)) :
    (close f day + e < x → o.getTiSignal = .ok .buy) ∧ (x + e < close f day → o.getTiSignal = .ok .sell) := by
  have hN := C85_triple_exponential hA hB n ho M hM hu day (by omega)
  obtain ⟨F, hl, hn, ht, hp, -, hin, -⟩ := hB.on ho (by simp [Ind.required])
  have hcl : Nums F.len 0 (close f) (F.col "close") := hn _ (by simp [Ind.required])
  obtain ⟨r, h1, h2⟩ := iat_near (xs := o.getTiData.col "tema") (L := f.idx.length) (k := 3 * n - 3)
    (by rw [guard_ok ht]; show (A.roundS 4 _).length = _; simp [Arith.roundS, Arith.subS, Arith.addS, Arith.scaleS, Arith.ewm, hcl.len, hl]) 1 (le_refl _)
    (by omega) (by rw [← hd]; exact hN)
  show (_ → o.ind.signal o.input o.getTiData = _) ∧ (_ → o.ind.signal o.input o.getTiData = _)
  rw [ho, hin]
  have hc := hcl.iat_fin 1 (le_refl _) (by omega)
  rw [show F.len - 1 = day by omega] at hc
  exact tema_signal_near (by rw [guard_ok ht]; show 1 ≤ F.len; omega) hc h1 (by rw [hx, he]; exact h2)

/-- The hypotheses of `C87_triple_exponential` on the sample, with a close far below the average. -/
example : (∃ o, FloatBuilt doubleArith demoEnv (.tripleExponentialMovingAverage (.int 2)) (sample 6) true o AnyPrices ∧
      o.ind = .tripleExponentialMovingAverage 2 ∧ o.getTiData.day "tema" 5 = .fin (toDouble (520796 / 10000))) ∧
    AtMost (sample 6) "close" 60 ∧ 10000 * ((2 : ℕ) + 1) * double.unit ≤ 1 ∧
    close (sample 6) 5 + (1 / 20000 + 620 * double.unit * ((2 : ℕ) + 1) * (60 + 1)) <
      3 * ema 2 0 (close (sample 6)) 5 - 3 * ema 2 (2 - 1) (ema 2 0 (close (sample 6))) 5 +
        ema 2 (2 * 2 - 2) (ema 2 (2 - 1) (ema 2 0 (close (sample 6)))) 5 :=
  ⟨sample_float 6 "tema" 5 _ (by decide +kernel) (by decide) fun _ _ => trivial, by unfold AtMost; decide +kernel, by decide +kernel,
    by decide +kernel⟩

/-- C87: Wilder's smoothing: a crossing between the last two days, or none. -/
theorem C87_wilders_smoothing (hA : Rounded R A) (hB : FloatBuilt A E c f fill o AnyPrices) (n : ℕ)
    (ho : o.ind = .wildersSmoothing n) (M : ℚ) (hM : AtMost f "close" M) (hu : 10000 * n * R.unit ≤ 1)
    (day : ℕ) (hd : day + 2 = f.idx.length) (hlen : n - 1 ≤ day) (x x' e : ℚ) (hx : x = wilderAverage n 0 (close f) day)
    (hx' : x' = wilderAverage n 0 (close f) (day + 1)) (he : e = 1 / 20000 + 13 * R.unit * n * (M + 1)) :
    (x + e < close f day → close f (day + 1) + e < x' → o.getTiSignal = .ok .buy) ∧
    (close f day + e < x → x' + e < close f (day + 1) → o.getTiSignal = .ok .sell) ∧
    (close f (day + 1) + e < x' → close f day + e < x → o.getTiSignal = .ok .hold) ∧
    (x' + e < close f (day + 1) → x + e < close f day → o.getTiSignal = .ok .hold) := by
  have hN := C85_wilders_smoothing hA hB n ho M hM hu day (by omega)
  have hN' := C85_wilders_smoothing hA hB n ho M hM hu (day + 1) (by omega)
  obtain ⟨F, hl, hn, ht, hp, -, hin, -⟩ := hB.on ho (by simp [Ind.required])
  have hcl : Nums F.len 0 (close f) (F.col "close") := hn _ (by simp [Ind.required])
  have hlen' : (o.getTiData.col "ws").length = f.idx.length := by
    rw [guard_ok ht]; show (A.roundS 4 _).length = _; simp [Arith.roundS, Arith.wilder, hcl.len, hl]
  obtain ⟨r', h1', h2'⟩ := iat_near (k := n - 1) hlen' 1 (le_refl _) (by omega) (by rw [← hd]; exact hN')
  obtain ⟨r, h1, h2⟩ := iat_near (k := n - 1) hlen' 2 (by norm_num) (by omega) (by rw [← hd]; exact hN)
  show (_ → _ → o.ind.signal o.input o.getTiData = _) ∧ (_ → _ → o.ind.signal o.input o.getTiData = _) ∧
    (_ → _ → o.ind.signal o.input o.getTiData = _) ∧ (_ → _ → o.ind.signal o.input o.getTiData = _)
  rw [ho, hin]
  have hc := hcl.iat_fin 1 (le_refl _) (by omega)
  have hc' := hcl.iat_fin 2 (by norm_num) (by omega)
  rw [show F.len - 1 = day + 1 by omega] at hc
  rw [show F.len - 2 = day by omega] at hc'
  exact cross_signal_near (below := .buy) (above := .sell) (by rw [guard_ok ht]; show 2 ≤ F.len; omega) hc hc' h1' h1
    (by rw [hx', he]; exact h2') (by rw [hx, he]; exact h2)

/-- The hypotheses of `C87_wilders_smoothing` on the sample, with a fall through the average. -/
example : (∃ o, FloatBuilt doubleArith demoEnv (.wildersSmoothing (.int 3)) (sample 6) true o AnyPrices ∧
      o.ind = .wildersSmoothing 3 ∧ o.getTiData.day "ws" 4 = .fin (toDouble (557037 / 10000))) ∧
    AtMost (sample 6) "close" 60 ∧ 10000 * (3 : ℕ) * double.unit ≤ 1 ∧
    wilderAverage 3 0 (close (sample 6)) 4 + (1 / 20000 + 13 * double.unit * (3 : ℕ) * (60 + 1)) < close (sample 6) 4 ∧
    close (sample 6) 5 + (1 / 20000 + 13 * double.unit * (3 : ℕ) * (60 + 1)) < wilderAverage 3 0 (close (sample 6)) 5 :=
  ⟨sample_float 6 "ws" 4 _ (by decide +kernel) (by decide) fun _ _ => trivial, by unfold AtMost; decide +kernel, by decide +kernel,
    by decide +kernel, by decide +kernel⟩

/-- C87: the envelopes. -/
theorem C87_envelopes (hA : Rounded R A) (hB : FloatBuilt A E c f fill o AnyPrices) (n : ℕ) (s : ℚ) (ho : o.ind = .envelopes n s)
    (M : ℚ) (hM : AtMost f "close" M) (hu : 10000 * f.idx.length * R.unit ≤ 1) (day : ℕ) (hd : day + 1 = f.idx.length) (x x' e : ℚ)
    (hx : x = (1 + s) * meanLast n (close f) day) (hx' : x' = (1 - s) * meanLast n (close f) day)
    (he : e = 1 / 20000 + 42 * R.unit * f.idx.length * (M + 1)) :
    (x + e < close f day → o.getTiSignal = .ok .sell) ∧
    (close f day + e < x → close f day + e < x' → o.getTiSignal = .ok .buy) ∧
    (close f day + e < x → x' + e < close f day → o.getTiSignal = .ok .hold) := by
  obtain ⟨hN, hN'⟩ := C86_envelopes hA hB n s ho M hM hu day (by omega)
  obtain ⟨F, hl, hn, ht, hp, -, hin, -⟩ := hB.on ho (by simp [Ind.required])
  have hcl : Nums F.len 0 (close f) (F.col "close") := hn _ (by simp [Ind.required])
  have hlen := guard_not ht
  obtain ⟨r, h1, h2⟩ := iat_near (xs := o.getTiData.col "upper_band") (L := f.idx.length) (k := n - 1)
    (by rw [guard_ok ht]; show (A.roundS 4 _).length = _; simp [Arith.roundS, Arith.scaleS, Arith.rollMean, hcl.len, hl]) 1 (le_refl _) (by have := hp.1; omega)
    (by rw [← hd]; exact hN)
  obtain ⟨r', h1', h2'⟩ := iat_near (xs := o.getTiData.col "lower_band") (L := f.idx.length) (k := n - 1)
    (by rw [guard_ok ht]; show (A.roundS 4 _).length = _; simp [Arith.roundS, Arith.scaleS, Arith.rollMean, hcl.len, hl]) 1 (le_refl _) (by have := hp.1; omega)
    (by rw [← hd]; exact hN')
  show (_ → o.ind.signal o.input o.getTiData = _) ∧ (_ → _ → o.ind.signal o.input o.getTiData = _) ∧
    (_ → _ → o.ind.signal o.input o.getTiData = _)
  rw [ho, hin]
  have hc := hcl.iat_fin 1 (le_refl _) (by omega)
  rw [show F.len - 1 = day by omega] at hc
  exact band_signal_near (by rw [guard_ok ht]; show 1 ≤ F.len; omega) hc h1 h1' (by rw [hx, he]; exact h2) (by rw [hx', he]; exact h2')

/-- The hypotheses of `C87_envelopes` on the sample, with a close between the bands. -/
example : (∃ o, FloatBuilt doubleArith demoEnv (.envelopes (.int 3) (.float (.fin (1 / 10)))) (sample 5) true o AnyPrices ∧
      o.ind = .envelopes 3 (1 / 10) ∧ o.getTiData.day "upper_band" 4 = .fin (toDouble (619667 / 10000))) ∧
    AtMost (sample 5) "close" 60 ∧ 10000 * (sample 5).idx.length * double.unit ≤ 1 ∧
    close (sample 5) 4 + (1 / 20000 + 42 * double.unit * (sample 5).idx.length * (60 + 1)) < (1 + 1 / 10) * meanLast 3 (close (sample 5)) 4 ∧
    (1 - 1 / 10) * meanLast 3 (close (sample 5)) 4 + (1 / 20000 + 42 * double.unit * (sample 5).idx.length * (60 + 1)) < close (sample 5) 4 :=
  ⟨sample_float 5 "upper_band" 4 _ (by decide +kernel) (by decide) fun _ _ => trivial, by unfold AtMost; decide +kernel, by decide +kernel,
    by decide +kernel, by decide +kernel⟩

/-- C87: the price channel. -/
theorem C87_price_channel (hA : Rounded R A) (hB : FloatBuilt A E c f fill o AnyPrices) (n : ℕ) (ho : o.ind = .priceChannel n)
    (M : ℚ) (hH : AtMost f "high" M) (hL : AtMost f "low" M) (hu : 10000 * R.unit ≤ 1) (day : ℕ) (hd : day + 1 = f.idx.length)
    (hlen : n ≤ day) (x x' e : ℚ) (hx : x = highest n (high f) (day - 1)) (hx' : x' = lowest n (low f) (day - 1))
    (he : e = 1 / 20000 + 4 * R.unit * (M + 1)) :
    (x + e < close f day → o.getTiSignal = .ok .sell) ∧
    (close f day + e < x → close f day + e < x' → o.getTiSignal = .ok .buy) ∧
    (close f day + e < x → x' + e < close f day → o.getTiSignal = .ok .hold) := by
  obtain ⟨hN, hN'⟩ := C85_price_channel hA hB n ho M hH hL hu day (by omega)
  obtain ⟨F, hl, hn, ht, hp, -, hin, -⟩ := hB.on ho (by simp [Ind.required])
  have hcl : Nums F.len 0 (close f) (F.col "close") := hn _ (by simp [Ind.required])
  have hhi : Nums F.len 0 (high f) (F.col "high") := hn _ (by simp [Ind.required])
  have hlo : Nums F.len 0 (low f) (F.col "low") := hn _ (by simp [Ind.required])
  obtain ⟨r, h1, h2⟩ := iat_near (xs := o.getTiData.col "highest_high") (L := f.idx.length) (k := n)
    (by rw [guard_ok ht]; show (A.roundS 4 _).length = _; simp [Arith.roundS, hhi.len, hl]) 1 (le_refl _) (by omega)
    (by rw [← hd]; exact hN)
  obtain ⟨r', h1', h2'⟩ := iat_near (xs := o.getTiData.col "lowest_low") (L := f.idx.length) (k := n)
    (by rw [guard_ok ht]; show (A.roundS 4 _).length = _; simp [Arith.roundS, hlo.len, hl]) 1 (le_refl _) (by omega)
    (by rw [← hd]; exact hN')
  show (_ → o.ind.signal o.input o.getTiData = _) ∧ (_ → _ → o.ind.signal o.input o.getTiData = _) ∧
    (_ → _ → o.ind.signal o.input o.getTiData = _)
  rw [ho, hin]
  have hc := hcl.iat_fin 1 (le_refl _) (by omega)
  rw [show F.len - 1 = day by omega] at hc
  exact band_signal_near (by rw [guard_ok ht]; show 1 ≤ F.len; omega) hc h1 h1' (by rw [hx, he]; exact h2) (by rw [hx', he]; exact h2')

/-- The hypotheses of `C87_price_channel` on the sample, with a close inside the channel. -/
example : (∃ o, FloatBuilt doubleArith demoEnv (.priceChannel (.int 3)) (sample 5) true o AnyPrices ∧ o.ind = .priceChannel 3 ∧
      o.getTiData.day "lowest_low" 4 = .fin (toDouble (193 / 4))) ∧
    AtMost (sample 5) "high" 63 ∧ AtMost (sample 5) "low" 63 ∧ 10000 * double.unit ≤ 1 ∧
    close (sample 5) 4 + (1 / 20000 + 4 * double.unit * (63 + 1)) < highest 3 (high (sample 5)) 3 ∧
    lowest 3 (low (sample 5)) 3 + (1 / 20000 + 4 * double.unit * (63 + 1)) < close (sample 5) 4 :=
  ⟨sample_float 5 "lowest_low" 4 _ (by decide +kernel) (by decide) fun _ _ => trivial, by unfold AtMost; decide +kernel,
    by unfold AtMost; decide +kernel, by decide +kernel, by decide +kernel, by decide +kernel⟩

/-- C87: in float64 arithmetic with closes up to a million, a period up to 1000 and a table up to 100000 rows, a close that is more
than 0.0001 above the exact average is reported as such. -/
theorem C87_double (hB : FloatBuilt doubleArith E c f fill o AnyPrices) (n : ℕ) (hM : AtMost f "close" (10 ^ 6)) (hn : n ≤ 1000)
    (hrows : f.idx.length ≤ 100000) (day : ℕ) (hd : day + 1 = f.idx.length) :
    (o.ind = .movingAverage n .exponential →
      (ema n 0 (close f) day + 1 / 10000 < close f day → o.getTiSignal = .ok .buy) ∧
      (close f day + 1 / 10000 < ema n 0 (close f) day → o.getTiSignal = .ok .hold)) ∧
    (o.ind = .movingAverage n .simple →
      (meanLast n (close f) day + 3 / 10000 < close f day → o.getTiSignal = .ok .buy) ∧
      (close f day + 3 / 10000 < meanLast n (close f) day → o.getTiSignal = .ok .hold)) := by
  have hA := C85_double.1
  have hn' : (n : ℚ) ≤ 1000 := by exact_mod_cast hn
  have hr' : (f.idx.length : ℚ) ≤ 100000 := by exact_mod_cast hrows
  have hu : double.unit = 1 / 2 ^ 53 := C85_double.2
  refine ⟨fun ho => ?_, fun ho => ?_⟩
  · obtain ⟨h1, h2⟩ := C87_exponential hA hB n ho _ hM (by rw [hu]; norm_num; linarith) day hd
    rw [hu] at h1 h2
    exact ⟨fun h => h1 (by norm_num at h ⊢; linarith), fun h => h2 (by norm_num at h ⊢; linarith)⟩
  · obtain ⟨h1, h2⟩ := C87_simple hA hB n ho _ hM (by rw [hu]; norm_num; linarith) day hd
    rw [hu] at h1 h2
    exact ⟨fun h => h1 (by norm_num at h ⊢; linarith), fun h => h2 (by norm_num at h ⊢; linarith)⟩

/-- The hypotheses of `C87_double` on the sample. -/
example : (∃ o, FloatBuilt doubleArith demoEnv (.movingAverage (.int 4) (.str "exponential")) (sample 6) true o AnyPrices ∧
      o.ind = .movingAverage 4 .exponential ∧ o.getTiData.day "ma-exponential" 5 = .fin (toDouble (543021 / 10000))) ∧
    AtMost (sample 6) "close" (10 ^ 6) ∧ close (sample 6) 5 + 1 / 10000 < ema 4 0 (close (sample 6)) 5 :=
  ⟨sample_float 6 "ma-exponential" 5 _ (by decide +kernel) (by decide) fun _ _ => trivial, by unfold AtMost; decide +kernel, by decide +kernel⟩

end TTI.Props
