import Verif.Lemmas.FloatStd
import Verif.Props.FloatBetween

set_option autoImplicit false

/-!
# Deviations in float64: C96

Standard deviation, Bollinger bands and relative volatility index in rounded arithmetic, with pandas' recursion for the rolling
variance.
-/

namespace TTI.Props

open Spec Flt Ind

variable {R : Rounding} {A : Arith} {E : Env} {c : Call} {f : RawFrame} {fill : Bool} {o : Obj}

/-- C96: the standard deviation is missing on the first `n - 1` days and never negative afterwards, whatever has been rounded
before. -/
theorem C96_deviation (hA : A.fl = R.fl) (hF : Fair R) (hs : ∀ x, 0 ≤ x → 0 ≤ E.sq x) (hB : FloatBuilt A E c f fill o AnyPrices) (n : ℕ)
    (ho : o.ind = .standardDeviation n) (i : ℕ) (hi : i < f.idx.length) :
    if i + 1 < n then o.getTiData.day "sd" i = .nan else ∃ q, o.getTiData.day "sd" i = .fin q ∧ 0 ≤ q := by
  obtain ⟨F, hl, hn, ht, hp, -⟩ := hB.on ho (by simp [Ind.required])
  have hv : Nums F.len 0 (close f) (F.col "close") := hn _ (by simp [Ind.required])
  have hp : 1 ≤ n := hp
  rw [guard_ok ht]
  show if _ then val (A.roundS 4 (A.rollStd E.sq n n (F.col "close"))) i = _ else
    ∃ q, val (A.roundS 4 (A.rollStd E.sq n n (F.col "close"))) i = _ ∧ _
  rw [val_fround]
  split_ifs with h
  · rw [hv.std_missing A E.sq n hp i (by omega) h]; rfl
  · obtain ⟨q, e⟩ := hv.std_number A E.sq n hp i (by omega) (by omega)
    have hg : Gain R (val (A.rollStd E.sq n n (F.col "close")) i) := by
      rw [val_rollStd A E.sq n n _ i (by rw [hv.len]; omega)]
      exact gain_zsqrt hA hF E.sq hs n _
    have hr := gain_round hA hF hg
    rw [e] at hr ⊢
    rcases hr with hr | ⟨r, hr, h0, -⟩
    · simp [Arith.round] at hr
    · exact ⟨r, hr, h0⟩

/-- C96: with a finite number of deviations the middle band lies between the lower and the upper one, as long as its reported
value `m` is not very large (for float64: below 90000000000). -/
theorem C96_bands (hA : A.fl = R.fl) (hF : Fair R) (hs : ∀ x, 0 ≤ x → 0 ≤ E.sq x) (hB : FloatBuilt A E c f fill o AnyPrices) (n : ℕ)
    (s : ℚ) (ho : o.ind = .bollingerBands n (.fin s)) (i : ℕ) (hi : i < f.idx.length) (hn : n ≤ i + 1) :
    ∃ l m u, o.getTiData.day "lower_band" i = .fin l ∧ o.getTiData.day "middle_band" i = .fin m ∧
      o.getTiData.day "upper_band" i = .fin u ∧ (10 ^ 5 * R.unit * |m| ≤ 1 → l ≤ m ∧ m ≤ u) := by
  obtain ⟨F, hl, hnum, ht, hp, -⟩ := hB.on ho (by simp [Ind.required])
  have hv : Nums F.len 0 (close f) (F.col "close") := hnum _ (by simp [Ind.required])
  have hs0 : 0 < s := by
    have h2 := hp.2
    rw [show (0 : Val) = .fin 0 from rfl] at h2
    simpa [Val.lt] using h2
  have hp : 1 ≤ n := hp.1
  rw [guard_ok ht]
  show ∃ l m u, val (A.roundS 4 (A.subS (A.roundS 4 (A.rollMean n n (F.col "close")))
      ((A.rollStd E.sq n n (F.col "close")).map fun x => A.mul x (.fin s)))) i = _ ∧
    val (A.roundS 4 (A.rollMean n n (F.col "close"))) i = _ ∧
    val (A.roundS 4 (A.addS (A.roundS 4 (A.rollMean n n (F.col "close")))
      ((A.rollStd E.sq n n (F.col "close")).map fun x => A.mul x (.fin s)))) i = _ ∧ _
  rw [val_fround, val_fround, val_fround, val_fsub, val_fadd, val_fround, val_map _ (by simp [Arith.mul, Arith.rd])]
  obtain ⟨q, hq⟩ := hv.mean_number A n hp i (by omega) hn
  obtain ⟨d, hd⟩ := hv.std_number A E.sq n hp i (by omega) hn
  have hd0 : 0 ≤ d := by
    have hg : Gain R (val (A.rollStd E.sq n n (F.col "close")) i) := by
      rw [val_rollStd A E.sq n n _ i (by rw [hv.len]; omega)]
      exact gain_zsqrt hA hF E.sq hs n _
    rw [hd] at hg
    rcases hg with hg | ⟨r, hg, h0, -⟩
    · simp at hg
    · rw [Val.fin.inj hg]; exact h0
  rw [hq, hd, fl_mul]
  have hm : A.round 4 (.fin q) = .fin (A.fl (rint (A.fl (q * 10 ^ 4)) / 10 ^ 4)) := round4_fin A q
  generalize hM : A.fl (rint (A.fl (q * 10 ^ 4)) / 10 ^ 4) = m at hm
  have hmm : R.fl m = m := by rw [← hM, hA, R.again]
  rw [hm, fl_sub, fl_add]
  refine ⟨_, m, _, round4_fin A _, rfl, round4_fin A _, fun hsmall => ?_⟩
  have hagain := round4_again hA hF hm hsmall
  have hD : 0 ≤ A.fl (d * s) := by rw [hA]; exact hF.pos (mul_nonneg hd0 hs0.le)
  constructor
  · refine round4_mono hA ?_ (round4_fin A _) hagain
    rw [hA]
    have := R.mono (m - R.fl (d * s)) m (by rw [← hA]; linarith)
    rwa [hmm] at this
  · refine round4_mono hA ?_ hagain (round4_fin A _)
    rw [hA]
    have := R.mono m (m + R.fl (d * s)) (by rw [← hA]; linarith)
    rwa [hmm] at this

/-- C96: on days on which the close has not changed for the whole period the deviation is exactly 0, whatever happened before. -/
theorem C96_flat_deviation (h0 : A.fl 0 = 0) (hE : E.sq 0 = 0) (hB : FloatBuilt A E c f fill o AnyPrices) (n : ℕ)
    (ho : o.ind = .standardDeviation n) (i : ℕ) (hi : i < f.idx.length) (hst : Still n (close f) i) :
    o.getTiData.day "sd" i = .fin 0 := by
  obtain ⟨F, hl, hn, ht, hp, -⟩ := hB.on ho (by simp [Ind.required])
  have hv : Nums F.len 0 (close f) (F.col "close") := hn _ (by simp [Ind.required])
  have hp : 1 ≤ n := hp
  rw [guard_ok ht]
  show val (A.roundS 4 (A.rollStd E.sq n n (F.col "close"))) i = _
  rw [val_fround, hv.flat_std A E.sq (by rw [hE, h0]) n hp i (by omega) hst, round_zero A h0]

/-- C96: on such days the three Bollinger bands are the same number: the close, rounded to four decimals. -/
theorem C96_flat_bands (hA : A.fl = R.fl) (hF : Fair R) (hE : E.sq 0 = 0) (hB : FloatBuilt A E c f fill o AnyPrices) (n : ℕ) (s : ℚ)
    (ho : o.ind = .bollingerBands n (.fin s)) (i : ℕ) (hi : i < f.idx.length) (hst : Still n (close f) i)
    (hsmall : 10 ^ 5 * R.unit * (|close f i| + 1) ≤ 1) :
    o.getTiData.day "middle_band" i = A.round 4 (.fin (close f i)) ∧ o.getTiData.day "upper_band" i = A.round 4 (.fin (close f i)) ∧
      o.getTiData.day "lower_band" i = A.round 4 (.fin (close f i)) := by
  obtain ⟨F, hl, hnum, ht, hp, -⟩ := hB.on ho (by simp [Ind.required])
  have hv : Nums F.len 0 (close f) (F.col "close") := hnum _ (by simp [Ind.required])
  have hp : 1 ≤ n := hp.1
  have h0 : A.fl 0 = 0 := by rw [hA]; exact hF.zero
  rw [guard_ok ht]
  show val (A.roundS 4 (A.rollMean n n (F.col "close"))) i = _ ∧
    val (A.roundS 4 (A.addS (A.roundS 4 (A.rollMean n n (F.col "close")))
      ((A.rollStd E.sq n n (F.col "close")).map fun x => A.mul x (.fin s)))) i = _ ∧
    val (A.roundS 4 (A.subS (A.roundS 4 (A.rollMean n n (F.col "close")))
      ((A.rollStd E.sq n n (F.col "close")).map fun x => A.mul x (.fin s)))) i = _
  rw [val_fround, val_fround, val_fround, val_fsub, val_fadd, val_fround, val_map _ (by simp [Arith.mul, Arith.rd]),
    hv.flat_std A E.sq (by rw [hE, h0]) n hp i (by omega) hst, hv.flat_mean A n hp i (by omega) hst (by have := hst.1; omega)]
  have hm : A.round 4 (.fin (close f i)) = .fin (A.fl (rint (A.fl (close f i * 10 ^ 4)) / 10 ^ 4)) := round4_fin A _
  generalize hM : A.fl (rint (A.fl (close f i * 10 ^ 4)) / 10 ^ 4) = m at hm
  have hmm : R.fl m = m := by rw [← hM, hA, R.again]
  have hsm : 10 ^ 5 * R.unit * |m| ≤ 1 := flat_small hA hF (by rw [← hM]) hsmall
  rw [fl_mul, zero_mul, h0, hm, fl_add, fl_sub, add_zero, sub_zero, hA, hmm]
  exact ⟨rfl, round4_again hA hF hm hsm, round4_again hA hF hm hsm⟩

/-- C96: the relative volatility index lies between 0 and 100. -/
theorem C96_volatility (hA : Rounded R A) (hF : Fair R) (hs : ∀ x, 0 ≤ x → 0 ≤ E.sq x)
    (h : (Flt.construct A E c (.frame f) (.bool fill)).2 = .ok o) (n : ℕ) (ho : o.ind = .relativeVolatilityIndex n) (i : ℕ) :
    InRange 0 100 (o.getTiData.day "rvi" i) := by
  obtain ⟨ind, F, T, hc, hv, ht, rfl⟩ := (Flt.construct_ok_iff _ _ _ _ _ _).1 h
  have hp := check_pos _ _ hc
  simp only at ho
  subst ho
  have hp : 1 ≤ n := hp
  rw [show T = _ from guard_ok ht]
  show InRange 0 100 (val (A.roundS 4 ((A.addS (volatilityHalf A E.sq n (F.col "high"))
      (volatilityHalf A E.sq n (F.col "low"))).map fun x => A.div x (.fin 2))) i)
  rw [val_fround, val_map _ (by simp [Arith.div, Arith.rd]), val_fadd]
  have := round_range hA.fl hF 0 100 (by norm_num) (by norm_num)
    (halves_range hA.fl hF (half_range hA hF E.sq hs n hp (F.col "high") i) (half_range hA hF E.sq hs n hp (F.col "low") i))
  simpa using this

/-! ## What has left the window -/

/-- Newton's iteration for the whole square root, from above. -/
def wholeRoot : ℕ → ℕ → ℕ → ℕ
  | 0, _, x => x
  | fuel + 1, n, x => let y := (x + n / x) / 2; if y < x then wholeRoot fuel n y else x

/-- The square root, cut off after 20 decimals. -/
def decimalRoot (q : ℚ) : ℚ :=
  let n := (q * 10 ^ 40).floor.toNat
  (wholeRoot 300 n (n + 1) : ℚ) / 10 ^ 20

def rootEnv : Env := ⟨decimalRoot, fun _ => []⟩

/-- Prices around 13, one of which has been mistaken for 72 million. -/
def mistaken : RawFrame := ⟨true, [0, 1, 2, 3, 4, 5, 6, 7],
  [⟨.str "close", true, [.fin (51/4), .fin (103/8), .fin 72000000, .fin (25/2), .fin (27/2), .fin (101/8), .fin (109/8), .fin (101/8)]⟩]⟩

/-- The same with a price of a billion. -/
def mistakenMore : RawFrame := ⟨true, [0, 1, 2, 3, 4, 5, 6, 7],
  [⟨.str "close", true, [.fin (25/2), .fin (49/4), .fin 1000000000, .fin (25/2), .fin (49/4), .fin (25/2), .fin (51/4), .fin (25/2)]⟩]⟩

/-- C96: the deviation over three days depends on prices that have left the window: three days after the wrong price, the
deviation of 12.625, 13.625 and 12.625 is reported as 0 instead of 0.4714. -/
theorem C96_zero_witness :
    (∃ o, FloatBuilt doubleArith rootEnv (.standardDeviation (.int 3)) mistaken true o AnyPrices ∧ o.ind = .standardDeviation 3 ∧
      o.getTiData.day "sd" 7 = .fin 0) ∧
    ((TTI.construct rootEnv (.standardDeviation (.int 3)) (.frame mistaken) (.bool true)).2.map fun o => o.getTiData.day "sd" 7) =
      .ok (.fin (4714 / 10000)) :=
  ⟨float_built (A := doubleArith) (E := rootEnv) (c := .standardDeviation (.int 3)) (f := mistaken) (fill := true)
    (ind := .standardDeviation 3) "sd" 7 (.fin 0) (by decide +kernel) (by decide +kernel) (by decide +kernel), by decide +kernel⟩

/-- C96: it can also be too large: 6.5322 instead of 0.1179. -/
theorem C96_large_witness :
    (∃ o, FloatBuilt doubleArith rootEnv (.standardDeviation (.int 3)) mistakenMore true o AnyPrices ∧ o.ind = .standardDeviation 3 ∧
      o.getTiData.day "sd" 7 = .fin (toDouble (65322 / 10000))) ∧
    ((TTI.construct rootEnv (.standardDeviation (.int 3)) (.frame mistakenMore) (.bool true)).2.map fun o => o.getTiData.day "sd" 7) =
      .ok (.fin (1179 / 10000)) :=
  ⟨float_built (A := doubleArith) (E := rootEnv) (c := .standardDeviation (.int 3)) (f := mistakenMore) (fill := true)
    (ind := .standardDeviation 3) "sd" 7 _ (by decide +kernel) (by decide +kernel) (by decide +kernel), by decide +kernel⟩

/-- C96: so the Bollinger bands collapse and give a signal to buy that exact arithmetic does not give. -/
theorem C96_signal_witness :
    ((Flt.construct doubleArith rootEnv (.bollingerBands (.int 3) (.int 2)) (.frame mistaken) (.bool true)).2.map fun o =>
      (o.getTiSignal, decide (o.getTiData.day "upper_band" 7 = o.getTiData.day "lower_band" 7))) = .ok (.ok .buy, true) ∧
    ((TTI.construct rootEnv (.bollingerBands (.int 3) (.int 2)) (.frame mistaken) (.bool true)).2.map fun o =>
      o.getTiSignal) = .ok (.ok .hold) := by
  decide +kernel

/-- Four equal prices after the wrong one. -/
def afterwards : RawFrame := ⟨true, [0, 1, 2, 3, 4, 5],
  [⟨.str "close", true, [.fin (51/4), .fin 72000000, .fin (25/2), .fin (25/2), .fin (25/2), .fin (25/2)]⟩]⟩

/-- The hypotheses of `C96_deviation` and `C96_flat_deviation`. -/
example : (doubleArith.fl = double.fl ∧ Fair double ∧ (∀ x, 0 ≤ x → 0 ≤ rootEnv.sq x) ∧ doubleArith.fl 0 = 0 ∧ rootEnv.sq 0 = 0) ∧
    Still 3 (close afterwards) 4 ∧
    ∃ o, FloatBuilt doubleArith rootEnv (.standardDeviation (.int 3)) afterwards true o AnyPrices ∧ o.ind = .standardDeviation 3 ∧
      o.getTiData.day "sd" 4 = .fin 0 :=
  ⟨⟨rfl, fair_double, fun x _ => by show 0 ≤ decimalRoot x; unfold decimalRoot; positivity, fair_double.zero, by decide +kernel⟩,
    ⟨by norm_num, by decide +kernel⟩,
    float_built (A := doubleArith) (E := rootEnv) (c := .standardDeviation (.int 3)) (f := afterwards) (fill := true)
      (ind := .standardDeviation 3) "sd" 4 (.fin 0) (by decide +kernel) (by decide +kernel) (by decide +kernel)⟩

/-- The hypotheses of `C96_bands` and `C96_flat_bands`: on the day before the bands are more than 100 million apart,
on this day both are 12.5. -/
example : 10 ^ 5 * double.unit * (|close afterwards 4| + 1) ≤ 1 ∧ Still 3 (close afterwards) 4 ∧
    ∃ o, FloatBuilt doubleArith rootEnv (.bollingerBands (.int 3) (.int 2)) afterwards true o AnyPrices ∧
      o.ind = .bollingerBands 3 (.fin 2) ∧ o.getTiData.day "lower_band" 4 = .fin (25 / 2) :=
  ⟨by decide +kernel, ⟨by norm_num, by decide +kernel⟩,
    float_built (A := doubleArith) (E := rootEnv) (c := .bollingerBands (.int 3) (.int 2)) (f := afterwards) (fill := true)
      (ind := .bollingerBands 3 (.fin 2)) "lower_band" 4 _ (by decide +kernel) (by decide +kernel) (by decide +kernel)⟩

/-- The hypotheses of `C96_volatility`. -/
example : Rounded double doubleArith ∧
    ((Flt.construct doubleArith rootEnv (.relativeVolatilityIndex (.int 2))
      (.frame ⟨true, (List.range 13).map Int.ofNat, [⟨.str "high", true, [3, 4, 6, 5, 7, 9, 8, 11, 10, 9, 12, 13, 11]⟩,
        ⟨.str "low", true, [1, 3, 2, 4, 3, 6, 5, 7, 9, 8, 9, 10, 9]⟩]⟩) (.bool true)).2.map fun o => o.getTiData.day "rvi" 12) =
      .ok (.fin (toDouble (391989 / 10000))) :=
  ⟨C85_double.1, by decide +kernel⟩

end TTI.Props
