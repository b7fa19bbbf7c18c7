import Verif.Props.Sample
import Verif.Lemmas.Col4

set_option autoImplicit false

/-!
# Oscillators built on ranges: C58
-/

namespace TTI.Props

open Spec

variable {E : Env} {c : Call} {f : RawFrame} {fill : Bool} {o : Obj}

/-- C58: the ultimate oscillator weighs the pressure ratios of 7, 14 and 28 days by 4, 2 and 1. -/
theorem C58_ultimate (hB : BuiltOn E c f fill o AnyPrices) (ho : o.ind = .ultimateOscillator) (i : ℕ) (hi : i < f.idx.length)
    (h0 : ∀ w ∈ [7, 14, 28], sumLast w (span f) i ≠ 0) :
    o.getTiData.day "uosc" i =
      since 28 i (to4 (100 * (4 * pressureRatio f 7 i + 2 * pressureRatio f 14 i + pressureRatio f 28 i) / 7)) := by
  obtain ⟨F, hl, hn, -, ht, hp, -⟩ := hB.on ho
  have hcl : Nums F.len 0 (close f) (F.col "close") := hn _ (by simp [Ind.required])
  have hh : Nums F.len 0 (high f) (F.col "high") := hn _ (by simp [Ind.required])
  have hlo : Nums F.len 0 (low f) (F.col "low") := hn _ (by simp [Ind.required])
  rw [guard_ok ht]
  have hth : Nums F.len 1 (trueHigh f) (zipV maxNan (F.col "high") (shift 1 (F.col "close"))) :=
    hh.op (hcl.shift 1) maxNan max (by simp [maxNan, Val.isNan]) (by intro x; cases x <;> rfl) maxNan_fin
  have htl : Nums F.len 1 (trueLow f) (zipV minNan (F.col "low") (shift 1 (F.col "close"))) :=
    hlo.op (hcl.shift 1) minNan min (by simp [minNan, Val.isNan]) (by intro x; cases x <;> rfl) minNan_fin
  have hr := hth.sub htl
  have hu := hcl.sub htl
  have hq (w : ℕ) (hw : 1 ≤ w) : Col F.len w (fun i => quotient (sumLast w (pressure f) i) (sumLast w (span f) i))
      (Ind.UltimateOscillator.ratio w (subS (F.col "close") (zipV minNan (F.col "low") (shift 1 (F.col "close"))))
        (subS (zipV maxNan (F.col "high") (shift 1 (F.col "close"))) (zipV minNan (F.col "low") (shift 1 (F.col "close"))))) :=
    ((hu.rollSum w hw).quot (hr.rollSum w hw)).congr (by omega) fun _ _ _ => rfl
  refine (((((((hq 7 (by norm_num)).scale 4).add ((hq 14 (by norm_num)).scale 2)).add (hq 28 (by norm_num))).scale 100).mapV
    (fun x => Val.div x 7) rfl).round 4).eq (hl ▸ hi) rfl fun _ => ?_
  simp only [quotient_ne _ _ (h0 7 (by simp)), quotient_ne _ _ (h0 14 (by simp)), quotient_ne _ _ (h0 28 (by simp)), Val.fin_mul,
    Val.fin_add]
  show Val.round 4 (Val.div _ (.fin 7)) = _
  rw [Val.fin_div _ _ (by norm_num)]; rfl

/-- The hypotheses of `C58_ultimate` on the sample. -/
example : (∃ o, BuiltOn demoEnv (.ultimateOscillator) (sample 30) true o AnyPrices ∧ o.ind = .ultimateOscillator ∧
    o.getTiData.day "uosc" 28 = .fin (247847 / 5000)) ∧
    (∀ w ∈ [7, 14, 28], sumLast w (span (sample 30)) 28 ≠ 0) :=
  ⟨sample_any 30 "uosc" 28 _ (by decide +kernel) (by decide), by decide +kernel⟩

/-- C58: the commodity channel index is the distance of the typical price from its mean of `n` days, in units of 0.015 times the
mean distance of the last `n` typical prices from today's mean. -/
theorem C58_commodity_channel (hB : BuiltOn E c f fill o AnyPrices) (n : ℕ) (ho : o.ind = .commodityChannelIndex n) (i : ℕ)
    (hi : i < f.idx.length) :
    o.getTiData.day "cci" i = since (n - 1) i (round4 (quotient (typical f i - meanLast n (typical f) i)
      (15 / 1000 * meanLast n (fun j => |meanLast n (typical f) i - typical f j|) i))) := by
  obtain ⟨F, hl, hn, ht, hp, hF⟩ := hB.onRows ho (by simp [Ind.required])
  replace hp : 1 ≤ n := hp
  rw [guard_ok ht]
  have htp : Nums F.len 0 (typical f) (F.rows.map fun r => Val.div (sumSkip r) 3) :=
    Nums.rows3 hF (hn _ (by simp [Ind.required])) (hn _ (by simp [Ind.required])) (hn _ (by simp [Ind.required])) _ (typical f)
      fun i => by
        rw [Nums.sumSkip3]
        show Val.div _ (.fin 3) = _
        rw [Val.fin_div _ _ (by norm_num)]; rfl
  generalize (F.rows.map fun r => Val.div (sumSkip r) 3) = tp at htp ⊢
  have hs := htp.rollMean n hp
  have hd := (Nums.differences htp n hp (hs.congr (by omega) fun _ _ _ => rfl)).mapV (fun x => Val.div (Val.mul (.fin (15 / 1000)) x) (.fin (n : ℚ)))
    (fun q => 15 / 1000 * q / n) rfl fun a => by rw [Val.fin_mul, Val.fin_div _ _ (by positivity)]
  exact (((htp.sub hs).quot hd).round 4).eq (hl ▸ hi) (by omega) fun _ => by
    simp only [meanLast, mul_div_assoc]

/-- The hypotheses of `C58_commodity_channel` on the sample. -/
example : ∃ o, BuiltOn demoEnv (.commodityChannelIndex (.int 3)) (sample 6) true o AnyPrices ∧ o.ind = .commodityChannelIndex 3 ∧
    o.getTiData.day "cci" 4 = .fin (34483 / 10000) :=
  sample_any 6 "cci" 4 _ (by decide +kernel) (by decide)

/-- C58: the mass index is the total over 25 days of the ratio of the averaged range to its own average. -/
theorem C58_mass_index (hB : BuiltOn E c f fill o AnyPrices) (ho : o.ind = .massIndex) (i : ℕ) (hi : i < f.idx.length)
    (h0 : ∀ j ≤ i, i < j + 25 → 16 ≤ j → rangeAverage2 f j ≠ 0) :
    o.getTiData.day "mi" i = since 40 i (to4 (sumLast 25 (fun j => rangeAverage f j / rangeAverage2 f j) i)) := by
  obtain ⟨F, hl, hn, -, ht, hp, -⟩ := hB.on ho
  have hh : Nums F.len 0 (high f) (F.col "high") := hn _ (by simp [Ind.required])
  have hlo : Nums F.len 0 (low f) (F.col "low") := hn _ (by simp [Ind.required])
  rw [guard_ok ht]
  have h1 : Nums F.len 8 (rangeAverage f) _ := (hh.sub hlo).ewm 9 9 (by norm_num)
  have h2 : Nums F.len 16 (rangeAverage2 f) _ := h1.ewm 9 9 (by norm_num)
  have h3 := (h1.quot h2).sumLocal (g := fun j => rangeAverage f j / rangeAverage2 f j) 25 (by norm_num) (hl ▸ hi)
    fun j h4 h5 h6 => quotient_ne _ _ (h0 j h4 h5 h6)
  show val (roundS 4 _) i = _
  rw [val_roundS, h3, round_since]; rfl

/-- The hypotheses of `C58_mass_index` on the sample. -/
example : (∃ o, BuiltOn demoEnv (.massIndex) (sample 42) true o AnyPrices ∧ o.ind = .massIndex ∧
    o.getTiData.day "mi" 41 = .fin (62573 / 2500)) ∧
    (∀ j ≤ 41, 41 < j + 25 → 16 ≤ j → rangeAverage2 (sample 42) j ≠ 0) :=
  ⟨sample_any 42 "mi" 41 _ (by decide +kernel) (by decide), by decide +kernel⟩

/-- C58: Chaikin's volatility is the change of the averaged range over `m` days in percent. -/
theorem C58_chaikin_volatility (hB : BuiltOn E c f fill o AnyPrices) (n m : ℕ) (ho : o.ind = .volatilityChaikins n m) (i : ℕ)
    (hi : i < f.idx.length) :
    o.getTiData.day "vch" i = since (n - 1 + m) i (round4 (quotient
      (100 * (ema n 0 (dayRange f) i - ema n 0 (dayRange f) (i - m))) (ema n 0 (dayRange f) (i - m)))) := by
  obtain ⟨F, hl, hn, -, ht, hp, -⟩ := hB.on ho
  have hh : Nums F.len 0 (high f) (F.col "high") := hn _ (by simp [Ind.required])
  have hlo : Nums F.len 0 (low f) (F.col "low") := hn _ (by simp [Ind.required])
  obtain ⟨hp, -⟩ : 1 ≤ n ∧ _ := hp
  rw [guard_ok ht]
  have h1 : Nums F.len (0 + n - 1) (ema n 0 (dayRange f)) _ := (hh.sub hlo).ewm n n hp
  have h2 := h1.shift m
  exact ((((h1.sub h2).quot h2).scale 100).round 4).eq (hl ▸ hi) (by omega) fun _ => by
    simp only [mul_quotient _ _ _ (show (100 : ℚ) ≠ 0 by norm_num)]

/-- The hypotheses of `C58_chaikin_volatility` on the sample. -/
example : ∃ o, BuiltOn demoEnv (.volatilityChaikins (.int 3) (.int 2)) (sample 8) true o AnyPrices ∧ o.ind = .volatilityChaikins 3 2 ∧
    o.getTiData.day "vch" 6 = .fin (299 / 10000) :=
  sample_any 8 "vch" 6 _ (by decide +kernel) (by decide)

/-- C58: the range indicator is the exponential average of the place of the range per rise within its last `n` values. -/
theorem C58_range_indicator (hB : BuiltOn E c f fill o AnyPrices) (n m : ℕ) (ho : o.ind = .rangeIndicator n m) (i : ℕ)
    (hi : i < f.idx.length) :
    o.getTiData.day "ri" i = since (n + m - 1) i (to4 (ema m n (rangePlace f n) i)) := by
  obtain ⟨F, hl, hn, -, ht, hp, -⟩ := hB.on ho
  have hcl : Nums F.len 0 (close f) (F.col "close") := hn _ (by simp [Ind.required])
  have hh : Nums F.len 0 (high f) (F.col "high") := hn _ (by simp [Ind.required])
  have hlo : Nums F.len 0 (low f) (F.col "low") := hn _ (by simp [Ind.required])
  obtain ⟨hp, hq⟩ : 1 ≤ n ∧ 1 ≤ m := hp
  rw [guard_ok ht]
  have ht := Nums.seeText hh hlo hcl
  generalize maskBefore 1 _ = text at ht ⊢
  have h1 := Nums.rangePlaceCol ht n hp
  exact (h1.ewm m m hq).eq4 (hl ▸ hi) (by omega) fun _ => rfl

/-- The hypotheses of `C58_range_indicator` on the sample. -/
example : ∃ o, BuiltOn demoEnv (.rangeIndicator (.int 3) (.int 2)) (sample 8) true o AnyPrices ∧ o.ind = .rangeIndicator 3 2 ∧
    o.getTiData.day "ri" 6 = .fin (287533 / 10000) :=
  sample_any 8 "ri" 6 _ (by decide +kernel) (by decide)

/-- C58: Wilder's swing index; on a day without any range it is missing. -/
theorem C58_swing_index (hB : BuiltOn E c f fill o AnyPrices) (ho : o.ind = .swingIndex) (i : ℕ) (hi : i < f.idx.length) :
    o.getTiData.day "swi" i = since 1 i (if swingRange f i = 0 then .nan
      else to4 (within100 (50 * (swingMove f i / swingRange f i) * (swingReach f i / 3)))) := by
  obtain ⟨F, hl, hn, -, ht, hp, -⟩ := hB.on ho
  have hcl : Nums F.len 0 (close f) (F.col "close") := hn _ (by simp [Ind.required])
  have hh : Nums F.len 0 (high f) (F.col "high") := hn _ (by simp [Ind.required])
  have hlo : Nums F.len 0 (low f) (F.col "low") := hn _ (by simp [Ind.required])
  have hop : Nums F.len 0 (opening f) (F.col "open") := hn _ (by simp [Ind.required])
  rw [← Except.ok.inj ht]
  have hyc := hcl.shift 1
  have hyo := hop.shift 1
  have ha := (hh.sub hyc).abs
  have hb := (hlo.sub hyc).abs
  have hnum : Nums F.len 1 (swingMove f) _ :=
    ((((hcl.sub hyc).add ((hcl.sub hop).scale (1 / 2))).add ((hyc.sub hyo).scale (1 / 4))).congr (by omega) fun i _ _ => by
      unfold swingMove; ring)
  have hk : Nums F.len 1 (swingReach f) _ := Nums.maxBoth ha hb
  have hr : Nums F.len 1 (swingRange f) _ := ((Nums.max3 ha hb (hh.sub hlo)).add ((hyc.sub hyo).abs.scale (1 / 4))).congr
    (by omega) fun i _ h => by
      rw [if_neg (by omega)]; unfold swingRange swingReach; ring
  have hq := ((((hnum.quot hr).scale 50).op (hk.divConst 3 (by norm_num)).col Val.mul Val.nan_mul Val.mul_nan).mapV
    Ind.SwingIndex.clip rfl).round 4
  refine hq.eq (hl ▸ hi) (by omega) fun h1 => ?_
  split
  · next h0 =>
    have hK : swingReach f i = 0 := by
      have h2 : 0 ≤ swingReach f i := (abs_nonneg _).trans (le_max_left _ _)
      have h3 := le_max_left (swingReach f i) (high f i - low f i)
      have h4 := abs_nonneg (close f (i - 1) - opening f (i - 1))
      unfold swingRange at h0
      linarith
    simp only [h0, hK, quotient, zero_div, ne_eq, not_true, if_false]
    split
    · rfl
    · split <;> rfl
  · next h0 =>
    simp only [quotient_ne _ _ h0, Val.fin_mul, clip_fin]; rfl

/-- The hypotheses of `C58_swing_index` on the sample. -/
example : ∃ o, BuiltOn demoEnv (.swingIndex) (sample 6) true o AnyPrices ∧ o.ind = .swingIndex ∧
    o.getTiData.day "swi" 4 = .fin (-16369 / 1250) :=
  sample_any 6 "swi" 4 _ (by decide +kernel) (by decide)

end TTI.Props
