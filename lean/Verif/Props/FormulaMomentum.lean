import Verif.Props.Sample
import Verif.Props.Constant

set_option autoImplicit false

/-!
# Momentum, rates of change and differences of averages: C53
-/

namespace TTI.Props

open Spec

variable {E : Env} {c : Call} {f : RawFrame} {fill : Bool} {o : Obj}

/-- C53: momentum is the close as a percentage of the close `n` days before. -/
theorem C53_momentum (hB : BuiltOn E c f fill o AnyPrices) (n : ℕ) (ho : o.ind = .momentum n) (i : ℕ) (hi : i < f.idx.length) :
    o.getTiData.day "mom" i = since n i (round4 (quotient (100 * close f i) (close f (i - n)))) := by
  obtain ⟨F, hl, hn, -, ht, hp, -⟩ := hB.on ho
  have hcl : Nums F.len 0 (close f) (F.col "close") := hn _ (by simp [Ind.required])
  rw [guard_ok ht]
  exact ((((hcl.scale 100).quot (hcl.shift n)).mask n).round 4).eq (hl ▸ hi) (by omega) fun _ => rfl

/-- The hypotheses of `C53_momentum` on the sample. -/
example : ∃ o, BuiltOn demoEnv (.momentum (.int 2)) (sample 6) true o AnyPrices ∧ o.ind = .momentum 2 ∧
    o.getTiData.day "mom" 4 = .fin (264151 / 2500) :=
  sample_any 6 "mom" 4 _ (by decide +kernel) (by decide)

/-- C53: the price rate of change is the change of the close over `n` days, in percent of the earlier close. -/
theorem C53_price_rate_of_change (hB : BuiltOn E c f fill o AnyPrices) (n : ℕ) (ho : o.ind = .priceRateOfChange n) (i : ℕ)
    (hi : i < f.idx.length) :
    o.getTiData.day "prc" i = since n i (round4 (quotient (100 * (close f i - close f (i - n))) (close f (i - n)))) := by
  obtain ⟨F, hl, hn, -, ht, hp, -⟩ := hB.on ho
  have hcl : Nums F.len 0 (close f) (F.col "close") := hn _ (by simp [Ind.required])
  rw [guard_ok ht]
  exact ((((hcl.sub (hcl.shift n)).scale 100).quot (hcl.shift n)).round 4).eq (hl ▸ hi) (by omega) fun _ => rfl

/-- The hypotheses of `C53_price_rate_of_change` on the sample. -/
example : ∃ o, BuiltOn demoEnv (.priceRateOfChange (.int 2)) (sample 6) true o AnyPrices ∧ o.ind = .priceRateOfChange 2 ∧
    o.getTiData.day "prc" 4 = .fin (14151 / 2500) :=
  sample_any 6 "prc" 4 _ (by decide +kernel) (by decide)

/-- C53: the volume rate of change, likewise. -/
theorem C53_volume_rate_of_change (hB : BuiltOn E c f fill o AnyPrices) (n : ℕ) (ho : o.ind = .volumeRateOfChange n) (i : ℕ)
    (hi : i < f.idx.length) :
    o.getTiData.day "vrc" i = since n i (round4 (quotient (100 * (volume f i - volume f (i - n))) (volume f (i - n)))) := by
  obtain ⟨F, hl, hn, -, ht, hp, -⟩ := hB.on ho
  have hv : Nums F.len 0 (volume f) (F.col "volume") := hn _ (by simp [Ind.required])
  rw [guard_ok ht]
  exact ((((hv.sub (hv.shift n)).quot (hv.shift n)).scale 100).round 4).eq (hl ▸ hi) (by omega) fun _ => by
    simp only [mul_quotient 100 _ _ (by norm_num)]

/-- The hypotheses of `C53_volume_rate_of_change` on the sample. -/
example : ∃ o, BuiltOn demoEnv (.volumeRateOfChange (.int 2)) (sample 6) true o AnyPrices ∧ o.ind = .volumeRateOfChange 2 ∧
    o.getTiData.day "vrc" 4 = .fin (-133333 / 10000) :=
  sample_any 6 "vrc" 4 _ (by decide +kernel) (by decide)

/-- C53: the price oscillator is the difference of the short and the long mean of the close, in percent of the long one. -/
theorem C53_price_oscillator (hB : BuiltOn E c f fill o AnyPrices) (long short : ℕ) (ho : o.ind = .priceOscillator long short)
    (i : ℕ) (hi : i < f.idx.length) :
    o.getTiData.day "posc" i = since (long - 1) i (round4 (quotient
      (100 * (meanLast short (close f) i - meanLast long (close f) i)) (meanLast long (close f) i))) := by
  obtain ⟨F, hl, hn, -, ht, hp, -⟩ := hB.on ho
  have hcl : Nums F.len 0 (close f) (F.col "close") := hn _ (by simp [Ind.required])
  obtain ⟨h1, h2⟩ : 1 ≤ short ∧ short < long := hp
  rw [guard_ok ht]
  exact (((((hcl.rollMean short h1).sub (hcl.rollMean long (by omega))).scale 100).quot (hcl.rollMean long (by omega))).round 4).eq
    (hl ▸ hi) (by omega) fun _ => rfl

/-- The hypotheses of `C53_price_oscillator` on the sample. -/
example : ∃ o, BuiltOn demoEnv (.priceOscillator (.int 4) (.int 2)) (sample 6) true o AnyPrices ∧ o.ind = .priceOscillator 4 2 ∧
    o.getTiData.day "posc" 5 = .fin (-1414 / 625) :=
  sample_any 6 "posc" 5 _ (by decide +kernel) (by decide)

/-- C53: the volume oscillator is the difference of the short and the long mean of the volume. -/
theorem C53_volume_oscillator (hB : BuiltOn E c f fill o AnyPrices) (long short : ℕ) (ho : o.ind = .volumeOscillator long short)
    (i : ℕ) (hi : i < f.idx.length) :
    o.getTiData.day "vosc" i = since (long - 1) i (to4 (meanLast short (volume f) i - meanLast long (volume f) i)) := by
  obtain ⟨F, hl, hn, -, ht, hp, -⟩ := hB.on ho
  have hv : Nums F.len 0 (volume f) (F.col "volume") := hn _ (by simp [Ind.required])
  obtain ⟨h1, h2⟩ : 1 ≤ short ∧ short < long := hp
  rw [guard_ok ht]
  exact ((hv.rollMean short h1).sub (hv.rollMean long (by omega))).eq4 (hl ▸ hi) (by omega) fun _ => rfl

/-- The hypotheses of `C53_volume_oscillator` on the sample. -/
example : ∃ o, BuiltOn demoEnv (.volumeOscillator (.int 4) (.int 2)) (sample 6) true o AnyPrices ∧ o.ind = .volumeOscillator 4 2 ∧
    o.getTiData.day "vosc" 5 = .fin (-100) :=
  sample_any 6 "vosc" 5 _ (by decide +kernel) (by decide)

/-- C53: MACD is the difference of the 12-day and the 26-day exponential average of the close, its signal line the 9-day
exponential average of MACD since the day it is first known. -/
theorem C53_macd (hB : BuiltOn E c f fill o AnyPrices) (ho : o.ind = .movingAverageConvergenceDivergence) (i : ℕ)
    (hi : i < f.idx.length) :
    o.getTiData.day "macd" i = since 25 i (to4 (macdLine (close f) i)) ∧
    o.getTiData.day "signal_line" i = since 33 i (to4 (ema 9 25 (macdLine (close f)) i)) := by
  obtain ⟨F, hl, hn, -, ht, hp, -⟩ := hB.on ho
  have hcl : Nums F.len 0 (close f) (F.col "close") := hn _ (by simp [Ind.required])
  rw [guard_ok ht]
  have h1 : Nums F.len 25 (macdLine (close f)) _ := ((hcl.ewm 12 12 (by omega)).round 4).sub ((hcl.ewm 26 26 (by omega)).round 4)
  exact ⟨h1.eq4 (hl ▸ hi) rfl fun _ => rfl, (h1.ewm 9 9 (by omega)).eq4 (hl ▸ hi) rfl fun _ => rfl⟩

/-- The hypotheses of `C53_macd` on the sample. -/
example : ∃ o, BuiltOn demoEnv (.movingAverageConvergenceDivergence) (sample 36) true o AnyPrices ∧ o.ind = .movingAverageConvergenceDivergence ∧
    o.getTiData.day "signal_line" 34 = .fin (79 / 200) :=
  sample_any 36 "signal_line" 34 _ (by decide +kernel) (by decide)

/-- C53: performance is the relative change of the close since the first day; the target column repeats the target. -/
theorem C53_performance (hB : BuiltOn E c f fill o AnyPrices) (long : Bool) (target : Val) (ho : o.ind = .performance long target)
    (i : ℕ) (hi : i < f.idx.length) :
    o.getTiData.day "prf" i = round4 (quotient (close f i - close f 0) (close f 0)) ∧
    o.getTiData.day (if long then "target_LONG" else "target_SHORT") i = round4 target := by
  obtain ⟨F, hl, hn, -, ht, hp, -⟩ := hB.on ho
  have hcl : Nums F.len 0 (close f) (F.col "close") := hn _ (by simp [Ind.required])
  replace ht : Ind.Performance.calcTi long target F = .ok _ := ht
  have h0 : (F.col "close").head? = some (.fin (close f 0)) := by
    have := hcl.fin (i := 0) (by omega) (le_refl _)
    rw [List.head?_eq_getElem?, val_getElem? _ _ (by rw [hcl.len]; omega), this]
  unfold Ind.Performance.calcTi at ht
  simp only [h0, pure, Except.pure, Except.ok.injEq] at ht
  rw [← ht]
  constructor
  · show val (roundS 4 ((F.col "close").map _)) i = _
    rw [val_roundS, val_map _ rfl, hcl.fin (by omega) (by omega), Val.fin_sub, quotient_eq]
  · have : Frame.day ⟨F.idx, [("prf", roundS 4 ((F.col "close").map fun c => Val.div (Val.sub c (.fin (close f 0))) (.fin (close f 0)))),
        (Ind.Performance.targetColumn long, List.replicate F.len (Val.round 4 target))]⟩ (Ind.Performance.targetColumn long) i =
        (List.replicate F.len (Val.round 4 target)).getD i .nan := by
      cases long <;> rfl
    refine Eq.trans ?_ (this.trans ?_)
    · cases long <;> rfl
    · rw [List.getD_eq_getElem _ _ (by simp; omega)]; simp

/-- The hypotheses of `C53_performance` on the sample. -/
example : ∃ o, BuiltOn demoEnv (.performance (.str "LONG") (.float (.fin (1 / 10)))) (sample 6) true o AnyPrices ∧ o.ind = .performance true (.fin (1 / 10)) ∧
    o.getTiData.day "prf" 4 = .fin (3 / 25) :=
  sample_any 6 "prf" 4 _ (by decide +kernel) (by decide)

end TTI.Props
