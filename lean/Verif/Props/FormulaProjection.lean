import Verif.Props.Sample
import Verif.Lemmas.Col7

set_option autoImplicit false

/-!
# Projection bands, projection oscillator, forecast oscillator: C61
-/

namespace TTI.Props

open Spec

variable {E : Env} {c : Call} {f : RawFrame} {fill : Bool} {o : Obj}

/-- C61: over at least two days there is exactly one line that fits best; the theorems below speak about it. -/
theorem C61_one_line (g : ℕ → ℚ) (p i : ℕ) (hp : 2 ≤ p) (hi : p ≤ i + 1) :
    ∃ a b, BestLine g p i a b ∧ ∀ a' b', BestLine g p i a' b' → a' = a ∧ b' = b :=
  ⟨_, _, (bestLine_iff g p i hp hi _ _).2 ⟨rfl, rfl⟩, fun a' b' h => (bestLine_iff g p i hp hi a' b').1 h⟩

/-- The hypotheses of `C61_one_line`, with a line that fits best. -/
example : 2 ≤ 2 ∧ 2 ≤ 1 + 1 ∧ BestLine (fun j => 3 * (j : ℚ) + 1) 2 1 1 3 := by
  refine ⟨by norm_num, by norm_num, fun a' b' => ?_⟩
  have : fitError (fun j => 3 * (j : ℚ) + 1) 2 1 1 3 = 0 := by norm_num [fitError, Finset.sum_range_succ]
  rw [this]
  exact Finset.sum_nonneg fun _ _ => sq_nonneg _

/-- C61: the upper projection band is the greatest of the last `p` highs, each carried to the day along the slope of the line that
fits these highs best; the lower band is the same with the least of the lows. -/
theorem C61_projection_bands (hB : BuiltOn E c f fill o AnyPrices) (p : ℕ) (ho : o.ind = .projectionBands p) (i : ℕ)
    (hi : i < f.idx.length) (bh bl : ℚ) (hbh : BestSlope (high f) p i bh) (hbl : BestSlope (low f) p i bl) :
    o.getTiData.day "upper_band" i = since (p - 1) i (to4 (upperProjection f p bh i)) ∧
    o.getTiData.day "lower_band" i = since (p - 1) i (to4 (lowerProjection f p bl i)) := by
  obtain ⟨F, hl, hn, -, ht, hp, -⟩ := hB.on ho
  have hh : Nums F.len 0 (high f) (F.col "high") := hn _ (by simp [Ind.required])
  have hlo : Nums F.len 0 (low f) (F.col "low") := hn _ (by simp [Ind.required])
  replace hp : 2 ≤ p := hp
  rw [guard_ok ht]
  exact ⟨(hh.upperBand p (by omega)).eq4 (hl ▸ hi) rfl fun h => by rw [(bestSlope_iff _ p i hp (by omega) _).1 hbh],
    (hlo.lowerBand p (by omega)).eq4 (hl ▸ hi) rfl fun h => by rw [(bestSlope_iff _ p i hp (by omega) _).1 hbl]⟩

/-- The hypotheses of `C61_projection_bands` on the sample. -/
example : (∃ o, BuiltOn demoEnv (.projectionBands (.int 3)) (sample 6) true o AnyPrices ∧ o.ind = .projectionBands 3 ∧
    o.getTiData.day "upper_band" 4 = .fin 62) ∧
    (BestSlope (high (sample 6)) 3 4 (-1 / 2)) ∧
    (BestSlope (low (sample 6)) 3 4 (1 / 4)) :=
  ⟨sample_any 6 "upper_band" 4 _ (by decide +kernel) (by decide), (bestSlope_iff _ 3 4 (by norm_num) (by norm_num) _).2 (by decide +kernel), (bestSlope_iff _ 3 4 (by norm_num) (by norm_num) _).2 (by decide +kernel)⟩

theorem projection_columns (hB : BuiltOn E c f fill o AnyPrices) (p : ℕ) (ho : o.ind = .projectionOscillator p) :
    ∃ (idx : List ℤ) (X : List Val), 2 ≤ p ∧
      o.getTiData = ⟨idx, [("posc", roundS 4 X), ("trigger_line", roundS 4 (ewm 3 3 X))]⟩ ∧
      Col f.idx.length (p - 1)
        (fun i => projectionPlace f p (slopeQ (high f) (i + 1 - p) p) (slopeQ (low f) (i + 1 - p) p) i) X := by
  obtain ⟨F, hl, hn, -, ht, hp, -⟩ := hB.on ho
  have hcl : Nums F.len 0 (close f) (F.col "close") := hn _ (by simp [Ind.required])
  have hh : Nums F.len 0 (high f) (F.col "high") := hn _ (by simp [Ind.required])
  have hlo : Nums F.len 0 (low f) (F.col "low") := hn _ (by simp [Ind.required])
  replace hp : 2 ≤ p := hp
  have hge : ¬ F.len < p := fun h => by
    have : Ind.calcTi E F (.projectionOscillator p) = .error (.notEnough p F.len) := by
      show Ind.ProjectionOscillator.calcTi p F = _
      unfold Ind.ProjectionOscillator.calcTi
      rw [if_pos h]; rfl
    rw [this] at ht; simp at ht
  replace ht : Ind.ProjectionOscillator.calcTi p F = .ok o.getTiData := ht
  unfold Ind.ProjectionOscillator.calcTi Ind.ProjectionBands.calcTi at ht
  rw [if_neg hge, if_neg (show ¬ (F.sub ["high", "low", "close"]).len < p from hge)] at ht
  have hu := ((hh.ofSub (names := ["high", "low", "close"]) (by simp)).upperBand p (by omega)).round 4
  have hd := ((hlo.ofSub (names := ["high", "low", "close"]) (by simp)).lowerBand p (by omega)).round 4
  replace hu : Nums F.len _ _ _ := hu
  replace hd : Nums F.len _ _ _ := hd
  refine ⟨_, _, hp, (Except.ok.inj ht).symm, ?_⟩
  rw [← hl]
  exact (((hcl.sub hd).scale 100).quot (hu.sub hd)).congr (by omega) fun _ _ _ => rfl

/-- C61: the projection oscillator is the place of the close between the two bands in percent. -/
theorem C61_projection_oscillator (hB : BuiltOn E c f fill o AnyPrices) (p : ℕ) (ho : o.ind = .projectionOscillator p) (i : ℕ)
    (hi : i < f.idx.length) (bh bl : ℚ) (hbh : BestSlope (high f) p i bh) (hbl : BestSlope (low f) p i bl) :
    o.getTiData.day "posc" i = since (p - 1) i (round4 (projectionPlace f p bh bl i)) := by
  obtain ⟨idx, X, hp, e, h1⟩ := projection_columns hB p ho
  rw [e]
  exact (h1.round 4).eq hi rfl fun h => by
    rw [(bestSlope_iff _ p i hp (by omega) _).1 hbh, (bestSlope_iff _ p i hp (by omega) _).1 hbl]

/-- The hypotheses of `C61_projection_oscillator` on the sample. -/
example : (∃ o, BuiltOn demoEnv (.projectionOscillator (.int 3)) (sample 6) true o AnyPrices ∧ o.ind = .projectionOscillator 3 ∧
    o.getTiData.day "posc" 4 = .fin (138889 / 2500)) ∧
    (BestSlope (high (sample 6)) 3 4 (-1 / 2)) ∧
    (BestSlope (low (sample 6)) 3 4 (1 / 4)) :=
  ⟨sample_any 6 "posc" 4 _ (by decide +kernel) (by decide), (bestSlope_iff _ 3 4 (by norm_num) (by norm_num) _).2 (by decide +kernel), (bestSlope_iff _ 3 4 (by norm_num) (by norm_num) _).2 (by decide +kernel)⟩

/-- C61: its trigger line is the 3-day exponential average of it, as long as the bands do not meet. -/
theorem C61_projection_trigger (hB : BuiltOn E c f fill o AnyPrices) (p : ℕ) (ho : o.ind = .projectionOscillator p) (i : ℕ)
    (hi : i < f.idx.length) (place : ℕ → ℚ)
    (hq : ∀ j ≤ i, p ≤ j + 1 → ∃ bh bl, BestSlope (high f) p j bh ∧ BestSlope (low f) p j bl ∧
      projectionPlace f p bh bl j = .fin (place j)) :
    o.getTiData.day "trigger_line" i = since (p + 1) i (to4 (ema 3 (p - 1) place i)) := by
  obtain ⟨idx, X, hp, e, h1⟩ := projection_columns hB p ho
  rw [e]
  show val (roundS 4 _) i = _
  rw [val_roundS, h1.ewmLocal (g := place) 3 3 (by norm_num) hi fun j h2 h3 => ?_, round_since]
  · exact since_congr (by omega) fun _ => rfl
  · obtain ⟨bh, bl, h4, h5, h6⟩ := hq j h2 (by omega)
    rw [(bestSlope_iff _ p j hp (by omega) _).1 h4, (bestSlope_iff _ p j hp (by omega) _).1 h5] at h6
    exact h6

/-- The hypotheses of `C61_projection_trigger` on the sample. -/
example : (∃ o, BuiltOn demoEnv (.projectionOscillator (.int 3)) (sample 6) true o AnyPrices ∧ o.ind = .projectionOscillator 3 ∧
    o.getTiData.day "trigger_line" 4 = .fin (35094 / 625)) ∧
    (∀ j ≤ 4, 3 ≤ j + 1 → ∃ bh bl, BestSlope (high (sample 6)) 3 j bh ∧ BestSlope (low (sample 6)) 3 j bl ∧
      projectionPlace (sample 6) 3 bh bl j = .fin ([0, 0, 900 / 29, 4700 / 57, 500 / 9].getD j 0)) :=
  ⟨sample_any 6 "trigger_line" 4 _ (by decide +kernel) (by decide), fun j h1 h2 =>
    ⟨_, _, (bestSlope_iff _ 3 j (by norm_num) h2 _).2 rfl, (bestSlope_iff _ 3 j (by norm_num) h2 _).2 rfl, by
      have : 2 ≤ j := by omega
      interval_cases j <;> decide +kernel⟩⟩

/-- C61: the forecast oscillator is the distance of the close from yesterday's forecast in percent of the close, where the
forecast is the sum of the slope and of yesterday's value of the line that fits the last `p` closes best, each rounded. -/
theorem C61_forecast_oscillator (hB : BuiltOn E c f fill o AnyPrices) (p : ℕ) (ho : o.ind = .forecastOscillator p) (i : ℕ)
    (hi : i < f.idx.length) (a b : ℚ) (hb : BestLine (close f) p (i - 1) a b) :
    o.getTiData.day "fosc" i = since p i (round4 (quotient
      (100 * (close f i - (roundQ 4 b + roundQ 4 (a + b * (i - 1 : ℕ))))) (close f i))) := by
  obtain ⟨F, hl, hn, -, ht, hp, -⟩ := hB.on ho
  have hcl : Nums F.len 0 (close f) (F.col "close") := hn _ (by simp [Ind.required])
  replace hp : 2 ≤ p := hp
  replace ht : Ind.ForecastOscillator.calcTi p F = .ok o.getTiData := ht
  unfold Ind.ForecastOscillator.calcTi at ht
  split at ht
  · simp [bind, Except.bind, throw, throwThe, MonadExceptOf.throw] at ht
  cases hs : Ind.TimeSeriesForecast.calcTi p (F.sub ["close"]) with
  | error e => rw [hs] at ht; simp [bind, Except.bind] at ht
  | ok T =>
    rw [hs] at ht
    rw [← Except.ok.inj ht]
    have hc' := hcl.ofSub (names := ["close"]) (by simp)
    have hT : (T.col "tsf").length = F.len := by
      obtain ⟨l, hl1, hl2⟩ := Ind.TimeSeriesForecast.forecast_ok p (F.sub ["close"]) (by simp only [Frame.sub_len]; omega)
      unfold Ind.TimeSeriesForecast.calcTi at hs
      rw [if_neg (by simp only [Frame.sub_len]; omega), hl1] at hs
      rw [← Except.ok.inj hs, Frame.col_single]
      simp [hl2, hc'.len]
    have h1 : Nums F.len (p - 1) (fun i => roundQ 4 (slopeQ (close f) (i + 1 - p) p) +
        roundQ 4 (interceptQ (close f) (i + 1 - p) p + slopeQ (close f) (i + 1 - p) p * i)) (T.col "tsf") :=
      ⟨hT, fun j hj => by
        rw [Ind.TimeSeriesForecast.exact p hp _ T (close f) hc'.len (fun i hi => hc'.fin hi (by omega)) hs j hj]
        split_ifs <;> first | omega | rfl⟩
    refine ((((hcl.sub (h1.shift 1)).scale 100).quot hcl).round 4).eq (hl ▸ hi) (by omega) fun h => ?_
    obtain ⟨e1, e2⟩ := (bestLine_iff _ p (i - 1) hp (by omega) _ _).1 hb
    rw [e1, e2]

/-- The hypotheses of `C61_forecast_oscillator` on the sample. -/
example : (∃ o, BuiltOn demoEnv (.forecastOscillator (.int 3)) (sample 6) true o AnyPrices ∧ o.ind = .forecastOscillator 3 ∧
    o.getTiData.day "fosc" 4 = .fin (-65477 / 10000)) ∧
    (BestLine (close (sample 6)) 3 (4 - 1) (161 / 3) (3 / 2)) :=
  ⟨sample_any 6 "fosc" 4 _ (by decide +kernel) (by decide), (bestLine_iff _ 3 _ (by norm_num) (by norm_num) _ _).2 ⟨by decide +kernel, by decide +kernel⟩⟩

end TTI.Props
