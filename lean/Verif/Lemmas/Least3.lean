import Verif.Lemmas.Least2
import Verif.Lemmas.Trend2
import Verif.Lemmas.Constant
import Verif.Props.Identities

set_option autoImplicit false

/-!
# Regression lines, and tables with a constant background (C68)
-/

namespace TTI.Window

open Spec Props Past

variable {E : Env} {c : Call}

theorem needs_nan {ind : Ind} (hc : c.check = .ok ind) (column : String) (M n i : ℕ) (x y : String → ℕ → ℚ) (hM : M = i + 1)
    (hn : minRows ind ≤ n) (hn0 : 1 ≤ n) (ha : ∀ s j, 1 ≤ j → x s j = y s j)
    (hx : ∀ o, BuiltOn E c (table (n + 1) x) true o AnyPrices → o.ind = ind → ∃ q, o.getTiData.day column i = to4 q)
    (hy : Tells E c ind column n i y .nan) (hin : i ≤ n := by omega) : Needs E c column M := by
  obtain ⟨o, ho, hoi⟩ := table_built E c ind hc (n + 1) x AnyPrices (by omega) (by omega) (required_ohlcv ind) fun _ _ => trivial
  obtain ⟨q, hq⟩ := hx o ho hoi
  refine needs hc column M n i x y (to4 q) .nan hM hn hn0 ha (to4_ne_nan _) ?_ hy hin
  intro o' ho' _
  have := ho.ok.symm.trans ho'.ok
  rw [← Except.ok.inj this]
  exact hq

/-! ## Regression lines -/

theorem slope_spike (p : ℕ) (hp : 2 ≤ p) (B : ℚ) : slopeQ (spike (p * (p + 1) * B)) 0 p = -6 * B := by
  have hq : (2 : ℚ) ≤ p := by exact_mod_cast hp
  have h1 : (p : ℚ) ≠ 0 := by linarith
  have h2 : (p : ℚ) - 1 ≠ 0 := by linarith
  have h3 : (p : ℚ) + 1 ≠ 0 := by linarith
  have e1 : ∑ t ∈ Finset.range p, spike (p * (p + 1) * B) (0 + t) * ((0 + t : ℕ) : ℚ) = 0 := by
    refine Finset.sum_eq_zero fun t _ => ?_
    by_cases h : t = 0
    · subst h; simp
    · rw [spike_later _ (by omega), zero_mul]
  have e2 : ∑ t ∈ Finset.range p, spike (p * (p + 1) * B) (0 + t) = p * (p + 1) * B := by
    rw [Finset.sum_eq_single 0]
    · rfl
    · intro t _ h
      exact spike_later _ (by omega)
    · intro h
      exact absurd (Finset.mem_range.2 (by omega)) h
  unfold slopeQ
  rw [det_eq, e1, e2, sum_x]
  field_simp
  push_cast
  ring

theorem intercept_spike (p : ℕ) (hp : 2 ≤ p) (B : ℚ) : interceptQ (spike (p * (p + 1) * B)) 0 p = (4 * p - 2) * B := by
  have hq : (2 : ℚ) ≤ p := by exact_mod_cast hp
  have h1 : (p : ℚ) ≠ 0 := by linarith
  have e2 : ∑ t ∈ Finset.range p, spike (p * (p + 1) * B) (0 + t) = p * (p + 1) * B := by
    rw [Finset.sum_eq_single 0]
    · rfl
    · intro t _ h
      exact spike_later _ (by omega)
    · intro h
      exact absurd (Finset.mem_range.2 (by omega)) h
  unfold interceptQ
  rw [slope_spike p hp, e2, sum_x]
  field_simp
  push_cast
  ring

theorem needs_slope (p : ℕ) (hc : c.check = .ok (.linearRegressionSlope p)) (hp : 2 ≤ p) : Needs E c "lrs" p := by
  have key : ∀ B, Tells E c (.linearRegressionSlope p) "lrs" p (p - 1) (pulse "close" (p * (p + 1) * B)) (to4 (-6 * B)) := by
    intro B o ho hi
    obtain ⟨F, hl, hn, -, ht, -, -⟩ := ho.on hi
    have hcl := hn "close" (by simp [Ind.required])
    have hlen : F.len = p + 1 := by rw [hl, table_length]
    have h := Ind.LinearRegressionSlope.exact p (by omega) F o.getTiData _ hcl.len (fun i hi => hcl.fin hi (by omega)) ht (p - 1) (by omega)
    rw [if_pos (by omega), if_neg (by omega), show p - 1 + 1 - p = 0 by omega] at h
    change o.getTiData.day "lrs" (p - 1) = _ at h
    rw [h, show price (table (p + 1) (pulse "close" (p * (p + 1) * B))) "close" = spike (p * (p + 1) * B) from close_pulse _ _,
      slope_spike p hp]
    rfl
  exact needs hc _ p p (p - 1) _ _ _ _ (by omega) (by simp [minRows]) (by omega) (pulse_agree _ _ _)
    (by rw [mul_zero]; exact to4_far _ (by norm_num)) (key 1) (key 0)

theorem needs_line (p : ℕ) (hc : c.check = .ok (.linearRegressionIndicator p)) (hp : 3 ≤ p) : Needs E c "lri" p := by
  have hq : (3 : ℚ) ≤ p := by exact_mod_cast hp
  have key : ∀ B, Tells E c (.linearRegressionIndicator p) "lri" p (p - 1) (pulse "close" (p * (p + 1) * B)) (to4 ((4 - 2 * p) * B)) := by
    intro B o ho hi
    obtain ⟨F, hl, hn, -, ht, -, -⟩ := ho.on hi
    have hcl := hn "close" (by simp [Ind.required])
    have hlen : F.len = p + 1 := by rw [hl, table_length]
    have h := Ind.LinearRegressionIndicator.exact p (by omega) F o.getTiData _ hcl.len (fun i hi => hcl.fin hi (by omega)) ht (p - 1)
      (by omega)
    rw [if_pos (by omega), show p - 1 + 1 - p = 0 by omega] at h
    change o.getTiData.day "lri" (p - 1) = _ at h
    rw [h, show price (table (p + 1) (pulse "close" (p * (p + 1) * B))) "close" = spike (p * (p + 1) * B) from close_pulse _ _,
      slope_spike p (by omega), intercept_spike p (by omega), Nat.cast_sub (by omega)]
    unfold to4
    congr 2
    push_cast
    ring
  exact needs hc _ p p (p - 1) _ _ _ _ (by omega) (by simp [minRows]) (by omega) (pulse_agree _ _ _)
    (by rw [mul_zero]; exact to4_far _ (le_abs.2 (Or.inr (by linarith)))) (key 1) (key 0)

theorem forecast_spike (p : ℕ) (hp : 2 ≤ p) (z : ℤ) :
    Tells E c (.timeSeriesForecast p) "tsf" p (p - 1) (pulse "close" (p * (p + 1) * z)) (.fin (-2 * (p + 1) * z)) := by
  intro o ho hi
  obtain ⟨F, hl, hn, -, ht, -, -⟩ := ho.on hi
  have hcl := hn "close" (by simp [Ind.required])
  have hlen : F.len = p + 1 := by rw [hl, table_length]
  have h := Ind.TimeSeriesForecast.exact p hp F o.getTiData _ hcl.len (fun i hi => hcl.fin hi (by omega)) ht (p - 1) (by omega)
  rw [if_pos (by omega), show p - 1 + 1 - p = 0 by omega] at h
  change o.getTiData.day "tsf" (p - 1) = _ at h
  rw [h, show price (table (p + 1) (pulse "close" (p * (p + 1) * z))) "close" = spike (p * (p + 1) * z) from close_pulse _ _,
    slope_spike p (by omega), intercept_spike p (by omega), Nat.cast_sub (by omega)]
  have e1 : (-6 * (z : ℚ)) = ((-6 * z : ℤ) : ℚ) := by push_cast; ring
  have e2 : ((4 * p - 2) * (z : ℚ) + -6 * z * (p - (1 : ℕ))) = (((4 - 2 * p) * z : ℤ) : ℚ) := by push_cast; ring
  rw [e2, e1, roundQ_intCast, roundQ_intCast]
  congr 1
  push_cast
  ring

theorem forecast_ne (p : ℕ) : (.fin (-2 * (p + 1) * (1 : ℤ)) : Val) ≠ .fin (-2 * (p + 1) * (0 : ℤ)) := by
  intro h
  have h : (-2 * ((p : ℚ) + 1) * (1 : ℤ)) = -2 * (p + 1) * (0 : ℤ) := by simpa using h
  have : (0 : ℚ) ≤ p := Nat.cast_nonneg p
  push_cast at h
  linarith

theorem needs_forecast (p : ℕ) (hc : c.check = .ok (.timeSeriesForecast p)) (hp : 2 ≤ p) : Needs E c "tsf" p :=
  needs hc _ p p (p - 1) _ _ _ _ (by omega) (by simp [minRows]) (by omega) (pulse_agree _ _ _) (forecast_ne p)
    (forecast_spike p hp 1) (forecast_spike p hp 0)

theorem needs_timeSeries (p : ℕ) (hc : c.check = .ok (.movingAverage p .timeSeries)) (hp : 2 ≤ p) : Needs E c "ma-time_series" p := by
  have hc' : (Call.timeSeriesForecast (.int p)).check = .ok (.timeSeriesForecast p) := by
    simp only [Call.check, intAbove, PyArg.asInt]
    rw [if_pos (by exact_mod_cast (by omega : 1 < p))]
    rfl
  have key : ∀ z : ℤ, Tells E c (.movingAverage p .timeSeries) "ma-time_series" p (p - 1) (pulse "close" (p * (p + 1) * z))
      (.fin (-2 * (p + 1) * z)) := by
    intro z o ho hi
    obtain ⟨o', ho', hi'⟩ := table_built E _ _ hc' (p + 1) (pulse "close" (p * (p + 1) * z)) AnyPrices (by omega)
      (by simp [minRows]) (required_ohlcv _) fun _ _ => trivial
    rw [C65_time_series ho.ok ho'.ok p hi hi', forecast_spike p hp z o' ho' hi']
  exact needs hc _ p p (p - 1) _ _ _ _ (by omega) (by simp [minRows]) (by omega) (pulse_agree _ _ _) (forecast_ne p)
    (key 1) (key 0)

theorem needs_forecastOscillator (p : ℕ) (hc : c.check = .ok (.forecastOscillator p)) (hp : 2 ≤ p) : Needs E c "fosc" (p + 1) := by
  have key : ∀ z : ℤ, Tells E c (.forecastOscillator p) "fosc" p p (pulse "close" (p * (p + 1) * z))
      (round4 (quotient (100 * (2 * (p + 1) * z)) 0)) := by
    intro z o ho hi
    rw [C61_forecast_oscillator ho p hi p (by rw [table_length]; omega) ((4 * p - 2) * z) (-6 * z) ?_, since, if_neg (by omega),
      close_pulse, spike_later _ (by omega), Nat.cast_sub (by omega)]
    · have e1 : (-6 * (z : ℚ)) = ((-6 * z : ℤ) : ℚ) := by push_cast; ring
      have e2 : ((4 * p - 2) * (z : ℚ) + -6 * z * (p - (1 : ℕ))) = (((4 - 2 * p) * z : ℤ) : ℚ) := by push_cast; ring
      rw [e2, e1, roundQ_intCast, roundQ_intCast]
      congr 2
      push_cast
      ring
    · rw [bestLine_iff _ _ _ hp (by omega), close_pulse, show p - 1 + 1 - p = 0 by omega, slope_spike p hp, intercept_spike p hp]
      exact ⟨rfl, rfl⟩
  have hq : (0 : ℚ) ≤ p := Nat.cast_nonneg p
  refine needs hc _ _ p p (pulse "close" (p * (p + 1) * (1 : ℤ))) (pulse "close" (p * (p + 1) * (0 : ℤ))) .pinf .nan rfl
    (by simp [minRows]) (by omega) (pulse_agree _ _ _) (by simp) (fun o ho hi => ?_) fun o ho hi => ?_
  · rw [key 1 o ho hi, quotient, if_neg (by simp), if_pos (by push_cast; linarith)]
    rfl
  · rw [key 0 o ho hi, Int.cast_zero, mul_zero, mul_zero]
    exact quotient_none

theorem bestSlope_pulse (p : ℕ) (hp : 2 ≤ p) (B : ℚ) : BestSlope (spike (p * (p + 1) * B)) p (p - 1) (-6 * B) := by
  rw [bestSlope_iff _ _ _ hp (by omega), show p - 1 + 1 - p = 0 by omega, slope_spike p hp]

theorem bestSlope_flat (p : ℕ) (hp : 2 ≤ p) : BestSlope (fun _ => 0) p (p - 1) 0 := by
  rw [bestSlope_iff _ _ _ hp (by omega), slopeQ_const]

theorem needs_projection (p : ℕ) (hc : c.check = .ok (.projectionBands p)) (hp : 3 ≤ p) (column : String)
    (hcol : column ∈ ["upper_band", "lower_band"]) : Needs E c column p := by
  have hq : (3 : ℚ) ≤ p := by exact_mod_cast hp
  simp only [List.mem_cons, List.not_mem_nil, or_false] at hcol
  rcases hcol with rfl | rfl
  · have key : ∀ B, Tells E c (.projectionBands p) "upper_band" p (p - 1) (pulse "high" (p * (p + 1) * B))
        (to4 (highest p (fun j => spike (p * (p + 1) * B) j + ((p - 1 - j : ℕ) : ℚ) * (-6 * B)) (p - 1))) := by
      intro B o ho hi
      rw [(C61_projection_bands ho p hi (p - 1) (by rw [table_length]; omega) (-6 * B) 0
        (by rw [high_pulse]; exact bestSlope_pulse p (by omega) B) (by rw [low_high_pulse]; exact bestSlope_flat p (by omega))).1,
        since, if_neg (by omega), upperProjection, high_pulse]
    refine needs hc _ p p (p - 1) _ _ _ _ (by omega) (by simp [minRows]) (by omega) (pulse_agree _ _ _) ?_ (key (-1)) (key 0)
    rw [highest_same p (p - 1) (by omega) (fun j => spike (p * (p + 1) * 0) j + ((p - 1 - j : ℕ) : ℚ) * (-6 * 0)) 0]
    · refine to4_far _ (le_abs.2 (Or.inl ?_))
      refine le_trans ?_ ((Nums.highest_spec p (by omega) _ (p - 1)).1 (p - 2) (by omega))
      rw [show p - 1 - (p - 2) = 1 by omega, spike_later _ (le_refl 1), show p - 1 - 1 = p - 2 by omega, Nat.cast_sub (by omega)]
      push_cast
      linarith
    · intro t _
      rw [mul_zero, spike_none]; ring
  · have key : ∀ B, Tells E c (.projectionBands p) "lower_band" p (p - 1) (pulse "low" (p * (p + 1) * B))
        (to4 (lowest p (fun j => spike (p * (p + 1) * B) j + ((p - 1 - j : ℕ) : ℚ) * (-6 * B)) (p - 1))) := by
      intro B o ho hi
      rw [(C61_projection_bands ho p hi (p - 1) (by rw [table_length]; omega) 0 (-6 * B)
        (by rw [high_low_pulse]; exact bestSlope_flat p (by omega)) (by rw [low_pulse]; exact bestSlope_pulse p (by omega) B)).2,
        since, if_neg (by omega), lowerProjection, low_pulse]
    refine needs hc _ p p (p - 1) _ _ _ _ (by omega) (by simp [minRows]) (by omega) (pulse_agree _ _ _) ?_ (key 1) (key 0)
    rw [lowest_same p (p - 1) (by omega) (fun j => spike (p * (p + 1) * 0) j + ((p - 1 - j : ℕ) : ℚ) * (-6 * 0)) 0]
    · refine to4_far _ (le_abs.2 (Or.inr (le_neg.2 ?_)))
      refine le_trans ((Nums.lowest_spec p (by omega) _ (p - 1)).1 (p - 2) (by omega)) ?_
      rw [show p - 1 - (p - 2) = 1 by omega, spike_later _ (le_refl 1), show p - 1 - 1 = p - 2 by omega, Nat.cast_sub (by omega)]
      push_cast
      linarith
    · intro t _
      rw [mul_zero, spike_none]; ring

theorem needs_projectionOscillator (p : ℕ) (hc : c.check = .ok (.projectionOscillator p)) (hp : 3 ≤ p) : Needs E c "posc" p := by
  have hq : (3 : ℚ) ≤ p := by exact_mod_cast hp
  have key : ∀ B, Tells E c (.projectionOscillator p) "posc" p (p - 1) (pulse "low" (p * (p + 1) * B))
      (round4 (quotient
        (100 * (0 - roundQ 4 (lowest p (fun j => spike (p * (p + 1) * B) j + ((p - 1 - j : ℕ) : ℚ) * (-6 * B)) (p - 1))))
        (0 - roundQ 4 (lowest p (fun j => spike (p * (p + 1) * B) j + ((p - 1 - j : ℕ) : ℚ) * (-6 * B)) (p - 1))))) := by
    intro B o ho hi
    rw [C61_projection_oscillator ho p hi (p - 1) (by rw [table_length]; omega) 0 (-6 * B)
      (by rw [high_low_pulse]; exact bestSlope_flat p (by omega)) (by rw [low_pulse]; exact bestSlope_pulse p (by omega) B),
      since, if_neg (by omega), projectionPlace, lowerProjection, upperProjection, low_pulse, high_low_pulse, close_low_pulse,
      highest_same p (p - 1) (by omega) (fun j => (0 : ℚ) + ((p - 1 - j : ℕ) : ℚ) * 0) 0 (by intro t _; ring), roundQ_zero]
  have h1 : roundQ 4 (lowest p (fun j => spike (p * (p + 1) * 1) j + ((p - 1 - j : ℕ) : ℚ) * (-6 * 1)) (p - 1)) ≤ -1 := by
    have : lowest p (fun j => spike (p * (p + 1) * 1) j + ((p - 1 - j : ℕ) : ℚ) * (-6 * 1)) (p - 1) ≤ -1 := by
      refine le_trans ((Nums.lowest_spec p (by omega) _ (p - 1)).1 (p - 2) (by omega)) ?_
      rw [show p - 1 - (p - 2) = 1 by omega, spike_later _ (le_refl 1), show p - 1 - 1 = p - 2 by omega, Nat.cast_sub (by omega)]
      push_cast
      linarith
    simpa using roundQ_mono 4 this
  refine needs_nan hc _ p p (p - 1) _ _ (by omega) (by simp [minRows]) (by omega) (pulse_agree _ _ _)
    (fun o ho hi => ⟨_, (key 1 o ho hi).trans (quotient_fin _ _ (by intro h; linarith))⟩) fun o ho hi => (key 0 o ho hi).trans ?_
  rw [lowest_same p (p - 1) (by omega) (fun j => spike (p * (p + 1) * 0) j + ((p - 1 - j : ℕ) : ℚ) * (-6 * 0)) 0
    (by intro t _; rw [mul_zero, spike_none]; ring), roundQ_zero, sub_zero, mul_zero]
  exact quotient_none

/-! ## Tables with a background -/

/-- The numbers `b` on every day, but `A` in one column on day 0. -/
def base (b : String → ℚ) (name : String) (A : ℚ) (s : String) (j : ℕ) : ℚ := if s = name ∧ j = 0 then A else b s

theorem base_agree (b : String → ℚ) (name : String) (A B : ℚ) : ∀ s j, 1 ≤ j → base b name A s j = base b name B s j := by
  intro s j hj
  unfold base
  rw [if_neg (by omega), if_neg (by omega)]

theorem base_price (b : String → ℚ) (name : String) (A : ℚ) (n : ℕ) (s : String) (hs : s ∈ ohlcv) (j : ℕ) (hj : j ≤ n) :
    price (table (n + 1) (base b name A)) s j = if s = name ∧ j = 0 then A else b s := table_price _ _ s hs j (by omega)

/-- A day with a range and with volume. -/
def bar (s : String) : ℚ := if s = "high" ∨ s = "volume" then 1 else 0

theorem high_bar (A : ℚ) (n j : ℕ) (hj : j ≤ n) : high (table (n + 1) (base bar "high" A)) j = if j = 0 then A else 1 := by
  rw [high, base_price _ _ _ _ _ high_ohlcv j hj]
  simp [bar]

theorem low_bar (A : ℚ) (n j : ℕ) (hj : j ≤ n) : low (table (n + 1) (base bar "high" A)) j = 0 := by
  rw [low, base_price _ _ _ _ _ low_ohlcv j hj]
  simp [bar]

theorem volume_bar (A : ℚ) (n j : ℕ) (hj : j ≤ n) : volume (table (n + 1) (base bar "high" A)) j = 1 := by
  rw [show volume (table (n + 1) (base bar "high" A)) j = price (table (n + 1) (base bar "high" A)) "volume" j from rfl,
    base_price _ _ _ _ _ volume_ohlcv j hj]
  simp [bar]

theorem ease_bar (A : ℚ) (n j : ℕ) (hj : j ≤ n) (h1 : 1 ≤ j) :
    easeOfMovement (table (n + 1) (base bar "high" A)) j = if j = 1 then 5000 * (1 - A) else 0 := by
  rw [easeOfMovement, midpointMove, dayRange, high_bar A n j hj, high_bar A n (j - 1) (by omega), low_bar A n j hj,
    low_bar A n (j - 1) (by omega), volume_bar A n j hj, if_neg (show j ≠ 0 by omega)]
  by_cases h : j = 1
  · rw [if_pos (show j - 1 = 0 by omega), if_pos h]; ring
  · rw [if_neg (show j - 1 ≠ 0 by omega), if_neg h]; ring

theorem needs_ease (p : ℕ) (hc : c.check = .ok (.easeOfMovement p)) (hp : 1 ≤ p) (column : String)
    (hcol : column ∈ ["emv", "emv_ma"]) : Needs E c column (if column = "emv" then 2 else p + 1) := by
  have hq : (1 : ℚ) ≤ p := by exact_mod_cast hp
  simp only [List.mem_cons, List.not_mem_nil, or_false] at hcol
  rcases hcol with rfl | rfl
  · rw [if_pos rfl]
    have key : ∀ A, Tells E c (.easeOfMovement p) "emv" (p + 2) 1 (base bar "high" A) (to4 (5000 * (1 - A))) := by
      intro A o ho hi
      rw [C59_ease_of_movement ho p hi 1 (by rw [table_length]; omega) (by rw [volume_bar A _ _ (by omega)]; exact one_ne_zero), since,
        if_neg (by omega), ease_bar A _ _ (by omega) (le_refl 1), if_pos rfl]
    exact needs hc _ 2 (p + 2) 1 _ _ _ _ rfl (by simp [minRows]) (by omega) (base_agree _ _ _ _)
      (by rw [sub_self, mul_zero]; exact to4_far _ (by norm_num)) (key 2) (key 1)
  · rw [if_neg (by decide)]
    have key : ∀ A, Tells E c (.easeOfMovement p) "emv_ma" (p + 2) p (base bar "high" A) (to4 (5000 * (1 - A) / p)) := by
      intro A o ho hi
      rw [C59_ease_of_movement_mean ho p hi p (by rw [table_length]; omega)
        (fun j hj _ => by rw [volume_bar A _ _ (by omega)]; exact one_ne_zero), since, if_neg (by omega), meanLast,
        sumLast_at p p 1 _ hp (by omega) (by omega), ease_bar A _ _ (by omega) (le_refl 1), if_pos rfl]
      intro j hj h1 h2
      rw [ease_bar A _ _ (by omega) (by omega), if_neg h2]
    refine needs hc _ _ (p + 2) p _ _ _ _ rfl (by simp [minRows]) (by omega) (base_agree _ _ _ _) ?_ (key (1 + p)) (key 1)
    rw [sub_self, mul_zero, zero_div]
    refine to4_far _ (le_abs.2 (Or.inr ?_))
    have : -(5000 * (1 - (1 + (p : ℚ))) / p) = 5000 := by field_simp; ring
    rw [this]; norm_num

theorem needs_moneyFlow (p : ℕ) (hc : c.check = .ok (.chaikinMoneyFlow p)) (hp : 1 ≤ p) : Needs E c "cmf" p := by
  have hq : (1 : ℚ) ≤ p := by exact_mod_cast hp
  refine needs_nan hc _ p p (p - 1) (base bar "high" 1) (base bar "high" 0) (by omega) (by simp [minRows]) hp (base_agree _ _ _ _)
    (fun o ho hi => ?_) fun o ho hi => ?_
  · rw [C59_chaikin_money_flow ho p hi (p - 1) (by rw [table_length]; omega), since, if_neg (by omega), quotient_fin]
    · exact ⟨_, rfl⟩
    · have : sumLast p (volume (table (p + 1) (base bar "high" 1))) (p - 1) = p := by
        unfold sumLast
        rw [Finset.sum_congr rfl fun t _ => volume_bar 1 p (p - 1 - t) (by omega)]
        simp
      rw [this]; linarith
    · intro j hj _
      rw [high_bar _ _ _ (by omega), low_bar _ _ _ (by omega)]
      simp
  · exact C59_chaikin_money_flow_flat ho p hi (p - 1) (by rw [table_length]; omega) 0 (by omega) (by omega)
      (by rw [high_bar _ _ _ (by omega), low_bar _ _ _ (by omega)]; simp)

/-- A day that closes at its high. -/
def top (s : String) : ℚ := if s = "high" ∨ s = "close" then 1 else 0

theorem needs_ultimate (hc : c.check = .ok .ultimateOscillator) : Needs E c "uosc" 29 := by
  have key : ∀ A : ℚ, 1 ≤ A → Tells E c .ultimateOscillator "uosc" 29 28 (base top "close" A)
      (to4 (100 * (4 * (7 / 7) + 2 * (14 / 14) + 28 / (28 + (A - 1))) / 7)) := by
    intro A hA o ho hi
    have hcl : ∀ j ≤ 29, close (table (29 + 1) (base top "close" A)) j = if j = 0 then A else 1 := by
      intro j hj
      rw [show close (table (29 + 1) (base top "close" A)) j = price (table (29 + 1) (base top "close" A)) "close" j from rfl,
        base_price _ _ _ _ _ close_ohlcv j hj]
      simp [top]
    have hh : ∀ j ≤ 29, high (table (29 + 1) (base top "close" A)) j = 1 := by
      intro j hj
      rw [high, base_price _ _ _ _ _ high_ohlcv j hj]
      simp [top]
    have hlo : ∀ j ≤ 29, low (table (29 + 1) (base top "close" A)) j = 0 := by
      intro j hj
      rw [low, base_price _ _ _ _ _ low_ohlcv j hj]
      simp [top]
    have hmin : ∀ j ≤ 29, min (0 : ℚ) (if j - 1 = 0 then A else 1) = 0 := by
      intro j _
      split
      · exact min_eq_left (by linarith)
      · exact min_eq_left (by norm_num)
    have hp : ∀ w ≤ 28, sumLast w (pressure (table (29 + 1) (base top "close" A))) 28 = w := by
      intro w hw
      unfold sumLast
      rw [Finset.sum_congr rfl (g := fun _ => (1 : ℚ)) fun t ht => ?_]
      · simp
      · rw [Finset.mem_range] at ht
        rw [pressure, trueLow, hcl _ (by omega), hlo _ (by omega), hcl _ (by omega), hmin _ (by omega), if_neg (by omega), sub_zero]
    have hs : ∀ w ≤ 28, sumLast w (span (table (29 + 1) (base top "close" A))) 28 = w + sumLast w (fun j => if j = 1 then A - 1 else 0) 28 := by
      intro w hw
      unfold sumLast
      rw [Finset.sum_congr rfl (g := fun t => (1 : ℚ) + if 28 - t = 1 then A - 1 else 0) fun t ht => ?_]
      · rw [Finset.sum_add_distrib]; simp
      · rw [Finset.mem_range] at ht
        rw [span, trueLow, trueHigh, hh _ (by omega), hlo _ (by omega), hcl _ (by omega), hmin _ (by omega), sub_zero]
        by_cases h : 28 - t = 1
        · rw [if_pos (show 28 - t - 1 = 0 by omega), if_pos h, max_eq_right hA]; ring
        · rw [if_neg (show 28 - t - 1 ≠ 0 by omega), if_neg h, max_self, add_zero]
    have s7 : sumLast 7 (span (table (29 + 1) (base top "close" A))) 28 = 7 := by
      rw [hs 7 (by norm_num), sumLast]
      rw [Finset.sum_eq_zero]
      · norm_num
      · intro t ht; rw [Finset.mem_range] at ht; exact if_neg (by omega)
    have s14 : sumLast 14 (span (table (29 + 1) (base top "close" A))) 28 = 14 := by
      rw [hs 14 (by norm_num), sumLast]
      rw [Finset.sum_eq_zero]
      · norm_num
      · intro t ht; rw [Finset.mem_range] at ht; exact if_neg (by omega)
    have s28 : sumLast 28 (span (table (29 + 1) (base top "close" A))) 28 = 28 + (A - 1) := by
      rw [hs 28 (by norm_num), sumLast_at 28 28 1 _ (by norm_num) (by norm_num) (by norm_num) fun j _ _ h => if_neg h, if_pos rfl]
      norm_num
    rw [C58_ultimate ho hi 28 (by rw [table_length]; omega), since, if_neg (by omega), pressureRatio, pressureRatio, pressureRatio,
      hp 7 (by norm_num), hp 14 (by norm_num), hp 28 (by norm_num), s7, s14, s28]
    · norm_num
    · intro w hw
      simp only [List.mem_cons, List.not_mem_nil, or_false] at hw
      rcases hw with rfl | rfl | rfl
      · rw [s7]; norm_num
      · rw [s14]; norm_num
      · rw [s28]; intro h; linarith
  exact needs hc _ 29 29 28 _ _ _ _ rfl (by simp [minRows]) (by omega) (base_agree _ _ _ _) (by decide +kernel)
    (key 3 (by norm_num)) (key 1 (by norm_num))

/-! ## The mean of the stochastic oscillator -/

/-- No ranges before day `m`, except for day 0. -/
def calm (m : ℕ) (A : ℚ) (s : String) (j : ℕ) : ℚ := if s = "high" then if j = 0 then A else if j < m then 0 else 1 else 0

theorem needs_percentD (hE : FairEnv E) (k s d : ℕ) (b : Bool) (hc : c.check = .ok (.stochasticOscillator k s d b)) (hk : 1 ≤ k)
    (hs : 1 ≤ s) (hd : 1 ≤ d) : Needs E c "%D" (k + s + d - 2) := by
  have hh : ∀ A n j, j ≤ n → high (table (n + 1) (calm (k + s - 1) A)) j = if j = 0 then A else if j < k + s - 1 then 0 else 1 := by
    intro A n j hj
    rw [high, table_price _ _ _ high_ohlcv j (by omega)]
    simp [calm]
  have hl : ∀ A n j, j ≤ n → lowest k (low (table (n + 1) (calm (k + s - 1) A))) j = 0 := by
    intro A n j hj
    refine lowest_same k j hk _ 0 fun t _ => ?_
    rw [low, table_price _ _ _ low_ohlcv _ (by omega)]
    simp [calm]
  have hr : ∀ A n j, j ≤ n → rangeHeight (table (n + 1) (calm (k + s - 1) A)) k j = highest k (high (table (n + 1) (calm (k + s - 1) A))) j := by
    intro A n j hj
    rw [rangeHeight, hl A n j hj, sub_zero]
  have h0 : ∀ j ≤ k + s + d - 3, k + s + d - 3 < j + d → k + s - 2 ≤ j →
      sumLast s (rangeHeight (table (k + s + d + 1) (calm (k + s - 1) 1)) k) j ≠ 0 := by
    intro j hj _ h2
    have hnn : ∀ j ≤ k + s + d, ∀ t < k, 0 ≤ high (table (k + s + d + 1) (calm (k + s - 1) 1)) (j - t) := by
      intro j hj t _
      rw [hh _ _ _ (by omega)]
      split_ifs <;> norm_num
    refine ne_of_gt ?_
    unfold sumLast
    by_cases h3 : j = k + s - 2
    · refine Finset.sum_pos' (fun t _ => ?_) ⟨s - 1, Finset.mem_range.2 (by omega), ?_⟩
      · rw [hr _ _ _ (by omega)]
        exact le_trans (hnn _ (by omega) 0 (by omega)) ((Nums.highest_spec k hk _ _).1 0 (by omega))
      · rw [hr _ _ _ (by omega)]
        refine lt_of_lt_of_le ?_ ((Nums.highest_spec k hk _ _).1 (k - 1) (by omega))
        rw [hh _ _ _ (by omega), if_pos (by omega)]
        norm_num
    · refine Finset.sum_pos' (fun t _ => ?_) ⟨0, Finset.mem_range.2 (by omega), ?_⟩
      · rw [hr _ _ _ (by omega)]
        exact le_trans (hnn _ (by omega) 0 (by omega)) ((Nums.highest_spec k hk _ _).1 0 (by omega))
      · rw [hr _ _ _ (by omega)]
        refine lt_of_lt_of_le ?_ ((Nums.highest_spec k hk _ _).1 0 (by omega))
        rw [hh _ _ _ (by omega), if_neg (by omega), if_neg (by omega)]
        norm_num
  refine needs_nan hc _ _ (k + s + d) (k + s + d - 3) (calm (k + s - 1) 1) (calm (k + s - 1) 0) (by omega) (by simp [minRows]; omega)
    (by omega) (fun s j hj => by simp only [calm, if_neg (show j ≠ 0 by omega)]) (fun o ho hi => ?_) fun o ho hi => ?_
  · cases b
    · rw [C55_stochastic_d_weighted ho k s d hi (hE.length d) (hE.total d hd) _ (by rw [table_length]; omega) h0, since,
        if_neg (by omega)]
      exact ⟨_, rfl⟩
    · rw [C55_stochastic_d ho k s d hi _ (by rw [table_length]; omega) h0, since, if_neg (by omega)]
      exact ⟨_, rfl⟩
  · refine C55_stochastic_d_flat ho k s d b hi _ (by rw [table_length]; omega) (k + s - 2) (by omega) (by omega)
      (sumLast_none _ _ _ fun j hj => ?_)
    rw [hr _ _ _ (by omega)]
    refine highest_same k j hk _ 0 fun t _ => ?_
    rw [hh _ _ _ (by omega)]
    split_ifs <;> first | rfl | omega

end TTI.Window
