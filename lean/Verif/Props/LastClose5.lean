import Verif.Props.LastClose4

set_option autoImplicit false

/-!
# What a higher last close does to the signal: C106

`LastCloseRaised`, `Quoted`, `TowardsBuy` and the table `stance` are in Spec/LastClose.
-/

namespace TTI.Props

open Spec LastClose

variable {E : Env} {c : Call} {f g : RawFrame} {fill : Bool} {o p : Obj}

theorem stance_plain {ind : Ind} {x : Stance} (h : stance ind = some x) :
    (∀ F, ind.inputAfter F = F) ∧ ∀ n, ind ≠ .detrendedPriceOscillator n := by
  cases ind <;> first | (simp [stance] at h; done) | exact ⟨fun _ => rfl, fun _ h => by cases h⟩

/-- C106: with a class that follows the market a higher last close leaves the signal or moves it towards buy. -/
theorem C106_follows (ho : BuiltOn E c f fill o Quoted) (hp : BuiltOn E c g fill p Quoted) (hr : LastCloseRaised f g)
    (hs : stance o.ind = some .follows) {s t : Signal} (h1 : o.getTiSignal = .ok s) (h2 : p.getTiSignal = .ok t) : TowardsBuy s t := by
  obtain ⟨L, h⟩ := pair_of ho hp hr (stance_plain hs).1 (stance_plain hs).2
  cases hi : o.ind <;> rw [hi] at hs <;> try (simp [stance] at hs; done)
  case movingAverage n a =>
    cases a <;> try (simp [stance] at hs; done)
    · exact last_simple ho hp h h1 h2 n hi
    · exact last_exponential ho hp h h1 h2 n hi
    · exact last_triangular ho hp h h1 h2 n hi
  case ichimokuCloud => exact last_ichimoku ho hp h h1 h2 hi
  case parabolicSAR => exact last_sar ho hp h h1 h2 hi
  case qstick n => exact last_qstick ho hp h h1 h2 n hi
  case williamsR n => exact last_williams ho hp h h1 h2 n hi
  case priceOscillator a b => exact last_price_oscillator ho hp h h1 h2 a b hi
  case negativeVolumeIndex => exact last_nvi ho hp h h1 h2 hi
  case positiveVolumeIndex => exact last_pvi ho hp h h1 h2 hi

/-- C106: with a class that opposes the market a higher last close leaves the signal or moves it towards sell. -/
theorem C106_opposes (ho : BuiltOn E c f fill o Quoted) (hp : BuiltOn E c g fill p Quoted) (hr : LastCloseRaised f g)
    (hs : stance o.ind = some .opposes) {s t : Signal} (h1 : o.getTiSignal = .ok s) (h2 : p.getTiSignal = .ok t) : TowardsBuy t s := by
  obtain ⟨L, h⟩ := pair_of ho hp hr (stance_plain hs).1 (stance_plain hs).2
  cases hi : o.ind <;> rw [hi] at hs <;> try (simp [stance] at hs; done)
  case movingAverage n a => cases a <;> simp [stance] at hs
  case doubleExponentialMovingAverage n => exact last_dema ho hp h h1 h2 n hi
  case tripleExponentialMovingAverage n => exact last_tema ho hp h h1 h2 n hi
  case wildersSmoothing n => exact last_wilder ho hp h h1 h2 n hi
  case weightedClose => exact last_weighted_close ho hp h h1 h2 hi
  case linearRegressionIndicator n => exact last_lri ho hp h h1 h2 n hi
  case linearRegressionSlope n => exact last_lrs ho hp h h1 h2 n hi
  case envelopes n w => exact last_envelopes ho hp h h1 h2 n w hi
  case priceChannel n => exact last_price_channel ho hp h h1 h2 n hi
  case projectionBands n => exact last_projection_bands ho hp h h1 h2 n hi
  case relativeStrengthIndex n => exact last_rsi ho hp h h1 h2 n hi
  case relativeMomentumIndex n m => exact last_rmi ho hp h h1 h2 n m hi
  case chandeMomentumOscillator n => exact last_cmo ho hp h h1 h2 n hi
  case intradayMomentumIndex n => exact last_imi ho hp h h1 h2 n hi
  case commodityChannelIndex n => exact last_cci ho hp h h1 h2 n hi
  case stochasticMomentumIndex n w d => exact last_smi ho hp h h1 h2 n w d hi
  case swingIndex => exact last_swing ho hp h h1 h2 hi
  case forecastOscillator n => exact last_fosc ho hp h h1 h2 n hi
  case momentum n => exact last_momentum ho hp h h1 h2 n hi
  case priceRateOfChange n => exact last_prc ho hp h h1 h2 n hi
  case performance l x => exact last_performance ho hp h h1 h2 l x hi
  case onBalanceVolume => exact last_obv ho hp h h1 h2 hi
  case priceAndVolumeTrend => exact last_pvt ho hp h h1 h2 hi

/-- A table with these closes; high, low, open and volume are the same on all days. -/
def lastDay (closes : List ℚ) : RawFrame :=
  table closes.length fun s j => if s = "close" then closes.getD j 1 else if s = "high" then 50
    else if s = "low" then 5 else if s = "open" then 10 else 500

/-- The signal of an object, if there is one. -/
def signalOf (c : Call) (f : RawFrame) : Option Signal :=
  match (construct demoEnv c (.frame f) (.bool true)).2 with
  | .ok o => match o.getTiSignal with
    | .ok s => some s
    | .error _ => none
  | .error _ => none

/-- Two such tables that differ in the last close. -/
theorem lastDay_raised (xs : List ℚ) (a b : ℚ) (hab : a ≤ b) : LastCloseRaised (lastDay (xs ++ [a])) (lastDay (xs ++ [b])) where
  days := by simp [lastDay, table_length]
  other s hs j hj := by
    have hj' : j < xs.length + 1 := by simpa [lastDay, table_length] using hj
    have hs' : s ∈ ohlcv := by revert hs; simp [ohlcv]; tauto
    rw [lastDay, lastDay, table_price _ _ _ hs' _ (by simpa using hj'), table_price _ _ _ hs' _ (by simpa using hj')]
    have : s ≠ "close" := by rintro rfl; simp at hs
    simp [this]
  before j hj := by
    have hj' : j < xs.length := by simpa [lastDay, table_length] using hj
    rw [lastDay, lastDay, table_price _ _ _ (by decide) _ (by simp; omega), table_price _ _ _ (by decide) _ (by simp; omega)]
    simp [List.getElem?_append_left hj']
  last := by
    simp only [lastDay, table_length]
    rw [table_price _ _ _ (by decide) _ (by simp), table_price _ _ _ (by decide) _ (by simp)]
    simpa using hab

/-- C106: the forecast of a short period overshoots the close and that of a long one stays behind it, so the class of the time series
forecast has no fixed direction: on tables that differ in the last close (`lastDay_raised`), with period 2 a higher last close turns hold into buy, with period 6 it turns hold into sell. -/
theorem C106_forecast_goes_both_ways :
    signalOf (.timeSeriesForecast (.int 2)) (lastDay [10, 11, 10, 9]) = some .hold ∧
    signalOf (.timeSeriesForecast (.int 2)) (lastDay [10, 11, 10, 12]) = some .buy ∧
    signalOf (.timeSeriesForecast (.int 6)) (lastDay [10, 10, 10, 10, 10, 20, 11, 10]) = some .hold ∧
    signalOf (.timeSeriesForecast (.int 6)) (lastDay [10, 10, 10, 10, 10, 20, 11, 40]) = some .sell := by
  refine ⟨?_, ?_, ?_, ?_⟩ <;> decide +kernel

/-- The tables of the examples: four days. -/
def lastDays (a : ℚ) : RawFrame := lastDay [10, 11, 10, a]

theorem lastDays_quoted (m : ℕ) (hm : 0 < m) (j : ℕ) (hj : j < 4) : Quoted fun s => if s = "close" then [10, 11, 10, (m : ℚ)].getD j 1
    else if s = "high" then 50 else if s = "low" then 5 else if s = "open" then 10 else 500 := by
  refine ⟨?_, ?_, by simp; norm_num, by simp⟩
  · interval_cases j <;> simp [hm]
  · interval_cases j
    · exact ⟨100000, by simp; norm_num⟩
    · exact ⟨110000, by simp; norm_num⟩
    · exact ⟨100000, by simp; norm_num⟩
    · exact ⟨m * 10000, by simp⟩

theorem signalOf_eq {c : Call} {f : RawFrame} {o : Obj} {P : (String → ℚ) → Prop} (ho : BuiltOn demoEnv c f true o P) {s : Signal}
    (h : signalOf c f = some s) : o.getTiSignal = .ok s := by
  unfold signalOf at h
  rw [ho.ok] at h
  simp only at h
  cases ht : o.getTiSignal with
  | ok t => rw [ht] at h; simp only [Option.some.injEq] at h; rw [h]
  | error e => rw [ht] at h; simp at h

/-- The hypotheses of `C106_follows`: four days, the last close 9 in one table and 12 in the other; the average of two days goes from
hold to buy. -/
example : ∃ o p, BuiltOn demoEnv (.movingAverage (.int 2) (.str "simple")) (lastDays 9) true o Quoted ∧
    BuiltOn demoEnv (.movingAverage (.int 2) (.str "simple")) (lastDays 12) true p Quoted ∧ LastCloseRaised (lastDays 9) (lastDays 12) ∧
    stance o.ind = some .follows ∧ o.getTiSignal = .ok .hold ∧ p.getTiSignal = .ok .buy := by
  have hc : (Call.movingAverage (.int 2) (.str "simple")).check = .ok (.movingAverage 2 .simple) := by decide +kernel
  obtain ⟨o, ho, hoi⟩ := table_built demoEnv _ _ hc _ _ Quoted (by norm_num) (by decide) (Past.required_ohlcv _)
    fun j hj => lastDays_quoted 9 (by norm_num) j hj
  obtain ⟨p, hp, -⟩ := table_built demoEnv _ _ hc _ _ Quoted (by norm_num) (by decide) (Past.required_ohlcv _)
    fun j hj => lastDays_quoted 12 (by norm_num) j hj
  refine ⟨o, p, ho, hp, lastDay_raised [10, 11, 10] 9 12 (by norm_num), by rw [hoi]; rfl, signalOf_eq ho ?_, signalOf_eq hp ?_⟩ <;> decide +kernel

/-- The hypotheses of `C106_opposes`: the last close 8 in one table and 14 in the other; the envelopes go from buy to sell. -/
example : ∃ o p, BuiltOn demoEnv (.envelopes (.int 2) (.float (.fin (1 / 20)))) (lastDays 8) true o Quoted ∧
    BuiltOn demoEnv (.envelopes (.int 2) (.float (.fin (1 / 20)))) (lastDays 14) true p Quoted ∧
    LastCloseRaised (lastDays 8) (lastDays 14) ∧
    stance o.ind = some .opposes ∧ o.getTiSignal = .ok .buy ∧ p.getTiSignal = .ok .sell := by
  have hc : (Call.envelopes (.int 2) (.float (.fin (1 / 20)))).check = .ok (.envelopes 2 (1 / 20)) := by decide +kernel
  obtain ⟨o, ho, hoi⟩ := table_built demoEnv _ _ hc _ _ Quoted (by norm_num) (by decide) (Past.required_ohlcv _)
    fun j hj => lastDays_quoted 8 (by norm_num) j hj
  obtain ⟨p, hp, -⟩ := table_built demoEnv _ _ hc _ _ Quoted (by norm_num) (by decide) (Past.required_ohlcv _)
    fun j hj => lastDays_quoted 14 (by norm_num) j hj
  refine ⟨o, p, ho, hp, lastDay_raised [10, 11, 10] 8 14 (by norm_num), by rw [hoi]; rfl, signalOf_eq ho ?_, signalOf_eq hp ?_⟩ <;> decide +kernel

end TTI.Props
