import Verif.Lemmas.Trend2
import Verif.Props.FormulaAverages
import Verif.Props.FormulaMomentum
import Verif.Props.FormulaOscillators
import Verif.Props.FormulaPrices
import Verif.Props.FormulaStrength
import Verif.Props.FormulaVolume
import Verif.Props.FormulaGaps
import Verif.Props.Regression
import Verif.Props.Sar
import Verif.Props.Volume

set_option autoImplicit false

/-!
# What the indicators show in a market that only rises, or only falls: C101
-/

namespace TTI.Props

open Spec

variable {E : Env} {c : Call} {f : RawFrame} {fill : Bool} {o : Obj}

/-- `n` bars of a market that rises by one every day (`up`), or falls by one every day, latest first. -/
def oneWay (up : Bool) (n : ℕ) : RawFrame :=
  let level (j : ℕ) : ℚ := if up then 100 + (n - 1 - j : ℕ) else 100 + j
  let data (g : ℚ → ℚ) := (List.range n).map fun j => Val.fin (g (level j))
  ⟨true, (List.range n).map fun j => ((n - 1 - j : ℕ) : ℤ),
    [⟨.str "High", true, data fun x => x + 2⟩, ⟨.str "LOW", true, data fun x => x - 1⟩,
      ⟨.str "close", true, data fun x => x⟩, ⟨.str "volume", true, data fun _ => 500⟩]⟩

theorem oneWay_wf (up : Bool) (n : ℕ) : WF (oneWay up n) := by
  intro c hc
  simp only [oneWay, List.mem_cons, List.not_mem_nil, or_false] at hc
  rcases hc with rfl | rfl | rfl | rfl <;> simp [oneWay]

theorem oneWay_rows (up : Bool) (n : ℕ) (names : List String) (hn : ∀ m ∈ names, m ∈ ["high", "low", "close", "volume"]) :
    (oneWay up n).EachRow names (fun x => x "low" ≤ x "close" ∧ x "close" ≤ x "high" ∧ 0 < x "close" ∧ 0 ≤ x "volume") := by
  intro j hj
  have hj' : j < n := by simpa [oneWay] using hj
  let k : ℚ := if up then 100 + (n - 1 - j : ℕ) else 100 + j
  have hk : 0 < k := by
    simp only [k]; split <;> positivity
  refine ⟨fun m => if m = "high" then k + 2 else if m = "low" then k - 1 else if m = "close" then k else 500, ?_, ?_⟩
  · intro m hm
    have := hn m hm
    simp only [List.mem_cons, List.not_mem_nil, or_false] at this
    have e1 : "High".toLower = "high" := by decide +kernel
    have e2 : "LOW".toLower = "low" := by decide +kernel
    have e3 : "close".toLower = "close" := by decide +kernel
    have e4 : "volume".toLower = "volume" := by decide +kernel
    rcases this with rfl | rfl | rfl | rfl <;>
      simp [RawFrame.cell, oneWay, Label.lower, e1, e2, e3, e4, List.find?, hj', k]
  · simp only [if_true, String.reduceEq, if_false]
    refine ⟨?_, ?_, ?_, ?_⟩ <;> linarith

/-- The objects the examples speak of exist: `h` computes the indicator. -/
theorem oneWay_built {E : Env} {c : Call} {ind : Ind} (up : Bool) (n : ℕ) (name : String) (i : ℕ) (v : Val)
    {P : (String → ℚ) → Prop}
    (h : ((construct E c (.frame (oneWay up n)) (.bool true)).2.map fun o => (o.ind, o.getTiData.day name i)) = .ok (ind, v))
    (hn : ∀ m ∈ ind.required, m ∈ ["high", "low", "close", "volume"])
    (hP : ∀ x : String → ℚ, x "low" ≤ x "close" ∧ x "close" ≤ x "high" ∧ 0 < x "close" ∧ 0 ≤ x "volume" → P x) :
    ∃ o, BuiltOn E c (oneWay up n) true o P ∧ o.ind = ind ∧ o.getTiData.day name i = v := by
  cases hc : (construct E c (.frame (oneWay up n)) (.bool true)).2 with
  | error e => rw [hc] at h; simp [Except.map] at h
  | ok o =>
    rw [hc] at h
    simp only [Except.map, Except.ok.injEq, Prod.mk.injEq] at h
    obtain ⟨h1, h2⟩ := h
    refine ⟨o, ⟨oneWay_wf up n, hc, ?_⟩, h1, h2⟩
    rw [h1]
    intro j hj
    obtain ⟨x, hx, hb⟩ := oneWay_rows up n _ hn j hj
    exact ⟨x, hx, hP x hb⟩

/-- The two markets go one way. -/
theorem oneWay_ways : (AlwaysRises (oneWay true 45) "close" ∧ NeverFalls (oneWay true 45) "close" ∧ NeverFalls (oneWay true 45) "high" ∧
      NeverFalls (oneWay true 45) "low" ∧ AllPositive (oneWay true 45) "close" ∧ high (oneWay true 45) 0 < high (oneWay true 45) 1) ∧
    AlwaysFalls (oneWay false 45) "close" ∧ NeverRises (oneWay false 45) "close" ∧ NeverRises (oneWay false 45) "high" ∧
      NeverRises (oneWay false 45) "low" ∧ AllPositive (oneWay false 45) "close" ∧
      high (oneWay false 45) 1 ≤ high (oneWay false 45) 0 := by
  have len : ∀ up, (oneWay up 45).idx.length = 45 := fun up => by simp [oneWay]
  have c1 : ∀ j < 44, price (oneWay true 45) "close" j < price (oneWay true 45) "close" (j + 1) := by decide +kernel
  have c2 : ∀ j < 44, price (oneWay true 45) "high" j < price (oneWay true 45) "high" (j + 1) := by decide +kernel
  have c3 : ∀ j < 44, price (oneWay true 45) "low" j < price (oneWay true 45) "low" (j + 1) := by decide +kernel
  have c4 : ∀ j < 45, 0 < price (oneWay true 45) "close" j := by decide +kernel
  have d1 : ∀ j < 44, price (oneWay false 45) "close" (j + 1) < price (oneWay false 45) "close" j := by decide +kernel
  have d2 : ∀ j < 44, price (oneWay false 45) "high" (j + 1) < price (oneWay false 45) "high" j := by decide +kernel
  have d3 : ∀ j < 44, price (oneWay false 45) "low" (j + 1) < price (oneWay false 45) "low" j := by decide +kernel
  have d4 : ∀ j < 45, 0 < price (oneWay false 45) "close" j := by decide +kernel
  have lt : ∀ up j, j + 1 < (oneWay up 45).idx.length → j < 44 := fun up j h => by rw [len] at h; omega
  exact ⟨⟨fun j h => c1 j (lt _ j h), fun j h => (c1 j (lt _ j h)).le, fun j h => (c2 j (lt _ j h)).le,
      fun j h => (c3 j (lt _ j h)).le, fun j h => c4 j (len true ▸ h), c2 0 (by norm_num)⟩,
    fun j h => d1 j (lt _ j h), fun j h => (d1 j (lt _ j h)).le, fun j h => (d2 j (lt _ j h)).le,
      fun j h => (d3 j (lt _ j h)).le, fun j h => d4 j (len false ▸ h), (d2 0 (by norm_num)).le⟩

/-- The four plain averages are of one kind. -/
theorem average_form (hB : BuiltOn E c f fill o AnyPrices) (name : String) (hn : plainAverage o.ind = some name) :
    ∃ (first : ℕ) (A : (ℕ → ℚ) → ℕ → ℚ),
      (∀ i < f.idx.length, o.getTiData.day name i = since first i (to4 (A (close f) i))) ∧
      (∀ g i, A (fun j => -g j) i = -A g i) ∧
      (∀ g, Up f.idx.length g → ∀ i, first ≤ i → i < f.idx.length → A g i ≤ g i) ∧
      ∀ g, Up f.idx.length g → ∀ j i, first ≤ j → j ≤ i → i < f.idx.length → A g j ≤ A g i := by
  cases ho : o.ind <;> simp only [ho, plainAverage, reduceCtorEq] at hn
  case movingAverage n t =>
    have hp : 1 ≤ n := by obtain ⟨F, -, -, -, -, hp, -⟩ := hB.on ho; exact hp.1
    cases t <;> simp only [reduceCtorEq, Option.some.injEq] at hn <;> subst hn
    · exact ⟨n - 1, meanLast n, fun i hi => C52_simple hB n ho i hi, fun g i => meanLast_neg n i,
        fun g h i _ hi => h.mean_le n hp hi, fun g h j i _ hji hi => (h.mean_up n hp).le hji hi⟩
    · exact ⟨n - 1, ema n 0, fun i hi => C52_exponential hB n ho i hi, fun g i => ema_neg n 0 i,
        fun g h i _ hi => h.ema_le n 0 hp hi (Nat.zero_le _), fun g h j i _ hji hi => (h.ema_up n 0 hp).le hji hi⟩
    · refine ⟨2 * n - 2, fun g => meanLast n (meanLast n g), fun i hi => C52_triangular hB n ho i hi, fun g i => ?_,
        fun g h i _ hi => ((h.mean_up n hp).mean_le n hp hi).trans (h.mean_le n hp hi),
        fun g h j i _ hji hi => ((h.mean_up n hp).mean_up n hp).le hji hi⟩
      have : meanLast n (fun j => -g j) = fun j => -meanLast n g j := funext fun j => meanLast_neg n j
      simp only [this, meanLast_neg]
  case wildersSmoothing n =>
    have hp : 1 ≤ n := by obtain ⟨F, -, -, -, -, hp, -⟩ := hB.on ho; exact hp
    simp only [Option.some.injEq] at hn
    subst hn
    exact ⟨n - 1, wilderAverage n 0, fun i hi => C52_wilders_smoothing hB n ho i hi, fun g i => wilder_neg n 0 i,
      fun g h i hf hi => h.wilder_le n 0 hp hi (by omega),
      fun g h j i hf hji hi => (h.wilder_up n 0 hp (by omega)).le hji hi⟩

/-- C101: when the closes never fall, an average of closes never falls and is never above the close (up to the rounding to four
decimals); when they never rise, it never rises and is never below. -/
theorem C101_averages (hB : BuiltOn E c f fill o AnyPrices) (name : String) (hn : plainAverage o.ind = some name) (i : ℕ)
    (hi : i < f.idx.length) :
    (NeverFalls f "close" → NotAbove (o.getTiData.day name i) (to4 (close f i)) ∧
      ∀ j ≤ i, NotAbove (o.getTiData.day name j) (o.getTiData.day name i)) ∧
    (NeverRises f "close" → NotAbove (to4 (close f i)) (o.getTiData.day name i) ∧
      ∀ j ≤ i, NotAbove (o.getTiData.day name i) (o.getTiData.day name j)) := by
  obtain ⟨first, A, h1, h2, h3, h4⟩ := average_form hB name hn
  refine ⟨fun h => ⟨?_, fun j hj => ?_⟩, fun h => ⟨?_, fun j hj => ?_⟩⟩
  · rw [h1 i hi]
    exact since_notAbove fun hk => le_fin (roundQ_mono 4 (h3 _ h i hk hi))
  · rw [h1 i hi, h1 j (by omega)]
    exact since_notAbove fun hk => notAbove_since fun _ => le_fin (roundQ_mono 4 (h4 _ h j i hk hj hi))
  · rw [h1 i hi]
    refine notAbove_since fun hk => le_fin (roundQ_mono 4 ?_)
    have := h3 _ (Up.neg h) i hk hi
    rw [h2] at this
    exact neg_le_neg_iff.1 this
  · rw [h1 i hi, h1 j (by omega)]
    refine since_notAbove fun _ => notAbove_since fun hk => le_fin (roundQ_mono 4 ?_)
    have := h4 _ (Up.neg h) j i hk hj hi
    rw [h2, h2] at this
    exact neg_le_neg_iff.1 this

/-- The hypotheses of `C101_averages` in the market that rises every day (`oneWay_ways`). -/
example : ∃ o, BuiltOn demoEnv (.movingAverage (.int 4) (.str "simple")) (oneWay true 45) true o AnyPrices ∧ o.ind = .movingAverage 4 .simple ∧
    o.getTiData.day "ma-simple" 8 = .fin (213 / 2) :=
  oneWay_built true 45 "ma-simple" 8 _ (by decide +kernel) (by decide) fun _ _ => trivial

/-- The hypotheses of `C101_averages` in the market that falls every day (`oneWay_ways`). -/
example : ∃ o, BuiltOn demoEnv (.wildersSmoothing (.int 4)) (oneWay false 45) true o AnyPrices ∧ o.ind = .wildersSmoothing 4 ∧
    o.getTiData.day "ws" 8 = .fin (34661 / 250) :=
  oneWay_built false 45 "ws" 8 _ (by decide +kernel) (by decide) fun _ _ => trivial

/-- C101: the price oscillator is not negative when the closes never fall, not positive when they never rise. -/
theorem C101_price_oscillator (hB : BuiltOn E c f fill o AnyPrices) (long short : ℕ) (ho : o.ind = .priceOscillator long short)
    (hpos : AllPositive f "close") (i : ℕ) (hi : i < f.idx.length) :
    (NeverFalls f "close" → NonNegative (o.getTiData.day "posc" i)) ∧
    (NeverRises f "close" → NonPositive (o.getTiData.day "posc" i)) := by
  obtain ⟨h1, h2⟩ : 1 ≤ short ∧ short < long := by obtain ⟨F, -, -, -, -, hp, -⟩ := hB.on ho; exact hp
  have hl : 0 < meanLast long (close f) i := meanLast_pos hpos long (by omega) hi
  rw [C53_price_oscillator hB long short ho i hi, quotient_ne _ _ hl.ne']
  constructor
  · intro h
    refine at_least_zero (since_atLeast fun _ => roundQ_nonneg 4 (div_nonneg ?_ hl.le))
    have := Up.mean_short (g := close f) h short long h1 (by omega) hi
    linarith
  · intro h
    refine at_most_zero (since_atMost fun _ => roundQ_nonpos 4 (div_nonpos_of_nonpos_of_nonneg ?_ hl.le))
    have := Up.mean_short (Up.neg (g := close f) h) short long h1 (by omega) hi
    rw [meanLast_neg, meanLast_neg] at this
    linarith

/-- The hypotheses of `C101_price_oscillator` in the market that rises every day (`oneWay_ways`). -/
example : ∃ o, BuiltOn demoEnv (.priceOscillator (.int 6) (.int 2)) (oneWay true 45) true o AnyPrices ∧ o.ind = .priceOscillator 6 2 ∧
    o.getTiData.day "posc" 8 = .fin (18957 / 10000) :=
  oneWay_built true 45 "posc" 8 _ (by decide +kernel) (by decide) fun _ _ => trivial

/-- C101: the MACD and its signal line are not negative when the closes never fall, not positive when they never rise. -/
theorem C101_macd (hB : BuiltOn E c f fill o AnyPrices) (ho : o.ind = .movingAverageConvergenceDivergence) (i : ℕ)
    (hi : i < f.idx.length) :
    (NeverFalls f "close" → NonNegative (o.getTiData.day "macd" i) ∧ NonNegative (o.getTiData.day "signal_line" i)) ∧
    (NeverRises f "close" → NonPositive (o.getTiData.day "macd" i) ∧ NonPositive (o.getTiData.day "signal_line" i)) := by
  have key : ∀ g, Up f.idx.length g → ∀ j, j < f.idx.length → 0 ≤ macdLine g j := fun g h j hj => by
    have := roundQ_mono 4 (h.ema_fast 12 26 (by norm_num) (by norm_num) hj)
    unfold macdLine; linarith
  have kneg : ∀ g j, macdLine (fun j => -g j) j = -macdLine g j := fun g j => by
    unfold macdLine; rw [ema_neg, ema_neg, roundQ_neg, roundQ_neg]; ring
  have ksig : ∀ g, Up f.idx.length g → 0 ≤ ema 9 25 (macdLine g) i ∨ i < 25 := fun g h => by
    rcases Nat.lt_or_ge i 25 with h25 | h25
    · exact Or.inr h25
    · exact Or.inl (smoothed_nonneg _ (by norm_num) (by norm_num) _ _ (key g h 25 (by omega)) _ _ fun j _ hj => key g h j (by omega))
  obtain ⟨e1, e2⟩ := C53_macd hB ho i hi
  rw [e1, e2]
  refine ⟨fun h => ⟨at_least_zero (since_atLeast fun _ => roundQ_nonneg 4 (key _ h i hi)),
    at_least_zero (since_atLeast fun h33 => roundQ_nonneg 4 ((ksig _ h).resolve_right (by omega)))⟩,
    fun h => ⟨at_most_zero (since_atMost fun _ => roundQ_nonpos 4 ?_), at_most_zero (since_atMost fun h33 => roundQ_nonpos 4 ?_)⟩⟩
  · have := key _ (Up.neg (g := close f) h) i hi
    rw [kneg] at this
    linarith
  · have := (ksig _ (Up.neg (g := close f) h)).resolve_right (by omega)
    have e : macdLine (fun j => -close f j) = fun j => -macdLine (close f) j := funext fun j => kneg _ j
    rw [e, ema_neg] at this
    linarith

/-- The hypotheses of `C101_macd` in the market that rises every day (`oneWay_ways`). -/
example : ∃ o, BuiltOn demoEnv (.movingAverageConvergenceDivergence) (oneWay true 45) true o AnyPrices ∧ o.ind = .movingAverageConvergenceDivergence ∧
    o.getTiData.day "macd" 40 = .fin (12863 / 2000) :=
  oneWay_built true 45 "macd" 40 _ (by decide +kernel) (by decide) fun _ _ => trivial

/-- C101: momentum is at least 100 when the closes never fall and at most 100 when they never rise. -/
theorem C101_momentum (hB : BuiltOn E c f fill o AnyPrices) (n : ℕ) (ho : o.ind = .momentum n)
    (hpos : AllPositive f "close") (i : ℕ) (hi : i < f.idx.length) :
    (NeverFalls f "close" → NoLessThan 100 (o.getTiData.day "mom" i)) ∧
    (NeverRises f "close" → NoMoreThan 100 (o.getTiData.day "mom" i)) := by
  have hl : 0 < close f (i - n) := hpos _ (by omega)
  rw [C53_momentum hB n ho i hi, quotient_ne _ _ hl.ne']
  have e : (100 : ℚ) = roundQ 4 100 := by simp
  constructor
  · intro h
    refine since_atLeast fun _ => ?_
    refine e.le.trans (roundQ_mono 4 ((le_div_iff₀ hl).2 ?_))
    have := Up.le (g := close f) h (show i - n ≤ i by omega) hi
    linarith
  · intro h
    refine since_atMost fun _ => ?_
    refine (roundQ_mono 4 ((div_le_iff₀ hl).2 ?_)).trans e.ge
    have := Up.le (Up.neg (g := close f) h) (show i - n ≤ i by omega) hi
    linarith

/-- The hypotheses of `C101_momentum` in the market that falls every day (`oneWay_ways`). -/
example : ∃ o, BuiltOn demoEnv (.momentum (.int 4)) (oneWay false 45) true o AnyPrices ∧ o.ind = .momentum 4 ∧
    o.getTiData.day "mom" 8 = .fin (971429 / 10000) :=
  oneWay_built false 45 "mom" 8 _ (by decide +kernel) (by decide) fun _ _ => trivial

/-- C101: the rate of change is not negative when the closes never fall and not positive when they never rise. -/
theorem C101_rate_of_change (hB : BuiltOn E c f fill o AnyPrices) (n : ℕ) (ho : o.ind = .priceRateOfChange n)
    (hpos : AllPositive f "close") (i : ℕ) (hi : i < f.idx.length) :
    (NeverFalls f "close" → NonNegative (o.getTiData.day "prc" i)) ∧
    (NeverRises f "close" → NonPositive (o.getTiData.day "prc" i)) := by
  have hl : 0 < close f (i - n) := hpos _ (by omega)
  rw [C53_price_rate_of_change hB n ho i hi, quotient_ne _ _ hl.ne']
  constructor
  · intro h
    refine at_least_zero (since_atLeast fun _ => roundQ_nonneg 4 (div_nonneg ?_ hl.le))
    have := Up.le (g := close f) h (show i - n ≤ i by omega) hi
    linarith
  · intro h
    refine at_most_zero (since_atMost fun _ => roundQ_nonpos 4 (div_nonpos_of_nonpos_of_nonneg ?_ hl.le))
    have := Up.le (Up.neg (g := close f) h) (show i - n ≤ i by omega) hi
    linarith

/-- The hypotheses of `C101_rate_of_change` in the market that rises every day (`oneWay_ways`). -/
example : ∃ o, BuiltOn demoEnv (.priceRateOfChange (.int 4)) (oneWay true 45) true o AnyPrices ∧ o.ind = .priceRateOfChange 4 ∧
    o.getTiData.day "prc" 8 = .fin (19231 / 5000) :=
  oneWay_built true 45 "prc" 8 _ (by decide +kernel) (by decide) fun _ _ => trivial

/-- C101: the performance never falls when the closes never fall, and never rises when they never rise. -/
theorem C101_performance (hB : BuiltOn E c f fill o AnyPrices) (long : Bool) (target : Val) (ho : o.ind = .performance long target)
    (hpos : AllPositive f "close") (i j : ℕ) (hji : j ≤ i) (hi : i < f.idx.length) :
    (NeverFalls f "close" → NotAbove (o.getTiData.day "prf" j) (o.getTiData.day "prf" i)) ∧
    (NeverRises f "close" → NotAbove (o.getTiData.day "prf" i) (o.getTiData.day "prf" j)) := by
  have hl : 0 < close f 0 := hpos _ (by omega)
  rw [(C53_performance hB long target ho i hi).1, (C53_performance hB long target ho j (by omega)).1, quotient_ne _ _ hl.ne',
    quotient_ne _ _ hl.ne']
  refine ⟨fun h => le_fin (roundQ_mono 4 (div_le_div_of_nonneg_right ?_ hl.le)),
    fun h => le_fin (roundQ_mono 4 (div_le_div_of_nonneg_right ?_ hl.le))⟩
  · have := Up.le (g := close f) h hji hi
    linarith
  · have := Up.le (Up.neg (g := close f) h) hji hi
    linarith

/-- The hypotheses of `C101_performance` in the market that rises every day (`oneWay_ways`). -/
example : ∃ o, BuiltOn demoEnv (.performance (.str "LONG") (.float (.fin (1 / 10)))) (oneWay true 45) true o AnyPrices ∧ o.ind = .performance true (.fin (1 / 10)) ∧
    o.getTiData.day "prf" 8 = .fin (2 / 25) :=
  oneWay_built true 45 "prf" 8 _ (by decide +kernel) (by decide) fun _ _ => trivial

/-- C101: when the closes never fall, Chande's momentum is 100 on every day on which the close is above the one `n` days before,
and missing on all others; when the closes never rise it is -100 or missing. -/
theorem C101_chande (hB : BuiltOn E c f fill o AnyPrices) (n : ℕ) (ho : o.ind = .chandeMomentumOscillator n) (i : ℕ)
    (hi : i < f.idx.length) :
    (NeverFalls f "close" → o.getTiData.day "cmo" i = since n i (if close f (i - n) = close f i then .nan else .fin 100)) ∧
    (NeverRises f "close" → o.getTiData.day "cmo" i = since n i (if close f (i - n) = close f i then .nan else .fin (-100))) := by
  rw [C55_chande hB n ho i hi]
  unfold since
  refine ⟨fun h => ?_, fun h => ?_⟩
  · split
    · rfl
    · exact Up.chande_eq h n (by omega) hi
  · split
    · rfl
    · have e := Up.chande_eq (Up.neg (g := close f) h) n (by omega) hi
      have hs := (Up.neg (g := close f) h).sum_gain n (show n ≤ i by omega) hi
      have hz := (Up.neg (g := close f) h).sum_loss n hi
      rw [gain_neg] at hs
      rw [loss_neg] at hz
      unfold chande
      rw [hs, hz]
      split
      · next e => simp [e, quotient, round4, Val.round]
      · next e =>
        have hD : -close f i - -close f (i - n) ≠ 0 := fun h => e (by linarith)
        rw [quotient_ne _ _ (by simpa using hD)]
        simp only [zero_sub, zero_add]
        rw [mul_neg, neg_div, mul_div_assoc, div_self hD]
        simp [round4, Val.round]

/-- The hypotheses of `C101_chande` in the market that falls every day (`oneWay_ways`). -/
example : ∃ o, BuiltOn demoEnv (.chandeMomentumOscillator (.int 4)) (oneWay false 45) true o AnyPrices ∧ o.ind = .chandeMomentumOscillator 4 ∧
    o.getTiData.day "cmo" 8 = .fin (-100) :=
  oneWay_built false 45 "cmo" 8 _ (by decide +kernel) (by decide) fun _ _ => trivial

/-- C101: when the closes never fall, the relative strength index is 100 (or missing, as long as nothing moved); when they never
rise it is 0 (or missing). -/
theorem C101_relative_strength (hB : BuiltOn E c f fill o AnyPrices) (n : ℕ) (ho : o.ind = .relativeStrengthIndex n) (i : ℕ)
    (hi : i < f.idx.length) :
    (NeverFalls f "close" → o.getTiData.day "rsi" i = .nan ∨ o.getTiData.day "rsi" i = .fin 100) ∧
    (NeverRises f "close" → o.getTiData.day "rsi" i = .nan ∨ o.getTiData.day "rsi" i = .fin 0) := by
  rw [C60_relative_strength hB n ho i hi]
  unfold since
  split
  · exact ⟨fun _ => Or.inl rfl, fun _ => Or.inl rfl⟩
  refine ⟨fun h => ?_, fun h => ?_⟩
  · have hz : fallPart f n i = 0 := roundedAverage_zero n _ i (by omega) fun j hj => by
      simp only [Up.loss_eq (g := close f) h (show j < f.idx.length by omega), roundQ_zero]
    rw [hz, add_zero]
    by_cases h0 : risePart f n i = 0
    · left; simp [h0, quotient, round4, Val.round]
    · right; rw [quotient_ne _ _ h0, mul_div_assoc, div_self h0]; simp [round4, Val.round]
  · have hz : risePart f n i = 0 := roundedAverage_zero n _ i (by omega) fun j hj => by
      have := (Up.neg (g := close f) h).loss_eq (show j < f.idx.length by omega)
      rw [loss_neg] at this
      simp only [this, roundQ_zero]
    rw [hz, zero_add]
    by_cases h0 : fallPart f n i = 0
    · left; simp [h0, quotient, round4, Val.round]
    · right; rw [quotient_ne _ _ h0]; simp [round4, Val.round]

/-- The hypotheses of `C101_relative_strength` in the market that rises every day (`oneWay_ways`). -/
example : ∃ o, BuiltOn demoEnv (.relativeStrengthIndex (.int 4)) (oneWay true 45) true o AnyPrices ∧ o.ind = .relativeStrengthIndex 4 ∧
    o.getTiData.day "rsi" 8 = .fin 100 :=
  oneWay_built true 45 "rsi" 8 _ (by decide +kernel) (by decide) fun _ _ => trivial

/-- C101: when the closes never fall, the relative momentum index has no value at all; when they never rise it is 0 or missing. -/
theorem C101_relative_momentum (hB : BuiltOn E c f fill o AnyPrices) (n m : ℕ) (ho : o.ind = .relativeMomentumIndex n m) (i : ℕ)
    (hi : i < f.idx.length) :
    (NeverFalls f "close" → o.getTiData.day "rmi" i = .nan) ∧
    (NeverRises f "close" → o.getTiData.day "rmi" i = .nan ∨ o.getTiData.day "rmi" i = .fin 0) := by
  rw [C60_relative_momentum hB n m ho i hi]
  unfold since
  by_cases hk : i < n + m - 1
  · rw [if_pos hk]; exact ⟨fun _ => rfl, fun _ => Or.inl rfl⟩
  rw [if_neg hk]
  refine ⟨fun h => ?_, fun h => ?_⟩
  · rw [if_pos]
    refine wilder_zero _ _ _ _ (by omega) fun j hj => max_eq_right ?_
    linarith [Up.le (g := close f) h (show j - m ≤ j by omega) (show j < f.idx.length by omega)]
  · split
    · exact Or.inl rfl
    · right
      rw [wilder_zero n m (gainOver m (close f)) i (by omega) fun j hj => max_eq_right
        (by linarith [Up.le (Up.neg (g := close f) h) (show j - m ≤ j by omega) (show j < f.idx.length by omega)])]
      simp [to4]

/-- The hypotheses of `C101_relative_momentum` in the market that falls every day (`oneWay_ways`). -/
example : ∃ o, BuiltOn demoEnv (.relativeMomentumIndex (.int 4) (.int 2)) (oneWay false 45) true o AnyPrices ∧ o.ind = .relativeMomentumIndex 4 2 ∧
    o.getTiData.day "rmi" 8 = .fin 0 :=
  oneWay_built false 45 "rmi" 8 _ (by decide +kernel) (by decide) fun _ _ => trivial

/-- C101: the linear regression slope is not negative when the closes never fall, and not positive when they never rise. -/
theorem C101_slope (hB : BuiltOn E c f fill o AnyPrices) (p : ℕ) (ho : o.ind = .linearRegressionSlope p) (i : ℕ)
    (hi : i < f.idx.length) :
    (NeverFalls f "close" → NonNegative (o.getTiData.day "lrs" i)) ∧
    (NeverRises f "close" → NonPositive (o.getTiData.day "lrs" i)) := by
  obtain ⟨F, hl, hn, -, ht, hp, -⟩ := hB.on ho
  have hcl : Nums F.len 0 (close f) (F.col "close") := hn _ (by simp [Ind.required])
  have e : o.getTiData.day "lrs" i = _ :=
    Ind.LinearRegressionSlope.exact p hp F _ (close f) hcl.len (fun i hi => hcl.fin hi (by omega)) ht i (hl ▸ hi)
  rw [e]
  split
  · split
    · exact ⟨fun _ => Or.inl rfl, fun _ => Or.inl rfl⟩
    · next h1 =>
      have h2 : 2 ≤ p := by have : 1 ≤ p := hp; omega
      refine ⟨fun h => Or.inr ⟨_, rfl, roundQ_nonneg 4 (slope_nonneg _ _ p h2 fun t u htu hu =>
        Up.le (g := close f) h (by omega) (by omega))⟩, fun h => Or.inr ⟨_, rfl, roundQ_nonpos 4 ?_⟩⟩
      have := slope_nonneg (fun j => -close f j) (i + 1 - p) p h2 fun t u htu hu =>
        Up.le (Up.neg (g := close f) h) (show i + 1 - p + t ≤ i + 1 - p + u by omega) (by omega)
      rw [slope_neg] at this
      linarith
  · exact ⟨fun _ => Or.inl rfl, fun _ => Or.inl rfl⟩

/-- The hypotheses of `C101_slope` in the market that falls every day (`oneWay_ways`). -/
example : ∃ o, BuiltOn demoEnv (.linearRegressionSlope (.int 4)) (oneWay false 45) true o AnyPrices ∧ o.ind = .linearRegressionSlope 4 ∧
    o.getTiData.day "lrs" 8 = .fin (-1) :=
  oneWay_built false 45 "lrs" 8 _ (by decide +kernel) (by decide) fun _ _ => trivial

/-- The numbers of the days of a traded market. -/
theorem traded_days (hB : BuiltOn E c f fill o Traded) (hc : "close" ∈ o.ind.required) (hv : "volume" ∈ o.ind.required) :
    ∀ j < f.idx.length, 0 < close f j ∧ 0 ≤ volume f j := by
  obtain ⟨F, hl, -, hP, -⟩ := hB.cols
  intro j hj
  obtain ⟨x, hx, hb⟩ := hP j (by omega)
  have e1 : x "close" = close f j := hx _ hc
  have e2 : x "volume" = volume f j := hx _ hv
  exact ⟨e1 ▸ hb.1, e2 ▸ hb.2⟩

theorem traded_nonzero (hB : BuiltOn E c f fill o Traded) : f.EachRow o.ind.required NonzeroClose := fun j hj =>
  (hB.rows j hj).imp fun x hx => ⟨hx.1, hx.2.1.ne'⟩

theorem traded_any (hB : BuiltOn E c f fill o Traded) : f.EachRow o.ind.required AnyPrices := fun j hj =>
  (hB.rows j hj).imp fun x hx => ⟨hx.1, trivial⟩

/-- C101: on-balance volume never falls when the closes never fall, and never rises when they never rise. -/
theorem C101_on_balance_volume (hB : BuiltOn E c f fill o Traded) (ho : o.ind = .onBalanceVolume) (i j : ℕ) (hji : j ≤ i)
    (hi : i < f.idx.length) :
    (NeverFalls f "close" → NotAbove (o.getTiData.day "obv" j) (o.getTiData.day "obv" i)) ∧
    (NeverRises f "close" → NotAbove (o.getTiData.day "obv" i) (o.getTiData.day "obv" j)) := by
  have hd := traded_days hB (by rw [ho]; decide) (by rw [ho]; decide)
  rw [C43_on_balance_volume E c f fill o hB.wf hB.ok (traded_any hB) ho i hi,
    C43_on_balance_volume E c f fill o hB.wf hB.ok (traded_any hB) ho j (by omega)]
  refine ⟨fun h => le_fin ?_, fun h => le_fin ?_⟩
  · have e : ∀ k, k < f.idx.length → closeFell f k = ∅ := fun k hk => Finset.filter_eq_empty_iff.2 fun t ht => by
      have := Up.le (g := close f) h (show t - 1 ≤ t by omega) (by have := Finset.mem_Ico.1 ht; omega)
      exact not_lt.2 this
    rw [e i hi, e j (by omega)]
    simp only [Finset.sum_empty, sub_zero]
    refine Finset.sum_le_sum_of_subset_of_nonneg (Finset.filter_subset_filter _ (Finset.Ico_subset_Ico_right (by omega)))
      fun t ht _ => (hd t ?_).2
    have := Finset.mem_Ico.1 (Finset.mem_filter.1 ht).1
    omega
  · have e : ∀ k, k < f.idx.length → closeRose f k = ∅ := fun k hk => Finset.filter_eq_empty_iff.2 fun t ht => by
      have := Up.le (Up.neg (g := close f) h) (show t - 1 ≤ t by omega) (by have := Finset.mem_Ico.1 ht; omega)
      exact not_lt.2 (neg_le_neg_iff.1 this)
    rw [e i hi, e j (by omega)]
    simp only [Finset.sum_empty, zero_sub]
    refine neg_le_neg (Finset.sum_le_sum_of_subset_of_nonneg
      (Finset.filter_subset_filter _ (Finset.Ico_subset_Ico_right (by omega))) fun t ht _ => (hd t ?_).2)
    have := Finset.mem_Ico.1 (Finset.mem_filter.1 ht).1
    omega

/-- The hypotheses of `C101_on_balance_volume` in the market that falls every day (`oneWay_ways`). -/
example : ∃ o, BuiltOn demoEnv (.onBalanceVolume) (oneWay false 45) true o Traded ∧ o.ind = .onBalanceVolume ∧
    o.getTiData.day "obv" 8 = .fin (-4000) :=
  oneWay_built false 45 "obv" 8 _ (by decide +kernel) (by decide) fun _ h => h.2.2

/-- C101: the price and volume trend never falls when the closes never fall, and never rises when they never rise. -/
theorem C101_price_and_volume_trend (hB : BuiltOn E c f fill o Traded) (ho : o.ind = .priceAndVolumeTrend) (i j : ℕ) (hji : j ≤ i)
    (hi : i < f.idx.length) :
    (NeverFalls f "close" → NotAbove (o.getTiData.day "pvt" j) (o.getTiData.day "pvt" i)) ∧
    (NeverRises f "close" → NotAbove (o.getTiData.day "pvt" i) (o.getTiData.day "pvt" j)) := by
  have hd := traded_days hB (by rw [ho]; decide) (by rw [ho]; decide)
  rw [C43_price_and_volume_trend E c f fill o hB.wf hB.ok (traded_nonzero hB) ho i hi,
    C43_price_and_volume_trend E c f fill o hB.wf hB.ok (traded_nonzero hB) ho j (by omega)]
  refine ⟨fun h => le_fin (roundQ_mono 4 ?_), fun h => le_fin (roundQ_mono 4 ?_)⟩
  · refine Finset.sum_le_sum_of_subset_of_nonneg (Finset.Ico_subset_Ico_right (by omega)) fun t ht _ => ?_
    have ht' := Finset.mem_Ico.1 ht
    have := Up.le (g := close f) h (show t - 1 ≤ t by omega) (by omega)
    exact mul_nonneg (hd t (by omega)).2 (div_nonneg (by linarith) (hd (t - 1) (by omega)).1.le)
  · rw [← neg_le_neg_iff, ← Finset.sum_neg_distrib, ← Finset.sum_neg_distrib]
    refine Finset.sum_le_sum_of_subset_of_nonneg (Finset.Ico_subset_Ico_right (by omega)) fun t ht _ => ?_
    have ht' := Finset.mem_Ico.1 ht
    have := Up.le (Up.neg (g := close f) h) (show t - 1 ≤ t by omega) (by omega)
    rw [← mul_neg, ← neg_div]
    exact mul_nonneg (hd t (by omega)).2 (div_nonneg (by linarith) (hd (t - 1) (by omega)).1.le)

/-- The hypotheses of `C101_price_and_volume_trend` in the market that rises every day (`oneWay_ways`). -/
example : ∃ o, BuiltOn demoEnv (.priceAndVolumeTrend) (oneWay true 45) true o Traded ∧ o.ind = .priceAndVolumeTrend ∧
    o.getTiData.day "pvt" 8 = .fin (386663 / 10000) :=
  oneWay_built true 45 "pvt" 8 _ (by decide +kernel) (by decide) fun _ h => h.2.2

/-- C101: the negative and the positive volume index never fall when the closes never fall, and never rise when they never
rise. -/
theorem C101_volume_indices (hB : BuiltOn E c f fill o Traded) (name : String)
    (ho : o.ind = .negativeVolumeIndex ∧ name = "nvi" ∨ o.ind = .positiveVolumeIndex ∧ name = "pvi") (i j : ℕ) (hji : j ≤ i)
    (hi : i < f.idx.length) :
    (NeverFalls f "close" → NotAbove (o.getTiData.day name j) (o.getTiData.day name i)) ∧
    (NeverRises f "close" → NotAbove (o.getTiData.day name i) (o.getTiData.day name j)) := by
  have hd := traded_days hB (by rcases ho with ⟨ho, -⟩ | ⟨ho, -⟩ <;> rw [ho] <;> decide)
    (by rcases ho with ⟨ho, -⟩ | ⟨ho, -⟩ <;> rw [ho] <;> decide)
  have key : ∀ (P : ℕ → Prop) [DecidablePred P],
      (NeverFalls f "close" → NotAbove (.fin (roundQ 4 (1000 * ∏ t ∈ (Finset.Ico 1 (j + 1)).filter P, close f t / close f (t - 1))))
        (.fin (roundQ 4 (1000 * ∏ t ∈ (Finset.Ico 1 (i + 1)).filter P, close f t / close f (t - 1))))) ∧
      (NeverRises f "close" → NotAbove (.fin (roundQ 4 (1000 * ∏ t ∈ (Finset.Ico 1 (i + 1)).filter P, close f t / close f (t - 1))))
        (.fin (roundQ 4 (1000 * ∏ t ∈ (Finset.Ico 1 (j + 1)).filter P, close f t / close f (t - 1))))) := by
    intro P _
    have hpos : ∀ k, k < f.idx.length → 0 < ∏ t ∈ (Finset.Ico 1 (k + 1)).filter P, close f t / close f (t - 1) := fun k hk =>
      Finset.prod_pos fun t ht => by
        have := Finset.mem_Ico.1 (Finset.mem_filter.1 ht).1
        exact div_pos (hd t (by omega)).1 (hd _ (by omega)).1
    have hstep : ∀ k, ∏ t ∈ (Finset.Ico 1 (k + 1 + 1)).filter P, close f t / close f (t - 1) =
        (∏ t ∈ (Finset.Ico 1 (k + 1)).filter P, close f t / close f (t - 1)) *
          if P (k + 1) then close f (k + 1) / close f k else 1 := fun k => by
      rw [Finset.prod_filter, Finset.prod_filter, Finset.prod_Ico_succ_top (by omega)]; rfl
    refine ⟨fun h => le_fin (roundQ_mono 4 (mul_le_mul_of_nonneg_left ?_ (by norm_num))),
      fun h => le_fin (roundQ_mono 4 (mul_le_mul_of_nonneg_left ?_ (by norm_num)))⟩
    · refine Up.le (n := f.idx.length) (g := fun k => ∏ t ∈ (Finset.Ico 1 (k + 1)).filter P, close f t / close f (t - 1))
        (fun k hk => ?_) hji hi
      show _ ≤ ∏ t ∈ (Finset.Ico 1 (k + 1 + 1)).filter P, close f t / close f (t - 1)
      rw [hstep]
      refine le_mul_of_one_le_right (hpos k (by omega)).le ?_
      split
      · exact (one_le_div (hd k (by omega)).1).2 (h k hk)
      · exact le_refl _
    · rw [← neg_le_neg_iff]
      refine Up.le (n := f.idx.length) (g := fun k => -∏ t ∈ (Finset.Ico 1 (k + 1)).filter P, close f t / close f (t - 1))
        (fun k hk => neg_le_neg ?_) hji hi
      show ∏ t ∈ (Finset.Ico 1 (k + 1 + 1)).filter P, close f t / close f (t - 1) ≤ _
      rw [hstep]
      refine mul_le_of_le_one_right (hpos k (by omega)).le ?_
      split
      · exact (div_le_one (hd k (by omega)).1).2 (h k hk)
      · exact le_refl _
  rcases ho with ⟨ho, rfl⟩ | ⟨ho, rfl⟩
  · rw [C43_negative_volume_index E c f fill o hB.wf hB.ok (traded_nonzero hB) ho i hi,
      C43_negative_volume_index E c f fill o hB.wf hB.ok (traded_nonzero hB) ho j (by omega)]
    exact key _
  · rw [C43_positive_volume_index E c f fill o hB.wf hB.ok (traded_nonzero hB) ho i hi,
      C43_positive_volume_index E c f fill o hB.wf hB.ok (traded_nonzero hB) ho j (by omega)]
    exact key _

/-- The hypotheses of `C101_volume_indices` in the market that falls every day (`oneWay_ways`). -/
example : ∃ o, BuiltOn demoEnv (.negativeVolumeIndex) (oneWay false 45) true o Traded ∧ o.ind = .negativeVolumeIndex ∧
    o.getTiData.day "nvi" 8 = .fin 1000 :=
  oneWay_built false 45 "nvi" 8 _ (by decide +kernel) (by decide) fun _ h => h.2.2

/-- C101: Williams' accumulation and distribution is not negative when the closes never fall, not positive when they never
rise. -/
theorem C101_williams (hB : BuiltOn E c f fill o AnyPrices) (ho : o.ind = .williamsAccumulationDistribution) (i : ℕ)
    (hi : i < f.idx.length) :
    (NeverFalls f "close" → NonNegative (o.getTiData.day "wad" i)) ∧
    (NeverRises f "close" → NonPositive (o.getTiData.day "wad" i)) := by
  rw [C59_williams hB ho i hi]
  refine ⟨fun h => at_least_zero (since_atLeast fun _ => roundQ_nonneg 4 ?_),
    fun h => at_most_zero (since_atMost fun _ => roundQ_nonpos 4 ?_)⟩
  · have := Up.le (g := close f) h (show i - 1 ≤ i by omega) hi
    unfold accumulation
    rw [if_neg (not_lt.2 this)]
    split
    · linarith [min_le_left (close f (i - 1)) (low f i)]
    · exact le_refl _
  · have := Up.le (Up.neg (g := close f) h) (show i - 1 ≤ i by omega) hi
    unfold accumulation
    split
    · linarith [le_max_left (close f (i - 1)) (high f i)]
    · rw [if_neg (by linarith)]

/-- The hypotheses of `C101_williams` in the market that rises every day (`oneWay_ways`). -/
example : ∃ o, BuiltOn demoEnv (.williamsAccumulationDistribution) (oneWay true 45) true o AnyPrices ∧ o.ind = .williamsAccumulationDistribution ∧
    o.getTiData.day "wad" 8 = .fin 1 :=
  oneWay_built true 45 "wad" 8 _ (by decide +kernel) (by decide) fun _ _ => trivial

/-- C101: when neither the highs nor the lows ever fall, the falling directional line is 0 and the contrast is 100 (or missing, as
long as nothing moved); when neither ever rises, the rising line is 0 and the contrast is 100 (or missing). -/
theorem C101_directional (hB : BuiltOn E c f fill o CloseInside) (ho : o.ind = .directionalMovementIndex) (i : ℕ)
    (hi : i < f.idx.length) :
    (NeverFalls f "high" → NeverFalls f "low" →
      (o.getTiData.day "-di" i = .nan ∨ o.getTiData.day "-di" i = .fin 0) ∧
      (o.getTiData.day "dx" i = .nan ∨ o.getTiData.day "dx" i = .fin 100)) ∧
    (NeverRises f "high" → NeverRises f "low" →
      (o.getTiData.day "+di" i = .nan ∨ o.getTiData.day "+di" i = .fin 0) ∧
      (o.getTiData.day "dx" i = .nan ∨ o.getTiData.day "dx" i = .fin 100)) := by
  have hB' : BuiltOn E c f fill o AnyPrices := ⟨hB.wf, hB.ok, fun j hj => (hB.rows j hj).imp fun x hx => ⟨hx.1, trivial⟩⟩
  have hc : ∀ j < f.idx.length, low f j ≤ close f j ∧ close f j ≤ high f j := by
    obtain ⟨F, hl, hn, hP, ht, hp, -⟩ := hB.on ho
    intro j hj
    obtain ⟨x, hx, hb⟩ := hP j (by omega)
    have e1 : x "close" = close f j := hx _ (by simp [Ind.required])
    have e2 : x "high" = high f j := hx _ (by simp [Ind.required])
    have e3 : x "low" = low f j := hx _ (by simp [Ind.required])
    exact ⟨e1 ▸ e3 ▸ hb.1, e1 ▸ e2 ▸ hb.2⟩
  obtain ⟨ep, em⟩ := C57_directional_lines hB' ho i hi
  have ed := (C57_directional_any hB ho i hi).1
  rw [ep, em, ed]
  unfold since
  by_cases h14 : i < 14
  · simp only [if_pos h14]
    exact ⟨fun _ _ => ⟨Or.inl trivial, Or.inl trivial⟩, fun _ _ => ⟨Or.inl trivial, Or.inl trivial⟩⟩
  simp only [if_neg h14]
  have hmv : ∀ j, 1 ≤ j → j ≤ i → _ := fun j h1 h2 =>
    moves_le f j h1 (hc (j - 1) (by omega)) ((hc j (by omega)).1.trans (hc j (by omega)).2)
  have hp := total14_eq_zero (plusMove f) i (by omega) fun j h1 h2 => (hmv j h1 h2).1
  have hm := total14_eq_zero (minusMove f) i (by omega) fun j h1 h2 => (hmv j h1 h2).2.1
  have ht := total14_eq_zero (trueRange f) i (by omega) fun j h1 h2 => (hmv j h1 h2).1.trans (hmv j h1 h2).2.2.1
  have hz : ∀ x, round4 (quotient (100 * 0) x) = .nan ∨ round4 (quotient (100 * 0) x) = .fin 0 := fun x => by
    by_cases hx : x = 0
    · left; simp [hx, quotient, round4, Val.round]
    · right; rw [quotient_ne _ _ hx]; simp [round4, Val.round]
  have ht0 : ¬ NoMove f i → total14 (trueRange f) i ≠ 0 := fun hq h => hq fun j h2 h1 => by
    have := ht.1 h j h1 h2
    have := hmv j h1 h2
    constructor <;> linarith
  refine ⟨fun hh hl => ?_, fun hh hl => ?_⟩
  · have h0 : total14 (minusMove f) i = 0 := hm.2 fun j h1 h2 => if_neg fun h => by
      have := Up.le (g := low f) hl (show j - 1 ≤ j by omega) (by omega)
      linarith [h.2]
    rw [h0]
    refine ⟨hz _, ?_⟩
    split
    · exact Or.inl rfl
    · next hq =>
      right
      have h1 : total14 (plusMove f) i ≠ 0 := fun h => hq fun j h2 h1 => ⟨hp.1 h j h1 h2, hm.1 h0 j h1 h2⟩
      have h2 : |plusLine f i| ≠ 0 := abs_ne_zero.2 (div_ne_zero (mul_ne_zero (by norm_num) h1) (ht0 hq))
      unfold contrast minusLine
      rw [h0, mul_zero, zero_div, sub_zero, add_zero, mul_div_assoc, div_self h2]
      simp [to4]
  · have h0 : total14 (plusMove f) i = 0 := hp.2 fun j h1 h2 => if_neg fun h => by
      have := Up.le (Up.neg (g := high f) hh) (show j - 1 ≤ j by omega) (by omega)
      linarith [h.2]
    rw [h0]
    refine ⟨hz _, ?_⟩
    split
    · exact Or.inl rfl
    · next hq =>
      right
      have h1 : total14 (minusMove f) i ≠ 0 := fun h => hq fun j h2 h1 => ⟨hp.1 h0 j h1 h2, hm.1 h j h1 h2⟩
      have h2 : |minusLine f i| ≠ 0 := abs_ne_zero.2 (div_ne_zero (mul_ne_zero (by norm_num) h1) (ht0 hq))
      unfold contrast plusLine
      rw [h0, mul_zero, zero_div, zero_sub, zero_add, abs_neg, mul_div_assoc, div_self h2]
      simp [to4]

/-- The hypotheses of `C101_directional` in the market that falls every day (`oneWay_ways`). -/
example : ∃ o, BuiltOn demoEnv (.directionalMovementIndex) (oneWay false 45) true o CloseInside ∧ o.ind = .directionalMovementIndex ∧
    o.getTiData.day "dx" 30 = .fin 100 :=
  oneWay_built false 45 "dx" 30 _ (by decide +kernel) (by decide) fun _ h => ⟨h.1, h.2.1⟩

/-- C101: when neither the highs nor the lows ever fall, the conversion line of the Ichimoku cloud is never below its base line;
when neither ever rises, it is never above. -/
theorem C101_ichimoku (hB : BuiltOn E c f fill o AnyPrices) (ho : o.ind = .ichimokuCloud) (i : ℕ) (hi : i < f.idx.length) :
    (NeverFalls f "high" → NeverFalls f "low" → NotAbove (o.getTiData.day "kijun_sen" i) (o.getTiData.day "tenkan_sen" i)) ∧
    (NeverRises f "high" → NeverRises f "low" → NotAbove (o.getTiData.day "tenkan_sen" i) (o.getTiData.day "kijun_sen" i)) := by
  obtain ⟨e1, e2, -⟩ := C56_ichimoku hB ho i hi
  rw [e1, e2]
  obtain ⟨a1, t1, h1, b1⟩ := Nums.highest_spec 9 (by norm_num) (high f) i
  obtain ⟨a2, t2, h2, b2⟩ := Nums.highest_spec 26 (by norm_num) (high f) i
  obtain ⟨a3, t3, h3, b3⟩ := Nums.lowest_spec 9 (by norm_num) (low f) i
  obtain ⟨a4, t4, h4, b4⟩ := Nums.lowest_spec 26 (by norm_num) (low f) i
  refine ⟨fun hh hl => le_fin (roundQ_mono 4 ?_), fun hh hl => le_fin (roundQ_mono 4 ?_)⟩
  · have u1 : highest 26 (high f) i ≤ highest 9 (high f) i := by
      rw [b2]; exact (Up.le (g := high f) hh (by omega) hi).trans (a1 0 (by norm_num))
    have u2 : lowest 26 (low f) i ≤ lowest 9 (low f) i := by rw [b3]; exact a4 t3 (by omega)
    unfold midRange; linarith
  · have u1 : highest 9 (high f) i ≤ highest 26 (high f) i := by rw [b1]; exact a2 _ (by omega)
    have u2 : lowest 9 (low f) i ≤ lowest 26 (low f) i := by
      rw [b4]
      refine (a3 0 (by norm_num)).trans ?_
      have := Up.le (Up.neg (g := low f) hl) (show i - t4 ≤ i by omega) hi
      exact neg_le_neg_iff.1 this
    unfold midRange; linarith

/-- The hypotheses of `C101_ichimoku` in the market that rises every day (`oneWay_ways`). -/
example : ∃ o, BuiltOn demoEnv (.ichimokuCloud) (oneWay true 45) true o AnyPrices ∧ o.ind = .ichimokuCloud ∧
    o.getTiData.day "kijun_sen" 30 = .fin 118 :=
  oneWay_built true 45 "kijun_sen" 30 _ (by decide +kernel) (by decide) fun _ _ => trivial

/-- C101: when the second high is above the first one and the lows never fall, the parabolic SAR is never above the low of the
day; when the second high is not above the first one and the highs never rise, it is never below the high. -/
theorem C101_parabolic_sar (hB : BuiltOn E c f fill o AnyPrices) (ho : o.ind = .parabolicSAR) (i : ℕ) (hi : i < f.idx.length) :
    (high f 0 < high f 1 → NeverFalls f "low" → NotAbove (o.getTiData.day "sar" i) (to4 (low f i))) ∧
    (high f 1 ≤ high f 0 → NeverRises f "high" → NotAbove (to4 (high f i)) (o.getTiData.day "sar" i)) := by
  obtain ⟨D, hD, hv⟩ := C46_run E c f fill o hB.wf hB.ok hB.rows ho
  rw [hv i hi]
  refine ⟨fun h0 hl => ?_, fun h0 hh => ?_⟩
  · have key : ∀ j, j < f.idx.length → (D j).long = true ∧ (D j).sar ≤ low f j := by
      intro j
      induction j with
      | zero =>
        intro _
        obtain ⟨f1, f2⟩ := hD.first
        have h0' : highOf f 0 < highOf f 1 := h0
        rw [f1, f2, if_pos h0']
        exact ⟨by simpa using h0', le_refl _⟩
      | succ j ih =>
        intro hj
        obtain ⟨l1, -⟩ := ih (by omega)
        have hs : longStop (lowOf f) j (D j) ≤ low f (j + 1) :=
          ((min_le_right _ _).trans (min_le_right _ _)).trans (Up.le (g := low f) hl (by omega) hj)
        have := hD.long j hj l1
        rw [if_neg (show ¬ lowOf f (j + 1) < _ from not_lt.2 hs)] at this
        exact ⟨this.1, this.2 ▸ hs⟩
    exact le_fin (roundQ_mono 4 (key i hi).2)
  · have key : ∀ j, j < f.idx.length → (D j).long = false ∧ high f j ≤ (D j).sar := by
      intro j
      induction j with
      | zero =>
        intro _
        obtain ⟨f1, f2⟩ := hD.first
        have h0' : ¬ highOf f 0 < highOf f 1 := not_lt.2 h0
        rw [f1, f2, if_neg h0']
        exact ⟨decide_eq_false h0', le_refl _⟩
      | succ j ih =>
        intro hj
        obtain ⟨l1, -⟩ := ih (by omega)
        have hu : high f (j + 1) ≤ high f j := hh j hj
        have hs : high f (j + 1) ≤ shortStop (highOf f) j (D j) :=
          hu.trans ((le_max_right _ _).trans (le_max_right _ _))
        have := hD.short j hj l1
        rw [if_neg (show ¬ _ < highOf f (j + 1) from not_lt.2 hs)] at this
        exact ⟨this.1, this.2 ▸ hs⟩
    exact le_fin (roundQ_mono 4 (key i hi).2)

/-- The hypotheses of `C101_parabolic_sar` in the market that falls every day (`oneWay_ways`). -/
example : ∃ o, BuiltOn demoEnv (.parabolicSAR) (oneWay false 45) true o AnyPrices ∧ o.ind = .parabolicSAR ∧
    o.getTiData.day "sar" 8 = .fin (708853 / 5000) :=
  oneWay_built false 45 "sar" 8 _ (by decide +kernel) (by decide) fun _ _ => trivial

end TTI.Props
