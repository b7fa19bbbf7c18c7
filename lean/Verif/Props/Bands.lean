import Verif.Lemmas.Bands
import Verif.Props.Averages

set_option autoImplicit false

/-!
# Bands and channels: C41

`f.day name i` is the user's value of the `i`-th day, `T.day name i` the indicator's.
-/

namespace TTI.Props

/-- C41, Bollinger Bands: on every day lower ≤ middle ≤ upper, on any finite closes, for every period and every number of
standard deviations (an infinite one is accepted and gives infinite bands). -/
theorem C41_bollinger (E : Env) (hE : SoundEnv E) (c : Call) (f : RawFrame) (fill : Bool) (o : Obj) (hw : WF f)
    (h : (construct E c (.frame f) (.bool fill)).2 = .ok o) (hb : f.EachRow o.ind.required Spec.AnyPrices)
    (p : ℕ) (s : Val) (ho : o.ind = .bollingerBands p s) (i : ℕ) (hi : i < f.idx.length) :
    Spec.NotAbove (o.getTiData.day "lower_band" i) (o.getTiData.day "middle_band" i) ∧
    Spec.NotAbove (o.getTiData.day "middle_band" i) (o.getTiData.day "upper_band" i) := by
  obtain ⟨F, x, hg, hlen, -, h1, h2, h3, -, ht, -, hc⟩ := construct_days E c f fill o _ hw h hb
  have hp := check_pos c o.ind hc
  rcases o with ⟨ind, input, T⟩
  simp only [Obj.getTiData] at *
  subst ho
  exact Ind.BollingerBands.order E.sq hE.sq p s hp.2 F T (x "close") (h1 _ (by simp [Ind.required])) (h2 _ (by simp [Ind.required]))
    ht i (by omega)

example : ((construct demoEnv (.bollingerBands (.int 2) (.int 2)) (.frame demoCloses) (.bool true)).2.map fun o =>
      (o.getTiData.day "lower_band" 1, o.getTiData.day "middle_band" 1, o.getTiData.day "upper_band" 1)) =
    .ok (.fin 7, .fin (23 / 2), .fin 16) := by decide +kernel

/-- C41, Envelopes: on non-negative closes lower ≤ upper on every day. -/
theorem C41_envelopes (E : Env) (c : Call) (f : RawFrame) (fill : Bool) (o : Obj) (hw : WF f)
    (h : (construct E c (.frame f) (.bool fill)).2 = .ok o) (hb : f.EachRow o.ind.required fun x => 0 ≤ x "close")
    (p : ℕ) (s : ℚ) (ho : o.ind = .envelopes p s) (i : ℕ) (hi : i < f.idx.length) :
    Spec.InOrder (o.getTiData.day "lower_band" i) (o.getTiData.day "upper_band" i) := by
  obtain ⟨F, x, hg, hlen, -, h1, h2, h3, h4, ht, -, hc⟩ := construct_days E c f fill o _ hw h hb
  have hp := check_pos c o.ind hc
  rcases o with ⟨ind, input, T⟩
  simp only [Obj.getTiData] at *
  subst ho
  exact inOrder_of_sat2 (Ind.Envelopes.order p s hp.2.1 F T (x "close") (h1 _ (by simp [Ind.required]))
    (h2 _ (by simp [Ind.required])) (fun j hj => h4 j hj) ht i (by omega))

/-- On negative closes the envelopes change places. -/
example : ((construct demoEnv (.envelopes (.int 1) (.float (.fin (1 / 10)))) (.frame ⟨true, [1], [⟨.str "close", true, [.fin (-10)]⟩]⟩)
      (.bool true)).2.map fun o => (o.getTiData.day "lower_band" 0, o.getTiData.day "upper_band" 0)) =
    .ok (.fin (-9), .fin (-11)) := by decide +kernel

example : demoCloses.EachRow (Ind.envelopes 2 (1 / 10)).required (fun x => 0 ≤ x "close") ∧
    ((construct demoEnv (.envelopes (.int 2) (.float (.fin (1 / 10)))) (.frame demoCloses) (.bool true)).2.map fun o =>
      (o.getTiData.day "lower_band" 1, o.getTiData.day "upper_band" 1)) = .ok (.fin (207 / 20), .fin (253 / 20)) := by
  refine ⟨?_, by decide +kernel⟩
  intro j hj
  have hj' : j < 3 := hj
  refine ⟨fun n => match demoCloses.cell n j with
    | .fin q => q
    | _ => 0, ?_, ?_⟩
  · intro n hn
    simp only [Ind.required, List.mem_singleton] at hn
    subst hn
    interval_cases j <;> decide +kernel
  · interval_cases j <;> decide +kernel

/-- C41, Price Channel: from day `period` on the channel is the highest high and the lowest low of the `period` days before
(the current day is excluded), rounded to 4 decimals; before that it is missing. Hence on bars with low ≤ high it is in order. -/
theorem C41_price_channel (E : Env) (c : Call) (f : RawFrame) (fill : Bool) (o : Obj) (hw : WF f)
    (h : (construct E c (.frame f) (.bool fill)).2 = .ok o) (hb : f.EachRow o.ind.required fun x => x "low" ≤ x "high")
    (p : ℕ) (ho : o.ind = .priceChannel p) (i : ℕ) (hi : i < f.idx.length) :
    (i < p → o.getTiData.day "highest_high" i = .nan ∧ o.getTiData.day "lowest_low" i = .nan) ∧
    (p ≤ i → ∃ a b hi lo, i - p ≤ a ∧ a < i ∧ f.day "high" a = .fin hi ∧ o.getTiData.day "highest_high" i = .fin (roundQ 4 hi) ∧
      i - p ≤ b ∧ b < i ∧ f.day "low" b = .fin lo ∧ o.getTiData.day "lowest_low" i = .fin (roundQ 4 lo) ∧
      ∀ j, i - p ≤ j → j < i → (∀ q, f.day "high" j = .fin q → q ≤ hi) ∧ ∀ q, f.day "low" j = .fin q → lo ≤ q) ∧
    Spec.InOrder (o.getTiData.day "lowest_low" i) (o.getTiData.day "highest_high" i) := by
  obtain ⟨F, x, hg, hlen, -, h1, h2, h3, h4, ht, -, hc⟩ := construct_days E c f fill o _ hw h hb
  have hp := check_pos c o.ind hc
  rcases o with ⟨ind, input, T⟩
  simp only [Obj.getTiData] at *
  subst ho
  have hx := Ind.PriceChannel.exact p hp F T x h1 h2 ht i (by omega)
  have hh := h3 "high" (by simp [Ind.required])
  have hl := h3 "low" (by simp [Ind.required])
  refine ⟨hx.1, ?_, ?_⟩
  · intro hpi
    obtain ⟨a, b, ha1, ha2, hb1, hb2, e1, e2, e3⟩ := hx.2 hpi
    refine ⟨a, b, x "high" a, x "low" b, by omega, ha2, hh a (by omega), e1, by omega, hb2, hl b (by omega), e2, ?_⟩
    intro j hj1 hj2
    rw [hh j (by omega), hl j (by omega)]
    have := e3 j (by omega) hj2
    exact ⟨fun q hq => by rw [← Val.fin.inj hq]; exact this.1, fun q hq => by rw [← Val.fin.inj hq]; exact this.2⟩
  · by_cases hpi : p ≤ i
    · obtain ⟨a, b, ha1, ha2, hb1, hb2, e1, e2, e3⟩ := hx.2 hpi
      show Spec.InOrder (val (T.col "lowest_low") i) (val (T.col "highest_high") i)
      rw [e1, e2]
      apply inOrder_of_sat2
      rw [Val.sat2_fin]
      apply roundQ_mono
      have := e3 a (by omega) ha2
      exact this.2.trans (h4 a (by omega))
    · obtain ⟨e1, e2⟩ := hx.1 (by omega)
      show Spec.InOrder (val (T.col "lowest_low") i) (val (T.col "highest_high") i)
      rw [e1, e2]
      exact inOrder_of_sat2 (by simp)

/-- A bar satisfies low ≤ high. -/
theorem eachRow_mono {f : RawFrame} {names : List String} {P Q : (String → ℚ) → Prop} (h : f.EachRow names P)
    (hPQ : ∀ x, P x → Q x) : f.EachRow names Q := fun j hj =>
  let ⟨x, h1, h2⟩ := h j hj
  ⟨x, h1, hPQ x h2⟩

theorem demoBars_high_low (names : List String) (hn : ∀ n ∈ names, n ∈ ["open", "high", "low", "close", "volume"]) :
    demoBars.EachRow names fun x => x "low" ≤ x "high" :=
  eachRow_mono (demoBars_bars names hn) fun _ h => h.1.trans h.2.1

example : demoBars.EachRow (Ind.priceChannel 2).required (fun x => x "low" ≤ x "high") ∧
    ((construct demoEnv (.priceChannel (.int 2)) (.frame demoBars) (.bool true)).2.map fun o =>
      (o.getTiData.day "lowest_low" 2, o.getTiData.day "highest_high" 2)) = .ok (.fin 9, .fin 13) :=
  ⟨demoBars_high_low _ (by decide), by decide +kernel⟩

/-- C41, Projection Bands: from day `period - 1` on the upper band is at or above the day's high and the lower band at or
below the day's low (rounded to 4 decimals); before that both are missing. Hence on bars with low ≤ high they are in order. -/
theorem C41_projection_bands (E : Env) (c : Call) (f : RawFrame) (fill : Bool) (o : Obj) (hw : WF f)
    (h : (construct E c (.frame f) (.bool fill)).2 = .ok o) (hb : f.EachRow o.ind.required fun x => x "low" ≤ x "high")
    (p : ℕ) (ho : o.ind = .projectionBands p) (i : ℕ) (hi : i < f.idx.length) :
    (i + 1 < p → o.getTiData.day "upper_band" i = .nan ∧ o.getTiData.day "lower_band" i = .nan) ∧
    (p ≤ i + 1 → ∃ hi lo u l, f.day "high" i = .fin hi ∧ f.day "low" i = .fin lo ∧ o.getTiData.day "upper_band" i = .fin u ∧
      o.getTiData.day "lower_band" i = .fin l ∧ roundQ 4 hi ≤ u ∧ l ≤ roundQ 4 lo) ∧
    Spec.InOrder (o.getTiData.day "lower_band" i) (o.getTiData.day "upper_band" i) := by
  obtain ⟨F, x, hg, hlen, -, h1, h2, h3, h4, ht, -, hc⟩ := construct_days E c f fill o _ hw h hb
  rcases o with ⟨ind, input, T⟩
  simp only [Obj.getTiData] at *
  subst ho
  have hx := Ind.ProjectionBands.order p F T x h1 h2 ht i (by omega)
  have hh := h3 "high" (by simp [Ind.required])
  have hl := h3 "low" (by simp [Ind.required])
  rcases hx with ⟨e0, e1, e2⟩ | ⟨e0, u, l, e1, e2, e3, e4⟩
  · refine ⟨fun _ => ⟨e1, e2⟩, fun h => by omega, ?_⟩
    show Spec.InOrder (val (T.col "lower_band") i) (val (T.col "upper_band") i)
    rw [e1, e2]
    exact inOrder_of_sat2 (by simp)
  · refine ⟨fun h => by omega, fun _ => ⟨_, _, u, l, hh i (by omega), hl i (by omega), e1, e2, e3, e4⟩, ?_⟩
    show Spec.InOrder (val (T.col "lower_band") i) (val (T.col "upper_band") i)
    rw [e1, e2]
    apply inOrder_of_sat2
    rw [Val.sat2_fin]
    exact e4.trans ((roundQ_mono 4 (h4 i (by omega))).trans e3)

example : ((construct demoEnv (.projectionBands (.int 2)) (.frame demoBars) (.bool true)).2.map fun o =>
      (o.getTiData.day "lower_band" 2, o.getTiData.day "upper_band" 2)) = .ok (.fin 10, .fin 15) := by decide +kernel

/-- C41, Fibonacci Retracement: on every day the levels are, rounded to 4 decimals, the highest close of the whole period
(`rl_0.0`), the lowest (`rl_100.0`) and the 23.6, 38.2, 50 and 61.8 percent retracements between them; in this order they
do not increase. -/
theorem C41_fibonacci (E : Env) (c : Call) (f : RawFrame) (fill : Bool) (o : Obj) (hw : WF f)
    (h : (construct E c (.frame f) (.bool fill)).2 = .ok o) (hb : f.EachRow o.ind.required Spec.AnyPrices)
    (ho : o.ind = .fibonacciRetracement) (i : ℕ) (hi : i < f.idx.length) :
    ∃ hi lo, (∃ j < f.idx.length, f.day "close" j = .fin hi) ∧ (∃ j < f.idx.length, f.day "close" j = .fin lo) ∧
      (∀ j < f.idx.length, ∃ q, f.day "close" j = .fin q ∧ lo ≤ q ∧ q ≤ hi) ∧
      o.getTiData.day "rl_0.0" i = .fin (roundQ 4 hi) ∧
      o.getTiData.day "rl_23.6" i = .fin (roundQ 4 (hi - 236 / 1000 * (hi - lo))) ∧
      o.getTiData.day "rl_38.2" i = .fin (roundQ 4 (hi - 382 / 1000 * (hi - lo))) ∧
      o.getTiData.day "rl_50.0" i = .fin (roundQ 4 (hi - 1 / 2 * (hi - lo))) ∧
      o.getTiData.day "rl_61.8" i = .fin (roundQ 4 (hi - 618 / 1000 * (hi - lo))) ∧
      o.getTiData.day "rl_100.0" i = .fin (roundQ 4 lo) ∧
      roundQ 4 lo ≤ roundQ 4 (hi - 618 / 1000 * (hi - lo)) ∧
      roundQ 4 (hi - 618 / 1000 * (hi - lo)) ≤ roundQ 4 (hi - 1 / 2 * (hi - lo)) ∧
      roundQ 4 (hi - 1 / 2 * (hi - lo)) ≤ roundQ 4 (hi - 382 / 1000 * (hi - lo)) ∧
      roundQ 4 (hi - 382 / 1000 * (hi - lo)) ≤ roundQ 4 (hi - 236 / 1000 * (hi - lo)) ∧
      roundQ 4 (hi - 236 / 1000 * (hi - lo)) ≤ roundQ 4 hi := by
  obtain ⟨F, x, hg, hlen, -, h1, h2, h3, h4, ht, -, hc⟩ := construct_days E c f fill o _ hw h hb
  rcases o with ⟨ind, input, T⟩
  simp only [Obj.getTiData] at *
  subst ho
  have hcl := h3 "close" (by simp [Ind.required])
  obtain ⟨a, ha, b, hb, hab, hv⟩ := Ind.FibonacciRetracement.exact F T (x "close") (h1 _ (by simp [Ind.required]))
    (h2 _ (by simp [Ind.required])) ht i (by omega)
  have hle : x "close" b ≤ x "close" a := (hab a ha).1
  refine ⟨x "close" a, x "close" b, ⟨a, by omega, hcl a ha⟩, ⟨b, by omega, hcl b hb⟩,
    fun j hj => ⟨_, hcl j (by omega), hab j (by omega)⟩, ?_, hv ("rl_23.6", 236 / 1000) (by simp [Ind.FibonacciRetracement.levels]),
    hv ("rl_38.2", 382 / 1000) (by simp [Ind.FibonacciRetracement.levels]), hv ("rl_50.0", 1 / 2) (by simp [Ind.FibonacciRetracement.levels]),
    hv ("rl_61.8", 618 / 1000) (by simp [Ind.FibonacciRetracement.levels]), ?_, ?_, ?_, ?_, ?_, ?_⟩
  · have := hv ("rl_0.0", 0) (by simp [Ind.FibonacciRetracement.levels])
    rw [show x "close" a - 0 * (x "close" a - x "close" b) = x "close" a by ring] at this
    exact this
  · have := hv ("rl_100.0", 1) (by simp [Ind.FibonacciRetracement.levels])
    rw [show x "close" a - 1 * (x "close" a - x "close" b) = x "close" b by ring] at this
    exact this
  all_goals apply roundQ_mono; linarith

example : ((construct demoEnv .fibonacciRetracement (.frame demoCloses) (.bool true)).2.map fun o =>
      (o.getTiData.day "rl_0.0" 0, o.getTiData.day "rl_38.2" 0, o.getTiData.day "rl_100.0" 0)) =
    .ok (.fin 13, .fin (5927 / 500), .fin 10) := by decide +kernel

end TTI.Props
