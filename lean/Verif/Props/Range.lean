import Verif.Lemmas.Ranges2
import Verif.Props.Build
import Mathlib.Tactic.IntervalCases

set_option autoImplicit false

/-!
# Ranges and signs: C39, C44

`f.EachRow names P`: in every row of the user's frame the named columns hold numbers, and these satisfy `P`.
-/

namespace TTI.Props

/-- What the square root and the weights of the exponential %D have to satisfy; numpy's do. -/
structure SoundEnv (E : Env) : Prop where
  sq : ∀ q, 0 ≤ q → 0 ≤ E.sq q
  weights : ∀ d, ∀ q ∈ E.weights d, 0 ≤ q

theorem prices_of (F : Frame) (names : List String) (P : (String → ℚ) → Prop) (hg : F.Good names) (hr : F.EachRow names P) :
    ∃ x : String → ℕ → ℚ, (∀ n ∈ names, (F.col n).length = F.len) ∧
      (∀ n ∈ names, ∀ i < F.len, val (F.col n) i = .fin (x n i)) ∧ ∀ i < F.len, P fun n => x n i := by
  obtain ⟨x, h1, h2⟩ := hr.fns
  exact ⟨x, fun n hn => F.col_length hg.wf n (hg.has n hn), h1, h2⟩

theorem Prices.sub {F : Frame} {names names' : List String} {x : String → ℕ → ℚ} (h : Prices F names x)
    (hs : ∀ n ∈ names', n ∈ names) : Prices F names' x :=
  ⟨fun n hn => h.len n (hs n hn), fun n hn => h.num n (hs n hn), h.bar⟩

/-- C39: on finite prices in which every row is a proper bar (low ≤ open ≤ high and low ≤ close ≤ high, as far as the
indicator uses these columns, and volume ≥ 0) every value of the columns of the table `Spec.ranges` is missing or lies in its
range; it is never infinite. All parameters, all rows, with the rounding to 4 decimals. -/
theorem C39_range (E : Env) (hE : SoundEnv E) (c : Call) (f : RawFrame) (fill : Bool) (o : Obj) (hw : WF f)
    (h : (construct E c (.frame f) (.bool fill)).2 = .ok o) (hb : f.EachRow o.ind.required Spec.Bar) :
    ∀ r ∈ Spec.ranges o.ind, ∀ v ∈ o.getTiData.col r.1, Spec.InRange r.2.1 r.2.2 v := by
  obtain ⟨F, hg, hr, ht, -, hc⟩ := construct_rows E c f fill o Spec.Bar hw h hb
  obtain ⟨x, h1, h2, h3⟩ := prices_of F _ _ hg hr
  have hx : Prices F o.ind.required x := ⟨h1, h2, h3⟩
  have hp := check_pos c o.ind hc
  unfold Obj.getTiData
  rcases o with ⟨ind, input, T⟩
  simp only at *
  clear hr hg h hb
  intro r hr v hv
  cases ind <;> simp only [Spec.ranges, List.mem_cons, List.not_mem_nil, or_false] at hr
  case chaikinMoneyFlow p =>
    subst hr
    exact inRange_of_sat (Ind.ChaikinMoneyFlow.range F x p T (Prices.sub hx (by simp [Ind.required])) ht v hv)
  case chandeMomentumOscillator p =>
    subst hr
    exact inRange_of_sat (Ind.ChandeMomentumOscillator.range F (x "close") p T (hx.len _ (by simp [Ind.required]))
      (hx.num _ (by simp [Ind.required])) ht v hv)
  case directionalMovementIndex =>
    have := Ind.DirectionalMovementIndex.range F x T (Prices.sub hx (by simp [Ind.required])) ht
    rcases hr with rfl | rfl | rfl | rfl | rfl <;> exact inRange_of_sat (this _ (by simp) v hv)
  case intradayMomentumIndex p =>
    subst hr
    exact inRange_of_sat (Ind.IntradayMomentumIndex.range F x p T (Prices.sub hx (by simp [Ind.required])) ht v hv)
  case rangeIndicator p q =>
    subst hr
    exact inRange_of_sat (Ind.RangeIndicator.range F x p q hp.1 hp.2 T (Prices.sub hx (by simp [Ind.required])) ht v hv)
  case relativeMomentumIndex p q =>
    subst hr
    exact inRange_of_sat (Ind.RelativeMomentumIndex.range F x p q hp.1 T (Prices.sub hx (by simp [Ind.required])) ht v hv)
  case relativeStrengthIndex p =>
    subst hr
    exact inRange_of_sat (Ind.RelativeStrengthIndex.range F x p hp T (Prices.sub hx (by simp [Ind.required])) ht v hv)
  case relativeVolatilityIndex p =>
    subst hr
    exact inRange_of_sat (Ind.RelativeVolatilityIndex.range E.sq hE.sq F x p hp T (Prices.sub hx (by simp [Ind.required])) ht v hv)
  case stochasticMomentumIndex p q d =>
    subst hr
    exact inRange_of_sat (Ind.StochasticMomentumIndex.range F x p q d hp.1 hp.2.1 hp.2.2 T
      (Prices.sub hx (by simp [Ind.required])) ht v hv)
  case stochasticOscillator k s d b =>
    have := Ind.StochasticOscillator.range E.weights hE.weights F x k s d b hp.1 T (Prices.sub hx (by simp [Ind.required])) ht
    rcases hr with rfl | rfl
    · exact inRange_of_sat (this.1 v hv)
    · exact inRange_of_sat (this.2 v hv)
  case swingIndex =>
    subst hr
    exact inRange_of_sat (Ind.SwingIndex.range F T ht v hv)
  case ultimateOscillator =>
    subst hr
    exact inRange_of_sat (Ind.UltimateOscillator.range F x T (Prices.sub hx (by simp [Ind.required])) ht v hv)
  case verticalHorizontalFilter p =>
    subst hr
    exact inRange_of_sat (Ind.VerticalHorizontalFilter.range F x p hp T (Prices.sub hx (by simp [Ind.required])) ht v hv)
  case williamsR p =>
    subst hr
    exact inRange_of_sat (Ind.WilliamsR.range F x p hp T (Prices.sub hx (by simp [Ind.required])) ht v hv)

/-- Three bars. -/
def demoBars : RawFrame :=
  ⟨true, [1, 2, 3], [⟨.str "Open", true, [.fin 10, .fin 12, .fin 11]⟩, ⟨.str "High", true, [.fin 12, .fin 13, .fin 15]⟩,
    ⟨.str "Low", true, [.fin 9, .fin 11, .fin 10]⟩, ⟨.str "Close", true, [.fin 11, .fin 11, .fin 14]⟩,
    ⟨.str "Volume", true, [.fin 100, .fin 0, .fin 7]⟩]⟩

theorem demoBars_bars (names : List String) (hn : ∀ n ∈ names, n ∈ ["open", "high", "low", "close", "volume"]) :
    demoBars.EachRow names Spec.Bar := by
  intro j hj
  refine ⟨fun n => match demoBars.cell n j with
    | .fin q => q
    | _ => 0, ?_, ?_⟩
  · intro n hnn
    have := hn n hnn
    simp only [List.mem_cons, List.not_mem_nil, or_false] at this
    have hj' : j < 3 := hj
    interval_cases j <;> rcases this with rfl | rfl | rfl | rfl | rfl <;> decide +kernel
  · have hj' : j < 3 := hj
    unfold Spec.Bar
    interval_cases j <;> decide +kernel

theorem demoEnv_sound : SoundEnv demoEnv := ⟨fun _ h => h, fun _ q hq => by simp [demoEnv] at hq⟩

/-- The hypotheses of `C39_range` on concrete bars, with the values it speaks of. -/
example : WF demoBars ∧ demoBars.EachRow (Ind.williamsR 2).required Spec.Bar ∧ SoundEnv demoEnv ∧
    ((construct demoEnv (.williamsR (.int 2)) (.frame demoBars) (.bool true)).2.map fun o => o.getTiData.col "wr") =
      .ok [.nan, .fin (-50), .fin (-20)] := by
  refine ⟨by unfold WF; decide, demoBars_bars _ (by decide), demoEnv_sound, by decide +kernel⟩

/-- C44: on bars with low ≤ high the Average True Range is never negative; nor is, for positive volume, the Market
Facilitation Index; nor, on any finite closes, the Standard Deviation. -/
theorem C44_nonneg (E : Env) (hE : SoundEnv E) (c : Call) (f : RawFrame) (fill : Bool) (o : Obj) (hw : WF f)
    (h : (construct E c (.frame f) (.bool fill)).2 = .ok o) :
    (o.ind = .averageTrueRange → f.EachRow o.ind.required (fun x => x "low" ≤ x "high") →
      ∀ v ∈ o.getTiData.col "atr", Spec.NonNegative v) ∧
    (o.ind = .marketFacilitationIndex → f.EachRow o.ind.required (fun x => x "low" ≤ x "high" ∧ 0 < x "volume") →
      ∀ v ∈ o.getTiData.col "mfi", Spec.NonNegative v) ∧
    (∀ p, o.ind = .standardDeviation p → ∀ v ∈ o.getTiData.col "sd", Spec.NonNegative v) := by
  rcases o with ⟨ind, input, T⟩
  refine ⟨?_, ?_, ?_⟩
  · intro hi hb
    obtain ⟨F, hg, hr, ht, -, hc⟩ := construct_rows E c f fill _ _ hw h hb
    obtain ⟨x, h1, h2, h3⟩ := prices_of F _ _ hg hr
    simp only at hi ht
    subst hi
    intro v hv
    exact nonNegative_of_sat (Ind.AverageTrueRange.nonneg F x T h1 h2 h3 ht v hv)
  · intro hi hb
    obtain ⟨F, hg, hr, ht, -, hc⟩ := construct_rows E c f fill _ _ hw h hb
    obtain ⟨x, h1, h2, h3⟩ := prices_of F _ _ hg hr
    simp only at hi ht
    subst hi
    intro v hv
    exact nonNegative_of_sat (Ind.MarketFacilitationIndex.nonneg F x T h1 h2 h3 ht v hv)
  · intro p hi
    obtain ⟨ind', F, T', hc, hv', ht, he⟩ := (construct_ok_iff _ _ _ _ _).1 h
    simp only [Obj.mk.injEq] at he
    obtain ⟨rfl, -, rfl⟩ := he
    simp only at hi
    subst hi
    intro v hv
    exact nonNegative_of_sat (Ind.StandardDeviation.nonneg E.sq hE.sq p F _ ht v hv)

/-- A volume of zero makes the Market Facilitation Index infinite: the volume has to be positive. -/
example : ((construct demoEnv .marketFacilitationIndex (.frame demoBars) (.bool true)).2.map fun o => o.getTiData.col "mfi") =
      .ok [.fin (3 / 100), .pinf, .fin (7142857143 / 10000000000)] := by decide +kernel

/-- Fourteen equal bars; the hypotheses of the first part. -/
def demoAtr : RawFrame :=
  ⟨true, (List.range 14).map fun (i : ℕ) => (i : ℤ), [⟨.str "high", true, List.replicate 14 (.fin 12)⟩,
    ⟨.str "low", true, List.replicate 14 (.fin 9)⟩, ⟨.str "close", true, List.replicate 14 (.fin 10)⟩]⟩

example : demoAtr.EachRow Ind.averageTrueRange.required (fun x => x "low" ≤ x "high") ∧
    ((construct demoEnv .averageTrueRange (.frame demoAtr) (.bool true)).2.map fun o => o.getTiData.col "atr") =
      .ok (List.replicate 13 .nan ++ [.fin 3]) := by
  refine ⟨?_, by decide +kernel⟩
  intro j hj
  have hj' : j < 14 := hj
  refine ⟨fun n => if n = "high" then 12 else if n = "low" then 9 else 10, ?_, by decide⟩
  intro n hn
  simp only [Ind.required, List.mem_cons, List.not_mem_nil, or_false] at hn
  interval_cases j <;> rcases hn with rfl | rfl | rfl <;> decide +kernel

end TTI.Props
