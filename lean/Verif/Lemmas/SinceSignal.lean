import Verif.Lemmas.SinceBuilt

set_option autoImplicit false

/-!
# The signal of an indicator built on the latest rows
-/

namespace TTI.Props

open Spec

theorem before_val (j : ℕ) (xs : List Val) : before j xs = if j < xs.length then val xs (xs.length - 1 - j) else .nan := by
  unfold before val
  by_cases h : j < xs.length
  · rw [if_pos h, List.getD_eq_getElem?_getD, List.getElem?_reverse h, List.getD_eq_getElem?_getD]
  · rw [if_neg h, List.getD_eq_getElem?_getD, List.getElem?_eq_none (by simp; omega)]
    rfl

theorem before_recent {k m : ℕ} {ys xs : List Val} (h : Recent k m ys xs) (hl : ys.length + k = xs.length) (j : ℕ)
    (hj : j + m < ys.length) : before j ys = before j xs := by
  rw [before_val, before_val, if_pos (by omega), if_pos (by omega), h.val _ (by omega)]
  congr 1
  omega

theorem window_recent {k m : ℕ} {ys xs : List Val} (h : Recent k m ys xs) (hl : ys.length + k = xs.length) (w : ℕ)
    (hw : w + m ≤ ys.length) : window w ys = window w xs := by
  unfold window
  apply List.ext_getElem?
  intro i
  rw [List.getElem?_drop, List.getElem?_drop, h _ (by omega)]
  congr 1
  omega

theorem Frame.col_missing (F : Frame) (n : String) (h : n ∉ F.cols.map (·.1)) : F.col n = [] := by
  have : F.cols.find? (fun c => c.1 == n) = none := by
    rw [List.find?_eq_none]
    intro c hc he
    exact h (List.mem_map.2 ⟨c, hc, by simpa using he⟩)
  simp [Frame.col, this]

theorem rule_recent (ind : Ind) (F F' T T' : Frame) (N : ℕ) (hN : signalMemory ind = some N) (hpos : ind.Pos)
    (hrows : N ≤ F'.len) (hlen : T'.len = rowsOut F'.len ind)
    (hti : ∀ name j M, memory ind name = some M → (j < T'.len ∧ j + M ≤ T'.len) →
      before j (T'.col name) = before j (T.col name))
    (hpx : ∀ name j, j < F'.len → before j (F'.col name) = before j (F.col name))
    (hwti : ∀ name w M, 1 ≤ w → memory ind name = some M → w + (M - 1) ≤ T'.len →
      window w (T'.col name) = window w (T.col name))
    (hwpx : ∀ name w, 1 ≤ w → w ≤ F'.len → window w (F'.col name) = window w (F.col name))
    (hroll : ∀ p, 1 ≤ p → p ≤ F'.len → before 0 (roundS 4 (rolling p p aggMean (F'.col "close"))) =
      before 0 (roundS 4 (rolling p p aggMean (F.col "close"))))
    (hfirst : ∀ p, 1 ≤ p → p ≤ F'.len → before 0 (rolling p p aggMean F'.firstCol) =
      before 0 (rolling p p aggMean F.firstCol)) :
    rule F' T' ind = rule F T ind ∧ (rule F T ind).rows ≤ T'.len := by
  cases ind
  all_goals try (simp only [signalMemory, reduceCtorEq] at hN; done)
  case bollingerBands p s =>
    simp only [signalMemory, Option.some.injEq, rowsOut, Ind.Pos] at hN hlen hpos
    simp only [rule, outside, zeroLine, extremes, contrary, follow, stochasticRule, Overtakes, Up3, Down3, true_and,
      hti "upper_band" 0 (p) (by simp [memory]) (by omega),
      hti "lower_band" 0 (p) (by simp [memory]) (by omega),
      hpx "close" 0 (by omega)]
    omega
  case chaikinMoneyFlow p =>
    simp only [signalMemory, Option.some.injEq, rowsOut, Ind.Pos] at hN hlen hpos
    simp only [rule, outside, zeroLine, extremes, contrary, follow, stochasticRule, Overtakes, Up3, Down3, true_and,
      hti "cmf" 0 (p) (by simp [memory]) (by omega),
      hti "cmf" 1 (p) (by simp [memory]) (by omega),
      hpx "close" 0 (by omega),
      hpx "close" 1 (by omega),
      hpx "close" 2 (by omega)]
    omega
  case chandeMomentumOscillator p =>
    simp only [signalMemory, Option.some.injEq, rowsOut, Ind.Pos] at hN hlen hpos
    simp only [rule, outside, zeroLine, extremes, contrary, follow, stochasticRule, Overtakes, Up3, Down3, true_and,
      hti "cmo" 0 (p + 1) (by simp [memory]) (by omega),
      hti "cmo" 1 (p + 1) (by simp [memory]) (by omega)]
    omega
  case commodityChannelIndex p =>
    simp only [signalMemory, Option.some.injEq, rowsOut, Ind.Pos] at hN hlen hpos
    simp only [rule, outside, zeroLine, extremes, contrary, follow, stochasticRule, Overtakes, Up3, Down3, true_and,
      hti "cci" 0 (p) (by simp [memory]) (by omega)]
    omega
  case detrendedPriceOscillator p =>
    simp only [signalMemory, Option.some.injEq, rowsOut, Ind.Pos] at hN hlen hpos
    simp only [rule, outside, zeroLine, extremes, contrary, follow, stochasticRule, Overtakes, Up3, Down3, true_and,
      hti "dpo" 0 (max 1 (p - 1 - p / 2)) (by simp [memory]) (by omega),
      hti "dpo" 1 (max 1 (p - 1 - p / 2)) (by simp [memory]) (by omega)]
    omega
  case easeOfMovement p =>
    simp only [signalMemory, Option.some.injEq, rowsOut, Ind.Pos] at hN hlen hpos
    simp only [rule, outside, zeroLine, extremes, contrary, follow, stochasticRule, Overtakes, Up3, Down3, true_and,
      hti "emv_ma" 0 (p + 1) (by simp [memory]) (by omega),
      hti "emv_ma" 1 (p + 1) (by simp [memory]) (by omega)]
    omega
  case envelopes p s =>
    simp only [signalMemory, Option.some.injEq, rowsOut, Ind.Pos] at hN hlen hpos
    simp only [rule, outside, zeroLine, extremes, contrary, follow, stochasticRule, Overtakes, Up3, Down3, true_and,
      hti "upper_band" 0 (p) (by simp [memory]) (by omega),
      hti "lower_band" 0 (p) (by simp [memory]) (by omega),
      hpx "close" 0 (by omega)]
    omega
  case forecastOscillator p =>
    simp only [signalMemory, Option.some.injEq, rowsOut, Ind.Pos] at hN hlen hpos
    simp only [rule, outside, zeroLine, extremes, contrary, follow, stochasticRule, Overtakes, Up3, Down3, true_and,
      hti "fosc" 0 (p + 1) (by simp [memory]) (by omega),
      hti "fosc" 1 (p + 1) (by simp [memory]) (by omega)]
    omega
  case ichimokuCloud =>
    simp only [signalMemory, Option.some.injEq, rowsOut, Ind.Pos] at hN hlen hpos
    simp only [rule, outside, zeroLine, extremes, contrary, follow, stochasticRule, Overtakes, Up3, Down3, true_and,
      hti "senkou_a" 0 (52) (by simp [memory]) (by omega),
      hti "senkou_b" 0 (78) (by simp [memory]) (by omega),
      hti "tenkan_sen" 0 (9) (by simp [memory]) (by omega),
      hti "tenkan_sen" 1 (9) (by simp [memory]) (by omega),
      hti "kijun_sen" 0 (26) (by simp [memory]) (by omega),
      hti "kijun_sen" 1 (26) (by simp [memory]) (by omega),
      hpx "close" 0 (by omega)]
    omega
  case intradayMomentumIndex p =>
    simp only [signalMemory, Option.some.injEq, rowsOut, Ind.Pos] at hN hlen hpos
    simp only [rule, outside, zeroLine, extremes, contrary, follow, stochasticRule, Overtakes, Up3, Down3, true_and,
      hti "imi" 0 (p) (by simp [memory]) (by omega),
      hti "imi" 1 (p) (by simp [memory]) (by omega)]
    omega
  case linearRegressionIndicator p =>
    simp only [signalMemory, Option.some.injEq, rowsOut, Ind.Pos] at hN hlen hpos
    simp only [rule, outside, zeroLine, extremes, contrary, follow, stochasticRule, Overtakes, Up3, Down3, true_and,
      hti "lri" 0 (p) (by simp [memory]) (by omega),
      hti "lri" 1 (p) (by simp [memory]) (by omega),
      hpx "close" 0 (by omega),
      hpx "close" 1 (by omega)]
    omega
  case linearRegressionSlope p =>
    simp only [signalMemory, Option.some.injEq, rowsOut, Ind.Pos] at hN hlen hpos
    simp only [rule, outside, zeroLine, extremes, contrary, follow, stochasticRule, Overtakes, Up3, Down3, true_and,
      hti "lrs" 0 (p) (by simp [memory]) (by omega),
      hti "lrs" 1 (p) (by simp [memory]) (by omega)]
    omega
  case marketFacilitationIndex =>
    simp only [signalMemory, Option.some.injEq, rowsOut, Ind.Pos] at hN hlen hpos
    simp only [rule, outside, zeroLine, extremes, contrary, follow, stochasticRule, Overtakes, Up3, Down3, true_and,
      hti "mfi" 0 (1) (by simp [memory]) (by omega),
      hti "mfi" 1 (1) (by simp [memory]) (by omega)]
    omega
  case priceChannel p =>
    simp only [signalMemory, Option.some.injEq, rowsOut, Ind.Pos] at hN hlen hpos
    simp only [rule, outside, zeroLine, extremes, contrary, follow, stochasticRule, Overtakes, Up3, Down3, true_and,
      hti "highest_high" 0 (p + 1) (by simp [memory]) (by omega),
      hti "lowest_low" 0 (p + 1) (by simp [memory]) (by omega),
      hpx "close" 0 (by omega)]
    omega
  case priceOscillator a b =>
    simp only [signalMemory, Option.some.injEq, rowsOut, Ind.Pos] at hN hlen hpos
    simp only [rule, outside, zeroLine, extremes, contrary, follow, stochasticRule, Overtakes, Up3, Down3, true_and,
      hti "posc" 0 (max a b) (by simp [memory]) (by omega),
      hti "posc" 1 (max a b) (by simp [memory]) (by omega)]
    omega
  case priceRateOfChange p =>
    simp only [signalMemory, Option.some.injEq, rowsOut, Ind.Pos] at hN hlen hpos
    simp only [rule, outside, zeroLine, extremes, contrary, follow, stochasticRule, Overtakes, Up3, Down3, true_and,
      hti "prc" 0 (p + 1) (by simp [memory]) (by omega),
      hti "prc" 1 (p + 1) (by simp [memory]) (by omega),
      hti "prc" 2 (p + 1) (by simp [memory]) (by omega)]
    omega
  case projectionBands p =>
    simp only [signalMemory, Option.some.injEq, rowsOut, Ind.Pos] at hN hlen hpos
    simp only [rule, outside, zeroLine, extremes, contrary, follow, stochasticRule, Overtakes, Up3, Down3, true_and,
      hti "upper_band" 0 (p) (by simp [memory]) (by omega),
      hti "lower_band" 0 (p) (by simp [memory]) (by omega),
      hpx "close" 0 (by omega)]
    omega
  case qstick p =>
    simp only [signalMemory, Option.some.injEq, rowsOut, Ind.Pos] at hN hlen hpos
    simp only [rule, outside, zeroLine, extremes, contrary, follow, stochasticRule, Overtakes, Up3, Down3, true_and,
      hti "qstick" 0 (p) (by simp [memory]) (by omega),
      hti "qstick" 1 (p) (by simp [memory]) (by omega),
      hti "qstick" 2 (p) (by simp [memory]) (by omega),
      hti "qstick" 3 (p) (by simp [memory]) (by omega)]
    omega
  case standardDeviation p =>
    simp only [signalMemory, Option.some.injEq, rowsOut, Ind.Pos] at hN hlen hpos
    simp only [rule, outside, zeroLine, extremes, contrary, follow, stochasticRule, Overtakes, Up3, Down3, true_and,
      hti "sd" 0 (p) (by simp [memory]) (by omega),
      hpx "close" 0 (by omega),
      hroll p (by omega) (by omega)]
    omega
  case stochasticOscillator a s b m =>
    simp only [signalMemory, Option.some.injEq, rowsOut, Ind.Pos] at hN hlen hpos
    simp only [rule, outside, zeroLine, extremes, contrary, follow, stochasticRule, Overtakes, Up3, Down3, true_and,
      hti "%K" 0 (a + s - 1) (by simp [memory]) (by omega),
      hti "%K" 1 (a + s - 1) (by simp [memory]) (by omega),
      hti "%D" 0 (a + s + b - 2) (by simp [memory]) (by omega),
      hti "%D" 1 (a + s + b - 2) (by simp [memory]) (by omega)]
    omega
  case swingIndex =>
    simp only [signalMemory, Option.some.injEq, rowsOut, Ind.Pos] at hN hlen hpos
    simp only [rule, outside, zeroLine, extremes, contrary, follow, stochasticRule, Overtakes, Up3, Down3, true_and,
      hti "swi" 0 (2) (by simp [memory]) (by omega),
      hti "swi" 1 (2) (by simp [memory]) (by omega)]
    omega
  case timeSeriesForecast p =>
    simp only [signalMemory, Option.some.injEq, rowsOut, Ind.Pos] at hN hlen hpos
    simp only [rule, outside, zeroLine, extremes, contrary, follow, stochasticRule, Overtakes, Up3, Down3, true_and,
      hti "tsf" 0 (p) (by simp [memory]) (by omega),
      hti "tsf" 1 (p) (by simp [memory]) (by omega),
      hpx "close" 0 (by omega),
      hpx "close" 1 (by omega)]
    omega
  case typicalPrice p =>
    simp only [signalMemory, Option.some.injEq, rowsOut, Ind.Pos] at hN hlen hpos
    simp only [rule, outside, zeroLine, extremes, contrary, follow, stochasticRule, Overtakes, Up3, Down3, true_and,
      hti "tp" 0 (1) (by simp [memory]) (by omega),
      hfirst p (by omega) (by omega)]
    omega
  case ultimateOscillator =>
    simp only [signalMemory, Option.some.injEq, rowsOut, Ind.Pos] at hN hlen hpos
    have hu : (∃ k, 1 ≤ k ∧ k < 30 ∧ before k (T'.col "uosc") = 0) ↔ ∃ k, 1 ≤ k ∧ k < 30 ∧ before k (T.col "uosc") = 0 := by
      apply exists_congr
      intro k
      constructor
      · rintro ⟨h1, h2, h3⟩
        exact ⟨h1, h2, by rw [← hti "uosc" k 29 (by simp [memory]) (by omega)]; exact h3⟩
      · rintro ⟨h1, h2, h3⟩
        exact ⟨h1, h2, by rw [hti "uosc" k 29 (by simp [memory]) (by omega)]; exact h3⟩
    simp only [rule, outside, zeroLine, extremes, contrary, follow, stochasticRule, Overtakes, Up3, Down3, true_and,
      hti "uosc" 0 (29) (by simp [memory]) (by omega),
      hwti "uosc" 30 29 (by omega) (by simp [memory]) (by omega),
      hwpx "close" 30 (by omega) (by omega),
      hu]
    omega
  case volumeOscillator a b =>
    simp only [signalMemory, Option.some.injEq, rowsOut, Ind.Pos] at hN hlen hpos
    simp only [rule, outside, zeroLine, extremes, contrary, follow, stochasticRule, Overtakes, Up3, Down3, true_and,
      hti "vosc" 0 (max a b) (by simp [memory]) (by omega),
      hti "vosc" 1 (max a b) (by simp [memory]) (by omega),
      hti "vosc" 2 (max a b) (by simp [memory]) (by omega)]
    omega
  case volumeRateOfChange p =>
    simp only [signalMemory, Option.some.injEq, rowsOut, Ind.Pos] at hN hlen hpos
    simp only [rule, outside, zeroLine, extremes, contrary, follow, stochasticRule, Overtakes, Up3, Down3, true_and,
      hti "vrc" 0 (p + 1) (by simp [memory]) (by omega),
      hti "vrc" 1 (p + 1) (by simp [memory]) (by omega),
      hti "vrc" 2 (p + 1) (by simp [memory]) (by omega)]
    omega
  case weightedClose =>
    simp only [signalMemory, Option.some.injEq, rowsOut, Ind.Pos] at hN hlen hpos
    simp only [rule, outside, zeroLine, extremes, contrary, follow, stochasticRule, Overtakes, Up3, Down3, true_and,
      hti "wc" 0 (1) (by simp [memory]) (by omega),
      hti "wc" 1 (1) (by simp [memory]) (by omega),
      hpx "close" 0 (by omega),
      hpx "close" 1 (by omega)]
    omega
  case williamsAccumulationDistribution =>
    simp only [signalMemory, Option.some.injEq, rowsOut, Ind.Pos] at hN hlen hpos
    simp only [rule, outside, zeroLine, extremes, contrary, follow, stochasticRule, Overtakes, Up3, Down3, true_and,
      hti "wad" 0 (2) (by simp [memory]) (by omega),
      hpx "close" 0 (by omega),
      hwti "wad" 30 2 (by omega) (by simp [memory]) (by omega),
      hwpx "close" 30 (by omega) (by omega)]
    omega
  case movingAverage p t =>
    cases t <;> simp only [signalMemory, Option.some.injEq, reduceCtorEq, rowsOut, Ind.Pos] at hN hlen hpos
    · simp only [rule, hpx "close" 0 (by omega), hti _ 0 p (by simp [memory]) (by omega), true_and]
      omega
    · simp only [rule, hpx "close" 0 (by omega), hti _ 0 p (by simp [memory]) (by omega), true_and]
      omega
    · simp only [rule, hpx "close" 0 (by omega), hti _ 0 (2 * p - 1) (by simp [memory]) (by omega), true_and]
      omega

end TTI.Props
