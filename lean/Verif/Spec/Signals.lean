import Verif.Model.Ind.All

set_option autoImplicit false

/-!
# When the indicators give a buy and a sell signal

For every class: the number of rows needed, and the conditions for buy and sell on the latest values, written as
propositions independently of the methods. `ti name k` is the indicator value and `px name k` the input value `k` rows
before the last one; comparisons with a missing value never hold.
-/

namespace TTI.Spec

/-- The entry `k` rows before the last one, NaN if there is none. -/
def before (k : ℕ) (xs : List Val) : Val := xs.reverse.getD k .nan

/-- From `a` yesterday to `b` today a level is crossed upwards. -/
def Rises (level a b : Val) : Prop := a <ᵥ level ∧ level <ᵥ b

/-- From `a` yesterday to `b` today a level is crossed downwards. -/
def Falls (level a b : Val) : Prop := level <ᵥ a ∧ b <ᵥ level

/-- The first quantity was below the second yesterday and is above it today. -/
def Overtakes (x y : ℕ → Val) : Prop := x 1 <ᵥ y 1 ∧ y 0 <ᵥ x 0

/-- Three values, oldest first, that go up. -/
def Up3 (x : ℕ → Val) : Prop := x 2 <ᵥ x 1 ∧ x 1 <ᵥ x 0

/-- Three values, oldest first, that go down. -/
def Down3 (x : ℕ → Val) : Prop := x 1 <ᵥ x 2 ∧ x 0 <ᵥ x 1

/-- Rows needed and the two conditions. -/
structure Rule where
  rows : ℕ
  buy : Prop
  sell : Prop

/-- Buy when the close rises through a line, sell when it falls through it. -/
def follow (line close : ℕ → Val) : Rule := ⟨2, Overtakes close line, Overtakes line close⟩

/-- Buy when the close falls through a line, sell when it rises through it. -/
def contrary (line close : ℕ → Val) : Rule := ⟨2, Overtakes line close, Overtakes close line⟩

/-- Buy when the quantity rises through 0, sell when it falls through 0. -/
def zeroLine (x : ℕ → Val) : Rule := ⟨2, Rises 0 (x 1) (x 0), Falls 0 (x 1) (x 0)⟩

/-- Buy when the quantity falls through `low`, sell when it rises through `high`. -/
def extremes (low high : Val) (x : ℕ → Val) : Rule := ⟨2, Falls low (x 1) (x 0), Rises high (x 1) (x 0)⟩

/-- Sell above the upper band, buy below the lower band. -/
def outside (upper lower close : ℕ → Val) : Rule :=
  ⟨1, close 0 <ᵥ lower 0 ∧ ¬ upper 0 <ᵥ close 0, upper 0 <ᵥ close 0⟩

/-- The moving average convergence divergence: crossing zero comes before crossing the signal line. -/
def macdRule (m s : ℕ → Val) : Rule :=
  ⟨2, Rises 0 (m 1) (m 0) ∨ (¬ Falls 0 (m 1) (m 0) ∧ Overtakes m s),
   Falls 0 (m 1) (m 0) ∨ (¬ Rises 0 (m 1) (m 0) ∧ Overtakes s m)⟩

/-- The projection oscillator: crossing 15 upwards, crossing 85 downwards, crossing the trigger line for two days. -/
def projectionRule (p t : ℕ → Val) : Rule :=
  let up := Rises 15 (p 1) (p 0)
  let down := Falls 85 (p 1) (p 0)
  let above := p 3 <ᵥ t 3 ∧ p 2 <ᵥ t 2 ∧ t 1 <ᵥ p 1 ∧ t 0 <ᵥ p 0
  let below := t 3 <ᵥ p 3 ∧ t 2 <ᵥ p 2 ∧ p 1 <ᵥ t 1 ∧ p 0 <ᵥ t 0
  ⟨4, up ∨ (¬ down ∧ above), (¬ up ∧ down) ∨ (¬ up ∧ below)⟩

/-- The stochastic oscillator: leaving the zone above 80 comes first, then leaving the zone below 20, then the %K line
moving away from the zone while beyond the %D line. -/
def stochasticRule (k d : ℕ → Val) : Rule :=
  let leavesHigh := Falls 80 (k 1) (k 0) ∨ Falls 80 (d 1) (d 0)
  let leavesLow := Rises 20 (k 1) (k 0) ∨ Rises 20 (d 1) (d 0)
  let falling := k 0 <ᵥ k 1 ∧ k 0 <ᵥ d 0 ∧ (80 : Val) <ᵥ k 0
  let rising := k 1 <ᵥ k 0 ∧ d 0 <ᵥ k 0 ∧ k 0 <ᵥ 20
  ⟨2, ¬ leavesHigh ∧ (leavesLow ∨ rising), leavesHigh ∨ (¬ leavesLow ∧ falling)⟩

/-- Position relative to the Ichimoku cloud: above both lines. A missing value counts as above, and so does every value when
both lines are missing; when one line is missing the other one decides. -/
def AboveCloud (v a b : Val) : Prop :=
  v = .nan ∨ (a <ᵥ v ∧ b <ᵥ v) ∨ (a = .nan ∧ ¬ v ≤ᵥ b) ∨ (b = .nan ∧ v ≠ a)

/-- Position relative to the Ichimoku cloud: not above either line (with the second line missing: at the first one). -/
def BelowCloud (v a b : Val) : Prop := (v ≤ᵥ a ∧ v ≤ᵥ b) ∨ (b = .nan ∧ v = a ∧ v ≠ .nan)

/-- The latest date before the last one on which a condition holds, as a number of rows before the last row. -/
def LatestBefore (p : Val → Bool) (xs : List Val) (k : ℕ) : Prop :=
  1 ≤ k ∧ k < xs.length ∧ p (before k xs) ∧ ∀ j, 1 ≤ j → j < k → ¬ p (before j xs)

/-- The condition `p` held on an earlier day, and since then `q` did not hold. -/
def MoreRecent (p q : Val → Bool) (xs : List Val) : Prop :=
  ∃ k, LatestBefore p xs k ∧ ∀ j, 1 ≤ j → j ≤ k → ¬ q (before j xs)

/-- A reversal bulge of the mass index: going back from yesterday, a value above 27 is met before one below 26.5. -/
def ReversalBulge (mi : List Val) : Prop :=
  ∃ k, 1 ≤ k ∧ k < mi.length ∧ (27 : Val) <ᵥ before k mi ∧ ∀ j, 1 ≤ j → j < k → ¬ before j mi <ᵥ .fin (265 / 10)

/-- A missing value counts as higher than everything when the lowest one is looked for. -/
def orInf (x : Val) : Val := if x = .nan then .pinf else x

/-- Entry `i` is the first of the lowest entries. -/
def FirstLow (xs : List Val) (i : ℕ) : Prop :=
  (∃ x ∈ xs, x ≠ .nan) ∧ i < xs.length ∧ ∀ j, j < xs.length →
    orInf (xs.getD i .nan) ≤ᵥ orInf (xs.getD j .nan) ∧ (j < i → orInf (xs.getD i .nan) <ᵥ orInf (xs.getD j .nan))

/-- The two columns have their first low on the same row (or both have no value at all). -/
def SameLow (xs ys : List Val) : Prop :=
  ((∀ x ∈ xs, x = .nan) ∧ ∀ y ∈ ys, y = .nan) ∨ ∃ i, FirstLow xs i ∧ FirstLow ys i

/-- The table. -/
def rule (F T : Frame) : Ind → Rule :=
  let ti := fun name k => before k (T.col name)
  let px := fun name k => before k (F.col name)
  let close := px "close"
  fun
  | .accumulationDistributionLine =>
    let moved := close 0 <ᵥ close 1 ∨ close 1 <ᵥ close 0
    ⟨2, moved ∧ (0 : Val) <ᵥ ti "adl" 0, moved ∧ ti "adl" 0 <ᵥ 0⟩
  | .averageTrueRange =>
    let first := F.firstCol
    let volatile := Val.mul (.fin (1 / 100)) (close 0) <ᵥ ti "atr" 0
    let above5 := before 0 (rolling 5 5 aggMean first) <ᵥ close 0
    let above10 := before 0 (rolling 10 5 aggMean first) <ᵥ close 0
    ⟨10, volatile ∧ (above5 ∧ above10 ∨ close 0 <ᵥ before 0 (rolling 5 5 aggMean first)), volatile ∧ above5 ∧ ¬ above10⟩
  | .bollingerBands _ _ => outside (ti "upper_band") (ti "lower_band") close
  | .chaikinMoneyFlow _ =>
    ⟨3, ti "cmf" 1 <ᵥ ti "cmf" 0 ∧ close 0 <ᵥ Val.pmin (close 2) (close 1),
     ti "cmf" 0 <ᵥ ti "cmf" 1 ∧ Val.pmax (close 2) (close 1) <ᵥ close 0⟩
  | .chaikinOscillator =>
    let ma := meanSkip (window 90 (F.col "close"))
    ⟨90, ma <ᵥ close 0 ∧ ti "co" 1 <ᵥ ti "co" 0 ∧ ti "co" 0 <ᵥ 0,
     close 0 <ᵥ ma ∧ ti "co" 0 <ᵥ ti "co" 1 ∧ (0 : Val) <ᵥ ti "co" 0⟩
  | .chandeMomentumOscillator _ => extremes (.fin (-50)) 50 (ti "cmo")
  | .commodityChannelIndex _ => ⟨1, ti "cci" 0 <ᵥ .fin (-100), (100 : Val) <ᵥ ti "cci" 0⟩
  | .detrendedPriceOscillator _ => zeroLine (ti "dpo")
  | .directionalMovementIndex =>
    ⟨2, Overtakes (ti "+di") (ti "-di") ∧ (20 : Val) ≤ᵥ ti "adxr" 0,
     Overtakes (ti "-di") (ti "+di") ∧ (20 : Val) ≤ᵥ ti "adxr" 0⟩
  | .doubleExponentialMovingAverage _ => ⟨1, close 0 <ᵥ ti "dema" 0, False⟩
  | .easeOfMovement _ => zeroLine (ti "emv_ma")
  | .envelopes _ _ => outside (ti "upper_band") (ti "lower_band") close
  | .fibonacciRetracement =>
    let lines := ["rl_61.8", "rl_50.0", "rl_38.2", "rl_23.6"]
    let through := ∃ l ∈ lines, Overtakes (ti l) close
    ⟨2, through, ¬ through ∧ ∃ l ∈ lines, Overtakes close (ti l)⟩
  | .forecastOscillator _ => extremes 0 0 (ti "fosc")
  | .ichimokuCloud =>
    let a := ti "senkou_a" 0
    let b := ti "senkou_b" 0
    let t := ti "tenkan_sen"
    let k := ti "kijun_sen"
    ⟨2, Overtakes t k ∧ AboveCloud (close 0) a b ∧ AboveCloud (t 0) a b ∧ AboveCloud (k 0) a b,
     Overtakes k t ∧ BelowCloud (close 0) a b ∧ BelowCloud (t 0) a b ∧ BelowCloud (k 0) a b⟩
  | .intradayMomentumIndex _ => extremes 30 70 (ti "imi")
  | .klingerOscillator => extremes 0 0 (ti "ko")
  | .linearRegressionIndicator _ => contrary (ti "lri") close
  | .linearRegressionSlope _ => extremes 0 0 (ti "lrs")
  | .marketFacilitationIndex => ⟨2, ti "mfi" 0 <ᵥ ti "mfi" 1, ti "mfi" 1 <ᵥ ti "mfi" 0⟩
  | .massIndex =>
    let bulge := ReversalBulge (T.col "mi")
    ⟨2, bulge ∧ px "9_ema" 0 <ᵥ px "9_ema" 1, bulge ∧ px "9_ema" 1 <ᵥ px "9_ema" 0⟩
  | .medianPrice p =>
    ⟨p, Overtakes (px "close_ema") (ti "mp"), Overtakes (ti "mp") (px "close_ema")⟩
  | .momentum _ =>
    let ema := fun k => before k (ewm 9 9 (T.col "mom"))
    ⟨9, Overtakes ema (ti "mom"), Overtakes (ti "mom") ema⟩
  | .movingAverage _ t => ⟨1, ti t.column 0 <ᵥ close 0, False⟩
  | .movingAverageConvergenceDivergence => macdRule (ti "macd") (ti "signal_line")
  | .negativeVolumeIndex => ⟨255, before 0 (ewm 255 255 (T.col "nvi")) <ᵥ ti "nvi" 0, False⟩
  | .onBalanceVolume => ⟨3, Down3 (ti "obv"), Up3 (ti "obv")⟩
  | .parabolicSAR => follow (ti "sar") close
  | .performance long target => ⟨1, ¬ long ∧ ti "prf" 0 ≤ᵥ target, long ∧ target ≤ᵥ ti "prf" 0⟩
  | .positiveVolumeIndex =>
    let ema := fun k => before k (ewm 255 255 (T.col "pvi"))
    ⟨255, Overtakes (ti "pvi") ema, Overtakes ema (ti "pvi")⟩
  | .priceAndVolumeTrend => ⟨3, Down3 (ti "pvt"), Up3 (ti "pvt")⟩
  | .priceChannel _ => outside (ti "highest_high") (ti "lowest_low") close
  | .priceOscillator _ _ => zeroLine (ti "posc")
  | .priceRateOfChange _ => ⟨3, Down3 (ti "prc"), Up3 (ti "prc")⟩
  | .projectionBands _ =>
    let u := ti "upper_band" 0
    let l := ti "lower_band" 0
    let part := Val.mul (.fin (15 / 100)) (Val.sub u l)
    let near := Val.sub u (close 0) <ᵥ part
    ⟨1, ¬ near ∧ Val.sub (close 0) l <ᵥ part, near⟩
  | .projectionOscillator _ => projectionRule (ti "posc") (ti "trigger_line")
  | .qstick _ =>
    let q := ti "qstick"
    ⟨4, q 3 <ᵥ q 2 ∧ q 2 <ᵥ 0 ∧ (0 : Val) <ᵥ q 1 ∧ q 1 <ᵥ q 0, q 2 <ᵥ q 3 ∧ (0 : Val) <ᵥ q 2 ∧ q 1 <ᵥ 0 ∧ q 0 <ᵥ q 1⟩
  | .rangeIndicator _ _ =>
    let r := ti "ri"
    let starts := Rises 20 (r 1) (r 0)
    let ends := Rises 70 (r 1) (r 0)
    let startedAt := fun s : Val => ∃ k, k < T.len ∧ r k <ᵥ 20 ∧ (∀ j, j < k → ¬ r j <ᵥ 20) ∧ close k = s
    ⟨2, (starts ∧ close 1 <ᵥ close 0) ∨ (¬ starts ∧ ends ∧ ∃ s, startedAt s ∧ ¬ s <ᵥ close 0),
     (starts ∧ ¬ close 1 <ᵥ close 0) ∨ (¬ starts ∧ ends ∧ ∃ s, startedAt s ∧ s <ᵥ close 0)⟩
  | .relativeMomentumIndex _ _ => extremes 30 70 (ti "rmi")
  | .relativeStrengthIndex _ => extremes 30 70 (ti "rsi")
  | .relativeVolatilityIndex _ => extremes 40 60 (ti "rvi")
  | .standardDeviation p =>
    let ma := before 0 (roundS 4 (rolling p p aggMean (F.col "close")))
    let wide := (2 : Val) <ᵥ ti "sd" 0
    ⟨1, close 0 <ᵥ ma ∧ wide, ma <ᵥ close 0 ∧ wide⟩
  | .stochasticMomentumIndex _ _ _ => extremes (.fin (-40)) 40 (ti "smi")
  | .stochasticOscillator _ _ _ _ => stochasticRule (ti "%K") (ti "%D")
  | .swingIndex => extremes 0 0 (ti "swi")
  | .timeSeriesForecast _ => contrary (ti "tsf") close
  | .tripleExponentialMovingAverage _ => ⟨1, close 0 <ᵥ ti "tema" 0, ti "tema" 0 <ᵥ close 0⟩
  | .typicalPrice p => ⟨p, before 0 (rolling p p aggMean F.firstCol) <ᵥ ti "tp" 0, False⟩
  | .ultimateOscillator =>
    let u := ti "uosc"
    let zero := ∃ k, 1 ≤ k ∧ k < 30 ∧ u k = 0
    ⟨30, ¬ SameLow (window 30 (F.col "close")) (window 30 (T.col "uosc")) ∧ ((zero ∧ (0 : Val) <ᵥ u 0) ∨ (¬ zero ∧ (1 : Val) <ᵥ u 0)), False⟩
  | .verticalHorizontalFilter _ =>
    let v := ti "vhf"
    let G := F.sub ["close"]
    let demaAbove := ∃ D, Ind.DoubleExponentialMovingAverage.calcTi 5 G = .ok D ∧
      before 0 (G.col "close") <ᵥ before 0 (D.col "dema")
    let momBelow := ∃ D, Ind.Momentum.calcTi 12 G = .ok D ∧
      Overtakes (fun k => before k (ewm 9 9 (D.col "mom"))) (fun k => before k (D.col "mom"))
    let momAbove := ∃ D, Ind.Momentum.calcTi 12 G = .ok D ∧
      Overtakes (fun k => before k (D.col "mom")) (fun k => before k (ewm 9 9 (D.col "mom")))
    ⟨3, Up3 v ∧ demaAbove ∨ Down3 v ∧ momBelow, Down3 v ∧ momAbove⟩
  | .volatilityChaikins _ _ => ⟨3, Up3 (ti "vch"), Down3 (ti "vch")⟩
  | .volumeOscillator _ _ =>
    let v := ti "vosc"
    ⟨3, (0 : Val) <ᵥ v 2 ∧ Up3 v, Down3 v ∧ (0 : Val) <ᵥ v 0⟩
  | .volumeRateOfChange _ => ⟨3, Down3 (ti "vrc"), Up3 (ti "vrc")⟩
  | .weightedClose => contrary (ti "wc") close
  | .wildersSmoothing _ => contrary (ti "ws") close
  | .williamsAccumulationDistribution =>
    let w := window 30 (T.col "wad")
    let c := window 30 (F.col "close")
    let newLow := Val.eqv (minOf c) (close 0) ∧ ¬ Val.eqv (minOf w) (ti "wad" 0)
    let newHigh := Val.eqv (maxOf c) (close 0) ∧ ¬ Val.eqv (maxOf w) (ti "wad" 0)
    ⟨30, newLow, ¬ newLow ∧ newHigh⟩
  | .williamsR _ =>
    let oversold := fun x : Val => x ≤ᵥ .fin (-80)
    let overbought := fun x : Val => Val.fin (-20) ≤ᵥ x
    ⟨2, Rises (.fin (-50)) (ti "wr" 1) (ti "wr" 0) ∧ MoreRecent oversold overbought (T.col "wr"),
     Falls (.fin (-50)) (ti "wr" 1) (ti "wr" 0) ∧ MoreRecent overbought oversold (T.col "wr")⟩

/-- The latest `n` values of a quantity. -/
def latest (n : ℕ) (x : ℕ → Val) : List Val := (List.range n).map x

/-- The values that decide the signal of the threshold and crossover classes (empty for the other classes). -/
def inspected (F T : Frame) : Ind → List Val :=
  let ti := fun name k => before k (T.col name)
  let px := fun name k => before k (F.col name)
  let close := px "close"
  fun
  | .chandeMomentumOscillator _ => latest 2 (ti "cmo")
  | .commodityChannelIndex _ => latest 1 (ti "cci")
  | .detrendedPriceOscillator _ => latest 2 (ti "dpo")
  | .directionalMovementIndex => latest 2 (ti "+di") ++ latest 2 (ti "-di") ++ latest 1 (ti "adxr")
  | .doubleExponentialMovingAverage _ => latest 1 (ti "dema") ++ latest 1 close
  | .easeOfMovement _ => latest 2 (ti "emv_ma")
  | .forecastOscillator _ => latest 2 (ti "fosc")
  | .intradayMomentumIndex _ => latest 2 (ti "imi")
  | .klingerOscillator => latest 2 (ti "ko")
  | .linearRegressionIndicator _ => latest 2 (ti "lri") ++ latest 2 close
  | .linearRegressionSlope _ => latest 2 (ti "lrs")
  | .marketFacilitationIndex => latest 2 (ti "mfi")
  | .momentum _ => latest 2 (ti "mom") ++ latest 2 fun k => before k (ewm 9 9 (T.col "mom"))
  | .movingAverage _ t => latest 1 (ti t.column) ++ latest 1 close
  | .negativeVolumeIndex => latest 1 (ti "nvi") ++ latest 1 fun k => before k (ewm 255 255 (T.col "nvi"))
  | .onBalanceVolume => latest 3 (ti "obv")
  | .parabolicSAR => latest 2 (ti "sar") ++ latest 2 close
  | .positiveVolumeIndex => latest 2 (ti "pvi") ++ latest 2 fun k => before k (ewm 255 255 (T.col "pvi"))
  | .priceAndVolumeTrend => latest 3 (ti "pvt")
  | .priceOscillator _ _ => latest 2 (ti "posc")
  | .priceRateOfChange _ => latest 3 (ti "prc")
  | .qstick _ => latest 4 (ti "qstick")
  | .relativeMomentumIndex _ _ => latest 2 (ti "rmi")
  | .relativeStrengthIndex _ => latest 2 (ti "rsi")
  | .relativeVolatilityIndex _ => latest 2 (ti "rvi")
  | .stochasticMomentumIndex _ _ _ => latest 2 (ti "smi")
  | .swingIndex => latest 2 (ti "swi")
  | .timeSeriesForecast _ => latest 2 (ti "tsf") ++ latest 2 close
  | .tripleExponentialMovingAverage _ => latest 1 (ti "tema") ++ latest 1 close
  | .volatilityChaikins _ _ => latest 3 (ti "vch")
  | .volumeOscillator _ _ => latest 3 (ti "vosc")
  | .volumeRateOfChange _ => latest 3 (ti "vrc")
  | .weightedClose => latest 2 (ti "wc") ++ latest 2 close
  | .wildersSmoothing _ => latest 2 (ti "ws") ++ latest 2 close
  | .williamsR _ => latest 2 (ti "wr")
  | _ => []

/-- The classes whose sell condition is empty. -/
def NeverSells : Ind → Prop
  | .movingAverage _ _ | .negativeVolumeIndex | .typicalPrice _ | .doubleExponentialMovingAverage _ | .ultimateOscillator => True
  | _ => False

end TTI.Spec
