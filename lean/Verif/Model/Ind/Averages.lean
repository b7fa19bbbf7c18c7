import Verif.Model.Ind.Base

set_option autoImplicit false

/-!
# Regression and moving average indicators
-/

namespace TTI.Ind

/-! ## Linear Regression Slope (`_linear_regression_slope.py`) -/
namespace LinearRegressionSlope

/-- `_calculateTi` (`_linear_regression_slope.py:68-114`). -/
def calcTi (period : ℕ) (F : Frame) : Except Err Frame :=
  if F.len < period then .error (.notEnough period F.len)
  else
    let close := F.col "close"
    let n := rowNumbers F.len
    let nn := n.map fun x => Val.mul x x
    let xy := rolling period period aggSum (mulS close n)
    let x := rolling period period aggSum n
    let xx := rolling period period aggSum nn
    let y := rolling period period aggSum close
    .ok ⟨F.idx, [("lrs", roundS 4 (divS (subS (scaleS period xy) (mulS x y)) (subS (scaleS period xx) (mulS x x))))]⟩

/-- `getTiSignal` (`_linear_regression_slope.py:116-139`). -/
def signal (T : Frame) : SigResult := levelSignal "lrs" 0 0 .sell .buy T

end LinearRegressionSlope

/-! ## Linear Regression Indicator (`_linear_regression_indicator.py`) -/
namespace LinearRegressionIndicator

/-- `_calculateTi` (`_linear_regression_indicator.py:71-104`). -/
def calcTi (period : ℕ) (F : Frame) : Except Err Frame :=
  if F.len < period then .error (.notEnough period F.len)
  else
    let params := rollingOLS period (fillna 0 (F.col "close"))
    .ok ⟨F.idx, [("lri", List.zipWith
      (fun p i => Val.round 4 (Val.add p.1 (Val.mul (.fin (i : ℕ)) p.2))) params (List.range F.len))]⟩

/-- `getTiSignal` (`_linear_regression_indicator.py:106-134`). -/
def signal (F T : Frame) : SigResult := priceCrossSignal "lri" .buy .sell F T

end LinearRegressionIndicator

/-! ## Time Series Forecast (`_time_series_forecast.py`) -/
namespace TimeSeriesForecast

/-- Row-wise sum of slope and regression end value from row `period - 1` on (`_time_series_forecast.py:93-107`,
`_moving_average.py:133-147`). -/
def forecast (period : ℕ) (F : Frame) : Except Err (List Val) := do
  let s ← LinearRegressionSlope.calcTi period (F.sub ["close"])
  let i ← LinearRegressionIndicator.calcTi period (F.sub ["close"])
  return maskBefore (period - 1) (sumRows (s.col "lrs") (i.col "lri"))

/-- `_calculateTi` (`_time_series_forecast.py:70-109`). -/
def calcTi (period : ℕ) (F : Frame) : Except Err Frame := do
  if F.len < period then throw (.notEnough period F.len)
  let t ← forecast period F
  return ⟨F.idx, [("tsf", roundS 4 t)]⟩

/-- `getTiSignal` (`_time_series_forecast.py:111-139`). -/
def signal (F T : Frame) : SigResult := priceCrossSignal "tsf" .buy .sell F T

end TimeSeriesForecast

/-! ## Forecast Oscillator (`_forecast_oscillator.py`) -/
namespace ForecastOscillator

/-- `_calculateTi` (`_forecast_oscillator.py:69-103`). -/
def calcTi (period : ℕ) (F : Frame) : Except Err Frame := do
  if F.len < period then throw (.notEnough period F.len)
  let t ← TimeSeriesForecast.calcTi period (F.sub ["close"])
  let close := F.col "close"
  return ⟨F.idx, [("fosc", roundS 4 (divS (scaleS 100 (subS close (shift 1 (t.col "tsf")))) close))]⟩

/-- `getTiSignal` (`_forecast_oscillator.py:105-126`). -/
def signal (T : Frame) : SigResult := levelSignal "fosc" 0 0 .sell .buy T

end ForecastOscillator

/-! ## Chande Momentum Oscillator (`_chande_momentum_oscillator.py`) -/
namespace ChandeMomentumOscillator

/-- `_calculateTi` (`_chande_momentum_oscillator.py:68-111`). -/
def calcTi (period : ℕ) (F : Frame) : Except Err Frame :=
  if F.len < period then .error (.notEnough period F.len)
  else
    let change := diffS 1 (F.col "close")
    let up := rolling period period aggSum (zeroBelow change)
    let down := (rolling period period aggSum (zeroAbove change)).map Val.abs
    .ok ⟨F.idx, [("cmo", roundS 4 (divS (scaleS 100 (subS up down)) (addS up down)))]⟩

/-- `getTiSignal` (`_chande_momentum_oscillator.py:113-135`). -/
def signal (T : Frame) : SigResult := levelSignal "cmo" 50 (.fin (-50)) .sell .buy T

end ChandeMomentumOscillator

/-! ## Moving Average (`_moving_average.py`) -/

/-- The values of `ma_type` (`_moving_average.py:76`). -/
inductive MaType where
  | simple
  | exponential
  | timeSeries
  | triangular
  | variableType
  deriving DecidableEq, Repr

/-- The string of a `ma_type`. -/
def MaType.str : MaType → String
  | simple => "simple"
  | exponential => "exponential"
  | timeSeries => "time_series"
  | triangular => "triangular"
  | variableType => "variable"

/-- The column name `"ma-" + self._ma_type`. -/
def MaType.column (t : MaType) : String := "ma-" ++ t.str

namespace MovingAverage

/-- The recursion of the variable moving average (`_moving_average.py:165-174`) on rows `(close, vr)`. -/
def variableMa (period : ℕ) (rows : List (Val × Val)) : List Val :=
  let sm : Val := .fin (2 / ((period : ℚ) + 1))
  prefixMap (fun pre =>
    match pre.drop 21 with
    | [] => .nan
    | first :: rest =>
      rest.foldl (fun prev r =>
        Val.add (Val.mul (Val.mul sm r.1) r.2) (Val.mul (Val.sub 1 (Val.mul sm r.2)) prev)) first.1) rows

/-- `_calculateTi` (`_moving_average.py:94-176`). -/
def calcTi (period : ℕ) (t : MaType) (F : Frame) : Except Err Frame := do
  if F.len < period ∧ t ≠ .variableType then throw (.notEnough period F.len)
  if F.len < 22 ∧ t = .variableType then throw (.notEnough 22 F.len)
  let close := F.col "close"
  let ma ← (match t with
    | .simple => pure (rolling period period aggMean close)
    | .exponential => pure (ewm period period close)
    | .timeSeries => TimeSeriesForecast.forecast period F
    | .triangular => pure (rolling period period aggMean (rolling period period aggMean close))
    | .variableType => do
      let cmo ← ChandeMomentumOscillator.calcTi 9 (F.sub ["close"])
      let vr := (cmo.col "cmo").map fun x => Val.abs (Val.div x 100)
      pure (variableMa period (close.zip vr)) : Except Err (List Val))
  return ⟨F.idx, [(t.column, roundS 4 ma)]⟩

/-- `getTiSignal` (`_moving_average.py:178-196`). -/
def signal (t : MaType) (F T : Frame) : SigResult := do
  if T.len < 1 then return .hold
  let c ← iat (F.col "close") 1
  let m ← iat (T.col t.column) 1
  if m <ᵥ c then return .buy
  return .hold

end MovingAverage

/-! ## Double Exponential Moving Average (`_double_exponential_moving_average.py`) -/
namespace DoubleExponentialMovingAverage

/-- `_calculateTi` (`_double_exponential_moving_average.py:68-97`). -/
def calcTi (period : ℕ) (F : Frame) : Except Err Frame :=
  if F.len < period then .error (.notEnough period F.len)
  else
    let ema := ewm period period (F.col "close")
    let emaOfEma := ewm period period ema
    .ok ⟨F.idx, [("dema", roundS 4 (subS (scaleS 2 ema) emaOfEma))]⟩

/-- `getTiSignal` (`_double_exponential_moving_average.py:99-117`). -/
def signal (F T : Frame) : SigResult := do
  if T.len < 1 then return .hold
  let c ← iat (F.col "close") 1
  let m ← iat (T.col "dema") 1
  if c <ᵥ m then return .buy
  return .hold

end DoubleExponentialMovingAverage

/-! ## Triple Exponential Moving Average (`_triple_exponential_moving_average.py`) -/
namespace TripleExponentialMovingAverage

/-- `_calculateTi` (`_triple_exponential_moving_average.py:68-102`). -/
def calcTi (period : ℕ) (F : Frame) : Except Err Frame :=
  if F.len < period then .error (.notEnough period F.len)
  else
    let ema := ewm period period (F.col "close")
    let double := ewm period period ema
    let triple := ewm period period double
    .ok ⟨F.idx, [("tema", roundS 4 (addS (subS (scaleS 3 ema) (scaleS 3 double)) triple))]⟩

/-- `getTiSignal` (`_triple_exponential_moving_average.py:104-126`). -/
def signal (F T : Frame) : SigResult := do
  if T.len < 1 then return .hold
  let c ← iat (F.col "close") 1
  let m ← iat (T.col "tema") 1
  if c <ᵥ m then return .buy
  if m <ᵥ c then return .sell
  return .hold

end TripleExponentialMovingAverage

/-! ## Wilder's Smoothing (`_wilders_smoothing.py`) -/
namespace WildersSmoothing

/-- `_calculateTi` (`_wilders_smoothing.py:68-100`). -/
def calcTi (period : ℕ) (F : Frame) : Except Err Frame :=
  if F.len < period then .error (.notEnough period F.len)
  else .ok ⟨F.idx, [("ws", roundS 4 (wilder 0 period (F.col "close")))]⟩

/-- `getTiSignal` (`_wilders_smoothing.py:102-128`). -/
def signal (F T : Frame) : SigResult := priceCrossSignal "ws" .buy .sell F T

end WildersSmoothing

end TTI.Ind
