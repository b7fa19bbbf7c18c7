import Verif.Model.Ind.Averages
import Verif.Model.Ind.Momentum
import Verif.Model.Ind.Trend

set_option autoImplicit false

/-!
# Oscillators
-/

namespace TTI.Ind

/-! ## Intraday Momentum Index (`_intraday_momentum_index.py`) -/
namespace IntradayMomentumIndex

/-- `_calculateTi` (`_intraday_momentum_index.py:69-106`). -/
def calcTi (period : ℕ) (F : Frame) : Except Err Frame :=
  if F.len < period then .error (.notEnough period F.len)
  else
    let close := F.col "close"
    let open_ := F.col "open"
    let up := rolling period period aggSum (zeroBelow (subS close open_))
    let down := rolling period period aggSum (zeroBelow (subS open_ close))
    .ok ⟨F.idx, [("imi", roundS 4 (divS (scaleS 100 up) (addS up down)))]⟩

/-- `getTiSignal` (`_intraday_momentum_index.py:108-130`). -/
def signal (T : Frame) : SigResult := levelSignal "imi" 70 30 .sell .buy T

end IntradayMomentumIndex

/-! ## Qstick (`_qstick.py`) -/
namespace Qstick

/-- `_calculateTi` (`_qstick.py:69-94`). -/
def calcTi (period : ℕ) (F : Frame) : Except Err Frame :=
  if F.len < period then .error (.notEnough period F.len)
  else .ok ⟨F.idx, [("qstick", roundS 4 ((rolling period period aggSum (subS (F.col "close") (F.col "open"))).map
    fun x => Val.div x (.fin period)))]⟩

/-- `getTiSignal` (`_qstick.py:96-129`). -/
def signal (T : Frame) : SigResult := do
  if T.len < 4 then return .hold
  let a ← iat (T.col "qstick") 4
  let b ← iat (T.col "qstick") 3
  let c ← iat (T.col "qstick") 2
  let d ← iat (T.col "qstick") 1
  if a <ᵥ b && b <ᵥ 0 && (0 : Val) <ᵥ c && c <ᵥ d then return .buy
  if b <ᵥ a && (0 : Val) <ᵥ b && c <ᵥ 0 && d <ᵥ c then return .sell
  return .hold

end Qstick

/-! ## Range Indicator (`_range_indicator.py`) -/
namespace RangeIndicator

/-- `see_text` of a row (`_range_indicator.py:124-131`). -/
def seeText (trueRange close previous : Val) : Val :=
  if previous <ᵥ close then Val.div trueRange (Val.sub close previous) else trueRange

/-- The two masked assignments (`_range_indicator.py:143-151`). -/
def scaled (s lo hi : Val) : Val :=
  let r := Val.sub hi lo
  let r' := if (0 : Val) <ᵥ r then Val.div (Val.mul 100 (Val.sub s lo)) (Val.sub hi lo) else r
  if r' ≤ᵥ 0 then Val.mul 100 (Val.sub s lo) else r'

/-- `_calculateTi` (`_range_indicator.py:80-159`). -/
def calcTi (rangePeriod smoothingPeriod : ℕ) (F : Frame) : Except Err Frame :=
  let need := max rangePeriod smoothingPeriod
  if F.len < need then .error (.notEnough need F.len)
  else
    let close := F.col "close"
    let text := maskBefore 1 (zip3 seeText (trueRange maxNan F) close (shift 1 close))
    let lo := rolling rangePeriod rangePeriod aggMin text
    let hi := rolling rangePeriod rangePeriod aggMax text
    .ok ⟨F.idx, [("ri", roundS 4 (ewm smoothingPeriod smoothingPeriod (zip3 scaled text lo hi)))]⟩

/-- `getTiSignal` (`_range_indicator.py:161-195`). `iat[-1]` of the empty selection raises `IndexError`, which
`except KeyError` does not catch. -/
def signal (F T : Frame) : SigResult := do
  if T.len < 2 then return .hold
  let r2 ← iat (T.col "ri") 2
  let r1 ← iat (T.col "ri") 1
  let c2 ← iat (F.col "close") 2
  let c1 ← iat (F.col "close") 1
  if crossUp 20 r2 r1 then
    if c2 <ᵥ c1 then return .buy else return .sell
  if crossUp 70 r2 r1 then
    let s ← iat ((((F.col "close").zip (T.col "ri")).filter fun p => p.2 <ᵥ 20).map (·.1)) 1
    if s <ᵥ c1 then return .sell else return .buy
  return .hold

end RangeIndicator

/-! ## Relative Momentum Index (`_relative_momentum_index.py`) -/
namespace RelativeMomentumIndex

/-- `upc` (`_relative_momentum_index.py:113-114`). -/
def upward (x : Val) : Val := if x ≤ᵥ 0 then 0 else if (0 : Val) <ᵥ x then x else .nan

/-- `dpc` (`_relative_momentum_index.py:117-118`). -/
def downward (x : Val) : Val := if (0 : Val) ≤ᵥ x then 0 else if x <ᵥ 0 then Val.abs x else .nan

/-- The unrounded indicator (`_relative_momentum_index.py:107-145`). -/
def raw (period momentumPeriod : ℕ) (close : List Val) : List Val :=
  let change := subS close (shift momentumPeriod close)
  let up := wilder momentumPeriod period (change.map upward)
  let down := wilder momentumPeriod period (change.map downward)
  divS (scaleS 100 (divS up down)) ((divS up down).map fun x => Val.add 1 x)

/-- `_calculateTi` (`_relative_momentum_index.py:79-147`). -/
def calcTi (period momentumPeriod : ℕ) (F : Frame) : Except Err Frame :=
  let need := period + momentumPeriod
  if F.len < need then .error (.notEnough need F.len)
  else .ok ⟨F.idx, [("rmi", roundS 4 (raw period momentumPeriod (F.col "close")))]⟩

/-- `getTiSignal` (`_relative_momentum_index.py:149-171`). -/
def signal (T : Frame) : SigResult := levelSignal "rmi" 70 30 .sell .buy T

end RelativeMomentumIndex

/-! ## Relative Strength Index (`_relative_strength_index.py`) -/
namespace RelativeStrengthIndex

/-- Upward change of a day (`_relative_strength_index.py:94-100`). -/
def upward (close previous : Val) : Val := Val.round 4 (if previous <ᵥ close then Val.sub close previous else 0)

/-- Downward change of a day (`_relative_strength_index.py:116-122`). -/
def downward (close previous : Val) : Val := Val.round 4 (if close <ᵥ previous then Val.sub previous close else 0)

/-- The smoothing with rounding (`_relative_strength_index.py:102-111`, `124-133`); row 0 of `xs` is missing. -/
def smooth (period : ℕ) (xs : List Val) : List Val :=
  prefixMap (fun pre =>
    if pre.length < period + 1 then .nan
    else (pre.drop (period + 1)).foldl
      (fun prev x => Val.round 4 (Val.add prev (Val.div (Val.sub x prev) (.fin period))))
      (meanSkip (pre.take (period + 1)))) xs

/-- The unrounded indicator (`_relative_strength_index.py:91-135`). Simplification: the intermediate columns have dtype
object in the code; their float arithmetic is taken to be that of float64 columns. -/
def raw (period : ℕ) (close : List Val) : List Val :=
  let up := smooth period (maskBefore 1 (zipV upward close (shift 1 close)))
  let down := smooth period (maskBefore 1 (zipV downward close (shift 1 close)))
  (divS up down).map fun x => Val.sub 100 (Val.div 100 (Val.add x 1))

/-- `_calculateTi` (`_relative_strength_index.py:68-137`). -/
def calcTi (period : ℕ) (F : Frame) : Except Err Frame :=
  if F.len < period + 1 then .error (.notEnough (period + 1) F.len)
  else .ok ⟨F.idx, [("rsi", roundS 4 (raw period (F.col "close")))]⟩

/-- `getTiSignal` (`_relative_strength_index.py:139-161`). -/
def signal (T : Frame) : SigResult := levelSignal "rsi" 70 30 .sell .buy T

end RelativeStrengthIndex

/-! ## Relative Volatility Index (`_relative_volatility_index.py`) -/
namespace RelativeVolatilityIndex

/-- `uh`/`dh`/`ul`/`dl` (`_relative_volatility_index.py:107-131`): the 10-period deviation on the days selected by `sel`
of the change, else 0. -/
def selected (sq : ℚ → ℚ) (sel : Val → Bool) (price : List Val) : List Val :=
  zipV (fun change sd => if sel change then sd else 0) (subS price (shift 1 price)) (rolling 10 10 (aggStd sq 0) price)

/-- RVI of one price column (`_relative_volatility_index.py:133-174`). -/
def half (sq : ℚ → ℚ) (period : ℕ) (price : List Val) : List Val :=
  let up := wilder 9 period (selected sq (fun x => (0 : Val) <ᵥ x) price)
  let down := wilder 9 period (selected sq (fun x => x <ᵥ 0) price)
  divS (scaleS 100 up) (addS up down)

/-- `_calculateTi` (`_relative_volatility_index.py:69-179`). -/
def calcTi (sq : ℚ → ℚ) (period : ℕ) (F : Frame) : Except Err Frame :=
  if F.len < period + 10 then .error (.notEnough (period + 10) F.len)
  else .ok ⟨F.idx, [("rvi", roundS 4 ((addS (half sq period (F.col "high")) (half sq period (F.col "low"))).map
    fun x => Val.div x 2))]⟩

/-- `getTiSignal` (`_relative_volatility_index.py:181-201`). -/
def signal (T : Frame) : SigResult := levelSignal "rvi" 60 40 .sell .buy T

end RelativeVolatilityIndex

/-! ## Stochastic Momentum Index (`_stochastic_momentum_index.py`) -/
namespace StochasticMomentumIndex

/-- `_calculateTi` (`_stochastic_momentum_index.py:102-185`). -/
def calcTi (period smoothing doubleSmoothing : ℕ) (F : Frame) : Except Err Frame :=
  if F.len < period then .error (.notEnough period F.len)
  else
    let hh := rolling period period aggMax (F.col "high")
    let ll := rolling period period aggMin (F.col "low")
    let distance := subS (F.col "close") ((addS hh ll).map fun x => Val.div x 2)
    let d2 := ewm doubleSmoothing doubleSmoothing (ewm smoothing smoothing distance)
    let r2 := ewm doubleSmoothing doubleSmoothing (ewm smoothing smoothing (subS hh ll))
    .ok ⟨F.idx, [("smi", roundS 4 (scaleS 100 (divS d2 (scaleS (1 / 2) r2))))]⟩

/-- `getTiSignal` (`_stochastic_momentum_index.py:187-209`). -/
def signal (T : Frame) : SigResult := levelSignal "smi" 40 (.fin (-40)) .sell .buy T

end StochasticMomentumIndex

/-! ## Stochastic Oscillator (`_stochastic_oscillator.py`) -/
namespace StochasticOscillator

/-- Weighted mean of a full window, for `win_type="exponential"`: the weights come from scipy and are a parameter. -/
def aggWeighted (weights : List ℚ) (v : List ℚ) : Val :=
  if weights.sum = 0 then .nan else .fin ((List.zipWith (· * ·) weights v).sum / weights.sum)

/-- `_calculateTi` (`_stochastic_oscillator.py:115-194`); `weights d` are the weights of a window of `d` rows. -/
def calcTi (weights : ℕ → List ℚ) (k slowing d : ℕ) (simple : Bool) (F : Frame) : Except Err Frame :=
  if F.len < k then .error (.notEnough k F.len)
  else
    let ll := rolling k k aggMin (F.col "low")
    let hh := rolling k k aggMax (F.col "high")
    let num := rolling slowing slowing aggSum (subS (F.col "close") ll)
    let den := rolling slowing slowing aggSum (subS hh ll)
    let kLine := roundS 4 (divS (scaleS 100 num) den)
    let dLine := roundS 4 (rolling d d (if simple then aggMean else aggWeighted (weights d)) kLine)
    .ok ⟨F.idx, [("%K", kLine), ("%D", dLine)]⟩

/-- `getTiSignal` (`_stochastic_oscillator.py:196-246`). -/
def signal (T : Frame) : SigResult := do
  if T.len < 2 then return .hold
  let k2 ← iat (T.col "%K") 2
  let k1 ← iat (T.col "%K") 1
  let d2 ← iat (T.col "%D") 2
  let d1 ← iat (T.col "%D") 1
  if crossDown 80 k2 k1 || crossDown 80 d2 d1 then return .sell
  if crossUp 20 k2 k1 || crossUp 20 d2 d1 then return .buy
  if (0 : Val) <ᵥ Val.sub k2 k1 && Val.sub k1 d1 <ᵥ 0 && (80 : Val) <ᵥ k1 then return .sell
  if Val.sub k2 k1 <ᵥ 0 && (0 : Val) <ᵥ Val.sub k1 d1 && k1 <ᵥ 20 then return .buy
  return .hold

end StochasticOscillator

/-! ## Swing Index (`_swing_index.py`) -/
namespace SwingIndex

/-- The clipping (`_swing_index.py:104-105`). -/
def clip (x : Val) : Val :=
  let y := if (100 : Val) <ᵥ x then 100 else x
  if y <ᵥ .fin (-100) then .fin (-100) else y

/-- `_calculateTi` (`_swing_index.py:52-107`). -/
def calcTi (F : Frame) : Except Err Frame :=
  let high := F.col "high"
  let low := F.col "low"
  let close := F.col "close"
  let open_ := F.col "open"
  let yc := shift 1 close
  let a := (subS high yc).map Val.abs
  let b := (subS low yc).map Val.abs
  let numerator := addS (addS (subS close yc) (scaleS (1 / 2) (subS close open_))) (scaleS (1 / 4) (subS yc (shift 1 open_)))
  let k := zipV maxSkip a b
  let r := addS (zip3 (fun x y z => maxSkip (maxSkip x y) z) a b (subS high low))
    (scaleS (1 / 4) ((subS yc (shift 1 open_)).map Val.abs))
  let swi := mulS (scaleS 50 (divS numerator r)) (k.map fun x => Val.div x 3)
  .ok ⟨F.idx, [("swi", roundS 4 (swi.map clip))]⟩

/-- `getTiSignal` (`_swing_index.py:109-131`). -/
def signal (T : Frame) : SigResult := levelSignal "swi" 0 0 .sell .buy T

end SwingIndex

/-! ## Ultimate Oscillator (`_ultimate_oscillator.py`) -/
namespace UltimateOscillator

/-- Quotient of the sums over `w` rows (`_ultimate_oscillator.py:84-102`). -/
def ratio (w : ℕ) (units range : List Val) : List Val :=
  divS (rolling w w aggSum units) (rolling w w aggSum range)

/-- `_calculateTi` (`_ultimate_oscillator.py:53-114`). -/
def calcTi (F : Frame) : Except Err Frame :=
  if F.len < 28 then .error (.notEnough 28 F.len)
  else
    let close := F.col "close"
    let trueHigh := zipV maxNan (F.col "high") (shift 1 close)
    let trueLow := zipV minNan (F.col "low") (shift 1 close)
    let range := subS trueHigh trueLow
    let units := subS close trueLow
    let sum := addS (addS (scaleS 4 (ratio 7 units range)) (scaleS 2 (ratio 14 units range))) (ratio 28 units range)
    .ok ⟨F.idx, [("uosc", roundS 4 ((scaleS 100 sum).map fun x => Val.div x 7))]⟩

/-- `Series.argmin()`: position of the first smallest entry, NaN counting as `+inf`; -1 if all are NaN (pandas < 3; there
it raises). -/
def argmin (xs : List Val) : ℤ :=
  if xs.all Val.isNan then -1
  else
    let ys := xs.map fun x => if x.isNan then .pinf else x
    let m := ys.foldl minSkip .nan
    (ys.findIdx fun y => Val.eqv y m : ℕ)

/-- `Series.all()`: no entry is zero (NaN skipped). -/
def allTrue (xs : List Val) : Bool := xs.all fun x => !Val.eqv x 0

/-- A bool in a comparison with a number. -/
def ofBool (b : Bool) : Val := if b then 1 else 0

/-- `getTiSignal` (`_ultimate_oscillator.py:116-149`). -/
def signal (F T : Frame) : SigResult := do
  if T.len < 30 then return .hold
  let uosc := window 30 (T.col "uosc")
  let last ← iat (T.col "uosc") 1
  if argmin (window 30 (F.col "close")) ≠ argmin uosc then
    if ofBool (allTrue uosc) <ᵥ 30 then
      if ofBool (allTrue uosc.dropLast) <ᵥ last then return .buy
  return .hold

end UltimateOscillator

/-! ## Vertical Horizontal Filter (`_vertical_horizontal_filter.py`) -/
namespace VerticalHorizontalFilter

/-- `_calculateTi` (`_vertical_horizontal_filter.py:70-113`). -/
def calcTi (period : ℕ) (F : Frame) : Except Err Frame :=
  if F.len < period then .error (.notEnough period F.len)
  else
    let close := F.col "close"
    let diff := (subS (rolling period period aggMax close) (rolling period period aggMin close)).map Val.abs
    let change := (subS close (shift 1 close)).map Val.abs
    .ok ⟨F.idx, [("vhf", roundS 4 (divS diff (rolling period period aggSum change)))]⟩

/-- `getTiSignal` (`_vertical_horizontal_filter.py:115-153`): builds a Double Exponential Moving Average or a Momentum
indicator on the object's input data. -/
def signal (F T : Frame) : SigResult := do
  if T.len < 3 then return .hold
  let a ← iat (T.col "vhf") 3
  let b ← iat (T.col "vhf") 2
  let c ← iat (T.col "vhf") 1
  let G := F.sub ["close"]
  if a <ᵥ b && b <ᵥ c then
    if F.len < 5 then return .hold
    else
      let D ← DoubleExponentialMovingAverage.calcTi 5 G
      DoubleExponentialMovingAverage.signal G D
  else if b <ᵥ a && c <ᵥ b then
    if F.len < 12 then return .hold
    else
      let D ← Momentum.calcTi 12 G
      Momentum.signal D
  else return .hold

end VerticalHorizontalFilter

/-! ## Volatility Chaikins (`_volatility_chaikins.py`) -/
namespace VolatilityChaikins

/-- `_calculateTi` (`_volatility_chaikins.py:82-121`). -/
def calcTi (emaPeriod changePeriod : ℕ) (F : Frame) : Except Err Frame :=
  let need := max emaPeriod changePeriod
  if F.len < need then .error (.notEnough need F.len)
  else
    let ema := ewm emaPeriod emaPeriod (subS (F.col "high") (F.col "low"))
    let before := shift changePeriod ema
    .ok ⟨F.idx, [("vch", roundS 4 (scaleS 100 (divS (subS ema before) before)))]⟩

/-- `getTiSignal` (`_volatility_chaikins.py:123-151`). -/
def signal (T : Frame) : SigResult := trendSignal "vch" .sell .buy T

end VolatilityChaikins

/-! ## Williams %R (`_williams_r.py`) -/
namespace WilliamsR

/-- `_calculateTi` (`_williams_r.py:70-102`). -/
def calcTi (period : ℕ) (F : Frame) : Except Err Frame :=
  if F.len < period then .error (.notEnough period F.len)
  else
    let hh := rolling period period aggMax (F.col "high")
    let ll := rolling period period aggMin (F.col "low")
    .ok ⟨F.idx, [("wr", roundS 4 (scaleS (-100) (divS (subS hh (F.col "close")) (subS hh ll))))]⟩

/-- `np.where(mask)[0][-1]`, or -1 if the mask is nowhere true (`_williams_r.py:119-128`). -/
def lastIndex (p : Val → Bool) (xs : List Val) : ℤ :=
  match ((xs.zipIdx).filter fun q => p q.1).getLast? with
  | some q => q.2
  | none => -1

/-- `getTiSignal` (`_williams_r.py:104-146`). -/
def signal (T : Frame) : SigResult := do
  if T.len < 2 then return .hold
  let earlier := (T.col "wr").dropLast
  let oversold := lastIndex (fun x => x ≤ᵥ .fin (-80)) earlier
  let overbought := lastIndex (fun x => Val.fin (-20) ≤ᵥ x) earlier
  let a ← iat (T.col "wr") 2
  let b ← iat (T.col "wr") 1
  if oversold = -1 ∧ overbought = -1 then return .hold
  if overbought < oversold ∧ crossUp (.fin (-50)) a b then return .buy
  if oversold < overbought ∧ crossDown (.fin (-50)) a b then return .sell
  return .hold

end WilliamsR

end TTI.Ind
