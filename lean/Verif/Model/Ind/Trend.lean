import Verif.Model.Ind.Base

set_option autoImplicit false

/-!
# Range, trend and price indicators
-/

namespace TTI.Ind

/-- The three candidates of the true range: high - low, high - previous close, previous close - low, combined by `pick`. -/
def trueRange (pick : Val → Val → Val) (F : Frame) : List Val :=
  let high := F.col "high"
  let low := F.col "low"
  let previous := shift 1 (F.col "close")
  zip3 (fun x y z => pick (pick x y) z) (subS high low) (subS high previous) (subS previous low)

/-! ## Average True Range (`_average_true_range.py`) -/
namespace AverageTrueRange

/-- `_calculateTi` (`_average_true_range.py:53-90`); the exception reports 2 required rows. -/
def calcTi (F : Frame) : Except Err Frame :=
  if F.len < 14 then .error (.notEnough 2 F.len)
  else
    let tr := trueRange maxSkip F
    let series := meanSkip (tr.take 14) :: tr.drop 14
    .ok ⟨F.idx, [("atr", List.replicate 13 Val.nan ++ roundS 4 (ewmAlpha (1 / 14) 1 series))]⟩

/-- `getTiSignal` (`_average_true_range.py:92-125`); `0.01` is taken as exactly `1/100`. The moving averages are taken of
all columns and column 0 is looked at. -/
def signal (F T : Frame) : SigResult := do
  if T.len < 10 then return .hold
  let sma5 := rolling 5 5 aggMean F.firstCol
  let sma10 := rolling 10 5 aggMean F.firstCol
  let a ← iat (T.col "atr") 1
  let c ← iat (F.col "close") 1
  let s5 ← iat sma5 1
  let s10 ← iat sma10 1
  if Val.mul (.fin (1 / 100)) c <ᵥ a then
    if s5 <ᵥ c then
      if s10 <ᵥ c then return .buy else return .sell
    if c <ᵥ s5 then return .buy
  return .hold

end AverageTrueRange

/-! ## Commodity Channel Index (`_commodity_channel_index.py`) -/
namespace CommodityChannelIndex

/-- `differences` (`_commodity_channel_index.py:98-104`) on rows `(tp_sma, typical_price)`, with `_rolling_pipe`
(`_technical_indicator.py:71-93`). -/
def differences (period : ℕ) (rows : List (Val × Val)) : List Val :=
  prefixMap (fun pre =>
    if pre.length < period then .nan
    else
      let w := window period pre
      match w.getLast? with
      | none => 0
      | some last => (w.map fun r => Val.abs (Val.sub last.1 r.2)).foldl Val.add 0) rows

/-- `_calculateTi` (`_commodity_channel_index.py:69-108`); `0.015` is taken as exactly `15/1000`. -/
def calcTi (period : ℕ) (F : Frame) : Except Err Frame :=
  if F.len < period then .error (.notEnough period F.len)
  else
    let tp := F.rows.map fun r => Val.div (sumSkip r) 3
    let sma := rolling period period aggMean tp
    let d := (differences period (sma.zip tp)).map fun x => Val.div (Val.mul (.fin (15 / 1000)) x) (.fin period)
    .ok ⟨F.idx, [("cci", roundS 4 (divS (subS tp sma) d))]⟩

/-- `getTiSignal` (`_commodity_channel_index.py:110-133`). -/
def signal (T : Frame) : SigResult := do
  if T.len < 1 then return .hold
  let a ← iat (T.col "cci") 1
  if a <ᵥ .fin (-100) then return .buy
  else if (100 : Val) <ᵥ a then return .sell
  else return .hold

end CommodityChannelIndex

/-! ## Detrended Price Oscillator (`_detrended_price_oscillator.py`) -/
namespace DetrendedPriceOscillator

/-- `_calculateTi` (`_detrended_price_oscillator.py:68-96`). -/
def calcTi (period : ℕ) (F : Frame) : Except Err Frame :=
  if F.len < period then .error (.notEnough period F.len)
  else
    let close := F.col "close"
    let sma := rolling period period aggMean close
    let dpo := subS close (shiftBack (1 + period / 2) sma)
    let keep := F.len - (1 + period / 2)
    .ok ⟨F.idx.take keep, [("dpo", roundS 4 (dpo.take keep))]⟩

/-- `getTiSignal` (`_detrended_price_oscillator.py:98-120`). -/
def signal (T : Frame) : SigResult := levelSignal "dpo" 0 0 .buy .sell T

end DetrendedPriceOscillator

/-! ## Fibonacci Retracement (`_fibonacci_retracement.py`) -/
namespace FibonacciRetracement

/-- The levels (`_fibonacci_retracement.py:72`), taken as exact decimals, with the column names of line 80. -/
def levels : List (String × ℚ) :=
  [("rl_0.0", 0), ("rl_23.6", 236 / 1000), ("rl_38.2", 382 / 1000), ("rl_50.0", 1 / 2), ("rl_61.8", 618 / 1000),
   ("rl_100.0", 1)]

/-- `_calculateTi` (`_fibonacci_retracement.py:53-81`). -/
def calcTi (F : Frame) : Except Err Frame :=
  let hi := maxOf (F.col "close")
  let lo := minOf (F.col "close")
  .ok ⟨F.idx, levels.map fun l =>
    (l.1, List.replicate F.len (Val.round 4 (Val.sub hi (Val.mul (.fin l.2) (Val.sub hi lo)))))⟩

/-- The crossings tested, in order (`_fibonacci_retracement.py:97-145`): first all downward ones. -/
def tests : List (String × Bool) :=
  [("rl_61.8", true), ("rl_50.0", true), ("rl_38.2", true), ("rl_23.6", true),
   ("rl_61.8", false), ("rl_50.0", false), ("rl_38.2", false), ("rl_23.6", false)]

/-- The chain of tests. -/
def firstCrossing (c2 c1 : Val) (T : Frame) : List (String × Bool) → SigResult
  | [] => .ok .hold
  | (name, down) :: rest => do
    let t2 ← iat (T.col name) 2
    let t1 ← iat (T.col name) 1
    if down then
      if t2 <ᵥ c2 && c1 <ᵥ t1 then return .buy else firstCrossing c2 c1 T rest
    else
      if c2 <ᵥ t2 && t1 <ᵥ c1 then return .sell else firstCrossing c2 c1 T rest

/-- `getTiSignal` (`_fibonacci_retracement.py:83-147`). -/
def signal (F T : Frame) : SigResult := do
  if T.len < 2 then return .hold
  let c2 ← iat (F.col "close") 2
  let c1 ← iat (F.col "close") 1
  firstCrossing c2 c1 T tests

end FibonacciRetracement

/-! ## Directional Movement Index (`_directional_movement_index.py`) -/
namespace DirectionalMovementIndex

/-- Directional movement of one day (`_directional_movement_index.py:104-133`). -/
def plusDm (high high1 low low1 : Val) : Val :=
  if Val.sub low1 low <ᵥ Val.sub high high1 && (0 : Val) <ᵥ Val.sub high high1 then Val.sub high high1 else 0

/-- See `plusDm`. -/
def minusDm (high high1 low low1 : Val) : Val :=
  if Val.sub high high1 <ᵥ Val.sub low1 low && (0 : Val) <ᵥ Val.sub low1 low then Val.sub low1 low else 0

/-- A column of directional movements; row 0 is missing. -/
def dm (f : Val → Val → Val → Val → Val) (F : Frame) : List Val :=
  let high := F.col "high"
  let low := F.col "low"
  maskBefore 1 (List.zipWith (fun (p q : Val × Val) => f p.1 p.2 q.1 q.2) (high.zip (shift 1 high)) (low.zip (shift 1 low)))

/-- The smoothed sums over 14 periods (`_directional_movement_index.py:137-158`). -/
def smooth14 (xs : List Val) : List Val :=
  prefixMap (fun pre =>
    if pre.length < 14 then .nan
    else (pre.drop 14).foldl (fun prev x => Val.add (Val.sub prev (Val.div prev 14)) x) (sumSkip (pre.take 14))) xs

/-- ADX (`_directional_movement_index.py:171-174`). -/
def adxOf (dx : List Val) : List Val :=
  prefixMap (fun pre =>
    if pre.length < 28 then .nan
    else (pre.drop 28).foldl (fun prev x => Val.div (Val.add (Val.mul 13 prev) x) 14)
      (Val.div (sumSkip (pre.take 28)) 14)) dx

/-- `_calculateTi` (`_directional_movement_index.py:55-183`). -/
def calcTi (F : Frame) : Except Err Frame :=
  if F.len < 28 then .error (.notEnough 28 F.len)
  else
    let tr14 := smooth14 (maskBefore 1 (trueRange maxNan F))
    let plus := maskBefore 14 (divS (scaleS 100 (smooth14 (dm plusDm F))) tr14)
    let minus := maskBefore 14 (divS (scaleS 100 (smooth14 (dm minusDm F))) tr14)
    let diff := (subS plus minus).map Val.abs
    let sum := (addS plus minus).map Val.abs
    let dx := divS (scaleS 100 diff) sum
    let adx := adxOf dx
    let adxr := maskBefore 40 ((addS adx (shift 13 adx)).map fun x => Val.div x 2)
    .ok ⟨F.idx, [("+di", roundS 4 plus), ("-di", roundS 4 minus), ("dx", roundS 4 dx), ("adx", roundS 4 adx),
                 ("adxr", roundS 4 adxr)]⟩

/-- `getTiSignal` (`_directional_movement_index.py:185-218`). -/
def signal (T : Frame) : SigResult := do
  if T.len < 2 then return .hold
  let p2 ← iat (T.col "+di") 2
  let m2 ← iat (T.col "-di") 2
  let p1 ← iat (T.col "+di") 1
  let m1 ← iat (T.col "-di") 1
  let a ← iat (T.col "adxr") 1
  if m2 <ᵥ p2 && p1 <ᵥ m1 && (20 : Val) ≤ᵥ a then return .sell
  else if p2 <ᵥ m2 && m1 <ᵥ p1 && (20 : Val) ≤ᵥ a then return .buy
  else return .hold

end DirectionalMovementIndex

/-! ## Ichimoku Cloud (`_ichimoku_cloud.py`) -/
namespace IchimokuCloud

/-- Middle of highest high and lowest low of the last `w` rows (`_ichimoku_cloud.py:71-89`). -/
def middle (w : ℕ) (F : Frame) : List Val :=
  (addS (rolling w 1 aggMax (F.col "high")) (rolling w 1 aggMin (F.col "low"))).map fun x => Val.div x 2

/-- `_calculateTi` (`_ichimoku_cloud.py:53-91`). -/
def calcTi (F : Frame) : Except Err Frame :=
  let tenkan := middle 9 F
  let kijun := middle 26 F
  let a := shift 26 ((addS tenkan kijun).map fun x => Val.div x 2)
  let b := shift 26 (middle 52 F)
  .ok ⟨F.idx, [("tenkan_sen", roundS 4 tenkan), ("kijun_sen", roundS 4 kijun), ("senkou_a", roundS 4 a),
               ("senkou_b", roundS 4 b)]⟩

/-- CPython's `list.sort` on three elements (run detection, then binary insertion), in terms of `<` only, so that it is
also right for NaN. Elements carry a tag. -/
def sort3 {τ : Type} (x y z : Val × τ) : List (Val × τ) :=
  let insert := fun (p q r : Val × τ) =>
    if r.1 <ᵥ q.1 then (if r.1 <ᵥ p.1 then [r, p, q] else [p, r, q]) else [p, q, r]
  if y.1 <ᵥ x.1 then
    if z.1 <ᵥ y.1 then [z, y, x] else insert y x z
  else
    if !(z.1 <ᵥ y.1) then [x, y, z] else insert x y z

/-- `_whereInCloud` (`_ichimoku_cloud.py:94-113`). `index` finds the value itself or an equal entry before it. -/
def whereInCloud (value a b : Val) : ℤ :=
  ((sort3 (a, false) (b, false) (value, true)).findIdx fun e => e.2 || Val.eqv e.1 value : ℕ) - 1

/-- `getTiSignal` (`_ichimoku_cloud.py:115-166`). -/
def signal (F T : Frame) : SigResult := do
  if T.len < 2 then return .hold
  let c ← iat (F.col "close") 1
  let a ← iat (T.col "senkou_a") 1
  let b ← iat (T.col "senkou_b") 1
  let t1 ← iat (T.col "tenkan_sen") 1
  let k1 ← iat (T.col "kijun_sen") 1
  let t2 ← iat (T.col "tenkan_sen") 2
  let k2 ← iat (T.col "kijun_sen") 2
  let pos := whereInCloud c a b + whereInCloud t1 a b + whereInCloud k1 a b
  if t2 <ᵥ k2 && k1 <ᵥ t1 && pos == 3 then return .buy
  if k2 <ᵥ t2 && t1 <ᵥ k1 && pos == -3 then return .sell
  return .hold

end IchimokuCloud

/-! ## Mass Index (`_mass_index.py`) -/
namespace MassIndex

/-- Lines 73-75: a column is appended to the object's input data. -/
def inputAfter (F : Frame) : Frame := ⟨F.idx, F.cols ++ [("9_ema", ewm 9 9 (F.col "close"))]⟩

/-- `_calculateTi` (`_mass_index.py:53-90`). -/
def calcTi (F : Frame) : Except Err Frame :=
  if F.len < 25 then .error (.notEnough 25 F.len)
  else
    let ema := ewm 9 9 (subS (F.col "high") (F.col "low"))
    .ok ⟨F.idx, [("mi", roundS 4 (rolling 25 25 aggSum (divS ema (ewm 9 9 ema))))]⟩

/-- The backwards search for a reversal bulge (`_mass_index.py:111-117`), latest value first. -/
def bulge : List Val → Bool
  | [] => false
  | x :: rest =>
    if x <ᵥ .fin (265 / 10) then false
    else if (27 : Val) <ᵥ x then true
    else bulge rest

/-- `getTiSignal` (`_mass_index.py:92-127`). -/
def signal (F T : Frame) : SigResult := do
  if T.len < 2 then return .hold
  if bulge (T.col "mi").dropLast.reverse then
    let e2 ← iat (F.col "9_ema") 2
    let e1 ← iat (F.col "9_ema") 1
    if e2 <ᵥ e1 then return .sell
    if e1 <ᵥ e2 then return .buy
  return .hold

end MassIndex

/-! ## Median Price (`_median_price.py`) -/
namespace MedianPrice

/-- Lines 78-82: a column is appended to the object's input data. -/
def inputAfter (period : ℕ) (F : Frame) : Frame :=
  ⟨F.idx, F.cols ++ [("close_ema", ewm period period (F.col "close"))]⟩

/-- `_calculateTi` (`_median_price.py:65-91`). -/
def calcTi (F : Frame) : Except Err Frame :=
  .ok ⟨F.idx, [("mp", roundS 4 (scaleS (1 / 2) (addS (F.col "high") (F.col "low"))))]⟩

/-- `getTiSignal` (`_median_price.py:93-121`). With `period = 1` and one row `iat[-2]` raises. -/
def signal (period : ℕ) (F T : Frame) : SigResult := do
  if T.len < period then return .hold
  let e2 ← iat (F.col "close_ema") 2
  let m2 ← iat (T.col "mp") 2
  let e1 ← iat (F.col "close_ema") 1
  let m1 ← iat (T.col "mp") 1
  if e2 <ᵥ m2 && m1 <ᵥ e1 then return .buy
  if m2 <ᵥ e2 && e1 <ᵥ m1 then return .sell
  return .hold

end MedianPrice

/-! ## Parabolic SAR (`_parabolic_sar.py`) -/
namespace ParabolicSAR

/-- A row of the working frame (`_parabolic_sar.py:75-77`): acceleration factor, extreme price, SAR, position (`true` is
"LONG"), and `position_start_index`. -/
structure Row where
  af : ℚ
  ep : Val
  sar : Val
  long : Bool
  start : ℕ
  deriving DecidableEq, Repr

/-- `values[a:b].max()` (numpy, NaN propagates). -/
def sliceMax (xs : List Val) (a b : ℕ) : Val :=
  match (xs.take b).drop a with
  | [] => .nan
  | x :: rest => rest.foldl maxNan x

/-- `values[a:b].min()`. -/
def sliceMin (xs : List Val) (a b : ℕ) : Val :=
  match (xs.take b).drop a with
  | [] => .nan
  | x :: rest => rest.foldl minNan x

/-- Row 0 (`_parabolic_sar.py:127-139`). -/
def firstRow (high low : List Val) : Row :=
  let h0 := high.getD 0 .nan
  let l0 := low.getD 0 .nan
  if h0 <ᵥ high.getD 1 .nan then ⟨2 / 100, h0, l0, true, 0⟩ else ⟨2 / 100, l0, h0, false, 0⟩

/-- The row after a position change (`_parabolic_sar.py:142-155`). -/
def reversed (high low : List Val) (i : ℕ) (prev : Row) : Row :=
  if prev.long then ⟨2 / 100, low.getD i .nan, sliceMax high prev.start i, false, i⟩
  else ⟨2 / 100, high.getD i .nan, sliceMin low prev.start i, true, i⟩

/-- Extreme price (`_parabolic_sar.py:160-164`). -/
def extreme (high low : List Val) (i : ℕ) (prev : Row) : Val :=
  if prev.long then sliceMax high prev.start (i + 1) else sliceMin low prev.start (i + 1)

/-- Acceleration factor (`_parabolic_sar.py:168-175`). -/
def accel (prev : Row) (ep : Val) : ℚ :=
  if prev.long && prev.ep <ᵥ ep then min (2 / 10) (prev.af + 2 / 100)
  else if !prev.long && ep <ᵥ prev.ep then min (2 / 10) (prev.af + 2 / 100)
  else prev.af

/-- SAR before the reversal test (`_parabolic_sar.py:179-190`). -/
def sarOf (high low : List Val) (i : ℕ) (prev : Row) : Val :=
  let sar := Val.add prev.sar (Val.mul (.fin prev.af) (Val.sub prev.ep prev.sar))
  if prev.long then Val.pmin sar (sliceMin low (i - 2) i) else Val.pmax sar (sliceMax high (i - 2) i)

/-- The reversal test (`_parabolic_sar.py:193-195`). -/
def penetrated (high low : List Val) (i : ℕ) (prev : Row) : Bool :=
  let sar := sarOf high low i prev
  (!prev.long && sar <ᵥ high.getD i .nan) || (prev.long && low.getD i .nan <ᵥ sar)

/-- `_calculateSarRow` for `current_index >= 1` (`_parabolic_sar.py:157-206`). -/
def nextRow (high low : List Val) (i : ℕ) (prev : Row) : Row :=
  if penetrated high low i prev then reversed high low i prev
  else
    let ep := extreme high low i prev
    ⟨accel prev ep, ep, sarOf high low i prev, prev.long, prev.start⟩

/-- Row `i` of the working frame (`_parabolic_sar.py:79-87`). -/
def rowAt (high low : List Val) : ℕ → Row
  | 0 => firstRow high low
  | i + 1 => nextRow high low (i + 1) (rowAt high low i)

/-- `_calculateTi` (`_parabolic_sar.py:58-89`). -/
def calcTi (F : Frame) : Except Err Frame :=
  if F.len < 2 then .error (.notEnough 2 F.len)
  else .ok ⟨F.idx, [("sar", (List.range F.len).map fun i =>
    Val.round 4 (rowAt (F.col "high") (F.col "low") i).sar)]⟩

/-- `getTiSignal` (`_parabolic_sar.py:208-233`). -/
def signal (F T : Frame) : SigResult := priceCrossSignal "sar" .sell .buy F T

end ParabolicSAR

/-! ## Performance (`_performance.py`) -/
namespace Performance

/-- The column name `"target_" + mode`. -/
def targetColumn (long : Bool) : String := if long then "target_LONG" else "target_SHORT"

/-- `_calculateTi` (`_performance.py:83-107`). -/
def calcTi (long : Bool) (target : Val) (F : Frame) : Except Err Frame := do
  let close := F.col "close"
  match close.head? with
  | none => throw .indexError
  | some c0 =>
    return ⟨F.idx, [("prf", roundS 4 (close.map fun c => Val.div (Val.sub c c0) c0)),
                    (targetColumn long, List.replicate F.len (Val.round 4 target))]⟩

/-- `getTiSignal` (`_performance.py:109-129`). -/
def signal (long : Bool) (target : Val) (T : Frame) : SigResult := do
  if T.len < 1 then return .hold
  let p ← iat T.firstCol 1
  if long && target ≤ᵥ p then return .sell
  if !long && p ≤ᵥ target then return .buy
  return .hold

end Performance

/-! ## Typical Price (`_typical_price.py`) -/
namespace TypicalPrice

/-- `_calculateTi` (`_typical_price.py:65-82`). -/
def calcTi (F : Frame) : Except Err Frame :=
  .ok ⟨F.idx, [("tp", roundS 4 (F.rows.map meanSkip))]⟩

/-- `getTiSignal` (`_typical_price.py:84-105`): column 0 of the moving averages. -/
def signal (period : ℕ) (F T : Frame) : SigResult := do
  if F.len < period ∨ T.len < 1 then return .hold
  let t ← iat (T.col "tp") 1
  let m ← iat (rolling period period aggMean F.firstCol) 1
  if m <ᵥ t then return .buy
  return .hold

end TypicalPrice

/-! ## Weighted Close (`_weighted_close.py`) -/
namespace WeightedClose

/-- `_calculateTi` (`_weighted_close.py:52-68`). -/
def calcTi (F : Frame) : Except Err Frame :=
  .ok ⟨F.idx, [("wc", roundS 4 ((addS (addS (scaleS 2 (F.col "close")) (F.col "high")) (F.col "low")).map
    fun x => Val.div x 4))]⟩

/-- `getTiSignal` (`_weighted_close.py:70-96`). -/
def signal (F T : Frame) : SigResult := priceCrossSignal "wc" .buy .sell F T

end WeightedClose

end TTI.Ind
