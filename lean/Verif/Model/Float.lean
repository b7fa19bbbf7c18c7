import Verif.Model.Api

set_option autoImplicit false

/-!
# The calculations with a rounding after every operation

`Model/Ind` calculates with exact numbers. Here the calculations of a part of the indicators are written once more for float64
numbers: the same operations in the same order, and after each of them the result is rounded. The loops of pandas that these
indicators call (`ewm`, `rolling().mean()`, `.sum()`, `.std()`; pandas 2.3, `pandas/_libs/window/aggregations.pyx`) are written
operation by operation, because the error depends on how the numbers are added up. Overflow and underflow are not modelled.
-/

namespace TTI.Flt

/-- A number arithmetic: the rounding `fl` of an exact result, and the sum of several numbers, which numpy forms in an order of
its own. -/
structure Arith where
  fl : ℚ → ℚ
  sum : List ℚ → ℚ

namespace Arith

variable (A : Arith)

/-- Rounding of a result; infinite and missing values stay. -/
def rd : Val → Val
  | .fin q => .fin (A.fl q)
  | x => x

/-- The four operations. -/
def add (x y : Val) : Val := A.rd (Val.add x y)
def sub (x y : Val) : Val := A.rd (Val.sub x y)
def mul (x y : Val) : Val := A.rd (Val.mul x y)
def div (x y : Val) : Val := A.rd (Val.div x y)

/-- `numpy.round(k)`: times `10^k`, to the next whole number, divided by `10^k`. -/
def round (k : ℕ) : Val → Val
  | .fin q => .fin (A.fl ((rint (A.fl (q * 10 ^ k)) : ℚ) / 10 ^ k))
  | x => x

/-- The operations on columns. -/
def addS := zipV A.add
def subS := zipV A.sub
def mulS := zipV A.mul
def divS := zipV A.div
def scaleS (c : ℚ) (xs : List Val) : List Val := xs.map fun x => A.mul (.fin c) x
def roundS (k : ℕ) (xs : List Val) : List Val := xs.map (A.round k)

/-- `mean()` of some values: missing ones are skipped, the others are summed up and divided by their number. With infinite
values among them the result is that of exact arithmetic. -/
def mean (xs : List Val) : Val :=
  let v := xs.filter fun x => !x.isNan
  if v = [] then .nan
  else if v.all Val.isFin then .fin (A.fl (A.sum (finVals v) / v.length))
  else meanSkip xs

/-! ## Exponential averages -/

/-- `com = (span - 1) / 2`, `alpha = 1 / (1 + com)`, `old_wt_factor = 1 - alpha`. -/
def com (s : ℕ) : ℚ := A.fl (((s : ℚ) - 1) / 2)
def alpha (s : ℕ) : ℚ := A.fl (1 / A.fl (1 + A.com s))
def oldFactor (s : ℕ) : ℚ := A.fl (1 - A.alpha s)

/-- One row of pandas' `ewm` loop (`adjust=False`, `ignore_na=False`). -/
def ewmStep (s : ℕ) (st : EwmState) (x : Val) : EwmState :=
  match st.mean, x with
  | none, .fin c => ⟨some (c, 1), st.nobs + 1⟩
  | none, _ => st
  | some (w, o), .fin c =>
    let o' := A.fl (o * A.oldFactor s)
    let n := if A.com s = 1 then A.fl (1 - o') else A.alpha s
    ⟨some (if w = c then w else A.fl (A.fl (A.fl (o' * w) + A.fl (n * c)) / A.fl (o' + n)), 1), st.nobs + 1⟩
  | some (w, o), _ => ⟨some (w, A.fl (o * A.oldFactor s)), st.nobs⟩

/-- `series.ewm(span=s, min_periods=m, adjust=False).mean()`. -/
def ewm (s m : ℕ) (xs : List Val) : List Val :=
  prefixMap (fun pre =>
    let st := pre.foldl (A.ewmStep s) ⟨none, 0⟩
    if m ≤ st.nobs then ofOption (st.mean.map Prod.fst) else .nan) xs

/-- `sum()` of some values, missing ones skipped. With infinite values among them the result is that of exact arithmetic. -/
def total (xs : List Val) : Val :=
  if (xs.filter fun x => !x.isNan).all Val.isFin then
    if finVals xs = [] then .fin 0 else .fin (A.sum (finVals xs))
  else sumSkip xs

/-- `cumsum()`: the values are added up from the first row on; the rows with a missing value stay missing and are skipped. -/
def cumsum (xs : List Val) : List Val :=
  prefixMap (fun pre =>
    if (pre.getLast?.getD .nan).isNan then .nan else (pre.filter fun x => !x.isNan).foldl A.add 0) xs

/-- `series.ewm(alpha=a, adjust=False).mean()`, `min_periods` 1: `com = (1 - alpha) / alpha`, and `alpha` is calculated from it
again. -/
def ewmAlphaStep (a : ℚ) (st : EwmState) (x : Val) : EwmState :=
  let com := A.fl (A.fl (1 - A.fl a) / A.fl a)
  let alpha := A.fl (1 / A.fl (1 + com))
  let old := A.fl (1 - alpha)
  match st.mean, x with
  | none, .fin c => ⟨some (c, 1), st.nobs + 1⟩
  | none, _ => st
  | some (w, o), .fin c =>
    let o' := A.fl (o * old)
    let n := if com = 1 then A.fl (1 - o') else alpha
    ⟨some (if w = c then w else A.fl (A.fl (A.fl (o' * w) + A.fl (n * c)) / A.fl (o' + n)), 1), st.nobs + 1⟩
  | some (w, o), _ => ⟨some (w, A.fl (o * old)), st.nobs⟩

def ewmAlpha (a : ℚ) (m : ℕ) (xs : List Val) : List Val :=
  prefixMap (fun pre =>
    let st := pre.foldl (A.ewmAlphaStep a) ⟨none, 0⟩
    if m ≤ st.nobs then ofOption (st.mean.map Prod.fst) else .nan) xs

/-- Wilder's smoothing (`_wilders_smoothing.py:87-98`): the mean, then `prev + (x - prev) / period`. -/
def wilder (skip period : ℕ) (xs : List Val) : List Val :=
  prefixMap (fun pre =>
    if pre.length < skip + period then .nan
    else (pre.drop (skip + period)).foldl (fun prev x => A.add prev (A.div (A.sub x prev) (.fin period)))
      (A.mean ((pre.drop skip).take period))) xs

/-! ## Rolling sums and means -/

/-- The variables of pandas' `roll_sum` and `roll_mean`. -/
structure Roll where
  sum : ℚ
  addRest : ℚ
  removeRest : ℚ
  nobs : ℕ
  negatives : ℕ
  same : ℕ
  previous : Val

/-- `add_sum`, `add_mean`: compensated addition of the new value. -/
def rollAdd (st : Roll) : Val → Roll
  | .fin v =>
    let y := A.fl (v - st.addRest)
    let t := A.fl (st.sum + y)
    { sum := t, addRest := A.fl (A.fl (t - st.sum) - y), removeRest := st.removeRest, nobs := st.nobs + 1
      negatives := if v < 0 then st.negatives + 1 else st.negatives
      same := if st.previous = .fin v then st.same + 1 else 1, previous := .fin v }
  | _ => st

/-- `remove_sum`, `remove_mean`: compensated subtraction of the value that leaves the window. -/
def rollRemove (st : Roll) : Val → Roll
  | .fin v =>
    let y := A.fl (-v - st.removeRest)
    let t := A.fl (st.sum + y)
    { st with sum := t, removeRest := A.fl (A.fl (t - st.sum) - y), nobs := st.nobs - 1
              negatives := if v < 0 then st.negatives - 1 else st.negatives }
  | _ => st

/-- The variables at row `i` of a column with windows of `w` rows: a window that shares no row with the one before is summed up
anew; otherwise the row that leaves is removed and the new row is added. -/
def rollState (w : ℕ) (xs : List Val) : ℕ → Roll
  | 0 => A.rollAdd ⟨0, 0, 0, 0, 0, 0, val xs 0⟩ (val xs 0)
  | i + 1 =>
    if w ≤ 1 then A.rollAdd ⟨0, 0, 0, 0, 0, 0, val xs (i + 1)⟩ (val xs (i + 1))
    else
      let st := rollState w xs i
      A.rollAdd (if w ≤ i + 1 then A.rollRemove st (val xs (i + 1 - w)) else st) (val xs (i + 1))
where val (xs : List Val) (i : ℕ) : Val := (xs.getD i .nan).prep

/-- `calc_mean`: the sum divided by the number; the value itself if all are the same; not of the other sign than all values. -/
def calcMean (m : ℕ) (st : Roll) : Val :=
  if m ≤ st.nobs ∧ 0 < st.nobs then
    let r := A.fl (st.sum / st.nobs)
    if st.nobs ≤ st.same then st.previous
    else if st.negatives = 0 ∧ r < 0 then .fin 0
    else if st.negatives = st.nobs ∧ 0 < r then .fin 0
    else .fin r
  else .nan

/-- `calc_sum`: the sum, or the multiple of the value if all are the same. -/
def calcSum (m : ℕ) (st : Roll) : Val :=
  if st.nobs = 0 ∧ m = 0 then .fin 0
  else if m ≤ st.nobs then
    if st.nobs ≤ st.same then A.mul st.previous (.fin st.nobs) else .fin st.sum
  else .nan

/-- `series.rolling(window=w, min_periods=m).mean()` and `.sum()`. -/
def rollMean (w m : ℕ) (xs : List Val) : List Val := (List.range xs.length).map fun i => A.calcMean m (A.rollState w xs i)
def rollSum (w m : ℕ) (xs : List Val) : List Val := (List.range xs.length).map fun i => A.calcSum m (A.rollState w xs i)

/-! ## Rolling standard deviations -/

/-- The variables of pandas' `roll_var`: Welford's recursion for the mean and for the sum of squared distances from it. -/
structure VarRoll where
  mean : ℚ
  ssq : ℚ
  addRest : ℚ
  removeRest : ℚ
  nobs : ℕ
  same : ℕ
  previous : Val
  deriving DecidableEq

/-- `add_var`: the mean moves by the compensated distance of the value, divided by the new number. -/
def varAdd (st : VarRoll) : Val → VarRoll
  | .fin v =>
    let before := A.fl (st.mean - st.addRest)
    let y := A.fl (v - st.addRest)
    let t := A.fl (y - st.mean)
    let after := A.fl (st.mean + A.fl (t / (st.nobs + 1 : ℕ)))
    { mean := after, ssq := A.fl (st.ssq + A.fl (A.fl (v - before) * A.fl (v - after)))
      addRest := A.fl (A.fl (t + st.mean) - y), removeRest := st.removeRest, nobs := st.nobs + 1
      same := if st.previous = .fin v then st.same + 1 else 1, previous := .fin v }
  | _ => st

/-- `remove_var`. -/
def varRemove (st : VarRoll) : Val → VarRoll
  | .fin v =>
    if st.nobs - 1 = 0 then { st with mean := 0, ssq := 0, nobs := 0 }
    else
      let before := A.fl (st.mean - st.removeRest)
      let y := A.fl (v - st.removeRest)
      let t := A.fl (y - st.mean)
      let after := A.fl (st.mean - A.fl (t / (st.nobs - 1 : ℕ)))
      { st with mean := after, ssq := A.fl (st.ssq - A.fl (A.fl (v - before) * A.fl (v - after)))
                removeRest := A.fl (A.fl (t + st.mean) - y), nobs := st.nobs - 1 }
  | _ => st

/-- The variables at row `i` of a column with windows of `w` rows, as for sums. -/
def varState (w : ℕ) (xs : List Val) : ℕ → VarRoll
  | 0 => A.varAdd ⟨0, 0, 0, 0, 0, 0, rollState.val xs 0⟩ (rollState.val xs 0)
  | i + 1 =>
    if w ≤ 1 then A.varAdd ⟨0, 0, 0, 0, 0, 0, rollState.val xs (i + 1)⟩ (rollState.val xs (i + 1))
    else
      let st := varState w xs i
      A.varAdd (if w ≤ i + 1 then A.varRemove st (rollState.val xs (i + 1 - w)) else st) (rollState.val xs (i + 1))

/-- `calc_var` with `ddof=0`: 0 for a single value and if all values are the same. -/
def calcVar (m : ℕ) (st : VarRoll) : Val :=
  if m ≤ st.nobs ∧ 0 < st.nobs then
    if st.nobs = 1 ∨ st.nobs ≤ st.same then .fin 0 else .fin (A.fl (st.ssq / st.nobs))
  else .nan

/-- `zsqrt` (`pandas/core/window/common.py`): the square root, and 0 for a negative number. -/
def zsqrt (sq : ℚ → ℚ) : Val → Val
  | .fin v => if v < 0 then .fin 0 else .fin (A.fl (sq v))
  | x => x

/-- `series.rolling(window=w, min_periods=m).std(ddof=0)`; `sq` is the square root before rounding. -/
def rollStd (sq : ℚ → ℚ) (w m : ℕ) (xs : List Val) : List Val :=
  (List.range xs.length).map fun i => A.zsqrt sq (A.calcVar m (A.varState w xs i))

end Arith

open Ind

/-- `uh`, `dh`, `ul`, `dl` (`_relative_volatility_index.py:107-131`). -/
def volatilitySelected (A : Arith) (sq : ℚ → ℚ) (sel : Val → Bool) (price : List Val) : List Val :=
  zipV (fun change sd => if sel change then sd else 0) (A.subS price (shift 1 price)) (A.rollStd sq 10 10 price)

/-- The index of one price column (`_relative_volatility_index.py:133-174`). -/
def volatilityHalf (A : Arith) (sq : ℚ → ℚ) (period : ℕ) (price : List Val) : List Val :=
  let up := A.wilder 9 period (volatilitySelected A sq (fun x => (0 : Val) <ᵥ x) price)
  let down := A.wilder 9 period (volatilitySelected A sq (fun x => x <ᵥ 0) price)
  A.divS (A.scaleS 100 up) (A.addS up down)

/-- The volatility ratio: the Chande momentum oscillator of 9 days without its sign, divided by 100
(`_moving_average.py:155-159`, `_chande_momentum_oscillator.py:87-111`). -/
def volatilityRatio (A : Arith) (close : List Val) : List Val :=
  let change := A.subS close (shift 1 close)
  let up := A.rollSum 9 9 (zeroBelow change)
  let down := (A.rollSum 9 9 (zeroAbove change)).map Val.abs
  (A.roundS 4 (A.divS (A.scaleS 100 (A.subS up down)) (A.addS up down))).map fun x => Val.abs (A.div x 100)

/-- The recursion of the variable moving average (`_moving_average.py:161-174`) on rows `(close, vr)`. -/
def variableMa (A : Arith) (period : ℕ) (rows : List (Val × Val)) : List Val :=
  let sm : Val := .fin (A.fl (2 / ((period : ℚ) + 1)))
  prefixMap (fun pre =>
    match pre.drop 21 with
    | [] => .nan
    | first :: rest =>
      rest.foldl (fun prev r =>
        A.add (A.mul (A.mul sm r.1) r.2) (A.mul (A.sub 1 (A.mul sm r.2)) prev)) first.1) rows

/-- The middle of a range (`_ichimoku_cloud.py:71-89`). -/
def middle (A : Arith) (w : ℕ) (F : Frame) : List Val :=
  (A.addS (rolling w 1 aggMax (F.col "high")) (rolling w 1 aggMin (F.col "low"))).map fun x => A.div x (.fin 2)

/-- `volume * ((close - low) - (high - close)) / (high - low)` (`_accumulation_distribution_line.py:63-70`,
`_chaikin_money_flow.py:90-97`). -/
def moneyFlowVolume (A : Arith) (F : Frame) : List Val :=
  let high := F.col "high"
  let low := F.col "low"
  let close := F.col "close"
  A.divS (A.mulS (F.col "volume") (A.subS (A.subS close low) (A.subS high close))) (A.subS high low)

/-- The loop of the negative and the positive volume index (`_negative_volume_index.py:74-82`, `_positive_volume_index.py:74-82`). -/
def volumeIndex (A : Arith) (moves : Val → Val → Bool) (rows : List (Val × Val)) : List Val :=
  prefixMap (fun pre =>
    match pre with
    | [] => .nan
    | first :: rest =>
      (rest.foldl (fun (st : Val × (Val × Val)) r =>
        let v := st.1
        let p := st.2
        (if moves p.2 r.2 then A.add v (A.mul (A.sub r.1 p.1) (A.div v p.1)) else v, r))
        ((1000 : Val), first)).1) rows

/-- The loop of the price and volume trend (`_price_and_volume_trend.py:74-79`). -/
def priceVolumeTrend (A : Arith) (rows : List (Val × Val)) : List Val :=
  prefixMap (fun pre =>
    match pre with
    | [] => .nan
    | first :: rest =>
      (rest.foldl (fun (st : Val × Val) r =>
        (A.add st.1 (A.mul (A.sub r.1 st.2) (A.div r.2 st.2)), r.1)) ((0 : Val), first.1)).1) rows

/-- The three candidates of the true range (`_average_true_range.py:72-81`, `_directional_movement_index.py:95-101`,
`_range_indicator.py:115-122`). -/
def trueRange (A : Arith) (pick : Val → Val → Val) (F : Frame) : List Val :=
  let high := F.col "high"
  let low := F.col "low"
  let previous := shift 1 (F.col "close")
  zip3 (fun x y z => pick (pick x y) z) (A.subS high low) (A.subS high previous) (A.subS previous low)

/-- `see_text` of a row (`_range_indicator.py:124-131`). -/
def seeText (A : Arith) (trueRange close previous : Val) : Val :=
  if previous <ᵥ close then A.div trueRange (A.sub close previous) else trueRange

/-- The two masked assignments (`_range_indicator.py:141-151`). -/
def rangeScaled (A : Arith) (s lo hi : Val) : Val :=
  let r := A.sub hi lo
  let r' := if (0 : Val) <ᵥ r then A.div (A.mul 100 (A.sub s lo)) (A.sub hi lo) else r
  if r' ≤ᵥ 0 then A.mul 100 (A.sub s lo) else r'

/-- The unrounded relative momentum index (`_relative_momentum_index.py:107-145`). -/
def momentumIndex (A : Arith) (period momentumPeriod : ℕ) (close : List Val) : List Val :=
  let change := A.subS close (shift momentumPeriod close)
  let up := A.wilder momentumPeriod period (change.map RelativeMomentumIndex.upward)
  let down := A.wilder momentumPeriod period (change.map RelativeMomentumIndex.downward)
  A.divS (A.scaleS 100 (A.divS up down)) ((A.divS up down).map fun x => A.add 1 x)

/-- Upward and downward change of a day (`_relative_strength_index.py:94-100`, `116-122`). -/
def upward (A : Arith) (close previous : Val) : Val := A.round 4 (if previous <ᵥ close then A.sub close previous else 0)
def downward (A : Arith) (close previous : Val) : Val := A.round 4 (if close <ᵥ previous then A.sub previous close else 0)

/-- The smoothing with rounding (`_relative_strength_index.py:102-111`, `124-133`). -/
def strengthSmooth (A : Arith) (period : ℕ) (xs : List Val) : List Val :=
  prefixMap (fun pre =>
    if pre.length < period + 1 then .nan
    else (pre.drop (period + 1)).foldl
      (fun prev x => A.round 4 (A.add prev (A.div (A.sub x prev) (.fin period))))
      (A.mean (pre.take (period + 1)))) xs

/-- The unrounded relative strength index (`_relative_strength_index.py:91-135`). -/
def strengthIndex (A : Arith) (period : ℕ) (close : List Val) : List Val :=
  let up := strengthSmooth A period (maskBefore 1 (zipV (upward A) close (shift 1 close)))
  let down := strengthSmooth A period (maskBefore 1 (zipV (downward A) close (shift 1 close)))
  (A.divS up down).map fun x => A.sub 100 (A.div 100 (A.add x 1))

/-- Quotient of the sums over `w` rows (`_ultimate_oscillator.py:84-102`). -/
def unitRatio (A : Arith) (w : ℕ) (units range : List Val) : List Val := A.divS (A.rollSum w w units) (A.rollSum w w range)

/-- Cumulative measurement (`_klinger_oscillator.py:83-88`). -/
def cumulative (A : Arith) (rows : List (Val × Val)) : List Val :=
  prefixMap (fun pre =>
    match pre with
    | [] => .nan
    | first :: rest =>
      (rest.foldl (fun (st : Val × (Val × Val)) r =>
        (if Val.eqv r.1 st.2.1 then A.add st.1 r.2 else A.add st.2.2 r.2, r)) ((0 : Val), first)).1) rows

/-- One row of the Williams accumulation distribution (`_williams_accumulation_distribution.py:67-84`). -/
def wadRow (A : Arith) (close previous high low : Val) : Val :=
  let trh := maxNan previous high
  let trl := minNan previous low
  let wad := A.sub close previous
  if wad <ᵥ 0 then A.sub close trh else if (0 : Val) <ᵥ wad then A.sub close trl else wad

/-- `differences` (`_commodity_channel_index.py:98-104`). -/
def differences (A : Arith) (period : ℕ) (rows : List (Val × Val)) : List Val :=
  prefixMap (fun pre =>
    if pre.length < period then .nan
    else
      let w := window period pre
      match w.getLast? with
      | none => 0
      | some last => (w.map fun r => Val.abs (A.sub last.1 r.2)).foldl A.add 0) rows

/-- Directional movement of one day (`_directional_movement_index.py:104-133`). -/
def plusDm (A : Arith) (high high1 low low1 : Val) : Val :=
  if A.sub low1 low <ᵥ A.sub high high1 && (0 : Val) <ᵥ A.sub high high1 then A.sub high high1 else 0
def minusDm (A : Arith) (high high1 low low1 : Val) : Val :=
  if A.sub high high1 <ᵥ A.sub low1 low && (0 : Val) <ᵥ A.sub low1 low then A.sub low1 low else 0

/-- The smoothed sums over 14 periods (`_directional_movement_index.py:137-158`). -/
def smooth14 (A : Arith) (xs : List Val) : List Val :=
  prefixMap (fun pre =>
    if pre.length < 14 then .nan
    else (pre.drop 14).foldl (fun prev x => A.add (A.sub prev (A.div prev 14)) x) (A.total (pre.take 14))) xs

/-- ADX (`_directional_movement_index.py:171-174`). -/
def adxOf (A : Arith) (dx : List Val) : List Val :=
  prefixMap (fun pre =>
    if pre.length < 28 then .nan
    else (pre.drop 28).foldl (fun prev x => A.div (A.add (A.mul 13 prev) x) 14)
      (A.div (A.total (pre.take 28)) 14)) dx

/-! The Parabolic SAR (`_parabolic_sar.py:91-206`): `0.02` and `0.2` are the floats next to them. -/

def sarStart (A : Arith) : ℚ := A.fl (2 / 100)

def sarFirst (A : Arith) (high low : List Val) : ParabolicSAR.Row := { ParabolicSAR.firstRow high low with af := sarStart A }

def sarReversed (A : Arith) (high low : List Val) (i : ℕ) (prev : ParabolicSAR.Row) : ParabolicSAR.Row :=
  { ParabolicSAR.reversed high low i prev with af := sarStart A }

def sarAccel (A : Arith) (prev : ParabolicSAR.Row) (ep : Val) : ℚ :=
  if prev.long && prev.ep <ᵥ ep then min (A.fl (2 / 10)) (A.fl (prev.af + sarStart A))
  else if !prev.long && ep <ᵥ prev.ep then min (A.fl (2 / 10)) (A.fl (prev.af + sarStart A))
  else prev.af

def sarOf (A : Arith) (high low : List Val) (i : ℕ) (prev : ParabolicSAR.Row) : Val :=
  let sar := A.add prev.sar (A.mul (.fin prev.af) (A.sub prev.ep prev.sar))
  if prev.long then Val.pmin sar (ParabolicSAR.sliceMin low (i - 2) i) else Val.pmax sar (ParabolicSAR.sliceMax high (i - 2) i)

def sarPenetrated (A : Arith) (high low : List Val) (i : ℕ) (prev : ParabolicSAR.Row) : Bool :=
  let sar := sarOf A high low i prev
  (!prev.long && sar <ᵥ high.getD i .nan) || (prev.long && low.getD i .nan <ᵥ sar)

def sarNext (A : Arith) (high low : List Val) (i : ℕ) (prev : ParabolicSAR.Row) : ParabolicSAR.Row :=
  if sarPenetrated A high low i prev then sarReversed A high low i prev
  else
    let ep := ParabolicSAR.extreme high low i prev
    ⟨sarAccel A prev ep, ep, sarOf A high low i prev, prev.long, prev.start⟩

def sarRow (A : Arith) (high low : List Val) : ℕ → ParabolicSAR.Row
  | 0 => sarFirst A high low
  | i + 1 => sarNext A high low (i + 1) (sarRow A high low i)

/-- `_calculateTi` in rounded arithmetic. The square root of float64 is the rounded value of `E.sq`. Not modelled in rounded
arithmetic, and calculated exactly as before, are the classes that need a regression by statsmodels (linear regression indicator,
time series forecast, forecast oscillator, projection bands, projection oscillator), the time series moving average, and the
stochastic oscillator with scipy's window weights. -/
def calcTi (A : Arith) (E : Env) (F : Frame) : Ind → Except Err Frame
  /- `_moving_average.py:94-176` -/
  | .movingAverage n .simple =>
    if F.len < n then .error (.notEnough n F.len)
    else .ok ⟨F.idx, [("ma-simple", A.roundS 4 (A.rollMean n n (F.col "close")))]⟩
  | .movingAverage n .exponential =>
    if F.len < n then .error (.notEnough n F.len)
    else .ok ⟨F.idx, [("ma-exponential", A.roundS 4 (A.ewm n n (F.col "close")))]⟩
  | .movingAverage n .triangular =>
    if F.len < n then .error (.notEnough n F.len)
    else .ok ⟨F.idx, [("ma-triangular", A.roundS 4 (A.rollMean n n (A.rollMean n n (F.col "close"))))]⟩
  | .movingAverage n .variableType =>
    if F.len < 22 then .error (.notEnough 22 F.len)
    else .ok ⟨F.idx, [("ma-variable",
      A.roundS 4 (variableMa A n ((F.col "close").zip (volatilityRatio A ((F.sub ["close"]).col "close")))))]⟩
  /- `_double_exponential_moving_average.py:68-97` -/
  | .doubleExponentialMovingAverage n =>
    if F.len < n then .error (.notEnough n F.len)
    else
      let ema := A.ewm n n (F.col "close")
      let emaOfEma := A.ewm n n ema
      .ok ⟨F.idx, [("dema", A.roundS 4 (A.subS (A.scaleS 2 ema) emaOfEma))]⟩
  /- `_triple_exponential_moving_average.py:68-102` -/
  | .tripleExponentialMovingAverage n =>
    if F.len < n then .error (.notEnough n F.len)
    else
      let ema := A.ewm n n (F.col "close")
      let double := A.ewm n n ema
      let triple := A.ewm n n double
      .ok ⟨F.idx, [("tema", A.roundS 4 (A.addS (A.subS (A.scaleS 3 ema) (A.scaleS 3 double)) triple))]⟩
  /- `_moving_average_convergence_divergence.py:54-88` -/
  | .movingAverageConvergenceDivergence =>
    if F.len < 26 then .error (.notEnough 26 F.len)
    else
      let ema26 := A.roundS 4 (A.ewm 26 26 (F.col "close"))
      let ema12 := A.roundS 4 (A.ewm 12 12 (F.col "close"))
      let macd := A.subS ema12 ema26
      .ok ⟨F.idx, [("macd", A.roundS 4 macd), ("signal_line", A.roundS 4 (A.ewm 9 9 macd))]⟩
  /- `_wilders_smoothing.py:68-100` -/
  | .wildersSmoothing n =>
    if F.len < n then .error (.notEnough n F.len)
    else .ok ⟨F.idx, [("ws", A.roundS 4 (A.wilder 0 n (F.col "close")))]⟩
  /- `_median_price.py:65-91` -/
  | .medianPrice _ => .ok ⟨F.idx, [("mp", A.roundS 4 (A.scaleS (1 / 2) (A.addS (F.col "high") (F.col "low"))))]⟩
  /- `_typical_price.py:65-82` -/
  | .typicalPrice _ => .ok ⟨F.idx, [("tp", A.roundS 4 (F.rows.map A.mean))]⟩
  /- `_weighted_close.py:52-68` -/
  | .weightedClose =>
    .ok ⟨F.idx, [("wc", A.roundS 4 ((A.addS (A.addS (A.scaleS 2 (F.col "close")) (F.col "high")) (F.col "low")).map
      fun x => A.div x (.fin 4)))]⟩
  /- `_price_channel.py:70-109` -/
  | .priceChannel n =>
    if F.len < n then .error (.notEnough n F.len)
    else .ok ⟨F.idx, [("highest_high", A.roundS 4 (shift 1 (rolling n n aggMax (F.col "high")))),
                      ("lowest_low", A.roundS 4 (shift 1 (rolling n n aggMin (F.col "low"))))]⟩
  /- `_ichimoku_cloud.py:53-91` -/
  | .ichimokuCloud =>
    let tenkan := middle A 9 F
    let kijun := middle A 26 F
    let a := shift 26 ((A.addS tenkan kijun).map fun x => A.div x (.fin 2))
    let b := shift 26 (middle A 52 F)
    .ok ⟨F.idx, [("tenkan_sen", A.roundS 4 tenkan), ("kijun_sen", A.roundS 4 kijun), ("senkou_a", A.roundS 4 a),
                 ("senkou_b", A.roundS 4 b)]⟩
  /- `_fibonacci_retracement.py:53-81`; a level such as 0.236 is the float next to it -/
  | .fibonacciRetracement =>
    let hi := maxOf (F.col "close")
    let lo := minOf (F.col "close")
    .ok ⟨F.idx, FibonacciRetracement.levels.map fun l =>
      (l.1, List.replicate F.len (A.round 4 (A.sub hi (A.mul (.fin (A.fl l.2)) (A.sub hi lo)))))⟩
  /- `_momentum.py:68-95` -/
  | .momentum n =>
    if F.len < n then .error (.notEnough n F.len)
    else .ok ⟨F.idx, [("mom", A.roundS 4 (maskBefore n (A.divS (A.scaleS 100 (F.col "close")) (shift n (F.col "close")))))]⟩
  /- `_price_rate_of_change.py:68-97` -/
  | .priceRateOfChange n =>
    if F.len < n then .error (.notEnough n F.len)
    else
      let before := shift n (F.col "close")
      .ok ⟨F.idx, [("prc", A.roundS 4 (A.divS (A.scaleS 100 (A.subS (F.col "close") before)) before))]⟩
  /- `_volume_rate_of_change.py:68-96` -/
  | .volumeRateOfChange n =>
    if F.len < n then .error (.notEnough n F.len)
    else
      let before := shift n (F.col "volume")
      .ok ⟨F.idx, [("vrc", A.roundS 4 (A.scaleS 100 (A.divS (A.subS (F.col "volume") before) before)))]⟩
  /- `_williams_r.py:70-102` -/
  | .williamsR n =>
    if F.len < n then .error (.notEnough n F.len)
    else
      let hh := rolling n n aggMax (F.col "high")
      let ll := rolling n n aggMin (F.col "low")
      .ok ⟨F.idx, [("wr", A.roundS 4 (A.scaleS (-100) (A.divS (A.subS hh (F.col "close")) (A.subS hh ll))))]⟩
  /- `_performance.py:83-107` -/
  | .performance long target =>
    match (F.col "close").head? with
    | none => .error .indexError
    | some c0 =>
      .ok ⟨F.idx, [("prf", A.roundS 4 ((F.col "close").map fun c => A.div (A.sub c c0) c0)),
                   (Performance.targetColumn long, List.replicate F.len (A.round 4 target))]⟩
  /- `_market_facilitation_index.py:52-72` -/
  | .marketFacilitationIndex =>
    .ok ⟨F.idx, [("mfi", A.roundS 10 (A.divS (A.subS (F.col "high") (F.col "low")) (F.col "volume")))]⟩
  /- `_envelopes.py:79-109` -/
  | .envelopes n s =>
    if F.len < n then .error (.notEnough n F.len)
    else
      let ma := A.rollMean n n (F.col "close")
      .ok ⟨F.idx, [("upper_band", A.roundS 4 (A.scaleS (A.fl (1 + s)) ma)),
                   ("lower_band", A.roundS 4 (A.scaleS (A.fl (1 - s)) ma))]⟩
  /- `_volume_oscillator.py:85-118` -/
  | .volumeOscillator long short =>
    if F.len < long then .error (.notEnough long F.len)
    else .ok ⟨F.idx, [("vosc", A.roundS 4 (A.subS (A.rollMean short short (F.col "volume"))
      (A.rollMean long long (F.col "volume"))))]⟩
  /- `_qstick.py:68-95` -/
  | .qstick n =>
    if F.len < n then .error (.notEnough n F.len)
    else .ok ⟨F.idx, [("qstick", A.roundS 4 ((A.rollSum n n (A.subS (F.col "close") (F.col "open"))).map
      fun x => A.div x (.fin n)))]⟩
  /- `_detrended_price_oscillator.py:68-96` -/
  | .detrendedPriceOscillator n =>
    if F.len < n then .error (.notEnough n F.len)
    else
      let keep := F.len - (1 + n / 2)
      .ok ⟨F.idx.take keep, [("dpo", A.roundS 4 ((A.subS (F.col "close") (shiftBack (1 + n / 2)
        (A.rollMean n n (F.col "close")))).take keep))]⟩
  /- `_price_oscillator.py:80-110` -/
  | .priceOscillator long short =>
    if F.len < long then .error (.notEnough long F.len)
    else
      let l := A.rollMean long long (F.col "close")
      let s := A.rollMean short short (F.col "close")
      .ok ⟨F.idx, [("posc", A.roundS 4 (A.divS (A.scaleS 100 (A.subS s l)) l))]⟩
  /- `_linear_regression_slope.py:68-114` -/
  | .linearRegressionSlope n =>
    if F.len < n then .error (.notEnough n F.len)
    else
      let close := F.col "close"
      let row := rowNumbers F.len
      let xy := A.rollSum n n (A.mulS close row)
      let x := A.rollSum n n row
      let xx := A.rollSum n n (row.map fun x => A.mul x x)
      let y := A.rollSum n n close
      .ok ⟨F.idx, [("lrs", A.roundS 4 (A.divS (A.subS (A.scaleS n xy) (A.mulS x y)) (A.subS (A.scaleS n xx) (A.mulS x x))))]⟩
  /- `_chande_momentum_oscillator.py:68-111` -/
  | .chandeMomentumOscillator n =>
    if F.len < n then .error (.notEnough n F.len)
    else
      let change := A.subS (F.col "close") (shift 1 (F.col "close"))
      let up := A.rollSum n n (zeroBelow change)
      let down := (A.rollSum n n (zeroAbove change)).map Val.abs
      .ok ⟨F.idx, [("cmo", A.roundS 4 (A.divS (A.scaleS 100 (A.subS up down)) (A.addS up down)))]⟩
  /- `_intraday_momentum_index.py:69-106` -/
  | .intradayMomentumIndex n =>
    if F.len < n then .error (.notEnough n F.len)
    else
      let up := A.rollSum n n (zeroBelow (A.subS (F.col "close") (F.col "open")))
      let down := A.rollSum n n (zeroBelow (A.subS (F.col "open") (F.col "close")))
      .ok ⟨F.idx, [("imi", A.roundS 4 (A.divS (A.scaleS 100 up) (A.addS up down)))]⟩
  /- `_range_indicator.py:80-159` -/
  | .rangeIndicator n s =>
    if F.len < max n s then .error (.notEnough (max n s) F.len)
    else
      let text := maskBefore 1 (zip3 (seeText A) (trueRange A maxNan F) (F.col "close") (shift 1 (F.col "close")))
      .ok ⟨F.idx, [("ri", A.roundS 4 (A.ewm s s (zip3 (rangeScaled A) text (rolling n n aggMin text) (rolling n n aggMax text))))]⟩
  /- `_relative_momentum_index.py:79-147` -/
  | .relativeMomentumIndex n m =>
    if F.len < n + m then .error (.notEnough (n + m) F.len)
    else .ok ⟨F.idx, [("rmi", A.roundS 4 (momentumIndex A n m (F.col "close")))]⟩
  /- `_relative_strength_index.py:68-137` -/
  | .relativeStrengthIndex n =>
    if F.len < n + 1 then .error (.notEnough (n + 1) F.len)
    else .ok ⟨F.idx, [("rsi", A.roundS 4 (strengthIndex A n (F.col "close")))]⟩
  /- `_stochastic_momentum_index.py:102-185` -/
  | .stochasticMomentumIndex n s d =>
    if F.len < n then .error (.notEnough n F.len)
    else
      let hh := rolling n n aggMax (F.col "high")
      let ll := rolling n n aggMin (F.col "low")
      let distance := A.subS (F.col "close") ((A.addS hh ll).map fun x => A.div x 2)
      let d2 := A.ewm d d (A.ewm s s distance)
      let r2 := A.ewm d d (A.ewm s s (A.subS hh ll))
      .ok ⟨F.idx, [("smi", A.roundS 4 (A.scaleS 100 (A.divS d2 (A.scaleS (1 / 2) r2))))]⟩
  /- `_stochastic_oscillator.py:115-194`, `d_method` simple -/
  | .stochasticOscillator k s d true =>
    if F.len < k then .error (.notEnough k F.len)
    else
      let ll := rolling k k aggMin (F.col "low")
      let hh := rolling k k aggMax (F.col "high")
      let num := A.rollSum s s (A.subS (F.col "close") ll)
      let den := A.rollSum s s (A.subS hh ll)
      let kLine := A.roundS 4 (A.divS (A.scaleS 100 num) den)
      .ok ⟨F.idx, [("%K", kLine), ("%D", A.roundS 4 (A.rollMean d d kLine))]⟩
  /- `_swing_index.py:52-107` -/
  | .swingIndex =>
    let high := F.col "high"
    let low := F.col "low"
    let close := F.col "close"
    let open_ := F.col "open"
    let yc := shift 1 close
    let a := (A.subS high yc).map Val.abs
    let b := (A.subS low yc).map Val.abs
    let numerator := A.addS (A.addS (A.subS close yc) (A.scaleS (1 / 2) (A.subS close open_)))
      (A.scaleS (1 / 4) (A.subS yc (shift 1 open_)))
    let k := zipV maxSkip a b
    let r := A.addS (zip3 (fun x y z => maxSkip (maxSkip x y) z) a b (A.subS high low))
      (A.scaleS (1 / 4) ((A.subS yc (shift 1 open_)).map Val.abs))
    let swi := A.mulS (A.scaleS 50 (A.divS numerator r)) (k.map fun x => A.div x 3)
    .ok ⟨F.idx, [("swi", A.roundS 4 (swi.map SwingIndex.clip))]⟩
  /- `_ultimate_oscillator.py:53-114` -/
  | .ultimateOscillator =>
    if F.len < 28 then .error (.notEnough 28 F.len)
    else
      let close := F.col "close"
      let trueHigh := zipV maxNan (F.col "high") (shift 1 close)
      let trueLow := zipV minNan (F.col "low") (shift 1 close)
      let range := A.subS trueHigh trueLow
      let units := A.subS close trueLow
      let sum := A.addS (A.addS (A.scaleS 4 (unitRatio A 7 units range)) (A.scaleS 2 (unitRatio A 14 units range)))
        (unitRatio A 28 units range)
      .ok ⟨F.idx, [("uosc", A.roundS 4 ((A.scaleS 100 sum).map fun x => A.div x 7))]⟩
  /- `_vertical_horizontal_filter.py:70-113` -/
  | .verticalHorizontalFilter n =>
    if F.len < n then .error (.notEnough n F.len)
    else
      let close := F.col "close"
      let diff := (A.subS (rolling n n aggMax close) (rolling n n aggMin close)).map Val.abs
      let change := (A.subS close (shift 1 close)).map Val.abs
      .ok ⟨F.idx, [("vhf", A.roundS 4 (A.divS diff (A.rollSum n n change)))]⟩
  /- `_volatility_chaikins.py:82-121` -/
  | .volatilityChaikins e c =>
    if F.len < max e c then .error (.notEnough (max e c) F.len)
    else
      let ema := A.ewm e e (A.subS (F.col "high") (F.col "low"))
      let before := shift c ema
      .ok ⟨F.idx, [("vch", A.roundS 4 (A.scaleS 100 (A.divS (A.subS ema before) before)))]⟩
  /- `_accumulation_distribution_line.py:52-74` -/
  | .accumulationDistributionLine => .ok ⟨F.idx, [("adl", astypeInt (A.cumsum (moneyFlowVolume A F)))]⟩
  /- `_chaikin_oscillator.py:54-80` -/
  | .chaikinOscillator =>
    if F.len < 10 then .error (.notEnough 10 F.len)
    else
      let adl := astypeInt (A.cumsum (moneyFlowVolume A (F.sub ["close", "volume", "high", "low"])))
      .ok ⟨F.idx, [("co", A.roundS 4 (A.subS (A.ewm 3 3 adl) (A.ewm 10 10 adl)))]⟩
  /- `_chaikin_money_flow.py:69-109` -/
  | .chaikinMoneyFlow n =>
    if F.len < n then .error (.notEnough n F.len)
    else .ok ⟨F.idx, [("cmf", A.roundS 4 (A.divS (A.rollSum n n (moneyFlowVolume A F)) (A.rollSum n n (F.col "volume"))))]⟩
  /- `_ease_of_movement.py:70-107` -/
  | .easeOfMovement n =>
    if F.len < max n 2 then .error (.notEnough (max n 2) F.len)
    else
      let high := F.col "high"
      let low := F.col "low"
      let midpointMove := A.scaleS (1 / 2) (A.subS (A.addS high low) (A.addS (shift 1 high) (shift 1 low)))
      let boxRatio := A.divS (F.col "volume") (A.scaleS 10000 (A.subS high low))
      let emv := A.divS midpointMove boxRatio
      .ok ⟨F.idx, [("emv", A.roundS 4 emv), ("emv_ma", A.roundS 4 (A.rollMean n n emv))]⟩
  /- `_negative_volume_index.py:53-84`, `_positive_volume_index.py:53-84` -/
  | .negativeVolumeIndex =>
    if F.len < 2 then .error (.notEnough 2 F.len)
    else .ok ⟨F.idx, [("nvi", A.roundS 4 (volumeIndex A (fun p c => c <ᵥ p) ((F.col "close").zip (F.col "volume"))))]⟩
  | .positiveVolumeIndex =>
    if F.len < 2 then .error (.notEnough 2 F.len)
    else .ok ⟨F.idx, [("pvi", A.roundS 4 (volumeIndex A (fun p c => p <ᵥ c) ((F.col "close").zip (F.col "volume"))))]⟩
  /- `_on_balance_volume.py:52-73` -/
  | .onBalanceVolume =>
    .ok ⟨F.idx, [("obv", A.cumsum (zip3 OnBalanceVolume.signedVolume (F.col "close") (shift 1 (F.col "close")) (F.col "volume")))]⟩
  /- `_price_and_volume_trend.py:53-81` -/
  | .priceAndVolumeTrend =>
    if F.len < 2 then .error (.notEnough 2 F.len)
    else .ok ⟨F.idx, [("pvt", A.roundS 4 (priceVolumeTrend A ((F.col "close").zip (F.col "volume"))))]⟩
  /- `_klinger_oscillator.py:53-97` -/
  | .klingerOscillator =>
    if F.len < 55 then .error (.notEnough 55 F.len)
    else
      let high := F.col "high"
      let low := F.col "low"
      let sum := zip3 (fun x y z => A.total [x, y, z]) high low (F.col "close")
      let t := (A.subS sum (shift 1 sum)).map KlingerOscillator.direction
      let dm := A.subS high low
      let cm := cumulative A (t.zip dm)
      let factor := (A.divS dm cm).map fun x => Val.abs (A.sub (A.mul 2 x) 1)
      let force := (A.mulS (A.mulS (F.col "volume") factor) t).map fun x => A.mul x 100
      .ok ⟨F.idx, [("ko", A.roundS 4 (A.subS (A.ewm 34 34 force) (A.ewm 55 55 force)))]⟩
  /- `_williams_accumulation_distribution.py:53-86` -/
  | .williamsAccumulationDistribution =>
    let close := F.col "close"
    .ok ⟨F.idx, [("wad", A.roundS 4 (List.zipWith (fun (p q : Val × Val) => wadRow A p.1 p.2 q.1 q.2)
      (close.zip (shift 1 close)) ((F.col "high").zip (F.col "low"))))]⟩
  /- `_average_true_range.py:53-90` -/
  | .averageTrueRange =>
    if F.len < 14 then .error (.notEnough 2 F.len)
    else
      let tr := trueRange A maxSkip F
      let series := A.mean (tr.take 14) :: tr.drop 14
      .ok ⟨F.idx, [("atr", List.replicate 13 Val.nan ++ A.roundS 4 (A.ewmAlpha (1 / 14) 1 series))]⟩
  /- `_commodity_channel_index.py:69-108`; `0.015` is the float next to it -/
  | .commodityChannelIndex n =>
    if F.len < n then .error (.notEnough n F.len)
    else
      let tp := F.rows.map fun r => A.div (A.total r) 3
      let sma := A.rollMean n n tp
      let d := (differences A n (sma.zip tp)).map fun x => A.div (A.mul (.fin (A.fl (15 / 1000))) x) (.fin n)
      .ok ⟨F.idx, [("cci", A.roundS 4 (A.divS (A.subS tp sma) d))]⟩
  /- `_directional_movement_index.py:55-183` -/
  | .directionalMovementIndex =>
    if F.len < 28 then .error (.notEnough 28 F.len)
    else
      let tr14 := smooth14 A (maskBefore 1 (trueRange A maxNan F))
      let plus := maskBefore 14 (A.divS (A.scaleS 100 (smooth14 A (DirectionalMovementIndex.dm (plusDm A) F))) tr14)
      let minus := maskBefore 14 (A.divS (A.scaleS 100 (smooth14 A (DirectionalMovementIndex.dm (minusDm A) F))) tr14)
      let diff := (A.subS plus minus).map Val.abs
      let sum := (A.addS plus minus).map Val.abs
      let dx := A.divS (A.scaleS 100 diff) sum
      let adx := adxOf A dx
      let adxr := maskBefore 40 ((A.addS adx (shift 13 adx)).map fun x => A.div x 2)
      .ok ⟨F.idx, [("+di", A.roundS 4 plus), ("-di", A.roundS 4 minus), ("dx", A.roundS 4 dx), ("adx", A.roundS 4 adx),
                   ("adxr", A.roundS 4 adxr)]⟩
  /- `_mass_index.py:53-90` -/
  | .massIndex =>
    if F.len < 25 then .error (.notEnough 25 F.len)
    else
      let ema := A.ewm 9 9 (A.subS (F.col "high") (F.col "low"))
      .ok ⟨F.idx, [("mi", A.roundS 4 (A.rollSum 25 25 (A.divS ema (A.ewm 9 9 ema))))]⟩
  /- `_parabolic_sar.py:58-89` -/
  | .parabolicSAR =>
    if F.len < 2 then .error (.notEnough 2 F.len)
    else .ok ⟨F.idx, [("sar", (List.range F.len).map fun i => A.round 4 (sarRow A (F.col "high") (F.col "low") i).sar)]⟩
  /- `_standard_deviation.py:66-97` -/
  | .standardDeviation n =>
    if F.len < n then .error (.notEnough n F.len)
    else .ok ⟨F.idx, [("sd", A.roundS 4 (A.rollStd E.sq n n (F.col "close")))]⟩
  /- `_bollinger_bands.py:80-117` -/
  | .bollingerBands n stdNumber =>
    if F.len < n then .error (.notEnough n F.len)
    else
      let bb := A.roundS 4 (A.rollMean n n (F.col "close"))
      let sd := (A.rollStd E.sq n n (F.col "close")).map fun x => A.mul x stdNumber
      .ok ⟨F.idx, [("middle_band", bb), ("upper_band", A.roundS 4 (A.addS bb sd)), ("lower_band", A.roundS 4 (A.subS bb sd))]⟩
  /- `_relative_volatility_index.py:69-179` -/
  | .relativeVolatilityIndex n =>
    if F.len < n + 10 then .error (.notEnough (n + 10) F.len)
    else .ok ⟨F.idx, [("rvi", A.roundS 4 ((A.addS (volatilityHalf A E.sq n (F.col "high"))
      (volatilityHalf A E.sq n (F.col "low"))).map fun x => A.div x (.fin 2)))]⟩
  | ind => ind.calcTi E F

/-- The object's input data after the calculation: the median price and the mass index append an average of the
close (`_median_price.py:78-82`, `_mass_index.py:73-75`). -/
def inputAfter (A : Arith) (ind : Ind) (F : Frame) : Frame :=
  match ind with
  | .medianPrice n => ⟨F.idx, F.cols ++ [("close_ema", A.ewm n n (F.col "close"))]⟩
  | .massIndex => ⟨F.idx, F.cols ++ [("9_ema", A.ewm 9 9 (F.col "close"))]⟩
  | ind => ind.inputAfter F

/-- Construction of an indicator (`_technical_indicator.py:48-69`), with these calculations. -/
def construct (A : Arith) (E : Env) (c : Call) (data : InputArg) (fill : PyArg) : InputArg × Except Err Obj :=
  match c.check with
  | .error e => (data, .error e)
  | .ok ind =>
    match fill with
    | .bool b =>
      match validateInputData data ind.required b with
      | (caller, .error e) => (caller, .error e)
      | (caller, .ok F) =>
        match calcTi A E F ind with
        | .error e => (caller, .error e)
        | .ok T => (caller, .ok ⟨ind, inputAfter A ind F, T⟩)
    | _ => (data, .error .wrongType)

end TTI.Flt
