import Verif.Model.Frame
import Verif.Model.Sim

set_option autoImplicit false

/-!
# Common parts of the indicator models

Every indicator `X` is modelled by `X.calcTi` (its `_calculateTi`: validated input data to indicator data, or an exception)
and `X.signal` (its `getTiSignal`: from the object's current `_input_data` and `_ti_data`). The checks of the constructor
arguments are in `Model/Call.lean`.
-/

namespace TTI

/-- Result of `getTiSignal`. -/
abbrev SigResult := Except Err Signal

/-- `series.iat[-k]`, `k >= 1`. -/
def iat (xs : List Val) (k : ℕ) : Except Err Val :=
  match fromEnd k xs with
  | some v => .ok v
  | none => .error .indexError

/-- `a < b` on floats as used in the signal conditions. -/
infix:50 " <ᵥ " => Val.lt

/-- `a <= b` on floats. -/
infix:50 " ≤ᵥ " => Val.le

/-- The frame an inner indicator works on when it is constructed (with the default `fill_missing_values=True`) on the
validated data of the outer one: `validateInputData` applied to a validated frame drops the columns not required and fills
(theorem `C28_inner` shows that this is what validation returns). -/
def Frame.sub (F : Frame) (names : List String) : Frame :=
  ⟨F.idx, (F.restrict names).cols.map fun c => (c.1, bfill (ffill c.2))⟩

/-- The rows before row `k` are NaN: the effect of writing a column into `df.iloc[k:]` of an empty (NaN) column. -/
def maskBefore (k : ℕ) (xs : List Val) : List Val := (List.replicate k Val.nan ++ xs.drop k).take xs.length

/-- `range(1, n + 1)` as a column. -/
def rowNumbers (n : ℕ) : List Val := (List.range n).map fun (i : ℕ) => .fin ((i : ℚ) + 1)

/-- `Series.mean()`: mean of the non-NaN entries (infinities included), NaN if there is none. -/
def meanSkip (xs : List Val) : Val :=
  let v := xs.filter fun x => !x.isNan
  if v = [] then .nan else Val.div (v.foldl Val.add 0) (.fin v.length)

/-- Wilder's smoothing as written out in several indicators: row `skip + period - 1` holds the mean of the rows
`skip .. skip + period - 1`, every later row moves by `1/period` towards the new value; NaN before. -/
def wilder (skip period : ℕ) (xs : List Val) : List Val :=
  prefixMap (fun pre =>
    if pre.length < skip + period then .nan
    else (pre.drop (skip + period)).foldl (fun prev x => Val.add prev (Val.div (Val.sub x prev) (.fin period)))
      (meanSkip ((pre.drop skip).take period))) xs

/-- Maximum of two floats, NaN if one is NaN (`numpy.max`, `DataFrame.max(skipna=False)`). -/
def maxNan (x y : Val) : Val := if x.isNan then .nan else if y.isNan then .nan else if x <ᵥ y then y else x

/-- Minimum of two floats, NaN if one is NaN. -/
def minNan (x y : Val) : Val := if x.isNan then .nan else if y.isNan then .nan else if y <ᵥ x then y else x

/-- `Series.max()` (NaN skipped, NaN if there is nothing else). -/
def maxOf (xs : List Val) : Val := xs.foldl maxSkip .nan

/-- `Series.min()` (NaN skipped, NaN if there is nothing else). -/
def minOf (xs : List Val) : Val := xs.foldl minSkip .nan

/-- The rows of a frame, each the list of its column values in the order of the frame. -/
def Frame.rows (F : Frame) : List (List Val) :=
  (List.range F.len).map fun i => F.cols.map fun c => c.2.getD i .nan

/-- The first column (`df.iat[_, 0]` after a row-wise preserving operation). -/
def Frame.firstCol (F : Frame) : List Val := (F.cols.head?.map (·.2)).getD []

/-- Row-wise function of three columns. -/
def zip3 (f : Val → Val → Val → Val) (xs ys zs : List Val) : List Val :=
  List.zipWith (fun x (p : Val × Val) => f x p.1 p.2) xs (ys.zip zs)

/-- The crossing of a level by two consecutive values, `a < level < b`. -/
def crossUp (level a b : Val) : Bool := a <ᵥ level && level <ᵥ b

/-- `a > level > b`. -/
def crossDown (level a b : Val) : Bool := level <ᵥ a && b <ᵥ level

/-- The three-row trend test shared by several indicators: a falling column gives `falling`, a rising one `rising`. -/
def trendSignal (name : String) (falling rising : Signal) (T : Frame) : SigResult := do
  if T.len < 3 then return .hold
  let a ← iat (T.col name) 3
  let b ← iat (T.col name) 2
  let c ← iat (T.col name) 1
  if b <ᵥ a && c <ᵥ b then return falling
  else if a <ᵥ b && b <ᵥ c then return rising
  else return .hold

/-- The two-row test shared by several indicators: `up` if the column crosses `hi` upwards, else `down` if it crosses `lo`
downwards. (The two conditions exclude each other, so the order in which the code tests them is immaterial.) -/
def levelSignal (name : String) (hi lo : Val) (up down : Signal) (T : Frame) : SigResult := do
  if T.len < 2 then return .hold
  let a ← iat (T.col name) 2
  let b ← iat (T.col name) 1
  if crossUp hi a b then return up
  if crossDown lo a b then return down
  return .hold

/-- The two-row test of the close price against an indicator column: `below` if the close crosses it downwards, `above` if
upwards. -/
def priceCrossSignal (name : String) (below above : Signal) (F T : Frame) : SigResult := do
  if T.len < 2 then return .hold
  let c2 ← iat (F.col "close") 2
  let c1 ← iat (F.col "close") 1
  let t2 ← iat (T.col name) 2
  let t1 ← iat (T.col name) 1
  if t2 <ᵥ c2 && c1 <ᵥ t1 then return below
  if c2 <ᵥ t2 && t1 <ᵥ c1 then return above
  return .hold

/-- The test of the close price against two bands: sell above the upper, buy below the lower. -/
def bandSignal (upper lower : String) (F T : Frame) : SigResult := do
  if T.len < 1 then return .hold
  let c ← iat (F.col "close") 1
  let u ← iat (T.col upper) 1
  let l ← iat (T.col lower) 1
  if u <ᵥ c then return .sell
  else if c <ᵥ l then return .buy
  else return .hold

/-- Row-wise `DataFrame.sum(axis=1)` of two columns (NaN skipped). -/
def sumRows (xs ys : List Val) : List Val := zipV (fun x y => sumSkip [x, y]) xs ys

/-- `s[s < 0.0] = 0.0`. -/
def zeroBelow (xs : List Val) : List Val := xs.map fun x => if x <ᵥ 0 then 0 else x

/-- `s[s > 0.0] = 0.0`. -/
def zeroAbove (xs : List Val) : List Val := xs.map fun x => if (0 : Val) <ᵥ x then 0 else x

/-- Intercept and slope of the least squares line through points `(y, x)`: solution of the normal equations. -/
def lsFit (pts : List (ℚ × ℚ)) : ℚ × ℚ :=
  let n : ℚ := pts.length
  let sx := (pts.map fun p => p.2).sum
  let sy := (pts.map fun p => p.1).sum
  let sxy := (pts.map fun p => p.1 * p.2).sum
  let sxx := (pts.map fun p => p.2 * p.2).sum
  let slope := (n * sxy - sx * sy) / (n * sxx - sx * sx)
  ((sy - slope * sx) / n, slope)

/-- All entries of a list of floats, if they are finite. -/
def allFin : List Val → Option (List ℚ)
  | [] => some []
  | .fin q :: l => (allFin l).map (q :: ·)
  | _ :: _ => none

/-- `RollingOLS(endog=ys, exog=add_constant(range(len(ys))), window=w).fit(params_only=True).params`: per row intercept and
slope of the line through the last `w` points, NaN for the first `w-1` rows. Simplification: a window that contains an
infinite value has NaN parameters (statsmodels' running sums may also spoil later windows). -/
def rollingOLS (w : ℕ) (ys : List Val) : List (Val × Val) :=
  prefixMap (fun pre =>
    if w ≤ pre.length then
      match allFin (window w pre) with
      | some v =>
        let fit := lsFit (v.zip ((List.range w).map fun (i : ℕ) => ((pre.length - w + i : ℕ) : ℚ)))
        (.fin fit.1, .fin fit.2)
      | none => (.nan, .nan)
    else (.nan, .nan)) ys

end TTI
