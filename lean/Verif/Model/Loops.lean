import Verif.Model.Api

set_option autoImplicit false

/-!
# Writing by label

The calculations that write into a frame row by row, as they stand in the code: `df.loc[label, name] = value` writes into every
row with that label, `df[name].values[i] = value` into one row, and `df.loc[rows, name] = series` takes for each of the rows the
entry of the series with the same label. `Model/Ind` has these calculations as functions of the rows before; C83 proves that
this is the same if the dates are distinct, and what happens if they are not.

Simplifications: where a loop of the code fills several columns, there is one loop for each column here (a column is computed from
its own rows and from columns that are complete). A label that is looked up and occurs more than once is given its first entry;
pandas raises an exception there, so this is used for distinct dates only.
-/

namespace TTI.Ind.Loops

/-- `series.iat[i]`, `values[i]`, for a row that exists. -/
def at_ (xs : List Val) (i : ℕ) : Val := xs.getD i .nan

/-- A new column (`pd.DataFrame(index=..., columns=..., data=None, dtype="float64")`). -/
def blank (n : ℕ) : List Val := List.replicate n .nan

/-- `df.loc[df.index[row], name] = v`: every row with the date of `row`. -/
def writeLabel (idx : List ℤ) (row : ℕ) (v : Val) (col : List Val) : List Val :=
  List.zipWith (fun d x => if idx[row]? = some d then v else x) idx col

/-- `df[name].values[row] = v`. -/
def writeRow (row : ℕ) (v : Val) (col : List Val) : List Val := col.set row v

/-- The entry of a series with a given date. -/
def lookup (idx : List ℤ) (ser : List Val) (d : ℤ) : Val := (((idx.zip ser).find? fun p => p.1 == d).map (·.2)).getD .nan

/-- `df.loc[rows, name] = series`, the rows given by a boolean column, the series with the dates `idx`. -/
def writeAligned (idx : List ℤ) (rows : List Bool) (ser col : List Val) : List Val :=
  List.zipWith (fun (p : Bool × ℤ) x => if p.1 then lookup idx ser p.2 else x) (rows.zip idx) col

/-- `df.loc[mask, name] = v`. -/
def writeMask (rows : List Bool) (v : Val) (col : List Val) : List Val :=
  List.zipWith (fun b x => if b then v else x) rows col

/-- `for i in range(a, b): ...` -/
def forRange (a b : ℕ) (body : ℕ → List Val → List Val) (col : List Val) : List Val :=
  (List.range' a (b - a)).foldl (fun c i => body i c) col

/-- `_negative_volume_index.py:70-84`, `_positive_volume_index.py:70-84`, by the test of the volumes (previous, current). -/
def volumeIndex (moves : Val → Val → Bool) (idx : List ℤ) (close volume : List Val) : List Val :=
  forRange 1 idx.length (fun i col =>
    if moves (at_ volume (i - 1)) (at_ volume i) then
      writeLabel idx i (Val.add (at_ col (i - 1))
        (Val.mul (Val.sub (at_ close i) (at_ close (i - 1))) (Val.div (at_ col (i - 1)) (at_ close (i - 1))))) col
    else writeLabel idx i (at_ col (i - 1)) col)
    (writeLabel idx 0 1000 (blank idx.length))

/-- `_price_and_volume_trend.py:70-79`. -/
def trend (idx : List ℤ) (close volume : List Val) : List Val :=
  forRange 1 idx.length (fun i col =>
    writeLabel idx i (Val.add (at_ col (i - 1))
      (Val.mul (Val.sub (at_ close i) (at_ close (i - 1))) (Val.div (at_ volume i) (at_ close (i - 1))))) col)
    (writeLabel idx 0 0 (blank idx.length))

/-- Wilder's moving average (`_wilders_smoothing.py:87-98` with `skip = 0`, `_relative_momentum_index.py:120-138` with
`skip = momentum_period`, `_relative_volatility_index.py:133-169` with `skip = 9`). -/
def wilder (idx : List ℤ) (skip period : ℕ) (xs : List Val) : List Val :=
  forRange (skip + period) idx.length (fun i col =>
    writeLabel idx i (Val.add (at_ col (i - 1)) (Val.div (Val.sub (at_ xs i) (at_ col (i - 1))) (.fin period))) col)
    (writeLabel idx (skip + period - 1) (meanSkip ((xs.drop skip).take period)) (blank idx.length))

/-- `_moving_average.py:165-174`. -/
def variableMa (idx : List ℤ) (period : ℕ) (close vr : List Val) : List Val :=
  let sm : Val := .fin (2 / ((period : ℚ) + 1))
  forRange 22 idx.length (fun i col =>
    writeLabel idx i (Val.add (Val.mul (Val.mul sm (at_ close i)) (at_ vr i))
      (Val.mul (Val.sub 1 (Val.mul sm (at_ vr i))) (at_ col (i - 1)))) col)
    (writeLabel idx 21 (at_ close 21) (blank idx.length))

/-- Price changes of the Relative Strength Index (`_relative_strength_index.py:94-100`, `116-122`). -/
def changes (f : Val → Val → Val) (n : ℕ) (close : List Val) : List Val :=
  forRange 1 n (fun i col => writeRow i (f (at_ close i) (at_ close (i - 1))) col) (blank n)

/-- Smoothing of the Relative Strength Index (`_relative_strength_index.py:102-111`, `124-133`). -/
def smoothRsi (idx : List ℤ) (period : ℕ) (xs : List Val) : List Val :=
  forRange (period + 1) idx.length (fun i col =>
    writeRow i (Val.round 4 (Val.add (at_ col (i - 1)) (Val.div (Val.sub (at_ xs i) (at_ col (i - 1))) (.fin period)))) col)
    (writeLabel idx period (meanSkip (xs.take (period + 1))) (blank idx.length))

/-- Directional movements (`_directional_movement_index.py:104-133`). -/
def dm (f : Val → Val → Val → Val → Val) (n : ℕ) (high low : List Val) : List Val :=
  forRange 1 n (fun i col => writeRow i (f (at_ high i) (at_ high (i - 1)) (at_ low i) (at_ low (i - 1))) col) (blank n)

/-- True range of the Directional Movement Index (`_directional_movement_index.py:94-101`): row 0 stays missing. -/
def dmiRange (n : ℕ) (high low close : List Val) : List Val :=
  forRange 1 n (fun i col => writeRow i (maxNan (maxNan (Val.sub (at_ high i) (at_ low i))
    (Val.sub (at_ high i) (at_ close (i - 1)))) (Val.sub (at_ close (i - 1)) (at_ low i))) col) (blank n)

/-- Sums over 14 periods (`_directional_movement_index.py:137-158`). -/
def smooth14 (idx : List ℤ) (xs : List Val) : List Val :=
  forRange 14 idx.length (fun i col =>
    writeRow i (Val.add (Val.sub (at_ col (i - 1)) (Val.div (at_ col (i - 1)) 14)) (at_ xs i)) col)
    (writeLabel idx 13 (sumSkip (xs.take 14)) (blank idx.length))

/-- The rows from `k` on. -/
def fromRow (k n : ℕ) : List Bool := (List.range n).map fun i => k ≤ i

/-- +DI and -DI (`_directional_movement_index.py:161-163`). -/
def di (idx : List ℤ) (dm14 tr14 : List Val) : List Val :=
  writeAligned idx (fromRow 14 idx.length) (divS (scaleS 100 dm14) tr14) (blank idx.length)

/-- ADX (`_directional_movement_index.py:171-174`). -/
def adx (idx : List ℤ) (dx : List Val) : List Val :=
  forRange 28 idx.length (fun i col => writeRow i (Val.div (Val.add (Val.mul 13 (at_ col (i - 1))) (at_ dx i)) 14) col)
    (writeLabel idx 27 (Val.div (sumSkip (dx.take 28)) 14) (blank idx.length))

/-- ADXR (`_directional_movement_index.py:176-177`). -/
def adxr (n : ℕ) (adx : List Val) : List Val :=
  forRange 40 n (fun i col => writeRow i (Val.div (Val.add (at_ adx i) (at_ adx (i - 13))) 2) col) (blank n)

/-- `see_text` (`_range_indicator.py:124-131`). -/
def seeText (idx : List ℤ) (range close : List Val) : List Val :=
  forRange 1 idx.length (fun i col =>
    if at_ close (i - 1) <ᵥ at_ close i then
      writeLabel idx i (Val.div (at_ range i) (Val.sub (at_ close i) (at_ close (i - 1)))) col
    else writeLabel idx i (at_ range i) col) (blank idx.length)

/-- The masked writes of the Range Indicator (`_range_indicator.py:141-151`). -/
def scaled (idx : List ℤ) (text lo hi : List Val) : List Val :=
  let r := subS hi lo
  let r := writeAligned idx (r.map fun x => (0 : Val) <ᵥ x) (divS (scaleS 100 (subS text lo)) (subS hi lo)) r
  writeAligned idx (r.map fun x => x ≤ᵥ 0) (scaleS 100 (subS text lo)) r

/-- `upc` of the Relative Momentum Index (`_relative_momentum_index.py:113-114`). -/
def upc (idx : List ℤ) (change : List Val) : List Val :=
  writeMask (change.map fun x => x ≤ᵥ 0) 0
    (writeAligned idx (change.map fun x => (0 : Val) <ᵥ x) change (blank idx.length))

/-- `dpc` of the Relative Momentum Index (`_relative_momentum_index.py:117-118`). -/
def dpc (idx : List ℤ) (change : List Val) : List Val :=
  writeMask (change.map fun x => (0 : Val) ≤ᵥ x) 0
    (writeAligned idx (change.map fun x => x <ᵥ 0) (change.map Val.abs) (blank idx.length))

/-- `uh`, `ul`, `dh`, `dl` of the Relative Volatility Index (`_relative_volatility_index.py:107-131`). -/
def selected (sq : ℚ → ℚ) (idx : List ℤ) (sel : Val → Bool) (price : List Val) : List Val :=
  writeAligned idx ((subS price (shift 1 price)).map sel) (rolling 10 10 (aggStd sq 0) price) (List.replicate idx.length 0)

/-- `_on_balance_volume.py:60-69`. -/
def signedVolume (idx : List ℤ) (close volume : List Val) : List Val :=
  let inc := List.zipWith (fun c p => p <ᵥ c) close (shift 1 close)
  let dec := List.zipWith (fun c p => c <ᵥ p) close (shift 1 close)
  writeAligned idx dec (volume.map Val.neg) (writeAligned idx inc volume (List.replicate idx.length 0))

/-- `_williams_accumulation_distribution.py:67-84`. -/
def wad (idx : List ℤ) (close high low : List Val) : List Val :=
  let trh := zipV maxNan (shift 1 close) high
  let trl := zipV minNan (shift 1 close) low
  let w := subS close (shift 1 close)
  let pos := w.map fun x => (0 : Val) <ᵥ x
  let neg := w.map fun x => x <ᵥ 0
  writeAligned idx neg (subS close trh) (writeAligned idx pos (subS close trl) w)

/-- One price column of the Relative Volatility Index (`_relative_volatility_index.py:107-174`). -/
def rviHalf (sq : ℚ → ℚ) (idx : List ℤ) (period : ℕ) (price : List Val) : List Val :=
  let up := wilder idx 9 period (selected sq idx (fun x => (0 : Val) <ᵥ x) price)
  let down := wilder idx 9 period (selected sq idx (fun x => x <ᵥ 0) price)
  divS (scaleS 100 up) (addS up down)

/-- `_calculateTi` of every class, with the writes by label as in the code. -/
def calcTi (E : Env) (F : Frame) : Ind → Except Err Frame
  | .negativeVolumeIndex =>
    if F.len < 2 then .error (.notEnough 2 F.len)
    else .ok ⟨F.idx, [("nvi", roundS 4 (volumeIndex (fun p c => c <ᵥ p) F.idx (F.col "close") (F.col "volume")))]⟩
  | .positiveVolumeIndex =>
    if F.len < 2 then .error (.notEnough 2 F.len)
    else .ok ⟨F.idx, [("pvi", roundS 4 (volumeIndex (fun p c => p <ᵥ c) F.idx (F.col "close") (F.col "volume")))]⟩
  | .priceAndVolumeTrend =>
    if F.len < 2 then .error (.notEnough 2 F.len)
    else .ok ⟨F.idx, [("pvt", roundS 4 (trend F.idx (F.col "close") (F.col "volume")))]⟩
  | .wildersSmoothing period =>
    if F.len < period then .error (.notEnough period F.len)
    else .ok ⟨F.idx, [("ws", roundS 4 (wilder F.idx 0 period (F.col "close")))]⟩
  | .movingAverage period .variableType => do
    if F.len < 22 then throw (.notEnough 22 F.len)
    let cmo ← ChandeMomentumOscillator.calcTi 9 (F.sub ["close"])
    let vr := (cmo.col "cmo").map fun x => Val.abs (Val.div x 100)
    return ⟨F.idx, [("ma-variable", roundS 4 (variableMa F.idx period (F.col "close") vr))]⟩
  | .relativeStrengthIndex period =>
    if F.len < period + 1 then .error (.notEnough (period + 1) F.len)
    else
      let close := F.col "close"
      let up := smoothRsi F.idx period (changes RelativeStrengthIndex.upward F.len close)
      let down := smoothRsi F.idx period (changes RelativeStrengthIndex.downward F.len close)
      .ok ⟨F.idx, [("rsi", roundS 4 ((divS up down).map fun x => Val.sub 100 (Val.div 100 (Val.add x 1))))]⟩
  | .relativeMomentumIndex period mom =>
    if F.len < period + mom then .error (.notEnough (period + mom) F.len)
    else
      let change := subS (F.col "close") (shift mom (F.col "close"))
      let up := wilder F.idx mom period (upc F.idx change)
      let down := wilder F.idx mom period (dpc F.idx change)
      .ok ⟨F.idx, [("rmi", roundS 4 (divS (scaleS 100 (divS up down)) ((divS up down).map fun x => Val.add 1 x)))]⟩
  | .relativeVolatilityIndex period =>
    if F.len < period + 10 then .error (.notEnough (period + 10) F.len)
    else .ok ⟨F.idx, [("rvi", roundS 4 ((addS (rviHalf E.sq F.idx period (F.col "high"))
      (rviHalf E.sq F.idx period (F.col "low"))).map fun x => Val.div x 2))]⟩
  | .directionalMovementIndex =>
    if F.len < 28 then .error (.notEnough 28 F.len)
    else
      let high := F.col "high"
      let low := F.col "low"
      let tr14 := smooth14 F.idx (dmiRange F.len high low (F.col "close"))
      let plus := di F.idx (smooth14 F.idx (dm DirectionalMovementIndex.plusDm F.len high low)) tr14
      let minus := di F.idx (smooth14 F.idx (dm DirectionalMovementIndex.minusDm F.len high low)) tr14
      let diff := (subS plus minus).map Val.abs
      let sum := (addS plus minus).map Val.abs
      let dx := divS (scaleS 100 diff) sum
      let a := adx F.idx dx
      .ok ⟨F.idx, [("+di", roundS 4 plus), ("-di", roundS 4 minus), ("dx", roundS 4 dx), ("adx", roundS 4 a),
                   ("adxr", roundS 4 (adxr F.len a))]⟩
  | .rangeIndicator range smoothing =>
    if F.len < max range smoothing then .error (.notEnough (max range smoothing) F.len)
    else
      let text := seeText F.idx (trueRange maxNan F) (F.col "close")
      let lo := rolling range range aggMin text
      let hi := rolling range range aggMax text
      .ok ⟨F.idx, [("ri", roundS 4 (ewm smoothing smoothing (scaled F.idx text lo hi)))]⟩
  | .onBalanceVolume => .ok ⟨F.idx, [("obv", cumsum (signedVolume F.idx (F.col "close") (F.col "volume")))]⟩
  | .williamsAccumulationDistribution =>
    .ok ⟨F.idx, [("wad", roundS 4 (wad F.idx (F.col "close") (F.col "high") (F.col "low")))]⟩
  | ind => Ind.calcTi E F ind

/-- Construction of an indicator (`_technical_indicator.py:48-69`), with these calculations. -/
def construct (E : Env) (c : Call) (data : InputArg) (fill : PyArg) : InputArg × Except Err Obj :=
  match c.check with
  | .error e => (data, .error e)
  | .ok ind =>
    match fill with
    | .bool b =>
      match validateInputData data ind.required b with
      | (caller, .error e) => (caller, .error e)
      | (caller, .ok F) =>
        match calcTi E F ind with
        | .error e => (caller, .error e)
        | .ok T => (caller, .ok ⟨ind, ind.inputAfter F, T⟩)
    | _ => (data, .error .wrongType)

end TTI.Ind.Loops
