import Verif.Model.Val

set_option autoImplicit false

/-!
# The trading simulation

Model of `tti/utils/trading_simulation.py`, class `TradingSimulation`.  The model is generic in the number type
(`Num α`), because many of its properties use no law of arithmetic and so hold for any float arithmetic.
It is instantiated at `ℚ` (for proofs that need arithmetic laws) and at `Val` (what the API model uses).
-/

namespace TTI

/-- A trading signal, `tti/utils/constants.py:9` (`TRADE_SIGNALS`). -/
inductive Signal where
  | buy
  | hold
  | sell
  deriving DecidableEq, Repr

/-- The arithmetic the simulator uses. -/
class Num (α : Type) where
  add : α → α → α
  sub : α → α → α
  mul : α → α → α
  div : α → α → α
  /-- conversion of a Python int -/
  ofInt : ℤ → α
  /-- the float comparison `<` -/
  lt : α → α → Bool
  /-- `round(x, 2)` -/
  round2 : α → α

instance : Num Val where
  add := Val.add
  sub := Val.sub
  mul := Val.mul
  div := Val.div
  ofInt n := Val.fin n
  lt := Val.lt
  round2 := Val.round 2

instance : Num ℚ where
  add := (· + ·)
  sub := (· - ·)
  mul := (· * ·)
  div := (· / ·)
  ofInt n := n
  lt a b := decide (a < b)
  round2 := roundQ 2

namespace Sim

/-- Column 0 of the portfolio array (`trading_simulation.py:173-177`): `0.0` none, `1.0` short, `2.0` long. Also the
values of the `open_trading_action` column. -/
inductive Side where
  | none
  | short
  | long
  deriving DecidableEq, Repr

/-- Column 1 of the portfolio array (`trading_simulation.py:173-177`): `0.0` none, `1.0` open, `2.0` closed. -/
inductive Status where
  | none
  | open
  | closed
  deriving DecidableEq, Repr

/-- A row of the portfolio array (`trading_simulation.py:168-177`). -/
structure Pos (α : Type) where
  side : Side
  status : Status
  exposure : α
  deriving DecidableEq, Repr

/-- A row of the simulation data (`trading_simulation.py:183-195`). -/
structure Row (α : Type) where
  signal : Signal
  action : Side
  stock : α
  exposure : α
  portfolio : α
  earnings : α
  balance : α
  deriving DecidableEq, Repr

/-- The accepted numeric arguments (`trading_simulation.py:157-163`). -/
structure Params (α : Type) where
  maxExposure : Option α
  factor : α

/-- State of the simulator between rounds. Simplification: the numpy array and the data frame are pre-allocated with one
row per day; the model keeps only the rows of the executed rounds. The rows not yet written are all zero (portfolio) or
empty (data frame) and no mask of the code selects them (C84 proves this for the arrays of `Model/SimClass`). Rounds are executed in the order 0, 1, 2, ... as
`getTiSimulation` does (`_technical_indicator.py:413-419`), so the round number is the number of rows so far. -/
structure State (α : Type) where
  portfolio : List (Pos α)
  rows : List (Row α)

variable {α : Type} [Num α]

/-- State after the constructor (`trading_simulation.py:177-195`). -/
def State.init : State α := ⟨[], []⟩

/-- Mask of the longs to be closed (`trading_simulation.py:380-382`). -/
def longMask (price : α) (p : Pos α) : Bool :=
  p.status == .open && p.side == .long && Num.lt p.exposure price

/-- Mask of the shorts to be closed (`trading_simulation.py:389-394`). -/
def shortMask (factor price : α) (p : Pos α) : Bool :=
  p.status == .open && p.side == .short && Num.lt (Num.mul factor price) p.exposure

/-- The main loop of numpy's summation of a block (`DOUBLE_pairwise_sum`, not in the repository; it is what `np.sum` in
`trading_simulation.py:399-418` runs): eight running sums, to which eight values at a time are added; then the running sums are
added in pairs and the remaining values one by one. -/
def lanes (r0 r1 r2 r3 r4 r5 r6 r7 : α) : List α → α
  | a0 :: a1 :: a2 :: a3 :: a4 :: a5 :: a6 :: a7 :: t =>
    lanes (Num.add r0 a0) (Num.add r1 a1) (Num.add r2 a2) (Num.add r3 a3) (Num.add r4 a4) (Num.add r5 a5) (Num.add r6 a6)
      (Num.add r7 a7) t
  | t => t.foldl Num.add (Num.add (Num.add (Num.add r0 r1) (Num.add r2 r3)) (Num.add (Num.add r4 r5) (Num.add r6 r7)))

/-- A block of at most 128 values: fewer than eight are added one by one. -/
def blockSum : List α → α
  | a0 :: a1 :: a2 :: a3 :: a4 :: a5 :: a6 :: a7 :: t => lanes a0 a1 a2 a3 a4 a5 a6 a7 t
  | t => t.foldl Num.add (Num.ofInt 0)

/-- More than 128 values are divided in two at a multiple of eight. The first argument bounds the depth of the recursion. -/
def pairwiseSum : ℕ → List α → α
  | 0, l => blockSum l
  | depth + 1, l =>
    if l.length ≤ 128 then blockSum l
    else
      let half := l.length / 2 - l.length / 2 % 8
      Num.add (pairwiseSum depth (l.take half)) (pairwiseSum depth (l.drop half))

/-- `np.sum` of an array of float64 values. The addition of the result to the initial value `0.0` of the reduction is left
out; it changes no number. -/
def npSum (l : List α) : α := pairwiseSum l.length l

/-- `np.sum` of the exposure column of the selected rows (`trading_simulation.py:399-418`). -/
def sumExposure (l : List (Pos α)) : α := npSum (l.map (·.exposure))

/-- Marking of the selected rows as closed (`trading_simulation.py:429-445`). -/
def markClosed (mask : Pos α → Bool) (l : List (Pos α)) : List (Pos α) :=
  l.map fun p => if mask p then { p with status := .closed } else p

/-- Result of `_closeOpenPositions`: earnings and exposure of the closed positions and the new portfolio. -/
structure Closing (α : Type) where
  earnings : α
  closedExposure : α
  portfolio : List (Pos α)

/-- `_closeOpenPositions` (`trading_simulation.py:361-458`), without the two cell writes at the end, which
`round` does. -/
def closeOpenPositions (P : Params α) (price : α) (pf : List (Pos α)) : Closing α :=
  let longs := pf.filter (longMask price)
  let shorts := pf.filter (shortMask P.factor price)
  let longExposure := sumExposure longs
  let shortExposure := sumExposure shorts
  { earnings :=
      Num.add
        (Num.sub (Num.mul (Num.ofInt longs.length) price) longExposure)
        (Num.sub (Num.div shortExposure P.factor) (Num.mul (Num.ofInt shorts.length) price))
    closedExposure := Num.add longExposure shortExposure
    portfolio := markClosed (shortMask P.factor price) (markClosed (longMask price) pf) }

/-- Number of open positions on a side (`trading_simulation.py:351-357`, also `319-324`). -/
def countOpen (s : Side) (pf : List (Pos α)) : ℕ :=
  (pf.filter fun p => p.side == s && p.status == .open).length

/-- `_calculatePortfolioValue` (`trading_simulation.py:338-359`). -/
def portfolioValue (price : α) (pf : List (Pos α)) : α :=
  Num.mul price (Num.ofInt ((countOpen .long pf : ℤ) - countOpen .short pf))

/-- The test `self._max_exposure is not None and self._max_exposure < exposure + amount`
(`trading_simulation.py:495-497`, `542-545`). -/
def limitReached (P : Params α) (exposure amount : α) : Bool :=
  match P.maxExposure with
  | none => false
  | some m => Num.lt m (Num.add exposure amount)

/-- Append a portfolio row and the simulation row computed from it (the common part of the branches of
`_processSignal`). -/
def record (st : State α) (pf : List (Pos α)) (pos : Pos α) (sig : Signal) (action : Side)
    (price exposure earnings : α) : State α :=
  let pf' := pf ++ [pos]
  let pv := portfolioValue price pf'
  { portfolio := pf'
    rows := st.rows ++
      [{ signal := sig, action := action, stock := price, exposure := exposure, portfolio := pv,
         earnings := earnings, balance := Num.add pv earnings }] }

/-- The portfolio row `[0.0, 0.0, 0.0]`. -/
def noPos : Pos α := ⟨.none, .none, Num.ofInt 0⟩

/-- `_processSignal` (`trading_simulation.py:460-591`). `exposure` and `earnings` are the two cells of the current row
already written by `_closeOpenPositions`. -/
def processSignal (P : Params α) (st : State α) (pf : List (Pos α)) (price exposure earnings : α) :
    Signal → State α
  | .hold => record st pf noPos .hold .none price exposure earnings
  | .buy =>
    if limitReached P exposure price then
      record st pf noPos .buy .none price exposure earnings
    else
      record st pf ⟨.long, .open, price⟩ .buy .long price (Num.add exposure price) earnings
  | .sell =>
    if limitReached P exposure (Num.mul P.factor price) then
      record st pf noPos .sell .none price exposure earnings
    else
      record st pf ⟨.short, .open, Num.mul P.factor price⟩ .sell .short price
        (Num.add exposure (Num.mul P.factor price)) earnings

/-- `runSimulationRound` (`trading_simulation.py:593-627`): the first round only initialises; later rounds first close
(writing exposure and earnings from the previous row, `452-456`) and then process the signal. -/
def round (P : Params α) (st : State α) (price : α) (sig : Signal) : State α :=
  match st.rows.getLast? with
  | none =>
    { portfolio := [noPos]
      rows := [{ signal := sig, action := .none, stock := price, exposure := Num.ofInt 0,
                 portfolio := Num.ofInt 0, earnings := Num.ofInt 0, balance := Num.ofInt 0 }] }
  | some prev =>
    let c := closeOpenPositions P price st.portfolio
    processSignal P st c.portfolio price (Num.sub prev.exposure c.closedExposure)
      (Num.add prev.earnings c.earnings) sig

/-- A day of the simulation: close price and signal. -/
abbrev Day (α : Type) := α × Signal

/-- All rounds (`_technical_indicator.py:412-419`). -/
def run (P : Params α) (days : List (Day α)) : State α :=
  days.foldl (fun st d => round P st d.1 d.2) State.init

/-- The `statistics` dictionary (`trading_simulation.py:283-336`). -/
structure Stats (α : Type) where
  tradingDays : ℕ
  buySignals : ℕ
  ignoredBuySignals : ℕ
  sellSignals : ℕ
  ignoredSellSignals : ℕ
  lastStockValue : α
  lastExposure : α
  lastOpenLong : ℕ
  lastOpenShort : ℕ
  lastPortfolioValue : α
  lastEarnings : α
  finalBalance : α
  deriving DecidableEq, Repr

/-- `0.0 if executed_simulation_rounds == 0 else round(column.iat[executed_simulation_rounds - 1], 2)`. -/
def lastOr0 (rows : List (Row α)) (f : Row α → α) : α :=
  match rows.getLast? with
  | none => Num.ofInt 0
  | some r => Num.round2 (f r)

/-- `_calculateSimulationStatistics` (`trading_simulation.py:283-336`). -/
def statistics (st : State α) : Stats α where
  tradingDays := st.rows.length
  buySignals := (st.rows.filter fun r => r.signal == .buy).length
  ignoredBuySignals := (st.rows.filter fun r => r.signal == .buy && r.action == .none).length
  sellSignals := (st.rows.filter fun r => r.signal == .sell).length
  ignoredSellSignals := (st.rows.filter fun r => r.signal == .sell && r.action == .none).length
  lastStockValue := lastOr0 st.rows (·.stock)
  lastExposure := lastOr0 st.rows (·.exposure)
  lastOpenLong := countOpen .long st.portfolio
  lastOpenShort := countOpen .short st.portfolio
  lastPortfolioValue := lastOr0 st.rows (·.portfolio)
  lastEarnings := lastOr0 st.rows (·.earnings)
  finalBalance := lastOr0 st.rows (·.balance)

end Sim
end TTI
