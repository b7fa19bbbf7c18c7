import Verif.Model.Api

set_option autoImplicit false

/-!
# The simulator as an object with arrays

`TradingSimulation` as it stands in the code: an array `_portfolio` and a frame `_simulation_data`, both with one row for every date
from the start, masks over the whole array, and rounds that are told their row number. `Model/Sim` keeps the rows of the executed
rounds only; C84 proves that both give the same simulation.

Simplifications: the round number is not negative. The columns `position` and `status` of the array, which only ever hold the
constants 0.0, 1.0 and 2.0, hold natural numbers.
-/

namespace TTI.SimClass

/-- A row of `_portfolio` (`trading_simulation.py:165-177`): position (0 none, 1 short, 2 long), status (0 none, 1 open, 2 closed),
exposure. -/
structure Slot (α : Type) where
  position : ℕ
  status : ℕ
  exposure : α
  deriving DecidableEq, Repr

/-- A row of `_simulation_data` (`trading_simulation.py:183-195`). A missing value (NaN) is `none`. -/
structure Cells (α : Type) where
  signal : Option Signal
  action : Option Sim.Side
  stock : Option α
  exposure : Option α
  portfolio : Option α
  earnings : Option α
  balance : Option α
  deriving DecidableEq, Repr

/-- The attributes of the object (`trading_simulation.py:157-213`); the statistics are those of the last `closeSimulation`. -/
structure Simulator (α : Type) where
  close : List α
  params : Sim.Params α
  portfolio : List (Slot α)
  data : List (Cells α)

variable {α : Type} [Num α]

/-- `[0.0, 0.0, 0.0]`. -/
def zero : Slot α := ⟨0, 0, Num.ofInt 0⟩

/-- A row without data. -/
def empty : Cells α := ⟨none, none, none, none, none, none, none⟩

/-- State after the constructor (`trading_simulation.py:177-195`), `n` being the number of dates. -/
def create (P : Sim.Params α) (n : ℕ) (close : List α) : Simulator α :=
  ⟨close, P, List.replicate n zero, List.replicate n empty⟩

/-- Float addition with a missing value. -/
def addC (a b : Option α) : Option α :=
  match a, b with
  | some x, some y => some (Num.add x y)
  | _, _ => none

/-- Float subtraction with a missing value. -/
def subC (a b : Option α) : Option α :=
  match a, b with
  | some x, some y => some (Num.sub x y)
  | _, _ => none

/-- The comparison `m < x`; false for a missing value. -/
def ltC (m : α) (x : Option α) : Bool :=
  match x with
  | some y => Num.lt m y
  | none => false

/-- A cell of the frame (`self._simulation_data.iat[i, ...]`). -/
def cell (s : Simulator α) (i : ℕ) (f : Cells α → Option α) : Option α := (s.data[i]?).bind f

/-- `np.count_nonzero(self._portfolio[mask, 0])`. -/
def countNonzero (mask : Slot α → Bool) (pf : List (Slot α)) : ℕ :=
  (((pf.filter mask).map (·.position)).filter (· ≠ 0)).length

/-- `np.sum(self._portfolio[mask, 2])`. -/
def sumExposure (mask : Slot α → Bool) (pf : List (Slot α)) : α :=
  Sim.npSum ((pf.filter mask).map (·.exposure))

/-- `self._portfolio[mask, 1] = 2.0`. -/
def setClosed (mask : Slot α → Bool) (pf : List (Slot α)) : List (Slot α) :=
  pf.map fun p => if mask p then { p with status := 2 } else p

/-- Mask of the longs to be closed (`trading_simulation.py:378-383`). -/
def longMask (price : α) (p : Slot α) : Bool := p.status == 1 && p.position == 2 && Num.lt p.exposure price

/-- Mask of the shorts to be closed (`trading_simulation.py:387-395`). -/
def shortMask (factor price : α) (p : Slot α) : Bool :=
  p.status == 1 && p.position == 1 && Num.lt (Num.mul factor price) p.exposure

/-- `_calculatePortfolioValue` (`trading_simulation.py:338-359`). -/
def portfolioValue (price : α) (pf : List (Slot α)) : α :=
  Num.mul price (Num.ofInt ((countNonzero (fun p => p.position == 2 && p.status == 1) pf : ℤ) -
    countNonzero (fun p => p.position == 1 && p.status == 1) pf))

/-- `_closeOpenPositions` (`trading_simulation.py:361-458`) with the close price of the round. -/
def closeOpenPositions (s : Simulator α) (i : ℕ) (price : α) : Simulator α :=
  let longs := countNonzero (longMask price) s.portfolio
  let shorts := countNonzero (shortMask s.params.factor price) s.portfolio
  let longExposure := sumExposure (longMask price) s.portfolio
  let shortExposure := sumExposure (shortMask s.params.factor price) s.portfolio
  let earnings := Num.add (Num.sub (Num.mul (Num.ofInt longs) price) longExposure)
    (Num.sub (Num.div shortExposure s.params.factor) (Num.mul (Num.ofInt shorts) price))
  let closed := Num.add longExposure shortExposure
  let pf := setClosed (longMask price) s.portfolio
  let pf := setClosed (shortMask s.params.factor price) pf
  let data := s.data.modify i fun r => { r with exposure := subC (cell s (i - 1) (·.exposure)) (some closed) }
  let data := data.modify i fun r => { r with earnings := addC (cell s (i - 1) (·.earnings)) (some earnings) }
  { s with portfolio := pf, data := data }

/-- One of the branches of `_processSignal`: the row of the portfolio, then the row of the frame. -/
def writeRow (s : Simulator α) (i : ℕ) (price : α) (slot : Slot α) (sig : Signal) (action : Sim.Side) (exposure : Option α) :
    Simulator α :=
  let pf := s.portfolio.set i slot
  let pv := portfolioValue price pf
  let earnings := cell s i (·.earnings)
  let row : Cells α := ⟨some sig, some action, some price, exposure, some pv, earnings, addC (some pv) earnings⟩
  { s with portfolio := pf, data := s.data.set i row }

/-- `self._max_exposure is not None and self._max_exposure < x` (`trading_simulation.py:495-497`, `542-545`). -/
def limitHit (P : Sim.Params α) (x : Option α) : Bool :=
  match P.maxExposure with
  | none => false
  | some m => ltC m x

/-- `_processSignal` (`trading_simulation.py:460-591`). -/
def processSignal (s : Simulator α) (i : ℕ) (price : α) (sig : Signal) : Simulator α :=
  let exposure := cell s i (·.exposure)
  let short := Num.mul s.params.factor price
  match sig with
  | .hold => writeRow s i price zero .hold .none exposure
  | .buy =>
    if limitHit s.params (addC exposure (some price)) then
      writeRow s i price zero .buy .none exposure
    else writeRow s i price ⟨2, 1, price⟩ .buy .long (addC exposure (some price))
  | .sell =>
    if limitHit s.params (addC exposure (some short)) then
      writeRow s i price zero .sell .none exposure
    else writeRow s i price ⟨1, 1, short⟩ .sell .short (addC exposure (some short))

/-- `runSimulationRound` (`trading_simulation.py:593-627`). A row number beyond the data is an `IndexError`. -/
def runSimulationRound (s : Simulator α) (i : ℕ) (sig : Signal) : Except Err (Simulator α) :=
  match s.close[i]? with
  | none => .error .indexError
  | some price =>
    if i = 0 then
      let o : Option α := some (Num.ofInt 0)
      let row : Cells α := ⟨some sig, some .none, some price, o, o, o, o⟩
      .ok { s with data := s.data.set 0 row, portfolio := s.portfolio.set 0 zero }
    else .ok (processSignal (closeOpenPositions s i price) i price sig)

/-- The statistics with missing values (`trading_simulation.py:283-336`). -/
structure Statistics (α : Type) where
  tradingDays : ℕ
  buySignals : ℕ
  ignoredBuySignals : ℕ
  sellSignals : ℕ
  ignoredSellSignals : ℕ
  lastStockValue : Option α
  lastExposure : Option α
  lastOpenLong : ℕ
  lastOpenShort : ℕ
  lastPortfolioValue : Option α
  lastEarnings : Option α
  finalBalance : Option α
  deriving DecidableEq, Repr

/-- `_calculateSimulationStatistics` (`trading_simulation.py:283-336`). -/
def statistics (s : Simulator α) : Statistics α :=
  let rounds := (s.data.filter fun r => r.signal.isSome).length
  let last (f : Cells α → Option α) : Option α :=
    if rounds = 0 then some (Num.ofInt 0) else (cell s (rounds - 1) f).map Num.round2
  { tradingDays := rounds
    buySignals := (s.data.filter fun r => r.signal == some .buy).length
    ignoredBuySignals := (s.data.filter fun r => r.signal == some .buy && r.action == some .none).length
    sellSignals := (s.data.filter fun r => r.signal == some .sell).length
    ignoredSellSignals := (s.data.filter fun r => r.signal == some .sell && r.action == some .none).length
    lastStockValue := last (·.stock)
    lastExposure := last (·.exposure)
    lastOpenLong := countNonzero (fun p => p.position == 2 && p.status == 1) s.portfolio
    lastOpenShort := countNonzero (fun p => p.position == 1 && p.status == 1) s.portfolio
    lastPortfolioValue := last (·.portfolio)
    lastEarnings := last (·.earnings)
    finalBalance := last (·.balance) }

/-- `closeSimulation` (`trading_simulation.py:629-708`). -/
def closeSimulation (s : Simulator α) : List (Cells α) × Statistics α := (s.data, statistics s)

/-- The rounds of `getTiSimulation` (`_technical_indicator.py:412-419`) with the simulator as an object. -/
def rounds (full : Obj) : List ℕ → Obj → Simulator Val → Obj × Except Err (Simulator Val)
  | [], now, s => (now, .ok s)
  | i :: rest, now, s =>
    match full.cut i with
    | none => (now, .error .indexError)
    | some o =>
      match o.getTiSignal with
      | .error e => (o, .error e)
      | .ok sig =>
        match runSimulationRound s i sig with
        | .error e => (o, .error e)
        | .ok s' => rounds full rest o s'

/-- `getTiSimulation` (`_technical_indicator.py:284-433`): dates, rows and statistics. -/
def getTiSimulation (o : Obj) (close : InputArg) (maxExposure factor : PyArg) :
    Obj × InputArg × Except Err (List ℤ × List (Cells Val) × Statistics Val) :=
  match setupSimulation true o.input.idx close maxExposure factor with
  | (caller, .error e) => (o, caller, .error e)
  | (caller, .ok S) =>
    match rounds o (List.range o.ti.len) o (create S.params S.idx.length S.close) with
    | (o', .error e) => (o', caller, .error e)
    | (_, .ok s) => (o, caller, .ok (S.idx, (closeSimulation s).1, (closeSimulation s).2))

end TTI.SimClass
