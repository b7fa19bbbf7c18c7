import Verif.Model.Float

set_option autoImplicit false

/-!
# Signals and simulations with a rounding after every operation

Most signals only compare numbers. The signals below calculate something first; they are written once more with a rounding after
each operation, and the simulation is run with the same arithmetic.
-/

namespace TTI.Flt

open Ind

/-- `getTiSignal` of the momentum (`_momentum.py:97-128`). -/
def momentumSignal (A : Arith) (T : Frame) : SigResult := do
  if T.len < 9 then return .hold
  let ema := A.ewm 9 9 (T.col "mom")
  let m2 ← iat (T.col "mom") 2
  let m1 ← iat (T.col "mom") 1
  let e2 ← iat ema 2
  let e1 ← iat ema 1
  if m2 <ᵥ e2 && e1 <ᵥ m1 then return .sell
  if e2 <ᵥ m2 && m1 <ᵥ e1 then return .buy
  return .hold

/-- `_accumulation_distribution_line.py:76-104`. -/
def adlSignal (A : Arith) (F T : Frame) : SigResult := do
  if T.len < 2 then return .hold
  let c1 ← iat (F.col "close") 1
  let c2 ← iat (F.col "close") 2
  let slope := A.sub c1 c2
  let a ← iat (T.col "adl") 1
  if (slope <ᵥ 0 && (0 : Val) <ᵥ a) || ((0 : Val) <ᵥ slope && (0 : Val) <ᵥ a) then return .buy
  if ((0 : Val) <ᵥ slope && a <ᵥ 0) || (slope <ᵥ 0 && a <ᵥ 0) then return .sell
  return .hold

/-- `_average_true_range.py:92-125`. -/
def atrSignal (A : Arith) (F T : Frame) : SigResult := do
  if T.len < 10 then return .hold
  let sma5 := A.rollMean 5 5 F.firstCol
  let sma10 := A.rollMean 10 5 F.firstCol
  let a ← iat (T.col "atr") 1
  let c ← iat (F.col "close") 1
  let s5 ← iat sma5 1
  let s10 ← iat sma10 1
  if A.mul (.fin (A.fl (1 / 100))) c <ᵥ a then
    if s5 <ᵥ c then
      if s10 <ᵥ c then return .buy else return .sell
    if c <ᵥ s5 then return .buy
  return .hold

/-- `_chaikin_oscillator.py:82-116`. -/
def chaikinSignal (A : Arith) (F T : Frame) : SigResult := do
  if T.len < 90 then return .hold
  let ma := A.mean (window 90 (F.col "close"))
  let c ← iat (F.col "close") 1
  let t2 ← iat (T.col "co") 2
  let t1 ← iat (T.col "co") 1
  if ma <ᵥ c && (t2 <ᵥ t1 && t1 <ᵥ 0) then return .buy
  else if c <ᵥ ma && (t1 <ᵥ t2 && (0 : Val) <ᵥ t1) then return .sell
  else return .hold

/-- `_negative_volume_index.py:86-106`. -/
def nviSignal (A : Arith) (T : Frame) : SigResult := do
  if T.len < 255 then return .hold
  let ema := A.ewm 255 255 (T.col "nvi")
  let t ← iat (T.col "nvi") 1
  let e ← iat ema 1
  if e <ᵥ t then return .buy
  return .hold

/-- `_positive_volume_index.py:86-113`. -/
def pviSignal (A : Arith) (T : Frame) : SigResult := do
  if T.len < 255 then return .hold
  let ema := A.ewm 255 255 (T.col "pvi")
  let t2 ← iat (T.col "pvi") 2
  let t1 ← iat (T.col "pvi") 1
  let e2 ← iat ema 2
  let e1 ← iat ema 1
  if t2 <ᵥ e2 && e1 <ᵥ t1 then return .buy
  if e2 <ᵥ t2 && t1 <ᵥ e1 then return .sell
  return .hold

/-- `_projection_bands.py:140-168`. -/
def projectionSignal (A : Arith) (F T : Frame) : SigResult := do
  if T.len < 1 then return .hold
  let u ← iat (T.col "upper_band") 1
  let l ← iat (T.col "lower_band") 1
  let c ← iat (F.col "close") 1
  if A.sub u c <ᵥ A.mul (.fin (A.fl (15 / 100))) (A.sub u l) then return .sell
  if A.sub c l <ᵥ A.mul (.fin (A.fl (15 / 100))) (A.sub u l) then return .buy
  return .hold

/-- `_standard_deviation.py:99-126`. -/
def deviationSignal (A : Arith) (period : ℕ) (F T : Frame) : SigResult := do
  if T.len < 1 then return .hold
  let c ← iat (F.col "close") 1
  let m ← iat (A.roundS 4 (A.rollMean period period (F.col "close"))) 1
  let s ← iat (T.col "sd") 1
  if m <ᵥ c && (2 : Val) <ᵥ s then return .sell
  if c <ᵥ m && (2 : Val) <ᵥ s then return .buy
  return .hold

/-- `_stochastic_oscillator.py:196-246`. -/
def stochasticSignal (A : Arith) (T : Frame) : SigResult := do
  if T.len < 2 then return .hold
  let k2 ← iat (T.col "%K") 2
  let k1 ← iat (T.col "%K") 1
  let d2 ← iat (T.col "%D") 2
  let d1 ← iat (T.col "%D") 1
  if crossDown 80 k2 k1 || crossDown 80 d2 d1 then return .sell
  if crossUp 20 k2 k1 || crossUp 20 d2 d1 then return .buy
  if (0 : Val) <ᵥ A.sub k2 k1 && A.sub k1 d1 <ᵥ 0 && (80 : Val) <ᵥ k1 then return .sell
  if A.sub k2 k1 <ᵥ 0 && (0 : Val) <ᵥ A.sub k1 d1 && k1 <ᵥ 20 then return .buy
  return .hold

/-- `_typical_price.py:84-105`. -/
def typicalSignal (A : Arith) (period : ℕ) (F T : Frame) : SigResult := do
  if F.len < period ∨ T.len < 1 then return .hold
  let t ← iat (T.col "tp") 1
  let m ← iat (A.rollMean period period F.firstCol) 1
  if m <ᵥ t then return .buy
  return .hold

/-- `_vertical_horizontal_filter.py:115-153`: another indicator is built from the closes. The parameters of the environment are
not used by these two classes. -/
def filterSignal (A : Arith) (F T : Frame) : SigResult := do
  if T.len < 3 then return .hold
  let a ← iat (T.col "vhf") 3
  let b ← iat (T.col "vhf") 2
  let c ← iat (T.col "vhf") 1
  let G := F.sub ["close"]
  if a <ᵥ b && b <ᵥ c then
    if F.len < 5 then return .hold
    else
      let D ← calcTi A ⟨id, fun _ => []⟩ G (.doubleExponentialMovingAverage 5)
      DoubleExponentialMovingAverage.signal G D
  else if b <ᵥ a && c <ᵥ b then
    if F.len < 12 then return .hold
    else
      let D ← calcTi A ⟨id, fun _ => []⟩ G (.momentum 12)
      momentumSignal A D
  else return .hold

/-- `getTiSignal` of the class. The classes that are not listed only compare stored numbers. -/
def signal (A : Arith) (F T : Frame) : Ind → SigResult
  | .accumulationDistributionLine => adlSignal A F T
  | .averageTrueRange => atrSignal A F T
  | .chaikinOscillator => chaikinSignal A F T
  | .momentum _ => momentumSignal A T
  | .negativeVolumeIndex => nviSignal A T
  | .positiveVolumeIndex => pviSignal A T
  | .projectionBands _ => projectionSignal A F T
  | .standardDeviation n => deviationSignal A n F T
  | .stochasticOscillator _ _ _ _ => stochasticSignal A T
  | .typicalPrice n => typicalSignal A n F T
  | .verticalHorizontalFilter _ => filterSignal A F T
  | ind => ind.signal F T

/-- `getTiSignal` of an object. -/
def getTiSignal (A : Arith) (o : Obj) : SigResult := signal A o.input o.ti o.ind

/-- The arithmetic of the simulator on float64 numbers. -/
@[reducible] def num (A : Arith) : Num Val where
  add := A.add
  sub := A.sub
  mul := A.mul
  div := A.div
  ofInt n := .fin n
  lt := Val.lt
  round2 := A.round 2

/-- The rounds of the simulation (`_technical_indicator.py:412-419`). -/
def simRounds (A : Arith) (full : Obj) (S : SimSetup) : List ℕ → Obj → Sim.State Val → Obj × Except Err (Sim.State Val)
  | [], now, st => (now, .ok st)
  | i :: rest, now, st =>
    match full.cut i with
    | none => (now, .error .indexError)
    | some o =>
      match getTiSignal A o with
      | .error e => (o, .error e)
      | .ok s => simRounds A full S rest o (@Sim.round Val (num A) S.params st (S.close.getD i .nan) s)

/-- `getTiSimulation` (`_technical_indicator.py:284-433`). -/
def getTiSimulation (A : Arith) (o : Obj) (close : InputArg) (maxExposure factor : PyArg) : Obj × InputArg × Except Err SimResult :=
  match setupSimulation true o.input.idx close maxExposure factor with
  | (caller, .error e) => (o, caller, .error e)
  | (caller, .ok S) =>
    match simRounds A o S (List.range o.ti.len) o (@Sim.State.init Val) with
    | (o', .error e) => (o', caller, .error e)
    | (_, .ok st) => (o, caller, .ok ⟨S.idx, padRows S.idx.length st.rows, @Sim.statistics Val (num A) st⟩)

/-- One API call, and a sequence of them. -/
def step (A : Arith) (o : Obj) : ApiCall → Obj × ApiResult
  | .getTiData => (o, .data o.getTiData)
  | .getTiValue d => (o, .value (o.getTiValue d))
  | .getTiSignal => (o, .signal (getTiSignal A o))
  | .getTiSimulation close m f =>
    let r := getTiSimulation A o close m f
    (r.1, .simulation r.2.2)

def steps (A : Arith) : Obj → List ApiCall → Obj × List ApiResult
  | o, [] => (o, [])
  | o, c :: cs =>
    let r := step A o c
    let rs := steps A r.1 cs
    (rs.1, r.2 :: rs.2)

end TTI.Flt
