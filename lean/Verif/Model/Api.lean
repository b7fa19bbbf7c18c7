import Verif.Model.Call
import Verif.Model.SimArgs

set_option autoImplicit false

/-!
# The public API (`tti/indicators/_technical_indicator.py`)

An indicator object is the value `Obj`; every API call is a function from the object to the object afterwards and the
result. The data frames the API hands out are values here: a caller who modifies the frame returned by `getTiData` (which
is the object's own frame) is outside the model. The graphs (`getTiGraph`, `_getSimulationGraph`) are in `Model/Plot`.
-/

namespace TTI

/-- An indicator object: class and parameters, `_input_data`, `_ti_data` (`_technical_indicator.py:55-69`). -/
structure Obj where
  ind : Ind
  input : Frame
  ti : Frame
  deriving DecidableEq

/-- Construction of an indicator: the checks of its own `__init__`, then `TechnicalIndicator.__init__`
(`_technical_indicator.py:48-69`). The first component is the caller's `input_data` afterwards. -/
def construct (E : Env) (c : Call) (data : InputArg) (fill : PyArg) : InputArg × Except Err Obj :=
  match c.check with
  | .error e => (data, .error e)
  | .ok ind =>
    match fill with
    | .bool b =>
      match validateInputData data ind.required b with
      | (caller, .error e) => (caller, .error e)
      | (caller, .ok F) =>
        match ind.calcTi E F with
        | .error e => (caller, .error e)
        | .ok T => (caller, .ok ⟨ind, ind.inputAfter F, T⟩)
    | _ => (data, .error .wrongType)

/-- The rows of a column whose date is at most `d`. -/
def keepUpTo (d : ℤ) (idx : List ℤ) (xs : List Val) : List Val :=
  ((idx.zip xs).filter fun r => decide (r.1 ≤ d)).map (·.2)

/-- `df[df.index <= d]` (`_technical_indicator.py:415-417`). -/
def Frame.upTo (d : ℤ) (F : Frame) : Frame :=
  ⟨F.idx.filter fun e => decide (e ≤ d), F.cols.map fun c => (c.1, keepUpTo d F.idx c.2)⟩

/-- `getTiData` (`_technical_indicator.py:126-134`). -/
def Obj.getTiData (o : Obj) : Frame := o.ti

/-- The `date` argument of `getTiValue` other than `None`: what `pd.to_datetime` makes of it. -/
inductive DateArg where
  | unparsable
  | date (d : ℤ)
  deriving DecidableEq, Repr

/-- Result of `getTiValue`: `None`, a row, or (when a date occurs more than once and `.loc` gives a frame, whose `list` is
its labels) the column names. -/
inductive TiValue where
  | none
  | row (vs : List Val)
  | names (ns : List String)
  deriving DecidableEq, Repr

/-- `getTiValue` (`_technical_indicator.py:136-157`). -/
def Obj.getTiValue (o : Obj) : Option DateArg → TiValue
  | none =>
    match o.ti.rows.getLast? with
    | some r => .row r
    | none => .none
  | some .unparsable => .none
  | some (.date d) =>
    match (o.ti.idx.zip o.ti.rows).filter fun r => r.1 == d with
    | [] => .none
    | [r] => .row r.2
    | _ => .names (o.ti.cols.map (·.1))

/-- `getTiSignal`: the method of the class applied to the current data. -/
def Obj.getTiSignal (o : Obj) : SigResult := o.ind.signal o.input o.ti

/-- The object with both frames cut at the dates of row `i` (`_technical_indicator.py:415-417`); `none` is the
`IndexError` of `full_input_data.index[i]`. -/
def Obj.cut (full : Obj) (i : ℕ) : Option Obj :=
  match full.input.idx[i]?, full.ti.idx[i]? with
  | some di, some dt => some { full with input := full.input.upTo di, ti := full.ti.upTo dt }
  | _, _ => none

/-- The rounds of the simulation (`_technical_indicator.py:412-419`) for the given row numbers. `full` is the object at the
start, `now` the object left by the previous round. When a signal raises, the object stays as it is at that moment. -/
def simRounds (full : Obj) (S : SimSetup) : List ℕ → Obj → Sim.State Val → Obj × Except Err (Sim.State Val)
  | [], now, st => (now, .ok st)
  | i :: rest, now, st =>
    match full.cut i with
    | none => (now, .error .indexError)
    | some o =>
      match o.getTiSignal with
      | .error e => (o, .error e)
      | .ok s => simRounds full S rest o (Sim.round S.params st (S.close.getD i .nan) s)

/-- What `getTiSimulation` returns: the dates and rows of the simulation data (a row not reached by a round is empty) and
the statistics. -/
structure SimResult where
  idx : List ℤ
  rows : List (Option (Sim.Row Val))
  stats : Sim.Stats Val
  deriving DecidableEq, Repr

/-- The simulation data frame: pre-allocated with one empty row per date (`trading_simulation.py:183-195`). -/
def padRows (n : ℕ) (rows : List (Sim.Row Val)) : List (Option (Sim.Row Val)) :=
  rows.map some ++ List.replicate (n - rows.length) none

/-- `getTiSimulation` (`_technical_indicator.py:284-433`). Results: the object afterwards, the caller's `close_values`
afterwards, and the simulation. -/
def Obj.getTiSimulation (o : Obj) (close : InputArg) (maxExposure factor : PyArg) :
    Obj × InputArg × Except Err SimResult :=
  match setupSimulation true o.input.idx close maxExposure factor with
  | (caller, .error e) => (o, caller, .error e)
  | (caller, .ok S) =>
    match simRounds o S (List.range o.ti.len) o Sim.State.init with
    | (o', .error e) => (o', caller, .error e)
    | (_, .ok st) => (o, caller, .ok ⟨S.idx, padRows S.idx.length st.rows, Sim.statistics st⟩)

/-- An API call on an existing object. -/
inductive ApiCall where
  | getTiData
  | getTiValue (date : Option DateArg)
  | getTiSignal
  | getTiSimulation (close : InputArg) (maxExposure factor : PyArg)
  deriving DecidableEq, Repr

/-- What an API call returns or raises. -/
inductive ApiResult where
  | data (T : Frame)
  | value (v : TiValue)
  | signal (r : Except Err Signal)
  | simulation (r : Except Err SimResult)

/-- One API call. -/
def Obj.step (o : Obj) : ApiCall → Obj × ApiResult
  | .getTiData => (o, .data o.getTiData)
  | .getTiValue d => (o, .value (o.getTiValue d))
  | .getTiSignal => (o, .signal o.getTiSignal)
  | .getTiSimulation close m f =>
    let r := o.getTiSimulation close m f
    (r.1, .simulation r.2.2)

/-- A sequence of API calls on the same object: the object afterwards and the results in order. -/
def Obj.steps : Obj → List ApiCall → Obj × List ApiResult
  | o, [] => (o, [])
  | o, c :: cs =>
    let r := o.step c
    let rs := Obj.steps r.1 cs
    (rs.1, r.2 :: rs.2)

end TTI
