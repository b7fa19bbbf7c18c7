import Verif.Model.Api

set_option autoImplicit false

/-!
# Programs that use several frames and indicators

`Model/Api` treats data frames as values. Here they have an identity: a program holds references to its own frames, builds
any number of indicators from them, receives references to the frames the library made (`getTiData` returns the object's
own frame, `_technical_indicator.py:134`) and may write into all of them at any time.

What pandas contributes (trusted, not modelled further): `drop`, `sort_index`, `ffill`/`bfill` and a boolean selection
`df[mask]` return new frames (`data_validation.py:94-102`, `data_preprocessing.py:27-32`,
`_technical_indicator.py:415-417`), so `_input_data` is never the caller's frame; the frame `_calculateTi` returns does not
share memory with `_input_data`. `_input_data` is not handed out by the API, so it is kept as a value.
-/

namespace TTI.Heap

/-- An indicator object: its `_ti_data` is a reference to a frame (`_technical_indicator.py:55-69`). -/
structure HObj where
  ind : Ind
  input : Frame
  ti : ℕ
  deriving DecidableEq

/-- Everything the program can reach: its own frames, the frames the library made, the indicators; each is addressed by its
number in the list. -/
structure World where
  own : List RawFrame
  made : List Frame
  objs : List HObj
  deriving DecidableEq

/-- An argument `input_data` or `close_values`. -/
inductive Ref where
  | own (r : ℕ)
  | made (r : ℕ)
  | notFrame
  deriving DecidableEq, Repr

/-- The object a reference stands for. Simplification: all columns of a frame made by the library count as numeric. -/
def World.read (w : World) : Ref → InputArg
  | .own r => match w.own[r]? with
    | some f => .frame f
    | none => .notFrame
  | .made r => match w.made[r]? with
    | some T => .frame T.toRaw
    | none => .notFrame
  | .notFrame => .notFrame

/-- The labels of `f` for the columns of `T`: `df.columns = [...]` (`data_validation.py:67`). -/
def relabel (T : Frame) (f : RawFrame) : Frame :=
  ⟨T.idx, List.zipWith (fun c rc => (match rc.label with
    | .str s => s
    | .other => c.1, c.2)) T.cols f.cols⟩

/-- The world after a call that left the argument `d` as `after`. -/
def World.put (w : World) (d : Ref) (after : InputArg) : World :=
  match d, after with
  | .own r, .frame f => { w with own := w.own.set r f }
  | .made r, .frame f => { w with made := w.made.modify r (relabel · f) }
  | _, _ => w

/-- The indicator number `k` as the value of `Model/Api`: the reference followed. -/
def World.obj (w : World) (k : ℕ) : Option Obj :=
  match w.objs[k]? with
  | some h => (w.made[h.ti]?).map fun T => ⟨h.ind, h.input, T⟩
  | none => none

/-- `df.iloc[row, df.columns.get_loc(name)] = v`; nothing happens if there is no such cell (pandas raises). -/
def setCell (T : Frame) (name : String) (row : ℕ) (v : Val) : Frame :=
  ⟨T.idx, T.cols.map fun c => (c.1, if c.1 = name then c.2.set row v else c.2)⟩

/-- What a program can do. -/
inductive Cmd where
  | construct (c : Call) (data : Ref) (fill : PyArg)
  | getTiData (k : ℕ)
  | getTiValue (k : ℕ) (date : Option DateArg)
  | getTiSignal (k : ℕ)
  | getTiSimulation (k : ℕ) (close : Ref) (maxExposure factor : PyArg)
  /-- Any modification of an own frame, in place. -/
  | setOwn (r : ℕ) (f : RawFrame)
  /-- A value is written into a frame the library made. -/
  | setCell (r : ℕ) (name : String) (row : ℕ) (v : Val)
  deriving DecidableEq

/-- What it gets: the number of the new indicator, the reference of a frame, or the result of `Model/Api`. -/
inductive Result where
  | built (r : Except Err ℕ)
  | data (ref : ℕ)
  | call (r : ApiResult)
  | none

/-- The simulation came as far as replacing `_ti_data` by a selection of its rows (`_technical_indicator.py:415-417`). -/
def startsRounds (o : Obj) (close : InputArg) (maxExposure factor : PyArg) : Bool :=
  match (setupSimulation true o.input.idx close maxExposure factor).2 with
  | .ok _ => (o.cut 0).isSome
  | .error _ => false

/-- The construction of an indicator (`_technical_indicator.py:48-69`): its `_ti_data` is a new frame. -/
def World.construct (E : Env) (w : World) (c : Call) (data : Ref) (fill : PyArg) : World × Result :=
  let r := TTI.construct E c (w.read data) fill
  let w1 := w.put data r.1
  match r.2 with
  | .error e => (w1, .built (.error e))
  | .ok o =>
    ({ w1 with made := w1.made ++ [o.ti], objs := w1.objs ++ [⟨o.ind, o.input, w1.made.length⟩] },
      .built (.ok w1.objs.length))

/-- `getTiSimulation` of the object `o = w.obj k` (`_technical_indicator.py:396-433`). A successful simulation puts the
original `_ti_data` back, the same object; one whose signal raises leaves the selection of the last round, a new frame.
Simplification: labels changed by the validation of `close_values` are changed at the end of the call. -/
def World.simulate (w : World) (k : ℕ) (o : Obj) (close : Ref) (maxExposure factor : PyArg) : World × Result :=
  let r := o.getTiSimulation (w.read close) maxExposure factor
  let w1 := w.put close r.2.1
  match r.2.2 with
  | .ok s => (w1, .call (.simulation (.ok s)))
  | .error e =>
    (if startsRounds o (w.read close) maxExposure factor then
      { w1 with made := w1.made ++ [r.1.ti], objs := w1.objs.set k ⟨r.1.ind, r.1.input, w1.made.length⟩ }
     else w1, .call (.simulation (.error e)))

/-- One command; a command for an indicator that does not exist does nothing. -/
def World.step (E : Env) (w : World) : Cmd → World × Result
  | .construct c data fill => w.construct E c data fill
  | .getTiData k => match w.objs[k]? with
    | some h => (w, .data h.ti)
    | none => (w, .none)
  | .getTiValue k date => match w.obj k with
    | some o => (w, .call (.value (o.getTiValue date)))
    | none => (w, .none)
  | .getTiSignal k => match w.obj k with
    | some o => (w, .call (.signal o.getTiSignal))
    | none => (w, .none)
  | .getTiSimulation k close m fac => match w.obj k with
    | some o => w.simulate k o close m fac
    | none => (w, .none)
  | .setOwn r f => ({ w with own := w.own.set r f }, .none)
  | .setCell r name row v => ({ w with made := w.made.modify r (Heap.setCell · name row v) }, .none)

/-- A program: the world afterwards and the results in order. -/
def World.run (E : Env) : World → List Cmd → World × List Result
  | w, [] => (w, [])
  | w, c :: cs =>
    let r := w.step E c
    let rs := World.run E r.1 cs
    (rs.1, r.2 :: rs.2)

/-- Before the library is used: only the program's own frames. -/
def World.start (own : List RawFrame) : World := ⟨own, [], []⟩

end TTI.Heap
