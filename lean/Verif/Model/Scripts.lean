import Verif.Model.Bind

set_option autoImplicit false

/-!
# The simulation scripts (`signals_simulation/*.py`)

What the two scripts compute: which indicators are built with which arguments on the table read from the file, and which
simulations they report. Reading the file, printing, timing and saving the graphs are not modelled.
-/

namespace TTI

/-- `df[["close"]]` (`run_all_simulation.py:110`, `run_single_simulation.py:96`): a new table with the columns of exactly this
label. -/
def RawFrame.selectClose (f : RawFrame) : Except Err RawFrame :=
  match f.cols.filter fun c => c.label = .str "close" with
  | [] => .error .keyError
  | cols => .ok { f with cols := cols }

/-- The table after a call that may have renamed its columns. -/
def InputArg.table (f : RawFrame) : InputArg → RawFrame
  | .frame g => g
  | .notFrame => f

/-- `execute_simulation` (`run_all_simulation.py:17-91`, `run_single_simulation.py:20-61`) with the keyword arguments
`input_data=df` and `kw`: the table `df` afterwards and the simulation with the default limit and factor
(`_technical_indicator.py:284`). -/
def executeSimulation (E : Env) (cls : String) (close df : RawFrame) (kw : List (String × PyArg)) :
    RawFrame × Except Err SimResult :=
  match resolveCall cls [] (("input_data", .data (.frame df)) :: kw.map fun p => (p.1, .param p.2)) with
  | .error e => (df, .error e)
  | .ok (c, d, fill) =>
    match construct E c d fill with
    | (caller, .error e) => (caller.table df, .error e)
    | (caller, .ok o) => (caller.table df, (o.getTiSimulation (.frame close) .none (.float (.fin (3 / 2)))).2.2)

/-- One call of `execute_simulation` in the script: class, additional information, arguments. -/
structure ScriptRun where
  cls : String
  info : Option String
  kw : List (String × PyArg)

/-- The loop over the classes of the package in alphabetical order (`run_all_simulation.py:106-191`; `inspect.getmembers` sorts
by name): five runs for the moving average, two for the stochastic oscillator, one for every other class. -/
def scriptRuns : List ScriptRun :=
  signatures.flatMap fun s =>
    if s.cls = "MovingAverage" then
      ["simple", "exponential", "time_series", "triangular", "variable"].map fun t => ⟨s.cls, some t, [("ma_type", .str t)]⟩
    else if s.cls = "StochasticOscillator" then
      [⟨s.cls, some "fast", [("k_slowing_periods", .int 1)]⟩, ⟨s.cls, some "slow", [("k_slowing_periods", .int 3)]⟩]
    else [⟨s.cls, none, []⟩]

/-- One iteration of the loop: `df[["close"]]` is evaluated first. -/
def ScriptRun.execute (E : Env) (r : ScriptRun) (df : RawFrame) : RawFrame × Except Err SimResult :=
  match df.selectClose with
  | .error e => (df, .error e)
  | .ok close => executeSimulation E r.cls close df r.kw

/-- The loop: the simulations done, and the exception that ended the script, if any. All runs share the table. -/
def runScript (E : Env) : List ScriptRun → RawFrame → List SimResult × Option Err
  | [], _ => ([], none)
  | r :: rs, df =>
    match r.execute E df with
    | (_, .error e) => ([], some e)
    | (df', .ok s) =>
      let rest := runScript E rs df'
      (s :: rest.1, rest.2)

/-- `run_all_simulation.py` on the table `df`. -/
def runAllSimulation (E : Env) (df : RawFrame) : List SimResult × Option Err := runScript E scriptRuns df

/-- `$` of a regular expression also matches before a final newline. -/
def dropFinalNewline (l : List Char) : List Char := if l.getLast? = some '\n' then l.dropLast else l

/-- `int(input_arg[1]) if re.match("^[0-9]*$", ...) else float(...) if re.match("^[0-9]*\.[0-9]]*$", ...) else ...`
(`run_single_simulation.py:84-90`). The second pattern is: digits, a point, one digit, any number of closing brackets. The value
of `0.5` is the exact decimal. -/
def parseValue (l : List Char) : Except Err PyArg :=
  let m := dropFinalNewline l
  if m.all Char.isDigit then
    if m = [] then .error .valueError else .ok (.int (Nat.ofDigitChars 10 m 0))
  else
    match m.dropWhile Char.isDigit with
    | '.' :: d :: r =>
      if d.isDigit && r.all (· == ']') then
        if r = [] then
          .ok (.float (.fin (Nat.ofDigitChars 10 (m.takeWhile Char.isDigit) 0 + (Nat.ofDigitChars 10 [d] 0 : ℚ) / 10)))
        else .error .valueError
      else .ok (.str (String.ofList l))
    | _ => .ok (.str (String.ofList l))

/-- One argument `key=value` of the command line (`run_single_simulation.py:82-90`): `split("=")`, of which the first two parts are
used. -/
def parseArgument (s : String) : Except Err (String × PyArg) :=
  match s.toList.dropWhile (· != '=') with
  | [] => .error .indexError
  | _ :: rest =>
    match parseValue (rest.takeWhile (· != '=')) with
    | .error e => .error e
    | .ok v => .ok (String.ofList (s.toList.takeWhile (· != '=')), v)

/-- `kwargs[key] = value`. -/
def setKeyword (kw : List (String × PyArg)) (p : String × PyArg) : List (String × PyArg) :=
  if p.1 ∈ kw.map (·.1) then kw.map fun q => if q.1 = p.1 then p else q else kw ++ [p]

/-- The loop over the arguments (`run_single_simulation.py:79-90`). -/
def parseArguments : List (String × PyArg) → List String → Except Err (List (String × PyArg))
  | kw, [] => .ok kw
  | kw, s :: rest =>
    match parseArgument s with
    | .error e => .error e
    | .ok p => parseArguments (setKeyword kw p) rest

/-- The end of the script for one indicator: the message `Invalid technical indicator`, an exception, or a simulation. -/
inductive SingleOutcome where
  | invalid
  | raised (e : Err)
  | simulated (r : SimResult)
  deriving DecidableEq, Repr

/-- `run_single_simulation.py` with the given command line on the table `df` (`run_single_simulation.py:64-97`). Simplification:
of the names that pass the check of line 71 only `tti.indicators.<class>` is evaluated; every other name is invalid (a name that
evaluates to something that cannot be called, such as a module, would be a `TypeError` later). -/
def runSingleSimulation (E : Env) (df : RawFrame) : List String → SingleOutcome
  | [] => .invalid
  | name :: args =>
    match signatures.find? fun s => name = "tti.indicators." ++ s.cls with
    | none => .invalid
    | some s =>
      match parseArguments [] args with
      | .error e => .raised e
      | .ok kw =>
        match df.selectClose with
        | .error e => .raised e
        | .ok close =>
          match (executeSimulation E s.cls close df kw).2 with
          | .error e => .raised e
          | .ok r => .simulated r

end TTI
