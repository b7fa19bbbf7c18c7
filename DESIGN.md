# Formal model of trading-technical-indicators (tti) in Lean 4

## Trusted base

* Lean 4.33.0 kernel. Mathlib is used for lemmas and tactics only; every proof term is checked by the kernel.
* Axioms: only `propext`, `Classical.choice`, `Quot.sound` (checked with `#print axioms`). No axioms of our own,
  no `sorry`/`admit`, no `native_decide`, no `bv_decide`.
* The model (files `lean/Verif/Model/*.lean`) is a hand translation of the Python source, function by function; every
  definition cites file and lines. That the translation is faithful is trusted. The theorems speak about the model.

### Idealisations (trusted, apply everywhere)

* **Numbers.** A float64 is modelled by `Val`: `nan`, `+inf`, `-inf` or an exact rational. Arithmetic on finite values is
  exact (no rounding error, no overflow), there is one zero (treated as `+0`, so `x/0` is `±inf` by the sign of `x` and
  `0/0` is `nan`). Comparisons with `nan` are false. `DataFrame.round(k)`/`round(x,k)` is exact half-even rounding of the rational.
  For the simulator C82 removes this idealisation: it runs the same definitions with a rounding after each operation and bounds the
  error (overflow and underflow excluded; `np.sum` adds in numpy's order: one by one below eight values, eight running sums up to 128, halves above; this order, not in the repository, is trusted).
  For the indicators `Model/Float` does the same: the calculation is written once more with a rounding after each operation (no
  fused operations), with the loops of pandas 2.3 for `ewm` and `rolling` operation by operation, a literal such as 0.236 being the
  float next to it, and means of a row added up in any order. The square root is a parameter. Not covered (there
  `Model/Float` uses the exact definitions): linear regression indicator, time series forecast, forecast oscillator, projection bands
  and oscillator (statsmodels), the time series moving average and the stochastic oscillator with scipy weights. `Model/FloatApi` adds the averages that a signal
  method calculates itself, and the simulation on these signals. C88 shows that without rounding this second
  model is the first one for every class; C89 proves what holds in any arithmetic; C85-C87 bound the distance to the exact formulas
  for 22 classes.
* **Standard deviation.** `sqrt` is not rational. The indicators that use it (Bollinger Bands, Standard Deviation, Relative
  Volatility Index) take the square root as a parameter `sq : ℚ → ℚ`; theorems assume only what they name
  (`sq` non-negative on non-negative arguments, `sq 0 = 0`), and each theorem shows such an `sq` exists.
* **Windowed 'exponential' mean** of the stochastic oscillator (`win_type="exponential"` goes to scipy) takes the weights as a
  parameter.
* **Dates** are integers (nanosecond time stamps); `NaT` and time zones are not modelled.
* **pandas/numpy/statsmodels** operations that the code calls (`rolling`, `ewm(adjust=False)`, `shift`, `cumsum`, `ffill`, `bfill`,
  `sort_index`, row-wise `max/min/sum/mean`, `RollingOLS(...).params`) are modelled by definitions written from their documented
  semantics (`Model/Series.lean`), including NaN skipping, `min_periods`, and infinity being treated as missing by `rolling` and `ewm`.
* **Duplicate dates**: `Model/Ind` calculates the indicators row by row. The code writes some columns by date
  (`df.loc[index[i]]`); `Model/Loops.lean` has these loops, and C83 proves that they agree with `Model/Ind` for distinct dates and
  what they do with repeated ones. The other claims about values are about `Model/Ind`. `sort_index` is modelled by a stable (insertion) sort. Copy-on-Write of pandas 3 is not modelled (pandas < 3
  is assumed): aliasing between the caller and the object is modelled for the column labels of the input (C31) and, in `Model/Heap.lean`,
  for the frame returned by `getTiData` (C94, C95); in all other claims the caller does not write into it.
* **Duplicate labels**: `input_data[column]` with a repeated label is a frame, so the type check and then its error message fail
  (`AttributeError`); dropping a repeated extra label twice is a `KeyError`. Both are modelled (C26, C30).
* **Letter case**: `str.lower()` changes the ASCII letters only.
* **Square root and weights**: `Spec.SoundEnv` (used by C39, C41, C44) asks for a root that is not negative on non-negative
  arguments and for non-negative weights; C50 asks for root 0 = 0; C45 and C64 ask for root (c²x) = c·root x, for the Relative
  Volatility Index, Bollinger Bands and Standard Deviation only; C54 and C60 keep the root in the formula.
* **Exactness of sums**: sums are exact, so the order of summation does not matter (C48), and decimals in the source such as 0.15,
  0.01, 0.015, 0.02 stand for the exact decimal numbers.
* **Signed zero**: there is one zero. Where the code divides by a zero that may be negative in floats (a flat day in the accumulation
  line) the theorem is restricted to the case in which the sign does not matter (C59).
* **Regression**: `RollingOLS(...).params` is the least-squares line of the window, missing if the window has a missing or infinite
  value.
* **Object columns**: the object-dtype arithmetic of the Relative Strength Index is idealised to the arithmetic of `Val`.
* **Parameters**: Python's `bool` is an `int` and passes the parameter checks, as in the code; that pandas then refuses a `bool`
  window is not modelled.
* **Indicators inside indicators** (moving averages, stochastic oscillators, ...) are built on the validated data of the outer one;
  `C28_inner` proves that validating these again gives the frame the model uses.
* `list.sort` with the partial order of NaN is modelled for three elements as CPython's binary insertion.
* **Graphs** (`getTiGraph`, `_getSimulationGraph`, `utils/plot.py`) are modelled by the record of what is drawn: lines with data,
  colour and transparency, areas, legends, titles (`Model/Plot`). Sizes, positions, fonts, grids and tick marks are not modelled.
* **Exception messages** (`Model/Message`): the templates and the `str.replace` calls are modelled. What Python itself writes for a
  float, for an object outside the model and its type, for the type of an index, a dtype or the data, and the messages of pandas'
  own exceptions are the parameters `Texts`; the theorems hold for every choice of them.
* **Scripts**: of `signals_simulation/*.py` the calls, the arguments of the command line and the results are modelled; reading the
  file, printing, timing and saving graphs are not. A decimal of the command line is the exact decimal.
* **Calls**: Python's binding of arguments is modelled for the constructors (`Model/Bind`); a repeated keyword, which is a syntax error
  in Python, is a `TypeError` there.
* **Not modelled**: logging/warnings, docstrings, packaging, object dtypes other than numeric/non-numeric.

## Layout

* `Verif/Model/` the model: `Val` (numbers), `Series` (pandas operations), `Frame` (data frames, validation, filling), `PyArg`
  (argument values), `Call` (constructors and their parameter checks), `SimArgs` and `Sim` (arguments and rounds of the trading
  simulation), `Ind/*` (the 57 indicator classes by family, `Ind/All` the dispatch), `Api` (objects and calls), `Plot` (graphs),
  `Message` (texts of the exceptions), `Bind` (signatures, positional, keyword and default arguments), `Scripts` (the two scripts of
  `signals_simulation`), `Loops` (the loops that write by date), `SimClass` (the simulator object), `Float` (indicators in rounded
  arithmetic), `FloatApi` (signals and simulations in rounded arithmetic), `Heap` (frames shared with the caller).
* `Verif/Spec/` small independent specifications used in the statements: `Ledger` (simulation), `Indicators` (columns, required rows,
  causality), `Signals` (documented rules), `Prices` (user's columns by day, ranges), `Regression`, `Sar`, `Volume`, `Scale`, `Order`,
  `Params`, `Constant`, `Formula` (textbook formulas), `Gaps` (averages of numbers with gaps), `Graph`, `Messages`, `Bind`,
  `Memory`, `Raise`, `Close`, `Mirror`, `Redate`, `Currency`, `WarmUp`, `ShortPeriod`.
* `Verif/Lemmas/` helper lemmas. `Sim*`: simulation; `Frame`, `Series`, `Num`, `Roll`: data; `Built`, `Shape`, `Cut`, `Api`, `Signal`,
  `Rules`: objects; `Causal`; `Ranges*`, `Averages`, `Bands`, `Regression`, `Volume`, `Constant`, `NoDown`, `Sar`, `Scale*`, `Unit*`, `Identities`, `Order`,
  `Params`, `Prices`, `Messages`, `Reports`, `Bind`, `Memory*`, `Since*`, `Raise*`, `Under*`, `Mirror*`, `Redate`, `Currency`, `WarmUp*`: one topic each; `Col`, `Col2` ... `Col7`: values of columns as functions of the day, for the formulas.
* `Verif/Props/` the property theorems, `Cnn_...`, each with an `example` showing that its hypotheses are met by a concrete case.
  `Sim1`, `Sim2`, `SimFloat`: C01-C14, C16, about runs of the simulator; `SimApi`: the same about what `getTiSimulation` returns; `Validate`, `Validate2`, `ValidateApi`, `Fill`: C15, C24-C31; `Api`, `Build`, `Causal`: C17-C23, C32-C34;
  `Params`: C35; `Signals`: C36-C38, C47; `Range`, `Averages`, `Bands`, `Regression`, `Volume`, `Scale`, `Sar`, `Order`, `NoDown`,
  `Constant`: C39-C51; `Formula*`: C52-C61; `Graph`: C62, C63; `Unit`: C64; `Identities`: C65; `Messages`: C66; `Calls`: C67; `Memory`, `Unlimited`, `Least`: C68; `Raise`: C69; `Close`: C70, C71; `Mirror`: C72, C73; `Redate`: C74; `Currency`: C75; `WarmUp`: C76; `ShortPeriod`: C77; `Alternate`: C78; `Stricter`: C79; `Superpose`: C80; `Scripts`: C81; `Rounding`: C82; `Loops`: C83; `SimClass`: C84; `Float`, `FloatPrices`: C85; `FloatRoll`: C86; `FloatSignal`: C87; `FloatExact`: C88; `FloatLife`: C89; `FloatFlat`: C90; `FloatCorrect`: C91; `FloatRange`: C92; `FloatBetween`: C93; `Heap`, `HeapOwn`: C94; `HeapFed`: C95; `FloatStd`: C96; `FloatApi`: C97; `Forget`: C98; `Stakes`, `Ruin`: C99; `Utils`: C100; `Trend`: C101; `TrendSignals`: C102; `Level`: C103; `Hole`: C104; `Basket`: C105; `LastClose`: C106; `Errors`: C107; `Ties`: C108; `Idle`: C109; `Factor`: C110; `Sample`: price data of any length for the examples.

The mutation tests of the theorems are recorded in `seeded/LOG.jsonl`. A mutant is built with the broken declarations replaced by
`sorry`; the theorems that then depend on one are listed as failed. `theorems_failed_directly` are those whose own proof broke.
`theorems_failed_through_helpers` only says that the old proof no longer goes through: such a theorem need not be false of the
mutant, and where a helper lemma is used widely the list contains theorems the edit does not concern.

## Plan per property

| id | what is modelled | how it is proved |
|---|---|---|
| C01 | portfolio array, simulation rows, round function (`Model/Sim`) | invariant by induction over rounds; exposure = sum over the independent ledger of `Spec/Ledger` |
| C02 | same | corollary of the open decision and of non-negativity, induction |
| C03 | same | induction, each closed batch has positive profit |
| C04 | same | induction, per-position profit in the ledger spec |
| C05 | same | induction; open iff no profitable day in between |
| C06 | same | induction, row by row; law-free in the number type |
| C07 | same | case analysis of the round function; law-free |
| C08 | same + statistics | counting argument; negation of the documented reading by a witness |
| C09 | same + statistics | counting by induction |
| C10 | same | induction on the common prefix |
| C11 | same, over ℚ | simulation relation between two runs |
| C12 | same | simulation relation between two runs |
| C13 | same | from C01 and C02 |
| C14 | same | from C01, C05, algebra |
| C15 | argument checks | case analysis over `PyArg` |
| C16 | same | induction; the model is a total function with errors as values |
| C17 | object state machine (`Model/Api`) | induction over call sequences |
| C18 | same | case analysis |
| C19 | same, `MedianPrice`, `RangeIndicator` | loop invariant for the failing round, concrete witnesses by `decide` |
| C20 | all causal indicators, loop of `getTiSimulation` | causality lemma (`calc` commutes with `take`) per operator and per indicator |
| C21 | DPO, Fibonacci, ADL | concrete witnesses evaluated by the kernel |
| C22 | `getTiValue` | case analysis, uniqueness of dates |
| C23 | loop of `getTiSimulation` | induction |
| C24-C26 | `validateInputData` | permutation/sort lemmas |
| C27-C29 | `fillMissingValues` | list induction, refinement to a pointwise spec |
| C30, C31 | `validateInputData` with the caller's frame threaded through | case analysis |
| C32, C33 | `_calculateTi` of all indicators | case analysis over indicators, length lemmas |
| C34 | `getTiSignal` of all indicators | case analysis with length facts; exceptions as values |
| C35 | `__init__` of all indicators | case analysis over `PyArg` |
| C36-C38 | `getTiSignal` of the named indicators | case analysis, witnesses |
| C39 | the named indicators | real-number inequalities on windows and recursive filters, rounding monotone |
| C40 | moving averages | convexity by induction |
| C41 | bands | inequalities, rounding monotone |
| C42 | regression | sum-of-squares identity, optimality against all lines |
| C43 | volume indicators | induction to closed form |
| C44 | ATR, SD, MFI | sign invariants |
| C45 | oscillators | homogeneity lemmas per operator |
| C46 | Parabolic SAR row function | state invariant by induction |
| C47 | signals | exact characterisation, case analysis |
| C48 | column order | permutation invariance of column lookup; witnesses |
| C49 | RMI, RSI | division by zero in `Val` |
| C50 | constant series | induction |
| C51 | Parabolic SAR | invariant by induction over the days |
| C52-C54 | averages, momentum, bands | column calculus: each pandas operation yields a column given by a function of the day |
| C55 | oscillators | same |
| C56 | price averages, detrended price, Ichimoku | same |
| C57 | average true range, directional movement | same, recursions against `Spec.running` |
| C58 | oscillators built on daily ranges | same |
| C59 | volume indicators | same, plus totals of rounded or truncated numbers |
| C60 | strength indicators | same; quotients of non-negative averages |
| C61 | projections | same; the regression line is the best line of C42 |
| C62, C63 | graphs | list lemmas; case analysis over the indicators for styles |
| C64 | units of the values | homogeneity lemmas; a bound on the error through roundings and averages |
| C65 | identities between indicators | both objects share the validated frame; the columns are compared day by day |
| C66 | texts of the exceptions | lemmas about `str.replace`; case analysis over the constructors, one argument after the other |
| C67 | calling conventions and default values | induction on the parameter list; the tables of signatures and docstrings compared by the kernel |
| C68 | history a value and a signal depend on | every series operation keeps the relation `equal from row m on, k rows later`; stable sorting and filling of gaps commute with cutting off old rows; for every class without a limit two tables that differ on the first days only, by the textbook values (an average of zeros fades like a power of 1 - a and is brought back to 1 by the size of the first number; number against missing value for quotients; a value on the middle between two reported numbers for the range indicator); for every class with a limit two tables that differ on the oldest day of the window only |
| C69 | adding the same amount to all prices | every series operation commutes with the shift or cancels it; rounding commutes with multiples of 0.0002; witnesses for ratios, ties, gaps taken for zero and level-dependent signals |
| C70 | higher prices never give lower averages and channels | two executions related row by row; every operation keeps the order, `ewm` by an invariant on its state; witnesses for DEMA and regression |
| C71 | errors in the prices are amplified by a fixed factor at most | the same relation with a slack `e`; differences add the slacks; witnesses for a ratio and a counter |
| C72 | indicator values on the mirrored market | every operation is odd, even or exchanges maximum and minimum; mirroring at `k` is mirroring at 0 followed by the raise of C69; the Parabolic SAR by induction over its rows; witnesses for ratios, the Relative Momentum Index and an outside bar |
| C73 | signals on the mirrored market | the comparisons of every rule are exchanged, and the buy and sell conditions exclude each other; witness for the Moving Average |
| C74 | only the order of the dates matters | every step of validation, calculation, signal and simulation commutes with a map of the dates that is increasing on the dates in use; witness that the order matters |
| C75 | a simulation in another currency | the rounds of the simulation commute with the multiplication of all amounts by `c > 0`, by induction over the rows; with C45 for objects built on the converted prices |
| C76 | the days before the first value and the first signal | a column that is missing on its first days stays so under the series functions (one closure lemma per function), case by case over the classes; exactness from the formula theorems C42, C43, C46, C52-C61 |
| C77 | Periods that the constructors accept but that are too short to work | deviations from a mean sum to 0, so the formula of the channel index is bounded by 100 n / 3; averages of one day from the formulas of C52 and C54; hold on every cut as in C50 |
| C78 | signals from two lines crossing alternate | the rule of each class on the data cut at each day, as two comparisons on consecutive days; between two rises through a line there is a fall (induction over the days); counting by induction; witnesses for ties and thresholds |
| C79 | stricter parameters give fewer signals | the formulas of C54 are monotone in the parameter and so is rounding; a price outside the wider band is outside the narrower one, cut by cut; witness for the period of the envelopes |
| C80 | without a limit the signals do not interfere | sums over the ledger (C01, C04, C06) split with the positions, by induction over the rows; the positions one run has and the other has not are themselves a ledger with non-negative sums; transported to floats with C16 and to the API with C23; witness that a limit destroys it |
| C81 | The simulation scripts report the simulations a user would get alone | induction over the runs with the table as read or in lower case as invariant; the signals fail only for the Range Indicator; the digits of a number are read back |
| C82 | a simulation in rounded arithmetic | the simulator is generic over its arithmetic; the positions closed are the same, error terms ((1+u)^k-1)*A propagate through each operation, induction over the rows; the limit by monotonicity and idempotence; rounding to 53 binary digits is shown to be such a rounding and evaluated for the witnesses |
| C83 | the loops that write by date | literal loops over the rows with writes by label, by position, by mask and aligned writes; invariant of the loop: after step i every row has the recursion's value at the last row up to i with its date; equality with the prefix recursions for distinct dates |
| C84 | the simulator as an object with arrays | literal array and frame with masks, cells that may be missing and row numbers; simulation relation with the list model (executed rows followed by zero rows), preserved by each round; frame property and the effect of repeated and missing rounds from the literal model |
| C85 | these indicators in rounded arithmetic (`Model/Float`) | error terms ((1+u)^k-1)*M through each operation; the factor 1-2/(n+1) of an exponential average absorbs the errors of earlier days; float64 is an instance |
| C86 | pandas' loops for rolling sums and means (`Model/Float`) | invariant of the compensated sum: distance to the exact window sum at most 11*u*days*window*M; shortcuts for equal values and signs proved harmless |
| C87 | signals of these indicators in rounded arithmetic | C85, C86 and the comparisons of the signal; float64 constants by arithmetic |
| C88 | float64 constructor with exact numbers = exact constructor, for all classes; pandas' window loops = mean and sum of the window | invariant of the running sum without rounding; class by class |
| C89 | constructor in any arithmetic: exceptions, shape, row order, signals, call sequences, cut = live | no law of the arithmetic used; prefix lemmas for every operator; rolling state of a row depends on the rows up to it |
| C90 | flat windows in any arithmetic: averages report the price, differences are exactly 0, quotients are NaN; sign of window means | counters of pandas' loop (number, negatives, equal in a row) do not depend on the arithmetic; induction over the rows for the run of equal values |
| C91 | bitwise result: reported value = fl(round4(exact)) unless next to a tie; quoted prices; exact on-balance volume | the report is fl(k/10^4) for an integer k; the error bound and the distance from ties determine k; whole-number sums by induction |
| C92 | ranges in rounded arithmetic on all data, exact extremes, and the running-sum witness for the intraday momentum index | relative error bounds of recursive averages of non-negative numbers (Gain), then the final rounding to four decimals of a value in [a - 1/40000, b + 1/40000] lands in [a, b]; invariant of the ADX recursion; witness by kernel evaluation |
| C93 | float averages between stored prices, to the bit; witness with five decimals | error bound of C85/C86 below one unit of the fourth decimal; the report is fl(m/10^4), so m is between the two quotes and monotone rounding does the rest |
| C94 | programs over references: separation, refinement of the value model, effect of writes, detached frames | invariant that references are distinct and allocated, simulation argument against Obj.steps by induction over the program, witness programs by kernel evaluation |
| C95 | validation of frames with the columns of an indicator; the label change in the world model | no class has a column named like a price (case analysis), reduction of the validation, witness program |
| C96 | pandas' rolling variance with its corrections (`Model/Float`), the classes that use it | signs and monotone rounding step by step, counters of the loop for equal values, witnesses in float64 by kernel evaluation with a decimal square root |
| C97 | signal methods and simulation in rounded arithmetic (`Model/FloatApi`), on top of `Model/Float` | C89 for cuts, induction over the rounds, a homomorphism from the rounded simulator on rationals (C82) to the one on floats; witness by kernel evaluation |
| C98 | textbook values of C52, C53 and C57; `f.since d` of C68 | the distance of two averages with the same inputs shrinks by the factor 1 - a each day; averages of averages by a bound that satisfies the recursion; second order Bernoulli inequality for the fifth; witness by choosing the first close |
| C99 | the ledger of C01-C16 (`Spec/Ledger`) read off the returned rows, `total` and `path` (`Spec/Stakes`) | an open position has no profit at any price since its opening, in particular at the last one; induction on the ledger and on the days; witness of three days for the shorts; four rising or falling days, whose signals C102 gives, for the on-balance volume |
| C100 | `fillFrame` (`Model/Utils`) over all columns, `IsFilled` of C27 | uniqueness of the filled column; sorting commutes with selecting columns; validation of the filled frame equals validation of the frame with filling |
| C101 | `NeverFalls`, `NeverRises`, `AllPositive`, `NoLessThan`, `NotAbove` on the days of the user's frame, `plainAverage` (`Spec/Trend`) | the closed forms of C42, C43, C46, C52 to C60; averages of rising numbers rise and lag; gains telescope, losses vanish; Chebyshev's sum inequality for the slope; falling markets by changing signs |
| C102 | the signal of the object and of its cuts, `NeverFalls`, `NeverRises`, `FourDecimals`; `Returned` for the rows of a simulation | C101 and the closed forms through the table of C47 (`day_view`: a cut shows the first days); C99's gain of a day with no position on the winning side |
| C103 | `RawFrame.since`, `rowsBefore` as in C98; `getTiData.day`, `getTiSignal` | closed forms of C43, C53, C59 as sums and products over days, which agree from a day on; signals through the table of C47; witnesses on `table n x`, a frame of n days with any numbers |
| C104 | `construct` with `(.bool false)`, `getTiData.day`, `Missing f name j`, `zeroed f` | `Lost D xs` (missing on the days `D`) closed under every operation on columns, followed through every calculation; locality from the memory (C68) and causality (C01) lemmas; `gapAverage` for `ewm` |
| C105 | `Basket a b f g h`, `Split a b f g h`, `Adds a b r u v w` (and `AddsAtMost`, `AddsAtLeast`), tables `basketRounding`, `basketAtMost`, `basketAtLeast`, `RootWithin e E` | the textbook formulas are linear (means, smoothed averages, least squares lines); Cauchy-Schwarz for the deviation; true range and highest value of a sum; roundings counted |
| C106 | `LastCloseRaised f g`, `Quoted`, `TowardsBuy s t`, table `stance : Ind → Option Stance`, table `ignoresLastClose : Ind → Bool` | the indicator moves at most as far as the close (averages with weight below 1) or in a known direction; prices on the grid of four decimals survive the rounding; the signal rules of C47 read on both tables |
| C107 | `Within e f g`, `DifferBy d x y`, table `errorFactor : Ind → String → Option (ℚ × ℚ)`; `Jumps` | means, extremes and smoothed averages do not enlarge an error (induction over the days); the slope of numbers up to e is at most 2e, since a distance from the middle of the window is 0 or at least 1/2; the values of the least squares line: their squares add up to at most those of the numbers, so the value on the last day is at most 2e and on the next day 3e; the formulas of C52-C57; tables with a parameter e for the jumps and for the factor that is attained |
| C108 | `compares : Ind → List (Quantity × Quantity)`, `Quantity.margin`, `Tie` | the rules of C47 depend on a pair only by which number is larger; C107 for the values; induction over the rounds for the simulation |
| C109 | `IdleDays f g φ` (day i of g is day φ i of f or an idle day after it), `SameAmounts` | totals to which idle days add nothing, by induction with the closed forms of C43 and C59; for the simulation two ledgers with the same open positions, none of which can be closed at the last price |
| C110 | `SameButExposure`, `openShorts` | the ledger of C01, C04, C06 depends on actions and closes only (`sumOpen_face`, `realised_face`), and the actions are the same by C07 and induction over the days |
