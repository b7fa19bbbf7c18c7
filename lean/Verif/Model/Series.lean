import Verif.Model.Val

set_option autoImplicit false

/-!
# Series: the pandas operations used by the indicators

A column is a `List Val`, oldest row first.  These definitions model pandas (not part of /repo); each comment names the
pandas operation.  They are trusted to agree with pandas up to the exactness of numbers (see DESIGN.md).
-/

namespace TTI

/-- The causal series whose value at row `i` is `g` of the rows `0..i`. -/
def prefixMap {α β : Type} (g : List α → β) (xs : List α) : List β :=
  (List.range xs.length).map fun i => g (xs.take (i + 1))

/-- The last `w` entries (`iloc[-w:]`; all of them if there are fewer). -/
def window {α : Type} (w : ℕ) (xs : List α) : List α := xs.drop (xs.length - w)

/-- The finite entries: what `rolling`/`ewm` aggregate (infinities are turned into NaN first, NaN is skipped). -/
def finVals (xs : List Val) : List ℚ :=
  xs.filterMap fun
    | .fin q => some q
    | _ => none

/-- `series.rolling(window=w, min_periods=m)` followed by an aggregation of the window's observations. -/
def rolling (w m : ℕ) (agg : List ℚ → Val) (xs : List Val) : List Val :=
  prefixMap (fun pre => let v := finVals (window w pre); if m ≤ v.length then agg v else .nan) xs

/-- `.sum()` -/
def aggSum (v : List ℚ) : Val := .fin v.sum

/-- `.mean()` -/
def aggMean (v : List ℚ) : Val := if v = [] then .nan else .fin (v.sum / v.length)

/-- Largest entry. -/
def maxQ : List ℚ → Option ℚ
  | [] => none
  | a :: l => some (l.foldl max a)

/-- Smallest entry. -/
def minQ : List ℚ → Option ℚ
  | [] => none
  | a :: l => some (l.foldl min a)

/-- A number, or NaN if there is none. -/
def ofOption : Option ℚ → Val
  | none => .nan
  | some q => .fin q

/-- `.max()` -/
def aggMax (v : List ℚ) : Val := ofOption (maxQ v)

/-- `.min()` -/
def aggMin (v : List ℚ) : Val := ofOption (minQ v)

/-- Variance with `ddof = d`; undefined when there are not more than `d` observations. -/
def variance (d : ℕ) (v : List ℚ) : Option ℚ :=
  if v.length ≤ d then none
  else some ((v.map fun x => (x - v.sum / v.length) ^ 2).sum / ((v.length : ℚ) - d))

/-- `.std(ddof=d)`, with a given square root function. -/
def aggStd (sq : ℚ → ℚ) (d : ℕ) (v : List ℚ) : Val := ofOption ((variance d v).map sq)

/-- State of `ewm(adjust=False)`: weighted mean and weight of the past, and the number of observations
(pandas `aggregations.ewm`). -/
structure EwmState where
  mean : Option (ℚ × ℚ)
  nobs : ℕ

/-- One row of pandas' `ewm` loop with `adjust=False, ignore_na=False`; `a` is alpha. The branch `a = 1/2` is pandas'
`com == 1` case. -/
def ewmStep (a : ℚ) (st : EwmState) (x : Val) : EwmState :=
  match st.mean, x with
  | none, .fin c => ⟨some (c, 1), st.nobs + 1⟩
  | none, _ => st
  | some (w, o), .fin c =>
    let o' := o * (1 - a)
    let n := if a = 1 / 2 then 1 - o' else a
    ⟨some (if w = c then w else (o' * w + n * c) / (o' + n), 1), st.nobs + 1⟩
  | some (w, o), _ => ⟨some (w, o * (1 - a)), st.nobs⟩

/-- `series.ewm(alpha=a, min_periods=m, adjust=False).mean()`. -/
def ewmAlpha (a : ℚ) (m : ℕ) (xs : List Val) : List Val :=
  prefixMap (fun pre =>
    let st := pre.foldl (ewmStep a) ⟨none, 0⟩
    if m ≤ st.nobs then ofOption (st.mean.map Prod.fst) else .nan) xs

/-- `series.ewm(span=s, min_periods=m, adjust=False).mean()`: `alpha = 2 / (s + 1)`. -/
def ewm (s m : ℕ) (xs : List Val) : List Val := ewmAlpha (2 / ((s : ℚ) + 1)) m xs

/-- `series.shift(k)` for `k >= 0`. -/
def shift (k : ℕ) (xs : List Val) : List Val := (List.replicate k Val.nan ++ xs).take xs.length

/-- `series.shift(-k)` for `k >= 0`. -/
def shiftBack (k : ℕ) (xs : List Val) : List Val := (xs ++ List.replicate k Val.nan).drop k |>.take xs.length

/-- Sum of the non-NaN entries, `0` if there is none (`Series.sum()`, `skipna=True`). -/
def sumSkip (xs : List Val) : Val := (xs.filter fun x => !x.isNan).foldl Val.add 0

/-- `series.cumsum()`: NaN rows stay NaN and are skipped by the later sums. -/
def cumsum (xs : List Val) : List Val :=
  prefixMap (fun pre => if (pre.getLast?.getD .nan).isNan then .nan else sumSkip pre) xs

/-- Row-wise operation on two columns. -/
def zipV (f : Val → Val → Val) (xs ys : List Val) : List Val := List.zipWith f xs ys

/-- Row-wise `+ - * /` of two columns. -/
def addS := zipV Val.add
def subS := zipV Val.sub
def mulS := zipV Val.mul
def divS := zipV Val.div

/-- Column times a number. -/
def scaleS (c : ℚ) (xs : List Val) : List Val := xs.map fun x => Val.mul (.fin c) x

/-- `.round(k)` of a column. -/
def roundS (k : ℕ) (xs : List Val) : List Val := xs.map (Val.round k)

/-- `series.diff(k)`. -/
def diffS (k : ℕ) (xs : List Val) : List Val := subS xs (shift k xs)

/-- `DataFrame.max(axis=1)` on two columns (NaN is skipped). -/
def maxSkip (x y : Val) : Val := if x.isNan then y else if y.isNan then x else if Val.lt x y then y else x

/-- `DataFrame.min(axis=1)` on two columns (NaN is skipped). -/
def minSkip (x y : Val) : Val := if x.isNan then y else if y.isNan then x else if Val.lt y x then y else x

/-- `.fillna(v)`. -/
def fillna (v : Val) (xs : List Val) : List Val := xs.map fun x => if x.isNan then v else x

/-- `.ffill()`: a NaN becomes the latest earlier non-NaN entry, if any. -/
def ffill (xs : List Val) : List Val :=
  prefixMap (fun pre => (pre.filter fun x => !x.isNan).getLast?.getD .nan) xs

/-- `.bfill()`: a NaN becomes the first later non-NaN entry, if any. -/
def bfill (xs : List Val) : List Val := (ffill xs.reverse).reverse

/-- `series.iat[-k]` (`k >= 1`); `none` is the `IndexError`. -/
def fromEnd {α : Type} (k : ℕ) (xs : List α) : Option α := if k ≤ xs.length then xs[xs.length - k]? else none

end TTI
