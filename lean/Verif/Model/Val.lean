import Mathlib.Algebra.Order.Field.Rat
import Mathlib.Algebra.Order.Floor.Defs
import Mathlib.Data.Rat.Floor

set_option autoImplicit false

/-!
# Numbers

`Val` stands for a numpy/pandas float64: not-a-number, the two infinities, or an exact rational.
Simplification (see DESIGN.md): finite arithmetic is exact and there is a single zero, treated as `+0.0`.
-/

namespace TTI

/-- A float64 as seen by the code: `nan`, `±inf` or a finite number (idealised to an exact rational). -/
inductive Val where
  | nan
  | pinf
  | ninf
  | fin (q : ℚ)
  deriving DecidableEq, Repr

namespace Val

/-- IEEE addition. -/
def add : Val → Val → Val
  | nan, _ => nan
  | _, nan => nan
  | fin a, fin b => fin (a + b)
  | fin _, y => y
  | x, fin _ => x
  | pinf, pinf => pinf
  | ninf, ninf => ninf
  | _, _ => nan

/-- IEEE negation. -/
def neg : Val → Val
  | nan => nan
  | pinf => ninf
  | ninf => pinf
  | fin a => fin (-a)

/-- IEEE subtraction. -/
def sub (x y : Val) : Val := add x (neg y)

/-- `±inf` times a finite number of the given sign; `inf * 0 = nan`. -/
def infMul (pos : Bool) (q : ℚ) : Val :=
  if q = 0 then nan else if (0 < q) = (pos = true) then pinf else ninf

/-- IEEE multiplication. -/
def mul : Val → Val → Val
  | nan, _ => nan
  | _, nan => nan
  | fin a, fin b => fin (a * b)
  | pinf, fin b => infMul true b
  | ninf, fin b => infMul false b
  | fin a, pinf => infMul true a
  | fin a, ninf => infMul false a
  | pinf, pinf => pinf
  | ninf, ninf => pinf
  | pinf, ninf => ninf
  | ninf, pinf => ninf

/-- IEEE division with numpy semantics (no exception): `x/0 = ±inf`, `0/0 = nan`, `x/±inf = 0`. -/
def div : Val → Val → Val
  | nan, _ => nan
  | _, nan => nan
  | fin a, fin b =>
    if b = 0 then (if a = 0 then nan else if 0 < a then pinf else ninf) else fin (a / b)
  | pinf, fin b => if b = 0 then pinf else infMul true b
  | ninf, fin b => if b = 0 then ninf else infMul false b
  | fin _, pinf => fin 0
  | fin _, ninf => fin 0
  | _, _ => nan

/-- Absolute value. -/
def abs : Val → Val
  | nan => nan
  | pinf => pinf
  | ninf => pinf
  | fin a => fin |a|

/-- IEEE `<`; every comparison with `nan` is false. -/
def lt : Val → Val → Bool
  | nan, _ => false
  | _, nan => false
  | fin a, fin b => decide (a < b)
  | ninf, ninf => false
  | ninf, _ => true
  | _, ninf => false
  | pinf, _ => false
  | fin _, pinf => true

/-- IEEE `<=`. -/
def le : Val → Val → Bool
  | nan, _ => false
  | _, nan => false
  | fin a, fin b => decide (a ≤ b)
  | ninf, _ => true
  | _, pinf => true
  | _, _ => false

/-- IEEE `==` (`nan != nan`). -/
def eqv : Val → Val → Bool
  | nan, _ => false
  | x, y => decide (x = y)

/-- `pandas.isna` / `numpy.isnan`. -/
def isNan : Val → Bool
  | nan => true
  | _ => false

/-- Finite numbers. -/
def isFin : Val → Bool
  | fin _ => true
  | _ => false

/-- What `rolling` and `ewm` do to infinities before computing (`BaseWindow._prep_values`): they become missing. -/
def prep : Val → Val
  | fin a => fin a
  | _ => nan

instance : Add Val := ⟨add⟩
instance : Sub Val := ⟨sub⟩
instance : Mul Val := ⟨mul⟩
instance : Div Val := ⟨div⟩
instance : Neg Val := ⟨neg⟩
instance : Zero Val := ⟨fin 0⟩
instance : One Val := ⟨fin 1⟩
instance : Inhabited Val := ⟨nan⟩
instance (n : ℕ) : OfNat Val n := ⟨fin n⟩

end Val

/-- Round half to even, to an integer (numpy `rint`). -/
def rint (q : ℚ) : ℤ :=
  let f := ⌊q⌋
  let d := q - f
  if d < 1 / 2 then f
  else if 1 / 2 < d then f + 1
  else if f % 2 = 0 then f else f + 1

/-- Rounding to `k` decimals (`DataFrame.round(k)`, `round(x, k)`), half to even. -/
def roundQ (k : ℕ) (q : ℚ) : ℚ := (rint (q * 10 ^ k) : ℚ) / 10 ^ k

namespace Val

/-- Rounding of a float to `k` decimals; `nan` and infinities are unchanged. -/
def round (k : ℕ) : Val → Val
  | fin q => fin (roundQ k q)
  | x => x

/-- Python's `max(x, y)` of two values: keeps `x` unless `y > x`. -/
def pmax (x y : Val) : Val := if lt x y then y else x

/-- Python's `min(x, y)` of two values: keeps `x` unless `y < x`. -/
def pmin (x y : Val) : Val := if lt y x then y else x

end Val
end TTI
