import Verif.Spec.Regression

set_option autoImplicit false

/-!
# Closed forms of the volume indicators

Used by C43. Days are numbered from 0; sums and products run over the days `1 .. i`, each compared with the day before it.
-/

namespace TTI.Spec

/-- No close is zero. -/
def NonzeroClose (x : String → ℚ) : Prop := x "close" ≠ 0

/-- The user's close and volume of a day. -/
def close (f : RawFrame) (j : ℕ) : ℚ := number (f.day "close" j)
def volume (f : RawFrame) (j : ℕ) : ℚ := number (f.day "volume" j)

/-- The days up to the `i`-th on which the volume fell, rose; on which the close rose, fell. -/
def volumeFell (f : RawFrame) (i : ℕ) : Finset ℕ := (Finset.Ico 1 (i + 1)).filter fun j => volume f j < volume f (j - 1)
def volumeRose (f : RawFrame) (i : ℕ) : Finset ℕ := (Finset.Ico 1 (i + 1)).filter fun j => volume f (j - 1) < volume f j
def closeRose (f : RawFrame) (i : ℕ) : Finset ℕ := (Finset.Ico 1 (i + 1)).filter fun j => close f (j - 1) < close f j
def closeFell (f : RawFrame) (i : ℕ) : Finset ℕ := (Finset.Ico 1 (i + 1)).filter fun j => close f j < close f (j - 1)

end TTI.Spec
