import Verif.Props.LastClose11

set_option autoImplicit false

/-!
# A higher last close: Chaikin oscillator (C106)
-/

namespace TTI.Props

open Spec LastClose

theorem chaikin_up : Moves .chaikinOscillator .hold .buy :=
  moves_of .chaikinOscillator .chaikinOscillator (List.replicate 90 45) 44 55 (List.replicate 91 60) (List.replicate 91 40)
    (List.replicate 91 50) (List.replicate 91 10) (by decide +kernel) (by decide +kernel) (by decide) (by decide +kernel)
    (by decide +kernel) (by decide +kernel)

theorem chaikin_down : Moves .chaikinOscillator .buy .hold :=
  moves_of .chaikinOscillator .chaikinOscillator (List.replicate 90 45) 55 60 (List.replicate 91 60) (List.replicate 91 40)
    (List.replicate 91 50) (List.replicate 90 10 ++ [70]) (by decide +kernel) (by decide +kernel) (by decide) (by decide +kernel)
    (by decide +kernel) (by decide +kernel)

/-- C106: a higher last close turns hold into buy, and buy into hold, on tables of 91 days. -/
theorem C106_chaikin_goes_both_ways : Moves .chaikinOscillator .hold .buy ∧ Moves .chaikinOscillator .buy .hold :=
  ⟨chaikin_up, chaikin_down⟩

end TTI.Props
