import Verif.Model.Scripts

set_option autoImplicit false

/-!
# What the simulation scripts should report

Specification for C81.
-/

namespace TTI.Spec

open TTI

/-- The outcome of one simulation done alone on the untouched table `f`: the class is called with `input_data=f` and the keyword
arguments `kw`, and the object is simulated on the columns of `f` labelled `close` with the default limit and factor
(`_technical_indicator.py:284`). -/
def Alone (E : Env) (cls : String) (kw : List (String × PyArg)) (f : RawFrame) (out : Except Err SimResult) : Prop :=
  ∃ o, callClass E cls [] (("input_data", .data (.frame f)) :: kw.map fun p => (p.1, .param p.2)) = .ok o ∧
    (o.getTiSimulation (.frame { f with cols := f.cols.filter fun c => c.label = .str "close" }) .none
      (.float (.fin (3 / 2)))).2.2 = out

/-- A table of prices and volumes whose close column is labelled exactly `close`. -/
def HasClose (f : RawFrame) : Prop := ∃ c ∈ f.cols, c.label = .str "close"

end TTI.Spec
