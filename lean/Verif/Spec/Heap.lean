import Verif.Model.Heap

set_option autoImplicit false

/-! # What is shared between a program and the indicators it builds -/

namespace TTI.Spec

open Heap

/-- The command passes the library frame `r` as data, or writes into it. -/
def Touches (r : ℕ) : Cmd → Prop
  | .construct _ data _ => data = .made r
  | .getTiSimulation _ close _ _ => close = .made r
  | .setCell r' _ _ _ => r' = r
  | _ => False

/-- The indicator the command is a call of, and the call, in the terms of `Model/Api`. -/
def asCall (w : World) : Cmd → Option (ℕ × ApiCall)
  | .getTiData k => some (k, .getTiData)
  | .getTiValue k date => some (k, .getTiValue date)
  | .getTiSignal k => some (k, .getTiSignal)
  | .getTiSimulation k close m fac => some (k, .getTiSimulation (w.read close) m fac)
  | _ => none

/-- What the program sees when the command returns: a reference is followed at that moment. -/
def shown (w : World) : Result → Option ApiResult
  | .data r => (w.made[r]?).map .data
  | .call a => some a
  | _ => none

/-- The calls a program makes of indicator `k`, with what it sees. -/
def talk (E : Env) (k : ℕ) : World → List Cmd → List (ApiCall × Option ApiResult)
  | _, [] => []
  | w, c :: cs =>
    let rest := talk E k (w.step E c).1 cs
    match asCall w c with
    | some (k', a) => if k' = k then (a, shown (w.step E c).1 (w.step E c).2) :: rest else rest
    | none => rest

/-- During the program nothing is written into the frame that is the data of indicator `k` at that moment, and that frame is
not passed as an argument. -/
def HandsOff (E : Env) (k : ℕ) (w : World) (cs : List Cmd) : Prop :=
  ∀ before c after, cs = before ++ c :: after →
    ∀ h, (w.run E before).1.objs[k]? = some h → ¬ Touches h.ti c

/-- No two indicators have the same frame, and every frame exists. -/
structure Separate (w : World) : Prop where
  apart : ∀ (j k : ℕ) (a b : HObj), w.objs[j]? = some a → w.objs[k]? = some b → a.ti = b.ti → j = k
  there : ∀ (k : ℕ) (a : HObj), w.objs[k]? = some a → a.ti < w.made.length

/-- The command passes the program's own frame `r` as data. -/
def Passes (r : ℕ) : Cmd → Prop
  | .construct _ data _ => data = .own r
  | .getTiSimulation _ close _ _ => close = .own r
  | _ => False

/-- `g` is `f` with some labels in lower case; dates, values and types are the same. -/
structure Relabelled (f g : RawFrame) : Prop where
  index : g.datetimeIndex = f.datetimeIndex
  dates : g.idx = f.idx
  columns : List.Forall₂ (fun x y : RawCol => y.data = x.data ∧ y.numeric = x.numeric ∧
    (y.label = x.label ∨ ∃ s, x.label = .str s ∧ y.label = .str s.toLower)) f.cols g.cols

end TTI.Spec
