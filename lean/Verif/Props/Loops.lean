import Verif.Lemmas.Loops4
import Verif.Spec.Loops
import Verif.Props.Sample

set_option autoImplicit false

/-!
# C83: the loops that write by date

Several indicators fill their column row by row with writes that name the date of the row, not its position. `Ind.Loops` has
these loops as they stand in the code. With distinct dates they give what the other theorems are about. With a repeated date
every row of that date shows the value of the last one, and rows appended to the table change earlier rows.
-/

namespace TTI.Props

open Ind Spec

/-- With distinct dates the construction with the loops of the code has the same outcome - object, exception, table of the
caller - as the construction that all other claims are about. -/
theorem C83_same (E : Env) (c : Call) (f : RawFrame) (fill : PyArg) (hwf : WF f) (hd : f.idx.Nodup) :
    Loops.construct E c (.frame f) fill = construct E c (.frame f) fill := by
  unfold Loops.construct construct
  cases hc : c.check with
  | error e => rfl
  | ok ind =>
    cases fill <;> try rfl
    next b =>
      rcases hv : validateInputData (.frame f) ind.required b with ⟨caller, r⟩
      cases r with
      | error e => simp only [hv]
      | ok F =>
        obtain ⟨hg, hidx⟩ := validated_good f ind.required b F hwf (by rw [hv])
        have hnd : F.idx.Nodup := by rw [hidx]; exact (sortIdx_perm f.idx).nodup_iff.2 hd
        simp only [Loops.calcTi_eq E F ind hg.wf hg.has hnd (Loops.check_started c ind hc) hg.rows, hv]
        cases Ind.calcTi E F ind <;> rfl

example : WF (sample 30) ∧ (sample 30).idx.Nodup := ⟨sample_wf 30, by decide +kernel⟩

example : (construct demoEnv (.negativeVolumeIndex) (.frame (sample 30)) (.bool true)).2.isOk = true := by decide +kernel

/-- The indicators that write every value by its date. -/
def WritesByDate : Ind → Prop
  | .negativeVolumeIndex | .positiveVolumeIndex | .priceAndVolumeTrend | .wildersSmoothing _ | .movingAverage _ .variableType => True
  | _ => False

theorem repeats_single (idx : List ℤ) (name : String) (l t : List Val) (hl : l.length = idx.length)
    (h : ∀ j k, j < idx.length → LastSame idx j k → val l j = val t k) (ht : t.length = idx.length) :
    Repeats (.ok ⟨idx, [(name, roundS 4 l)]⟩) (.ok ⟨idx, [(name, roundS 4 t)]⟩) := by
  refine ⟨rfl, rfl, fun n j k hj hk => ?_⟩
  by_cases hn : n = name
  · subst hn
    rw [Frame.col_single, Frame.col_single]
    have hj' : j < idx.length := hj
    have hk' : k < idx.length := hk.1
    unfold roundS
    rw [val_map_lt _ _ _ (by omega), val_map_lt _ _ _ (by omega), h j k hj hk]
  · have : ∀ c : List Val, Frame.col ⟨idx, [(name, c)]⟩ n = [] := fun c => by
      simp [Frame.col, Ne.symm hn]
    rw [this, this]
    simp [val]

/-- Repeated dates: each row shows the values that the row-by-row calculation gives to the last row with its date. -/
theorem C83_repeated (E : Env) (c : Call) (f : RawFrame) (fill : Bool) (hwf : WF f) (ind : Ind) (hc : c.check = .ok ind)
    (hi : WritesByDate ind) (F : Frame) (hF : (validateInputData (.frame f) ind.required fill).2 = .ok F) :
    Repeats (Loops.calcTi E F ind) (ind.calcTi E F) := by
  obtain ⟨hg, hidx⟩ := validated_good f ind.required fill F hwf hF
  have hs := Loops.check_started c ind hc
  have hcol : ∀ n ∈ ind.required, (F.col n).length = F.idx.length := fun n hn => F.col_length hg.wf n (hg.has n hn)
  have hlen : F.len = F.idx.length := rfl
  have hne : 0 < F.idx.length := hg.rows
  cases ind <;> try exact hi.elim
  case negativeVolumeIndex =>
    have hcl := hcol "close" (by simp [Ind.required])
    have hvl := hcol "volume" (by simp [Ind.required])
    simp only [Loops.calcTi, Ind.calcTi, NegativeVolumeIndex.calcTi]
    split
    · rfl
    · exact repeats_single F.idx _ _ _ (Loops.volumeIndex_length _ hne _ _ _)
        (fun j k hj hk => Loops.volumeIndex_last F.idx j k hj hk _ _ _ hcl hvl) (by simp [hcl, hvl])
  case positiveVolumeIndex =>
    have hcl := hcol "close" (by simp [Ind.required])
    have hvl := hcol "volume" (by simp [Ind.required])
    simp only [Loops.calcTi, Ind.calcTi, PositiveVolumeIndex.calcTi]
    split
    · rfl
    · exact repeats_single F.idx _ _ _ (Loops.volumeIndex_length _ hne _ _ _)
        (fun j k hj hk => Loops.volumeIndex_last F.idx j k hj hk _ _ _ hcl hvl) (by simp [hcl, hvl])
  case priceAndVolumeTrend =>
    have hcl := hcol "close" (by simp [Ind.required])
    have hvl := hcol "volume" (by simp [Ind.required])
    simp only [Loops.calcTi, Ind.calcTi, PriceAndVolumeTrend.calcTi]
    split
    · rfl
    · exact repeats_single F.idx _ _ _ (Loops.trend_length _ hne _ _)
        (fun j k hj hk => Loops.trend_last F.idx j k hj hk _ _ hcl hvl) (by simp [hcl, hvl])
  case wildersSmoothing p =>
    have hcl := hcol "close" (by simp [Ind.required])
    simp only [Loops.calcTi, Ind.calcTi, WildersSmoothing.calcTi]
    split
    · rfl
    · exact repeats_single F.idx _ _ _ (Loops.wilder_length' _ 0 p hs (by omega) _)
        (fun j k hj hk => Loops.wilder_last F.idx j k hj hk 0 p hs (by omega) _ hcl) (by simp [hcl])
  case movingAverage p t =>
    cases t <;> try exact hi.elim
    have hcl := hcol "close" (by simp [Ind.required])
    simp only [Loops.calcTi, Ind.calcTi, MovingAverage.calcTi, bind, Except.bind, pure, Except.pure]
    by_cases h22 : F.len < 22
    · simp [h22, throw, throwThe, MonadExceptOf.throw, Repeats]
    · simp only [h22, if_false, false_and, ne_eq, not_true_eq_false, and_false]
      obtain ⟨l, h1, h2⟩ := ChandeMomentumOscillator.calcTi_ok 9 (F.sub ["close"]) (by simp; omega)
      rw [Frame.sub_col F _ _ (by simp)] at h2
      simp only [h1, Frame.col_single]
      exact repeats_single F.idx _ _ _ (Loops.variableMa_length _ p _ _ (by omega))
        (fun j k hj hk => Loops.variableMa_last F.idx j k hj hk p _ _ hcl (by simp [h2, hcl]) (by omega))
        (by simp [MovingAverage.variableMa, h2, hcl])

/-- The last row of a table, and every row with a date of its own, has the same values as in the row-by-row calculation. -/
theorem C83_own_date (L T : Frame) (h : Repeats (.ok L) (.ok T)) (name : String) (j : ℕ) (hj : j < T.len)
    (ho : ∀ k, j < k → k < T.len → T.idx[k]? ≠ T.idx[j]?) : val (L.col name) j = val (T.col name) j :=
  h.2.2 name j j hj ⟨hj, rfl, ho⟩

/-- The first `n` of the days 1, 2, 2 with falling volume and prices 100, 110, 121. -/
def repeatedDay (n : ℕ) : RawFrame :=
  ⟨true, [1, 2, 2].take n, [⟨.str "close", true, ([100, 110, 121] : List Val).take n⟩,
    ⟨.str "volume", true, ([30, 20, 10] : List Val).take n⟩]⟩

example : WF (repeatedDay 3) ∧ WF (repeatedDay 2) := by
  constructor <;>
  · intro c hc
    simp only [repeatedDay, List.mem_cons, List.not_mem_nil, or_false] at hc
    rcases hc with rfl | rfl <;> rfl

/-- The values of the first two rows of the Negative Volume Index of a table. -/
def firstTwo (r : InputArg × Except Err Obj) : Option (Val × Val) :=
  match r.2 with
  | .ok o => some (val (o.ti.col "nvi") 0, val (o.ti.col "nvi") 1)
  | .error _ => none

/-- Appending a row with the date of the last one changes the value of the row before; the row-by-row calculation would keep it. -/
theorem C83_look_ahead :
    firstTwo (Loops.construct demoEnv .negativeVolumeIndex (.frame (repeatedDay 2)) (.bool true)) = some (1000, 1100) ∧
    firstTwo (Loops.construct demoEnv .negativeVolumeIndex (.frame (repeatedDay 3)) (.bool true)) = some (1000, 1210) ∧
    firstTwo (construct demoEnv .negativeVolumeIndex (.frame (repeatedDay 3)) (.bool true)) = some (1000, 1100) := by
  decide +kernel

example : LastSame (repeatedDay 3).idx 1 2 := ⟨by decide, by decide, fun k' h1 h2 => by simp [repeatedDay] at h2; omega⟩

end TTI.Props
