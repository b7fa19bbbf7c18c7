import Verif.Props.LastClose12
import Verif.Props.Order

set_option autoImplicit false

/-!
# A higher last close: typical price (C106)
-/

namespace TTI.Props

open Spec LastClose

variable {E : Env} {c : Call} {f g : RawFrame} {fill : Bool} {o p : Obj}

/-- The first column of the input data is the first of the user's columns that is required. -/
theorem input_first {P : (String → ℚ) → Prop} (hB : BuiltOn E c f fill o P) (n : ℕ) (ho : o.ind = .typicalPrice n) (x : RawCol)
    (hx : firstOf o.ind.required f = some x) : o.input.firstCol = o.input.col x.name ∧ x.name ∈ o.ind.required := by
  have hval := construct_valid E c f (.bool fill) o hB.ok
  obtain ⟨ind, F, T, -, hv, -, rfl⟩ := (construct_ok_iff _ _ _ _ _).1 hB.ok
  dsimp only at ho hx hval ⊢
  subst ho
  obtain ⟨-, hF⟩ := valid_of_ok _ _ _ _ hv
  have hhead : (f.cols.filter fun c => decide (c.name ∈ (Ind.typicalPrice n).required)).head? = some x := by
    rw [← hx]
    unfold firstOf
    rw [List.head?_filter]
    exact List.find?_congr fun c hc => (not_valid_of_other f _ hval c hc).symm
  have hnames : F.cols.map (·.1) = (f.cols.filter fun c => decide (c.name ∈ (Ind.typicalPrice n).required)).map (·.name) := by
    rw [hF]; split <;> simp [fillMissingValues, RawFrame.kept, Frame.sortIndex, Function.comp_def]
  have hfirst : (F.cols.map (·.1)).head? = some x.name := by rw [hnames, List.head?_map, hhead]; rfl
  refine ⟨?_, by simpa using (List.mem_filter.1 (List.mem_of_head? hhead)).2⟩
  show F.firstCol = F.col x.name
  unfold Frame.firstCol Frame.col
  cases hc : F.cols with
  | nil => rw [hc] at hfirst; simp at hfirst
  | cons q rest =>
    rw [hc] at hfirst
    simp only [List.map_cons, List.head?_cons, Option.some.injEq] at hfirst
    simp [hfirst]

/-- C106: typical price follows the market if the same column, and not the close, is the first of the required columns of both
tables. -/
theorem C106_typical_price (ho : BuiltOn E c f fill o Quoted) (hp : BuiltOn E c g fill p Quoted) (hr : LastCloseRaised f g) (n : ℕ)
    (hi : o.ind = .typicalPrice n) (x y : RawCol) (hx : firstOf o.ind.required f = some x) (hy : firstOf o.ind.required g = some y)
    (hn : x.name = y.name) (hc : x.name ≠ "close") {s t : Signal} (h1 : o.getTiSignal = .ok s) (h2 : p.getTiSignal = .ok t) :
    TowardsBuy s t := by
  obtain ⟨L, h⟩ := pair_of ho hp hr (by rw [hi]; exact fun _ => rfl) (by rw [hi]; exact fun _ h => by cases h)
  have hi' : p.ind = .typicalPrice n := by rw [h.ind, hi]
  have hpos : 1 ≤ n := pos_of ho hi
  obtain ⟨f1, m1⟩ := input_first ho n hi x hx
  obtain ⟨f2, -⟩ := input_first hp n hi' y (by rw [h.ind]; exact hy)
  have v1 := h.left.pxNums _ m1
  have v2 := h.right.pxNums x.name (by rw [h.ind]; exact m1)
  have hprice : ∀ i < L + 1, price f x.name i = price g x.name i := fun i hl => by
    have r := h.rows
    refine (hr.other x.name ?_ i (by omega)).symm
    rw [hi] at m1
    simp only [Ind.required, List.mem_cons, List.not_mem_nil, or_false] at m1
    rcases m1 with e | e | e
    · simp [e]
    · simp [e]
    · exact absurd e hc
  have hfirst : p.input.firstCol = o.input.firstCol := by rw [f1, f2, ← hn, nums_same v1 v2 hprice]
  have r := h.rows
  have r' := h.rows'
  have e1 : before 0 (o.ti.col "tp") = to4 (typical f L) := by
    rw [(h.ti "tp" (by rw [hi]; simp [columns]) 0 (by omega)).1, Nat.sub_zero, C56_typical_price (built_any ho) n hi L (by omega)]
  have e2 : before 0 (p.ti.col "tp") = to4 (typical g L) := by
    rw [(h.ti "tp" (by rw [hi]; simp [columns]) 0 (by omega)).2, Nat.sub_zero, C56_typical_price (built_any hp) n hi' L (by omega)]
  have hle : roundQ 4 (typical f L) ≤ roundQ 4 (typical g L) := by
    apply roundQ_mono
    unfold typical
    rw [h.high, h.low]
    have := h.last
    linarith
  refine h.follows h1 h2 hi rfl fun _ => ⟨fun u => ?_, fun u => u⟩
  change before 0 (rolling n n aggMean o.input.firstCol) <ᵥ before 0 (o.ti.col "tp") at u
  show before 0 (rolling n n aggMean p.input.firstCol) <ᵥ before 0 (p.ti.col "tp")
  rw [hfirst, e2]
  rw [e1] at u
  unfold to4 at u ⊢
  generalize before 0 (rolling n n aggMean o.input.firstCol) = w at u ⊢
  cases w <;> simp only [Val.lt, decide_eq_true_eq] at u ⊢
  all_goals first | exact u | exact lt_of_lt_of_le u hle

/-- The hypotheses of `C106_typical_price` (in these tables the high comes before the low and the close): the signal goes from hold to
buy. -/
example : Moves (.typicalPrice (.int 2)) .hold .buy ∧ ∀ n q, ((firstOf (Ind.typicalPrice 2).required (table n q)).map RawCol.name) = some "high" :=
  ⟨moves_of (.typicalPrice (.int 2)) (.typicalPrice 2) [10, 10, 10] 11 40 [12, 12, 12, 42] [8, 8, 8, 10] [10, 10, 10, 10]
    [10, 10, 10, 10] (by decide +kernel) (by decide +kernel) (by decide) (by decide) (by decide +kernel) (by decide +kernel),
    fun n q => by
      have e1 : "open".toLower = "open" := by decide +kernel
      have e2 : "high".toLower = "high" := by decide +kernel
      simp [table, ohlcv, firstOf, hasName, Ind.required, RawCol.name, Label.lower, e1, e2]⟩

end TTI.Props
