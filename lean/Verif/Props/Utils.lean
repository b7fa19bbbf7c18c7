import Verif.Model.Utils
import Verif.Props.ValidateApi
import Verif.Props.Fill
import Verif.Props.Validate2

set_option autoImplicit false

/-!
# `tti.utils.fillMissingValues` (C100)

The only function of the package besides the indicators. `IsFilled xs ys` (Props/Validate) says what filling a column means.
-/

namespace TTI.Props

/-- The rows of a column in the order of the dates. -/
def sortedCol (f : RawFrame) (c : RawCol) : List Val := (sortRows (f.idx.zip c.data)).map (·.2)

/-- C100: a data frame never raises, anything else raises `TypeError`. -/
theorem C100_raises_iff (a : InputArg) : utilsFill a = .error .typeError ↔ ∀ f, a ≠ .frame f := by
  cases a <;> simp [utilsFill]

/-- C100: the result has the rows in ascending order of the dates, the same columns in the same order with the same labels, and
every column is the filled form of the column in that order. -/
theorem C100_filled (f g : RawFrame) (h : utilsFill (.frame f) = .ok g) :
    g.idx.Perm f.idx ∧ g.idx.Pairwise (· ≤ ·) ∧ g.datetimeIndex = f.datetimeIndex ∧
    List.Forall₂ (fun x y : RawCol => y.label = x.label ∧ y.numeric = x.numeric ∧ IsFilled (sortedCol f x) y.data) f.cols g.cols := by
  obtain rfl := Except.ok.inj h
  refine ⟨sortIdx_perm _, sortIdx_sorted _, rfl, ?_⟩
  simp only [fillFrame, List.forall₂_map_right_iff, List.forall₂_same]
  exact fun c _ => ⟨trivial, trivial, C27_fill _⟩

theorem sortRows_nodup {α : Type} (rows : List (ℤ × α)) (h : (rows.map (·.1)).Nodup) : ((sortRows rows).map (·.1)).Nodup :=
  (((sortRows_perm rows).map (·.1)).nodup_iff).2 h

/-- C100: with distinct dates a known value stays where it is: in the column of the same number, on the same date. -/
theorem C100_known_values_stay (f g : RawFrame) (hw : WF f) (hd : f.idx.Nodup) (h : utilsFill (.frame f) = .ok g)
    (k : ℕ) (x y : RawCol) (hx : f.cols[k]? = some x) (hy : g.cols[k]? = some y) (i j : ℕ) (d : ℤ) (v : Val)
    (hi : f.idx[i]? = some d) (hv : x.data[i]? = some v) (hn : v ≠ .nan) (hj : g.idx[j]? = some d) : y.data[j]? = some v := by
  obtain rfl := Except.ok.inj h
  simp only [fillFrame, List.getElem?_map, hx, Option.map_some, Option.some.injEq] at hy
  subst hy
  apply (C27_fill (sortedCol f x)).keep j v ?_ hn
  have hlen : x.data.length = f.idx.length := hw x (List.mem_of_getElem? hx)
  have hmem : (d, v) ∈ sortRows (f.idx.zip x.data) :=
    (sortRows_perm _).mem_iff.2 (List.mem_of_getElem? (List.getElem?_zip_eq_some.2 ⟨hi, hv⟩ : (f.idx.zip x.data)[i]? = some (d, v)))
  obtain ⟨m, hm⟩ := List.mem_iff_getElem?.1 hmem
  have hfst : (sortRows (f.idx.zip x.data)).map (·.1) = sortIdx f.idx := by
    rw [sortRows_map_fst, List.map_fst_zip (by omega)]
  have h1 : (sortIdx f.idx)[m]? = some d := by rw [← hfst, List.getElem?_map, hm]; rfl
  have h2 : (sortIdx f.idx)[j]? = some d := hj
  have hnd : (sortIdx f.idx).Nodup := ((sortIdx_perm _).nodup_iff).2 hd
  obtain rfl : m = j := by
    obtain ⟨hm', e1⟩ := List.getElem?_eq_some_iff.1 h1
    obtain ⟨hj', e2⟩ := List.getElem?_eq_some_iff.1 h2
    exact (List.Nodup.getElem_inj_iff hnd).1 (e1.trans e2.symm)
  unfold sortedCol
  rw [List.getElem?_map, hm]
  rfl

theorem sortedCol_length (f : RawFrame) (hw : WF f) (c : RawCol) (hc : c ∈ f.cols) : (sortedCol f c).length = f.idx.length := by
  unfold sortedCol
  rw [List.length_map, (sortRows_perm _).length_eq, List.length_zip, hw c hc, min_self]

theorem fill_wf (f : RawFrame) (hw : WF f) : WF (fillFrame f) := by
  intro c hc
  obtain ⟨d, hd, rfl⟩ := List.mem_map.1 hc
  have := sortedCol_length f hw d hd
  show (bfill (ffill (sortedCol f d))).length = (sortIdx f.idx).length
  rw [(C27_fill _).length, this, (sortIdx_perm _).length_eq]

theorem sortedCol_sorted (f : RawFrame) (hs : f.idx.Pairwise (· ≤ ·)) (c : RawCol) (hc : c.data.length = f.idx.length) :
    sortedCol f c = c.data := by
  unfold sortedCol
  rw [sortRows_of_sorted, List.map_snd_zip (by omega)]
  have : ((f.idx.zip c.data).map (·.1)).Pairwise (· ≤ ·) := by rw [List.map_fst_zip (by omega)]; exact hs
  rw [List.pairwise_map] at this
  exact this

/-- C100: after one call there is nothing left to do: a second call returns the same frame. -/
theorem C100_idempotent (f g : RawFrame) (hw : WF f) (h : utilsFill (.frame f) = .ok g) : utilsFill (.frame g) = .ok g := by
  obtain rfl := Except.ok.inj h
  have hw' := fill_wf f hw
  show Except.ok (fillFrame (fillFrame f)) = _
  congr 1
  have hs : (fillFrame f).idx.Pairwise (· ≤ ·) := sortIdx_sorted _
  generalize hg : fillFrame f = g at hw' hs
  have hc : ∀ c ∈ g.cols, bfill (ffill c.data) = c.data := by
    rw [← hg]
    intro c hc
    obtain ⟨d, hd, rfl⟩ := List.mem_map.1 hc
    exact fill_fill _
  rcases g with ⟨a, idx, cols⟩
  unfold fillFrame
  simp only [RawFrame.mk.injEq, true_and]
  refine ⟨sortIdx_of_sorted _ hs, ?_⟩
  conv_rhs => rw [← List.map_id cols]
  apply List.map_congr_left
  intro c hm
  have h1 := sortedCol_sorted _ hs c (hw' c hm)
  unfold sortedCol at h1
  simp only at h1
  rw [h1, hc c hm]
  rfl

/-- C100: with distinct dates the order of the rows does not matter. -/
theorem C100_row_order_irrelevant (f : RawFrame) (σ : List ℕ) (hw : WF f) (hd : f.idx.Nodup)
    (hσ : σ.Perm (List.range f.idx.length)) : utilsFill (.frame (reorder f σ)) = utilsFill (.frame f) := by
  have hidx : (σ.map fun k => f.idx.getD k 0).Perm f.idx := by
    have h1 := hσ.map fun k => f.idx.getD k 0
    have h2 : (List.range f.idx.length).map (fun k => f.idx.getD k 0) = f.idx := by
      apply List.ext_getElem?
      intro i
      by_cases hi : i < f.idx.length
      · simp [hi]
      · rw [List.getElem?_eq_none (by simp; omega), List.getElem?_eq_none (by omega)]
    rwa [h2] at h1
  simp only [utilsFill, fillFrame, reorder, Except.ok.injEq, RawFrame.mk.injEq, true_and, List.map_map]
  refine ⟨sortIdx_eq_of_perm _ _ hidx, ?_⟩
  apply List.map_congr_left
  intro c hc
  simp only [Function.comp]
  congr 4
  have hz : (σ.map fun k => f.idx.getD k 0).zip (σ.map fun k => c.data.getD k .nan) =
      σ.map fun k => (f.idx.getD k 0, c.data.getD k .nan) := by rw [List.zip_map']
  have hz2 : f.idx.zip c.data = (List.range f.idx.length).map fun k => (f.idx.getD k 0, c.data.getD k .nan) := by
    apply List.ext_getElem?
    intro i
    by_cases hi : i < f.idx.length
    · have : i < c.data.length := by rw [hw c hc]; exact hi
      simp [hi, this]
    · rw [List.getElem?_eq_none (by simp; omega), List.getElem?_eq_none (by simp; omega)]
  rw [hz]
  apply sortRows_eq_of_perm
  · rw [hz2]; exact hσ.map _
  · rw [List.map_map]
    exact (hidx.nodup_iff).2 hd

theorem fill_valid (f : RawFrame) (required : List String) (hv : f.Valid required) : (fillFrame f).Valid required := by
  have h := withData_valid f (fun c => bfill (ffill (sortedCol f c))) required hv
  obtain ⟨h1, h2, h3, h4, h5, h6⟩ := h
  refine ⟨h1, fun e => hv.2 ?_, h3, h4, h5, h6⟩
  have := (sortIdx_perm f.idx).length_eq
  have e' : sortIdx f.idx = [] := e
  rw [e'] at this
  exact List.length_eq_zero_iff.1 this.symm

theorem fill_kept (f : RawFrame) (required : List String) (hw : WF f) :
    (fillFrame f).kept required = fillMissingValues (f.kept required) := by
  unfold fillMissingValues
  simp only [kept_sorted f required hw]
  have h1 := sortIndex_of_sorted ⟨(fillFrame f).idx, ((fillFrame f).cols.filter fun c => decide (c.name ∈ required)).map
    fun c => (c.name, c.data)⟩ (sortIdx_sorted _) (by
      intro c hc
      obtain ⟨d, hd, rfl⟩ := List.mem_map.1 hc
      exact fill_wf f hw d (List.mem_filter.1 hd).1)
  unfold RawFrame.kept
  rw [h1]
  simp only [fillFrame, Frame.sortIndex, List.filter_map, List.map_map]
  rfl

theorem fill_twice (F : Frame) (hl : ∀ c ∈ F.cols, c.2.length = F.idx.length) :
    fillMissingValues (fillMissingValues F) = fillMissingValues F := by
  have hl' := sortIndex_lengths F hl
  have h1 : (fillMissingValues F).sortIndex = fillMissingValues F := by
    apply sortIndex_of_sorted
    · exact sortIdx_sorted _
    · intro c hc
      unfold fillMissingValues at hc ⊢
      obtain ⟨d, hd, rfl⟩ := List.mem_map.1 hc
      simp only
      rw [(C27_fill _).length]
      exact hl' d hd
  have h2 : ∀ G : Frame, G.sortIndex = G → fillMissingValues G = ⟨G.idx, G.cols.map fun c => (c.1, bfill (ffill c.2))⟩ := by
    intro G hG
    unfold fillMissingValues
    simp only [hG]
  rw [h2 _ h1]
  unfold fillMissingValues
  simp only [List.map_map, Frame.mk.injEq, true_and]
  apply List.map_congr_left
  intro c _
  simp only [Function.comp, fill_fill]

/-- What validation makes of the filled frame is what it makes of the frame itself with `fill_missing_values=True`. -/
theorem validate_fill (f : RawFrame) (required : List String) (b : Bool) (hw : WF f) :
    (validateInputData (.frame (fillFrame f)) required b).2 = (validateInputData (.frame f) required true).2 := by
  by_cases hv : f.Valid required
  · rw [validate_ok _ _ _ hv, validate_ok _ _ _ (fill_valid f required hv), fill_kept f required hw]
    cases b with
    | false => rfl
    | true =>
      simp only [if_true]
      rw [fill_twice]
      unfold RawFrame.kept
      apply sortIndex_lengths
      intro c hc
      obtain ⟨d, hd, rfl⟩ := List.mem_map.1 hc
      exact hw d (List.mem_filter.1 hd).1
  · obtain ⟨e, he⟩ := validate_not_ok f required true hv
    rw [he]
    refine (validate_error_iff f required true b (sortIdx f.idx) (fun c => bfill (ffill (sortedCol f c))) ?_ e).2 he
    rw [← List.length_eq_zero_iff, ← List.length_eq_zero_iff, (sortIdx_perm _).length_eq]

/-- C100: filling the data with this function first and building an indicator from the result, with or without
`fill_missing_values`, is the same as building it from the data with `fill_missing_values=True`: the same object (so the same
values, signals and simulations) or the same exception. -/
theorem C100_before_construction (E : Env) (c : Call) (f g : RawFrame) (b : Bool) (hw : WF f) (h : utilsFill (.frame f) = .ok g) :
    (construct E c (.frame g) (.bool b)).2 = (construct E c (.frame f) (.bool true)).2 := by
  obtain rfl := Except.ok.inj h
  exact construct_of_validated E c _ _ b true fun ind _ => validate_fill f ind.required b hw

/-- C100: filling the closes before a simulation changes nothing. -/
theorem C100_before_simulation (o : Obj) (f g : RawFrame) (m fac : PyArg) (hw : WF f) (h : utilsFill (.frame f) = .ok g) :
    (o.getTiSimulation (.frame g) m fac).1 = (o.getTiSimulation (.frame f) m fac).1 ∧
    (o.getTiSimulation (.frame g) m fac).2.2 = (o.getTiSimulation (.frame f) m fac).2.2 := by
  obtain rfl := Except.ok.inj h
  have key := validate_fill f ["close"] true hw
  have hset : (setupSimulation true o.input.idx (.frame (fillFrame f)) m fac).2 = (setupSimulation true o.input.idx (.frame f) m fac).2 := by
    unfold setupSimulation
    rcases h1 : validateInputData (.frame (fillFrame f)) ["close"] true with ⟨a, r⟩
    rcases h2 : validateInputData (.frame f) ["close"] true with ⟨a', r'⟩
    rw [h1, h2] at key
    simp only at key
    subst key
    cases r with
    | error e => rfl
    | ok F =>
      simp only [Bool.true_eq_false, if_false]
      split
      · rfl
      · cases checkMaxExposure m with
        | error e => rfl
        | ok v => cases checkFactor fac <;> rfl
  unfold Obj.getTiSimulation
  rcases h1 : setupSimulation true o.input.idx (.frame (fillFrame f)) m fac with ⟨a, r⟩
  rcases h2 : setupSimulation true o.input.idx (.frame f) m fac with ⟨a', r'⟩
  rw [h1, h2] at hset
  simp only at hset
  subst hset
  cases r with
  | error e => exact ⟨rfl, rfl⟩
  | ok S =>
    simp only
    split <;> exact ⟨rfl, rfl⟩

/-- C100: a frame in date order without missing values is returned as it is. -/
theorem C100_nothing_to_fill (f : RawFrame) (hw : WF f) (hs : f.idx.Pairwise (· ≤ ·)) (hn : ∀ c ∈ f.cols, ∀ v ∈ c.data, v ≠ .nan) :
    utilsFill (.frame f) = .ok f := by
  rcases f with ⟨a, idx, cols⟩
  simp only [utilsFill, fillFrame, Except.ok.injEq, RawFrame.mk.injEq, true_and]
  refine ⟨sortIdx_of_sorted _ hs, ?_⟩
  conv_rhs => rw [← List.map_id cols]
  apply List.map_congr_left
  intro c hm
  have h1 := sortedCol_sorted _ hs c (hw c hm)
  unfold sortedCol at h1
  simp only at h1
  have h2 : IsFilled c.data c.data := by
    refine ⟨rfl, fun i v h _ => h, ?_, ?_, ?_⟩
    · intro i j v hji hi hj hv hb
      rcases eq_or_lt_of_le hji with rfl | hlt
      · exact hj
      · exact absurd rfl (hn c hm .nan (List.mem_of_getElem? (hb i hlt le_rfl)))
    · intro i j v hij hj hv hb
      rcases eq_or_lt_of_le hij with rfl | hlt
      · exact hj
      · exact absurd rfl (hn c hm .nan (List.mem_of_getElem? (hb i hlt)))
    · intro i hi
      exact ⟨fun h => absurd rfl (hn c hm .nan (List.mem_of_getElem? h)), fun h => h i hi⟩
  rw [h1, ← C27_fill_unique _ _ h2]
  rfl

/-- A frame with unsorted dates, gaps at the beginning and later, and a column without any value: the hypotheses are met and
the result is not the input. -/
example : let f : RawFrame := ⟨true, [30, 10, 20, 40], [⟨.str "Close", true, [.fin 3, .nan, .fin 2, .nan]⟩,
      ⟨.other, false, [.nan, .nan, .nan, .nan]⟩]⟩
    WF f ∧ f.idx.Nodup ∧ utilsFill (.frame f) = .ok ⟨true, [10, 20, 30, 40],
      [⟨.str "Close", true, [.fin 2, .fin 2, .fin 3, .fin 3]⟩, ⟨.other, false, [.nan, .nan, .nan, .nan]⟩]⟩ ∧
    [2, 0, 1, 3].Perm (List.range f.idx.length) := by
  refine ⟨by unfold WF; decide, by decide, by decide +kernel, by decide⟩

end TTI.Props
