import Verif.Props.Validate
import Verif.Props.Sample
import Verif.Lemmas.Built

set_option autoImplicit false

/-!
# C25, C26 for constructed objects

The theorems of `Verif/Props/Validate.lean` are about the validated data; here they are carried to the objects that the user
gets: the same exception, or objects with the same data, so that every later call has the same result.
-/

namespace TTI.Props

open TTI.Spec

/-- Which exception validation raises, if any, does not depend on the values and dates. -/
theorem validate_error_iff (f : RawFrame) (required : List String) (fill fill' : Bool) (idx : List ℤ) (g : RawCol → List Val)
    (hi : idx = [] ↔ f.idx = []) (e : Err) :
    (validateInputData (.frame { f with idx := idx, cols := f.cols.map fun c => { c with data := g c } }) required fill').2 = .error e ↔
      (validateInputData (.frame f) required fill).2 = .error e := by
  unfold validateInputData
  simp only
  by_cases h0 : f.datetimeIndex = false
  · simp [h0]
  simp only [if_neg h0, List.map_eq_nil_iff]
  by_cases h1 : f.idx = [] ∨ f.cols = []
  · have h1' : idx = [] ∨ f.cols = [] := h1.imp_left hi.2
    simp [h1, h1']
  have h1' : ¬ (idx = [] ∨ f.cols = []) := mt (Or.imp_left hi.1) h1
  simp only [if_neg h1, if_neg h1']
  rw [lowerLabels_eq, lowerLabels_eq]
  have hl : (∀ c ∈ f.cols.map fun c => ({ c with data := g c } : RawCol), c.label ≠ .other) ↔
      ∀ c ∈ f.cols, c.label ≠ .other := by
    simp only [List.mem_map, forall_exists_index, and_imp, forall_apply_eq_imp_iff₂]
  by_cases h2 : ∀ c ∈ f.cols, c.label ≠ .other
  · rw [if_pos h2, if_pos (hl.2 h2)]
    simp only
    have hcols : ((f.cols.map fun c => ({ c with data := g c } : RawCol)).map fun c => (c.name, c)) =
        (f.cols.map fun c => (c.name, c)).map fun p => (p.1, ({ p.2 with data := g p.2 } : RawCol)) := by
      rw [List.map_map, List.map_map]
      rfl
    rw [hcols]
    generalize f.cols.map (fun c => (c.name, c)) = cols
    have hcheck : checkColumns (cols.map fun p => (p.1, ({ p.2 with data := g p.2 } : RawCol))) required =
        checkColumns cols required := by
      unfold checkColumns
      congr 1
      funext r
      unfold checkColumn
      rw [List.filter_map]
      have hcomp : ((fun c : String × RawCol => c.1 == r) ∘
          fun p : String × RawCol => (p.1, ({ p.2 with data := g p.2 } : RawCol))) = fun c => c.1 == r := by
        funext c; rfl
      rw [hcomp]
      generalize cols.filter (fun c => c.1 == r) = l
      rcases l with _ | ⟨a, _ | ⟨b, l⟩⟩ <;> rfl
    have hdrop : ∀ (labels : List String) (cols : List (String × RawCol)),
        dropExtra required labels (cols.map fun p => (p.1, ({ p.2 with data := g p.2 } : RawCol))) =
          (dropExtra required labels cols).map fun l => l.map fun p => (p.1, ({ p.2 with data := g p.2 } : RawCol)) := by
      intro labels
      induction labels with
      | nil => intro cols; rfl
      | cons l ls ih =>
        intro cols
        unfold dropExtra
        have hm : (cols.map fun p : String × RawCol => (p.1, ({ p.2 with data := g p.2 } : RawCol))).map (·.1) =
          cols.map (·.1) := by rw [List.map_map]; rfl
        have hf : (cols.map fun p : String × RawCol => (p.1, ({ p.2 with data := g p.2 } : RawCol))).filter
            (fun c => !(c.1 == l)) =
            (cols.filter fun c => !(c.1 == l)).map fun p => (p.1, ({ p.2 with data := g p.2 } : RawCol)) := by
          rw [List.filter_map]; rfl
        rw [hm, hf]
        split
        · exact ih cols
        · split
          · exact ih _
          · rfl
    have hm : (cols.map fun p : String × RawCol => (p.1, ({ p.2 with data := g p.2 } : RawCol))).map (·.1) =
      cols.map (·.1) := by rw [List.map_map]; rfl
    rw [hcheck, hm, hdrop]
    cases checkColumns cols required with
    | some e => rfl
    | none =>
      simp only
      cases dropExtra required (cols.map (·.1)) cols with
      | error e => rfl
      | ok kept => simp [Except.map]
  · rw [if_neg h2, if_neg (mt hl.1 h2)]

/-- Results that agree on errors and on successes are equal. -/
theorem result_ext {α : Type} {a b : Except Err α} (he : ∀ e, a = .error e ↔ b = .error e) (ho : ∀ x, a = .ok x ↔ b = .ok x) :
    a = b := by
  cases a with
  | error e => exact ((he e).1 rfl).symm
  | ok x => exact ((ho x).1 rfl).symm

/-- What a constructor returns or raises depends on the data only through their validation. -/
theorem construct_of_validated (E : Env) (c : Call) (x y : InputArg) (b b' : Bool)
    (h : ∀ ind, c.check = .ok ind → (validateInputData x ind.required b).2 = (validateInputData y ind.required b').2) :
    (construct E c x (.bool b)).2 = (construct E c y (.bool b')).2 := by
  unfold construct
  cases hc : c.check with
  | error e => rfl
  | ok ind =>
    have := h ind hc
    simp only
    rcases hx : validateInputData x ind.required b with ⟨a, r⟩
    rcases hy : validateInputData y ind.required b' with ⟨a', r'⟩
    rw [hx, hy] at this
    simp only at this
    subst this
    cases r with
    | error e => rfl
    | ok F =>
      simp only
      cases ind.calcTi E F <;> rfl

/-- C25: with distinct dates the constructor does the same whatever the order of the rows: it raises the same exception, or
returns the same object, so that all later calls have the same results. -/
theorem C25_construct (E : Env) (c : Call) (f : RawFrame) (fill : PyArg) (σ : List ℕ) (hw : WF f) (hd : f.idx.Nodup)
    (hσ : σ.Perm (List.range f.idx.length)) :
    (construct E c (.frame (reorder f σ)) fill).2 = (construct E c (.frame f) fill).2 := by
  cases fill with
  | bool b =>
    apply construct_of_validated
    intro ind _
    apply result_ext
    · intro e
      refine validate_error_iff f ind.required b b (σ.map fun k => f.idx.getD k 0) _ ?_ e
      have := hσ.length_eq
      rw [List.length_range] at this
      rw [List.map_eq_nil_iff, ← List.length_eq_zero_iff, ← List.length_eq_zero_iff, this]
    · intro F
      exact C25_row_order_irrelevant f ind.required b σ hw hd hσ F
  | _ => unfold construct; cases c.check <;> rfl

/-- The hypotheses of `C25_construct`, with the signal. -/
example : WF (sample 6) ∧ (sample 6).idx.Nodup ∧ [2, 0, 1, 5, 4, 3].Perm (List.range (sample 6).idx.length) ∧
    reorder (sample 6) [2, 0, 1, 5, 4, 3] ≠ sample 6 ∧
    ((construct demoEnv (.tripleExponentialMovingAverage (.int 2)) (.frame (reorder (sample 6) [2, 0, 1, 5, 4, 3]))
      (.bool true)).2.map fun o => o.getTiSignal) = .ok (.ok .buy) :=
  ⟨sample_wf 6, by decide, by decide, by decide +kernel, by decide +kernel⟩

/-- C26: the same for the letter case of the column names. -/
theorem C26_label_case_construct (E : Env) (c : Call) (f : RawFrame) (fill : PyArg) (g : RawCol → Label)
    (hg : ∀ c ∈ f.cols, (g c).lower = c.label.lower) :
    (construct E c (.frame { f with cols := f.cols.map fun c => { c with label := g c } }) fill).2 =
      (construct E c (.frame f) fill).2 := by
  cases fill with
  | bool b => exact construct_of_validated E c _ _ b b fun ind _ => C26_label_case_irrelevant f ind.required b g hg
  | _ => unfold construct; cases c.check <;> rfl

/-- The hypotheses of `C26_label_case_construct`: the name in capital letters. -/
example : (∀ c ∈ demoFrame.cols, ((fun c : RawCol => match c.label with
    | .str s => Label.str s.toUpper
    | .other => .other) c).lower = c.label.lower) ∧ demoFrame.cols.map (fun c => c.name) = ["c", "n", "h"] := by
  decide +kernel

/-- C26: the same for additional columns: an object that can be constructed without them is the same with them. -/
theorem C26_extra_columns_construct (E : Env) (c : Call) (f f' : RawFrame) (fill : PyArg) (extra : RawCol → Bool) (o : Obj)
    (hidx : f'.idx = f.idx) (hdt : f'.datetimeIndex = f.datetimeIndex) (hcols : (f'.cols.filter fun c => !extra c) = f.cols)
    (h : (construct E c (.frame f) fill).2 = .ok o)
    (hextra : ∀ c ∈ f'.cols, extra c = true → c.label ≠ .other ∧ c.name ∉ o.ind.required)
    (hnodup : (f'.cols.map RawCol.name).Nodup) : (construct E c (.frame f') fill).2 = .ok o := by
  obtain ⟨b, rfl⟩ : ∃ b, fill = .bool b := by
    unfold construct at h
    cases hc : c.check with
    | error e => rw [hc] at h; cases h
    | ok ind =>
      rw [hc] at h
      cases fill <;> first | exact ⟨_, rfl⟩ | cases h
  obtain ⟨ind, F, T, hc, hv, ht, rfl⟩ := (construct_ok_iff _ _ _ _ _).1 h
  exact (construct_ok_iff _ _ _ _ _).2
    ⟨ind, F, T, hc, C26_extra_columns_irrelevant f f' ind.required b extra hidx hdt hcols hextra hnodup F hv, ht, rfl⟩

/-- The hypotheses of `C26_extra_columns_construct`: a moving average needs the close only. -/
example : (construct demoEnv (.movingAverage (.int 2) (.str "simple")) (.frame { sample 4 with
      cols := (sample 4).cols.filter fun c => !decide (c.name ≠ "close") }) (.bool true)).2.map (fun o =>
        (o.ind.required, o.getTiData.day "ma-simple" 3)) = .ok (["close"], .fin (113 / 2)) ∧
    (∀ c ∈ (sample 4).cols, decide (c.name ≠ "close") = true → c.label ≠ .other ∧ c.name ∉ ["close"]) ∧
    ((sample 4).cols.map RawCol.name).Nodup := by
  refine ⟨by decide +kernel, by decide +kernel, by decide +kernel⟩

end TTI.Props
