import Verif.Props.Validate

set_option autoImplicit false

/-!
# Input validation, continued (C15, C28-C31)
-/

namespace TTI.Props

/-- The filled column of a filled column is itself. -/
theorem fill_fill (xs : List Val) : bfill (ffill (bfill (ffill xs))) = bfill (ffill xs) := by
  by_cases h : ∀ k < xs.length, xs[k]? = some .nan
  · have hx : ∀ x ∈ xs, x = .nan := by
      intro x hx
      obtain ⟨i, hi⟩ := List.mem_iff_getElem?.1 hx
      have := h i (List.getElem?_eq_some_iff.1 hi).1
      rw [hi] at this; exact Option.some.inj this
    rw [ffill_all_nan xs hx, bfill_all_nan xs hx, ffill_all_nan xs hx, bfill_all_nan xs hx]
  · have hk : ∀ x ∈ bfill (ffill xs), x ≠ .nan := by
      intro x hx hn
      obtain ⟨i, hi⟩ := List.mem_iff_getElem?.1 hx
      have hil : i < xs.length := by
        have := (List.getElem?_eq_some_iff.1 hi).1; simpa using this
      rw [hn] at hi
      exact h (((C27_fill xs).missing i hil).1 hi)
    rw [ffill_eq_self _ hk, bfill_eq_self _ hk]

theorem kept_names_nodup (f : RawFrame) (required : List String) (hv : f.Valid required) :
    ((f.cols.filter fun c => decide (c.name ∈ required)).map RawCol.name).Nodup := by
  rw [List.nodup_iff_count_le_one]
  intro r
  by_cases hr : r ∈ required
  · obtain ⟨c, hc, -⟩ := hv.needed r hr
    rw [List.count, List.countP_map, List.countP_eq_length_filter, List.filter_filter]
    have : (f.cols.filter fun c => ((fun x => x == r) ∘ RawCol.name) c && decide (c.name ∈ required)) =
        f.cols.filter fun c => c.name == r := by
      apply List.filter_congr
      intro c _
      by_cases h : c.name = r
      · simp [h, hr]
      · simp [h]
    rw [this, hc]; simp
  · rw [List.count_eq_zero_of_not_mem]
    · omega
    · rw [List.mem_map]
      rintro ⟨c, hc, rfl⟩
      exact hr (by simpa using (List.mem_filter.1 hc).2)

/-- C28: validating already validated data again (for the same or fewer columns) returns its columns unchanged. So an
indicator built inside another one on the outer indicator's data works on exactly the same numbers. -/
theorem C28_idempotent (f : RawFrame) (required again : List String) (fill : Bool) (F : Frame) (hw : WF f)
    (hlow : ∀ r ∈ required, r.toLower = r) (hsub : ∀ r ∈ again, r ∈ required) (hne : again ≠ [])
    (h : (validateInputData (.frame f) required fill).2 = .ok F) :
    (validateInputData (.frame F.toRaw) again fill).2 = .ok (F.restrict again) := by
  obtain ⟨hv, hF⟩ := valid_of_ok _ _ _ _ h
  have hwk : ∀ c ∈ (f.kept required).cols, c.2.length = (f.kept required).idx.length := by
    apply sortIndex_lengths
    intro c hc
    rw [List.mem_map] at hc
    obtain ⟨d, hd, rfl⟩ := hc
    exact hw d (List.mem_filter.1 hd).1
  -- shape of F
  have hidx : F.idx = (f.kept required).idx := by
    rw [hF]
    cases fill
    · rfl
    · simp only [if_true, fillMissingValues]
      exact sortIdx_of_sorted _ (sortIndex_sorted _)
  have hkk : (f.kept required).sortIndex = f.kept required := sortIndex_of_sorted _ (sortIndex_sorted _) hwk
  have hcols : ∃ g : List Val → List Val, (∀ xs, (g xs).length = xs.length) ∧
      (fill = true → ∀ xs, bfill (ffill (g xs)) = g xs) ∧
      F.cols = (f.kept required).cols.map fun c => (c.1, g c.2) := by
    cases fill
    · exact ⟨id, fun _ => rfl, by simp, by rw [hF]; simp⟩
    · refine ⟨fun xs => bfill (ffill xs), by simp, fun _ xs => fill_fill xs, ?_⟩
      rw [hF]
      simp only [if_true, fillMissingValues, hkk]
  obtain ⟨g, hglen, hgfill, hcols⟩ := hcols
  have hnames : F.cols.map (·.1) = (f.cols.filter fun c => decide (c.name ∈ required)).map RawCol.name := by
    rw [hcols]
    simp only [RawFrame.kept, Frame.sortIndex, List.map_map]
    rfl
  have hnd : (F.cols.map (·.1)).Nodup := by rw [hnames]; exact kept_names_nodup f required hv
  have hin : ∀ c ∈ F.cols, c.1 ∈ required := by
    intro c hc
    have : c.1 ∈ F.cols.map (·.1) := List.mem_map_of_mem hc
    rw [hnames, List.mem_map] at this
    obtain ⟨d, hd, hdc⟩ := this
    rw [← hdc]; simpa using (List.mem_filter.1 hd).2
  have hname : ∀ c ∈ F.cols, (⟨.str c.1, true, c.2⟩ : RawCol).name = c.1 := by
    intro c hc
    simp only [RawCol.name, Label.lower, Option.getD_some]
    exact hlow _ (hin c hc)
  have hall : ∀ r ∈ required, r ∈ F.cols.map (·.1) := by
    intro r hr
    obtain ⟨c, hc, -⟩ := hv.needed r hr
    have hc' : c ∈ f.cols.filter fun c => c.name == r := by rw [hc]; simp
    rw [hnames, List.mem_map]
    have h1 := List.mem_filter.1 hc'
    have h2 : c.name = r := by simpa using h1.2
    exact ⟨c, List.mem_filter.2 ⟨h1.1, by simpa [h2] using hr⟩, h2⟩
  have hrawnames : F.toRaw.cols.map RawCol.name = F.cols.map (·.1) := by
    simp only [Frame.toRaw, List.map_map]
    apply List.map_congr_left
    intro c hc
    exact hname c hc
  have hlenF : ∀ c ∈ F.cols, c.2.length = F.idx.length := by
    intro c hc
    rw [hcols, List.mem_map] at hc
    obtain ⟨d, hd, rfl⟩ := hc
    rw [hidx]; simp only [hglen]; exact hwk d hd
  have hvF : F.toRaw.Valid again := by
    refine ⟨rfl, ?_, ?_, ?_, ?_, ?_⟩
    · show F.idx ≠ []
      rw [hidx]
      intro h0
      apply hv.rows
      have := (sortIdx_perm f.idx).length_eq
      have h0' : sortIdx f.idx = [] := h0
      rw [h0'] at this
      exact List.length_eq_zero_iff.1 this.symm
    · obtain ⟨r, hr⟩ := List.exists_mem_of_ne_nil _ hne
      have := hall r (hsub r hr)
      intro h0
      rw [← hrawnames, h0] at this; simp at this
    · intro c hc
      simp only [Frame.toRaw, List.mem_map] at hc
      obtain ⟨d, -, rfl⟩ := hc
      simp
    · intro r hr
      have hmem := hall r (hsub r hr)
      rw [← hrawnames] at hmem hnd
      have hcount : (F.toRaw.cols.filter fun c => c.name == r).length = 1 := by
        have h1 : (F.toRaw.cols.map RawCol.name).count r = 1 := by
          apply le_antisymm (List.nodup_iff_count_le_one.1 hnd r) (List.count_pos_iff.2 hmem)
        rw [List.count, List.countP_map, List.countP_eq_length_filter] at h1
        exact h1
      obtain ⟨c, hc⟩ := List.length_eq_one_iff.1 hcount
      refine ⟨c, hc, ?_⟩
      have hcm : c ∈ F.toRaw.cols := (List.mem_filter.1 (by rw [hc]; simp : c ∈ F.toRaw.cols.filter _)).1
      simp only [Frame.toRaw, List.mem_map] at hcm
      obtain ⟨d, -, rfl⟩ := hcm
      rfl
    · rw [hrawnames]; exact hnd.filter _
  rw [validate_ok _ _ _ hvF]
  have hsorted : (F.restrict again).idx.Pairwise (· ≤ ·) := by
    show F.idx.Pairwise _
    rw [hidx]; exact sortIndex_sorted _
  have hlenR : ∀ c ∈ (F.restrict again).cols, c.2.length = (F.restrict again).idx.length := by
    intro c hc; exact hlenF c (List.mem_filter.1 hc).1
  have hkept : F.toRaw.kept again = F.restrict again := by
    unfold RawFrame.kept
    have : (F.toRaw.cols.filter fun c => decide (c.name ∈ again)).map (fun c => (c.name, c.data)) =
        (F.restrict again).cols := by
      simp only [Frame.toRaw, Frame.restrict, List.filter_map, List.map_map]
      have e1 : F.cols.filter ((fun c : RawCol => decide (c.name ∈ again)) ∘
          fun c => (⟨.str c.1, true, c.2⟩ : RawCol)) = F.cols.filter fun c => decide (c.1 ∈ again) := by
        apply List.filter_congr
        intro c hc
        simp only [Function.comp]
        rw [hname c hc]
      rw [e1]
      conv_rhs => rw [← List.map_id (F.cols.filter fun c => decide (c.1 ∈ again))]
      apply List.map_congr_left
      intro c hc
      simp only [Function.comp]
      rw [hname c (List.mem_filter.1 hc).1]
      rfl
    rw [this]
    exact sortIndex_of_sorted (F.restrict again) hsorted hlenR
  rw [hkept]
  cases fill with
  | false => rfl
  | true =>
    simp only [if_true]
    congr 1
    unfold fillMissingValues
    rw [sortIndex_of_sorted _ hsorted hlenR]
    simp only [Frame.restrict]
    congr 1
    conv_rhs => rw [← List.map_id (F.cols.filter fun c => decide (c.1 ∈ again))]
    apply List.map_congr_left
    intro c hc
    have hc' := (List.mem_filter.1 hc).1
    rw [hcols, List.mem_map] at hc'
    obtain ⟨d, -, rfl⟩ := hc'
    simp [hgfill rfl]

example : (∀ r ∈ ["high", "close"], r.toLower = r) ∧ (∀ r ∈ ["close"], r ∈ ["high", "close"]) := by
  refine ⟨by decide +kernel, by decide +kernel⟩

/-! ## Truncation -/

theorem fill_take_col (x : Val) (xs : List Val) (hx : x ≠ .nan) (n : ℕ) :
    bfill (ffill ((x :: xs).take n)) = (bfill (ffill (x :: xs))).take n := by
  have h1 : ∀ y ∈ ffill (x :: xs), y ≠ .nan := ffill_no_nan x xs hx
  rw [bfill_eq_self _ h1, ffill_take, bfill_eq_self]
  intro y hy
  exact h1 y (List.mem_of_mem_take hy)

/-- C29: if every column starts with a known value, filling the first `n` rows gives the first `n` rows of the filled
data: filling uses no later rows. -/
theorem C29_fill_causal (F : Frame) (n : ℕ) (hs : F.idx.Pairwise (· ≤ ·))
    (hl : ∀ c ∈ F.cols, c.2.length = F.idx.length)
    (hfirst : ∀ c ∈ F.cols, ∃ v, c.2.head? = some v ∧ v ≠ .nan) :
    fillMissingValues (F.take n) = (fillMissingValues F).take n := by
  have hst : (F.take n).idx.Pairwise (· ≤ ·) := hs.sublist (List.take_sublist _ _)
  have hlt : ∀ c ∈ (F.take n).cols, c.2.length = (F.take n).idx.length := by
    intro c hc
    simp only [Frame.take, List.mem_map] at hc
    obtain ⟨d, hd, rfl⟩ := hc
    simp [Frame.take, hl d hd]
  unfold fillMissingValues
  rw [sortIndex_of_sorted _ hs hl, sortIndex_of_sorted _ hst hlt]
  simp only [Frame.take, List.map_map]
  congr 1
  apply List.map_congr_left
  intro c hc
  obtain ⟨v, hv, hn⟩ := hfirst c hc
  simp only [Function.comp]
  cases hc2 : c.2 with
  | nil => rw [hc2] at hv; simp at hv
  | cons x xs =>
    rw [hc2] at hv
    simp only [List.head?_cons, Option.some.injEq] at hv
    subst hv
    rw [fill_take_col _ _ hn]

example : ∀ c ∈ ([("close", [.fin 1, .nan, .fin 3])] : List (String × List Val)), ∃ v, c.2.head? = some v ∧ v ≠ .nan := by
  intro c hc
  simp only [List.mem_cons, List.not_mem_nil, or_false] at hc
  subst hc
  exact ⟨.fin 1, rfl, by simp⟩

/-- C29: a leading gap is filled from later rows. -/
theorem C29_leading_gap_looks_ahead :
    ∃ (F : Frame) (n : ℕ), F.idx.Pairwise (· ≤ ·) ∧ fillMissingValues (F.take n) ≠ (fillMissingValues F).take n :=
  ⟨⟨[1, 2], [("close", [.nan, .fin 7])]⟩, 1, by decide, by decide +kernel⟩

/-! ## Which exception -/

/-- The columns of a frame carrying the name `r` after lower-casing. -/
def named (f : RawFrame) (r : String) : List RawCol := f.cols.filter fun c => c.name == r

/-- C30: the frames that are accepted: a date index, at least one row and column, string labels, every required name
exactly once and numeric, no other name twice. -/
theorem C30_accepts_iff (a : InputArg) (required : List String) (fill : Bool) :
    (∃ F, (validateInputData a required fill).2 = .ok F) ↔
      ∃ f, a = .frame f ∧ f.datetimeIndex = true ∧ f.idx ≠ [] ∧ f.cols ≠ [] ∧ (∀ c ∈ f.cols, c.label ≠ .other) ∧
        (∀ r ∈ required, ∃ c, named f r = [c] ∧ c.numeric = true) ∧
        ((f.cols.map RawCol.name).filter fun l => !decide (l ∈ required)).Nodup := by
  constructor
  · rintro ⟨F, hF⟩
    cases a with
    | notFrame => simp [validateInputData] at hF
    | frame f =>
      obtain ⟨hv, -⟩ := valid_of_ok _ _ _ _ hF
      exact ⟨f, rfl, hv.datetime, hv.rows, hv.columns, hv.labels, hv.needed, hv.extra⟩
  · rintro ⟨f, rfl, h1, h2, h3, h4, h5, h6⟩
    exact ⟨_, validate_ok f required fill ⟨h1, h2, h3, h4, h5, h6⟩⟩

/-- C30: the first failing check decides the exception. -/
theorem C30_precedence (required : List String) (fill : Bool) :
    (validateInputData .notFrame required fill).2 = .error .wrongType ∧
    ∀ f : RawFrame,
      (f.datetimeIndex = false → (validateInputData (.frame f) required fill).2 = .error .typeError) ∧
      (f.datetimeIndex = true → f.idx = [] ∨ f.cols = [] →
        (validateInputData (.frame f) required fill).2 = .error .valueError) ∧
      (f.datetimeIndex = true → f.idx ≠ [] → f.cols ≠ [] → (∃ c ∈ f.cols, c.label = .other) →
        (validateInputData (.frame f) required fill).2 = .error .attributeError) ∧
      (f.datetimeIndex = true → f.idx ≠ [] → f.cols ≠ [] → (∀ c ∈ f.cols, c.label ≠ .other) →
        (∀ before r after, required = before ++ r :: after →
          (∀ b ∈ before, ∃ c, named f b = [c] ∧ c.numeric = true) →
          (named f r = [] → (validateInputData (.frame f) required fill).2 = .error .valueError) ∧
          (∀ c, named f r = [c] → c.numeric = false →
            (validateInputData (.frame f) required fill).2 = .error .valueError) ∧
          (2 ≤ (named f r).length → (validateInputData (.frame f) required fill).2 = .error .attributeError)) ∧
        ((∀ r ∈ required, ∃ c, named f r = [c] ∧ c.numeric = true) →
          ¬ ((f.cols.map RawCol.name).filter fun l => !decide (l ∈ required)).Nodup →
            (validateInputData (.frame f) required fill).2 = .error .keyError)) := by
  refine ⟨rfl, fun f => ⟨?_, ?_, ?_, ?_⟩⟩
  · intro h; simp [validateInputData, h]
  · intro h h2; simp [validateInputData, h, h2]
  · rintro h h2 h3 ⟨c, hc, hl⟩
    simp only [validateInputData, h, Bool.true_eq_false, if_false, h2, h3, or_self]
    rw [lowerLabels_eq, if_neg]
    intro hh; exact hh c hc hl
  · intro h h2 h3 h4
    have key : ∀ e, checkColumns (f.cols.map fun c => (c.name, c)) required = some e →
        (validateInputData (.frame f) required fill).2 = .error e := by
      intro e he
      simp only [validateInputData, h, Bool.true_eq_false, if_false, h2, h3, or_self]
      rw [lowerLabels_eq, if_pos h4]
      simp only
      rw [he]
    constructor
    · intro before r after hreq hbefore
      have hpre : ∀ x, checkColumn (f.cols.map fun c => (c.name, c)) r = some x →
          checkColumns (f.cols.map fun c => (c.name, c)) required = some x := by
        intro x hx
        unfold checkColumns
        rw [hreq, List.findSome?_append]
        have : before.findSome? (checkColumn (f.cols.map fun c => (c.name, c))) = none :=
          (checkColumns_valid _ _).2 hbefore
        rw [this]
        simp [hx]
      refine ⟨fun h0 => key _ (hpre _ ?_), fun c h1 hn => key _ (hpre _ ?_), fun h5 => key _ (hpre _ ?_)⟩
      · unfold checkColumn
        rw [filter_named]
        have : (f.cols.filter fun c => c.name == r) = [] := h0
        rw [this]; rfl
      · unfold checkColumn
        rw [filter_named]
        have : (f.cols.filter fun c => c.name == r) = [c] := h1
        rw [this]; simp [hn]
      · unfold checkColumn
        rw [filter_named]
        have : 2 ≤ (f.cols.filter fun c => c.name == r).length := h5
        generalize (f.cols.filter fun c => c.name == r) = l at this
        rcases l with _ | ⟨a, _ | ⟨b, l⟩⟩
        · simp at this
        · simp at this
        · rfl
    · intro h5 h6
      simp only [validateInputData, h, Bool.true_eq_false, if_false, h2, h3, or_self]
      rw [lowerLabels_eq, if_pos h4]
      simp only
      rw [(checkColumns_valid _ _).2 h5]
      simp only
      rw [dropExtra_error]
      rintro ⟨h7, -⟩
      apply h6
      rw [List.map_map] at h7
      exact h7

example : (validateInputData (.frame ⟨true, [1], [⟨.str "c", false, [.nan]⟩]⟩) ["h", "c"] true).2 = .error .valueError ∧
    (validateInputData (.frame ⟨true, [1], [⟨.str "C", true, [.nan]⟩, ⟨.str "c", true, [.nan]⟩]⟩) ["c"] true).2 =
      .error .attributeError := by decide +kernel

/-- C31: the caller's frame keeps its dates, values and types; only its labels are lower-cased, and that happens exactly
when it is a non-empty frame with a date index (and string labels), whatever the outcome of the later checks. -/
theorem C31_only_labels_change (a : InputArg) (required : List String) (fill : Bool) :
    (validateInputData a required fill).1 =
      match a with
      | .notFrame => .notFrame
      | .frame f =>
        if f.datetimeIndex = true ∧ f.idx ≠ [] ∧ f.cols ≠ [] ∧ ∀ c ∈ f.cols, c.label ≠ .other then
          .frame { f with cols := f.cols.map fun c => { c with label := .str c.name } }
        else .frame f := by
  cases a with
  | notFrame => rfl
  | frame f =>
    unfold validateInputData
    simp only
    by_cases h0 : f.datetimeIndex = false
    · simp [h0]
    rw [if_neg h0]
    have h0' : f.datetimeIndex = true := by simpa using h0
    by_cases h1 : f.idx = [] ∨ f.cols = []
    · rw [if_pos h1, if_neg]
      rintro ⟨-, h2, h3, -⟩
      rcases h1 with h1 | h1
      · exact h2 h1
      · exact h3 h1
    rw [if_neg h1, lowerLabels_eq]
    simp only [not_or] at h1
    by_cases h2 : ∀ c ∈ f.cols, c.label ≠ .other
    · rw [if_pos h2, if_pos ⟨h0', h1.1, h1.2, h2⟩]
      simp only [List.map_map]
      have hc : ((fun c : String × RawCol => ({ c.2 with label := .str c.1 } : RawCol)) ∘ fun c : RawCol => (c.name, c)) =
        fun c => { c with label := .str c.name } := by funext c; rfl
      rw [hc]
      split
      · rfl
      · split <;> rfl
    · rw [if_neg h2, if_neg]
      rintro ⟨-, -, -, h3⟩
      exact h2 h3

/-! ## Simulator arguments -/

/-- C15: `max_exposure` is accepted iff it is None or a number (bool included) that is not `<= 0`; NaN is accepted. -/
theorem C15_max_exposure (a : PyArg) :
    (∀ m, checkMaxExposure a = .ok m ↔
      (a = .none ∧ m = none) ∨ ∃ v, a.asNumber = some v ∧ ¬ Val.le v 0 = true ∧ m = some v) ∧
    (checkMaxExposure a = .error .wrongType ↔ a ≠ .none ∧ a.asNumber = none) ∧
    (checkMaxExposure a = .error .wrongValue ↔ ∃ v, a.asNumber = some v ∧ Val.le v 0 = true) := by
  unfold checkMaxExposure
  cases h : a.asNumber with
  | none =>
    by_cases ha : a = .none
    · simp only [ha, if_true]
      refine ⟨fun m => ⟨fun e => .inl ⟨trivial, by cases e; rfl⟩, ?_⟩, by simp, by simp⟩
      rintro (⟨-, rfl⟩ | ⟨w, e, -⟩)
      · rfl
      · simp at e
    · simp [ha]
  | some v =>
    have ha : a ≠ .none := by rintro rfl; simp [PyArg.asNumber] at h
    by_cases hv : Val.le v 0 = true
    · simp only [hv, if_true]
      refine ⟨fun m => ⟨fun e => by simp at e, ?_⟩, by simp, ⟨fun _ => ⟨v, rfl, hv⟩, fun _ => by trivial⟩⟩
      rintro (⟨e, -⟩ | ⟨w, e, hn, -⟩)
      · exact absurd e ha
      · cases e; exact absurd hv hn
    · simp only [hv]
      refine ⟨fun m => ⟨fun e => .inr ⟨v, rfl, hv, by cases e; rfl⟩, ?_⟩, by simp, ⟨fun e => by simp at e, ?_⟩⟩
      · rintro (⟨e, -⟩ | ⟨w, e, -, rfl⟩)
        · exact absurd e ha
        · cases e; rfl
      · rintro ⟨w, e, hw⟩; cases e; exact absurd hw hv

/-- C15: `short_exposure_factor` is accepted iff it is a number (bool included) not `< 1`; NaN is accepted. -/
theorem C15_factor (a : PyArg) :
    (∀ v, checkFactor a = .ok v ↔ a.asNumber = some v ∧ ¬ Val.lt v 1 = true) ∧
    (checkFactor a = .error .wrongType ↔ a.asNumber = none) ∧
    (checkFactor a = .error .wrongValue ↔ ∃ v, a.asNumber = some v ∧ Val.lt v 1 = true) := by
  unfold checkFactor
  cases h : a.asNumber with
  | none => simp
  | some v =>
    by_cases hv : Val.lt v 1 = true
    · simp only [hv, if_true]
      refine ⟨fun w => ⟨fun e => by simp at e, ?_⟩, by simp, ⟨fun _ => ⟨v, rfl, hv⟩, fun _ => by trivial⟩⟩
      rintro ⟨e, hn⟩
      cases e; exact absurd hv hn
    · simp only [hv]
      refine ⟨fun w => ⟨?_, ?_⟩, by simp, ⟨fun e => by simp at e, ?_⟩⟩
      · intro e; simp at e; subst e; exact ⟨rfl, hv⟩
      · rintro ⟨e, -⟩; cases e; simp
      · rintro ⟨w, e, hw⟩; cases e; exact absurd hw hv

example : checkMaxExposure (.float .nan) = .ok (some .nan) ∧ checkMaxExposure (.bool true) = .ok (some (.fin 1)) ∧
    checkMaxExposure (.int 0) = .error .wrongValue ∧ checkMaxExposure (.str "5") = .error .wrongType ∧
    checkFactor (.float .nan) = .ok .nan ∧ checkFactor .none = .error .wrongType := by decide +kernel

/-- C15: the order of the checks: the index, the close values, their dates, `max_exposure`, `short_exposure_factor`. -/
theorem C15_precedence (idx : List ℤ) (close : InputArg) (m fac : PyArg) :
    (setupSimulation false idx close m fac).2 = .error .notValidForSimulation ∧
    ((∃ e, (validateInputData close ["close"] true).2 = .error e) →
      (setupSimulation true idx close m fac).2 = .error .notValidForSimulation) ∧
    ∀ F, (validateInputData close ["close"] true).2 = .ok F →
      (F.idx ≠ sortIdx idx → (setupSimulation true idx close m fac).2 = .error .notValidForSimulation) ∧
      (F.idx = sortIdx idx →
        (∀ e, checkMaxExposure m = .error e → (setupSimulation true idx close m fac).2 = .error e) ∧
        (∀ m', checkMaxExposure m = .ok m' →
          (∀ e, checkFactor fac = .error e → (setupSimulation true idx close m fac).2 = .error e) ∧
          (∀ v, checkFactor fac = .ok v →
            (setupSimulation true idx close m fac).2 = .ok ⟨sortIdx idx, F.col "close", ⟨m', v⟩⟩))) := by
  refine ⟨rfl, ?_, ?_⟩
  · rintro ⟨e, he⟩
    unfold setupSimulation
    rcases hp : validateInputData close ["close"] true with ⟨c, r⟩
    rw [hp] at he
    simp only at he
    subst he
    simp
  · intro F hF
    unfold setupSimulation
    rcases hp : validateInputData close ["close"] true with ⟨c, r⟩
    rw [hp] at hF
    simp only at hF
    subst hF
    refine ⟨fun h => by simp [h], fun h => ⟨fun e he => by simp [h, he], fun m' hm => ⟨fun e he => by simp [h, hm, he],
      fun v hv => by simp [h, hm, hv]⟩⟩⟩

example : ∃ F, (validateInputData (.frame ⟨true, [1], [⟨.str "close", true, [.fin 2]⟩]⟩) ["close"] true).2 = .ok F ∧
    F.idx = sortIdx [1] := ⟨⟨[1], [("close", [.fin 2])]⟩, by decide +kernel, by decide +kernel⟩

end TTI.Props
