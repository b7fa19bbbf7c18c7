import Verif.Lemmas.Signal

set_option autoImplicit false

/-!
# Constructed objects
-/

namespace TTI

theorem construct_ok_iff (E : Env) (c : Call) (data : InputArg) (fill : Bool) (o : Obj) :
    (construct E c data (.bool fill)).2 = .ok o ↔
      ∃ ind F T, c.check = .ok ind ∧ (validateInputData data ind.required fill).2 = .ok F ∧
        ind.calcTi E F = .ok T ∧ o = ⟨ind, ind.inputAfter F, T⟩ := by
  unfold construct
  cases hc : c.check with
  | error e => simp
  | ok ind =>
    simp only [Except.ok.injEq]
    rcases hv : validateInputData data ind.required fill with ⟨caller, r⟩
    cases r with
    | error e =>
      simp only [reduceCtorEq, false_iff, not_exists]
      rintro ind' F T ⟨rfl, h, -⟩
      rw [hv] at h; simp at h
    | ok F =>
      simp only
      cases ht : ind.calcTi E F with
      | error e =>
        simp only [reduceCtorEq, false_iff, not_exists]
        rintro ind' F' T ⟨rfl, h, h2, -⟩
        rw [hv] at h
        simp only [Except.ok.injEq] at h
        subst h
        rw [ht] at h2; simp at h2
      | ok T =>
        simp only [Except.ok.injEq]
        constructor
        · rintro rfl
          exact ⟨ind, F, T, rfl, by rw [hv], ht, rfl⟩
        · rintro ⟨ind', F', T', rfl, h, h2, rfl⟩
          rw [hv] at h
          simp only [Except.ok.injEq] at h
          subst h
          rw [ht] at h2
          simp only [Except.ok.injEq] at h2
          rw [h2]

@[simp] theorem inputAfter_idx (F : Frame) (ind : Ind) : (ind.inputAfter F).idx = F.idx := by
  cases ind <;> rfl

@[simp] theorem inputAfter_len (F : Frame) (ind : Ind) : (ind.inputAfter F).len = F.len := by
  cases ind <;> rfl

theorem inputAfter_wf (F : Frame) (ind : Ind) (hw : F.WF) (hh : F.Has ind.required) : (ind.inputAfter F).WF := by
  have hcol : ∀ n ∈ ind.required, (F.col n).length = F.len := fun n hn => F.col_length hw n (hh n hn)
  have hl : F.idx.length = F.len := rfl
  cases ind <;> try exact hw
  case massIndex =>
    intro c hc
    simp only [Ind.inputAfter, Ind.MassIndex.inputAfter, List.mem_append, List.mem_singleton] at hc
    rcases hc with hc | rfl
    · exact hw c hc
    · simp only [Ind.inputAfter, Ind.MassIndex.inputAfter, ewm_length]
      exact hcol _ (by simp [Ind.required])
  case medianPrice p =>
    intro c hc
    simp only [Ind.inputAfter, Ind.MedianPrice.inputAfter, List.mem_append, List.mem_singleton] at hc
    rcases hc with hc | rfl
    · exact hw c hc
    · simp only [Ind.inputAfter, Ind.MedianPrice.inputAfter, ewm_length]
      exact hcol _ (by simp [Ind.required])

theorem inputAfter_has (F : Frame) (ind : Ind) (hh : F.Has ind.required) : (ind.inputAfter F).Has (inputColumns ind) := by
  cases ind <;> try exact hh
  all_goals
    intro n hn
    simp only [inputColumns, List.mem_cons, List.not_mem_nil, or_false] at hn
    simp only [Ind.inputAfter, Ind.MassIndex.inputAfter, Ind.MedianPrice.inputAfter, List.map_append, List.mem_append]
    rcases hn with rfl | rfl | rfl | rfl
    · exact Or.inl (hh _ (by simp [Ind.required]))
    · exact Or.inl (hh _ (by simp [Ind.required]))
    · exact Or.inl (hh _ (by simp [Ind.required]))
    · exact Or.inr (by simp)

/-- What holds of a constructed object, and of every cut of it. -/
structure Obj.Sound (o : Obj) : Prop where
  shaped : Shaped o.ind o.input o.ti
  sorted : o.input.idx.Pairwise (· ≤ ·)
  dates : o.ti.idx = o.input.idx.take o.ti.len
  params : ∀ p, o.ind = .medianPrice p → 1 ≤ p

theorem check_medianPrice (c : Call) (ind : Ind) (h : c.check = .ok ind) : ∀ p, ind = .medianPrice p → 1 ≤ p := by
  rintro p rfl
  cases c
  case medianPrice a =>
    simp only [Call.check, intAbove, bind, Except.bind, pure, Except.pure] at h
    split at h
    · simp at h
    · next q hq =>
      split at hq
      · split at hq
        · simp only [Except.ok.injEq, Ind.medianPrice.injEq] at h hq
          omega
        · simp at hq
      · simp at hq
  all_goals
    exfalso
    simp only [Call.check, bind, Except.bind, pure, Except.pure] at h
    (repeat' split at h) <;> simp at h

theorem rowsOut_le (n : ℕ) (ind : Ind) : Spec.rowsOut n ind ≤ n := by
  cases ind <;> simp [Spec.rowsOut]

theorem rowsOut_eq (n : ℕ) (ind : Ind) (h : ∀ p, ind ≠ .detrendedPriceOscillator p) : Spec.rowsOut n ind = n := by
  cases ind <;> simp [Spec.rowsOut] at h ⊢

theorem construct_sound (E : Env) (c : Call) (f : RawFrame) (fill : Bool) (o : Obj)
    (hw : ∀ c ∈ f.cols, c.data.length = f.idx.length) (h : (construct E c (.frame f) (.bool fill)).2 = .ok o) :
    o.Sound ∧ c.check = .ok o.ind ∧ o.input.idx = sortIdx f.idx ∧ o.ti.len = Spec.rowsOut f.idx.length o.ind ∧
      0 < o.input.len := by
  obtain ⟨ind, F, T, hc, hv, ht, rfl⟩ := (construct_ok_iff _ _ _ _ _).1 h
  obtain ⟨hg, hi⟩ := validated_good f _ _ _ hw hv
  have hlen : F.len = f.idx.length := by
    unfold Frame.len; rw [hi, (sortIdx_perm _).length_eq]
  have hout := calcTi_outcome E ind F hg.wf hg.has hg.rows
  unfold Outcome at hout
  rw [ht] at hout
  rcases hout with ⟨-, h0⟩ | ⟨hmin, T', hT', hidx, hnames, hwf⟩
  · simp at h0
  · simp only [Except.ok.injEq] at hT'
    subst hT'
    have htl : T.len = Spec.rowsOut F.len ind := by
      unfold Frame.len
      rw [hidx, List.length_take]
      exact min_eq_left (rowsOut_le _ _)
    refine ⟨⟨⟨inputAfter_wf F ind hg.wf hg.has, inputAfter_has F ind hg.has, hwf, hnames, ?_, ?_⟩, ?_, ?_, ?_⟩, hc,
      by simpa using hi, by rw [htl, hlen], by simpa using hg.rows⟩
    · simp only [inputAfter_len]; rw [htl]; exact rowsOut_le _ _
    · intro hd; simp only [inputAfter_len]; rw [htl]; exact rowsOut_eq _ _ hd
    · simpa using hg.sorted
    · simp only [inputAfter_idx]; rw [htl]; exact hidx
    · exact check_medianPrice c ind hc

/-- The object cut at row `i`. -/
theorem cut_eq (o : Obj) (h : o.Sound) (i : ℕ) (hi : i < o.ti.len) :
    ∃ d, o.input.idx[i]? = some d ∧ o.ti.idx[i]? = some d ∧
      o.cut i = some { o with input := o.input.take (rowsUpTo d o.input.idx), ti := o.ti.take (rowsUpTo d o.ti.idx) } := by
  have hle := h.shaped.rowsLe
  have hi' : i < o.input.idx.length := lt_of_lt_of_le hi hle
  have h1 : o.input.idx[i]? = some o.input.idx[i] := List.getElem?_eq_getElem hi'
  have h2 : o.ti.idx[i]? = some o.input.idx[i] := by
    rw [h.dates, List.getElem?_take, if_pos hi, h1]
  refine ⟨_, h1, h2, ?_⟩
  unfold Obj.cut
  rw [h1, h2]
  simp only
  rw [upTo_eq_take _ _ h.shaped.inputWf h.sorted, upTo_eq_take _ _ h.shaped.tiWf ?_]
  rw [h.dates]; exact h.sorted.sublist (List.take_sublist _ _)

theorem cut_none (o : Obj) (i : ℕ) (hi : o.ti.len ≤ i) : o.cut i = none := by
  unfold Obj.cut
  have : o.ti.idx[i]? = none := List.getElem?_eq_none hi
  rw [this]
  cases o.input.idx[i]? <;> rfl

theorem cut_sound (o o' : Obj) (h : o.Sound) (i : ℕ) (hc : o.cut i = some o') :
    o'.Sound ∧ o'.ind = o.ind ∧ 0 < o'.ti.len := by
  by_cases hi : i < o.ti.len
  · obtain ⟨d, h1, h2, h3⟩ := cut_eq o h i hi
    rw [h3] at hc
    simp only [Option.some.injEq] at hc
    subst hc
    have hle : rowsUpTo d o.ti.idx ≤ rowsUpTo d o.input.idx := by
      conv_lhs => rw [h.dates]
      exact rowsUpTo_take_le _ _ _
    have hle1 : rowsUpTo d o.ti.idx ≤ o.ti.len := rowsUpTo_le _ _
    have hle2 : rowsUpTo d o.input.idx ≤ o.input.len := rowsUpTo_le _ _
    refine ⟨⟨⟨Frame.take_wf _ _ h.shaped.inputWf, ?_, Frame.take_wf _ _ h.shaped.tiWf, ?_, ?_, ?_⟩, ?_, ?_, h.params⟩,
      rfl, ?_⟩
    · intro n hn; rw [Frame.take_names]; exact h.shaped.inputHas n hn
    · rw [Frame.take_names]; exact h.shaped.tiNames
    · simp only [Frame.take_len]; omega
    · intro hd
      have heq := h.shaped.rowsEq hd
      have : o.ti.idx = o.input.idx := by rw [h.dates, heq]; exact List.take_length
      simp only [Frame.take_len, this]
      omega
    · exact h.sorted.sublist (List.take_sublist _ _)
    · simp only [Frame.take_idx, Frame.take_len]
      rw [h.dates, List.take_take, List.take_take]
      congr 1
      rw [← h.dates]
      omega
    · have := rowsUpTo_pos _ _ _ h2
      simp only [Frame.take_len]
      omega
  · rw [cut_none o i (by omega)] at hc; simp at hc

/-! ## The signals that raise -/

theorem last_two (xs : List Val) (h : 2 ≤ xs.length) : ∃ pre, xs = pre ++ [last 2 xs, last 1 xs] := by
  rcases List.eq_nil_or_concat xs with rfl | ⟨ys, b, rfl⟩
  · simp at h
  · rcases List.eq_nil_or_concat ys with rfl | ⟨pre, a, rfl⟩
    · simp at h
    · exact ⟨pre, by simp [last, fromEnd]⟩

theorem last_append (pre : List Val) (a b : Val) : last 2 (pre ++ [a, b]) = a ∧ last 1 (pre ++ [a, b]) = b := by
  simp [last, fromEnd]

theorem iat_error (xs : List Val) (k : ℕ) (h : xs.length < k) : iat xs k = .error .indexError := by
  unfold iat fromEnd
  rw [if_neg (by omega)]

theorem signal_raises (ind : Ind) (F T : Frame) (h : Shaped ind F T) (hr : Raises ind F T) :
    ind.signal F T = .error .indexError := by
  have hF := h.fcol
  have hT := h.tcol
  have hE := h.rowsEq
  rcases hr with ⟨rfl, h1⟩ | ⟨⟨p, s, rfl⟩, h2, ha, hb, hc, hall⟩
  · simp only [Ind.signal, Ind.MedianPrice.signal]
    simp only [inputColumns, List.forall_mem_cons] at hF
    have := hE (by simp)
    rw [if_neg (by omega), iat_error _ _ (by omega)]
    rfl
  · simp only [Ind.signal, Ind.RangeIndicator.signal]
    simp only [Spec.columns, List.forall_mem_cons] at hT
    simp only [inputColumns, Ind.required, List.forall_mem_cons] at hF
    have hlen := hE (by simp)
    rw [if_neg (by omega), iat_eq (T.col "ri") 2 (by decide) (by omega), ok_bind,
      iat_eq (T.col "ri") 1 (by decide) (by omega), ok_bind,
      iat_eq (F.col "close") 2 (by decide) (by omega), ok_bind, iat_eq (F.col "close") 1 (by decide) (by omega), ok_bind]
    rw [if_neg (by simpa [crossUp] using hc), if_pos (by simp [crossUp, ha, hb])]
    have hnil : (((F.col "close").zip (T.col "ri")).filter fun p => p.2 <ᵥ 20) = [] := by
      rw [List.filter_eq_nil_iff]
      intro x hx
      exact hall x.2 (List.of_mem_zip hx).2
    rw [hnil, iat_error _ _ (by simp)]
    rfl

end TTI
