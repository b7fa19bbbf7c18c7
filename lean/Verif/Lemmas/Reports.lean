import Verif.Lemmas.Messages
import Verif.Props.Params

set_option autoImplicit false

/-!
# What the checks of the parameters report
-/

namespace TTI.Props
open TTI.Spec

/-- What a check of one argument says: nothing if the argument is as documented, otherwise an exception about it. -/
structure Reports (c : Call) (keyword : String) (a shown : PyArg) (p : Param) (r : Option Report) : Prop where
  fine : r = none → p.typed ∧ p.valued
  type : ¬ p.typed → ∃ s, r = some (.wrongType shown keyword s)
  value : p.typed → ¬ p.valued → ∃ s, r = some (.wrongValue shown keyword s)
  silent : p.typed → p.valued → r = none
  told : ∀ s, r = some (.wrongType shown keyword s) → ¬ OfType s a
  told' : ∀ s, r = some (.wrongValue shown keyword s) → ¬ OfValue c s a

theorem Reports.cases {c : Call} {keyword : String} {a shown : PyArg} {p : Param} {r : Option Report}
    (h : Reports c keyword a shown p r) :
    (r = none ∧ p.typed ∧ p.valued) ∨
    (∃ s, r = some (.wrongType shown keyword s) ∧ ¬ p.typed ∧ ¬ OfType s a) ∨
    (∃ s, r = some (.wrongValue shown keyword s) ∧ p.typed ∧ ¬ p.valued ∧ ¬ OfValue c s a) := by
  by_cases ht : p.typed
  · by_cases hv : p.valued
    · exact Or.inl ⟨h.silent ht hv, ht, hv⟩
    · obtain ⟨s, hs⟩ := h.value ht hv
      exact Or.inr (Or.inr ⟨s, hs, ht, hv, h.told' s hs⟩)
  · obtain ⟨s, hs⟩ := h.type ht
    exact Or.inr (Or.inl ⟨s, hs, ht, h.told s hs⟩)

theorem isNumber_of_isInt (a : PyArg) (n : ℤ) (v : Val) (h : IsInt a n) (hv : IsNumber a v) : v = .fin n := by
  cases a <;> simp only [IsNumber, IsInt] at h hv
  · obtain ⟨m, h1, h2⟩ := hv; rw [h2, ← h1, h]
  · rename_i b
    obtain ⟨m, h1, h2⟩ := hv
    cases b <;> simp only [IsInt] at h h1 <;> rw [h2, h1, h]

theorem ofValue_above1 (c : Call) (a : PyArg) : OfValue c ">1" a ↔ ∃ v, IsNumber a v ∧ (1 : Val) <ᵥ v := by
  simp [OfValue]

theorem ofValue_shift (c : Call) (a : PyArg) :
    OfValue c ">0.0 and <1.0" a ↔ ∃ v, IsNumber a v ∧ (0 : Val) <ᵥ v ∧ v <ᵥ 1 := by
  simp [OfValue]

theorem ofValue_maType (c : Call) (a : PyArg) :
    OfValue c "'simple', 'exponential', 'time_series', 'triangular' or 'variable'" a ↔
      ∃ s ∈ ["simple", "exponential", "time_series", "triangular", "variable"], IsStr a s := by
  simp [OfValue]

theorem ofValue_mode (c : Call) (a : PyArg) : OfValue c "'LONG' or 'SHORT'" a ↔ IsStr a "LONG" ∨ IsStr a "SHORT" := by
  simp [OfValue]

theorem ofValue_target (c : Call) (a : PyArg) :
    OfValue c ">=0 for mode 'LONG', <=0 for mode 'SHORT'" a ↔
      ∃ v, IsNumber a v ∧
        (Passed c "mode" (.str "LONG") ∧ (0 : Val) ≤ᵥ v ∨ Passed c "mode" (.str "SHORT") ∧ v ≤ᵥ 0) := by
  simp [OfValue]

theorem ofValue_slowing (c : Call) (a : PyArg) : OfValue c "1 or 3" a ↔ IsInt a 1 ∨ IsInt a 3 := by
  simp [OfValue]

theorem ofValue_method (c : Call) (a : PyArg) :
    OfValue c "'simple' or 'exponential'" a ↔ IsStr a "simple" ∨ IsStr a "exponential" := by
  simp [OfValue]

theorem ofValue_ma (c : Call) (a : PyArg) :
    OfValue c "long_ma > short_ma" a ↔
      ∃ l s b d, Passed c "long_ma" l ∧ Passed c "short_ma" s ∧ IsInt l b ∧ IsInt s d ∧ d < b := by
  simp [OfValue]

theorem ofValue_short (c : Call) (t : String) (a : PyArg) :
    OfValue c ("> short_period [" ++ t ++ "]") a ↔
      ∃ s b d, Passed c "short_period" s ∧ IsInt a b ∧ IsInt s d ∧ d < b := by
  have ne : ∀ u : String, u.toList.take 2 ≠ ['>', ' '] → "> short_period [" ++ t ++ "]" ≠ u := by
    rintro u hu rfl
    apply hu
    have : ("> short_period [" ++ t ++ "]").toList = '>' :: ' ' :: ("short_period [" ++ t ++ "]").toList := by
      simp
    rw [this]
    rfl
  unfold OfValue
  rw [if_neg (ne _ (by decide +kernel)), if_neg (ne _ (by decide +kernel)), if_neg (ne _ (by decide +kernel)),
    if_neg (ne _ (by decide +kernel)), if_neg (ne _ (by decide +kernel)), if_neg (ne _ (by decide +kernel)),
    if_neg (ne _ (by decide +kernel)), if_neg (ne _ (by decide +kernel)), if_neg (ne _ (by decide +kernel))]
  exact ⟨fun h => h ⟨t, rfl⟩, fun h _ => h⟩

theorem notBelow_some (short long : PyArg) (r r' : Report) (h : notBelow short long r = some r') :
    r = r' ∧ ∃ x y, IsInt short x ∧ IsInt long y ∧ y ≤ x := by
  unfold notBelow at h
  cases hs : short.asInt with
  | none => simp [hs] at h
  | some x =>
    cases hl : long.asInt with
    | none => simp [hs, hl] at h
    | some y =>
      simp only [hs, hl] at h
      split_ifs at h with hxy
      exact ⟨Option.some.inj h, x, y, (asInt_iff _ _).1 hs, (asInt_iff _ _).1 hl, hxy⟩

theorem badInt_reports (c : Call) (bound : ℤ) (supports keyword : String) (a : PyArg)
    (hs : (bound = 0 ∧ supports = ">0") ∨ (bound = 1 ∧ supports = ">1")) :
    Reports c keyword a a (integer a (bound + 1)) (badInt bound supports keyword a) := by
  unfold badInt integer
  cases ha : a.asInt with
  | none =>
    have hn : ¬ ∃ n, IsInt a n := by
      rintro ⟨n, hn⟩
      rw [(asInt_iff a n).2 hn] at ha
      exact absurd ha (by simp)
    refine ⟨by simp, fun _ => ⟨_, rfl⟩, fun h => absurd h hn, fun h => absurd h hn, ?_, by simp⟩
    intro s h
    simp only [Option.some.injEq, Report.wrongType.injEq, true_and] at h
    rw [← h]
    simpa [OfType] using hn
  | some n =>
    have hn := (asInt_iff a n).1 ha
    by_cases hb : bound < n
    · simp only [if_pos hb]
      refine ⟨fun _ => ⟨⟨n, hn⟩, n, hn, by omega⟩, fun h => absurd ⟨n, hn⟩ h,
        fun _ h => absurd ⟨n, hn, by omega⟩ h, fun _ _ => rfl, by simp, by simp⟩
    · simp only [if_neg hb]
      refine ⟨by simp, fun h => absurd ⟨n, hn⟩ h, fun _ _ => ⟨_, rfl⟩, ?_, by simp, ?_⟩
      · rintro - ⟨m, hm, hle⟩
        have := isInt_unique a m n hm hn
        omega
      · intro s h
        simp only [Option.some.injEq, Report.wrongValue.injEq, true_and] at h
        rw [← h]
        rcases hs with ⟨rfl, rfl⟩ | ⟨rfl, rfl⟩
        · simp only [OfValue, if_true]
          rintro ⟨v, h1, h2⟩
          rw [isNumber_of_isInt a n v hn h1] at h2
          simp [Val.lt] at h2
          omega
        · rw [ofValue_above1]
          rintro ⟨v, h1, h2⟩
          rw [isNumber_of_isInt a n v hn h1] at h2
          simp [Val.lt] at h2
          have : (1 : ℚ) < ((n : ℤ) : ℚ) := h2
          norm_cast at this

theorem badStdNumber_reports (c : Call) (a : PyArg) :
    Reports c "std_number" a a ⟨∃ v, IsNumber a v, ∃ v, IsNumber a v ∧ (0 : Val) <ᵥ v⟩ (badStdNumber a) := by
  unfold badStdNumber
  simp only [← asNumber_iff]
  cases ha : a.asNumber with
  | none =>
    refine ⟨by simp, fun _ => ⟨_, rfl⟩, by simp, by simp, ?_, by simp⟩
    intro s h
    simp only [Option.some.injEq, Report.wrongType.injEq, true_and] at h
    simp [← h, OfType, ← asNumber_iff, ha]
  | some v =>
    by_cases hv : (0 : Val) <ᵥ v
    · simp only [if_pos hv]
      exact ⟨by simp [hv], by simp, by simp [hv], by simp, by simp, by simp⟩
    · simp only [if_neg hv]
      refine ⟨by simp, by simp, fun _ _ => ⟨_, rfl⟩, by simp [hv], by simp, ?_⟩
      intro s h
      simp only [Option.some.injEq, Report.wrongValue.injEq, true_and] at h
      simp [← h, OfValue, ← asNumber_iff, ha, hv]

theorem badShift_reports (c : Call) (period a : PyArg) :
    Reports c "shift" a period ⟨∃ v, a = .float v, ∃ q : ℚ, a = .float (.fin q) ∧ 0 < q ∧ q < 1⟩ (badShift period a) := by
  have hv : ∀ v, a = .float v → (¬ ∃ q, v = .fin q ∧ 0 < q ∧ q < 1) → ¬ OfValue c ">0.0 and <1.0" a := by
    rintro v rfl h
    rw [ofValue_shift]
    rintro ⟨w, h1, h2, h3⟩
    simp only [IsNumber] at h1
    subst h1
    cases v with
    | nan => simp [Val.lt] at h2
    | pinf => exact absurd h3 (by decide)
    | ninf => exact absurd h2 (by decide)
    | fin q => exact h ⟨q, rfl, by simpa [Val.lt] using (of_decide_eq_true h2 : (0 : ℚ) < q), (of_decide_eq_true h3 : q < 1)⟩
  cases a with
  | float v =>
    cases v with
    | fin q =>
      by_cases hq : q < 1 ∧ 0 < q
      · simp only [badShift, if_pos hq]
        exact ⟨by simp [hq], by simp, by simp [hq], by simp, by simp, by simp⟩
      · simp only [badShift, if_neg hq]
        have hq' : ¬ (0 < q ∧ q < 1) := fun h => hq ⟨h.2, h.1⟩
        refine ⟨by simp, by simp, fun _ _ => ⟨_, rfl⟩, ?_, by simp, ?_⟩
        · rintro - ⟨q', h1, h2⟩
          simp only [PyArg.float.injEq, Val.fin.injEq] at h1
          rw [← h1] at h2
          exact absurd h2 hq'
        · intro s h
          simp only [Option.some.injEq, Report.wrongValue.injEq, true_and] at h
          rw [← h]
          refine hv _ rfl ?_
          rintro ⟨q', h1, h2⟩
          simp only [Val.fin.injEq] at h1
          rw [← h1] at h2
          exact hq' h2
    | _ =>
      simp only [badShift]
      refine ⟨by simp, by simp, fun _ _ => ⟨_, rfl⟩, by simp, by simp, ?_⟩
      intro s h
      simp only [Option.some.injEq, Report.wrongValue.injEq, true_and] at h
      rw [← h]
      exact hv _ rfl (by simp)
  | _ =>
    simp only [badShift]
    refine ⟨by simp, fun _ => ⟨_, rfl⟩, by simp, by simp, ?_, by simp⟩
    intro s h
    simp only [Option.some.injEq, Report.wrongType.injEq, true_and] at h
    rw [← h]
    simp [OfType]

theorem badMaPeriod_reports (c : Call) (a b : PyArg) :
    Reports c "period" a a ⟨∃ n, IsInt a n, ∃ n, IsInt a n ∧ 1 ≤ n ∧ (IsStr b "time_series" → 2 ≤ n)⟩
      (badMaPeriod a b) := by
  have hb : b = .str "time_series" ↔ IsStr b "time_series" := by cases b <;> simp [IsStr]
  unfold badMaPeriod
  cases ha : a.asInt with
  | none =>
    have hn : ¬ ∃ n, IsInt a n := by simp [← asInt_iff, ha]
    refine ⟨by simp, fun _ => ⟨_, rfl⟩, fun h => absurd h hn, fun h => absurd h hn, ?_, by simp⟩
    intro s h
    simp only [Option.some.injEq, Report.wrongType.injEq, true_and] at h
    rw [← h]
    simpa [OfType] using hn
  | some n =>
    have hn := (asInt_iff a n).1 ha
    have hu : ∀ m, IsInt a m → m = n := fun m hm => isInt_unique a m n hm hn
    have hz : ∀ v, IsNumber a v → v = .fin n := fun v => isNumber_of_isInt a n v hn
    simp only
    split_ifs with h1 h2
    · refine ⟨by simp, fun h => absurd ⟨n, hn⟩ h, fun _ _ => ⟨_, rfl⟩, ?_, by simp, ?_⟩
      · rintro - ⟨m, hm, -, h3⟩
        have := hu m hm
        have := h3 (hb.1 h1.1)
        omega
      · intro s h
        simp only [Option.some.injEq, Report.wrongValue.injEq, true_and] at h
        rw [← h]
        rw [ofValue_above1]
        rintro ⟨v, h3, h4⟩
        rw [hz v h3] at h4
        have : (1 : ℚ) < ((n : ℤ) : ℚ) := of_decide_eq_true h4
        norm_cast at this
        omega
    · exact ⟨fun _ => ⟨⟨n, hn⟩, n, hn, by omega, fun h => by by_contra h3; exact h1 ⟨hb.2 h, by omega⟩⟩,
        fun h => absurd ⟨n, hn⟩ h,
        fun _ h => absurd ⟨n, hn, by omega, fun h => by by_contra h3; exact h1 ⟨hb.2 h, by omega⟩⟩ h, fun _ _ => rfl,
        by simp, by simp⟩
    · refine ⟨by simp, fun h => absurd ⟨n, hn⟩ h, fun _ _ => ⟨_, rfl⟩, ?_, by simp, ?_⟩
      · rintro - ⟨m, hm, h3, -⟩
        have := hu m hm
        omega
      · intro s h
        simp only [Option.some.injEq, Report.wrongValue.injEq, true_and] at h
        rw [← h]
        simp only [OfValue, if_true]
        rintro ⟨v, h3, h4⟩
        rw [hz v h3] at h4
        have : (0 : ℚ) < ((n : ℤ) : ℚ) := of_decide_eq_true h4
        norm_cast at this

theorem badOneOf_reports (c : Call) (names : List String) (supports keyword : String) (a : PyArg)
    (hs : OfValue c supports a → ∃ s ∈ names, IsStr a s) :
    Reports c keyword a a (oneOf a names) (badOneOf names supports keyword a) := by
  unfold oneOf
  cases a with
  | str t =>
    by_cases ht : t ∈ names
    · simp only [badOneOf, if_pos ht]
      exact ⟨by simp [IsStr, ht], by simp [IsStr], by simp [IsStr, ht], by simp, by simp, by simp⟩
    · simp only [badOneOf, if_neg ht]
      refine ⟨by simp, by simp [IsStr], fun _ _ => ⟨_, rfl⟩, ?_, by simp, ?_⟩
      · rintro - ⟨s, h1, h2⟩
        simp only [IsStr] at h2
        rw [h2] at ht
        exact absurd h1 ht
      · intro s h
        simp only [Option.some.injEq, Report.wrongValue.injEq, true_and] at h
        rw [← h]
        intro ho
        obtain ⟨s, h1, h2⟩ := hs ho
        simp only [IsStr] at h2
        rw [h2] at ht
        exact ht h1
  | _ =>
    simp only [badOneOf]
    refine ⟨by simp, fun _ => ⟨_, rfl⟩, by simp [IsStr], by simp [IsStr], ?_, by simp⟩
    intro s h
    simp only [Option.some.injEq, Report.wrongType.injEq, true_and] at h
    rw [← h]
    simp [OfType, IsStr]

theorem badTarget_reports (mode a : PyArg) :
    Reports (.performance mode a) "target" a a
      ⟨∃ v, IsNumber a v, ∃ v, IsNumber a v ∧ ((IsStr mode "LONG" ∧ (0 : Val) ≤ᵥ v) ∨ (IsStr mode "SHORT" ∧ v ≤ᵥ 0))⟩
      (badTarget mode a) := by
  have hm : ∀ s, mode = .str s ↔ IsStr mode s := by intro s; cases mode <;> simp [IsStr]
  have hp : ∀ s, Passed (.performance mode a) "mode" (.str s) ↔ IsStr mode s := by
    intro s
    rw [← hm]
    simp [Passed, arguments, eq_comm]
  unfold badTarget
  simp only [← asNumber_iff]
  cases ha : a.asNumber with
  | none =>
    refine ⟨by simp, fun _ => ⟨_, rfl⟩, by simp, by simp, ?_, by simp⟩
    intro s h
    simp only [Option.some.injEq, Report.wrongType.injEq, true_and] at h
    simp [← h, OfType, ← asNumber_iff, ha]
  | some v =>
    have hif : ((mode = .str "LONG" ∧ (0 : Val) ≤ᵥ v) ∨ (mode = .str "SHORT" ∧ v ≤ᵥ 0)) ↔
        ((IsStr mode "LONG" ∧ (0 : Val) ≤ᵥ v) ∨ (IsStr mode "SHORT" ∧ v ≤ᵥ 0)) := by rw [hm, hm]
    by_cases hv : (IsStr mode "LONG" ∧ (0 : Val) ≤ᵥ v) ∨ (IsStr mode "SHORT" ∧ v ≤ᵥ 0)
    · simp only [if_pos (hif.2 hv)]
      exact ⟨fun _ => ⟨⟨v, rfl⟩, v, rfl, hv⟩, by simp, fun _ h => absurd ⟨v, rfl, hv⟩ h, fun _ _ => rfl, by simp, by simp⟩
    · simp only [if_neg (mt hif.1 hv)]
      refine ⟨by simp, by simp, fun _ _ => ⟨_, rfl⟩, ?_, by simp, ?_⟩
      · rintro - ⟨w, h1, h2⟩
        rw [← Option.some.inj h1] at h2
        exact absurd h2 hv
      · intro s h
        simp only [Option.some.injEq, Report.wrongValue.injEq, true_and] at h
        rw [← h]
        rw [ofValue_target]
        simp only [hp, ← asNumber_iff, ha]
        rintro ⟨w, h1, h2⟩
        rw [← Option.some.inj h1] at h2
        exact hv h2

theorem badSlowing_reports (c : Call) (a : PyArg) :
    Reports c "k_slowing_periods" a a ⟨∃ n, IsInt a n, IsInt a 1 ∨ IsInt a 3⟩ (badSlowing a) := by
  unfold badSlowing
  cases ha : a.asInt with
  | none =>
    have hn : ¬ ∃ n, IsInt a n := by simp [← asInt_iff, ha]
    refine ⟨by simp, fun _ => ⟨_, rfl⟩, fun h => absurd h hn, fun h => absurd h hn, ?_, by simp⟩
    intro s h
    simp only [Option.some.injEq, Report.wrongType.injEq, true_and] at h
    rw [← h]
    simpa [OfType] using hn
  | some n =>
    have hn := (asInt_iff a n).1 ha
    by_cases h : n = 1 ∨ n = 3
    · have hv : IsInt a 1 ∨ IsInt a 3 := by
        rcases h with rfl | rfl
        · exact Or.inl hn
        · exact Or.inr hn
      simp only [if_pos h]
      exact ⟨fun _ => ⟨⟨n, hn⟩, hv⟩, fun h => absurd ⟨n, hn⟩ h, fun _ h => absurd hv h, fun _ _ => rfl, by simp, by simp⟩
    · have hv : ¬ (IsInt a 1 ∨ IsInt a 3) := by
        rintro (h1 | h1)
        · exact h (Or.inl (isInt_unique a _ _ hn h1))
        · exact h (Or.inr (isInt_unique a _ _ hn h1))
      simp only [if_neg h]
      refine ⟨by simp, fun h => absurd ⟨n, hn⟩ h, fun _ _ => ⟨_, rfl⟩, fun _ h => absurd h hv, by simp, ?_⟩
      intro s h
      simp only [Option.some.injEq, Report.wrongValue.injEq, true_and] at h
      rw [← h]
      rw [ofValue_slowing]
      exact hv

/-- The report is about the first parameter that is not as documented. -/
def FirstBad (r : Option Report) : List Param → Prop
  | [] => r = none
  | p :: ps =>
    (¬ p.typed ∧ r.map Report.kind = some .wrongType) ∨ (p.typed ∧ ¬ p.valued ∧ r.map Report.kind = some .wrongValue) ∨
      (p.typed ∧ p.valued ∧ FirstBad r ps)

theorem firstBad_step {c : Call} {keyword : String} {a shown : PyArg} {p : Param} {x rest : Option Report} {ps : List Param}
    (h : Reports c keyword a shown p x) (hr : p.typed → p.valued → FirstBad rest ps) : FirstBad (x <|> rest) (p :: ps) := by
  unfold FirstBad
  rcases h.cases with ⟨rfl, h2, h3⟩ | ⟨s, rfl, h2, -⟩ | ⟨s, rfl, h2, h3, -⟩
  · exact Or.inr (Or.inr ⟨h2, h3, by simpa using hr h2 h3⟩)
  · exact Or.inl ⟨h2, rfl⟩
  · exact Or.inr (Or.inl ⟨h2, h3, rfl⟩)

theorem firstBad_last {c : Call} {keyword : String} {a shown : PyArg} {p : Param} {x : Option Report}
    (h : Reports c keyword a shown p x) : FirstBad x [p] := by
  have := firstBad_step (rest := none) (ps := []) h fun _ _ => rfl
  cases x <;> exact this

theorem firstBad_notBelow (short long : PyArg) (r : Report) (hr : r.kind = .wrongValue)
    (hs : ∃ n, IsInt short n) (hl : ∃ n, IsInt long n) :
    FirstBad (notBelow short long r) [⟨True, ∃ l s, IsInt long l ∧ IsInt short s ∧ s < l⟩] := by
  obtain ⟨x, hx⟩ := hs
  obtain ⟨y, hy⟩ := hl
  unfold FirstBad notBelow
  simp only [(asInt_iff _ _).2 hx, (asInt_iff _ _).2 hy]
  by_cases h : y ≤ x
  · simp only [if_pos h]
    refine Or.inr (Or.inl ⟨trivial, ?_, by simp [hr]⟩)
    rintro ⟨l, s, h1, h2, h3⟩
    have := isInt_unique _ _ _ hy h1
    have := isInt_unique _ _ _ hx h2
    omega
  · simp only [if_neg h]
    exact Or.inr (Or.inr ⟨trivial, ⟨y, x, hy, hx, by omega⟩, rfl⟩)

theorem report_firstBad (X : Texts) (c : Call) : FirstBad (c.report X) (params c) := by
  cases c <;> simp only [Call.report, params]
  case bollingerBands a b =>
    exact firstBad_step (badInt_reports (.bollingerBands a b) 0 ">0" "period" a (by simp)) fun _ _ =>
      firstBad_last (badStdNumber_reports (.bollingerBands a b) b)
  case envelopes a b =>
    exact firstBad_step (badInt_reports (.envelopes a b) 0 ">0" "period" a (by simp)) fun _ _ =>
      firstBad_last (badShift_reports (.envelopes a b) a b)
  case movingAverage a b =>
    exact firstBad_step (badMaPeriod_reports (.movingAverage a b) a b) fun _ _ =>
      firstBad_last (badOneOf_reports (.movingAverage a b) _ _ _ b (ofValue_maType _ b).1)
  case performance a b =>
    exact firstBad_step (badOneOf_reports (.performance a b) _ _ _ a fun h => by simpa using (ofValue_mode _ a).1 h)
      fun _ _ => firstBad_last (badTarget_reports a b)
  case stochasticOscillator a b c d =>
    exact firstBad_step (badInt_reports (.stochasticOscillator a b c d) 0 ">0" _ a (by simp)) fun _ _ =>
      firstBad_step (badSlowing_reports (.stochasticOscillator a b c d) b) fun _ _ =>
      firstBad_step (badInt_reports (.stochasticOscillator a b c d) 0 ">0" _ c (by simp)) fun _ _ =>
      firstBad_last (badOneOf_reports (.stochasticOscillator a b c d) _ _ _ d
        fun h => by simpa using (ofValue_method _ d).1 h)
  case priceOscillator a b =>
    exact firstBad_step (badInt_reports (.priceOscillator a b) 0 ">0" _ a (by simp)) fun h1 _ =>
      firstBad_step (badInt_reports (.priceOscillator a b) 0 ">0" _ b (by simp)) fun h2 _ =>
      firstBad_notBelow b a _ rfl h2 h1
  case volumeOscillator a b =>
    exact firstBad_step (badInt_reports (.volumeOscillator a b) 0 ">0" _ a (by simp)) fun h1 _ =>
      firstBad_step (badInt_reports (.volumeOscillator a b) 0 ">0" _ b (by simp)) fun h2 _ =>
      firstBad_notBelow b a _ rfl h2 h1
  all_goals first
    | rfl
    | exact firstBad_last (badInt_reports .averageTrueRange 0 ">0" _ _ (by simp))
    | exact firstBad_last (badInt_reports .averageTrueRange 1 ">1" _ _ (by simp))
    | exact firstBad_step (badInt_reports .averageTrueRange 0 ">0" _ _ (by simp)) fun _ _ =>
        firstBad_last (badInt_reports .averageTrueRange 0 ">0" _ _ (by simp))
    | exact firstBad_step (badInt_reports .averageTrueRange 0 ">0" _ _ (by simp)) fun _ _ =>
        firstBad_step (badInt_reports .averageTrueRange 0 ">0" _ _ (by simp)) fun _ _ =>
        firstBad_last (badInt_reports .averageTrueRange 0 ">0" _ _ (by simp))

/-- The report and the check agree. -/
theorem report_check (X : Texts) (c : Call) :
    (∀ r, c.report X = some r → c.check = .error r.kind) ∧ (c.report X = none → ∃ ind, c.check = .ok ind) := by
  have key : ∀ ps, FirstBad (c.report X) ps → Checked (Built c) c.check ps →
      (∀ r, c.report X = some r → c.check = .error r.kind) ∧ (c.report X = none → ∃ ind, c.check = .ok ind) := by
    intro ps
    induction ps with
    | nil =>
      rintro h1 ⟨ind, h2, -⟩
      simp only [FirstBad] at h1
      exact ⟨(fun r hr => by rw [h1] at hr; cases hr), fun _ => ⟨ind, h2⟩⟩
    | cons p ps ih =>
      rintro (⟨h1, h2⟩ | ⟨h1, h2, h3⟩ | ⟨h1, h2, h3⟩) (⟨g1, g2⟩ | ⟨g1, g2, g3⟩ | ⟨g1, g2, g3⟩)
      · refine ⟨fun r hr => ?_, fun hr => ?_⟩
        · rw [hr] at h2; rw [g2, Option.some.inj h2]
        · rw [hr] at h2; cases h2
      · exact absurd g1 h1
      · exact absurd g1 h1
      · exact absurd h1 g1
      · refine ⟨fun r hr => ?_, fun hr => ?_⟩
        · rw [hr] at h3; rw [g3, Option.some.inj h3]
        · rw [hr] at h3; cases h3
      · exact absurd g2 h2
      · exact absurd h1 g1
      · exact absurd h2 g2
      · exact ih h3 g3
  exact key _ (report_firstBad X c) (C35_parameters c)

end TTI.Props
