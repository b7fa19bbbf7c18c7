import Verif.Spec.Params
import Verif.Model.Api
import Verif.Props.Build

set_option autoImplicit false

/-!
# Parameter validation (C35)
-/

namespace TTI.Props
open TTI.Spec

theorem asInt_iff (a : PyArg) (n : ℤ) : a.asInt = some n ↔ IsInt a n := by
  cases a <;> simp [PyArg.asInt, IsInt]
  case bool b => cases b <;> simp [IsInt, eq_comm]

theorem isInt_unique (a : PyArg) (m n : ℤ) (h : IsInt a m) (h' : IsInt a n) : m = n := by
  rw [← asInt_iff] at h h'
  rw [h] at h'
  exact Option.some.inj h'

theorem asNumber_iff (a : PyArg) (v : Val) : a.asNumber = some v ↔ IsNumber a v := by
  cases a <;> simp [PyArg.asNumber, IsNumber, IsInt, eq_comm]
  case bool b => cases b <;> simp [IsInt, eq_comm]

theorem isNumber_unique (a : PyArg) (m n : Val) (h : IsNumber a m) (h' : IsNumber a n) : m = n := by
  rw [← asNumber_iff] at h h'
  rw [h] at h'
  exact Option.some.inj h'

/-- One integer parameter. -/
theorem checked_int (accepted : Ind → Prop) (ps : List Param) (a : PyArg) (bound : ℕ) (k : ℕ → Except Err Ind)
    (h : ∀ n : ℕ, IsInt a n → bound < n → Checked accepted (k n) ps) :
    Checked accepted (intAbove bound a >>= k) (integer a (bound + 1) :: ps) := by
  unfold Checked intAbove
  cases ha : a.asInt with
  | none =>
    left
    refine ⟨?_, rfl⟩
    rintro ⟨n, hn⟩
    rw [(asInt_iff a n).2 hn] at ha
    exact absurd ha (by simp)
  | some n =>
    have hn := (asInt_iff a n).1 ha
    right
    by_cases hb : (bound : ℤ) < n
    · right
      refine ⟨⟨n, hn⟩, ⟨n, hn, by omega⟩, ?_⟩
      simp only [if_pos hb]
      have : ((n.toNat : ℕ) : ℤ) = n := Int.toNat_of_nonneg (by omega)
      exact h n.toNat (by rw [this]; exact hn) (by omega)
    · left
      refine ⟨⟨n, hn⟩, ?_, ?_⟩
      · rintro ⟨m, hm, hle⟩
        have := isInt_unique a m n hm hn
        omega
      · simp only [if_neg hb]; rfl

/-- One parameter in general: a check whose outcome is as the parameter says. -/
theorem checked_step {β : Type} (accepted : Ind → Prop) (ps : List Param) (p : Param) (r : Except Err β) (k : β → Except Err Ind)
    (h : (¬ p.typed ∧ r = .error .wrongType) ∨ (p.typed ∧ ¬ p.valued ∧ r = .error .wrongValue) ∨
      (p.typed ∧ p.valued ∧ ∃ b, r = .ok b ∧ Checked accepted (k b) ps)) :
    Checked accepted (r >>= k) (p :: ps) := by
  unfold Checked
  rcases h with ⟨h1, rfl⟩ | ⟨h1, h2, rfl⟩ | ⟨h1, h2, b, rfl, h3⟩
  · exact Or.inl ⟨h1, rfl⟩
  · exact Or.inr (Or.inl ⟨h1, h2, rfl⟩)
  · exact Or.inr (Or.inr ⟨h1, h2, h3⟩)

theorem checkStdNumber_outcome (a : PyArg) :
    ((¬ ∃ v, IsNumber a v) ∧ checkStdNumber a = .error .wrongType) ∨
    ((∃ v, IsNumber a v) ∧ (¬ ∃ v, IsNumber a v ∧ (0 : Val) <ᵥ v) ∧ checkStdNumber a = .error .wrongValue) ∨
    ((∃ v, IsNumber a v) ∧ (∃ v, IsNumber a v ∧ (0 : Val) <ᵥ v) ∧ ∃ v, checkStdNumber a = .ok v ∧ IsNumber a v) := by
  unfold checkStdNumber
  simp only [← asNumber_iff]
  cases ha : a.asNumber with
  | none => simp
  | some v => by_cases hv : (0 : Val) <ᵥ v <;> simp [hv]

theorem checkShift_outcome (a : PyArg) :
    ((¬ ∃ v, a = .float v) ∧ checkShift a = .error .wrongType) ∨
    ((∃ v, a = .float v) ∧ (¬ ∃ q : ℚ, a = .float (.fin q) ∧ 0 < q ∧ q < 1) ∧ checkShift a = .error .wrongValue) ∨
    ((∃ v, a = .float v) ∧ (∃ q : ℚ, a = .float (.fin q) ∧ 0 < q ∧ q < 1) ∧
      ∃ q, checkShift a = .ok q ∧ a = .float (.fin q)) := by
  cases a <;> simp [checkShift]
  rename_i v
  cases v <;> simp
  rename_i q
  by_cases h : q < 1 ∧ 0 < q
  · simp [h]
  · left; exact ⟨fun h0 => not_lt.1 fun h1 => h ⟨h1, h0⟩, fun h1 => not_lt.1 fun h0 => h ⟨h1, h0⟩⟩

theorem checkMaType_outcome (a : PyArg) :
    ((¬ ∃ s, IsStr a s) ∧ checkMaType a = .error .wrongType) ∨
    ((∃ s, IsStr a s) ∧ (¬ ∃ s ∈ ["simple", "exponential", "time_series", "triangular", "variable"], IsStr a s) ∧
      checkMaType a = .error .wrongValue) ∨
    ((∃ s, IsStr a s) ∧ (∃ s ∈ ["simple", "exponential", "time_series", "triangular", "variable"], IsStr a s) ∧
      ∃ t, checkMaType a = .ok t ∧ IsStr a t.str) := by
  cases a <;> simp [checkMaType, IsStr]
  rename_i s
  split_ifs <;> simp_all [Ind.MaType.str]

theorem checkMaPeriod_outcome (a b : PyArg) :
    ((¬ ∃ n, IsInt a n) ∧ checkMaPeriod a b = .error .wrongType) ∨
    ((∃ n, IsInt a n) ∧ (¬ ∃ n, IsInt a n ∧ 1 ≤ n ∧ (IsStr b "time_series" → 2 ≤ n)) ∧
      checkMaPeriod a b = .error .wrongValue) ∨
    ((∃ n, IsInt a n) ∧ (∃ n, IsInt a n ∧ 1 ≤ n ∧ (IsStr b "time_series" → 2 ≤ n)) ∧
      ∃ n : ℕ, checkMaPeriod a b = .ok n ∧ IsInt a n) := by
  have hb : b = .str "time_series" ↔ IsStr b "time_series" := by cases b <;> simp [IsStr]
  unfold checkMaPeriod
  simp only [← asInt_iff, hb]
  cases ha : a.asInt with
  | none => simp
  | some n =>
    right
    by_cases hv : 1 ≤ n ∧ (IsStr b "time_series" → 2 ≤ n)
    · right
      refine ⟨⟨n, rfl⟩, ⟨n, rfl, hv⟩, n.toNat, ?_, ?_⟩
      · have h1 : ¬ (b = .str "time_series" ∧ n < 2) := fun h => by have := hv.2 (hb.1 h.1); omega
        simp only [if_neg h1, if_pos (show 0 < n by omega)]
      · rw [Int.toNat_of_nonneg (by omega)]
    · left
      refine ⟨⟨n, rfl⟩, ?_, ?_⟩
      · rintro ⟨m, hm, h⟩
        rw [← Option.some.inj hm] at h
        exact hv h
      · simp only
        split_ifs with h1 h2
        · rfl
        · exact absurd ⟨by omega, fun h => by by_contra h3; exact h1 ⟨hb.2 h, by omega⟩⟩ hv
        · rfl

theorem checkMode_outcome (a : PyArg) :
    ((¬ ∃ s, IsStr a s) ∧ checkMode a = .error .wrongType) ∨
    ((∃ s, IsStr a s) ∧ (¬ ∃ s ∈ ["LONG", "SHORT"], IsStr a s) ∧ checkMode a = .error .wrongValue) ∨
    ((∃ s, IsStr a s) ∧ (∃ s ∈ ["LONG", "SHORT"], IsStr a s) ∧
      ∃ m, checkMode a = .ok m ∧ IsStr a (if m then "LONG" else "SHORT")) := by
  cases a <;> simp [checkMode, IsStr]
  rename_i s
  split_ifs <;> simp_all

theorem checkMethod_outcome (a : PyArg) :
    ((¬ ∃ s, IsStr a s) ∧ checkMethod a = .error .wrongType) ∨
    ((∃ s, IsStr a s) ∧ (¬ ∃ s ∈ ["simple", "exponential"], IsStr a s) ∧ checkMethod a = .error .wrongValue) ∨
    ((∃ s, IsStr a s) ∧ (∃ s ∈ ["simple", "exponential"], IsStr a s) ∧
      ∃ m, checkMethod a = .ok m ∧ IsStr a (if m then "simple" else "exponential")) := by
  cases a <;> simp [checkMethod, IsStr]
  rename_i s
  split_ifs <;> simp_all

theorem checkTarget_outcome (long : Bool) (mode a : PyArg) (hm : IsStr mode (if long then "LONG" else "SHORT")) :
    ((¬ ∃ v, IsNumber a v) ∧ checkTarget long a = .error .wrongType) ∨
    ((∃ v, IsNumber a v) ∧
      (¬ ∃ v, IsNumber a v ∧ ((IsStr mode "LONG" ∧ (0 : Val) ≤ᵥ v) ∨ (IsStr mode "SHORT" ∧ v ≤ᵥ 0))) ∧
      checkTarget long a = .error .wrongValue) ∨
    ((∃ v, IsNumber a v) ∧
      (∃ v, IsNumber a v ∧ ((IsStr mode "LONG" ∧ (0 : Val) ≤ᵥ v) ∨ (IsStr mode "SHORT" ∧ v ≤ᵥ 0))) ∧
      ∃ v, checkTarget long a = .ok v ∧ IsNumber a v) := by
  cases mode <;> simp only [IsStr] at hm
  subst hm
  unfold checkTarget
  simp only [← asNumber_iff, IsStr]
  cases ha : a.asNumber with
  | none => simp
  | some v =>
    cases long
    · cases hv : (v ≤ᵥ 0) <;> simp [hv]
    · cases hv : ((0 : Val) ≤ᵥ v) <;> simp [hv]

theorem checkSlowing_outcome (a : PyArg) :
    ((¬ ∃ n, IsInt a n) ∧ checkSlowing a = .error .wrongType) ∨
    ((∃ n, IsInt a n) ∧ (¬ (IsInt a 1 ∨ IsInt a 3)) ∧ checkSlowing a = .error .wrongValue) ∨
    ((∃ n, IsInt a n) ∧ (IsInt a 1 ∨ IsInt a 3) ∧ ∃ n : ℕ, checkSlowing a = .ok n ∧ IsInt a n) := by
  unfold checkSlowing
  simp only [← asInt_iff]
  cases ha : a.asInt with
  | none => simp
  | some n =>
    by_cases h : n = 1 ∨ n = 3
    · rcases h with rfl | rfl <;> simp
    · simp only [if_neg h]; simp; push Not at h; exact h

/-- C35: every constructor checks its parameters in order against their documented types and ranges: the first one with a
wrong type raises WrongTypeForInputParameter, the first one with a wrong value WrongValueForInputParameter, and if there is
none the indicator is accepted, with the parameter values that were passed. -/
theorem C35_parameters (c : Call) : Checked (Built c) c.check (params c) := by
  cases c <;> simp only [Call.check, params]
  case bollingerBands a b =>
    refine checked_int _ _ _ 0 _ fun p hp _ => checked_step _ _ _ _ _ ?_
    rcases checkStdNumber_outcome b with h | h | ⟨h1, h2, v, h3, h4⟩
    · exact Or.inl h
    · exact Or.inr (Or.inl h)
    · exact Or.inr (Or.inr ⟨h1, h2, v, h3, _, rfl, hp, h4⟩)
  case envelopes a b =>
    refine checked_int _ _ _ 0 _ fun p hp _ => checked_step _ _ _ _ _ ?_
    rcases checkShift_outcome b with h | h | ⟨h1, h2, v, h3, h4⟩
    · exact Or.inl h
    · exact Or.inr (Or.inl h)
    · exact Or.inr (Or.inr ⟨h1, h2, v, h3, _, rfl, hp, h4⟩)
  case movingAverage a b =>
    refine checked_step _ _ _ _ _ ?_
    rcases checkMaPeriod_outcome a b with h | h | ⟨h1, h2, p, h3, hp⟩
    · exact Or.inl h
    · exact Or.inr (Or.inl h)
    · refine Or.inr (Or.inr ⟨h1, h2, p, h3, checked_step _ _ _ _ _ ?_⟩)
      rcases checkMaType_outcome b with h | h | ⟨h1, h2, t, h3, ht⟩
      · exact Or.inl h
      · exact Or.inr (Or.inl h)
      · exact Or.inr (Or.inr ⟨h1, h2, t, h3, _, rfl, hp, ht⟩)
  case performance a b =>
    refine checked_step _ _ _ _ _ ?_
    rcases checkMode_outcome a with h | h | ⟨h1, h2, m, h3, hm⟩
    · exact Or.inl h
    · exact Or.inr (Or.inl h)
    · refine Or.inr (Or.inr ⟨h1, h2, m, h3, checked_step _ _ _ _ _ ?_⟩)
      rcases checkTarget_outcome m a b hm with h | h | ⟨h1, h2, t, h3, ht⟩
      · exact Or.inl h
      · exact Or.inr (Or.inl h)
      · exact Or.inr (Or.inr ⟨h1, h2, t, h3, _, rfl, hm, ht⟩)
  case priceOscillator a b =>
    refine checked_int _ _ _ 0 _ fun l hl _ => checked_int _ _ _ 0 _ fun s hs _ => ?_
    unfold Checked Checked
    by_cases h : l ≤ s
    · simp only [if_pos h]
      refine Or.inr (Or.inl ⟨trivial, ?_, rfl⟩)
      rintro ⟨l', s', hl', hs', hlt⟩
      have := isInt_unique _ _ _ hl hl'
      have := isInt_unique _ _ _ hs hs'
      omega
    · simp only [if_neg h]
      exact Or.inr (Or.inr ⟨trivial, ⟨l, s, hl, hs, by omega⟩, _, rfl, hl, hs⟩)
  case volumeOscillator a b =>
    refine checked_int _ _ _ 0 _ fun l hl _ => checked_int _ _ _ 0 _ fun s hs _ => ?_
    unfold Checked Checked
    by_cases h : l ≤ s
    · simp only [if_pos h]
      refine Or.inr (Or.inl ⟨trivial, ?_, rfl⟩)
      rintro ⟨l', s', hl', hs', hlt⟩
      have := isInt_unique _ _ _ hl hl'
      have := isInt_unique _ _ _ hs hs'
      omega
    · simp only [if_neg h]
      exact Or.inr (Or.inr ⟨trivial, ⟨l, s, hl, hs, by omega⟩, _, rfl, hl, hs⟩)
  case stochasticOscillator a b c d =>
    refine checked_int _ _ _ 0 _ fun k hk _ => checked_step _ _ _ _ _ ?_
    rcases checkSlowing_outcome b with h | h | ⟨h1, h2, n, h3, hn⟩
    · exact Or.inl h
    · exact Or.inr (Or.inl h)
    · refine Or.inr (Or.inr ⟨h1, h2, n, h3, ?_⟩)
      refine checked_int _ _ _ 0 _ fun dp hd _ => checked_step _ _ _ _ _ ?_
      rcases checkMethod_outcome d with h | h | ⟨h1, h2, m, h3, hm⟩
      · exact Or.inl h
      · exact Or.inr (Or.inl h)
      · exact Or.inr (Or.inr ⟨h1, h2, m, h3, _, rfl, hk, hn, hd, hm⟩)
  all_goals first
    | exact ⟨_, rfl, trivial⟩
    | exact checked_int _ _ _ 0 _ fun p hp _ => ⟨_, rfl, hp⟩
    | exact checked_int _ _ _ 1 _ fun p hp _ => ⟨_, rfl, hp⟩
    | exact checked_int _ _ _ 0 _ fun p hp _ => checked_int _ _ _ 0 _ fun q hq _ => ⟨_, rfl, hp, hq⟩
    | exact checked_int _ _ _ 0 _ fun p hp _ => checked_int _ _ _ 0 _ fun q hq _ =>
        checked_int _ _ _ 0 _ fun r hr _ => ⟨_, rfl, hp, hq, hr⟩

theorem checked_ok (accepted : Ind → Prop) (r : Except Err Ind) (ps : List Param) (h : Checked accepted r ps) :
    (∃ ind, r = .ok ind) ↔ ∀ p ∈ ps, p.typed ∧ p.valued := by
  induction ps with
  | nil => obtain ⟨ind, hi, -⟩ := h; simp [hi]
  | cons p ps ih =>
    rcases h with ⟨h1, rfl⟩ | ⟨h1, h2, rfl⟩ | ⟨h1, h2, h3⟩
    · simp [h1]
    · simp [h2]
    · rw [ih h3]; simp [h1, h2]

/-- C35: the parameters of a call are accepted exactly when all of them have the documented type and range. -/
theorem C35_accepted_iff (c : Call) : (∃ ind, c.check = .ok ind) ↔ ∀ p ∈ params c, p.typed ∧ p.valued :=
  checked_ok _ _ _ (C35_parameters c)

/-- C35: the parameters are checked before the data: if one of them is not as documented, its exception is raised whatever
the data and the other arguments are, and the caller's frame is left alone. -/
theorem C35_before_data (E : Env) (c : Call) (data : InputArg) (fill : PyArg)
    (h : ¬ ∀ p ∈ params c, p.typed ∧ p.valued) :
    ∃ e, (e = .wrongType ∨ e = .wrongValue) ∧ construct E c data fill = (data, .error e) := by
  have hc := C35_parameters c
  have hi := mt (C35_accepted_iff c).1 h
  have key : ∀ ps, Checked (Built c) c.check ps → c.check = .error .wrongType ∨ c.check = .error .wrongValue := by
    intro ps
    induction ps with
    | nil => rintro ⟨ind, h1, -⟩; exact absurd ⟨ind, h1⟩ hi
    | cons p ps ih =>
      rintro (⟨-, h1⟩ | ⟨-, -, h1⟩ | ⟨-, -, h1⟩)
      · exact Or.inl h1
      · exact Or.inr h1
      · exact ih h1
  rcases key _ hc with h1 | h1
  · exact ⟨_, Or.inl rfl, by simp only [construct, h1]⟩
  · exact ⟨_, Or.inr rfl, by simp only [construct, h1]⟩

/-- C35: `fill_missing_values` must be a bool, and is looked at after the parameters and before the data. -/
theorem C35_fill (E : Env) (c : Call) (data : InputArg) (fill : PyArg) (hc : ∀ p ∈ params c, p.typed ∧ p.valued)
    (hf : ∀ b, fill ≠ .bool b) : construct E c data fill = (data, .error .wrongType) := by
  obtain ⟨ind, hi⟩ := (C35_accepted_iff c).2 hc
  unfold construct
  rw [hi]
  cases fill <;> simp_all

example : (∀ p ∈ params (.performance (.str "LONG") (.int 0)), p.typed ∧ p.valued) ∧
    ¬ (∀ p ∈ params (.performance (.str "LONG") (.float (.fin (-1)))), p.typed ∧ p.valued) ∧
    (Call.performance (.str "LONG") (.float (.fin (-1)))).check = .error .wrongValue ∧
    (Call.priceOscillator (.int 3) (.float (.fin 1))).check = .error .wrongType ∧
    (Call.priceOscillator (.int 3) (.int 3)).check = .error .wrongValue := by
  rw [← C35_accepted_iff, ← C35_accepted_iff]
  refine ⟨⟨.performance true (.fin 0), by decide⟩, ?_, by decide, by decide, by decide⟩
  rintro ⟨ind, h⟩
  have : (Call.performance (.str "LONG") (.float (.fin (-1)))).check = .error .wrongValue := by decide
  rw [this] at h
  simp at h

end TTI.Props
