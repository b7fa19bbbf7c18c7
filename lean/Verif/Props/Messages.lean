import Verif.Lemmas.Messages
import Verif.Lemmas.Reports

set_option autoImplicit false

/-!
# Exception messages (C66)
-/

namespace TTI.Props
open TTI.Spec

/-- The exception is about the argument number `i` of the call: it names its keyword (`VolumeOscillator` once adds a blank),
all arguments before it are as documented, and the argument does not have the type or the value the message asks for. The
message shows the argument, except for `shift` of the `Envelopes`, where it shows the period. -/
structure About (c : Call) (r : Report) (i : ℕ) (keyword : String) (a : PyArg) : Prop where
  passed : (arguments c)[i]? = some (keyword, a)
  named : r.name = keyword ∨ (r.name = keyword ++ " " ∧ ∃ l s, c = .volumeOscillator l s)
  before : ∀ j < i, ∀ p, (params c)[j]? = some p → p.typed ∧ p.valued
  shown : r.shown = a ∨ (keyword = "shift" ∧ ∃ s, c = .envelopes r.shown s)
  type : r.kind = .wrongType → ¬ OfType r.supports a
  value : r.kind = .wrongValue → ¬ OfValue c r.supports a

/-- Going through the arguments one by one. -/
theorem about_step (c : Call) (r : Report) (pre : List (String × PyArg)) (args : List (String × PyArg))
    (prep : List Param) (ps : List Param) (hl : prep.length = pre.length)
    (keyword : String) (a : PyArg) (p : Param) (x rest : Option Report)
    (ha : arguments c = pre ++ (keyword, a) :: args) (hp : params c = prep ++ p :: ps)
    (hf : ∀ q ∈ prep, q.typed ∧ q.valued)
    (hx : Reports c keyword a a p x) (h : (x <|> rest) = some r)
    (hrest : p.typed → p.valued → rest = some r → ∃ i keyword a, About c r i keyword a) :
    ∃ i keyword a, About c r i keyword a := by
  have hbefore : ∀ j < pre.length, ∀ q, (params c)[j]? = some q → q.typed ∧ q.valued := by
    intro j hj q hq
    rw [hp, List.getElem?_append_left (by omega)] at hq
    exact hf q (List.mem_of_getElem? hq)
  have hpassed : (arguments c)[pre.length]? = some (keyword, a) := by
    rw [ha]; simp
  rcases hx.cases with ⟨h1, h2, h3⟩ | ⟨s, h1, h2, h3⟩ | ⟨s, h1, h2, h3, h4⟩
  · rw [h1] at h
    exact hrest h2 h3 (by simpa using h)
  · rw [h1] at h
    obtain rfl : Report.wrongType a keyword s = r := by simpa using h
    exact ⟨pre.length, keyword, a, hpassed, Or.inl rfl, hbefore, Or.inl rfl, fun _ => h3, fun h => by cases h⟩
  · rw [h1] at h
    obtain rfl : Report.wrongValue a keyword s = r := by simpa using h
    exact ⟨pre.length, keyword, a, hpassed, Or.inl rfl, hbefore, Or.inl rfl, (fun h => by cases h), fun _ => h4⟩

/-- C66: an exception about a parameter is about the first argument that is not as documented; it names that parameter, shows
what was passed for it, and what was passed is not among the supported values or types the message lists. For `shift` of the
`Envelopes` it shows the period instead, and `VolumeOscillator` once prints a blank after the name. -/
theorem C66_parameter (X : Texts) (c : Call) (r : Report) (h : c.report X = some r) :
    ∃ i keyword a, About c r i keyword a := by
  have last : ∀ {x : Option Report}, x = some r → (x <|> none) = some r := by rintro x rfl; rfl
  cases c <;> simp only [Call.report] at h
  case bollingerBands a b =>
    exact about_step _ r [] _ [] _ rfl _ a _ _ _ rfl rfl (by simp) (badInt_reports _ 0 ">0" _ a (by simp)) h
      fun h1 h2 h => about_step _ r [_] [] [_] [] rfl _ b _ _ none rfl rfl (by simpa using ⟨h1, h2⟩)
        (badStdNumber_reports _ b) (last h) (by simp)
  case movingAverage a b =>
    exact about_step _ r [] _ [] _ rfl _ a _ _ _ rfl rfl (by simp) (badMaPeriod_reports _ a b) h
      fun h1 h2 h => about_step _ r [_] [] [_] [] rfl _ b _ _ none rfl rfl (by simpa using ⟨h1, h2⟩)
        (badOneOf_reports _ _ _ _ b (ofValue_maType _ b).1) (last h) (by simp)
  case performance a b =>
    exact about_step _ r [] _ [] _ rfl _ a _ _ _ rfl rfl (by simp)
      (badOneOf_reports _ _ _ _ a fun h => by simpa using (ofValue_mode _ a).1 h) h
      fun h1 h2 h => about_step _ r [_] [] [_] [] rfl _ b _ _ none rfl rfl (by simpa using ⟨h1, h2⟩)
        (badTarget_reports a b) (last h) (by simp)
  case stochasticOscillator a b c d =>
    exact about_step _ r [] _ [] _ rfl _ a _ _ _ rfl rfl (by simp) (badInt_reports _ 0 ">0" _ a (by simp)) h
      fun h1 h2 h => about_step _ r [_] _ [_] _ rfl _ b _ _ _ rfl rfl (by simpa using ⟨h1, h2⟩)
        (badSlowing_reports _ b) h
      fun h3 h4 h => about_step _ r [_, _] _ [_, _] _ rfl _ c _ _ _ rfl rfl (by simpa using ⟨⟨h1, h2⟩, h3, h4⟩)
        (badInt_reports _ 0 ">0" _ c (by simp)) h
      fun h5 h6 h => about_step _ r [_, _, _] [] [_, _, _] [] rfl _ d _ _ none rfl rfl
        (by simpa using ⟨⟨h1, h2⟩, ⟨h3, h4⟩, h5, h6⟩)
        (badOneOf_reports _ _ _ _ d fun h => by simpa using (ofValue_method _ d).1 h) (last h) (by simp)
  case envelopes a b =>
    refine about_step _ r [] _ [] _ rfl _ a _ _ _ rfl rfl (by simp) (badInt_reports _ 0 ">0" _ a (by simp)) h
      fun h1 h2 h => ?_
    have hb : ∀ j < 1, ∀ p, (params (.envelopes a b))[j]? = some p → p.typed ∧ p.valued := by
      intro j hj p hp
      obtain rfl : j = 0 := by omega
      simp only [params, List.getElem?_cons_zero, Option.some.injEq] at hp
      rw [← hp]; exact ⟨h1, h2⟩
    rcases (badShift_reports (.envelopes a b) a b).cases with ⟨h3, -⟩ | ⟨s, h3, -, h4⟩ | ⟨s, h3, -, -, h4⟩
    · rw [h3] at h; cases h
    · rw [h3] at h
      obtain rfl := Option.some.inj h
      exact ⟨1, "shift", b, rfl, Or.inl rfl, hb, Or.inr ⟨rfl, b, rfl⟩, fun _ => h4, fun h => by cases h⟩
    · rw [h3] at h
      obtain rfl := Option.some.inj h
      exact ⟨1, "shift", b, rfl, Or.inl rfl, hb, Or.inr ⟨rfl, b, rfl⟩, (fun h => by cases h), fun _ => h4⟩
  case priceOscillator a b =>
    refine about_step _ r [] _ [] _ rfl _ a _ _ _ rfl rfl (by simp) (badInt_reports _ 0 ">0" _ a (by simp)) h
      fun h1 h2 h => about_step _ r [_] _ [_] _ rfl _ b _ _ _ rfl rfl (by simpa using ⟨h1, h2⟩)
        (badInt_reports _ 0 ">0" _ b (by simp)) h fun _ _ h => ?_
    obtain ⟨rfl, x, y, hx, hy, hxy⟩ := notBelow_some _ _ _ _ h
    refine ⟨1, "short_ma", b, rfl, Or.inl rfl, ?_, Or.inl rfl, (fun h => by cases h), fun _ => ?_⟩
    · intro j hj p hp
      obtain rfl : j = 0 := by omega
      simp only [params, List.getElem?_cons_zero, Option.some.injEq] at hp
      rw [← hp]; exact ⟨h1, h2⟩
    · rw [Report.supports, ofValue_ma]
      rintro ⟨l, s, u, v, hl, hs, hu, hv, huv⟩
      simp only [Passed, arguments, List.mem_cons, Prod.mk.injEq, List.not_mem_nil, or_false] at hl hs
      obtain rfl : l = a := by simpa using hl
      obtain rfl : s = b := by simpa using hs
      have := isInt_unique _ _ _ hu hy
      have := isInt_unique _ _ _ hv hx
      omega
  case volumeOscillator a b =>
    refine about_step _ r [] _ [] _ rfl _ a _ _ _ rfl rfl (by simp) (badInt_reports _ 0 ">0" _ a (by simp)) h
      fun h1 h2 h => about_step _ r [_] _ [_] _ rfl _ b _ _ _ rfl rfl (by simpa using ⟨h1, h2⟩)
        (badInt_reports _ 0 ">0" _ b (by simp)) h fun _ _ h => ?_
    obtain ⟨rfl, x, y, hx, hy, hxy⟩ := notBelow_some _ _ _ _ h
    refine ⟨0, "long_period", a, rfl, Or.inr ⟨rfl, a, b, rfl⟩, (fun j hj => absurd hj (by omega)), Or.inl rfl,
      (fun h => by cases h), fun _ => ?_⟩
    rw [Report.supports, ofValue_short]
    rintro ⟨s, u, v, hs, hu, hv, huv⟩
    simp only [Passed, arguments, List.mem_cons, Prod.mk.injEq, List.not_mem_nil, or_false] at hs
    obtain rfl : s = b := by simpa using hs
    have := isInt_unique _ _ _ hu hy
    have := isInt_unique _ _ _ hv hx
    omega
  all_goals first
    | cases h
    | exact about_step _ r [] [] [] [] rfl _ _ _ _ none rfl rfl (by simp)
        (badInt_reports _ 0 ">0" _ _ (by simp)) (last h) (by simp)
    | exact about_step _ r [] [] [] [] rfl _ _ _ _ none rfl rfl (by simp)
        (badInt_reports _ 1 ">1" _ _ (by simp)) (last h) (by simp)
    | exact about_step _ r [] _ [] _ rfl _ _ _ _ _ rfl rfl (by simp) (badInt_reports _ 0 ">0" _ _ (by simp)) h
        fun h1 h2 h => about_step _ r [_] [] [_] [] rfl _ _ _ _ none rfl rfl (by simpa using ⟨h1, h2⟩)
          (badInt_reports _ 0 ">0" _ _ (by simp)) (last h) (by simp)
    | exact about_step _ r [] _ [] _ rfl _ _ _ _ _ rfl rfl (by simp) (badInt_reports _ 0 ">0" _ _ (by simp)) h
        fun h1 h2 h => about_step _ r [_] _ [_] _ rfl _ _ _ _ _ rfl rfl (by simpa using ⟨h1, h2⟩)
          (badInt_reports _ 0 ">0" _ _ (by simp)) h
        fun h3 h4 h => about_step _ r [_, _] [] [_, _] [] rfl _ _ _ _ none rfl rfl (by simpa using ⟨⟨h1, h2⟩, h3, h4⟩)
          (badInt_reports _ 0 ">0" _ _ (by simp)) (last h) (by simp)

/-- C66: the exception about the parameters is raised exactly when there is something to report, and has the class of the
report. -/
theorem C66_raised (X : Texts) (c : Call) :
    (∀ r, c.report X = some r → c.check = .error r.kind) ∧ (c.report X = none → ∃ ind, c.check = .ok ind) :=
  report_check X c

theorem printed_eq (X : Texts) (a : PyArg) : printed X a = a.shownAs X := by
  cases a with
  | int n =>
    cases n with
    | ofNat n =>
      have : ¬ (Int.ofNat n < 0) := by simp
      simp only [printed, PyArg.shownAs, if_neg this]
      simp; rfl
    | negSucc n => simp [printed, PyArg.shownAs]; rfl
  | bool b => cases b <;> rfl
  | _ => rfl

theorem typePrinted_eq (X : Texts) (a : PyArg) : typePrinted X a = a.typeStr X := by cases a <;> rfl

theorem keywords_plain (c : Call) (k : String) (a : PyArg) (h : (k, a) ∈ arguments c) : '<' ∉ k.toList := by
  have : ∀ e ∈ arguments c, '<' ∉ e.1.toList := by
    cases c <;> simp only [arguments, List.forall_mem_cons, List.not_mem_nil, false_implies, implies_true, and_true]
    all_goals decide +kernel
  exact this _ h

/-- C66: the message is the sentence one expects, as long as what it shows does not itself contain the placeholders
`<p_name>` or `<p_supported>`. -/
theorem C66_text (X : Texts) (c : Call) (r : Report) (h : c.report X = some r)
    (h1 : ¬ Mentions (shownText X r) "<p_name>") (h2 : ¬ Mentions (shownText X r) "<p_supported>") :
    r.text X =
      match r with
      | .wrongValue a n s =>
        "Wrong value (" ++ printed X a ++ ") for input parameter (" ++ n ++ "). Supported values are (" ++ s ++ ")."
      | .wrongType a n s =>
        "Wrong type (" ++ typePrinted X a ++ ") for input parameter (" ++ n ++ "). Supported type is (" ++ s ++ ")." := by
  obtain ⟨i, k, a, ha⟩ := C66_parameter X c r h
  have hk := keywords_plain c k a (List.mem_of_getElem? ha.passed)
  have hn : '<' ∉ r.name.toList := by
    rcases ha.named with hn | ⟨hn, -⟩
    · rw [hn]; exact hk
    · rw [hn, String.toList_append, List.mem_append]
      rintro (h | h)
      · exact hk h
      · revert h; decide +kernel
  have hn' := not_mentions r.name "<p_supported>" (by decide +kernel) hn
  cases r with
  | wrongValue a n s =>
    simp only [shownText, printed_eq] at h1 h2 ⊢
    exact wrongValueText_eq _ _ _ h1 h2 hn'
  | wrongType a n s =>
    simp only [shownText, typePrinted_eq] at h1 h2 ⊢
    exact wrongTypeText_eq _ _ _ h1 h2 hn'

/-- C66: in particular for integers, booleans and `None`. -/
theorem C66_plain (X : Texts) (r : Report)
    (h : (∃ n, r.shown = .int n) ∨ (∃ b, r.shown = .bool b) ∨ r.shown = .none) :
    ¬ Mentions (shownText X r) "<p_name>" ∧ ¬ Mentions (shownText X r) "<p_supported>" := by
  cases r with
  | wrongValue a n s =>
    have : '<' ∉ (a.shownAs X).toList := by
      rcases h with ⟨n, h⟩ | ⟨b, h⟩ | h <;> simp only [Report.shown] at h <;> subst h
      · exact toString_int_plain n
      · cases b <;> simp only [PyArg.shownAs] <;> decide +kernel
      · simp only [PyArg.shownAs]; decide +kernel
    rw [← printed_eq] at this
    exact ⟨not_mentions _ _ (by decide +kernel) this, not_mentions _ _ (by decide +kernel) this⟩
  | wrongType a n s =>
    rcases h with ⟨n, h⟩ | ⟨b, h⟩ | h <;> simp only [Report.shown] at h <;> subst h <;>
      exact ⟨by simp only [shownText, typePrinted]; decide +kernel, by simp only [shownText, typePrinted]; decide +kernel⟩

/-- What Python prints, for the examples. -/
def demoTexts : Texts :=
  ⟨fun _ => "0.5", "[]", "<class 'list'>", "<class 'list'>", "RangeIndex", "<class 'list'>", fun _ => "object", fun _ => "..."⟩

/-- C66: in general it is not: a string argument that contains a placeholder changes the rest of the message, and the value
that was passed does not appear in it. -/
theorem C66_placeholder_false :
    ∃ r, (Call.movingAverage (.int 3) (.str "<p_name>")).report demoTexts = some r ∧
      r.text demoTexts = "Wrong value (ma_type) for input parameter (ma_type). Supported values are ('simple', 'exponential', 'time_series', 'triangular' or 'variable')." :=
  ⟨_, rfl, by decide +kernel⟩

example : (Call.volumeOscillator (.int 5) (.int 7)).report demoTexts =
      some (.wrongValue (.int 5) "long_period " "> short_period [7]") ∧
    (Report.wrongValue (.int 5) "long_period " "> short_period [7]").text demoTexts =
      "Wrong value (5) for input parameter (long_period ). Supported values are (> short_period [7])." := by
  decide +kernel

/-- C66: whenever the period of the `Envelopes` is fine and the shift is not, the message about the shift shows the period.
-/
theorem C66_envelopes_false (X : Texts) (n : ℤ) (hn : 0 < n) (shift : PyArg)
    (h : ¬ ∃ q : ℚ, shift = .float (.fin q) ∧ 0 < q ∧ q < 1) :
    ((∃ v, shift = .float v) → ∃ r, (Call.envelopes (.int n) shift).report X = some r ∧ r.text X =
      "Wrong value (" ++ toString n ++ ") for input parameter (shift). Supported values are (>0.0 and <1.0).") ∧
    ((¬ ∃ v, shift = .float v) → ∃ r, (Call.envelopes (.int n) shift).report X = some r ∧ r.text X =
      "Wrong type (<class 'int'>) for input parameter (shift). Supported type is (float).") := by
  have hp : badInt 0 ">0" "period" (.int n) = none := by simp [badInt, PyArg.asInt, hn]
  have hr : (Call.envelopes (.int n) shift).report X = badShift (.int n) shift := by
    simp only [Call.report, hp]
    rfl
  have hs := toString_int_plain n
  constructor
  · rintro ⟨v, rfl⟩
    have : badShift (.int n) (.float v) = some (.wrongValue (.int n) "shift" ">0.0 and <1.0") := by
      cases v with
      | fin q =>
        have : ¬ (q < 1 ∧ 0 < q) := fun hq => h ⟨q, rfl, hq.2, hq.1⟩
        simp only [badShift, if_neg this]
      | _ => rfl
    refine ⟨_, hr.trans this, ?_⟩
    rw [Report.text, PyArg.shownAs, wrongValueText_eq _ _ _ (not_mentions _ _ (by decide +kernel) hs)
      (not_mentions _ _ (by decide +kernel) hs) (by decide +kernel)]
    apply String.toList_inj.1
    simp
  · intro hv
    have : badShift (.int n) shift = some (.wrongType (.int n) "shift" "float") := by
      cases shift with
      | float v => exact absurd ⟨v, rfl⟩ hv
      | _ => rfl
    refine ⟨_, hr.trans this, ?_⟩
    rw [Report.text, PyArg.typeStr]
    decide +kernel

example : ¬ ∃ q : ℚ, PyArg.float (.fin 2) = .float (.fin q) ∧ 0 < q ∧ q < 1 := by
  rintro ⟨q, h, -, h1⟩
  simp only [PyArg.float.injEq, Val.fin.injEq] at h
  rw [← h] at h1
  exact absurd h1 (by norm_num)

/-! ## The data -/

theorem columnText_iff (X : Texts) (indicator : String) (cols : List (String × RawCol)) (name : String) :
    columnText X indicator cols name = none ↔ checkColumn cols name = none := by
  unfold columnText checkColumn
  generalize cols.filter (fun c => c.1 == name) = l
  rcases l with _ | ⟨c, _ | ⟨d, l⟩⟩
  · simp
  · cases h : c.2.numeric <;> simp [h]
  · simp

theorem findSome_none_iff {α β γ : Type} (f : α → Option β) (g : α → Option γ) (h : ∀ a, f a = none ↔ g a = none)
    (l : List α) : l.findSome? f = none ↔ l.findSome? g = none := by
  simp only [List.findSome?_eq_none_iff, h]

/-- C66: the validation of the data raises exactly when it has a message. -/
theorem C66_validation (X : Texts) (input : InputArg) (required : List String) (indicator : String) (fill : Bool) :
    validateText X input required indicator = none ↔ ∃ F, (validateInputData input required fill).2 = .ok F := by
  cases input with
  | notFrame => simp [validateText, validateInputData]
  | frame f =>
    unfold validateText validateInputData
    simp only
    by_cases h1 : f.datetimeIndex = false
    · simp [h1]
    by_cases h2 : f.idx = [] ∨ f.cols = []
    · simp [h1, h2]
    · simp only [if_neg h1, if_neg h2]
      cases hl : lowerLabels f.cols with
      | none => simp
      | some cols =>
        simp only
        have := findSome_none_iff _ _ (columnText_iff X indicator cols) required
        cases hc : checkColumns cols required with
        | some e =>
          cases ht : required.findSome? (columnText X indicator cols) with
          | some t => simp
          | none =>
            unfold checkColumns at hc
            rw [this.1 ht] at hc
            cases hc
        | none =>
          unfold checkColumns at hc
          rw [this.2 hc]
          simp only
          cases dropExtra required (cols.map (·.1)) cols <;> simp

/-- C66: a constructor raises exactly when it has a message. -/
theorem C66_construct (X : Texts) (E : Env) (c : Call) (data : InputArg) (fill : PyArg) :
    constructText X E c data fill = none ↔ ∃ o, (construct E c data fill).2 = .ok o := by
  unfold constructText construct
  cases hr : c.report X with
  | some r => simp [(report_check X c).1 r hr]
  | none =>
    obtain ⟨ind, hi⟩ := (report_check X c).2 hr
    simp only [hi]
    cases fill with
    | bool b =>
      simp only
      have hv := C66_validation X data ind.required ind.className b
      cases ht : validateText X data ind.required ind.className with
      | some t =>
        simp only [reduceCtorEq, false_iff]
        rintro ⟨o, ho⟩
        rcases hd : validateInputData data ind.required b with ⟨caller, r⟩
        rw [hd] at ho hv
        cases r with
        | error e => simp at ho
        | ok F => rw [hv.2 ⟨F, rfl⟩] at ht; cases ht
      | none =>
        obtain ⟨F, hF⟩ := hv.1 ht
        rcases hd : validateInputData data ind.required b with ⟨caller, r⟩
        rw [hd] at hF
        simp only at hF
        subst hF
        simp only
        cases ind.calcTi E F <;> simp
    | _ => simp

/-- C66: the message is about the parameters of the class first, then about `fill_missing_values`, then about the data. -/
theorem C66_order (X : Texts) (E : Env) (c : Call) (data : InputArg) (fill : PyArg) :
    (∀ r, c.report X = some r → constructText X E c data fill = some (r.text X)) ∧
    (∀ ind, c.check = .ok ind → (∀ b, fill ≠ .bool b) →
      ¬ Mentions (typePrinted X fill) "<p_name>" → ¬ Mentions (typePrinted X fill) "<p_supported>" →
      constructText X E c data fill = some ("Wrong type (" ++ typePrinted X fill ++
        ") for input parameter (fill_missing_values). Supported type is (bool).")) ∧
    (∀ ind b t, c.check = .ok ind → fill = .bool b → validateText X data ind.required ind.className = some t →
      constructText X E c data fill = some t) := by
  have hrep : ∀ ind, c.check = .ok ind → c.report X = none := by
    intro ind hc
    cases hr : c.report X with
    | none => rfl
    | some r => rw [(report_check X c).1 r hr] at hc; cases hc
  refine ⟨fun r hr => by simp [constructText, hr], ?_, ?_⟩
  · intro ind hc hb h1 h2
    rw [typePrinted_eq] at h1 h2 ⊢
    unfold constructText
    rw [hrep ind hc, hc]
    cases fill <;> first
      | exact absurd rfl (hb _)
      | (dsimp only
         rw [wrongTypeText_eq _ _ _ h1 h2 (by decide +kernel)]
         simp only [String.append_assoc]
         first | done | rfl)
  · rintro ind b t hc rfl ht
    unfold constructText
    rw [hrep ind hc, hc]
    simp only [ht]

example : constructText demoTexts demoEnv (.momentum (.int 1)) .notFrame (.int 1) =
    some "Wrong type (<class 'int'>) for input parameter (fill_missing_values). Supported type is (bool)." := by decide +kernel

/-- C66: a `long_period` of the `VolumeOscillator` that does not exceed the `short_period` is reported with both. -/
theorem C66_long_period (X : Texts) (m n : ℤ) (hn : 0 < n) (hm : 0 < m) (h : m ≤ n) :
    ∃ r, (Call.volumeOscillator (.int m) (.int n)).report X = some r ∧ r.text X =
      "Wrong value (" ++ toString m ++ ") for input parameter (long_period ). Supported values are (> short_period [" ++
        toString n ++ "])." := by
  have h1 : badInt 0 ">0" "long_period" (.int m) = none := by simp [badInt, PyArg.asInt, hm]
  have h2 : badInt 0 ">0" "short_period" (.int n) = none := by simp [badInt, PyArg.asInt, hn]
  refine ⟨.wrongValue (.int m) "long_period " ("> short_period [" ++ (PyArg.int n).shownAs X ++ "]"), ?_, ?_⟩
  · simp only [Call.report, h1, h2, notBelow, PyArg.asInt, if_pos h]
    rfl
  · have hp := toString_int_plain m
    simp only [Report.text, PyArg.shownAs]
    rw [wrongValueText_eq _ _ _ (not_mentions _ _ (by decide +kernel) hp) (not_mentions _ _ (by decide +kernel) hp) (by decide +kernel)]
    simp only [String.append_assoc]
    rfl

example : (0 : ℤ) < 5 ∧ (0 : ℤ) < 7 ∧ (5 : ℤ) ≤ 7 := by decide

/-- C66: the message about a required column names the first required column that is missing (or not numeric), and the
class. -/
theorem C66_columns (X : Texts) (f : RawFrame) (indicator : String) (before : List String) (name : String) (after : List String)
    (h1 : f.datetimeIndex = true) (h2 : f.idx ≠ []) (h3 : f.cols ≠ []) (h4 : ∀ c ∈ f.cols, c.label ≠ .other)
    (h5 : ∀ b ∈ before, ∃ c, named f b = [c] ∧ c.numeric = true) :
    (named f name = [] → validateText X (.frame f) (before ++ name :: after) indicator =
      some ("Required column `" ++ name ++ "` for the technical indicator `" ++ indicator ++
        "` does not exist in the input_data  pandas.DataFrame.")) ∧
    (∀ c, named f name = [c] → c.numeric = false → validateText X (.frame f) (before ++ name :: after) indicator =
      some ("The input_data pandas.DataFrame must hold columns of numeric type, but column `" ++ name ++
        "` is of type `" ++ X.dtype name ++ "`.")) := by
  have hfil : ∀ n, ((f.cols.map fun c => (c.name, c)).filter fun c => c.1 == n) = (named f n).map fun c => (c.name, c) := by
    intro n
    unfold named
    rw [List.filter_map]
    rfl
  have hb : before.findSome? (columnText X indicator (f.cols.map fun c => (c.name, c))) = none := by
    rw [List.findSome?_eq_none_iff]
    intro b hb
    obtain ⟨c, hc, hn⟩ := h5 b hb
    simp [columnText, hfil, hc, hn]
  have key : ∀ t, columnText X indicator (f.cols.map fun c => (c.name, c)) name = some t →
      validateText X (.frame f) (before ++ name :: after) indicator = some t := by
    intro t ht
    simp only [validateText, h1, Bool.true_eq_false, if_false, h2, h3, or_self]
    rw [lowerLabels_eq, if_pos h4]
    simp only [List.findSome?_append, hb, List.findSome?_cons, ht]
    rfl
  constructor
  · intro h
    exact key _ (by simp [columnText, hfil, h])
  · intro c h hn
    exact key _ (by simp [columnText, hfil, h, hn])

example : validateText demoTexts (.frame demoPrices) ["close", "volume"] "PositiveVolumeIndex" =
    some "Required column `volume` for the technical indicator `PositiveVolumeIndex` does not exist in the input_data  pandas.DataFrame." := by
  decide +kernel

/-- The name in the message is the class name up to blanks, punctuation and upper case, with `(variable)` added for the
variable moving average. -/
def NameOf (ind : Ind) (name : String) : Prop :=
  letters name = letters ind.className ∨
    ((∃ p, ind = .movingAverage p .variableType) ∧ letters name = letters (ind.className ++ "variable"))

theorem shortageName_of (ind : Ind) (name : String) (h : ind.shortageName = some name) :
    NameOf ind name ∧ '<' ∉ name.toList := by
  cases ind <;> simp only [Ind.shortageName, Option.some.injEq, reduceCtorEq] at h
  case movingAverage p t =>
    split_ifs at h with ht
    · subst h ht
      refine ⟨Or.inr ⟨⟨p, rfl⟩, ?_⟩, by decide +kernel⟩
      simp only [Ind.className]
      decide +kernel
    · subst h
      refine ⟨Or.inl ?_, by decide +kernel⟩
      simp only [Ind.className]
      decide +kernel
  all_goals
    subst h
    refine ⟨Or.inl ?_, by decide +kernel⟩
    simp only [Ind.className] <;> decide +kernel

/-- C66: with too few rows the message names the indicator and tells the number of rows that is required and the number that
was found; the first is the larger one, except for the Average True Range, which needs 14 rows and claims to need 2. -/
theorem C66_shortage (X : Texts) (E : Env) (c : Call) (ind : Ind) (f : RawFrame) (fill : Bool) (hw : WF f)
    (hc : c.check = .ok ind) (hv : ∃ F, (validateInputData (.frame f) ind.required fill).2 = .ok F)
    (hn : f.idx.length < Spec.minRows ind) :
    ∃ name, NameOf ind name ∧
      constructText X E c (.frame f) (.bool fill) =
        some ("Not enough input data for calculating the " ++ name ++
          " technical indicator. Minimum required data are (" ++ toString (Spec.reportedRows ind) ++ "), but (" ++
          toString f.idx.length ++ ") found.") ∧
      (ind ≠ .averageTrueRange → f.idx.length < Spec.reportedRows ind) := by
  have herr := (C32_not_enough_iff E c ind f fill hw hc hv).1 hn
  have hrep : c.report X = none := by
    cases hr : c.report X with
    | none => rfl
    | some r => rw [(report_check X c).1 r hr] at hc; cases hc
  obtain ⟨F, hF⟩ := hv
  have hne : f.idx ≠ [] := (valid_of_ok _ _ _ _ hF).1.rows
  have hpos : 0 < f.idx.length := List.length_pos_iff.2 hne
  have hsome : ∃ name, ind.shortageName = some name := by
    cases ind <;> simp only [Ind.shortageName] <;>
      first
        | exact ⟨_, rfl⟩
        | (exfalso; simp only [Spec.minRows] at hn; omega)
  obtain ⟨name, hname⟩ := hsome
  obtain ⟨hno, hplain⟩ := shortageName_of ind name hname
  refine ⟨name, hno, ?_, ?_⟩
  · have htext := (C66_validation X (.frame f) ind.required ind.className fill).2 ⟨F, hF⟩
    have hcalc : ind.calcTi E F = .error (.notEnough (Spec.reportedRows ind) f.idx.length) := by
      unfold construct at herr
      rw [hc] at herr
      simp only at herr
      rcases hd : validateInputData (.frame f) ind.required fill with ⟨caller, r⟩
      rw [hd] at herr hF
      simp only at hF
      subst hF
      simp only at herr
      cases ht : ind.calcTi E F with
      | error e => rw [ht] at herr; simpa using herr
      | ok T => rw [ht] at herr; cases herr
    unfold constructText
    rw [hrep, hc]
    simp only [htext, hF, hcalc, Ind.calcText, hname, Option.getD_some]
    rw [notEnoughText_eq _ _ _ hplain]
  · intro ha
    cases ind <;> first | exact hn | exact absurd rfl ha

/-- C66: the contradiction in the message of the Average True Range. -/
theorem C66_true_range_false :
    ∃ f : RawFrame, WF f ∧ constructText demoTexts demoEnv .averageTrueRange (.frame f) (.bool true) =
      some "Not enough input data for calculating the Average True Range technical indicator. Minimum required data are (2), but (3) found." :=
  ⟨⟨true, [1, 2, 3], [⟨.str "high", true, [.fin 3, .fin 3, .fin 3]⟩, ⟨.str "low", true, [.fin 1, .fin 1, .fin 1]⟩,
    ⟨.str "close", true, [.fin 2, .fin 2, .fin 2]⟩]⟩, by unfold WF; decide, by decide +kernel⟩

example : WF demoPrices ∧ (Call.momentum (.int 3)).check = .ok (.momentum 3) ∧
    (∃ F, (validateInputData (.frame demoPrices) (Ind.momentum 3).required true).2 = .ok F) ∧
    demoPrices.idx.length < Spec.minRows (.momentum 3) ∧
    constructText demoTexts demoEnv (.momentum (.int 3)) (.frame demoPrices) (.bool true) =
      some "Not enough input data for calculating the Momentum technical indicator. Minimum required data are (3), but (2) found." :=
  ⟨by unfold WF; decide, by decide, ⟨⟨[1, 2], [("close", [.fin 10, .fin 12])]⟩, by decide +kernel⟩, by decide, by decide +kernel⟩

/-! ## The simulation -/

/-- C66: the simulator raises exactly when it has a message. -/
theorem C66_setup (X : Texts) (isDatetime : Bool) (idx : List ℤ) (close : InputArg) (exposure factor : PyArg) :
    setupText X isDatetime idx close exposure factor = none ↔
      ∃ s, (setupSimulation isDatetime idx close exposure factor).2 = .ok s := by
  unfold setupText setupSimulation
  by_cases hd : isDatetime = false
  · simp [hd]
  simp only [if_neg hd]
  have hv := C66_validation X close ["close"] "TradingSimulation" true
  cases ht : validateText X close ["close"] "TradingSimulation" with
  | some t =>
    simp only [reduceCtorEq, false_iff]
    rintro ⟨o, ho⟩
    rcases hd : validateInputData close ["close"] true with ⟨caller, r⟩
    rw [hd] at ho hv
    cases r with
    | error e => simp at ho
    | ok F => rw [hv.2 ⟨F, rfl⟩] at ht; cases ht
  | none =>
    obtain ⟨F, hF⟩ := hv.1 ht
    rcases hd : validateInputData close ["close"] true with ⟨caller, r⟩
    rw [hd] at hF
    simp only at hF
    subst hF
    simp only
    by_cases hi : F.idx ≠ sortIdx idx
    · simp [hi]
    · simp only [if_neg hi]
      unfold badExposure badFactor checkMaxExposure checkFactor
      cases he : exposure.asNumber with
      | some v =>
        dsimp only
        cases hl : Val.le v 0 with
        | true => simp
        | false =>
          cases hf : factor.asNumber with
          | some w =>
            dsimp only
            cases hw : Val.lt w 1 <;> simp
          | none => simp
      | none =>
        by_cases hn : exposure = .none
        · cases hf : factor.asNumber with
          | some w => cases hw : Val.lt w 1 <;> simp [hn, hw]
          | none => simp [hn]
        · simp [hn]

/-- C66: the messages about `max_exposure` and `short_exposure_factor` show what was passed, and that is not what the message
asks for (a NaN is accepted for both). -/
theorem C66_exposure (a : PyArg) (r : Report) :
    (badExposure a = some r → r.shown = a ∧ r.name = "max_exposure" ∧
      ((r.kind = .wrongType ∧ r.supports = "int or float or None" ∧ ¬ OfType r.supports a) ∨
        (r.kind = .wrongValue ∧ r.supports = ">0 or None" ∧ a ≠ .none ∧ ¬ ∃ v, IsNumber a v ∧ (0 : Val) <ᵥ v))) ∧
    (badFactor a = some r → r.shown = a ∧ r.name = "short_exposure_factor" ∧
      ((r.kind = .wrongType ∧ r.supports = "int or float" ∧ ¬ OfType r.supports a) ∨
        (r.kind = .wrongValue ∧ r.supports = ">=1.0" ∧ ¬ ∃ v, IsNumber a v ∧ (1 : Val) ≤ᵥ v))) := by
  unfold badExposure badFactor
  simp only [← asNumber_iff]
  cases ha : a.asNumber with
  | none =>
    constructor
    · by_cases hn : a = .none
      · simp [hn]
      · simp only [if_neg hn, Option.some.injEq]
        rintro rfl
        exact ⟨rfl, rfl, Or.inl ⟨rfl, rfl, by simp [Report.supports, OfType, hn, ← asNumber_iff, ha]⟩⟩
    · simp only [Option.some.injEq]
      rintro rfl
      exact ⟨rfl, rfl, Or.inl ⟨rfl, rfl, by simp [Report.supports, OfType, ← asNumber_iff, ha]⟩⟩
  | some v =>
    have hn : a ≠ .none := by rintro rfl; cases ha
    dsimp only
    constructor
    · cases hl : Val.le v 0 with
      | false => simp
      | true =>
        simp only [if_true, Option.some.injEq]
        rintro rfl
        refine ⟨rfl, rfl, Or.inr ⟨rfl, rfl, hn, ?_⟩⟩
        rintro ⟨w, h1, h2⟩
        subst h1
        cases v with
        | fin q =>
          have h3 : q ≤ 0 := of_decide_eq_true hl
          have h4 : (0 : ℚ) < q := of_decide_eq_true h2
          exact absurd h4 (not_lt.2 h3)
        | nan => cases hl
        | pinf => exact absurd hl (by decide)
        | ninf => exact absurd h2 (by decide)
    · cases hl : Val.lt v 1 with
      | false => simp
      | true =>
        simp only [if_true, Option.some.injEq]
        rintro rfl
        refine ⟨rfl, rfl, Or.inr ⟨rfl, rfl, ?_⟩⟩
        rintro ⟨w, h1, h2⟩
        subst h1
        cases v with
        | fin q =>
          have h3 : q < 1 := of_decide_eq_true hl
          have h4 : (1 : ℚ) ≤ q := of_decide_eq_true h2
          exact absurd h3 (not_lt.2 h4)
        | nan => cases hl
        | pinf => exact absurd hl (by decide)
        | ninf => exact absurd h2 (by decide)

/-- C66: an error in the closing prices is reported for the argument `close_values`, with the words of the validation and
`close_values` in place of `input_data`. -/
theorem C66_close_values (X : Texts) (idx : List ℤ) (close : InputArg) (exposure factor : PyArg) :
    (∀ t, validateText X close ["close"] "TradingSimulation" = some t →
      setupText X true idx close exposure factor =
        some ("Not valid input data for simulation, input argument: close_values. " ++
          pyReplace t "input_data" "close_values")) ∧
    (∀ F, (validateInputData close ["close"] true).2 = .ok F → F.idx ≠ sortIdx idx →
      setupText X true idx close exposure factor =
        some "Not valid input data for simulation, input argument: close_values. Index of the `close_values` DataFrame should be the same as the index of the `input_data` argument in the indicator's constructor.") := by
  constructor
  · intro t ht
    simp only [setupText, ht, Bool.true_eq_false, if_false, notValidText_eq]
    congr 1
  · intro F hF hi
    have ht := (C66_validation X close ["close"] "TradingSimulation" true).2 ⟨F, hF⟩
    simp only [setupText, ht, hF, Bool.true_eq_false, if_false, if_pos hi, notValidText_eq]
    decide +kernel

example : setupText demoTexts true [1, 2] (.frame ⟨true, [1, 2], [⟨.str "open", true, [.fin 1, .fin 2]⟩]⟩) .none (.int 1) =
    some "Not valid input data for simulation, input argument: close_values. Required column `close` for the technical indicator `TradingSimulation` does not exist in the close_values  pandas.DataFrame." := by
  decide +kernel

end TTI.Props
