import Verif.Spec.Messages

set_option autoImplicit false

/-!
# Replacing text
-/

namespace TTI

theorem replaceFrom_skip (pat new : List Char) (k : ℕ) (s : List Char) :
    replaceFrom pat new k s = replaceFrom pat new 0 (s.drop k) := by
  induction k generalizing s with
  | zero => simp
  | succ k ih =>
    cases s with
    | nil => simp [replaceFrom]
    | cons c s => simp only [replaceFrom, List.drop_succ_cons]; exact ih s

/-- An occurrence at the front is replaced. -/
theorem replaceFrom_pat (pat new s : List Char) (h : pat ≠ []) :
    replaceFrom pat new 0 (pat ++ s) = new ++ replaceFrom pat new 0 s := by
  cases pat with
  | nil => exact absurd rfl h
  | cons p ps =>
    have hp : (p :: ps).isPrefixOf (p :: (ps ++ s)) = true := by simp
    simp only [List.cons_append]
    rw [replaceFrom, if_pos hp, replaceFrom_skip]
    simp

theorem prefix_split (p a b : List Char) (h : p <+: a ++ b) : p <+: a ∨ ∃ t, p = a ++ t ∧ t <+: b := by
  obtain ⟨r, hr⟩ := h
  rcases List.append_eq_append_iff.1 hr with ⟨t, h1, -⟩ | ⟨t, h1, h2⟩
  · exact Or.inl ⟨t, h1.symm⟩
  · exact Or.inr ⟨t, h1, r, h2.symm⟩

/-- A character that does not occur in the pattern separates the text into two parts. -/
theorem replaceFrom_sep (pat new b : List Char) (x : Char) (hx : x ∉ pat) (h : pat ≠ []) (a : List Char) :
    replaceFrom pat new 0 (a ++ x :: b) = replaceFrom pat new 0 a ++ x :: replaceFrom pat new 0 b := by
  induction hn : a.length using Nat.strong_induction_on generalizing a with
  | _ n ih =>
    cases a with
    | nil =>
      have hp : ¬ (pat.isPrefixOf (x :: b) = true) := by
        intro hp
        cases pat with
        | nil => exact h rfl
        | cons p ps =>
          simp at hp hx
          exact hx.1 hp.1.symm
      simp only [List.nil_append, replaceFrom, if_neg hp]
    | cons c a =>
      simp only [List.cons_append]
      by_cases hp : pat.isPrefixOf (c :: a) = true
      · have hp' : pat.isPrefixOf (c :: (a ++ x :: b)) = true := by
          rw [List.isPrefixOf_iff_prefix] at hp ⊢
          exact hp.trans (by rw [← List.cons_append]; exact List.prefix_append _ _)
        have hl : pat.length ≤ a.length + 1 := by
          rw [List.isPrefixOf_iff_prefix] at hp
          simpa using hp.length_le
        rw [replaceFrom, if_pos hp', replaceFrom_skip, List.drop_append_of_le_length (by omega),
          replaceFrom, if_pos hp, replaceFrom_skip pat new (pat.length - 1) a,
          ih _ (by simp at hn; simp; omega) _ rfl]
        simp
      · have hp' : ¬ (pat.isPrefixOf (c :: (a ++ x :: b)) = true) := by
          intro hp'
          apply hp
          rw [List.isPrefixOf_iff_prefix] at hp' ⊢
          rw [← List.cons_append] at hp'
          rcases prefix_split _ _ _ hp' with h1 | ⟨t, h1, h2⟩
          · exact h1
          · cases t with
            | nil => simp at h1; rw [h1]; exact List.prefix_refl _
            | cons y t =>
              exfalso
              have : y = x := by
                obtain ⟨r, hr⟩ := h2
                simp at hr
                exact hr.1
              apply hx
              rw [h1, this]
              simp
        rw [replaceFrom, if_neg hp', replaceFrom, if_neg hp, ih _ (by simp at hn; omega) _ rfl]
        simp

/-- Without an occurrence nothing changes. -/
theorem replaceFrom_none (pat new s : List Char) (h : ¬ pat <:+: s) : replaceFrom pat new 0 s = s := by
  induction s with
  | nil => simp [replaceFrom]
  | cons c s ih =>
    have hp : ¬ (pat.isPrefixOf (c :: s) = true) := by
      intro hp
      exact h (List.isPrefixOf_iff_prefix.1 hp).isInfix
    rw [replaceFrom, if_neg hp, ih fun hi => h (hi.trans (List.suffix_cons c s).isInfix)]

/-- A pattern between two characters that do not occur in it. -/
theorem replaceFrom_between (pat new a b : List Char) (x y : Char) (hx : x ∉ pat) (hy : y ∉ pat) (h : pat ≠ []) :
    replaceFrom pat new 0 (a ++ x :: (pat ++ y :: b)) =
      replaceFrom pat new 0 a ++ x :: (new ++ y :: replaceFrom pat new 0 b) := by
  rw [replaceFrom_sep _ _ _ _ hx h, replaceFrom_sep _ _ _ _ hy h]
  have := replaceFrom_pat pat new [] h
  rw [List.append_nil] at this
  rw [this]
  simp [replaceFrom]

theorem mentions_iff (s p : String) : Spec.Mentions s p ↔ p.toList <:+: s.toList := by
  constructor
  · rintro ⟨a, b, rfl⟩
    exact ⟨a.toList, b.toList, by simp⟩
  · rintro ⟨a, b, h⟩
    refine ⟨String.ofList a, String.ofList b, ?_⟩
    apply String.toList_inj.1
    simp [h]

/-- `s.replace` with a pattern between two characters. -/
theorem pyReplace_between (pat new a b : String) (x y : Char) (hx : x ∉ pat.toList) (hy : y ∉ pat.toList) (h : pat.toList ≠ []) :
    pyReplace (a ++ String.singleton x ++ pat ++ String.singleton y ++ b) pat new =
      pyReplace a pat new ++ String.singleton x ++ new ++ String.singleton y ++ pyReplace b pat new := by
  apply String.toList_inj.1
  simp only [pyReplace, String.toList_append, String.toList_ofList, String.toList_singleton]
  have := replaceFrom_between pat.toList new.toList a.toList b.toList x y hx hy h
  simp only [List.append_assoc, List.cons_append, List.nil_append] at this ⊢
  exact this

theorem pyReplace_sep (pat new a b : String) (x : Char) (hx : x ∉ pat.toList) (h : pat.toList ≠ []) :
    pyReplace (a ++ String.singleton x ++ b) pat new = pyReplace a pat new ++ String.singleton x ++ pyReplace b pat new := by
  apply String.toList_inj.1
  simp only [pyReplace, String.toList_append, String.toList_ofList, String.toList_singleton]
  have := replaceFrom_sep pat.toList new.toList b.toList x hx h a.toList
  simp only [List.append_assoc, List.cons_append, List.nil_append] at this ⊢
  exact this

theorem pyReplace_none (s pat new : String) (h : ¬ Spec.Mentions s pat) : pyReplace s pat new = s := by
  apply String.toList_inj.1
  rw [mentions_iff] at h
  simp [pyReplace, replaceFrom_none _ _ _ h]

/-- The text between two characters stays if the pattern occurs neither in it nor around it. -/
theorem pyReplace_keep (pat new a v b : String) (x y : Char) (hx : x ∉ pat.toList) (hy : y ∉ pat.toList)
    (h : pat.toList ≠ []) (ha : ¬ Spec.Mentions a pat) (hv : ¬ Spec.Mentions v pat) :
    pyReplace (a ++ String.singleton x ++ v ++ String.singleton y ++ b) pat new =
      a ++ String.singleton x ++ v ++ String.singleton y ++ pyReplace b pat new := by
  rw [pyReplace_sep _ _ _ _ _ hy h, pyReplace_sep _ _ _ _ _ hx h, pyReplace_none _ _ _ ha, pyReplace_none _ _ _ hv]

instance (s p : String) : Decidable (Spec.Mentions s p) := decidable_of_iff _ (mentions_iff s p).symm

theorem wrongValueText_eq (v n s : String) (h1 : ¬ Spec.Mentions v "<p_name>") (h2 : ¬ Spec.Mentions v "<p_supported>")
    (h3 : ¬ Spec.Mentions n "<p_supported>") :
    wrongValueText v n s =
      "Wrong value (" ++ v ++ ") for input parameter (" ++ n ++ "). Supported values are (" ++ s ++ ")." := by
  unfold wrongValueText
  have e1 : "Wrong value (<p_value>) for input parameter (<p_name>). Supported values are (<p_supported>)." =
      "Wrong value " ++ String.singleton '(' ++ "<p_value>" ++ String.singleton ')' ++
        " for input parameter (<p_name>). Supported values are (<p_supported>)." := by decide +kernel
  have e2 : " for input parameter (<p_name>). Supported values are (<p_supported>)." =
      " for input parameter " ++ String.singleton '(' ++ "<p_name>" ++ String.singleton ')' ++
        ". Supported values are (<p_supported>)." := by decide +kernel
  have e3 : ". Supported values are (<p_supported>)." =
      ". Supported values are " ++ String.singleton '(' ++ "<p_supported>" ++ String.singleton ')' ++ "." := by decide +kernel
  simp only []
  rw [e1, pyReplace_between _ _ _ _ _ _ (by decide +kernel) (by decide +kernel) (by decide +kernel),
    pyReplace_none _ "<p_value>" _ (by decide +kernel), pyReplace_none _ "<p_value>" _ (by decide +kernel),
    pyReplace_keep _ _ _ _ _ _ _ (by decide +kernel) (by decide +kernel) (by decide +kernel) (by decide +kernel) h1,
    e2, pyReplace_between _ _ _ _ _ _ (by decide +kernel) (by decide +kernel) (by decide +kernel),
    pyReplace_none _ "<p_name>" _ (by decide +kernel), pyReplace_none _ "<p_name>" _ (by decide +kernel),
    pyReplace_keep _ _ _ _ _ _ _ (by decide +kernel) (by decide +kernel) (by decide +kernel) (by decide +kernel) h2,
    pyReplace_keep _ _ _ _ _ _ _ (by decide +kernel) (by decide +kernel) (by decide +kernel) (by decide +kernel) h3,
    e3, pyReplace_between _ _ _ _ _ _ (by decide +kernel) (by decide +kernel) (by decide +kernel),
    pyReplace_none _ "<p_supported>" _ (by decide +kernel), pyReplace_none _ "<p_supported>" _ (by decide +kernel)]
  apply String.toList_inj.1
  simp

theorem wrongTypeText_eq (v n s : String) (h1 : ¬ Spec.Mentions v "<p_name>") (h2 : ¬ Spec.Mentions v "<p_supported>")
    (h3 : ¬ Spec.Mentions n "<p_supported>") :
    wrongTypeText v n s =
      "Wrong type (" ++ v ++ ") for input parameter (" ++ n ++ "). Supported type is (" ++ s ++ ")." := by
  unfold wrongTypeText
  have e1 : "Wrong type (<p_type>) for input parameter (<p_name>). Supported type is (<p_supported>)." =
      "Wrong type " ++ String.singleton '(' ++ "<p_type>" ++ String.singleton ')' ++
        " for input parameter (<p_name>). Supported type is (<p_supported>)." := by decide +kernel
  have e2 : " for input parameter (<p_name>). Supported type is (<p_supported>)." =
      " for input parameter " ++ String.singleton '(' ++ "<p_name>" ++ String.singleton ')' ++
        ". Supported type is (<p_supported>)." := by decide +kernel
  have e3 : ". Supported type is (<p_supported>)." =
      ". Supported type is " ++ String.singleton '(' ++ "<p_supported>" ++ String.singleton ')' ++ "." := by decide +kernel
  simp only []
  rw [e1, pyReplace_between _ _ _ _ _ _ (by decide +kernel) (by decide +kernel) (by decide +kernel),
    pyReplace_none _ "<p_type>" _ (by decide +kernel), pyReplace_none _ "<p_type>" _ (by decide +kernel),
    pyReplace_keep _ _ _ _ _ _ _ (by decide +kernel) (by decide +kernel) (by decide +kernel) (by decide +kernel) h1,
    e2, pyReplace_between _ _ _ _ _ _ (by decide +kernel) (by decide +kernel) (by decide +kernel),
    pyReplace_none _ "<p_name>" _ (by decide +kernel), pyReplace_none _ "<p_name>" _ (by decide +kernel),
    pyReplace_keep _ _ _ _ _ _ _ (by decide +kernel) (by decide +kernel) (by decide +kernel) (by decide +kernel) h2,
    pyReplace_keep _ _ _ _ _ _ _ (by decide +kernel) (by decide +kernel) (by decide +kernel) (by decide +kernel) h3,
    e3, pyReplace_between _ _ _ _ _ _ (by decide +kernel) (by decide +kernel) (by decide +kernel),
    pyReplace_none _ "<p_supported>" _ (by decide +kernel), pyReplace_none _ "<p_supported>" _ (by decide +kernel)]
  apply String.toList_inj.1
  simp

/-- A text without an angle bracket mentions no placeholder. -/
theorem not_mentions (s p : String) (hp : '<' ∈ p.toList) (hs : '<' ∉ s.toList) : ¬ Spec.Mentions s p := by
  rw [mentions_iff]
  intro h
  exact hs (h.subset hp)

theorem toString_nat_plain (n : ℕ) : '<' ∉ (toString n).toList := by
  intro h
  rw [Nat.toString_eq_ofList_toDigits, String.toList_ofList] at h
  exact absurd (Nat.isDigit_of_mem_toDigits (by omega) (by omega) h) (by decide)

theorem toString_int_plain (n : ℤ) : '<' ∉ (toString n).toList := by
  cases n with
  | ofNat n => exact toString_nat_plain n
  | negSucc n =>
    have : toString (Int.negSucc n) = "-" ++ toString (n + 1) := rfl
    rw [this, String.toList_append, List.mem_append]
    rintro (h | h)
    · revert h; decide +kernel
    · exact toString_nat_plain _ h

theorem notEnoughText_eq (name : String) (r f : ℕ) (h : '<' ∉ name.toList) :
    notEnoughText name r f =
      "Not enough input data for calculating the " ++ name ++ " technical indicator. Minimum required data are (" ++
        toString r ++ "), but (" ++ toString f ++ ") found." := by
  have hr := toString_nat_plain r
  unfold notEnoughText
  have e1 : "Not enough input data for calculating the <ti_name> technical indicator. Minimum required data are (<req_data_num>), but (<data_num>) found." =
      "Not enough input data for calculating the" ++ String.singleton ' ' ++ "<ti_name>" ++ String.singleton ' ' ++
        "technical indicator. Minimum required data are (<req_data_num>), but (<data_num>) found." := by decide +kernel
  have e2 : "technical indicator. Minimum required data are (<req_data_num>), but (<data_num>) found." =
      "technical indicator. Minimum required data are " ++ String.singleton '(' ++ "<req_data_num>" ++
        String.singleton ')' ++ ", but (<data_num>) found." := by decide +kernel
  have e3 : ", but (<data_num>) found." =
      ", but " ++ String.singleton '(' ++ "<data_num>" ++ String.singleton ')' ++ " found." := by decide +kernel
  simp only []
  rw [e1, pyReplace_between _ _ _ _ _ _ (by decide +kernel) (by decide +kernel) (by decide +kernel),
    pyReplace_none _ "<ti_name>" _ (by decide +kernel), pyReplace_none _ "<ti_name>" _ (by decide +kernel),
    pyReplace_keep _ _ _ _ _ _ _ (by decide +kernel) (by decide +kernel) (by decide +kernel) (by decide +kernel) (not_mentions _ _ (by decide +kernel) h),
    e2, pyReplace_between _ _ _ _ _ _ (by decide +kernel) (by decide +kernel) (by decide +kernel),
    pyReplace_none _ "<req_data_num>" _ (by decide +kernel), pyReplace_none _ "<req_data_num>" _ (by decide +kernel),
    pyReplace_keep _ _ _ _ _ _ _ (by decide +kernel) (by decide +kernel) (by decide +kernel) (by decide +kernel) (not_mentions _ _ (by decide +kernel) h),
    pyReplace_keep _ _ _ _ _ _ _ (by decide +kernel) (by decide +kernel) (by decide +kernel) (by decide +kernel) (not_mentions _ _ (by decide +kernel) hr),
    e3, pyReplace_between _ _ _ _ _ _ (by decide +kernel) (by decide +kernel) (by decide +kernel),
    pyReplace_none _ "<data_num>" _ (by decide +kernel), pyReplace_none _ "<data_num>" _ (by decide +kernel)]
  apply String.toList_inj.1
  simp

theorem notValidText_eq (argument details : String) :
    notValidText argument details =
      "Not valid input data for simulation, input argument: " ++ argument ++ ". " ++ details := by
  unfold notValidText
  have e1 : "Not valid input data for simulation, input argument: <p_input_argument>. " =
      "Not valid input data for simulation, input argument:" ++ String.singleton ' ' ++ "<p_input_argument>" ++
        String.singleton '.' ++ " " := by decide +kernel
  simp only []
  rw [e1, pyReplace_between _ _ _ _ _ _ (by decide +kernel) (by decide +kernel) (by decide +kernel), pyReplace_none _ "<p_input_argument>" _ (by decide +kernel),
    pyReplace_none _ "<p_input_argument>" _ (by decide +kernel)]
  apply String.toList_inj.1
  simp

end TTI
