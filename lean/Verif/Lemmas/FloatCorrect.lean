import Verif.Spec.FloatCorrect
import Verif.Lemmas.FloatFlat
import Verif.Lemmas.Double

set_option autoImplicit false

/-! Lemmas for C91. -/

namespace TTI

open Spec Flt

/-! ## Whole numbers -/

/-- Whole numbers up to 2^53 are float64 numbers. -/
theorem toDouble_whole (z : ℤ) (h : |z| ≤ 2 ^ 53) : toDouble z = z := by
  have pos : ∀ z : ℤ, 0 < z → z ≤ 2 ^ 53 → toDouble z = z := by
    intro z h0 h1
    have hz : (0 : ℚ) < z := by exact_mod_cast h0
    obtain ⟨n, rfl⟩ : ∃ n : ℕ, z = n := ⟨z.toNat, by omega⟩
    have hn : n ≠ 0 := by omega
    have hlog : Int.log 2 ((n : ℤ) : ℚ) = Nat.log 2 n := by
      rw [Int.cast_natCast, Int.log_natCast]
    rcases h1.lt_or_eq with h1 | h1
    · have hl : Nat.log 2 n ≤ 52 := by
        have : Nat.log 2 n < 53 := Nat.log_lt_of_lt_pow hn (by exact_mod_cast h1)
        omega
      have hu : ulp ((n : ℤ) : ℚ) = (2 ^ (52 - Nat.log 2 n))⁻¹ := by
        unfold ulp
        rw [abs_of_pos hz, hlog, show ((Nat.log 2 n : ℤ) - 52) = -((52 - Nat.log 2 n : ℕ) : ℤ) by omega, zpow_neg, zpow_natCast]
      unfold toDouble
      rw [hu, div_inv_eq_mul]
      have : (((n : ℤ) : ℚ) * 2 ^ (52 - Nat.log 2 n)) = (((n : ℤ) * 2 ^ (52 - Nat.log 2 n) : ℤ) : ℚ) := by push_cast; ring
      rw [this, rint_intCast]
      push_cast
      field_simp
    · have := toDouble_digits (2 ^ 53) 52 (by norm_num) (le_refl _)
      rw [h1]
      simpa using this
  rcases lt_trichotomy z 0 with h0 | rfl | h0
  · have := pos (-z) (by omega) (by rw [abs_of_neg h0] at h; exact h)
    push_cast at this
    rw [toDouble_neg] at this
    linarith
  · simpa using toDouble_zero
  · exact pos z h0 (by rw [abs_of_pos h0] at h; exact h)

theorem foldl_whole (A : Arith) (N : ℚ) (hfl : ∀ z : ℤ, |(z : ℚ)| ≤ N → A.fl z = z) (zs : List ℤ) :
    ∀ a : ℤ, |(a : ℚ)| + (zs.map fun z : ℤ => |(z : ℚ)|).sum ≤ N →
      (zs.map fun z : ℤ => Val.fin z).foldl A.add (.fin a) = .fin ((a + zs.sum : ℤ) : ℚ) := by
  induction zs with
  | nil => intro a _; simp
  | cons z zs ih =>
    intro a h
    simp only [List.map_cons, List.sum_cons, List.foldl_cons] at h ⊢
    have h0 : 0 ≤ (zs.map fun z : ℤ => |(z : ℚ)|).sum := List.sum_nonneg (by
      intro x hx
      rw [List.mem_map] at hx
      obtain ⟨y, -, rfl⟩ := hx
      exact abs_nonneg _)
    have h1 := abs_add_le (a : ℚ) z
    rw [fl_add, show (a : ℚ) + z = ((a + z : ℤ) : ℚ) by push_cast; ring, hfl _ (by push_cast; linarith), ih (a + z) (by push_cast; linarith)]
    push_cast
    congr 1
    ring

theorem cumsum_whole (A : Arith) (N : ℚ) (hfl : ∀ z : ℤ, |(z : ℚ)| ≤ N → A.fl z = z) (zs : List ℤ)
    (h : (zs.map fun z : ℤ => |(z : ℚ)|).sum ≤ N) :
    A.cumsum (zs.map fun z : ℤ => Val.fin z) = cumsum (zs.map fun z : ℤ => Val.fin z) := by
  rw [← Exact.cumsum]
  apply val_ext
  · simp [Arith.cumsum]
  intro i hi
  have hi' : i < (zs.map fun z : ℤ => Val.fin z).length := by simpa [Arith.cumsum] using hi
  unfold Arith.cumsum
  rw [val_prefixMap _ _ _ hi', val_prefixMap _ _ _ hi']
  have hf : ∀ (zs : List ℤ), (zs.map fun z : ℤ => Val.fin z).filter (fun x => !x.isNan) = zs.map fun z : ℤ => Val.fin z := by
    intro zs
    rw [List.filter_eq_self]
    intro x hx
    rw [List.mem_map] at hx
    obtain ⟨y, -, rfl⟩ := hx
    rfl
  rw [← List.map_take, hf]
  have hs : ((zs.take (i + 1)).map fun z : ℤ => |(z : ℚ)|).sum ≤ N := by
    refine le_trans ?_ h
    conv_rhs => rw [← List.take_append_drop (i + 1) zs]
    rw [List.map_append, List.sum_append]
    have : 0 ≤ ((zs.drop (i + 1)).map fun z : ℤ => |(z : ℚ)|).sum := List.sum_nonneg (by
      intro x hx
      rw [List.mem_map] at hx
      obtain ⟨y, -, rfl⟩ := hx
      exact abs_nonneg _)
    linarith
  have e1 := foldl_whole A N hfl (zs.take (i + 1)) 0 (by simpa using hs)
  have e2 := foldl_whole exactArith N (fun z _ => rfl) (zs.take (i + 1)) 0 (by simpa using hs)
  simp only [Int.cast_zero] at e1 e2
  have z : (0 : Val) = .fin 0 := rfl
  rw [z, e1, e2]

/-! ## Reports -/

theorem round_isReport (A : Arith) (w : Val) : IsReport A (A.round 4 w) := by
  intro r hr
  cases w with
  | fin q =>
    simp only [Arith.round, Val.fin.injEq] at hr
    exact ⟨_, hr.symm⟩
  | nan => simp [Arith.round] at hr
  | pinf => simp [Arith.round] at hr
  | ninf => simp [Arith.round] at hr

theorem isReport_nan (A : Arith) : IsReport A .nan := by intro r hr; simp at hr

theorem roundS_reports (A : Arith) (xs : List Val) : ∀ v ∈ A.roundS 4 xs, IsReport A v := by
  intro v hv
  unfold Arith.roundS at hv
  rw [List.mem_map] at hv
  obtain ⟨w, -, rfl⟩ := hv
  exact round_isReport A w

theorem day_isReport (A : Arith) (T : Frame) (h : ∀ c ∈ T.cols, ∀ v ∈ c.2, IsReport A v) (name : String) (i : ℕ) :
    IsReport A (T.day name i) := by
  unfold Frame.day Frame.col
  cases hf : T.cols.find? fun c => c.1 == name with
  | none =>
    exact isReport_nan A
  | some c =>
    show IsReport A (c.2.getD i .nan)
    rcases Nat.lt_or_ge i c.2.length with hi | hi
    · rw [List.getD_eq_getElem _ _ hi]
      exact h c (List.mem_of_find?_eq_some hf) _ (List.getElem_mem hi)
    · rw [List.getD_eq_default _ _ hi]
      exact isReport_nan A

/-- The columns of the classes that report four decimals. -/
theorem calcTi_reports (A : Arith) (E : Env) (F T : Frame) (ind : Ind) (hi : ReportsFour ind) (h : Flt.calcTi A E F ind = .ok T) :
    ∀ c ∈ T.cols, ∀ v ∈ c.2, IsReport A v := by
  have done : ∀ (l : List (String × List Val)), (∀ c ∈ l, ∃ xs, c.2 = A.roundS 4 xs) → ∀ c ∈ l, ∀ v ∈ c.2, IsReport A v := by
    intro l hl c hc v hv
    obtain ⟨xs, e⟩ := hl c hc
    rw [e] at hv
    exact roundS_reports A xs v hv
  have key : (∃ c, T.cols = [c] ∧ ∀ v ∈ c.2, IsReport A v) → ∀ c ∈ T.cols, ∀ v ∈ c.2, IsReport A v := by
    rintro ⟨c, e, h⟩ c' hc'
    rw [e, List.mem_singleton] at hc'
    subst hc'; exact h
  cases ind
  case movingAverage n t =>
    cases t <;> simp only [ReportsFour] at hi <;> simp only [Flt.calcTi] at h <;> split at h <;>
      simp only [Except.ok.injEq, reduceCtorEq] at h <;> subst h <;> exact done _ (by simp)
  case stochasticOscillator k s d b =>
    cases b <;> simp only [ReportsFour] at hi <;> simp only [Flt.calcTi] at h <;> split at h <;>
      simp only [Except.ok.injEq, reduceCtorEq] at h <;> subst h <;> exact done _ (by simp)
  case fibonacciRetracement =>
    simp only [Flt.calcTi, Except.ok.injEq] at h
    subst h
    intro c hc v hv
    simp only [List.mem_map] at hc
    obtain ⟨l, -, rfl⟩ := hc
    rw [List.mem_replicate] at hv
    rw [hv.2]
    exact round_isReport A _
  case performance long target =>
    simp only [Flt.calcTi] at h
    split at h
    · simp at h
    · simp only [Except.ok.injEq] at h
      subst h
      intro c hc v hv
      simp only [List.mem_cons, List.not_mem_nil, or_false] at hc
      rcases hc with rfl | rfl
      · exact roundS_reports A _ v hv
      · rw [List.mem_replicate] at hv
        rw [hv.2]
        exact round_isReport A _
  case averageTrueRange =>
    simp only [Flt.calcTi] at h
    split at h
    · simp at h
    · simp only [Except.ok.injEq] at h
      subst h
      refine key ⟨_, rfl, fun v hv => ?_⟩
      rw [List.mem_append, List.mem_replicate] at hv
      rcases hv with hv | hv
      · rw [hv.2]; exact isReport_nan A
      · exact roundS_reports A _ v hv
  case parabolicSAR =>
    simp only [Flt.calcTi] at h
    split at h
    · simp at h
    · simp only [Except.ok.injEq] at h
      subst h
      refine key ⟨_, rfl, fun v hv => ?_⟩
      rw [List.mem_map] at hv
      obtain ⟨i, -, rfl⟩ := hv
      exact round_isReport A _
  all_goals first
    | (simp only [ReportsFour] at hi; done)
    | (simp only [Flt.calcTi, Except.ok.injEq] at h; subst h; exact done _ (by simp))
    | (simp only [Flt.calcTi] at h; split at h <;> simp only [Except.ok.injEq, reduceCtorEq] at h <;> subst h <;> exact done _ (by simp))

/-! ## The nearest number with four decimals -/

/-- A whole number that is nearer than a tie allows is the rounded number. -/
theorem rint_of_clear {d x : ℚ} (hc : ∀ m : ℤ, d < |x - (m + 1 / 2)|) (k : ℤ) (hk : |(k : ℚ) - x| ≤ 1 / 2 + d) : k = rint x := by
  have hr := abs_le.1 (rint_close x)
  have hk := abs_le.1 hk
  rcases lt_trichotomy k (rint x) with h | h | h
  · exfalso
    have h1 : (k : ℚ) + 1 ≤ rint x := by exact_mod_cast h
    have := hc (rint x - 1)
    push_cast at this
    rw [lt_abs] at this
    rcases this with h2 | h2 <;> linarith [hr.1, hr.2, hk.1, hk.2]
  · exact h
  · exfalso
    have h1 : (rint x : ℚ) + 1 ≤ k := by exact_mod_cast h
    have := hc (rint x)
    rw [lt_abs] at this
    rcases this with h2 | h2 <;> linarith [hr.1, hr.2, hk.1, hk.2]

theorem clear_decimals {d q : ℚ} (k : ℤ) (hq : q = k / 10 ^ 4) (hd : d < 1 / 2) : Clear d q := by
  intro m
  rw [hq, div_mul_cancel₀ _ (by norm_num), lt_abs]
  rcases le_or_gt k m with h | h
  · right
    have : (k : ℚ) ≤ m := by exact_mod_cast h
    linarith
  · left
    have : (m : ℚ) + 1 ≤ k := by exact_mod_cast h
    linarith

/-- What `FloatBuilt` says about the validated table. -/
theorem Spec.FloatBuilt.validated {A : Arith} {E : Env} {c : Call} {f : RawFrame} {fill : Bool} {o : Obj} {P : (String → ℚ) → Prop}
    (h : FloatBuilt A E c f fill o P) :
    ∃ F : Frame, c.check = .ok o.ind ∧ (validateInputData (.frame f) o.ind.required fill).2 = .ok F ∧ F.len = f.idx.length ∧
      (∀ n ∈ o.ind.required, Nums F.len 0 (price f n) (F.col n)) ∧ Flt.calcTi A E F o.ind = .ok o.getTiData ∧
      o.input = Flt.inputAfter A o.ind F := by
  obtain ⟨ind, F, T, hc, hv, ht, rfl⟩ := (Flt.construct_ok_iff _ _ _ _ _ _).1 h.ok
  have hr := eachRow_validated f _ _ P fill F h.wf hv (fun n hn => hn) h.rows
  choose! x hx using hr
  have hg := validated_good f _ _ _ h.wf hv
  have hlen : F.len = f.idx.length := by unfold Frame.len; rw [hg.2, (sortIdx_perm _).length_eq]
  refine ⟨F, hc, hv, hlen, fun n hn => ⟨F.col_length hg.1.wf n (hg.1.has n hn), fun i hi => ?_⟩, ht, rfl⟩
  rw [if_neg (by omega), (hx i hi).1 n hn]
  unfold price
  rw [← validated_day f _ P fill F h.wf hv h.rows n hn i, (hx i hi).1 n hn]
  rfl

end TTI
