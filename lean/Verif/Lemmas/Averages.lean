import Verif.Lemmas.Ranges2

set_option autoImplicit false

/-!
# Averages lie inside the data
-/

namespace TTI.Ind

theorem sub_col_fin (F : Frame) (names : List String) (n : String) (hn : n ∈ names) (x : ℕ → ℚ)
    (l : (F.col n).length = F.len) (h : ∀ i < F.len, val (F.col n) i = .fin (x i)) : (F.sub names).col n = F.col n := by
  have hk : ∀ v ∈ F.col n, v ≠ .nan := by
    intro v hv
    obtain ⟨i, hi, rfl⟩ := mem_val hv
    rw [h i (by omega)]; simp
  rw [Frame.sub_col F names n hn, ffill_eq_self _ hk, bfill_eq_self _ hk]

theorem rolling_mean_sat {lo hi : ℚ} (w m : ℕ) (xs : List Val) (i : ℕ) (hi' : i < xs.length)
    (h : ∀ j ≤ i, Val.Sat (fun q => lo ≤ q ∧ q ≤ hi) (val xs j)) :
    Val.Sat (fun q => lo ≤ q ∧ q ≤ hi) (val (rolling w m aggMean xs) i) :=
  rolling_sat (fun q => lo ≤ q ∧ q ≤ hi) _ _ _ _ _ _ hi' h fun v hv => aggMean_sat v hv

theorem variableMa_sat {lo hi : ℚ} (p : ℕ) (hp : 1 ≤ p) (close vr : List Val) (i : ℕ) (h1 : i < close.length) (h2 : i < vr.length)
    (hc : ∀ j ≤ i, Val.Sat (fun q => lo ≤ q ∧ q ≤ hi) (val close j))
    (hv : ∀ j ≤ i, Val.Sat (fun q => 0 ≤ q ∧ q ≤ 1) (val vr j)) :
    Val.Sat (fun q => lo ≤ q ∧ q ≤ hi) (val (MovingAverage.variableMa p (close.zip vr)) i) := by
  unfold MovingAverage.variableMa
  simp only
  rw [val_prefixMap' _ _ _ (by simp; omega)]
  have hmem : ∀ r ∈ (close.zip vr).take (i + 1), Val.Sat (fun q => lo ≤ q ∧ q ≤ hi) r.1 ∧ Val.Sat (fun q => 0 ≤ q ∧ q ≤ 1) r.2 := by
    intro r hr
    rw [List.mem_take_iff_getElem] at hr
    obtain ⟨j, hj, rfl⟩ := hr
    have hj' : j < i + 1 := by omega
    have hl : j < (close.zip vr).length := by omega
    rw [List.length_zip] at hl
    rw [List.getElem_zip]
    have e1 := hc j (by omega)
    have e2 := hv j (by omega)
    rw [val_lt _ _ (by omega)] at e1 e2
    exact ⟨e1, e2⟩
  cases hd : ((close.zip vr).take (i + 1)).drop 21 with
  | nil => trivial
  | cons first rest =>
    simp only
    have hsub : ∀ r ∈ first :: rest, Val.Sat (fun q => lo ≤ q ∧ q ≤ hi) r.1 ∧ Val.Sat (fun q => 0 ≤ q ∧ q ≤ 1) r.2 := by
      intro r hr
      rw [← hd] at hr
      exact hmem r (List.mem_of_mem_drop hr)
    have hfirst := (hsub first (by simp)).1
    have hrest : ∀ r ∈ rest, Val.Sat (fun q => lo ≤ q ∧ q ≤ hi) r.1 ∧ Val.Sat (fun q => 0 ≤ q ∧ q ≤ 1) r.2 :=
      fun r hr => hsub r (by simp [hr])
    clear hd hsub hmem
    generalize first.1 = init at hfirst
    clear first
    induction rest generalizing init with
    | nil => exact hfirst
    | cons r l ih =>
      rw [List.foldl_cons]
      apply ih
      · intro r' hr'; exact hrest r' (by simp [hr'])
      · obtain ⟨e1, e2⟩ := hrest r (by simp)
        rcases e1.cases with e1 | ⟨a, e1, ha⟩
        · rw [e1]; simp
        · rcases e2.cases with e2 | ⟨b, e2, hb⟩
          · rw [e2]; simp
          · rcases hfirst.cases with h | ⟨m, h, hm⟩
            · rw [h]; simp
            · rw [e1, e2, h, Val.one_eq]
              simp only [Val.fin_mul, Val.fin_sub, Val.fin_add]
              have hp' : (1 : ℚ) ≤ p := by exact_mod_cast hp
              have hs0 : 0 ≤ 2 / ((p : ℚ) + 1) := by positivity
              have hs1 : 2 / ((p : ℚ) + 1) ≤ 1 := by rw [div_le_one (by linarith)]; linarith
              have ht0 : 0 ≤ 2 / ((p : ℚ) + 1) * b := mul_nonneg hs0 hb.1
              have ht1 : 2 / ((p : ℚ) + 1) * b ≤ 1 := by nlinarith [hb.1, hb.2]
              have := convexP_between lo hi a m (2 / ((p : ℚ) + 1) * b) (1 - 2 / ((p : ℚ) + 1) * b) ha hm ht0 (by linarith) (by ring)
              have e : 2 / ((p : ℚ) + 1) * b * a = 2 / ((p : ℚ) + 1) * a * b := by ring
              rw [e] at this
              exact this

theorem MovingAverage.inside (p : ℕ) (hp : 1 ≤ p) (t : MaType) (F T : Frame) (x : ℕ → ℚ)
    (lc : (F.col "close").length = F.len) (hc : ∀ i < F.len, val (F.col "close") i = .fin (x i)) (h : calcTi p t F = .ok T)
    (ht : t ≠ .timeSeries) (i : ℕ) (hi' : i < F.len) (lo hi : ℚ) (hb : ∀ j ≤ i, lo ≤ x j ∧ x j ≤ hi) :
    Val.Sat (fun q => roundQ 4 lo ≤ q ∧ q ≤ roundQ 4 hi) (val (T.col t.column) i) := by
  have hcs : ∀ j ≤ i, Val.Sat (fun q => lo ≤ q ∧ q ≤ hi) (val (F.col "close") j) := by
    intro j hj
    rw [hc j (by omega)]
    exact hb j hj
  have key : ∀ xs : List Val, Val.Sat (fun q => lo ≤ q ∧ q ≤ hi) (val xs i) →
      Val.Sat (fun q => roundQ 4 lo ≤ q ∧ q ≤ roundQ 4 hi) (val (roundS 4 xs) i) := by
    intro xs hx
    rw [val_roundS]
    exact hx.round_between
  unfold calcTi at h
  cases t with
  | timeSeries => exact absurd rfl ht
  | simple =>
    simp only [ne_eq, reduceCtorEq, not_false_eq_true, and_true, and_false, if_false] at h
    split at h
    · simp [bind, Except.bind, throw, throwThe, MonadExceptOf.throw] at h
    · simp only [pure, Except.pure, bind, Except.bind, Except.ok.injEq] at h
      subst h
      rw [Frame.col_single]
      exact key _ (rolling_mean_sat p p _ i (by omega) hcs)
  | exponential =>
    simp only [ne_eq, reduceCtorEq, not_false_eq_true, and_true, and_false, if_false] at h
    split at h
    · simp [bind, Except.bind, throw, throwThe, MonadExceptOf.throw] at h
    · simp only [pure, Except.pure, bind, Except.bind, Except.ok.injEq] at h
      subst h
      rw [Frame.col_single]
      exact key _ (ewm_between p p hp _ i (by omega) hcs)
  | triangular =>
    simp only [ne_eq, reduceCtorEq, not_false_eq_true, and_true, and_false, if_false] at h
    split at h
    · simp [bind, Except.bind, throw, throwThe, MonadExceptOf.throw] at h
    · simp only [pure, Except.pure, bind, Except.bind, Except.ok.injEq] at h
      subst h
      rw [Frame.col_single]
      exact key _ (rolling_mean_sat p p _ i (by simp; omega) fun j hj =>
        rolling_mean_sat p p _ j (by omega) fun k hk => hcs k (by omega))
  | variableType =>
    simp only [ne_eq, not_true_eq_false, and_false, if_false, and_true] at h
    have hsub : (F.sub ["close"]).col "close" = F.col "close" := sub_col_fin F _ _ (by simp) x lc hc
    have hlen : (F.sub ["close"]).len = F.len := rfl
    split at h
    · simp [bind, Except.bind, throw, throwThe, MonadExceptOf.throw, pure, Except.pure] at h
    · cases hcm : ChandeMomentumOscillator.calcTi 9 (F.sub ["close"]) with
      | error e => rw [hcm] at h; simp [bind, Except.bind, pure, Except.pure] at h
      | ok C =>
        rw [hcm] at h
        simp only [pure, Except.pure, bind, Except.bind, Except.ok.injEq] at h
        subst h
        rw [Frame.col_single]
        apply key
        have hr := ChandeMomentumOscillator.range (F.sub ["close"]) x 9 C (by rw [hsub, hlen, lc]) (by rw [hsub, hlen]; exact hc) hcm
        have lC : (C.col "cmo").length = F.len := by
          unfold ChandeMomentumOscillator.calcTi at hcm
          split at hcm
          · simp at hcm
          · simp only [Except.ok.injEq] at hcm
            subst hcm
            rw [Frame.col_single]
            simp [hsub, lc]
        apply variableMa_sat p hp _ _ i (by omega) (by simp [lC]; omega) hcs
        intro j hj
        rw [val_map _ (by simp)]
        have := hr (val (C.col "cmo") j) (by rw [val_lt _ _ (by omega)]; exact List.getElem_mem _)
        rcases this.cases with e | ⟨q, e, hq⟩
        · rw [e]; simp
        · rw [e, Val.hundred_eq, Val.fin_div _ _ (by norm_num), Val.fin_abs]
          refine ⟨abs_nonneg _, ?_⟩
          rw [abs_le]; constructor <;> linarith [hq.1, hq.2]

theorem WildersSmoothing.inside (p : ℕ) (hp : 1 ≤ p) (F T : Frame) (x : ℕ → ℚ)
    (lc : (F.col "close").length = F.len) (hc : ∀ i < F.len, val (F.col "close") i = .fin (x i)) (h : calcTi p F = .ok T)
    (i : ℕ) (hi' : i < F.len) (lo hi : ℚ) (hb : ∀ j ≤ i, lo ≤ x j ∧ x j ≤ hi) :
    Val.Sat (fun q => roundQ 4 lo ≤ q ∧ q ≤ roundQ 4 hi) (val (T.col "ws") i) := by
  unfold calcTi at h
  split at h
  · simp at h
  simp only [Except.ok.injEq] at h
  subst h
  rw [Frame.col_single, val_roundS]
  apply Val.Sat.round_between
  apply wilder_sat (convexP_between lo hi) 0 p hp _ i (by omega)
  intro j hj
  rw [hc j (by omega)]
  exact hb j hj

end TTI.Ind
