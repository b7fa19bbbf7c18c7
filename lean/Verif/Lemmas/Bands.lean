import Verif.Lemmas.Averages

set_option autoImplicit false

/-!
# Order of bands
-/

namespace TTI

theorem Val.NotAbove_of_sat2 {v w : Val} (h : Val.Sat2 (· ≤ ·) v w) : Spec.NotAbove v w := by
  rcases h.cases with ⟨rfl, -⟩ | ⟨rfl, -⟩ | ⟨a, b, rfl, rfl, hab⟩
  · exact Or.inl rfl
  · exact Or.inr (Or.inl rfl)
  · exact Or.inr (Or.inr (by simpa using hab))

namespace Ind

theorem BollingerBands.order (sq : ℚ → ℚ) (hs : ∀ q, 0 ≤ q → 0 ≤ sq q) (p : ℕ) (s : Val) (hp : (0 : Val) <ᵥ s)
    (F T : Frame) (x : ℕ → ℚ) (lc : (F.col "close").length = F.len) (hc : ∀ i < F.len, val (F.col "close") i = .fin (x i))
    (h : calcTi sq p s F = .ok T) (i : ℕ) (hi : i < F.len) :
    Spec.NotAbove (val (T.col "lower_band") i) (val (T.col "middle_band") i) ∧
    Spec.NotAbove (val (T.col "middle_band") i) (val (T.col "upper_band") i) := by
  unfold calcTi at h
  split at h
  · simp at h
  simp only [Except.ok.injEq] at h
  subst h
  have e1 : Frame.col ⟨F.idx, [("middle_band", roundS 4 (rolling p p aggMean (F.col "close"))),
      ("upper_band", roundS 4 (addS (roundS 4 (rolling p p aggMean (F.col "close")))
        ((rolling p p (aggStd sq 0) (F.col "close")).map fun x => Val.mul x s))),
      ("lower_band", roundS 4 (subS (roundS 4 (rolling p p aggMean (F.col "close")))
        ((rolling p p (aggStd sq 0) (F.col "close")).map fun x => Val.mul x s)))]⟩ "lower_band" =
      roundS 4 (subS (roundS 4 (rolling p p aggMean (F.col "close")))
        ((rolling p p (aggStd sq 0) (F.col "close")).map fun x => Val.mul x s)) := by simp [Frame.col]
  have e2 : Frame.col ⟨F.idx, [("middle_band", roundS 4 (rolling p p aggMean (F.col "close"))),
      ("upper_band", roundS 4 (addS (roundS 4 (rolling p p aggMean (F.col "close")))
        ((rolling p p (aggStd sq 0) (F.col "close")).map fun x => Val.mul x s))),
      ("lower_band", roundS 4 (subS (roundS 4 (rolling p p aggMean (F.col "close")))
        ((rolling p p (aggStd sq 0) (F.col "close")).map fun x => Val.mul x s)))]⟩ "upper_band" =
      roundS 4 (addS (roundS 4 (rolling p p aggMean (F.col "close")))
        ((rolling p p (aggStd sq 0) (F.col "close")).map fun x => Val.mul x s)) := by simp [Frame.col]
  have e3 : Frame.col ⟨F.idx, [("middle_band", roundS 4 (rolling p p aggMean (F.col "close"))),
      ("upper_band", roundS 4 (addS (roundS 4 (rolling p p aggMean (F.col "close")))
        ((rolling p p (aggStd sq 0) (F.col "close")).map fun x => Val.mul x s))),
      ("lower_band", roundS 4 (subS (roundS 4 (rolling p p aggMean (F.col "close")))
        ((rolling p p (aggStd sq 0) (F.col "close")).map fun x => Val.mul x s)))]⟩ "middle_band" =
      roundS 4 (rolling p p aggMean (F.col "close")) := by simp [Frame.col]
  rw [e1, e2, e3]
  simp only [val_roundS, val_subS, val_addS]
  rw [val_map _ (by simp)]
  have hsd := rolling_std_nonneg sq hs 0 p p (F.col "close") i (by omega)
  have hm : val (rolling p p aggMean (F.col "close")) i = .nan ∨ ∃ m, val (rolling p p aggMean (F.col "close")) i = .fin m := by
    have := rolling_sat (fun _ => True) (fun _ => True) p p aggMean (F.col "close") i (by omega) (fun j hj => by
      rw [hc j (by omega)]; trivial) (fun v _ => by unfold aggMean; split <;> trivial)
    rcases this.cases with h | ⟨q, h, -⟩
    · exact Or.inl h
    · exact Or.inr ⟨q, h⟩
  rcases hm with hm | ⟨m, hm⟩
  · rw [hm]; exact ⟨Or.inr (Or.inl rfl), Or.inl rfl⟩
  · rw [hm]
    rcases hsd.cases with hd | ⟨d, hd, hd0⟩
    · rw [hd]
      exact ⟨Or.inl (by simp [Val.round]), Or.inr (Or.inl (by simp [Val.round]))⟩
    · rw [hd]
      cases s with
      | nan => simp [Val.lt, Val.zero_eq] at hp
      | ninf => simp [Val.lt, Val.zero_eq] at hp
      | pinf =>
        rcases eq_or_ne d 0 with rfl | hne
        · exact ⟨Or.inl (by simp [Val.mul, Val.infMul, Val.round]), Or.inr (Or.inl (by simp [Val.mul, Val.infMul, Val.round]))⟩
        · have hd1 : 0 < d := lt_of_le_of_ne hd0 (Ne.symm hne)
          refine ⟨Or.inr (Or.inr ?_), Or.inr (Or.inr ?_)⟩ <;>
            simp [Val.mul, Val.infMul, Val.round, hne, hd1, Val.sub, Val.neg, Val.add, Val.le]
      | fin k =>
        simp only [Val.zero_eq, Val.fin_lt, decide_eq_true_eq] at hp
        have hk : 0 ≤ d * k := mul_nonneg hd0 hp.le
        simp only [Val.fin_mul, Val.fin_round, Val.fin_sub, Val.fin_add]
        constructor
        · refine Or.inr (Or.inr ?_)
          simp only [Val.fin_le, decide_eq_true_eq]
          calc roundQ 4 (roundQ 4 m - d * k) ≤ roundQ 4 (roundQ 4 m) := roundQ_mono 4 (by linarith)
            _ = roundQ 4 m := roundQ_idem 4 m
        · refine Or.inr (Or.inr ?_)
          simp only [Val.fin_le, decide_eq_true_eq]
          calc roundQ 4 m = roundQ 4 (roundQ 4 m) := (roundQ_idem 4 m).symm
            _ ≤ roundQ 4 (roundQ 4 m + d * k) := roundQ_mono 4 (by linarith)

theorem Envelopes.order (p : ℕ) (s : ℚ) (hs : 0 < s) (F T : Frame) (x : ℕ → ℚ) (lc : (F.col "close").length = F.len)
    (hc : ∀ i < F.len, val (F.col "close") i = .fin (x i)) (h0 : ∀ i < F.len, 0 ≤ x i)
    (h : calcTi p s F = .ok T) (i : ℕ) (hi : i < F.len) :
    Val.Sat2 (· ≤ ·) (val (T.col "lower_band") i) (val (T.col "upper_band") i) := by
  unfold calcTi at h
  split at h
  · simp at h
  simp only [Except.ok.injEq] at h
  subst h
  have e1 : Frame.col ⟨F.idx, [("upper_band", roundS 4 (scaleS (1 + s) (rolling p p aggMean (F.col "close")))),
      ("lower_band", roundS 4 (scaleS (1 - s) (rolling p p aggMean (F.col "close"))))]⟩ "lower_band" =
      roundS 4 (scaleS (1 - s) (rolling p p aggMean (F.col "close"))) := by simp [Frame.col]
  have e2 : Frame.col ⟨F.idx, [("upper_band", roundS 4 (scaleS (1 + s) (rolling p p aggMean (F.col "close")))),
      ("lower_band", roundS 4 (scaleS (1 - s) (rolling p p aggMean (F.col "close"))))]⟩ "upper_band" =
      roundS 4 (scaleS (1 + s) (rolling p p aggMean (F.col "close"))) := by simp [Frame.col]
  rw [e1, e2, val_roundS, val_roundS, val_scaleS, val_scaleS]
  apply Val.Sat2.round_le
  have : Val.Sat (fun q => 0 ≤ q) (val (rolling p p aggMean (F.col "close")) i) := by
    refine rolling_sat (fun q => 0 ≤ q) _ _ _ _ _ _ (by omega) (fun j hj => ?_) (fun v hv => ?_)
    · rw [hc j (by omega)]; exact h0 j (by omega)
    · unfold aggMean
      split
      · trivial
      · exact div_nonneg (List.sum_nonneg hv) (Nat.cast_nonneg _)
  rcases this.cases with h | ⟨q, h, hq⟩
  · rw [h]; simp
  · rw [h, Val.fin_mul, Val.fin_mul, Val.sat2_fin]
    nlinarith

theorem PriceChannel.exact (p : ℕ) (hp : 1 ≤ p) (F T : Frame) (x : String → ℕ → ℚ)
    (l3 : ∀ n ∈ ["high", "low", "close"], (F.col n).length = F.len)
    (hx : ∀ n ∈ ["high", "low", "close"], ∀ i < F.len, val (F.col n) i = .fin (x n i))
    (h : calcTi p F = .ok T) (i : ℕ) (hi : i < F.len) :
    (i < p → val (T.col "highest_high") i = .nan ∧ val (T.col "lowest_low") i = .nan) ∧
    (p ≤ i → ∃ a b, i ≤ a + p ∧ a < i ∧ i ≤ b + p ∧ b < i ∧
      val (T.col "highest_high") i = .fin (roundQ 4 (x "high" a)) ∧ val (T.col "lowest_low") i = .fin (roundQ 4 (x "low" b)) ∧
      ∀ j, i ≤ j + p → j < i → x "high" j ≤ x "high" a ∧ x "low" b ≤ x "low" j) := by
  have ll := l3 "low" (by simp)
  have lh := l3 "high" (by simp)
  unfold calcTi at h
  split at h
  · simp at h
  simp only [Except.ok.injEq] at h
  subst h
  have e1 : Frame.col ⟨F.idx, [("highest_high", roundS 4 (shift 1 (rolling p p aggMax (F.col "high")))),
      ("lowest_low", roundS 4 (shift 1 (rolling p p aggMin (F.col "low"))))]⟩ "highest_high" =
      roundS 4 (shift 1 (rolling p p aggMax (F.col "high"))) := by simp [Frame.col]
  have e2 : Frame.col ⟨F.idx, [("highest_high", roundS 4 (shift 1 (rolling p p aggMax (F.col "high")))),
      ("lowest_low", roundS 4 (shift 1 (rolling p p aggMin (F.col "low"))))]⟩ "lowest_low" =
      roundS 4 (shift 1 (rolling p p aggMin (F.col "low"))) := by simp [Frame.col]
  rw [e1, e2, val_roundS, val_roundS, val_shift _ _ _ (by simp; omega), val_shift _ _ _ (by simp; omega)]
  by_cases h0 : i < 1
  · simp only [if_pos h0]
    exact ⟨fun _ => ⟨rfl, rfl⟩, fun h => by omega⟩
  · simp only [if_neg h0]
    rcases val_rolling_max p hp _ (x "high") (i - 1) (by omega) (fun j hj => hx "high" (by simp) j (by omega)) with
      ⟨h1, h2⟩ | ⟨h1, M, h2, ⟨a, ha1, ha2, ha3⟩, h3⟩
    · rcases val_rolling_min p hp _ (x "low") (i - 1) (by omega) (fun j hj => hx "low" (by simp) j (by omega)) with
        ⟨-, h4⟩ | ⟨h4, -⟩
      · rw [h2, h4]
        exact ⟨fun _ => ⟨rfl, rfl⟩, fun h => by omega⟩
      · omega
    · rcases val_rolling_min p hp _ (x "low") (i - 1) (by omega) (fun j hj => hx "low" (by simp) j (by omega)) with
        ⟨h4, -⟩ | ⟨h4, m, h5, ⟨b, hb1, hb2, hb3⟩, h6⟩
      · omega
      · rw [h2, h5]
        refine ⟨fun h => by omega, fun _ => ⟨a, b, by omega, by omega, by omega, by omega, ?_, ?_, ?_⟩⟩
        · rw [ha3]; rfl
        · rw [hb3]; rfl
        · intro j hj1 hj2
          rw [← ha3, ← hb3]
          exact ⟨h3 j (by omega) (by omega), h6 j (by omega) (by omega)⟩

theorem foldl_pmax (l : List Val) (hl : ∀ v ∈ l, Val.Sat (fun _ => True) v) (a : ℚ) :
    ∃ b, l.foldl Val.pmax (.fin a) = .fin b ∧ a ≤ b := by
  induction l generalizing a with
  | nil => exact ⟨a, rfl, le_refl _⟩
  | cons v l ih =>
    rw [List.foldl_cons]
    rcases (hl v (by simp)).cases with rfl | ⟨q, rfl, -⟩
    · exact ih (fun w hw => hl w (by simp [hw])) a
    · simp only [Val.pmax, Val.fin_lt, decide_eq_true_eq]
      split
      · next hq =>
        obtain ⟨b, h1, h2⟩ := ih (fun w hw => hl w (by simp [hw])) q
        exact ⟨b, h1, hq.le.trans h2⟩
      · exact ih (fun w hw => hl w (by simp [hw])) a

theorem foldl_pmin (l : List Val) (hl : ∀ v ∈ l, Val.Sat (fun _ => True) v) (a : ℚ) :
    ∃ b, l.foldl Val.pmin (.fin a) = .fin b ∧ b ≤ a := by
  induction l generalizing a with
  | nil => exact ⟨a, rfl, le_refl _⟩
  | cons v l ih =>
    rw [List.foldl_cons]
    rcases (hl v (by simp)).cases with rfl | ⟨q, rfl, -⟩
    · exact ih (fun w hw => hl w (by simp [hw])) a
    · simp only [Val.pmin, Val.fin_lt, decide_eq_true_eq]
      split
      · next hq =>
        obtain ⟨b, h1, h2⟩ := ih (fun w hw => hl w (by simp [hw])) q
        exact ⟨b, h1, h2.trans hq.le⟩
      · exact ih (fun w hw => hl w (by simp [hw])) a

theorem rollingOLS_sat (w : ℕ) (ys : List Val) : ∀ p ∈ rollingOLS w ys, Val.Sat (fun _ => True) p.1 ∧ Val.Sat (fun _ => True) p.2 := by
  intro p hp
  unfold rollingOLS prefixMap at hp
  rw [List.mem_map] at hp
  obtain ⟨i, -, rfl⟩ := hp
  beta_reduce
  split
  · split <;> exact ⟨trivial, trivial⟩
  · exact ⟨trivial, trivial⟩

/-- One band of the Projection Bands. -/
theorem ProjectionBands.band_val (pick : Val → Val → Val) (R : ℚ → ℚ → Prop)
    (hpk : ∀ (l : List Val), (∀ v ∈ l, Val.Sat (fun _ => True) v) → ∀ a, ∃ b, l.foldl pick (.fin a) = .fin b ∧ R a b)
    (p : ℕ) (price slope : List Val) (x : ℕ → ℚ) (i : ℕ) (hi : i < price.length) (hl : slope.length = price.length)
    (hx : ∀ j < price.length, val price j = .fin (x j)) (hs : ∀ v ∈ slope, Val.Sat (fun _ => True) v) :
    (i + 1 < p ∧ val (band pick p price slope) i = .nan) ∨
    (p ≤ i + 1 ∧ ∃ b, val (band pick p price slope) i = .fin b ∧ R (x i) b) := by
  unfold band
  rw [val_prefixMap' _ _ _ (by simp; omega)]
  have hlen : ((price.zip slope).take (i + 1)).length = i + 1 := by simp; omega
  rw [hlen]
  split
  · next h => exact Or.inl ⟨h, rfl⟩
  · next h =>
    right
    refine ⟨by omega, ?_⟩
    have hmem : ∀ r ∈ price.zip slope, (∃ q, r.1 = .fin q) ∧ Val.Sat (fun _ => True) r.2 := by
      intro r hr
      have := List.of_mem_zip (show (r.1, r.2) ∈ price.zip slope from hr)
      obtain ⟨j, hj, hje⟩ := mem_val this.1
      exact ⟨⟨x j, by rw [← hx j hj, hje]⟩, hs _ this.2⟩
    have htake : (price.zip slope).take (i + 1) = (price.zip slope).take i ++ [(val price i, val slope i)] := by
      rw [List.take_succ_eq_append_getElem (by simp; omega), val_lt _ _ hi, val_lt _ _ (by omega)]
      simp
    rw [htake, List.reverse_append]
    simp only [List.reverse_singleton, List.singleton_append]
    rw [hx i hi]
    apply hpk
    intro v hv
    rw [List.mem_map] at hv
    obtain ⟨q, hq, rfl⟩ := hv
    have hq1 := List.fst_mem_of_mem_zipIdx hq
    rw [List.mem_map] at hq1
    obtain ⟨r, hr, hrq⟩ := hq1
    have hr' : r ∈ price.zip slope := List.mem_of_mem_take (List.mem_reverse.1 (List.mem_of_mem_take hr))
    obtain ⟨⟨q1, h1⟩, -⟩ := hmem r hr'
    rw [← hrq, h1]
    have hsl : Val.Sat (fun _ => True) (val slope i) := by
      rw [val_lt _ _ (by omega)]; exact hs _ (List.getElem_mem _)
    rcases hsl.cases with h | ⟨s, h, -⟩
    · rw [h]; simp
    · rw [h]; simp

theorem ProjectionBands.order (p : ℕ) (F T : Frame) (x : String → ℕ → ℚ)
    (l3 : ∀ n ∈ ["high", "low", "close"], (F.col n).length = F.len)
    (hx : ∀ n ∈ ["high", "low", "close"], ∀ i < F.len, val (F.col n) i = .fin (x n i))
    (h : calcTi p F = .ok T) (i : ℕ) (hi : i < F.len) :
    (i + 1 < p ∧ val (T.col "upper_band") i = .nan ∧ val (T.col "lower_band") i = .nan) ∨
    (p ≤ i + 1 ∧ ∃ u l, val (T.col "upper_band") i = .fin u ∧ val (T.col "lower_band") i = .fin l ∧
      roundQ 4 (x "high" i) ≤ u ∧ l ≤ roundQ 4 (x "low" i)) := by
  have ll := l3 "low" (by simp)
  have lh := l3 "high" (by simp)
  unfold calcTi at h
  split at h
  · simp at h
  simp only [Except.ok.injEq] at h
  subst h
  have e1 : Frame.col ⟨F.idx, [("upper_band", roundS 4 (band Val.pmax p (F.col "high") ((rollingOLS p (fillna 0 (F.col "high"))).map (·.2)))),
      ("lower_band", roundS 4 (band Val.pmin p (F.col "low") ((rollingOLS p (fillna 0 (F.col "low"))).map (·.2))))]⟩ "upper_band" =
      roundS 4 (band Val.pmax p (F.col "high") ((rollingOLS p (fillna 0 (F.col "high"))).map (·.2))) := by simp [Frame.col]
  have e2 : Frame.col ⟨F.idx, [("upper_band", roundS 4 (band Val.pmax p (F.col "high") ((rollingOLS p (fillna 0 (F.col "high"))).map (·.2)))),
      ("lower_band", roundS 4 (band Val.pmin p (F.col "low") ((rollingOLS p (fillna 0 (F.col "low"))).map (·.2))))]⟩ "lower_band" =
      roundS 4 (band Val.pmin p (F.col "low") ((rollingOLS p (fillna 0 (F.col "low"))).map (·.2))) := by simp [Frame.col]
  rw [e1, e2, val_roundS, val_roundS]
  have hsl : ∀ ys : List Val, ∀ v ∈ (rollingOLS p ys).map (·.2), Val.Sat (fun _ => True) v := by
    intro ys v hv
    rw [List.mem_map] at hv
    obtain ⟨r, hr, rfl⟩ := hv
    exact (rollingOLS_sat p ys r hr).2
  have H := ProjectionBands.band_val Val.pmax (· ≤ ·) (fun l hl a => foldl_pmax l hl a) p (F.col "high")
    ((rollingOLS p (fillna 0 (F.col "high"))).map (·.2)) (x "high") i (by omega) (by simp) (by rw [lh]; exact hx _ (by simp)) (hsl _)
  have L := ProjectionBands.band_val Val.pmin (fun a b => b ≤ a) (fun l hl a => foldl_pmin l hl a) p (F.col "low")
    ((rollingOLS p (fillna 0 (F.col "low"))).map (·.2)) (x "low") i (by omega) (by simp) (by rw [ll]; exact hx _ (by simp)) (hsl _)
  rcases H with ⟨h1, h2⟩ | ⟨h1, u, h2, h3⟩
  · rcases L with ⟨h4, h5⟩ | ⟨h4, -⟩
    · exact Or.inl ⟨h1, by rw [h2]; rfl, by rw [h5]; rfl⟩
    · omega
  · rcases L with ⟨h4, -⟩ | ⟨h4, l, h5, h6⟩
    · omega
    · right
      exact ⟨h1, roundQ 4 u, roundQ 4 l, by rw [h2]; rfl, by rw [h5]; rfl, roundQ_mono 4 h3, roundQ_mono 4 h6⟩

/-! ## Fibonacci -/

theorem foldl_maxSkip (l : List Val) (hl : ∀ v ∈ l, ∃ q, v = .fin q) (a : ℚ) :
    ∃ b, l.foldl maxSkip (.fin a) = .fin b ∧ a ≤ b ∧ (∀ q, .fin q ∈ l → q ≤ b) ∧ (b = a ∨ .fin b ∈ l) := by
  induction l generalizing a with
  | nil => exact ⟨a, rfl, le_refl _, by simp, Or.inl rfl⟩
  | cons v l ih =>
    rw [List.foldl_cons]
    obtain ⟨q, rfl⟩ := hl v (by simp)
    rw [maxSkip_fin]
    obtain ⟨b, h1, h2, h3, h4⟩ := ih (fun w hw => hl w (by simp [hw])) (max a q)
    refine ⟨b, h1, (le_max_left _ _).trans h2, ?_, ?_⟩
    · intro r hr
      rw [List.mem_cons] at hr
      rcases hr with hr | hr
      · rw [Val.fin.inj hr]; exact (le_max_right _ _).trans h2
      · exact h3 r hr
    · rcases h4 with h4 | h4
      · rcases le_total a q with h | h
        · rw [max_eq_right h] at h4; right; rw [h4]; simp
        · rw [max_eq_left h] at h4; exact Or.inl h4
      · right; simp [h4]

@[simp] theorem minSkip_fin (a b : ℚ) : minSkip (.fin a) (.fin b) = .fin (min a b) := by
  simp only [minSkip, Val.isNan, Val.fin_lt, decide_eq_true_eq]
  by_cases h : b < a
  · simp [h, min_eq_right h.le]
  · simp [h, min_eq_left (not_lt.1 h)]

theorem foldl_minSkip (l : List Val) (hl : ∀ v ∈ l, ∃ q, v = .fin q) (a : ℚ) :
    ∃ b, l.foldl minSkip (.fin a) = .fin b ∧ b ≤ a ∧ (∀ q, .fin q ∈ l → b ≤ q) ∧ (b = a ∨ .fin b ∈ l) := by
  induction l generalizing a with
  | nil => exact ⟨a, rfl, le_refl _, by simp, Or.inl rfl⟩
  | cons v l ih =>
    rw [List.foldl_cons]
    obtain ⟨q, rfl⟩ := hl v (by simp)
    rw [minSkip_fin]
    obtain ⟨b, h1, h2, h3, h4⟩ := ih (fun w hw => hl w (by simp [hw])) (min a q)
    refine ⟨b, h1, h2.trans (min_le_left _ _), ?_, ?_⟩
    · intro r hr
      rw [List.mem_cons] at hr
      rcases hr with hr | hr
      · rw [Val.fin.inj hr]; exact h2.trans (min_le_right _ _)
      · exact h3 r hr
    · rcases h4 with h4 | h4
      · rcases le_total a q with h | h
        · rw [min_eq_left h] at h4; exact Or.inl h4
        · rw [min_eq_right h] at h4; right; rw [h4]; simp
      · right; simp [h4]

/-- Greatest and least value of a column of numbers. -/
theorem maxOf_spec (xs : List Val) (x : ℕ → ℚ) (h0 : 0 < xs.length) (hx : ∀ j < xs.length, val xs j = .fin (x j)) :
    ∃ a < xs.length, maxOf xs = .fin (x a) ∧ ∀ j < xs.length, x j ≤ x a := by
  have hfin : ∀ v ∈ xs, ∃ q, v = .fin q := by
    intro v hv
    obtain ⟨j, hj, rfl⟩ := mem_val hv
    exact ⟨_, hx j hj⟩
  have hmem : ∀ j < xs.length, Val.fin (x j) ∈ xs := by
    intro j hj
    rw [← hx j hj, val_lt _ _ hj]; exact List.getElem_mem _
  cases xs with
  | nil => simp at h0
  | cons v l =>
    obtain ⟨q, rfl⟩ := hfin v (by simp)
    obtain ⟨b, h1, h2, h3, h4⟩ := foldl_maxSkip l (fun w hw => hfin w (by simp [hw])) q
    have hb : Val.fin b ∈ Val.fin q :: l := by
      rcases h4 with rfl | h4
      · simp
      · simp [h4]
    obtain ⟨a, ha, hab⟩ := mem_val hb
    rw [hx a ha] at hab
    have := Val.fin.inj hab
    refine ⟨a, ha, ?_, ?_⟩
    · unfold maxOf
      rw [List.foldl_cons]
      show l.foldl maxSkip (.fin q) = _
      rw [h1, this]
    · intro j hj
      rw [← this]
      have := hmem j hj
      rw [List.mem_cons] at this
      rcases this with h | h
      · rw [Val.fin.inj h]; exact h2
      · exact h3 _ h

theorem minOf_spec (xs : List Val) (x : ℕ → ℚ) (h0 : 0 < xs.length) (hx : ∀ j < xs.length, val xs j = .fin (x j)) :
    ∃ a < xs.length, minOf xs = .fin (x a) ∧ ∀ j < xs.length, x a ≤ x j := by
  have hfin : ∀ v ∈ xs, ∃ q, v = .fin q := by
    intro v hv
    obtain ⟨j, hj, rfl⟩ := mem_val hv
    exact ⟨_, hx j hj⟩
  have hmem : ∀ j < xs.length, Val.fin (x j) ∈ xs := by
    intro j hj
    rw [← hx j hj, val_lt _ _ hj]; exact List.getElem_mem _
  cases xs with
  | nil => simp at h0
  | cons v l =>
    obtain ⟨q, rfl⟩ := hfin v (by simp)
    obtain ⟨b, h1, h2, h3, h4⟩ := foldl_minSkip l (fun w hw => hfin w (by simp [hw])) q
    have hb : Val.fin b ∈ Val.fin q :: l := by
      rcases h4 with rfl | h4
      · simp
      · simp [h4]
    obtain ⟨a, ha, hab⟩ := mem_val hb
    rw [hx a ha] at hab
    have := Val.fin.inj hab
    refine ⟨a, ha, ?_, ?_⟩
    · unfold minOf
      rw [List.foldl_cons]
      show l.foldl minSkip (.fin q) = _
      rw [h1, this]
    · intro j hj
      rw [← this]
      have := hmem j hj
      rw [List.mem_cons] at this
      rcases this with h | h
      · rw [Val.fin.inj h]; exact h2
      · exact h3 _ h

theorem FibonacciRetracement.exact (F T : Frame) (x : ℕ → ℚ) (lc : (F.col "close").length = F.len)
    (hc : ∀ i < F.len, val (F.col "close") i = .fin (x i)) (h : calcTi F = .ok T) (i : ℕ) (hi : i < F.len) :
    ∃ a < F.len, ∃ b < F.len, (∀ j < F.len, x b ≤ x j ∧ x j ≤ x a) ∧
      ∀ l ∈ levels, val (T.col l.1) i = .fin (roundQ 4 (x a - l.2 * (x a - x b))) := by
  obtain ⟨a, ha, h1, h2⟩ := maxOf_spec (F.col "close") x (by omega) (by rw [lc]; exact hc)
  obtain ⟨b, hb, h3, h4⟩ := minOf_spec (F.col "close") x (by omega) (by rw [lc]; exact hc)
  rw [lc] at ha hb h2 h4
  refine ⟨a, ha, b, hb, fun j hj => ⟨h4 j hj, h2 j hj⟩, ?_⟩
  unfold calcTi at h
  simp only [Except.ok.injEq] at h
  subst h
  intro l hl
  rw [h1, h3]
  simp only [Val.fin_sub, Val.fin_mul, Val.fin_round]
  have : ∀ (g : String × ℚ → List Val), ∀ l ∈ levels, Frame.col ⟨F.idx, levels.map fun l => (l.1, g l)⟩ l.1 = g l := by
    intro g l hl
    simp only [levels, List.mem_cons, List.not_mem_nil, or_false] at hl
    rcases hl with rfl | rfl | rfl | rfl | rfl | rfl <;> simp [Frame.col, levels]
  rw [this (fun l => List.replicate F.len (.fin (roundQ 4 (x a - l.2 * (x a - x b))))) l hl]
  rw [val_lt _ _ (by simpa using hi)]
  simp

end Ind
end TTI
