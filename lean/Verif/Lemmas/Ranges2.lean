import Verif.Lemmas.Ranges

set_option autoImplicit false

/-!
# Ranges of Range Indicator, Directional Movement Index and Ultimate Oscillator; signs
-/

namespace TTI

@[simp] theorem maxNan_fin (a b : ℚ) : maxNan (.fin a) (.fin b) = .fin (max a b) := by
  simp only [maxNan, Val.isNan, Val.fin_lt, decide_eq_true_eq]
  by_cases h : a < b
  · simp [h, max_eq_right h.le]
  · simp [h, max_eq_left (not_lt.1 h)]

@[simp] theorem minNan_fin (a b : ℚ) : minNan (.fin a) (.fin b) = .fin (min a b) := by
  simp only [minNan, Val.isNan, Val.fin_lt, decide_eq_true_eq]
  by_cases h : b < a
  · simp [h, min_eq_right h.le]
  · simp [h, min_eq_left (not_lt.1 h)]

@[simp] theorem maxSkip_fin (a b : ℚ) : maxSkip (.fin a) (.fin b) = .fin (max a b) := by
  simp only [maxSkip, Val.isNan, Val.fin_lt, decide_eq_true_eq]
  by_cases h : a < b
  · simp [h, max_eq_right h.le]
  · simp [h, max_eq_left (not_lt.1 h)]

theorem maxNan_nan (v : Val) : maxNan v .nan = .nan := by cases v <;> rfl
theorem minNan_nan (v : Val) : minNan v .nan = .nan := by cases v <;> rfl
@[simp] theorem maxSkip_nan (v : Val) : maxSkip v .nan = v := by cases v <;> rfl

/-- Value of a window function, without knowing which rows hold numbers. -/
theorem rolling_max_cases (w : ℕ) (hw : 1 ≤ w) (xs : List Val) (i : ℕ) (h : i < xs.length) :
    val (rolling w w aggMax xs) i = .nan ∨ (∃ q, val xs i = .fin q) ∧
    ∃ m, val (rolling w w aggMax xs) i = .fin m ∧ ∀ j q, i < j + w → j ≤ i → val xs j = .fin q → q ≤ m := by
  rcases rolling_full_cases w aggMax xs i h with h1 | ⟨hwi, f, hf, h1⟩
  · exact Or.inl h1
  · right
    refine ⟨⟨_, hf i (by omega) (le_refl _)⟩, ?_⟩
    obtain ⟨m, h2, -, h4⟩ := aggMax_spec ((List.range w).map fun t => f (i + 1 - w + t)) (by
      intro he
      have := congrArg List.length he
      simp at this
      omega)
    refine ⟨m, by rw [h1, h2], ?_⟩
    intro j q h5 h6 h7
    rw [hf j h5 h6] at h7
    rw [← Val.fin.inj h7]
    apply h4
    rw [List.mem_map]
    exact ⟨j - (i + 1 - w), by rw [List.mem_range]; omega, by congr 1; omega⟩

theorem rolling_min_cases (w : ℕ) (hw : 1 ≤ w) (xs : List Val) (i : ℕ) (h : i < xs.length) :
    val (rolling w w aggMin xs) i = .nan ∨ (∃ q, val xs i = .fin q) ∧
    ∃ m, val (rolling w w aggMin xs) i = .fin m ∧ ∀ j q, i < j + w → j ≤ i → val xs j = .fin q → m ≤ q := by
  rcases rolling_full_cases w aggMin xs i h with h1 | ⟨hwi, f, hf, h1⟩
  · exact Or.inl h1
  · right
    refine ⟨⟨_, hf i (by omega) (le_refl _)⟩, ?_⟩
    obtain ⟨m, h2, -, h4⟩ := aggMin_spec ((List.range w).map fun t => f (i + 1 - w + t)) (by
      intro he
      have := congrArg List.length he
      simp at this
      omega)
    refine ⟨m, by rw [h1, h2], ?_⟩
    intro j q h5 h6 h7
    rw [hf j h5 h6] at h7
    rw [← Val.fin.inj h7]
    apply h4
    rw [List.mem_map]
    exact ⟨j - (i + 1 - w), by rw [List.mem_range]; omega, by congr 1; omega⟩

namespace Ind

/-- The true range of a row other than the first. -/
def trueRangeQ (x : String → ℕ → ℚ) (i : ℕ) : ℚ :=
  max (max (x "high" i - x "low" i) (x "high" i - x "close" (i - 1))) (x "close" (i - 1) - x "low" i)

theorem trueRange_length (pick : Val → Val → Val) (F : Frame) (x : String → ℕ → ℚ) (hx : Prices F ["high", "low", "close"] x) :
    (trueRange pick F).length = F.len := by
  simp [trueRange, hx.len "close" (by simp), hx.len "low" (by simp), hx.len "high" (by simp)]

theorem val_trueRange (pick : Val → Val → Val) (hpk : ∀ a b, pick (.fin a) (.fin b) = .fin (max a b)) (F : Frame)
    (x : String → ℕ → ℚ) (hx : Prices F ["high", "low", "close"] x) (i : ℕ) (hi : i < F.len) (h1 : 1 ≤ i) :
    val (trueRange pick F) i = .fin (trueRangeQ x i) := by
  have lc := hx.len "close" (by simp)
  have ll := hx.len "low" (by simp)
  have lh := hx.len "high" (by simp)
  unfold trueRange
  simp only
  rw [val_zip3 _ _ _ _ _ (by simp [*]) (by simp [*]) (by simp [*])]
  rw [val_subS, val_subS, val_subS, val_shift _ _ _ (by omega), if_neg (by omega), hx.num "close" (by simp) (i - 1) (by omega),
    hx.num "low" (by simp) i hi, hx.num "high" (by simp) i hi]
  simp only [Val.fin_sub, hpk]
  rfl

theorem trueRangeQ_nonneg (F : Frame) (names : List String) (x : String → ℕ → ℚ) (hx : Prices F names x) (i : ℕ) (hi : i < F.len) :
    0 ≤ trueRangeQ x i := by
  have hb := hx.bar i hi
  unfold trueRangeQ
  have := hb.1.trans hb.2.1
  exact le_max_of_le_left (le_max_of_le_left (by linarith))

/-! ## Range Indicator -/

theorem RangeIndicator.scaled_range (s lo hi : ℚ) (h1 : lo ≤ s) (h2 : s ≤ hi) :
    Val.Sat (fun q => 0 ≤ q ∧ q ≤ 100) (scaled (.fin s) (.fin lo) (.fin hi)) := by
  unfold scaled
  simp only [Val.fin_sub, Val.zero_eq, Val.fin_lt, decide_eq_true_eq, Val.hundred_eq, Val.fin_mul]
  by_cases hr : 0 < hi - lo
  · simp only [if_pos hr, Val.fin_div _ _ hr.ne', Val.fin_le, decide_eq_true_eq]
    have h3 : 0 ≤ 100 * (s - lo) / (hi - lo) := div_nonneg (by linarith) hr.le
    have h4 : 100 * (s - lo) / (hi - lo) ≤ 100 := by rw [div_le_iff₀ hr]; linarith
    split
    · next h5 =>
      have h6 : 100 * (s - lo) / (hi - lo) = 0 := le_antisymm h5 h3
      rw [div_eq_zero_iff] at h6
      rcases h6 with h6 | h6
      · rw [h6]; exact ⟨le_refl _, by norm_num⟩
      · linarith
    · exact ⟨h3, h4⟩
  · have e1 : s = lo := by linarith
    have e2 : hi = lo := by linarith
    subst e1 e2
    simp

theorem RangeIndicator.scaled_nan (s lo hi : Val) (h : lo = .nan ∨ hi = .nan) : scaled s lo hi = .nan := by
  rcases h with rfl | rfl <;> cases s <;> simp [scaled, Val.lt, Val.le]

theorem RangeIndicator.range (F : Frame) (x : String → ℕ → ℚ) (p q : ℕ) (hp : 1 ≤ p) (hq : 1 ≤ q) (T : Frame)
    (hx : Prices F ["high", "low", "close"] x) (h : calcTi p q F = .ok T) :
    ∀ v ∈ T.col "ri", Val.Sat (fun q => 0 ≤ q ∧ q ≤ 100) v := by
  have lc := hx.len "close" (by simp)
  have lt := trueRange_length maxNan F x hx
  unfold calcTi at h
  simp only at h
  split at h
  · simp at h
  simp only [Except.ok.injEq] at h
  subst h
  rw [Frame.col_single]
  refine roundS_range (by simp) (by simp) _ ?_
  intro i hi
  simp [lc, lt] at hi
  apply ewm_between _ _ hq _ _ (by simp [lc, lt, hi])
  intro j hj
  rw [val_zip3 _ _ _ _ _ (by simp [lc, lt]; omega) (by simp [lc, lt]; omega) (by simp [lc, lt]; omega)]
  rcases rolling_min_cases p hp (maskBefore 1 (zip3 seeText (trueRange maxNan F) (F.col "close") (shift 1 (F.col "close")))) j
    (by simp [lc, lt]; omega) with h1 | ⟨⟨s, hs⟩, m, h1, h2⟩
  · rw [h1, scaled_nan _ _ _ (Or.inl rfl)]; trivial
  · rcases rolling_max_cases p hp (maskBefore 1 (zip3 seeText (trueRange maxNan F) (F.col "close") (shift 1 (F.col "close")))) j
      (by simp [lc, lt]; omega) with h3 | ⟨-, M, h3, h4⟩
    · rw [h3, scaled_nan _ _ _ (Or.inr rfl)]; trivial
    · rw [h1, h3, hs]
      exact scaled_range s m M (h2 j s (by omega) (le_refl _) hs) (h4 j s (by omega) (le_refl _) hs)

/-! ## Ultimate Oscillator -/

theorem UltimateOscillator.range (F : Frame) (x : String → ℕ → ℚ) (T : Frame)
    (hx : Prices F ["high", "low", "close"] x) (h : calcTi F = .ok T) :
    ∀ v ∈ T.col "uosc", Val.Sat (fun q => 0 ≤ q ∧ q ≤ 100) v := by
  have lc := hx.len "close" (by simp)
  have ll := hx.len "low" (by simp)
  have lh := hx.len "high" (by simp)
  unfold calcTi at h
  split at h
  · simp at h
  simp only [Except.ok.injEq] at h
  subst h
  rw [Frame.col_single]
  refine roundS_range (by simp) (by simp) _ ?_
  intro i hi
  simp [lc, ll, lh, ratio] at hi
  rw [val_map _ (by simp), val_scaleS, val_addS, val_addS, val_scaleS, val_scaleS]
  have hr : ∀ w, Val.Sat (fun q => 0 ≤ q ∧ q ≤ 1) (val (ratio w (subS (F.col "close") (zipV minNan (F.col "low") (shift 1 (F.col "close"))))
      (subS (zipV maxNan (F.col "high") (shift 1 (F.col "close"))) (zipV minNan (F.col "low") (shift 1 (F.col "close"))))) i) := by
    intro w
    unfold ratio
    rw [val_divS]
    apply Val.Sat2.div_unit
    apply rolling_sum_sat2 additive_unit
    · simp [lc, ll, hi]
    · simp [lc, ll, lh, hi]
    · intro j hj
      rw [val_subS, val_subS, val_zipV _ _ _ _ (by omega) (by simp; omega), val_zipV _ _ _ _ (by omega) (by simp; omega),
        val_shift _ _ _ (by omega)]
      split
      · rw [maxNan_nan, minNan_nan]; simp
      · have hb := hx.bar j (by omega)
        rw [hx.num "close" (by simp) (j - 1) (by omega), hx.num "low" (by simp) j (by omega),
          hx.num "high" (by simp) j (by omega), hx.num "close" (by simp) j (by omega)]
        simp only [maxNan_fin, minNan_fin, Val.fin_sub, Val.sat2_fin]
        have h1 := min_le_left (x "low" j) (x "close" (j - 1))
        have h2 := le_max_left (x "high" j) (x "close" (j - 1))
        obtain ⟨-, -, h3, h4, -⟩ := hb
        constructor <;> linarith
  rcases (hr 7).cases with h1 | ⟨a, h1, ha⟩ <;> rcases (hr 14).cases with h2 | ⟨b, h2, hb⟩ <;>
    rcases (hr 28).cases with h3 | ⟨c, h3, hc⟩ <;> rw [h1, h2, h3]
  any_goals simp
  have e7 : (7 : Val) = .fin 7 := rfl
  rw [e7, Val.fin_div _ _ (by norm_num)]
  exact ⟨by linarith [ha.1, hb.1, hc.1], by linarith [ha.2, hb.2, hc.2]⟩

/-! ## Directional Movement Index -/

theorem sumSkip_both {Q : ℚ → ℚ → Prop} (hQ : Additive Q) (xs ys : List Val) (h : List.Forall₂ (Val.Both Q) xs ys) :
    ∃ a b, sumSkip xs = .fin a ∧ sumSkip ys = .fin b ∧ Q a b := by
  have key : ∀ a b, Q a b → ∃ c d, (xs.filter fun x => !x.isNan).foldl Val.add (.fin a) = .fin c ∧
      (ys.filter fun x => !x.isNan).foldl Val.add (.fin b) = .fin d ∧ Q c d := by
    induction h with
    | nil => intro a b hab; exact ⟨a, b, rfl, rfl, hab⟩
    | cons hxy _ ih =>
      intro a b hab
      rcases hxy.cases with ⟨rfl, rfl⟩ | ⟨c, d, rfl, rfl, hcd⟩
      · simpa [Val.isNan] using ih a b hab
      · rw [List.filter_cons_of_pos (by rfl), List.filter_cons_of_pos (by rfl), List.foldl_cons, List.foldl_cons, Val.fin_add,
          Val.fin_add]
        exact ih _ _ (hQ.add _ _ _ _ hab hcd)
  obtain ⟨c, d, h1, h2, h3⟩ := key 0 0 hQ.zero
  refine ⟨c, d, ?_, ?_, h3⟩
  · unfold sumSkip; rw [Val.zero_eq]; exact h1
  · unfold sumSkip; rw [Val.zero_eq]; exact h2

namespace DirectionalMovementIndex

theorem smooth14_both (xs ys : List Val) (i : ℕ) (hx : i < xs.length) (hy : i < ys.length)
    (h : ∀ j ≤ i, Val.Both (fun a b => 0 ≤ a ∧ a ≤ b) (val xs j) (val ys j)) :
    Val.Both (fun a b => 0 ≤ a ∧ a ≤ b) (val (smooth14 xs) i) (val (smooth14 ys) i) := by
  unfold smooth14
  rw [val_prefixMap _ _ _ hx, val_prefixMap _ _ _ hy]
  have hf := forall₂_take_of_val xs ys i hx hy h
  have hl : (xs.take (i + 1)).length = (ys.take (i + 1)).length := hf.length_eq
  rw [hl]
  split
  · trivial
  · generalize xs.take (i + 1) = us at hf ⊢
    generalize ys.take (i + 1) = ws at hf ⊢
    obtain ⟨a, b, h1, h2, h3⟩ := sumSkip_both additive_unit _ _ (List.forall₂_take 14 hf)
    rw [h1, h2]
    have hd := List.forall₂_drop 14 hf
    generalize us.drop 14 = us' at hd ⊢
    generalize ws.drop 14 = ws' at hd ⊢
    have : ∀ u v, Val.Both (fun a b => 0 ≤ a ∧ a ≤ b) u v → Val.Both (fun a b => 0 ≤ a ∧ a ≤ b)
        (us'.foldl (fun prev x => Val.add (Val.sub prev (Val.div prev 14)) x) u)
        (ws'.foldl (fun prev x => Val.add (Val.sub prev (Val.div prev 14)) x) v) := by
      clear h1 h2 h3
      induction hd with
      | nil => intro u v huv; exact huv
      | cons hxy _ ih =>
        intro u v huv
        apply ih
        have e14 : (14 : Val) = .fin 14 := rfl
        rcases huv.cases with ⟨rfl, rfl⟩ | ⟨c, d, rfl, rfl, hcd⟩
        · simp
        · rcases hxy.cases with ⟨rfl, rfl⟩ | ⟨e, f, rfl, rfl, hef⟩
          · simp
          · beta_reduce
            rw [e14, Val.fin_div _ _ (by norm_num), Val.fin_div _ _ (by norm_num), Val.fin_sub, Val.fin_sub, Val.fin_add, Val.fin_add,
              Val.both_fin]
            exact ⟨by linarith [hcd.1, hef.1], by linarith [hcd.2, hef.2]⟩
    exact this _ _ h3

theorem adxOf_range (dx : List Val) (i : ℕ) (hi : i < dx.length) (h : ∀ j ≤ i, Val.Sat (fun q => 0 ≤ q ∧ q ≤ 100) (val dx j))
    (hnan : ∀ j < 14, val dx j = .nan) : Val.Sat (fun q => 0 ≤ q ∧ q ≤ 100) (val (adxOf dx) i) := by
  unfold adxOf
  rw [val_prefixMap _ _ _ hi]
  have hmem : ∀ x ∈ dx.take (i + 1), Val.Sat (fun q => 0 ≤ q ∧ q ≤ 100) x := by
    intro x hx
    obtain ⟨j, hj, -, rfl⟩ := mem_take_val hx
    exact h j hj
  have e14 : (14 : Val) = .fin 14 := rfl
  have e13 : (13 : Val) = .fin 13 := rfl
  split
  · trivial
  · next hlen =>
    simp only [List.length_take, not_lt] at hlen
    refine foldl_sat _ ?_ _ (fun x hx => hmem x (List.mem_of_mem_drop hx)) _ ?_
    · intro prev x h1 h2
      rcases h1.cases with rfl | ⟨a, rfl, ha⟩
      · simp
      · rcases h2.cases with rfl | ⟨b, rfl, hb⟩
        · simp
        · rw [e13, e14, Val.fin_mul, Val.fin_add, Val.fin_div _ _ (by norm_num)]
          exact ⟨by linarith [ha.1, hb.1], by linarith [ha.2, hb.2]⟩
    · have h28 : (dx.take (i + 1)).take 28 = dx.take 14 ++ (dx.take 28).drop 14 := by
        have e : dx.take 14 = (dx.take 28).take 14 := by rw [List.take_take]; congr 1
        rw [e, List.take_append_drop, List.take_take]
        congr 1; omega
      have hfil : (dx.take 14).filter (fun x => !x.isNan) = [] := by
        rw [List.filter_eq_nil_iff]
        intro x hx
        obtain ⟨j, hj, -, rfl⟩ := mem_take_val (i := 13) hx
        rw [hnan j (by omega)]; simp [Val.isNan]
      have hsum : sumSkip ((dx.take (i + 1)).take 28) = sumSkip ((dx.take 28).drop 14) := by
        unfold sumSkip
        rw [h28, List.filter_append, hfil, List.nil_append]
      rw [hsum]
      obtain ⟨v, h1, h2, h3, -⟩ := sumSkip_sat (P := fun q => 0 ≤ q ∧ q ≤ 100) ((dx.take 28).drop 14) (fun x hx => by
        apply hmem
        have := List.mem_of_mem_drop hx
        apply List.mem_of_mem_take (i := 28)
        rw [List.take_take]
        rwa [show min 28 (i + 1) = 28 by omega])
      rw [h1, e14, Val.fin_div _ _ (by norm_num)]
      have hv : v.length ≤ 14 := by
        have : ((dx.take 28).drop 14).length = 14 := by simp; omega
        omega
      have hs := sum_between v (lo := 0) (hi := 100) h2
      have : (v.length : ℚ) ≤ 14 := by exact_mod_cast hv
      exact ⟨by linarith [hs.1], by linarith [hs.2]⟩

theorem range (F : Frame) (x : String → ℕ → ℚ) (T : Frame) (hx : Prices F ["high", "low", "close"] x) (h : calcTi F = .ok T) :
    ∀ n ∈ ["+di", "-di", "dx", "adx", "adxr"], ∀ v ∈ T.col n, Val.Sat (fun q => 0 ≤ q ∧ q ≤ 100) v := by
  have lc := hx.len "close" (by simp)
  have ll := hx.len "low" (by simp)
  have lh := hx.len "high" (by simp)
  have lt := trueRange_length maxNan F x hx
  have ldm : ∀ f, (dm f F).length = F.len := by intro f; simp [dm, ll, lh]
  unfold calcTi at h
  split at h
  · simp at h
  simp only [Except.ok.injEq] at h
  subst h
  have hdi : ∀ (f : Val → Val → Val → Val → Val), (∀ h h1 l l1 c1 : ℚ, l ≤ h → l1 ≤ c1 → c1 ≤ h1 →
      ∃ q, f (.fin h) (.fin h1) (.fin l) (.fin l1) = .fin q ∧ 0 ≤ q ∧ q ≤ max (max (h - l) (h - c1)) (c1 - l)) → ∀ i < F.len,
      Val.Sat (fun q => 0 ≤ q ∧ q ≤ 100)
        (val (maskBefore 14 (divS (scaleS 100 (smooth14 (dm f F))) (smooth14 (maskBefore 1 (trueRange maxNan F))))) i) := by
    intro f hf i hi
    rw [val_maskBefore]
    split
    · trivial
    · rw [val_divS, val_scaleS]
      apply Val.Sat2.pct
      refine (smooth14_both _ _ _ (by simp [ldm, hi]) (by simp [lt, hi]) ?_).sat2
      intro j hj
      rw [val_maskBefore]
      unfold dm
      simp only
      rw [val_maskBefore]
      split
      · trivial
      · rw [val_trueRange maxNan maxNan_fin F x hx j (by omega) (by omega)]
        have e : val (List.zipWith (fun (p q : Val × Val) => f p.1 p.2 q.1 q.2) ((F.col "high").zip (shift 1 (F.col "high")))
            ((F.col "low").zip (shift 1 (F.col "low")))) j = f (val (F.col "high") j) (val (shift 1 (F.col "high")) j)
            (val (F.col "low") j) (val (shift 1 (F.col "low")) j) := by
          rw [val_lt _ _ (by simp; omega), val_lt _ _ (by omega), val_lt _ _ (by simp; omega), val_lt _ _ (by omega),
            val_lt _ _ (by simp; omega)]
          simp
        rw [e, val_shift _ _ _ (by omega), val_shift _ _ _ (by omega), if_neg (by assumption), if_neg (by assumption),
          hx.num "high" (by simp) j (by omega), hx.num "low" (by simp) j (by omega), hx.num "high" (by simp) (j - 1) (by omega),
          hx.num "low" (by simp) (j - 1) (by omega)]
        have hb := hx.bar j (by omega)
        have hb1 := hx.bar (j - 1) (by omega)
        obtain ⟨q, h1, h2⟩ := hf (x "high" j) (x "high" (j - 1)) (x "low" j) (x "low" (j - 1)) (x "close" (j - 1))
          (hb.1.trans hb.2.1) hb1.2.2.1 hb1.2.2.2.1
        rw [h1]
        exact h2
  have hplus := hdi plusDm (by
    intro h h1 l l1 c1 e1 e2 e3
    simp only [plusDm, Val.fin_sub, Val.zero_eq, Val.fin_lt, Bool.and_eq_true, decide_eq_true_eq]
    split
    · next hc => exact ⟨_, rfl, hc.2.le, le_max_of_le_left (le_max_of_le_right (by linarith))⟩
    · exact ⟨_, rfl, le_refl _, le_max_of_le_left (le_max_of_le_left (by linarith))⟩)
  have hminus := hdi minusDm (by
    intro h h1 l l1 c1 e1 e2 e3
    simp only [minusDm, Val.fin_sub, Val.zero_eq, Val.fin_lt, Bool.and_eq_true, decide_eq_true_eq]
    split
    · next hc => exact ⟨_, rfl, hc.2.le, le_max_of_le_right (by linarith)⟩
    · exact ⟨_, rfl, le_refl _, le_max_of_le_left (le_max_of_le_left (by linarith))⟩)
  have hpn : ∀ i < 14, val (maskBefore 14 (divS (scaleS 100 (smooth14 (dm plusDm F))) (smooth14 (maskBefore 1 (trueRange maxNan F))))) i = .nan := by
    intro i hi
    rw [val_maskBefore, if_pos hi]
  generalize hP : maskBefore 14 (divS (scaleS 100 (smooth14 (dm plusDm F))) (smooth14 (maskBefore 1 (trueRange maxNan F)))) = P at *
  generalize hM : maskBefore 14 (divS (scaleS 100 (smooth14 (dm minusDm F))) (smooth14 (maskBefore 1 (trueRange maxNan F)))) = M at *
  have lP : P.length = F.len := by rw [← hP]; simp [ldm, lt]
  have lM : M.length = F.len := by rw [← hM]; simp [ldm, lt]
  have hdx : ∀ i < F.len, Val.Sat (fun q => 0 ≤ q ∧ q ≤ 100)
      (val (divS (scaleS 100 ((subS P M).map Val.abs)) ((addS P M).map Val.abs)) i) := by
    intro i hi
    rw [val_divS, val_scaleS, val_map _ rfl, val_map _ rfl, val_subS, val_addS]
    apply Val.Sat2.pct
    rcases (hplus i hi).cases with h1 | ⟨a, h1, ha⟩
    · rw [h1]; simp
    · rcases (hminus i hi).cases with h2 | ⟨b, h2, hb⟩
      · rw [h1, h2]; simp
      · rw [h1, h2, Val.fin_sub, Val.fin_add, Val.fin_abs, Val.fin_abs, Val.sat2_fin]
        refine ⟨abs_nonneg _, ?_⟩
        rw [abs_of_nonneg (add_nonneg ha.1 hb.1), abs_le]
        constructor <;> linarith [ha.1, hb.1]
  have hdn : ∀ i < 14, val (divS (scaleS 100 ((subS P M).map Val.abs)) ((addS P M).map Val.abs)) i = .nan := by
    intro i hi
    rw [val_divS, val_scaleS, val_map _ rfl, val_subS, hpn i hi]
    simp
  generalize hD : divS (scaleS 100 ((subS P M).map Val.abs)) ((addS P M).map Val.abs) = D at *
  have lD : D.length = F.len := by rw [← hD]; simp [lP, lM]
  have hadx : ∀ i < F.len, Val.Sat (fun q => 0 ≤ q ∧ q ≤ 100) (val (adxOf D) i) := fun i hi =>
    adxOf_range D i (by omega) (fun j hj => hdx j (by omega)) hdn
  have hadxr : ∀ i < F.len, Val.Sat (fun q => 0 ≤ q ∧ q ≤ 100)
      (val (maskBefore 40 ((addS (adxOf D) (shift 13 (adxOf D))).map fun x => Val.div x 2)) i) := by
    intro i hi
    rw [val_maskBefore]
    split
    · trivial
    · rw [val_map _ (by simp), val_addS, val_shift _ _ _ (by simp; omega), if_neg (by omega)]
      exact mid_range (hadx i hi) (hadx (i - 13) (by omega))
  have fin : ∀ xs : List Val, xs.length = F.len → (∀ i < F.len, Val.Sat (fun q => 0 ≤ q ∧ q ≤ 100) (val xs i)) →
      ∀ v ∈ roundS 4 xs, Val.Sat (fun q => 0 ≤ q ∧ q ≤ 100) v :=
    fun xs hl hs => roundS_range (by simp) (by simp) xs (by rw [hl]; exact hs)
  intro n hn
  simp only [List.mem_cons, List.not_mem_nil, or_false] at hn
  rcases hn with rfl | rfl | rfl | rfl | rfl
  · simpa [Frame.col] using fin P lP hplus
  · simpa [Frame.col] using fin M lM hminus
  · simpa [Frame.col] using fin D lD hdx
  · simpa [Frame.col] using fin _ (by simp [lD]) hadx
  · simpa [Frame.col] using fin _ (by simp [lD]) hadxr

end DirectionalMovementIndex

/-! ## Signs -/

theorem roundS_nonneg (k : ℕ) (xs : List Val) (h : ∀ i < xs.length, Val.Sat (fun q => 0 ≤ q) (val xs i)) :
    ∀ v ∈ roundS k xs, Val.Sat (fun q => 0 ≤ q) v := by
  intro v hv
  unfold roundS at hv
  rw [List.mem_map] at hv
  obtain ⟨w, hw, rfl⟩ := hv
  obtain ⟨i, hi', rfl⟩ := mem_val hw
  exact (h i hi').round_nonneg

theorem AverageTrueRange.nonneg (F : Frame) (x : String → ℕ → ℚ) (T : Frame)
    (l3 : ∀ n ∈ ["high", "low", "close"], (F.col n).length = F.len)
    (hx : ∀ n ∈ ["high", "low", "close"], ∀ i < F.len, val (F.col n) i = .fin (x n i))
    (hb : ∀ i < F.len, x "low" i ≤ x "high" i) (h : calcTi F = .ok T) :
    ∀ v ∈ T.col "atr", Val.Sat (fun q => 0 ≤ q) v := by
  have lc := l3 "close" (by simp)
  have ll := l3 "low" (by simp)
  have lh := l3 "high" (by simp)
  unfold calcTi at h
  split at h
  · simp at h
  next hlen =>
  simp only [Except.ok.injEq] at h
  subst h
  rw [Frame.col_single]
  have lt : (trueRange maxSkip F).length = F.len := by simp [trueRange, lc, ll, lh]
  have htr : ∀ i < F.len, Val.Sat (fun q => 0 ≤ q) (val (trueRange maxSkip F) i) := by
    intro i hi
    unfold trueRange
    simp only
    rw [val_zip3 _ _ _ _ _ (by simp [*]) (by simp [*]) (by simp [*])]
    rw [val_subS, val_subS, val_subS, val_shift _ _ _ (by omega), hx "low" (by simp) i hi, hx "high" (by simp) i hi]
    have := hb i hi
    split
    · simp only [Val.fin_sub, Val.sub_nan, Val.nan_sub, maxSkip_nan]
      exact sub_nonneg.2 this
    · rw [hx "close" (by simp) (i - 1) (by omega)]
      simp only [Val.fin_sub, maxSkip_fin]
      exact le_max_of_le_left (le_max_of_le_left (by linarith))
  have hmem : ∀ v ∈ trueRange maxSkip F, Val.Sat (fun q => 0 ≤ q) v := by
    intro v hv
    obtain ⟨i, hi, rfl⟩ := mem_val hv
    exact htr i (by omega)
  intro v hv
  rw [List.mem_append] at hv
  rcases hv with hv | hv
  · rw [List.eq_of_mem_replicate hv]; trivial
  · refine roundS_nonneg 4 _ ?_ v hv
    intro i hi
    rw [ewmAlpha_length] at hi
    apply ewmAlpha_nonneg _ (by norm_num) (by norm_num) _ _ _ hi
    intro j hj
    rw [val_lt _ _ (by omega)]
    have hm := List.getElem_mem (l := meanSkip ((trueRange maxSkip F).take 14) :: (trueRange maxSkip F).drop 14) (n := j) (by omega)
    rw [List.mem_cons] at hm
    rcases hm with hm | hm
    · rw [hm]
      exact meanSkip_sat convexP_nonneg _ fun x hx => hmem x (List.mem_of_mem_take hx)
    · exact hmem _ (List.mem_of_mem_drop hm)

theorem StandardDeviation.nonneg (sq : ℚ → ℚ) (hs : ∀ q, 0 ≤ q → 0 ≤ sq q) (p : ℕ) (F T : Frame) (h : calcTi sq p F = .ok T) :
    ∀ v ∈ T.col "sd", Val.Sat (fun q => 0 ≤ q) v := by
  unfold calcTi at h
  split at h
  · simp at h
  simp only [Except.ok.injEq] at h
  subst h
  rw [Frame.col_single]
  apply roundS_nonneg
  intro i hi
  rw [rolling_length] at hi
  exact rolling_std_nonneg sq hs _ _ _ _ i hi

theorem MarketFacilitationIndex.nonneg (F : Frame) (x : String → ℕ → ℚ) (T : Frame)
    (l3 : ∀ n ∈ ["high", "low", "volume"], (F.col n).length = F.len)
    (hx : ∀ n ∈ ["high", "low", "volume"], ∀ i < F.len, val (F.col n) i = .fin (x n i))
    (hb : ∀ i < F.len, x "low" i ≤ x "high" i ∧ 0 < x "volume" i) (h : calcTi F = .ok T) :
    ∀ v ∈ T.col "mfi", Val.Sat (fun q => 0 ≤ q) v := by
  have lv := l3 "volume" (by simp)
  have ll := l3 "low" (by simp)
  have lh := l3 "high" (by simp)
  unfold calcTi at h
  simp only [Except.ok.injEq] at h
  subst h
  rw [Frame.col_single]
  apply roundS_nonneg
  intro i hi
  simp [ll, lh, lv] at hi
  obtain ⟨h1, h2⟩ := hb i hi
  rw [val_divS, val_subS, hx "low" (by simp) i hi, hx "high" (by simp) i hi, hx "volume" (by simp) i hi, Val.fin_sub,
    Val.fin_div _ _ h2.ne']
  exact div_nonneg (by linarith) h2.le

end Ind
end TTI
