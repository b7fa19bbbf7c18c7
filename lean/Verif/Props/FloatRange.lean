import Verif.Lemmas.FloatRange
import Verif.Props.FloatCorrect

set_option autoImplicit false

/-!
# Ranges in float64: C92

C39 states the ranges for exact arithmetic. Here: which of them hold in rounded arithmetic on all data, to the last bit.
-/

namespace TTI.Props

open Spec Flt Ind

variable {R : Rounding} {A : Arith} {E : Env} {c : Call} {f : RawFrame} {fill : Bool} {o : Obj}

/-- C92: Williams %R lies between -100 and 0. -/
theorem C92_williams (hA : Rounded R A) (hF : Fair R) (hB : FloatBuilt A E c f fill o Bar) (n : ℕ) (ho : o.ind = .williamsR n)
    (i : ℕ) (hi : i < f.idx.length) : InRange (-100) 0 (o.getTiData.day "wr" i) := by
  obtain ⟨F, hl, hn, ht, hp, -, -, hx⟩ := hB.on ho (by simp [Ind.required])
  have hv : Nums F.len 0 (close f) (F.col "close") := hn _ (by simp [Ind.required])
  have hH : Nums F.len 0 (high f) (F.col "high") := hn _ (by simp [Ind.required])
  have hL : Nums F.len 0 (low f) (F.col "low") := hn _ (by simp [Ind.required])
  have hp : 1 ≤ n := hp
  rw [guard_ok ht]
  show InRange _ _ (val (A.roundS 4 (A.scaleS (-100) (A.divS (A.subS (rolling n n aggMax (F.col "high")) (F.col "close"))
    (A.subS (rolling n n aggMax (F.col "high")) (rolling n n aggMin (F.col "low")))))) i)
  rw [val_fround, val_fscale, val_fdiv, val_fsub, val_fsub, (hH.rollMax n hp).val i (by omega), (hL.rollMin n hp).val i (by omega),
    hv.val i (by omega), if_neg (by omega : ¬ i < 0)]
  by_cases hk : i < 0 + n - 1
  · rw [if_pos hk, if_pos hk]
    exact .inl (by simp [Arith.sub, Arith.div, Arith.mul, Arith.rd, Arith.round])
  rw [if_neg hk, if_neg hk]
  obtain ⟨x, hx1, hx2⟩ := hx i (by omega)
  have c1 : close f i ≤ high f i := by
    have := hx2.2.2.2.1
    rwa [hx1 _ (by simp [Ind.required]), hx1 _ (by simp [Ind.required])] at this
  have c2 : low f i ≤ close f i := by
    have := hx2.2.2.1
    rwa [hx1 _ (by simp [Ind.required]), hx1 _ (by simp [Ind.required])] at this
  have m1 := (Nums.highest_spec n hp (high f) i).1 0 (by omega)
  have m2 := (Nums.lowest_spec n hp (low f) i).1 0 (by omega)
  rw [Nat.sub_zero] at m1 m2
  rw [fl_sub, fl_sub, hA.fl]
  have h1 : InRange 0 1 (A.div (.fin (R.fl (highest n (high f) i - close f i)))
      (.fin (R.fl (highest n (high f) i - lowest n (low f) i)))) :=
    div_range hA.fl hF (hF.pos (by linarith)) (R.mono _ _ (by linarith))
  have h2 : Slack ((-100 : ℤ) : ℚ) ((0 : ℤ) : ℚ) (A.mul (.fin (-100)) (A.div (.fin (R.fl (highest n (high f) i - close f i)))
      (.fin (R.fl (highest n (high f) i - lowest n (low f) i))))) := by
    refine slack_of_range ?_
    rcases h1 with h1 | ⟨q, h1, q0, q1⟩
    · rw [h1]
      exact .inl (by simp [Arith.mul, Arith.rd])
    · rw [h1, fl_mul, hA.fl]
      exact .inr ⟨_, rfl, hF.whole_le (-100) (by norm_num) (by push_cast; linarith), hF.le_whole 0 (by norm_num) (by push_cast; linarith)⟩
  simpa using round_range hA.fl hF (-100) 0 (by norm_num) (by norm_num) h2

/-- C92: the stochastic %K without slowing lies between 0 and 100. -/
theorem C92_stochastic (hA : Rounded R A) (hF : Fair R) (hB : FloatBuilt A E c f fill o Bar) (k d : ℕ)
    (ho : o.ind = .stochasticOscillator k 1 d true) (i : ℕ) (hi : i < f.idx.length) : InRange 0 100 (o.getTiData.day "%K" i) := by
  obtain ⟨F, hl, hn, ht, hp, -, -, hx⟩ := hB.on ho (by simp [Ind.required])
  have hv : Nums F.len 0 (close f) (F.col "close") := hn _ (by simp [Ind.required])
  have hH : Nums F.len 0 (high f) (F.col "high") := hn _ (by simp [Ind.required])
  have hL : Nums F.len 0 (low f) (F.col "low") := hn _ (by simp [Ind.required])
  simp only [Ind.Pos] at hp
  have hp : 1 ≤ k := by omega
  rw [guard_ok ht]
  show InRange _ _ (val (A.roundS 4 (A.divS (A.scaleS 100 (A.rollSum 1 1 (A.subS (F.col "close") (rolling k k aggMin (F.col "low")))))
    (A.rollSum 1 1 (A.subS (rolling k k aggMax (F.col "high")) (rolling k k aggMin (F.col "low")))))) i)
  have num := (hv.fsub A (hL.rollMin k hp)).val i (by omega)
  have den := ((hH.rollMax k hp).fsub A (hL.rollMin k hp)).val i (by omega)
  rw [val_fround, val_fdiv, val_fscale]
  by_cases hk : i < k - 1
  · rw [if_pos (by omega)] at num
    rw [rollSum_one_nan A _ i num]
    exact .inl (by simp [Arith.div, Arith.mul, Arith.rd, Arith.round])
  rw [if_neg (by omega)] at num den
  rw [rollSum_one A _ i _ num, rollSum_one A _ i _ den, hA.fl, R.again, R.again]
  obtain ⟨x, hx1, hx2⟩ := hx i (by omega)
  have c1 : close f i ≤ high f i := by
    have := hx2.2.2.2.1
    rwa [hx1 _ (by simp [Ind.required]), hx1 _ (by simp [Ind.required])] at this
  have c2 : low f i ≤ close f i := by
    have := hx2.2.2.1
    rwa [hx1 _ (by simp [Ind.required]), hx1 _ (by simp [Ind.required])] at this
  have m1 := (Nums.highest_spec k hp (high f) i).1 0 (by omega)
  have m2 := (Nums.lowest_spec k hp (low f) i).1 0 (by omega)
  rw [Nat.sub_zero] at m1 m2
  have := round_range hA.fl hF 0 100 (by norm_num) (by norm_num) (by
    simpa using percent_range hA.fl hF (hF.pos (x := close f i - lowest k (low f) i) (by linarith))
      (R.mono _ (highest k (high f) i - lowest k (low f) i) (by linarith)))
  simpa using this

/-- C92: the relative strength index lies between 0 and 100, whatever the prices. -/
theorem C92_strength (hA : Rounded R A) (hF : Fair R) (hB : FloatBuilt A E c f fill o AnyPrices) (n : ℕ)
    (ho : o.ind = .relativeStrengthIndex n) (i : ℕ) : InRange 0 100 (o.getTiData.day "rsi" i) := by
  obtain ⟨F, hl, hn, ht, hp, -⟩ := hB.on ho (by simp [Ind.required])
  have hv : Nums F.len 0 (close f) (F.col "close") := hn _ (by simp [Ind.required])
  have hp : 1 ≤ n := hp
  have hs := hv.shift 1
  rw [guard_ok ht]
  show InRange _ _ (val (A.roundS 4 (strengthIndex A n (F.col "close"))) i)
  have cl : ∀ i, val (F.col "close") i = .nan ∨ ∃ q, val (F.col "close") i = .fin q := fun i => by
    by_cases hi : i < F.len
    · exact .inr ⟨_, hv.fin hi (by omega)⟩
    · rw [val_ge _ _ (by rw [hv.len]; omega)]; exact .inl rfl
  have cs : ∀ i, val (shift 1 (F.col "close")) i = .nan ∨ ∃ q, val (shift 1 (F.col "close")) i = .fin q := fun i => by
    by_cases hi : i < F.len
    · rw [hs.val i hi]; split_ifs
      · exact .inl rfl
      · exact .inr ⟨_, rfl⟩
    · rw [val_ge _ _ (by rw [hs.len]; omega)]; exact .inl rfl
  have diff : ∀ v w : Val, (v = .nan ∨ ∃ q, v = .fin q) → (w = .nan ∨ ∃ q, w = .fin q) →
      Gain R (if w <ᵥ v then A.sub v w else 0) := by
    intro v w hv hw
    rcases hv with rfl | ⟨p, rfl⟩
    · rw [if_neg (by cases w <;> simp [Val.lt])]; exact gain_zero hF
    rcases hw with rfl | ⟨q, rfl⟩
    · rw [if_neg (by simp [Val.lt])]; exact gain_zero hF
    · split_ifs with h
      · have h' : q < p := of_decide_eq_true h
        rw [fl_sub, hA.fl]; exact gain_fl hF (by linarith)
      · exact gain_zero hF
  have up : ∀ v ∈ maskBefore 1 (zipV (upward A) (F.col "close") (shift 1 (F.col "close"))), Gain R v := mem_of_val fun j hj => by
    rw [val_maskBefore]
    split_ifs
    · exact gain_nan
    · simp [zipV, hv.len, hs.len] at hj
      rw [val_zipV _ _ _ _ (by rw [hv.len]; omega) (by rw [hs.len]; omega)]
      exact gain_round hA.fl hF (diff _ _ (cl j) (cs j))
  have down : ∀ v ∈ maskBefore 1 (zipV (downward A) (F.col "close") (shift 1 (F.col "close"))), Gain R v := mem_of_val fun j hj => by
    rw [val_maskBefore]
    split_ifs
    · exact gain_nan
    · simp [zipV, hv.len, hs.len] at hj
      rw [val_zipV _ _ _ _ (by rw [hv.len]; omega) (by rw [hs.len]; omega)]
      exact gain_round hA.fl hF (diff _ _ (cs j) (cl j))
  unfold strengthIndex
  rw [val_fround, val_map _ (by simp [Arith.add, Arith.sub, Arith.div, Arith.rd]), val_fdiv]
  have := round_range hA.fl hF 0 100 (by norm_num) (by norm_num) (by
    simpa using slack_of_range (strength_range hA.fl hF (gain_div hA.fl hF
      (val_of_mem (gain_strength hA hF n hp up) gain_nan i) (val_of_mem (gain_strength hA hF n hp down) gain_nan i))))
  simpa using this

/-- C92: the relative momentum index lies between 0 and 100, whatever the prices. -/
theorem C92_momentum (hA : Rounded R A) (hF : Fair R) (hB : FloatBuilt A E c f fill o AnyPrices) (n m : ℕ)
    (ho : o.ind = .relativeMomentumIndex n m) (i : ℕ) : InRange 0 100 (o.getTiData.day "rmi" i) := by
  obtain ⟨F, hl, hn, ht, hp, -⟩ := hB.on ho (by simp [Ind.required])
  have hv : Nums F.len 0 (close f) (F.col "close") := hn _ (by simp [Ind.required])
  simp only [Ind.Pos] at hp
  have hp : 1 ≤ n := by omega
  have hs := hv.fsub A (hv.shift m)
  rw [guard_ok ht]
  show InRange _ _ (val (A.roundS 4 (momentumIndex A n m (F.col "close"))) i)
  have ch : ∀ v ∈ A.subS (F.col "close") (shift m (F.col "close")), v = .nan ∨ ∃ q, v = .fin (R.fl q) := mem_of_val fun j hj => by
    rw [hs.len] at hj
    rw [hs.val j hj, hA.fl]
    split_ifs
    · exact .inl rfl
    · exact .inr ⟨_, rfl⟩
  have up : ∀ v ∈ (A.subS (F.col "close") (shift m (F.col "close"))).map RelativeMomentumIndex.upward, Gain R v := by
    intro v hv
    rw [List.mem_map] at hv
    obtain ⟨w, hw, rfl⟩ := hv
    unfold RelativeMomentumIndex.upward
    split_ifs with h1 h2
    · exact gain_zero hF
    · exact zero_lt_gain (ch w hw) h2
    · exact gain_nan
  have down : ∀ v ∈ (A.subS (F.col "close") (shift m (F.col "close"))).map RelativeMomentumIndex.downward, Gain R v := by
    intro v hv
    rw [List.mem_map] at hv
    obtain ⟨w, hw, rfl⟩ := hv
    unfold RelativeMomentumIndex.downward
    split_ifs with h1 h2
    · exact gain_zero hF
    · rcases ch w hw with rfl | ⟨q, rfl⟩
      · exact gain_nan
      · have h3 : R.fl q < ((0 : ℕ) : ℚ) := of_decide_eq_true h2
        rw [Nat.cast_zero] at h3
        refine .inr ⟨|R.fl q|, rfl, abs_nonneg _, ?_⟩
        rw [abs_of_neg h3, hF.neg, R.again]
    · exact gain_nan
  unfold momentumIndex
  rw [val_fround, val_fdiv, val_fscale, val_map _ (by simp [Arith.add, Arith.rd]), val_fdiv]
  have := round_range hA.fl hF 0 100 (by norm_num) (by norm_num) (by
    simpa using momentum_range hA.fl hF (gain_div hA.fl hF
      (val_of_mem (gain_wilder hA hF m n hp up) gain_nan i) (val_of_mem (gain_wilder hA hF m n hp down) gain_nan i)))
  simpa using this

/-- C92: the swing index lies between -100 and 100, in any arithmetic with whole numbers. -/
theorem C92_swing (hA : A.fl = R.fl) (hF : Fair R) (h : (Flt.construct A E c (.frame f) (.bool fill)).2 = .ok o)
    (ho : o.ind = .swingIndex) (i : ℕ) : InRange (-100) 100 (o.getTiData.day "swi" i) := by
  obtain ⟨ind, F, T, hc, hv, ht, rfl⟩ := (Flt.construct_ok_iff _ _ _ _ _ _).1 h
  simp only at ho
  subst ho
  rw [show T = _ from (Except.ok.inj ht).symm]
  show InRange _ _ (val (A.roundS 4 (List.map SwingIndex.clip _)) i)
  rw [val_fround, val_map _ (by rfl)]
  have clip : ∀ v, Slack ((-100 : ℤ) : ℚ) ((100 : ℤ) : ℚ) (SwingIndex.clip v) := by
    intro v
    refine slack_of_range ?_
    cases v with
    | nan => exact .inl rfl
    | pinf => exact .inr ⟨100, rfl, by norm_num, by norm_num⟩
    | ninf => exact .inr ⟨-100, rfl, by norm_num, by norm_num⟩
    | fin q =>
      unfold SwingIndex.clip
      by_cases h1 : 100 < q
      · have e1 : ((100 : Val) <ᵥ Val.fin q) = true := decide_eq_true (by exact_mod_cast h1)
        simp only [e1, if_true]
        exact .inr ⟨100, rfl, by norm_num, by norm_num⟩
      · have e1 : ((100 : Val) <ᵥ Val.fin q) = false := decide_eq_false (by exact_mod_cast h1)
        simp only [e1, Bool.false_eq_true, if_false]
        by_cases h2 : q < -100
        · have e2 : (Val.fin q <ᵥ Val.fin (-100)) = true := decide_eq_true h2
          simp only [e2, if_true]
          exact .inr ⟨-100, rfl, by norm_num, by norm_num⟩
        · have e2 : (Val.fin q <ᵥ Val.fin (-100)) = false := decide_eq_false h2
          simp only [e2, Bool.false_eq_true, if_false]
          exact .inr ⟨q, rfl, by push_cast; linarith, by push_cast; linarith⟩
  have key : ∀ v, InRange (-100) 100 (A.round 4 (SwingIndex.clip v)) := fun v => by
    simpa using round_range hA hF (-100) 100 (by norm_num) (by norm_num) (clip v)
  exact key _

/-- The unrounded lines of the directional movement index. -/
theorem directional_values (hA : Rounded R A) (hF : Fair R) (F : Frame) (hv : Nums F.len 0 (close f) (F.col "close"))
    (hH : Nums F.len 0 (high f) (F.col "high")) (hL : Nums F.len 0 (low f) (F.col "low")) (hx : ∀ j < F.len, low f j ≤ high f j) :
    (∀ j, InRange 0 (100 + 300 * R.unit) (val (dmiDx A F) j)) ∧ ∀ j, AdxRange (val (adxOf A (dmiDx A F)) j) := by
  have opt : ∀ {k : ℕ} {g : ℕ → ℚ} {xs : List Val}, Nums F.len k g xs → ∀ j, val xs j = .nan ∨ ∃ q, val xs j = .fin q := by
    intro k g xs h j
    by_cases hj : j < F.len
    · rw [h.val j hj]; split_ifs
      · exact .inl rfl
      · exact .inr ⟨_, rfl⟩
    · rw [val_ge _ _ (by rw [h.len]; omega)]; exact .inl rfl
  have dm : ∀ f : Val → Val → Val → Val → Val, (∀ a b c d : Val, (a = .nan ∨ ∃ q, a = .fin q) → (b = .nan ∨ ∃ q, b = .fin q) →
      (c = .nan ∨ ∃ q, c = .fin q) → (d = .nan ∨ ∃ q, d = .fin q) → Gain R (f a b c d)) →
      ∀ v ∈ DirectionalMovementIndex.dm f F, Gain R v := by
    intro f hf
    refine mem_of_val fun j hj => ?_
    unfold DirectionalMovementIndex.dm at hj ⊢
    rw [val_maskBefore]
    split_ifs
    · exact gain_nan
    simp only [maskBefore_length, List.length_zipWith, List.length_zip, shift_length, hH.len, hL.len, min_self] at hj
    have e : val (List.zipWith (fun (p q : Val × Val) => f p.1 p.2 q.1 q.2) ((F.col "high").zip (shift 1 (F.col "high")))
        ((F.col "low").zip (shift 1 (F.col "low")))) j =
        f (val (F.col "high") j) (val (shift 1 (F.col "high")) j) (val (F.col "low") j) (val (shift 1 (F.col "low")) j) := by
      rw [val_lt _ _ (by simp [hH.len, hL.len, hj]), val_lt _ _ (by rw [hH.len]; exact hj), val_lt _ _ (by simp [hH.len, hj]),
        val_lt _ _ (by rw [hL.len]; exact hj), val_lt _ _ (by simp [hL.len, hj])]
      simp
    rw [e]
    exact hf _ _ _ _ (opt hH j) (opt (hH.shift 1) j) (opt hL j) (opt (hL.shift 1) j)
  have plus : ∀ v ∈ DirectionalMovementIndex.dm (plusDm A) F, Gain R v := dm _ fun a b c d ha hb hc hd => by
    unfold plusDm
    split_ifs with h
    · rw [Bool.and_eq_true] at h
      exact zero_lt_gain (sub_cases A hA.fl ha hb) h.2
    · exact gain_zero hF
  have minus : ∀ v ∈ DirectionalMovementIndex.dm (minusDm A) F, Gain R v := dm _ fun a b c d ha hb hc hd => by
    unfold minusDm
    split_ifs with h
    · rw [Bool.and_eq_true] at h
      exact zero_lt_gain (sub_cases A hA.fl hd hc) h.2
    · exact gain_zero hF
  have tr : ∀ v ∈ maskBefore 1 (Flt.trueRange A maxNan F), Gain R v := mem_of_val fun j hj => by
    rw [val_maskBefore]
    split_ifs with h1
    · exact gain_nan
    have a := hH.fsub A hL
    have b := hH.fsub A (hv.shift 1)
    have d := (hv.shift 1).fsub A hL
    simp only [maskBefore_length, Flt.trueRange, zip3_length, a.len, b.len, d.len, min_self] at hj
    unfold Flt.trueRange
    rw [val_zip3 _ _ _ _ _ (by rw [a.len]; exact hj) (by rw [b.len]; exact hj) (by rw [d.len]; exact hj), a.fin hj (by omega),
      b.fin hj (by omega), d.fin hj (by omega), hA.fl]
    have c1 := hx j hj
    have g0 : 0 ≤ R.fl (high f j - low f j) := hF.pos (by linarith)
    have mx : ∀ p q : ℚ, 0 ≤ p → R.fl p = p → R.fl q = q → ∃ r, maxNan (.fin p) (.fin q) = .fin r ∧ 0 ≤ r ∧ R.fl r = r := by
      intro p q h0 h1 h2
      by_cases h : p < q
      · exact ⟨q, by simp [maxNan, Val.isNan, h], by linarith, h2⟩
      · exact ⟨p, by simp [maxNan, Val.isNan, h], h0, h1⟩
    obtain ⟨r, e1, r0, r1⟩ := mx _ (R.fl (high f j - close f (j - 1))) g0 (R.again _) (R.again _)
    rw [e1]
    obtain ⟨s, e2, s0, s1⟩ := mx r (R.fl (close f (j - 1) - low f j)) r0 r1 (R.again _)
    rw [e2]
    exact .inr ⟨s, rfl, s0, s1⟩
  have line : ∀ g : Val → Val → Val → Val → Val, (∀ v ∈ DirectionalMovementIndex.dm g F, Gain R v) → ∀ j,
      (val (dmiLine A g F) j = .pinf ∨ Gain R (val (dmiLine A g F) j)) ∧ (j < 14 → val (dmiLine A g F) j = .nan) := by
    intro g h j
    unfold dmiLine
    rw [val_maskBefore]
    split_ifs with h1
    · exact ⟨.inr gain_nan, fun _ => rfl⟩
    · rw [val_fdiv, val_fscale]
      exact ⟨gain_div hA.fl hF (gain_hundred hA.fl hF (val_of_mem (gain_smooth14 hA hF h) gain_nan j))
        (val_of_mem (gain_smooth14 hA hF tr) gain_nan j), fun h2 => absurd h2 h1⟩
  have lp := line _ plus
  have lm := line _ minus
  have vdx : ∀ j, val (dmiDx A F) j =
      A.div (A.mul (.fin 100) (Val.abs (A.sub (val (dmiLine A (plusDm A) F) j) (val (dmiLine A (minusDm A) F) j))))
        (Val.abs (A.add (val (dmiLine A (plusDm A) F) j) (val (dmiLine A (minusDm A) F) j))) := by
    intro j
    unfold dmiDx
    rw [val_fdiv, val_fscale, val_map _ (by rfl), val_map _ (by rfl), val_fsub, val_fadd]
  have rdx : ∀ j, InRange 0 (100 + 300 * R.unit) (val (dmiDx A F) j) := fun j => by
    rw [vdx]
    exact dx_range hA.fl hF (lp j).1 (lm j).1
  have adx : ∀ j, AdxRange (val (adxOf A (dmiDx A F)) j) := val_of_mem (adx_all hA hF (mem_of_val fun j _ => rdx j) fun j hj => by
    rw [vdx, (lp j).2 hj, (lm j).2 hj]
    simp [Arith.sub, Arith.add, Arith.mul, Arith.div, Arith.rd]) (.inl rfl)
  exact ⟨rdx, adx⟩

/-- C92: the directional movement index DX and its averages ADX and ADXR lie between 0 and 100. -/
theorem C92_directional (hA : Rounded R A) (hF : Fair R) (hB : FloatBuilt A E c f fill o Bar)
    (ho : o.ind = .directionalMovementIndex) (i : ℕ) :
    InRange 0 100 (o.getTiData.day "dx" i) ∧ InRange 0 100 (o.getTiData.day "adx" i) ∧ InRange 0 100 (o.getTiData.day "adxr" i) := by
  obtain ⟨F, hl, hn, ht, hp, -, -, hx⟩ := hB.on ho (by simp [Ind.required])
  have hv : Nums F.len 0 (close f) (F.col "close") := hn _ (by simp [Ind.required])
  have hH : Nums F.len 0 (high f) (F.col "high") := hn _ (by simp [Ind.required])
  have hL : Nums F.len 0 (low f) (F.col "low") := hn _ (by simp [Ind.required])
  have hu := hF.small
  rw [dmi_columns] at ht
  rw [guard_ok ht]
  obtain ⟨rdx, adx⟩ := directional_values hA hF F hv hH hL fun j hj => by
    obtain ⟨x, hx1, hx2⟩ := hx j hj
    have h3 := hx2.2.2.2.1
    have h4 := hx2.2.2.1
    rw [hx1 _ (by simp [Ind.required]), hx1 _ (by simp [Ind.required])] at h3 h4
    exact h4.trans h3
  have widen : ∀ {b : ℚ} {v : Val}, b ≤ 100 + 1 / 40000 → InRange 0 b v → InRange 0 100 (A.round 4 v) := by
    intro b v hb h
    have h' : Slack ((0 : ℤ) : ℚ) ((100 : ℤ) : ℚ) v := by
      rcases h with h | ⟨q, h, h0, h1⟩
      · exact .inl h
      · exact .inr ⟨q, h, by push_cast; linarith, by push_cast; linarith⟩
    simpa using round_range hA.fl hF 0 100 (by norm_num) (by norm_num) h'
  clear ht hx hn
  generalize dmiDx A F = d at *
  generalize adxOf A d = a at *
  refine ⟨?_, ?_, ?_⟩
  · show InRange 0 100 (val (A.roundS 4 d) i)
    rw [val_fround]
    exact widen (by linarith) (rdx i)
  · show InRange 0 100 (val (A.roundS 4 a) i)
    rw [val_fround]
    exact widen (by norm_num) (adx i)
  · show InRange 0 100 (val (A.roundS 4 (maskBefore 40 ((A.addS a (shift 13 a)).map
      fun x => A.div x 2))) i)
    rw [val_fround, val_maskBefore]
    split_ifs
    · exact .inl rfl
    rw [val_map _ (by simp [Arith.div, Arith.rd]), val_fadd]
    have sh : AdxRange (val (shift 13 a) i) := by
      by_cases h : i < a.length
      · rw [val_shift _ _ _ h]
        split_ifs
        · exact .inl rfl
        · exact adx _
      · rw [val_ge _ _ (by simpa using h)]
        exact .inl rfl
    simpa using round_range hA.fl hF 0 100 (by norm_num) (by norm_num) (by simpa using adxr_range hA.fl hF (adx i) sh)

/-- C92: all these ranges at once: on bars of numbers no rounding error takes a value out of its range, not even by the last
bit. -/
theorem C92_range (hA : Rounded R A) (hF : Fair R) (hB : FloatBuilt A E c f fill o Bar) (i : ℕ) (hi : i < f.idx.length) :
    ∀ r ∈ floatRanges o.ind, InRange r.2.1 r.2.2 (o.getTiData.day r.1 i) := by
  have hB' : FloatBuilt A E c f fill o AnyPrices := ⟨hB.wf, hB.ok, fun j hj => by
    obtain ⟨x, h1, -⟩ := hB.rows j hj
    exact ⟨x, h1, trivial⟩⟩
  intro r hr
  unfold floatRanges at hr
  split at hr <;> simp only [List.mem_cons, List.not_mem_nil, or_false] at hr
  · subst hr; exact C92_strength hA hF hB' _ ‹_› i
  · subst hr; exact C92_momentum hA hF hB' _ _ ‹_› i
  · subst hr; exact C92_stochastic hA hF hB _ _ ‹_› i hi
  · obtain ⟨h1, h2, h3⟩ := C92_directional hA hF hB ‹_› i
    rcases hr with rfl | rfl | rfl
    · exact h1
    · exact h2
    · exact h3
  · subst hr; exact C92_swing hA.fl hF hB.ok ‹_› i
  · subst hr; exact C92_williams hA hF hB _ ‹_› i hi

theorem positive_fl (hF : Fair R) {x : ℚ} (hx : 0 < x) : 0 < R.fl x := by
  have h1 := R.error x
  have hu := hF.small
  have hu0 := R.nonneg
  rw [abs_of_pos hx, abs_le] at h1
  have : R.unit * x ≤ 1 / 2 * x := mul_le_mul_of_nonneg_right (by linarith) hx.le
  linarith

/-- C92: Williams %R is exactly 0 when the price closes at the highest high, and exactly -100 when it closes at the lowest low. -/
theorem C92_williams_extreme (hA : Rounded R A) (hF : Fair R) (hB : FloatBuilt A E c f fill o AnyPrices) (n : ℕ)
    (ho : o.ind = .williamsR n) (i : ℕ) (hi : i < f.idx.length) (hk : n - 1 ≤ i) (h0 : lowest n (low f) i < highest n (high f) i) :
    (close f i = highest n (high f) i → o.getTiData.day "wr" i = .fin 0) ∧
    (close f i = lowest n (low f) i → o.getTiData.day "wr" i = .fin (-100)) := by
  obtain ⟨F, hl, hn, ht, hp, -⟩ := hB.on ho (by simp [Ind.required])
  have hv : Nums F.len 0 (close f) (F.col "close") := hn _ (by simp [Ind.required])
  have hH : Nums F.len 0 (high f) (F.col "high") := hn _ (by simp [Ind.required])
  have hL : Nums F.len 0 (low f) (F.col "low") := hn _ (by simp [Ind.required])
  have hp : 1 ≤ n := hp
  rw [guard_ok ht]
  show (_ → val (A.roundS 4 (A.scaleS (-100) (A.divS (A.subS (rolling n n aggMax (F.col "high")) (F.col "close"))
    (A.subS (rolling n n aggMax (F.col "high")) (rolling n n aggMin (F.col "low")))))) i = _) ∧
    (_ → val (A.roundS 4 (A.scaleS (-100) (A.divS (A.subS (rolling n n aggMax (F.col "high")) (F.col "close"))
    (A.subS (rolling n n aggMax (F.col "high")) (rolling n n aggMin (F.col "low")))))) i = _)
  rw [val_fround, val_fscale, val_fdiv, val_fsub, val_fsub, (hH.rollMax n hp).val i (by omega), (hL.rollMin n hp).val i (by omega),
    hv.val i (by omega), if_neg (by omega : ¬ i < 0), if_neg (by omega), if_neg (by omega)]
  have hd := (positive_fl hF (sub_pos.2 h0)).ne'
  have w0 := hF.zero
  have w1 := hF.one
  have k1 := hF.whole (-100) (by norm_num)
  have k2 := hF.whole (-1000000) (by norm_num)
  push_cast at k1 k2
  constructor
  · intro h
    rw [h, fl_sub, fl_sub, sub_self, hA.fl, w0, fl_div _ _ _ hd, zero_div, fl_mul, hA.fl, w0, mul_zero, w0]
    simp [Arith.round, Arith.rd, hA.fl, w0, rint]
  · intro h
    rw [h, fl_sub, hA.fl, fl_div _ _ _ hd, div_self hd, fl_mul, hA.fl, w1, mul_one, k1]
    have e1 : A.round 4 (.fin (-100)) = .fin (R.fl ((rint (R.fl (-100 * 10 ^ 4))) / 10 ^ 4)) := by
      simp [Arith.round, Arith.rd, hA.fl]
    have e2 : rint (-1000000) = -1000000 := by
      have := rint_intCast (-1000000)
      push_cast at this
      exact_mod_cast this
    rw [e1, show (-100 : ℚ) * 10 ^ 4 = -1000000 by norm_num, k2, e2]
    norm_num [k1]

/-- C92: the stochastic %K without slowing is exactly 100 when the price closes at the highest high, and exactly 0 when it closes
at the lowest low. -/
theorem C92_stochastic_extreme (hA : Rounded R A) (hF : Fair R) (hB : FloatBuilt A E c f fill o AnyPrices) (k d : ℕ)
    (ho : o.ind = .stochasticOscillator k 1 d true) (i : ℕ) (hi : i < f.idx.length) (hk : k - 1 ≤ i)
    (h0 : lowest k (low f) i < highest k (high f) i) :
    (close f i = highest k (high f) i → o.getTiData.day "%K" i = .fin 100) ∧
    (close f i = lowest k (low f) i → o.getTiData.day "%K" i = .fin 0) := by
  obtain ⟨F, hl, hn, ht, hp, -⟩ := hB.on ho (by simp [Ind.required])
  have hv : Nums F.len 0 (close f) (F.col "close") := hn _ (by simp [Ind.required])
  have hH : Nums F.len 0 (high f) (F.col "high") := hn _ (by simp [Ind.required])
  have hL : Nums F.len 0 (low f) (F.col "low") := hn _ (by simp [Ind.required])
  simp only [Ind.Pos] at hp
  have hp : 1 ≤ k := by omega
  rw [guard_ok ht]
  show (_ → val (A.roundS 4 (A.divS (A.scaleS 100 (A.rollSum 1 1 (A.subS (F.col "close") (rolling k k aggMin (F.col "low")))))
    (A.rollSum 1 1 (A.subS (rolling k k aggMax (F.col "high")) (rolling k k aggMin (F.col "low")))))) i = _) ∧
    (_ → val (A.roundS 4 (A.divS (A.scaleS 100 (A.rollSum 1 1 (A.subS (F.col "close") (rolling k k aggMin (F.col "low")))))
    (A.rollSum 1 1 (A.subS (rolling k k aggMax (F.col "high")) (rolling k k aggMin (F.col "low")))))) i = _)
  have num := (hv.fsub A (hL.rollMin k hp)).val i (by omega)
  have den := ((hH.rollMax k hp).fsub A (hL.rollMin k hp)).val i (by omega)
  rw [if_neg (by omega)] at num den
  rw [val_fround, val_fdiv, val_fscale, rollSum_one A _ i _ num, rollSum_one A _ i _ den, hA.fl, R.again, R.again]
  have hd := positive_fl hF (sub_pos.2 h0)
  have w0 := hF.zero
  constructor
  · intro h
    rw [h]
    exact percent_full hA.fl hF hd
  · intro h
    rw [h, sub_self, w0, fl_mul, mul_zero, hA.fl, w0, fl_div _ _ _ hd.ne', zero_div, hA.fl, w0]
    simp [Arith.round, hA.fl, w0, rint]

/-! ### A range that is lost

Four days; the change from open to close is 5, 2^53 + 2, -3 and 1. The sum of the rises of the last two days, which pandas keeps
up to date by adding the new number and subtracting the old one, comes out as -1 instead of 1. -/

theorem float_built {ind : Ind} (name : String) (i : ℕ) (v : Val)
    (h : ((Flt.construct A E c (.frame f) (.bool fill)).2.map fun o => (o.ind, o.getTiData.day name i)) = .ok (ind, v))
    (hw : ∀ c ∈ f.cols, c.data.length = f.idx.length) (hx : ∀ j < f.idx.length, ∀ m ∈ ind.required, f.cell m j = .fin (price f m j)) :
    ∃ o, FloatBuilt A E c f fill o AnyPrices ∧ o.ind = ind ∧ o.getTiData.day name i = v := by
  cases hc : (Flt.construct A E c (.frame f) (.bool fill)).2 with
  | error e => rw [hc] at h; simp [Except.map] at h
  | ok o =>
    rw [hc] at h
    simp only [Except.map, Except.ok.injEq, Prod.mk.injEq] at h
    refine ⟨o, ⟨hw, hc, ?_⟩, h.1, h.2⟩
    rw [h.1]
    exact fun j hj => ⟨fun name => price f name j, fun m hm => hx j hj m hm, trivial⟩

def wideDays : RawFrame :=
  ⟨true, [0, 1, 2, 3], [⟨.str "open", true, [1, 2, 4, 1]⟩, ⟨.str "close", true, [6, .fin (2 ^ 53 + 4), 1, 2]⟩]⟩

/-- C92: the intraday momentum index can leave its range between 0 and 100 in float64: here it is -50. With exact arithmetic it is
25. -/
theorem C92_intraday_witness : (∃ o, FloatBuilt doubleArith demoEnv (.intradayMomentumIndex (.int 2)) wideDays true o AnyPrices ∧
      o.ind = .intradayMomentumIndex 2 ∧ o.getTiData.day "imi" 3 = .fin (-50)) ∧
    ∃ o, (construct demoEnv (.intradayMomentumIndex (.int 2)) (.frame wideDays) (.bool true)).2 = .ok o ∧
      o.getTiData.day "imi" 3 = .fin 25 := by
  constructor
  · exact float_built "imi" 3 _ (by decide +kernel) (by decide +kernel) (by decide +kernel)
  · have h : ((construct demoEnv (.intradayMomentumIndex (.int 2)) (.frame wideDays) (.bool true)).2.map
        fun o => o.getTiData.day "imi" 3) = .ok (.fin 25) := by decide +kernel
    cases hc : (construct demoEnv (.intradayMomentumIndex (.int 2)) (.frame wideDays) (.bool true)).2 with
    | error e => rw [hc] at h; simp [Except.map] at h
    | ok o =>
      rw [hc] at h
      simp only [Except.map, Except.ok.injEq] at h
      exact ⟨o, rfl, h⟩

/-- The hypotheses of `C92_williams`, `C92_stochastic`, `C92_strength`, `C92_momentum`, `C92_swing`, `C92_directional` and
`C92_range`; the swing index reaches 100 here. -/
example : Rounded double doubleArith ∧ Fair double ∧
    (∃ o, FloatBuilt doubleArith demoEnv (.williamsR (.int 3)) (sample 6) true o Bar ∧ o.ind = .williamsR 3 ∧
      o.getTiData.day "wr" 4 = .fin (-3339531713685907 / 70368744177664)) ∧
    (∃ o, FloatBuilt doubleArith demoEnv (.stochasticOscillator (.int 3) (.int 1) (.int 2) (.str "simple")) (sample 6) true o Bar ∧
      o.ind = .stochasticOscillator 3 1 2 true ∧ o.getTiData.day "%K" 3 = .fin (1401411132484223 / 17592186044416)) ∧
    (∃ o, FloatBuilt doubleArith demoEnv (.relativeStrengthIndex (.int 3)) (sample 6) true o AnyPrices ∧
      o.ind = .relativeStrengthIndex 3 ∧ o.getTiData.day "rsi" 3 = .fin (5473126110901515 / 70368744177664)) ∧
    (∃ o, FloatBuilt doubleArith demoEnv (.relativeMomentumIndex (.int 2) (.int 2)) (sample 6) true o AnyPrices ∧
      o.ind = .relativeMomentumIndex 2 2 ∧ o.getTiData.day "rmi" 5 = .fin (1919145649334177 / 70368744177664)) ∧
    (∃ o, FloatBuilt doubleArith demoEnv .swingIndex (sample 6) true o Bar ∧ o.ind = .swingIndex ∧
      o.getTiData.day "swi" 1 = .fin 100) ∧
    (∃ o, FloatBuilt doubleArith demoEnv .directionalMovementIndex (sample 42) true o Bar ∧ o.ind = .directionalMovementIndex ∧
      o.getTiData.day "adxr" 40 = .fin (2916179274964245 / 35184372088832)) :=
  ⟨C85_double.1, fair_double, sample_float 6 "wr" 4 _ (by decide +kernel) (by decide) fun _ h => h.1,
    sample_float 6 "%K" 3 _ (by decide +kernel) (by decide) fun _ h => h.1,
    sample_float 6 "rsi" 3 _ (by decide +kernel) (by decide) fun _ _ => trivial,
    sample_float 6 "rmi" 5 _ (by decide +kernel) (by decide) fun _ _ => trivial,
    sample_float 6 "swi" 1 _ (by decide +kernel) (by decide) fun _ h => h.1,
    sample_float 42 "adxr" 40 _ (by decide +kernel) (by decide) fun _ h => h.1⟩

def topDays : RawFrame :=
  ⟨true, [0, 1, 2], [⟨.str "high", true, [3, 4, 6]⟩, ⟨.str "low", true, [1, 2, .fin (1 / 2)]⟩, ⟨.str "close", true, [2, 4, .fin (1 / 2)]⟩]⟩

/-- The hypotheses of `C92_williams_extreme` and `C92_stochastic_extreme`: a close at the highest high, then one at the lowest
low. -/
example : (∃ o, FloatBuilt doubleArith demoEnv (.williamsR (.int 2)) topDays true o AnyPrices ∧ o.ind = .williamsR 2 ∧
      o.getTiData.day "wr" 1 = .fin 0) ∧
    (∃ o, FloatBuilt doubleArith demoEnv (.stochasticOscillator (.int 2) (.int 1) (.int 2) (.str "simple")) topDays true o AnyPrices ∧
      o.ind = .stochasticOscillator 2 1 2 true ∧ o.getTiData.day "%K" 1 = .fin 100) ∧
    close topDays 1 = highest 2 (high topDays) 1 ∧ close topDays 2 = lowest 2 (low topDays) 2 ∧
    (∀ i, i < 3 → lowest 2 (low topDays) i < highest 2 (high topDays) i) :=
  ⟨float_built "wr" 1 _ (by decide +kernel) (by decide +kernel) (by decide +kernel),
    float_built "%K" 1 _ (by decide +kernel) (by decide +kernel) (by decide +kernel),
    by decide +kernel, by decide +kernel, by decide +kernel⟩

end TTI.Props
