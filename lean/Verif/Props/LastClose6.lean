import Verif.Props.LastClose5

set_option autoImplicit false

/-!
# A higher last close and the standard deviation: C106

The class compares the close with its average and asks for a deviation above 2. Whether the deviation grows with the close depends on
the side of the average the close is on, and on both sides the signal can move towards sell only.
-/

namespace TTI.Props

open Spec LastClose

variable {E : Env} {c : Call} {f g : RawFrame} {fill : Bool} {o p : Obj}

/-- The variance as the mean of the squares less the square of the mean. -/
theorem variance_squares (w : ℕ) (hw : 1 ≤ w) (u : ℕ → ℚ) (i : ℕ) :
    varianceLast w u i = meanLast w (fun j => u j ^ 2) i - meanLast w u i ^ 2 := by
  have h0 : (w : ℚ) ≠ 0 := by exact_mod_cast (by omega : w ≠ 0)
  have hs : sumLast w u i = w * meanLast w u i := by unfold meanLast; field_simp
  generalize hm : meanLast w u i = m at *
  unfold varianceLast
  rw [hm]
  unfold meanLast
  have : sumLast w (fun j => (u j - m) ^ 2) i = sumLast w (fun j => u j ^ 2) i - 2 * m * sumLast w u i + w * m ^ 2 := by
    simp only [sumLast, Finset.mul_sum]
    rw [← Finset.sum_sub_distrib]
    have : (w : ℚ) * m ^ 2 = ∑ _t ∈ Finset.range w, m ^ 2 := by simp
    rw [this, ← Finset.sum_add_distrib]
    exact Finset.sum_congr rfl fun t _ => by ring
  rw [this, hs]
  field_simp
  ring

theorem variance_pos (w : ℕ) (u : ℕ → ℚ) (i : ℕ) : 0 ≤ varianceLast w u i :=
  div_nonneg (Finset.sum_nonneg fun _ _ => sq_nonneg _) (Nat.cast_nonneg _)

theorem round_quoted {q : ℚ} (h : ∃ m : ℤ, q = m / 10000) : roundQ 4 q = q := by
  obtain ⟨m, rfl⟩ := h
  have := roundQ_div 4 m
  norm_num at this
  exact this

/-- What a change of the last number does to the variance. -/
theorem variance_last {u v : ℕ → ℚ} {s L : ℕ} (h : ∀ j, s ≤ j → j < L → v j = u j) (w : ℕ) (hw : 1 ≤ w) (hs : s + w ≤ L + 1) :
    w * (varianceLast w v L - varianceLast w u L) = (v L - u L) * (u L + v L - meanLast w u L - meanLast w v L) := by
  have h0 : (w : ℚ) ≠ 0 := by exact_mod_cast (by omega : w ≠ 0)
  have h1 := sum_last h w hw hs
  have h2 := sum_last (u := fun j => u j ^ 2) (v := fun j => v j ^ 2) (fun j a b => by simp only [h j a b]) w hw hs
  rw [variance_squares w hw, variance_squares w hw]
  unfold meanLast
  rw [h1, h2]
  field_simp
  ring

/-- C106: the class of the standard deviation opposes the market, whatever square root is used, as long as it grows with its argument. -/
theorem C106_standard_deviation (hq : ∀ a b, 0 ≤ a → a ≤ b → E.sq a ≤ E.sq b) (ho : BuiltOn E c f fill o Quoted)
    (hp : BuiltOn E c g fill p Quoted) (hr : LastCloseRaised f g) (n : ℕ) (hi : o.ind = .standardDeviation n) {s t : Signal}
    (h1 : o.getTiSignal = .ok s) (h2 : p.getTiSignal = .ok t) : TowardsBuy t s := by
  obtain ⟨L, h⟩ := pair_of ho hp hr (by rw [hi]; exact fun _ => rfl) (by rw [hi]; exact fun _ h => by cases h)
  have hi' : p.ind = .standardDeviation n := by rw [h.ind, hi]
  have hn : 1 ≤ n := pos_of ho hi
  have r := h.rows
  have r' := h.rows'
  have hc : "close" ∈ o.ind.required := by rw [hi]; simp [Ind.required]
  have hc' : "close" ∈ p.ind.required := by rw [hi']; simp [Ind.required]
  have hsd : "sd" ∈ columns o.ind := by rw [hi]; simp [columns]
  have m1 := before_nums (((h.left.pxNums _ hc).rollMean n hn).round 4) 0 (by omega)
  have m2 := before_nums (((h.right.pxNums _ hc').rollMean n hn).round 4) 0 (by omega)
  have s1 := C54_standard_deviation (built_any ho) n hi L (by omega)
  have s2 := C54_standard_deviation (built_any hp) n hi' L (by omega)
  have g1 := (quoted_close ho hc L (by omega)).2
  have g2 := (quoted_close hp hc' L (by omega)).2
  refine h.opposes h1 h2 hi rfl fun _ => ?_
  simp only [rule, (h.px hc 0 (by omega)).1, (h.px hc 0 (by omega)).2, (h.ti "sd" hsd 0 (by omega)).1, (h.ti "sd" hsd 0 (by omega)).2,
    Nat.sub_zero, s1, s2, m1, m2, Nat.add_sub_cancel, Nat.zero_add]
  unfold since
  by_cases hk : L < n - 1
  · simp [hk, Val.lt]
  have hL : n ≤ L + 1 := by omega
  simp only [if_neg hk]
  have hl := h.last
  have hS : Slower (close f L) (close g L) (meanLast n (close f) L) (meanLast n (close g) L) := by
    rcases Nat.lt_or_ge n 2 with h3 | h3
    · obtain rfl : n = 1 := by omega
      exact ⟨by simp [meanLast, sumLast, h.last], .inr (.inr ⟨by simp [meanLast, sumLast], by simp [meanLast, sumLast]⟩)⟩
    · have hq : (2 : ℚ) ≤ n := by exact_mod_cast h3
      refine Slower.of_lift (1 / n) (by rw [div_lt_one (by linarith)]; linarith) h.last (s := n - 1) ?_
      have := h.lift.mean n hn (by omega)
      rw [Nat.zero_add] at this
      rwa [one_div_mul_eq_div]
  have hR := hS.round hl g1 g2
  have hV := variance_last (u := close f) (v := close g) (s := 0) (fun j _ a => h.earlier j a) n hn (by omega)
  have hn0 : (0 : ℚ) < n := by exact_mod_cast hn
  have v1 := variance_pos n (close f) L
  have v2 := variance_pos n (close g) L
  have k1 := round_quoted g1
  have k2 := round_quoted g2
  change ((Val.fin _ <ᵥ Val.fin _) ∧ (2 : Val) <ᵥ .fin _ → (Val.fin _ <ᵥ Val.fin _) ∧ (2 : Val) <ᵥ .fin _) ∧
    ((Val.fin _ <ᵥ Val.fin _) ∧ (2 : Val) <ᵥ .fin _ → (Val.fin _ <ᵥ Val.fin _) ∧ (2 : Val) <ᵥ .fin _)
  rw [show (2 : Val) = .fin 2 from rfl]
  simp only [Val.lt, decide_eq_true_eq]
  change ((close g L < roundQ 4 (meanLast n (close g) L)) ∧ 2 < roundQ 4 (E.sq (varianceLast n (close g) L)) → _) ∧ (_ → _)
  constructor
  · rintro ⟨a1, a2⟩
    have a3 : close f L < roundQ 4 (meanLast n (close f) L) := by linarith [hR.2]
    refine ⟨a3, lt_of_lt_of_le a2 (roundQ_mono 4 (hq _ _ v2 ?_))⟩
    have b1 : close f L ≤ meanLast n (close f) L := by
      by_contra hb
      have := roundQ_mono 4 (not_le.1 hb).le
      linarith
    have b2 : close g L ≤ meanLast n (close g) L := by
      by_contra hb
      have := roundQ_mono 4 (not_le.1 hb).le
      linarith
    by_contra hb
    nlinarith
  · rintro ⟨a1, a2⟩
    replace a1 : roundQ 4 (meanLast n (close f) L) < close f L := a1
    have a3 : roundQ 4 (meanLast n (close g) L) < close g L := by linarith [hR.2]
    refine ⟨a3, lt_of_lt_of_le a2 (roundQ_mono 4 (hq _ _ v1 ?_))⟩
    have b1 : meanLast n (close f) L ≤ close f L := by
      by_contra hb
      have := roundQ_mono 4 (not_le.1 hb).le
      linarith
    have b2 : meanLast n (close g) L ≤ close g L := by
      by_contra hb
      have := roundQ_mono 4 (not_le.1 hb).le
      linarith
    by_contra hb
    nlinarith

/-- The hypotheses of `C106_standard_deviation`: the last close 2 in one table and 20 in the other; the signal goes from buy to sell. -/
example : (∀ a b, 0 ≤ a → a ≤ b → demoEnv.sq a ≤ demoEnv.sq b) ∧ ∃ o p, BuiltOn demoEnv (.standardDeviation (.int 2)) (lastDays 2) true o Quoted ∧
    BuiltOn demoEnv (.standardDeviation (.int 2)) (lastDays 20) true p Quoted ∧ LastCloseRaised (lastDays 2) (lastDays 20) ∧
    o.ind = .standardDeviation 2 ∧ o.getTiSignal = .ok .buy ∧ p.getTiSignal = .ok .sell := by
  refine ⟨fun a b _ h => h, ?_⟩
  have hc : (Call.standardDeviation (.int 2)).check = .ok (.standardDeviation 2) := by decide +kernel
  obtain ⟨o, ho, hoi⟩ := table_built demoEnv _ _ hc _ _ Quoted (by norm_num) (by decide) (Past.required_ohlcv _)
    fun j hj => lastDays_quoted 2 (by norm_num) j hj
  obtain ⟨p, hp, -⟩ := table_built demoEnv _ _ hc _ _ Quoted (by norm_num) (by decide) (Past.required_ohlcv _)
    fun j hj => lastDays_quoted 20 (by norm_num) j hj
  refine ⟨o, p, ho, hp, lastDay_raised [10, 11, 10] 2 20 (by norm_num), hoi, signalOf_eq ho ?_, signalOf_eq hp ?_⟩ <;> decide +kernel

end TTI.Props
