import Verif.Props.LastClose6

set_option autoImplicit false

/-!
# A higher last close: retracement levels and the Klinger oscillator (C106)
-/

namespace TTI.Props

open Spec LastClose

variable {E : Env} {c : Call} {f g : RawFrame} {fill : Bool} {o p : Obj}

/-- A level between the lowest and the highest number moves by less than the last number. -/
theorem level_slower {u v : ℕ → ℚ} {L : ℕ} (hL : 1 ≤ L) (hs : ∀ j < L, v j = u j) (hl : u L ≤ v L) (r : ℚ) (h0 : 0 < r) (h1 : r < 1) :
    Slower (u L) (v L) (highest (L + 1) u L - r * (highest (L + 1) u L - lowest (L + 1) u L))
      (highest (L + 1) v L - r * (highest (L + 1) v L - lowest (L + 1) v L)) := by
  obtain ⟨a1, t1, ht1, e1⟩ := Nums.highest_spec (L + 1) (by omega) u L
  obtain ⟨a2, t2, ht2, e2⟩ := Nums.highest_spec (L + 1) (by omega) v L
  obtain ⟨b1, t3, ht3, e3⟩ := Nums.lowest_spec (L + 1) (by omega) u L
  obtain ⟨b2, t4, ht4, e4⟩ := Nums.lowest_spec (L + 1) (by omega) v L
  generalize highest (L + 1) u L = A at *
  generalize highest (L + 1) v L = A' at *
  generalize lowest (L + 1) u L = B at *
  generalize lowest (L + 1) v L = B' at *
  have step : ∀ t, 1 ≤ t → t < L + 1 → v (L - t) = u (L - t) := fun t h2 h3 => hs _ (by omega)
  have uA : u L ≤ A := by simpa using a1 0 (by omega)
  have vA : v L ≤ A' := by simpa using a2 0 (by omega)
  have uB : B ≤ u L := by simpa using b1 0 (by omega)
  have vB : B' ≤ v L := by simpa using b2 0 (by omega)
  have k1 : A' ≤ A ∨ A' = v L := by
    rcases Nat.eq_zero_or_pos t2 with h | h
    · subst h; exact .inr (by simpa using e2)
    · left; rw [e2, step t2 h ht2]; exact a1 _ ht2
  have k2 : A ≤ A' := by
    rcases Nat.eq_zero_or_pos t1 with h | h
    · subst h; rw [Nat.sub_zero] at e1; linarith
    · rw [e1, ← step t1 h ht1]; exact a2 _ ht1
  have k3 : B' ≤ B ∨ B = u L := by
    rcases Nat.eq_zero_or_pos t3 with h | h
    · subst h; exact .inr (by simpa using e3)
    · left; rw [e3, ← step t3 h ht3]; exact b2 _ ht3
  have k4 : B ≤ B' := by
    rcases Nat.eq_zero_or_pos t4 with h | h
    · subst h; rw [Nat.sub_zero] at e4; linarith
    · rw [e4, step t4 h ht4]; exact b1 _ ht4
  have d1 : A' - A ≤ v L - u L := by rcases k1 with h | h <;> linarith
  have d2 : B' - B ≤ v L - u L := by rcases k3 with h | h <;> linarith
  refine ⟨by nlinarith, ?_⟩
  rcases hl.lt_or_eq with hlt | heq
  · left
    have e0 := step L hL (by omega)
    have p1 := a1 L (by omega)
    have p2 := b2 L (by omega)
    by_cases hA : A' - A < v L - u L
    · nlinarith
    · have hB : B' - B < v L - u L := by
        rcases k1 with h | h
        · linarith
        · rcases k3 with h' | h'
          · linarith
          · linarith
      nlinarith
  · right; left
    have q1 : A' = A := by rcases k1 with h | h <;> linarith
    have q2 : B' = B := by rcases k3 with h | h <;> linarith
    rw [q1, q2]

section
variable {s t : Signal} {L : ℕ} (ho : BuiltOn E c f fill o Quoted) (hp : BuiltOn E c g fill p Quoted) (h : Pair f g o p L)
  (h1 : o.getTiSignal = .ok s) (h2 : p.getTiSignal = .ok t)
include ho hp h h1 h2

theorem last_fibonacci (hi : o.ind = .fibonacciRetracement) : TowardsBuy t s := by
  have hi' : p.ind = .fibonacciRetracement := by rw [h.ind, hi]
  have r := h.rows
  have r' := h.rows'
  have hc : "close" ∈ o.ind.required := by rw [hi]; simp [Ind.required]
  have hc' : "close" ∈ p.ind.required := by rw [hi']; simp [Ind.required]
  have g1 := (quoted_close ho hc L (by omega)).2
  have g2 := (quoted_close hp hc' L (by omega)).2
  refine h.opposes h1 h2 hi rfl fun hrows => ?_
  have hL : 1 ≤ L := by simp only [rule] at hrows; omega
  -- one line on both days
  have key : ∀ l ∈ ["rl_61.8", "rl_50.0", "rl_38.2", "rl_23.6"], ∃ x y : ℚ, x ≤ y ∧ y ≤ x + (close g L - close f L) ∧
      (∀ k ≤ 1, before k (o.ti.col l) = .fin x) ∧ ∀ k ≤ 1, before k (p.ti.col l) = .fin y := by
    intro l hl
    obtain ⟨lev, hlev, l0, l1⟩ : ∃ lev : ℚ, (l, lev) ∈ [("rl_0.0", (0 : ℚ)), ("rl_23.6", 236 / 1000), ("rl_38.2", 382 / 1000),
        ("rl_50.0", 1 / 2), ("rl_61.8", 618 / 1000), ("rl_100.0", 1)] ∧ 0 < lev ∧ lev < 1 := by
      simp only [List.mem_cons, List.not_mem_nil, or_false] at hl
      rcases hl with rfl | rfl | rfl | rfl
      · exact ⟨618 / 1000, by simp, by norm_num, by norm_num⟩
      · exact ⟨1 / 2, by simp, by norm_num, by norm_num⟩
      · exact ⟨382 / 1000, by simp, by norm_num, by norm_num⟩
      · exact ⟨236 / 1000, by simp, by norm_num, by norm_num⟩
    have hcol : l ∈ columns o.ind := by
      rw [hi]; simp only [List.mem_cons, List.not_mem_nil, or_false] at hl
      rcases hl with rfl | rfl | rfl | rfl <;> simp [columns]
    have hS := level_slower hL (fun j hj => h.earlier j hj) h.last lev l0 l1
    have hR := hS.round h.last g1 g2
    refine ⟨_, _, hR.1, hR.2, fun k hk => ?_, fun k hk => ?_⟩
    · rw [(h.ti l hcol k (by omega)).1, C54_fibonacci (built_any ho) hi _ (by omega) l lev hlev, r, Nat.add_sub_cancel]
      rfl
    · rw [(h.ti l hcol k (by omega)).2, C54_fibonacci (built_any hp) hi' _ (by omega) l lev hlev, r', Nat.add_sub_cancel]
      rfl
  have c0 := h.px hc 0 (by omega)
  have c1 := h.px hc 1 (by omega)
  rw [h.earlier _ (by omega)] at c1
  rw [Nat.sub_zero] at c0
  have hl := h.last
  have hb : (∃ l ∈ ["rl_61.8", "rl_50.0", "rl_38.2", "rl_23.6"], Overtakes (fun k => before k (p.ti.col l)) fun k => before k (p.input.col "close")) →
      ∃ l ∈ ["rl_61.8", "rl_50.0", "rl_38.2", "rl_23.6"], Overtakes (fun k => before k (o.ti.col l)) fun k => before k (o.input.col "close") := by
    rintro ⟨l, hm, q1, q2⟩
    obtain ⟨x, y, k1, k2, k3, k4⟩ := key l hm
    refine ⟨l, hm, ?_, ?_⟩
    · simp only [c1.1, c1.2, k3 1 le_rfl, k4 1 le_rfl, Val.lt, decide_eq_true_eq] at q1 ⊢; linarith
    · simp only [c0.1, c0.2, k3 0 (by omega), k4 0 (by omega), Val.lt, decide_eq_true_eq] at q2 ⊢; linarith
  refine ⟨hb, ?_⟩
  rintro ⟨q0, l, hm, q1, q2⟩
  refine ⟨fun hh => q0 (hb hh), l, hm, ?_⟩
  obtain ⟨x, y, k1, k2, k3, k4⟩ := key l hm
  constructor
  · simp only [c1.1, c1.2, k3 1 le_rfl, k4 1 le_rfl, Val.lt, decide_eq_true_eq] at q1 ⊢; linarith
  · simp only [c0.1, c0.2, k3 0 (by omega), k4 0 (by omega), Val.lt, decide_eq_true_eq] at q2 ⊢; linarith

omit ho hp h1 h2 in
/-- The direction of the Klinger oscillator: no other day changes, and the last one can turn upwards only. -/
theorem force_lift (hv : 0 ≤ volume f L) : Lift 1 L (volumeForce g L - volumeForce f L) (volumeForce f) (volumeForce g) := by
  have hl := h.last
  have d : ∀ j, dayRange g j = dayRange f j := fun j => by unfold dayRange; rw [h.high, h.low]
  have hd : ∀ j < L, heading g j = heading f j := fun j hj => by
    unfold heading priceSum; rw [h.high, h.low, h.earlier j hj, h.earlier (j - 1) (by omega)]
  have rr : ∀ j < L, rangeRun g j = rangeRun f j := by
    intro j
    induction j with
    | zero => intro _; rfl
    | succ j ih => intro hj; simp only [rangeRun, hd (j + 1) hj, hd j (by omega), ih (by omega), d]
  have fs : ∀ j < L, volumeForce g j = volumeForce f j := fun j hj => by
    unfold volumeForce; rw [h.volume, d, rr j hj, hd j hj]
  have two : ∀ e : RawFrame, heading e L = 1 ∨ heading e L = -1 := fun e => by unfold heading; split <;> simp
  have up : heading f L = 1 → 1 ≤ L → heading g L = 1 := fun q hL => by
    unfold heading at q ⊢
    have q' : priceSum f (L - 1) < priceSum f L := by by_contra hh; rw [if_neg hh] at q; norm_num at q
    rw [if_pos]
    unfold priceSum at q' ⊢
    rw [h.high, h.low, h.earlier (L - 1) (by omega)]
    linarith
  refine ⟨fun j _ hj => fs j hj, ?_, by linarith⟩
  rcases Nat.eq_zero_or_pos L with h0 | hL
  · have e : heading g L = heading f L := by unfold heading; rw [h0]; simp
    unfold volumeForce
    rw [h.volume, d, e, show rangeRun g L = rangeRun f L by rw [h0]; rfl]
  by_cases he : heading g L = heading f L
  · have e : rangeRun g L = rangeRun f L := by
      obtain ⟨k, rfl⟩ : ∃ k, L = k + 1 := ⟨L - 1, by omega⟩
      simp only [rangeRun, he, hd k (by omega), rr k (by omega), d]
    unfold volumeForce
    rw [h.volume, d, e, he]
  · have a : heading f L = -1 := by
      rcases two f with q | q
      · exact absurd ((up q hL).trans q.symm) he
      · exact q
    have b : heading g L = 1 := by
      rcases two g with q | q
      · exact q
      · exact absurd (q.trans a.symm) he
    unfold volumeForce
    rw [a, b, h.volume]
    have q1 : 0 ≤ volume f L * |2 * (dayRange f L / rangeRun f L) - 1| := mul_nonneg hv (abs_nonneg _)
    have q2 : 0 ≤ volume f L * |2 * (dayRange g L / rangeRun g L) - 1| := mul_nonneg hv (abs_nonneg _)
    linarith

omit ho hp h h1 h2 in
theorem rangeRun_pos {e : RawFrame} {m : ℕ} (hr : ∀ j ≤ m, low e j < high e j) (j : ℕ) (h1 : 1 ≤ j) (hj : j ≤ m) : 0 < rangeRun e j := by
  have d : ∀ j ≤ m, 0 < dayRange e j := fun j hj => by unfold dayRange; linarith [hr j hj]
  induction j with
  | zero => omega
  | succ j ih =>
    simp only [rangeRun]
    split
    · next hh => have := ih (by omega) (by omega); have := d (j + 1) hj; linarith
    · have := d (j + 1) hj; have := d j (by omega); linarith

theorem last_klinger (hi : o.ind = .klingerOscillator) (hr : ∀ j < f.idx.length, low f j < high f j) : TowardsBuy t s := by
  have hi' : p.ind = .klingerOscillator := by rw [h.ind, hi]
  have r := h.rows
  have r' := h.rows'
  have hv := quoted_volume ho (by rw [hi]; simp [Ind.required]) L (by omega)
  have F := force_lift h hv
  refine last_extremes ho hp h h1 h2 "ko" _ hi (by simp [columns]) 0 0 (fun _ _ => rfl) 55 _ _
    (fun i hl => C59_klinger (built_any ho) hi i hl fun j q1 q2 => (rangeRun_pos (m := L) (fun j hj => hr j (by omega)) j q2 (by omega)).ne')
    (fun i hl => C59_klinger (built_any hp) hi' i hl fun j q1 q2 => (rangeRun_pos (m := L) (fun j hj => by
      rw [h.high, h.low]; exact hr j (by omega)) j q2 (by omega)).ne') (fun i hk hiL => ?_) fun hk hL => ?_
  · have e34 := (F.ema 34 (by norm_num) (by omega)).same i (by omega) hiL
    have e55 := (F.ema 55 (by norm_num) (by omega)).same i (by omega) hiL
    rw [e34, e55]
  · refine (raised_to4 ?_).pushed _ _
    have x : Exactly 1 L (volumeForce g L - volumeForce f L) (volumeForce f) (volumeForce g) := ⟨F.same, by ring⟩
    have q := F.le
    rw [(x.ema 34 (by omega)).at_, (x.ema 55 (by omega)).at_]
    have : (0 : ℚ) ≤ volumeForce g L - volumeForce f L := by linarith
    push_cast
    nlinarith

end

end TTI.Props
