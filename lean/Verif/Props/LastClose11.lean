import Verif.Props.LastClose10

set_option autoImplicit false

/-!
# A higher last close: detrended price oscillator (C106)
-/

namespace TTI.Props

open Spec LastClose

variable {E : Env} {c : Call} {f g : RawFrame} {fill : Bool} {o p : Obj}

/-- The column the signal of the detrended price oscillator looks at. -/
theorem detrended_column {P : (String → ℚ) → Prop} (hB : BuiltOn E c f fill o P) (n : ℕ) (ho : o.ind = .detrendedPriceOscillator n) :
    o.ti.idx.length = f.idx.length - (1 + n / 2) ∧ (o.ti.col "dpo").length = f.idx.length - (1 + n / 2) ∧
    ∀ i, i + (1 + n / 2) < f.idx.length → val (o.ti.col "dpo") i =
      since (n - 1 - (1 + n / 2)) i (to4 (close f i - meanLast n (close f) (i + (1 + n / 2)))) := by
  obtain ⟨F, hl, hn, -, ht, hp, -⟩ := hB.on ho
  have hcl : Nums F.len 0 (close f) (F.col "close") := hn _ (by simp [Ind.required])
  replace hp : 1 ≤ n := hp
  have hT : o.ti = _ := guard_ok ht
  have hm := hcl.rollMean n hp
  have h1 : o.ti.idx.length = f.idx.length - (1 + n / 2) := by
    rw [hT]; simp [Frame.len] at hl ⊢; omega
  have hs := (C33_shape E c f fill o hB.wf hB.ok).2.1
  refine ⟨h1, ?_, fun i hi => ?_⟩
  · rw [← h1]
    have := hs ("dpo", o.ti.col "dpo") (by
      show _ ∈ o.ti.cols
      rw [hT]; simp [Frame.col])
    exact this
  · rw [hT]
    show val (roundS 4 ((subS _ _).take _)) i = _
    rw [val_roundS, val_take _ _ _ (by omega), val_subS, hcl.fin (by omega) (by omega), val_shiftBack _ _ _ (by rw [hm.len]; omega),
      hm.val _ (by omega)]
    unfold since
    split
    · rw [if_pos (by omega)]; rfl
    · rw [if_neg (by omega), Val.fin_sub]; rfl

/-- C106: the detrended price oscillator opposes the market. -/
theorem C106_detrended (ho : BuiltOn E c f fill o Quoted) (hp : BuiltOn E c g fill p Quoted) (hr : LastCloseRaised f g) (n : ℕ)
    (hi : o.ind = .detrendedPriceOscillator n) {s t : Signal} (h1 : o.getTiSignal = .ok s) (h2 : p.getTiSignal = .ok t) :
    TowardsBuy t s := by
  have hi' : p.ind = .detrendedPriceOscillator n := (same_ind ho hp).trans hi
  obtain ⟨l1, k1, v1⟩ := detrended_column ho n hi
  obtain ⟨l2, k2, v2⟩ := detrended_column hp n hi'
  obtain ⟨a1, a2⟩ := C47_signal_table o ⟨E, c, f, fill, o, ho.wf, ho.ok, .inl rfl⟩
  obtain ⟨b1, b2⟩ := C47_signal_table p ⟨E, c, g, fill, p, hp.wf, hp.ok, .inl rfl⟩
  rw [show o.getTiData.idx.length = f.idx.length - (1 + n / 2) from l1, hi, h1] at a1 a2
  rw [show p.getTiData.idx.length = g.idx.length - (1 + n / 2) from l2, hi', h2] at b1 b2
  rw [hr.days] at b1 b2 k2 v2
  have hmono : ∀ j < f.idx.length, close f j ≤ close g j := fun j hj => by
    by_cases h : j + 1 < f.idx.length
    · exact (hr.before j h).ge
    · obtain rfl : j = f.idx.length - 1 := by omega
      exact hr.last
  have hmean : ∀ i < f.idx.length, meanLast n (close f) i ≤ meanLast n (close g) i := fun i hl => by
    unfold meanLast sumLast
    exact div_le_div_of_nonneg_right (Finset.sum_le_sum fun t _ => hmono _ (by omega)) (by positivity)
  have hsame : ∀ i, i + 1 < f.idx.length → meanLast n (close g) i = meanLast n (close f) i := fun i hl => by
    unfold meanLast sumLast
    congr 1
    exact Finset.sum_congr rfl fun t _ => hr.before (i - t) (by omega)
  have key : 2 ≤ f.idx.length - (1 + n / 2) → before 1 (p.ti.col "dpo") = before 1 (o.ti.col "dpo") ∧
      (∀ x, x <ᵥ before 0 (p.ti.col "dpo") → x <ᵥ before 0 (o.ti.col "dpo")) ∧
      (∀ x, before 0 (o.ti.col "dpo") <ᵥ x → before 0 (p.ti.col "dpo") <ᵥ x) := fun hl => by
    set m := f.idx.length - (1 + n / 2) with hm
    rw [before_val, before_val, before_val, before_val, k1, k2, if_pos (by omega), if_pos (by omega), if_pos (by omega), if_pos (by omega),
      v1 _ (by omega), v1 _ (by omega), v2 _ (by omega), v2 _ (by omega)]
    have e1 : close g (m - 1 - 1) = close f (m - 1 - 1) := hr.before _ (by omega)
    have e2 : close g (m - 1 - 0) = close f (m - 1 - 0) := hr.before _ (by omega)
    rw [e1, e2, hsame _ (by omega)]
    have hq := roundQ_mono 4 (sub_le_sub_left (hmean (m - 1 - 0 + (1 + n / 2)) (by omega)) (close f (m - 1 - 0)))
    refine ⟨rfl, ?_, ?_⟩
    all_goals
      intro x
      unfold since to4
      split
      · exact id
      · cases x <;> simp only [Val.lt, decide_eq_true_eq, imp_self]
        intro h
        linarith
  have up : 2 ≤ f.idx.length - (1 + n / 2) → (rule p.input p.ti (.detrendedPriceOscillator n)).buy →
      (rule o.input o.ti (.detrendedPriceOscillator n)).buy := by
    rintro hl ⟨u, v⟩
    obtain ⟨q1, q2, -⟩ := key hl
    change before 1 (p.ti.col "dpo") <ᵥ 0 at u
    rw [q1] at u
    exact ⟨u, q2 _ v⟩
  have down : 2 ≤ f.idx.length - (1 + n / 2) → (rule o.input o.ti (.detrendedPriceOscillator n)).sell →
      (rule p.input p.ti (.detrendedPriceOscillator n)).sell := by
    rintro hl ⟨u, v⟩
    obtain ⟨q1, -, q3⟩ := key hl
    change (0 : Val) <ᵥ before 1 (o.ti.col "dpo") at u
    rw [← q1] at u
    exact ⟨u, q3 _ v⟩
  cases t with
  | sell => exact .inr (.inl rfl)
  | buy =>
    obtain ⟨q1, q2⟩ := b1.1 rfl
    exact .inr (.inr (Except.ok.inj (a1.2 ⟨q1, up q1 q2⟩)))
  | hold =>
    cases s with
    | buy => exact .inr (.inr rfl)
    | hold => exact .inl rfl
    | sell =>
      obtain ⟨q1, q2⟩ := a2.1 rfl
      cases Except.ok.inj (b2.2 ⟨q1, down q1 q2⟩)

/-- The hypotheses of `C106_detrended`: the signal goes from buy to hold. -/
example : Moves (.detrendedPriceOscillator (.int 2)) .buy .hold :=
  moves_of (.detrendedPriceOscillator (.int 2)) (.detrendedPriceOscillator 2) [20, 10, 16, 20] 10 24 [22, 12, 18, 22, 25] [18, 8, 14, 18, 8]
    [20, 10, 16, 20, 10] [10, 10, 10, 10, 10] (by decide +kernel) (by decide +kernel) (by decide) (by decide) (by decide +kernel)
    (by decide +kernel)

end TTI.Props
