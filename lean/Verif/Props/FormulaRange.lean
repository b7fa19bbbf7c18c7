import Verif.Props.Sample
import Verif.Lemmas.Col3

set_option autoImplicit false

/-!
# Ranges and directional movement: C57
-/

namespace TTI.Props

open Spec

variable {E : Env} {c : Call} {f : RawFrame} {fill : Bool} {o : Obj}

/-- C57: average true range is Wilder's 14-day average of the true range. -/
theorem C57_average_true_range (hB : BuiltOn E c f fill o AnyPrices) (ho : o.ind = .averageTrueRange) (i : ℕ)
    (hi : i < f.idx.length) :
    o.getTiData.day "atr" i = since 13 i (to4 (wilderAverage 14 0 (trueRange f) i)) := by
  obtain ⟨F, hl, hn, -, ht, hp, -⟩ := hB.on ho
  have hcl : Nums F.len 0 (close f) (F.col "close") := hn _ (by simp [Ind.required])
  have hh : Nums F.len 0 (high f) (F.col "high") := hn _ (by simp [Ind.required])
  have hlo : Nums F.len 0 (low f) (F.col "low") := hn _ (by simp [Ind.required])
  have hge : ¬ F.len < 14 := fun h => by
    have : Ind.calcTi E F .averageTrueRange = .error (.notEnough 2 F.len) := if_pos h
    rw [this] at ht; simp at ht
  rw [guard_ok ht]
  have htr := Nums.trueRangeSkip hh hlo hcl
  exact (Nums.atr htr (by omega)).eq4 (hl ▸ hi) rfl fun _ => rfl

/-- The hypotheses of `C57_average_true_range` on the sample. -/
example : ∃ o, BuiltOn demoEnv (.averageTrueRange) (sample 16) true o AnyPrices ∧ o.ind = .averageTrueRange ∧
    o.getTiData.day "atr" 15 = .fin (66563 / 5000) :=
  sample_any 16 "atr" 15 _ (by decide +kernel) (by decide)

/-- The columns of the directional movement index. -/
theorem directional_columns (hB : BuiltOn E c f fill o AnyPrices) (ho : o.ind = .directionalMovementIndex) :
    ∃ (idx : List ℤ) (P M D : List Val), Col f.idx.length 14 (plusVal f) P ∧ Col f.idx.length 14 (minusVal f) M ∧
      Col f.idx.length 14 (contrastVal f) D ∧
      o.getTiData = ⟨idx, [("+di", roundS 4 P), ("-di", roundS 4 M), ("dx", roundS 4 D),
        ("adx", roundS 4 (Ind.DirectionalMovementIndex.adxOf D)),
        ("adxr", roundS 4 (maskBefore 40 ((addS (Ind.DirectionalMovementIndex.adxOf D)
          (shift 13 (Ind.DirectionalMovementIndex.adxOf D))).map fun x => Val.div x 2)))]⟩ := by
  obtain ⟨F, hl, hn, -, ht, hp, -⟩ := hB.on ho
  have hcl : Nums F.len 0 (close f) (F.col "close") := hn _ (by simp [Ind.required])
  have hh : Nums F.len 0 (high f) (F.col "high") := hn _ (by simp [Ind.required])
  have hlo : Nums F.len 0 (low f) (F.col "low") := hn _ (by simp [Ind.required])
  obtain ⟨h1, h2⟩ := Nums.directionalLines hh hlo hcl
  rw [← hl]
  exact ⟨_, _, _, _, h1, h2, Nums.contrastCol hh hlo hcl, guard_ok ht⟩

/-- C57: the directional lines are the running totals of the directional movements in percent of the running total of the true
range, from day 14 on. -/
theorem C57_directional_lines (hB : BuiltOn E c f fill o AnyPrices) (ho : o.ind = .directionalMovementIndex) (i : ℕ)
    (hi : i < f.idx.length) :
    o.getTiData.day "+di" i = since 14 i (round4 (quotient (100 * total14 (plusMove f) i) (total14 (trueRange f) i))) ∧
    o.getTiData.day "-di" i = since 14 i (round4 (quotient (100 * total14 (minusMove f) i) (total14 (trueRange f) i))) := by
  obtain ⟨idx, P, M, D, h1, h2, -, e⟩ := directional_columns hB ho
  rw [e]
  exact ⟨(h1.round 4).eq hi rfl fun _ => rfl, (h2.round 4).eq hi rfl fun _ => rfl⟩

/-- The hypotheses of `C57_directional_lines` on the sample. -/
example : ∃ o, BuiltOn demoEnv (.directionalMovementIndex) (sample 28) true o AnyPrices ∧ o.ind = .directionalMovementIndex ∧
    o.getTiData.day "+di" 16 = .fin (5139 / 1000) :=
  sample_any 28 "+di" 16 _ (by decide +kernel) (by decide)

/-- C57: the contrast of the directional lines, on a day on which the running total of the true range is not zero. -/
theorem C57_contrast (hB : BuiltOn E c f fill o AnyPrices) (ho : o.ind = .directionalMovementIndex) (i : ℕ)
    (hi : i < f.idx.length) (h0 : total14 (trueRange f) i ≠ 0) :
    o.getTiData.day "dx" i =
      since 14 i (round4 (quotient (100 * |plusLine f i - minusLine f i|) |plusLine f i + minusLine f i|)) := by
  obtain ⟨idx, P, M, D, -, -, h3, e⟩ := directional_columns hB ho
  rw [e]
  show val (roundS 4 D) i = _
  exact (h3.round 4).eq hi rfl fun _ => by simp only [contrastVal_of_ne h0]

/-- The hypotheses of `C57_contrast` on the sample. -/
example : (∃ o, BuiltOn demoEnv (.directionalMovementIndex) (sample 28) true o AnyPrices ∧ o.ind = .directionalMovementIndex ∧
    o.getTiData.day "dx" 16 = .fin (207951 / 2500)) ∧
    (total14 (trueRange (sample 28)) 16 ≠ 0) :=
  ⟨sample_any 28 "dx" 16 _ (by decide +kernel) (by decide), by decide +kernel⟩

/-- C57: the average of the contrast, and the middle of it and the average 13 days before, when the contrast has a value on every
day from 14 on. -/
theorem C57_directional (hB : BuiltOn E c f fill o AnyPrices) (ho : o.ind = .directionalMovementIndex) (i : ℕ)
    (hi : i < f.idx.length)
    (h0 : ∀ j ≤ i, 14 ≤ j → total14 (trueRange f) j ≠ 0 ∧ plusLine f j + minusLine f j ≠ 0) :
    o.getTiData.day "adx" i = since 27 i (to4 (directional f i)) ∧
    o.getTiData.day "adxr" i = since 40 i (to4 ((directional f i + directional f (i - 13)) / 2)) := by
  obtain ⟨idx, P, M, D, -, -, h3, e⟩ := directional_columns hB ho
  rw [e]
  have hadx : ∀ j ≤ i, val (Ind.DirectionalMovementIndex.adxOf D) j = since 27 j (.fin (directional f j)) := fun j hj =>
    Nums.adx h3 (show j < _ by omega) fun t ht ht14 => by
      obtain ⟨h1, h2⟩ := h0 t (by omega) ht14
      rw [contrastVal_of_ne h1]
      exact quotient_ne _ _ (abs_ne_zero.2 h2)
  have hlen : (Ind.DirectionalMovementIndex.adxOf D).length = f.idx.length := by
    simp [Ind.DirectionalMovementIndex.adxOf, h3.len]
  generalize Ind.DirectionalMovementIndex.adxOf D = A at *
  refine ⟨?_, ?_⟩
  · show val (roundS 4 A) i = _
    rw [val_roundS, hadx i (le_refl _), round_since]; rfl
  · show val (roundS 4 (maskBefore 40 _)) i = _
    rw [val_roundS, val_maskBefore]
    unfold since
    split
    · rfl
    · next h40 =>
      rw [val_map _ rfl, val_addS, val_shift _ _ _ (by omega), hadx i (le_refl _), if_neg (by omega), hadx (i - 13) (by omega)]
      unfold since
      rw [if_neg (by omega), if_neg (by omega), Val.fin_add]
      show Val.round 4 (Val.div _ (.fin 2)) = _
      rw [Val.fin_div _ _ (by norm_num)]; rfl

/-- The hypotheses of `C57_directional` on the sample. -/
example : (∃ o, BuiltOn demoEnv (.directionalMovementIndex) (sample 29) true o AnyPrices ∧ o.ind = .directionalMovementIndex ∧
    o.getTiData.day "adx" 28 = .fin (828883 / 10000)) ∧
    (∀ j ≤ 28, 14 ≤ j → total14 (trueRange (sample 29)) j ≠ 0 ∧ plusLine (sample 29) j + minusLine (sample 29) j ≠ 0) :=
  ⟨sample_any 29 "adx" 28 _ (by decide +kernel) (by decide), by decide +kernel⟩

end TTI.Props
