import Verif.Props.Sample
import Verif.Lemmas.Col6

set_option autoImplicit false

/-!
# Relative strength, momentum and volatility: C60
-/

namespace TTI.Props

open Spec

variable {E : Env} {c : Call} {f : RawFrame} {fill : Bool} {o : Obj}

/-- C60: the relative strength index is the averaged rise in percent of averaged rise and averaged fall; without any movement it
is missing. -/
theorem C60_relative_strength (hB : BuiltOn E c f fill o AnyPrices) (n : ℕ) (ho : o.ind = .relativeStrengthIndex n) (i : ℕ)
    (hi : i < f.idx.length) :
    o.getTiData.day "rsi" i = since n i (round4 (quotient (100 * risePart f n i) (risePart f n i + fallPart f n i))) := by
  obtain ⟨F, hl, hn, -, ht, hp, -⟩ := hB.on ho
  have hcl : Nums F.len 0 (close f) (F.col "close") := hn _ (by simp [Ind.required])
  replace hp : 1 ≤ n := hp
  rw [guard_ok ht]
  have h1 := hcl.upward.smooth n hp
  have h2 := hcl.downward.smooth n hp
  refine (((h1.quot h2).mapV (fun x => Val.sub 100 (Val.div 100 (Val.add x 1))) rfl).round 4).eq (hl ▸ hi) (by omega) fun _ => ?_
  have ha : 0 ≤ risePart f n i := roundedAverage_nonneg n hp (fun j => roundQ_nonneg 4 (le_max_right _ _)) i
  have hb : 0 ≤ fallPart f n i := roundedAverage_nonneg n hp (fun j => roundQ_nonneg 4 (le_max_right _ _)) i
  exact congrArg _ (strength_quotient ha hb)

/-- The hypotheses of `C60_relative_strength` on the sample. -/
example : ∃ o, BuiltOn demoEnv (.relativeStrengthIndex (.int 3)) (sample 8) true o AnyPrices ∧ o.ind = .relativeStrengthIndex 3 ∧
    o.getTiData.day "rsi" 6 = .fin (664467 / 10000) :=
  sample_any 8 "rsi" 6 _ (by decide +kernel) (by decide)

/-- C60: the relative momentum index is the averaged rise over `m` days in percent of averaged rise and averaged fall; when
nothing fell it is missing, even if prices rose. -/
theorem C60_relative_momentum (hB : BuiltOn E c f fill o AnyPrices) (n m : ℕ) (ho : o.ind = .relativeMomentumIndex n m) (i : ℕ)
    (hi : i < f.idx.length) :
    o.getTiData.day "rmi" i = since (n + m - 1) i
      (if wilderAverage n m (lossOver m (close f)) i = 0 then .nan
       else to4 (100 * wilderAverage n m (gainOver m (close f)) i /
        (wilderAverage n m (gainOver m (close f)) i + wilderAverage n m (lossOver m (close f)) i))) := by
  obtain ⟨F, hl, hn, -, ht, hp, -⟩ := hB.on ho
  have hcl : Nums F.len 0 (close f) (F.col "close") := hn _ (by simp [Ind.required])
  obtain ⟨hp, hq⟩ : 1 ≤ n ∧ 1 ≤ m := hp
  rw [guard_ok ht]
  have h1 := (hcl.gainOver m).wilder m n (le_refl _) hp
  have h2 := (hcl.lossOver m).wilder m n (le_refl _) hp
  have h3 := h1.quot h2
  refine (((h3.scale 100).op (h3.mapV (fun x => Val.add 1 x) rfl) Val.div Val.nan_div Val.div_nan).round 4).eq (hl ▸ hi) (by omega)
    fun _ => ?_
  have ha : 0 ≤ wilderAverage n m (gainOver m (close f)) i := wilderAverage_nonneg n m hp (fun _ => le_max_right _ _) i
  have hb : 0 ≤ wilderAverage n m (lossOver m (close f)) i := wilderAverage_nonneg n m hp (fun _ => le_max_right _ _) i
  rw [momentum_quotient ha hb]
  split <;> rfl

/-- The hypotheses of `C60_relative_momentum` on the sample. -/
example : ∃ o, BuiltOn demoEnv (.relativeMomentumIndex (.int 3) (.int 2)) (sample 8) true o AnyPrices ∧ o.ind = .relativeMomentumIndex 3 2 ∧
    o.getTiData.day "rmi" 6 = .fin (35473 / 625) :=
  sample_any 8 "rmi" 6 _ (by decide +kernel) (by decide)

/-- C60: the relative volatility index is the mean, over high and low, of the share of rising days in the averaged deviation; it
is missing when one of the two did not move. -/
theorem C60_relative_volatility (hB : BuiltOn E c f fill o AnyPrices) (hE : SoundEnv E) (n : ℕ)
    (ho : o.ind = .relativeVolatilityIndex n) (i : ℕ) (hi : i < f.idx.length) :
    o.getTiData.day "rvi" i = since (n + 8) i
      (if averagedDeviation E.sq n (high f) i = 0 ∨ averagedDeviation E.sq n (low f) i = 0 then .nan
       else to4 ((risingShare E.sq n (high f) i + risingShare E.sq n (low f) i) / 2)) := by
  obtain ⟨F, hl, hn, -, ht, hp, -⟩ := hB.on ho
  have hh : Nums F.len 0 (high f) (F.col "high") := hn _ (by simp [Ind.required])
  have hlo : Nums F.len 0 (low f) (F.col "low") := hn _ (by simp [Ind.required])
  replace hp : 1 ≤ n := hp
  rw [guard_ok ht]
  refine ((((hh.half E.sq n hp).add (hlo.half E.sq n hp)).mapV (fun x => Val.div x 2) rfl).round 4).eq (hl ▸ hi) (by omega)
    fun _ => ?_
  simp only [shareVal_eq hE.sq n hp]
  by_cases h1 : averagedDeviation E.sq n (high f) i = 0
  · rw [if_pos h1, if_pos (Or.inl h1)]; rfl
  · by_cases h2 : averagedDeviation E.sq n (low f) i = 0
    · rw [if_pos h2, if_pos (Or.inr h2), if_neg h1]; rfl
    · rw [if_neg h1, if_neg h2, if_neg (by tauto)]
      show Val.round 4 (Val.div _ (.fin 2)) = _
      rw [Val.fin_add, Val.fin_div _ _ (by norm_num)]; rfl

/-- The hypotheses of `C60_relative_volatility` on the sample. -/
example : (∃ o, BuiltOn demoEnv (.relativeVolatilityIndex (.int 3)) (sample 14) true o AnyPrices ∧ o.ind = .relativeVolatilityIndex 3 ∧
    o.getTiData.day "rvi" 12 = .fin (406579 / 10000)) ∧
    (SoundEnv demoEnv) :=
  ⟨sample_any 14 "rvi" 12 _ (by decide +kernel) (by decide), demoEnv_sound⟩

end TTI.Props
