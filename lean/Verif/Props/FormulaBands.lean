import Verif.Props.Sample
import Verif.Props.Constant

set_option autoImplicit false

/-!
# Bands and deviations: C54
-/

namespace TTI.Props

open Spec

variable {E : Env} {c : Call} {f : RawFrame} {fill : Bool} {o : Obj}

/-- C54: standard deviation is the square root of the population variance of the last `n` closes. -/
theorem C54_standard_deviation (hB : BuiltOn E c f fill o AnyPrices) (n : ℕ) (ho : o.ind = .standardDeviation n) (i : ℕ)
    (hi : i < f.idx.length) :
    o.getTiData.day "sd" i = since (n - 1) i (to4 (E.sq (varianceLast n (close f) i))) := by
  obtain ⟨F, hl, hn, -, ht, hp, -⟩ := hB.on ho
  have hcl : Nums F.len 0 (close f) (F.col "close") := hn _ (by simp [Ind.required])
  replace hp : 1 ≤ n := hp
  rw [guard_ok ht]
  exact (hcl.rollStd n hp E.sq).eq4 (hl ▸ hi) (by omega) fun _ => rfl

/-- The hypotheses of `C54_standard_deviation` on the sample. -/
example : ∃ o, BuiltOn demoEnv (.standardDeviation (.int 3)) (sample 6) true o AnyPrices ∧ o.ind = .standardDeviation 3 ∧
    o.getTiData.day "sd" 4 = .fin (41111 / 5000) :=
  sample_any 6 "sd" 4 _ (by decide +kernel) (by decide)

/-- C54: Bollinger bands: the mean of the last `n` closes (rounded), and that mean plus and minus `s` standard deviations. -/
theorem C54_bollinger (hB : BuiltOn E c f fill o AnyPrices) (n : ℕ) (s : ℚ) (ho : o.ind = .bollingerBands n (.fin s)) (i : ℕ)
    (hi : i < f.idx.length) :
    o.getTiData.day "middle_band" i = since (n - 1) i (to4 (meanLast n (close f) i)) ∧
    o.getTiData.day "upper_band" i =
      since (n - 1) i (to4 (roundQ 4 (meanLast n (close f) i) + s * E.sq (varianceLast n (close f) i))) ∧
    o.getTiData.day "lower_band" i =
      since (n - 1) i (to4 (roundQ 4 (meanLast n (close f) i) - s * E.sq (varianceLast n (close f) i))) := by
  obtain ⟨F, hl, hn, -, ht, hp, -⟩ := hB.on ho
  have hcl : Nums F.len 0 (close f) (F.col "close") := hn _ (by simp [Ind.required])
  obtain ⟨hp, -⟩ : 1 ≤ n ∧ _ := hp
  rw [guard_ok ht]
  have h1 := (hcl.rollMean n hp).round 4
  have h2 : Nums F.len (0 + n - 1) (fun i => s * E.sq (varianceLast n (close f) i)) _ :=
    (hcl.rollStd n hp E.sq).mapV (fun x => Val.mul x (.fin s)) (s * ·) rfl fun a => by rw [Val.fin_mul, mul_comm]
  exact ⟨(hcl.rollMean n hp).eq4 (hl ▸ hi) (by omega) fun _ => rfl, (h1.add h2).eq4 (hl ▸ hi) (by omega) fun _ => rfl,
    (h1.sub h2).eq4 (hl ▸ hi) (by omega) fun _ => rfl⟩

/-- The hypotheses of `C54_bollinger` on the sample. -/
example : ∃ o, BuiltOn demoEnv (.bollingerBands (.int 3) (.int 2)) (sample 6) true o AnyPrices ∧ o.ind = .bollingerBands 3 (.fin 2) ∧
    o.getTiData.day "upper_band" 4 = .fin (727777 / 10000) :=
  sample_any 6 "upper_band" 4 _ (by decide +kernel) (by decide)

/-- C54: envelopes are the mean of the last `n` closes raised and lowered by the fraction `s`. -/
theorem C54_envelopes (hB : BuiltOn E c f fill o AnyPrices) (n : ℕ) (s : ℚ) (ho : o.ind = .envelopes n s) (i : ℕ)
    (hi : i < f.idx.length) :
    o.getTiData.day "upper_band" i = since (n - 1) i (to4 ((1 + s) * meanLast n (close f) i)) ∧
    o.getTiData.day "lower_band" i = since (n - 1) i (to4 ((1 - s) * meanLast n (close f) i)) := by
  obtain ⟨F, hl, hn, -, ht, hp, -⟩ := hB.on ho
  have hcl : Nums F.len 0 (close f) (F.col "close") := hn _ (by simp [Ind.required])
  obtain ⟨hp, -⟩ : 1 ≤ n ∧ _ := hp
  rw [guard_ok ht]
  exact ⟨((hcl.rollMean n hp).scale _).eq4 (hl ▸ hi) (by omega) fun _ => rfl,
    ((hcl.rollMean n hp).scale _).eq4 (hl ▸ hi) (by omega) fun _ => rfl⟩

/-- The hypotheses of `C54_envelopes` on the sample. -/
example : ∃ o, BuiltOn demoEnv (.envelopes (.int 3) (.float (.fin (1 / 10)))) (sample 6) true o AnyPrices ∧ o.ind = .envelopes 3 (1 / 10) ∧
    o.getTiData.day "upper_band" 4 = .fin (619667 / 10000) :=
  sample_any 6 "upper_band" 4 _ (by decide +kernel) (by decide)

/-- C54: the price channel of a day is the highest high and the lowest low of the `n` days before it. -/
theorem C54_price_channel (hB : BuiltOn E c f fill o AnyPrices) (n : ℕ) (ho : o.ind = .priceChannel n) (i : ℕ)
    (hi : i < f.idx.length) :
    o.getTiData.day "highest_high" i = since n i (to4 (highest n (high f) (i - 1))) ∧
    o.getTiData.day "lowest_low" i = since n i (to4 (lowest n (low f) (i - 1))) := by
  obtain ⟨F, hl, hn, -, ht, hp, -⟩ := hB.on ho
  have hh : Nums F.len 0 (high f) (F.col "high") := hn _ (by simp [Ind.required])
  have hlo : Nums F.len 0 (low f) (F.col "low") := hn _ (by simp [Ind.required])
  replace hp : 1 ≤ n := hp
  rw [guard_ok ht]
  exact ⟨((hh.rollMax n hp).shift 1).eq4 (hl ▸ hi) (by omega) fun _ => rfl,
    ((hlo.rollMin n hp).shift 1).eq4 (hl ▸ hi) (by omega) fun _ => rfl⟩

/-- The hypotheses of `C54_price_channel` on the sample. -/
example : ∃ o, BuiltOn demoEnv (.priceChannel (.int 3)) (sample 6) true o AnyPrices ∧ o.ind = .priceChannel 3 ∧
    o.getTiData.day "highest_high" 4 = .fin 63 :=
  sample_any 6 "highest_high" 4 _ (by decide +kernel) (by decide)

/-- C54: the retracement levels of every day are taken between the highest and the lowest close of all days. -/
theorem C54_fibonacci (hB : BuiltOn E c f fill o AnyPrices) (ho : o.ind = .fibonacciRetracement) (i : ℕ) (hi : i < f.idx.length)
    (name : String) (level : ℚ)
    (hlev : (name, level) ∈ [("rl_0.0", (0 : ℚ)), ("rl_23.6", 236 / 1000), ("rl_38.2", 382 / 1000), ("rl_50.0", 1 / 2),
      ("rl_61.8", 618 / 1000), ("rl_100.0", 1)]) :
    o.getTiData.day name i = to4 (highest f.idx.length (close f) (f.idx.length - 1) -
      level * (highest f.idx.length (close f) (f.idx.length - 1) - lowest f.idx.length (close f) (f.idx.length - 1))) := by
  obtain ⟨F, hl, hn, -, ht, hp, -⟩ := hB.on ho
  have hcl : Nums F.len 0 (close f) (F.col "close") := hn _ (by simp [Ind.required])
  replace ht : Ind.FibonacciRetracement.calcTi F = .ok _ := ht
  unfold Ind.FibonacciRetracement.calcTi at ht
  simp only [Except.ok.injEq] at ht
  have h1 : maxOf (F.col "close") = .fin (highest f.idx.length (close f) (f.idx.length - 1)) := by
    obtain ⟨j, hj, e, h⟩ := Ind.maxOf_spec (F.col "close") (close f) (by rw [hcl.len]; omega)
      fun j hj => hcl.fin (by rw [hcl.len] at hj; exact hj) (by omega)
    rw [hcl.len] at hj h
    rw [e]
    congr 1
    obtain ⟨h4, t, ht, h5⟩ := Nums.highest_spec f.idx.length (by omega) (close f) (f.idx.length - 1)
    apply le_antisymm
    · have := h4 (f.idx.length - 1 - j) (by omega)
      rwa [show f.idx.length - 1 - (f.idx.length - 1 - j) = j by omega] at this
    · rw [h5]; exact h _ (by omega)
  have h2 : minOf (F.col "close") = .fin (lowest f.idx.length (close f) (f.idx.length - 1)) := by
    obtain ⟨j, hj, e, h⟩ := Ind.minOf_spec (F.col "close") (close f) (by rw [hcl.len]; omega)
      fun j hj => hcl.fin (by rw [hcl.len] at hj; exact hj) (by omega)
    rw [hcl.len] at hj h
    rw [e]
    congr 1
    obtain ⟨h4, t, ht, h5⟩ := Nums.lowest_spec f.idx.length (by omega) (close f) (f.idx.length - 1)
    apply le_antisymm
    · rw [h5]; exact h _ (by omega)
    · have := h4 (f.idx.length - 1 - j) (by omega)
      rwa [show f.idx.length - 1 - (f.idx.length - 1 - j) = j by omega] at this
  rw [h1, h2] at ht
  rw [← ht]
  have key : ∀ v : Val, (List.replicate F.len v).getD i .nan = v := fun v => by
    rw [List.getD_eq_getElem _ _ (by simp; omega)]; simp
  simp only [List.mem_cons, List.not_mem_nil, or_false, Prod.mk.injEq] at hlev
  rcases hlev with ⟨rfl, rfl⟩ | ⟨rfl, rfl⟩ | ⟨rfl, rfl⟩ | ⟨rfl, rfl⟩ | ⟨rfl, rfl⟩ | ⟨rfl, rfl⟩
  all_goals
    refine Eq.trans (key _) ?_
    simp only [Val.fin_sub, Val.fin_mul, Val.fin_round]
    rfl

/-- The hypotheses of `C54_fibonacci` on the sample. -/
example : ∃ o, BuiltOn demoEnv (.fibonacciRetracement) (sample 6) true o AnyPrices ∧ o.ind = .fibonacciRetracement ∧
    o.getTiData.day "rl_38.2" 4 = .fin (2809 / 50) :=
  sample_any 6 "rl_38.2" 4 _ (by decide +kernel) (by decide)

end TTI.Props
