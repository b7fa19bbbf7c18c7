import Verif.Props.FormulaBands
import Verif.Props.FormulaOscillators
import Verif.Props.FormulaRange2
import Verif.Lemmas.Col5

set_option autoImplicit false

/-!
# Formulas with a zero divisor or an infinite parameter: the remaining cases of C54, C55 and C58
-/

namespace TTI.Props

open Spec

variable {E : Env} {c : Call} {f : RawFrame} {fill : Bool} {o : Obj}

/-- `n` days without any movement. -/
def still (n : ℕ) : RawFrame :=
  ⟨true, (List.range n).map fun j => (j : ℤ), ["high", "low", "close"].map fun m => ⟨.str m, true, List.replicate n (.fin 7)⟩⟩

theorem still_built {E : Env} {c : Call} {ind : Ind} (n : ℕ) (name : String) (i : ℕ) (v : Val)
    (h : ((construct E c (.frame (still n)) (.bool true)).2.map fun o => (o.ind, o.getTiData.day name i)) = .ok (ind, v))
    (hn : ∀ m ∈ ind.required, m ∈ ["high", "low", "close"]) :
    ∃ o, BuiltOn E c (still n) true o AnyPrices ∧ o.ind = ind ∧ o.getTiData.day name i = v := by
  cases hc : (construct E c (.frame (still n)) (.bool true)).2 with
  | error e => rw [hc] at h; simp [Except.map] at h
  | ok o =>
    rw [hc] at h
    simp only [Except.map, Except.ok.injEq, Prod.mk.injEq] at h
    refine ⟨o, ⟨?_, hc, ?_⟩, h.1, h.2⟩
    · intro c hc
      simp only [still, List.map_cons, List.map_nil, List.mem_cons, List.not_mem_nil, or_false] at hc
      rcases hc with rfl | rfl | rfl <;> simp [still]
    · intro j hj
      have hj' : j < n := by simpa [still] using hj
      refine ⟨fun _ => 7, ?_, trivial⟩
      intro m hm
      have := hn m (h.1 ▸ hm)
      simp only [List.mem_cons, List.not_mem_nil, or_false] at this
      have e1 : "high".toLower = "high" := by decide +kernel
      have e2 : "low".toLower = "low" := by decide +kernel
      have e3 : "close".toLower = "close" := by decide +kernel
      rcases this with rfl | rfl | rfl <;>
        simp [RawFrame.cell, still, Label.lower, e1, e2, e3, List.find?, hj']

theorem quotient_zero_ne (a q : ℚ) : Val.round 4 (quotient a 0) ≠ .fin q := by
  simp only [quotient, ne_eq, not_true, if_false]
  split_ifs <;> simp [Val.round]

/-- C55: if the range of a day in its window has height zero, %D has no value, with either method. -/
theorem C55_stochastic_d_flat (hB : BuiltOn E c f fill o AnyPrices) (k s d : ℕ) (simple : Bool)
    (ho : o.ind = .stochasticOscillator k s d simple) (i : ℕ) (hi : i < f.idx.length) (j : ℕ) (hj : j ≤ i) (hd : i < j + d)
    (h0 : sumLast s (rangeHeight f k) j = 0) : o.getTiData.day "%D" i = .nan := by
  obtain ⟨F, hl, hn, -, ht, hp, -⟩ := hB.on ho
  have hcl : Nums F.len 0 (close f) (F.col "close") := hn _ (by simp [Ind.required])
  have hh : Nums F.len 0 (high f) (F.col "high") := hn _ (by simp [Ind.required])
  have hlo : Nums F.len 0 (low f) (F.col "low") := hn _ (by simp [Ind.required])
  obtain ⟨hk, hs, hd1⟩ : 1 ≤ k ∧ (s = 1 ∨ s = 3) ∧ 1 ≤ d := hp
  rw [guard_ok ht]
  have h1 := hlo.rollMin k hk
  have h2 := (hcl.sub h1).rollSum s (by omega)
  have h3 := ((hh.rollMax k hk).sub h1).rollSum s (by omega)
  have h4 := (((h2.scale 100).quot h3).round 4).congr (k' := k + s - 2) (by omega) fun _ _ _ => rfl
  have h5 : ∀ agg, TTI.val (rolling d d agg _) i = .nan := fun agg => h4.rollMissing d agg (hl ▸ hi) hj hd fun _ q => by
    show Val.round 4 (quotient _ (sumLast s (rangeHeight f k) j)) ≠ _
    rw [h0]; exact quotient_zero_ne _ _
  cases simple <;> exact (val_roundS _ _ _).trans (congrArg round4 (h5 _))

/-- The hypotheses of `C55_stochastic_d_flat`. -/
example : (∃ o, BuiltOn demoEnv (.stochasticOscillator (.int 3) (.int 3) (.int 2) (.str "simple")) (still 7) true o AnyPrices ∧
    o.ind = .stochasticOscillator 3 3 2 true ∧ o.getTiData.day "%D" 6 = .nan) ∧ sumLast 3 (rangeHeight (still 7) 3) 6 = 0 :=
  ⟨still_built 7 "%D" 6 _ (by decide +kernel) (by decide), by decide +kernel⟩

/-- C58: if the twice averaged range of a day in its window is zero, the mass index has no value. -/
theorem C58_mass_index_flat (hB : BuiltOn E c f fill o AnyPrices) (ho : o.ind = .massIndex) (i : ℕ) (hi : i < f.idx.length)
    (j : ℕ) (hj : j ≤ i) (hd : i < j + 25) (h0 : rangeAverage2 f j = 0) : o.getTiData.day "mi" i = .nan := by
  obtain ⟨F, hl, hn, -, ht, hp, -⟩ := hB.on ho
  have hh : Nums F.len 0 (high f) (F.col "high") := hn _ (by simp [Ind.required])
  have hlo : Nums F.len 0 (low f) (F.col "low") := hn _ (by simp [Ind.required])
  rw [guard_ok ht]
  have h1 : Nums F.len 8 (rangeAverage f) _ := (hh.sub hlo).ewm 9 9 (by norm_num)
  have h2 : Nums F.len 16 (rangeAverage2 f) _ := h1.ewm 9 9 (by norm_num)
  have h3 := (h1.quot h2).rollMissing 25 aggSum (hl ▸ hi) hj hd fun _ q => by
    simp only [h0, quotient, ne_eq, not_true, if_false]
    split_ifs <;> simp
  show val (roundS 4 _) i = _
  rw [val_roundS, h3]; rfl

/-- The hypotheses of `C58_mass_index_flat`. -/
example : (∃ o, BuiltOn demoEnv .massIndex (still 42) true o AnyPrices ∧ o.ind = .massIndex ∧
    o.getTiData.day "mi" 41 = .nan) ∧ rangeAverage2 (still 42) 41 = 0 :=
  ⟨still_built 42 "mi" 41 _ (by decide +kernel) (by decide), by decide +kernel⟩

/-- C58: the ultimate oscillator in all cases: the three ratios are float quotients (0/0 is missing, otherwise a division by
zero is infinite) and are weighed and added as floats. -/
theorem C58_ultimate_any (hB : BuiltOn E c f fill o AnyPrices) (ho : o.ind = .ultimateOscillator) (i : ℕ)
    (hi : i < f.idx.length) :
    let ratio := fun w => quotient (sumLast w (pressure f) i) (sumLast w (span f) i)
    o.getTiData.day "uosc" i = since 28 i (round4 (Val.div (Val.mul (.fin 100)
      (Val.add (Val.add (Val.mul (.fin 4) (ratio 7)) (Val.mul (.fin 2) (ratio 14))) (ratio 28))) (.fin 7))) := by
  obtain ⟨F, hl, hn, -, ht, hp, -⟩ := hB.on ho
  have hcl : Nums F.len 0 (close f) (F.col "close") := hn _ (by simp [Ind.required])
  have hh : Nums F.len 0 (high f) (F.col "high") := hn _ (by simp [Ind.required])
  have hlo : Nums F.len 0 (low f) (F.col "low") := hn _ (by simp [Ind.required])
  rw [guard_ok ht]
  have hth : Nums F.len 1 (trueHigh f) (zipV maxNan (F.col "high") (shift 1 (F.col "close"))) :=
    hh.op (hcl.shift 1) maxNan max (by simp [maxNan, Val.isNan]) (by intro x; cases x <;> rfl) maxNan_fin
  have htl : Nums F.len 1 (trueLow f) (zipV minNan (F.col "low") (shift 1 (F.col "close"))) :=
    hlo.op (hcl.shift 1) minNan min (by simp [minNan, Val.isNan]) (by intro x; cases x <;> rfl) minNan_fin
  have hr := hth.sub htl
  have hu := hcl.sub htl
  have hq (w : ℕ) (hw : 1 ≤ w) : Col F.len w (fun i => quotient (sumLast w (pressure f) i) (sumLast w (span f) i))
      (Ind.UltimateOscillator.ratio w (subS (F.col "close") (zipV minNan (F.col "low") (shift 1 (F.col "close"))))
        (subS (zipV maxNan (F.col "high") (shift 1 (F.col "close"))) (zipV minNan (F.col "low") (shift 1 (F.col "close"))))) :=
    ((hu.rollSum w hw).quot (hr.rollSum w hw)).congr (by omega) fun _ _ _ => rfl
  exact (((((((hq 7 (by norm_num)).scale 4).add ((hq 14 (by norm_num)).scale 2)).add (hq 28 (by norm_num))).scale 100).mapV
    (fun x => Val.div x 7) rfl).round 4).eq (hl ▸ hi) rfl fun _ => rfl

/-- C58: when nothing moved for seven days (no span and no pressure) the ultimate oscillator has no value. -/
theorem C58_ultimate_still (hB : BuiltOn E c f fill o AnyPrices) (ho : o.ind = .ultimateOscillator) (i : ℕ)
    (hi : i < f.idx.length) (w : ℕ) (hw : w ∈ [7, 14, 28]) (h0 : sumLast w (span f) i = 0)
    (h1 : sumLast w (pressure f) i = 0) : o.getTiData.day "uosc" i = .nan := by
  have hq : quotient (sumLast w (pressure f) i) (sumLast w (span f) i) = .nan := by simp [quotient, h0, h1]
  have hr : ∀ x : Val, Val.add x .nan = .nan := by intro x; cases x <;> rfl
  have hl : ∀ x : Val, Val.add .nan x = .nan := by intro x; cases x <;> rfl
  have hm : ∀ q : ℚ, Val.mul (.fin q) .nan = .nan := fun _ => rfl
  rw [C58_ultimate_any hB ho i hi]
  simp only [List.mem_cons, List.not_mem_nil, or_false] at hw
  rcases hw with rfl | rfl | rfl <;> simp only [hq, hm, hr, hl] <;> simp [since, Val.div, Val.round]

/-- The hypotheses of `C58_ultimate_still` (and of `C58_ultimate_any`). -/
example : (∃ o, BuiltOn demoEnv .ultimateOscillator (still 30) true o AnyPrices ∧ o.ind = .ultimateOscillator ∧
    o.getTiData.day "uosc" 29 = .nan) ∧ sumLast 7 (span (still 30)) 29 = 0 ∧ sumLast 7 (pressure (still 30)) 29 = 0 :=
  ⟨still_built 30 "uosc" 29 _ (by decide +kernel) (by decide), by decide +kernel, by decide +kernel⟩

/-- C54: with an infinite `std_number` the middle band is as always; the outer bands are infinite on days with a positive
deviation and missing on days with deviation zero. -/
theorem C54_bollinger_infinite (hB : BuiltOn E c f fill o AnyPrices) (n : ℕ) (ho : o.ind = .bollingerBands n .pinf) (i : ℕ)
    (hi : i < f.idx.length) :
    o.getTiData.day "middle_band" i = since (n - 1) i (to4 (meanLast n (close f) i)) ∧
    (0 < E.sq (varianceLast n (close f) i) → o.getTiData.day "upper_band" i = since (n - 1) i .pinf ∧
      o.getTiData.day "lower_band" i = since (n - 1) i .ninf) ∧
    (E.sq (varianceLast n (close f) i) = 0 → o.getTiData.day "upper_band" i = .nan ∧
      o.getTiData.day "lower_band" i = .nan) := by
  obtain ⟨F, hl, hn, -, ht, hp, -⟩ := hB.on ho
  have hcl : Nums F.len 0 (close f) (F.col "close") := hn _ (by simp [Ind.required])
  obtain ⟨hp, -⟩ : 1 ≤ n ∧ _ := hp
  rw [guard_ok ht]
  have hpos {q : ℚ} (h : 0 < q) : Val.mul (.fin q) .pinf = .pinf := by
    show Val.infMul true q = _
    simp [Val.infMul, h, h.ne']
  have h1 := ((hcl.rollMean n hp).round 4).col
  have h2 := (hcl.rollStd n hp E.sq).col.mapV (fun x => Val.mul x .pinf) rfl
  have hup := (h1.op h2 Val.add (by intro x; cases x <;> rfl) (by intro x; cases x <;> rfl)).round 4
  have hdn := (h1.op h2 Val.sub (by intro x; cases x <;> rfl) (by intro x; cases x <;> rfl)).round 4
  refine ⟨(hcl.rollMean n hp).eq4 (hl ▸ hi) (by omega) fun _ => rfl, fun hs => ⟨?_, ?_⟩, fun hs => ⟨?_, ?_⟩⟩
  · refine hup.eq (hl ▸ hi) (by omega) fun _ => ?_
    simp only [hpos hs]; rfl
  · refine hdn.eq (hl ▸ hi) (by omega) fun _ => ?_
    simp only [hpos hs]; rfl
  · refine (hup.eq (v' := .nan) (hl ▸ hi) rfl fun _ => ?_).trans (ite_self _)
    simp only [hs]; rfl
  · refine (hdn.eq (v' := .nan) (hl ▸ hi) rfl fun _ => ?_).trans (ite_self _)
    simp only [hs]; rfl

/-- The hypotheses of `C54_bollinger_infinite`; the sample environment has a positive root. -/
example : ∃ o, BuiltOn demoEnv (.bollingerBands (.int 3) (.float .pinf)) (sample 6) true o AnyPrices ∧
    o.ind = .bollingerBands 3 .pinf ∧ o.getTiData.day "upper_band" 4 = .pinf :=
  sample_any 6 "upper_band" 4 _ (by decide +kernel) (by decide)

end TTI.Props
