import Verif.Lemmas.Unlimited6

set_option autoImplicit false

/-!
# Which columns look at the whole past: C68

`NeverForgets`, `Averages` and `Target` are in Spec/Unlimited, the table `memory` is in Spec/Memory.
-/

namespace TTI.Props

open Spec Past

/-- C68: every column without a limited memory in the table can depend on data as old as one likes: for every number of days
there are tables that agree on that many latest days and differ in the value of the last day. -/
theorem C68_unlimited (E : Env) (hE : SoundEnv E) (hsq : ∀ q, 0 < q → 0 < E.sq q) (c : Call) (ind : Ind) (hc : c.check = .ok ind)
    (column : String) (hcol : column ∈ columns ind) (hm : memory ind column = none) (ht : ¬ Target column) (ha : Averages ind) :
    NeverForgets E c column := by
  have hpos := check_pos c ind hc
  cases ind with
  | movingAverage p t =>
    cases t <;> simp only [memory, reduceCtorEq] at hm <;> simp only [columns, List.mem_singleton] at hcol <;> subst hcol
    · exact never_ema E c p hc ha
    · exact never_variable E c p hc ha
  | performance long target =>
    cases long <;> simp only [columns, List.mem_cons, List.not_mem_nil, or_false] at hcol <;> rcases hcol with rfl | rfl
    · exact never_performance E c _ _ hc
    · exact absurd (Or.inr rfl) ht
    · exact never_performance E c _ _ hc
    · exact absurd (Or.inl rfl) ht
  | accumulationDistributionLine => simp only [columns, List.mem_singleton] at hcol; subst hcol; exact never_adl E c hc
  | averageTrueRange => simp only [columns, List.mem_singleton] at hcol; subst hcol; exact never_atr E c hc
  | chaikinOscillator => simp only [columns, List.mem_singleton] at hcol; subst hcol; exact never_chaikin E c hc
  | directionalMovementIndex => exact never_dmi E c hc column hcol
  | doubleExponentialMovingAverage p =>
    simp only [columns, List.mem_singleton] at hcol; subst hcol; exact never_dema E c p hc ha
  | fibonacciRetracement => exact never_fibonacci E c hc column hcol
  | klingerOscillator => simp only [columns, List.mem_singleton] at hcol; subst hcol; exact never_klinger E c hc
  | massIndex => simp only [columns, List.mem_singleton] at hcol; subst hcol; exact never_massIndex E c hc
  | movingAverageConvergenceDivergence =>
    simp only [columns, List.mem_cons, List.not_mem_nil, or_false] at hcol
    rcases hcol with rfl | rfl
    · exact (never_macd E c hc).1
    · exact (never_macd E c hc).2
  | negativeVolumeIndex => simp only [columns, List.mem_singleton] at hcol; subst hcol; exact never_nvi E c hc
  | onBalanceVolume => simp only [columns, List.mem_singleton] at hcol; subst hcol; exact never_obv E c hc
  | parabolicSAR => simp only [columns, List.mem_singleton] at hcol; subst hcol; exact never_sar E c hc
  | positiveVolumeIndex => simp only [columns, List.mem_singleton] at hcol; subst hcol; exact never_pvi E c hc
  | priceAndVolumeTrend => simp only [columns, List.mem_singleton] at hcol; subst hcol; exact never_pvt E c hc
  | projectionOscillator p =>
    simp only [columns, List.mem_cons, List.not_mem_nil, or_false] at hcol
    rcases hcol with rfl | rfl
    · simp [memory] at hm
    · exact never_trigger E c p hc hpos
  | rangeIndicator p s =>
    simp only [columns, List.mem_singleton] at hcol; subst hcol; exact never_range E c p s hc ha.1 ha.2.1 ha.2.2
  | relativeMomentumIndex p m =>
    simp only [columns, List.mem_singleton] at hcol; subst hcol; exact never_rmi E c p m hc ha hpos.2
  | relativeStrengthIndex p => simp only [columns, List.mem_singleton] at hcol; subst hcol; exact never_rsi E c p hc ha
  | relativeVolatilityIndex p =>
    simp only [columns, List.mem_singleton] at hcol; subst hcol; exact never_rvi E c hE hsq p hc ha
  | stochasticMomentumIndex n s d =>
    simp only [columns, List.mem_singleton] at hcol; subst hcol
    exact never_smi E c n s d hc hpos.1 hpos.2.1 hpos.2.2 ha
  | tripleExponentialMovingAverage p =>
    simp only [columns, List.mem_singleton] at hcol; subst hcol; exact never_tema E c p hc ha
  | volatilityChaikins p m =>
    simp only [columns, List.mem_singleton] at hcol; subst hcol; exact never_volatility E c p m hc ha
  | wildersSmoothing p => simp only [columns, List.mem_singleton] at hcol; subst hcol; exact never_wilder E c p hc ha
  | _ => exact absurd hm (by simp [memory])

/-- Without gaps the first remaining row is known. -/
theorem known_since {E : Env} {c : Call} {f : RawFrame} {fill : Bool} {o : Obj} (hB : BuiltOn E c f fill o AnyPrices) (d : ℤ) :
    StartsKnown (f.since d) o.ind.required := by
  obtain ⟨ind, F, T, hc, hv, ht, rfl⟩ := (construct_ok_iff _ _ _ _ _).1 hB.ok
  obtain ⟨hvalid, -⟩ := valid_of_ok _ _ _ _ hv
  have hrows := hB.rows
  intro a ha hn r hr
  simp only [RawFrame.since, List.mem_map] at ha
  obtain ⟨b, hb, rfl⟩ := ha
  have hbn : b.name ∈ ind.required := hn
  have hmem := List.mem_of_head? hr
  rw [(sortRows_perm _).mem_iff] at hmem
  have h2 : r.2 ∈ keepSince d f.idx b.data := (List.of_mem_zip hmem).2
  simp only [keepSince, List.mem_map, List.mem_filter] at h2
  obtain ⟨q, ⟨hq, -⟩, hqr⟩ := h2
  have hqd : q.2 ∈ b.data := (List.of_mem_zip hq).2
  obtain ⟨j, hj, hjq⟩ := List.getElem_of_mem hqd
  obtain ⟨x, hx, -⟩ := hrows j (by rw [← hB.wf b hb]; exact hj)
  have hcell := hx b.name hbn
  obtain ⟨b', hone, -⟩ := hvalid.needed b.name hbn
  have hfind : f.cols.find? (fun c => c.name == b.name) = some b := by
    have hb' : b ∈ f.cols.filter fun c => c.name == b.name := by simp [hb]
    rw [hone, List.mem_singleton] at hb'
    subst hb'
    rw [← List.head?_filter, hone]
    rfl
  unfold RawFrame.cell at hcell
  rw [find_name _ _ hvalid.labels, hfind] at hcell
  simp only [List.getD_eq_getElem?_getD, List.getElem?_eq_getElem hj, Option.getD_some, hjq] at hcell
  rw [← hqr, hcell]
  simp

/-- C68: and a column with a limited memory cannot. -/
theorem C68_limited (E : Env) (c : Call) (ind : Ind) (hc : c.check = .ok ind) (column : String) (M : ℕ)
    (hm : memory ind column = some M) : ¬ NeverForgets E c column := by
  intro h
  obtain ⟨f, g, o, p, n, d, ho, hp, hf, hg, hs, hk, hne⟩ := h (max M (minRows ind) + 1)
  have hoi : o.ind = ind := by
    have := (construct_sound E c f true o ho.wf ho.ok).2.1
    rw [hc] at this
    exact (Except.ok.inj this).symm
  have hlen : (g.since d).idx.length = (f.since d).idx.length := by rw [hs]
  have hl1 := since_length d f
  have hl2 := since_length d g
  have hb1 := rowsBefore_le d f.idx
  have hb2 := rowsBefore_le d g.idx
  have h0 : ∃ e ∈ f.idx, d ≤ e := by
    have : (f.since d).idx ≠ [] := by
      intro h
      rw [h] at hk
      simp at hk
    obtain ⟨e, he⟩ := List.exists_mem_of_ne_nil _ this
    simp only [RawFrame.since, List.mem_filter, decide_eq_true_eq] at he
    exact ⟨e, he⟩
  have key := C68_old_data_irrelevant E c f g true d o p ho.wf hp.wf ho.ok hp.ok hs h0 (by rw [hoi]; omega)
    (fun _ => known_since ho d) column M (by rw [hoi]; exact hm) ((f.since d).idx.length - 1) (by omega)
  rw [show (f.since d).idx.length - 1 + rowsBefore d f.idx = n by omega,
    show (f.since d).idx.length - 1 + rowsBefore d g.idx = n by omega] at key
  exact hne key

/-- C68: the table is exact: the columns without a limited memory in it are the ones that can depend on data of any age. -/
theorem C68_exact (E : Env) (hE : SoundEnv E) (hsq : ∀ q, 0 < q → 0 < E.sq q) (c : Call) (ind : Ind) (hc : c.check = .ok ind)
    (column : String) (hcol : column ∈ columns ind) (ht : ¬ Target column) (ha : Averages ind) :
    NeverForgets E c column ↔ memory ind column = none := by
  refine ⟨fun h => ?_, fun h => C68_unlimited E hE hsq c ind hc column hcol h ht ha⟩
  cases hm : memory ind column with
  | none => rfl
  | some M => exact absurd h (C68_limited E c ind hc column M hm)

/-- The hypotheses of `C68_unlimited` and `C68_limited` hold for an ordinary average and for an exponential one. -/
example : (Call.movingAverage (.int 5) (.str "exponential")).check = .ok (.movingAverage 5 .exponential) ∧
    "ma-exponential" ∈ columns (.movingAverage 5 .exponential) ∧ memory (.movingAverage 5 .exponential) "ma-exponential" = none ∧
    ¬ Target "ma-exponential" ∧ Averages (.movingAverage 5 .exponential) ∧
    (Call.movingAverage (.int 5) (.str "simple")).check = .ok (.movingAverage 5 .simple) ∧
    memory (.movingAverage 5 .simple) "ma-simple" = some 5 ∧
    (Call.rangeIndicator (.int 10) (.int 3)).check = .ok (.rangeIndicator 10 3) ∧ Averages (.rangeIndicator 10 3) := by
  refine ⟨by decide +kernel, by simp [columns], rfl, by unfold Target; decide, by simp [Averages], by decide +kernel, rfl, by decide +kernel,
    by simp [Averages]⟩

/-- The hypotheses about the square root: the root that is 1 everywhere but at 0. -/
example : ∃ E : Env, SoundEnv E ∧ ∀ q, 0 < q → 0 < E.sq q := by
  refine ⟨⟨fun q => if q = 0 then 0 else 1, fun _ => []⟩, ⟨fun q _ => ?_, by simp⟩, fun q hq => ?_⟩
  · show (0 : ℚ) ≤ if q = 0 then 0 else 1
    split <;> norm_num
  · show (0 : ℚ) < if q = 0 then 0 else 1
    rw [if_neg hq.ne']; norm_num

end TTI.Props
