import Verif.Lemmas.Volume
import Verif.Spec.Volume
import Verif.Props.Averages

set_option autoImplicit false

/-!
# Volume indicators in closed form: C43
-/

namespace TTI.Props

open Spec

/-- C43: the negative volume index is 1000 times the product of the relative closes of the days on which the volume fell,
rounded to 4 decimals. -/
theorem C43_negative_volume_index (E : Env) (c : Call) (f : RawFrame) (fill : Bool) (o : Obj) (hw : WF f)
    (h : (construct E c (.frame f) (.bool fill)).2 = .ok o) (hb : f.EachRow o.ind.required NonzeroClose)
    (ho : o.ind = .negativeVolumeIndex) (i : ℕ) (hi : i < f.idx.length) :
    o.getTiData.day "nvi" i = .fin (roundQ 4 (1000 * ∏ j ∈ volumeFell f i, close f j / close f (j - 1))) := by
  obtain ⟨F, x, hg, hlen, -, h1, h2, h3, h4, ht, -, hc⟩ := construct_days E c f fill o _ hw h hb
  rcases o with ⟨ind, input, T⟩
  simp only [Obj.getTiData] at *
  subst ho
  replace ht : Ind.NegativeVolumeIndex.calcTi F = .ok T := ht
  unfold Ind.NegativeVolumeIndex.calcTi at ht
  split at ht
  · simp at ht
  simp only [Except.ok.injEq] at ht
  subst ht
  show val (Frame.col _ "nvi") i = _
  rw [Frame.col_single, val_roundS, Ind.volumeIndex_val _ (fun a b => decide (b < a)) (fun a b => rfl) _ _ (x "close") (x "volume") F.len
    (h1 _ (by simp [Ind.required])) (h1 _ (by simp [Ind.required])) (h2 _ (by simp [Ind.required])) (h2 _ (by simp [Ind.required]))
    (fun i hi => h4 i hi) i (by omega)]
  simp only [Val.fin_round, Ind.followed, volumeFell, decide_eq_true_eq]
  congr 3
  have hcl : ∀ j < i + 1, close f j = x "close" j := fun j hj => by
    unfold close; rw [h3 _ (by simp [Ind.required]) j (by omega)]; rfl
  have hvo : ∀ j < i + 1, volume f j = x "volume" j := fun j hj => by
    unfold volume; rw [h3 _ (by simp [Ind.required]) j (by omega)]; rfl
  apply Finset.prod_congr
  · apply Finset.filter_congr
    intro j hj
    rw [Finset.mem_Ico] at hj
    rw [hvo j (by omega), hvo (j - 1) (by omega)]
  · intro j hj
    rw [Finset.mem_filter, Finset.mem_Ico] at hj
    rw [hcl j (by omega), hcl (j - 1) (by omega)]

/-- C43: the positive volume index is 1000 times the product of the relative closes of the days on which the volume rose,
rounded to 4 decimals. -/
theorem C43_positive_volume_index (E : Env) (c : Call) (f : RawFrame) (fill : Bool) (o : Obj) (hw : WF f)
    (h : (construct E c (.frame f) (.bool fill)).2 = .ok o) (hb : f.EachRow o.ind.required NonzeroClose)
    (ho : o.ind = .positiveVolumeIndex) (i : ℕ) (hi : i < f.idx.length) :
    o.getTiData.day "pvi" i = .fin (roundQ 4 (1000 * ∏ j ∈ volumeRose f i, close f j / close f (j - 1))) := by
  obtain ⟨F, x, hg, hlen, -, h1, h2, h3, h4, ht, -, hc⟩ := construct_days E c f fill o _ hw h hb
  rcases o with ⟨ind, input, T⟩
  simp only [Obj.getTiData] at *
  subst ho
  replace ht : Ind.PositiveVolumeIndex.calcTi F = .ok T := ht
  unfold Ind.PositiveVolumeIndex.calcTi at ht
  split at ht
  · simp at ht
  simp only [Except.ok.injEq] at ht
  subst ht
  show val (Frame.col _ "pvi") i = _
  rw [Frame.col_single, val_roundS, Ind.volumeIndex_val _ (fun a b => decide (a < b)) (fun a b => rfl) _ _ (x "close") (x "volume") F.len
    (h1 _ (by simp [Ind.required])) (h1 _ (by simp [Ind.required])) (h2 _ (by simp [Ind.required])) (h2 _ (by simp [Ind.required]))
    (fun i hi => h4 i hi) i (by omega)]
  simp only [Val.fin_round, Ind.followed, volumeRose, decide_eq_true_eq]
  congr 3
  have hcl : ∀ j < i + 1, close f j = x "close" j := fun j hj => by
    unfold close; rw [h3 _ (by simp [Ind.required]) j (by omega)]; rfl
  have hvo : ∀ j < i + 1, volume f j = x "volume" j := fun j hj => by
    unfold volume; rw [h3 _ (by simp [Ind.required]) j (by omega)]; rfl
  apply Finset.prod_congr
  · apply Finset.filter_congr
    intro j hj
    rw [Finset.mem_Ico] at hj
    rw [hvo j (by omega), hvo (j - 1) (by omega)]
  · intro j hj
    rw [Finset.mem_filter, Finset.mem_Ico] at hj
    rw [hcl j (by omega), hcl (j - 1) (by omega)]

/-- C43: on-balance volume is the volume of the days on which the close rose minus the volume of those on which it fell. -/
theorem C43_on_balance_volume (E : Env) (c : Call) (f : RawFrame) (fill : Bool) (o : Obj) (hw : WF f)
    (h : (construct E c (.frame f) (.bool fill)).2 = .ok o) (hb : f.EachRow o.ind.required AnyPrices)
    (ho : o.ind = .onBalanceVolume) (i : ℕ) (hi : i < f.idx.length) :
    o.getTiData.day "obv" i = .fin ((∑ j ∈ closeRose f i, volume f j) - ∑ j ∈ closeFell f i, volume f j) := by
  obtain ⟨F, x, hg, hlen, -, h1, h2, h3, h4, ht, -, hc⟩ := construct_days E c f fill o _ hw h hb
  rcases o with ⟨ind, input, T⟩
  simp only [Obj.getTiData] at *
  subst ho
  refine (Ind.OnBalanceVolume.exact F T (x "close") (x "volume") (h1 _ (by simp [Ind.required])) (h1 _ (by simp [Ind.required]))
    (h2 _ (by simp [Ind.required])) (h2 _ (by simp [Ind.required])) ht i (by omega)).trans ?_
  have hcl : ∀ j < i + 1, close f j = x "close" j := fun j hj => by
    unfold close; rw [h3 _ (by simp [Ind.required]) j (by omega)]; rfl
  have hvo : ∀ j < i + 1, volume f j = x "volume" j := fun j hj => by
    unfold volume; rw [h3 _ (by simp [Ind.required]) j (by omega)]; rfl
  unfold closeRose closeFell
  congr 2 <;> apply Finset.sum_congr
  · apply Finset.filter_congr
    intro j hj
    rw [Finset.mem_Ico] at hj
    rw [hcl j (by omega), hcl (j - 1) (by omega)]
  · intro j hj
    rw [Finset.mem_filter, Finset.mem_Ico] at hj
    rw [hvo j (by omega)]
  · apply Finset.filter_congr
    intro j hj
    rw [Finset.mem_Ico] at hj
    rw [hcl j (by omega), hcl (j - 1) (by omega)]
  · intro j hj
    rw [Finset.mem_filter, Finset.mem_Ico] at hj
    rw [hvo j (by omega)]

/-- C43: price and volume trend is the sum of volume times relative price change, rounded to 4 decimals. -/
theorem C43_price_and_volume_trend (E : Env) (c : Call) (f : RawFrame) (fill : Bool) (o : Obj) (hw : WF f)
    (h : (construct E c (.frame f) (.bool fill)).2 = .ok o) (hb : f.EachRow o.ind.required NonzeroClose)
    (ho : o.ind = .priceAndVolumeTrend) (i : ℕ) (hi : i < f.idx.length) :
    o.getTiData.day "pvt" i =
      .fin (roundQ 4 (∑ j ∈ Finset.Ico 1 (i + 1), volume f j * ((close f j - close f (j - 1)) / close f (j - 1)))) := by
  obtain ⟨F, x, hg, hlen, -, h1, h2, h3, h4, ht, -, hc⟩ := construct_days E c f fill o _ hw h hb
  rcases o with ⟨ind, input, T⟩
  simp only [Obj.getTiData] at *
  subst ho
  replace ht : Ind.PriceAndVolumeTrend.calcTi F = .ok T := ht
  unfold Ind.PriceAndVolumeTrend.calcTi at ht
  split at ht
  · simp at ht
  simp only [Except.ok.injEq] at ht
  subst ht
  show val (Frame.col _ "pvt") i = _
  rw [Frame.col_single, val_roundS, Ind.trend_val _ _ (x "close") (x "volume") F.len
    (h1 _ (by simp [Ind.required])) (h1 _ (by simp [Ind.required])) (h2 _ (by simp [Ind.required])) (h2 _ (by simp [Ind.required]))
    (fun i hi => h4 i hi) i (by omega)]
  simp only [Val.fin_round]
  congr 2
  have hcl : ∀ j < i + 1, close f j = x "close" j := fun j hj => by
    unfold close; rw [h3 _ (by simp [Ind.required]) j (by omega)]; rfl
  have hvo : ∀ j < i + 1, volume f j = x "volume" j := fun j hj => by
    unfold volume; rw [h3 _ (by simp [Ind.required]) j (by omega)]; rfl
  apply Finset.sum_congr rfl
  intro j hj
  rw [Finset.mem_Ico] at hj
  rw [hcl j (by omega), hcl (j - 1) (by omega), hvo j (by omega)]

/-- C43: a volume index does not move on a day on which the volume does not move its way. -/
theorem C43_unchanged (E : Env) (c : Call) (f : RawFrame) (fill : Bool) (o : Obj) (hw : WF f)
    (h : (construct E c (.frame f) (.bool fill)).2 = .ok o) (hb : f.EachRow o.ind.required NonzeroClose)
    (i : ℕ) (hi : i + 1 < f.idx.length) :
    (o.ind = .negativeVolumeIndex → volume f i ≤ volume f (i + 1) → o.getTiData.day "nvi" (i + 1) = o.getTiData.day "nvi" i) ∧
    (o.ind = .positiveVolumeIndex → volume f (i + 1) ≤ volume f i → o.getTiData.day "pvi" (i + 1) = o.getTiData.day "pvi" i) := by
  have e : Finset.Ico 1 (i + 1 + 1) = insert (i + 1) (Finset.Ico 1 (i + 1)) := by
    ext j; simp only [Finset.mem_Ico, Finset.mem_insert]; omega
  constructor
  · intro ho hv
    rw [C43_negative_volume_index E c f fill o hw h hb ho i (by omega),
      C43_negative_volume_index E c f fill o hw h hb ho (i + 1) (by omega)]
    have : volumeFell f (i + 1) = volumeFell f i := by
      unfold volumeFell
      rw [e, Finset.filter_insert, if_neg (by simpa using hv)]
    rw [this]
  · intro ho hv
    rw [C43_positive_volume_index E c f fill o hw h hb ho i (by omega),
      C43_positive_volume_index E c f fill o hw h hb ho (i + 1) (by omega)]
    have : volumeRose f (i + 1) = volumeRose f i := by
      unfold volumeRose
      rw [e, Finset.filter_insert, if_neg (by simpa using hv)]
    rw [this]

/-- C43: with positive closes the product is positive (the index itself can only reach 0 by rounding). -/
theorem C43_positive (f : RawFrame) (i : ℕ) (hp : ∀ j ≤ i, 0 < close f j) :
    0 < 1000 * ∏ j ∈ volumeFell f i, close f j / close f (j - 1) ∧
    0 < 1000 * ∏ j ∈ volumeRose f i, close f j / close f (j - 1) := by
  have key : ∀ P : ℕ → Prop, ∀ [DecidablePred P],
      0 < (1000 : ℚ) * ∏ j ∈ (Finset.Ico 1 (i + 1)).filter P, close f j / close f (j - 1) := by
    intro P _
    apply mul_pos (by norm_num)
    apply Finset.prod_pos
    intro j hj
    rw [Finset.mem_filter, Finset.mem_Ico] at hj
    exact div_pos (hp _ (by omega)) (hp _ (by omega))
  exact ⟨key _, key _⟩

/-- Three days, not in the order of the dates: closes 10, 13, 11.5 with volumes 100, 80, 90. -/
def demoVolumes : RawFrame := ⟨true, [2, 1, 3],
  [⟨.str "close", true, [.fin 13, .fin 10, .fin (23 / 2)]⟩, ⟨.str "volume", true, [.fin 80, .fin 100, .fin 90]⟩]⟩

theorem demoVolumes_rows : demoVolumes.EachRow ["close", "volume"] NonzeroClose := by
  intro j hj
  have hj' : j < 3 := hj
  refine ⟨fun n => match demoVolumes.cell n j with
    | .fin q => q
    | _ => 0, ?_, ?_⟩
  · intro n hn
    simp only [List.mem_cons, List.not_mem_nil, or_false] at hn
    rcases hn with rfl | rfl <;> interval_cases j <;> decide +kernel
  · unfold NonzeroClose
    interval_cases j <;> decide +kernel

/-- The hypotheses on concrete data, and what the indicators give there. -/
example : WF demoVolumes ∧ demoVolumes.EachRow Ind.negativeVolumeIndex.required NonzeroClose ∧
    ((construct demoEnv .negativeVolumeIndex (.frame demoVolumes) (.bool true)).2.map
      fun o => (o.ind, o.getTiData.day "nvi" 2)) = .ok (.negativeVolumeIndex, .fin 1300) ∧
    ((construct demoEnv .positiveVolumeIndex (.frame demoVolumes) (.bool true)).2.map
      fun o => (o.ind, o.getTiData.day "pvi" 2)) = .ok (.positiveVolumeIndex, .fin (8846154 / 10000)) ∧
    ((construct demoEnv .onBalanceVolume (.frame demoVolumes) (.bool true)).2.map
      fun o => (o.ind, o.getTiData.day "obv" 2)) = .ok (.onBalanceVolume, .fin (-10)) ∧
    ((construct demoEnv .priceAndVolumeTrend (.frame demoVolumes) (.bool true)).2.map
      fun o => (o.ind, o.getTiData.day "pvt" 2)) = .ok (.priceAndVolumeTrend, .fin (136154 / 10000)) := by
  refine ⟨by unfold WF; decide, demoVolumes_rows, ?_, ?_, ?_, ?_⟩ <;> decide +kernel

end TTI.Props
