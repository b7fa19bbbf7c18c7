import Verif.Model.Api
import Verif.Lemmas.Frame
import Verif.Lemmas.Num

set_option autoImplicit false

/-!
# Frames that differ in the order of their columns only
-/

namespace TTI

/-- Equal dates, the same columns in some order, distinct column names. -/
structure Frame.SameCols (F G : Frame) : Prop where
  idx : F.idx = G.idx
  cols : F.cols.Perm G.cols
  nodup : (F.cols.map (·.1)).Nodup

theorem find_perm (name : String) {l m : List (String × List Val)} (h : l.Perm m) (hn : (l.map (·.1)).Nodup) :
    l.find? (fun c => c.1 == name) = m.find? fun c => c.1 == name := by
  have hm : (m.map (·.1)).Nodup := (h.map _).nodup_iff.1 hn
  cases h1 : l.find? (fun c => c.1 == name) with
  | none =>
    rw [List.find?_eq_none] at h1
    exact (List.find?_eq_none.2 fun x hx => h1 x (h.mem_iff.2 hx)).symm
  | some c =>
    cases h2 : m.find? (fun c => c.1 == name) with
    | none =>
      rw [List.find?_eq_none] at h2
      exact absurd (List.find?_some h1) (h2 c (h.mem_iff.1 (List.mem_of_find?_eq_some h1)))
    | some d =>
      have e1 : c.1 = name := by simpa using List.find?_some h1
      have e2 : d.1 = name := by simpa using List.find?_some h2
      have := List.inj_on_of_nodup_map hm (h.mem_iff.1 (List.mem_of_find?_eq_some h1)) (List.mem_of_find?_eq_some h2)
        (e1.trans e2.symm)
      rw [this]

namespace Frame.SameCols
variable {F G : Frame}

theorem col (h : F.SameCols G) (name : String) : F.col name = G.col name := by
  unfold Frame.col; rw [find_perm name h.cols h.nodup]

theorem len (h : F.SameCols G) : F.len = G.len := by unfold Frame.len; rw [h.idx]

/-- Operations on the columns one by one. -/
theorem mapCols (h : F.SameCols G) (idx : List ℤ) (g : List Val → List Val) :
    Frame.SameCols ⟨idx, F.cols.map fun c => (c.1, g c.2)⟩ ⟨idx, G.cols.map fun c => (c.1, g c.2)⟩ := by
  refine ⟨rfl, h.cols.map _, ?_⟩
  rw [List.map_map]; exact h.nodup

theorem restrict (h : F.SameCols G) (names : List String) : (F.restrict names).SameCols (G.restrict names) :=
  ⟨h.idx, h.cols.filter _, h.nodup.sublist (List.filter_sublist.map _)⟩

theorem sub (h : F.SameCols G) (names : List String) : (F.sub names).SameCols (G.sub names) := by
  have := (h.restrict names).mapCols F.idx fun c => bfill (ffill c)
  unfold Frame.sub
  rw [← h.idx]; exact this

theorem upTo (h : F.SameCols G) (d : ℤ) : (F.upTo d).SameCols (G.upTo d) := by
  unfold Frame.upTo
  rw [← h.idx]
  exact h.mapCols _ _

theorem sortIndex (h : F.SameCols G) : F.sortIndex.SameCols G.sortIndex := by
  unfold Frame.sortIndex
  rw [← h.idx]
  exact h.mapCols _ fun c => (sortRows (F.idx.zip c)).map (·.2)

theorem fill (h : F.SameCols G) : (fillMissingValues F).SameCols (fillMissingValues G) := by
  unfold fillMissingValues
  simp only
  rw [← h.sortIndex.idx]
  exact h.sortIndex.mapCols _ fun c => bfill (ffill c)

theorem append (h : F.SameCols G) (name : String) (hn : name ∉ F.cols.map (·.1)) (xs : List Val) :
    Frame.SameCols ⟨F.idx, F.cols ++ [(name, xs)]⟩ ⟨G.idx, G.cols ++ [(name, xs)]⟩ := by
  refine ⟨h.idx, h.cols.append_right _, ?_⟩
  rw [List.map_append, List.nodup_append]
  refine ⟨h.nodup, by simp, ?_⟩
  rintro a ha b hb rfl
  simp only [List.map_cons, List.map_nil, List.mem_singleton] at hb
  exact hn (hb ▸ ha)

/-- Row by row the same values in some order. -/
theorem rows (h : F.SameCols G) {β : Type} (g : List Val → β) (hg : ∀ l m : List Val, l.Perm m → g l = g m) :
    F.rows.map g = G.rows.map g := by
  unfold Frame.rows
  rw [h.len, List.map_map, List.map_map]
  apply List.map_congr_left
  intro i _
  exact hg _ _ (h.cols.map _)

end Frame.SameCols

/-! ## Sums do not depend on the order -/

theorem Val.add_right_comm' (x y z : Val) : Val.add (Val.add x y) z = Val.add (Val.add x z) y := by
  cases x <;> cases y <;> cases z <;> simp [Val.add, add_right_comm]

theorem foldl_add_perm {l m : List Val} (h : l.Perm m) (x : Val) : l.foldl Val.add x = m.foldl Val.add x := by
  have : RightCommutative Val.add := ⟨Val.add_right_comm'⟩
  exact h.foldl_eq x

theorem sumSkip_perm {l m : List Val} (h : l.Perm m) : sumSkip l = sumSkip m := foldl_add_perm (h.filter _) _

theorem meanSkip_perm {l m : List Val} (h : l.Perm m) : meanSkip l = meanSkip m := by
  unfold meanSkip
  have hp := h.filter fun x => !x.isNan
  simp only
  rw [foldl_add_perm hp, hp.length_eq]
  by_cases he : l.filter (fun x => !x.isNan) = []
  · rw [if_pos he, if_pos (List.nil_perm.1 (he ▸ hp))]
  · rw [if_neg he, if_neg (fun h' : m.filter (fun x => !x.isNan) = [] => he (List.perm_nil.1 (h' ▸ hp)))]

/-! ## Indicator values -/

theorem calcTi_order (E : Env) (ind : Ind) {F G : Frame} (h : F.SameCols G) : ind.calcTi E F = ind.calcTi E G := by
  have hs : ∀ ns n, (F.sub ns).col n = (G.sub ns).col n := fun ns n => (h.sub ns).col n
  have hss : ∀ ns ms n, ((F.sub ns).sub ms).col n = ((G.sub ns).sub ms).col n := fun ns ms n => ((h.sub ns).sub ms).col n
  have hl : ∀ ns, (F.sub ns).len = (G.sub ns).len := fun ns => (h.sub ns).len
  have hll : ∀ ns ms, ((F.sub ns).sub ms).len = ((G.sub ns).sub ms).len := fun ns ms => ((h.sub ns).sub ms).len
  have hi : ∀ ns, (F.sub ns).idx = (G.sub ns).idx := fun ns => (h.sub ns).idx
  have hii : ∀ ns ms, ((F.sub ns).sub ms).idx = ((G.sub ns).sub ms).idx := fun ns ms => ((h.sub ns).sub ms).idx
  have hr1 : F.rows.map (fun r => Val.div (sumSkip r) 3) = G.rows.map (fun r => Val.div (sumSkip r) 3) :=
    h.rows _ fun l m hp => by rw [sumSkip_perm hp]
  have hr2 : F.rows.map meanSkip = G.rows.map meanSkip := h.rows _ fun l m hp => meanSkip_perm hp
  cases ind <;>
  simp only [Ind.calcTi, h.col, h.len, h.idx, hs, hss, hl, hll, hi, hii, hr1, hr2, Ind.LinearRegressionSlope.calcTi,
    Ind.LinearRegressionIndicator.calcTi, Ind.TimeSeriesForecast.forecast, Ind.TimeSeriesForecast.calcTi,
    Ind.ForecastOscillator.calcTi, Ind.ChandeMomentumOscillator.calcTi, Ind.MovingAverage.calcTi,
    Ind.DoubleExponentialMovingAverage.calcTi, Ind.TripleExponentialMovingAverage.calcTi, Ind.WildersSmoothing.calcTi,
    Ind.ProjectionBands.calcTi, Ind.ProjectionOscillator.calcTi, Ind.StandardDeviation.calcTi, Ind.BollingerBands.calcTi,
    Ind.Envelopes.calcTi, Ind.PriceChannel.calcTi, Ind.MovingAverageConvergenceDivergence.calcTi,
    Ind.PriceOscillator.calcTi, Ind.Momentum.calcTi, Ind.PriceRateOfChange.calcTi, Ind.VolumeRateOfChange.calcTi,
    Ind.VolumeOscillator.calcTi, Ind.IntradayMomentumIndex.calcTi, Ind.Qstick.calcTi, Ind.RangeIndicator.calcTi,
    Ind.RelativeMomentumIndex.calcTi, Ind.RelativeStrengthIndex.calcTi, Ind.RelativeVolatilityIndex.calcTi,
    Ind.StochasticMomentumIndex.calcTi, Ind.StochasticOscillator.calcTi, Ind.SwingIndex.calcTi,
    Ind.UltimateOscillator.calcTi, Ind.VerticalHorizontalFilter.calcTi, Ind.VolatilityChaikins.calcTi,
    Ind.WilliamsR.calcTi, Ind.trueRange, Ind.AverageTrueRange.calcTi, Ind.CommodityChannelIndex.calcTi,
    Ind.DetrendedPriceOscillator.calcTi, Ind.FibonacciRetracement.calcTi, Ind.DirectionalMovementIndex.dm,
    Ind.DirectionalMovementIndex.calcTi, Ind.IchimokuCloud.middle, Ind.IchimokuCloud.calcTi, Ind.MassIndex.calcTi,
    Ind.MedianPrice.calcTi, Ind.ParabolicSAR.calcTi, Ind.Performance.calcTi, Ind.TypicalPrice.calcTi,
    Ind.WeightedClose.calcTi, Ind.moneyFlowVolume, Ind.AccumulationDistributionLine.calcTi, Ind.ChaikinMoneyFlow.calcTi,
    Ind.ChaikinOscillator.calcTi, Ind.EaseOfMovement.calcTi, Ind.NegativeVolumeIndex.calcTi,
    Ind.PositiveVolumeIndex.calcTi, Ind.OnBalanceVolume.calcTi, Ind.PriceAndVolumeTrend.calcTi,
    Ind.MarketFacilitationIndex.calcTi, Ind.KlingerOscillator.calcTi, Ind.WilliamsAccumulationDistribution.calcTi]

/-! ## Signals -/

/-- The two classes whose signal looks at the first column of the input data. -/
def Ind.FirstColumn : Ind → Prop
  | .averageTrueRange => True
  | .typicalPrice _ => True
  | _ => False

theorem signal_order (ind : Ind) {F G : Frame} (h : F.SameCols G) (hf : ind.FirstColumn → F.cols.head? = G.cols.head?)
    (T : Frame) :
    ind.signal F T = ind.signal G T := by
  have hsc : ∀ ns n, (F.sub ns).col n = (G.sub ns).col n := fun ns n => (h.sub ns).col n
  have hd : ∀ p ns, Ind.DoubleExponentialMovingAverage.calcTi p (F.sub ns) =
      Ind.DoubleExponentialMovingAverage.calcTi p (G.sub ns) :=
    fun p ns => calcTi_order ⟨id, fun _ => []⟩ (.doubleExponentialMovingAverage p) (h.sub ns)
  have hm : ∀ p ns, Ind.Momentum.calcTi p (F.sub ns) = Ind.Momentum.calcTi p (G.sub ns) :=
    fun p ns => calcTi_order ⟨id, fun _ => []⟩ (.momentum p) (h.sub ns)
  cases ind <;>
  first
  | rfl
  | simp only [Ind.signal, Ind.AverageTrueRange.signal, Ind.TypicalPrice.signal, Frame.firstCol, h.col, h.len, hf trivial]
  | simp only [Ind.signal, h.col, h.len, hsc, hd, hm, bandSignal, priceCrossSignal, Ind.LinearRegressionIndicator.signal, Ind.TimeSeriesForecast.signal,
      Ind.MovingAverage.signal, Ind.DoubleExponentialMovingAverage.signal, Ind.TripleExponentialMovingAverage.signal,
      Ind.WildersSmoothing.signal, Ind.ProjectionBands.signal, Ind.BollingerBands.signal, Ind.Envelopes.signal,
      Ind.PriceChannel.signal, Ind.FibonacciRetracement.signal,
      Ind.IchimokuCloud.signal, Ind.MassIndex.signal, Ind.MedianPrice.signal, Ind.ParabolicSAR.signal,
      Ind.WeightedClose.signal, Ind.AccumulationDistributionLine.signal, Ind.WilliamsAccumulationDistribution.signal,
      Ind.VerticalHorizontalFilter.signal, Ind.ChaikinMoneyFlow.signal, Ind.ChaikinOscillator.signal,
      Ind.RangeIndicator.signal, Ind.StandardDeviation.signal, Ind.UltimateOscillator.signal]

/-! ## Validation -/

theorem checkColumn_perm {l m : List (String × RawCol)} (h : l.Perm m) (name : String) :
    checkColumn l name = checkColumn m name := by
  have hp := h.filter fun c => c.1 == name
  unfold checkColumn
  generalize l.filter (fun c => c.1 == name) = a at hp
  generalize m.filter (fun c => c.1 == name) = b at hp
  have hl := hp.length_eq
  match a, b with
  | [], [] => rfl
  | [c], [d] => rw [List.singleton_perm_singleton.1 hp]
  | _ :: _ :: _, _ :: _ :: _ => rfl
  | [], _ :: _ => simp at hl
  | _ :: _, [] => simp at hl
  | [_], _ :: _ :: _ => simp at hl
  | _ :: _ :: _, [_] => simp at hl

theorem checkColumns_perm {l m : List (String × RawCol)} (h : l.Perm m) (required : List String) :
    checkColumns l required = checkColumns m required := by
  unfold checkColumns
  congr 1
  funext name
  exact checkColumn_perm h name

theorem kept_nodup (f : RawFrame) (required : List String) (h : f.Valid required) :
    ((f.kept required).cols.map (·.1)).Nodup := by
  unfold RawFrame.kept Frame.sortIndex
  simp only [List.map_map]
  show ((f.cols.filter fun c => decide (c.name ∈ required)).map RawCol.name).Nodup
  rw [List.nodup_iff_count_le_one]
  intro r
  rw [List.count, List.countP_map, List.countP_filter]
  by_cases hr : r ∈ required
  · obtain ⟨c, hc, -⟩ := h.needed r hr
    have : (f.cols.countP fun c => c.name == r) = 1 := by rw [List.countP_eq_length_filter, hc]; rfl
    refine le_trans (List.countP_mono_left fun c _ hc => ?_) this.le
    simp only [Bool.and_eq_true, Function.comp] at hc
    exact hc.1
  · rw [List.countP_eq_zero.2]
    · omega
    · intro c _ hc
      simp only [Bool.and_eq_true, Function.comp, beq_iff_eq, decide_eq_true_eq] at hc
      exact hr (hc.1 ▸ hc.2)

/-- Validation of frames that differ in the order of the columns: the same exception, or frames that differ in the order of
the columns. -/
theorem validate_order (f g : RawFrame) (hd : f.datetimeIndex = g.datetimeIndex) (hi : f.idx = g.idx)
    (hc : f.cols.Perm g.cols) (required : List String) (fill : Bool) :
    (∃ e, (validateInputData (.frame f) required fill).2 = .error e ∧
      (validateInputData (.frame g) required fill).2 = .error e) ∨
    ∃ F G, (validateInputData (.frame f) required fill).2 = .ok F ∧
      (validateInputData (.frame g) required fill).2 = .ok G ∧ F.SameCols G := by
  by_cases hv : f.Valid required
  · have hg : g.Valid required := by
      refine ⟨hd ▸ hv.datetime, hi ▸ hv.rows, ?_, ?_, ?_, ?_⟩
      · intro h0; exact hv.columns (List.perm_nil.1 (h0 ▸ hc))
      · intro c h0; exact hv.labels c (hc.mem_iff.2 h0)
      · intro r hr
        obtain ⟨c, h1, h2⟩ := hv.needed r hr
        have := hc.filter fun c => c.name == r
        rw [h1] at this
        exact ⟨c, (List.perm_singleton.1 this.symm), h2⟩
      · exact (((hc.map _).filter _).nodup_iff).1 hv.extra
    right
    have hk : (f.kept required).SameCols (g.kept required) := by
      refine ⟨?_, ?_, kept_nodup f required hv⟩
      · simp only [RawFrame.kept, Frame.sortIndex, hi]
      · simp only [RawFrame.kept, Frame.sortIndex, hi]
        exact (((hc.filter _).map _).map _)
    refine ⟨_, _, validate_ok f required fill hv, validate_ok g required fill hg, ?_⟩
    cases fill
    · exact hk
    · exact hk.fill
  · left
    unfold validateInputData
    simp only [← hd, ← hi]
    have hnil : (g.cols = []) = (f.cols = []) := by
      apply propext
      constructor
      · intro h0; exact List.perm_nil.1 (h0 ▸ hc)
      · intro h0; exact List.perm_nil.1 (h0 ▸ hc.symm)
    simp only [hnil]
    by_cases h0 : f.datetimeIndex = false
    · simp only [if_pos h0]; exact ⟨_, rfl, rfl⟩
    simp only [if_neg h0]
    by_cases h1 : f.idx = [] ∨ f.cols = []
    · simp only [if_pos h1]; exact ⟨_, rfl, rfl⟩
    simp only [if_neg h1]
    rw [lowerLabels_eq, lowerLabels_eq]
    have hlab : (∀ c ∈ g.cols, c.label ≠ .other) ↔ ∀ c ∈ f.cols, c.label ≠ .other :=
      ⟨fun h c hm => h c (hc.mem_iff.1 hm), fun h c hm => h c (hc.mem_iff.2 hm)⟩
    by_cases h2 : ∀ c ∈ f.cols, c.label ≠ .other
    · rw [if_pos h2, if_pos (hlab.2 h2)]
      simp only
      rw [← checkColumns_perm (hc.map fun c => (c.name, c)) required]
      cases h3 : checkColumns (f.cols.map fun c => (c.name, c)) required with
      | some e => exact ⟨e, rfl, rfl⟩
      | none =>
        simp only
        have hmap : ∀ g : RawFrame, (g.cols.map fun c => (c.name, c)).map (·.1) = g.cols.map RawCol.name := by
          intro g; rw [List.map_map]; rfl
        have hx : ¬ ((f.cols.map RawCol.name).filter fun l => !decide (l ∈ required)).Nodup := by
          intro hx
          simp only [not_or] at h1
          exact hv ⟨by simpa using h0, h1.1, h1.2, h2, (checkColumns_valid _ _).1 h3, hx⟩
        rw [dropExtra_error, dropExtra_error]
        · exact ⟨_, rfl, rfl⟩
        · rintro ⟨h4, -⟩
          rw [hmap] at h4
          exact hx ((((hc.map _).filter _).nodup_iff).2 h4)
        · rintro ⟨h4, -⟩
          rw [hmap] at h4
          exact hx h4
    · rw [if_neg h2, if_neg (fun h => h2 (hlab.1 h))]
      exact ⟨_, rfl, rfl⟩

/-! ## Objects -/

/-- Objects of the same class, parameters and indicator data, whose input data differ in the order of the columns. -/
structure Obj.SameCols (o o' : Obj) : Prop where
  ind : o.ind = o'.ind
  ti : o.ti = o'.ti
  input : o.input.SameCols o'.input

/-- The same first column, for the classes that look at it. -/
def Obj.SameFirst (o o' : Obj) : Prop := o.ind.FirstColumn → o.input.cols.head? = o'.input.cols.head?

theorem Obj.SameCols.signal {o o' : Obj} (h : o.SameCols o') (hf : o.SameFirst o') :
    o.getTiSignal = o'.getTiSignal := by
  unfold Obj.getTiSignal
  rw [← h.ind, ← h.ti, signal_order o.ind h.input hf]

theorem Obj.SameCols.cut {o o' : Obj} (h : o.SameCols o') (hf : o.SameFirst o') (i : ℕ) :
    (o.cut i = none ∧ o'.cut i = none) ∨ ∃ p p', o.cut i = some p ∧ o'.cut i = some p' ∧ p.SameCols p' ∧ p.SameFirst p' := by
  unfold Obj.cut
  rw [← h.ti, ← h.input.idx]
  cases o.input.idx[i]? with
  | none => exact .inl ⟨rfl, rfl⟩
  | some a =>
    cases o.ti.idx[i]? with
    | none => exact .inl ⟨rfl, rfl⟩
    | some b => exact .inr ⟨_, _, rfl, rfl, ⟨h.ind, rfl, h.input.upTo _⟩, fun hx => by
      simp only [Frame.upTo, List.head?_map, hf hx, h.input.idx]⟩

theorem simRounds_order (S : SimSetup) {full full' : Obj} (h : full.SameCols full') (hf : full.SameFirst full')
    (is : List ℕ) : ∀ (now now' : Obj) (st : Sim.State Val), now.SameCols now' → now.SameFirst now' →
      (simRounds full S is now st).1.SameCols (simRounds full' S is now' st).1 ∧
      (simRounds full S is now st).1.SameFirst (simRounds full' S is now' st).1 ∧
      (simRounds full S is now st).2 = (simRounds full' S is now' st).2 := by
  induction is with
  | nil => intro now now' st hn hi; exact ⟨hn, hi, rfl⟩
  | cons i is ih =>
    intro now now' st hn hi
    unfold simRounds
    rcases h.cut hf i with ⟨h1, h2⟩ | ⟨p, p', h1, h2, h3, h4⟩
    · rw [h1, h2]; exact ⟨hn, hi, rfl⟩
    · rw [h1, h2]
      simp only
      rw [← h3.signal h4]
      cases p.getTiSignal with
      | error e => exact ⟨h3, h4, rfl⟩
      | ok s => exact ih p p' _ h3 h4

theorem Obj.SameCols.step {o o' : Obj} (h : o.SameCols o') (hf : o.SameFirst o') (c : ApiCall) :
    (o.step c).1.SameCols (o'.step c).1 ∧ (o.step c).1.SameFirst (o'.step c).1 ∧ (o.step c).2 = (o'.step c).2 := by
  cases c with
  | getTiData => exact ⟨h, hf, by simp only [Obj.step, Obj.getTiData, h.ti]⟩
  | getTiValue d =>
    refine ⟨h, hf, ?_⟩
    have : o.getTiValue d = o'.getTiValue d := by
      rcases d with _ | _ | d <;> simp only [Obj.getTiValue, h.ti]
    simp only [Obj.step, this]
  | getTiSignal => exact ⟨h, hf, by simp only [Obj.step, h.signal hf]⟩
  | getTiSimulation close m f =>
    simp only [Obj.step, Obj.getTiSimulation, ← h.input.idx]
    rcases setupSimulation true o.input.idx close m f with ⟨caller, e | S⟩
    · exact ⟨h, hf, rfl⟩
    · simp only
      obtain ⟨h1, h2, h3⟩ := simRounds_order S h hf (List.range o.ti.len) o o' Sim.State.init h hf
      rw [← h.ti]
      rcases hr : simRounds o S (List.range o.ti.len) o Sim.State.init with ⟨a, e | st⟩ <;>
      rcases hr' : simRounds o' S (List.range o.ti.len) o' Sim.State.init with ⟨a', e' | st'⟩ <;>
      rw [hr, hr'] at h3 <;> rw [hr] at h1 h2 <;> rw [hr'] at h1 h2 <;> cases h3
      · exact ⟨h1, h2, rfl⟩
      · exact ⟨h, hf, rfl⟩

theorem Obj.SameCols.steps (cs : List ApiCall) : ∀ {o o' : Obj}, o.SameCols o' → o.SameFirst o' →
    (o.steps cs).2 = (o'.steps cs).2 := by
  induction cs with
  | nil => intro o o' _ _; rfl
  | cons c cs ih =>
    intro o o' h hf
    obtain ⟨h1, h2, h3⟩ := h.step hf c
    simp only [Obj.steps]
    rw [h3, ih h1 h2]

theorem inputAfter_order (ind : Ind) {F G : Frame} (h : F.SameCols G) (hr : ∀ c ∈ F.cols, c.1 ∈ ind.required) :
    (ind.inputAfter F).SameCols (ind.inputAfter G) := by
  have hmem : ∀ n, n ∉ ind.required → n ∉ F.cols.map (·.1) := by
    intro n hn hm
    obtain ⟨c, hc, rfl⟩ := List.mem_map.1 hm
    exact hn (hr c hc)
  cases ind <;> first | exact h | skip
  · simp only [Ind.inputAfter, Ind.MassIndex.inputAfter, ← h.col]
    exact h.append _ (hmem _ (by simp only [Ind.required]; decide)) _
  · simp only [Ind.inputAfter, Ind.MedianPrice.inputAfter, ← h.col]
    exact h.append _ (hmem _ (by simp only [Ind.required]; decide)) _

theorem kept_required (f : RawFrame) (required : List String) (fill : Bool) :
    ∀ c ∈ (if fill then fillMissingValues (f.kept required) else f.kept required).cols, c.1 ∈ required := by
  have hk : ∀ c ∈ (f.kept required).cols, c.1 ∈ required := by
    intro c hc
    simp only [RawFrame.kept, Frame.sortIndex, List.mem_map, List.mem_filter, decide_eq_true_eq] at hc
    obtain ⟨d, ⟨e, ⟨-, he⟩, rfl⟩, rfl⟩ := hc
    exact he
  cases fill
  · exact hk
  · intro c hc
    simp only [fillMissingValues, Frame.sortIndex, if_true, List.mem_map] at hc
    obtain ⟨d, ⟨e, he, rfl⟩, rfl⟩ := hc
    exact hk e he

/-- Construction on frames that differ in the order of the columns. -/
theorem construct_order (E : Env) (c : Call) (fill : PyArg) (f g : RawFrame) (hd : f.datetimeIndex = g.datetimeIndex)
    (hi : f.idx = g.idx) (hc : f.cols.Perm g.cols) :
    (∃ e, (construct E c (.frame f) fill).2 = .error e ∧ (construct E c (.frame g) fill).2 = .error e) ∨
    ∃ o o', (construct E c (.frame f) fill).2 = .ok o ∧ (construct E c (.frame g) fill).2 = .ok o' ∧ o.SameCols o' ∧
      ((f.cols.filter fun c => decide (c.name ∈ o.ind.required)).head? =
        (g.cols.filter fun c => decide (c.name ∈ o.ind.required)).head? → o.SameFirst o') := by
  unfold construct
  cases c.check with
  | error e => exact .inl ⟨e, rfl, rfl⟩
  | ok ind =>
    cases fill <;> first | exact .inl ⟨_, rfl, rfl⟩ | skip
    rename_i b
    simp only
    rcases validate_order f g hd hi hc ind.required b with ⟨e, h1, h2⟩ | ⟨F, G, h1, h2, h3⟩
    · rcases hv : validateInputData (.frame f) ind.required b with ⟨a, r⟩
      rcases hw : validateInputData (.frame g) ind.required b with ⟨a', r'⟩
      rw [hv] at h1; rw [hw] at h2
      subst h1; subst h2
      exact .inl ⟨_, rfl, rfl⟩
    · have hreq : ∀ c ∈ F.cols, c.1 ∈ ind.required := by
        have := (valid_of_ok f ind.required b F h1).2
        rw [this]; exact kept_required f ind.required b
      rcases hv : validateInputData (.frame f) ind.required b with ⟨a, r⟩
      rcases hw : validateInputData (.frame g) ind.required b with ⟨a', r'⟩
      rw [hv] at h1; rw [hw] at h2
      subst h1; subst h2
      simp only
      rw [← calcTi_order E ind h3]
      cases ind.calcTi E F with
      | error e => exact .inl ⟨_, rfl, rfl⟩
      | ok T =>
        refine .inr ⟨_, _, rfl, rfl, ⟨rfl, rfl, inputAfter_order ind h3 hreq⟩, fun hh hx => ?_⟩
        have e1 := (valid_of_ok f ind.required b F (by rw [hv])).2
        have e2 := (valid_of_ok g ind.required b G (by rw [hw])).2
        have hk : (f.kept ind.required).cols.head? = (g.kept ind.required).cols.head? := by
          simp only [RawFrame.kept, Frame.sortIndex, List.head?_map, hh, hi]
        have hki : (f.kept ind.required).idx = (g.kept ind.required).idx := by
          simp only [RawFrame.kept, Frame.sortIndex, hi]
        have hF : F.cols.head? = G.cols.head? := by
          rw [e1, e2]
          cases b
          · exact hk
          · simp only [if_true, fillMissingValues, Frame.sortIndex, List.head?_map, hk, hki]
        simp only at hx ⊢
        cases ind <;> first | exact hF | exact hx.elim

end TTI
