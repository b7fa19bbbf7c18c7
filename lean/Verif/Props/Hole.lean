import Verif.Lemmas.HoleObj
import Verif.Lemmas.Gaps
import Verif.Props.Validate
import Verif.Props.Table

set_option autoImplicit false

/-!
# Missing entries that are left in the data: C104
-/

namespace TTI.Props

open Spec Ind

variable {E : Env} {c : Call} {f g : RawFrame} {o o' : Obj}

/-- C104: on the days listed in `Spec.blanks` the value is missing, whatever the other entries are. -/
theorem C104_missing (hw : WF f) (h : (construct E c (.frame f) (.bool false)).2 = .ok o) (source : String)
    (hs : source ∈ o.ind.required) (j : ℕ) (hm : Missing f source j) (column : String) (i : ℕ)
    (hb : blanks o.ind column source j i) : o.getTiData.day column i = .nan := by
  obtain ⟨-, -, -, -, hp, -, ht, hd⟩ := unfilled E c f o hw h
  refine lost_calcTi E o.ind _ o.ti hp ht source hs j ?_ column i hb
  intro k hk
  obtain rfl : k = j := by unfold days at hk; omega
  rw [hd source hs]
  exact hm.2

/-- C104: elsewhere a missing entry changes nothing. Two tables with the same dates whose entries agree on the days that the
column remembers (`Spec.memory`, at least as many as the class needs) give the same value, whatever is missing or different
before and after these days. -/
theorem C104_elsewhere (hf : WF f) (hg : WF g) (h : (construct E c (.frame f) (.bool false)).2 = .ok o)
    (h' : (construct E c (.frame g) (.bool false)).2 = .ok o') (hi : f.idx = g.idx) (hc : Causal o.ind) (hn : ¬ Nested o.ind)
    (column : String) (M : ℕ) (hM : memory o.ind column = some M) (i : ℕ) (hr : max M (minRows o.ind) ≤ i + 1)
    (hl : i < f.idx.length)
    (ha : ∀ n ∈ o.ind.required, ∀ j, i < j + max M (minRows o.ind) → j ≤ i → f.day n j = g.day n j) :
    o.getTiData.day column i = o'.getTiData.day column i := by
  obtain ⟨g1, l1, n1, -, hp, hc1, t1, d1⟩ := unfilled E c f o hf h
  obtain ⟨g2, l2, n2, -, -, hc2, t2, d2⟩ := unfilled E c g o' hg h'
  have hind : o'.ind = o.ind := by rw [hc1] at hc2; exact (Except.ok.inj hc2).symm
  rw [hind] at g2 l2 n2 t2 d2
  have hM1 : 1 ≤ M := by
    generalize o.ind = ind at hM hp
    cases ind with
    | movingAverage p t => cases t <;> simp only [memory, Ind.Pos, Option.some.injEq, reduceCtorEq] at hM hp <;> omega
    | projectionOscillator p =>
      simp only [memory, Ind.Pos] at hM hp
      split at hM <;> simp only [Option.some.injEq, reduceCtorEq] at hM
      omega
    | _ => simp only [memory, Ind.Pos, Option.some.injEq, reduceCtorEq] at hM hp <;>
        first | omega | (split_ifs at hM <;> omega)
  exact calcTi_local E o.ind _ _ o.ti o'.ti g1 g2 hp hc hn (by
      show sortIdx f.idx = sortIdx g.idx
      rw [hi]) n1 n2 t1 t2 column M (max M (minRows o.ind)) i hM (le_max_left _ _) (le_max_right _ _) (by omega) hr
    (by rw [l1]; exact hl) fun n hn' j h1 h2 => by rw [d1 n hn', d2 n hn', ha n hn' j h1 h2]

/-- C104: the linear regression indicator and the commodity channel index count a missing price as zero: their values are those
of the table with zeros in the place of the missing entries. -/
theorem C104_counts_as_zero (hw : WF f) (h : (construct E c (.frame f) (.bool false)).2 = .ok o)
    (ho : ∃ p, o.ind = .linearRegressionIndicator p ∨ o.ind = .commodityChannelIndex p) :
    ∃ o', (construct E c (.frame (zeroed f)) (.bool false)).2 = .ok o' ∧ o'.getTiData = o.getTiData := by
  obtain ⟨-, -, -, hv, -, hc, ht, -⟩ := unfilled E c f o hw h
  have hv' := validate_ok (zeroed f) o.ind.required false (zeroed_valid f _ hv)
  have hk : (zeroed f).kept o.ind.required = (f.kept o.ind.required).zeros := kept_zeroed f _
  have ht' : o.ind.calcTi E ((zeroed f).kept o.ind.required) = .ok o.ti := by
    rw [hk, ← ht]
    obtain ⟨p, ho | ho⟩ := ho
    · rw [ho]; exact zeros_lri p _
    · rw [ho]; exact zeros_cci p _
  exact ⟨⟨o.ind, o.ind.inputAfter ((zeroed f).kept o.ind.required), o.ti⟩,
    (construct_ok_iff _ _ _ _ _).2 ⟨o.ind, _, o.ti, hc, hv', ht', rfl⟩, rfl⟩

/-- C104: the classes that take their values from an inner indicator, which is built with filling, give the same values with
`fill_missing_values=False` as with `fill_missing_values=True`. -/
theorem C104_filled_anyway (hw : WF f) (h : (construct E c (.frame f) (.bool false)).2 = .ok o)
    (ho : fillsAnyway o.ind = true) :
    ∃ o', (construct E c (.frame f) (.bool true)).2 = .ok o' ∧ o'.getTiData = o.getTiData := by
  obtain ⟨hg, -, -, hv, -, hc, ht, -⟩ := unfilled E c f o hw h
  have hv' := validate_ok f o.ind.required true hv
  have hsub := fill_sub (f.kept o.ind.required) hg.sorted hg.wf
  have hidx := fill_idx (f.kept o.ind.required) hg.sorted
  have hlen : (fillMissingValues (f.kept o.ind.required)).len = (f.kept o.ind.required).len := by
    unfold Frame.len; rw [hidx]
  have ht' : o.ind.calcTi E (fillMissingValues (f.kept o.ind.required)) = .ok o.ti := by
    rw [← ht]
    generalize f.kept o.ind.required = F at *
    generalize o.ind = ind at ho
    have hfc : ∀ p, TimeSeriesForecast.forecast p (fillMissingValues F) = TimeSeriesForecast.forecast p F := fun p => by
      unfold TimeSeriesForecast.forecast; rw [hsub]
    cases ind <;> simp only [fillsAnyway, reduceCtorEq, Bool.false_eq_true] at ho
    case chaikinOscillator =>
      simp only [Ind.calcTi, ChaikinOscillator.calcTi]
      rw [hlen, hidx, hsub]
    case timeSeriesForecast p =>
      simp only [Ind.calcTi, TimeSeriesForecast.calcTi]
      rw [hlen, hidx, hfc]
    case movingAverage p t =>
      cases t <;> simp only [reduceCtorEq, Bool.false_eq_true] at ho
      simp only [Ind.calcTi, MovingAverage.calcTi]
      rw [hlen, hidx, hfc]
  exact ⟨⟨o.ind, o.ind.inputAfter (fillMissingValues (f.kept o.ind.required)), o.ti⟩,
    (construct_ok_iff _ _ _ _ _).2 ⟨o.ind, _, o.ti, hc, hv', ht', rfl⟩, rfl⟩

/-- The closes that are numbers. -/
def closes (f : RawFrame) (j : ℕ) : Option ℚ := found (f.day "close" j)

theorem onceSeen_round (s : ℕ → Option ℚ) (m i : ℕ) (q : ℚ) :
    (onceSeen s m i (.fin q)).round 4 = onceSeen s m i (to4 q) := by
  unfold onceSeen; split <;> rfl

/-- C104: the exponential average skips the missing closes: it repeats its last value during a gap, and the first close after
the gap counts the more the longer the gap was (`Spec.gapMove`); the first value comes after `p` closes. -/
theorem C104_exponential (hw : WF f) (h : (construct E c (.frame f) (.bool false)).2 = .ok o) (p : ℕ)
    (ho : o.ind = .movingAverage p .exponential) (i : ℕ) (hi : i < f.idx.length) :
    o.getTiData.day "ma-exponential" i = onceSeen (closes f) p i (to4 (gapAverage p (closes f) i)) := by
  obtain ⟨hg, hl, -, -, hp, -, ht, hd⟩ := unfilled E c f o hw h
  rw [ho] at hp ht hd hg hl
  have hp1 : 1 ≤ p := by exact hp.1
  have hm : "close" ∈ (Ind.movingAverage p .exponential).required := by simp [Ind.required]
  have hlen := Frame.col_length _ hg.wf "close" (hg.has "close" hm)
  have hcol := hd "close" hm
  generalize f.kept (Ind.movingAverage p .exponential).required = F at *
  simp only [Ind.calcTi, MovingAverage.calcTi, reduceCtorEq, and_false, if_false] at ht
  have ht' : (if F.len < p then .error (.notEnough p F.len)
      else .ok ⟨F.idx, [("ma-exponential", roundS 4 (ewm p p (F.col "close")))]⟩ : Except Err Frame) = .ok o.ti := by
    rw [← ht]
    by_cases hF : F.len < p
    · simp only [hF, if_true]; rfl
    · simp only [hF, if_false]; rfl
  show val (o.ti.col "ma-exponential") i = _
  rw [guard_ok ht', Frame.col_single, val_roundS,
    val_ewm_gaps p p hp1 hp1 (closes f) _ i (by rw [hlen, hl]; exact hi) (fun j _ => by rw [hcol]; rfl), onceSeen_round]

/-- C104: on a day without a close the exponential average has the value of the day before. -/
theorem C104_exponential_stays (hw : WF f) (h : (construct E c (.frame f) (.bool false)).2 = .ok o) (p : ℕ)
    (ho : o.ind = .movingAverage p .exponential) (i : ℕ) (hm : Missing f "close" (i + 1)) :
    o.getTiData.day "ma-exponential" (i + 1) = o.getTiData.day "ma-exponential" i := by
  have hi := hm.1
  rw [C104_exponential hw h p ho i (by omega), C104_exponential hw h p ho (i + 1) hi]
  have hn : closes f (i + 1) = none := by unfold closes; rw [hm.2]; rfl
  unfold onceSeen
  rw [seen_succ, gapAverage, hn]
  simp

/-- C104: the MACD line is the difference of two such averages. -/
theorem C104_macd (hw : WF f) (h : (construct E c (.frame f) (.bool false)).2 = .ok o)
    (ho : o.ind = .movingAverageConvergenceDivergence) (i : ℕ) (hi : i < f.idx.length) :
    o.getTiData.day "macd" i = onceSeen (closes f) 26 i
      (to4 (roundQ 4 (gapAverage 12 (closes f) i) - roundQ 4 (gapAverage 26 (closes f) i))) := by
  obtain ⟨hg, hl, -, -, -, -, ht, hd⟩ := unfilled E c f o hw h
  rw [ho] at ht hd hg hl
  have hm : "close" ∈ Ind.movingAverageConvergenceDivergence.required := by simp [Ind.required]
  have hlen := Frame.col_length _ hg.wf "close" (hg.has "close" hm)
  have hcol := hd "close" hm
  generalize f.kept Ind.movingAverageConvergenceDivergence.required = F at *
  show val (o.ti.col "macd") i = _
  have key : ∀ n, 1 ≤ n → val (ewm n n (F.col "close")) i = onceSeen (closes f) n i (.fin (gapAverage n (closes f) i)) :=
    fun n hn => val_ewm_gaps n n hn hn (closes f) _ i (by rw [hlen, hl]; exact hi) (fun j _ => by rw [hcol]; rfl)
  rw [guard_ok ht]
  generalize F.col "close" = xs at key
  simp only [Frame.col, List.find?, beq_self_eq_true, Option.map, Option.getD, val_roundS, val_subS,
    key 12 (by norm_num), key 26 (by norm_num), onceSeen]
  by_cases h26 : seen (closes f) i < 26
  · simp only [h26, if_true]
    rw [show Val.round 4 .nan = .nan from rfl, Val.sub_nan]; rfl
  · have h12 : ¬ seen (closes f) i < 12 := by omega
    simp only [h26, h12, if_false]
    simp only [show ∀ q, Val.round 4 (.fin q) = .fin (roundQ 4 q) from fun _ => rfl, Val.fin_sub]; rfl

/-! ## Examples -/

/-- A table with the given closes; `none` is a missing entry. -/
def patchy (closes : List (Option ℚ)) : RawFrame :=
  ⟨true, (List.range closes.length).map fun k => (k : ℤ), [⟨.str "close", true, closes.map fun x => x.elim .nan .fin⟩]⟩

/-- Six equal closes, of which the fourth is missing. -/
def patch : RawFrame := patchy [some 10, some 10, some 10, none, some 10, some 10]

theorem patchy_wf (l : List (Option ℚ)) : WF (patchy l) := by
  intro c hc
  simp only [patchy, List.mem_singleton] at hc
  subst hc
  simp [patchy]

/-- A built object and some of its values. -/
theorem patchy_built (c : Call) (f : RawFrame) (fill : Bool) (ind : Ind) (name : String) (vs : List Val)
    (h : ((construct demoEnv c (.frame f) (.bool fill)).2.map fun o => (o.ind, o.getTiData.col name)) = .ok (ind, vs)) :
    ∃ o, (construct demoEnv c (.frame f) (.bool fill)).2 = .ok o ∧ o.ind = ind ∧ ∀ i, o.getTiData.day name i = val vs i := by
  cases hc : (construct demoEnv c (.frame f) (.bool fill)).2 with
  | error e => rw [hc] at h; simp [Except.map] at h
  | ok o =>
    rw [hc] at h
    simp only [Except.map, Except.ok.injEq, Prod.mk.injEq] at h
    exact ⟨o, rfl, h.1, fun i => by rw [← h.2]; rfl⟩

/-- The hypotheses of `C104_missing` and what it says of a simple average of two days: the values of the fourth and fifth day
are missing. -/
example : WF patch ∧ Missing patch "close" 3 ∧ ∃ o, (construct demoEnv (.movingAverage (.int 2) (.str "simple")) (.frame patch)
    (.bool false)).2 = .ok o ∧ "close" ∈ o.ind.required ∧ blanks o.ind "ma-simple" "close" 3 4 ∧
    ∀ i, o.getTiData.day "ma-simple" i = val [.nan, .fin 10, .fin 10, .nan, .nan, .fin 10] i := by
  refine ⟨patchy_wf _, ⟨by decide, by decide +kernel⟩, ?_⟩
  obtain ⟨o, h, h2, h3⟩ := patchy_built (.movingAverage (.int 2) (.str "simple")) patch false (.movingAverage 2 .simple)
    "ma-simple" [.nan, .fin 10, .fin 10, .nan, .nan, .fin 10] (by decide +kernel)
  exact ⟨o, h, by rw [h2]; decide, by rw [h2]; exact ⟨by norm_num, by norm_num⟩, h3⟩

/-- The hypotheses of `C104_elsewhere`: on the last day the average of two days remembers the last two days only, and the two
tables agree on them; the values of other days differ. -/
example : ∃ g : RawFrame, WF patch ∧ WF g ∧ patch.idx = g.idx ∧ ∃ o o',
    (construct demoEnv (.movingAverage (.int 2) (.str "simple")) (.frame patch) (.bool false)).2 = .ok o ∧
    (construct demoEnv (.movingAverage (.int 2) (.str "simple")) (.frame g) (.bool false)).2 = .ok o' ∧ Causal o.ind ∧
    ¬ Nested o.ind ∧ memory o.ind "ma-simple" = some 2 ∧ minRows o.ind ≤ 2 ∧
    (∀ n ∈ o.ind.required, ∀ j, 5 < j + 2 → j ≤ 5 → patch.day n j = g.day n j) ∧
    o.getTiData.day "ma-simple" 4 ≠ o'.getTiData.day "ma-simple" 4 := by
  refine ⟨patchy [some 4, none, some 8, some 3, some 10, some 10], patchy_wf _, patchy_wf _, rfl, ?_⟩
  obtain ⟨o, h, h2, h3⟩ := patchy_built (.movingAverage (.int 2) (.str "simple")) patch false (.movingAverage 2 .simple)
    "ma-simple" [.nan, .fin 10, .fin 10, .nan, .nan, .fin 10] (by decide +kernel)
  obtain ⟨o', h', -, h3'⟩ := patchy_built (.movingAverage (.int 2) (.str "simple"))
    (patchy [some 4, none, some 8, some 3, some 10, some 10]) false (.movingAverage 2 .simple)
    "ma-simple" [.nan, .nan, .nan, .fin (11 / 2), .fin (13 / 2), .fin 10] (by decide +kernel)
  refine ⟨o, o', h, h', by rw [h2]; simp [Causal], by rw [h2]; simp [Nested], by rw [h2]; rfl, by rw [h2]; decide, ?_, ?_⟩
  · intro n hn j h4 h5
    rw [h2] at hn
    obtain rfl : n = "close" := by simpa [Ind.required] using hn
    obtain rfl | rfl : j = 4 ∨ j = 5 := by omega
    all_goals decide +kernel
  · rw [h3, h3']; decide +kernel

/-- The hypotheses of `C104_counts_as_zero`. -/
example : ∃ o, (construct demoEnv (.linearRegressionIndicator (.int 3)) (.frame patch) (.bool false)).2 = .ok o ∧
    o.ind = .linearRegressionIndicator 3 ∧
    ∀ i, o.getTiData.day "lri" i = val [.nan, .nan, .fin 10, .fin (16667 / 10000), .fin (66667 / 10000), .fin (116667 / 10000)] i :=
  patchy_built _ _ _ _ _ _ (by decide +kernel)

/-- The hypotheses of `C104_filled_anyway`. -/
example : ∃ o, (construct demoEnv (.timeSeriesForecast (.int 3)) (.frame patch) (.bool false)).2 = .ok o ∧
    o.ind = .timeSeriesForecast 3 ∧ ∀ i, o.getTiData.day "tsf" i = val [.nan, .nan, .fin 10, .fin 10, .fin 10, .fin 10] i :=
  patchy_built _ _ _ _ _ _ (by decide +kernel)

/-- The hypotheses of `C104_exponential`: after a gap of one day the average of three days moves by three quarters. -/
example : ∃ o, (construct demoEnv (.movingAverage (.int 3) (.str "exponential"))
      (.frame (patchy [some 1, some 2, some 3, none, some 4])) (.bool false)).2 = .ok o ∧ o.ind = .movingAverage 3 .exponential ∧
    ∀ i, o.getTiData.day "ma-exponential" i =
      val [.nan, .nan, .fin (9 / 4), .fin (9 / 4), .fin (35625 / 10000)] i :=
  patchy_built _ _ _ _ _ _ (by decide +kernel)

/-- The hypotheses of `C104_macd`: 30 days of which one is missing. -/
example : ∃ o, (construct demoEnv .movingAverageConvergenceDivergence
      (.frame (patchy ((List.range 30).map fun k => if k = 20 then none else some 5))) (.bool false)).2 = .ok o ∧
    o.ind = .movingAverageConvergenceDivergence ∧
    ∀ i, o.getTiData.day "macd" i = val (List.replicate 26 .nan ++ List.replicate 4 (.fin 0)) i :=
  patchy_built _ _ _ _ _ _ (by decide +kernel)

/-- C104: a missing close can make a signal. All closes are 10 and one is missing: the linear regression indicator counts it
as 0, lies above the last close and says buy; with the gap filled it says hold. -/
theorem C104_false_signal (E : Env) (fill : Bool) :
    ((construct E (.linearRegressionIndicator (.int 3)) (.frame patch) (.bool fill)).2.map fun o =>
      (o.getTiValue none, o.getTiSignal)) =
    .ok (if fill then (.row [.fin 10], .ok .hold) else (.row [.fin (116667 / 10000)], .ok .buy)) := by
  have hE : construct E (.linearRegressionIndicator (.int 3)) (.frame patch) (.bool fill) =
    construct demoEnv (.linearRegressionIndicator (.int 3)) (.frame patch) (.bool fill) := rfl
  rw [hE]
  cases fill <;> decide +kernel

end TTI.Props
