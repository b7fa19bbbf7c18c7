import Verif.Lemmas.Rules
import Verif.Lemmas.Built
import Verif.Props.Api
import Verif.Props.Sim2

set_option autoImplicit false

/-!
# The signals (C36-C38, C47)

`Spec.rule F T ind` is the table of the conditions on the input data `F` and the indicator data `T`.
-/

namespace TTI.Props

open Spec

/-- An object as the user sees it, or as the simulation sees it: constructed, or a constructed one cut at a row. -/
def Reachable (o : Obj) : Prop :=
  ∃ E c f fill o₁, WF f ∧ (construct E c (.frame f) (.bool fill)).2 = .ok o₁ ∧ (o = o₁ ∨ ∃ i, o₁.cut i = some o)

theorem Reachable.sound {o : Obj} (h : Reachable o) : o.Sound := by
  obtain ⟨E, c, f, fill, o₁, hw, hc, h | ⟨i, hi⟩⟩ := h
  · rw [h]; exact (construct_sound E c f fill o₁ hw hc).1
  · exact (cut_sound _ _ (construct_sound E c f fill o₁ hw hc).1 i hi).1

/-- C47: the signal of an object, and of the object cut at any row, is buy (sell) exactly when there are the rows the table
asks for and the table's buy (sell) condition holds. -/
theorem C47_signal_table (o : Obj) (h : Reachable o) :
    (o.getTiSignal = .ok .buy ↔ (rule o.input o.ti o.ind).rows ≤ o.getTiData.idx.length ∧ (rule o.input o.ti o.ind).buy) ∧
    (o.getTiSignal = .ok .sell ↔ (rule o.input o.ti o.ind).rows ≤ o.getTiData.idx.length ∧ (rule o.input o.ti o.ind).sell) :=
  signal_rule _ _ _ h.sound.shaped

/-- C47: the buy and the sell condition exclude each other. -/
theorem C47_exclusive (o : Obj) (h : Reachable o)
    (hl : (rule o.input o.ti o.ind).rows ≤ o.getTiData.idx.length) :
    ¬ ((rule o.input o.ti o.ind).buy ∧ (rule o.input o.ti o.ind).sell) := by
  rintro ⟨hb, hs⟩
  obtain ⟨h1, h2⟩ := C47_signal_table o h
  have e1 := h1.2 ⟨hl, hb⟩
  rw [h2.2 ⟨hl, hs⟩] at e1
  simp at e1

theorem nan_lt (y : Val) : Val.lt .nan y = false := rfl
theorem lt_nan (x : Val) : Val.lt x .nan = false := by cases x <;> rfl
theorem nan_le (y : Val) : Val.le .nan y = false := rfl
theorem le_nan (x : Val) : Val.le x .nan = false := by cases x <;> rfl

/-- A missing value among the inspected ones makes both conditions false. -/
theorem rule_missing (ind : Ind) (F T : Frame) (h : Val.nan ∈ inspected F T ind) :
    ¬ (rule F T ind).buy ∧ ¬ (rule F T ind).sell := by
  cases ind <;>
    simp only [inspected, latest, List.not_mem_nil, List.map_cons, List.map_nil, List.mem_cons, or_false, List.mem_append,
      show List.range 1 = [0] from rfl, show List.range 2 = [0, 1] from rfl, show List.range 3 = [0, 1, 2] from rfl,
      show List.range 4 = [0, 1, 2, 3] from rfl] at h
  all_goals
    simp only [rule, extremes, zeroLine, follow, contrary, Rises, Falls, Overtakes, Up3, Down3]
    simp only [@eq_comm Val Val.nan] at h
    (repeat' rcases h with h | h) <;> simp [h, nan_lt, lt_nan, le_nan, nan_le]

/-- C47: for the threshold and crossover classes (those with an entry in `Spec.inspected`), a missing value among the
inspected values gives hold. -/
theorem C47_missing_value_holds (o : Obj) (h : Reachable o) (hn : Val.nan ∈ inspected o.input o.ti o.ind) :
    o.getTiSignal = .ok .hold := by
  obtain ⟨h1, h2⟩ := C47_signal_table o h
  obtain ⟨n1, n2⟩ := rule_missing _ _ _ hn
  have hr : ¬ Raises o.ind o.input o.ti := by
    rintro (⟨hm, -⟩ | ⟨⟨p, s, hm⟩, -⟩) <;> rw [hm] at hn <;> simp [inspected] at hn
  obtain ⟨s, hs⟩ := signal_total _ _ _ h.sound.shaped hr h.sound.params
  have hs' : o.getTiSignal = .ok s := hs
  rw [hs'] at h1 h2 ⊢
  cases s with
  | buy => exact absurd (h1.1 rfl).2 n1
  | sell => exact absurd (h2.1 rfl).2 n2
  | hold => rfl

/-- A demo object for the examples. -/
def demoMom : Obj := ⟨.momentum 1, ⟨[1, 2], [("close", [.fin 10, .fin 12])]⟩, ⟨[1, 2], [("mom", [.nan, .fin 120])]⟩⟩

theorem demoMom_reachable : Reachable demoMom :=
  ⟨demoEnv, .momentum (.int 1), demoPrices, true, demoMom, by unfold WF; decide, by decide +kernel, Or.inl rfl⟩

example : Val.nan ∈ inspected demoMom.input demoMom.ti demoMom.ind := by decide +kernel

/-- A crossing of the level 0 upwards, on which the table of the Detrended Price Oscillator says buy. -/
example : (rule demoMom.input ⟨[1, 2], [("dpo", [.fin (-1), .fin 1])]⟩ (.detrendedPriceOscillator 5)).buy := by
  constructor <;> decide +kernel

/-- C47, spelled out for the Relative Strength Index: buy when it falls through 30, sell when it rises through 70. -/
theorem C47_rsi (o : Obj) (h : Reachable o) (p : ℕ) (hi : o.ind = .relativeStrengthIndex p) :
    (o.getTiSignal = .ok .buy ↔ ∃ pre a b, o.ti.col "rsi" = pre ++ [a, b] ∧ Val.lt 30 a = true ∧ Val.lt b 30 = true) ∧
    (o.getTiSignal = .ok .sell ↔ ∃ pre a b, o.ti.col "rsi" = pre ++ [a, b] ∧ Val.lt a 70 = true ∧ Val.lt 70 b = true) := by
  obtain ⟨h1, h2⟩ := C47_signal_table o h
  rw [h1, h2, hi]
  have hl : (o.ti.col "rsi").length = o.getTiData.idx.length := by
    have := h.sound.shaped.tcol "rsi" (by rw [hi]; simp [Spec.columns])
    exact this
  have key : ∀ P : Val → Val → Prop, (2 ≤ o.getTiData.idx.length ∧ P (before 1 (o.ti.col "rsi")) (before 0 (o.ti.col "rsi"))) ↔
      ∃ pre a b, o.ti.col "rsi" = pre ++ [a, b] ∧ P a b := by
    intro P
    rw [← hl]
    constructor
    · rintro ⟨h2, hP⟩
      obtain ⟨pre, hpre⟩ := last_two _ h2
      refine ⟨pre, _, _, hpre, ?_⟩
      rw [hpre] at hP
      simpa [before] using hP
    · rintro ⟨pre, a, b, hpre, hP⟩
      rw [hpre]
      exact ⟨by simp, by simpa [before] using hP⟩
  exact ⟨key fun a b => Val.lt 30 a = true ∧ Val.lt b 30 = true, key fun a b => Val.lt a 70 = true ∧ Val.lt 70 b = true⟩

/-! ## Never selling -/

theorem never_sells (ind : Ind) (F T : Frame) (hn : NeverSells ind) : ¬ (rule F T ind).sell := by
  cases ind <;> first | exact False.elim hn | exact fun h => h

/-- C36: Moving Average, Negative Volume Index, Typical Price, Double Exponential Moving Average and Ultimate Oscillator
never return sell, on no data and with no parameters, also not on the cut data of the simulation. -/
theorem C36_never_sells (o : Obj) (h : Reachable o) (hn : NeverSells o.ind) : o.getTiSignal ≠ .ok .sell := by
  intro hs
  exact never_sells _ _ _ hn ((C47_signal_table o h).2.1 hs).2

/-- C36: a simulation driven by one of these classes has no sell signal, opens no short and ends with none. -/
theorem C36_no_short (E : Env) (c : Call) (f : RawFrame) (fill : Bool) (o : Obj) (hw : WF f)
    (h : (construct E c (.frame f) (.bool fill)).2 = .ok o) (hn : NeverSells o.ind) (close : InputArg) (m fac : PyArg)
    (r : SimResult) (hr : (o.getTiSimulation close m fac).2.2 = .ok r) :
    r.stats.sellSignals = 0 ∧ r.stats.lastOpenShort = 0 ∧
    ∀ row, some row ∈ r.rows → row.signal ≠ .sell ∧ row.action ≠ .short := by
  obtain ⟨-, hlen, hrows, S, sig, -, hsig, st, hst, hstats, hrow⟩ := C23_rounds E c f fill o hw h close m fac r hr
  have hns : ∀ i < o.getTiData.idx.length, sig i ≠ .sell := by
    intro i hi hs
    obtain ⟨o', hc, ho'⟩ := hsig i hi
    have hro : Reachable o' := ⟨E, c, f, fill, o, hw, h, Or.inr ⟨i, hc⟩⟩
    refine C36_never_sells o' hro ?_ (by rw [ho', hs])
    rw [(cut_sound _ _ (construct_sound E c f fill o hw h).1 i hc).2.1]
    exact hn
  set ds := (List.range o.getTiData.idx.length).map fun i => (S.close.getD i .nan, sig i) with hds
  have hcount : countSignal .sell ds = 0 := by
    unfold countSignal
    rw [List.countP_eq_zero]
    intro d hd
    obtain ⟨i, hi, rfl⟩ := List.mem_map.1 hd
    simpa using hns i (List.mem_range.1 hi)
  obtain ⟨-, -, hsell, -⟩ := C09_signal_counts S.params ds r.stats (by rw [hstats, hst])
  obtain ⟨-, hign⟩ := C09_ignored_counts S.params ds r.stats (by rw [hstats, hst])
  rw [hsell, hcount] at hign
  have hshort : (Sim.run S.params ds).portfolio.countP (fun p => p.side == .short) = 0 := by omega
  have hsig0 : ((Sim.run S.params ds).rows.filter fun x => x.signal == .sell).length = 0 := by
    rw [filter_signal_length, hcount]
  have hx : ∀ x ∈ (Sim.run S.params ds).rows, x.signal ≠ .sell := by
    intro x hx hs
    rw [List.length_eq_zero_iff, List.filter_eq_nil_iff] at hsig0
    exact hsig0 x hx (by simp [hs])
  refine ⟨by rw [hsell, hcount], ?_, fun row hrowmem => ?_⟩
  · rw [hstats, hst]
    show Sim.countOpen .short _ = 0
    unfold Sim.countOpen
    rw [List.length_eq_zero_iff, List.filter_eq_nil_iff]
    intro p hp
    have := List.countP_eq_zero.1 hshort p hp
    simp only [Bool.and_eq_true, not_and]
    intro hc
    exact absurd hc this
  · obtain ⟨i, hi⟩ := List.mem_iff_getElem?.1 hrowmem
    have hi1 : i < f.idx.length := by
      rw [← hlen]; exact (List.getElem?_eq_some_iff.1 hi).1
    have hi2 := (hrows i hi1).1 ⟨row, hi⟩
    obtain ⟨row', hr1, hr2⟩ := hrow i hi2
    rw [hi] at hr2
    simp only [Option.some.injEq] at hr2
    subst hr2
    rw [hst] at hr1
    have := hx _ (List.mem_of_getElem? hr1)
    exact ⟨this, fun ha => this ((action_matches _ _ _ _ hr1).2 ha)⟩

/-- Rising prices: the moving average of one row gives a buy on the second. -/
example : ∃ o, (construct demoEnv (.movingAverage (.int 2) (.str "simple")) (.frame demoPrices) (.bool true)).2 = .ok o ∧
    NeverSells o.ind ∧ o.getTiSignal = .ok .buy := by
  refine ⟨⟨.movingAverage 2 .simple, ⟨[1, 2], [("close", [.fin 10, .fin 12])]⟩, ⟨[1, 2], [("ma-simple", [.nan, .fin 11])]⟩⟩,
    by decide +kernel, trivial, by decide +kernel⟩

/-! ## The Ultimate Oscillator -/

/-- C37: the exact condition: 30 rows, the lows of close and oscillator over the last 30 rows on different rows, and the
last oscillator value above 1 (above 0 if one of the 29 values before it is 0). The documented thresholds do not occur. -/
theorem C37_characterisation (o : Obj) (h : Reachable o) (hi : o.ind = .ultimateOscillator) :
    o.getTiSignal = .ok .buy ↔
      30 ≤ o.getTiData.idx.length ∧ ¬ SameLow (window 30 (o.input.col "close")) (window 30 (o.ti.col "uosc")) ∧
      (Val.lt 1 (before 0 (o.ti.col "uosc")) = true ∨
        Val.lt 0 (before 0 (o.ti.col "uosc")) = true ∧ ∃ k, 1 ≤ k ∧ k < 30 ∧ before k (o.ti.col "uosc") = 0) := by
  have h1 := (C47_signal_table o h).1
  rw [hi] at h1
  rw [h1]
  show 30 ≤ _ ∧ _ ∧ _ ↔ _
  have h01 : ∀ v : Val, Val.lt 1 v = true → Val.lt 0 v = true := fun v => Val.lt_trans _ _ _ (by decide)
  grind

/-- Prices for the witness: constant but for one day with a low far below its close. -/
def divergence : RawFrame :=
  ⟨true, (List.range 58).map Int.ofNat,
    [⟨.str "high", true, List.replicate 58 (.fin 11)⟩,
     ⟨.str "low", true, List.replicate 40 (.fin 9) ++ [.fin 5] ++ List.replicate 17 (.fin 9)⟩,
     ⟨.str "close", true, List.replicate 40 (.fin 10) ++ [.fin (99 / 10)] ++ List.replicate 17 (.fin 10)⟩]⟩

/-- The decision data of the witness. -/
def Undocumented (r : Except Err Obj) : Bool :=
  match r with
  | .error _ => false
  | .ok o =>
    decide (o.ind = .ultimateOscillator) && (window 30 (o.ti.col "uosc")).all (fun v => Val.lt 30 v) &&
    (window 30 (o.ti.col "uosc")).any (fun v => Val.lt (before 0 (o.ti.col "uosc")) v) &&
    decide (o.getTiSignal = .ok .buy)

theorem divergence_undocumented :
    Undocumented (construct demoEnv .ultimateOscillator (.frame divergence) (.bool true)).2 = true := by decide +kernel

/-- C37: there are data with all of the last 30 oscillator values above 30, and one of them above the last one, for which
the signal is buy. -/
theorem C37_witness : ∃ o, (construct demoEnv .ultimateOscillator (.frame divergence) (.bool true)).2 = .ok o ∧
    (∀ v ∈ window 30 (o.ti.col "uosc"), Val.lt 30 v = true) ∧
    (∃ v ∈ window 30 (o.ti.col "uosc"), Val.lt (before 0 (o.ti.col "uosc")) v = true) ∧ o.getTiSignal = .ok .buy := by
  have h := divergence_undocumented
  cases hc : (construct demoEnv .ultimateOscillator (.frame divergence) (.bool true)).2 with
  | error e => rw [hc] at h; simp [Undocumented] at h
  | ok o =>
    rw [hc] at h
    simp only [Undocumented, Bool.and_eq_true, List.all_eq_true, List.any_eq_true, decide_eq_true_eq] at h
    exact ⟨o, rfl, h.1.1.2, h.1.2, h.2⟩

/-! ## Ichimoku -/

theorem shift_take_nan (k : ℕ) (xs : List Val) (n : ℕ) (h : n ≤ k) : ∀ v ∈ (shift k xs).take n, v = .nan := by
  intro v hv
  unfold shift at hv
  rw [List.take_take, List.take_append_of_le_length (by simp; omega)] at hv
  exact List.eq_of_mem_replicate (List.mem_of_mem_take hv)

theorem before_mem (k : ℕ) (xs : List Val) : before k xs = .nan ∨ before k xs ∈ xs := by
  unfold before
  by_cases h : k < xs.reverse.length
  · right
    rw [List.getD_eq_getElem _ _ h, ← List.mem_reverse]
    exact List.getElem_mem _
  · left; exact List.getD_eq_default _ _ (by omega)

/-- The cloud is missing on the first 26 rows. -/
theorem cloud_missing (o : Obj) (h : Reachable o) (hi : o.ind = .ichimokuCloud) (hl : o.getTiData.idx.length ≤ 26) :
    before 0 (o.ti.col "senkou_a") = .nan ∧ before 0 (o.ti.col "senkou_b") = .nan := by
  have key : ∀ name ∈ ["senkou_a", "senkou_b"], ∀ v ∈ o.ti.col name, v = .nan := by
    intro name hname v hv
    have hlen : (o.ti.col name).length ≤ 26 := by
      rw [h.sound.shaped.tcol name (by rw [hi]; simp [Spec.columns] at hname ⊢; tauto)]
      exact hl
    obtain ⟨E, c, f, fill, o₁, hw, hc, hcut⟩ := h
    have hs := (construct_sound E c f fill o₁ hw hc).1
    have hind : o₁.ind = .ichimokuCloud := by
      rcases hcut with rfl | ⟨i, hcut⟩
      · exact hi
      · rw [← hi, (cut_sound _ _ hs i hcut).2.1]
    obtain ⟨ind, F, T, -, -, hT, rfl⟩ := (construct_ok_iff _ _ _ _ _).1 hc
    simp only at hind
    subst hind
    have htake : ∃ n, o.ti.col name = (T.col name).take n := by
      rcases hcut with rfl | ⟨i, hcut⟩
      · exact ⟨(T.col name).length, List.take_length.symm⟩
      · by_cases hlt : i < T.len
        · obtain ⟨d, -, -, h3⟩ := cut_eq _ hs i hlt
          rw [h3] at hcut
          simp only [Option.some.injEq] at hcut
          subst hcut
          exact ⟨_, Frame.take_col _ _ _⟩
        · rw [cut_none _ i (by simpa using hlt)] at hcut
          simp at hcut
    obtain ⟨n, hn⟩ := htake
    have hcol : ∃ xs, T.col name = roundS 4 (shift 26 xs) := by
      cases hT
      simp only [List.mem_cons, List.not_mem_nil, or_false] at hname
      rcases hname with rfl | rfl
      · exact ⟨_, rfl⟩
      · exact ⟨_, rfl⟩
    obtain ⟨xs, hxs⟩ := hcol
    rw [hn, hxs] at hv hlen
    have h26 : (roundS 4 (shift 26 xs)).take n = ((roundS 4 (shift 26 xs)).take n).take 26 := by
      rw [List.take_of_length_le hlen]
    rw [h26, List.take_take, roundS, ← List.map_take] at hv
    obtain ⟨u, hu, rfl⟩ := List.mem_map.1 hv
    rw [shift_take_nan 26 xs _ (by omega) u hu]
    rfl
  constructor
  · rcases before_mem 0 (o.ti.col "senkou_a") with h0 | h0
    · exact h0
    · exact key _ (by simp) _ h0
  · rcases before_mem 0 (o.ti.col "senkou_b") with h0 | h0
    · exact h0
    · exact key _ (by simp) _ h0

/-- C38: on at most 26 rows (in particular when the simulation cuts the data there) the Ichimoku indicator never gives a
sell, and gives a buy exactly when the tenkan line overtakes the kijun line, whatever the prices are. -/
theorem C38_without_cloud (o : Obj) (h : Reachable o) (hi : o.ind = .ichimokuCloud) (hl : o.getTiData.idx.length ≤ 26) :
    o.getTiSignal ≠ .ok .sell ∧
    (o.getTiSignal = .ok .buy ↔ 2 ≤ o.getTiData.idx.length ∧
      Val.lt (before 1 (o.ti.col "tenkan_sen")) (before 1 (o.ti.col "kijun_sen")) = true ∧
      Val.lt (before 0 (o.ti.col "kijun_sen")) (before 0 (o.ti.col "tenkan_sen")) = true) := by
  obtain ⟨ha, hb⟩ := cloud_missing o h hi hl
  obtain ⟨h1, h2⟩ := C47_signal_table o h
  rw [hi] at h1 h2
  rw [h1, Ne, h2]
  simp only [rule, ha, hb, AboveCloud, BelowCloud, le_nan, Overtakes]
  constructor
  · rintro ⟨-, ho, hc, ht, hk⟩
    simp at hc
  · simp

/-- Prices for the witness: a fall, a quiet stretch, a jump. -/
def jump : RawFrame :=
  let p : List Val := [.fin 100, .fin 10] ++ List.replicate 9 (.fin 20) ++ [.fin 300]
  ⟨true, (List.range 12).map Int.ofNat, [⟨.str "high", true, p⟩, ⟨.str "low", true, p⟩, ⟨.str "close", true, p.map fun _ => .fin 1⟩]⟩

/-- C38: a buy without a cloud, with every close below both lines. -/
theorem C38_witness : ((construct demoEnv .ichimokuCloud (.frame jump) (.bool true)).2.map fun o =>
    (o.getTiData.idx.length, o.getTiSignal)) = .ok (12, .ok .buy) := by decide +kernel

end TTI.Props
