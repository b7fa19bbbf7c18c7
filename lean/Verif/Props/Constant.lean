import Verif.Lemmas.Constant
import Verif.Props.Averages
import Verif.Props.Signals
import Verif.Props.Api
import Verif.Props.Sim2

set_option autoImplicit false

/-!
# Constant closes: C50

`o.getTiData.day name i` is the indicator's value of the `i`-th day. The table of values is `Spec.onConstant`.
-/

namespace TTI.Props

open Spec

theorem constant_setup (E : Env) (c : Call) (f : RawFrame) (fill : Bool) (o : Obj) (hw : WF f)
    (h : (construct E c (.frame f) (.bool fill)).2 = .ok o) (K : ℚ) (hb : f.EachRow o.ind.required (ConstantClose K))
    (hr : "close" ∈ o.ind.required) :
    ∃ F, F.len = f.idx.length ∧ Step (F.col "close") F.len 0 K ∧ o.ind.calcTi E F = .ok o.ti ∧ o.ind.Pos ∧
      o.input = o.ind.inputAfter F := by
  obtain ⟨F, x, hg, hlen, -, h1, h2, h3, h4, ht, hin, hc⟩ := construct_days E c f fill o _ hw h hb
  refine ⟨F, hlen, ⟨h1 _ hr, fun i hi => ?_⟩, ht, check_pos c o.ind hc, hin⟩
  rw [h2 _ hr i hi, if_neg (by omega)]
  have : x "close" i = K := h4 i hi
  rw [this]

/-- C50: on constant closes every column of the table is missing before its first day and has the table's value from then
on: averages (and the Bollinger bands) reproduce the constant, MACD, its signal line, price oscillator, rate of change,
standard deviation and regression slope are 0, momentum is 100. All constants, lengths and parameters; the three indicators
that divide by the close need a constant other than 0. -/
theorem C50_values (E : Env) (hE : E.sq 0 = 0) (c : Call) (f : RawFrame) (fill : Bool) (o : Obj) (hw : WF f)
    (h : (construct E c (.frame f) (.bool fill)).2 = .ok o) (K : ℚ) (hb : f.EachRow o.ind.required (ConstantClose K))
    (hK : DividesByClose o.ind → K ≠ 0) (e : Flat) (he : e ∈ onConstant K o.ind) (i : ℕ) (hi : i < f.idx.length) :
    o.getTiData.day e.column i = if i < e.first then .nan else .fin e.value := by
  have hr : "close" ∈ o.ind.required := by
    cases hoi : o.ind <;> rw [hoi] at he <;> simp [Ind.required, onConstant] at he ⊢
  obtain ⟨F, hlen, hc, ht, hp, -⟩ := constant_setup E c f fill o hw h K hb hr
  exact (constant_step E hE o.ind hp F o.ti K hc ht hK e he).val i (by omega)

/-- C50: the detrended price oscillator is 0 on all its days (it has none for the last `p/2+1` days) that are far enough
from the start. -/
theorem C50_detrended (E : Env) (c : Call) (f : RawFrame) (fill : Bool) (o : Obj) (hw : WF f)
    (h : (construct E c (.frame f) (.bool fill)).2 = .ok o) (K : ℚ) (hb : f.EachRow o.ind.required (ConstantClose K))
    (p : ℕ) (ho : o.ind = .detrendedPriceOscillator p) :
    o.getTiData.idx.length = f.idx.length - (1 + p / 2) ∧
    ∀ i < f.idx.length - (1 + p / 2), o.getTiData.day "dpo" i = if i + (1 + p / 2) < p - 1 then .nan else .fin 0 := by
  obtain ⟨F, hlen, hc, ht, hp, -⟩ := constant_setup E c f fill o hw h K hb (by rw [ho]; simp [Ind.required])
  rw [ho] at ht hp
  obtain ⟨h1, h2⟩ := dpo_step p hp F o.ti K hc ht
  refine ⟨by rw [← hlen]; exact h2, fun i hi => ?_⟩
  show val (o.ti.col "dpo") i = _
  rw [h1.val i (by omega)]
  split_ifs <;> first | omega | rfl

/-- C50: the variable moving average is the exception: on constant closes the volatility index it uses is 0/0, so it has
the constant as value on day 21 (its first day) and no value on all later days. -/
theorem C50_variable_average (E : Env) (c : Call) (f : RawFrame) (fill : Bool) (o : Obj) (hw : WF f)
    (h : (construct E c (.frame f) (.bool fill)).2 = .ok o) (K : ℚ) (hb : f.EachRow o.ind.required (ConstantClose K))
    (p : ℕ) (ho : o.ind = .movingAverage p .variableType) (i : ℕ) (hi : i < f.idx.length) :
    o.getTiData.day "ma-variable" i = if i = 21 then .fin (roundQ 4 K) else .nan := by
  obtain ⟨F, hlen, hc, ht, hp, -⟩ := constant_setup E c f fill o hw h K hb (by rw [ho]; simp [Ind.required])
  rw [ho] at ht
  exact variable_constant p F o.ti K hc ht i (by omega)

/-- C50: the Chande momentum oscillator has no value at all on constant closes. -/
theorem C50_chande_undefined (E : Env) (c : Call) (f : RawFrame) (fill : Bool) (o : Obj) (hw : WF f)
    (h : (construct E c (.frame f) (.bool fill)).2 = .ok o) (K : ℚ) (hb : f.EachRow o.ind.required (ConstantClose K))
    (p : ℕ) (ho : o.ind = .chandeMomentumOscillator p) (i : ℕ) : o.getTiData.day "cmo" i = .nan := by
  obtain ⟨F, hlen, hc, ht, hp, -⟩ := constant_setup E c f fill o hw h K hb (by rw [ho]; simp [Ind.required])
  rw [ho] at ht hp
  exact cmo_constant p hp F o.ti K hc ht i

/-- The object and all its cuts have flat data. -/
theorem constant_flat (E : Env) (hE : E.sq 0 = 0) (c : Call) (f : RawFrame) (fill : Bool) (o o' : Obj) (hw : WF f)
    (h : (construct E c (.frame f) (.bool fill)).2 = .ok o) (K : ℚ) (hb : f.EachRow o.ind.required (ConstantClose K))
    (hK : DividesByClose o.ind → K ≠ 0) (hr : "close" ∈ o.ind.required) (hin : ∀ F, o.ind.inputAfter F = F)
    (ho : o' = o ∨ ∃ i, o.cut i = some o') :
    o'.ind = o.ind ∧ o'.ind.Pos ∧ FlatData K o'.ind o'.input o'.ti ∧ Shaped o'.ind o'.input o'.ti := by
  obtain ⟨F, hlen, hc, ht, hp, hi⟩ := constant_setup E c f fill o hw h K hb hr
  rw [hin] at hi
  obtain ⟨hs, -⟩ := construct_sound E c f fill o hw h
  have hsh : Shaped o.ind F o.ti := by rw [← hi]; exact hs.shaped
  have fd := flatData E hE o.ind hp F o.ti K hc ht hK hsh
  rw [← hi] at fd
  rcases ho with rfl | ⟨i, hcut⟩
  · exact ⟨rfl, hp, fd, hs.shaped⟩
  · obtain ⟨hs', hind, hpos⟩ := cut_sound o o' hs i hcut
    refine ⟨hind, by rw [hind]; exact hp, ?_, hs'.shaped⟩
    have hlt : i < o.ti.len := by
      by_contra hcon
      rw [cut_none o i (by omega)] at hcut
      simp at hcut
    obtain ⟨d, -, -, h3⟩ := cut_eq o hs i hlt
    rw [h3] at hcut
    simp only [Option.some.injEq] at hcut
    subst hcut
    exact fd.take _ _

/-- C50: on constant closes the indicators that compare successive days hold, on the whole data and on every day of a
simulation. -/
theorem C50_signal (E : Env) (hE : E.sq 0 = 0) (c : Call) (f : RawFrame) (fill : Bool) (o o' : Obj) (hw : WF f)
    (h : (construct E c (.frame f) (.bool fill)).2 = .ok o) (K : ℚ) (hb : f.EachRow o.ind.required (ConstantClose K))
    (hK : DividesByClose o.ind → K ≠ 0) (hd : ComparesDays o.ind) (ho : o' = o ∨ ∃ i, o.cut i = some o') :
    o'.getTiSignal = .ok .hold := by
  obtain ⟨hind, hp, fd, hsh⟩ := constant_flat E hE c f fill o o' hw h K hb hK
    (by cases hoi : o.ind <;> rw [hoi] at hd <;> simp [Ind.required, ComparesDays] at hd ⊢)
    (by cases hoi : o.ind <;> rw [hoi] at hd <;> simp [Ind.inputAfter, ComparesDays] at hd ⊢) ho
  exact constant_signal o'.ind hp o'.input o'.ti K fd hsh (by rw [hind]; exact hd)

/-- C50: moving averages (all types), double and triple exponential averages and Bollinger bands compare the close with a
value rounded to 4 decimals; they hold if the constant has at most 4 decimals. -/
theorem C50_level_signal (E : Env) (hE : E.sq 0 = 0) (c : Call) (f : RawFrame) (fill : Bool) (o o' : Obj) (hw : WF f)
    (h : (construct E c (.frame f) (.bool fill)).2 = .ok o) (n : ℤ)
    (hb : f.EachRow o.ind.required (ConstantClose ((n : ℚ) / 10000)))
    (hd : ComparesLevel o.ind) (ho : o' = o ∨ ∃ i, o.cut i = some o') : o'.getTiSignal = .ok .hold := by
  have h4 : roundQ 4 ((n : ℚ) / 10000) = (n : ℚ) / 10000 := by
    have := roundQ_div 4 n
    norm_num at this
    exact this
  obtain ⟨hind, hp, fd, hsh⟩ := constant_flat E hE c f fill o o' hw h _ hb
    (by cases hoi : o.ind <;> rw [hoi] at hd <;> simp [DividesByClose, ComparesLevel] at hd ⊢)
    (by cases hoi : o.ind <;> rw [hoi] at hd <;> simp [Ind.required, ComparesLevel] at hd ⊢)
    (by cases hoi : o.ind <;> rw [hoi] at hd <;> simp [Ind.inputAfter, ComparesLevel] at hd ⊢) ho
  exact constant_level_signal o'.ind o'.input o'.ti _ h4 fd hsh (by rw [hind]; exact hd)

/-- An object whose signal is hold on every day of a simulation never opens a position. -/
theorem hold_never_trades (E : Env) (c : Call) (f : RawFrame) (fill : Bool) (o : Obj) (hw : WF f)
    (h : (construct E c (.frame f) (.bool fill)).2 = .ok o)
    (hh : ∀ (i : ℕ) (o' : Obj), o.cut i = some o' → o'.getTiSignal = .ok .hold) (close : InputArg) (m fac : PyArg) (r : SimResult)
    (hr : (o.getTiSimulation close m fac).2.2 = .ok r) :
    (∀ (i : ℕ) (row : Sim.Row Val), r.rows[i]? = some (some row) → row.signal = .hold ∧ row.action = .none) ∧
    r.stats.buySignals = 0 ∧ r.stats.sellSignals = 0 ∧ r.stats.lastOpenLong = 0 ∧ r.stats.lastOpenShort = 0 := by
  obtain ⟨-, hlen, hrows, S, sig, -, hsig, st, hst, hstats, hget⟩ := C23_rounds E c f fill o hw h close m fac r hr
  have hhold : ∀ i < o.getTiData.idx.length, sig i = .hold := fun i hi => by
    obtain ⟨o', h1, h2⟩ := hsig i hi
    have := hh i o' h1
    rw [h2] at this
    simpa using this
  generalize hds : ((List.range o.getTiData.idx.length).map fun i => (S.close.getD i .nan, sig i)) = ds at hst
  have hdh : ∀ d ∈ ds, d.2 = Signal.hold := by
    intro d hd
    rw [← hds] at hd
    simp only [List.mem_map, List.mem_range] at hd
    obtain ⟨i, hi, rfl⟩ := hd
    exact hhold i hi
  have hrow : ∀ (i : ℕ) (row : Sim.Row Val), st.rows[i]? = some row → row.signal = .hold ∧ row.action = .none := by
    intro i row hi
    subst hst
    have h1 : row.signal = .hold := hdh _ (List.mem_of_getElem? (Sim.row_day _ _ _ _ hi))
    obtain ⟨h2, h3⟩ := action_matches _ _ _ _ hi
    refine ⟨h1, ?_⟩
    cases ha : row.action
    · rfl
    · have := h3 ha; rw [h1] at this; simp at this
    · have := h2 ha; rw [h1] at this; simp at this
  refine ⟨?_, ?_⟩
  · intro i row hi
    have hil : i < f.idx.length := by
      rw [← hlen]; exact (List.getElem?_eq_some_iff.1 hi).1
    have hi' := (hrows i hil).1 ⟨row, hi⟩
    obtain ⟨row', h1, h2⟩ := hget i hi'
    rw [hi] at h2
    simp only [Option.some.injEq] at h2
    subst h2
    exact hrow i _ h1
  · have hcount : ∀ s, s ≠ Signal.hold → countSignal s ds = 0 := by
      intro s hs
      unfold countSignal
      rw [List.countP_eq_zero]
      intro d hd
      rw [hdh d hd]
      simpa using fun h => hs h.symm
    obtain ⟨-, c1, c2, -⟩ := C09_signal_counts S.params ds r.stats (by rw [hstats, hst])
    obtain ⟨i1, i2⟩ := C09_ignored_counts S.params ds r.stats (by rw [hstats, hst])
    rw [hcount _ (by simp)] at c1 c2
    refine ⟨c1, c2, ?_, ?_⟩
    · rw [hstats, hst]
      simp only [Sim.statistics, Sim.countOpen, List.length_eq_zero_iff, List.filter_eq_nil_iff]
      have : ((Sim.run S.params ds).portfolio.countP fun p => p.side == .long) = 0 := by omega
      rw [List.countP_eq_zero] at this
      intro p hp
      have := this p hp
      simp_all
    · rw [hstats, hst]
      simp only [Sim.statistics, Sim.countOpen, List.length_eq_zero_iff, List.filter_eq_nil_iff]
      have : ((Sim.run S.params ds).portfolio.countP fun p => p.side == .short) = 0 := by omega
      rw [List.countP_eq_zero] at this
      intro p hp
      have := this p hp
      simp_all

/-- C50: hence a simulation on constant closes never opens a position, whatever the prices given to the simulation. -/
theorem C50_never_trades (E : Env) (hE : E.sq 0 = 0) (c : Call) (f : RawFrame) (fill : Bool) (o : Obj) (hw : WF f)
    (h : (construct E c (.frame f) (.bool fill)).2 = .ok o) (K : ℚ) (hb : f.EachRow o.ind.required (ConstantClose K))
    (hK : DividesByClose o.ind → K ≠ 0) (hd : ComparesDays o.ind) (close : InputArg) (m fac : PyArg) (r : SimResult)
    (hr : (o.getTiSimulation close m fac).2.2 = .ok r) :
    (∀ (i : ℕ) (row : Sim.Row Val), r.rows[i]? = some (some row) → row.signal = .hold ∧ row.action = .none) ∧
    r.stats.buySignals = 0 ∧ r.stats.sellSignals = 0 ∧ r.stats.lastOpenLong = 0 ∧ r.stats.lastOpenShort = 0 :=
  hold_never_trades E c f fill o hw h (fun i o' h1 => C50_signal E hE c f fill o o' hw h K hb hK hd (.inr ⟨i, h1⟩)) close m fac r hr

/-- Four closes of 12.5. -/
def demoConstant : RawFrame := ⟨true, [2, 1, 3, 4], [⟨.str "close", true, [.fin (25 / 2), .fin (25 / 2), .fin (25 / 2), .fin (25 / 2)]⟩]⟩

theorem demoConstant_rows : demoConstant.EachRow ["close"] (ConstantClose (25 / 2)) := by
  intro j hj
  have hj' : j < 4 := hj
  refine ⟨fun _ => 25 / 2, ?_, rfl⟩
  intro n hn
  rw [List.mem_singleton] at hn
  subst hn
  interval_cases j <;> decide +kernel

/-- The hypotheses and the values on these closes. -/
example : WF demoConstant ∧ demoConstant.EachRow (Ind.momentum 2).required (ConstantClose (25 / 2)) ∧
    ComparesDays (.momentum 2) ∧ ComparesLevel (.movingAverage 2 .triangular) ∧
    ((construct demoEnv (.momentum (.int 2)) (.frame demoConstant) (.bool true)).2.map fun o =>
      (o.ind, (List.range 4).map (o.getTiData.day "mom"), o.getTiSignal)) =
      .ok (.momentum 2, [.nan, .nan, .fin 100, .fin 100], .ok .hold) ∧
    ((construct demoEnv (.movingAverage (.int 2) (.str "triangular")) (.frame demoConstant) (.bool true)).2.map fun o =>
      (o.ind, (List.range 4).map (o.getTiData.day "ma-triangular"), o.getTiSignal)) =
      .ok (.movingAverage 2 .triangular, [.nan, .nan, .fin (25 / 2), .fin (25 / 2)], .ok .hold) := by
  refine ⟨by unfold WF; decide, demoConstant_rows, trivial, trivial, by decide +kernel, by decide +kernel⟩

/-- C50: with more decimals the level signals need not hold: on the constant 0.00014 the moving average is 0.0001, and the
signal is buy. -/
theorem C50_level_signal_witness (E : Env) :
    ((construct E (.movingAverage (.int 2) (.str "simple"))
      (.frame ⟨true, [1, 2, 3], [⟨.str "close", true, [.fin (14 / 100000), .fin (14 / 100000), .fin (14 / 100000)]⟩]⟩)
      (.bool true)).2.map fun o => o.getTiSignal) = .ok (.ok .buy) := by
  have : ∀ E₁ E₂ : Env, construct E₁ (.movingAverage (.int 2) (.str "simple"))
      (.frame ⟨true, [1, 2, 3], [⟨.str "close", true, [.fin (14 / 100000), .fin (14 / 100000), .fin (14 / 100000)]⟩]⟩) (.bool true) =
      construct E₂ (.movingAverage (.int 2) (.str "simple"))
      (.frame ⟨true, [1, 2, 3], [⟨.str "close", true, [.fin (14 / 100000), .fin (14 / 100000), .fin (14 / 100000)]⟩]⟩) (.bool true) :=
    fun _ _ => rfl
  rw [this E demoEnv]
  decide +kernel

end TTI.Props
