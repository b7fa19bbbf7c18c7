import Verif.Lemmas.Plot
import Verif.Props.Signals
import Verif.Props.Fill

set_option autoImplicit false

/-!
# Graphs (C62, C63)

The statements are about the lines, areas and legends of a graph; `Spec.shownInputs` and `Spec.onePanel` are the tables of what
the graph of an indicator is expected to show.
-/

namespace TTI.Props

open Spec

/-- All lines of a graph, panel by panel. -/
def allLines (g : Graph) : List Line := g.panels.flatten

/-- An object after any sequence of API calls, with good or bad arguments and also after simulations that raised. -/
def Used (o : Obj) : Prop := ∃ o₁ cs, Reachable o₁ ∧ o = (o₁.steps cs).1

theorem Reachable.used {o : Obj} (h : Reachable o) : Used o := ⟨o, [], h, rfl⟩

theorem simRounds_sound (full : Obj) (S : SimSetup) (hf : full.Sound) (is : List ℕ) (now : Obj) (st : Sim.State Val)
    (hn : now.Sound) : (simRounds full S is now st).1.Sound := by
  induction is generalizing now st with
  | nil => exact hn
  | cons i is ih =>
    unfold simRounds
    cases hc : full.cut i with
    | none => exact hn
    | some o =>
      have ho := (cut_sound _ _ hf i hc).1
      simp only
      cases o.getTiSignal with
      | error e => exact ho
      | ok s => exact ih o _ ho

theorem step_sound (o : Obj) (h : o.Sound) (c : ApiCall) : (o.step c).1.Sound := by
  cases c with
  | getTiData => exact h
  | getTiValue d => exact h
  | getTiSignal => exact h
  | getTiSimulation close m fac =>
    simp only [Obj.step, Obj.getTiSimulation]
    split
    · exact h
    · next caller S hS =>
      have hr := simRounds_sound o S h (List.range o.ti.len) o Sim.State.init h
      split
      · next o' e hse => rw [hse] at hr; exact hr
      · exact h

theorem Used.sound {o : Obj} (h : Used o) : o.Sound := by
  obtain ⟨o₁, cs, h1, rfl⟩ := h
  have h2 := h1.sound
  clear h1
  induction cs generalizing o₁ with
  | nil => exact h2
  | cons c cs ih => exact ih _ (step_sound _ h2 c)

theorem graph_eq (o : Obj) (h : Used o) :
    let p := o.ind.graphProperties
    let cs := (shownInputs o.ind).map fun n => (n, o.input.col n)
    let Fs : List Frame := if onePanel o.ind then [⟨o.input.idx, cs ++ o.ti.cols⟩] else [⟨o.input.idx, cs⟩, o.ti]
    o.getTiGraph = match areasOf Fs (p.areas.getD []) with
      | .error e => .error e
      | .ok as => .ok ⟨p.longName, "Date", p.yLabel, graphPanels p.colors p.alphas 0 Fs,
          graphLegends (graphPanels p.colors p.alphas 0 Fs), as⟩ := by
  have hs := h.sound.shaped
  have hsel : o.input.select (shownInputs o.ind) = .ok ((shownInputs o.ind).map fun n => (n, o.input.col n)) :=
    select_ok _ _ fun n hn => hs.inputHas n (shown_input _ n hn)
  unfold Obj.getTiGraph
  simp only [inputColumns_graph, hsel, subplots_graph]
  cases onePanel o.ind <;> simp only [linesGraph, plotFrames, Bool.not_false, Bool.not_true, Bool.false_eq_true, if_true, if_false] <;>
    split <;> simp_all

theorem areas_ok (o : Obj) (h : Used o) :
    let cs := (shownInputs o.ind).map fun n => (n, o.input.col n)
    let Fs : List Frame := if onePanel o.ind then [⟨o.input.idx, cs ++ o.ti.cols⟩] else [⟨o.input.idx, cs⟩, o.ti]
    areasOf Fs (o.ind.graphProperties.areas.getD []) = .ok (if o.ind = .ichimokuCloud then
      [⟨.dates o.input.idx, .numbers (o.ti.col "senkou_a"), .numbers (o.ti.col "senkou_b"), "lightblue"⟩] else []) := by
  have hs := h.sound.shaped
  intro cs Fs
  by_cases hi : o.ind = .ichimokuCloud
  · have hn := hs.tiNames
    have hc : ∀ n ∈ ["senkou_a", "senkou_b"], (⟨o.input.idx, cs ++ o.ti.cols⟩ : Frame).column n = .ok (o.ti.col n) := by
      intro n hmem
      have h1 : n ∈ o.ti.cols.map (·.1) := by
        rw [hn, hi]; simp only [columns]; revert hmem; simp
        rintro (rfl | rfl) <;> simp
      have h2 : ∀ c ∈ cs, ¬ (c.1 == n) = true := by
        intro c hc
        simp only [cs, hi, shownInputs, List.map_cons, List.map_nil, List.mem_singleton] at hc
        subst hc
        revert hmem; simp
        rintro (rfl | rfl) <;> decide
      have h3 := column_ok o.ti n h1
      unfold Frame.column at h3 ⊢
      rw [List.find?_append, List.find?_eq_none.2 h2]
      exact h3
    have hF : Fs = [⟨o.input.idx, cs ++ o.ti.cols⟩] := by simp only [Fs, hi, onePanel, if_true]
    rw [hF, if_pos hi, hi]
    simp only [Ind.graphProperties, Option.getD_some, areasOf, areaOf, areaValue, List.getElem?_cons_zero,
      hc "senkou_a" (by simp), hc "senkou_b" (by simp)]
  · rw [if_neg hi]
    have : o.ind.graphProperties.areas = none := by
      revert hi; cases o.ind <;> simp [Ind.graphProperties]
    rw [this]; rfl

/-- The panels of the graph of an object. -/
theorem graph_panels (o : Obj) (h : Used o) :
    let p := o.ind.graphProperties
    let cs := (shownInputs o.ind).map fun n => (n, o.input.col n)
    ∃ g, o.getTiGraph = .ok g ∧
      g.panels = (if onePanel o.ind then [frameLines p.colors p.alphas o.input.idx 0 (cs ++ o.ti.cols)]
        else [frameLines p.colors p.alphas o.input.idx 0 cs, frameLines p.colors p.alphas o.ti.idx cs.length o.ti.cols]) ∧
      g.legends = graphLegends g.panels ∧
      g.areas = (if o.ind = .ichimokuCloud then
        [⟨.dates o.input.idx, .numbers (o.ti.col "senkou_a"), .numbers (o.ti.col "senkou_b"), "lightblue"⟩] else []) := by
  intro p cs
  have h1 := graph_eq o h
  have h2 := areas_ok o h
  simp only at h1 h2
  rw [h2] at h1
  refine ⟨_, h1, ?_, rfl, rfl⟩
  cases onePanel o.ind
  · simp only [Bool.false_eq_true, if_false, graphPanels, p, cs, Nat.zero_add]
  · simp only [if_true, graphPanels, p, cs]

/-- C62: wherever the input and the indicator are drawn in one panel they have the same dates. -/
theorem C62_same_dates (o : Obj) (h : Used o) (h1 : onePanel o.ind = true) : o.getTiData.idx = o.input.idx := by
  have hs := h.sound
  have := hs.shaped.rowsEq (by rintro p hp; rw [hp] at h1; cases h1)
  show o.ti.idx = _
  rw [hs.dates, this]
  exact List.take_of_length_le (le_refl _)

/-- C62: `getTiGraph` never fails. The graph has one panel or two, with the lines of the table in their order and the legends
of the panels that have lines; every line of the indicator shows a column of the indicator data on its dates, every other line a
column of the (validated) input on all its dates. -/
theorem C62_lines (o : Obj) (h : Used o) :
    ∃ g, o.getTiGraph = .ok g ∧
      (g.panels.map fun p => p.map (·.label)) =
        (if onePanel o.ind then [shownInputs o.ind ++ columns o.ind] else [shownInputs o.ind, columns o.ind]) ∧
      g.legends = (g.panels.map fun p => p.map (·.label)) ∧
      ∀ l ∈ allLines g,
        (l.label ∈ columns o.ind ∧ l.label ∉ shownInputs o.ind ∧ l.x = o.getTiData.idx ∧ l.y = o.getTiData.col l.label) ∨
        (l.label ∈ shownInputs o.ind ∧ l.label ∉ columns o.ind ∧ l.x = o.input.idx ∧ l.y = o.input.col l.label) := by
  obtain ⟨g, hg, hp, hl, -⟩ := graph_panels o h
  have hs := h.sound.shaped
  have hn : (o.ti.cols.map (·.1)) = columns o.ind := hs.tiNames
  have hnd := shown_nodup o.ind
  have hti : ∀ c ∈ o.ti.cols, o.ti.col c.1 = c.2 := by
    intro c hc
    apply col_of_mem _ _ _ hc
    rw [hn]; exact (List.nodup_append.1 hnd).2.1
  have hdis : ∀ n ∈ shownInputs o.ind, n ∉ columns o.ind := by
    intro n h1 h2
    exact (List.nodup_append.1 hnd).2.2 n h1 n h2 rfl
  have hcs : ((shownInputs o.ind).map fun n => (n, o.input.col n)).map (·.1) = shownInputs o.ind := by
    rw [List.map_map]; exact List.map_id _
  have hlab : (g.panels.map fun p => p.map (·.label)) =
      (if onePanel o.ind then [shownInputs o.ind ++ columns o.ind] else [shownInputs o.ind, columns o.ind]) := by
    rw [hp]
    split
    · simp only [List.map_cons, List.map_nil, frameLines_label, List.map_append, hcs, hn]
    · simp only [List.map_cons, List.map_nil, frameLines_label, hcs, hn]
  have hcol : columns o.ind ≠ [] := by
    cases o.ind
    case movingAverage p t => cases t <;> simp [columns]
    case performance l p => cases l <;> simp [columns]
    all_goals simp [columns]
  have hshown : onePanel o.ind = false → shownInputs o.ind ≠ [] := by
    cases o.ind <;> simp [onePanel, shownInputs]
  refine ⟨g, hg, hlab, ?_, ?_⟩
  · rw [hl]
    rcases hob : onePanel o.ind with _ | _
    · rw [hob] at hlab
      simp only [Bool.false_eq_true, if_false] at hlab
      rcases hgp : g.panels with _ | ⟨a, _ | ⟨b, _ | ⟨c, l⟩⟩⟩ <;> rw [hgp] at hlab <;>
        simp only [List.map_cons, List.map_nil, reduceCtorEq, List.cons.injEq, and_false, and_true] at hlab
      have ha : a ≠ [] := by rintro rfl; exact hshown hob hlab.1.symm
      have hb : b ≠ [] := by rintro rfl; exact hcol hlab.2.symm
      simp [graphLegends, ha, hb]
    · rw [hob] at hlab
      simp only [if_true] at hlab
      rcases hgp : g.panels with _ | ⟨a, _ | ⟨b, l⟩⟩ <;> rw [hgp] at hlab <;>
        simp only [List.map_cons, List.map_nil, reduceCtorEq, List.cons.injEq, and_false, and_true] at hlab
      have ha : a ≠ [] := by rintro rfl; exact hcol (List.append_eq_nil_iff.1 hlab.symm).2
      simp [graphLegends, ha]
  · intro l hmem
    unfold allLines at hmem
    rw [hp] at hmem
    have hin : ∀ l : Line, (l.label, l.y) ∈ ((shownInputs o.ind).map fun n => (n, o.input.col n)) → l.x = o.input.idx →
        l.label ∈ shownInputs o.ind ∧ l.label ∉ columns o.ind ∧ l.x = o.input.idx ∧ l.y = o.input.col l.label := by
      intro l h1 h2
      obtain ⟨n, hn1, hn2⟩ := List.mem_map.1 h1
      rw [Prod.mk.injEq] at hn2
      rw [← hn2.1, ← hn2.2]
      exact ⟨hn1, hdis n hn1, h2, rfl⟩
    have hout : ∀ l : Line, (l.label, l.y) ∈ o.ti.cols → l.x = o.ti.idx →
        l.label ∈ columns o.ind ∧ l.label ∉ shownInputs o.ind ∧ l.x = o.getTiData.idx ∧ l.y = o.getTiData.col l.label := by
      intro l h1 h2
      have hm : l.label ∈ columns o.ind := by rw [← hn]; exact List.mem_map_of_mem h1
      exact ⟨hm, fun h3 => hdis _ h3 hm, h2, (hti _ h1).symm⟩
    rcases hob : onePanel o.ind with _ | _
    · rw [hob] at hmem
      simp only [Bool.false_eq_true, if_false, List.flatten_cons, List.flatten_nil, List.append_nil, List.mem_append] at hmem
      rcases hmem with hm | hm
      · obtain ⟨h1, h2⟩ := mem_frameLines _ _ _ _ _ _ hm
        exact .inr (hin l h2 h1)
      · obtain ⟨h1, h2⟩ := mem_frameLines _ _ _ _ _ _ hm
        exact .inl (hout l h2 h1)
    · rw [hob] at hmem
      simp only [if_true, List.flatten_cons, List.flatten_nil, List.append_nil] at hmem
      obtain ⟨h1, h2⟩ := mem_frameLines _ _ _ _ _ _ hmem
      rcases List.mem_append.1 h2 with h2 | h2
      · exact .inr (hin l h2 h1)
      · refine .inl (hout l h2 ?_)
        rw [h1]
        exact (C62_same_dates o h hob).symm

example : Reachable demoMom ∧ (demoMom.getTiGraph.map fun g => (g.title, g.panels)) = .ok ("Momentum",
    [[⟨"close", demoMom.input.idx, demoMom.input.col "close", some "black", 1 / 2⟩],
     [⟨"mom", demoMom.getTiData.idx, demoMom.getTiData.col "mom", some "limegreen", 1⟩]]) :=
  ⟨demoMom_reachable, by decide +kernel⟩

example : onePanel (.movingAverage 3 .simple) = true ∧ onePanel (.momentum 3) = false := by decide

/-- C62: the lines of one panel have different colours; the colours of the whole graph differ too, except that the relative
volatility index has the colour of the high. -/
theorem C62_colours (o : Obj) (h : Used o) (g : Graph) (hg : o.getTiGraph = .ok g) :
    (∀ p ∈ g.panels, (p.map (·.color)).Nodup ∧ ∀ l ∈ p, l.color ≠ none) ∧
    ((∀ n, o.ind ≠ .relativeVolatilityIndex n) → ((allLines g).map (·.color)).Nodup) := by
  obtain ⟨g', hg', hp, -⟩ := graph_panels o h
  rw [hg] at hg'
  cases hg'
  have hn : o.ti.cols.length = (columns o.ind).length := by
    rw [← h.sound.shaped.tiNames, List.length_map]
  have hnone : ∀ p : List Line, (∀ l ∈ p, l.color ≠ none) ↔ none ∉ p.map (·.color) := by
    intro p
    simp only [List.mem_map, not_exists, not_and]
  simp only [hnone, allLines]
  rw [hp]
  generalize o.input.col = ic
  generalize o.input.idx = ii
  generalize o.ti.idx = ti at *
  have hti : ∀ colors alphas j, (frameLines colors alphas ti j o.ti.cols).map (·.color) =
      (List.range (columns o.ind).length).map fun k => styleColor colors (j + k) := by
    intro colors alphas j
    rw [frameLines_color, hn]
  have hall : ∀ colors alphas (cs : List (String × List Val)),
      (frameLines colors alphas ii 0 (cs ++ o.ti.cols)).map (·.color) =
      (List.range (cs.length + (columns o.ind).length)).map fun k => styleColor colors (0 + k) := by
    intro colors alphas cs
    rw [frameLines_color, List.length_append, hn]
  cases hob : onePanel o.ind
  · simp only [Bool.false_eq_true, if_false, List.mem_cons, List.not_mem_nil, or_false, forall_eq_or_imp, forall_eq,
      List.flatten_cons, List.flatten_nil, List.append_nil, List.map_append, hti, frameLines_color, List.length_map]
    clear hti hall hn hp hg h hnone
    generalize o.ind = ind at *
    revert hob
    cases ind
    case movingAverage p t => cases t <;> simp [onePanel]
    case performance l p => cases l <;> simp [Ind.graphProperties, shownInputs, columns, styleColor, List.range_succ]
    all_goals simp [onePanel, Ind.graphProperties, shownInputs, columns, styleColor, List.range_succ]
  · simp only [if_true, List.mem_cons, List.not_mem_nil, or_false, forall_eq,
      List.flatten_cons, List.flatten_nil, List.append_nil, hall, List.length_map]
    clear hti hall hn hp hg h hnone
    generalize o.ind = ind at *
    revert hob
    cases ind
    case movingAverage p t => cases t <;> simp [Ind.graphProperties, shownInputs, columns, styleColor, List.range_succ]
    case performance l p => cases l <;> simp [onePanel]
    all_goals simp [onePanel, Ind.graphProperties, shownInputs, columns, styleColor, List.range_succ]

/-- C62: the lines of the input are half transparent, those of the indicator opaque; the only exception is ADXR, the fifth line
of the directional movement index, for which the table has no entry of its own. -/
theorem C62_opacity (o : Obj) (h : Used o) (g : Graph) (hg : o.getTiGraph = .ok g) (l : Line) (hl : l ∈ allLines g) :
    (l.label ∈ shownInputs o.ind → l.alpha = 1 / 2) ∧
    (l.label ∈ columns o.ind → l.alpha = if o.ind = .directionalMovementIndex ∧ l.label = "adxr" then 1 / 2 else 1) := by
  obtain ⟨g', hg', hp, -⟩ := graph_panels o h
  rw [hg] at hg'
  cases hg'
  have hn : o.ti.cols.map (·.1) = columns o.ind := h.sound.shaped.tiNames
  have hcs : ((shownInputs o.ind).map fun n => (n, o.input.col n)).map (·.1) = shownInputs o.ind := by
    rw [List.map_map]; exact List.map_id _
  have key : (l.label, l.alpha) ∈ (shownInputs o.ind ++ columns o.ind).mapIdx fun k n =>
      (n, styleAlpha o.ind.graphProperties.alphas (0 + k)) := by
    have hm : (l.label, l.alpha) ∈ (allLines g).map fun l => (l.label, l.alpha) := List.mem_map_of_mem hl
    unfold allLines at hm
    rw [hp] at hm
    cases hob : onePanel o.ind
    · rw [hob] at hm
      simp only [Bool.false_eq_true, if_false, List.flatten_cons, List.flatten_nil, List.append_nil, List.map_append,
        frameLines_alpha, hcs, hn, List.length_map] at hm
      rw [List.mapIdx_append]
      simpa only [Nat.zero_add, Nat.add_comm] using hm
    · rw [hob] at hm
      simp only [if_true, List.flatten_cons, List.flatten_nil, List.append_nil,
        frameLines_alpha, List.map_append, hcs, hn] at hm
      exact hm
  clear hp hn hcs hg h hl
  generalize l.label = n at *
  generalize l.alpha = a at *
  generalize o.ind = ind at *
  revert key
  cases ind
  case movingAverage p t =>
    cases t <;> simp [Ind.graphProperties, shownInputs, columns, styleAlpha] <;>
      (rintro (⟨rfl, rfl⟩ | ⟨rfl, rfl⟩) <;> simp)
  case performance b p =>
    cases b <;> simp [Ind.graphProperties, shownInputs, columns, styleAlpha] <;>
      (rintro (⟨rfl, rfl⟩ | ⟨rfl, rfl⟩ | ⟨rfl, rfl⟩) <;> simp)
  all_goals
    simp [Ind.graphProperties, shownInputs, columns, styleAlpha]
    try first
      | (rintro rfl rfl; simp)
      | (rintro (⟨rfl, rfl⟩ | ⟨rfl, rfl⟩) <;> simp)
      | (rintro (⟨rfl, rfl⟩ | ⟨rfl, rfl⟩ | ⟨rfl, rfl⟩) <;> simp)
      | (rintro (⟨rfl, rfl⟩ | ⟨rfl, rfl⟩ | ⟨rfl, rfl⟩ | ⟨rfl, rfl⟩) <;> simp)
      | (rintro (⟨rfl, rfl⟩ | ⟨rfl, rfl⟩ | ⟨rfl, rfl⟩ | ⟨rfl, rfl⟩ | ⟨rfl, rfl⟩) <;> simp)
      | (rintro (⟨rfl, rfl⟩ | ⟨rfl, rfl⟩ | ⟨rfl, rfl⟩ | ⟨rfl, rfl⟩ | ⟨rfl, rfl⟩ | ⟨rfl, rfl⟩) <;> simp)
      | (rintro (⟨rfl, rfl⟩ | ⟨rfl, rfl⟩ | ⟨rfl, rfl⟩ | ⟨rfl, rfl⟩ | ⟨rfl, rfl⟩ | ⟨rfl, rfl⟩ | ⟨rfl, rfl⟩) <;> simp)

example : shownInputs (.relativeVolatilityIndex 3) = ["high", "low"] ∧ columns (.relativeVolatilityIndex 3) = ["rvi"] ∧
    (Ind.relativeVolatilityIndex 3).graphProperties.colors = ["limegreen", "tomato", "limegreen"] := by decide

/-- C62: the only filled area is the Ichimoku cloud, between the two leading lines on the dates of the indicator. -/
theorem C62_area (o : Obj) (h : Used o) (g : Graph) (hg : o.getTiGraph = .ok g) :
    (o.ind ≠ .ichimokuCloud → g.areas = []) ∧
    (o.ind = .ichimokuCloud → g.areas = [⟨.dates o.getTiData.idx, .numbers (o.getTiData.col "senkou_a"),
      .numbers (o.getTiData.col "senkou_b"), "lightblue"⟩]) := by
  obtain ⟨g', hg', -, -, ha⟩ := graph_panels o h
  rw [hg] at hg'
  cases hg'
  refine ⟨fun hi => by rw [ha, if_neg hi], fun hi => ?_⟩
  rw [ha, if_pos hi, C62_same_dates o h (by rw [hi]; rfl)]
  rfl

/-- C62: the lines of the user's own columns show the user's values in the order of the dates, with the gaps filled if that was
asked for. -/
theorem C62_prices (E : Env) (c : Call) (f : RawFrame) (fill : Bool) (o : Obj) (hw : WF f)
    (ho : (construct E c (.frame f) (.bool fill)).2 = .ok o) (g : Graph) (hg : o.getTiGraph = .ok g) (l : Line)
    (hl : l ∈ allLines g) (hn : l.label ∈ ["open", "high", "low", "close", "volume"]) :
    l.x = sortIdx f.idx ∧ (fill = true → IsFilled (f.inDateOrder l.label) l.y) ∧
      (fill = false → l.y = f.inDateOrder l.label) := by
  have hr : Used o := Reachable.used ⟨E, c, f, fill, o, hw, ho, .inl rfl⟩
  obtain ⟨g', hg', -, -, hlines⟩ := C62_lines o hr
  rw [hg] at hg'
  cases hg'
  obtain ⟨hs, -, hidx, -⟩ := construct_sound E c f fill o hw ho
  obtain ⟨ind, F, T, hc, hv, ht, rfl⟩ := (construct_ok_iff _ _ _ _ _).1 ho
  have hno : ∀ n ∈ ["open", "high", "low", "close", "volume"], n ∉ columns ind := by
    intro n h1 h2
    simp only [List.mem_cons, List.not_mem_nil, or_false] at h1
    revert h2
    cases ind
    case movingAverage p t => cases t <;> rcases h1 with rfl | rfl | rfl | rfl | rfl <;> simp [columns]
    case performance b p => cases b <;> rcases h1 with rfl | rfl | rfl | rfl | rfl <;> simp [columns]
    all_goals rcases h1 with rfl | rfl | rfl | rfl | rfl <;> simp [columns]
  rcases hlines l hl with ⟨h1, -⟩ | ⟨h1, -, h2, h3⟩
  · exact absurd h1 (hno _ hn)
  · have hreq : l.label ∈ ind.required := by
      have h4 := shown_input ind _ h1
      cases ind <;> try exact h4
      case massIndex =>
        simp only [inputColumns, List.mem_cons, List.not_mem_nil, or_false] at h4
        rcases h4 with h4 | h4 | h4 | h4 <;> rw [h4] at hn ⊢ <;> simp [Ind.required] at hn ⊢
      case medianPrice p =>
        simp only [inputColumns, List.mem_cons, List.not_mem_nil, or_false] at h4
        rcases h4 with h4 | h4 | h4 | h4 <;> rw [h4] at hn ⊢ <;> simp [Ind.required] at hn ⊢
    have hcol : (ind.inputAfter F).col l.label = F.col l.label := by
      obtain ⟨hgood, -⟩ := validated_good f _ _ _ hw hv
      have hmem := hgood.has _ hreq
      have happ : ∀ e : String × List Val, (⟨F.idx, F.cols ++ [e]⟩ : Frame).col l.label = F.col l.label := by
        intro e
        obtain ⟨d, hd, hdn⟩ := List.mem_map.1 hmem
        unfold Frame.col
        rw [List.find?_append]
        cases hfi : F.cols.find? fun c => c.1 == l.label with
        | some x => rfl
        | none =>
          rw [List.find?_eq_none] at hfi
          exact absurd (hfi d hd) (by simp [hdn])
      cases ind <;> first | rfl | exact happ _
    rw [h2, h3, hcol]
    exact ⟨hidx, C27_validated f _ fill F hw hv _ hreq⟩

example : WF demoPrices ∧ ∃ o g, (construct demoEnv (.momentum (.int 1)) (.frame demoPrices) (.bool true)).2 = .ok o ∧
    o.getTiGraph = .ok g ∧ (allLines g).map (·.label) = ["close", "mom"] ∧ o.ind ≠ .medianPrice 1 := by
  refine ⟨by unfold WF; decide, ⟨.momentum 1, ⟨[1, 2], [("close", [.fin 10, .fin 12])]⟩, ⟨[1, 2], [("mom", [.nan, .fin 120])]⟩⟩,
    ⟨"Momentum", "Date", "MOM | Price", [[⟨"close", [1, 2], [.fin 10, .fin 12], some "black", 1 / 2⟩],
      [⟨"mom", [1, 2], [.nan, .fin 120], some "limegreen", 1⟩]], [["close"], ["mom"]], []⟩,
    by decide +kernel, by decide +kernel, by decide, by decide⟩

/-- C62: calls made before drawing make no difference, as long as no simulation raised. -/
theorem C62_after_good_calls (o : Obj) (cs : List ApiCall) (h : ∀ r ∈ (o.steps cs).2, NotFailedSimulation r) :
    (o.steps cs).1.getTiGraph = o.getTiGraph := by
  rw [(C17_observers o cs h).1]

example : ∀ r ∈ (demoMom.steps [.getTiSignal, .getTiData]).2, NotFailedSimulation r := by
  simp [Obj.steps, Obj.step, NotFailedSimulation]

/-- C62: for every indicator but `MedianPrice(period=1)` and `RangeIndicator` (whose simulation can raise half way and leave
the object cut, C19) no calls at all make a difference. -/
theorem C62_after_calls (E : Env) (c : Call) (f : RawFrame) (fill : Bool) (o : Obj) (hw : WF f)
    (h : (construct E c (.frame f) (.bool fill)).2 = .ok o) (h1 : o.ind ≠ .medianPrice 1)
    (h2 : ∀ p s, o.ind ≠ .rangeIndicator p s) (cs : List ApiCall) : (o.steps cs).1.getTiGraph = o.getTiGraph := by
  rw [(C17_every_call_sequence E c f fill o hw h h1 h2 cs).1]

/-- C62: the graph of a simulation has three curves; their `k`-th point is at `k + 1` and shows the closing price, the exposure
and the balance of row `k` of the simulation data. -/
theorem C62_simulation (r : SimResult) (ind : Ind) :
    (r.graph ind).panels.map (·.label) = ["close_price", "exposure", "balance"] ∧
    (∀ c ∈ (r.graph ind).panels, c.points.length = r.rows.length) ∧
    ∀ (k : ℕ) (row : Sim.Row Val), r.rows[k]? = some (some row) →
      (r.graph ind).panels.map (fun c => c.points[k]?) =
        [some (k + 1, row.stock), some (k + 1, row.exposure), some (k + 1, row.balance)] := by
  have hp : (r.graph ind).panels = [curve "close_price" (·.stock) r.rows, curve "exposure" (·.exposure) r.rows,
    curve "balance" (·.balance) r.rows] := by unfold SimResult.graph; rfl
  have hcurve : ∀ (s : String) (v : Sim.Row Val → Val), (curve s v r.rows).points.length = r.rows.length := by
    intro s v; simp [curve]
  have hpoint : ∀ (s : String) (v : Sim.Row Val → Val) (k : ℕ) (row : Sim.Row Val), r.rows[k]? = some (some row) →
      (curve s v r.rows).points[k]? = some (k + 1, v row) := by
    intro s v k row hk
    obtain ⟨hlt, -⟩ := List.getElem?_eq_some_iff.1 hk
    unfold curve
    rw [List.getElem?_zip_eq_some]
    constructor
    · rw [List.getElem?_map, List.getElem?_range hlt]; rfl
    · rw [List.getElem?_map, hk]; rfl
  rw [hp]
  refine ⟨rfl, ?_, ?_⟩
  · intro c hc
    simp only [List.mem_cons, List.not_mem_nil, or_false] at hc
    rcases hc with rfl | rfl | rfl <;> exact hcurve _ _
  · intro k row hk
    simp only [List.map_cons, List.map_nil, hpoint _ _ k row hk]

example (st : Sim.Stats Val) : ((⟨[5, 6], [some ⟨.buy, .long, .fin 7, .fin 7, .fin 7, .fin 0, .fin 7⟩, none], st⟩ : SimResult).graph (.momentum 3)).panels.map
    (·.points) = [[(1, .fin 7), (2, .nan)], [(1, .fin 7), (2, .nan)], [(1, .fin 7), (2, .nan)]] := rfl

/-! ## The graph function itself -/

theorem plotFrames_ok (data : List PlotData) (Fs : List Frame) : plotFrames data = .ok Fs ↔ data = Fs.map .frame := by
  induction data generalizing Fs with
  | nil => cases Fs <;> simp [plotFrames]
  | cons d ds ih =>
    cases d with
    | notFrame => cases Fs <;> simp [plotFrames]
    | wrongIndex => cases Fs <;> simp [plotFrames]
    | frame F =>
      simp only [plotFrames]
      cases hp : plotFrames ds with
      | error e =>
        simp only [reduceCtorEq, false_iff]
        intro hd
        cases Fs with
        | nil => simp at hd
        | cons G Gs =>
          rw [List.map_cons, List.cons.injEq] at hd
          rw [(ih Gs).2 hd.2] at hp
          cases hp
      | ok Gs =>
        simp only [Except.ok.injEq]
        cases Fs with
        | nil => simp
        | cons G Hs =>
          simp only [List.map_cons, List.cons.injEq, PlotData.frame.injEq]
          rw [← ih Hs, hp]
          simp

theorem plotFrames_error (data : List PlotData) (e : Err) (h : plotFrames data = .error e) : e = .typeError := by
  induction data with
  | nil => simp [plotFrames] at h
  | cons d ds ih =>
    cases d with
    | notFrame => simp [plotFrames] at h; exact h.symm
    | wrongIndex => simp [plotFrames] at h; exact h.symm
    | frame F =>
      simp only [plotFrames] at h
      cases hp : plotFrames ds with
      | error e' => rw [hp] at h; simp only [Except.error.injEq] at h; subst h; exact ih hp
      | ok Gs => rw [hp] at h; simp at h

/-- C63: without areas the graph function fails exactly on an empty list (`ValueError`) and on a list with something that is
not a data frame with a date index (`TypeError`). -/
theorem C63_accepts (data : List PlotData) (y t : String) (colors : List String) (alphas : List ℚ) (x : String) :
    ((∃ g, linesGraph data y t colors alphas none x = .ok g) ↔ data ≠ [] ∧ ∀ d ∈ data, ∃ F, d = .frame F) ∧
    (linesGraph data y t colors alphas none x = .error .valueError ↔ data = []) ∧
    (linesGraph data y t colors alphas none x = .error .typeError ↔ ∃ d ∈ data, ∀ F, d ≠ .frame F) := by
  have hex : (∀ d ∈ data, ∃ F, d = PlotData.frame F) ↔ ∃ Fs : List Frame, data = Fs.map .frame := by
    constructor
    · intro h
      clear x
      induction data with
      | nil => exact ⟨[], rfl⟩
      | cons d ds ih =>
        obtain ⟨Fs, hFs⟩ := ih fun d hd => h d (List.mem_cons_of_mem _ hd)
        obtain ⟨F, hF⟩ := h d List.mem_cons_self
        exact ⟨F :: Fs, by rw [hF, hFs]; rfl⟩
    · rintro ⟨Fs, rfl⟩ d hd
      obtain ⟨F, -, rfl⟩ := List.mem_map.1 hd
      exact ⟨F, rfl⟩
  have hneg : (∃ d ∈ data, ∀ F, d ≠ PlotData.frame F) ↔ ¬ ∃ Fs : List Frame, data = Fs.map .frame := by
    rw [← hex]; push Not; rfl
  rw [hex, hneg]
  unfold linesGraph
  cases hp : plotFrames data with
  | error e =>
    have he := plotFrames_error _ _ hp
    subst he
    have hno : ¬ ∃ Fs : List Frame, data = Fs.map PlotData.frame := by
      rintro ⟨Fs, hFs⟩
      rw [(plotFrames_ok data Fs).2 hFs] at hp
      cases hp
    have hne : data ≠ [] := by rintro rfl; exact hno ⟨[], rfl⟩
    simp [hno, hne]
  | ok Fs =>
    have hd := (plotFrames_ok data Fs).1 hp
    cases Fs with
    | nil => simp [hd]
    | cons F Fs =>
      have hyes : ∃ Gs : List Frame, data = Gs.map PlotData.frame := ⟨_, hd⟩
      have hne : data ≠ [] := by rw [hd]; simp
      simp [hyes, hne, areasOf]

theorem graphPanels_flatten (colors : List String) (alphas : List ℚ) (j : ℕ) (Fs : List Frame) :
    (graphPanels colors alphas j Fs).flatten =
      (Fs.flatMap fun F => F.cols.map fun c => (F.idx, c)).mapIdx fun k c =>
        ⟨c.2.1, c.1, c.2.2, styleColor colors (j + k), styleAlpha alphas (j + k)⟩ := by
  induction Fs generalizing j with
  | nil => rfl
  | cons F Fs ih =>
    rw [graphPanels, List.flatten_cons, ih, List.flatMap_cons, List.mapIdx_append, frameLines_eq]
    congr 1
    · apply List.ext_getElem?; intro k; simp only [List.getElem?_mapIdx, List.getElem?_map, Option.map_map]; rfl
    · simp only [List.length_map, Nat.add_assoc, Nat.add_comm F.cols.length]

/-- C63: one panel per frame and one line per column, in order; the `k`-th line of the figure has the `k`-th colour and
transparency, which are used again from the start when they run out (no colours: matplotlib's choice; no transparencies: 0.9). -/
theorem C63_lines (Fs : List Frame) (hF : Fs ≠ []) (y t : String) (colors : List String) (alphas : List ℚ) (x : String) :
    ∃ g, linesGraph (Fs.map .frame) y t colors alphas none x = .ok g ∧ g.title = t ∧ g.xLabel = x ∧ g.yLabel = y ∧
      (g.panels.map fun p => p.map (·.label)) = (Fs.map fun F => F.cols.map (·.1)) ∧ g.areas = [] ∧
      ∀ (k : ℕ) (idx : List ℤ) (c : String × List Val), (Fs.flatMap fun F => F.cols.map fun c => (F.idx, c))[k]? = some (idx, c) →
        ∃ l, (allLines g)[k]? = some l ∧ l.label = c.1 ∧ l.x = idx ∧ l.y = c.2 ∧
          (colors = [] → l.color = none) ∧ (∀ s, colors[k % colors.length]? = some s → l.color = some s) ∧
          (alphas = [] → l.alpha = 9 / 10) ∧ ∀ a, alphas[k % alphas.length]? = some a → l.alpha = a := by
  have hp : plotFrames (Fs.map .frame) = .ok Fs := (plotFrames_ok _ _).2 rfl
  cases Fs with
  | nil => exact absurd rfl hF
  | cons F Fs =>
    refine ⟨⟨t, x, y, graphPanels colors alphas 0 (F :: Fs), graphLegends (graphPanels colors alphas 0 (F :: Fs)), []⟩,
      by unfold linesGraph; rw [hp]; simp only [Option.getD_none, areasOf], rfl, rfl, rfl, ?_, rfl, ?_⟩
    · simp only
      have : ∀ (j : ℕ) (Gs : List Frame), ((graphPanels colors alphas j Gs).map fun p => p.map (·.label)) =
          Gs.map fun F => F.cols.map (·.1) := by
        intro j Gs
        induction Gs generalizing j with
        | nil => rfl
        | cons G Gs ih => rw [graphPanels, List.map_cons, List.map_cons, ih, frameLines_label]
      exact this _ _
    · intro k idx c hk
      refine ⟨⟨c.1, idx, c.2, styleColor colors k, styleAlpha alphas k⟩, ?_, rfl, rfl, rfl, ?_, ?_, ?_, ?_⟩
      · unfold allLines
        simp only
        rw [graphPanels_flatten, List.getElem?_mapIdx, hk]
        simp
      · rintro rfl; rfl
      · intro s hs; exact hs
      · rintro rfl; rfl
      · intro a ha
        simp only [styleAlpha, ha, Option.getD_some]

example : (linesGraph [.frame ⟨[1], [("a", [.fin 2]), ("b", [.nan])]⟩, .frame ⟨[1], [("c", [.fin 3])]⟩] "y" "t" ["red", "blue"] [] none).map
      (fun g => g.panels.map fun p => p.map fun l => (l.label, l.color, l.alpha)) =
    .ok [[("a", some "red", 9 / 10), ("b", some "blue", 9 / 10)], [("c", some "red", 9 / 10)]] := by decide +kernel

/-! ## Areas -/

/-- What a value of an area stands for, if the frames have it: a column of one of them, or the dates of the first. -/
def Means (Fs : List Frame) : AreaValue → AreaData → Prop
  | .column p name, d => ∃ F c, Fs[p]? = some F ∧ F.cols.find? (fun c => c.1 == name) = some c ∧ d = .numbers c.2
  | .tiIndex, d => ∃ F, Fs[0]? = some F ∧ d = .dates F.idx

theorem areaValue_ok (Fs : List Frame) (v : AreaValue) (d : AreaData) : areaValue Fs v = .ok d ↔ Means Fs v d := by
  cases v with
  | column p name =>
    simp only [areaValue, Means, Frame.column]
    cases h : Fs[p]? with
    | none => simp
    | some F =>
      cases h2 : F.cols.find? (fun c => c.1 == name) with
      | none =>
        simp only [h2, reduceCtorEq, false_iff]
        rintro ⟨G, c, hG, hc, -⟩
        cases hG
        rw [h2] at hc
        cases hc
      | some c =>
        simp only [h2]
        constructor
        · intro hd; cases hd; exact ⟨F, c, rfl, h2, rfl⟩
        · rintro ⟨G, c', hG, hc, rfl⟩
          cases hG
          rw [h2] at hc
          cases hc
          rfl
  | tiIndex =>
    simp only [areaValue, Means]
    cases h : Fs[0]? with
    | none => simp
    | some F => simp [eq_comm]

/-- An area drawn as asked for. -/
def DrawnAs (Fs : List Frame) (a : AreaSpec) (r : Area) : Prop :=
  Means Fs a.x r.x ∧ Means Fs a.y1 r.y1 ∧ Means Fs a.y2 r.y2 ∧ r.color = a.color.getD "#cccccc"

theorem areaOf_ok (Fs : List Frame) (a : AreaSpec) (r : Area) : areaOf Fs a = .ok r ↔ DrawnAs Fs a r := by
  unfold DrawnAs
  rw [← areaValue_ok, ← areaValue_ok, ← areaValue_ok]
  unfold areaOf
  obtain ⟨rx, r1, r2, rc⟩ := r
  cases areaValue Fs a.x <;> cases areaValue Fs a.y1 <;> cases areaValue Fs a.y2 <;> simp [eq_comm]

theorem areasOf_ok (Fs : List Frame) (as : List AreaSpec) (rs : List Area) :
    areasOf Fs as = .ok rs ↔ List.Forall₂ (DrawnAs Fs) as rs := by
  induction as generalizing rs with
  | nil => cases rs <;> simp [areasOf]
  | cons a as ih =>
    unfold areasOf
    cases rs with
    | nil => cases areaOf Fs a <;> cases areasOf Fs as <;> simp
    | cons r rs =>
      rw [List.forall₂_cons, ← areaOf_ok, ← ih]
      cases areaOf Fs a <;> cases areasOf Fs as <;> simp

/-- C63: with areas the graph function draws the same lines and exactly the areas asked for, one by one and in order; it fails
exactly when one of them names a panel or a column that is not there. -/
theorem C63_areas (Fs : List Frame) (hF : Fs ≠ []) (y t : String) (colors : List String) (alphas : List ℚ) (x : String)
    (as : List AreaSpec) (g₀ : Graph) (h₀ : linesGraph (Fs.map .frame) y t colors alphas none x = .ok g₀) :
    (∀ g, linesGraph (Fs.map .frame) y t colors alphas (some as) x = .ok g ↔
      ∃ rs, List.Forall₂ (DrawnAs Fs) as rs ∧ g = { g₀ with areas := rs }) ∧
    ((∃ g, linesGraph (Fs.map .frame) y t colors alphas (some as) x = .ok g) ↔
      ∀ a ∈ as, ∀ v ∈ [a.x, a.y1, a.y2], ∃ d, Means Fs v d) := by
  have hp : plotFrames (Fs.map .frame) = .ok Fs := (plotFrames_ok _ _).2 rfl
  have key : ∀ g, linesGraph (Fs.map .frame) y t colors alphas (some as) x = .ok g ↔
      ∃ rs, List.Forall₂ (DrawnAs Fs) as rs ∧ g = { g₀ with areas := rs } := by
    intro g
    simp only [← areasOf_ok]
    unfold linesGraph at h₀ ⊢
    rw [hp] at h₀ ⊢
    cases Fs with
    | nil => exact absurd rfl hF
    | cons F Fs =>
      simp only [Option.getD_none, areasOf, Except.ok.injEq] at h₀
      subst h₀
      simp only [Option.getD_some]
      cases areasOf (F :: Fs) as <;> simp [eq_comm]
  refine ⟨key, ?_⟩
  have hall : (∃ rs, List.Forall₂ (DrawnAs Fs) as rs) ↔ ∀ a ∈ as, ∀ v ∈ [a.x, a.y1, a.y2], ∃ d, Means Fs v d := by
    clear key
    induction as with
    | nil => simp
    | cons a as ih =>
      rw [List.forall_mem_cons, ← ih]
      constructor
      · rintro ⟨rs, hrs⟩
        cases hrs with
        | cons h1 h2 =>
          obtain ⟨hx, hy1, hy2, -⟩ := h1
          exact ⟨by simpa using ⟨⟨_, hx⟩, ⟨_, hy1⟩, ⟨_, hy2⟩⟩, _, h2⟩
      · rintro ⟨h1, rs, hrs⟩
        simp only [List.mem_cons, List.not_mem_nil, or_false, forall_eq_or_imp, forall_eq] at h1
        obtain ⟨⟨dx, hx⟩, ⟨d1, h1⟩, ⟨d2, h2⟩⟩ := h1
        exact ⟨⟨dx, d1, d2, a.color.getD "#cccccc"⟩ :: rs, .cons ⟨hx, h1, h2, rfl⟩ hrs⟩
  rw [← hall]
  constructor
  · rintro ⟨g, hg⟩
    obtain ⟨rs, hrs, -⟩ := (key g).1 hg
    exact ⟨rs, hrs⟩
  · rintro ⟨rs, hrs⟩
    exact ⟨_, (key _).2 ⟨rs, hrs, rfl⟩⟩

example : ∃ g₀, linesGraph ([⟨[1], [("a", [.fin 2]), ("b", [.nan])]⟩].map .frame) "y" "t" [] [] none "x" = .ok g₀ ∧
    linesGraph ([⟨[1], [("a", [.fin 2]), ("b", [.nan])]⟩].map .frame) "y" "t" [] []
      (some [⟨.tiIndex, .column 0 "a", .column 0 "b", none⟩]) "x" =
      .ok { g₀ with areas := [⟨.dates [1], .numbers [.fin 2], .numbers [.nan], "#cccccc"⟩] } :=
  ⟨_, rfl, by decide +kernel⟩


end TTI.Props
