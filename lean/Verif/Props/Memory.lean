import Verif.Lemmas.SinceSignal
import Verif.Spec.Memory
import Verif.Props.Calls
import Verif.Props.Volume
import Verif.Props.FormulaMomentum

set_option autoImplicit false

/-!
# How far back the data matter: C68

`f.since d` is the user's frame restricted to the rows dated `d` or later; `rowsBefore d f.idx` rows are left out.
-/

namespace TTI.Props

open Spec

/-- C68: building on the latest rows only is possible as soon as the class finds enough of them. -/
theorem C68_buildable (E : Env) (c : Call) (f : RawFrame) (fill : Bool) (d : ℤ) (o : Obj) (hw : WF f)
    (h : (construct E c (.frame f) (.bool fill)).2 = .ok o)
    (hk : fill = true ∨ Nested o.ind → StartsKnown (f.since d) o.ind.required) (h0 : ∃ e ∈ f.idx, d ≤ e)
    (hr : minRows o.ind ≤ (f.since d).idx.length) :
    ∃ o', (construct E c (.frame (f.since d)) (.bool fill)).2 = .ok o' ∧ o'.ind = o.ind := by
  obtain ⟨ind, F, T, hc, hv, ht, rfl⟩ := (construct_ok_iff _ _ _ _ _).1 h
  obtain ⟨h1, -⟩ := validate_since f ind fill F hw hv d h0 hk
  exact (C32_not_enough_iff E c ind (f.since d) fill (since_wf d f hw) hc ⟨_, h1⟩).2 hr

/-- C68: a column with a memory of `M` days has the same value, from the `M`-th remaining day on, whether the indicator is
built on all rows or on the rows since `d`; and the dates are the same. -/
theorem C68_memory (E : Env) (c : Call) (f : RawFrame) (fill : Bool) (d : ℤ) (o o' : Obj) (hw : WF f)
    (h : (construct E c (.frame f) (.bool fill)).2 = .ok o)
    (h' : (construct E c (.frame (f.since d)) (.bool fill)).2 = .ok o')
    (hk : fill = true ∨ Nested o.ind → StartsKnown (f.since d) o.ind.required) :
    o'.getTiData.idx = o.getTiData.idx.drop (rowsBefore d f.idx) ∧
    ∀ n M, memory o.ind n = some M → ∀ i, M ≤ i + 1 →
      val (o'.getTiData.col n) i = val (o.getTiData.col n) (i + rowsBefore d f.idx) := by
  obtain ⟨F, hg, hlen, hpos, hind, hkn, hrow, ht, ht', -, -⟩ := since_built E c f fill d o o' hw h h' hk
  have hle : rowsBefore d f.idx ≤ F.len := by rw [hlen]; exact rowsBefore_le _ _
  constructor
  · obtain ⟨-, -, h1, h2⟩ := C33_shape E c f fill o hw h
    obtain ⟨-, -, h1', h2'⟩ := C33_shape E c (f.since d) fill o' (since_wf d f hw) h'
    rw [hind] at h1' h2'
    have hs : sortIdx (f.since d).idx = (sortIdx f.idx).drop (rowsBefore d f.idx) := sortIdx_since d f.idx
    by_cases hp : ∀ p, o.ind ≠ .detrendedPriceOscillator p
    · rw [h1 hp, h1' hp, hs]
    · push Not at hp
      obtain ⟨p, hp⟩ := hp
      rw [h2 p hp, h2' p hp, hs, since_length, List.drop_take]
      congr 1
      omega
  · intro n M hM i hi
    exact (calcTi_recent E o.ind F o.ti o'.ti _ hg hpos hle hkn hrow ht ht' n M hM).val i (by omega)

/-- C68: two frames that agree since `d` give the same values on the days with enough remaining days before them, whatever
came before. -/
theorem C68_old_data_irrelevant (E : Env) (c : Call) (f g : RawFrame) (fill : Bool) (d : ℤ) (o p : Obj) (hw : WF f) (hg : WF g)
    (ho : (construct E c (.frame f) (.bool fill)).2 = .ok o) (hp : (construct E c (.frame g) (.bool fill)).2 = .ok p)
    (hs : f.since d = g.since d) (h0 : ∃ e ∈ f.idx, d ≤ e) (hr : minRows o.ind ≤ (f.since d).idx.length)
    (hk : fill = true ∨ Nested o.ind → StartsKnown (f.since d) o.ind.required) (n : String) (M : ℕ)
    (hM : memory o.ind n = some M) (i : ℕ) (hi : M ≤ i + 1) :
    val (o.getTiData.col n) (i + rowsBefore d f.idx) = val (p.getTiData.col n) (i + rowsBefore d g.idx) := by
  obtain ⟨o', ho', hind⟩ := C68_buildable E c f fill d o hw ho hk h0 hr
  have hpi : p.ind = o.ind := by
    have h1 := (construct_sound E c f fill o hw ho).2.1
    have h2 := (construct_sound E c g fill p hg hp).2.1
    rw [h1] at h2
    exact (Except.ok.inj h2).symm
  rw [← (C68_memory E c f fill d o o' hw ho ho' hk).2 n M hM i hi,
    ← (C68_memory E c g fill d p o' hg hp (by rw [← hs]; exact ho') (by rw [hpi, ← hs]; exact hk)).2 n M
      (by rw [hpi]; exact hM) i hi]

/-- C68: for the classes whose signal looks at a limited number of rows, the signal given on the latest rows is the signal
given on all of them. -/
theorem C68_signal (E : Env) (c : Call) (f : RawFrame) (fill : Bool) (d : ℤ) (o o' : Obj) (hw : WF f)
    (h : (construct E c (.frame f) (.bool fill)).2 = .ok o)
    (h' : (construct E c (.frame (f.since d)) (.bool fill)).2 = .ok o')
    (hk : fill = true ∨ Nested o.ind → StartsKnown (f.since d) o.ind.required)
    (N : ℕ) (hN : signalMemory o.ind = some N) (hrows : N ≤ (f.since d).idx.length) :
    o'.getTiSignal = o.getTiSignal := by
  obtain ⟨F, hg, hlen, hpos, hind, hkn, hrow, ht, ht', hin, hin'⟩ := since_built E c f fill d o o' hw h h' hk
  have hle : rowsBefore d f.idx ≤ F.len := by rw [hlen]; exact rowsBefore_le _ _
  have hws := since_wf d f hw
  have hnotmed : ∀ p, o.ind ≠ .medianPrice p := by intro p hp; rw [hp] at hN; simp [signalMemory] at hN
  have hafter : ∀ G, o.ind.inputAfter G = G := by
    intro G
    cases hi : o.ind <;> first | rfl | (rw [hi] at hN; simp [signalMemory] at hN)
  rw [hafter] at hin hin'
  obtain ⟨hs, -, -, hl, -⟩ := construct_sound E c f fill o hw h
  obtain ⟨hs', -, -, hl', -⟩ := construct_sound E c (f.since d) fill o' hws h'
  have hF' : o'.input.len = o.input.len - rowsBefore d f.idx := by rw [hin', hin, Frame.drop_len]
  have hFl : o.input.len = f.idx.length := by rw [hin, hlen]
  have hFl' : o'.input.len = (f.since d).idx.length := by rw [hF', hFl, since_length]
  have hrec := fun n M hM => calcTi_recent E o.ind F o.ti o'.ti _ hg hpos hle hkn hrow ht ht' n M hM
  have hTl : o'.ti.len + rowsBefore d f.idx = o.ti.len ∨ o'.ti.len = 0 := by
    rw [hl, hl', hind, since_length]
    have := rowsBefore_le d f.idx
    by_cases hp : ∀ p, o.ind ≠ .detrendedPriceOscillator p
    · rw [rowsOut_eq _ _ hp, rowsOut_eq _ _ hp]; omega
    · push Not at hp
      obtain ⟨p, hp⟩ := hp
      rw [hp]
      simp only [rowsOut]; omega
  have htcol : ∀ n, n ∈ columns o.ind → (o'.ti.col n).length = o'.ti.len ∧ (o.ti.col n).length = o.ti.len := by
    intro n hn
    exact ⟨Frame.col_length _ hs'.shaped.tiWf n (by rw [hs'.shaped.tiNames, hind]; exact hn),
      Frame.col_length _ hs.shaped.tiWf n (by rw [hs.shaped.tiNames]; exact hn)⟩
  have htno : ∀ n, n ∉ columns o.ind → o'.ti.col n = [] ∧ o.ti.col n = [] := by
    intro n hn
    exact ⟨Frame.col_missing _ n (by rw [hs'.shaped.tiNames, hind]; exact hn),
      Frame.col_missing _ n (by rw [hs.shaped.tiNames]; exact hn)⟩
  have hpcol : ∀ n, ((o'.input.col n).length = o'.input.len ∧ (o.input.col n).length = o.input.len) ∨
      (o'.input.col n = [] ∧ o.input.col n = []) := by
    intro n
    rw [hin', hin, Frame.drop_col]
    by_cases hn : n ∈ F.cols.map (·.1)
    · left
      have := F.col_length hg.wf n hn
      rw [List.length_drop, this, Frame.drop_len]
      exact ⟨rfl, rfl⟩
    · right
      rw [Frame.col_missing F n hn]
      simp
  have hpr : ∀ n, Recent (rowsBefore d f.idx) 0 (o'.input.col n) (o.input.col n) := by
    intro n
    rw [hin', hin, Frame.drop_col]
    exact Recent.drop _ _
  have hsum : o'.input.len + rowsBefore d f.idx = o.input.len := by rw [hF', hin]; omega
  have hne : F.cols ≠ [] := F.cols_ne_nil _ hg.has (by cases o.ind <;> simp [Ind.required])
  have hfl : F.firstCol.length = F.len := F.firstCol_length hg.wf hne
  have hfd : o'.input.firstCol = o.input.firstCol.drop (rowsBefore d f.idx) := by
    rw [hin', hin]
    unfold Frame.firstCol Frame.drop
    cases F.cols <;> simp
  obtain ⟨hrule, hr2⟩ := rule_recent o.ind o.input o'.input o.ti o'.ti N hN hpos (by rw [hFl']; exact hrows)
    (by rw [hl', hind, hFl'])
    (by
      intro n j M hM ⟨hj1, hj2⟩
      by_cases hn : n ∈ columns o.ind
      · obtain ⟨e1, e2⟩ := htcol n hn
        exact before_recent (hrec n M hM) (by omega) j (by omega)
      · rw [(htno n hn).1, (htno n hn).2])
    (by
      intro n j hj
      rcases hpcol n with ⟨e1, e2⟩ | ⟨e1, e2⟩
      · exact before_recent (hpr n) (by omega) j (by omega)
      · rw [e1, e2])
    (by
      intro n w M hw1 hM hj
      by_cases hn : n ∈ columns o.ind
      · obtain ⟨e1, e2⟩ := htcol n hn
        exact window_recent (hrec n M hM) (by omega) w (by omega)
      · rw [(htno n hn).1, (htno n hn).2])
    (by
      intro n w hw1 hj
      rcases hpcol n with ⟨e1, e2⟩ | ⟨e1, e2⟩
      · exact window_recent (hpr n) (by omega) w (by omega)
      · rw [e1, e2])
    (by
      intro p hp hle
      have hcl : (F.col "close").length = F.len ∨ F.col "close" = [] := by
        by_cases hn : "close" ∈ F.cols.map (·.1)
        · exact Or.inl (F.col_length hg.wf _ hn)
        · exact Or.inr (Frame.col_missing F _ hn)
      rcases hpcol "close" with ⟨e1, e2⟩ | ⟨e1, e2⟩
      · exact before_recent (((hpr "close").rolling p p hp aggMean).roundS 4) (by simp; omega) 0 (by simp; omega)
      · rw [e1, e2])
    (by
      intro p hp hle
      have e2 : o.input.firstCol.length = o.input.len := by rw [hin]; exact hfl
      have e1 : o'.input.firstCol.length = o'.input.len := by rw [hfd, List.length_drop, e2]; omega
      have hr : Recent (rowsBefore d f.idx) 0 o'.input.firstCol o.input.firstCol := by
        rw [hfd]; exact Recent.drop _ _
      exact before_recent (hr.rolling p p hp aggMean) (by simp; omega) 0 (by simp; omega))
  have hr1 : (rule o.input o.ti o.ind).rows ≤ o.ti.len := by
    rcases hTl with h1 | h1 <;> omega
  have hreach : Reachable o := ⟨E, c, f, fill, o, hw, h, Or.inl rfl⟩
  have hreach' : Reachable o' := ⟨E, c, f.since d, fill, o', hws, h', Or.inl rfl⟩
  obtain ⟨hb, hse⟩ := C47_signal_table o hreach
  obtain ⟨hb', hse'⟩ := C47_signal_table o' hreach'
  rw [hind, hrule] at hb' hse'
  simp only [Obj.getTiData] at hb hse hb' hse'
  have hR : ∀ p s, o.ind ≠ .rangeIndicator p s := by intro p s hp; rw [hp] at hN; simp [signalMemory] at hN
  obtain ⟨s, hsg⟩ := (C34_other_indicators E c f fill o hw h (hnotmed 1) hR).1
  obtain ⟨s', hsg'⟩ := (C34_other_indicators E c (f.since d) fill o' hws h' (by rw [hind]; exact hnotmed 1)
    (by rw [hind]; exact hR)).1
  have e1 : s = .buy ↔ s' = .buy := by
    rw [hsg] at hb; rw [hsg'] at hb'
    simp only [Except.ok.injEq] at hb hb'
    rw [hb, hb']
    exact ⟨fun h => ⟨hr2, h.2⟩, fun h => ⟨hr1, h.2⟩⟩
  have e2 : s = .sell ↔ s' = .sell := by
    rw [hsg] at hse; rw [hsg'] at hse'
    simp only [Except.ok.injEq] at hse hse'
    rw [hse, hse']
    exact ⟨fun h => ⟨hr2, h.2⟩, fun h => ⟨hr1, h.2⟩⟩
  rw [hsg, hsg']
  cases s <;> cases s' <;> simp_all

/-- Seven days out of order with a gap, cut on day 3: the hypotheses of the theorems hold for a class that builds another
one, and the values and the signal are what the theorems say. -/
example : WF demoCausal ∧ StartsKnown (demoCausal.since 3) ["close"] ∧ Nested (.timeSeriesForecast 2) ∧
    minRows (.timeSeriesForecast 2) ≤ (demoCausal.since 3).idx.length ∧ memory (.timeSeriesForecast 2) "tsf" = some 2 ∧
    signalMemory (.timeSeriesForecast 2) = some 3 ∧ rowsBefore 3 demoCausal.idx = 3 ∧ (demoCausal.since 3).idx = [3, 4, 6, 5] := by
  refine ⟨by unfold WF; decide, ?_, trivial, by decide +kernel, by decide +kernel, by decide +kernel, by decide +kernel,
    by decide +kernel⟩
  intro c hc _ r hr
  have hcs : (demoCausal.since 3).cols = [⟨.str "Close", true, [.fin 11, .fin 14, .fin 13, .fin 15]⟩] := by decide +kernel
  rw [hcs, List.mem_singleton] at hc
  subst hc
  have : (sortRows ((demoCausal.since 3).idx.zip [.fin 11, .fin 14, .fin 13, .fin 15])).head? = some (3, Val.fin 11) := by
    decide +kernel
  rw [this] at hr
  simp only [Option.some.injEq] at hr
  subst hr
  simp

example :
    let all := (construct demoEnv (.timeSeriesForecast (.int 2)) (.frame demoCausal) (.bool true)).2
    let cut := (construct demoEnv (.timeSeriesForecast (.int 2)) (.frame (demoCausal.since 3)) (.bool true)).2
    (all.map fun o => (o.ti.col "tsf").drop 3) = .ok [.fin 10, .fin 17, .fin 16, .fin 11] ∧
    (cut.map fun o => o.ti.col "tsf") = .ok [.nan, .fin 17, .fin 16, .fin 11] ∧
    (all.map fun o => o.getTiSignal) = (cut.map fun o => o.getTiSignal) := by decide +kernel

/-! ## Classes that never forget -/

/-- A first day with close `a`, then `n + 1` days with close 2; the volume is 1. -/
def afterFirst (a : ℚ) (n : ℕ) : RawFrame :=
  ⟨true, (List.range (n + 2)).map fun j : ℕ => (j : ℤ),
    [⟨.str "close", true, .fin a :: List.replicate (n + 1) (.fin 2)⟩, ⟨.str "volume", true, List.replicate (n + 2) (.fin 1)⟩]⟩

theorem afterFirst_wf (a : ℚ) (n : ℕ) : WF (afterFirst a n) := by
  intro c hc
  simp only [afterFirst, List.mem_cons, List.not_mem_nil, or_false] at hc
  rcases hc with rfl | rfl <;> simp [afterFirst]

theorem afterFirst_since (a b : ℚ) (n : ℕ) : (afterFirst a n).since 1 = (afterFirst b n).since 1 := by
  simp [afterFirst, RawFrame.since, keepSince, List.range_succ_eq_map]

theorem afterFirst_rows (a : ℚ) (n : ℕ) : ((afterFirst a n).since 1).idx.length = n + 1 := by
  simp only [afterFirst, RawFrame.since]
  rw [List.range_succ_eq_map, List.map_cons, List.filter_cons_of_neg (by simp), List.filter_eq_self.2]
  · simp
  · intro e he
    simp only [List.map_map, List.mem_map] at he
    obtain ⟨j, -, rfl⟩ := he
    simp

theorem afterFirst_days (a : ℚ) (n : ℕ) : (afterFirst a n).inDateOrder "close" = .fin a :: List.replicate (n + 1) (.fin 2) ∧
    (afterFirst a n).inDateOrder "volume" = List.replicate (n + 2) (.fin 1) := by
  have e4 : "close".toLower = "close" := by decide +kernel
  have e5 : "volume".toLower = "volume" := by decide +kernel
  have hs : ∀ xs : List Val, xs.length = n + 2 →
      (sortRows (((List.range (n + 2)).map fun j : ℕ => (j : ℤ)).zip xs)).map (·.2) = xs := by
    intro xs hl
    rw [sortRows_of_sorted]
    · exact List.map_snd_zip (by simp [hl])
    · have h1 : ((List.range (n + 2)).map fun j : ℕ => (j : ℤ)).Pairwise (· ≤ ·) := by
        rw [List.pairwise_map]
        exact (List.pairwise_lt_range (n := n + 2)).imp fun h => by exact_mod_cast le_of_lt h
      have h2 : ((((List.range (n + 2)).map fun j : ℕ => (j : ℤ)).zip xs).map (·.1)).Pairwise (· ≤ ·) := by
        rw [List.map_fst_zip (by simp [hl])]; exact h1
      rwa [List.pairwise_map] at h2
  constructor
  · simp only [RawFrame.inDateOrder, afterFirst, List.find?, Label.lower, e4, beq_self_eq_true]
    exact hs _ (by simp)
  · simp only [RawFrame.inDateOrder, afterFirst, List.find?, Label.lower, e4, e5]
    exact hs _ (by simp)

theorem afterFirst_close (a : ℚ) (n j : ℕ) (hj : j < n + 2) : close (afterFirst a n) j = if j = 0 then a else 2 := by
  unfold close RawFrame.day
  rw [(afterFirst_days a n).1]
  cases j with
  | zero => rfl
  | succ j =>
    rw [List.getD_cons_succ, List.getD_eq_getElem?_getD, List.getElem?_replicate, if_pos (by omega)]
    rfl

theorem afterFirst_volume (a : ℚ) (n j : ℕ) (hj : j < n + 2) : volume (afterFirst a n) j = 1 := by
  unfold volume RawFrame.day
  rw [(afterFirst_days a n).2, List.getD_eq_getElem?_getD, List.getElem?_replicate, if_pos (by omega)]
  rfl

theorem afterFirst_built (E : Env) (c : Call) (ind : Ind) (hc : c.check = .ok ind) (a : ℚ) (n : ℕ)
    (hm : minRows ind ≤ n + 2) (hr : ∀ r ∈ ind.required, r = "close" ∨ r = "volume") :
    ∃ o, (construct E c (.frame (afterFirst a n)) (.bool true)).2 = .ok o ∧ o.ind = ind ∧
      (afterFirst a n).EachRow o.ind.required AnyPrices := by
  have e4 : "close".toLower = "close" := by decide +kernel
  have e5 : "volume".toLower = "volume" := by decide +kernel
  have hn4 : ∀ d, (⟨.str "close", true, d⟩ : RawCol).name = "close" := fun d => e4
  have hn5 : ∀ d, (⟨.str "volume", true, d⟩ : RawCol).name = "volume" := fun d => e5
  have hv : (afterFirst a n).Valid ind.required := by
    refine ⟨rfl, by simp [afterFirst], by simp [afterFirst], by simp [afterFirst], ?_, ?_⟩
    · intro r h
      rcases hr r h with rfl | rfl <;> simp [afterFirst, List.filter_cons, hn4, hn5]
    · apply List.Nodup.filter
      simp [afterFirst, hn4, hn5]
  obtain ⟨o, h1, h2⟩ := (C32_not_enough_iff E c ind (afterFirst a n) true (afterFirst_wf a n) hc
    ⟨_, validate_ok _ _ _ hv⟩).2 (by simpa [afterFirst] using hm)
  refine ⟨o, h1, h2, ?_⟩
  intro j hj
  have hj' : j < n + 2 := by simpa [afterFirst] using hj
  refine ⟨fun m => if m = "close" then (if j = 0 then a else 2) else 1, ?_, trivial⟩
  intro m hmm
  rw [h2] at hmm
  rcases hr m hmm with rfl | rfl
  · simp only [RawFrame.cell, afterFirst, List.find?, Label.lower, e4, beq_self_eq_true, if_true]
    cases j with
    | zero => rfl
    | succ j =>
      rw [List.getD_cons_succ, List.getD_eq_getElem?_getD, List.getElem?_replicate, if_pos (by omega)]
      rfl
  · simp only [RawFrame.cell, afterFirst, List.find?, Label.lower, e4, e5]
    show (List.replicate (n + 2) (Val.fin 1)).getD j .nan = _
    rw [List.getD_eq_getElem?_getD, List.getElem?_replicate, if_pos (by omega)]
    simp

/-- C68: on balance volume never forgets: for every number of days there are two data sets that agree on that many latest
days and give different values on the last one. -/
theorem C68_unbounded_obv (E : Env) (n : ℕ) : ∃ f g o p, WF f ∧ WF g ∧ f.since 1 = g.since 1 ∧
    (f.since 1).idx.length = n + 1 ∧ f.idx.length = g.idx.length ∧
    (construct E .onBalanceVolume (.frame f) (.bool true)).2 = .ok o ∧
    (construct E .onBalanceVolume (.frame g) (.bool true)).2 = .ok p ∧
    o.getTiData.day "obv" (n + 1) ≠ p.getTiData.day "obv" (n + 1) := by
  obtain ⟨o, h1, h2, h3⟩ := afterFirst_built E .onBalanceVolume .onBalanceVolume rfl 1 n (by simp [minRows]) (by simp [Ind.required])
  obtain ⟨p, k1, k2, k3⟩ := afterFirst_built E .onBalanceVolume .onBalanceVolume rfl 2 n (by simp [minRows]) (by simp [Ind.required])
  refine ⟨afterFirst 1 n, afterFirst 2 n, o, p, afterFirst_wf _ _, afterFirst_wf _ _, afterFirst_since _ _ _,
    afterFirst_rows _ _, by simp [afterFirst], h1, k1, ?_⟩
  rw [C43_on_balance_volume E _ _ true o (afterFirst_wf _ _) h1 h3 h2 (n + 1) (by simp [afterFirst]),
    C43_on_balance_volume E _ _ true p (afterFirst_wf _ _) k1 k3 k2 (n + 1) (by simp [afterFirst])]
  have hfell : ∀ a : ℚ, a ≤ 2 → closeFell (afterFirst a n) (n + 1) = ∅ := by
    intro a ha
    rw [closeFell, Finset.filter_eq_empty_iff]
    intro j hj
    simp only [Finset.mem_Ico] at hj
    rw [afterFirst_close _ _ _ (by omega), afterFirst_close _ _ _ (by omega), if_neg (by omega)]
    split <;> linarith
  have hrose : closeRose (afterFirst 1 n) (n + 1) = {1} := by
    ext j
    simp only [closeRose, Finset.mem_filter, Finset.mem_Ico, Finset.mem_singleton]
    constructor
    · rintro ⟨⟨hj1, hj2⟩, hlt⟩
      rw [afterFirst_close _ _ _ (by omega), afterFirst_close _ _ _ (by omega), if_neg (by omega : ¬ j = 0)] at hlt
      split at hlt
      · omega
      · linarith
    · rintro rfl
      refine ⟨by omega, ?_⟩
      rw [afterFirst_close _ _ _ (by omega), afterFirst_close _ _ _ (by omega)]
      norm_num
  have hrose2 : closeRose (afterFirst 2 n) (n + 1) = ∅ := by
    rw [closeRose, Finset.filter_eq_empty_iff]
    intro j hj
    simp only [Finset.mem_Ico] at hj
    rw [afterFirst_close _ _ _ (by omega), afterFirst_close _ _ _ (by omega), if_neg (by omega : ¬ j = 0)]
    split <;> linarith
  rw [hrose, hrose2, hfell 1 (by norm_num), hfell 2 (by norm_num), Finset.sum_singleton, afterFirst_volume _ _ _ (by omega)]
  simp

/-- C68: performance never forgets the first close. -/
theorem C68_unbounded_performance (E : Env) (n : ℕ) : ∃ f g o p, WF f ∧ WF g ∧ f.since 1 = g.since 1 ∧
    (f.since 1).idx.length = n + 1 ∧ f.idx.length = g.idx.length ∧
    (construct E (.performance (.str "LONG") (.float (.fin (1 / 20)))) (.frame f) (.bool true)).2 = .ok o ∧
    (construct E (.performance (.str "LONG") (.float (.fin (1 / 20)))) (.frame g) (.bool true)).2 = .ok p ∧
    o.getTiData.day "prf" (n + 1) ≠ p.getTiData.day "prf" (n + 1) := by
  have hc : (Call.performance (.str "LONG") (.float (.fin (1 / 20)))).check = .ok (.performance true (.fin (1 / 20))) := by
    decide +kernel
  obtain ⟨o, h1, h2, h3⟩ := afterFirst_built E _ _ hc 1 n (by simp [minRows]) (by simp [Ind.required])
  obtain ⟨p, k1, k2, k3⟩ := afterFirst_built E _ _ hc 2 n (by simp [minRows]) (by simp [Ind.required])
  refine ⟨afterFirst 1 n, afterFirst 2 n, o, p, afterFirst_wf _ _, afterFirst_wf _ _, afterFirst_since _ _ _,
    afterFirst_rows _ _, by simp [afterFirst], h1, k1, ?_⟩
  rw [(C53_performance ⟨afterFirst_wf _ _, h1, h3⟩ true _ h2 (n + 1) (by simp [afterFirst])).1,
    (C53_performance ⟨afterFirst_wf _ _, k1, k3⟩ true _ k2 (n + 1) (by simp [afterFirst])).1]
  rw [afterFirst_close _ _ _ (by omega), afterFirst_close _ _ _ (by omega), afterFirst_close _ _ _ (by omega),
    afterFirst_close _ _ _ (by omega)]
  simp only [if_true, Nat.add_eq_zero_iff, one_ne_zero, and_false, if_false]
  decide +kernel

end TTI.Props
