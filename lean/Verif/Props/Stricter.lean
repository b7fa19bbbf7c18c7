import Verif.Spec.Stricter
import Verif.Props.Alternate
import Verif.Props.FormulaBands
import Verif.Props.FormulaMomentum
import Verif.Props.ShortPeriod
import Verif.Lemmas.Col6

set_option autoImplicit false

/-!
# C79: a stricter parameter gives fewer signals and no others

Specification: `Verif/Spec/Stricter.lean`.
-/

namespace TTI.Props

open TTI.Spec

variable {E : Env} {c c' : Call} {f : RawFrame} {fill fill' : Bool} {o o' : Obj}

/-- From the cuts to the simulations. -/
theorem only_signals (hw : WF f) (h : (construct E c (.frame f) (.bool fill)).2 = .ok o)
    (h' : (construct E c' (.frame f) (.bool fill')).2 = .ok o') (hlen : o'.getTiData.idx.length = o.getTiData.idx.length)
    (hs : ∀ i p p', o.cut i = some p → o'.cut i = some p' → ∀ s, s ≠ .hold → p'.getTiSignal = .ok s → p.getTiSignal = .ok s)
    (closes closes' : InputArg) (m fac m' fac' : PyArg) (r r' : SimResult) (hr : (o.getTiSimulation closes m fac).2.2 = .ok r)
    (hr' : (o'.getTiSimulation closes' m' fac').2.2 = .ok r') : OnlySignalsOf r' r := by
  obtain ⟨sig, h1, h2, h3, h4⟩ := simulation_signals hw h closes m fac r hr
  obtain ⟨sig', h1', h2', h3', h4'⟩ := simulation_signals hw h' closes' m' fac' r' hr'
  have key : ∀ i < o.getTiData.idx.length, ∀ s, s ≠ .hold → sig' i = s → sig i = s := fun i hi s hne hs' => by
    obtain ⟨p, e1, e2⟩ := h1 i hi
    obtain ⟨p', e1', e2'⟩ := h1' i (by omega)
    have := hs i p p' e1 e1' s hne (by rw [e2', hs'])
    rw [e2] at this
    simpa using this
  refine ⟨fun i s hne => ?_, ?_, ?_⟩
  · rw [h2, h2', hlen]
    exact fun ⟨a, b⟩ => ⟨a, key i a s hne b⟩
  · rw [h3, h3', hlen]
    refine List.countP_mono_left fun i hi => ?_
    rw [List.mem_range] at hi
    simpa using key i hi .buy (by simp)
  · rw [h4, h4', hlen]
    refine List.countP_mono_left fun i hi => ?_
    rw [List.mem_range] at hi
    simpa using key i hi .sell (by simp)

/-- The row a cut ends with depends on the dates and the number of rows only. -/
theorem cut_row (o p : Obj) (hs : o.Sound) (he : o.ti.len = o.input.len) (i : ℕ) (hc : o.cut i = some p) :
    ∃ k, k < o.ti.len ∧ k + 1 = rowsUpTo (o.input.idx.getD i 0) o.input.idx ∧
      p = { o with input := o.input.take (k + 1), ti := o.ti.take (k + 1) } := by
  have hlt : i < o.ti.len := by
    by_contra hcon
    rw [cut_none o i (by omega)] at hc
    cases hc
  obtain ⟨d, h1, h2, h3⟩ := cut_eq o hs i hlt
  rw [h3] at hc
  simp only [Option.some.injEq] at hc
  have hidx : o.ti.idx = o.input.idx := by
    rw [hs.dates, he]
    exact List.take_length
  have h4 := rowsUpTo_pos _ i d h1
  have h5 := rowsUpTo_le o.input.idx d
  refine ⟨rowsUpTo d o.input.idx - 1, ?_, ?_, ?_⟩
  · rw [he]; unfold Frame.len; omega
  · rw [List.getD_eq_getElem?_getD, h1]
    show _ = rowsUpTo d o.input.idx
    omega
  · rw [← hc, hidx, Nat.sub_add_cancel h4]

/-- The bands around the close decide the signal of a cut. -/
theorem cut_outside (o p : Obj) (hs : o.Sound) (u l : String) (hu : u ∈ Spec.columns o.ind) (hl : l ∈ Spec.columns o.ind)
    (hcl : "close" ∈ inputColumns o.ind) (hr : ∀ F T, rule F T o.ind = outside (fun k => before k (T.col u)) (fun k => before k (T.col l))
      (fun k => before k (F.col "close"))) (k : ℕ) (hk : k < o.ti.len) (he : o.ti.len = o.input.len)
    (hp : p = { o with input := o.input.take (k + 1), ti := o.ti.take (k + 1) }) (hps : p.Sound) :
    (p.getTiSignal = .ok .buy ↔ o.input.day "close" k <ᵥ o.ti.day l k ∧ ¬ o.ti.day u k <ᵥ o.input.day "close" k) ∧
    (p.getTiSignal = .ok .sell ↔ o.ti.day u k <ᵥ o.input.day "close" k) := by
  subst hp
  have h := signal_rule _ _ _ hps.shaped
  have hlen : (o.ti.take (k + 1)).len = k + 1 := by
    unfold Frame.len
    rw [Frame.take_idx, List.length_take]
    exact Nat.min_eq_left hk
  unfold Follows at h
  dsimp only at h
  rw [hr, hlen] at h
  simp only [outside] at h
  have e1 := before_cut (o.ti.col u) k 0 (by rw [hs.shaped.tcol u hu]; exact hk)
  have e2 := before_cut (o.ti.col l) k 0 (by rw [hs.shaped.tcol l hl]; exact hk)
  have e3 := before_cut (o.input.col "close") k 0 (by rw [hs.shaped.fcol _ hcl, ← he]; exact hk)
  rw [Frame.take_col, Frame.take_col, Frame.take_col, e1, e2, e3] at h
  have h1 : (1 ≤ k + 1) = True := by simp
  simp only [Nat.zero_le, if_true, Nat.sub_zero, h1, true_and] at h
  exact h

theorem le_lt_trans' (a b c : Val) (h1 : a ≤ᵥ b) (h2 : b <ᵥ c) : a <ᵥ c := by
  cases a <;> cases b <;> cases c <;> simp [Val.lt, Val.le] at h1 h2 ⊢
  exact lt_of_le_of_lt h1 h2

theorem le_trans' (a b c : Val) (h1 : a ≤ᵥ b) (h2 : b ≤ᵥ c) : a ≤ᵥ c := by
  cases a <;> cases b <;> cases c <;> simp [Val.le] at h1 h2 ⊢
  exact h1.trans h2

theorem lt_le_trans' (a b c : Val) (h1 : a <ᵥ b) (h2 : b ≤ᵥ c) : a <ᵥ c := by
  cases a <;> cases b <;> cases c <;> simp [Val.lt, Val.le] at h1 h2 ⊢
  exact lt_of_lt_of_le h1 h2

/-- Wider bands give only signals of the narrower ones. -/
theorem outside_only (hw : WF f) (h : (construct E c (.frame f) (.bool fill)).2 = .ok o)
    (h' : (construct E c' (.frame f) (.bool fill')).2 = .ok o') (u l : String)
    (hu : u ∈ Spec.columns o.ind) (hl : l ∈ Spec.columns o.ind) (hu' : u ∈ Spec.columns o'.ind) (hl' : l ∈ Spec.columns o'.ind)
    (hcl : "close" ∈ inputColumns o.ind) (hcl' : "close" ∈ inputColumns o'.ind)
    (hd : ∀ p, o.ind ≠ .detrendedPriceOscillator p) (hd' : ∀ p, o'.ind ≠ .detrendedPriceOscillator p)
    (hr : ∀ F T, rule F T o.ind = outside (fun k => before k (T.col u)) (fun k => before k (T.col l))
      (fun k => before k (F.col "close")))
    (hr' : ∀ F T, rule F T o'.ind = outside (fun k => before k (T.col u)) (fun k => before k (T.col l))
      (fun k => before k (F.col "close")))
    (hc : ∀ k < f.idx.length, o'.input.day "close" k = o.input.day "close" k)
    (hb : ∀ k < f.idx.length, Contains (o'.ti.day l k) (o'.ti.day u k) (o.ti.day l k) (o.ti.day u k))
    (closes closes' : InputArg) (m fac m' fac' : PyArg) (r r' : SimResult) (hS : (o.getTiSimulation closes m fac).2.2 = .ok r)
    (hS' : (o'.getTiSimulation closes' m' fac').2.2 = .ok r') : OnlySignalsOf r' r := by
  obtain ⟨hs, -, hidx, -⟩ := construct_sound E c f fill o hw h
  obtain ⟨hs', -, hidx', -⟩ := construct_sound E c' f fill' o' hw h'
  have e := hs.shaped.rowsEq hd
  have e' := hs'.shaped.rowsEq hd'
  have hF : o.input.len = f.idx.length := by unfold Frame.len; rw [hidx, (sortIdx_perm _).length_eq]
  have hF' : o'.input.len = f.idx.length := by unfold Frame.len; rw [hidx', (sortIdx_perm _).length_eq]
  refine only_signals hw h h' (show o'.ti.len = o.ti.len by omega) ?_ closes closes' m fac m' fac' r r' hS hS'
  intro i p p' hp hp' s hne hsig
  obtain ⟨k, hk, hk1, hk2⟩ := cut_row o p hs e i hp
  obtain ⟨k', hk', hk1', hk2'⟩ := cut_row o' p' hs' e' i hp'
  have : k' = k := by
    rw [hidx] at hk1
    rw [hidx'] at hk1'
    omega
  subst this
  obtain ⟨b1, b2⟩ := cut_outside o p hs u l hu hl hcl hr k' hk e hk2 (cut_sound o p hs i hp).1
  obtain ⟨b1', b2'⟩ := cut_outside o' p' hs' u l hu' hl' hcl' hr' k' hk' e' hk2' (cut_sound o' p' hs' i hp').1
  rw [hc k' (by omega)] at b1' b2'
  rcases hb k' (by omega) with ⟨n1, n2⟩ | ⟨c1, c2, c3⟩
  · rw [n1] at b1'
    rw [n2] at b2'
    cases s
    · have := (b1'.1 hsig).1; simp [lt_nan] at this
    · exact absurd rfl hne
    · have := b2'.1 hsig; simp [nan_lt] at this
  · cases s
    · obtain ⟨q1, q2⟩ := b1'.1 hsig
      have q3 := lt_le_trans' _ _ _ q1 c1
      exact b1.2 ⟨q3, lt_asymm _ _ (lt_le_trans' _ _ _ q3 c2)⟩
    · exact absurd rfl hne
    · exact b2.2 (le_lt_trans' _ _ _ c3 (b2'.1 hsig))

/-- Same closes in both objects. -/
theorem same_close {P : (String → ℚ) → Prop} (hB : BuiltOn E c f fill o P) (hc : "close" ∈ o.ind.required)
    (hi : ∀ F : Frame, o.ind.inputAfter F = F) (k : ℕ) (hk : k < f.idx.length) : o.input.day "close" k = .fin (close f k) := by
  obtain ⟨F, x, hg, hlen, -, h1, h2, h3, -, ht, hin, -⟩ := construct_days E c f fill o _ hB.wf hB.ok hB.rows
  rw [hin, hi]
  show val (F.col "close") k = _
  rw [h2 _ hc k (by omega)]
  have := h3 _ hc k (by omega)
  show _ = Val.fin (number (f.day "close" k))
  rw [this]
  rfl

/-- C79: more standard deviations: the Bollinger bands of a larger `std_number` contain those of a smaller one. -/
theorem C79_bollinger_bands (hE : SoundEnv E) (hB : BuiltOn E c f fill o AnyPrices) (hB' : BuiltOn E c' f fill' o' AnyPrices) (n : ℕ)
    (s s' : ℚ) (ho : o.ind = .bollingerBands n (.fin s)) (ho' : o'.ind = .bollingerBands n (.fin s')) (hs : s ≤ s') (i : ℕ)
    (hi : i < f.idx.length) :
    Contains (o'.getTiData.day "lower_band" i) (o'.getTiData.day "upper_band" i) (o.getTiData.day "lower_band" i)
      (o.getTiData.day "upper_band" i) := by
  obtain ⟨-, h1, h2⟩ := C54_bollinger hB n s ho i hi
  obtain ⟨-, h1', h2'⟩ := C54_bollinger hB' n s' ho' i hi
  have hpos : 0 ≤ s := by
    obtain ⟨F, -, -, -, -, hp, -⟩ := hB.on ho
    exact (of_decide_eq_true hp.2 : (0 : ℚ) < s).le
  rw [h1, h2, h1', h2']
  have hq := hE.sq _ (varianceLast_nonneg n (close f) i)
  unfold since Contains
  split_ifs
  · exact .inl ⟨rfl, rfl⟩
  · right
    simp only [to4, Val.le, decide_eq_true_eq]
    refine ⟨roundQ_mono 4 ?_, roundQ_mono 4 ?_, roundQ_mono 4 ?_⟩ <;> nlinarith [mul_le_mul_of_nonneg_right hs hq, mul_nonneg hpos hq]

/-- C79: so with a larger `std_number` the simulation gives no signal that it does not give with the smaller one. -/
theorem C79_bollinger (hE : SoundEnv E) (hB : BuiltOn E c f fill o AnyPrices) (hB' : BuiltOn E c' f fill' o' AnyPrices) (n : ℕ)
    (s s' : ℚ) (ho : o.ind = .bollingerBands n (.fin s)) (ho' : o'.ind = .bollingerBands n (.fin s')) (hs : s ≤ s')
    (closes closes' : InputArg) (m fac m' fac' : PyArg) (r r' : SimResult) (hS : (o.getTiSimulation closes m fac).2.2 = .ok r)
    (hS' : (o'.getTiSimulation closes' m' fac').2.2 = .ok r') : OnlySignalsOf r' r :=
  outside_only hB.wf hB.ok hB'.ok "upper_band" "lower_band" (by rw [ho]; simp [Spec.columns]) (by rw [ho]; simp [Spec.columns])
    (by rw [ho']; simp [Spec.columns]) (by rw [ho']; simp [Spec.columns]) (by rw [ho]; simp [inputColumns, Ind.required])
    (by rw [ho']; simp [inputColumns, Ind.required]) (by rw [ho]; simp) (by rw [ho']; simp) (fun F T => by rw [ho]; rfl)
    (fun F T => by rw [ho']; rfl)
    (fun k hk => by
      rw [same_close hB (by rw [ho]; simp [Ind.required]) (fun F => by rw [ho]; rfl) k hk,
        same_close hB' (by rw [ho']; simp [Ind.required]) (fun F => by rw [ho']; rfl) k hk])
    (fun k hk => C79_bollinger_bands hE hB hB' n s s' ho ho' hs k hk) closes closes' m fac m' fac' r r' hS hS'

/-- C79: a larger shift: the envelopes of a larger fraction contain those of a smaller one, if the prices are not negative. -/
theorem C79_envelopes_bands (hB : BuiltOn E c f fill o fun x => 0 ≤ x "close") (hB' : BuiltOn E c' f fill' o' AnyPrices) (n : ℕ)
    (s s' : ℚ) (ho : o.ind = .envelopes n s) (ho' : o'.ind = .envelopes n s') (hs : s ≤ s') (i : ℕ) (hi : i < f.idx.length) :
    Contains (o'.getTiData.day "lower_band" i) (o'.getTiData.day "upper_band" i) (o.getTiData.day "lower_band" i)
      (o.getTiData.day "upper_band" i) := by
  obtain ⟨F, hF, -, hpr, -, ⟨hp, hs0, -⟩, -⟩ := hB.on ho
  have hm : 0 ≤ meanLast n (close f) i := by
    unfold meanLast sumLast
    refine div_nonneg (Finset.sum_nonneg fun t _ => ?_) (by positivity)
    obtain ⟨x, hx, hx'⟩ := hpr (i - t) (by omega)
    rw [hx "close" (by simp [Ind.required])] at hx'
    exact hx'
  obtain ⟨h1, h2⟩ := C54_envelopes (⟨hB.wf, hB.ok, fun j hj => (hB.rows j hj).imp fun _ h => ⟨h.1, trivial⟩⟩) n s ho i hi
  obtain ⟨h1', h2'⟩ := C54_envelopes hB' n s' ho' i hi
  rw [h1, h2, h1', h2']
  unfold since Contains
  split_ifs
  · exact .inl ⟨rfl, rfl⟩
  · right
    simp only [to4, Val.le, decide_eq_true_eq]
    refine ⟨roundQ_mono 4 ?_, roundQ_mono 4 ?_, roundQ_mono 4 ?_⟩ <;> nlinarith [mul_le_mul_of_nonneg_right hs hm, mul_nonneg hs0.le hm]

/-- C79: so with a larger shift the simulation gives no signal that it does not give with the smaller one. -/
theorem C79_envelopes (hB : BuiltOn E c f fill o fun x => 0 ≤ x "close") (hB' : BuiltOn E c' f fill' o' AnyPrices) (n : ℕ)
    (s s' : ℚ) (ho : o.ind = .envelopes n s) (ho' : o'.ind = .envelopes n s') (hs : s ≤ s')
    (closes closes' : InputArg) (m fac m' fac' : PyArg) (r r' : SimResult) (hS : (o.getTiSimulation closes m fac).2.2 = .ok r)
    (hS' : (o'.getTiSimulation closes' m' fac').2.2 = .ok r') : OnlySignalsOf r' r :=
  outside_only hB.wf hB.ok hB'.ok "upper_band" "lower_band" (by rw [ho]; simp [Spec.columns]) (by rw [ho]; simp [Spec.columns])
    (by rw [ho']; simp [Spec.columns]) (by rw [ho']; simp [Spec.columns]) (by rw [ho]; simp [inputColumns, Ind.required])
    (by rw [ho']; simp [inputColumns, Ind.required]) (by rw [ho]; simp) (by rw [ho']; simp) (fun F T => by rw [ho]; rfl)
    (fun F T => by rw [ho']; rfl)
    (fun k hk => by
      rw [same_close hB (by rw [ho]; simp [Ind.required]) (fun F => by rw [ho]; rfl) k hk,
        same_close hB' (by rw [ho']; simp [Ind.required]) (fun F => by rw [ho']; rfl) k hk])
    (fun k hk => C79_envelopes_bands hB hB' n s s' ho ho' hs k hk) closes closes' m fac m' fac' r r' hS hS'

theorem highest_mono (n n' : ℕ) (hn : 1 ≤ n) (h : n ≤ n') (g : ℕ → ℚ) (i : ℕ) : highest n g i ≤ highest n' g i := by
  obtain ⟨-, t, ht, e⟩ := Nums.highest_spec n hn g i
  rw [e]
  exact (Nums.highest_spec n' (by omega) g i).1 t (by omega)

theorem lowest_mono (n n' : ℕ) (hn : 1 ≤ n) (h : n ≤ n') (g : ℕ → ℚ) (i : ℕ) : lowest n' g i ≤ lowest n g i := by
  obtain ⟨-, t, ht, e⟩ := Nums.lowest_spec n hn g i
  rw [e]
  exact (Nums.lowest_spec n' (by omega) g i).1 t (by omega)

/-- C79: a longer period: the price channel of more days contains the one of fewer days, if no low is above its high. -/
theorem C79_price_channel_bands (hB : BuiltOn E c f fill o fun x => x "low" ≤ x "high") (hB' : BuiltOn E c' f fill' o' AnyPrices)
    (n n' : ℕ) (ho : o.ind = .priceChannel n) (ho' : o'.ind = .priceChannel n') (hn : n ≤ n') (i : ℕ) (hi : i < f.idx.length) :
    Contains (o'.getTiData.day "lowest_low" i) (o'.getTiData.day "highest_high" i) (o.getTiData.day "lowest_low" i)
      (o.getTiData.day "highest_high" i) := by
  obtain ⟨F, hF, -, hpr, -, hp, -⟩ := hB.on ho
  replace hp : 1 ≤ n := hp
  obtain ⟨h1, h2⟩ := C54_price_channel (⟨hB.wf, hB.ok, fun j hj => (hB.rows j hj).imp fun _ h => ⟨h.1, trivial⟩⟩) n ho i hi
  obtain ⟨h1', h2'⟩ := C54_price_channel hB' n' ho' i hi
  rw [h1, h2, h1', h2']
  unfold since Contains
  by_cases hlt : i < n'
  · rw [if_pos hlt, if_pos hlt]
    exact .inl ⟨rfl, rfl⟩
  · rw [if_neg hlt, if_neg hlt, if_neg (by omega), if_neg (by omega)]
    right
    simp only [to4, Val.le, decide_eq_true_eq]
    refine ⟨roundQ_mono 4 (lowest_mono n n' hp hn _ _), roundQ_mono 4 ?_, roundQ_mono 4 (highest_mono n n' hp hn _ _)⟩
    have a := (Nums.lowest_spec n hp (low f) (i - 1)).1 0 (by omega)
    have b := (Nums.highest_spec n hp (high f) (i - 1)).1 0 (by omega)
    obtain ⟨x, hx, hx'⟩ := hpr (i - 1) (by omega)
    rw [hx "low" (by simp [Ind.required]), hx "high" (by simp [Ind.required])] at hx'
    exact a.trans (hx'.trans b)

/-- C79: so with a longer period the simulation gives no signal that it does not give with the shorter one. -/
theorem C79_price_channel (hB : BuiltOn E c f fill o fun x => x "low" ≤ x "high") (hB' : BuiltOn E c' f fill' o' AnyPrices)
    (n n' : ℕ) (ho : o.ind = .priceChannel n) (ho' : o'.ind = .priceChannel n') (hn : n ≤ n')
    (closes closes' : InputArg) (m fac m' fac' : PyArg) (r r' : SimResult) (hS : (o.getTiSimulation closes m fac).2.2 = .ok r)
    (hS' : (o'.getTiSimulation closes' m' fac').2.2 = .ok r') : OnlySignalsOf r' r :=
  outside_only hB.wf hB.ok hB'.ok "highest_high" "lowest_low" (by rw [ho]; simp [Spec.columns]) (by rw [ho]; simp [Spec.columns])
    (by rw [ho']; simp [Spec.columns]) (by rw [ho']; simp [Spec.columns]) (by rw [ho]; simp [inputColumns, Ind.required])
    (by rw [ho']; simp [inputColumns, Ind.required]) (by rw [ho]; simp) (by rw [ho']; simp) (fun F T => by rw [ho]; rfl)
    (fun F T => by rw [ho']; rfl)
    (fun k hk => by
      rw [same_close hB (by rw [ho]; simp [Ind.required]) (fun F => by rw [ho]; rfl) k hk,
        same_close hB' (by rw [ho']; simp [Ind.required]) (fun F => by rw [ho']; rfl) k hk])
    (fun k hk => C79_price_channel_bands hB hB' n n' ho ho' hn k hk) closes closes' m fac m' fac' r r' hS hS'

/-- C79: a more ambitious target: the performance indicator sells (LONG) or buys (SHORT) only on days on which it does so with
the less ambitious target. -/
theorem C79_performance (hB : BuiltOn E c f fill o AnyPrices) (hB' : BuiltOn E c' f fill' o' AnyPrices) (long : Bool) (t t' : Val)
    (ho : o.ind = .performance long t) (ho' : o'.ind = .performance long t') (ht : if long then t ≤ᵥ t' else t' ≤ᵥ t)
    (closes closes' : InputArg) (m fac m' fac' : PyArg) (r r' : SimResult) (hS : (o.getTiSimulation closes m fac).2.2 = .ok r)
    (hS' : (o'.getTiSimulation closes' m' fac').2.2 = .ok r') : OnlySignalsOf r' r := by
  obtain ⟨hs, -, hidx, -⟩ := construct_sound E c f fill o hB.wf hB.ok
  obtain ⟨hs', -, hidx', -⟩ := construct_sound E c' f fill' o' hB'.wf hB'.ok
  have e := hs.shaped.rowsEq (by rw [ho]; simp)
  have e' := hs'.shaped.rowsEq (by rw [ho']; simp)
  have hF : o.input.len = f.idx.length := by unfold Frame.len; rw [hidx, (sortIdx_perm _).length_eq]
  have hF' : o'.input.len = f.idx.length := by unfold Frame.len; rw [hidx', (sortIdx_perm _).length_eq]
  refine only_signals hB.wf hB.ok hB'.ok (show o'.ti.len = o.ti.len by omega) ?_ closes closes' m fac m' fac' r r' hS hS'
  intro i p p' hp hp' s hne hsig
  obtain ⟨k, hk, hk1, hk2⟩ := cut_row o p hs e i hp
  obtain ⟨k', hk', hk1', hk2'⟩ := cut_row o' p' hs' e' i hp'
  have : k' = k := by
    rw [hidx] at hk1
    rw [hidx'] at hk1'
    omega
  subst this
  have hsp := (cut_sound o p hs i hp).1
  have hsp' := (cut_sound o' p' hs' i hp').1
  have v := (C53_performance hB long t ho k' (by omega)).1
  have v' := (C53_performance hB' long t' ho' k' (by omega)).1
  subst hk2 hk2'
  have R := signal_rule _ _ _ hsp.shaped
  have R' := signal_rule _ _ _ hsp'.shaped
  have hlen : (o.ti.take (k' + 1)).len = k' + 1 := by
    unfold Frame.len; rw [Frame.take_idx, List.length_take]; exact Nat.min_eq_left hk
  have hlen' : (o'.ti.take (k' + 1)).len = k' + 1 := by
    unfold Frame.len; rw [Frame.take_idx, List.length_take]; exact Nat.min_eq_left hk'
  have e1 := before_cut (o.ti.col "prf") k' 0 (by rw [hs.shaped.tcol _ (by rw [ho]; cases long <;> simp [Spec.columns])]; exact hk)
  have e2 := before_cut (o'.ti.col "prf") k' 0 (by rw [hs'.shaped.tcol _ (by rw [ho']; cases long <;> simp [Spec.columns])]; exact hk')
  have w : (o.ti.col "prf").getD k' .nan = (o'.ti.col "prf").getD k' .nan := v.trans v'.symm
  unfold Follows at R R'
  unfold Obj.getTiSignal at hsig ⊢
  dsimp only at R R' hsig ⊢
  rw [ho, hlen] at R
  rw [ho', hlen'] at R'
  rw [ho'] at hsig
  rw [ho]
  simp only [rule, Frame.take_col, e1, e2, Nat.zero_le, if_true, Nat.sub_zero, w] at R R'
  generalize (o'.ti.col "prf").getD k' .nan = x at R R'
  cases s
  · obtain ⟨a, b, d⟩ := R'.1.1 hsig
    refine R.1.2 ⟨a, b, ?_⟩
    simp only [b, if_false] at ht
    exact le_trans' _ _ _ d ht
  · exact absurd rfl hne
  · obtain ⟨a, b, d⟩ := R'.2.1 hsig
    refine R.2.2 ⟨a, b, ?_⟩
    simp only [b, if_true] at ht
    exact le_trans' _ _ _ ht d

/-! ## Concrete cases -/

/-- Rows of the concrete days. -/
theorem sideways_built {E : Env} {c : Call} {o : Obj} (closes : List ℚ) (P : (String → ℚ) → Prop)
    (h : (construct E c (.frame (sideways closes)) (.bool true)).2 = .ok o) (hn : ∀ m ∈ o.ind.required, m ∈ ["high", "low", "close"])
    (hP : ∀ q ∈ closes, ∀ x : String → ℚ, ("high" ∈ o.ind.required → x "high" = 12) → ("low" ∈ o.ind.required → x "low" = 8) →
      x "close" = q → P x) : BuiltOn E c (sideways closes) true o P := by
  refine ⟨?_, h, ?_⟩
  · intro c hc
    simp only [sideways, List.mem_cons, List.not_mem_nil, or_false] at hc
    rcases hc with rfl | rfl | rfl <;> simp [sideways]
  · intro j hj
    have hj' : j < closes.length := by simpa [sideways] using hj
    refine ⟨fun m => if m = "high" then 12 else if m = "low" then 8 else closes[j], ?_, ?_⟩
    · intro m hm
      have := hn m hm
      simp only [List.mem_cons, List.not_mem_nil, or_false] at this
      have e1 : "High".toLower = "high" := by decide +kernel
      have e2 : "Low".toLower = "low" := by decide +kernel
      have e3 : "Close".toLower = "close" := by decide +kernel
      rcases this with rfl | rfl | rfl <;>
        simp [RawFrame.cell, sideways, Label.lower, e1, e2, e3, List.find?, hj']
    · exact hP closes[j] (List.getElem_mem _) _ (fun _ => by simp) (fun _ => by simp) (by simp)

/-- Two objects on the same days, with simulations of both. -/
theorem sideways_pair {E : Env} {c c' : Call} {ind ind' : Ind} (closes : List ℚ) (S S' : List (Option Signal) × ℕ × ℕ)
    (h : ((construct E c (.frame (sideways closes)) (.bool true)).2.map (·.ind)) = .ok ind)
    (h' : ((construct E c' (.frame (sideways closes)) (.bool true)).2.map (·.ind)) = .ok ind')
    (hs : signalsOf E c (sideways closes) = some S) (hs' : signalsOf E c' (sideways closes) = some S')
    (hn : ∀ m ∈ ind.required, m ∈ ["high", "low", "close"]) (hn' : ∀ m ∈ ind'.required, m ∈ ["high", "low", "close"])
    (P : (String → ℚ) → Prop) (hP : ∀ q ∈ closes, ∀ x : String → ℚ, ("high" ∈ ind.required → x "high" = 12) →
      ("low" ∈ ind.required → x "low" = 8) → x "close" = q → P x) :
    ∃ o o' r r', BuiltOn E c (sideways closes) true o P ∧ o.ind = ind ∧ BuiltOn E c' (sideways closes) true o' AnyPrices ∧ o'.ind = ind' ∧
      (o.getTiSimulation (.frame (sideways closes)) .none (.float (.fin (3 / 2)))).2.2 = .ok r ∧
      (o'.getTiSimulation (.frame (sideways closes)) .none (.float (.fin (3 / 2)))).2.2 = .ok r' ∧
      r.rows.map (·.map (·.signal)) = S.1 ∧ r'.rows.map (·.map (·.signal)) = S'.1 := by
  unfold signalsOf at hs hs'
  rcases hc : (construct E c (.frame (sideways closes)) (.bool true)).2 with e | o
  · rw [hc] at h; cases h
  rcases hc' : (construct E c' (.frame (sideways closes)) (.bool true)).2 with e | o'
  · rw [hc'] at h'; cases h'
  rw [hc] at h hs
  rw [hc'] at h' hs'
  simp only [Except.map, Except.ok.injEq] at h h'
  dsimp only at hs hs'
  split at hs
  · next r hr =>
    split at hs'
    · next r' hr' =>
      simp only [Option.some.injEq] at hs hs'
      subst h h' hs hs'
      exact ⟨o, o', r, r', sideways_built closes P hc hn hP, rfl, sideways_built closes AnyPrices hc' hn' fun _ _ _ _ _ _ => trivial, rfl,
        hr, hr', rfl, rfl⟩
    · cases hs'
  · cases hs

/-- The hypotheses of `C79_envelopes` on seven days: a shift of 5% gives a sell, a buy and a sell signal, a shift of 10% the last
two of them. -/
example : ∃ o o' r r', BuiltOn demoEnv (.envelopes (.int 2) (.float (.fin (1 / 20)))) (sideways [10, 10, 12, 9, 9, 9, 14]) true o
      (fun x => 0 ≤ x "close") ∧ o.ind = .envelopes 2 (1 / 20) ∧
    BuiltOn demoEnv (.envelopes (.int 2) (.float (.fin (1 / 10)))) (sideways [10, 10, 12, 9, 9, 9, 14]) true o' AnyPrices ∧
    o'.ind = .envelopes 2 (1 / 10) ∧
    (o.getTiSimulation (.frame (sideways [10, 10, 12, 9, 9, 9, 14])) .none (.float (.fin (3 / 2)))).2.2 = .ok r ∧
    (o'.getTiSimulation (.frame (sideways [10, 10, 12, 9, 9, 9, 14])) .none (.float (.fin (3 / 2)))).2.2 = .ok r' ∧
    r.rows.map (·.map (·.signal)) = [some .hold, some .hold, some .sell, some .buy, some .hold, some .hold, some .sell] ∧
    r'.rows.map (·.map (·.signal)) = [some .hold, some .hold, some .hold, some .buy, some .hold, some .hold, some .sell] :=
  sideways_pair _ (_, 1, 2) (_, 1, 1) (by decide +kernel) (by decide +kernel) (by decide +kernel) (by decide +kernel) (by decide)
    (by decide) _ fun q hq x _ _ hx => by
      rw [hx]
      simp only [List.mem_cons, List.not_mem_nil, or_false] at hq
      rcases hq with rfl | rfl | rfl | rfl | rfl | rfl | rfl <;> norm_num

/-- The hypotheses of `C79_price_channel` on seven days, with periods of one and three days. -/
example : ∃ o o' r r', BuiltOn demoEnv (.priceChannel (.int 1)) (sideways [10, 10, 13, 9, 9, 7, 14]) true o
      (fun x => x "low" ≤ x "high") ∧ o.ind = .priceChannel 1 ∧
    BuiltOn demoEnv (.priceChannel (.int 3)) (sideways [10, 10, 13, 9, 9, 7, 14]) true o' AnyPrices ∧ o'.ind = .priceChannel 3 ∧
    (o.getTiSimulation (.frame (sideways [10, 10, 13, 9, 9, 7, 14])) .none (.float (.fin (3 / 2)))).2.2 = .ok r ∧
    (o'.getTiSimulation (.frame (sideways [10, 10, 13, 9, 9, 7, 14])) .none (.float (.fin (3 / 2)))).2.2 = .ok r' ∧
    r.rows.map (·.map (·.signal)) = [some .hold, some .hold, some .sell, some .hold, some .hold, some .buy, some .sell] ∧
    r'.rows.map (·.map (·.signal)) = [some .hold, some .hold, some .hold, some .hold, some .hold, some .buy, some .sell] :=
  sideways_pair _ (_, 1, 2) (_, 1, 1) (by decide +kernel) (by decide +kernel) (by decide +kernel) (by decide +kernel) (by decide)
    (by decide) _ fun q hq x h1 h2 _ => by
      rw [h1 (by decide), h2 (by decide)]
      norm_num

/-- The hypotheses of `C79_bollinger` on seven days. -/
example : SoundEnv demoEnv ∧
    ∃ o o' r r', BuiltOn demoEnv (.bollingerBands (.int 4) (.int 1)) (sideways [10, 10, 12, 9, 9, 9, 14]) true o AnyPrices ∧
    o.ind = .bollingerBands 4 (.fin 1) ∧
    BuiltOn demoEnv (.bollingerBands (.int 4) (.int 2)) (sideways [10, 10, 12, 9, 9, 9, 14]) true o' AnyPrices ∧
    o'.ind = .bollingerBands 4 (.fin 2) ∧
    (o.getTiSimulation (.frame (sideways [10, 10, 12, 9, 9, 9, 14])) .none (.float (.fin (3 / 2)))).2.2 = .ok r ∧
    (o'.getTiSimulation (.frame (sideways [10, 10, 12, 9, 9, 9, 14])) .none (.float (.fin (3 / 2)))).2.2 = .ok r' ∧
    r.rows.map (·.map (·.signal)) = [some .hold, some .hold, some .hold, some .buy, some .hold, some .hold, some .hold] ∧
    r'.rows.map (·.map (·.signal)) = [some .hold, some .hold, some .hold, some .hold, some .hold, some .hold, some .hold] :=
  ⟨demoEnv_sound, sideways_pair _ (_, 1, 0) (_, 0, 0) (by decide +kernel) (by decide +kernel) (by decide +kernel) (by decide +kernel)
    (by decide) (by decide) _ fun _ _ _ _ _ _ => trivial⟩

/-- The hypotheses of `C79_performance` on seven days, with targets of 10% and 20%. -/
example : ∃ o o' r r', BuiltOn demoEnv (.performance (.str "LONG") (.float (.fin (1 / 10)))) (sideways [10, 10, 13, 11, 9, 7, 14]) true o
      AnyPrices ∧ o.ind = .performance true (.fin (1 / 10)) ∧
    BuiltOn demoEnv (.performance (.str "LONG") (.float (.fin (1 / 5)))) (sideways [10, 10, 13, 11, 9, 7, 14]) true o' AnyPrices ∧
    o'.ind = .performance true (.fin (1 / 5)) ∧
    (o.getTiSimulation (.frame (sideways [10, 10, 13, 11, 9, 7, 14])) .none (.float (.fin (3 / 2)))).2.2 = .ok r ∧
    (o'.getTiSimulation (.frame (sideways [10, 10, 13, 11, 9, 7, 14])) .none (.float (.fin (3 / 2)))).2.2 = .ok r' ∧
    r.rows.map (·.map (·.signal)) = [some .hold, some .hold, some .sell, some .sell, some .hold, some .hold, some .sell] ∧
    r'.rows.map (·.map (·.signal)) = [some .hold, some .hold, some .sell, some .hold, some .hold, some .hold, some .sell] :=
  sideways_pair _ (_, 0, 3) (_, 0, 2) (by decide +kernel) (by decide +kernel) (by decide +kernel) (by decide +kernel) (by decide)
    (by decide) _ fun _ _ _ _ _ _ => trivial

/-- C79: a longer period of the envelopes is not stricter: with two days there is no signal on the last day where with three days
there is one. -/
theorem C79_longer_envelopes_differ (E : Env) :
    signalsOf E (.envelopes (.int 2) (.float (.fin (1 / 10)))) (sideways [10, 8, 7]) = some ([some .hold, some .buy, some .hold], 1, 0) ∧
    signalsOf E (.envelopes (.int 3) (.float (.fin (1 / 10)))) (sideways [10, 8, 7]) = some ([some .hold, some .hold, some .buy], 1, 0) := by
  have h2 : ∀ (x : InputArg), construct E (.envelopes (.int 2) (.float (.fin (1 / 10)))) x (.bool true) =
    construct demoEnv (.envelopes (.int 2) (.float (.fin (1 / 10)))) x (.bool true) := fun _ => by
    have hc : Call.check (.envelopes (.int 2) (.float (.fin (1 / 10)))) = .ok (.envelopes 2 (1 / 10)) := by decide +kernel
    unfold construct
    rw [hc]
    rfl
  have h3 : ∀ (x : InputArg), construct E (.envelopes (.int 3) (.float (.fin (1 / 10)))) x (.bool true) =
    construct demoEnv (.envelopes (.int 3) (.float (.fin (1 / 10)))) x (.bool true) := fun _ => by
    have hc : Call.check (.envelopes (.int 3) (.float (.fin (1 / 10)))) = .ok (.envelopes 3 (1 / 10)) := by decide +kernel
    unfold construct
    rw [hc]
    rfl
  unfold signalsOf
  rw [h2, h3]
  decide +kernel

end TTI.Props
