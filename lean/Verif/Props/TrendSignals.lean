import Verif.Props.Trend
import Verif.Props.Alternate
import Verif.Props.Constant
import Verif.Props.FloatLife
import Verif.Props.Stakes

set_option autoImplicit false

/-!
# What the signals say, and what a simulation earns, in a market that only rises, or only falls: C102

`o'` is the object itself or one of the objects whose signals a simulation asks for.
-/

namespace TTI.Props

open Spec

variable {E : Env} {c : Call} {f : RawFrame} {fill : Bool} {o o' : Obj}

/-- What the object, or the object of a day of a simulation, shows: the last `k`-th value is that of a day. -/
structure View (f : RawFrame) (o o' : Obj) (m : ℕ) : Prop where
  le : m ≤ f.idx.length
  ind : o'.ind = o.ind
  reach : Reachable o'
  rows : o'.getTiData.idx.length = m
  ti : ∀ name ∈ columns o.ind, ∀ k < m, before k (o'.ti.col name) = o.getTiData.day name (m - 1 - k)
  none : ∀ name ∈ columns o.ind, ∀ k, m ≤ k → before k (o'.ti.col name) = .nan
  px : ∀ name ∈ o.ind.required, ∀ k < m, before k (o'.input.col name) = .fin (price f name (m - 1 - k))
  tiLen : ∀ name ∈ columns o.ind, (o'.ti.col name).length = m
  tiVal : ∀ name ∈ columns o.ind, ∀ j < m, val (o'.ti.col name) j = o.getTiData.day name j
  pxNums : ∀ name ∈ o.ind.required, Nums m 0 (price f name) (o'.input.col name)

theorem take_all (F : Frame) (h : F.WF) (n : ℕ) (hn : F.len = n) : F.take n = F := by
  rcases F with ⟨idx, cols⟩
  unfold Frame.take
  have hi : idx.length = n := hn
  congr 1
  · simp only; rw [← hi]; exact List.take_length
  · simp only
    conv_rhs => rw [← List.map_id cols]
    refine List.map_congr_left fun c hc => ?_
    have : c.2.length = idx.length := h c hc
    rw [← hi, ← this, List.take_length]
    rfl

theorem day_view {P : (String → ℚ) → Prop} (hB : BuiltOn E c f fill o P) (hm : ∀ F, o.ind.inputAfter F = F)
    (hd : ∀ n, o.ind ≠ .detrendedPriceOscillator n) (ho : o' = o ∨ ∃ i, o.cut i = some o') : ∃ m, View f o o' m := by
  obtain ⟨F, v, hg, hlen, -, h1, h2, h3, -, ht, hin, -⟩ := construct_days E c f fill o _ hB.wf hB.ok hB.rows
  obtain ⟨hs, -, hidx, hl, -⟩ := construct_sound E c f fill o hB.wf hB.ok
  rw [hm] at hin
  have hrows : o.ti.len = o.input.len := hs.shaped.rowsEq hd
  have hFl : o.input.len = f.idx.length := by rw [hin]; exact hlen
  have hcol : ∀ name ∈ columns o.ind, (o.ti.col name).length = f.idx.length := fun name hc => by
    rw [Frame.col_length _ hs.shaped.tiWf name (by rw [hs.shaped.tiNames]; exact hc), hrows, hFl]
  have hpx : ∀ name ∈ o.ind.required, (o.input.col name).length = f.idx.length ∧
      ∀ j < f.idx.length, val (o.input.col name) j = .fin (price f name j) := fun name hn => by
    rw [hin]
    refine ⟨(h1 name hn).trans hlen, fun j hj => ?_⟩
    rw [h2 name hn j (by omega)]
    unfold price
    rw [h3 name hn j (by omega)]
    rfl
  have key : ∃ m, m ≤ f.idx.length ∧ o'.ind = o.ind ∧ o'.input = o.input.take m ∧ o'.ti = o.ti.take m := by
    rcases ho with rfl | ⟨i, hc⟩
    · refine ⟨f.idx.length, le_refl _, rfl, ?_, ?_⟩
      · exact (take_all _ hs.shaped.inputWf _ hFl).symm
      · exact (take_all _ hs.shaped.tiWf _ (hrows.trans hFl)).symm
    · have hlt : i < o.ti.len := by
        by_contra hcon
        rw [cut_none o i (by omega)] at hc
        simp at hc
      obtain ⟨d, -, -, h⟩ := cut_eq o hs i hlt
      rw [h] at hc
      obtain rfl := Option.some.inj hc
      refine ⟨rowsUpTo d o.input.idx, ?_, rfl, rfl, ?_⟩
      · rw [← hFl]; exact rowsUpTo_le _ _
      · have : o.ti.idx = o.input.idx := by
          rw [hs.dates, hrows]; exact List.take_length
        simp only [this]
  obtain ⟨m, hm', e1, e2, e3⟩ := key
  refine ⟨m, hm', e1, ⟨E, c, f, fill, o, hB.wf, hB.ok, ho⟩, ?_, ?_, ?_, ?_, ?_, ?_, ?_⟩
  · show o'.ti.idx.length = m
    rw [e3]
    show (o.ti.idx.take m).length = m
    rw [List.length_take]
    have : o.ti.idx.length = f.idx.length := hrows.trans hFl
    omega
  · intro name hc k hk
    rw [e3, Frame.take_col, before_val, List.length_take, hcol name hc, Nat.min_eq_left hm', if_pos hk, val_take _ _ _ (by omega)]
    rfl
  · intro name hc k hk
    rw [e3, Frame.take_col, before_val, List.length_take, hcol name hc, Nat.min_eq_left hm', if_neg (by omega)]
  · intro name hn k hk
    rw [e2, Frame.take_col, before_val, List.length_take, (hpx name hn).1, Nat.min_eq_left hm', if_pos hk, val_take _ _ _ (by omega)]
    exact (hpx name hn).2 _ (by omega)
  · intro name hc
    rw [e3, Frame.take_col, List.length_take, hcol name hc, Nat.min_eq_left hm']
  · intro name hc j hj
    rw [e3, Frame.take_col, val_take _ _ _ hj]
    rfl
  · intro name hn
    rw [e2, Frame.take_col]
    refine ⟨by rw [List.length_take, (hpx name hn).1, Nat.min_eq_left hm'], fun j hj => ?_⟩
    rw [val_take _ _ _ hj, if_neg (by omega)]
    exact (hpx name hn).2 _ (by omega)

theorem View.ema {m : ℕ} (h : View f o o' m) (name : String) (hin : name ∈ columns o.ind) (g : ℕ → ℚ)
    (hg : ∀ i < f.idx.length, o.getTiData.day name i = .fin (g i)) (s w : ℕ) (hw : 1 ≤ w) (k : ℕ) (hk : k < m) :
    before k (ewm s w (o'.ti.col name)) = since (w - 1) (m - 1 - k) (.fin (ema s 0 g (m - 1 - k))) := by
  have hm := h.le
  have h1 : Nums m 0 g (o'.ti.col name) := ⟨h.tiLen _ hin, fun j hj => by rw [h.tiVal _ hin j hj, if_neg (by omega), hg j (by omega)]⟩
  have h2 := h1.ewm s w hw
  rw [before_val, h2.len, if_pos hk, h2.val _ (by omega), Nat.zero_add]
  rfl

/-! ## The classes that hold -/

section
variable {m : ℕ}

/-- Neither the buy nor the sell condition of the table holds. -/
theorem View.holds (h : View f o o' m) (hne : ∀ p s, o.ind ≠ .rangeIndicator p s) (hmp : ∀ p, o.ind ≠ .medianPrice p)
    (hb : (rule o'.input o'.ti o.ind).rows ≤ m → ¬ (rule o'.input o'.ti o.ind).buy)
    (hs : (rule o'.input o'.ti o.ind).rows ≤ m → ¬ (rule o'.input o'.ti o.ind).sell) : o'.getTiSignal = .ok .hold := by
  obtain ⟨h1, h2⟩ := C47_signal_table o' h.reach
  rw [h.rows, h.ind] at h1 h2
  obtain ⟨s, hsig⟩ := signal_total o'.ind o'.input o'.ti h.reach.sound.shaped (by
    rw [h.ind]
    rintro (⟨e, -⟩ | ⟨⟨p, q, e⟩, -⟩)
    · exact hmp _ e
    · exact hne _ _ e) (fun p e => absurd (h.ind ▸ e) (hmp p))
  have hsig' : o'.getTiSignal = .ok s := hsig
  cases s with
  | hold => exact hsig'
  | buy => obtain ⟨a, b⟩ := h1.1 hsig'; exact absurd b (hb a)
  | sell => obtain ⟨a, b⟩ := h2.1 hsig'; exact absurd b (hs a)

theorem View.noBuy (h : View f o o' m) (hb : (rule o'.input o'.ti o.ind).rows ≤ m → ¬ (rule o'.input o'.ti o.ind).buy) :
    o'.getTiSignal ≠ .ok .buy := by
  obtain ⟨h1, -⟩ := C47_signal_table o' h.reach
  rw [h.rows, h.ind] at h1
  exact fun e => hb (h1.1 e).1 (h1.1 e).2

theorem View.noSell (h : View f o o' m) (hs : (rule o'.input o'.ti o.ind).rows ≤ m → ¬ (rule o'.input o'.ti o.ind).sell) :
    o'.getTiSignal ≠ .ok .sell := by
  obtain ⟨-, h2⟩ := C47_signal_table o' h.reach
  rw [h.rows, h.ind] at h2
  exact fun e => hs (h2.1 e).1 (h2.1 e).2

theorem not_lt_of_notAbove {v w : Val} (h : NotAbove v w) : ¬ w <ᵥ v := by
  rcases h with rfl | rfl | h
  · cases w <;> simp [Val.lt]
  · cases v <;> simp [Val.lt]
  · cases v <;> cases w <;> simp [Val.lt, Val.le] at h ⊢; exact h

theorem not_neg {v : Val} (h : NonNegative v) : ¬ v <ᵥ 0 := by
  rcases h with rfl | ⟨q, rfl, hq⟩
  · simp [Val.lt]
  · show ¬ Val.lt (.fin q) (.fin 0) = true
    simpa [Val.lt] using hq

theorem not_pos {v : Val} (h : NonPositive v) : ¬ (0 : Val) <ᵥ v := by
  rcases h with rfl | ⟨q, rfl, hq⟩
  · exact Bool.false_ne_true
  · show ¬ Val.lt (.fin 0) (.fin q) = true
    simpa [Val.lt] using hq

theorem View.extremes (h : View f o o' m) (name : String) (low high : Val) (hin : name ∈ columns o.ind)
    (hne : ∀ p s, o.ind ≠ .rangeIndicator p s) (hmp : ∀ p, o.ind ≠ .medianPrice p)
    (hr : rule o'.input o'.ti o.ind = Spec.extremes low high (fun k => before k (o'.ti.col name)))
    (hv : (∀ i < f.idx.length, (¬ o.getTiData.day name i <ᵥ low) ∧ ¬ o.getTiData.day name i <ᵥ high) ∨
      ∀ i < f.idx.length, (¬ low <ᵥ o.getTiData.day name i) ∧ ¬ high <ᵥ o.getTiData.day name i) : o'.getTiSignal = .ok .hold := by
  have hm := h.le
  refine h.holds hne hmp ?_ ?_ <;> rw [hr] <;> intro h2
  · have h2 : 2 ≤ m := h2
    rintro ⟨b1, b2⟩
    simp only [h.ti name hin 1 (by omega), h.ti name hin 0 (by omega)] at b1 b2
    rcases hv with hv | hv
    · exact (hv _ (by omega)).1 b2
    · exact (hv _ (by omega)).1 b1
  · have h2 : 2 ≤ m := h2
    rintro ⟨b1, b2⟩
    simp only [h.ti name hin 1 (by omega), h.ti name hin 0 (by omega)] at b1 b2
    rcases hv with hv | hv
    · exact (hv _ (by omega)).2 b1
    · exact (hv _ (by omega)).2 b2

end

/-- C102: in a market in which the closes never fall, and in one in which they never rise, the Chande momentum oscillator, the
relative strength index, the relative momentum index and the linear regression slope hold. -/
theorem C102_momentum_classes_hold (hB : BuiltOn E c f fill o AnyPrices)
    (hi : (∃ n, o.ind = .chandeMomentumOscillator n) ∨ (∃ n, o.ind = .relativeStrengthIndex n) ∨
      (∃ n k, o.ind = .relativeMomentumIndex n k) ∨ ∃ n, o.ind = .linearRegressionSlope n)
    (hw : NeverFalls f "close" ∨ NeverRises f "close") (ho : o' = o ∨ ∃ i, o.cut i = some o') :
    o'.getTiSignal = .ok .hold := by
  obtain ⟨m, h⟩ := day_view hB (by rcases hi with ⟨n, e⟩ | ⟨n, e⟩ | ⟨n, k, e⟩ | ⟨n, e⟩ <;> rw [e] <;> intro F <;> rfl)
    (by rcases hi with ⟨n, e⟩ | ⟨n, e⟩ | ⟨n, k, e⟩ | ⟨n, e⟩ <;> rw [e] <;> simp) ho
  rcases hi with ⟨n, e⟩ | ⟨n, e⟩ | ⟨n, k, e⟩ | ⟨n, e⟩
  · refine h.extremes "cmo" _ _ (by simp [e, columns]) (by simp [e]) (by simp [e]) (by rw [e]; rfl) (hw.imp (fun hw i hi => ?_) fun hw i hi => ?_)
    · rw [(C101_chande hB n e i hi).1 hw]
      unfold since
      split_ifs <;> decide
    · rw [(C101_chande hB n e i hi).2 hw]
      unfold since
      split_ifs <;> decide
  · refine h.extremes "rsi" _ _ (by simp [e, columns]) (by simp [e]) (by simp [e]) (by rw [e]; rfl) (hw.imp (fun hw i hi => ?_) fun hw i hi => ?_)
    · rcases (C101_relative_strength hB n e i hi).1 hw with q | q <;> rw [q] <;> decide
    · rcases (C101_relative_strength hB n e i hi).2 hw with q | q <;> rw [q] <;> decide
  · refine h.extremes "rmi" _ _ (by simp [e, columns]) (by simp [e]) (by simp [e]) (by rw [e]; rfl) (hw.imp (fun hw i hi => ?_) fun hw i hi => ?_)
    · rw [(C101_relative_momentum hB n k e i hi).1 hw]; decide
    · rcases (C101_relative_momentum hB n k e i hi).2 hw with q | q <;> rw [q] <;> decide
  · refine h.extremes "lrs" _ _ (by simp [e, columns]) (by simp [e]) (by simp [e]) (by rw [e]; rfl) (hw.imp (fun hw i hi => ?_) fun hw i hi => ?_)
    · have := not_neg ((C101_slope hB n e i hi).1 hw)
      exact ⟨this, this⟩
    · have := not_pos ((C101_slope hB n e i hi).2 hw)
      exact ⟨this, this⟩

/-- The hypotheses of `C102_momentum_classes_hold` in the market that rises every day (`oneWay_ways`). -/
example : ∃ o, BuiltOn demoEnv (.relativeStrengthIndex (.int 4)) (oneWay true 45) true o AnyPrices ∧ o.ind = .relativeStrengthIndex 4 ∧
    o.getTiData.day "rsi" 8 = .fin 100 :=
  oneWay_built true 45 "rsi" 8 _ (by decide +kernel) (by decide) fun _ _ => trivial

/-- C102: so does the price oscillator, on positive closes. -/
theorem C102_price_oscillator_holds (hB : BuiltOn E c f fill o AnyPrices) (long short : ℕ) (hi : o.ind = .priceOscillator long short)
    (hpos : AllPositive f "close") (hw : NeverFalls f "close" ∨ NeverRises f "close") (ho : o' = o ∨ ∃ i, o.cut i = some o') :
    o'.getTiSignal = .ok .hold := by
  obtain ⟨m, h⟩ := day_view hB (by rw [hi]; exact fun _ => rfl) (by simp [hi]) ho
  have hm := h.le
  have hin : "posc" ∈ columns o.ind := by simp [hi, columns]
  refine h.holds (by simp [hi]) (by simp [hi]) ?_ ?_ <;> rw [hi] <;> intro h2
  · have h2 : 2 ≤ m := h2
    rintro ⟨b1, b2⟩
    simp only [h.ti _ hin 1 (by omega), h.ti _ hin 0 (by omega)] at b1 b2
    rcases hw with hw | hw
    · exact not_neg ((C101_price_oscillator hB long short hi hpos _ (by omega)).1 hw) b1
    · exact not_pos ((C101_price_oscillator hB long short hi hpos _ (by omega)).2 hw) b2
  · have h2 : 2 ≤ m := h2
    rintro ⟨b1, b2⟩
    simp only [h.ti _ hin 1 (by omega), h.ti _ hin 0 (by omega)] at b1 b2
    rcases hw with hw | hw
    · exact not_neg ((C101_price_oscillator hB long short hi hpos _ (by omega)).1 hw) b2
    · exact not_pos ((C101_price_oscillator hB long short hi hpos _ (by omega)).2 hw) b1

/-- The hypotheses of `C102_price_oscillator_holds` in the market that falls every day (`oneWay_ways`). -/
example : ∃ o, BuiltOn demoEnv (.priceOscillator (.int 6) (.int 2)) (oneWay false 45) true o AnyPrices ∧ o.ind = .priceOscillator 6 2 ∧
    o.getTiData.day "posc" 8 = .fin (-361 / 250) :=
  oneWay_built false 45 "posc" 8 _ (by decide +kernel) (by decide) fun _ _ => trivial

/-- C102: when the highs and the lows never fall, or both never rise, the Ichimoku cloud holds. -/
theorem C102_ichimoku_holds (hB : BuiltOn E c f fill o AnyPrices) (hi : o.ind = .ichimokuCloud)
    (hw : NeverFalls f "high" ∧ NeverFalls f "low" ∨ NeverRises f "high" ∧ NeverRises f "low")
    (ho : o' = o ∨ ∃ i, o.cut i = some o') : o'.getTiSignal = .ok .hold := by
  obtain ⟨m, h⟩ := day_view hB (by rw [hi]; exact fun _ => rfl) (by simp [hi]) ho
  have hm := h.le
  have k1 : "tenkan_sen" ∈ columns o.ind := by rw [hi]; decide
  have k2 : "kijun_sen" ∈ columns o.ind := by rw [hi]; decide
  refine h.holds (by simp [hi]) (by simp [hi]) ?_ ?_ <;> rw [hi] <;> intro h2
  · have h2 : 2 ≤ m := h2
    rintro ⟨⟨b1, b2⟩, -⟩
    simp only [h.ti _ k1 1 (by omega), h.ti _ k2 1 (by omega), h.ti _ k1 0 (by omega), h.ti _ k2 0 (by omega)] at b1 b2
    rcases hw with ⟨w1, w2⟩ | ⟨w1, w2⟩
    · exact not_lt_of_notAbove ((C101_ichimoku hB hi _ (by omega)).1 w1 w2) b1
    · exact not_lt_of_notAbove ((C101_ichimoku hB hi _ (by omega)).2 w1 w2) b2
  · have h2 : 2 ≤ m := h2
    rintro ⟨⟨b1, b2⟩, -⟩
    simp only [h.ti _ k1 1 (by omega), h.ti _ k2 1 (by omega), h.ti _ k1 0 (by omega), h.ti _ k2 0 (by omega)] at b1 b2
    rcases hw with ⟨w1, w2⟩ | ⟨w1, w2⟩
    · exact not_lt_of_notAbove ((C101_ichimoku hB hi _ (by omega)).1 w1 w2) b2
    · exact not_lt_of_notAbove ((C101_ichimoku hB hi _ (by omega)).2 w1 w2) b1

/-- The hypotheses of `C102_ichimoku_holds` in the market that rises every day (`oneWay_ways`). -/
example : ∃ o, BuiltOn demoEnv .ichimokuCloud (oneWay true 45) true o AnyPrices ∧ o.ind = .ichimokuCloud ∧
    o.getTiData.day "tenkan_sen" 30 = .fin (253 / 2) :=
  oneWay_built true 45 "tenkan_sen" 30 _ (by decide +kernel) (by decide) fun _ _ => trivial

/-- C102: so does the directional movement index, if the closes lie between the low and the high of the day. -/
theorem C102_directional_holds (hB : BuiltOn E c f fill o CloseInside) (hi : o.ind = .directionalMovementIndex)
    (hw : NeverFalls f "high" ∧ NeverFalls f "low" ∨ NeverRises f "high" ∧ NeverRises f "low")
    (ho : o' = o ∨ ∃ i, o.cut i = some o') : o'.getTiSignal = .ok .hold := by
  obtain ⟨m, h⟩ := day_view hB (by rw [hi]; exact fun _ => rfl) (by simp [hi]) ho
  have hm := h.le
  have k1 : "+di" ∈ columns o.ind := by rw [hi]; decide
  have k2 : "-di" ∈ columns o.ind := by rw [hi]; decide
  have hn : ∀ i < f.idx.length, NonNegative (o.getTiData.day "+di" i) ∧ NonNegative (o.getTiData.day "-di" i) := by
    intro i hi'
    have hB' : BuiltOn E c f fill o AnyPrices := ⟨hB.wf, hB.ok, fun j hj => (hB.rows j hj).imp fun x hx => ⟨hx.1, trivial⟩⟩
    have hc : ∀ j < f.idx.length, low f j ≤ close f j ∧ close f j ≤ high f j := by
      obtain ⟨F, hl, hn, hP, ht, hp, -⟩ := hB.on hi
      intro j hj
      obtain ⟨x, hx, hb⟩ := hP j (by omega)
      have e1 : x "close" = close f j := hx _ (by simp [Ind.required])
      have e2 : x "high" = high f j := hx _ (by simp [Ind.required])
      have e3 : x "low" = low f j := hx _ (by simp [Ind.required])
      exact ⟨e1 ▸ e3 ▸ hb.1, e1 ▸ e2 ▸ hb.2⟩
    obtain ⟨ep, em⟩ := C57_directional_lines hB' hi i hi'
    rw [ep, em]
    unfold since
    by_cases h14 : i < 14
    · simp only [if_pos h14]
      exact ⟨Or.inl rfl, Or.inl rfl⟩
    simp only [if_neg h14]
    have hmv : ∀ j, 1 ≤ j → j ≤ i → _ := fun j h1 h2 =>
      moves_le f j h1 (hc (j - 1) (by omega)) ((hc j (by omega)).1.trans (hc j (by omega)).2)
    have ht0 := total14_nonneg (trueRange f) i (by omega) fun j h1 h2 => (hmv j h1 h2).1.trans (hmv j h1 h2).2.2.1
    have ht := total14_eq_zero (trueRange f) i (by omega) fun j h1 h2 => (hmv j h1 h2).1.trans (hmv j h1 h2).2.2.1
    have nn : ∀ a b : ℚ, 0 ≤ a → 0 ≤ b → (b = 0 → a = 0) → NonNegative (round4 (quotient (100 * a) b)) := fun a b ha hb h0 => by
      by_cases hz : b = 0
      · left; simp [hz, h0 hz, quotient, round4, Val.round]
      · right; rw [quotient_ne _ _ hz]
        exact ⟨_, rfl, roundQ_nonneg 4 (div_nonneg (by linarith) hb)⟩
    refine ⟨nn _ _ (total14_nonneg _ _ (by omega) fun j h1 h2 => (hmv j h1 h2).1) ht0 fun h => ?_,
      nn _ _ (total14_nonneg _ _ (by omega) fun j h1 h2 => (hmv j h1 h2).2.1) ht0 fun h => ?_⟩
    · rw [total14_eq_zero _ _ (by omega) fun j h1 h2 => (hmv j h1 h2).1]
      intro j h1 h2
      have := ht.1 h j h1 h2
      have := hmv j h1 h2
      linarith
    · rw [total14_eq_zero _ _ (by omega) fun j h1 h2 => (hmv j h1 h2).2.1]
      intro j h1 h2
      have := ht.1 h j h1 h2
      have := hmv j h1 h2
      linarith
  have z : ∀ v : Val, v = .nan ∨ v = .fin 0 → NonPositive v := fun v h => h.imp id fun e => ⟨0, e, le_refl _⟩
  have tr : ∀ v w : Val, NonPositive v → NonNegative w → NotAbove v w := fun v w hv hw => by
    rcases hv with rfl | ⟨a, rfl, ha⟩
    · exact Or.inl rfl
    · rcases hw with rfl | ⟨b, rfl, hb⟩
      · exact Or.inr (Or.inl rfl)
      · exact le_fin (ha.trans hb)
  have key : (∀ i < f.idx.length, NotAbove (o.getTiData.day "-di" i) (o.getTiData.day "+di" i)) ∨
      ∀ i < f.idx.length, NotAbove (o.getTiData.day "+di" i) (o.getTiData.day "-di" i) := by
    rcases hw with ⟨w1, w2⟩ | ⟨w1, w2⟩
    · exact Or.inl fun i hi' => tr _ _ (z _ ((C101_directional hB hi i hi').1 w1 w2).1) (hn i hi').1
    · exact Or.inr fun i hi' => tr _ _ (z _ ((C101_directional hB hi i hi').2 w1 w2).1) (hn i hi').2
  refine h.holds (by simp [hi]) (by simp [hi]) ?_ ?_ <;> rw [hi] <;> intro h2
  · have h2 : 2 ≤ m := h2
    rintro ⟨⟨b1, b2⟩, -⟩
    simp only [h.ti _ k1 1 (by omega), h.ti _ k2 1 (by omega), h.ti _ k1 0 (by omega), h.ti _ k2 0 (by omega)] at b1 b2
    rcases key with w | w
    · exact not_lt_of_notAbove (w _ (by omega)) b1
    · exact not_lt_of_notAbove (w _ (by omega)) b2
  · have h2 : 2 ≤ m := h2
    rintro ⟨⟨b1, b2⟩, -⟩
    simp only [h.ti _ k1 1 (by omega), h.ti _ k2 1 (by omega), h.ti _ k1 0 (by omega), h.ti _ k2 0 (by omega)] at b1 b2
    rcases key with w | w
    · exact not_lt_of_notAbove (w _ (by omega)) b2
    · exact not_lt_of_notAbove (w _ (by omega)) b1

/-- The hypotheses of `C102_directional_holds` in the market that falls every day (`oneWay_ways`). -/
example : ∃ o, BuiltOn demoEnv (.directionalMovementIndex) (oneWay false 45) true o CloseInside ∧ o.ind = .directionalMovementIndex ∧
    o.getTiData.day "dx" 30 = .fin 100 :=
  oneWay_built false 45 "dx" 30 _ (by decide +kernel) (by decide) fun _ h => ⟨h.1, h.2.1⟩

theorem round_close {q : ℚ} (h : FourDecimals q) : roundQ 4 q = q := by
  obtain ⟨z, rfl⟩ := h
  have := roundQ_div 4 z
  norm_num at this
  exact this

theorem to4_close {q : ℚ} (h : FourDecimals q) : to4 q = .fin q := by
  show Val.fin (roundQ 4 q) = _
  rw [round_close h]

/-- C102: on closes with at most four decimals the moving averages (simple, exponential, triangular) hold in a market in which the
closes never rise, and Wilder's smoothing holds both there and in a market in which they never fall. -/
theorem C102_averages_hold (hB : BuiltOn E c f fill o AnyPrices) (name : String) (hi : plainAverage o.ind = some name)
    (h4 : ∀ j < f.idx.length, FourDecimals (close f j))
    (hw : NeverRises f "close" ∨ (∃ n, o.ind = .wildersSmoothing n) ∧ NeverFalls f "close")
    (ho : o' = o ∨ ∃ i, o.cut i = some o') : o'.getTiSignal = .ok .hold := by
  obtain ⟨m, h⟩ := day_view hB (by
      cases e : o.ind <;> rw [e] at hi <;> simp [plainAverage] at hi <;> intro F <;> rfl)
    (by cases e : o.ind <;> rw [e] at hi <;> simp [plainAverage] at hi ⊢) ho
  have hm := h.le
  have h1 : ∀ p s, o.ind ≠ .rangeIndicator p s := by cases e : o.ind <;> rw [e] at hi <;> simp [plainAverage] at hi ⊢
  have h2 : ∀ p, o.ind ≠ .medianPrice p := by cases e : o.ind <;> rw [e] at hi <;> simp [plainAverage] at hi ⊢
  have hreq : "close" ∈ o.ind.required := by cases e : o.ind <;> rw [e] at hi <;> simp [plainAverage] at hi ⊢ <;> simp [Ind.required]
  have hin : name ∈ columns o.ind := by
    cases e : o.ind <;> rw [e] at hi <;> simp [plainAverage] at hi ⊢
    · rename_i n t; cases t <;> simp at hi <;> subst hi <;> simp [columns, Ind.MaType.column]
    · subst hi; simp [columns]
  have px : ∀ k < m, before k (o'.input.col "close") = to4 (close f (m - 1 - k)) := fun k hk => by
    rw [h.px _ hreq k hk, to4_close (h4 _ (by omega))]; rfl
  have down : NeverRises f "close" → ∀ k < m, ¬ before k (o'.ti.col name) <ᵥ before k (o'.input.col "close") := fun hw k hk => by
    rw [h.ti _ hin k hk, px k hk]
    exact not_lt_of_notAbove ((C101_averages hB name hi _ (by omega)).2 hw).1
  have up : NeverFalls f "close" → ∀ k < m, ¬ before k (o'.input.col "close") <ᵥ before k (o'.ti.col name) := fun hw k hk => by
    rw [h.ti _ hin k hk, px k hk]
    exact not_lt_of_notAbove ((C101_averages hB name hi _ (by omega)).1 hw).1
  refine h.holds h1 h2 ?_ ?_
  · cases e : o.ind <;> rw [e] at hi <;> simp [plainAverage] at hi
    · rename_i n t
      rcases hw with hw | ⟨⟨n, en⟩, -⟩
      · intro r
        have r : 1 ≤ m := r
        have := down hw 0 (by omega)
        cases t <;> simp at hi <;> subst hi <;> exact this
      · rw [e] at en; simp at en
    · subst hi
      intro r
      have r : 2 ≤ m := r
      rintro ⟨b1, b2⟩
      rcases hw with hw | ⟨-, hw⟩
      · exact down hw 1 (by omega) b1
      · exact up hw 0 (by omega) b2
  · cases e : o.ind <;> rw [e] at hi <;> simp [plainAverage] at hi
    · exact fun _ => id
    · subst hi
      intro r
      have r : 2 ≤ m := r
      rintro ⟨b1, b2⟩
      rcases hw with hw | ⟨-, hw⟩
      · exact down hw 0 (by omega) b2
      · exact up hw 1 (by omega) b1

/-- The hypotheses of `C102_averages_hold` in the market that falls every day (`oneWay_ways`). -/
example : (∀ j < (oneWay false 45).idx.length, FourDecimals (close (oneWay false 45) j)) ∧
    ∃ o, BuiltOn demoEnv (.movingAverage (.int 4) (.str "simple")) (oneWay false 45) true o AnyPrices ∧
      plainAverage o.ind = some "ma-simple" ∧ o.getTiData.day "ma-simple" 8 = .fin (137.5) := by
  constructor
  · have : ∀ j < 45, close (oneWay false 45) j = (144 - j : ℤ) := by decide +kernel
    intro j hj
    rw [this j (by simpa [oneWay] using hj)]
    exact ⟨(144 - j) * 10000, by push_cast; ring⟩
  · obtain ⟨o, h1, h2, h3⟩ := oneWay_built (E := demoEnv) (c := .movingAverage (.int 4) (.str "simple")) (ind := .movingAverage 4 .simple)
      false 45 "ma-simple" 8 (.fin (275 / 2)) (by decide +kernel) (P := AnyPrices) (by decide) fun _ _ => trivial
    exact ⟨o, h1, by rw [h2]; rfl, by rw [h3]; norm_num⟩

/-- C102: the parabolic SAR holds on rows whose closes lie between low and high, in a market in which the lows (with at most four
decimals) never fall and the second high is above the first one, and in one in which the highs never rise. -/
theorem C102_parabolic_sar_holds (hB : BuiltOn E c f fill o CloseInside) (hi : o.ind = .parabolicSAR)
    (hw : high f 0 < high f 1 ∧ NeverFalls f "low" ∧ (∀ j < f.idx.length, FourDecimals (low f j)) ∨
      NeverRises f "high" ∧ ∀ j < f.idx.length, FourDecimals (high f j))
    (ho : o' = o ∨ ∃ i, o.cut i = some o') : o'.getTiSignal = .ok .hold := by
  have hB' : BuiltOn E c f fill o AnyPrices := ⟨hB.wf, hB.ok, fun j hj => (hB.rows j hj).imp fun x hx => ⟨hx.1, trivial⟩⟩
  have hc : ∀ j < f.idx.length, low f j ≤ close f j ∧ close f j ≤ high f j := by
    obtain ⟨F, hl, hn, hP, ht, hp, -⟩ := hB.on hi
    intro j hj
    obtain ⟨x, hx, hb⟩ := hP j (by omega)
    have e1 : x "close" = close f j := hx _ (by simp [Ind.required])
    have e2 : x "high" = high f j := hx _ (by simp [Ind.required])
    have e3 : x "low" = low f j := hx _ (by simp [Ind.required])
    exact ⟨e1 ▸ e3 ▸ hb.1, e1 ▸ e2 ▸ hb.2⟩
  obtain ⟨m, h⟩ := day_view hB (by rw [hi]; exact fun _ => rfl) (by simp [hi]) ho
  have hm := h.le
  have hin : "sar" ∈ columns o.ind := by simp [hi, columns]
  have hreq : "close" ∈ o.ind.required := by simp [hi, Ind.required]
  have key : 2 ≤ m → (∀ k < m, ¬ before k (o'.input.col "close") <ᵥ before k (o'.ti.col "sar")) ∨
      ∀ k < m, ¬ before k (o'.ti.col "sar") <ᵥ before k (o'.input.col "close") := by
    intro h2
    rcases hw with ⟨w1, w2, w3⟩ | ⟨w1, w3⟩
    · refine Or.inl fun k hk hlt => ?_
      rw [h.ti _ hin k hk, h.px _ hreq k hk] at hlt
      have := (C101_parabolic_sar hB' hi (m - 1 - k) (by omega)).1 w1 w2
      rw [to4_close (w3 _ (by omega))] at this
      have hl := (hc (m - 1 - k) (by omega)).1
      rcases this with e | e | e
      · rw [e] at hlt; simp [Val.lt] at hlt
      · simp at e
      · cases hv : o.getTiData.day "sar" (m - 1 - k) <;> rw [hv] at e hlt <;> simp [Val.lt, Val.le] at e hlt
        exact absurd (hlt.trans_le e) (not_lt.2 hl)
    · refine Or.inr fun k hk hlt => ?_
      rw [h.ti _ hin k hk, h.px _ hreq k hk] at hlt
      have := (C101_parabolic_sar hB' hi (m - 1 - k) (by omega)).2 (w1 0 (by omega)) w1
      rw [to4_close (w3 _ (by omega))] at this
      have hl := (hc (m - 1 - k) (by omega)).2
      rcases this with e | e | e
      · simp at e
      · rw [e] at hlt; simp [Val.lt] at hlt
      · cases hv : o.getTiData.day "sar" (m - 1 - k) <;> rw [hv] at e hlt <;> simp [Val.lt, Val.le] at e hlt
        exact absurd (e.trans_lt hlt) (not_lt.2 hl)
  refine h.holds (by simp [hi]) (by simp [hi]) ?_ ?_ <;> rw [hi] <;> intro r
  · have r : 2 ≤ m := r
    rintro ⟨b1, b2⟩
    rcases key r with w | w
    · exact w 1 (by omega) b1
    · exact w 0 (by omega) b2
  · have r : 2 ≤ m := r
    rintro ⟨b1, b2⟩
    rcases key r with w | w
    · exact w 0 (by omega) b2
    · exact w 1 (by omega) b1

/-- The hypotheses of `C102_parabolic_sar_holds` in the market that rises every day (`oneWay_ways`). -/
example : (∀ j < (oneWay true 45).idx.length, FourDecimals (low (oneWay true 45) j)) ∧
    ∃ o, BuiltOn demoEnv .parabolicSAR (oneWay true 45) true o CloseInside ∧ o.ind = .parabolicSAR ∧
      o.getTiData.day "sar" 1 = .fin 99 := by
  constructor
  · have : ∀ j < 45, low (oneWay true 45) j = (99 + j : ℤ) := by decide +kernel
    intro j hj
    rw [this j (by simpa [oneWay] using hj)]
    exact ⟨(99 + j) * 10000, by push_cast; ring⟩
  · exact oneWay_built true 45 "sar" 1 _ (by decide +kernel) (by decide) fun _ h => ⟨h.1, h.2.1⟩

/-- C102: on positive closes and volumes that are not negative, the positive volume index holds in both kinds of market, and the
negative volume index holds when the closes never rise. -/
theorem C102_volume_indices_hold (hB : BuiltOn E c f fill o Traded)
    (hw : o.ind = .positiveVolumeIndex ∧ (NeverFalls f "close" ∨ NeverRises f "close") ∨
      o.ind = .negativeVolumeIndex ∧ NeverRises f "close")
    (ho : o' = o ∨ ∃ i, o.cut i = some o') : o'.getTiSignal = .ok .hold := by
  obtain ⟨m, h⟩ := day_view hB (by rcases hw with ⟨hi, -⟩ | ⟨hi, -⟩ <;> rw [hi] <;> exact fun _ => rfl)
    (by rcases hw with ⟨hi, -⟩ | ⟨hi, -⟩ <;> simp [hi]) ho
  have hm := h.le
  have down : ∀ (name : String) (g : ℕ → ℚ), name ∈ columns o.ind → (∀ i < f.idx.length, o.getTiData.day name i = .fin (g i)) →
      (∀ i j, j ≤ i → i < f.idx.length → NotAbove (o.getTiData.day name i) (o.getTiData.day name j)) →
      ∀ k < m, ¬ before k (ewm 255 255 (o'.ti.col name)) <ᵥ before k (o'.ti.col name) := by
    intro name g hin hg hle k hk
    rw [h.ema name hin g hg 255 255 (by norm_num) k hk, h.ti _ hin k hk, hg _ (by omega)]
    refine not_lt_of_notAbove ?_
    unfold since
    split
    · exact Or.inr (Or.inl rfl)
    · refine le_fin ?_
      have hu : Up f.idx.length fun j => -g j := Up.neg fun j hj => by
        have := hle (j + 1) j (by omega) hj
        rw [hg _ hj, hg _ (by omega)] at this
        rcases this with e | e | e
        · simp at e
        · simp at e
        · simpa [Val.le] using e
      have := hu.ema_le 255 0 (by norm_num) (show m - 1 - k < f.idx.length by omega) (Nat.zero_le _)
      rw [ema_neg] at this
      exact neg_le_neg_iff.1 this
  have up : ∀ (name : String) (g : ℕ → ℚ), name ∈ columns o.ind → (∀ i < f.idx.length, o.getTiData.day name i = .fin (g i)) →
      (∀ i j, j ≤ i → i < f.idx.length → NotAbove (o.getTiData.day name j) (o.getTiData.day name i)) →
      ∀ k < m, ¬ before k (o'.ti.col name) <ᵥ before k (ewm 255 255 (o'.ti.col name)) := by
    intro name g hin hg hle k hk
    rw [h.ema name hin g hg 255 255 (by norm_num) k hk, h.ti _ hin k hk, hg _ (by omega)]
    refine not_lt_of_notAbove ?_
    unfold since
    split
    · exact Or.inl rfl
    · refine le_fin ?_
      have hu : Up f.idx.length g := fun j hj => by
        have := hle (j + 1) j (by omega) hj
        rw [hg _ hj, hg _ (by omega)] at this
        rcases this with e | e | e
        · simp at e
        · simp at e
        · simpa [Val.le] using e
      exact hu.ema_le 255 0 (by norm_num) (show m - 1 - k < f.idx.length by omega) (Nat.zero_le _)
  rcases hw with ⟨hi, hw⟩ | ⟨hi, hw⟩
  · have hin : "pvi" ∈ columns o.ind := by simp [hi, columns]
    have hg := C43_positive_volume_index E c f fill o hB.wf hB.ok (traded_nonzero hB) hi
    have hmono := C101_volume_indices hB "pvi" (Or.inr ⟨hi, rfl⟩)
    refine h.holds (by simp [hi]) (by simp [hi]) ?_ ?_ <;> rw [hi] <;> intro r
    · have r : 255 ≤ m := r
      rintro ⟨b1, b2⟩
      rcases hw with hw | hw
      · exact up "pvi" _ hin hg (fun i j h1 h2 => (hmono i j h1 h2).1 hw) 1 (by omega) b1
      · exact down "pvi" _ hin hg (fun i j h1 h2 => (hmono i j h1 h2).2 hw) 0 (by omega) b2
    · have r : 255 ≤ m := r
      rintro ⟨b1, b2⟩
      rcases hw with hw | hw
      · exact up "pvi" _ hin hg (fun i j h1 h2 => (hmono i j h1 h2).1 hw) 0 (by omega) b2
      · exact down "pvi" _ hin hg (fun i j h1 h2 => (hmono i j h1 h2).2 hw) 1 (by omega) b1
  · have hin : "nvi" ∈ columns o.ind := by simp [hi, columns]
    have hg := C43_negative_volume_index E c f fill o hB.wf hB.ok (traded_nonzero hB) hi
    have hmono := C101_volume_indices hB "nvi" (Or.inl ⟨hi, rfl⟩)
    refine h.holds (by simp [hi]) (by simp [hi]) ?_ ?_ <;> rw [hi] <;> intro r
    · have r : 255 ≤ m := r
      exact down "nvi" _ hin hg (fun i j h1 h2 => (hmono i j h1 h2).2 hw) 0 (by omega)
    · exact id

/-- The hypotheses of `C102_volume_indices_hold` in the market that rises every day (`oneWay_ways`). -/
example : ∃ o, BuiltOn demoEnv .positiveVolumeIndex (oneWay true 45) true o Traded ∧ o.ind = .positiveVolumeIndex ∧
    o.getTiData.day "pvi" 8 = .fin 1000 :=
  oneWay_built true 45 "pvi" 8 _ (by decide +kernel) (by decide) fun _ h => h.2.2

/-! ## The classes that do not follow the market -/

/-- C102: in a market in which the closes never fall the on balance volume and the price and volume trend do not buy, in one in
which they never rise they do not sell. -/
theorem C102_volume_trends (hB : BuiltOn E c f fill o Traded) (hi : o.ind = .onBalanceVolume ∨ o.ind = .priceAndVolumeTrend)
    (ho : o' = o ∨ ∃ i, o.cut i = some o') :
    (NeverFalls f "close" → o'.getTiSignal ≠ .ok .buy) ∧ (NeverRises f "close" → o'.getTiSignal ≠ .ok .sell) := by
  obtain ⟨m, h⟩ := day_view hB (by rcases hi with hi | hi <;> rw [hi] <;> exact fun _ => rfl)
    (by rcases hi with hi | hi <;> simp [hi]) ho
  have hm := h.le
  rcases hi with hi | hi
  · have hin : "obv" ∈ columns o.ind := by simp [hi, columns]
    refine ⟨fun hw => h.noBuy ?_, fun hw => h.noSell ?_⟩ <;> rw [hi] <;> intro r
    · have r : 3 ≤ m := r
      rintro ⟨-, b⟩
      simp only [h.ti _ hin 1 (by omega), h.ti _ hin 0 (by omega)] at b
      exact not_lt_of_notAbove ((C101_on_balance_volume hB hi _ _ (by omega) (by omega)).1 hw) b
    · have r : 3 ≤ m := r
      rintro ⟨-, b⟩
      simp only [h.ti _ hin 1 (by omega), h.ti _ hin 0 (by omega)] at b
      exact not_lt_of_notAbove ((C101_on_balance_volume hB hi _ _ (by omega) (by omega)).2 hw) b
  · have hin : "pvt" ∈ columns o.ind := by simp [hi, columns]
    refine ⟨fun hw => h.noBuy ?_, fun hw => h.noSell ?_⟩ <;> rw [hi] <;> intro r
    · have r : 3 ≤ m := r
      rintro ⟨-, b⟩
      simp only [h.ti _ hin 1 (by omega), h.ti _ hin 0 (by omega)] at b
      exact not_lt_of_notAbove ((C101_price_and_volume_trend hB hi _ _ (by omega) (by omega)).1 hw) b
    · have r : 3 ≤ m := r
      rintro ⟨-, b⟩
      simp only [h.ti _ hin 1 (by omega), h.ti _ hin 0 (by omega)] at b
      exact not_lt_of_notAbove ((C101_price_and_volume_trend hB hi _ _ (by omega) (by omega)).2 hw) b

/-- The hypotheses of `C102_volume_trends` in the market that rises every day (`oneWay_ways`), which sells. -/
example : ∃ o, BuiltOn demoEnv .onBalanceVolume (oneWay true 45) true o Traded ∧ o.ind = .onBalanceVolume ∧
    o.getTiData.day "obv" 8 = .fin 4000 :=
  oneWay_built true 45 "obv" 8 _ (by decide +kernel) (by decide) fun _ h => h.2.2

/-- C102: if moreover the closes rise every day and the volumes are positive, the on balance volume sells on every day from the
third one on; if they fall every day it buys. -/
theorem C102_on_balance_volume_against_the_market (hB : BuiltOn E c f fill o Traded) (hi : o.ind = .onBalanceVolume)
    (hv : AllPositive f "volume") (ho : o' = o ∨ ∃ i, o.cut i = some o') (h3 : 3 ≤ o'.getTiData.idx.length) :
    (AlwaysRises f "close" → o'.getTiSignal = .ok .sell) ∧ (AlwaysFalls f "close" → o'.getTiSignal = .ok .buy) := by
  obtain ⟨m, h⟩ := day_view hB (by rw [hi]; exact fun _ => rfl) (by simp [hi]) ho
  have hm := h.le
  rw [h.rows] at h3
  have hin : "obv" ∈ columns o.ind := by simp [hi, columns]
  obtain ⟨t1, t2⟩ := C47_signal_table o' h.reach
  rw [h.rows, h.ind, hi] at t1 t2
  have step : ∀ j, j + 1 < f.idx.length → (AlwaysRises f "close" → o.getTiData.day "obv" j <ᵥ o.getTiData.day "obv" (j + 1)) ∧
      (AlwaysFalls f "close" → o.getTiData.day "obv" (j + 1) <ᵥ o.getTiData.day "obv" j) := by
    intro j hj
    rw [C43_on_balance_volume E c f fill o hB.wf hB.ok (traded_any hB) hi j (by omega),
      C43_on_balance_volume E c f fill o hB.wf hB.ok (traded_any hB) hi (j + 1) hj]
    have hp : 0 < volume f (j + 1) := hv _ hj
    simp only [closeRose, closeFell, Finset.sum_filter, Finset.sum_Ico_succ_top (show 1 ≤ j + 1 by omega), Nat.add_sub_cancel]
    constructor
    · intro hw
      have hlt : close f j < close f (j + 1) := hw j hj
      rw [if_pos hlt, if_neg (not_lt.2 hlt.le)]
      simp only [Val.lt, decide_eq_true_eq]
      linarith
    · intro hw
      have hlt : close f (j + 1) < close f j := hw j hj
      rw [if_pos hlt, if_neg (not_lt.2 hlt.le)]
      simp only [Val.lt, decide_eq_true_eq]
      linarith
  refine ⟨fun hw => t2.2 ⟨h3, ?_⟩, fun hw => t1.2 ⟨h3, ?_⟩⟩
  · constructor
    · simp only [h.ti _ hin 1 (by omega), h.ti _ hin 2 (by omega)]
      have := (step (m - 1 - 2) (by omega)).1 hw
      rwa [show m - 1 - 2 + 1 = m - 1 - 1 by omega] at this
    · simp only [h.ti _ hin 1 (by omega), h.ti _ hin 0 (by omega)]
      have := (step (m - 1 - 1) (by omega)).1 hw
      rwa [show m - 1 - 1 + 1 = m - 1 - 0 by omega] at this
  · constructor
    · simp only [h.ti _ hin 1 (by omega), h.ti _ hin 2 (by omega)]
      have := (step (m - 1 - 2) (by omega)).2 hw
      rwa [show m - 1 - 2 + 1 = m - 1 - 1 by omega] at this
    · simp only [h.ti _ hin 1 (by omega), h.ti _ hin 0 (by omega)]
      have := (step (m - 1 - 1) (by omega)).2 hw
      rwa [show m - 1 - 1 + 1 = m - 1 - 0 by omega] at this

/-- The hypotheses of `C102_on_balance_volume_against_the_market` in the market that falls every day (`oneWay_ways`). -/
example : AllPositive (oneWay false 45) "volume" ∧
    ∃ o, BuiltOn demoEnv .onBalanceVolume (oneWay false 45) true o Traded ∧ o.ind = .onBalanceVolume ∧
      o.getTiData.day "obv" 8 = .fin (-4000) := by
  constructor
  · have : ∀ j < 45, 0 < price (oneWay false 45) "volume" j := by decide +kernel
    exact fun j hj => this j (by simpa [oneWay] using hj)
  · exact oneWay_built false 45 "obv" 8 _ (by decide +kernel) (by decide) fun _ h => h.2.2

/-- C102: the same for the Fibonacci retracement and the Chaikin money flow. -/
theorem C102_retracement_and_money_flow (hB : BuiltOn E c f fill o AnyPrices)
    (hi : o.ind = .fibonacciRetracement ∨ ∃ n, o.ind = .chaikinMoneyFlow n) (ho : o' = o ∨ ∃ i, o.cut i = some o') :
    (NeverFalls f "close" → o'.getTiSignal ≠ .ok .buy) ∧ (NeverRises f "close" → o'.getTiSignal ≠ .ok .sell) := by
  obtain ⟨m, h⟩ := day_view hB (by rcases hi with hi | ⟨n, hi⟩ <;> rw [hi] <;> exact fun _ => rfl)
    (by rcases hi with hi | ⟨n, hi⟩ <;> simp [hi]) ho
  have hm := h.le
  have hreq : "close" ∈ o.ind.required := by rcases hi with hi | ⟨n, hi⟩ <;> simp [hi, Ind.required]
  have lt_iff : ∀ a b : ℚ, (Val.fin a <ᵥ Val.fin b) = true ↔ a < b := fun a b => by simp [Val.lt]
  rcases hi with hi | ⟨n, hi⟩
  · have line : ∀ l ∈ ["rl_61.8", "rl_50.0", "rl_38.2", "rl_23.6"], ∃ q, ∀ k < m, before k (o'.ti.col l) = .fin q := by
      intro l hl
      have hin : l ∈ columns o.ind := by
        simp only [List.mem_cons, List.not_mem_nil, or_false] at hl
        rcases hl with rfl | rfl | rfl | rfl <;> rw [hi] <;> simp [columns]
      obtain ⟨lev, hlev⟩ : ∃ lev : ℚ, (l, lev) ∈ [("rl_0.0", (0 : ℚ)), ("rl_23.6", 236 / 1000), ("rl_38.2", 382 / 1000),
          ("rl_50.0", 1 / 2), ("rl_61.8", 618 / 1000), ("rl_100.0", 1)] := by
        simp only [List.mem_cons, List.not_mem_nil, or_false] at hl
        rcases hl with rfl | rfl | rfl | rfl <;> simp
      refine ⟨roundQ 4 (highest f.idx.length (close f) (f.idx.length - 1) -
        lev * (highest f.idx.length (close f) (f.idx.length - 1) - lowest f.idx.length (close f) (f.idx.length - 1))), fun k hk => ?_⟩
      rw [h.ti _ hin k hk, C54_fibonacci hB hi _ (by omega) l lev hlev]
      rfl
    refine ⟨fun hw => h.noBuy ?_, fun hw => h.noSell ?_⟩ <;> rw [hi] <;> intro r
    · have r : 2 ≤ m := r
      rintro ⟨l, hl, b1, b2⟩
      obtain ⟨q, hq⟩ := line l hl
      simp only [hq 0 (by omega), hq 1 (by omega), h.px _ hreq 0 (by omega), h.px _ hreq 1 (by omega), lt_iff] at b1 b2
      have := Up.le (g := close f) hw (show m - 1 - 1 ≤ m - 1 - 0 by omega) (by omega)
      exact absurd (b2.trans b1) (not_lt.2 this)
    · have r : 2 ≤ m := r
      rintro ⟨-, l, hl, b1, b2⟩
      obtain ⟨q, hq⟩ := line l hl
      simp only [hq 0 (by omega), hq 1 (by omega), h.px _ hreq 0 (by omega), h.px _ hreq 1 (by omega), lt_iff] at b1 b2
      have := Up.le (Up.neg (g := close f) hw) (show m - 1 - 1 ≤ m - 1 - 0 by omega) (by omega)
      exact absurd (b1.trans b2) (not_lt.2 (neg_le_neg_iff.1 this))
  · refine ⟨fun hw => h.noBuy ?_, fun hw => h.noSell ?_⟩ <;> rw [hi] <;> intro r
    · have r : 3 ≤ m := r
      rintro ⟨-, b⟩
      simp only [h.px _ hreq 0 (by omega), h.px _ hreq 1 (by omega), h.px _ hreq 2 (by omega), Val.pmin] at b
      have h1 := Up.le (g := close f) hw (show m - 1 - 1 ≤ m - 1 - 0 by omega) (by omega)
      have h2 := Up.le (g := close f) hw (show m - 1 - 2 ≤ m - 1 - 0 by omega) (by omega)
      split at b <;> rw [lt_iff] at b
      · exact absurd b (not_lt.2 h1)
      · exact absurd b (not_lt.2 h2)
    · have r : 3 ≤ m := r
      rintro ⟨-, b⟩
      simp only [h.px _ hreq 0 (by omega), h.px _ hreq 1 (by omega), h.px _ hreq 2 (by omega), Val.pmax] at b
      have h1 := neg_le_neg_iff.1 (Up.le (Up.neg (g := close f) hw) (show m - 1 - 1 ≤ m - 1 - 0 by omega) (by omega))
      have h2 := neg_le_neg_iff.1 (Up.le (Up.neg (g := close f) hw) (show m - 1 - 2 ≤ m - 1 - 0 by omega) (by omega))
      split at b <;> rw [lt_iff] at b
      · exact absurd b (not_lt.2 h1)
      · exact absurd b (not_lt.2 h2)

/-- The hypotheses of `C102_retracement_and_money_flow` in the market that falls every day (`oneWay_ways`). -/
example : ∃ o, BuiltOn demoEnv .fibonacciRetracement (oneWay false 45) true o AnyPrices ∧ o.ind = .fibonacciRetracement ∧
    o.getTiData.day "rl_50.0" 8 = .fin 122 :=
  oneWay_built false 45 "rl_50.0" 8 _ (by decide +kernel) (by decide) fun _ _ => trivial

/-- C102: the same for the standard deviation, on closes with at most four decimals. -/
theorem C102_standard_deviation (hB : BuiltOn E c f fill o AnyPrices) (n : ℕ) (hi : o.ind = .standardDeviation n)
    (h4 : ∀ j < f.idx.length, FourDecimals (close f j)) (ho : o' = o ∨ ∃ i, o.cut i = some o') :
    (NeverFalls f "close" → o'.getTiSignal ≠ .ok .buy) ∧ (NeverRises f "close" → o'.getTiSignal ≠ .ok .sell) := by
  obtain ⟨m, h⟩ := day_view hB (by rw [hi]; exact fun _ => rfl) (by simp [hi]) ho
  have hm := h.le
  have hn : 1 ≤ n := by obtain ⟨F, -, -, -, -, hp, -⟩ := hB.on hi; exact hp
  have hreq : "close" ∈ o.ind.required := by simp [hi, Ind.required]
  have ma : 1 ≤ m → before 0 (roundS 4 (rolling n n aggMean (o'.input.col "close"))) =
      since (n - 1) (m - 1) (to4 (meanLast n (close f) (m - 1))) := fun hm1 => by
    have h2 := ((h.pxNums _ hreq).rollMean n hn).round 4
    rw [before_val, h2.len, if_pos (by omega), h2.val _ (by omega), Nat.zero_add]
    rfl
  have px : 1 ≤ m → before 0 (o'.input.col "close") = to4 (close f (m - 1)) := fun hm1 => by
    rw [h.px _ hreq 0 (by omega), to4_close (h4 _ (by omega))]; rfl
  refine ⟨fun hw => h.noBuy ?_, fun hw => h.noSell ?_⟩ <;> rw [hi] <;> intro r
  · have r : 1 ≤ m := r
    rintro ⟨b, -⟩
    simp only [ma r, px r] at b
    exact not_lt_of_notAbove (since_notAbove fun _ => le_fin (roundQ_mono 4 (Up.mean_le (g := close f) hw n hn (by omega)))) b
  · have r : 1 ≤ m := r
    rintro ⟨b, -⟩
    simp only [ma r, px r] at b
    refine not_lt_of_notAbove (notAbove_since fun _ => le_fin (roundQ_mono 4 ?_)) b
    have := (Up.neg (g := close f) hw).mean_le n hn (show m - 1 < f.idx.length by omega)
    rw [meanLast_neg] at this
    exact neg_le_neg_iff.1 this

/-- C102: the same for the Bollinger bands (number of standard deviations not negative) and the envelopes (positive closes), on
closes with at most four decimals. -/
theorem C102_bands (hB : BuiltOn E c f fill o AnyPrices)
    (hi : (∃ n s, 0 ≤ s ∧ o.ind = .bollingerBands n (.fin s) ∧ ∀ q, 0 ≤ q → 0 ≤ E.sq q) ∨
      ∃ n s, 0 ≤ s ∧ o.ind = .envelopes n s ∧ AllPositive f "close")
    (h4 : ∀ j < f.idx.length, FourDecimals (close f j)) (ho : o' = o ∨ ∃ i, o.cut i = some o') :
    (NeverFalls f "close" → o'.getTiSignal ≠ .ok .buy) ∧ (NeverRises f "close" → o'.getTiSignal ≠ .ok .sell) := by
  obtain ⟨m, h⟩ := day_view hB (by rcases hi with ⟨n, s, -, hi, -⟩ | ⟨n, s, -, hi, -⟩ <;> rw [hi] <;> exact fun _ => rfl)
    (by rcases hi with ⟨n, s, -, hi, -⟩ | ⟨n, s, -, hi, -⟩ <;> simp [hi]) ho
  have hm := h.le
  have hreq : "close" ∈ o.ind.required := by rcases hi with ⟨n, s, -, hi, -⟩ | ⟨n, s, -, hi, -⟩ <;> simp [hi, Ind.required]
  have i1 : "upper_band" ∈ columns o.ind := by rcases hi with ⟨n, s, -, hi, -⟩ | ⟨n, s, -, hi, -⟩ <;> simp [hi, columns]
  have i2 : "lower_band" ∈ columns o.ind := by rcases hi with ⟨n, s, -, hi, -⟩ | ⟨n, s, -, hi, -⟩ <;> simp [hi, columns]
  have px : 1 ≤ m → before 0 (o'.input.col "close") = to4 (close f (m - 1)) := fun hm1 => by
    rw [h.px _ hreq 0 (by omega), to4_close (h4 _ (by omega))]; rfl
  have er : rule o'.input o'.ti o.ind = outside (fun k => before k (o'.ti.col "upper_band")) (fun k => before k (o'.ti.col "lower_band"))
      fun k => before k (o'.input.col "close") := by
    rcases hi with ⟨n, s, -, hi, -⟩ | ⟨n, s, -, hi, -⟩ <;> rw [hi] <;> rfl
  have low : 1 ≤ m → NeverFalls f "close" → NotAbove (o.getTiData.day "lower_band" (m - 1)) (to4 (close f (m - 1))) := by
    intro hm1 hw
    have up : ∀ n, 1 ≤ n → meanLast n (close f) (m - 1) ≤ close f (m - 1) := fun n hn => Up.mean_le (g := close f) hw n hn (show m - 1 < f.idx.length by omega)
    rcases hi with ⟨n, s, hs, hi, hE⟩ | ⟨n, s, hs, hi, hp⟩
    · have hn : 1 ≤ n := by obtain ⟨F, -, -, -, -, hp, -⟩ := hB.on hi; exact hp.1
      rw [(C54_bollinger hB n s hi (m - 1) (by omega)).2.2]
      refine since_notAbove fun _ => le_fin (roundQ_mono 4 ?_)
      have h1 := roundQ_mono 4 (up n hn)
      rw [round_close (h4 _ (by omega))] at h1
      have h2 := mul_nonneg hs (hE _ (varianceLast_nonneg n (close f) (m - 1)))
      linarith
    · have hn : 1 ≤ n := by obtain ⟨F, -, -, -, -, hp, -⟩ := hB.on hi; exact hp.1
      rw [(C54_envelopes hB n s hi (m - 1) (by omega)).2]
      refine since_notAbove fun _ => le_fin (roundQ_mono 4 ?_)
      have hmp : 0 < meanLast n (close f) (m - 1) := meanLast_pos hp n hn (show m - 1 < f.idx.length by omega)
      have := mul_nonneg hs hmp.le
      have := up n hn
      rw [sub_mul, one_mul]
      linarith
  have high : 1 ≤ m → NeverRises f "close" → NotAbove (to4 (close f (m - 1))) (o.getTiData.day "upper_band" (m - 1)) := by
    intro hm1 hw
    have down : ∀ n, 1 ≤ n → close f (m - 1) ≤ meanLast n (close f) (m - 1) := fun n hn => by
      have := (Up.neg (g := close f) hw).mean_le n hn (show m - 1 < f.idx.length by omega)
      rw [meanLast_neg] at this
      exact neg_le_neg_iff.1 this
    rcases hi with ⟨n, s, hs, hi, hE⟩ | ⟨n, s, hs, hi, hp⟩
    · have hn : 1 ≤ n := by obtain ⟨F, -, -, -, -, hp, -⟩ := hB.on hi; exact hp.1
      rw [(C54_bollinger hB n s hi (m - 1) (by omega)).2.1]
      refine notAbove_since fun _ => le_fin (roundQ_mono 4 ?_)
      have h1 := roundQ_mono 4 (down n hn)
      rw [round_close (h4 _ (by omega))] at h1
      have h2 := mul_nonneg hs (hE _ (varianceLast_nonneg n (close f) (m - 1)))
      linarith
    · have hn : 1 ≤ n := by obtain ⟨F, -, -, -, -, hp, -⟩ := hB.on hi; exact hp.1
      rw [(C54_envelopes hB n s hi (m - 1) (by omega)).1]
      refine notAbove_since fun _ => le_fin (roundQ_mono 4 ?_)
      have hmp : 0 < meanLast n (close f) (m - 1) := meanLast_pos hp n hn (show m - 1 < f.idx.length by omega)
      have := mul_nonneg hs hmp.le
      have := down n hn
      rw [add_mul, one_mul]
      linarith
  refine ⟨fun hw => h.noBuy ?_, fun hw => h.noSell ?_⟩ <;> rw [er] <;> intro r
  · have r : 1 ≤ m := r
    rintro ⟨b, -⟩
    simp only [h.ti _ i2 0 (by omega), px r] at b
    exact not_lt_of_notAbove (low r hw) b
  · have r : 1 ≤ m := r
    intro b
    have b : before 0 (o'.ti.col "upper_band") <ᵥ before 0 (o'.input.col "close") := b
    simp only [h.ti _ i1 0 (by omega), px r] at b
    exact not_lt_of_notAbove (high r hw) b

/-- The hypotheses of `C102_standard_deviation` and `C102_bands` in the market that rises every day (`oneWay_ways`). -/
example : (∀ j < (oneWay true 45).idx.length, FourDecimals (close (oneWay true 45) j)) ∧
    (∃ o, BuiltOn demoEnv (.standardDeviation (.int 4)) (oneWay true 45) true o AnyPrices ∧ o.ind = .standardDeviation 4 ∧
      o.getTiData.day "sd" 2 = .nan) ∧
    ∃ o, BuiltOn demoEnv (.envelopes (.int 3) (.float (.fin (1 / 10)))) (oneWay true 45) true o AnyPrices ∧
      o.ind = .envelopes 3 (1 / 10) ∧ o.getTiData.day "lower_band" 8 = .fin (963 / 10) := by
  refine ⟨?_, oneWay_built true 45 "sd" 2 _ (by decide +kernel) (by decide) fun _ _ => trivial,
    oneWay_built true 45 "lower_band" 8 _ (by decide +kernel) (by decide) fun _ _ => trivial⟩
  have : ∀ j < 45, close (oneWay true 45) j = (100 + j : ℤ) := by decide +kernel
  intro j hj
  rw [this j (by simpa [oneWay] using hj)]
  exact ⟨(100 + j) * 10000, by push_cast; ring⟩

/-- C102: the same for the commodity channel index, if the highs, the lows and the closes all go the same way. -/
theorem C102_commodity_channel (hB : BuiltOn E c f fill o AnyPrices) (n : ℕ) (hi : o.ind = .commodityChannelIndex n)
    (ho : o' = o ∨ ∃ i, o.cut i = some o') :
    (NeverFalls f "high" → NeverFalls f "low" → NeverFalls f "close" → o'.getTiSignal ≠ .ok .buy) ∧
    (NeverRises f "high" → NeverRises f "low" → NeverRises f "close" → o'.getTiSignal ≠ .ok .sell) := by
  obtain ⟨m, h⟩ := day_view hB (by rw [hi]; exact fun _ => rfl) (by simp [hi]) ho
  have hm := h.le
  have hn : 1 ≤ n := by obtain ⟨F, -, -, -, -, hp, -⟩ := hB.on hi; exact hp
  have hin : "cci" ∈ columns o.ind := by simp [hi, columns]
  have dev : ∀ i, 0 ≤ 15 / 1000 * meanLast n (fun j => |meanLast n (typical f) i - typical f j|) i := fun i =>
    mul_nonneg (by norm_num) (le_meanLast n hn i 0 fun t _ => abs_nonneg _)
  refine ⟨fun w1 w2 w3 => h.noBuy ?_, fun w1 w2 w3 => h.noSell ?_⟩ <;> rw [hi] <;> intro r
  · have r : 1 ≤ m := r
    have hu : Up f.idx.length (typical f) := fun j hj => by
      have h1 : high f j ≤ high f (j + 1) := w1 j hj
      have h2 : low f j ≤ low f (j + 1) := w2 j hj
      have h3 : close f j ≤ close f (j + 1) := w3 j hj
      unfold typical
      linarith
    have hle := hu.mean_le n hn (show m - 1 < f.idx.length by omega)
    intro b
    have b : before 0 (o'.ti.col "cci") <ᵥ .fin (-100) := b
    rw [h.ti _ hin 0 (by omega), Nat.sub_zero, C58_commodity_channel hB n hi _ (by omega)] at b
    unfold since at b
    split at b
    · simp [Val.lt] at b
    · rcases eq_or_lt_of_le (dev (m - 1)) with e | e
      · rw [← e] at b
        unfold quotient at b
        split_ifs at b
        all_goals first | linarith | contradiction | simp [round4, Val.round, Val.lt] at b
      · rw [quotient_ne _ _ e.ne'] at b
        have : 0 ≤ roundQ 4 ((typical f (m - 1) - meanLast n (typical f) (m - 1)) /
            (15 / 1000 * meanLast n (fun j => |meanLast n (typical f) (m - 1) - typical f j|) (m - 1))) :=
          roundQ_nonneg 4 (div_nonneg (by linarith) e.le)
        simp only [round4, Val.round, Val.lt, decide_eq_true_eq] at b
        linarith
  · have r : 1 ≤ m := r
    have hu : Up f.idx.length fun j => -typical f j := Up.neg fun j hj => by
      have h1 : high f (j + 1) ≤ high f j := w1 j hj
      have h2 : low f (j + 1) ≤ low f j := w2 j hj
      have h3 : close f (j + 1) ≤ close f j := w3 j hj
      unfold typical
      linarith
    have hle := hu.mean_le n hn (show m - 1 < f.idx.length by omega)
    rw [meanLast_neg] at hle
    intro b
    have b : Val.fin 100 <ᵥ before 0 (o'.ti.col "cci") := b
    rw [h.ti _ hin 0 (by omega), Nat.sub_zero, C58_commodity_channel hB n hi _ (by omega)] at b
    unfold since at b
    split at b
    · simp [Val.lt] at b
    · rcases eq_or_lt_of_le (dev (m - 1)) with e | e
      · rw [← e] at b
        unfold quotient at b
        split_ifs at b
        all_goals first | linarith | contradiction | simp [round4, Val.round, Val.lt] at b
      · rw [quotient_ne _ _ e.ne'] at b
        have : roundQ 4 ((typical f (m - 1) - meanLast n (typical f) (m - 1)) /
            (15 / 1000 * meanLast n (fun j => |meanLast n (typical f) (m - 1) - typical f j|) (m - 1))) ≤ 0 :=
          roundQ_nonpos 4 (div_nonpos_of_nonpos_of_nonneg (by linarith) e.le)
        simp only [round4, Val.round, Val.lt, decide_eq_true_eq] at b
        linarith

/-- The hypotheses of `C102_commodity_channel` in the market that rises every day (`oneWay_ways`). -/
example : ∃ o, BuiltOn demoEnv (.commodityChannelIndex (.int 5)) (oneWay true 45) true o AnyPrices ∧ o.ind = .commodityChannelIndex 5 ∧
    o.getTiData.day "cci" 8 = .fin (1111111 / 10000) :=
  oneWay_built true 45 "cci" 8 _ (by decide +kernel) (by decide) fun _ _ => trivial

/-- C102: the Chaikin oscillator goes the other way: it does not sell when the closes never fall, and does not buy when they never
rise. -/
theorem C102_chaikin_oscillator (hB : BuiltOn E c f fill o AnyPrices) (hi : o.ind = .chaikinOscillator)
    (ho : o' = o ∨ ∃ i, o.cut i = some o') :
    (NeverFalls f "close" → o'.getTiSignal ≠ .ok .sell) ∧ (NeverRises f "close" → o'.getTiSignal ≠ .ok .buy) := by
  obtain ⟨m, h⟩ := day_view hB (by rw [hi]; exact fun _ => rfl) (by simp [hi]) ho
  have hm := h.le
  have hreq : "close" ∈ o.ind.required := by simp [hi, Ind.required]
  have hx := h.pxNums _ hreq
  have ma : 90 ≤ m → meanSkip (window 90 (o'.input.col "close")) = .fin (meanLast 90 (close f) (m - 1)) := fun hm1 => by
    have e : window 90 (o'.input.col "close") = ((o'.input.col "close").drop (m - 90)).take 90 := by
      unfold window
      rw [hx.len, List.take_of_length_le]
      rw [List.length_drop, hx.len]; omega
    rw [e, hx.take_drop (m - 90) 90 (by omega) (by omega), Nums.meanSkip_fin _ (by simp)]
    have := Nums.window_sum 90 (close f) (m - 1) (by omega)
    rw [show m - 1 + 1 - 90 = m - 90 by omega] at this
    show Val.fin ((((List.range 90).map fun t => close f (m - 90 + t)).sum) / _) = _
    rw [this]
    simp [meanLast]
  have lt_iff : ∀ a b : ℚ, (Val.fin a <ᵥ Val.fin b) = true ↔ a < b := fun a b => by simp [Val.lt]
  refine ⟨fun hw => h.noSell ?_, fun hw => h.noBuy ?_⟩ <;> rw [hi] <;> intro r
  · have r : 90 ≤ m := r
    rintro ⟨b, -⟩
    simp only [ma r, h.px _ hreq 0 (by omega), lt_iff] at b
    exact absurd b (not_lt.2 (Up.mean_le (g := close f) hw 90 (by norm_num) (by omega)))
  · have r : 90 ≤ m := r
    rintro ⟨b, -⟩
    simp only [ma r, h.px _ hreq 0 (by omega), lt_iff] at b
    have := (Up.neg (g := close f) hw).mean_le 90 (by norm_num) (show m - 1 < f.idx.length by omega)
    rw [meanLast_neg] at this
    exact absurd b (not_lt.2 (neg_le_neg_iff.1 this))

/-- The hypotheses of `C102_chaikin_oscillator` in the market that rises every day (`oneWay_ways`). -/
example : ∃ o, BuiltOn demoEnv .chaikinOscillator (oneWay true 45) true o AnyPrices ∧ o.ind = .chaikinOscillator ∧
    o.getTiData.day "co" 1 = .nan :=
  oneWay_built true 45 "co" 1 _ (by decide +kernel) (by decide) fun _ _ => trivial

end TTI.Props
