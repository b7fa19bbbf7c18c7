import Verif.Lemmas.MirrorSar
import Verif.Props.Bands
import Verif.Props.Raise

set_option autoImplicit false

/-!
# C72, C73: the mirrored market

Specification: `Verif/Spec/Mirror.lean`.
-/

namespace TTI.Props

open TTI.Spec

theorem reflect_kind (k : ℚ) (ind : Ind) (m : Val → Val) (h : reflect k ind = some m) :
    (isLevel ind = true ∧ m = Val.sub (.fin k) ∧ reflect 0 ind = some Val.neg) ∨
      (isLevel ind = false ∧ ignoresLevel ind = true ∧ reflect 0 ind = some m) := by
  cases ind <;> simp only [reflect, Option.some.injEq, reduceCtorEq] at h ⊢ <;>
    first
    | exact Or.inl ⟨rfl, h.symm, zero_sub_val⟩
    | exact Or.inr ⟨rfl, rfl, h⟩

theorem toOption_map {α β : Type} (g : α → β) (x : Except Err α) : (x.map g).toOption = x.toOption.map g := by
  cases x <;> rfl

theorem plusAll_reflected (k : ℚ) (T : Frame) : plusAll k (reflected Val.neg T) = reflected (Val.sub (.fin k)) T := by
  unfold plusAll reflected
  simp only [List.map_map, Function.comp_def]
  congr 1
  apply List.map_congr_left
  intro c _
  congr 1
  apply List.map_congr_left
  intro v _
  cases v <;> simp [Val.sub, Val.add, Val.neg, plus]
  ring

theorem isLevel_rounds (ind : Ind) (h : isLevel ind = true) : roundsLevel ind = true := by
  unfold roundsLevel; rw [h]; rfl

theorem check_of_ok (E : Env) (c : Call) (x : InputArg) (fill : PyArg) :
    (∃ ind, c.check = .ok ind) ∨ ∀ y : InputArg, (construct E c y fill).2.toOption = none := by
  cases hc : c.check with
  | ok ind => exact Or.inl ⟨ind, rfl⟩
  | error e => right; intro y; simp only [construct, hc]; rfl

/-- C72: for the classes with a law `reflect`, the construction on the mirrored market succeeds exactly if that on the market
does, and its values are the mirrored values, including the rounding to 4 decimals. `k` has to be a multiple of 0.0002 for
the classes `roundsLevel`, the data have to be complete for the classes `zeroForMissing`; scipy's weights are only assumed
not to be more than the window has rows. -/
theorem C72_values (E : Env) (hwt : ∀ d, (E.weights d).length ≤ d) (c : Call) (fill : PyArg) (f : RawFrame) (k : ℚ)
    (m : Val → Val) (hw : WF f) (hm : ∀ ind, c.check = .ok ind → reflect k ind = some m)
    (hk : ∀ ind, c.check = .ok ind → roundsLevel ind = true → WholeSteps k)
    (hn : ∀ ind b, c.check = .ok ind → fill = .bool b → zeroForMissing ind = true → NumbersFor f ind.required b) :
    (construct E c (.frame (mirrored k f)) fill).2.toOption.map Obj.getTiData =
      (construct E c (.frame f) fill).2.toOption.map fun o => reflected m o.getTiData := by
  rcases check_of_ok E c (.frame f) fill with ⟨ind, hc⟩ | h
  · have only : ∀ i, c.check = .ok i → i = ind := fun i hi => by rw [hc] at hi; exact (Except.ok.inj hi).symm
    have hw' := mirrored_wf 0 f hw
    have hn' : ∀ ind b, c.check = .ok ind → fill = .bool b → zeroForMissing ind = true →
        NumbersFor (mirrored 0 f) ind.required b :=
      fun i b hi hb hz => mirrored_numbers 0 f _ b (otherEnd_required i) (hn i b hi hb hz)
    rw [mirrored_raised, ← toOption_map]
    rcases reflect_kind k ind m (hm ind hc) with ⟨hl, rfl, h0⟩ | ⟨-, hi, h0⟩
    · rw [C69_level_values E c fill (mirrored 0 f) k hw' (fun i h => by rw [only i h]; exact hl)
        (hk ind hc (isLevel_rounds ind hl)) hn', toOption_map,
        construct_mirror E hwt c fill f Val.neg hw (fun i h => by rw [only i h]; exact h0) hn, Option.map_map]
      congr 1
      funext o
      exact plusAll_reflected k o.ti
    · rw [C69_unchanged_values E c fill (mirrored 0 f) k hw' (fun i h => by rw [only i h]; exact hi) hk hn', toOption_map,
        construct_mirror E hwt c fill f m hw (fun i h => by rw [only i h]; exact h0) hn, Option.map_map]
      rfl
  · rw [h, h]; rfl

/-- The result of a single `getTiSignal` call. -/
def onlySignal : List ApiResult → Except Err Signal
  | [.signal s] => s
  | _ => .error .indexError

theorem signal_of_calls {x y : Except Err Obj} {g : ApiResult → ApiResult} (hg : ∀ s, g (.signal s) = .signal s)
    (h : x.map (fun o => (o.steps [.getTiSignal]).2) = y.map fun o => (o.steps [.getTiSignal]).2.map g) :
    x.toOption.map Obj.getTiSignal = y.toOption.map Obj.getTiSignal := by
  have h' := congrArg (fun z => z.toOption.map onlySignal) h
  cases x <;> cases y <;> simpa [Except.map, Except.toOption, Obj.steps, Obj.step, onlySignal, hg] using h'

/-- Mirroring at `k` and at 0 give the same signals. -/
theorem signal_any_level (E : Env) (c : Call) (fill : PyArg) (f : RawFrame) (k : ℚ) (m : Val → Val)
    (ind : Ind) (hc : c.check = .ok ind) (hw : WF f) (hm : reflect k ind = some m) (hs : signalUsesLevel ind = false)
    (hk : roundsLevel ind = true ∨ signalRounds ind = true → WholeSteps k)
    (hn : ∀ b, fill = .bool b → zeroForMissing ind = true → NumbersFor f ind.required b) :
    (construct E c (.frame (mirrored k f)) fill).2.toOption.map Obj.getTiSignal =
      (construct E c (.frame (mirrored 0 f)) fill).2.toOption.map Obj.getTiSignal := by
  have only : ∀ i, c.check = .ok i → i = ind := fun i hi => by rw [hc] at hi; exact (Except.ok.inj hi).symm
  have hw' := mirrored_wf 0 f hw
  have hn' : ∀ i b, c.check = .ok i → fill = .bool b → zeroForMissing i = true → NumbersFor (mirrored 0 f) i.required b := by
    intro i b hi hb hz
    rw [only i hi] at hz ⊢
    exact mirrored_numbers 0 f _ b (otherEnd_required ind) (hn b hb hz)
  rw [mirrored_raised]
  rcases reflect_kind k ind m hm with ⟨hl, -, -⟩ | ⟨-, hi, -⟩
  · exact signal_of_calls (g := plusResult k) (fun _ => rfl) (C69_level_calls E c fill (mirrored 0 f) k hw'
      (fun i h => by rw [only i h]; exact hl) (hk (Or.inl (isLevel_rounds ind hl))) hn' [.getTiSignal])
  · refine signal_of_calls (g := id) (fun _ => rfl) ?_
    simpa using C69_unchanged_calls E c fill (mirrored 0 f) k hw' (fun i h => by rw [only i h]; exact ⟨hi, hs⟩)
      (fun i h hr => by rw [only i h] at hr; exact hk hr) hn' [.getTiSignal]

theorem turns_level (ind : Ind) (h : signalTurns ind = true ∨ signalStays ind = true) : signalUsesLevel ind = false := by
  cases ind <;> simp [signalTurns, signalStays, signalUsesLevel] at h ⊢

theorem turns_reflect (k : ℚ) (ind : Ind) (h : signalTurns ind = true ∨ signalStays ind = true) : ∃ m, reflect k ind = some m := by
  cases ind <;> first | exact ⟨_, rfl⟩ | (simp [signalTurns, signalStays] at h; done)

/-- C73: for the classes `signalTurns` the signal of a new object turns into the opposite one on the mirrored market: where
the code says buy, it says sell, and the other way round (an exception stays the same exception). For Bollinger Bands,
Price Channel and Projection Bands the upper band must not be below the lower one on the last day. -/
theorem C73_turns (E : Env) (hwt : ∀ d, (E.weights d).length ≤ d) (c : Call) (fill : PyArg) (f : RawFrame) (k : ℚ)
    (hw : WF f) (ht : ∀ ind, c.check = .ok ind → signalTurns ind = true)
    (hk : ∀ ind, c.check = .ok ind → roundsLevel ind = true ∨ signalRounds ind = true → WholeSteps k)
    (hn : ∀ ind b, c.check = .ok ind → fill = .bool b → zeroForMissing ind = true → NumbersFor f ind.required b)
    (ho : ∀ o, (construct E c (.frame f) fill).2 = .ok o → BandsInOrder o.ind o.getTiData) :
    (construct E c (.frame (mirrored k f)) fill).2.toOption.map Obj.getTiSignal =
      (construct E c (.frame f) fill).2.toOption.map fun o => o.getTiSignal.map opposite := by
  rcases check_of_ok E c (.frame f) fill with ⟨ind, hc⟩ | h
  · have only : ∀ i, c.check = .ok i → i = ind := fun i hi => by rw [hc] at hi; exact (Except.ok.inj hi).symm
    obtain ⟨mk, hmk⟩ := turns_reflect k ind (Or.inl (ht ind hc))
    obtain ⟨m, hm⟩ := turns_reflect 0 ind (Or.inl (ht ind hc))
    rw [signal_any_level E c fill f k mk ind hc hw hmk (turns_level ind (Or.inl (ht ind hc))) (hk ind hc) (hn ind · hc),
      construct_mirror E hwt c fill f m hw (fun i h => by rw [only i h]; exact hm) hn]
    cases hco : (construct E c (.frame f) fill).2 with
    | error e => rfl
    | ok o =>
      have hi := construct_check E c _ fill o hco
      have : o.ind = ind := only _ hi
      cases fill <;> first | (simp [construct, hi] at hco; done) | skip
      rename_i b
      have hT := (C33_shape E c f b o hw hco).1
      simp only [Except.toOption, Option.map_some, Option.some.injEq]
      exact signal_turns o.ind (by rw [this]; exact ht ind hc) m (by rw [this]; exact hm) o.input o.ti hT (ho o hco)
  · rw [h, h]; rfl

/-- C73: for the classes `signalStays` (Market Facilitation Index, Volatility Chaikin's, Volume Oscillator, Volume Rate of
Change) it is the same signal: they do not see whether the prices rise or fall. -/
theorem C73_stays (E : Env) (hwt : ∀ d, (E.weights d).length ≤ d) (c : Call) (fill : PyArg) (f : RawFrame) (k : ℚ)
    (hw : WF f) (ht : ∀ ind, c.check = .ok ind → signalStays ind = true) :
    (construct E c (.frame (mirrored k f)) fill).2.toOption.map Obj.getTiSignal =
      (construct E c (.frame f) fill).2.toOption.map Obj.getTiSignal := by
  rcases check_of_ok E c (.frame f) fill with ⟨ind, hc⟩ | h
  · have only : ∀ i, c.check = .ok i → i = ind := fun i hi => by rw [hc] at hi; exact (Except.ok.inj hi).symm
    have hz : zeroForMissing ind = false ∧ roundsLevel ind = false ∧ signalRounds ind = false := by
      have := ht ind hc
      cases ind <;> first | exact ⟨rfl, rfl, rfl⟩ | (simp [signalStays] at this; done)
    have hn : ∀ i b, c.check = .ok i → fill = .bool b → zeroForMissing i = true → NumbersFor f i.required b := by
      intro i b hi _ h
      rw [only i hi, hz.1] at h
      cases h
    obtain ⟨mk, hmk⟩ := turns_reflect k ind (Or.inr (ht ind hc))
    obtain ⟨m, hm⟩ := turns_reflect 0 ind (Or.inr (ht ind hc))
    rw [signal_any_level E c fill f k mk ind hc hw hmk (turns_level ind (Or.inr (ht ind hc)))
      (by rw [hz.2.1, hz.2.2]; rintro (h | h) <;> cases h) (hn ind · hc),
      construct_mirror E hwt c fill f m hw (fun i h => by rw [only i h]; exact hm) hn]
    cases hco : (construct E c (.frame f) fill).2 with
    | error e => rfl
    | ok o =>
      have : o.ind = ind := only _ (construct_check E c _ fill o hco)
      simp only [Except.toOption, Option.map_some, Option.some.injEq]
      exact signal_stays o.ind (by rw [this]; exact ht ind hc) m (by rw [this]; exact hm) o.input o.ti
  · rw [h, h]

/-! ## Bands in order -/

theorem last_day (T : Frame) (n : String) (u : Val) (k : ℕ) (hk : (T.col n).length = k) (h : (T.col n).getLast? = some u) :
    0 < k ∧ T.day n (k - 1) = u := by
  rw [List.getLast?_eq_getElem?] at h
  obtain ⟨h1, h2⟩ := List.getElem?_eq_some_iff.1 h
  refine ⟨by omega, ?_⟩
  unfold Frame.day
  rw [List.getD_eq_getElem?_getD, ← hk, h]
  rfl

theorem inOrder_lt (v w : Val) (h : InOrder v w) : Val.lt w v = false := by
  obtain ⟨h1, h2, h3⟩ := h
  rcases h1 with rfl | ⟨a, rfl⟩ <;> rcases h2 with rfl | ⟨b, rfl⟩ <;> simp [Val.lt]
  exact h3 a b rfl rfl

theorem notAbove_lt (u v w : Val) (h1 : NotAbove u v) (h2 : NotAbove v w) (hv : v = .nan → u = .nan ∨ w = .nan) :
    Val.lt w u = false := by
  unfold NotAbove at h1 h2
  cases u <;> cases v <;> cases w <;> simp [Val.lt, Val.le] at h1 h2 hv ⊢
  linarith

/-- C73: the bands are in order whenever the prices are numbers with low ≤ high (for Bollinger Bands, whenever the closes are
numbers). -/
theorem C73_bands_in_order (E : Env) (hE : SoundEnv E) (c : Call) (f : RawFrame) (fill : Bool) (o : Obj) (hw : WF f)
    (h : (construct E c (.frame f) (.bool fill)).2 = .ok o)
    (hb : f.EachRow o.ind.required fun x => "low" ∈ o.ind.required → x "low" ≤ x "high") : BandsInOrder o.ind o.getTiData := by
  have hlen : ∀ n, (∀ p, o.ind ≠ .detrendedPriceOscillator p) → n ∈ columns o.ind → (o.getTiData.col n).length = f.idx.length := by
    intro n hp hn
    obtain ⟨h1, h2, h3, -⟩ := C33_shape E c f fill o hw h
    rw [o.getTiData.col_length h2 n (by rw [h1]; exact hn), Frame.len, h3 hp, (sortIdx_perm _).length_eq]
  have key : ∀ up lo : String, (∀ p, o.ind ≠ .detrendedPriceOscillator p) → up ∈ columns o.ind → lo ∈ columns o.ind →
      (∀ i < f.idx.length, Val.lt (o.getTiData.day up i) (o.getTiData.day lo i) = false) →
      ∀ u l, (o.getTiData.col up).getLast? = some u → (o.getTiData.col lo).getLast? = some l → Val.lt u l = false := by
    intro up lo hp hu hl hd u l h1 h2
    obtain ⟨h3, rfl⟩ := last_day _ _ _ _ (hlen up hp hu) h1
    obtain ⟨-, rfl⟩ := last_day _ _ _ _ (hlen lo hp hl) h2
    exact hd _ (by omega)
  unfold BandsInOrder
  split
  · next p s ho =>
    refine key _ _ (by rw [ho]; simp) (by rw [ho]; simp [columns]) (by rw [ho]; simp [columns]) fun i hi => ?_
    obtain ⟨h1, h2⟩ := C41_bollinger E hE c f fill o hw h (eachRow_mono hb fun _ _ => trivial) p s ho i hi
    refine notAbove_lt _ _ _ h1 h2 fun hm => Or.inr ?_
    obtain ⟨ind, F, T, hc, hv, ht, rfl⟩ := (construct_ok_iff _ _ _ _ _).1 h
    simp only at ho
    subst ho
    simp only [Ind.calcTi, Ind.BollingerBands.calcTi] at ht
    split_ifs at ht
    cases ht
    have h5 : val (roundS 4 (rolling p p aggMean (F.col "close"))) i = .nan := hm
    show val (roundS 4 (addS (roundS 4 (rolling p p aggMean (F.col "close")))
      ((rolling p p (aggStd E.sq 0) (F.col "close")).map fun x => Val.mul x s))) i = .nan
    rw [val_roundS, val_addS, h5]
    rfl
  · next p ho =>
    refine key _ _ (by rw [ho]; simp) (by rw [ho]; simp [columns]) (by rw [ho]; simp [columns]) fun i hi => inOrder_lt _ _ ?_
    exact (C41_projection_bands E c f fill o hw h (eachRow_mono hb fun _ hx => hx (by rw [ho]; simp [Ind.required])) p ho i hi).2.2
  · next p ho =>
    refine key _ _ (by rw [ho]; simp) (by rw [ho]; simp [columns]) (by rw [ho]; simp [columns]) fun i hi => inOrder_lt _ _ ?_
    exact (C41_price_channel E c f fill o hw h (eachRow_mono hb fun _ hx => hx (by rw [ho]; simp [Ind.required])) p ho i hi).2.2
  · trivial

/-! ## The Parabolic SAR -/

/-- On the second day either the high is higher or the low is lower than on the first, but not both. -/
def OneDirection (f : RawFrame) : Prop :=
  Val.lt (f.day "low" 1) (f.day "low" 0) = !Val.lt (f.day "high" 0) (f.day "high" 1)

theorem sar_start (f : RawFrame) (hw : WF f) (hb : f.EachRow (Ind.required .parabolicSAR) AnyPrices) (h1 : OneDirection f) (b : Bool)
    (F : Frame) (hv : (validateInputData (.frame f) (Ind.required .parabolicSAR) b).2 = .ok F) :
    Val.lt ((F.col "low").getD 1 .nan) ((F.col "low").getD 0 .nan) =
        !Val.lt ((F.col "high").getD 0 .nan) ((F.col "high").getD 1 .nan) := by
  have hd : ∀ n ∈ Ind.required .parabolicSAR, ∀ i, (F.col n).getD i .nan = f.day n i :=
    fun n hn i => validated_day f _ _ b F hw hv hb n hn i
  rw [hd _ (by simp [Ind.required]), hd _ (by simp [Ind.required]), hd _ (by simp [Ind.required]), hd _ (by simp [Ind.required])]
  exact h1

/-- C72, Parabolic SAR: its first position depends on the highs of the first two days only. If these two days show one
direction, the values on the mirrored market are the mirrored values. -/
theorem C72_parabolic_sar (E : Env) (fill : PyArg) (f : RawFrame) (k : ℚ) (hw : WF f) (hk : WholeSteps k)
    (hb : f.EachRow (Ind.required .parabolicSAR) AnyPrices) (h1 : OneDirection f) :
    (construct E .parabolicSAR (.frame (mirrored k f)) fill).2.toOption.map Obj.getTiData =
      (construct E .parabolicSAR (.frame f) fill).2.toOption.map fun o => reflected (Val.sub (.fin k)) o.getTiData := by
  have hc : Call.check .parabolicSAR = .ok .parabolicSAR := rfl
  have only : ∀ i, Call.check .parabolicSAR = .ok i → i = .parabolicSAR := fun i hi => by rw [hc] at hi; exact (Except.ok.inj hi).symm
  rw [mirrored_raised, ← toOption_map,
    C69_level_values E .parabolicSAR fill (mirrored 0 f) k (mirrored_wf 0 f hw) (fun i h => by rw [only i h]; rfl) hk
      (fun i b hi _ hz => by rw [only i hi] at hz; cases hz), toOption_map,
    construct_mirror_sar E _ fill f hc fun b F _ hv => sar_start f hw hb h1 b F hv, Option.map_map]
  congr 1
  funext o
  exact plusAll_reflected k o.ti

/-- C73, Parabolic SAR: and its signal turns. -/
theorem C73_parabolic_sar (E : Env) (fill : PyArg) (f : RawFrame) (k : ℚ) (hw : WF f) (hk : WholeSteps k)
    (hb : f.EachRow (Ind.required .parabolicSAR) AnyPrices) (h1 : OneDirection f) :
    (construct E .parabolicSAR (.frame (mirrored k f)) fill).2.toOption.map Obj.getTiSignal =
      (construct E .parabolicSAR (.frame f) fill).2.toOption.map fun o => o.getTiSignal.map opposite := by
  have hc : Call.check .parabolicSAR = .ok .parabolicSAR := rfl
  have only : ∀ i, Call.check .parabolicSAR = .ok i → i = .parabolicSAR := fun i hi => by rw [hc] at hi; exact (Except.ok.inj hi).symm
  rw [mirrored_raised, signal_of_calls (g := plusResult k) (fun _ => rfl) (C69_level_calls E .parabolicSAR fill (mirrored 0 f) k
      (mirrored_wf 0 f hw) (fun i h => by rw [only i h]; rfl) hk (fun i b hi _ hz => by rw [only i hi] at hz; cases hz)
      [.getTiSignal]),
    construct_mirror_sar E _ fill f hc fun b F _ hv => sar_start f hw hb h1 b F hv, Option.map_map]
  cases hco : (construct E .parabolicSAR (.frame f) fill).2 with
  | error e => rfl
  | ok o =>
    have : o.ind = .parabolicSAR := only _ (construct_check E _ _ fill o hco)
    simp only [Except.toOption, Option.map_some, Option.some.injEq, Function.comp]
    show Ind.signal _ _ o.ind = (Ind.signal _ _ o.ind).map opposite
    rw [this]
    have := cross_turn "sar" .sell o.input o.ti rfl
    rw [zero_sub_val] at this
    exact this

/-! ## What does not hold -/

/-- A rise from 1 to 2. -/
def oneRise : RawFrame := ⟨true, [1, 2], [⟨.str "close", true, [.fin 1, .fin 2]⟩]⟩

/-- C72: the Momentum has no such law: it divides prices by each other (200 becomes 50). -/
theorem C72_momentum_witness (E : Env) :
    (construct E (.momentum (.int 1)) (.frame oneRise) (.bool true)).2.map (fun o => o.getTiData.day "mom" 1) = .ok (.fin 200) ∧
    (construct E (.momentum (.int 1)) (.frame (mirrored 3 oneRise)) (.bool true)).2.map
      (fun o => o.getTiData.day "mom" 1) = .ok (.fin 50) := by
  have hE : ∀ (x : InputArg), construct E (.momentum (.int 1)) x (.bool true) =
      construct demoEnv (.momentum (.int 1)) x (.bool true) := fun _ => rfl
  rw [hE, hE]
  exact ⟨by decide +kernel, by decide +kernel⟩

/-- Rising closes. -/
def straightRise : RawFrame := ⟨true, [1, 2, 3, 4], [⟨.str "close", true, [.fin 1, .fin 2, .fin 3, .fin 4]⟩]⟩

/-- C72: the Relative Momentum Index, although between 0 and 100, has none: on prices that only rise it is missing instead
of 100, on prices that only fall it is 0. -/
theorem C72_relative_momentum_witness (E : Env) :
    (construct E (.relativeMomentumIndex (.int 2) (.int 1)) (.frame straightRise) (.bool true)).2.map
      (fun o => o.getTiData.day "rmi" 3) = .ok .nan ∧
    (construct E (.relativeMomentumIndex (.int 2) (.int 1)) (.frame (mirrored 10 straightRise)) (.bool true)).2.map
      (fun o => o.getTiData.day "rmi" 3) = .ok (.fin 0) := by
  have hE : ∀ (x : InputArg), construct E (.relativeMomentumIndex (.int 2) (.int 1)) x (.bool true) =
      construct demoEnv (.relativeMomentumIndex (.int 2) (.int 1)) x (.bool true) := fun _ => rfl
  rw [hE, hE]
  exact ⟨by decide +kernel, by decide +kernel⟩

/-- The second bar reaches beyond the first on both sides. -/
def outsideBar : RawFrame :=
  ⟨true, [1, 2, 3], [⟨.str "high", true, [.fin 3, .fin 4, .fin 6]⟩, ⟨.str "low", true, [.fin 2, .fin 1, .fin 3]⟩,
    ⟨.str "close", true, [.fin 2, .fin 3, .fin 4]⟩]⟩

/-- C72: without `OneDirection` the Parabolic SAR takes a rise in both markets (10 - 2 is not 7). -/
theorem C72_parabolic_sar_witness (E : Env) :
    (construct E .parabolicSAR (.frame outsideBar) (.bool true)).2.map (fun o => o.getTiData.day "sar" 0) = .ok (.fin 2) ∧
    (construct E .parabolicSAR (.frame (mirrored 10 outsideBar)) (.bool true)).2.map
      (fun o => o.getTiData.day "sar" 0) = .ok (.fin 7) := by
  have hE : ∀ (x : InputArg), construct E .parabolicSAR x (.bool true) = construct demoEnv .parabolicSAR x (.bool true) :=
    fun _ => rfl
  rw [hE, hE]
  exact ⟨by decide +kernel, by decide +kernel⟩

/-- C73: the signal of the Moving Average does not turn, although its values do: it never says sell. -/
theorem C73_moving_average_witness (E : Env) :
    (construct E (.movingAverage (.int 2) (.str "simple")) (.frame oneRise) (.bool true)).2.map Obj.getTiSignal = .ok (.ok .buy) ∧
    (construct E (.movingAverage (.int 2) (.str "simple")) (.frame (mirrored 3 oneRise)) (.bool true)).2.map
      Obj.getTiSignal = .ok (.ok .hold) := by
  have hE : ∀ (x : InputArg), construct E (.movingAverage (.int 2) (.str "simple")) x (.bool true) =
      construct demoEnv (.movingAverage (.int 2) (.str "simple")) x (.bool true) := fun _ => rfl
  rw [hE, hE]
  exact ⟨by decide +kernel, by decide +kernel⟩

/-! ## The hypotheses are met -/

/-- `C72_values` applies to the Linear Regression Indicator on data with a gap that is filled: 3 becomes 2. -/
example : (∀ d, (demoEnv.weights d).length ≤ d) ∧ WF oneMissing ∧
    (∀ ind, (Call.linearRegressionIndicator (.int 3)).check = .ok ind → reflect 5 ind = some (Val.sub (.fin 5)) ∧
      zeroForMissing ind = true ∧ NumbersFor oneMissing ind.required true) ∧ WholeSteps 5 ∧
    (construct demoEnv (.linearRegressionIndicator (.int 3)) (.frame oneMissing) (.bool true)).2.map
      (fun o => o.getTiData.day "lri" 2) = .ok (.fin 3) ∧
    (construct demoEnv (.linearRegressionIndicator (.int 3)) (.frame (mirrored 5 oneMissing)) (.bool true)).2.map
      (fun o => o.getTiData.day "lri" 2) = .ok (.fin 2) := by
  refine ⟨fun d => Nat.zero_le d, by unfold WF; decide, ?_, ⟨25000, by norm_num⟩, by decide +kernel, by decide +kernel⟩
  intro ind h
  cases h
  refine ⟨rfl, rfl, ?_⟩
  intro c hc n _ _
  simp only [oneMissing, List.mem_singleton] at hc
  subst hc
  exact ⟨fun v hv => by
    simp only [List.mem_cons, List.not_mem_nil, or_false] at hv
    rcases hv with rfl | rfl | rfl
    · exact Or.inl ⟨_, rfl⟩
    · exact Or.inr ⟨rfl, rfl⟩
    · exact Or.inl ⟨_, rfl⟩, 3, by simp⟩

/-- Four closes. -/
def turnCloses : RawFrame := ⟨true, [1, 2, 3, 4], [⟨.str "close", true, [.fin 1, .fin 2, .fin 4, .fin 3]⟩]⟩

/-- `C73_turns` applies to the Triple Exponential Moving Average: buy becomes sell. -/
example : WF turnCloses ∧
    (∀ ind, (Call.tripleExponentialMovingAverage (.int 2)).check = .ok ind →
      signalTurns ind = true ∧ zeroForMissing ind = false ∧ ∀ T, BandsInOrder ind T) ∧ WholeSteps 5 ∧
    (construct demoEnv (.tripleExponentialMovingAverage (.int 2)) (.frame turnCloses) (.bool true)).2.map Obj.getTiSignal =
      .ok (.ok .buy) ∧
    (construct demoEnv (.tripleExponentialMovingAverage (.int 2)) (.frame (mirrored 5 turnCloses)) (.bool true)).2.map
      Obj.getTiSignal = .ok (.ok .sell) := by
  refine ⟨by unfold WF; decide, ?_, ⟨25000, by norm_num⟩, by decide +kernel, by decide +kernel⟩
  intro ind h
  cases h
  exact ⟨rfl, rfl, fun _ => trivial⟩

/-- `C73_stays` applies to the Market Facilitation Index: sell stays sell. -/
example : WF demoVolumeBars ∧ (∀ ind, Call.marketFacilitationIndex.check = .ok ind → signalStays ind = true) ∧
    mirrored 20 demoVolumeBars ≠ demoVolumeBars ∧
    (construct demoEnv .marketFacilitationIndex (.frame demoVolumeBars) (.bool true)).2.map Obj.getTiSignal = .ok (.ok .sell) ∧
    (construct demoEnv .marketFacilitationIndex (.frame (mirrored 20 demoVolumeBars)) (.bool true)).2.map
      Obj.getTiSignal = .ok (.ok .sell) := by
  refine ⟨by unfold WF; decide, ?_, by decide +kernel, by decide +kernel, by decide +kernel⟩
  intro ind h
  cases h
  rfl

/-- Rising bars. -/
def risingThree : RawFrame :=
  ⟨true, [1, 2, 3], [⟨.str "high", true, [.fin 3, .fin 4, .fin 6]⟩, ⟨.str "low", true, [.fin 1, .fin 2, .fin 3]⟩,
    ⟨.str "close", true, [.fin 2, .fin 3, .fin 4]⟩]⟩

/-- `C72_parabolic_sar` applies. -/
example : WF risingThree ∧ OneDirection risingThree ∧ risingThree.EachRow (Ind.required .parabolicSAR) AnyPrices ∧
    (construct demoEnv .parabolicSAR (.frame risingThree) (.bool true)).2.map (fun o => o.getTiData.day "sar" 2) = .ok (.fin 1) ∧
    (construct demoEnv .parabolicSAR (.frame (mirrored 10 risingThree)) (.bool true)).2.map
      (fun o => o.getTiData.day "sar" 2) = .ok (.fin 9) := by
  refine ⟨by unfold WF; decide, by unfold OneDirection; decide +kernel, ?_, by decide +kernel, by decide +kernel⟩
  intro j hj
  have hj' : j < 3 := hj
  refine ⟨fun n => match risingThree.cell n j with
    | .fin q => q
    | _ => 0, ?_, trivial⟩
  intro n hn
  simp only [Ind.required, List.mem_cons, List.not_mem_nil, or_false] at hn
  rcases hn with rfl | rfl | rfl <;> interval_cases j <;> decide +kernel

/-- `C73_bands_in_order` applies to the Price Channel. -/
example : SoundEnv demoEnv ∧ demoBars.EachRow (Ind.priceChannel 2).required
    (fun x => "low" ∈ (Ind.priceChannel 2).required → x "low" ≤ x "high") :=
  ⟨⟨fun _ h => h, fun _ _ h => by cases h⟩, eachRow_mono (demoBars_high_low _ (by decide)) fun _ h _ => h⟩

end TTI.Props
