import Verif.Lemmas.ScaleObj
import Verif.Props.Build
import Verif.Spec.Prices

set_option autoImplicit false

/-!
# C45: units of prices and volumes

Specification: `Verif/Spec/Scale.lean`.
-/

namespace TTI.Props

open TTI.Spec

theorem construct_check (E : Env) (c : Call) (data : InputArg) (fill : PyArg) (o : Obj)
    (h : (construct E c data fill).2 = .ok o) : c.check = .ok o.ind := by
  cases hch : c.check with
  | error e => simp [construct, hch] at h
  | ok ind =>
    cases fill <;> first | (simp [construct, hch] at h; done) | skip
    obtain ⟨ind', F, T, hc, -, -, rfl⟩ := (construct_ok_iff _ _ _ _ _).1 h
    rw [hc] at hch
    exact hch.symm

theorem calcTi_price' {p : ℚ} (hp : 0 < p) (E : Env) (c : Call) (ind : Ind) (hc : c.check = .ok ind)
    (hq : ∀ n, c.check = .ok (.relativeVolatilityIndex n) → ∀ q, E.sq (p ^ 2 * q) = p * E.sq q) (h : freeOfPriceUnit ind = true) (F : Frame)
    (hn : ∀ col ∈ F.cols, col.1 ∈ ind.required) : ind.calcTi E (F.scale p 1) = ind.calcTi E F := by
  have h' := (priceFree_iff ind).2 h
  by_cases hu : ∃ n, ind = .relativeVolatilityIndex n
  · obtain ⟨n, rfl⟩ := hu
    exact calcTi_price hp E (hq n hc) _ h' F hn
  · have key := calcTi_price hp ⟨fun _ => 0, E.weights⟩ (fun q => by simp) ind h' F hn
    have hE : ∀ G, ind.calcTi ⟨fun _ => 0, E.weights⟩ G = ind.calcTi E G := by
      intro G
      cases ind <;> first | rfl | (exact h'.elim) | exact absurd ⟨_, rfl⟩ hu
    rwa [hE, hE] at key

theorem construct_price (E : Env) (c : Call) (fill : PyArg) (f : RawFrame) (p : ℚ) (hp : 0 < p)
    (hq : ∀ n, c.check = .ok (.relativeVolatilityIndex n) → ∀ q, E.sq (p ^ 2 * q) = p * E.sq q) (h : ∀ ind, c.check = .ok ind → freeOfPriceUnit ind = true) :
    (construct E c (.frame (scaled p 1 f)) fill).2 = (construct E c (.frame f) fill).2.map (Obj.on (Frame.scale p 1)) :=
  construct_on E c fill f _ _ (fun ind _ b => validate_scaled p 1 hp one_pos f ind.required b)
    fun ind hi F hn => ⟨calcTi_price' hp E c ind hi hq (h ind hi) F hn,
      inputAfter_scale_price hp ind (h ind hi) F⟩

/-- C45: for the classes `freeOfPriceUnit`, multiplying all prices by a positive number leaves the outcome of the
construction (the exception, or success) and all indicator values unchanged, including their rounding. `hq` says that the
square root is homogeneous; it is needed for the Relative Volatility Index only. -/
theorem C45_values (E : Env) (c : Call) (fill : PyArg) (f : RawFrame) (p : ℚ) (hp : 0 < p)
    (hq : ∀ n, c.check = .ok (.relativeVolatilityIndex n) → ∀ q, E.sq (p ^ 2 * q) = p * E.sq q) (h : ∀ ind, c.check = .ok ind → freeOfPriceUnit ind = true) :
    (construct E c (.frame (scaled p 1 f)) fill).2.map Obj.getTiData =
      (construct E c (.frame f) fill).2.map Obj.getTiData := by
  rw [construct_price E c fill f p hp hq h]
  cases (construct E c (.frame f) fill).2 <;> rfl

/-- C45: except for the Vertical Horizontal Filter, every sequence of API calls on the two objects gives the same
results: values, signals, and simulations (with the same close values). -/
theorem C45_calls (E : Env) (c : Call) (fill : PyArg) (f : RawFrame) (p : ℚ) (hp : 0 < p)
    (hq : ∀ n, c.check = .ok (.relativeVolatilityIndex n) → ∀ q, E.sq (p ^ 2 * q) = p * E.sq q)
    (h : ∀ ind, c.check = .ok ind → freeOfPriceUnit ind = true ∧ comparesRounded ind = false) (calls : List ApiCall) :
    (construct E c (.frame (scaled p 1 f)) fill).2.map (fun o => (o.steps calls).2) =
      (construct E c (.frame f) fill).2.map fun o => (o.steps calls).2 := by
  rw [construct_price E c fill f p hp hq fun ind hi => (h ind hi).1]
  cases ho : (construct E c (.frame f) fill).2 with
  | error e => rfl
  | ok o =>
    simp only [Except.map]
    have hi := construct_check E c _ fill o ho
    obtain ⟨h1, h2⟩ := h o.ind hi
    rw [Neutral.steps calls (neutral_price hp o.ind h1 h2)]

/-- C45: in particular the signal. -/
theorem C45_signal (E : Env) (c : Call) (fill : PyArg) (f : RawFrame) (p : ℚ) (hp : 0 < p)
    (hq : ∀ n, c.check = .ok (.relativeVolatilityIndex n) → ∀ q, E.sq (p ^ 2 * q) = p * E.sq q)
    (h : ∀ ind, c.check = .ok ind → freeOfPriceUnit ind = true ∧ comparesRounded ind = false) :
    (construct E c (.frame (scaled p 1 f)) fill).2.map Obj.getTiSignal =
      (construct E c (.frame f) fill).2.map Obj.getTiSignal := by
  rw [construct_price E c fill f p hp hq fun ind hi => (h ind hi).1]
  cases ho : (construct E c (.frame f) fill).2 with
  | error e => rfl
  | ok o =>
    simp only [Except.map]
    have hi := construct_check E c _ fill o ho
    obtain ⟨h1, h2⟩ := h o.ind hi
    rw [Neutral.getTiSignal (neutral_price hp o.ind h1 h2)]

/-- C45: for the classes `freeOfVolumeUnit`, multiplying all volumes by a positive number leaves the outcome of the
construction and the results of every sequence of API calls unchanged. -/
theorem C45_volume (E : Env) (c : Call) (fill : PyArg) (f : RawFrame) (v : ℚ) (hv : 0 < v)
    (h : ∀ ind, c.check = .ok ind → freeOfVolumeUnit ind = true) (calls : List ApiCall) :
    (construct E c (.frame (scaled 1 v f)) fill).2.map (fun o => (o.steps calls).2) =
      (construct E c (.frame f) fill).2.map fun o => (o.steps calls).2 := by
  by_cases hr : ∀ ind, c.check = .ok ind → "volume" ∈ ind.required
  · rw [construct_on E c fill f (scaled 1 v f) (Frame.scale 1 v)
      (fun ind _ b => validate_scaled 1 v one_pos hv f ind.required b)
      fun ind hi F hn => ⟨calcTi_volume hv E ind (h ind hi) F hn, inputAfter_scale_volume ind (h ind hi) (hr ind hi) F⟩]
    cases ho : (construct E c (.frame f) fill).2 with
    | error e => rfl
    | ok o =>
      simp only [Except.map]
      have hi := construct_check E c _ fill o ho
      rw [Neutral.steps calls (neutral_volume o.ind (h o.ind hi) (hr o.ind hi))]
  · push Not at hr
    obtain ⟨ind, hi, hr⟩ := hr
    rw [construct_on E c fill f (scaled 1 v f) id ?_ fun ind hi F hn => ⟨rfl, rfl⟩]
    · cases (construct E c (.frame f) fill).2 <;> rfl
    · intro ind' hi' b
      have : ind' = ind := by rw [hi] at hi'; cases hi'; rfl
      subst this
      rw [validate_scaled 1 v one_pos hv f ind'.required b]
      cases hval : (validateInputData (.frame f) ind'.required b).2 with
      | error e => rfl
      | ok F =>
        have hreq : ∀ c ∈ F.cols, c.1 ∈ ind'.required := by
          have := (valid_of_ok f ind'.required b F hval).2
          rw [this]; exact kept_required f ind'.required b
        simp only [Except.map, id_eq]
        rw [scale_no_volume F fun col hc he => hr (he ▸ hreq col hc)]

/-! ## What does not hold -/

/-- Ten falling closes. -/
def fallingCloses : RawFrame :=
  ⟨true, [1, 2, 3, 4, 5, 6, 7, 8, 9, 10], [⟨.str "close", true,
    [.fin 104, .fin 103, .fin 102, .fin 101, .fin 100, .fin 99, .fin 98, .fin 96, .fin 90, .fin 66]⟩]⟩

/-- C45: the signal of the Vertical Horizontal Filter depends on the unit: it compares the close with an average that is
rounded to 4 decimals, so with prices of about 0.00001 it is hold instead of buy. -/
theorem C45_vertical_horizontal_filter_witness (E : Env) :
    (construct E (.verticalHorizontalFilter (.int 2)) (.frame fallingCloses) (.bool true)).2.map Obj.getTiSignal =
      .ok (.ok .buy) ∧
    (construct E (.verticalHorizontalFilter (.int 2)) (.frame (scaled (1 / 10000000) 1 fallingCloses)) (.bool true)).2.map
      Obj.getTiSignal = .ok (.ok .hold) := by
  have hE : ∀ (x : InputArg), construct E (.verticalHorizontalFilter (.int 2)) x (.bool true) =
      construct demoEnv (.verticalHorizontalFilter (.int 2)) x (.bool true) := fun _ => rfl
  rw [hE, hE]
  exact ⟨by decide +kernel, by decide +kernel⟩

/-- Up, down, up. -/
def upDownUp : RawFrame := ⟨true, [1, 2, 3, 4], [⟨.str "close", true, [.fin 1, .fin 2, .fin 1, .fin 3]⟩]⟩

/-- C45: the Relative Strength Index is not one of these classes: it rounds the daily changes to 4 decimals, so with
prices of about 0.00001 the value 75 is lost. -/
theorem C45_relative_strength_index_witness (E : Env) :
    (construct E (.relativeStrengthIndex (.int 3)) (.frame upDownUp) (.bool true)).2.map (fun o => o.getTiData.day "rsi" 3) =
      .ok (.fin 75) ∧
    (construct E (.relativeStrengthIndex (.int 3)) (.frame (scaled (1 / 100000) 1 upDownUp)) (.bool true)).2.map
      (fun o => o.getTiData.day "rsi" 3) = .ok .nan := by
  have hE : ∀ (x : InputArg), construct E (.relativeStrengthIndex (.int 3)) x (.bool true) =
      construct demoEnv (.relativeStrengthIndex (.int 3)) x (.bool true) := fun _ => rfl
  rw [hE, hE]
  exact ⟨by decide +kernel, by decide +kernel⟩

/-! ## The hypotheses are met -/

/-- Three bars with volume, in the wrong order. -/
def demoVolumeBars : RawFrame :=
  ⟨true, [3, 1, 2], [⟨.str "High", true, [.fin 12, .fin 11, .fin 13]⟩, ⟨.str "Low", true, [.fin 9, .fin 8, .fin 10]⟩,
    ⟨.str "Close", true, [.fin 10, .fin 9, .fin 12]⟩, ⟨.str "Volume", true, [.fin 100, .fin 200, .fin 300]⟩]⟩

/-- `C45_calls` and `C45_volume` apply to Chaikin Money Flow; the data really changes and the value is a number. -/
example : (∀ ind, (Call.chaikinMoneyFlow (.int 2)).check = .ok ind →
      freeOfPriceUnit ind = true ∧ comparesRounded ind = false ∧ freeOfVolumeUnit ind = true) ∧
    (∀ n, (Call.chaikinMoneyFlow (.int 2)).check ≠ .ok (.relativeVolatilityIndex n)) ∧
    scaled 3 1 demoVolumeBars ≠ demoVolumeBars ∧ scaled 1 7 demoVolumeBars ≠ demoVolumeBars ∧
    ((construct demoEnv (.chaikinMoneyFlow (.int 2)) (.frame demoVolumeBars) (.bool true)).2.map
      fun o => o.getTiData.day "cmf" 2) = .ok (.fin (1667 / 10000)) := by
  refine ⟨?_, fun n h => (by cases h), by decide +kernel, by decide +kernel, by decide +kernel⟩
  intro ind h
  cases h
  exact ⟨rfl, rfl, rfl⟩

end TTI.Props
