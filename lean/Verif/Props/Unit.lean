import Verif.Lemmas.UnitVolume
import Verif.Props.Scale

set_option autoImplicit false

/-!
# C64: what the values are measured in

Specification: `Verif/Spec/Scale.lean`.
-/

namespace TTI.Props

open TTI.Spec

/-- C64: prices in a unit `p` times smaller and volumes in a unit `v` times smaller give the same exception, or values on the
same days and in the same columns that are the old ones times the factor of the class' dimension, apart from rounding; a
value is missing or infinite in the new units exactly if it is in the old ones. `hq` says that the square root is homogeneous;
it is needed only for the classes that take square roots. -/
theorem C64_values (E : Env) (c : Call) (fill : PyArg) (f : RawFrame) (ind : Ind) (hc : c.check = .ok ind) (d : Dimension)
    (hd : dimension ind = some d) (p v : ℚ) (hp : 0 < p) (hv : 0 < v)
    (hq : usesRoot ind = true → ∀ q, E.sq (p ^ 2 * q) = p * E.sq q) :
    SameUpTo (Follows d.error (d.factor p v)) ((construct E c (.frame f) fill).2.map Obj.getTiData)
      ((construct E c (.frame (scaled p v f)) fill).2.map Obj.getTiData) := by
  apply Near.sameUpTo
  unfold construct
  rw [hc]
  cases fill <;> first | exact rfl | skip
  rename_i b
  simp only
  have hv' := validate_scaled p v hp hv f ind.required b
  cases hr : (validateInputData (.frame f) ind.required b).2 with
  | error e =>
    rw [hr] at hv'
    rcases h1 : validateInputData (.frame f) ind.required b with ⟨a, r⟩
    rcases h2 : validateInputData (.frame (scaled p v f)) ind.required b with ⟨a', r'⟩
    rw [h1] at hr; rw [h2] at hv'
    simp only at hr hv'
    subst hr; subst hv'
    exact rfl
  | ok F =>
    have hreq : ∀ c ∈ F.cols, c.1 ∈ ind.required := by
      have := (valid_of_ok f ind.required b F hr).2
      rw [this]; exact kept_required f ind.required b
    rw [hr] at hv'
    rcases h1 : validateInputData (.frame f) ind.required b with ⟨a, r⟩
    rcases h2 : validateInputData (.frame (scaled p v f)) ind.required b with ⟨a', r'⟩
    rw [h1] at hr; rw [h2] at hv'
    simp only at hr hv'
    subst hr; subst hv'
    simp only [Except.map]
    have key := calcTi_dimension hp hv E ind d hd hq F hreq
    cases h3 : ind.calcTi E F <;> cases h4 : ind.calcTi E (F.scale p v) <;> rw [h3, h4] at key
    · exact key
    · exact key.elim
    · exact key.elim
    · exact key

/-- C64: for two objects, day by day. -/
theorem C64_day (E : Env) (c : Call) (fill : PyArg) (f : RawFrame) (p v : ℚ) (hp : 0 < p) (hv : 0 < v) (o o' : Obj)
    (ho : (construct E c (.frame f) fill).2 = .ok o) (ho' : (construct E c (.frame (scaled p v f)) fill).2 = .ok o')
    (d : Dimension) (hd : dimension o.ind = some d) (hq : usesRoot o.ind = true → ∀ q, E.sq (p ^ 2 * q) = p * E.sq q)
    (name : String) (i : ℕ) :
    Follows d.error (d.factor p v) (o.getTiData.day name i) (o'.getTiData.day name i) := by
  have := C64_values E c fill f o.ind (construct_check E c _ fill o ho) d hd p v hp hv hq
  rw [ho, ho'] at this
  exact this.2.2 name i

/-- C64: in particular the On Balance Volume is exactly proportional to the volumes. -/
theorem C64_on_balance_volume (E : Env) (fill : PyArg) (f : RawFrame) (p v : ℚ) (hp : 0 < p) (hv : 0 < v) (o o' : Obj)
    (ho : (construct E .onBalanceVolume (.frame f) fill).2 = .ok o)
    (ho' : (construct E .onBalanceVolume (.frame (scaled p v f)) fill).2 = .ok o') (i : ℕ) :
    o'.getTiData.day "obv" i = Val.mul (.fin v) (o.getTiData.day "obv" i) := by
  have hi : o.ind = .onBalanceVolume := by
    have := construct_check E _ _ fill o ho
    simpa [Call.check] using this.symm
  have h := C64_day E _ fill f p v hp hv o o' ho ho' ⟨0, 1, 0⟩ (by rw [hi]; rfl) (by rw [hi]; intro h; cases h) "obv" i
  rw [mul_eq_sc v hv]
  generalize o.getTiData.day "obv" i = x at *
  generalize o'.getTiData.day "obv" i = y at *
  have hf : Dimension.factor ⟨0, 1, 0⟩ p v = v := by simp [Dimension.factor]
  rw [hf] at h
  cases x <;> cases y <;> simp [Follows] at h ⊢
  · rfl
  · rfl
  · rfl
  · rename_i a b
    show Val.fin b = .fin (v * a)
    rw [show b = v * a by linarith]

/-! ## The five classes without a dimension -/

/-- Six bars. -/
def sixBars : RawFrame :=
  ⟨true, [1, 2, 3, 4, 5, 6], [⟨.str "open", true, [.fin 10, .fin 11, .fin 12, .fin 11, .fin 12, .fin 13]⟩,
    ⟨.str "high", true, [.fin 12, .fin 13, .fin 13, .fin 14, .fin 14, .fin 16]⟩,
    ⟨.str "low", true, [.fin 9, .fin 10, .fin 10, .fin 11, .fin 11, .fin 12]⟩,
    ⟨.str "close", true, [.fin 11, .fin 12, .fin 11, .fin 12, .fin 13, .fin 14]⟩,
    ⟨.str "volume", true, [.fin 100, .fin 120, .fin 90, .fin 110, .fin 130, .fin 150]⟩]⟩

/-- The value of the last day. -/
def lastOf (c : Call) (name : String) (f : RawFrame) : Except Err Val :=
  (construct demoEnv c (.frame f) (.bool true)).2.map fun o => o.getTiData.day name 5

/-- C64: the remaining five classes are not measured in anything. With prices that are a million times smaller the Forecast
Oscillator goes from 0 to 100, the Projection Oscillator becomes infinite and the Relative Strength Index missing. With
prices that are a hundred times smaller the Range Indicator goes from 66.6667 to 74.0741. With doubled prices the Swing Index
doubles, but it never exceeds 100. -/
theorem C64_without_dimension_witness :
    lastOf (.forecastOscillator (.int 3)) "fosc" sixBars = .ok (.fin 0) ∧
    lastOf (.forecastOscillator (.int 3)) "fosc" (scaled (1 / 1000000) 1 sixBars) = .ok (.fin 100) ∧
    lastOf (.projectionOscillator (.int 3)) "posc" sixBars = .ok (.fin (138889 / 2500)) ∧
    lastOf (.projectionOscillator (.int 3)) "posc" (scaled (1 / 1000000) 1 sixBars) = .ok .pinf ∧
    lastOf (.relativeStrengthIndex (.int 3)) "rsi" sixBars = .ok (.fin (8519 / 100)) ∧
    lastOf (.relativeStrengthIndex (.int 3)) "rsi" (scaled (1 / 1000000) 1 sixBars) = .ok .nan ∧
    lastOf (.rangeIndicator (.int 2) (.int 2)) "ri" sixBars = .ok (.fin (666667 / 10000)) ∧
    lastOf (.rangeIndicator (.int 2) (.int 2)) "ri" (scaled (1 / 100) 1 sixBars) = .ok (.fin (740741 / 10000)) ∧
    lastOf .swingIndex "swi" sixBars = .ok (.fin (205882 / 10000)) ∧
    lastOf .swingIndex "swi" (scaled 2 1 sixBars) = .ok (.fin (411765 / 10000)) ∧
    lastOf .swingIndex "swi" (scaled 8 1 sixBars) = .ok (.fin 100) := by
  refine ⟨?_, ?_, ?_, ?_, ?_, ?_, ?_, ?_, ?_, ?_, ?_⟩ <;> decide +kernel

/-! ## The hypotheses are met -/

/-- The dimensions of some classes, and values before and after a change of units: the mean of the closes is divided by 1000,
the ease of movement by 100 and by 7. -/
example : dimension (.movingAverage 3 .simple) = some ⟨1, 0, 1 / 20000⟩ ∧ dimension (.easeOfMovement 3) = some ⟨2, -1, 1 / 20000⟩ ∧
    dimension (.ultimateOscillator) = some ⟨0, 0, 0⟩ ∧ dimension .swingIndex = none ∧
    (Call.movingAverage (.int 3) (.str "simple")).check = .ok (.movingAverage 3 .simple) ∧
    lastOf (.movingAverage (.int 3) (.str "simple")) "ma-simple" sixBars = .ok (.fin 13) ∧
    lastOf (.movingAverage (.int 3) (.str "simple")) "ma-simple" (scaled (1 / 1000) 7 sixBars) = .ok (.fin (13 / 1000)) ∧
    lastOf (.easeOfMovement (.int 3)) "emv" sixBars = .ok (.fin 400) ∧
    lastOf (.easeOfMovement (.int 3)) "emv" (scaled (1 / 10) 7 sixBars) = .ok (.fin (5714 / 10000)) := by
  refine ⟨by decide +kernel, by decide +kernel, by decide +kernel, by decide +kernel, by decide +kernel, ?_, ?_, ?_, ?_⟩ <;> decide +kernel

/-- A square root can be homogeneous: this one is right on the squares of numbers, and 0 elsewhere. -/
example : ∃ sq : ℚ → ℚ, (∀ r, 0 ≤ r → sq (r ^ 2) = r) ∧ ∀ p, 0 < p → ∀ q, sq (p ^ 2 * q) = p * sq q := by
  classical
  let sq : ℚ → ℚ := fun q => if h : ∃ r, 0 ≤ r ∧ r ^ 2 = q then h.choose else 0
  have h1 : ∀ r, 0 ≤ r → sq (r ^ 2) = r := by
    intro r hr
    have h : ∃ s, 0 ≤ s ∧ s ^ 2 = r ^ 2 := ⟨r, hr, rfl⟩
    simp only [sq, dif_pos h]
    exact (pow_left_inj₀ h.choose_spec.1 hr two_ne_zero).1 h.choose_spec.2
  refine ⟨sq, h1, ?_⟩
  intro p hp q
  by_cases h : ∃ r, 0 ≤ r ∧ r ^ 2 = q
  · obtain ⟨r, hr, rfl⟩ := h
    rw [h1 r hr, show p ^ 2 * r ^ 2 = (p * r) ^ 2 by ring, h1 _ (by positivity)]
  · have h' : ¬ ∃ r, 0 ≤ r ∧ r ^ 2 = p ^ 2 * q := by
      rintro ⟨r, hr, e⟩
      refine h ⟨r / p, by positivity, ?_⟩
      rw [div_pow, e]
      field_simp
    simp only [sq, dif_neg h, dif_neg h', mul_zero]

end TTI.Props
