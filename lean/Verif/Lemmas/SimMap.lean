import Verif.Lemmas.SimQ

set_option autoImplicit false

/-!
# Transporting a simulation along a change of numbers
-/

namespace TTI.Sim

variable {α β : Type} [Num α] [Num β]

/-- A map of numbers that respects what the simulator does with prices, for given arguments on both sides. -/
structure Transport (φ : α → β) (P : Params α) (Q : Params β) : Prop where
  add : ∀ x y, φ (Num.add x y) = Num.add (φ x) (φ y)
  sub : ∀ x y, φ (Num.sub x y) = Num.sub (φ x) (φ y)
  lt : ∀ x y, Num.lt (φ x) (φ y) = Num.lt x y
  zero : φ (Num.ofInt 0) = Num.ofInt 0
  mulF : ∀ x, φ (Num.mul P.factor x) = Num.mul Q.factor (φ x)
  divF : ∀ x, φ (Num.div x P.factor) = Num.div (φ x) Q.factor
  mulL : ∀ (n : ℤ) x, φ (Num.mul (Num.ofInt n) x) = Num.mul (Num.ofInt n) (φ x)
  mulR : ∀ (n : ℤ) x, φ (Num.mul x (Num.ofInt n)) = Num.mul (φ x) (Num.ofInt n)
  limit : ∀ x y, limitReached Q (φ x) (φ y) = limitReached P x y

def Pos.map (φ : α → β) (p : Pos α) : Pos β := ⟨p.side, p.status, φ p.exposure⟩

def Row.map (φ : α → β) (r : Row α) : Row β :=
  ⟨r.signal, r.action, φ r.stock, φ r.exposure, φ r.portfolio, φ r.earnings, φ r.balance⟩

def State.map (φ : α → β) (st : State α) : State β := ⟨st.portfolio.map (Pos.map φ), st.rows.map (Row.map φ)⟩

variable {φ : α → β} {P : Params α} {Q : Params β}

theorem Transport.sumExposure (h : Transport φ P Q) (l : List (Pos α)) :
    sumExposure (l.map (Pos.map φ)) = φ (sumExposure l) := by
  unfold Sim.sumExposure
  rw [← npSum_map φ h.add h.zero, List.map_map, List.map_map]
  rfl

theorem Transport.longMask (h : Transport φ P Q) (x : α) (p : Pos α) :
    longMask (φ x) (Pos.map φ p) = longMask x p := by
  simp [Sim.longMask, Pos.map, h.lt]

theorem Transport.shortMask (h : Transport φ P Q) (x : α) (p : Pos α) :
    shortMask Q.factor (φ x) (Pos.map φ p) = shortMask P.factor x p := by
  simp [Sim.shortMask, Pos.map, ← h.mulF, h.lt]

theorem Transport.filterLong (h : Transport φ P Q) (x : α) (l : List (Pos α)) :
    (l.map (Pos.map φ)).filter (Sim.longMask (φ x)) = (l.filter (Sim.longMask x)).map (Pos.map φ) := by
  rw [List.filter_map]
  congr 1
  apply List.filter_congr
  intro p _
  exact h.longMask x p

theorem Transport.filterShort (h : Transport φ P Q) (x : α) (l : List (Pos α)) :
    (l.map (Pos.map φ)).filter (Sim.shortMask Q.factor (φ x)) =
      (l.filter (Sim.shortMask P.factor x)).map (Pos.map φ) := by
  rw [List.filter_map]
  congr 1
  apply List.filter_congr
  intro p _
  exact h.shortMask x p

theorem Transport.closePass (h : Transport φ P Q) (x : α) (p : Pos α) :
    closePass Q (φ x) (Pos.map φ p) = Pos.map φ (closePass P x p) := by
  unfold Sim.closePass
  rw [h.longMask, h.shortMask]
  split <;> rfl

theorem Transport.closing (h : Transport φ P Q) (x : α) (l : List (Pos α)) :
    (closeOpenPositions Q (φ x) (l.map (Pos.map φ))).earnings = φ (closeOpenPositions P x l).earnings ∧
    (closeOpenPositions Q (φ x) (l.map (Pos.map φ))).closedExposure = φ (closeOpenPositions P x l).closedExposure ∧
    (closeOpenPositions Q (φ x) (l.map (Pos.map φ))).portfolio =
      (closeOpenPositions P x l).portfolio.map (Pos.map φ) := by
  refine ⟨?_, ?_, ?_⟩
  · simp only [closeOpenPositions]
    rw [h.filterLong, h.filterShort, h.sumExposure, h.sumExposure, List.length_map, List.length_map]
    rw [h.add, h.sub, h.sub, h.mulL, h.mulL, h.divF]
  · simp only [closeOpenPositions]
    rw [h.filterLong, h.filterShort, h.sumExposure, h.sumExposure, h.add]
  · rw [closeOpenPositions_portfolio, closeOpenPositions_portfolio]
    simp only [List.map_map]
    apply List.map_congr_left
    intro p _
    exact h.closePass x p

omit [Num α] [Num β] in
theorem countOpen_map (φ : α → β) (s : Side) (l : List (Pos α)) : countOpen s (l.map (Pos.map φ)) = countOpen s l := by
  unfold countOpen
  rw [List.filter_map, List.length_map]
  rfl

theorem Transport.record (h : Transport φ P Q) (st : State α) (pf : List (Pos α)) (p : Pos α) (s : Signal) (a : Side)
    (x y z : α) :
    record (State.map φ st) (pf.map (Pos.map φ)) (Pos.map φ p) s a (φ x) (φ y) (φ z) =
      State.map φ (record st pf p s a x y z) := by
  have hp : pf.map (Pos.map φ) ++ [Pos.map φ p] = (pf ++ [p]).map (Pos.map φ) := by simp
  simp only [Sim.record, hp, portfolioValue, countOpen_map, State.map, Row.map, h.add, h.mulR, List.map_append (f := Row.map φ),
    List.map_cons, List.map_nil]

theorem Transport.round (h : Transport φ P Q) (st : State α) (x : α) (s : Signal) :
    round Q (State.map φ st) (φ x) s = State.map φ (round P st x s) := by
  have hno : Pos.map φ (noPos : Pos α) = noPos := by simp [Pos.map, noPos, h.zero]
  unfold Sim.round
  have hl : (State.map φ st).rows.getLast? = st.rows.getLast?.map (Row.map φ) := by simp [State.map]
  rw [hl]
  cases st.rows.getLast? with
  | none => simp [State.map, Row.map, hno, h.zero]
  | some prev =>
    obtain ⟨h1, h2, h3⟩ := h.closing x st.portfolio
    simp only [Option.map_some]
    have he : Num.sub (Row.map φ prev).exposure
        (closeOpenPositions Q (φ x) (State.map φ st).portfolio).closedExposure =
        φ (Num.sub prev.exposure (closeOpenPositions P x st.portfolio).closedExposure) := by
      rw [h.sub, ← h2]; rfl
    have ha : Num.add (Row.map φ prev).earnings
        (closeOpenPositions Q (φ x) (State.map φ st).portfolio).earnings =
        φ (Num.add prev.earnings (closeOpenPositions P x st.portfolio).earnings) := by
      rw [h.add, ← h1]; rfl
    have hp : (closeOpenPositions Q (φ x) (State.map φ st).portfolio).portfolio =
      (closeOpenPositions P x st.portfolio).portfolio.map (Pos.map φ) := h3
    rw [he, ha, hp]
    cases s <;> simp only [processSignal]
    · rw [h.limit]
      split
      · rw [← h.record, hno]
      · rw [← h.record]; simp only [h.add, Pos.map]
    · rw [← h.record, hno]
    · rw [← h.mulF, h.limit]
      split
      · rw [← h.record, hno]
      · rw [← h.record]; simp only [h.add, Pos.map]

theorem Transport.run (h : Transport φ P Q) (ds : List (Day α)) :
    run Q (ds.map fun d => (φ d.1, d.2)) = State.map φ (run P ds) := by
  induction ds using List.reverseRecOn with
  | nil => rfl
  | append_singleton ds d ih =>
    rw [List.map_append, List.map_singleton, run_snoc, run_snoc, ih, h.round]

end TTI.Sim
