import Verif.Model.Sim
import Mathlib.Tactic.Common
import Mathlib.Data.List.Induction

set_option autoImplicit false

/-! Law-free lemmas about the simulator: they hold for every number type. -/

namespace TTI.Sim

variable {α : Type} [Num α]

theorem run_snoc (P : Params α) (ds : List (Day α)) (d : Day α) :
    run P (ds ++ [d]) = round P (run P ds) d.1 d.2 := by
  simp [run, List.foldl_append]

/-- Every round appends exactly one row. -/
theorem round_rows (P : Params α) (st : State α) (p : α) (s : Signal) :
    ∃ r : Row α, (round P st p s).rows = st.rows ++ [r] ∧ r.stock = p ∧ r.signal = s := by
  unfold round
  split
  · next h =>
    rw [List.getLast?_eq_none_iff] at h
    rw [h]; exact ⟨_, rfl, rfl, rfl⟩
  · cases s <;> simp only [processSignal] <;> (try split) <;> exact ⟨_, rfl, rfl, rfl⟩

theorem run_rows_length (P : Params α) (ds : List (Day α)) : (run P ds).rows.length = ds.length := by
  induction ds using List.reverseRecOn with
  | nil => rfl
  | append_singleton ds d ih =>
    obtain ⟨r, h, -, -⟩ := round_rows P (run P ds) d.1 d.2
    rw [run_snoc, h]; simp [ih]

theorem run_rows_map (P : Params α) (ds : List (Day α)) :
    (run P ds).rows.map (fun r => (r.stock, r.signal)) = ds := by
  induction ds using List.reverseRecOn with
  | nil => rfl
  | append_singleton ds d ih =>
    obtain ⟨r, h, h1, h2⟩ := round_rows P (run P ds) d.1 d.2
    rw [run_snoc, h]; simp [ih, h1, h2]

theorem run_rows_prefix (P : Params α) (ds es : List (Day α)) :
    (run P ds).rows <+: (run P (ds ++ es)).rows := by
  induction es using List.reverseRecOn with
  | nil => simp
  | append_singleton es e ih =>
    rw [← List.append_assoc, run_snoc]
    obtain ⟨r, h, -, -⟩ := round_rows P (run P (ds ++ es)) e.1 e.2
    rw [h]
    exact ih.trans (List.prefix_append _ _)

theorem run_rows_take (P : Params α) (ds : List (Day α)) (n : ℕ) :
    (run P (ds.take n)).rows = (run P ds).rows.take n := by
  have h := run_rows_prefix P (ds.take n) (ds.drop n)
  rw [List.take_append_drop] at h
  rw [List.prefix_iff_eq_take] at h
  rw [h, run_rows_length, List.length_take]
  rcases le_total n ds.length with hn | hn
  · rw [min_eq_left hn]
  · rw [min_eq_right hn, List.take_of_length_le (by rw [run_rows_length]),
      List.take_of_length_le (by rw [run_rows_length]; exact hn)]

/-- Does the price of a later row close the position opened by row `r`? -/
def closes (P : Params α) (r s : Row α) : Bool :=
  match r.action with
  | .none => false
  | .long => Num.lt r.stock s.stock
  | .short => Num.lt (Num.mul P.factor s.stock) (Num.mul P.factor r.stock)

/-- Portfolio row of the position opened by `r`, given the later rows. -/
def posOf (P : Params α) (r : Row α) (later : List (Row α)) : Pos α :=
  match r.action with
  | .none => noPos
  | .long => ⟨.long, if later.any (closes P r) then .closed else .open, r.stock⟩
  | .short => ⟨.short, if later.any (closes P r) then .closed else .open, Num.mul P.factor r.stock⟩

/-- The whole portfolio, in terms of the simulation data alone. -/
def pfOf (P : Params α) : List (Row α) → List (Pos α)
  | [] => []
  | r :: later => posOf P r later :: pfOf P later

theorem pfOf_length (P : Params α) (h : List (Row α)) : (pfOf P h).length = h.length := by
  induction h with
  | nil => rfl
  | cons r h ih => simp [pfOf, ih]

/-- A pass of closings, as a single map. -/
def closePass (P : Params α) (price : α) (p : Pos α) : Pos α :=
  if longMask price p || shortMask P.factor price p then { p with status := .closed } else p

theorem closeOpenPositions_portfolio (P : Params α) (price : α) (pf : List (Pos α)) :
    (closeOpenPositions P price pf).portfolio = pf.map (closePass P price) := by
  simp only [closeOpenPositions, markClosed, List.map_map]
  apply List.map_congr_left
  intro p _
  obtain ⟨sd, st, e⟩ := p
  cases sd <;> cases st <;> simp [closePass, longMask, shortMask]
  by_cases h : Num.lt e price = true <;> simp [h]

theorem closePass_posOf (P : Params α) (r s : Row α) (later : List (Row α)) :
    closePass P s.stock (posOf P r later) = posOf P r (later ++ [s]) := by
  rcases r with ⟨sig, act, st, ex, pv, ea, ba⟩
  cases act
  · simp [posOf, closePass, noPos, longMask, shortMask]
  · by_cases h : (later.any (closes P ⟨sig, .short, st, ex, pv, ea, ba⟩)) = true
    · simp [posOf, closePass, longMask, shortMask, h, List.any_append]
    · by_cases h2 : Num.lt (Num.mul P.factor s.stock) (Num.mul P.factor st) = true
      · simp [posOf, closePass, longMask, shortMask, h, List.any_append, closes, h2]
      · simp [posOf, closePass, longMask, shortMask, List.any_append, closes, h2]
  · by_cases h : (later.any (closes P ⟨sig, .long, st, ex, pv, ea, ba⟩)) = true
    · simp [posOf, closePass, longMask, shortMask, h, List.any_append]
    · by_cases h2 : Num.lt st s.stock = true
      · simp [posOf, closePass, longMask, shortMask, h, List.any_append, closes, h2]
      · simp [posOf, closePass, longMask, shortMask, List.any_append, closes, h2]

theorem pfOf_snoc (P : Params α) (h : List (Row α)) (s : Row α) :
    pfOf P (h ++ [s]) = (pfOf P h).map (closePass P s.stock) ++ [posOf P s []] := by
  induction h with
  | nil => simp [pfOf]
  | cons r h ih => simp [pfOf, ih, closePass_posOf]

/-- Action taken on a signal when the exposure after closings is `ex`. -/
def nextAction (P : Params α) (ex price : α) : Signal → Side
  | .hold => .none
  | .buy => if limitReached P ex price then .none else .long
  | .sell => if limitReached P ex (Num.mul P.factor price) then .none else .short

/-- Exposure after the action. -/
def nextExposure (P : Params α) (ex price : α) : Side → α
  | .none => ex
  | .long => Num.add ex price
  | .short => Num.add ex (Num.mul P.factor price)

/-- Portfolio row of the action. -/
def openPos (P : Params α) (price : α) : Side → Pos α
  | .none => noPos
  | .long => ⟨.long, .open, price⟩
  | .short => ⟨.short, .open, Num.mul P.factor price⟩

/-- What one later round does, with the row spelled out. -/
theorem round_of_prev (P : Params α) (st : State α) (prev : Row α) (hp : st.rows.getLast? = some prev)
    (price : α) (s : Signal) (ex ea : α) (act : Side) (pf : List (Pos α)) (pv : α)
    (hex : ex = Num.sub prev.exposure (closeOpenPositions P price st.portfolio).closedExposure)
    (hea : ea = Num.add prev.earnings (closeOpenPositions P price st.portfolio).earnings)
    (hact : act = nextAction P ex price s)
    (hpf : pf = st.portfolio.map (closePass P price) ++ [openPos P price act])
    (hpv : pv = portfolioValue price pf) :
    round P st price s =
      { portfolio := pf
        rows := st.rows ++ [⟨s, act, price, nextExposure P ex price act, pv, ea, Num.add pv ea⟩] } := by
  rw [← closeOpenPositions_portfolio] at hpf
  unfold round
  rw [hp]
  simp only [← hex, ← hea]
  subst hpv hpf hact
  cases s
  · by_cases h : limitReached P ex price = true
    · simp [processSignal, h, record, nextAction, nextExposure, openPos]
    · simp [processSignal, h, record, nextAction, nextExposure, openPos]
  · simp [processSignal, record, nextAction, nextExposure, openPos]
  · by_cases h : limitReached P ex (Num.mul P.factor price) = true
    · simp [processSignal, h, record, nextAction, nextExposure, openPos]
    · simp [processSignal, h, record, nextAction, nextExposure, openPos]

theorem run_portfolio (P : Params α) (ds : List (Day α)) :
    (run P ds).portfolio = pfOf P (run P ds).rows := by
  induction ds using List.reverseRecOn with
  | nil => rfl
  | append_singleton ds d ih =>
    rw [run_snoc]
    cases hl : (run P ds).rows.getLast? with
    | none =>
      have h0 : round P (run P ds) d.1 d.2 = round P State.init d.1 d.2 := by
        simp only [round, hl]; rfl
      rw [h0]; rfl
    | some prev =>
      rw [round_of_prev P (run P ds) prev hl d.1 d.2 _ _ _ _ _ rfl rfl rfl rfl rfl]
      simp only [pfOf_snoc, ← ih]
      congr 1

end TTI.Sim
