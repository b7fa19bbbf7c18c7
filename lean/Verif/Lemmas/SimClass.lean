import Verif.Model.SimClass

set_option autoImplicit false

/-! The simulator with arrays and the simulator of `Model/Sim`. -/

namespace TTI.SimClass

variable {α : Type} [Num α]

/-- The number of a side in the array. -/
def sideCode : Sim.Side → ℕ
  | .none => 0
  | .short => 1
  | .long => 2

/-- The number of a status in the array. -/
def statusCode : Sim.Status → ℕ
  | .none => 0
  | .open => 1
  | .closed => 2

def slot (p : Sim.Pos α) : Slot α := ⟨sideCode p.side, statusCode p.status, p.exposure⟩

def cells (r : Sim.Row α) : Cells α :=
  ⟨some r.signal, some r.action, some r.stock, some r.exposure, some r.portfolio, some r.earnings, some r.balance⟩

theorem slot_noPos : slot (Sim.noPos : Sim.Pos α) = zero := rfl

theorem longMask_slot (price : α) (p : Sim.Pos α) : longMask price (slot p) = Sim.longMask price p := by
  rcases p with ⟨side, status, e⟩
  cases side <;> cases status <;> rfl

theorem shortMask_slot (f price : α) (p : Sim.Pos α) : shortMask f price (slot p) = Sim.shortMask f price p := by
  rcases p with ⟨side, status, e⟩
  cases side <;> cases status <;> rfl

theorem filter_slots (M : Slot α → Bool) (M' : Sim.Pos α → Bool) (h : ∀ p, M (slot p) = M' p) (h0 : M zero = false)
    (pf : List (Sim.Pos α)) (m : ℕ) :
    (pf.map slot ++ List.replicate m zero).filter M = (pf.filter M').map slot := by
  rw [List.filter_append, List.filter_map, show (List.replicate m (zero : Slot α)).filter M = [] by
    rw [List.filter_eq_nil_iff]; intro x hx; rw [List.eq_of_mem_replicate hx, h0]; simp, List.append_nil]
  congr 1
  apply List.filter_congr
  intro p _
  exact h p

theorem sum_slots (M : Slot α → Bool) (M' : Sim.Pos α → Bool) (h : ∀ p, M (slot p) = M' p) (h0 : M zero = false)
    (pf : List (Sim.Pos α)) (m : ℕ) :
    sumExposure M (pf.map slot ++ List.replicate m zero) = Sim.sumExposure (pf.filter M') := by
  unfold sumExposure Sim.sumExposure
  rw [filter_slots M M' h h0, List.map_map]
  rfl

theorem count_slots (M : Slot α → Bool) (M' : Sim.Pos α → Bool) (h : ∀ p, M (slot p) = M' p) (h0 : M zero = false)
    (hn : ∀ p, M p = true → p.position ≠ 0) (pf : List (Sim.Pos α)) (m : ℕ) :
    countNonzero M (pf.map slot ++ List.replicate m zero) = (pf.filter M').length := by
  unfold countNonzero
  have : (((pf.map slot ++ List.replicate m zero).filter M).map fun p : Slot α => p.position).filter (· ≠ 0) =
      ((pf.map slot ++ List.replicate m zero).filter M).map fun p : Slot α => p.position := by
    rw [List.filter_eq_self]
    intro a ha
    obtain ⟨p, hp, rfl⟩ := List.mem_map.1 ha
    simpa using hn p (List.mem_filter.1 hp).2
  rw [this, List.length_map, filter_slots M M' h h0, List.length_map]

theorem setClosed_slots (M : Slot α → Bool) (M' : Sim.Pos α → Bool) (h : ∀ p, M (slot p) = M' p) (h0 : M zero = false)
    (pf : List (Sim.Pos α)) (m : ℕ) :
    setClosed M (pf.map slot ++ List.replicate m zero) = (Sim.markClosed M' pf).map slot ++ List.replicate m zero := by
  unfold setClosed Sim.markClosed
  rw [List.map_append, List.map_replicate, h0, List.map_map, List.map_map]
  congr 1
  apply List.map_congr_left
  intro p _
  simp only [Function.comp, h]
  split <;> rfl

theorem portfolioValue_slots (price : α) (pf : List (Sim.Pos α)) (m : ℕ) :
    portfolioValue price (pf.map slot ++ List.replicate m zero) = Sim.portfolioValue price pf := by
  unfold portfolioValue Sim.portfolioValue Sim.countOpen
  rw [count_slots _ (fun p => p.side == .long && p.status == .open) ?_ rfl ?_,
    count_slots _ (fun p => p.side == .short && p.status == .open) ?_ rfl ?_]
  · rintro ⟨side, status, e⟩; cases side <;> cases status <;> rfl
  · rintro ⟨side, status, e⟩ h; simp at h; simp [h]
  · rintro ⟨side, status, e⟩; cases side <;> cases status <;> rfl
  · rintro ⟨side, status, e⟩ h; simp at h; simp [h]

/-- The object after the rounds of a state of `Model/Sim`. -/
structure Follows (P : Sim.Params α) (close : List α) (n : ℕ) (st : Sim.State α) (s : Simulator α) : Prop where
  params : s.params = P
  close : s.close = close
  lengths : st.portfolio.length = st.rows.length
  fits : st.rows.length ≤ n
  portfolio : s.portfolio = st.portfolio.map slot ++ List.replicate (n - st.rows.length) zero
  data : s.data = st.rows.map cells ++ List.replicate (n - st.rows.length) empty

theorem follows_create (P : Sim.Params α) (close : List α) (n : ℕ) :
    Follows P close n Sim.State.init (create P n close) :=
  ⟨rfl, rfl, rfl, Nat.zero_le _, rfl, rfl⟩

theorem modify_mid {β : Type} (l : List β) (e : β) (r : List β) (f : β → β) :
    (l ++ e :: r).modify l.length f = l ++ f e :: r := by
  induction l with
  | nil => rfl
  | cons a l ih => simp [ih]

theorem set_mid {β : Type} (l : List β) (e : β) (r : List β) (x : β) :
    (l ++ e :: r).set l.length x = l ++ x :: r := by
  simp

theorem limitHit_some (P : Sim.Params α) (e a : α) : limitHit P (addC (some e) (some a)) = Sim.limitReached P e a := by
  unfold limitHit Sim.limitReached
  cases P.maxExposure <;> rfl

/-- One branch of `_processSignal`. -/
theorem follows_write (P : Sim.Params α) (close : List α) (n : ℕ) (st : Sim.State α) (s : Simulator α)
    (hpar : s.params = P) (hclose : s.close = close) (pf : List (Sim.Pos α)) (hpf : pf.length = st.rows.length) (m : ℕ)
    (hm : n - st.rows.length = m + 1) (price exposure earnings : α)
    (hs : s.portfolio = pf.map slot ++ List.replicate (m + 1) zero) (row : Cells α)
    (hd : s.data = st.rows.map cells ++ row :: List.replicate m empty)
    (hear : row.earnings = some earnings) (pos : Sim.Pos α) (sig : Signal) (action : Sim.Side) :
    Follows P close n (Sim.record st pf pos sig action price exposure earnings)
      (writeRow s st.rows.length price (slot pos) sig action (some exposure)) := by
  have hset : s.portfolio.set st.rows.length (slot pos) = (pf ++ [pos]).map slot ++ List.replicate m zero := by
    have := set_mid (pf.map slot) (zero : Slot α) (List.replicate m zero) (slot pos)
    rw [List.length_map, hpf] at this
    rw [hs, List.replicate_succ, this]
    simp
  have hl : (Sim.record st pf pos sig action price exposure earnings).rows.length = st.rows.length + 1 := by
    simp [Sim.record]
  have hcell : cell s st.rows.length (·.earnings) = some earnings := by
    unfold cell
    rw [hd, List.getElem?_append_right (by simp)]
    simp [hear]
  refine ⟨hpar, hclose, ?_, ?_, ?_, ?_⟩
  · simp [Sim.record, hpf]
  · rw [hl]; omega
  · rw [hl, show n - (st.rows.length + 1) = m by omega]
    exact hset
  · rw [hl, show n - (st.rows.length + 1) = m by omega]
    simp only [writeRow, hcell, hset, portfolioValue_slots, hd]
    have := set_mid (st.rows.map cells) row (List.replicate m empty) ⟨some sig, some action, some price, some exposure,
      some (Sim.portfolioValue price (pf ++ [pos])), some earnings,
      addC (some (Sim.portfolioValue price (pf ++ [pos]))) (some earnings)⟩
    rw [List.length_map] at this
    rw [this]
    simp [Sim.record, cells, addC]

/-- The next round. -/
theorem follows_round (P : Sim.Params α) (close : List α) (n : ℕ) (st : Sim.State α) (s : Simulator α)
    (h : Follows P close n st s) (price : α) (hn : st.rows.length < n) (hp : close[st.rows.length]? = some price) (sig : Signal) :
    ∃ s', runSimulationRound s st.rows.length sig = .ok s' ∧ Follows P close n (Sim.round P st price sig) s' := by
  obtain ⟨m, hm⟩ : ∃ m, n - st.rows.length = m + 1 := ⟨n - st.rows.length - 1, by omega⟩
  unfold runSimulationRound Sim.round
  rw [h.close, hp]
  simp only
  by_cases h0 : st.rows.length = 0
  · have hr : st.rows = [] := List.length_eq_zero_iff.1 h0
    have hpf : st.portfolio = [] := List.length_eq_zero_iff.1 (by rw [h.lengths]; exact h0)
    have hd := h.data
    have hpo := h.portfolio
    rw [hr] at hd hm
    rw [hr, hpf] at hpo
    simp only [List.map_nil, List.nil_append, List.length_nil] at hd hpo
    simp only [List.length_nil] at hm
    rw [hm] at hd hpo
    rw [if_pos h0]
    refine ⟨_, rfl, ?_⟩
    rw [hr]
    refine ⟨h.params, rfl, rfl, by simp; omega, ?_, ?_⟩
    · simp only [List.getLast?_nil, hpo, List.replicate_succ, List.set_cons_zero]
      simp [slot_noPos, show n - 1 = m by omega]
    · simp only [List.getLast?_nil, hd, List.replicate_succ, List.set_cons_zero]
      simp [cells, show n - 1 = m by omega]
  · obtain ⟨prev, hprev⟩ : ∃ prev, st.rows.getLast? = some prev := by
      cases hl : st.rows.getLast? with
      | none => rw [List.getLast?_eq_none_iff] at hl; simp [hl] at h0
      | some a => exact ⟨a, rfl⟩
    rw [if_neg h0, hprev]
    refine ⟨_, rfl, ?_⟩
    have hpo := h.portfolio
    have hd := h.data
    rw [hm] at hpo hd
    have hprevcell : ∀ f : Cells α → Option α, cell s (st.rows.length - 1) f = f (cells prev) := by
      intro f
      unfold cell
      rw [hd, List.getElem?_append_left (by simp; omega), List.getElem?_map, ← List.getLast?_eq_getElem?, hprev]
      rfl
    set c := Sim.closeOpenPositions P price st.portfolio with hc
    set row : Cells α := ⟨none, none, none, some (Num.sub prev.exposure c.closedExposure), none,
      some (Num.add prev.earnings c.earnings), none⟩ with hrow
    have hls := sum_slots (longMask price) (Sim.longMask price) (longMask_slot price) rfl st.portfolio (m + 1)
    have hss := sum_slots (shortMask P.factor price) (Sim.shortMask P.factor price) (shortMask_slot P.factor price) rfl st.portfolio (m + 1)
    have hlc := count_slots (longMask price) (Sim.longMask price) (longMask_slot price) rfl
      (by rintro ⟨a, b, e⟩ h; simp [longMask] at h; simp [h]) st.portfolio (m + 1)
    have hsc := count_slots (shortMask P.factor price) (Sim.shortMask P.factor price) (shortMask_slot P.factor price) rfl
      (by rintro ⟨a, b, e⟩ h; simp [shortMask] at h; simp [h]) st.portfolio (m + 1)
    have hclosed : (closeOpenPositions s st.rows.length price).portfolio =
        c.portfolio.map slot ++ List.replicate (m + 1) zero := by
      simp only [closeOpenPositions, h.params, hpo]
      rw [setClosed_slots _ _ (longMask_slot price) rfl, setClosed_slots _ _ (shortMask_slot P.factor price) rfl]
      rfl
    have hd' := hd
    rw [List.replicate_succ] at hd'
    have hdata : (closeOpenPositions s st.rows.length price).data = st.rows.map cells ++ row :: List.replicate m empty := by
      simp only [closeOpenPositions, h.params, hprevcell, hpo, hls, hss, hlc, hsc, hd']
      have h1 := modify_mid (st.rows.map cells) (empty : Cells α) (List.replicate m empty)
      simp only [List.length_map] at h1
      rw [h1]
      have h2 := fun e : Cells α => modify_mid (st.rows.map cells) e (List.replicate m empty)
      simp only [List.length_map] at h2
      rw [h2]
      rfl
    have hcp : c.portfolio.length = st.rows.length := by
      rw [← h.lengths, hc]; simp [Sim.closeOpenPositions, Sim.markClosed]
    have hexp : cell (closeOpenPositions s st.rows.length price) st.rows.length (·.exposure) =
        some (Num.sub prev.exposure c.closedExposure) := by
      unfold cell
      rw [hdata, List.getElem?_append_right (by simp)]
      simp [hrow]
    have hw := fun (exposure : α) (pos : Sim.Pos α) (sg : Signal) (action : Sim.Side) =>
      follows_write P close n st (closeOpenPositions s st.rows.length price) h.params h.close c.portfolio hcp m hm price
        exposure (Num.add prev.earnings c.earnings) hclosed row hdata rfl pos sg action
    have hpar : (closeOpenPositions s st.rows.length price).params = P := h.params
    unfold processSignal
    simp only [hexp, hpar]
    cases sig with
    | hold => exact hw _ Sim.noPos .hold .none
    | buy =>
      simp only [Sim.processSignal, limitHit_some]
      split
      · exact hw _ Sim.noPos .buy .none
      · exact hw _ ⟨.long, .open, price⟩ .buy .long
    | sell =>
      simp only [Sim.processSignal, limitHit_some]
      split
      · exact hw _ Sim.noPos .sell .none
      · exact hw _ ⟨.short, .open, Num.mul P.factor price⟩ .sell .short

end TTI.SimClass
