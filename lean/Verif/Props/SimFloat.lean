import Verif.Props.Sim2

set_option autoImplicit false

/-!
# The same for float inputs

The simulator runs on floats, which may be NaN or infinite.  With finite prices, a finite `short_exposure_factor >= 1`
and any accepted `max_exposure`, the float run is the exact run, so C01-C04, C06, C14 hold of it.
-/

namespace TTI.Props

open Sim

/-- The limit as the exact run sees it: NaN and infinity are no limit. -/
def exactLimit : Option Val → Option ℚ
  | some (.fin m) => some m
  | _ => none

theorem transport_fin (M : Option Val) (hM : M ≠ some .ninf) (f : ℚ) (hf : 1 ≤ f) :
    Transport Val.fin ⟨exactLimit M, f⟩ ⟨M, .fin f⟩ :=
  { add := fun x y => rfl
    sub := fun x y => by
      simp only [num_sub, sub_eq_add_neg]; rfl
    lt := fun x y => rfl
    zero := by simp [Num.ofInt]
    mulF := fun x => rfl
    divF := fun x => by
      have : f ≠ 0 := by linarith
      show Val.fin (x / f) = Val.div (.fin x) (.fin f)
      simp [Val.div, this]
    mulL := fun n x => rfl
    mulR := fun n x => rfl
    limit := by
      intro x y
      rcases M with _ | (_ | _ | _ | m)
      · rfl
      · rfl
      · rfl
      · exact absurd rfl hM
      · rfl }

/-- The float run on finite prices is the exact run. `ninf` is excluded because it is rejected as an argument. -/
theorem C16_float_run_is_exact (M : Option Val) (hM : M ≠ some .ninf) (f : ℚ) (hf : 1 ≤ f) (ds : List (Day ℚ)) :
    (run ⟨M, .fin f⟩ (ds.map fun d => (Val.fin d.1, d.2))).rows =
      (run ⟨exactLimit M, f⟩ ds).rows.map fun r =>
        ⟨r.signal, r.action, .fin r.stock, .fin r.exposure, .fin r.portfolio, .fin r.earnings, .fin r.balance⟩ := by
  rw [(transport_fin M hM f hf).run]; rfl

example : (some (Val.fin 40) : Option Val) ≠ some .ninf ∧ (some Val.nan : Option Val) ≠ some .ninf := by decide

/-- C02 for floats: finite non-negative prices and a finite positive limit give a finite exposure within the limit on
every day. -/
theorem C02_exposure_within_limit_float (m f : ℚ) (hm : 0 < m) (hf : 1 ≤ f) (ds : List (Day Val))
    (hp : ∀ d ∈ ds, ∃ q : ℚ, 0 ≤ q ∧ d.1 = .fin q) (i : ℕ) (x : Row Val)
    (hx : (run ⟨some (.fin m), .fin f⟩ ds).rows[i]? = some x) : ∃ e : ℚ, x.exposure = .fin e ∧ 0 ≤ e ∧ e ≤ m := by
  obtain ⟨qs, rfl, hq⟩ : ∃ qs : List (Day ℚ), ds = qs.map (fun d => (Val.fin d.1, d.2)) ∧ ∀ d ∈ qs, 0 ≤ d.1 := by
    clear hx
    induction ds with
    | nil => exact ⟨[], rfl, by simp⟩
    | cons d ds ih =>
      obtain ⟨qs, h, hq⟩ := ih fun d' hd' => hp d' (List.mem_cons_of_mem _ hd')
      obtain ⟨q, h0, h1⟩ := hp d List.mem_cons_self
      refine ⟨(q, d.2) :: qs, by simp [← h, ← h1], ?_⟩
      intro d' hd'
      rcases List.mem_cons.1 hd' with rfl | h'
      · exact h0
      · exact hq _ h'
  rw [C16_float_run_is_exact _ (by simp) f hf, List.getElem?_map, Option.map_eq_some_iff] at hx
  obtain ⟨y, hy, rfl⟩ := hx
  exact ⟨y.exposure, rfl, C02_exposure_within_limit m f hm hf qs hq i y hy⟩

example : ∀ d ∈ [((.fin 3 : Val), Signal.buy), (.fin 2, .sell)], ∃ q : ℚ, 0 ≤ q ∧ d.1 = .fin q := by
  intro d hd
  simp only [List.mem_cons, List.not_mem_nil, or_false] at hd
  rcases hd with rfl | rfl
  · exact ⟨3, by norm_num, rfl⟩
  · exact ⟨2, by norm_num, rfl⟩

/-- A price that is NaN after the first buy makes the exposure NaN for good and so silently removes the limit: the finite
prices of the float statements are needed. -/
theorem C02_nan_price_removes_limit :
    ∃ (ds : List (Day Val)), ∃ x ∈ (run ⟨some (.fin 5), .fin 1⟩ ds).rows[3]?,
      x.action = .long ∧ x.stock = .fin 100 ∧ x.exposure = .nan :=
  ⟨[(.fin 1, .hold), (.nan, .buy), (.fin 2, .hold), (.fin 100, .buy)], by decide +kernel⟩

end TTI.Props
