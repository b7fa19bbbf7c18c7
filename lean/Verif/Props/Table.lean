import Verif.Props.Memory
import Verif.Spec.Formula

set_option autoImplicit false

/-!
# Tables of any length, used as witnesses

`table n x` has the dates `0, ..., n - 1` and the numbers `x name j`.
-/

namespace TTI.Props

open Spec

/-- The columns of a table. -/
def ohlcv : List String := ["open", "high", "low", "close", "volume"]

/-- `n` days with the numbers `x name j`. -/
def table (n : ℕ) (x : String → ℕ → ℚ) : RawFrame :=
  ⟨true, (List.range n).map fun j : ℕ => (j : ℤ), ohlcv.map fun s => ⟨.str s, true, (List.range n).map fun j => .fin (x s j)⟩⟩

theorem table_length (n : ℕ) (x : String → ℕ → ℚ) : (table n x).idx.length = n := by simp [table]

theorem table_wf (n : ℕ) (x : String → ℕ → ℚ) : WF (table n x) := by
  intro c hc
  simp only [table, List.mem_map] at hc
  obtain ⟨s, -, rfl⟩ := hc
  simp [table]

theorem table_find (n : ℕ) (x : String → ℕ → ℚ) (s : String) (hs : s ∈ ohlcv) :
    (table n x).cols.find? (fun c => c.label.lower == some s) = some ⟨.str s, true, (List.range n).map fun j => .fin (x s j)⟩ := by
  have e1 : "open".toLower = "open" := by decide +kernel
  have e2 : "high".toLower = "high" := by decide +kernel
  have e3 : "low".toLower = "low" := by decide +kernel
  have e4 : "close".toLower = "close" := by decide +kernel
  have e5 : "volume".toLower = "volume" := by decide +kernel
  simp only [ohlcv, List.mem_cons, List.not_mem_nil, or_false] at hs
  rcases hs with rfl | rfl | rfl | rfl | rfl <;> simp [table, ohlcv, Label.lower, List.find?, e1, e2, e3, e4, e5]

theorem table_cell (n : ℕ) (x : String → ℕ → ℚ) (s : String) (hs : s ∈ ohlcv) (j : ℕ) (hj : j < n) :
    (table n x).cell s j = .fin (x s j) := by
  unfold RawFrame.cell
  rw [table_find n x s hs]
  simp [hj]

theorem table_day (n : ℕ) (x : String → ℕ → ℚ) (s : String) (hs : s ∈ ohlcv) (j : ℕ) (hj : j < n) :
    (table n x).day s j = .fin (x s j) := by
  unfold RawFrame.day RawFrame.inDateOrder
  rw [table_find n x s hs]
  simp only
  rw [sortRows_of_sorted]
  · rw [List.map_snd_zip (by simp [table])]
    simp [hj]
  · have h1 : ((List.range n).map fun j : ℕ => (j : ℤ)).Pairwise (· ≤ ·) := by
      rw [List.pairwise_map]
      exact (List.pairwise_lt_range (n := n)).imp fun h => by exact_mod_cast le_of_lt h
    have h2 : (((table n x).idx.zip ((List.range n).map fun j => Val.fin (x s j))).map (·.1)).Pairwise (· ≤ ·) := by
      rw [List.map_fst_zip (by simp [table])]
      exact h1
    rwa [List.pairwise_map] at h2

theorem table_price (n : ℕ) (x : String → ℕ → ℚ) (s : String) (hs : s ∈ ohlcv) (j : ℕ) (hj : j < n) :
    price (table n x) s j = x s j := by
  unfold price
  rw [table_day n x s hs j hj]
  rfl

/-- A table with rows passes the validation. -/
theorem table_valid (n : ℕ) (x : String → ℕ → ℚ) (h0 : 1 ≤ n) (req : List String) (hr : ∀ r ∈ req, r ∈ ohlcv) :
    (table n x).Valid req := by
  have e1 : "open".toLower = "open" := by decide +kernel
  have e2 : "high".toLower = "high" := by decide +kernel
  have e3 : "low".toLower = "low" := by decide +kernel
  have e4 : "close".toLower = "close" := by decide +kernel
  have e5 : "volume".toLower = "volume" := by decide +kernel
  have hn : ∀ s ∈ ohlcv, ∀ d, (⟨.str s, true, d⟩ : RawCol).name = s := by
    intro s hs d
    simp only [ohlcv, List.mem_cons, List.not_mem_nil, or_false] at hs
    rcases hs with rfl | rfl | rfl | rfl | rfl <;> assumption
  refine ⟨rfl, by simp [table, ohlcv]; omega, by simp [table, ohlcv], by simp [table], ?_, ?_⟩
  · intro r h
    have := hr r h
    simp only [ohlcv, List.mem_cons, List.not_mem_nil, or_false] at this
    rcases this with rfl | rfl | rfl | rfl | rfl <;>
      simp [table, ohlcv, hn "open" (by simp [ohlcv]), hn "high" (by simp [ohlcv]),
        hn "low" (by simp [ohlcv]), hn "close" (by simp [ohlcv]), hn "volume" (by simp [ohlcv])]
  · apply List.Nodup.filter
    simp [table, ohlcv, hn "open" (by simp [ohlcv]), hn "high" (by simp [ohlcv]),
        hn "low" (by simp [ohlcv]), hn "close" (by simp [ohlcv]), hn "volume" (by simp [ohlcv])]

/-- The indicators can be built on a table that is long enough. -/
theorem table_built (E : Env) (c : Call) (ind : Ind) (hc : c.check = .ok ind) (n : ℕ) (x : String → ℕ → ℚ) (P : (String → ℚ) → Prop)
    (h0 : 1 ≤ n) (hm : minRows ind ≤ n) (hr : ∀ r ∈ ind.required, r ∈ ohlcv) (hP : ∀ j < n, P fun s => x s j) :
    ∃ o, BuiltOn E c (table n x) true o P ∧ o.ind = ind := by
  obtain ⟨o, h1, h2⟩ := (C32_not_enough_iff E c ind (table n x) true (table_wf n x) hc
    ⟨_, validate_ok _ _ _ (table_valid n x h0 _ hr)⟩).2 (by rw [table_length]; exact hm)
  refine ⟨o, ⟨table_wf n x, h1, ?_⟩, h2⟩
  intro j hj
  rw [table_length] at hj
  exact ⟨fun s => x s j, fun s hs => table_cell n x s (hr s (h2 ▸ hs)) j hj, hP j hj⟩

/-- Tables with the same numbers from day `d` on agree since `d`. -/
theorem table_since (n d : ℕ) (x y : String → ℕ → ℚ) (h : ∀ s j, d ≤ j → x s j = y s j) :
    (table n x).since d = (table n y).since d := by
  unfold RawFrame.since
  congr 1
  simp only [table, List.map_map]
  refine List.map_congr_left fun s _ => ?_
  simp only [Function.comp, keepSince]
  congr 1
  have key : ∀ z : String → ℕ → ℚ, (((List.range n).map fun j : ℕ => (j : ℤ)).zip ((List.range n).map fun j => Val.fin (z s j))).filter
      (fun r => decide ((d : ℤ) ≤ r.1)) = ((List.range n).filter fun j => decide (d ≤ j)).map fun j : ℕ => ((j : ℤ), Val.fin (z s j)) := by
    intro z
    rw [List.zip_map', List.filter_map]
    congr 1
    refine List.filter_congr fun j _ => ?_
    simp
  rw [key x, key y]
  simp only [List.map_map]
  refine List.map_congr_left fun j hj => ?_
  rw [List.mem_filter] at hj
  simp only [Function.comp]
  rw [h s j (by simpa using hj.2)]

theorem table_before (n d : ℕ) (x : String → ℕ → ℚ) (hd : d ≤ n) : rowsBefore d (table n x).idx = d := by
  unfold rowsBefore
  simp only [table]
  rw [List.filter_map, List.length_map]
  have : (List.range n).filter ((fun e : ℤ => decide (e < d)) ∘ fun j : ℕ => (j : ℤ)) = (List.range n).filter fun j => decide (j < d) := by
    refine List.filter_congr fun j _ => ?_
    simp
  rw [this]
  have : n = d + (n - d) := by omega
  rw [this, List.range_add, List.filter_append, List.length_append]
  have h1 : (List.range d).filter (fun j => decide (j < d)) = List.range d := by
    rw [List.filter_eq_self]; intro j hj; simpa using hj
  have h2 : ((List.range (n - d)).map fun j => d + j).filter (fun j => decide (j < d)) = [] := by
    rw [List.filter_eq_nil_iff]; intro j hj; simp at hj ⊢; obtain ⟨a, -, rfl⟩ := hj; omega
  rw [h1, h2]
  simp

/-- A table of three days. -/
example : (table 3 fun _ j => j).idx = [0, 1, 2] ∧ close (table 3 fun _ j => j) 2 = 2 := by decide +kernel

end TTI.Props
