import Verif.Lemmas.Col
import Verif.Props.Range

set_option autoImplicit false

/-!
# Concrete bars for the examples beside the formula properties
-/

namespace TTI.Props

open Spec

/-- The numbers of day `k` (from 0) of the sample. -/
def sampleOpen (k : ℕ) : ℚ := 50 + ((5 * k) % 9 : ℕ)
def sampleHigh (k : ℕ) : ℚ := 61 + (k % 3 : ℕ)
def sampleLow (k : ℕ) : ℚ := 49 - ((k % 4 : ℕ) : ℚ) / 4
def sampleClose (k : ℕ) : ℚ := 50 + ((7 * k) % 11 : ℕ)
def sampleVolume (k : ℕ) : ℚ := 1000 + 100 * ((13 * k) % 7 : ℕ)

/-- `n` bars, latest first, with labels in mixed case. -/
def sample (n : ℕ) : RawFrame :=
  let data (g : ℕ → ℚ) := (List.range n).map fun j => Val.fin (g (n - 1 - j))
  ⟨true, (List.range n).map fun j => ((n - 1 - j : ℕ) : ℤ),
    [⟨.str "Open", true, data sampleOpen⟩, ⟨.str "HIGH", true, data sampleHigh⟩, ⟨.str "low", true, data sampleLow⟩,
      ⟨.str "Close", true, data sampleClose⟩, ⟨.str "volume", true, data sampleVolume⟩]⟩

theorem sample_wf (n : ℕ) : WF (sample n) := by
  intro c hc
  simp only [sample, List.mem_cons, List.not_mem_nil, or_false] at hc
  rcases hc with rfl | rfl | rfl | rfl | rfl <;> simp [sample]

theorem sample_rows (n : ℕ) (names : List String) (hn : ∀ m ∈ names, m ∈ ["open", "high", "low", "close", "volume"]) :
    (sample n).EachRow names (fun x => Bar x ∧ 0 < x "low" ∧ x "low" < x "high" ∧ 0 < x "volume") := by
  intro j hj
  have hj' : j < n := by simpa [sample] using hj
  let k := n - 1 - j
  refine ⟨fun m => if m = "open" then sampleOpen k else if m = "high" then sampleHigh k else if m = "low" then sampleLow k
    else if m = "close" then sampleClose k else sampleVolume k, ?_, ?_⟩
  · intro m hm
    have := hn m hm
    simp only [List.mem_cons, List.not_mem_nil, or_false] at this
    have e1 : "Open".toLower = "open" := by decide +kernel
    have e2 : "HIGH".toLower = "high" := by decide +kernel
    have e3 : "low".toLower = "low" := by decide +kernel
    have e4 : "Close".toLower = "close" := by decide +kernel
    have e5 : "volume".toLower = "volume" := by decide +kernel
    rcases this with rfl | rfl | rfl | rfl | rfl <;>
      simp [RawFrame.cell, sample, Label.lower, e1, e2, e3, e4, e5, List.find?, hj', k]
  · have a1 : ((5 * k) % 9 : ℕ) ≤ (8 : ℚ) := by exact_mod_cast (by omega : (5 * k) % 9 ≤ 8)
    have a2 : ((7 * k) % 11 : ℕ) ≤ (10 : ℚ) := by exact_mod_cast (by omega : (7 * k) % 11 ≤ 10)
    have a3 : ((k % 4 : ℕ) : ℚ) ≤ 3 := by exact_mod_cast (by omega : k % 4 ≤ 3)
    have b1 : (0 : ℚ) ≤ ((5 * k) % 9 : ℕ) := Nat.cast_nonneg _
    have b2 : (0 : ℚ) ≤ ((7 * k) % 11 : ℕ) := Nat.cast_nonneg _
    have b3 : (0 : ℚ) ≤ (k % 4 : ℕ) := Nat.cast_nonneg _
    have b4 : (0 : ℚ) ≤ (k % 3 : ℕ) := Nat.cast_nonneg _
    have b5 : (0 : ℚ) ≤ ((13 * k) % 7 : ℕ) := Nat.cast_nonneg _
    simp only [Bar, if_true, String.reduceEq, if_false, sampleOpen, sampleHigh, sampleLow, sampleClose, sampleVolume]
    refine ⟨⟨?_, ?_, ?_, ?_, ?_⟩, ?_, ?_, ?_⟩ <;> linarith

/-- The objects the examples speak of exist: `h` computes the indicator on the sample. -/
theorem sample_built {E : Env} {c : Call} {ind : Ind} (n : ℕ) (name : String) (i : ℕ) (v : Val) {P : (String → ℚ) → Prop}
    (h : ((construct E c (.frame (sample n)) (.bool true)).2.map fun o => (o.ind, o.getTiData.day name i)) = .ok (ind, v))
    (hn : ∀ m ∈ ind.required, m ∈ ["open", "high", "low", "close", "volume"])
    (hP : ∀ x : String → ℚ, Bar x ∧ 0 < x "low" ∧ x "low" < x "high" ∧ 0 < x "volume" → P x) :
    ∃ o, BuiltOn E c (sample n) true o P ∧ o.ind = ind ∧ o.getTiData.day name i = v := by
  cases hc : (construct E c (.frame (sample n)) (.bool true)).2 with
  | error e => rw [hc] at h; simp [Except.map] at h
  | ok o =>
    rw [hc] at h
    simp only [Except.map, Except.ok.injEq, Prod.mk.injEq] at h
    obtain ⟨h1, h2⟩ := h
    refine ⟨o, ⟨sample_wf n, hc, ?_⟩, h1, h2⟩
    rw [h1]
    intro j hj
    obtain ⟨x, hx, hb⟩ := sample_rows n _ hn j hj
    exact ⟨x, hx, hP x hb⟩

theorem sample_any {E : Env} {c : Call} {ind : Ind} (n : ℕ) (name : String) (i : ℕ) (v : Val)
    (h : ((construct E c (.frame (sample n)) (.bool true)).2.map fun o => (o.ind, o.getTiData.day name i)) = .ok (ind, v))
    (hn : ∀ m ∈ ind.required, m ∈ ["open", "high", "low", "close", "volume"]) :
    ∃ o, BuiltOn E c (sample n) true o AnyPrices ∧ o.ind = ind ∧ o.getTiData.day name i = v :=
  sample_built n name i v h hn fun _ _ => trivial

end TTI.Props
