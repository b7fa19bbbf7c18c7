import Verif.Spec.Loops

set_option autoImplicit false

/-! Loops that write by label. -/

namespace TTI.Ind.Loops

open Spec (LastSame)

theorem at_val (xs : List Val) (i : ℕ) : at_ xs i = val xs i := rfl

@[simp] theorem blank_length (n : ℕ) : (blank n).length = n := by simp [blank]

theorem val_blank (n i : ℕ) : val (blank n) i = .nan := by
  unfold val blank
  rw [List.getD_eq_getElem?_getD, List.getElem?_replicate]
  split <;> rfl

theorem writeLabel_length (idx : List ℤ) (row : ℕ) (v : Val) (col : List Val) (h : col.length = idx.length) :
    (writeLabel idx row v col).length = idx.length := by
  simp [writeLabel, h]

theorem val_writeLabel (idx : List ℤ) (row : ℕ) (v : Val) (col : List Val) (h : col.length = idx.length) (j : ℕ)
    (hj : j < idx.length) : val (writeLabel idx row v col) j = if idx[row]? = idx[j]? then v else val col j := by
  rw [val_lt _ _ (by rw [writeLabel_length _ _ _ _ h]; exact hj), val_lt _ _ (by omega)]
  simp [writeLabel, hj]

theorem forRange_succ (a b : ℕ) (h : a ≤ b) (body : ℕ → List Val → List Val) (col : List Val) :
    forRange a (b + 1) body col = body b (forRange a b body col) := by
  unfold forRange
  rw [show b + 1 - a = (b - a) + 1 by omega, List.range'_concat, List.foldl_append]
  simp [show a + (b - a) = b by omega]

theorem forRange_le (a b : ℕ) (h : b ≤ a) (body : ℕ → List Val → List Val) (col : List Val) : forRange a b body col = col := by
  unfold forRange
  rw [show b - a = 0 by omega]
  rfl

/-- The values of a recursion from row `s` on. -/
def seq (s : ℕ) (v : Val) (step : ℕ → Val → Val) : ℕ → Val
  | 0 => v
  | k + 1 => step (s + k + 1) (seq s v step k)

/-- What a column is made of: the recursion from row `s` on, missing before. -/
def recur (s : ℕ) (v : Val) (step : ℕ → Val → Val) (i : ℕ) : Val := if i < s then .nan else seq s v step (i - s)

theorem recur_start (s : ℕ) (v : Val) (step : ℕ → Val → Val) : recur s v step s = v := by simp [recur, seq]

theorem recur_succ (s : ℕ) (v : Val) (step : ℕ → Val → Val) (i : ℕ) (h : s ≤ i) :
    recur s v step (i + 1) = step (i + 1) (recur s v step i) := by
  unfold recur
  rw [if_neg (by omega), if_neg (by omega), show i + 1 - s = (i - s) + 1 by omega, seq]
  rw [show s + (i - s) + 1 = i + 1 by omega]

/-- The column after the rows up to `m` are done. -/
def Done (idx : List ℤ) (s : ℕ) (S : ℕ → Val) (m : ℕ) (col : List Val) : Prop :=
  col.length = idx.length ∧ ∀ j < idx.length,
    (∀ k, s ≤ k → k ≤ m → idx[k]? = idx[j]? → (∀ k', k < k' → k' ≤ m → idx[k']? ≠ idx[j]?) → val col j = S k) ∧
    ((∀ k, s ≤ k → k ≤ m → idx[k]? ≠ idx[j]?) → val col j = .nan)

theorem done_start (idx : List ℤ) (s : ℕ) (v : Val) (S : ℕ → Val) (hS : S s = v) :
    Done idx s S s (writeLabel idx s v (blank idx.length)) := by
  refine ⟨writeLabel_length _ _ _ _ (by simp), fun j hj => ⟨?_, ?_⟩⟩
  · intro k h1 h2 hk _
    obtain rfl : k = s := by omega
    rw [val_writeLabel _ _ _ _ (by simp) _ hj, if_pos hk, hS]
  · intro h
    rw [val_writeLabel _ _ _ _ (by simp) _ hj, if_neg (h s (le_refl _) (le_refl _)), val_blank]

theorem done_step (idx : List ℤ) (s : ℕ) (S : ℕ → Val) (m : ℕ) (hsm : s ≤ m) (col : List Val)
    (h : Done idx s S m col) : Done idx s S (m + 1) (writeLabel idx (m + 1) (S (m + 1)) col) := by
  obtain ⟨hl, hd⟩ := h
  refine ⟨writeLabel_length _ _ _ _ hl, fun j hj => ⟨?_, ?_⟩⟩
  · intro k h1 h2 hk hlast
    rw [val_writeLabel _ _ _ _ hl _ hj]
    by_cases hkm : k = m + 1
    · subst hkm
      rw [if_pos hk]
    · rw [if_neg (hlast (m + 1) (by omega) (le_refl _))]
      exact (hd j hj).1 k h1 (by omega) hk fun k' h3 h4 => hlast k' h3 (by omega)
  · intro h
    rw [val_writeLabel _ _ _ _ hl _ hj, if_neg (h (m + 1) (by omega) (le_refl _))]
    exact (hd j hj).2 fun k h1 h2 => h k h1 (by omega)

/-- A loop that writes row after row by label. -/
theorem done_loop (idx : List ℤ) (s : ℕ) (v : Val) (step : ℕ → Val → Val) (body : ℕ → List Val → List Val)
    (hb : ∀ i col, body i col = writeLabel idx i (step i (at_ col (i - 1))) col) (n : ℕ) (hsn : s < n)
    (hn : n ≤ idx.length) :
    Done idx s (recur s v step) (n - 1) (forRange (s + 1) n body (writeLabel idx s v (blank idx.length))) := by
  induction n with
  | zero => omega
  | succ n ih =>
    by_cases h : s = n
    · subst h
      rw [forRange_le _ _ (le_refl _)]
      exact done_start idx s v _ (recur_start s v step)
    · obtain ⟨m, rfl⟩ : ∃ m, n = m + 1 := ⟨n - 1, by omega⟩
      have := ih (by omega) (by omega)
      rw [forRange_succ _ _ (by omega), hb]
      rw [show m + 1 - 1 = m from rfl] at this ⊢
      rw [show m + 1 + 1 - 1 = m + 1 from rfl]
      have hv : at_ (forRange (s + 1) (m + 1) body (writeLabel idx s v (blank idx.length))) m = recur s v step m :=
        (this.2 m (by omega)).1 m (by omega) (le_refl _) rfl fun k' h1 h2 => by omega
      rw [hv, ← recur_succ s v step m (by omega)]
      exact done_step idx s _ m (by omega) _ this

theorem label_loop (idx : List ℤ) (s : ℕ) (v : Val) (step : ℕ → Val → Val) (body : ℕ → List Val → List Val)
    (hb : ∀ i col, body i col = writeLabel idx i (step i (at_ col (i - 1))) col) (hs : s < idx.length)
    (j k : ℕ) (hj : j < idx.length) (hk : LastSame idx j k) :
    val (forRange (s + 1) idx.length body (writeLabel idx s v (blank idx.length))) j = recur s v step k := by
  obtain ⟨hl, hd⟩ := done_loop idx s v step body hb idx.length hs (le_refl _)
  by_cases hsk : s ≤ k
  · exact (hd j hj).1 k hsk (by have := hk.1; omega) hk.2.1 fun k' h1 h2 => hk.2.2 k' h1 (by omega)
  · rw [(hd j hj).2 fun k' h1 h2 => hk.2.2 k' (by omega) (by omega)]
    unfold recur
    rw [if_pos (by omega)]

theorem label_loop_length (idx : List ℤ) (s : ℕ) (v : Val) (step : ℕ → Val → Val) (body : ℕ → List Val → List Val)
    (hb : ∀ i col, body i col = writeLabel idx i (step i (at_ col (i - 1))) col) (hs : s < idx.length) :
    (forRange (s + 1) idx.length body (writeLabel idx s v (blank idx.length))).length = idx.length :=
  (done_loop idx s v step body hb idx.length hs (le_refl _)).1

theorem lastSame_nodup (idx : List ℤ) (h : idx.Nodup) (j : ℕ) (hj : j < idx.length) : LastSame idx j j := by
  refine ⟨hj, rfl, fun k' h1 h2 he => ?_⟩
  rw [List.getElem?_eq_getElem h2, List.getElem?_eq_getElem hj, Option.some.injEq] at he
  have := (List.Nodup.getElem_inj_iff h).1 he
  omega

/-- The same with writes to single rows after the first one. -/
theorem row_loop (idx : List ℤ) (hnd : idx.Nodup) (s : ℕ) (v : Val) (step : ℕ → Val → Val) (body : ℕ → List Val → List Val)
    (hb : ∀ i col, body i col = writeRow i (step i (at_ col (i - 1))) col) (hs : s < idx.length) :
    (forRange (s + 1) idx.length body (writeLabel idx s v (blank idx.length))).length = idx.length ∧
    ∀ j < idx.length, val (forRange (s + 1) idx.length body (writeLabel idx s v (blank idx.length))) j = recur s v step j := by
  have key : ∀ n, s < n → n ≤ idx.length →
      (forRange (s + 1) n body (writeLabel idx s v (blank idx.length))).length = idx.length ∧
      ∀ j < idx.length, val (forRange (s + 1) n body (writeLabel idx s v (blank idx.length))) j =
        if j < n then recur s v step j else .nan := by
    intro n
    induction n with
    | zero => intro h; omega
    | succ n ih =>
      intro h1 h2
      by_cases h : s = n
      · subst h
        rw [forRange_le _ _ (le_refl _)]
        refine ⟨writeLabel_length _ _ _ _ (by simp), fun j hj => ?_⟩
        rw [val_writeLabel _ _ _ _ (by simp) _ hj, val_blank]
        by_cases hjs : j = s
        · subst hjs
          rw [if_pos rfl, if_pos (by omega), recur_start]
        · rw [if_neg]
          · unfold recur
            split
            · rw [if_pos (by omega)]
            · rfl
          · intro he
            rw [List.getElem?_eq_getElem hs, List.getElem?_eq_getElem hj, Option.some.injEq] at he
            exact hjs ((List.Nodup.getElem_inj_iff hnd).1 he).symm
      · obtain ⟨m, rfl⟩ : ∃ m, n = m + 1 := ⟨n - 1, by omega⟩
        obtain ⟨hl, hv⟩ := ih (by omega) (by omega)
        rw [forRange_succ _ _ (by omega), hb]
        refine ⟨by simp [writeRow, hl], fun j hj => ?_⟩
        have hm := hv m (by omega)
        rw [if_pos (by omega)] at hm
        have hset : val (writeRow (m + 1) (step (m + 1) (at_ (forRange (s + 1) (m + 1) body
            (writeLabel idx s v (blank idx.length))) (m + 1 - 1))) (forRange (s + 1) (m + 1) body
            (writeLabel idx s v (blank idx.length)))) j =
            if m + 1 = j then step (m + 1) (recur s v step m) else val (forRange (s + 1) (m + 1) body
            (writeLabel idx s v (blank idx.length))) j := by
          rw [show m + 1 - 1 = m from rfl, at_val, hm]
          unfold writeRow val
          rw [List.getD_eq_getElem?_getD, List.getD_eq_getElem?_getD, List.getElem?_set]
          split
          · rename_i he
            subst he
            rw [if_pos (by rw [hl]; exact hj)]
            rfl
          · rfl
        rw [hset]
        by_cases hjm : m + 1 = j
        · subst hjm
          rw [if_pos rfl, if_pos (by omega), recur_succ _ _ _ _ (by omega)]
        · rw [if_neg hjm, hv j hj]
          by_cases hlt : j < m + 1
          · rw [if_pos hlt, if_pos (by omega)]
          · rw [if_neg hlt, if_neg (by omega)]
  obtain ⟨h1, h2⟩ := key idx.length hs (le_refl _)
  refine ⟨h1, fun j hj => ?_⟩
  rw [h2 j hj, if_pos hj]

/-- A loop that fills a new column without looking back. -/
theorem fill_loop (a n : ℕ) (f : ℕ → Val) (body : ℕ → List Val → List Val) (hb : ∀ i col, body i col = writeRow i (f i) col)  :
    (forRange a n body (blank n)).length = n ∧
    ∀ j < n, val (forRange a n body (blank n)) j = if j < a then .nan else f j := by
  have key : ∀ m ≤ n, (forRange a m body (blank n)).length = n ∧
      ∀ j < n, val (forRange a m body (blank n)) j = if a ≤ j ∧ j < m then f j else .nan := by
    intro m
    induction m with
    | zero =>
      intro _
      rw [forRange_le _ _ (by omega)]
      exact ⟨by simp, fun j _ => by rw [val_blank, if_neg (by omega)]⟩
    | succ m ih =>
      intro hm
      obtain ⟨hl, hv⟩ := ih (by omega)
      by_cases h : a ≤ m
      · rw [forRange_succ _ _ h, hb]
        refine ⟨by simp [writeRow, hl], fun j hj => ?_⟩
        have hset : val (writeRow m (f m) (forRange a m body (blank n))) j =
            if m = j then f m else val (forRange a m body (blank n)) j := by
          unfold writeRow val
          rw [List.getD_eq_getElem?_getD, List.getD_eq_getElem?_getD, List.getElem?_set]
          split
          · rename_i he
            subst he
            rw [if_pos (by rw [hl]; exact hj)]
            rfl
          · rfl
        rw [hset, hv j hj]
        by_cases hmj : m = j
        · subst hmj
          rw [if_pos rfl, if_pos ⟨h, by omega⟩]
        · rw [if_neg hmj]
          congr 1
          rw [eq_iff_iff]
          constructor <;> rintro ⟨h1, h2⟩ <;> exact ⟨h1, by omega⟩
      · rw [forRange_le _ _ (by omega)]
        rw [forRange_le _ _ (by omega)] at hl hv
        refine ⟨hl, fun j hj => ?_⟩
        rw [hv j hj, if_neg (by omega), if_neg (by omega)]
  obtain ⟨h1, h2⟩ := key n (le_refl _)
  refine ⟨h1, fun j hj => ?_⟩
  rw [h2 j hj]
  by_cases h : j < a
  · rw [if_neg (by omega), if_pos h]
  · rw [if_pos ⟨by omega, hj⟩, if_neg h]

/-- A loop that writes by label without looking back, on distinct dates. -/
theorem label_fill (idx : List ℤ) (hnd : idx.Nodup) (f : ℕ → Val) (body : ℕ → List Val → List Val)
    (hb : ∀ i col, body i col = writeLabel idx i (f i) col) (a : ℕ) :
    (forRange a idx.length body (blank idx.length)).length = idx.length ∧
    ∀ j < idx.length, val (forRange a idx.length body (blank idx.length)) j = if j < a then .nan else f j := by
  have hw : ∀ i, i < idx.length → ∀ col : List Val, col.length = idx.length → writeLabel idx i (f i) col = writeRow i (f i) col := by
    intro i hi col hl
    apply val_ext
    · rw [writeLabel_length _ _ _ _ hl, writeRow, List.length_set, hl]
    · intro j hj
      rw [writeLabel_length _ _ _ _ hl] at hj
      rw [val_writeLabel _ _ _ _ hl _ hj]
      unfold writeRow val
      rw [List.getD_eq_getElem?_getD (l := col.set _ _), List.getElem?_set]
      by_cases hij : i = j
      · subst hij
        rw [if_pos rfl, if_pos rfl, if_pos (by omega)]
        rfl
      · rw [if_neg, if_neg hij, List.getD_eq_getElem?_getD]
        intro he
        rw [List.getElem?_eq_getElem hi, List.getElem?_eq_getElem hj, Option.some.injEq] at he
        exact hij ((List.Nodup.getElem_inj_iff hnd).1 he)
  have key : ∀ m ≤ idx.length, forRange a m body (blank idx.length) =
      forRange a m (fun i col => writeRow i (f i) col) (blank idx.length) ∧
      (forRange a m body (blank idx.length)).length = idx.length := by
    intro m
    induction m with
    | zero => intro _; rw [forRange_le _ _ (by omega), forRange_le _ _ (by omega)]; simp
    | succ m ih =>
      intro hm
      obtain ⟨h1, h2⟩ := ih (by omega)
      by_cases h : a ≤ m
      · rw [forRange_succ _ _ h, forRange_succ _ _ h, hb, hw m (by omega) _ h2, h1]
        refine ⟨rfl, ?_⟩
        rw [← h1]
        simp [writeRow, h2]
      · rw [forRange_le _ _ (by omega), forRange_le _ _ (by omega)]; simp
  rw [(key _ (le_refl _)).1]
  exact fill_loop a idx.length f _ fun _ _ => rfl

/-! ## Aligned writes -/

theorem lookup_nodup (idx : List ℤ) (ser : List Val) (hnd : idx.Nodup) (hl : ser.length = idx.length) (j : ℕ)
    (hj : j < idx.length) : lookup idx ser idx[j] = val ser j := by
  unfold lookup
  induction idx generalizing ser j with
  | nil => simp at hj
  | cons d idx ih =>
    cases ser with
    | nil => simp at hl
    | cons x ser =>
      rw [List.nodup_cons] at hnd
      cases j with
      | zero => simp [val]
      | succ j =>
        have hne : ¬ d = idx[j]'(by simpa using hj) := by
          intro h
          exact hnd.1 (h ▸ List.getElem_mem _)
        simp only [List.zip_cons_cons, List.getElem_cons_succ, List.find?_cons, beq_iff_eq, hne]
        rw [show ((d == idx[j]'(by simpa using hj)) = false) from by simpa using hne]
        simp only
        rw [ih ser hnd.2 (by simpa using hl) j (by simpa using hj)]
        rfl

theorem writeAligned_length (idx : List ℤ) (rows : List Bool) (ser col : List Val) (hr : rows.length = idx.length)
    (hc : col.length = idx.length) : (writeAligned idx rows ser col).length = idx.length := by
  simp [writeAligned, hr, hc]

theorem val_writeAligned (idx : List ℤ) (hnd : idx.Nodup) (rows : List Bool) (ser col : List Val)
    (hr : rows.length = idx.length) (hs : ser.length = idx.length) (hc : col.length = idx.length) (j : ℕ)
    (hj : j < idx.length) :
    val (writeAligned idx rows ser col) j = if rows[j]'(by omega) then val ser j else val col j := by
  rw [val_lt _ _ (by rw [writeAligned_length _ _ _ _ hr hc]; exact hj), val_lt col _ (by omega)]
  simp only [writeAligned, List.getElem_zipWith, List.getElem_zip]
  rw [lookup_nodup idx ser hnd hs j hj]

theorem val_writeMask (rows : List Bool) (v : Val) (col : List Val) (hc : col.length = rows.length) (j : ℕ)
    (hj : j < rows.length) : val (writeMask rows v col) j = if rows[j] then v else val col j := by
  rw [val_lt _ _ (by simpa [writeMask, hc] using hj), val_lt col _ (by omega)]
  simp [writeMask]

theorem writeMask_length (rows : List Bool) (v : Val) (col : List Val) (hc : col.length = rows.length) :
    (writeMask rows v col).length = rows.length := by
  simp [writeMask, hc]

end TTI.Ind.Loops
