import Verif.Lemmas.MirrorSig

set_option autoImplicit false

/-!
# The Parabolic SAR on the mirrored market
-/

namespace TTI

open TTI.Spec TTI.Props

theorem getD_ngl (xs : List Val) (i : ℕ) : (ngl xs).getD i .nan = Val.neg (xs.getD i .nan) := by
  simp only [ngl, List.getD_eq_getElem?_getD, List.getElem?_map]
  cases xs[i]? <;> rfl

namespace Ind.ParabolicSAR

/-- A row of the working frame on mirrored prices. -/
def rowTurn (r : Row) : Row := { r with ep := Val.neg r.ep, sar := Val.neg r.sar, long := !r.long }

theorem sliceMax_ngl (xs : List Val) (a b : ℕ) : sliceMax (ngl xs) a b = Val.neg (sliceMin xs a b) := by
  unfold sliceMax sliceMin
  rw [ngl_take, ngl_drop]
  rcases (xs.take b).drop a with _ | ⟨x, l⟩
  · rfl
  · simp only [ngl, List.map_cons]
    induction l generalizing x with
    | nil => rfl
    | cons y l ih => simp only [List.map_cons, List.foldl_cons, ng_maxNan]; exact ih _

theorem sliceMin_ngl (xs : List Val) (a b : ℕ) : sliceMin (ngl xs) a b = Val.neg (sliceMax xs a b) := by
  rw [← ngl_ngl xs, sliceMax_ngl (ngl xs), ngl_ngl, ng_ng]

theorem sarOf_ngl (h l : List Val) (i : ℕ) (r : Row) : sarOf (ngl l) (ngl h) i (rowTurn r) = Val.neg (sarOf h l i r) := by
  unfold sarOf rowTurn
  simp only [ng_sub, ng_mul_right, ng_add, sliceMax_ngl, sliceMin_ngl, ng_pmin, ng_pmax]
  cases r.long <;> rfl

theorem rowAt_ngl (h l : List Val)
    (h01 : Val.lt (l.getD 1 .nan) (l.getD 0 .nan) = !Val.lt (h.getD 0 .nan) (h.getD 1 .nan)) (i : ℕ) :
    rowAt (ngl l) (ngl h) i = rowTurn (rowAt h l i) := by
  induction i with
  | zero =>
    unfold rowAt firstRow
    simp only [getD_ngl, ng_lt, h01]
    cases Val.lt (h.getD 0 .nan) (h.getD 1 .nan) <;> rfl
  | succ i ih =>
    unfold rowAt
    rw [ih]
    generalize rowAt h l i = r
    have hp : penetrated (ngl l) (ngl h) (i + 1) (rowTurn r) = penetrated h l (i + 1) r := by
      unfold penetrated
      simp only [sarOf_ngl, getD_ngl, ng_lt]
      simp only [rowTurn, Bool.not_not]
      rw [Bool.or_comm]
    unfold nextRow
    rw [hp]
    split_ifs
    · unfold reversed
      simp only [getD_ngl, sliceMax_ngl, sliceMin_ngl, rowTurn]
      cases r.long <;> rfl
    · have he : extreme (ngl l) (ngl h) (i + 1) (rowTurn r) = Val.neg (extreme h l (i + 1) r) := by
        unfold extreme
        simp only [rowTurn, sliceMax_ngl, sliceMin_ngl]
        cases r.long <;> rfl
      have ha : accel (rowTurn r) (Val.neg (extreme h l (i + 1) r)) = accel r (extreme h l (i + 1) r) := by
        unfold accel
        simp only [rowTurn, ng_lt, Bool.not_not]
        cases r.long <;> simp
      simp only [he, ha, sarOf_ngl]
      rfl

theorem calcTi_flip (F : Frame)
    (h : Val.lt ((F.col "low").getD 1 .nan) ((F.col "low").getD 0 .nan) =
      !Val.lt ((F.col "high").getD 0 .nan) ((F.col "high").getD 1 .nan)) :
    calcTi F.flip = (calcTi F).map (reflected Val.neg) := by
  unfold calcTi
  rw [flip_high, flip_low, flip_len, flip_idx]
  split_ifs
  · rfl
  · simp only [rowAt_ngl _ _ h]
    simp only [Except.map, reflected, List.map_cons, List.map_nil]
    congr 3
    refine Prod.ext rfl ?_
    show _ = ((List.range F.len).map fun i => Val.round 4 (rowAt (F.col "high") (F.col "low") i).sar).map Val.neg
    rw [List.map_map]
    apply List.map_congr_left
    intro i _
    exact ng_round 4 _

end Ind.ParabolicSAR

theorem construct_mirror_sar (E : Env) (c : Call) (fill : PyArg) (f : RawFrame) (hc : c.check = .ok .parabolicSAR)
    (h : ∀ b F, fill = .bool b → (validateInputData (.frame f) (Ind.required .parabolicSAR) b).2 = .ok F →
      Val.lt ((F.col "low").getD 1 .nan) ((F.col "low").getD 0 .nan) =
        !Val.lt ((F.col "high").getD 0 .nan) ((F.col "high").getD 1 .nan)) :
    (construct E c (.frame (mirrored 0 f)) fill).2.toOption =
      (construct E c (.frame f) fill).2.toOption.map (Obj.both Frame.flip (reflected Val.neg)) := by
  cases fill <;> try (simp only [construct, hc]; rfl)
  case bool b =>
    rw [construct_toOption E c _ _ b hc, construct_toOption E c _ _ b hc,
      validate_mirrored _ (otherEnd_required .parabolicSAR) f b]
    cases h1 : (validateInputData (.frame f) (Ind.required .parabolicSAR) b).2 with
    | error e => rfl
    | ok F =>
      simp only [Except.toOption, Option.map_some, Option.bind_some, Ind.calcTi,
        Ind.ParabolicSAR.calcTi_flip F (h b F rfl h1)]
      cases Ind.ParabolicSAR.calcTi F with
      | error e => rfl
      | ok T => rfl

end TTI
