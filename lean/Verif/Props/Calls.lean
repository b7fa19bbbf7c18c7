import Verif.Lemmas.Bind
import Verif.Spec.Messages
import Verif.Props.Build
import Verif.Props.Api
import Verif.Props.Sample

set_option autoImplicit false

/-!
# Calls with positional, keyword and default arguments (C67)
-/

namespace TTI.Props
open TTI.Spec

/-- C67: a call that is well formed gives each parameter the argument at its position, or else the one with its keyword, or
else its default value; any other call is a TypeError. -/
theorem C67_bind (params : List (String × Option Arg)) (hn : (params.map (·.1)).Nodup) (pos : List Arg)
    (kw : List (String × Arg)) :
    (WellFormed params pos kw → ∃ vs, bindArgs params pos kw = .ok vs ∧ vs.length = params.length ∧
      ∀ i v, vs[i]? = some v ↔ Gives params pos kw i v) ∧
    (¬ WellFormed params pos kw → bindArgs params pos kw = .error .typeError) := by
  have hgl : ∀ i v, Gives params pos kw i v → i < params.length := by
    rintro i v ⟨name, d, hp, -⟩
    exact (List.getElem?_eq_some_iff.1 hp).1
  constructor
  · rintro ⟨h1, h2, h3, h4⟩
    have hif : (∀ k ∈ kw.map (·.1), k ∈ params.map (·.1)) ∧ (kw.map (·.1)).Nodup := by
      refine ⟨?_, h3⟩
      intro k hk
      obtain ⟨⟨k, v⟩, hm, rfl⟩ := List.mem_map.1 hk
      obtain ⟨i, d, hi, -⟩ := h2 k v hm
      exact List.mem_map.2 ⟨(k, d), List.mem_of_getElem? hi, rfl⟩
    have hslot := slot_gives params hn pos kw h3 h2
    have hex : ∀ i : Fin params.length, ∃ v, Gives params pos kw i v := fun i => h4 i i.2
    choose g hg using hex
    have hget : ∀ i (h : i < params.length), (List.ofFn g)[i]? = some (g ⟨i, h⟩) := by
      intro i h
      rw [List.getElem?_eq_some_iff]
      exact ⟨by simpa using h, by simp⟩
    have hok : bindFrom kw params pos = .ok (List.ofFn g) := by
      rw [bindFrom_ok]
      refine ⟨h1, by simp, ?_⟩
      intro i p hp
      have hi := (List.getElem?_eq_some_iff.1 hp).1
      exact ⟨g ⟨i, hi⟩, hget i hi, (hslot i p hp _).2 (hg ⟨i, hi⟩)⟩
    refine ⟨List.ofFn g, by rw [bindArgs, if_pos hif, hok], by simp, ?_⟩
    intro i v
    constructor
    · intro h
      have hi : i < params.length := by simpa using (List.getElem?_eq_some_iff.1 h).1
      rw [hget i hi] at h
      obtain rfl := Option.some.inj h
      exact hg ⟨i, hi⟩
    · intro h
      have hi := hgl i v h
      rw [hget i hi]
      have e1 := (hslot i params[i] (by simp) v).2 h
      have e2 := (hslot i params[i] (by simp) _).2 (hg ⟨i, hi⟩)
      rw [e1] at e2
      rw [e2]
  · intro hwf
    unfold bindArgs
    split_ifs with hif
    · cases hb : bindFrom kw params pos with
      | error e => rw [bindFrom_error kw params pos e hb]
      | ok vs =>
        exfalso
        apply hwf
        obtain ⟨h1, h2, h3⟩ := (bindFrom_ok kw params pos vs).1 hb
        have hk : ∀ k v, (k, v) ∈ kw → ∃ i d, params[i]? = some (k, d) ∧ pos.length ≤ i := by
          intro k v hm
          have hkm : k ∈ kw.map (·.1) := List.mem_map.2 ⟨_, hm, rfl⟩
          obtain ⟨⟨k', d⟩, hp, hk'⟩ := List.mem_map.1 (hif.1 k hkm)
          simp only at hk'
          subst hk'
          obtain ⟨i, hi⟩ := List.mem_iff_getElem?.1 hp
          refine ⟨i, d, hi, ?_⟩
          by_contra hlt
          obtain ⟨w, -, hw⟩ := h3 i _ hi
          rw [slot, if_pos (by omega), if_pos hkm] at hw
          cases hw
        refine ⟨h1, hk, hif.2, ?_⟩
        intro i hi
        obtain ⟨v, -, hv⟩ := h3 i params[i] (by simp)
        exact ⟨v, (slot_gives params hn pos kw hif.2 hk i _ (by simp) v).1 hv⟩
    · rfl

/-- Two calls that mean the same. -/
theorem bind_congr (params : List (String × Option Arg)) (hn : (params.map (·.1)).Nodup) (pos pos' : List Arg)
    (kw kw' : List (String × Arg))
    (h1 : WellFormed params pos kw → WellFormed params pos' kw' ∧ ∀ i v, Gives params pos kw i v → Gives params pos' kw' i v)
    (h2 : WellFormed params pos' kw' → WellFormed params pos kw) :
    bindArgs params pos kw = bindArgs params pos' kw' := by
  by_cases h : WellFormed params pos kw
  · obtain ⟨h', hg⟩ := h1 h
    obtain ⟨vs, e1, l1, g1⟩ := (C67_bind params hn pos kw).1 h
    obtain ⟨ws, e2, l2, g2⟩ := (C67_bind params hn pos' kw').1 h'
    rw [e1, e2]
    congr 1
    apply List.ext_getElem?
    intro i
    cases hv : vs[i]? with
    | none =>
      rw [List.getElem?_eq_none_iff] at hv
      symm
      rw [List.getElem?_eq_none_iff]
      omega
    | some v => exact ((g2 i v).2 (hg i v ((g1 i v).1 hv))).symm
  · rw [(C67_bind params hn pos kw).2 h, (C67_bind params hn pos' kw').2 (mt h2 h)]

/-- The value of a call is decided by its binding. -/
theorem callClass_congr (E : Env) (cls : String) (pos pos' : List Arg) (kw kw' : List (String × Arg))
    (h : ∀ s ∈ signatures, s.cls = cls → bindArgs s.all pos kw = bindArgs s.all pos' kw') :
    callClass E cls pos kw = callClass E cls pos' kw' := by
  unfold callClass resolveCall
  cases hs : signatures.find? (·.cls = cls) with
  | none => rfl
  | some s =>
    simp only
    rw [h s (List.mem_of_find?_eq_some hs) (by simpa using List.find?_some hs)]

theorem all_nodup : ∀ s ∈ signatures, (s.all.map (·.1)).Nodup := by decide +kernel

/-- C67: the order of the keyword arguments does not matter. -/
theorem C67_keyword_order (E : Env) (cls : String) (pos : List Arg) (kw kw' : List (String × Arg)) (h : kw.Perm kw') :
    callClass E cls pos kw = callClass E cls pos kw' := by
  have key : ∀ params : List (String × Option Arg), (params.map (·.1)).Nodup →
      bindArgs params pos kw = bindArgs params pos kw' := by
    have hw : ∀ params (kw kw' : List (String × Arg)), kw.Perm kw' → WellFormed params pos kw →
        WellFormed params pos kw' ∧ ∀ i v, Gives params pos kw i v → Gives params pos kw' i v := by
      intro params kw kw' h ⟨h1, h2, h3, h4⟩
      have hg : ∀ i v, Gives params pos kw i v → Gives params pos kw' i v := by
        rintro i v ⟨name, d, hp, hc⟩
        refine ⟨name, d, hp, ?_⟩
        simpa only [h.mem_iff] using hc
      refine ⟨⟨h1, fun k v hm => h2 k v (h.mem_iff.2 hm), (h.map _).nodup_iff.1 h3, fun i hi => ?_⟩, hg⟩
      obtain ⟨v, hv⟩ := h4 i hi
      exact ⟨v, hg i v hv⟩
    intro params hn
    exact bind_congr params hn pos pos kw kw' (hw params kw kw' h) fun h' => (hw params kw' kw h.symm h').1
  exact callClass_congr E cls pos pos kw kw' fun s hs _ => key s.all (all_nodup s hs)

theorem gives_position (params : List (String × Option Arg)) (hn : (params.map (·.1)).Nodup) (pos : List Arg)
    (kw : List (String × Arg)) (name : String) (d : Option Arg) (v : Arg) (hp : params[pos.length]? = some (name, d))
    (hk : ∀ w, (name, w) ∉ kw) (i : ℕ) (w : Arg) :
    Gives params (pos ++ [v]) kw i w ↔ Gives params pos ((name, v) :: kw) i w := by
  have hne : ∀ n e, params[i]? = some (n, e) → (n = name ↔ i = pos.length) := by
    intro n e hi
    constructor
    · rintro rfl; exact names_unique params hn _ _ _ _ _ hi hp
    · rintro rfl; rw [hp] at hi; simp only [Option.some.injEq, Prod.mk.injEq] at hi; exact hi.1.symm
  unfold Gives
  constructor
  · rintro ⟨n, e, hi, h⟩
    refine ⟨n, e, hi, ?_⟩
    rcases h with h | ⟨h, h'⟩
    · rcases lt_trichotomy i pos.length with hlt | rfl | hgt
      · rw [List.getElem?_append_left hlt] at h
        exact Or.inl h
      · have : w = v := by simpa using h.symm
        subst this
        exact Or.inr ⟨le_refl _, Or.inl (by simp [(hne n e hi).2 rfl])⟩
      · rw [List.getElem?_eq_none (by simp; omega)] at h
        cases h
    · have hlen : pos.length + 1 ≤ i := by simpa using h
      have hnn : n ≠ name := fun hc => by have := (hne n e hi).1 hc; omega
      refine Or.inr ⟨by omega, ?_⟩
      simpa [hnn] using h'
  · rintro ⟨n, e, hi, h⟩
    refine ⟨n, e, hi, ?_⟩
    rcases h with h | ⟨h, h'⟩
    · have hlt := (List.getElem?_eq_some_iff.1 h).1
      rw [List.getElem?_append_left hlt]
      exact Or.inl h
    · rcases eq_or_lt_of_le h with rfl | hgt
      · have hnn := (hne n e hi).2 rfl
        subst hnn
        have : w = v := by
          rcases h' with h' | ⟨h', -⟩
          · rcases List.mem_cons.1 h' with h' | h'
            · simpa using h'
            · exact absurd h' (hk w)
          · exact absurd (List.mem_cons_self) (h' v)
        subst this
        exact Or.inl (by simp)
      · have hnn : n ≠ name := fun hc => by have := (hne n e hi).1 hc; omega
        exact Or.inr ⟨by simpa using hgt, by simpa [hnn] using h'⟩

/-- C67: the next argument may be passed by position or by its keyword. -/
theorem C67_by_position (E : Env) (cls : String) (s : Sig) (hs : s ∈ signatures) (hc : s.cls = cls) (pos : List Arg)
    (kw : List (String × Arg)) (v : Arg) (name : String) (d : Option Arg) (hp : s.all[pos.length]? = some (name, d)) :
    callClass E cls (pos ++ [v]) kw = callClass E cls pos ((name, v) :: kw) := by
  have huniq : ∀ s ∈ signatures, ∀ t ∈ signatures, s.cls = t.cls → s.params = t.params := by decide +kernel
  apply callClass_congr
  intro t ht htc
  have hall : t.all = s.all := by
    unfold Sig.all
    rw [huniq t ht s hs (htc.trans hc.symm)]
  rw [hall]
  have hn := all_nodup s hs
  have forward : WellFormed s.all (pos ++ [v]) kw → (∀ w, (name, w) ∉ kw) := by
    intro h w hw
    obtain ⟨i, e, hi, hle⟩ := h.known _ _ hw
    have := names_unique s.all hn _ _ _ _ _ hi hp
    simp only [List.length_append, List.length_cons, List.length_nil] at hle
    omega
  have backward : WellFormed s.all pos ((name, v) :: kw) → (∀ w, (name, w) ∉ kw) := by
    intro h w hw
    have := h.once
    simp only [List.map_cons, List.nodup_cons, List.mem_map, not_exists, not_and] at this
    exact this.1 _ hw rfl
  apply bind_congr s.all hn
  · intro h
    have hk := forward h
    have hg := gives_position s.all hn pos kw name d v hp hk
    refine ⟨⟨?_, ?_, ?_, ?_⟩, fun i w => (hg i w).1⟩
    · have := h.few; simp only [List.length_append, List.length_cons, List.length_nil] at this; omega
    · intro k w hm
      rcases List.mem_cons.1 hm with hm | hm
      · obtain ⟨rfl, rfl⟩ : k = name ∧ w = v := by simpa using hm
        exact ⟨_, d, hp, le_refl _⟩
      · obtain ⟨i, e, hi, hle⟩ := h.known k w hm
        refine ⟨i, e, hi, ?_⟩
        simp only [List.length_append, List.length_cons, List.length_nil] at hle
        omega
    · simp only [List.map_cons, List.nodup_cons, List.mem_map, not_exists, not_and]
      refine ⟨?_, h.once⟩
      rintro ⟨k, w⟩ hm rfl
      exact hk w hm
    · intro i hi
      obtain ⟨w, hw⟩ := h.all i hi
      exact ⟨w, (hg i w).1 hw⟩
  · intro h
    have hk := backward h
    have hg := gives_position s.all hn pos kw name d v hp hk
    have hlt := (List.getElem?_eq_some_iff.1 hp).1
    refine ⟨by simpa using hlt, ?_, ?_, ?_⟩
    · intro k w hm
      obtain ⟨i, e, hi, hle⟩ := h.known k w (List.mem_cons_of_mem _ hm)
      refine ⟨i, e, hi, ?_⟩
      rcases eq_or_lt_of_le hle with rfl | hgt
      · rw [hp] at hi
        obtain ⟨rfl, -⟩ : name = k ∧ d = e := by simpa using hi
        exact absurd hm (hk w)
      · simpa using hgt
    · have := h.once
      simp only [List.map_cons, List.nodup_cons] at this
      exact this.2
    · intro i hi
      obtain ⟨w, hw⟩ := h.all i hi
      exact ⟨w, (hg i w).2 hw⟩

/-- C67: leaving a parameter out is the same as passing its default value. -/
theorem C67_default_value (E : Env) (cls : String) (s : Sig) (hs : s ∈ signatures) (hc : s.cls = cls) (pos : List Arg)
    (kw : List (String × Arg)) (i : ℕ) (name : String) (v : Arg) (hp : s.all[i]? = some (name, some v))
    (hi : pos.length ≤ i) (hk : ∀ w, (name, w) ∉ kw) :
    callClass E cls pos kw = callClass E cls pos ((name, v) :: kw) := by
  have huniq : ∀ s ∈ signatures, ∀ t ∈ signatures, s.cls = t.cls → s.params = t.params := by decide +kernel
  apply callClass_congr
  intro t ht htc
  have hall : t.all = s.all := by
    unfold Sig.all
    rw [huniq t ht s hs (htc.trans hc.symm)]
  rw [hall]
  have hn := all_nodup s hs
  have hg : ∀ j w, Gives s.all pos kw j w ↔ Gives s.all pos ((name, v) :: kw) j w := by
    intro j w
    unfold Gives
    refine exists_congr fun n => exists_congr fun e => and_congr_right fun hj => or_congr_right (and_congr_right fun _ => ?_)
    by_cases hnn : n = name
    · subst hnn
      have hij := names_unique s.all hn _ _ _ _ _ hj hp
      subst hij
      rw [hp] at hj
      obtain rfl : some v = e := by simpa using hj
      simp only [List.mem_cons, Prod.mk.injEq, true_and, hk, or_false, Option.some.injEq, false_or,
        not_false_eq_true, implies_true]
      constructor
      · rintro rfl; exact Or.inl rfl
      · rintro (h | ⟨h, -⟩)
        · exact h.symm
        · exact absurd rfl (h v)
    · simp [hnn]
  apply bind_congr s.all hn
  · intro h
    refine ⟨⟨h.few, ?_, ?_, ?_⟩, fun j w => (hg j w).1⟩
    · intro k w hm
      rcases List.mem_cons.1 hm with hm | hm
      · obtain ⟨rfl, rfl⟩ : k = name ∧ w = v := by simpa using hm
        exact ⟨i, _, hp, hi⟩
      · exact h.known k w hm
    · simp only [List.map_cons, List.nodup_cons, List.mem_map, not_exists, not_and]
      refine ⟨?_, h.once⟩
      rintro ⟨k, w⟩ hm rfl
      exact hk w hm
    · intro j hj
      obtain ⟨w, hw⟩ := h.all j hj
      exact ⟨w, (hg j w).1 hw⟩
  · intro h
    refine ⟨h.few, fun k w hm => h.known k w (List.mem_cons_of_mem _ hm), ?_, ?_⟩
    · have := h.once
      simp only [List.map_cons, List.nodup_cons] at this
      exact this.2
    · intro j hj
      obtain ⟨w, hw⟩ := h.all j hj
      exact ⟨w, (hg j w).2 hw⟩

/-- C67: the default values are the documented ones, and every class has its signature. -/
theorem C67_documented :
    (∀ s ∈ signatures, s.params = (documented.lookup s.cls).getD []) ∧
    (signatures.map (·.cls)).Nodup ∧ ∀ ind : Ind, ind.className ∈ signatures.map (·.cls) := by
  refine ⟨by decide +kernel, by decide +kernel, ?_⟩
  intro ind
  cases ind <;> simp only [Ind.className] <;> decide +kernel

/-- What a signature makes of its parameters. -/
theorem make_spec (s : Sig) (hs : s ∈ signatures) : ∀ args : List PyArg, args.length = s.params.length →
    ∃ c, s.make args = some c ∧ arguments c = (s.params.map (·.1)).zip args ∧
      ∀ ind, c.check = .ok ind → ind.className = s.cls := by
  revert s
  unfold signatures
  repeat' first
    | exact List.forall_mem_nil _
    | refine List.forall_mem_cons.2 ⟨?_, ?_⟩
  all_goals
    intro args hl
    rcases args with _ | ⟨a, _ | ⟨b, _ | ⟨c, _ | ⟨d, _ | ⟨e, l⟩⟩⟩⟩⟩ <;>
      simp only [List.length_cons, List.length_nil, Nat.reduceEqDiff, Nat.reduceAdd, reduceCtorEq, Nat.add_eq_right,
        Nat.add_eq_zero_iff, one_ne_zero, OfNat.ofNat_ne_zero, and_false] at hl
    try refine ⟨_, rfl, rfl, ?_⟩
    intro ind h
    simp only [Call.check, Except.bind_eq_ok, pure, Except.pure, Except.ok.injEq] at h
    first
      | (subst h; rfl)
      | (obtain ⟨_, _, rfl⟩ := h; rfl)
      | (obtain ⟨_, _, _, _, rfl⟩ := h; rfl)
      | (obtain ⟨_, _, _, _, _, _, rfl⟩ := h; rfl)
      | (obtain ⟨_, _, _, _, _, _, _, _, rfl⟩ := h; rfl)
      | (obtain ⟨_, _, _, _, h⟩ := h
         split at h
         · simp [bind, Except.bind, throw, throwThe, MonadExceptOf.throw] at h
         · simp only [bind, Except.bind, Except.ok.injEq] at h
           subst h
           rfl)

/-- C67: a well-formed call of a class builds an object from the given data with the given parameters; any other call is a
TypeError. -/
theorem C67_call (E : Env) (s : Sig) (hs : s ∈ signatures) (pos : List Arg) (kw : List (String × Arg)) :
    (¬ WellFormed s.all pos kw → callClass E s.cls pos kw = .error .typeError) ∧
    (WellFormed s.all pos kw → ∃ d fill c, Gives s.all pos kw 0 d ∧ Gives s.all pos kw (s.params.length + 1) fill ∧
      (arguments c).map (·.1) = s.params.map (·.1) ∧
      (∀ i k a, (arguments c)[i]? = some (k, a) → ∃ v, Gives s.all pos kw (i + 1) v ∧ v.asParam = a) ∧
      (∀ ind, c.check = .ok ind → ind.className = s.cls) ∧
      callClass E s.cls pos kw = (construct E c d.asData fill.asParam).2) := by
  have hfind : ∀ s ∈ signatures, ∀ t, signatures.find? (·.cls = s.cls) = some t → t = s := by
    intro s hs t ht
    have h1 := List.mem_of_find?_eq_some ht
    have h2 : t.cls = s.cls := by simpa using List.find?_some ht
    exact (List.inj_on_of_nodup_map C67_documented.2.1) h1 hs h2
  have hsome : ∃ t, signatures.find? (·.cls = s.cls) = some t := by
    cases h : signatures.find? (·.cls = s.cls) with
    | some t => exact ⟨t, rfl⟩
    | none => exact absurd (List.find?_eq_none.1 h s hs) (by simp)
  obtain ⟨t, ht⟩ := hsome
  obtain rfl := hfind s hs t ht
  obtain ⟨h1, h2⟩ := C67_bind t.all (all_nodup t hs) pos kw
  constructor
  · intro h
    unfold callClass resolveCall
    rw [ht]
    simp only [h2 h]
  · intro h
    obtain ⟨vs, hb, hl, hg⟩ := h1 h
    have hal : t.all.length = t.params.length + 2 := by simp [Sig.all]
    cases vs with
    | nil => simp [Sig.all] at hl
    | cons d vs =>
      have hvl : vs.length = t.params.length + 1 := by simp only [List.length_cons] at hl; omega
      obtain ⟨fill, hf⟩ : ∃ fill, vs[t.params.length]? = some fill := ⟨_, List.getElem?_eq_getElem (by omega)⟩
      obtain ⟨c, hc, hargs, hcls⟩ := make_spec t hs ((vs.take t.params.length).map Arg.asParam) (by simp; omega)
      refine ⟨d, fill, c, (hg 0 d).1 rfl, (hg _ _).1 (by simpa using hf), ?_, ?_, hcls, ?_⟩
      · rw [hargs, List.map_fst_zip]
        simp; omega
      · intro i k a hi
        rw [hargs] at hi
        have hz := (List.getElem?_zip_eq_some).1 hi
        obtain ⟨v, hv, rfl⟩ : ∃ v, (vs.take t.params.length)[i]? = some v ∧ v.asParam = a := by
          have h2 := hz.2
          rw [List.getElem?_map, Option.map_eq_some_iff] at h2
          exact h2
        refine ⟨v, (hg _ _).1 ?_, rfl⟩
        rw [List.getElem?_cons_succ]
        have hlt := (List.getElem?_eq_some_iff.1 hv).1
        simp only [List.length_take] at hlt
        rwa [List.getElem?_take_of_lt (by omega)] at hv
      · unfold callClass resolveCall
        rw [ht]
        simp only [hb, hc, List.head?_drop, hf]

/-- A table of prices and volumes: dates, distinct names, the five columns numeric. -/
structure PriceTable (f : RawFrame) : Prop where
  wf : WF f
  dates : f.datetimeIndex = true
  labels : ∀ c ∈ f.cols, c.label ≠ .other
  distinct : (f.cols.map RawCol.name).Nodup
  five : ∀ r ∈ ["open", "high", "low", "close", "volume"], ∃ c ∈ f.cols, c.name = r ∧ c.numeric = true

theorem PriceTable.valid {f : RawFrame} (h : PriceTable f) (hr : f.idx ≠ []) (required : List String)
    (hs : ∀ r ∈ required, r ∈ ["open", "high", "low", "close", "volume"]) : f.Valid required := by
  refine ⟨h.dates, hr, ?_, h.labels, ?_, h.distinct.filter _⟩
  · obtain ⟨c, hc, -⟩ := h.five "close" (by simp)
    exact List.ne_nil_of_mem hc
  · intro r hr
    obtain ⟨c, hc, hn, hnum⟩ := h.five r (hs r hr)
    refine ⟨c, ?_, hnum⟩
    have hd := h.distinct
    generalize f.cols = cols at hc hd
    induction cols with
    | nil => cases hc
    | cons a l ih =>
      simp only [List.map_cons, List.nodup_cons] at hd
      rcases List.mem_cons.1 hc with rfl | hc
      · have : l.filter (fun c => c.name == r) = [] := by
          rw [List.filter_eq_nil_iff]
          intro x hx he
          have hxr : x.name = r := by simpa using he
          exact hd.1 (List.mem_map.2 ⟨x, hx, hxr.trans hn.symm⟩)
        simp [hn, this]
      · have : a.name ≠ r := fun he => hd.1 (List.mem_map.2 ⟨c, hc, hn.trans he.symm⟩)
        rw [List.filter_cons_of_neg (by simpa using this)]
        exact ih hc hd.2

/-- What the default parameters of a class amount to. -/
def defaultsFit (s : Sig) : Bool :=
  match s.make (s.params.map (·.2)) with
  | none => false
  | some c =>
    match c.check with
    | .error _ => false
    | .ok ind =>
      decide (Spec.minRows ind ≤ 55) && (ind.required.all fun r => decide (r ∈ ["open", "high", "low", "close", "volume"])) &&
        decide (ind ≠ .medianPrice 1) && decide (ind.className = s.cls)

theorem defaults_fit : ∀ s ∈ signatures, defaultsFit s = true := by decide +kernel

/-- A call with one argument. -/
theorem callClass_alone (E : Env) (s : Sig) (hs : s ∈ signatures) (x : Arg) :
    ∃ c ind, s.make (s.params.map (·.2)) = some c ∧ c.check = .ok ind ∧ Spec.minRows ind ≤ 55 ∧
      (∀ r ∈ ind.required, r ∈ ["open", "high", "low", "close", "volume"]) ∧ ind ≠ .medianPrice 1 ∧ ind.className = s.cls ∧
      callClass E s.cls [x] [] = (construct E c x.asData (.bool true)).2 := by
  have hfit := defaults_fit s hs
  unfold defaultsFit at hfit
  cases hm : s.make (s.params.map (·.2)) with
  | none => rw [hm] at hfit; cases hfit
  | some c =>
    rw [hm] at hfit
    simp only at hfit
    cases hc : c.check with
    | error e => rw [hc] at hfit; cases hfit
    | ok ind =>
      rw [hc] at hfit
      simp only [Bool.and_eq_true, decide_eq_true_eq, List.all_eq_true] at hfit
      obtain ⟨⟨⟨h1, h2⟩, h3⟩, h4⟩ := hfit
      refine ⟨c, ind, rfl, hc, h1, h2, h3, h4, ?_⟩
      have hdef : ∀ l : List (String × PyArg), bindFrom [] ((l.map fun p => (p.1, some (Arg.param p.2))) ++
          [("fill_missing_values", some (.param (.bool true)))]) [] =
            .ok ((l.map fun p => Arg.param p.2) ++ [.param (.bool true)]) := by
        intro l
        induction l with
        | nil => rfl
        | cons a l ih =>
          simp only [List.map_cons, List.cons_append, bindFrom, List.lookup_nil, Option.none_or]
          rw [ih]
      have hbind : bindArgs s.all [x] [] =
          .ok (x :: ((s.params.map fun p => Arg.param p.2) ++ [.param (.bool true)])) := by
        unfold bindArgs Sig.all
        rw [if_pos (by simp)]
        simp only [List.cons_append, bindFrom, List.map_nil, List.not_mem_nil, if_false, hdef]
      have hsome : ∃ t, signatures.find? (·.cls = s.cls) = some t := by
        cases h : signatures.find? (·.cls = s.cls) with
        | some t => exact ⟨t, rfl⟩
        | none => exact absurd (List.find?_eq_none.1 h s hs) (by simp)
      obtain ⟨t, ht⟩ := hsome
      obtain rfl : t = s := (List.inj_on_of_nodup_map C67_documented.2.1) (List.mem_of_find?_eq_some ht) hs
        (by simpa using List.find?_some ht)
      unfold callClass resolveCall
      rw [ht]
      simp only [hbind]
      have htake : (((t.params.map fun p => Arg.param p.2) ++ [Arg.param (.bool true)]).take t.params.length).map Arg.asParam =
          t.params.map (·.2) := by
        rw [List.take_append_of_le_length (by simp), List.take_of_length_le (by simp), List.map_map]
        rfl
      have hdrop : (((t.params.map fun p => Arg.param p.2) ++ [Arg.param (.bool true)]).drop t.params.length).head? =
          some (Arg.param (.bool true)) := by
        rw [List.head?_drop, List.getElem?_append_right (by simp)]
        simp
      simp only [htake, hdrop, hm]
      rfl

/-- A call with the data alone. -/
theorem callClass_default (E : Env) (s : Sig) (hs : s ∈ signatures) (d : InputArg) :
    ∃ c ind, s.make (s.params.map (·.2)) = some c ∧ c.check = .ok ind ∧ Spec.minRows ind ≤ 55 ∧
      (∀ r ∈ ind.required, r ∈ ["open", "high", "low", "close", "volume"]) ∧ ind ≠ .medianPrice 1 ∧ ind.className = s.cls ∧
      callClass E s.cls [.data d] [] = (construct E c d (.bool true)).2 :=
  callClass_alone E s hs (.data d)

/-- C67: with 55 rows of prices and volumes every class can be built without any further argument. Its signal can be asked
for, and it can be simulated on the same data with the default arguments of `getTiSimulation`
(`_technical_indicator.py:284`), unless the class is `RangeIndicator`. -/
theorem C67_defaults (E : Env) (s : Sig) (hs : s ∈ signatures) (f : RawFrame) (h : PriceTable f) (hl : 55 ≤ f.idx.length) :
    ∃ o, callClass E s.cls [.data (.frame f)] [] = .ok o ∧ o.ind.className = s.cls ∧
      (s.cls ≠ "RangeIndicator" → (∃ sig, o.getTiSignal = .ok sig) ∧
        ∃ r, (o.getTiSimulation (.frame f) .none (.float (.fin (3 / 2)))).2.2 = .ok r) := by
  have hne : f.idx ≠ [] := by rintro h; rw [h] at hl; simp at hl
  obtain ⟨c, ind, -, hc, hrows, hreq, hmp, hcls, hcall⟩ := callClass_default E s hs (.frame f)
  have hv := validate_ok f ind.required true (h.valid hne _ hreq)
  obtain ⟨o, ho, hoi⟩ := (C32_not_enough_iff E c ind f true h.wf hc ⟨_, hv⟩).2 (by omega)
  refine ⟨o, by rw [hcall]; exact ho, by rw [hoi]; exact hcls, ?_⟩
  intro hri
  have hoth := C34_other_indicators E c f true o h.wf ho (by rw [hoi]; exact hmp) (by
    intro p q hpq
    rw [hoi] at hpq
    rw [hpq] at hcls
    exact hri hcls.symm)
  refine ⟨hoth.1, ?_⟩
  apply C18_accepted_arguments
  · refine ⟨⟨f, rfl, h.valid hne _ (by simp), ?_⟩, Or.inl rfl, ⟨.fin (3 / 2), rfl, by decide +kernel⟩⟩
    obtain ⟨ind', F, T, hc', hF, -, rfl⟩ := (construct_ok_iff _ _ _ _ _).1 ho
    simp only [inputAfter_idx]
    rw [validated_idx _ _ _ _ hF]
    exact (sortIdx_perm _).symm
  · intro i hi
    obtain ⟨o', ho', -⟩ := (C34_signal_total E c f true o h.wf ho).2.2.1 i hi
    obtain ⟨sig, hsig⟩ := hoth.2 i o' ho'
    exact ⟨o', sig, ho', hsig⟩

/-- C67: 55 rows are needed: the Klinger Oscillator refuses fewer. -/
theorem C67_rows_needed (E : Env) (f : RawFrame) (h : PriceTable f) (hne : f.idx ≠ []) (hl : f.idx.length < 55) :
    callClass E "KlingerOscillator" [.data (.frame f)] [] = .error (.notEnough 55 f.idx.length) := by
  have hv := validate_ok f Ind.klingerOscillator.required true (h.valid hne _ (by decide))
  exact (C32_not_enough_iff E .klingerOscillator .klingerOscillator f true h.wf rfl ⟨_, hv⟩).1 hl

theorem sample_table (n : ℕ) : PriceTable (sample n) := by
  refine ⟨sample_wf n, rfl, by simp [sample], ?_, ?_⟩
  · show (["Open".toLower, "HIGH".toLower, "low".toLower, "Close".toLower, "volume".toLower]).Nodup
    decide +kernel
  · have e : (sample n).cols.map (fun c => (c.name, c.numeric)) =
        [("open", true), ("high", true), ("low", true), ("close", true), ("volume", true)] := by
      show [("Open".toLower, true), ("HIGH".toLower, true), ("low".toLower, true), ("Close".toLower, true),
        ("volume".toLower, true)] = _
      decide +kernel
    intro r hr
    have : (r, true) ∈ (sample n).cols.map (fun c => (c.name, c.numeric)) := by
      rw [e]
      simp only [List.mem_cons, List.not_mem_nil, or_false] at hr
      rcases hr with rfl | rfl | rfl | rfl | rfl <;> simp
    obtain ⟨c, hc, he⟩ := List.mem_map.1 this
    simp only [Prod.mk.injEq] at he
    exact ⟨c, hc, he⟩

/-- The hypotheses are met by the sample. -/
example : PriceTable (sample 60) ∧ 55 ≤ (sample 60).idx.length ∧ PriceTable (sample 54) ∧ (sample 54).idx.length < 55 :=
  ⟨sample_table 60, by decide, sample_table 54, by decide⟩

/-- One call in three ways, a default value, and four mistakes. -/
example (E : Env) (d : InputArg) :
    let C := callClass E "MovingAverage"
    C [.data d, .param (.int 3), .param (.str "simple")] [] = C [] [("ma_type", .param (.str "simple")), ("period", .param (.int 3)), ("input_data", .data d)] ∧
    C [.data d, .param (.int 3)] [] = C [.data d] [("period", .param (.int 3))] ∧
    C [.data d, .param (.int 3)] [] = C [.data d, .param (.int 3), .param (.str "simple"), .param (.bool true)] [] ∧
    C [] [] = .error .typeError ∧
    C [.data d] [("periods", .param (.int 3))] = .error .typeError ∧
    C [.data d, .param (.int 3)] [("period", .param (.int 3))] = .error .typeError ∧
    C [.data d, .param (.int 3), .param (.str "simple"), .param (.bool true), .param (.int 1)] [] = .error .typeError :=
  ⟨rfl, rfl, rfl, rfl, rfl, rfl, rfl⟩

end TTI.Props
