import Verif.Item.Lemmas

/-!
# Properties C01–C05 of items
-/

namespace Cryspy.Item

/-- An environment for the examples: no text is a number. -/
def env0 : PyEnv := { parseFloat := fun _ => none, parseInt := fun _ => none, strOf := fun _ => "" }

/-- A freshly made cell: `Cell()` sets the defaults of cl_1_cell.py:77-84. -/
def cell0 : Dict := fun k =>
  if k ∈ ["length_a", "length_b", "length_c"] then some (.num 1)
  else if k ∈ ["angle_alpha", "angle_beta", "angle_gamma"] then some (.num 90)
  else if k ∈ cellDesc.sigma then some (.num 0)
  else if k ∈ cellDesc.constrFlag ++ cellDesc.refFlag then some (.bool false)
  else if k ∈ cellDesc.constrMark then some (.str "")
  else none

/-! ## C01 -/

/-- C01: a number written to a `float` attribute is read back clamped to the declared bounds if it is
an allowed value, otherwise the old value stays; the write does not raise. -/
theorem write_number_reads_back (E : PyEnv) (K : ClassDesc) (d : Dict) (name : String) (q : ℚ)
    (hn : name ∈ K.names) (hty : K.types[K.names.idxOf name]? = some .float) :
    ∃ d', setattr E K d name (.num q) = .ok d' ∧
      (K.Permitted name (.num q) →
        d' name = some (.num (clampQ (K.dMin.lookup name) (K.dMax.lookup name) q))) ∧
      (¬ K.Permitted name (.num q) → d' name = d name) := by
  suffices hs : ∃ d', setattr E K d name (.num q) = .ok d' ∧
      d' name = if allowed K name (.num q)
        then some (.num (clampQ (K.dMin.lookup name) (K.dMax.lookup name) q)) else d name by
    obtain ⟨d', h1, h2⟩ := hs
    refine ⟨d', h1, fun hp => ?_, fun hp => ?_⟩
    · rw [h2, if_pos (allowed_iff.mpr hp)]
    · rw [h2, if_neg (fun ha => hp (allowed_iff.mp ha))]
  have hmin : ∃ v1, clampMin K name (.num q) = .ok v1 := by
    unfold clampMin
    cases K.dMin.lookup name with
    | none => exact ⟨_, rfl⟩
    | some b => simp only [ltBound]; cases decide (q < b) <;> exact ⟨_, rfl⟩
  obtain ⟨v1, h1⟩ := hmin
  have hv1 := clampMin_num h1
  have hmax : ∃ v2, clampMax K name v1 = .ok v2 := by
    subst hv1
    unfold clampMax
    cases K.dMax.lookup name with
    | none => exact ⟨_, rfl⟩
    | some b => simp only [gtBound]; cases decide (b < _) <;> exact ⟨_, rfl⟩
  obtain ⟨v2, h2⟩ := hmax
  have hv2 : v2 = .num (clampQ (K.dMin.lookup name) (K.dMax.lookup name) q) := by
    subst hv1; rw [clampMax_num h2, clampQ_comp]
  refine ⟨if allowed K name (.num q) then (deleteInternal K d).set name v2 else deleteInternal K d, ?_, ?_⟩
  · unfold setattr
    simp only [isNoneLike, hn, hty, coerce, h1, h2, if_true, Bool.false_eq_true, if_false]
    split <;> rfl
  · split
    · rw [Dict.set_self, hv2]
    · rw [deleteInternal_declared (Or.inl hn)]

example : "angle_beta" ∈ cellDesc.names ∧
    cellDesc.types[cellDesc.names.idxOf "angle_beta"]? = some .float := by decide

/-- C01, all types: a successful write stores the clamp of the coerced value, or keeps the old one
when the coerced value is not allowed. -/
theorem write_value_reads_back (E : PyEnv) (K : ClassDesc) (d d' : Dict) (name : String) (v : PyVal)
    (hn : name ∈ K.names) (hv : isNoneLike v = false) (h : setattr E K d name v = .ok d') :
    ∃ ty w, K.types[K.names.idxOf name]? = some ty ∧ coerce E ty v = some w ∧
      (¬ K.Permitted name w → d' name = d name) ∧
      (K.Permitted name w → K.dMin.lookup name = none → K.dMax.lookup name = none →
        d' name = some w) ∧
      (K.Permitted name w → ∀ q, w = .num q →
        d' name = some (.num (clampQ (K.dMin.lookup name) (K.dMax.lookup name) q))) := by
  obtain ⟨ty, v0, v1, v2, hty, hc, h1, h2, rfl⟩ := setattr_name_inv h hv hn
  refine ⟨ty, v0, hty, hc, ?_, ?_, ?_⟩
  · intro ha
    have ha : allowed K name v0 = false := by
      simpa using fun h => ha (allowed_iff.mp h)
    simp [ha, deleteInternal_declared (Or.inl hn : K.Declared name)]
  · intro ha hmin hmax
    have ha := allowed_iff.mpr ha
    simp [ha, Dict.set_self, clampMax_id h2 hmax, clampMin_id h1 hmin]
  · rintro ha q rfl
    have ha := allowed_iff.mpr ha
    have hv1 := clampMin_num h1
    subst hv1
    simp only [ha, if_true, Dict.set_self, clampMax_num h2, clampQ_comp]

example : ∃ d', setattr env0 cellDesc cell0 "angle_beta" (.num 200) = .ok d' ∧
    d' "angle_beta" = some (.num 180) := by
  obtain ⟨d', h, h2, -⟩ := write_number_reads_back env0 cellDesc cell0 "angle_beta" 200 (by decide) (by decide)
  refine ⟨d', h, (h2 (allowed_iff.mp (by decide))).trans ?_⟩
  have h4 : cellDesc.dMin.lookup "angle_beta" = some 0 := by decide
  have h5 : cellDesc.dMax.lookup "angle_beta" = some 180 := by decide
  rw [h4, h5]; norm_num [clampQ]

/-- C01: the three spellings of "undefined" always store `None`. -/
theorem write_undefined_reads_none (E : PyEnv) (K : ClassDesc) (d : Dict) (name : String) :
    ∀ v ∈ [PyVal.none, .str ".", .str "?"],
      ∃ d', setattr E K d name v = .ok d' ∧ d' name = some .none ∧ ∀ x, x ≠ name → d' x = d x := by
  intro v hv
  refine ⟨d.set name .none, ?_, Dict.set_self _ _ _, fun x hx => Dict.set_ne _ _ hx⟩
  simp only [List.mem_cons, List.not_mem_nil, or_false] at hv
  rcases hv with rfl | rfl | rfl <;> simp [setattr, isNoneLike]

/-- C01, frame: a write changes no other declared attribute, sigma, flag, mark or protected name. -/
theorem write_changes_nothing_else (E : PyEnv) (K : ClassDesc) (d d' : Dict) (name : String) (v : PyVal)
    (h : setattr E K d name v = .ok d') (x : String) (hx : x ≠ name) (hd : K.Declared x) :
    d' x = d x := setattr_frame' h hx hd

example : cellDesc.Declared "length_b_sigma" ∧ "length_b_sigma" ≠ "length_a" := by decide

/-- C01: when a write raises, which can only be a failing conversion or comparison, the value written
was not an "undefined" spelling. -/
theorem write_raises_only_on_bad_value (E : PyEnv) (K : ClassDesc) (d : Dict) (name : String) (v : PyVal)
    (e : Err) (hK : K.types.length = K.names.length) (h : setattr E K d name v = .error e) :
    isNoneLike v = false ∧ ((name ∈ K.names ∧ (e = .valueError ∨ e = .typeError)) ∨
      (name ∈ K.sigma ∧ e = .valueError)) := by
  unfold setattr at h
  split at h
  · cases h
  · rename_i hv
    refine ⟨by simpa using hv, ?_⟩
    split at h
    · rename_i hn
      left
      refine ⟨hn, ?_⟩
      have hi : K.names.idxOf name < K.types.length := by
        rw [hK]; exact List.idxOf_lt_length_of_mem hn
      rw [List.getElem?_eq_getElem hi] at h
      simp only at h
      have cm : ∀ v, clampMin K name v = .error e → e = .typeError := by
        intro v hc; unfold clampMin at hc
        split at hc
        · cases hc
        · split at hc
          · cases hc; rfl
          · cases hc
          · cases hc
      have cM : ∀ v, clampMax K name v = .error e → e = .typeError := by
        intro v hc; unfold clampMax at hc
        split at hc
        · cases hc
        · split at hc
          · cases hc; rfl
          · cases hc
          · cases hc
      split at h
      · cases h; left; rfl
      · split at h
        · rename_i hc; cases h; right; exact cm _ hc
        · split at h
          · rename_i hc; cases h; right; exact cM _ hc
          · split at h <;> cases h
    · split at h
      · rename_i hs
        right
        refine ⟨hs, ?_⟩
        split at h
        · cases h; rfl
        · cases h
      · split at h
        · cases h
        · split at h <;> cases h

example : setattr env0 cellDesc cell0 "length_a" (.str "abc") = .error .valueError := by
  simp [setattr, isNoneLike, cellDesc, ClassDesc.names, coerce, env0, List.idxOf, List.findIdx,
    List.findIdx.go]

/-! ## C02 -/

theorem setattr_withinBounds {E K d name v d'} (hK : K.BoundsOK) (hd : K.WithinBounds d)
    (h : setattr E K d name v = .ok d') : K.WithinBounds d' := by
  intro n hn q hq
  rcases setattr_value_cases h hn with h0 | ⟨-, h0⟩ | ⟨-, v0, v1, v2, h1, h2, -, h0⟩
  · exact hd n hn q (h0 ▸ hq)
  · rw [h0] at hq; cases hq
  · rw [h0] at hq
    have hq' : v2 = .num q := by simpa using hq
    refine ⟨fun b hb => ?_, fun b hb => clampMax_le h2 hb hq'⟩
    rcases clampMax_cases h2 with h3 | ⟨c, hc, h3⟩
    · exact clampMin_ge h1 hb (h3 ▸ hq')
    · have : q = c := by rw [h3] at hq'; simpa using hq'.symm
      rw [this]; exact hK n b c hb hc

/-- C02: declared bounds hold after every history of writes. -/
theorem bounds_hold_in_every_history (E : PyEnv) (K : ClassDesc) (hK : K.BoundsOK) (d : Dict)
    (hd : K.WithinBounds d) (ws : List (String × PyVal)) : K.WithinBounds (runWrites E K d ws) := by
  induction ws generalizing d with
  | nil => exact hd
  | cons w ws ih =>
    simp only [runWrites, List.foldl_cons]
    apply ih
    cases h : setattr E K d w.1 w.2 with
    | ok d' => exact setattr_withinBounds hK hd h
    | error e => exact hd

/-- C02: declared sets of allowed values hold after every history of writes (for attributes whose
class declares no numeric bounds, which is the case of all classes in the library that have a set). -/
theorem allowed_values_hold_in_every_history (E : PyEnv) (K : ClassDesc)
    (hK : ∀ n l, K.dConstraints.lookup n = some l → K.dMin.lookup n = none ∧ K.dMax.lookup n = none)
    (d : Dict) (hd : K.WithinAllowed d) (ws : List (String × PyVal)) :
    K.WithinAllowed (runWrites E K d ws) := by
  induction ws generalizing d with
  | nil => exact hd
  | cons w ws ih =>
    simp only [runWrites, List.foldl_cons]
    apply ih
    cases h : setattr E K d w.1 w.2 with
    | error e => exact hd
    | ok d' =>
      intro n hn l hl v hv
      change d' n = some v at hv
      rcases setattr_value_cases h hn with h0 | ⟨-, h0⟩ | ⟨-, v0, v1, v2, h1, h2, ha, h0⟩
      · exact hd n hn l hl v (h0 ▸ hv)
      · left; rw [h0] at hv; simpa using hv.symm
      · right
        obtain ⟨hmin, hmax⟩ := hK n l hl
        have : v = v0 := by
          rw [h0] at hv
          have h3 := clampMax_id h2 hmax
          have h4 := clampMin_id h1 hmin
          simp only [Option.some.injEq] at hv
          rw [← hv, h3, h4]
        rw [this]
        simpa [allowed, hl] using ha

theorem cell_boundsOK : cellDesc.BoundsOK := by
  intro n lo hi h1 h2
  have hlo : lo = 0 := by
    have : ∀ (l : List (String × ℚ)), (∀ p ∈ l, p.2 = 0) → ∀ x, l.lookup n = some x → x = 0 := by
      intro l
      induction l with
      | nil => simp
      | cons p l ih =>
        intro hp x hx
        rw [List.lookup_cons] at hx
        split at hx
        · have := hp p List.mem_cons_self
          simp_all
        · exact ih (fun q hq => hp q (List.mem_cons_of_mem _ hq)) x hx
    exact this cellDesc.dMin (by decide) lo h1
  have hhi : hi = 180 := by
    have : ∀ (l : List (String × ℚ)), (∀ p ∈ l, p.2 = 180) → ∀ x, l.lookup n = some x → x = 180 := by
      intro l
      induction l with
      | nil => simp
      | cons p l ih =>
        intro hp x hx
        rw [List.lookup_cons] at hx
        split at hx
        · have := hp p List.mem_cons_self
          simp_all
        · exact ih (fun q hq => hp q (List.mem_cons_of_mem _ hq)) x hx
    exact this cellDesc.dMax (by decide) hi h2
  rw [hlo, hhi]; norm_num

/-- C02 for `Cell`: whatever is written, an angle that is a number is in [0, 180]. -/
theorem cell_angles_always_in_range (E : PyEnv) (ws : List (String × PyVal)) (n : String)
    (hn : n = "angle_alpha" ∨ n = "angle_beta" ∨ n = "angle_gamma") (q : ℚ)
    (hq : runWrites E cellDesc (fun _ => none) ws n = some (.num q)) : 0 ≤ q ∧ q ≤ 180 := by
  have hinv := bounds_hold_in_every_history E cellDesc cell_boundsOK (fun _ => none)
    (fun _ _ _ h => by cases h) ws
  rcases hn with rfl | rfl | rfl <;>
  · obtain ⟨h1, h2⟩ := hinv _ (by decide) q hq
    exact ⟨h1 0 (by decide), h2 180 (by decide)⟩

example : runWrites env0 cellDesc (fun _ => none) [("angle_alpha", .num (-5))] "angle_alpha" =
    some (.num 0) := by
  obtain ⟨d', h, h2, -⟩ := write_number_reads_back env0 cellDesc (fun _ => none) "angle_alpha" (-5)
    (by decide) (by decide)
  have h3 : cellDesc.Permitted "angle_alpha" (.num (-5)) := allowed_iff.mp (by decide)
  have h4 : cellDesc.dMin.lookup "angle_alpha" = some 0 := by decide
  have h5 : cellDesc.dMax.lookup "angle_alpha" = some 180 := by decide
  simp only [runWrites, List.foldl_cons, List.foldl_nil, h]
  rw [h2 h3, h4, h5]; norm_num [clampQ]

/-- C02 is violated by the code for the cell lengths: the keys of `D_MIN` are misspelled
(cl_1_cell.py:92), so a negative length is stored although the class intends the bound 0. -/
theorem cell_length_can_be_negative (E : PyEnv) :
    runWrites E cellDesc (fun _ => none) [("length_a", .num (-1))] "length_a" = some (.num (-1)) := by
  obtain ⟨d', h, h2, -⟩ := write_number_reads_back E cellDesc (fun _ => none) "length_a" (-1)
    (by decide) (by decide)
  have h3 : cellDesc.Permitted "length_a" (.num (-1)) := allowed_iff.mp (by decide)
  have h4 : cellDesc.dMin.lookup "length_a" = none := by decide
  have h5 : cellDesc.dMax.lookup "length_a" = none := by decide
  simp only [runWrites, List.foldl_cons, List.foldl_nil, h]
  rw [h2 h3, h4, h5]; rfl

/-! ## C03 -/

theorem cell_WF : cellDesc.WF where
  types_len := by decide
  refFlag_eq := by decide
  constrFlag_eq := by decide
  flag_not_name := by decide
  ref_nodup := by decide

/-- All refinement flags are defined (`__init__` of every class sets them). -/
def FlagsSet (K : ClassDesc) (d : Dict) : Prop :=
  ∀ n ∈ K.ref, (d (n ++ "_refinement")).isSome ∧ (d (n ++ "_constraint")).isSome

theorem cell0_flagsSet : FlagsSet cellDesc cell0 := by
  unfold FlagsSet; decide

/-- C03: the list of variables is the list of flagged parameters in declaration order. -/
theorem variable_names_exact (K : ClassDesc) (hK : K.WF) (d : Dict) (hd : FlagsSet K d) :
    getVariableNames K d = .ok ((K.ref.filter (Refined d)).map fun n => (K.prefixName, n)) := by
  unfold getVariableNames
  rw [hK.refFlag_eq, variableAttrs_eq d K.ref (fun n hn => (hd n hn).1)]

/-- C03: a parameter is listed iff it is refinable and flagged; no parameter is listed twice. -/
theorem variable_listed_iff_flagged (K : ClassDesc) (hK : K.WF) (d : Dict) (hd : FlagsSet K d) :
    ∃ l, getVariableNames K d = .ok l ∧ l.Nodup ∧
      ∀ p n, (p, n) ∈ l ↔ p = K.prefixName ∧ n ∈ K.ref ∧ Refined d n = true := by
  refine ⟨_, variable_names_exact K hK d hd, ?_, ?_⟩
  · exact (hK.ref_nodup.filter _).map (fun a b h => by simpa using h)
  · intro p n
    simp only [List.mem_map, List.mem_filter, Prod.mk.injEq]
    constructor
    · rintro ⟨m, ⟨h1, h2⟩, rfl, rfl⟩; exact ⟨rfl, h1, h2⟩
    · rintro ⟨rfl, h1, h2⟩; exact ⟨n, ⟨h1, h2⟩, rfl, rfl⟩

/-- C03: `is_variables()` is true iff some variable is listed. -/
theorem is_variables_iff (K : ClassDesc) (hK : K.WF) (d : Dict) (hd : FlagsSet K d) :
    ∃ b l, isVariables d (K.ref.zip K.refFlag) = .ok b ∧ getVariableNames K d = .ok l ∧
      (b = true ↔ l ≠ []) := by
  refine ⟨K.ref.any (Refined d), _, ?_, variable_names_exact K hK d hd, ?_⟩
  · rw [hK.refFlag_eq]; exact isVariables_eq d K.ref (fun n hn => (hd n hn).1)
  · simp [List.any_eq_true]

/-- C03: after `fix_variables()` nothing is listed and nothing but refinement flags has changed. -/
theorem fix_variables_spec (E : PyEnv) (K : ClassDesc) (hK : K.WF) (d : Dict) (hd : FlagsSet K d) :
    ∃ d', fixVariables E K d = .ok d' ∧ getVariableNames K d' = .ok [] ∧
      ∀ x, x ∉ K.refFlag → d' x = d x := by
  obtain ⟨d', h, hx⟩ := setMany_flags E K hK false (K.ref.filter (Refined d)) d
    (fun n hn => (List.mem_filter.mp hn).1)
  have hfilt : ∀ n ∈ K.ref, Refined d' n = false := by
    intro n hn
    unfold Refined
    rw [hx]
    by_cases hr : Refined d n = true
    · rw [if_pos (List.mem_map_of_mem (f := (· ++ "_refinement")) (List.mem_filter.mpr ⟨hn, hr⟩))]; rfl
    · split
      · rfl
      · rename_i v hv
        split at hv
        · cases hv; rfl
        · unfold Refined at hr
          rw [hv] at hr
          simpa using hr
  refine ⟨d', ?_, ?_, ?_⟩
  · unfold fixVariables
    rw [variable_names_exact K hK d hd]
    simpa [List.map_map, Function.comp_def] using h
  · rw [variable_names_exact K hK d']
    · rw [List.filter_eq_nil_iff.mpr (fun n hn => by simp [hfilt n hn])]; rfl
    · intro n hn
      refine ⟨?_, ?_⟩
      · rw [hx]; split
        · rfl
        · exact (hd n hn).1
      · rw [hx, if_neg]
        · exact (hd n hn).2
        · simp only [List.mem_map, not_exists, not_and]
          intro m _ hmn
          exact refinement_ne_constraint m n hmn
  · intro x hxr
    rw [hx, if_neg]
    intro hm
    apply hxr
    rw [hK.refFlag_eq]
    obtain ⟨m, hm1, rfl⟩ := List.mem_map.mp hm
    exact List.mem_map_of_mem (f := (· ++ "_refinement")) (List.mem_filter.mp hm1).1

/-- C03: after `refine_all_variables()` exactly the unconstrained parameters, and the ones flagged
before, are listed; nothing but refinement flags has changed. -/
theorem refine_all_variables_spec (E : PyEnv) (K : ClassDesc) (hK : K.WF) (d : Dict)
    (hd : FlagsSet K d) :
    ∃ d', refineAllVariables E K d = .ok d' ∧
      getVariableNames K d' = .ok ((K.ref.filter fun n => !Constrained d n || Refined d n).map
        fun n => (K.prefixName, n)) ∧
      ∀ x, x ∉ K.refFlag → d' x = d x := by
  obtain ⟨d', h, hx⟩ := refineAll_spec E K hK K.ref d (fun _ h => h) (fun n hn => (hd n hn).2)
  have hr : ∀ n ∈ K.ref, Refined d' n = (!Constrained d n || Refined d n) := by
    intro n hn
    unfold Refined
    rw [hx]
    by_cases hc : Constrained d n = true
    · rw [if_neg]
      · simp [hc]
      · intro hm
        obtain ⟨m, hm1, hm2⟩ := List.mem_map.mp hm
        have := append_ref_inj hm2
        subst this
        simp [hc] at hm1
    · rw [if_pos (List.mem_map_of_mem (f := (· ++ "_refinement"))
        (List.mem_filter.mpr ⟨hn, by simpa using hc⟩))]
      simp [hc, truthy]
  refine ⟨d', h, ?_, ?_⟩
  · rw [variable_names_exact K hK d']
    · rw [List.filter_congr hr]
    · intro n hn
      refine ⟨?_, ?_⟩
      · rw [hx]; split
        · rfl
        · exact (hd n hn).1
      · rw [hx, if_neg]
        · exact (hd n hn).2
        · simp only [List.mem_map, not_exists, not_and]
          intro m _ hmn
          exact refinement_ne_constraint m n hmn
  · intro x hxr
    rw [hx, if_neg]
    intro hm
    apply hxr
    rw [hK.refFlag_eq]
    obtain ⟨m, hm1, rfl⟩ := List.mem_map.mp hm
    exact List.mem_map_of_mem (f := (· ++ "_refinement")) (List.mem_filter.mp hm1).1

example : cellDesc.WF ∧ FlagsSet cellDesc cell0 := ⟨cell_WF, cell0_flagsSet⟩

/-! ## C04 (items) -/

/-- C04: a variable set by a listed name is read back under that name, with the value that C01 says,
and every other listed variable keeps its value. -/
theorem item_set_variable_then_get (E : PyEnv) (K : ClassDesc) (hK : K.WF) (form : Dict → Dict)
    (d : Dict) (hd : FlagsSet K d) (hrn : ∀ n ∈ K.ref, n ∈ K.names)
    (hfl : ∀ n ∈ K.ref, K.types[K.names.idxOf n]? = some .float)
    (n : VarName) (l : List VarName) (hl : getVariableNames K d = .ok l) (hn : n ∈ l) (q : ℚ)
    (hdef : K.dConstraints.lookup n.2 = none) :
    ∃ d', setVariableByName E K d n (.num q) = .ok d' ∧
      getVariableByName K form d' n =
        .ok (.num (clampQ (K.dMin.lookup n.2) (K.dMax.lookup n.2) q), d') ∧
      ∀ m ∈ l, m ≠ n → d' m.2 = d m.2 := by
  obtain ⟨l', hl', -, hiff⟩ := variable_listed_iff_flagged K hK d hd
  rw [hl] at hl'; cases hl'
  obtain ⟨hp, href, -⟩ := (hiff n.1 n.2).mp hn
  obtain ⟨d', hs, hr⟩ := write_number_reads_back E K d n.2 q (hrn _ href) (hfl _ href)
  have hr := hr.1 (fun l hl => by rw [hdef] at hl; cases hl)
  refine ⟨d', ?_, ?_, ?_⟩
  · simp [setVariableByName, hp, hs]
  · simp [getVariableByName, hp, getattr, hr]
  · intro m hm hmn
    obtain ⟨hmp, hmref, -⟩ := (hiff m.1 m.2).mp hm
    refine write_changes_nothing_else E K d d' n.2 _ hs m.2 ?_ (Or.inl (hrn _ hmref))
    intro h
    exact hmn (Prod.ext (hmp.trans hp.symm) h)

example : (∀ n ∈ cellDesc.ref, n ∈ cellDesc.names) ∧
    (∀ n ∈ cellDesc.ref, cellDesc.types[cellDesc.names.idxOf n]? = some .float) ∧
    (∀ n ∈ cellDesc.ref, cellDesc.dConstraints.lookup n = none) := by decide

/-! ## C05 -/

/-- C05: after a successful write of a defined value (not `None`, '.', '?') to a declared
attribute, a read of a derived quantity is computed from the current attributes.
Missing: writes of `None`, for which the claim is false (next theorem). -/
theorem derived_recomputed_after_write (E : PyEnv) (K : ClassDesc) (form : Dict → Dict)
    (d d' : Dict) (name : String) (v : PyVal) (hn : name ∈ K.names) (hv : isNoneLike v = false)
    (h : setattr E K d name v = .ok d') (i : String) (hi : i ∈ K.intNames) (hik : K.kept i = false)
    (w : PyVal) (d'' : Dict) (hg : getattr K form d' i = .ok (w, d'')) :
    form d' i = some w ∧ d'' = form d' := by
  obtain ⟨ty, v0, v1, v2, -, -, -, -, rfl⟩ := setattr_name_inv h hv hn
  have hin : i ≠ name := by
    rintro rfl
    rw [kept_of_declared (Or.inl hn)] at hik; cases hik
  have hnone : (if allowed K name v0 = true then Dict.set (deleteInternal K d) name v2
      else deleteInternal K d) i = none := by
    clear hg
    split
    · rw [Dict.set_ne _ _ hin]; simp [deleteInternal, hik]
    · simp [deleteInternal, hik]
  generalize (if allowed K name v0 = true then Dict.set (deleteInternal K d) name v2
      else deleteInternal K d) = d1 at hg hnone ⊢
  unfold getattr at hg
  rw [hnone] at hg
  simp only [hi, if_true] at hg
  split at hg
  · cases hg
  · split at hg
    · split at hg
      · rename_i w' hw
        cases hg; exact ⟨hw, rfl⟩
      · cases hg
    · cases hg

/-- A stand-in for `Cell.form_object`: the "volume" is a function of `length_a`. -/
def demoForm : Dict → Dict := fun d => d.set "volume" ((d "length_a").getD .none)

example : "volume" ∈ cellDesc.intNames ∧ cellDesc.kept "volume" = false := by decide

/-- C05 fails for writes of `None`: after reading the derived quantity and then writing `None` to the
attribute it depends on, the old derived value is still served. -/
theorem derived_stale_after_none (E : PyEnv) :
    ∃ d1 d2 w, getattr cellDesc demoForm cell0 "volume" = .ok (w, d1) ∧
      setattr E cellDesc d1 "length_a" .none = .ok d2 ∧
      getattr cellDesc demoForm d2 "volume" = .ok (w, d2) ∧
      demoForm d2 "volume" ≠ some w := by
  have hc : cell0 "volume" = none := by decide
  have h1 : cell0 "length_a" = some (.num 1) := by decide
  have hnn : "volume" ∉ cellDesc.names ++ cellDesc.sigma ++ cellDesc.intProtected := by decide
  have hni : "volume" ∈ cellDesc.intNames := by decide
  have hdef : isDefined cellDesc cell0 = true := by decide
  have hf : demoForm cell0 "volume" = some (.num 1) := by simp [demoForm, Dict.set, h1]
  have hva : ("volume" : String) ≠ "length_a" := by decide
  refine ⟨demoForm cell0, (demoForm cell0).set "length_a" .none, .num 1, ?_, ?_, ?_, ?_⟩
  · unfold getattr; rw [hc]; simp only [hnn, hni, if_false, if_true, hdef, hf]
  · simp [setattr, isNoneLike]
  · unfold getattr; rw [Dict.set_ne _ _ hva, hf]
  · simp [demoForm, Dict.set]

/-- C05: a derived quantity that is not stored can be read exactly if the item is complete: all mandatory attributes are set (or,
in a class without mandatory attributes, at least one optional one) and the class computes the quantity. -/
theorem derived_readable_iff (K : ClassDesc) (form : Dict → Dict) (d : Dict) (i : String) (hi : i ∈ K.intNames)
    (hn : i ∉ K.names ++ K.sigma ++ K.intProtected) (h0 : d i = none) :
    (∃ w d', getattr K form d i = .ok (w, d')) ↔
      (((K.mandatory ≠ [] ∧ ∀ m ∈ K.mandatory, ∃ v, d m = some v) ∨
        (K.mandatory = [] ∧ ∃ o ∈ K.optional, ∃ v, d o = some v)) ∧ ∃ w, form d i = some w) := by
  have hdef : isDefined K d = true ↔ ((K.mandatory ≠ [] ∧ ∀ m ∈ K.mandatory, ∃ v, d m = some v) ∨
        (K.mandatory = [] ∧ ∃ o ∈ K.optional, ∃ v, d o = some v)) := by
    unfold isDefined hasAttr
    cases hm : K.mandatory with
    | nil => simp [Option.isSome_iff_exists]
    | cons a t => simp [Option.isSome_iff_exists]
  rw [← hdef]
  unfold getattr
  rw [h0]
  simp only [hn, hi, if_false, if_true]
  by_cases hd : isDefined K d = true
  · simp only [hd, if_true, true_and]
    cases form d i with
    | none => simp
    | some w => simp
  · simp [hd]

example : "volume" ∈ cellDesc.intNames ∧ "volume" ∉ cellDesc.names ++ cellDesc.sigma ++ cellDesc.intProtected ∧
    cell0 "volume" = none ∧ cellDesc.mandatory ≠ [] := by decide

end Cryspy.Item
