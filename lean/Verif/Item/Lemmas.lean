import Verif.Item.Spec

namespace Cryspy.Item

theorem Dict.set_self (d : Dict) (k v) : d.set k v k = some v := by simp [Dict.set]
theorem Dict.set_ne (d : Dict) {k x : String} (v) (h : x ≠ k) : d.set k v x = d x := by simp [Dict.set, h]

theorem kept_of_declared {K : ClassDesc} {n : String} (h : K.Declared n) : K.kept n = true := by
  unfold ClassDesc.Declared at h
  simp only [ClassDesc.kept, List.contains_iff_mem, List.mem_append, Bool.or_eq_true]
  tauto

theorem deleteInternal_declared {K : ClassDesc} {n : String} (h : K.Declared n) (d : Dict) :
    deleteInternal K d n = d n := by
  simp [deleteInternal, kept_of_declared h]

theorem allowed_iff {K : ClassDesc} {n : String} {v : PyVal} :
    allowed K n v = true ↔ K.Permitted n v := by
  unfold allowed ClassDesc.Permitted
  cases K.dConstraints.lookup n <;> simp

/-- Inversion of a successful write to a declared value attribute. -/
theorem setattr_name_inv {E K d name value d'} (h : setattr E K d name value = .ok d')
    (hv : isNoneLike value = false) (hn : name ∈ K.names) :
    ∃ ty v0 v1 v2, K.types[K.names.idxOf name]? = some ty ∧ coerce E ty value = some v0 ∧
      clampMin K name v0 = .ok v1 ∧ clampMax K name v1 = .ok v2 ∧
      d' = if allowed K name v0 then (deleteInternal K d).set name v2 else deleteInternal K d := by
  unfold setattr at h
  simp only [hv, hn, if_true, Bool.false_eq_true, if_false] at h
  split at h
  · cases h
  · rename_i ty hty
    split at h
    · cases h
    · rename_i v0 hc
      split at h
      · cases h
      · rename_i v1 h1
        split at h
        · cases h
        · rename_i v2 h2
          refine ⟨ty, v0, v1, v2, hty, hc, h1, h2, ?_⟩
          split at h <;> rename_i ha <;> simp [ha] at h ⊢ <;> exact h.symm

theorem clampMin_num {K name q v} (h : clampMin K name (.num q) = .ok v) :
    v = .num (clampQ (K.dMin.lookup name) none q) := by
  unfold clampMin at h
  unfold clampQ
  cases hl : K.dMin.lookup name with
  | none => simp [hl] at h ⊢; exact h.symm
  | some b =>
    simp only [hl, ltBound] at h ⊢
    by_cases hlt : q < b
    · simp [hlt] at h; rw [← h, max_eq_left hlt.le]
    · simp [hlt] at h; rw [← h, max_eq_right (not_lt.mp hlt)]

theorem clampMax_num {K name q v} (h : clampMax K name (.num q) = .ok v) :
    v = .num (clampQ none (K.dMax.lookup name) q) := by
  unfold clampMax at h
  unfold clampQ
  cases hl : K.dMax.lookup name with
  | none => simp [hl] at h ⊢; exact h.symm
  | some b =>
    simp only [hl, gtBound] at h ⊢
    by_cases hlt : b < q
    · simp [hlt] at h; rw [← h, min_eq_left hlt.le]
    · simp [hlt] at h; rw [← h, min_eq_right (not_lt.mp hlt)]

theorem clampQ_comp (lo hi : Option ℚ) (q : ℚ) :
    clampQ none hi (clampQ lo none q) = clampQ lo hi q := by
  cases lo <;> cases hi <;> rfl

theorem clampMin_ge {K name v w b} (h : clampMin K name v = .ok w) (hb : K.dMin.lookup name = some b)
    {q} (hw : w = .num q) : b ≤ q := by
  subst hw
  unfold clampMin at h
  simp only [hb] at h
  cases v with
  | num q' =>
    simp only [ltBound] at h
    by_cases hlt : q' < b
    · simp [hlt] at h; exact h.le
    · simp [hlt] at h; subst h; exact not_lt.mp hlt
  | nan => simp [ltBound] at h
  | bool v =>
    simp only [ltBound] at h
    by_cases hlt : (if v then (1:ℚ) else 0) < b
    · simp [hlt] at h; exact h.le
    · simp [hlt] at h
  | none => simp [ltBound] at h
  | str => simp [ltBound] at h

theorem clampMax_le {K name v w b} (h : clampMax K name v = .ok w) (hb : K.dMax.lookup name = some b)
    {q} (hw : w = .num q) : q ≤ b := by
  subst hw
  unfold clampMax at h
  simp only [hb] at h
  cases v with
  | num q' =>
    simp only [gtBound] at h
    by_cases hlt : b < q'
    · simp [hlt] at h; exact h.ge
    · simp [hlt] at h; subst h; exact not_lt.mp hlt
  | nan => simp [gtBound] at h
  | bool v =>
    simp only [gtBound] at h
    by_cases hlt : b < (if v then (1:ℚ) else 0)
    · simp [hlt] at h; exact h.ge
    · simp [hlt] at h
  | none => simp [gtBound] at h
  | str => simp [gtBound] at h

/-- The upper clamp either returns its argument or the upper bound. -/
theorem clampMax_cases {K name v w} (h : clampMax K name v = .ok w) :
    w = v ∨ ∃ b, K.dMax.lookup name = some b ∧ w = .num b := by
  unfold clampMax at h
  split at h
  · left; simpa using h.symm
  · rename_i b hb
    split at h
    · cases h
    · right; exact ⟨b, hb, by simpa using h.symm⟩
    · left; simpa using h.symm

theorem clampMin_id {K name v w} (h : clampMin K name v = .ok w) (hl : K.dMin.lookup name = none) :
    w = v := by
  unfold clampMin at h; simp [hl] at h; exact h.symm

theorem clampMax_id {K name v w} (h : clampMax K name v = .ok w) (hl : K.dMax.lookup name = none) :
    w = v := by
  unfold clampMax at h; simp [hl] at h; exact h.symm

/-- Frame: a write leaves the other declared names alone. -/
theorem setattr_frame' {E K d name value d'} (h : setattr E K d name value = .ok d')
    {x : String} (hx : x ≠ name) (hd : K.Declared x) : d' x = d x := by
  by_cases hv : isNoneLike value = true
  · unfold setattr at h; simp [hv] at h; subst h; exact Dict.set_ne _ _ hx
  · simp only [Bool.not_eq_true] at hv
    by_cases hn : name ∈ K.names
    · obtain ⟨ty, v0, v1, v2, -, -, -, -, rfl⟩ := setattr_name_inv h hv hn
      split
      · rw [Dict.set_ne _ _ hx, deleteInternal_declared hd]
      · rw [deleteInternal_declared hd]
    · unfold setattr at h
      simp only [hv, hn, if_false, Bool.false_eq_true] at h
      split at h
      · split at h
        · cases h
        · cases h; exact Dict.set_ne _ _ hx
      · split at h
        · cases h; exact Dict.set_ne _ _ hx
        · split at h <;> · cases h; exact Dict.set_ne _ _ hx

theorem setattr_flag {E K d f b} (hf : f ∈ K.refFlag) (hn : f ∉ K.names) (hs : f ∉ K.sigma) :
    setattr E K d f (.bool b) = .ok (d.set f (.bool b)) := by
  unfold setattr
  simp [isNoneLike, hn, hs, hf, truthy]

/-- One write keeps what is stored at a declared name, or puts a value there of a known form. -/
theorem setattr_value_cases {E K d name value d'} (h : setattr E K d name value = .ok d')
    {x : String} (hx : x ∈ K.names) :
    d' x = d x ∨ (x = name ∧ d' x = some .none) ∨
      (x = name ∧ ∃ v0 v1 v2, clampMin K x v0 = .ok v1 ∧ clampMax K x v1 = .ok v2 ∧
        allowed K x v0 = true ∧ d' x = some v2) := by
  by_cases hxn : x = name
  · subst hxn
    by_cases hv : isNoneLike value = true
    · right; left
      unfold setattr at h; simp [hv] at h; subst h; exact ⟨rfl, Dict.set_self _ _ _⟩
    · simp only [Bool.not_eq_true] at hv
      obtain ⟨ty, v0, v1, v2, -, -, h1, h2, rfl⟩ := setattr_name_inv h hv hx
      by_cases ha : allowed K x v0 = true
      · right; right
        exact ⟨rfl, v0, v1, v2, h1, h2, ha, by simp [ha, Dict.set_self]⟩
      · left; simp [ha, deleteInternal_declared (Or.inl hx : K.Declared x)]
  · left; exact setattr_frame' h hxn (Or.inl hx)

theorem variableAttrs_eq (d : Dict) : ∀ (l : List String),
    (∀ n ∈ l, (d (n ++ "_refinement")).isSome) →
    variableAttrs d (l.zip (l.map (· ++ "_refinement"))) = .ok (l.filter (Refined d))
  | [], _ => rfl
  | n :: ns, h => by
    have ih := variableAttrs_eq d ns (fun m hm => h m (List.mem_cons_of_mem _ hm))
    have hn := h n List.mem_cons_self
    obtain ⟨v, hv⟩ := Option.isSome_iff_exists.mp hn
    simp only [List.map_cons, List.zip_cons_cons, variableAttrs, flagVal, hv, ih,
      List.filter_cons, Refined]

theorem isVariables_eq (d : Dict) : ∀ (l : List String),
    (∀ n ∈ l, (d (n ++ "_refinement")).isSome) →
    isVariables d (l.zip (l.map (· ++ "_refinement"))) = .ok (l.any (Refined d))
  | [], _ => rfl
  | n :: ns, h => by
    have ih := isVariables_eq d ns (fun m hm => h m (List.mem_cons_of_mem _ hm))
    obtain ⟨v, hv⟩ := Option.isSome_iff_exists.mp (h n List.mem_cons_self)
    simp only [List.map_cons, List.zip_cons_cons, isVariables, flagVal, hv, List.any_cons, Refined]
    cases truthy v
    · simpa using ih
    · simp

theorem setMany_flags (E : PyEnv) (K : ClassDesc) (hK : K.WF) (b : Bool) :
    ∀ (l : List String) (d : Dict), (∀ n ∈ l, n ∈ K.ref) →
    ∃ d', setMany E K d (.bool b) (l.map fun n => (K.prefixName, n ++ "_refinement")) = .ok d' ∧
      ∀ x, d' x = if x ∈ l.map (· ++ "_refinement") then some (.bool b) else d x
  | [], d, _ => ⟨d, rfl, by simp⟩
  | n :: ns, d, h => by
    have hf : n ++ "_refinement" ∈ K.refFlag := by
      rw [hK.refFlag_eq]; exact List.mem_map_of_mem (h n List.mem_cons_self)
    obtain ⟨h1, h2⟩ := hK.flag_not_name _ hf
    obtain ⟨d', hd', hx⟩ := setMany_flags E K hK b ns (d.set (n ++ "_refinement") (.bool b))
      (fun m hm => h m (List.mem_cons_of_mem _ hm))
    refine ⟨d', ?_, fun x => ?_⟩
    · simp [setMany, setVariableByName, setattr_flag hf h1 h2, hd']
    · rw [hx x]
      simp only [List.map_cons, List.mem_cons]
      by_cases hxn : x = n ++ "_refinement"
      · simp [hxn, Dict.set]
      · simp [hxn, Dict.set]

theorem refinement_ne_constraint (m n : String) : m ++ "_refinement" ≠ n ++ "_constraint" := by
  intro h
  have h2 : (m ++ "_refinement").toList.reverse[2]? = (n ++ "_constraint").toList.reverse[2]? := by
    rw [h]
  rw [String.toList_append, String.toList_append, List.reverse_append, List.reverse_append,
    List.getElem?_append_left (by decide), List.getElem?_append_left (by decide)] at h2
  exact absurd h2 (by decide)

theorem append_ref_inj {m n : String} (h : m ++ "_refinement" = n ++ "_refinement") : m = n := by
  have h2 : (m ++ "_refinement").toList = (n ++ "_refinement").toList := by rw [h]
  simp [String.toList_append] at h2
  exact String.ext_iff.mpr (by simpa using h2)

theorem refineAll_spec (E : PyEnv) (K : ClassDesc) (hK : K.WF) :
    ∀ (l : List String) (d : Dict), (∀ n ∈ l, n ∈ K.ref) →
      (∀ n ∈ l, (d (n ++ "_constraint")).isSome) →
    ∃ d', refineAll E K d l = .ok d' ∧
      ∀ x, d' x = if x ∈ (l.filter (fun n => !Constrained d n)).map (· ++ "_refinement")
        then some (.bool true) else d x
  | [], d, _, _ => ⟨d, rfl, by simp⟩
  | n :: ns, d, h, hc => by
    have hf : n ++ "_refinement" ∈ K.refFlag := by
      rw [hK.refFlag_eq]; exact List.mem_map_of_mem (h n List.mem_cons_self)
    obtain ⟨h1, h2⟩ := hK.flag_not_name _ hf
    obtain ⟨v, hv⟩ := Option.isSome_iff_exists.mp (hc n List.mem_cons_self)
    have hCn : Constrained d n = truthy v := by simp [Constrained, hv]
    cases htv : truthy v with
    | true =>
      obtain ⟨d', hd', hx⟩ := refineAll_spec E K hK ns d (fun m hm => h m (List.mem_cons_of_mem _ hm))
        (fun m hm => hc m (List.mem_cons_of_mem _ hm))
      refine ⟨d', by simp [refineAll, flagVal, hv, htv, hd'], fun x => ?_⟩
      rw [hx x, List.filter_cons, hCn, htv]
      rfl
    | false =>
      have hset : ∀ m, (d.set (n ++ "_refinement") (.bool true)) (m ++ "_constraint")
          = d (m ++ "_constraint") :=
        fun m => Dict.set_ne _ _ (refinement_ne_constraint n m).symm
      obtain ⟨d', hd', hx⟩ := refineAll_spec E K hK ns (d.set (n ++ "_refinement") (.bool true))
        (fun m hm => h m (List.mem_cons_of_mem _ hm))
        (fun m hm => by rw [hset]; exact hc m (List.mem_cons_of_mem _ hm))
      refine ⟨d', by simp [refineAll, flagVal, hv, htv, setattr_flag hf h1 h2, hd'], fun x => ?_⟩
      have hC : ∀ m, Constrained (d.set (n ++ "_refinement") (.bool true)) m = Constrained d m := by
        intro m; simp only [Constrained, hset]
      rw [hx x, List.filter_cons]
      simp only [hC, hCn, htv, Bool.not_false, if_true, List.map_cons]
      by_cases hxn : x = n ++ "_refinement"
      · subst hxn
        rw [if_pos List.mem_cons_self, Dict.set_self]
        split <;> rfl
      · rw [Dict.set_ne _ _ hxn]
        by_cases hm : x ∈ List.map (fun x => x ++ "_refinement")
            (List.filter (fun n => !Constrained d n) ns)
        · rw [if_pos hm, if_pos (List.mem_cons_of_mem _ hm)]
        · rw [if_neg hm, if_neg (by intro hh; rcases List.mem_cons.mp hh with hh | hh
                                    · exact hxn hh
                                    · exact hm hh)]

end Cryspy.Item
