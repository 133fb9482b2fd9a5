import Verif.Split.Props

/-!
# The classes that are registered
-/

namespace Cryspy.Split

/-- the registered classes have different prefixes and no empty names -/
theorem registered_proper : Proper registered := by
  have h : (∀ c ∈ registered, [] ∉ c.cif) ∧ (registered.map (·.pre)).Nodup := by decide +kernel
  exact h

/-- the prefixes and names of the table that begin (do not end) with an underscore or are in capital letters -/
theorem table_names : ∀ c ∈ registered, c.pre ≠ "space_group_Wyckoff".toList → lower c.pre = c.pre ∧ c.pre.head?.any (· != '_') ∧
    ∀ a ∈ c.cif, a.getLast?.any (fun x => x.toLower != '_') := by
  decide +kernel

/-- the names of a class are not names of a class with a shorter prefix -/
theorem table_pairs : ∀ c ∈ registered, ∀ d ∈ registered, d.pre.length < c.pre.length → d.pre.isPrefixOf c.pre = true →
    ∀ a ∈ c.cif, ∀ sep ∈ ['_', '.'], named (c.pre ++ sep :: lower a) d.pre d = false := by
  decide +kernel

theorem toLower_other {c : Char} (h : ¬ (c.val ≥ 'A'.val ∧ c.val ≤ 'Z'.val)) : c.toLower = c := by
  unfold Char.toLower
  rw [dif_neg h]

theorem toLower_idem (c : Char) : c.toLower.toLower = c.toLower := by
  by_cases h : c.val ≥ 'A'.val ∧ c.val ≤ 'Z'.val
  · have hv : c.toLower.val = c.val + ('a'.val - 'A'.val) := by
      unfold Char.toLower
      rw [dif_pos h]
    have hn : ¬ (c.toLower.val ≥ 'A'.val ∧ c.toLower.val ≤ 'Z'.val) := by
      rintro ⟨_, h2⟩
      rw [hv, UInt32.le_iff_toNat_le, UInt32.toNat_add] at h2
      obtain ⟨h3, h4⟩ := h
      rw [ge_iff_le, UInt32.le_iff_toNat_le] at h3
      rw [UInt32.le_iff_toNat_le] at h4
      have e1 : ('A'.val).toNat = 65 := by decide
      have e2 : ('Z'.val).toNat = 90 := by decide
      have e3 : ('a'.val - 'A'.val).toNat = 32 := by decide
      rw [e1] at h3
      rw [e2] at h2 h4
      rw [e3] at h2
      omega
    exact toLower_other hn
  · rw [toLower_other h, toLower_other h]

theorem strip_clean {s : Str} (h1 : s.head?.any (· != '_')) (h2 : s.getLast?.any (· != '_')) : strip ('_' :: s) = s := by
  cases s with
  | nil => simp at h1
  | cons x t =>
    have hx : (x == '_') = false := by simpa using h1
    unfold strip
    rw [List.dropWhile_cons_of_pos (by decide), List.dropWhile_cons_of_neg (by simp [hx])]
    obtain ⟨y, r, hr⟩ : ∃ y r, (x :: t).reverse = y :: r := by
      cases h : (x :: t).reverse with
      | nil => simp at h
      | cons y r => exact ⟨y, r, rfl⟩
    have hl : (x :: t).getLast? = some y := by
      rw [List.getLast?_eq_head?_reverse, hr]
      rfl
    rw [hl] at h2
    rw [hr, List.dropWhile_cons_of_neg (by simpa using h2), ← hr, List.reverse_reverse]

/-- every column of every class but one is recognised: all names of the table, with either separator -/
theorem registered_found {c : Cls} (hc : c ∈ registered) (hw : c.pre ≠ "space_group_Wyckoff".toList) {a : Str} (ha : a ∈ c.cif) {sep : Char}
    (hs : sep ∈ ['_', '.']) : assign registered (lower ('_' :: c.pre ++ sep :: a)) = some (c.pre, lower a, sep) := by
  obtain ⟨t1, t2, t3⟩ := table_names c hc hw
  have t3' := t3 a ha
  have hsep : sep.toLower = sep := by
    rcases List.mem_cons.1 hs with rfl | h
    · decide
    · rcases List.mem_cons.1 h with rfl | h
      · decide
      · cases h
  have e1 : lower ('_' :: c.pre ++ sep :: a) = '_' :: (c.pre ++ sep :: lower a) := by
    have h1 : List.map Char.toLower c.pre = c.pre := t1
    simp only [lower, List.map_append, List.map_cons, h1, hsep]
    rfl
  have e2 : strip (lower ('_' :: c.pre ++ sep :: a)) = c.pre ++ sep :: lower a := by
    rw [e1]
    apply strip_clean
    · cases hp : c.pre with
      | nil => rw [hp] at t2; simp at t2
      | cons x t => rw [hp] at t2; simpa using t2
    · rcases List.eq_nil_or_concat a with rfl | ⟨b, y, rfl⟩
      · simp at t3'
      · have e : c.pre ++ sep :: lower (b.concat y) = (c.pre ++ sep :: lower b) ++ [y.toLower] := by simp [lower]
        rw [e, List.getLast?_concat]
        simpa using t3'
  have hfit : Fits (strip (lower ('_' :: c.pre ++ sep :: a))) c := ⟨sep, lower a, e2, by
    have : lower (lower a) = lower a := by
      unfold lower
      rw [List.map_map]
      apply List.map_congr_left
      intro x _
      exact toLower_idem x
    rw [this]
    exact List.mem_map_of_mem ha⟩
  unfold assign
  rcases find_spec registered_proper (lower ('_' :: c.pre ++ sep :: a)) with ⟨_, h⟩ | ⟨d, hd, ⟨sep', name, hs', hn', h⟩, hmin⟩
  · exact absurd hfit (h c hc)
  · rw [h]
    have hle := hmin c hc hfit
    rw [e2] at hs'
    have hlen : c.pre.length = d.pre.length := by
      apply Nat.le_antisymm _ hle
      by_contra hlt
      have hlt' : d.pre.length < c.pre.length := by omega
      have hpre : d.pre <+: c.pre := by
        apply List.prefix_of_prefix_length_le (l₃ := c.pre ++ sep :: lower a) ⟨_, hs'.symm⟩ ⟨_, rfl⟩ hle
      have := table_pairs c hc d hd hlt' (List.isPrefixOf_iff_prefix.2 hpre) a ha sep hs
      have hf : Fits (c.pre ++ sep :: lower a) d := ⟨sep', name, hs', hn'⟩
      rw [((fits_iff registered_proper hd _).2 hf).2] at this
      cases this
    obtain ⟨h1, h2⟩ := List.append_inj hs' hlen
    cases h2
    rw [h1]

/-- so a column of a file named as the table says, in any case, comes into the loop of its class -/
theorem registered_place {α : Type} (cols : List (Str × List α)) {l : List (Col α)} (hl : assignAll registered cols = some l) {c : Cls}
    (hc : c ∈ registered) (hw : c.pre ≠ "space_group_Wyckoff".toList) {a : Str} (ha : a ∈ c.cif) {sep : Char} (hs : sep ∈ ['_', '.'])
    {col : Str × List α} (hcol : col ∈ cols) (hn : lower col.1 = lower ('_' :: c.pre ++ sep :: a)) : (lower col.1, col.2) ∈ own l c.pre := by
  obtain ⟨l', h1, h2, h3⟩ := assignAll_spec registered_proper cols
  rw [hl] at h1
  cases h1
  have : (lower col.1, col.2) ∈ l.map fun c => (c.name, c.vals) := by rw [h2]; exact List.mem_map_of_mem hcol
  obtain ⟨b, hb, he⟩ := List.mem_map.1 this
  have hb' := h3 b hb
  rw [show b.name = lower col.1 from congrArg Prod.fst he, hn, registered_found hc hw ha hs] at hb'
  have hpre : c.pre = b.pre := congrArg Prod.fst (Option.some.inj hb')
  exact List.mem_map.2 ⟨b, List.mem_filter.2 ⟨hb, by simp [hpre]⟩, he⟩

/-- defect: the loop of the Wyckoff positions is never recognised: its prefix has a capital letter and the names are taken in lower case -/
theorem wyckoff_never (ln : Str) {c : Cls} (hc : c.pre = "space_group_Wyckoff".toList) : ¬ Fits (strip (lower ln)) c := by
  rintro ⟨sep, name, h, _⟩
  have hW : 'W' ∈ strip (lower ln) := by
    rw [h, hc]
    exact List.mem_append_left _ (by decide)
  have hsub : ∀ x ∈ strip (lower ln), x ∈ lower ln := by
    intro x hx
    unfold strip at hx
    rw [List.mem_reverse] at hx
    have h1 := (List.dropWhile_sublist _).subset hx
    rw [List.mem_reverse] at h1
    exact (List.dropWhile_sublist _).subset h1
  obtain ⟨y, _, hy⟩ := List.mem_map.1 (hsub _ hW)
  have h2 : y.toLower.toLower = 'W'.toLower := by rw [hy]
  rw [toLower_idem, hy] at h2
  exact absurd h2 (by decide)

/-- it becomes a loop of the unknown prefix `space` -/
theorem wyckoff_read_as : assign registered "_space_group_wyckoff_letter".toList = some ("space".toList, "group_wyckoff_letter".toList, '_') := by
  decide +kernel

/-! ## Instances -/

/-- one loop with columns of positions, displacements and moments -/
def mixed : List (Str × List ℕ) := [("_atom_site_label".toList, [1, 2]), ("_atom_site_fract_x".toList, [3, 4]), ("_atom_site_aniso_U_11".toList, [5, 6]),
  ("_atom_site_moment.crystalaxis_x".toList, [7, 8])]

/-- it becomes three loops, each with the label -/
theorem example_mixed : split registered mixed ["atom_site".toList, "atom_site_aniso".toList, "atom_site_moment".toList] =
    some [("atom_site".toList, [("_atom_site_label".toList, [1, 2]), ("_atom_site_fract_x".toList, [3, 4])]),
      ("atom_site_aniso".toList, [("_atom_site_aniso_u_11".toList, [5, 6]), ("_atom_site_aniso_label".toList, [1, 2])]),
      ("atom_site_moment".toList, [("_atom_site_moment.crystalaxis_x".toList, [7, 8]), ("_atom_site_moment.label".toList, [1, 2])])] := by
  decide +kernel

/-- defect: when two groups of columns bring their own label, the label of the last one is copied to the others, which then have it twice -/
theorem label_twice : split registered [("_atom_site_label".toList, [1, 2]), ("_atom_site_fract_x".toList, [3, 4]),
      ("_atom_site_aniso_label".toList, [10, 20]), ("_atom_site_aniso_U_11".toList, [5, 6])] ["atom_site".toList, "atom_site_aniso".toList] =
    some [("atom_site".toList, [("_atom_site_label".toList, [1, 2]), ("_atom_site_fract_x".toList, [3, 4]), ("_atom_site_label".toList, [10, 20])]),
      ("atom_site_aniso".toList, [("_atom_site_aniso_label".toList, [10, 20]), ("_atom_site_aniso_u_11".toList, [5, 6])])] := by
  decide +kernel

/-- any character is taken as separator -/
theorem any_separator : assign registered "_atom_site#label".toList = some ("atom_site".toList, "label".toList, '#') := by decide +kernel

end Cryspy.Split
