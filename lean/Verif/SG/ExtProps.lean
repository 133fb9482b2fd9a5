import Verif.SG.NameProps

/-!
# Extended Hermann–Mauguin names (C53)
-/

namespace Cryspy.SG

open Cryspy.Text

/-- Entries with the same name belong to the same number (numbers 1 and 2 left out). -/
def sameNumber : List (ℕ × Option String × ℕ) → Bool
  | [] => true
  | e :: l => l.all (fun f => !Nat.beq e.2.2 f.2.2 || (Nat.beq e.1 f.1 || Nat.ble f.1 2)) && sameNumber l

/-- No two entries have the same number and code. -/
def uniqueCode : List (ℕ × Option String × ℕ) → Bool
  | [] => true
  | e :: l => l.all (fun f => !Nat.beq e.1 f.1 || !decide (e.2.1 = f.2.1)) && uniqueCode l

set_option maxRecDepth 100000 in
theorem ext_sameNumber : sameNumber kExt = true := by decide +kernel

set_option maxRecDepth 100000 in
theorem ext_uniqueCode : uniqueCode kExt = true := by decide +kernel

set_option maxRecDepth 100000 in
/-- The codes of the table are offered codes, but for the trigonal groups with a primitive lattice. -/
theorem ext_codes : (extTable.all fun e => decide (e.1 ∈ trigonalP) || decide (e.2.1.map String.toList ∈ settingsOf e.1)) = true := by
  decide +kernel

set_option maxRecDepth 100000 in
theorem ext_ge3 : ((extTable.drop 2).all fun e => decide (3 ≤ e.1 ∧ e.1 ≤ 230 ∧ e.2.1 ≠ none)) = true ∧
    (extTable.take 2) = [(1, none, "P 1 1 1"), (2, none, "P 1 1 1")] := by
  decide +kernel

theorem sameNumber_pairwise : ∀ {l : List (ℕ × Option String × ℕ)}, sameNumber l = true →
    l.Pairwise fun e f => e.2.2 = f.2.2 → e.1 = f.1 ∨ f.1 ≤ 2
  | [], _ => .nil
  | e :: l, h => by
    simp only [sameNumber, Bool.and_eq_true] at h
    refine .cons (fun f hf he => ?_) (sameNumber_pairwise h.2)
    have := List.all_eq_true.1 h.1 f hf
    rw [he, Nat.beq_refl, Bool.not_true, Bool.false_or, Bool.or_eq_true] at this
    rcases this with h | h
    · exact Or.inl (Nat.eq_of_beq_eq_true h)
    · exact Or.inr (Nat.le_of_ble_eq_true h)

theorem uniqueCode_pairwise : ∀ {l : List (ℕ × Option String × ℕ)}, uniqueCode l = true →
    l.Pairwise fun e f => ¬ (e.1 = f.1 ∧ e.2.1 = f.2.1)
  | [], _ => .nil
  | e :: l, h => by
    simp only [uniqueCode, Bool.and_eq_true] at h
    refine .cons (fun f hf he => ?_) (uniqueCode_pairwise h.2)
    have := List.all_eq_true.1 h.1 f hf
    rw [he.1, Nat.beq_refl, Bool.not_true, Bool.false_or] at this
    simp [he.2] at this

theorem pairwise_mem {α : Type} {R : α → α → Prop} {l : List α} (h : l.Pairwise R) {a b : α} (ha : a ∈ l) (hb : b ∈ l) :
    a = b ∨ R a b ∨ R b a := by
  induction h with
  | nil => cases ha
  | cons h _ ih =>
    rcases List.mem_cons.1 ha with rfl | ha'
    · rcases List.mem_cons.1 hb with rfl | hb'
      · exact Or.inl rfl
      · exact Or.inr (Or.inl (h _ hb'))
    · rcases List.mem_cons.1 hb with rfl | hb'
      · exact Or.inr (Or.inr (h _ ha'))
      · exact ih ha' hb'

theorem key_toList {s t : String} (h : key s.toList = key t.toList) : s = t :=
  String.toList_inj.1 (key_injective h)

theorem ext_number_unique {e f : ℕ × Option String × String} (he : e ∈ extTable) (hf : f ∈ extTable) (he3 : 3 ≤ e.1)
    (hn : e.2.2 = f.2.2) (hf3 : 3 ≤ f.1) : e.1 = f.1 := by
  have hp := sameNumber_pairwise ext_sameNumber
  rw [← kExt_eq, List.pairwise_map] at hp
  rcases pairwise_mem hp he hf with rfl | h | h
  · rfl
  · rcases h (by rw [hn]) with h | h
    · exact h
    · simp only at h; omega
  · rcases h (by rw [hn]) with h | h
    · exact h.symm
    · simp only at h; omega

theorem ext_unique {e f : ℕ × Option String × String} (he : e ∈ extTable) (hf : f ∈ extTable) (h1 : e.1 = f.1)
    (h2 : e.2.1 = f.2.1) : e = f := by
  have hp := uniqueCode_pairwise ext_uniqueCode
  rw [← kExt_eq, List.pairwise_map] at hp
  rcases pairwise_mem hp he hf with rfl | h | h
  · rfl
  · exact absurd ⟨h1, h2⟩ h
  · exact absurd ⟨h1.symm, h2.symm⟩ h

theorem extName_of_mem {e : ℕ × Option String × String} (he : e ∈ extTable) :
    extName e.1 (e.2.1.map String.toList) = some e.2.2.toList := by
  unfold extName
  have hs : (extTable.find? fun f => f.1 == e.1 && f.2.1.map String.toList == e.2.1.map String.toList).isSome = true := by
    rw [List.find?_isSome]
    exact ⟨e, he, by simp⟩
  obtain ⟨f, hf⟩ := Option.isSome_iff_exists.1 hs
  have hp := List.find?_some hf
  have hm := List.mem_of_find?_eq_some hf
  simp only [Bool.and_eq_true, beq_iff_eq] at hp
  have h2 : f.2.1 = e.2.1 := by
    have := hp.2
    cases h3 : f.2.1 <;> cases h4 : e.2.1 <;> rw [h3, h4] at this <;> simp at this
    rw [String.toList_inj.1 this]
  have := ext_unique hm he hp.1 h2
  rw [hf, this]
  rfl

theorem extName_mem {n : ℕ} {c : Option Str} {s : Str} (h : extName n c = some s) :
    ∃ e ∈ extTable, e.1 = n ∧ e.2.1.map String.toList = c ∧ e.2.2.toList = s := by
  unfold extName at h
  obtain ⟨e, he, rfl⟩ := Option.map_eq_some_iff.1 h
  have hp := List.find?_some he
  simp only [Bool.and_eq_true, beq_iff_eq] at hp
  exact ⟨e, List.mem_of_find?_eq_some he, hp.1, hp.2, rfl⟩

theorem ext_three {e : ℕ × Option String × String} (he : e ∈ extTable) (h : e.2.2 ≠ "P 1 1 1") : 3 ≤ e.1 ∧ e.1 ≤ 230 ∧ e.2.1 ≠ none := by
  rw [← List.take_append_drop 2 extTable, List.mem_append, ext_ge3.2] at he
  rcases he with he | he
  · simp only [List.mem_cons, List.not_mem_nil, or_false] at he
    rcases he with rfl | rfl <;> exact absurd rfl h
  · exact of_decide_eq_true (List.all_eq_true.1 ext_ge3.1 e he)

/-- The name that numbers 1 and 2 share is nobody else's. -/
theorem p111_only : (extTable.all fun e => decide (e.2.2 = "P 1 1 1" → e.1 ≤ 2)) = true := by decide +kernel

/-- C53: an extended name (other than `P 1 1 1`) belongs to one number only; given alone it leads to this number, and to a setting that
has this very name; for the trigonal groups with a primitive lattice the setting is `h`. -/
theorem resolve_extended {n : ℕ} {c : Option Str} {s : Str} (h : extName n c = some s) (hs : s ≠ "P 1 1 1".toList) :
    ∃ d, resolve { alt := some s } = some (some n, d) ∧ (n ∉ trigonalP → extName n d = some s) ∧ (n ∈ trigonalP → d = some ['h']) := by
  obtain ⟨e, he, rfl, hc, rfl⟩ := extName_mem h
  have hne : e.2.2 ≠ "P 1 1 1" := fun h' => hs (by rw [h'])
  have h3 := ext_three he hne
  have hall : ∀ f ∈ extTable, f.2.2.toList = e.2.2.toList → f.1 = e.1 := by
    intro f hf hfe
    have hfe := String.toList_inj.1 hfe
    exact (ext_number_unique he hf h3.1 hfe.symm (ext_three hf (by rw [hfe]; exact hne)).1).symm
  -- the entries with this name
  let l := tables.ext.filter fun f => f.2.2 == e.2.2.toList
  have hmem : ∀ f ∈ l, ∃ g ∈ extTable, f = (g.1, g.2.1.map String.toList, g.2.2.toList) ∧ g.2.2.toList = e.2.2.toList := by
    intro f hf
    obtain ⟨hf1, hf2⟩ := List.mem_filter.1 hf
    obtain ⟨g, hg, rfl⟩ := List.mem_map.1 hf1
    exact ⟨g, hg, rfl, eq_of_beq hf2⟩
  have hel : (e.1, e.2.1.map String.toList, e.2.2.toList) ∈ l :=
    List.mem_filter.2 ⟨List.mem_map_of_mem he, by simp⟩
  have hlast : l.getLast?.map (·.1) = some e.1 := by
    obtain ⟨x, hx⟩ : ∃ x, l.getLast? = some x := by
      cases hl : l.getLast? with
      | none => rw [List.getLast?_eq_none_iff] at hl; rw [hl] at hel; cases hel
      | some x => exact ⟨x, rfl⟩
    rw [hx]
    obtain ⟨g, hg, rfl, hgs⟩ := hmem x (List.mem_of_getLast? hx)
    simp [hall g hg hgs]
  have hext : extNumber tables e.2.2.toList = (some e.1, l.map (·.2.1)) := by
    have hfl : (tables.ext.filter fun f => @BEq.beq _ instBEqOfDecidableEq f.2.2 e.2.2.toList) = l := by
      apply List.filter_congr
      intro f _
      have e1 : (@BEq.beq _ instBEqOfDecidableEq f.2.2 e.2.2.toList = true) ↔ f.2.2 = e.2.2.toList := decide_eq_true_iff
      rw [Bool.eq_iff_iff, e1]
      exact beq_iff_eq.symm
    unfold extNumber
    dsimp only
    rw [hfl, hlast]
  have hisext : isExtended tables e.2.2.toList = true := by
    unfold isExtended
    rw [List.any_eq_true]
    exact ⟨_, List.mem_map_of_mem he, by simp⟩
  have hsome : ∀ x ∈ l.map (·.2.1), x ≠ none := by
    intro x hx
    obtain ⟨f, hf, rfl⟩ := List.mem_map.1 hx
    obtain ⟨g, hg, rfl, hgs⟩ := hmem f hf
    have := (ext_three hg (by rw [String.toList_inj.1 hgs]; exact hne)).2.2
    simpa using this
  -- the code chosen is one of the entries
  have hcode : autoChooseO e.1 (l.map (·.2.1)) ∈ l.map (·.2.1) := by
    unfold autoChooseO
    split
    · rename_i c' hl'
      rw [hl']; simp
    · rename_i m hne1
      have hnil : ((l.map (·.2.1)).filterMap id) ≠ [] := by
        intro hnil
        have : (e.2.1.map String.toList) ∈ l.map (·.2.1) := List.mem_map.2 ⟨_, hel, rfl⟩
        cases hx : e.2.1.map String.toList with
        | none => exact hsome _ this hx
        | some y =>
          have : y ∈ (l.map (·.2.1)).filterMap id := List.mem_filterMap.2 ⟨some y, by rw [← hx]; exact this, rfl⟩
          rw [hnil] at this
          cases this
      cases ha : autoChoose e.1 ((l.map (·.2.1)).filterMap id) with
      | none => exact absurd ((auto_none _ _).1 ha) hnil
      | some y =>
        obtain ⟨x, hx, hx'⟩ := List.mem_filterMap.1 (auto_mem _ _ ha)
        simp only [id] at hx'
        rw [← hx']
        exact hx
  have hfirst : resolveFirst tables { alt := some e.2.2.toList } = some (some e.1, autoChooseO e.1 (l.map (·.2.1))) := by
    unfold resolveFirst
    simp only [hisext, if_true]
    unfold resolveExtended
    rw [hext]
    have : (none : Option Str) ∉ l.map (·.2.1) := fun h => hsome _ h rfl
    simp only [this, if_false, Option.getD_some]
  obtain ⟨f, hf, hfc⟩ := List.mem_map.1 hcode
  obtain ⟨g, hg, rfl, hgs⟩ := hmem f hf
  simp only at hfc
  have hgn := hall g hg hgs
  have hext' : extName e.1 (g.2.1.map String.toList) = some e.2.2.toList := by
    rw [← hgn, ← hgs]; exact extName_of_mem hg
  have hcodes := List.all_eq_true.1 ext_codes g hg
  rw [hgn] at hcodes
  simp only [Bool.or_eq_true, decide_eq_true_eq] at hcodes
  by_cases ht : e.1 ∈ trigonalP
  · obtain ⟨-, -, hco⟩ := default_not_offered ht
    refine ⟨some ['h'], ?_, fun h => absurd ht h, fun _ => rfl⟩
    unfold resolve resolveWith
    rw [hfirst, Option.map_some]
    cases hd : autoChooseO e.1 (l.map (·.2.1)) with
    | none => simp only [Option.getD_some, hco]; rfl
    | some d =>
      simp only [Option.getD_some, hco]
      by_cases hdh : d ∈ [['h']]
      · rw [if_pos hdh, List.mem_singleton.1 hdh]
      · rw [if_neg hdh]; rfl
  · have hcodes := hcodes.resolve_left ht
    refine ⟨g.2.1.map String.toList, ?_, fun _ => hext', fun h => absurd h ht⟩
    unfold resolve resolveWith
    rw [hfirst, Option.map_some, ← hfc]
    cases hd : g.2.1.map String.toList with
    | none => exact absurd hd (by rw [hfc]; exact hsome _ hcode)
    | some d =>
      rw [hd] at hcodes
      unfold settingsOf at hcodes
      split_ifs at hcodes with hnil
      · simp at hcodes
      · obtain ⟨d', hd', e'⟩ := List.mem_map.1 hcodes
        cases e'
        simp only [hd', if_true]

/-- C53 is false for numbers 1 and 2: both have the extended name `P 1 1 1`, and the number found is 2. -/
theorem extended_triclinic : extName 1 none = some "P 1 1 1".toList ∧ extName 2 none = some "P 1 1 1".toList ∧
    resolve { alt := some "P 1 1 1".toList } = some (some 2, none) := by
  refine ⟨by decide +kernel, by decide +kernel, ?_⟩
  rw [resolve_eq]
  have : (resolveWith keyTables (Given.map key { alt := some "P 1 1 1".toList })) = some (some 2, none) := by decide +kernel
  exact this

/-- C53: full names and numbers determine each other; the monoclinic groups (numbers 3 to 15) have no full name. -/
theorem fullName_none {n : ℕ} (h1 : 1 ≤ n) (h2 : n ≤ 230) : fullName n = none ↔ 3 ≤ n ∧ n ≤ 15 :=
  of_decide_eq_true (forall_number (p := fun n => decide (fullName n = none ↔ 3 ≤ n ∧ n ≤ 15)) (by decide +kernel) h1 h2)

example : nameOf hmShort 225 = some "F m -3 m".toList ∧ fullName 225 = some "F 4/m -3 2/m".toList ∧ 1 ≤ 225 ∧
    extName 62 (some "cab".toList) = some "P b n m".toList ∧ "1cab".toList ∈ codesOf 70 ∧ standardCode 225 = some ['1'] := by
  decide +kernel

end Cryspy.SG
