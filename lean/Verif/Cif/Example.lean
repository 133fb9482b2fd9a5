import Verif.Cif.LoopProps

/-!
# C63: the hypotheses are met by a cell
-/

namespace Cryspy.Cif

open Item

/-- `Cell`: cl_1_cell.py:34-107; the names in files are those of the attributes. -/
def cellCif : CifClass where
  K := cellDesc
  mandCif := ["length_a", "length_b", "length_c", "angle_alpha", "angle_beta", "angle_gamma"]
  optCif := []
  init := cell0

theorem cellCif_WF : cellCif.WF where
  base := cell_WF
  sigma_eq := by decide
  mark_eq := by decide
  ref_names := by decide
  names_nodup := by decide
  companion := by decide
  mand_len := by decide
  opt_len := by decide
  cif_ne := by decide
  cif_distinct := by decide +kernel

/-- numbers as Python writes integers -/
def env1 : TextEnv where
  parseFloat := fun _ => none
  parseInt := fun _ => none
  strOf := fun v => match v with
    | .num q => String.ofList (Text.intStr ⌊q⌋)
    | _ => "None"
  format := fun _ v => match v with
    | .num q => String.ofList (Text.intStr ⌊q⌋)
    | _ => "None"
  repr := fun q => Text.intStr ⌊q⌋
  fl := id

/-- a cell of which the first length is refined: 5.00(2) -/
def cell1 : Dict := ((cell0.set "length_a" (.num 5)).set "length_a_sigma" (.num (1 / 50))).set "length_a_refinement" (.bool true)

theorem cell1_saveable : Saveable env1 cellCif cell1 where
  defaults := by decide
  mandatory := by decide
  some_set := ⟨"length_a", by decide, by decide⟩
  texts := by
    intro n hn _
    have hl : ∀ n ∈ cellDesc.names, cellDesc.dConstraints.lookup n = none := by decide
    have hp : ∀ n ∈ cellDesc.names, ∀ q, cellDesc.Permitted n (.num q) := by
      intro n hn q l h
      rw [hl n hn] at h; cases h
    have hty : ∀ n ∈ cellDesc.names, cellDesc.types[cellDesc.names.idxOf n]? = some .float := by decide
    have hr : ∀ n ∈ cellDesc.names, n ∈ cellDesc.ref := by decide
    by_cases h : n = "length_a"
    · subst h
      obtain ⟨e, he, -⟩ := readAttr_refined (T := env1) (s := "5.000(20)") (q := 5) (e := 1 / 50) (m := []) cellCif_WF hn (hr _ hn)
        (hty _ hn) (hp _ hn) cellCif.init ⟨by simp, by simp, by simp⟩ (by decide +kernel)
      exact ⟨_, e, by decide +kernel, he⟩
    · have : ∃ s q, itemText env1 cell1 n = some s ∧ Text.readValue id s.toList = some (some q, none, []) := by
        have hn' : n ∈ ["length_b", "length_c", "angle_alpha", "angle_beta", "angle_gamma"] := by
          have : n ∈ cellDesc.names := hn
          revert h this
          simp only [show cellDesc.names = ["length_a", "length_b", "length_c", "angle_alpha", "angle_beta", "angle_gamma"] from rfl,
            List.mem_cons]
          tauto
        simp only [List.mem_cons, List.not_mem_nil, or_false] at hn'
        rcases hn' with rfl | rfl | rfl | rfl | rfl
        · exact ⟨"1", 1, by decide +kernel, by decide +kernel⟩
        · exact ⟨"1", 1, by decide +kernel, by decide +kernel⟩
        · exact ⟨"90", 90, by decide +kernel, by decide +kernel⟩
        · exact ⟨"90", 90, by decide +kernel, by decide +kernel⟩
        · exact ⟨"90", 90, by decide +kernel, by decide +kernel⟩
      obtain ⟨s, q, h1, h2⟩ := this
      obtain ⟨e, he, -⟩ := readAttr_number (T := env1) cellCif_WF hn (hr _ hn) (hty _ hn) (hp _ hn) cellCif.init h2
      exact ⟨s, e, h1, he⟩

/-- The refined cell is saved and loaded, and its length is again refined with a positive error. -/
example : ∃ d', Loaded env1 cellCif id "_" cell1 d' ∧ d' "length_a_refinement" = some (.bool true) := by
  have hk : KeepsAttributes cellCif.K id := fun _ _ _ => rfl
  obtain ⟨d', h⟩ := saved_is_loaded cellCif_WF hk (sep := "_") (Or.inl rfl) cell1_saveable
  have hp : ∀ q, cellDesc.Permitted "length_a" (.num q) := by
    intro q l hl
    have : cellDesc.dConstraints.lookup "length_a" = none := by decide
    rw [this] at hl; cases hl
  obtain ⟨v', σ', -, -, -, h2, -⟩ := saved_refined (m := "") (v := 5) (σ := 1 / 50) cellCif_WF hk (Or.inl rfl) rfl cell1_saveable h
    (n := "length_a") (by decide) (by decide) (by decide) hp (Or.inl ⟨by decide, by decide⟩) (by decide) (by decide) (by decide +kernel)
    (by decide) ⟨by decide, by decide, by decide⟩ (by norm_num) (Or.inl (by norm_num)) ⟨by decide +kernel, by decide +kernel⟩
  exact ⟨d', h, h2⟩

/-- A loop of two such items can be saved. -/
example : LoopSaveable env1 cellCif cell1 [cell1] where
  some_set := ⟨"length_a", by decide, by decide⟩
  texts := by
    intro x hx n hn hd
    have : x = cell1 := by simpa using hx
    subst this
    obtain ⟨s, e, h1, h2⟩ := cell1_saveable.texts n hn hd
    refine ⟨s, e, ?_, h2⟩
    rw [← h1]
    have : ∀ n ∈ cellDesc.names, asString env1 cell1 n = itemText env1 cell1 n := by decide +kernel
    exact this n hn

end Cryspy.Cif
