import Verif.SG.Model
import Verif.Symm.Spec

/-!
# What the texts of symmetry operations mean
-/

namespace Cryspy.SG

open Cryspy.Text Cryspy.Symm

/-- The text, read the way the program reads symmetry operations, is the map `x ↦ R x + b` of `e`. -/
def ReadsAs (s : Str) (e : Elem) : Prop :=
  ∃ a, readOp s = some a ∧ (∀ i j, a.R i j = e.r i j) ∧ ∀ i, a.b i = (e.bn i : ℚ) / e.bd

/-- The operations of a setting as the program gives them (`SpaceGroup.full_space_group_symop`), from the
file itables.txt; `none` if the program raises. -/
def symopTexts (n : ℕ) (code : Option Str) : Option (List Str) :=
  elCards.bind fun cards => fullSymop cards n code

/-- The program gives texts for the setting, and they mean the operations `G`. -/
def Operations (n : ℕ) (code : Option Str) (G : List Elem) : Prop :=
  ∃ texts, symopTexts n code = some texts ∧ List.Forall₂ ReadsAs texts G

/-- No operation twice. -/
def Distinct (G : List Elem) : Prop := G.Pairwise fun a b => ¬ SameOp a b

end Cryspy.SG
