import Verif.SG.Op
import Verif.Gen.ITables

/-!
# Reading the table of space groups

Model of `read_el_cards`, cryspy/A_functions_base/function_2_space_group.py:46-82.
-/

namespace Cryspy.SG

open Cryspy.Text

/-! ## Reading itables.txt -/

/-- One card of the table of space groups. -/
structure Card where
  it : ℕ
  name : Str
  singony : Str
  fields : List (Str × List Str)

/-- `s.split(c)`. -/
def splitOnChar (c : Char) : Str → List Str
  | [] => [[]]
  | a :: s =>
    if a = c then [] :: splitOnChar c s
    else match splitOnChar c s with
      | [] => [[a]]
      | w :: ws => (a :: w) :: ws

/-- Append a value to the list of a key, function_2_space_group.py:74-77. -/
def addField (f : List (Str × List Str)) (k v : Str) : List (Str × List Str) :=
  if f.any (fun p => p.1 == k) then f.map fun p => if p.1 == k then (p.1, p.2 ++ [v]) else p
  else f ++ [(k, [v])]

/-- One line (already stripped, not empty) of the file, function_2_space_group.py:66-77: finished cards,
the open card. -/
def readLine (st : List Card × Option Card) (line : Str) : Option (List Card × Option Card) :=
  match words line with
  | [] => none
  | w :: ws =>
    if isDigits w then
      match ws with
      | n :: s :: _ => some ((match st.2 with | some c => st.1 ++ [c] | none => st.1), some ⟨natVal w, n, s, []⟩)
      | _ => none
    else
      match st.2, splitOnChar ':' line with
      | some c, k :: v :: _ => some (st.1, some { c with fields := addField c.fields (strip k) (strip v) })
      | _, _ => none

/-- `read_el_cards`, function_2_space_group.py:46-79, as a function of the lines of the file. -/
def readElCards (lines : List Str) : Option (List Card) :=
  match ((lines.map strip).filter (· ≠ [])).foldlM readLine ([], none) with
  | some (l, some c) => some (l ++ [c])
  | _ => none

/-- The lines of itables.txt. -/
def itablesLines : List Str := (itablesBlocks.flatten.flatten).map (·.toList)

/-- `EL_CARDS`, function_2_space_group.py:82. -/
def elCards : Option (List Card) := readElCards itablesLines

/-! ## Text of an operation -/

/-- The rows read from a text as an affine map. -/
def toAff (l : List (List ℚ × ℚ)) : Option Aff :=
  match l with
  | [([a, b, c], d), ([e, f, g], h), ([i, j, k], m)] => some ⟨![![a, b, c], ![e, f, g], ![i, j, k]], ![d, h, m]⟩
  | _ => none

/-- `transform_string_to_r_b(s, ("x", "y", "z"))`.  A text that does not have three components makes the
matrix products that follow raise, so it is `none` here. -/
def readOp (s : Str) : Option Aff := (stringToRB ['x', 'y', 'z'] s).bind toAff

end Cryspy.SG
