import Verif.SG.GroupSound

/-!
# The settings that the program offers, and the check of one of them
-/

namespace Cryspy.SG

open Cryspy.Text Cryspy.Symm

/-- The settings offered for a number: the codes of the list, or none at all if the list is empty. -/
def settingsOf (n : ℕ) : List (Option Str) := if codesOf n = [] then [none] else (codesOf n).map some

/-- Is the setting one of a table? -/
def inTable (tab : List (ℕ × List String)) (n : ℕ) (code : Option Str) : Bool :=
  tab.any fun e => e.1 == n && e.2.any fun s => some s.toList == code

/-- The settings whose second and third cell choices have no card. -/
def noCard23 : List String := ["b2", "c2", "a2", "b3", "c3", "a3", "-b2", "-c2", "-a2", "-b3", "-c3", "-a3"]

/-- The settings for which the program raises: no card in itables.txt (3–13, 15), no axes for the code
(`1a-cb`), an operation with a comma too many (228, the default setting). -/
def raising : List (ℕ × List String) :=
  [3, 4, 5, 6, 7, 8, 9, 10, 11, 13, 15].map (·, noCard23) ++ [(12, ["b2", "c2", "a2", "-b2", "-c2", "-a2"])] ++
    [48, 50, 59, 68, 70].map (·, ["1a-cb"]) ++ [(228, ["2"])]

/-- The settings whose operations are not a group: the first origin of number 48. -/
def broken : List (ℕ × List String) := [(48, ["1abc", "1ba-c", "1cab", "1-cba", "1bca"])]

/-- Not a product of the list. -/
def notClosed (l : List Op) : Bool :=
  let L := l.map Op.res
  L.any fun a => L.any fun b => !inH L [⟨0, 0, 0⟩] (a.mul b)

/-- Everything that is checked of a setting. -/
def settingCheck (n : ℕ) (code : Option Str) : Bool :=
  match numFull n code with
  | none => inTable raising n code
  | some p => !inTable raising n code && ((p.1.all Op.small && (expand p.1 p.2).all Op.small) &&
      (if inTable broken n code then notClosed (expand p.1 p.2) else groupCheck' p))

/-- The check of all settings of the numbers `a ≤ n < b`. -/
def rangeCheck (a b : ℕ) : Bool := (pyRange a b).all fun n => (settingsOf n).all (settingCheck n)

end Cryspy.SG
