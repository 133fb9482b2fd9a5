import Verif.SG.Names
import Verif.SG.CodeProps

/-!
# The check of the names of all numbers
-/

namespace Cryspy.SG

open Cryspy.Text

/-- The code that stands for the standard setting: the default one, `h` for the trigonal groups with a primitive lattice. -/
def standardCode (n : ℕ) : Option Str := if n ∈ trigonalP then some ['h'] else defaultCode n

/-- What is checked of the names of a number. -/
def namesCheck (n : ℕ) : Bool :=
  let ok (k : ℕ) : Bool := (match resolveWith keyTables { alt := some k } with
      | some (some m, c) => m == n && decide (c = standardCode n)
      | _ => false) && (!isFull keyTables k || fullNumber keyTables k == some n)
  ok (kShort.getD (n - 1) 0) && match kFull.find? fun e => e.1 == n with
      | some e => ok e.2
      | none => true

set_option maxRecDepth 100000 in
theorem names_checked : ((List.range 230).all fun k => namesCheck (k + 1)) = true := by decide +kernel

end Cryspy.SG
