import Verif.Symm.Model
import Verif.CellConstr.Model

/-!
# The cell type found from the symmetry operations of a magnetic crystal

`define_centring_type_by_symm_elems`, `define_bravais_type_by_symm_elems`, A_functions_base/symmetry_elements.py:288-414, and their use in
`Crystal.get_dictionary`, E_data_classes/cl_1_crystal.py:653-678.
-/

namespace Cryspy.Bravais

open Cryspy.Symm Cryspy.CellConstr

/-- the identity -/
def one : M3 := ![![1, 0, 0], ![0, 1, 0], ![0, 0, 1]]
/-- the inversion -/
def inv : M3 := ![![-1, 0, 0], ![0, -1, 0], ![0, 0, -1]]

/-- equality of two columns, entry by entry -/
def eqM (a b : M3) : Bool :=
  (decide (a 0 0 = b 0 0) && decide (a 0 1 = b 0 1) && decide (a 0 2 = b 0 2)) && (decide (a 1 0 = b 1 0) && decide (a 1 1 = b 1 1) &&
  decide (a 1 2 = b 1 2)) && (decide (a 2 0 = b 2 0) && decide (a 2 1 = b 2 1) && decide (a 2 2 = b 2 2))

/-- centring types of the library -/
inductive Centring | P | A | B | C | F | H | I | R | Rrev
deriving DecidableEq

/-- `numpy.any(numpy.all(symm_elems[:13, :] == elem, axis=0))` with the translation `(x, y, z)/d` and no rotation, symmetry_elements.py:291-311 -/
def hasShift (l : List Elem) (x y z d : ℤ) : Bool :=
  l.any fun e => decide (e.bn 0 = x) && decide (e.bn 1 = y) && decide (e.bn 2 = z) && decide (e.bd = d) && eqM e.r one

/-- `define_centring_type_by_symm_elems`, symmetry_elements.py:288-336 -/
def centring (l : List Elem) : Centring :=
  let fI := hasShift l 1 1 1 2
  let fA := hasShift l 0 1 1 2
  let fB := hasShift l 1 0 1 2
  let fC := hasShift l 1 1 0 2
  if fA && fB && fC then .F
  else if hasShift l 2 1 0 3 && hasShift l 1 2 0 3 then .H
  else if hasShift l 2 1 1 3 && hasShift l 1 2 2 3 then .R
  else if hasShift l 1 2 1 3 && hasShift l 2 1 2 3 then .Rrev
  else if fI then .I
  else if fA then .A
  else if fB then .B
  else if fC then .C
  else .P

/-- `d_centring_type`, symmetry_elements.py:349 -/
def Centring.number : Centring → ℕ
  | .P => 1 | .A => 2 | .B => 2 | .C => 2 | .F => 4 | .H => 3 | .I => 2 | .R => 3 | .Rrev => 3

/-- `centring_type[0]` -/
def Centring.letter : Centring → Char
  | .P => 'P' | .A => 'A' | .B => 'B' | .C => 'C' | .F => 'F' | .H => 'H' | .I => 'I' | .R => 'R' | .Rrev => 'R'

/-- the letter after `o` or `m`, symmetry_elements.py:396-405 -/
def Centring.letterS (c : Centring) : Char := if c = .P ∨ c = .I ∨ c = .F then c.letter else 'S'

/-- has an operation this entry of its rotation, symmetry_elements.py:358-363 -/
def hasEntry (l : List Elem) (i j : Fin 3) : Bool := l.any fun e => decide (e.r i j ≠ 0)

/-- the inversion, with any translation, symmetry_elements.py:342-345 -/
def centro (l : List Elem) : Bool := l.any fun e => eqM e.r inv

/-- the decision, symmetry_elements.py:373-414: `n` is `n_elems`; nothing for the type is `None`; the code is `None` where it is empty here -/
def typeOf (c : Centring) (n : ℕ) (mixed : Bool) : Option (List Char) × List Char :=
  let rhomb := mixed && decide (c = .P) && decide (n = 6)
  if mixed && !rhomb then (some ['c', c.letter], [])
  else if rhomb then (some ['h', c.letter], ['r'])
  else if n = 8 then (some ['t', c.letter], [])
  else if n = 4 then (some ['o', c.letterS], [])
  else if n = 2 then (some ['m', c.letterS], [])
  else if n = 1 then (some ['a', c.letter], [])
  else if n % 3 = 0 then (some ['h', c.letter], ['h'])
  else (none, [])

/-- `define_bravais_type_by_symm_elems`, symmetry_elements.py:339-414; `none` on the outside is the `UserWarning` -/
def bravais (l : List Elem) : Option (Option (List Char) × List Char) :=
  let c := centring l
  let k := (if centro l then 2 else 1) * c.number
  let mixed := hasEntry l 0 1 && hasEntry l 0 2 && hasEntry l 1 0 && hasEntry l 1 2 && hasEntry l 2 0 && hasEntry l 2 1
  if l.length % k ≠ 0 then none else some (typeOf c (l.length / k) mixed)

/-- the cell of a magnetic crystal that has no type yet, cl_1_crystal.py:664-667 and 669-675 (the numbers of the dictionary are those of the cell,
`CellConstr.dictionary_agrees`); `none` is an exception, the warning or the `AttributeError` of `None.startswith` -/
def constrain (l : List Elem) (p : Fin 6 → Par) : Option (Fin 6 → Par) :=
  match bravais l with
  | some (some t, code) => some (applyConstraint p t code)
  | _ => none

end Cryspy.Bravais
