import Verif.SG.Model

/-!
# From the names of a space group to its number and setting

Model of `SpaceGroup.define_it_number_and_it_coordinate_system_code`,
cryspy/C_item_loop_classes/cl_2_space_group.py:168-229, and of the lookups by name in
function_2_space_group.py.  The program only compares names for equality: the definitions are for names of
any type, and the program is `resolve`, with the tables of the program and texts as names.
-/

namespace Cryspy.SG

open Cryspy.Text

/-- The tables of names: short Hermann–Mauguin, Hall, Schoenflies (in the order of the numbers), full and
extended Hermann–Mauguin with their numbers and codes. -/
structure NameTables (α : Type) where
  short : List α
  hall : List α
  schoenflies : List α
  full : List (ℕ × α)
  ext : List (ℕ × Option Str × α)

/-- What the user gave of a space group; `none`: the attribute is not set. -/
structure Given (α : Type) where
  number : Option ℕ := none
  code : Option Str := none
  alt : Option α := none
  ref : Option α := none
  hall : Option α := none
  schoenflies : Option α := none

section
variable {α : Type} [DecidableEq α]

/-- `table.index(name) + 1 if name in table else None`, function_2_space_group.py:436-457. -/
def numberOf (table : List α) (name : α) : Option ℕ := (table.findIdx? (· == name)).map (· + 1)

/-- `get_it_number_by_name_hm_full`, function_2_space_group.py:875-881. -/
def fullNumber (T : NameTables α) (name : α) : Option ℕ := (T.full.find? fun e => e.2 == name).map (·.1)

/-- `get_it_number_it_coordinate_system_codes_by_name_hm_extended`, function_2_space_group.py:758-770:
the number of the last entry with that name, all codes. -/
def extNumber (T : NameTables α) (name : α) : Option ℕ × List (Option Str) :=
  let l := T.ext.filter fun e => e.2.2 == name
  (l.getLast?.map (·.1), l.map (·.2.1))

/-- `get_type_hm`, function_2_space_group.py:1060-1068: is it a short name? -/
def isShort (T : NameTables α) (name : α) : Bool := T.short.any (· == name)
/-- Is it a full name? -/
def isFull (T : NameTables α) (name : α) : Bool := T.full.any (·.2 == name)
/-- Is it an extended name? -/
def isExtended (T : NameTables α) (name : α) : Bool := T.ext.any (·.2.2 == name)

/-- `auto_choose_it_coordinate_system_code` on a list that may hold `None` (it does only for the triclinic
groups, whose list has one entry). -/
def autoChooseO (n : ℕ) (codes : List (Option Str)) : Option Str :=
  match codes with
  | [c] => c
  | l => autoChoose n (l.filterMap id)

/-- The number and code of an extended name, cl_2_space_group.py:186-193. -/
def resolveExtended (T : NameTables α) (name : α) (code : Option Str) : Option ℕ × Option Str :=
  let r := extNumber T name
  if code ∈ r.2 then (r.1, code) else (r.1, autoChooseO (r.1.getD 0) r.2)

/-- Number and code before the final check; `none`: nothing is given, or (a name in none of the tables,
which the constraints on the attribute exclude) the variable is not assigned. -/
def resolveFirst (T : NameTables α) (g : Given α) : Option (Option ℕ × Option Str) :=
  match g.number, g.code, g.alt with
  | some n, some c, _ => some (some n, some c)
  | _, some c, some a =>
    if isFull T a then some (fullNumber T a, some c)
    else if isShort T a then some (numberOf T.short a, some c)
    else if isExtended T a then some (resolveExtended T a (some c))
    else none
  | _, none, some a =>
    if isExtended T a then some (resolveExtended T a none)
    else if isFull T a then some (fullNumber T a, none)
    else if isShort T a then some (numberOf T.short a, none)
    else none
  | num, code, none =>
    match g.ref, g.hall, num, g.schoenflies with
    | some r, _, _, _ => some (numberOf T.short r, code)
    | none, some h, _, _ => some (numberOf T.hall h, code)
    | none, none, some n, _ => some (some n, code)
    | none, none, none, some s => some (numberOf T.schoenflies s, code)
    | none, none, none, none => none

/-- `define_it_number_and_it_coordinate_system_code`, cl_2_space_group.py:168-229: a code that the number
does not have is replaced by the automatic choice.  (A number `None` has no codes.) -/
def resolveWith (T : NameTables α) (g : Given α) : Option (Option ℕ × Option Str) :=
  (resolveFirst T g).map fun r =>
    let codes := match r.1 with | some n => codesOf n | none => []
    match r.2 with
    | some c => if c ∈ codes then r else (r.1, autoChoose (r.1.getD 0) codes)
    | none => (r.1, autoChoose (r.1.getD 0) codes)

end

/-- The tables of the program. -/
def tables : NameTables Str where
  short := hmShort.map String.toList
  hall := hallShort.map String.toList
  schoenflies := schoenflies.map String.toList
  full := fullTable.map fun e => (e.1, e.2.toList)
  ext := extTable.map fun e => (e.1, e.2.1.map String.toList, e.2.2.toList)

/-- Number and code that the program gives. -/
def resolve (g : Given Str) : Option (Option ℕ × Option Str) := resolveWith tables g

end Cryspy.SG
