import Verif.Gen.LoopClasses
import Mathlib.Data.List.Basic

/-!
# A loop of a file becomes objects: columns are shared out by prefix

`find_name_prefix` and `loop_to_loopn`, H_functions_global/function_1_cryspy_objects.py:360-379, 384-500.  Texts are lists of characters; lower case is
ASCII.  The reading of the values of a column by the class (`from_cif`) has its own model.
-/

namespace Cryspy.Split

/-- texts -/
abbrev Str := List Char

/-- `s.lower()` (ASCII) -/
def lower (s : Str) : Str := s.map Char.toLower

/-- `s.strip("_")` -/
def strip (s : Str) : Str := ((s.dropWhile (· == '_')).reverse.dropWhile (· == '_')).reverse

/-- a loop class: `ITEM_CLASS.PREFIX` and `ITEM_CLASS.ATTR_CIF` -/
structure Cls where
  pre : Str
  cif : List Str

/-- place a text by its length before the first one that is not shorter -/
def insertLen (a : Str) : List Str → List Str
  | [] => [a]
  | b :: l => if a.length ≤ b.length then a :: b :: l else b :: insertLen a l

/-- `l_loop.sort(key=lambda x: len(x))`, function_1_cryspy_objects.py:367: the stable sort -/
def sortLen (l : List Str) : List Str := l.foldr insertLen []

/-- is the rest of the name, after the prefix and one character, a CIF name of the class, function_1_cryspy_objects.py:369-372 -/
def named (s p : Str) (c : Cls) : Bool := (c.cif.map lower).contains (lower (s.drop (p.length + 1)))

/-- the loop over the prefixes, function_1_cryspy_objects.py:368-374; `none` on the outside is the `IndexError` of `loop_name.strip("_")[len(prefix)]` -/
def firstNamed (cs : List Cls) (s : Str) : List Str → Option (Option (Str × Str × Char))
  | [] => some none
  | p :: l =>
    match cs.find? (fun c => c.pre == p) with
    | none => firstNamed cs s l      -- not reached: every `p` is the prefix of a class
    | some c =>
      if named s p c then
        match s[p.length]? with
        | none => none
        | some sep => some (some (p, s.drop (p.length + 1), sep))
      else firstNamed cs s l

/-- `find_name_prefix`, function_1_cryspy_objects.py:360-379 -/
def findNamePrefix (ln : Str) (cs : List Cls) : Option (Option (Str × Str × Char)) :=
  firstNamed cs (strip ln) (sortLen ((cs.map (·.pre)).filter fun p => p.isPrefixOf (strip ln)))

/-- prefix, name and separator of a column that belongs to no class, function_1_cryspy_objects.py:424-431 -/
def fallback (ln : Str) : Str × Str × Char :=
  let s := strip ln
  if ln.contains '.' then
    let p := s.takeWhile (· != '.')
    (p, (s.drop (p.length + 1)).takeWhile (· != '.'), '.')
  else
    let p := s.takeWhile (· != '_')
    (p, s.drop (p.length + 1), '_')

/-- prefix, name and separator of a column, function_1_cryspy_objects.py:403-431: the second search gives what the first gave -/
def assign (cs : List Cls) (ln : Str) : Option (Str × Str × Char) :=
  match findNamePrefix ln cs with
  | none => none
  | some (some r) => some r
  | some none => some (fallback ln)

/-- a column with what was found for it -/
structure Col (α : Type) where
  name : Str
  vals : List α
  pre : Str
  short : Str
  sep : Char

/-- the first loop of `loop_to_loopn`, function_1_cryspy_objects.py:392, 403-451: the columns with lower-case names -/
def assignAll {α : Type} (cs : List Cls) (cols : List (Str × List α)) : Option (List (Col α)) :=
  cols.mapM fun c => (assign cs (lower c.1)).map fun r => ⟨lower c.1, c.2, r.1, r.2.1, r.2.2⟩

/-- the last column with the given short name, function_1_cryspy_objects.py:433-446 -/
def lastNamed {α : Type} (key : Str) (cols : List (Col α)) : Option (Col α) := cols.reverse.find? fun c => lower c.short == key

/-- the copied column: `id` if there is one, otherwise `label`, otherwise `type`; not for the prefix it comes from,
function_1_cryspy_objects.py:475-489 -/
def extra {α : Type} (cols : List (Col α)) (p : Str) (sep : Char) : List (Str × List α) :=
  let copy (key : Str) (c : Col α) : List (Str × List α) := if c.pre == p then [] else [('_' :: p ++ sep :: key, c.vals)]
  match lastNamed "id".toList cols with
  | some c => copy "id".toList c
  | none =>
    match lastNamed "label".toList cols with
    | some c => copy "label".toList c
    | none =>
      match lastNamed "type".toList cols with
      | some c => copy "type".toList c
      | none => []

/-- the columns of the loop of one prefix, function_1_cryspy_objects.py:465-489; the separator is that of the last own column -/
def part {α : Type} (cols : List (Col α)) (p : Str) : List (Str × List α) :=
  let own := cols.filter fun c => c.pre == p
  let sep := match own.getLast? with
    | some c => c.sep
    | none => '_'
  own.map (fun c => (c.name, c.vals)) ++ extra cols p sep

/-- `loop_to_loopn`, function_1_cryspy_objects.py:384-500: for every prefix the names and values of its loop.  The program goes through a `set`, its order
is not specified: `order` is that order. -/
def split {α : Type} (cs : List Cls) (cols : List (Str × List α)) (order : List Str) : Option (List (Str × List (Str × List α))) :=
  (assignAll cs cols).map fun l => order.map fun p => (p, part l p)

/-- the registered classes, see Gen/LoopClasses.lean -/
def registered : List Cls := Gen.loopClasses.map fun c => ⟨c.1, c.2⟩

end Cryspy.Split
