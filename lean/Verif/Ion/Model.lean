import Verif.Den.Model
import Verif.Gen.Elements

/-!
# Model of `cryspy/A_functions_base/charge_form_factor.py`: ion symbols and electron shells

Texts are lists of characters; upper and lower case and digits are those of ASCII.  `none` is a Python exception.
-/

namespace Cryspy.Ion

open Cryspy.Text Cryspy.Den

/-! ## the symbol of an ion -/

/-- `s.lower()` -/
def lower (s : Str) : Str := s.map Char.toLower

/-- `s.capitalize()` -/
def capitalize : Str → Str
  | [] => []
  | c :: s => c.toUpper :: lower s

/-- The loop of charge_form_factor.py:20-28 from the letter number `i` on: the digits of the isotope found so far and the
position of the first digit that is not one of them. -/
def scan (i : ℕ) (iso : Str) : Str → Str × Option ℕ
  | [] => (iso, none)
  | c :: s =>
    if c.isDigit then
      if i = iso.length then scan (i + 1) (iso ++ [c]) s else (iso, some i)
    else scan (i + 1) iso s

/-- `int(f"{q[-1]}{q[:-1]}")`, charge_form_factor.py:40; an empty text has no last letter (`IndexError`). -/
def charge (q : Str) : Option ℤ := do
  let last ← q.getLast?
  parseInt (last :: q.dropLast)

/-- `get_atomic_symbol_ion_charge_isotope_number_by_ion_symbol`, charge_form_factor.py:11-44: the name of the element, the
charge and the number of the isotope. -/
def symbol (ion : Str) : Option (Str × ℤ × Option ℕ) :=
  let s := lower (strip ion)
  let r := scan 0 [] s
  let pos := r.1.length
  let number := if r.1 = [] then none else some (natVal r.1)
  match r.2 with
  | some cp => do
    let q ← charge (s.drop (cp + pos))
    return (capitalize ((s.take (cp + pos)).drop pos), q, number)
  | none => some (capitalize (s.drop pos), 0, number)

/-- The key that `get_scat_length_neutron` looks up, function_1_scat_length_neutron.py:74-83. -/
def scatKey (type : Str) : Option Str := do
  let r ← symbol type
  return match r.2.2 with
    | none => r.1
    | some n => natStr n ++ r.1

/-- The key that `get_j0_j2_parameters` and `get_j0_j2_by_symbol` look up, magnetic_form_factor.py:19-21 and
function_1_magnetic.py:21-23.  A key that is not in the table leaves the parameters zero. -/
def magKey (type : Str) : Option (Str × ℤ) := do
  let r ← symbol type
  return (r.1, r.2.1)

/-! ## electron shells -/

/-- an orbital such as `3d6`: principal number, letter, number of electrons -/
structure Orb where
  n : ℕ
  l : Char
  el : ℕ
  deriving DecidableEq, Repr

/-- `get_shell_orbit_electrons`, charge_form_factor.py:93-97.  Signs before the digits are not accepted here. -/
def parseOrb (s : Str) : Option Orb := do
  let a ← s[0]?
  let l ← s[1]?
  if a.isDigit ∧ isDigits (s.drop 2) then some ⟨natVal [a], l, natVal (s.drop 2)⟩ else none

/-- the orbitals of a text.  (The code carries the text and reads it again wherever it needs the orbitals; the text of an
orbital that is not changed is kept as it is.  Here it is read once.) -/
def parseShell (s : Str) : Option (List Orb) := (words s).mapM parseOrb

/-- `max_electrons[shells.index(orbit_name)]`, charge_form_factor.py:53-54, 76 -/
def cap (l : Char) : Option ℕ :=
  if l = 's' then some 2 else if l = 'p' then some 6 else if l = 'd' then some 10 else if l = 'f' then some 14 else none

/-- The loop over the reversed orbitals for a positive charge, charge_form_factor.py:61-70: the new orbitals in reversed
order and the charge that is left. -/
def removeLoop : List Orb → ℕ → List Orb × ℕ
  | [], q => ([], q)
  | o :: r, q =>
    if o.el > q then
      let t := removeLoop r 0
      ({ o with el := o.el - q } :: t.1, t.2)
    else removeLoop r (q - o.el)

/-- The loop for a negative charge, charge_form_factor.py:73-86; `q` is `abs(ion_charge)`. -/
def addLoop : List Orb → ℕ → Option (List Orb × ℕ)
  | [], q => some ([], q)
  | o :: r, q => do
    let m ← cap o.l
    if m > o.el then
      if q ≤ m - o.el then
        let t ← addLoop r 0
        return ({ o with el := o.el + q } :: t.1, t.2)
      else
        let t ← addLoop r (q - (m - o.el))
        return ({ o with el := m } :: t.1, t.2)
    else
      let t ← addLoop r q
      return (o :: t.1, t.2)

/-- `add_ion_charge_to_shell`, charge_form_factor.py:52-91; a charge that is left raises `UserWarning`. -/
def addCharge (sh : List Orb) (q : ℤ) : Option (List Orb) :=
  if q = 0 then some sh
  else if q > 0 then
    let t := removeLoop sh.reverse q.toNat
    if t.2 = 0 then some t.1.reverse else none
  else do
    let t ← addLoop sh (-q).toNat
    if t.2 = 0 then some t.1 else none

/-- `DATABASE["Elements"]["Orbital occupancy", name]` -/
def occupancy (db : List (Str × ℕ × Str)) (name : Str) : Option Str := (db.find? fun e => e.1 == name).map fun e => e.2.2

/-- `get_full_shell`, charge_form_factor.py:100-114; `fuel` bounds the depth of the recursion over the cores. -/
def fullShell (db : List (Str × ℕ × Str)) : ℕ → Str → ℤ → Option (List Orb)
  | 0, _, _ => none
  | fuel + 1, name, q => do
    let t ← occupancy db name
    if ']' ∈ t then
      let core ← fullShell db fuel ((t.takeWhile (· != ']')).drop 1) 0
      let v ← parseShell (((t.dropWhile (· != ']')).drop 1).takeWhile (· != ']'))
      let v' ← addCharge v q
      return core ++ v'
    else
      addCharge (← parseShell t) q

/-- `get_atom_name_ion_charge_shell`, charge_form_factor.py:46-49 -/
def ionShell (ion : Str) : Option (Str × ℤ × List Orb) := do
  let r ← symbol ion
  let sh ← fullShell Gen.elements 20 r.1 r.2.1
  return (r.1, r.2.1, sh)

end Cryspy.Ion
