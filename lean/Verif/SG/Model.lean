import Verif.SG.Op
import Verif.Gen.SGNames
import Verif.SG.Reader

/-!
# Space groups: codes of settings, names, and the list of symmetry operations

Model of cryspy/A_functions_base/function_2_space_group.py and of the part of
cryspy/C_item_loop_classes/cl_2_space_group.py and cl_1_space_group_symop.py that builds the operations.
`none` stands for a Python exception (or for `None` where the comment says so).
-/

namespace Cryspy.SG

open Cryspy.Text

/-! ## Crystal systems and codes of settings -/

/-- Crystal systems. -/
inductive System where
  | triclinic | monoclinic | orthorhombic | tetragonal | trigonal | hexagonal | cubic
deriving DecidableEq

/-- `get_crystal_system_by_it_number`, function_2_space_group.py:133-152; `none` is Python's `None`. -/
def crystalSystem (n : ℕ) : Option System :=
  if 1 ≤ n ∧ n ≤ 2 then some .triclinic
  else if 3 ≤ n ∧ n ≤ 15 then some .monoclinic
  else if 16 ≤ n ∧ n ≤ 74 then some .orthorhombic
  else if 75 ≤ n ∧ n ≤ 142 then some .tetragonal
  else if 143 ≤ n ∧ n ≤ 167 then some .trigonal
  else if 168 ≤ n ∧ n ≤ 194 then some .hexagonal
  else if 195 ≤ n ∧ n ≤ 230 then some .cubic
  else none

/-- function_2_space_group.py:164-167. -/
def orthoDouble : List ℕ := [48, 50, 59, 68, 70]
/-- function_2_space_group.py:165. -/
def tetraDouble : List ℕ := [85, 86, 88, 125, 126, 129, 130, 133, 134, 137, 138, 141, 142]
/-- function_2_space_group.py:166. -/
def trigDouble : List ℕ := [146, 148, 155, 160, 161, 166, 167]
/-- function_2_space_group.py:167. -/
def cubicDouble : List ℕ := [201, 203, 222, 224, 227, 228]

/-- `tuple(range(a, b))`. -/
def pyRange (a b : ℕ) : List ℕ := (List.range (b - a)).map (a + ·)

/-- `ACCESIBLE_IT_NUMBER`, function_2_space_group.py:155-175. -/
def itNumbers : List ℕ :=
  pyRange 1 3 ++ pyRange 3 16 ++ pyRange 16 75 ++ pyRange 7 143 ++ pyRange 143 168 ++ pyRange 168 195 ++ pyRange 195 231

/-- `get_default_it_coordinate_system_code_by_it_number`, function_2_space_group.py:178-208. -/
def defaultCode (n : ℕ) : Option Str :=
  match crystalSystem n with
  | some .triclinic => none
  | some .monoclinic => some "b1".toList
  | some .orthorhombic => some (if n ∈ orthoDouble then "2abc".toList else "abc".toList)
  | some .tetragonal => some (if n ∈ tetraDouble then "2".toList else "1".toList)
  | some .trigonal => some (if n ∈ trigDouble then "h".toList else "r".toList)
  | some .hexagonal => some "h".toList
  | some .cubic => some (if n ∈ cubicDouble then "2".toList else "1".toList)
  | none => none

/-- `get_it_coordinate_system_codes_by_it_number`, function_2_space_group.py:211-244. -/
def codesOf (n : ℕ) : List Str :=
  (match crystalSystem n with
  | some .triclinic => []
  | some .monoclinic => ["b1", "c1", "a1", "b2", "c2", "a2", "b3", "c3", "a3", "-b1", "-c1", "-a1", "-b2", "-c2",
      "-a2", "-b3", "-c3", "-a3"]
  | some .orthorhombic => if n ∈ orthoDouble then ["1abc", "1ba-c", "1cab", "1-cba", "1bca", "1a-cb", "2abc", "2ba-c",
      "2cab", "2-cba", "2bca", "2a-cb"] else ["abc", "ba-c", "cab", "-cba", "bca", "a-cb"]
  | some .tetragonal => if n ∈ tetraDouble then ["2", "1"] else ["1"]
  | some .trigonal => if n ∈ trigDouble then ["h", "r"] else ["h"]
  | some .hexagonal => ["h"]
  | some .cubic => if n ∈ cubicDouble then ["2", "1"] else ["1"]
  | none => []).map String.toList

/-- `get_it_coordinate_system_codes_by_crystal_system`, function_2_space_group.py:256-275 (the crystal
system given by its full name). -/
def codesOfSystem (s : System) : List Str :=
  (match s with
  | .triclinic => []
  | .monoclinic => ["b1", "b2", "b3", "-b1", "-b2", "-b3", "c1", "c2", "c3", "-c1", "-c2", "-c3", "a1", "a2", "a3",
      "-a1", "-a2", "-a3"]
  | .orthorhombic => ["abc", "ba-c", "cab", "-cba", "bca", "a-cb", "1abc", "1ba-c", "1cab", "1-cba", "1bca", "1a-cb",
      "2abc", "2ba-c", "2cab", "2-cba", "2bca", "2a-cb"]
  | .tetragonal => ["1", "2"]
  | .trigonal => ["h", "r"]
  | .hexagonal => ["h"]
  | .cubic => ["1", "2"]).map String.toList

/-- `auto_choose_it_coordinate_system_code`, function_2_space_group.py:1352-1372 (printing left out). -/
def autoChoose (n : ℕ) (codes : List Str) : Option Str :=
  match codes with
  | [] => none
  | [c] => some c
  | c :: _ :: _ =>
    match defaultCode n with
    | some d => if d ∈ codes then some d else some (((codes.filter ('-' ∉ ·)).head?).getD c)
    | none => some (((codes.filter ('-' ∉ ·)).head?).getD c)

/-- The axes of a setting, the first part of
`get_transform_pp_abc_choice_by_it_number_it_coordinate_system_code`, function_2_space_group.py:1377-1389;
`none`: no branch assigns the variable, and the `return` raises `UnboundLocalError`. -/
def transformName (code : Option Str) : Option Str :=
  let isIn (l : List String) : Bool := match code with | some c => l.any (·.toList == c) | none => false
  if code.isNone || isIn ["b1", "b2", "b3", "abc", "1abc", "2abc", "1", "2", "h", "r"] then some "a,b,c".toList
  else if isIn ["-a1", "-a2", "-a3", "ba-c", "1ba-c", "2ba-c"] then some "b,a,-c".toList
  else if isIn ["c1", "c2", "c3", "cab", "1cab", "2cab"] then some "c,a,b".toList
  else if isIn ["-b1", "-b2", "-b3", "-cba", "1-cba", "2-cba"] then some "-c,b,a".toList
  else if isIn ["a1", "a2", "a3", "bca", "1bca", "2bca"] then some "b,c,a".toList
  else if isIn ["-c1", "-c2", "-c3", "a-cb", "1bca", "2a-cb"] then some "a,-c,b".toList
  else none

/-- The card looked for, function_2_space_group.py:1254-1270. -/
def choiceOf (code : Option Str) : Str :=
  match code with
  | none => ['1']
  | some c => if '3' ∈ c then ['3'] else if '2' ∈ c then ['2'] else if '1' ∈ c then ['1'] else if 'h' ∈ c then ['1']
      else if 'r' ∈ c then ['2'] else ['1']

/-! ## Names -/

/-- `table[it_number - 1] if it_number in ACCESIBLE_IT_NUMBER else None`,
function_2_space_group.py:460-481. -/
def nameOf (table : List String) (n : ℕ) : Option Str :=
  if n ∈ itNumbers then (table[n - 1]?).map (·.toList) else none

/-- `get_name_hm_extended_by_it_number_it_coordinate_system_code`, function_2_space_group.py:773-779. -/
def extName (n : ℕ) (code : Option Str) : Option Str :=
  (extTable.find? fun e => e.1 == n && e.2.1.map (·.toList) == code).map (·.2.2.toList)

/-- `get_name_hm_full_by_it_number`, function_2_space_group.py:884-890. -/
def fullName (n : ℕ) : Option Str := (fullTable.find? fun e => e.1 == n).map (·.2.toList)

/-- `REFERENCE_TABLE_CENTRING_TYPE_SHIFT`, function_2_space_group.py:893-916: numerator and denominator. -/
def shiftTable : List (String × List (List (ℤ × ℕ))) := [
  ("P", [[(0, 1), (0, 1), (0, 1)]]),
  ("A", [[(0, 1), (0, 1), (0, 1)], [(0, 2), (1, 2), (1, 2)]]),
  ("B", [[(0, 1), (0, 1), (0, 1)], [(1, 2), (0, 2), (1, 2)]]),
  ("C", [[(0, 1), (0, 1), (0, 1)], [(1, 2), (1, 2), (0, 2)]]),
  ("F", [[(0, 1), (0, 1), (0, 1)], [(0, 2), (1, 2), (1, 2)], [(1, 2), (0, 2), (1, 2)], [(1, 2), (1, 2), (0, 2)]]),
  ("I", [[(0, 1), (0, 1), (0, 1)], [(1, 2), (1, 2), (1, 2)]]),
  ("R", [[(0, 1), (0, 1), (0, 1)], [(2, 3), (1, 3), (1, 3)], [(1, 3), (2, 3), (2, 3)]]),
  ("Rrev", [[(0, 1), (0, 1), (0, 1)], [(1, 3), (2, 3), (1, 3)], [(2, 3), (1, 3), (2, 3)]]),
  ("H", [[(0, 1), (0, 1), (0, 1)], [(2, 3), (1, 3), (0, 3)], [(1, 3), (2, 3), (0, 3)]])]

/-- `get_shift_by_centring_type`, function_2_space_group.py:921-927. -/
def shiftsOf (ct : Option Str) : List (Fin 3 → ℚ) :=
  match shiftTable.find? fun e => some e.1.toList == ct with
  | some e => e.2.map fun l i => ((l.getD i (0, 1)).1 : ℚ) / (l.getD i (0, 1)).2
  | none => []

/-- `get_centring_type_by_name_hm_extended`, function_2_space_group.py:930-934. -/
def centringOfName (name : Str) : Option Str :=
  match name.head? with
  | some c => if shiftTable.any (·.1.toList == [c]) then some [c] else none
  | none => none

/-- The centring type of a setting, cl_2_space_group.py:258-273 and :295-297. -/
def centringType (n : ℕ) (code : Option Str) : Option Str :=
  let c0 := (extName n code).bind centringOfName
  let c1 := if c0.isNone then (nameOf hmShort n).bind centringOfName else c0
  let c2 := if c1.isNone then (fullName n).bind centringOfName else c1
  match c2, code with
  | some c, some d => if c.head? == some 'R' && d.head? == some 'r' then some ['P'] else some c
  | c, _ => c

/-- `get_centrosymmetry_by_name_hall` of the Hall name of the number, function_2_space_group.py:1226-1230,
cl_2_space_group.py:277-279; `none`: no Hall name, the variable is not assigned. -/
def centrosymmetric (n : ℕ) : Option Bool := (nameOf hallShort n).map fun s => s.head? == some '-'

/-! ## Operations -/

/-- `transform_r_b_to_string(r, b, ("x", "y", "z"))` of exact fractions. -/
def writeOp (a : Aff) : Str :=
  rbToString ['x', 'y', 'z'] (List.ofFn fun i => (List.ofFn fun j => Num.frac (a.R i j), a.b i))

/-- `mult_matrix_vector`, function_2_space_group.py:1327-1340 (exact fractions). -/
def mulVec (a : Fin 3 → Fin 3 → ℚ) (v : Fin 3 → ℚ) : Fin 3 → ℚ := fun i => a i 0 * v 0 + a i 1 * v 1 + a i 2 * v 2

/-- `mult_matrixes`, function_2_space_group.py:1343-1348. -/
def mulMat (a b : Fin 3 → Fin 3 → ℚ) : Fin 3 → Fin 3 → ℚ := fun i j => a i 0 * b 0 j + a i 1 * b 1 j + a i 2 * b 2 j

/-- The change of an operation by `transform_symop_operation_xyz_by_pp_abc`,
function_2_space_group.py:1303-1317. -/
def changeAff (P : Fin 3 → Fin 3 → ℚ) (p : Fin 3 → ℚ) (w : Aff) : Aff :=
  let Q := fun i j => P j i
  let q := fun i => -1 * mulVec Q p i
  let QW := mulMat Q w.R
  ⟨mulMat QW P, fun i => mulVec QW p i + mulVec Q w.b i + q i⟩

/-- `transform_symop_operation_xyz_by_pp_abc`, function_2_space_group.py:1303-1317. -/
def changeText (P : Fin 3 → Fin 3 → ℚ) (p : Fin 3 → ℚ) (s : Str) : Option Str :=
  (readOp s).map fun w => writeOp (changeAff P p w)

/-- `pcentr` of a card, function_2_space_group.py:1276-1277. -/
def readCentre (s : Str) : Option (Fin 3 → ℚ) :=
  match (splitComma s).mapM parseFraction with
  | some [a, b, c] => some ![-1 * limitDen a, -1 * limitDen b, -1 * limitDen c]
  | _ => none

/-- The operations and the centre of
`get_symop_pcentr_multiplicity_letter_site_symmetry_coords_xyz_2`, function_2_space_group.py:1247-1286. -/
def symopCentre (cards : List Card) (n : ℕ) (code : Option Str) : Option (List Str × (Fin 3 → ℚ)) := do
  let card ← cards.find? fun c => c.it == n && ((c.fields.lookup "choice".toList).bind List.head?) == some (choiceOf code)
  let symop ← card.fields.lookup "symmetry".toList
  let pcText ← (card.fields.lookup "pcentr".toList).bind List.head?
  let pc ← readCentre pcText
  let name ← transformName code
  let Qp ← (stringToRB ['a', 'b', 'c'] name).bind toAff
  let P := fun i j => Qp.R j i
  let q := fun i => -1 * mulVec Qp.R Qp.b i
  let symop2 ← symop.mapM (changeText P Qp.b)
  pure (symop2, fun i => pc i + q i)

/-- `get_symop_inversed`, cl_1_space_group_symop.py:138-144. -/
def inverseText (pc : Fin 3 → ℚ) (s : Str) : Option Str :=
  (readOp s).map fun w => writeOp ⟨fun i j => -1 * w.R i j, fun i => -1 * w.b i + 2 * pc i⟩

/-- `get_symops_by_centring_type`, cl_1_space_group_symop.py:146-156. -/
def centringTexts (shifts : List (Fin 3 → ℚ)) (s : Str) : Option (List Str) :=
  (readOp s).map fun w => shifts.map fun t => writeOp ⟨w.R, fun i => w.b i + t i⟩

/-- The full list of operations that a space group object holds,
`form_reduced_full_space_group_symop_space_group_wyckoff`, cl_2_space_group.py:341-385, with the centring
and the centre found by `form_object_by_it_number_it_coordinate_system_code`, :233-305. -/
def fullSymop (cards : List Card) (n : ℕ) (code : Option Str) : Option (List Str) := do
  let sp ← symopCentre cards n code
  let centro ← centrosymmetric n
  let inv ← (if centro then sp.1.mapM (inverseText sp.2) else some [] : Option (List Str))
  let l ← (sp.1 ++ inv).mapM (centringTexts (shiftsOf (centringType n code)))
  pure l.flatten

end Cryspy.SG
