import Verif.Item.Props
import Verif.Text.ValueProps

/-!
# Saving and loading items and loops (B_parent_classes/cl_1_item.py, cl_2_loop.py)

The syntax of CIF files is that of the package `pycifstar`, which is not part of the repository.  It enters as follows: a written
item is a list of records (name, text), a written loop a list of names and rows of texts; the reader gives back the records, and
looks up names without regard to case.  That the texts of one row are read back is proved for the row itself in Cif/RowProps.lean.
-/

namespace Cryspy.Cif

open Item

/-- Python's text functions: those of `PyEnv`, `D_FORMATS[name].format(v)` or `f"{v:}"` (cl_1_item.py:161-169), `f"{v:}"` of a
float, and the rounding of the arithmetic. -/
structure TextEnv extends PyEnv where
  format : String → PyVal → String
  repr : ℚ → Text.Str
  fl : ℚ → ℚ

/-- An item class with the names used in files (`ATTR_MANDATORY_CIF`, `ATTR_OPTIONAL_CIF`, e.g. cl_1_cell.py:37-48) and the
`__dict__` of a new object (`D_DEFAULT`, cl_1_cell.py:79-87, 92-107). -/
structure CifClass where
  K : ClassDesc
  mandCif : List String
  optCif : List String
  init : Dict

/-- `ATTR_CIF = ATTR_MANDATORY_CIF + ATTR_OPTIONAL_CIF`. -/
def CifClass.cif (C : CifClass) : List String := C.mandCif ++ C.optCif

/-- The attributes with their names in files: `zip(self.ATTR_NAMES, self.ATTR_CIF)`. -/
def CifClass.attrs (C : CifClass) : List (String × String) := C.K.names.zip C.cif

/-- A number for `value_error_mark_to_string`.  `nan` and booleans are not modelled there. -/
def numOf : PyVal → Option ℚ
  | .num q => some q
  | _ => none

/-- `item.<name>_as_string`, cl_1_item.py:139-169; `none` is an exception. -/
def asString (T : TextEnv) (d : Dict) (name : String) : Option String :=
  match d name with
  | none => some "."
  | some .none => some "."
  | some v =>
    let flag := match d (name ++ "_refinement"), d (name ++ "_sigma") with
      | some r, some _ => truthy r
      | _, _ => false
    if flag then
      let mark := match d (name ++ "_mark") with
        | some (.str m) => m
        | _ => ""
      (Text.writeValue T.fl T.repr (numOf v) ((d (name ++ "_sigma")).bind numOf) mark.toList).map String.ofList
    else some (T.format name v)

/-- The text that `to_cif` writes for a set attribute, cl_1_item.py:381-397: between semicolons if it has several lines, between
quotes if it has a space (both from `str(value)`), else from `<name>_as_string`. -/
def itemText (T : TextEnv) (d : Dict) (name : String) : Option String :=
  match d name with
  | none => some "."
  | some v => if '\n' ∈ (T.strOf v).toList ∨ ' ' ∈ (T.strOf v).toList then some (T.strOf v) else asString T d name

/-- Name of an attribute in a file, cl_1_item.py:377-378 and 386. -/
def fullName (pre sep cif : String) : String := "_" ++ pre ++ sep ++ cif

/-- `ItemN.to_cif`, cl_1_item.py:358-398, with `flag_all_attributes=False`. -/
def toCif (T : TextEnv) (C : CifClass) (sep : String) (d : Dict) : Option (List (String × String)) :=
  (C.attrs.filter fun p => hasAttr d p.1).mapM fun p =>
    (itemText T d p.1).map fun s => (fullName C.K.prefixName sep (if p.2 = "" then p.1 else p.2), s)

/-- Names are compared without regard to case. -/
def lower (s : String) : List Char := s.toList.map Char.toLower

/-- `cif_data.is_value(key)` and `cif_data[key].value` of `pycifstar`. -/
def value? (recs : List (String × String)) (key : String) : Option String :=
  (recs.find? fun r => lower r.1 == lower key).map Prod.snd

/-- value for `setattr` -/
def optNum : Option ℚ → PyVal
  | none => .none
  | some q => .num q

/-- One attribute is read, cl_1_item.py:620-637 and cl_2_loop.py:310-325, 329-341. -/
def readAttr (T : TextEnv) (K : ClassDesc) (d : Dict) (name s : String) : Except Err Dict :=
  if name ∈ K.ref then
    match Text.readValue T.fl s.toList with
    | none => .error .valueError
    | some (v, e, m) =>
      match setattr T.toPyEnv K d name (optNum v) with
      | .error x => .error x
      | .ok d1 =>
        match e with
        | none => setattr T.toPyEnv K d1 (name ++ "_refinement") (.bool false)
        | some e =>
          match setattr T.toPyEnv K d1 (name ++ "_sigma") (.num e) with
          | .error x => .error x
          | .ok d2 =>
            match setattr T.toPyEnv K d2 (name ++ "_refinement") (.bool true) with
            | .error x => .error x
            | .ok d3 => setattr T.toPyEnv K d3 (name ++ "_mark") (.str (String.ofList m))
  else setattr T.toPyEnv K d name (.str s)

/-- The separator found in the file, cl_1_item.py:597-616: `none` if the item is not there. -/
def separator? (C : CifClass) (recs : List (String × String)) : Option String :=
  let has (sep c : String) : Bool := (value? recs (fullName C.K.prefixName sep c)).isSome
  if C.mandCif.all (has "_") || C.mandCif.all (has ".") then
    if C.cif.any (has "_") then some "_" else if C.cif.any (has ".") then some "." else none
  else none

/-- One attribute is looked up and read, cl_1_item.py:618-637. -/
def readRec (T : TextEnv) (C : CifClass) (recs : List (String × String)) (sep : String) (d : Dict) (p : String × String) :
    Except Err Dict :=
  match value? recs (fullName C.K.prefixName sep p.2) with
  | none => .ok d
  | some s => readAttr T C.K d p.1 s

/-- `ItemN.from_cif` of a class with tables, cl_1_item.py:588-646.  `form` is the class' `form_object`. -/
def fromCif (T : TextEnv) (C : CifClass) (form : Dict → Dict) (recs : List (String × String)) : Except Err (Option Dict) :=
  match separator? C recs with
  | none => .ok none
  | some sep =>
    match C.attrs.foldlM (readRec T C recs sep) C.init with
    | .error x => .error x
    | .ok d => .ok (some (if isDefined C.K d then form d else d))

/-- A loop in a file: names of the columns and rows. -/
structure LoopRec where
  names : List String
  rows : List (List String)

/-- `LoopN.to_cif`, cl_2_loop.py:358-420.  The columns are those of the first item. -/
def loopToCif (T : TextEnv) (C : CifClass) (sep : String) : List Dict → Option LoopRec
  | [] => some ⟨C.cif.map (fullName C.K.prefixName sep), [C.cif.map fun _ => "."]⟩
  | d :: t =>
    let cols := C.attrs.filter fun p => hasAttr d p.1
    ((d :: t).mapM fun x => cols.mapM fun p => asString T x p.1).map fun rows =>
      ⟨cols.map fun p => if p.2 = "" then "_" ++ C.K.prefixName else fullName C.K.prefixName sep p.2, rows⟩

/-- The attribute of a column, cl_2_loop.py:288, 293-299 (`pycifstar` gives names in lower case): the name without prefix and
separator is looked up among the names in files; a name that is not there is taken as it is.  (`strip("_").strip(".")` of line
299 is not modelled: an attribute name has no such ends.) -/
def column? (C : CifClass) (name : String) : Option String :=
  let short := (lower name).drop (C.K.prefixName.length + 2)
  let attr := match C.attrs.find? fun p => lower p.2 == short with
    | some p => p.1
    | none => String.ofList short
  if attr ∈ C.K.names then some attr else none

/-- The items get the texts of a column, cl_2_loop.py:300-341: the first column makes the items.  (All columns have the
same length, so `zip` drops nothing.) -/
def readColumn (T : TextEnv) (C : CifClass) (items : Option (List Dict)) (name : String) (col : List String) :
    Except Err (Option (List Dict)) :=
  match column? C name with
  | none => .ok items
  | some a =>
    match items with
    | none => (col.mapM fun s => readAttr T C.K C.init a s).map some
    | some l => ((l.zip col).mapM fun p => readAttr T C.K p.1 a p.2).map some

/-- `LoopN.from_cif` of a class with tables on one loop, cl_2_loop.py:243-356.  Without any known column the name `items` is not
bound (line 353), which raises. -/
def loopFromCif (T : TextEnv) (C : CifClass) (r : LoopRec) : Except Err (List Dict) :=
  match r.names.zipIdx.foldlM (fun st p => readColumn T C st p.1 (r.rows.map fun row => row.getD p.2 "")) none with
  | .error x => .error x
  | .ok none => .error .attributeError
  | .ok (some l) => .ok l

end Cryspy.Cif
