import Mathlib.Data.Rat.Floor
import Mathlib.Data.List.Nodup
import Verif.Text.Model

/-!
# Model of `ItemN` (B_parent_classes/cl_1_item.py)

An item object is its `__dict__`: a finite map from attribute names to Python values.
The class tables (`ATTR_NAMES`, `ATTR_TYPES`, `D_MIN`, ...) are a fixed `ClassDesc`.

Simplifications, for the whole file:
* floats are exact rationals plus one `nan`; infinities and `complex` are not modelled;
* writing to the class tables themselves through an instance (`item.ATTR_NAMES = ...`) is not modelled;
* `float("...")`, `int("...")` and `str(...)` are parameters (`PyEnv`), since their text rules belong to Python.
-/

namespace Cryspy.Item

/-- Python values that may be stored in an item's `__dict__`. -/
inductive PyVal where
  | none
  | str (s : String)
  | num (q : ℚ)
  | nan
  | bool (b : Bool)
  deriving DecidableEq

/-- Types in `ATTR_TYPES` (the `complex` type, used by 3 attributes of one class, is left out). -/
inductive PyType where
  | str | float | int | bool
  deriving DecidableEq

/-- Python's own text conversions, left abstract.  `none` means `ValueError`. -/
structure PyEnv where
  parseFloat : String → Option PyVal
  parseInt : String → Option ℤ
  strOf : PyVal → String

/-- The class-level tables of an item class, e.g. `Cell` at
C_item_loop_classes/cl_1_cell.py:34-99. -/
structure ClassDesc where
  prefixName : String
  mandatory : List String
  optional : List String
  /-- `ATTR_TYPES`, aligned with `ATTR_NAMES = mandatory + optional` -/
  types : List PyType
  intNames : List String
  intProtected : List String
  ref : List String
  sigma : List String
  constrFlag : List String
  refFlag : List String
  constrMark : List String
  dConstraints : List (String × List PyVal)
  dMin : List (String × ℚ)
  dMax : List (String × ℚ)

/-- `ATTR_NAMES = ATTR_MANDATORY_NAMES + ATTR_OPTIONAL_NAMES` (cl_1_cell.py:44). -/
def ClassDesc.names (K : ClassDesc) : List String := K.mandatory ++ K.optional

/-- `__dict__` as a partial map. -/
abbrev Dict := String → Option PyVal

/-- `self.__dict__[k] = v`. -/
def Dict.set (d : Dict) (k : String) (v : PyVal) : Dict := fun x => if x = k then some v else d x

/-- Exceptions that the modelled methods raise. -/
inductive Err where
  | valueError | typeError | attributeError | indexError
  deriving DecidableEq

/-- Is the written value one of the three spellings of "undefined"?
cl_1_item.py:211-220 (`value is None`, `"."`, `"?"`). -/
def isNoneLike : PyVal → Bool
  | .none => true
  | .str s => s == "." || s == "?"
  | _ => false

/-- Truncation toward zero, Python's `int(float)`. -/
def truncQ (q : ℚ) : ℤ := if 0 ≤ q then ⌊q⌋ else ⌈q⌉

/-- `val_type(value)` with the special treatment of strings for `bool`,
cl_1_item.py:222-227.  `none` is `ValueError`. -/
def coerce (E : PyEnv) : PyType → PyVal → Option PyVal
  | .bool, .str s => some (.bool (s == "True"))
  | .bool, .num q => some (.bool (q != 0))
  | .bool, .nan => some (.bool true)
  | .bool, .bool b => some (.bool b)
  | .bool, .none => some (.bool false)
  | .float, .num q => some (.num q)
  | .float, .nan => some .nan
  | .float, .bool b => some (.num (if b then 1 else 0))
  | .float, .str s => E.parseFloat s
  | .float, .none => none
  | .int, .num q => some (.num (truncQ q))
  | .int, .nan => none
  | .int, .bool b => some (.num (if b then 1 else 0))
  | .int, .str s => (E.parseInt s).map (fun z => .num z)
  | .int, .none => none
  | .str, .str s => some (.str s)
  | .str, v => some (.str (E.strOf v))

/-- `val_new < bound` for the clamp; strings raise `TypeError` (none). Booleans compare as 0/1;
every comparison with nan is false.  cl_1_item.py:233-238. -/
def ltBound : PyVal → ℚ → Option Bool
  | .num q, b => some (decide (q < b))
  | .nan, _ => some false
  | .bool v, b => some (decide ((if v then (1 : ℚ) else 0) < b))
  | _, _ => none

/-- `val_new > bound`. -/
def gtBound : PyVal → ℚ → Option Bool
  | .num q, b => some (decide (b < q))
  | .nan, _ => some false
  | .bool v, b => some (decide (b < (if v then (1 : ℚ) else 0)))
  | _, _ => none

/-- Clamp from below if the name has an entry in `D_MIN`, cl_1_item.py:233-235. -/
def clampMin (K : ClassDesc) (name : String) (v : PyVal) : Except Err PyVal :=
  match K.dMin.lookup name with
  | none => .ok v
  | some b => match ltBound v b with
    | none => .error .typeError
    | some true => .ok (.num b)
    | some false => .ok v

/-- Clamp from above if the name has an entry in `D_MAX`, cl_1_item.py:236-238. -/
def clampMax (K : ClassDesc) (name : String) (v : PyVal) : Except Err PyVal :=
  match K.dMax.lookup name with
  | none => .ok v
  | some b => match gtBound v b with
    | none => .error .typeError
    | some true => .ok (.num b)
    | some false => .ok v

/-- Is the coerced value admitted by `D_CONSTRAINTS`?  cl_1_item.py:230-232. -/
def allowed (K : ClassDesc) (name : String) (v : PyVal) : Bool :=
  match K.dConstraints.lookup name with
  | none => true
  | some l => l.contains v

/-- Names that `delete_internal_parameters` keeps, cl_1_item.py:264-274. -/
def ClassDesc.kept (K : ClassDesc) (key : String) : Bool :=
  key == "D_MIN" || key == "D_MAX" ||
    (K.names ++ K.sigma ++ K.constrFlag ++ K.refFlag ++ K.constrMark ++ K.intProtected).contains key

/-- `ItemN.delete_internal_parameters`, cl_1_item.py:255-276. -/
def deleteInternal (K : ClassDesc) (d : Dict) : Dict := fun key => if K.kept key then d key else none

/-- `bool(value)`, used at cl_1_item.py:244. -/
def truthy : PyVal → Bool
  | .none => false
  | .str s => s != ""
  | .num q => q != 0
  | .nan => true
  | .bool b => b

/-- `str(value).strip()`, used at cl_1_item.py:247.  Python's `str.strip` strips white space. -/
def stripStr (s : String) : String := String.ofList (Text.strip s.toList)

/-- `ItemN.__setattr__`, cl_1_item.py:194-253.  An exception leaves `__dict__` as it was,
because every raising expression is evaluated before the first mutation. -/
def setattr (E : PyEnv) (K : ClassDesc) (d : Dict) (name : String) (value : PyVal) :
    Except Err Dict :=
  if isNoneLike value then .ok (d.set name .none)
  else if name ∈ K.names then
    match K.types[K.names.idxOf name]? with
    | none => .error .indexError
    | some ty =>
      match coerce E ty value with
      | none => .error .valueError
      | some v0 =>
        match clampMin K name v0 with
        | .error e => .error e
        | .ok v1 =>
          match clampMax K name v1 with
          | .error e => .error e
          | .ok v2 =>
            if allowed K name v0 then .ok ((deleteInternal K d).set name v2)
            else .ok (deleteInternal K d)
  else if name ∈ K.sigma then
    match coerce E .float value with
    | none => .error .valueError
    | some v => .ok (d.set name v)
  else if name ∈ K.constrFlag ++ K.refFlag then .ok (d.set name (.bool (truthy value)))
  else if name ∈ K.constrMark then
    .ok (d.set name (.str (stripStr (match value with | .str s => s | v => E.strOf v))))
  else .ok (d.set name value)

/-- `ItemN.is_attribute` on a declared (non-internal) name: the name is in `__dict__`,
cl_1_item.py:278-291 with `__getattr__` raising for declared names (172-175). -/
def hasAttr (d : Dict) (name : String) : Bool := (d name).isSome

/-- `ItemN.is_defined`, cl_1_item.py:293-316. -/
def isDefined (K : ClassDesc) (d : Dict) : Bool :=
  if K.mandatory.isEmpty then K.optional.any (hasAttr d) else K.mandatory.all (hasAttr d)

/-- `getattr(item, name)`: the `__dict__` entry if there, otherwise `__getattr__`
(cl_1_item.py:121-192): declared names raise; internal names trigger `form_object` on a fully
defined object, and the result is kept in `__dict__`.  `form` is the class' `form_object`.
The `_as_string` virtual names are not modelled here. Returns the value and the new `__dict__`. -/
def getattr (K : ClassDesc) (form : Dict → Dict) (d : Dict) (name : String) :
    Except Err (PyVal × Dict) :=
  match d name with
  | some v => .ok (v, d)
  | none =>
    if name ∈ K.names ++ K.sigma ++ K.intProtected then .error .attributeError
    else if name ∈ K.intNames then
      if isDefined K d then
        match form d name with
        | some v => .ok (v, form d)
        | none => .error .attributeError
      else .error .attributeError
    else .error .attributeError

/-- A flag read as a condition: missing raises, otherwise truth value. -/
def flagVal (d : Dict) (name : String) : Except Err Bool :=
  match d name with
  | none => .error .attributeError
  | some v => .ok (truthy v)

/-- The comprehension in `ItemN.get_variable_names`, cl_1_item.py:445-447:
attribute names whose refinement flag is true. -/
def variableAttrs (d : Dict) : List (String × String) → Except Err (List String)
  | [] => .ok []
  | (n, f) :: rest =>
    match flagVal d f with
    | .error e => .error e
    | .ok b =>
      match variableAttrs d rest with
      | .error e => .error e
      | .ok l => .ok (if b then n :: l else l)

/-- Variable name of an item: `((prefix, None), (attribute, None))`; the constant `None`s are dropped. -/
abbrev VarName := String × String

/-- `ItemN.get_variable_names`, cl_1_item.py:428-448 (for subclasses of ItemN). -/
def getVariableNames (K : ClassDesc) (d : Dict) : Except Err (List VarName) :=
  match variableAttrs d (K.ref.zip K.refFlag) with
  | .error e => .error e
  | .ok l => .ok (l.map fun n => (K.prefixName, n))

/-- `ItemN.is_variables`, cl_1_item.py:450-459: a loop with `break` at the first set flag. -/
def isVariables (d : Dict) : List (String × String) → Except Err Bool
  | [] => .ok false
  | (_, f) :: rest =>
    match flagVal d f with
    | .error e => .error e
    | .ok true => .ok true
    | .ok false => isVariables d rest

/-- `ItemN.set_variable_by_name`, cl_1_item.py:486-506. -/
def setVariableByName (E : PyEnv) (K : ClassDesc) (d : Dict) (n : VarName) (v : PyVal) :
    Except Err Dict :=
  if n.1 ≠ K.prefixName then .ok d else setattr E K d n.2 v

/-- `ItemN.get_variable_by_name`, cl_1_item.py:461-484: `None` on a wrong prefix, otherwise `getattr`. -/
def getVariableByName (K : ClassDesc) (form : Dict → Dict) (d : Dict) (n : VarName) :
    Except Err (PyVal × Dict) :=
  if n.1 ≠ K.prefixName then .ok (.none, d) else getattr K form d n.2

/-- A `for` loop that writes through `set_variable_by_name`. -/
def setMany (E : PyEnv) (K : ClassDesc) (d : Dict) (v : PyVal) : List VarName → Except Err Dict
  | [] => .ok d
  | n :: ns =>
    match setVariableByName E K d n v with
    | .error e => .error e
    | .ok d' => setMany E K d' v ns

/-- `ItemN.fix_variables`, cl_1_item.py:675-680. -/
def fixVariables (E : PyEnv) (K : ClassDesc) (d : Dict) : Except Err Dict :=
  match getVariableNames K d with
  | .error e => .error e
  | .ok l => setMany E K d (.bool false) (l.map fun n => (n.1, n.2 ++ "_refinement"))

/-- The loop of `ItemN.refine_all_variables`, cl_1_item.py:682-689. -/
def refineAll (E : PyEnv) (K : ClassDesc) (d : Dict) : List String → Except Err Dict
  | [] => .ok d
  | n :: ns =>
    match flagVal d (n ++ "_constraint") with
    | .error e => .error e
    | .ok true => refineAll E K d ns
    | .ok false =>
      match setattr E K d (n ++ "_refinement") (.bool true) with
      | .error e => .error e
      | .ok d' => refineAll E K d' ns

/-- `ItemN.refine_all_variables`, cl_1_item.py:682-689. -/
def refineAllVariables (E : PyEnv) (K : ClassDesc) (d : Dict) : Except Err Dict :=
  refineAll E K d K.ref

/-- A user's history: attribute writes, failed writes leaving the object as it was. -/
def runWrites (E : PyEnv) (K : ClassDesc) (d : Dict) (ws : List (String × PyVal)) : Dict :=
  ws.foldl (fun d w => match setattr E K d w.1 w.2 with | .ok d' => d' | .error _ => d) d

/-- The tables of class `Cell`, C_item_loop_classes/cl_1_cell.py:34-99, with the keys of `D_MIN`
spelled as in the code (line 92: `legnth_a`).  Internal names are abbreviated to two. -/
def cellDesc : ClassDesc where
  prefixName := "cell"
  mandatory := ["length_a", "length_b", "length_c", "angle_alpha", "angle_beta", "angle_gamma"]
  optional := []
  types := [.float, .float, .float, .float, .float, .float]
  intNames := ["volume", "cos_a"]
  intProtected := ["type_cell", "it_coordinate_system_code", "formula_units_z"]
  ref := ["length_a", "length_b", "length_c", "angle_alpha", "angle_beta", "angle_gamma"]
  sigma := ["length_a_sigma", "length_b_sigma", "length_c_sigma", "angle_alpha_sigma",
    "angle_beta_sigma", "angle_gamma_sigma"]
  constrFlag := ["length_a_constraint", "length_b_constraint", "length_c_constraint",
    "angle_alpha_constraint", "angle_beta_constraint", "angle_gamma_constraint"]
  refFlag := ["length_a_refinement", "length_b_refinement", "length_c_refinement",
    "angle_alpha_refinement", "angle_beta_refinement", "angle_gamma_refinement"]
  constrMark := ["length_a_mark", "length_b_mark", "length_c_mark", "angle_alpha_mark",
    "angle_beta_mark", "angle_gamma_mark"]
  dConstraints := [("type", [.str "c", .str "p"])]
  dMin := [("legnth_a", 0), ("legnth_b", 0), ("legnth_c", 0), ("angle_alpha", 0),
    ("angle_beta", 0), ("angle_gamma", 0)]
  dMax := [("angle_alpha", 180), ("angle_beta", 180), ("angle_gamma", 180)]

end Cryspy.Item
