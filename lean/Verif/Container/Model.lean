import Verif.Item.Model

/-!
# Model of `LoopN` (cl_2_loop.py), `DataN` (cl_3_data.py) and `GlobalN` (cl_4_global.py)

Simplifications: `str.lower()` acts on ASCII letters only (`lower`); loops whose `ITEM_CLASS` is the raw
`ItemN` are not modelled (every item of a loop has the class of the loop); list indexes are naturals.
-/

namespace Cryspy.Container

open Cryspy.Item

/-- Python's `str.lower()` on ASCII letters. -/
def lower (s : String) : String := String.ofList (s.toList.map Char.toLower)

/-- Full variable name without the data part: `((prefix, loop_name), (attribute, index))`. -/
structure VName where
  prefixName : String
  loopName : Option String
  attr : String
  index : Option Nat
  deriving DecidableEq

/-- `LoopN`: class of items, name of the loop, the items. -/
structure Loop where
  cls : ClassDesc
  name : Option String
  items : List Dict

/-- `loop_name.lower()` when it is a string, cl_2_loop.py:563-565. -/
def lowerOpt : Option String → Option String := Option.map lower

/-- The loop with `enumerate` in `LoopN.get_variable_names`, cl_2_loop.py:566-570. -/
def loopVarsFrom (K : ClassDesc) (ln : Option String) (i : Nat) : List Dict → Except Err (List VName)
  | [] => .ok []
  | d :: ds =>
    match getVariableNames K d with
    | .error e => .error e
    | .ok l =>
      match loopVarsFrom K ln (i + 1) ds with
      | .error e => .error e
      | .ok r => .ok (l.map (fun n => ⟨K.prefixName, ln, n.2, some i⟩) ++ r)

/-- `LoopN.get_variable_names`, cl_2_loop.py:543-570. -/
def Loop.varNames (L : Loop) : Except Err (List VName) :=
  loopVarsFrom L.cls (lowerOpt L.name) 0 L.items

/-- `LoopN.get_variable_by_name`, cl_2_loop.py:581-626, for a full name.  The possible caching of
derived values in the item is dropped. -/
def Loop.getVar (form : Dict → Dict) (L : Loop) (n : VName) : Except Err PyVal :=
  if (n.prefixName, lowerOpt n.loopName) ≠ (L.cls.prefixName, lowerOpt L.name) then .ok .none
  else match n.index with
    | none => .error .typeError
    | some i => match L.items[i]? with
      | none => .error .indexError
      | some d => (getattr L.cls form d n.attr).map Prod.fst

/-- `LoopN.set_variable_by_name`, cl_2_loop.py:628-658.  Note: the loop name is compared as it is,
not in lower case. -/
def Loop.setVar (E : PyEnv) (L : Loop) (n : VName) (v : PyVal) : Except Err Loop :=
  if (n.prefixName, n.loopName) ≠ (L.cls.prefixName, L.name) then .ok L
  else match n.index with
    | none => .error .typeError
    | some i => match L.items[i]? with
      | none => .error .indexError
      | some d => match setattr E L.cls d n.attr v with
        | .error e => .error e
        | .ok d' => .ok { L with items := L.items.set i d' }

/-- `LoopN.__getitem__` with an index attribute, cl_2_loop.py:499-525: the first item whose index
attribute equals the key; otherwise a position if the key is an integer; otherwise `None`. -/
def Loop.getItem (attr : String) (L : Loop) (key : PyVal) (pos : Option Nat) : Option Dict :=
  match L.items.find? (fun d => d attr = some key) with
  | some d => some d
  | none => match pos with | none => none | some i => L.items[i]?

/-- `LoopN.__setattr__("items", value)`, cl_2_loop.py:160-174: the values that are of the item class
are kept.  `isItem` is `isinstance(val, self.ITEM_CLASS)`. -/
def setLoopItems {α : Type} (isItem : α → Bool) (value : List α) : List α :=
  if value.all isItem then value else value.filter isItem

/-- `LoopN.fix_variables`, cl_2_loop.py:707-710. -/
def Loop.fixItems (E : PyEnv) (K : ClassDesc) : List Dict → Except Err (List Dict)
  | [] => .ok []
  | d :: ds => match fixVariables E K d with
    | .error e => .error e
    | .ok d' => match Loop.fixItems E K ds with
      | .error e => .error e
      | .ok r => .ok (d' :: r)

/-- A member of a data container: an item or a loop. -/
inductive Member where
  | item (K : ClassDesc) (d : Dict)
  | loop (L : Loop)

/-- The prefix used to dispatch in `DataN`, cl_3_data.py:338-349. -/
def Member.prefixName : Member → String
  | .item K _ => K.prefixName
  | .loop L => L.cls.prefixName

/-- `get_variable_names` of a member (item names carry `None` as loop name and index). -/
def Member.varNames : Member → Except Err (List VName)
  | .item K d => (getVariableNames K d).map (List.map fun n => ⟨n.1, none, n.2, none⟩)
  | .loop L => L.varNames

/-- `get_variable_by_name` of a member. -/
def Member.getVar (form : Dict → Dict) : Member → VName → Except Err PyVal
  | .item K d, n =>
    if n.prefixName ≠ K.prefixName then .ok .none else (getattr K form d n.attr).map Prod.fst
  | .loop L, n => L.getVar form n

/-- `set_variable_by_name` of a member. -/
def Member.setVar (E : PyEnv) : Member → VName → PyVal → Except Err Member
  | .item K d, n, v =>
    if n.prefixName ≠ K.prefixName then .ok (.item K d) else (setattr E K d n.attr v).map (Member.item K)
  | .loop L, n, v => (L.setVar E n v).map Member.loop

/-- `DataN`: prefix, data name, members. -/
structure Data where
  prefixName : String
  name : Option String
  members : List Member

/-- Concatenation in `DataN.get_variable_names`, cl_3_data.py:292-295. -/
def memberVars : List Member → Except Err (List VName)
  | [] => .ok []
  | m :: ms => match m.varNames with
    | .error e => .error e
    | .ok l => match memberVars ms with
      | .error e => .error e
      | .ok r => .ok (l ++ r)

/-- Name of a variable of a data container: `((prefix, data_name),) + var`. -/
abbrev DName := (String × Option String) × VName

/-- `DataN.get_variable_names`, cl_3_data.py:276-296. -/
def Data.varNames (D : Data) : Except Err (List DName) :=
  match memberVars D.members with
  | .error e => .error e
  | .ok l => .ok (l.map fun n => ((D.prefixName, lowerOpt D.name), n))

/-- The member loop of `DataN.get_variable_by_name`, cl_3_data.py:337-354: the first result that is
not `None`. -/
def getFromMembers (form : Dict → Dict) (n : VName) : List Member → Except Err PyVal
  | [] => .ok .none
  | m :: ms =>
    if m.prefixName = n.prefixName then
      match m.getVar form n with
      | .error e => .error e
      | .ok .none => getFromMembers form n ms
      | .ok v => .ok v
    else getFromMembers form n ms

/-- `DataN.get_variable_by_name`, cl_3_data.py:307-354. -/
def Data.getVar (form : Dict → Dict) (D : Data) (n : DName) : Except Err PyVal :=
  if (n.1.1, lowerOpt n.1.2) ≠ (D.prefixName, lowerOpt D.name) then .ok .none
  else getFromMembers form n.2 D.members

/-- The member loop of `DataN.set_variable_by_name`, cl_3_data.py:381-395: every member with the
prefix is asked to set. -/
def setInMembers (E : PyEnv) (n : VName) (v : PyVal) : List Member → Except Err (List Member)
  | [] => .ok []
  | m :: ms =>
    match (if m.prefixName = n.prefixName then m.setVar E n v else .ok m) with
    | .error e => .error e
    | .ok m' => match setInMembers E n v ms with
      | .error e => .error e
      | .ok r => .ok (m' :: r)

/-- `DataN.set_variable_by_name`, cl_3_data.py:356-395.  The data name is compared as it is. -/
def Data.setVar (E : PyEnv) (D : Data) (n : DName) (v : PyVal) : Except Err Data :=
  if n.1 ≠ (D.prefixName, D.name) then .ok D
  else (setInMembers E n.2 v D.members).map fun ms => { D with members := ms }

/-! ## The list of members as a name table -/

/-- An object in a container: the name `get_name()` gives, whether the container accepts its class
(`isinstance(item, (ItemN, LoopN))`, cl_3_data.py:208, or `self.CLASSES`, cl_4_global.py:218),
and its content. -/
structure Obj (α : Type) where
  name : String
  accepted : Bool
  content : α

/-- The order in which Python iterates over a set of strings is not specified. -/
structure SetOrder where
  order : List String → List String
  nodup : ∀ l, (order l).Nodup
  mem : ∀ l x, x ∈ order l ↔ x ∈ l

/-- `DataN.add_items` (cl_3_data.py:188-215) and `GlobalN.add_items` (cl_4_global.py:200-224):
repeated names in the argument are reduced to their first occurrence, in set order; members with a
name in the argument are deleted; accepted arguments are appended. -/
def addItems {α : Type} (S : SetOrder) (self items : List (Obj α)) : List (Obj α) :=
  let lName := items.map Obj.name
  let sName := S.order lName
  let unique := if sName.length ≠ lName.length
    then sName.filterMap (fun n => items[lName.idxOf n]?) else items
  self.filter (fun o => !(sName.contains o.name)) ++ unique.filter Obj.accepted

/-- `DataN.__getattr__`, `__getitem__`, `is_attribute`: first member with the lower-cased name,
cl_3_data.py:125-128, 262-266. -/
def findName {α : Type} (self : List (Obj α)) (name : String) : Option (Obj α) :=
  self.find? (fun o => lower name == o.name)

/-- `data.name = obj` for an object of a known class, cl_3_data.py:170-179 (cl_4_global.py:168-176):
`self.items.pop(l_name.index(name))` looks for the *attribute* name although the test was for the
name of the new object; `index` raises `ValueError` when it is absent. -/
def assignObj {α : Type} (self : List (Obj α)) (name : String) (o : Obj α) :
    Except Err (List (Obj α)) :=
  let lName := self.map Obj.name
  if o.name ∈ lName then
    if name ∈ lName then .ok (self.eraseIdx (lName.idxOf name) ++ [o]) else .error .valueError
  else .ok (self ++ [o])

end Cryspy.Container
