import Verif.Item.Model

/-!
# The columns of a loop as arrays

Model of the attributes `numpy_<name>` of a loop object and of `numpy_to_items`
(B_parent_classes/cl_2_loop.py:101-129, 181-210), with the items of `Verif.Item.Model`.

A loop object is its `__dict__`: the list of items, and the stored arrays in the order
in which they were first stored.

Simplifications: only the names `numpy_<name>` with `<name>` a declared attribute,
sigma, flag or mark of the item class are modelled (the same code is there for derived
names); an array is the list of its values; what is stored under other names is left out;
`numpy_to_items` that raises part-way is modelled as an error, without the state it leaves.
-/

namespace Cryspy.Cols

open Cryspy.Item

/-- The loop object: `self.items` and the stored `numpy_<name>` arrays. -/
structure Loop where
  items : List Dict
  cols : List (String × List PyVal)

/-- The type of the array of a name, cl_2_loop.py:111-120. `none`: the name is not one of
the item class. -/
def colType (K : ClassDesc) (x : String) : Option PyType :=
  if x ∈ K.names then K.types[K.names.idxOf x]?
  else if x ∈ K.constrFlag ++ K.refFlag then some .bool
  else if x ∈ K.constrMark then some .str
  else if x ∈ K.sigma then some .float
  else none

/-- Is the name one that `numpy_to_items` moves, cl_2_loop.py:198-201? -/
def isCol (K : ClassDesc) (x : String) : Bool :=
  (K.names ++ K.sigma ++ K.constrFlag ++ K.refFlag ++ K.constrMark).contains x

/-- One value in `numpy.array(l_val, dtype=...)`, cl_2_loop.py:121. `None` becomes `nan` in an
array of floats, `False` in one of booleans, the text "None" in one of strings, and is an
error in one of integers. `none` is the exception. -/
def toArr (E : PyEnv) : PyType → PyVal → Option PyVal
  | .float, .none => some .nan
  | .int, .none => none
  | .bool, v => some (.bool (truthy v))
  | .str, .none => some (.str "None")
  | ty, v => coerce E ty v

/-- `getattr(item, name)` of a declared name; a missing one raises (cl_1_item.py:172-175). -/
def getDecl (x : String) (d : Dict) : Except Err PyVal :=
  match d x with
  | some v => .ok v
  | none => .error .attributeError

/-- `[getattr(item, name) for item in self.items]`, cl_2_loop.py:110. -/
def values (items : List Dict) (x : String) : Except Err (List PyVal) := items.mapM (getDecl x)

/-- The array made of the items, cl_2_loop.py:110-121. -/
def column (E : PyEnv) (ty : PyType) (items : List Dict) (x : String) : Except Err (List PyVal) :=
  match values items x with
  | .error e => .error e
  | .ok l => match l.mapM (toArr E ty) with
    | none => .error .typeError
    | some a => .ok a

/-- `self.__dict__[name] = value`: the place of a name already stored is kept. -/
def store (cols : List (String × List PyVal)) (x : String) (a : List PyVal) :
    List (String × List PyVal) :=
  if x ∈ cols.map Prod.fst then cols.map fun p => if p.1 = x then (x, a) else p
  else cols ++ [(x, a)]

/-- `loop.numpy_<x>`, cl_2_loop.py:101-123: a stored array is given as it is (Python calls
`__getattr__` only for a missing name); otherwise it is made of the items and stored. -/
def read (E : PyEnv) (K : ClassDesc) (L : Loop) (x : String) : Except Err (List PyVal × Loop) :=
  match L.cols.lookup x with
  | some a => .ok (a, L)
  | none => match colType K x with
    | none => .error .attributeError
    | some ty => match column E ty L.items x with
      | .error e => .error e
      | .ok a => .ok (a, { L with cols := store L.cols x a })

/-- `loop.<x>`, cl_2_loop.py:130-134: always the values of the items. -/
def readList (L : Loop) (x : String) : Except Err (List PyVal) := values L.items x

/-- `loop.numpy_<x> = array`, cl_2_loop.py:145-179 (`flag_direct`). -/
def assign (L : Loop) (x : String) (a : List PyVal) : Loop := { L with cols := store L.cols x a }

/-- `loop.items[i].<x> = v`. -/
def writeItem (E : PyEnv) (K : ClassDesc) (L : Loop) (i : ℕ) (x : String) (v : PyVal) :
    Except Err Loop :=
  match L.items[i]? with
  | none => .error .indexError
  | some d => match setattr E K d x v with
    | .error e => .error e
    | .ok d' => .ok { L with items := L.items.set i d' }

/-- `for item, val in zip(self.items, numpy_val): setattr(item, name_sh, val)`,
cl_2_loop.py:206-207. -/
def fill (E : PyEnv) (K : ClassDesc) (x : String) : List Dict → List PyVal → Except Err (List Dict)
  | d :: ds, v :: vs => match setattr E K d x v with
    | .error e => .error e
    | .ok d' => match fill E K x ds vs with
      | .error e => .error e
      | .ok ds' => .ok (d' :: ds')
  | ds, _ => .ok ds

/-- One stored array in the loop of `numpy_to_items`, cl_2_loop.py:202-207. `d0` is
`item_class()`. -/
def flushOne (E : PyEnv) (K : ClassDesc) (d0 : Dict) (items : List Dict)
    (p : String × List PyVal) : Except Err (List Dict) :=
  fill E K p.1 (if items.length = 0 then p.2.map fun _ => d0 else items) p.2

/-- The loop over the stored arrays. -/
def flushAll (E : PyEnv) (K : ClassDesc) (d0 : Dict) :
    List Dict → List (String × List PyVal) → Except Err (List Dict)
  | items, [] => .ok items
  | items, p :: ps => match flushOne E K d0 items p with
    | .error e => .error e
    | .ok items' => flushAll E K d0 items' ps

/-- `numpy_to_items`, cl_2_loop.py:181-210. -/
def flush (E : PyEnv) (K : ClassDesc) (d0 : Dict) (L : Loop) : Except Err Loop :=
  match flushAll E K d0 L.items (L.cols.filter fun p => isCol K p.1) with
  | .error e => .error e
  | .ok items => .ok { items := items, cols := L.cols.filter fun p => !isCol K p.1 }

/-- What a user does with a loop. -/
inductive Op where
  | read (x : String)
  | write (i : ℕ) (x : String) (v : PyVal)
  | flush

/-- One action. An action that raises leaves the loop (for `flush` this is not so in Python;
the theorems are about actions that do not raise). -/
def step (E : PyEnv) (K : ClassDesc) (d0 : Dict) (L : Loop) : Op → Except Err Loop
  | .read x => match read E K L x with
    | .ok (_, L') => .ok L'
    | .error e => .error e
  | .write i x v => writeItem E K L i x v
  | .flush => flush E K d0 L

/-- A history of actions, none of which raised. -/
def run (E : PyEnv) (K : ClassDesc) (d0 : Dict) : Loop → List Op → Except Err Loop
  | L, [] => .ok L
  | L, o :: os => match step E K d0 L o with
    | .ok L' => run E K d0 L' os
    | .error e => .error e

end Cryspy.Cols
