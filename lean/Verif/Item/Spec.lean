import Verif.Item.Model

/-!
# Specification vocabulary for items

Small, independent of how the model computes.
-/

namespace Cryspy.Item

/-- Nearest number to `q` that is at least `lo` (if any) and then at most `hi` (if any). -/
def clampQ (lo hi : Option ℚ) (q : ℚ) : ℚ :=
  let a := match lo with | none => q | some b => max b q
  match hi with | none => a | some b => min b a

/-- Names under which an object keeps user data (values, errors, flags, marks, protected names). -/
def ClassDesc.Declared (K : ClassDesc) (n : String) : Prop :=
  n ∈ K.names ∨ n ∈ K.sigma ∨ n ∈ K.constrFlag ∨ n ∈ K.refFlag ∨ n ∈ K.constrMark ∨ n ∈ K.intProtected

instance (K : ClassDesc) (n : String) : Decidable (K.Declared n) := by
  unfold ClassDesc.Declared; infer_instance

/-- The class puts no set of allowed values on `n`, or `v` is one of them. -/
def ClassDesc.Permitted (K : ClassDesc) (n : String) (v : PyVal) : Prop :=
  ∀ l, K.dConstraints.lookup n = some l → v ∈ l

/-- What every class file of the library has: one type per attribute and the four companion tables
derived from `ATTR_REF` (cl_1_cell.py:66-71), names not clashing. -/
structure ClassDesc.WF (K : ClassDesc) : Prop where
  types_len : K.types.length = K.names.length
  refFlag_eq : K.refFlag = K.ref.map (· ++ "_refinement")
  constrFlag_eq : K.constrFlag = K.ref.map (· ++ "_constraint")
  flag_not_name : ∀ n ∈ K.refFlag, n ∉ K.names ∧ n ∉ K.sigma
  ref_nodup : K.ref.Nodup

/-- All declared bounds are satisfiable. -/
def ClassDesc.BoundsOK (K : ClassDesc) : Prop :=
  ∀ n lo hi, K.dMin.lookup n = some lo → K.dMax.lookup n = some hi → lo ≤ hi

/-- The bounds the class declares hold for what is stored. -/
def ClassDesc.WithinBounds (K : ClassDesc) (d : Dict) : Prop :=
  ∀ n ∈ K.names, ∀ q, d n = some (.num q) →
    (∀ b, K.dMin.lookup n = some b → b ≤ q) ∧ (∀ b, K.dMax.lookup n = some b → q ≤ b)

/-- The declared sets of allowed values hold for what is stored. -/
def ClassDesc.WithinAllowed (K : ClassDesc) (d : Dict) : Prop :=
  ∀ n ∈ K.names, ∀ l, K.dConstraints.lookup n = some l → ∀ v, d n = some v → v = .none ∨ v ∈ l

/-- The refinement flag of parameter `n` is set. -/
def Refined (d : Dict) (n : String) : Bool :=
  match d (n ++ "_refinement") with | none => false | some v => truthy v

/-- The constraint flag of parameter `n` is set. -/
def Constrained (d : Dict) (n : String) : Bool :=
  match d (n ++ "_constraint") with | none => false | some v => truthy v

end Cryspy.Item
