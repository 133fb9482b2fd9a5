import Verif.SG.Tables

/-!
# Reading the operations of the tables
-/

namespace Cryspy.SG

open Cryspy.Text

/-- The operation as rows of coefficients and translation. -/
def Op.rows (o : Op) : List (List ℚ × ℚ) :=
  [([(o.r11 : ℚ), o.r12, o.r13], o.t1 / 120), ([(o.r21 : ℚ), o.r22, o.r23], o.t2 / 120),
   ([(o.r31 : ℚ), o.r32, o.r33], o.t3 / 120)]

theorem toAff_rows (o : Op) : toAff o.rows = some o.aff := by
  simp only [Op.rows, toAff, Op.aff, Op.elem, Option.some.injEq, Aff.mk.injEq]
  constructor
  · funext i j; fin_cases i <;> fin_cases j <;> rfl
  · funext i; fin_cases i <;> rfl

/-- Does the text mean the operation (`none`: it does not have the form of an operation)? -/
def textIs (s : String) (o : Option Op) : Bool :=
  match o with
  | some o => stringToRB ['x', 'y', 'z'] s.toList == some o.rows
  | none => ((stringToRB ['x', 'y', 'z'] s.toList).map fun l => decide (l.length ≠ 3)) == some true

theorem readOp_of_textIs {s : String} {o : Option Op} (h : textIs s o = true) : readOp s.toList = o.map Op.aff := by
  unfold textIs at h
  unfold readOp
  cases o with
  | some o => rw [eq_of_beq h]; exact toAff_rows o
  | none =>
    have h := eq_of_beq h
    obtain ⟨l, hl, h2⟩ := Option.map_eq_some_iff.1 h
    rw [hl]
    have h2 := of_decide_eq_true h2
    change toAff l = none
    unfold toAff
    split
    · exact absurd rfl h2
    · rfl

set_option maxRecDepth 100000 in
theorem symTab0_read : (symTab0.all fun p => textIs p.1 p.2) = true := by decide +kernel

set_option maxRecDepth 100000 in
theorem symTab1_read : (symTab1.all fun p => textIs p.1 p.2) = true := by decide +kernel

set_option maxRecDepth 100000 in
theorem symTab2_read : (symTab2.all fun p => textIs p.1 p.2) = true := by decide +kernel

set_option maxRecDepth 100000 in
theorem symTab3_read : (symTab3.all fun p => textIs p.1 p.2) = true := by decide +kernel

set_option maxRecDepth 100000 in
theorem symTab4_read : (symTab4.all fun p => textIs p.1 p.2) = true := by decide +kernel

set_option maxRecDepth 100000 in
theorem symTab5_read : (symTab5.all fun p => textIs p.1 p.2) = true := by decide +kernel

/-- Every distinct operation of the file is read as the operation of the table of numbers. -/
theorem symList_read : ∀ p ∈ symList, readOp p.1 = p.2.map Op.aff := by
  intro p hp
  obtain ⟨q, hq, rfl⟩ := List.mem_map.1 hp
  obtain ⟨l, hl, hql⟩ := List.mem_flatten.1 hq
  have key : ∀ l ∈ symTab, (l.all fun p => textIs p.1 p.2) = true := by
    simp only [symTab, List.forall_mem_cons, symTab0_read, symTab1_read, symTab2_read, symTab3_read, symTab4_read,
      symTab5_read, List.not_mem_nil, false_imp_iff, implies_true, and_self]
  exact readOp_of_textIs (List.all_eq_true.1 (key l hl) q hql)

end Cryspy.SG
