import Verif.Text.Model
import Verif.Symm.Spec

/-!
# Symmetry operations as exact numbers

`Op` holds an operation `x ↦ R x + t/120` with integer `R` and `t`: every translation of the tables of the
program is a multiple of 1/120, and integers are what the kernel of Lean computes with fast.
-/

namespace Cryspy.SG

open Cryspy.Text Cryspy.Symm

/-- An operation with its translation in units of 1/120. -/
structure Op where
  r11 : ℤ
  r12 : ℤ
  r13 : ℤ
  r21 : ℤ
  r22 : ℤ
  r23 : ℤ
  r31 : ℤ
  r32 : ℤ
  r33 : ℤ
  t1 : ℤ
  t2 : ℤ
  t3 : ℤ
deriving DecidableEq

/-- A vector in units of 1/120. -/
abbrev Tr := ℤ × ℤ × ℤ

/-- One card of itables.txt: number, choice, centre as text and in units of 1/120, operations by their
place in the table of distinct operations. -/
structure CardN where
  it : ℕ
  choice : String
  pcText : String
  pc : Tr
  ops : List ℕ

/-- The symmetry element that the operation is. -/
def Op.elem (o : Op) : Elem :=
  ⟨![o.t1, o.t2, o.t3], 120, ![![o.r11, o.r12, o.r13], ![o.r21, o.r22, o.r23], ![o.r31, o.r32, o.r33]]⟩

/-- An affine map `x ↦ R x + b` on fractional coordinates. -/
structure Aff where
  R : Fin 3 → Fin 3 → ℚ
  b : Fin 3 → ℚ

/-- The map that the operation is. -/
def Op.aff (o : Op) : Aff := ⟨fun i j => o.elem.r i j, fun i => (o.elem.bn i : ℚ) / 120⟩

/-- First `b`, then `a`. -/
def Op.mul (a b : Op) : Op :=
  ⟨a.r11 * b.r11 + a.r12 * b.r21 + a.r13 * b.r31, a.r11 * b.r12 + a.r12 * b.r22 + a.r13 * b.r32,
   a.r11 * b.r13 + a.r12 * b.r23 + a.r13 * b.r33,
   a.r21 * b.r11 + a.r22 * b.r21 + a.r23 * b.r31, a.r21 * b.r12 + a.r22 * b.r22 + a.r23 * b.r32,
   a.r21 * b.r13 + a.r22 * b.r23 + a.r23 * b.r33,
   a.r31 * b.r11 + a.r32 * b.r21 + a.r33 * b.r31, a.r31 * b.r12 + a.r32 * b.r22 + a.r33 * b.r32,
   a.r31 * b.r13 + a.r32 * b.r23 + a.r33 * b.r33,
   a.r11 * b.t1 + a.r12 * b.t2 + a.r13 * b.t3 + a.t1, a.r21 * b.t1 + a.r22 * b.t2 + a.r23 * b.t3 + a.t2,
   a.r31 * b.t1 + a.r32 * b.t2 + a.r33 * b.t3 + a.t3⟩

/-- The transpose of the rotation part, no translation. -/
def Op.trans (a : Op) : Op := ⟨a.r11, a.r21, a.r31, a.r12, a.r22, a.r32, a.r13, a.r23, a.r33, 0, 0, 0⟩

/-- Followed by a translation. -/
def Op.shift (a : Op) (t : Tr) : Op := { a with t1 := a.t1 + t.1, t2 := a.t2 + t.2.1, t3 := a.t3 + t.2.2 }

/-- Followed by the inversion about the point `c`. -/
def Op.inv (a : Op) (c : Tr) : Op :=
  ⟨-a.r11, -a.r12, -a.r13, -a.r21, -a.r22, -a.r23, -a.r31, -a.r32, -a.r33,
   -a.t1 + 2 * c.1, -a.t2 + 2 * c.2.1, -a.t3 + 2 * c.2.2⟩

/-- Same rotation. -/
def Op.sameRot (a b : Op) : Bool :=
  a.r11 == b.r11 && (a.r12 == b.r12 && (a.r13 == b.r13 && (a.r21 == b.r21 && (a.r22 == b.r22 &&
  (a.r23 == b.r23 && (a.r31 == b.r31 && (a.r32 == b.r32 && a.r33 == b.r33)))))))

/-- Does a translation in units of 1/120 have a denominator of at most 10? -/
def smallDen (t : ℤ) : Bool := [8, 9, 10, 7, 6, 5].any fun d => d * t % 120 == 0

end Cryspy.SG
