import Verif.SG.Num
import Verif.Symm.Lemmas2

/-!
# A checkable condition for the operations of a setting to be a group

The check computes with natural numbers modulo 120 and only with the primitive operations that the kernel
of Lean evaluates directly.
-/

namespace Cryspy.SG

open Cryspy.Text Cryspy.Symm

/-- An operation modulo 120. -/
structure NOp where
  r11 : ℕ
  r12 : ℕ
  r13 : ℕ
  r21 : ℕ
  r22 : ℕ
  r23 : ℕ
  r31 : ℕ
  r32 : ℕ
  r33 : ℕ
  t1 : ℕ
  t2 : ℕ
  t3 : ℕ

/-- A vector modulo 120. -/
structure NTr where
  x : ℕ
  y : ℕ
  z : ℕ

/-- An integer modulo 120. -/
def md (z : ℤ) : ℕ := (z % 120).toNat

/-- The residues of an operation. -/
def Op.res (o : Op) : NOp :=
  ⟨md o.r11, md o.r12, md o.r13, md o.r21, md o.r22, md o.r23, md o.r31, md o.r32, md o.r33, md o.t1, md o.t2, md o.t3⟩

/-- The residues of a vector. -/
def Tr.res (t : Tr) : NTr := ⟨md t.1, md t.2.1, md t.2.2⟩

/-- `a b + c d + e f` modulo 120. -/
def dot (a b c d e f : ℕ) : ℕ := Nat.mod (Nat.add (Nat.add (Nat.mul a b) (Nat.mul c d)) (Nat.mul e f)) 120

/-- `a b + c d + e f + g` modulo 120. -/
def dotp (a b c d e f g : ℕ) : ℕ := Nat.mod (Nat.add (Nat.add (Nat.add (Nat.mul a b) (Nat.mul c d)) (Nat.mul e f)) g) 120

/-- `a - b` modulo 120 (for `b` below 120). -/
def dif (a b : ℕ) : ℕ := Nat.mod (Nat.sub (Nat.add a 120) b) 120

/-- First `b`, then `a`, modulo 120. -/
def NOp.mul (a b : NOp) : NOp :=
  ⟨dot a.r11 b.r11 a.r12 b.r21 a.r13 b.r31, dot a.r11 b.r12 a.r12 b.r22 a.r13 b.r32, dot a.r11 b.r13 a.r12 b.r23 a.r13 b.r33,
   dot a.r21 b.r11 a.r22 b.r21 a.r23 b.r31, dot a.r21 b.r12 a.r22 b.r22 a.r23 b.r32, dot a.r21 b.r13 a.r22 b.r23 a.r23 b.r33,
   dot a.r31 b.r11 a.r32 b.r21 a.r33 b.r31, dot a.r31 b.r12 a.r32 b.r22 a.r33 b.r32, dot a.r31 b.r13 a.r32 b.r23 a.r33 b.r33,
   dotp a.r11 b.t1 a.r12 b.t2 a.r13 b.t3 a.t1, dotp a.r21 b.t1 a.r22 b.t2 a.r23 b.t3 a.t2,
   dotp a.r31 b.t1 a.r32 b.t2 a.r33 b.t3 a.t3⟩

/-- The residues of the rotation in one number. -/
def NOp.code (a : NOp) : ℕ :=
  Nat.add a.r11 (Nat.mul 128 (Nat.add a.r12 (Nat.mul 128 (Nat.add a.r13 (Nat.mul 128 (Nat.add a.r21 (Nat.mul 128
  (Nat.add a.r22 (Nat.mul 128 (Nat.add a.r23 (Nat.mul 128 (Nat.add a.r31 (Nat.mul 128 (Nat.add a.r32 (Nat.mul 128
  a.r33)))))))))))))))

/-- Same residues of the rotation. -/
def NOp.sameRot (a b : NOp) : Bool := Nat.beq a.code b.code

/-- Is the residue of a translation that of one of the centring translations? -/
def inT (T : List NTr) (x y z : ℕ) : Bool :=
  T.any fun u => Nat.beq x u.x && (Nat.beq y u.y && Nat.beq z u.z)

/-- Is an operation one of the list, up to centring translations and integers? -/
def inH (H : List NOp) (T : List NTr) (p : NOp) : Bool :=
  H.any fun c => p.sameRot c && inT T (dif p.t1 c.t1) (dif p.t2 c.t2) (dif p.t3 c.t3)

/-- The identity. -/
def Op.one : Op := ⟨1, 0, 0, 0, 1, 0, 0, 0, 1, 0, 0, 0⟩

/-- The centring translations are a group and every rotation of `H` maps them to themselves. -/
def latCheck (H : List NOp) (T : List NTr) : Bool :=
  inT T 0 0 0 && (T.all (fun s => T.all fun u => inT T (Nat.mod (Nat.add s.x u.x) 120) (Nat.mod (Nat.add s.y u.y) 120)
    (Nat.mod (Nat.add s.z u.z) 120)) &&
  (T.all (fun s => inT T (dif 0 s.x) (dif 0 s.y) (dif 0 s.z)) &&
  H.all fun a => T.all fun u => inT T (dot a.r11 u.x a.r12 u.y a.r13 u.z) (dot a.r21 u.x a.r22 u.y a.r23 u.z)
    (dot a.r31 u.x a.r32 u.y a.r33 u.z)))

/-- `H` is a group up to the centring translations. -/
def quotCheck (H : List NOp) (T : List NTr) : Bool :=
  latCheck H T && (inH H T Op.one.res && (H.all (fun a => H.all fun b => inH H T (a.mul b)) &&
    H.all fun a => H.any fun b => inH [Op.one.res] T (b.mul a)))

/-- All entries of the rotation are −1, 0 or 1. -/
def Op.unit (o : Op) : Bool :=
  [o.r11, o.r12, o.r13, o.r21, o.r22, o.r23, o.r31, o.r32, o.r33].all fun r => decide (-1 ≤ r ∧ r ≤ 1)

/-- No two rotations of `H` are the same, no two centring translations are the same. -/
def distinctCheck (H : List NOp) (T : List NTr) : Bool :=
  decide (H.Pairwise fun a b => ¬ a.sameRot b = true) &&
    decide (T.Pairwise fun s u => ¬ inT [u] s.x s.y s.z = true)

/-- Everything that is checked of a setting. -/
def groupCheck' (p : List Op × List Tr) : Bool :=
  let H := p.1.map Op.res
  let T := p.2.map Tr.res
  p.1.all Op.unit && (quotCheck H T && distinctCheck H T)

end Cryspy.SG
