import Verif.Vib.Spec

/-! # Tables of the two frames and the finite checks on them (proof data for Props.lean) -/

namespace Cryspy.Vib

open Mat Matrix

/-- the rotations of the frame -/
def cubicMats : List (Fin 9 → ℤ) :=
  [![1, 0, 0, 0, 1, 0, 0, 0, 1],
   ![-1, 0, 0, 0, -1, 0, 0, 0, 1],
   ![-1, 0, 0, 0, 0, -1, 0, -1, 0],
   ![-1, 0, 0, 0, 0, 1, 0, 1, 0],
   ![-1, 0, 0, 0, 1, 0, 0, 0, -1],
   ![0, -1, 0, -1, 0, 0, 0, 0, -1],
   ![0, -1, 0, 0, 0, -1, 1, 0, 0],
   ![0, -1, 0, 0, 0, 1, -1, 0, 0],
   ![0, -1, 0, 1, 0, 0, 0, 0, 1],
   ![0, 0, -1, -1, 0, 0, 0, 1, 0],
   ![0, 0, -1, 0, -1, 0, -1, 0, 0],
   ![0, 0, -1, 0, 1, 0, 1, 0, 0],
   ![0, 0, -1, 1, 0, 0, 0, -1, 0],
   ![0, 0, 1, -1, 0, 0, 0, -1, 0],
   ![0, 0, 1, 0, -1, 0, 1, 0, 0],
   ![0, 0, 1, 0, 1, 0, -1, 0, 0],
   ![0, 0, 1, 1, 0, 0, 0, 1, 0],
   ![0, 1, 0, -1, 0, 0, 0, 0, 1],
   ![0, 1, 0, 0, 0, -1, -1, 0, 0],
   ![0, 1, 0, 0, 0, 1, 1, 0, 0],
   ![0, 1, 0, 1, 0, 0, 0, 0, -1],
   ![1, 0, 0, 0, -1, 0, 0, 0, -1],
   ![1, 0, 0, 0, 0, -1, 0, 1, 0],
   ![1, 0, 0, 0, 0, 1, 0, -1, 0]]

/-- their products, by index -/
def cubicTbl : List (List ℕ) :=
  [[0, 1, 2, 3, 4, 5, 6, 7, 8, 9, 10, 11, 12, 13, 14, 15, 16, 17, 18, 19, 20, 21, 22, 23],
   [1, 0, 23, 22, 21, 20, 19, 18, 17, 16, 15, 14, 13, 12, 11, 10, 9, 8, 7, 6, 5, 4, 3, 2],
   [2, 22, 0, 21, 23, 19, 17, 20, 18, 14, 16, 13, 15, 11, 9, 12, 10, 6, 8, 5, 7, 3, 1, 4],
   [3, 23, 21, 0, 22, 18, 20, 17, 19, 15, 13, 16, 14, 10, 12, 9, 11, 7, 5, 8, 6, 2, 4, 1],
   [4, 21, 22, 23, 0, 17, 18, 19, 20, 13, 14, 15, 16, 9, 10, 11, 12, 5, 6, 7, 8, 1, 2, 3],
   [5, 20, 16, 12, 8, 0, 15, 11, 4, 23, 19, 7, 3, 22, 18, 6, 2, 21, 14, 10, 1, 17, 13, 9],
   [6, 18, 15, 10, 7, 23, 13, 12, 2, 21, 20, 5, 4, 0, 17, 8, 1, 22, 16, 9, 3, 19, 14, 11],
   [7, 19, 14, 11, 6, 22, 16, 9, 3, 0, 17, 8, 1, 21, 20, 5, 4, 23, 13, 12, 2, 18, 15, 10],
   [8, 17, 13, 9, 5, 21, 14, 10, 1, 22, 18, 6, 2, 23, 19, 7, 3, 0, 15, 11, 4, 20, 16, 12],
   [9, 12, 20, 8, 16, 15, 4, 0, 11, 7, 23, 3, 19, 18, 2, 22, 6, 10, 21, 1, 14, 13, 5, 17],
   [10, 11, 19, 6, 14, 16, 3, 22, 9, 8, 0, 1, 17, 20, 4, 21, 5, 12, 23, 2, 13, 15, 7, 18],
   [11, 10, 18, 7, 15, 13, 2, 23, 12, 5, 21, 4, 20, 17, 1, 0, 8, 9, 22, 3, 16, 14, 6, 19],
   [12, 9, 17, 5, 13, 14, 1, 21, 10, 6, 22, 2, 18, 19, 3, 23, 7, 11, 0, 4, 15, 16, 8, 20],
   [13, 16, 8, 20, 12, 11, 0, 4, 15, 19, 3, 23, 7, 6, 22, 2, 18, 14, 1, 21, 10, 9, 17, 5],
   [14, 15, 7, 18, 10, 12, 23, 2, 13, 20, 4, 21, 5, 8, 0, 1, 17, 16, 3, 22, 9, 11, 19, 6],
   [15, 14, 6, 19, 11, 9, 22, 3, 16, 17, 1, 0, 8, 5, 21, 4, 20, 13, 2, 23, 12, 10, 18, 7],
   [16, 13, 5, 17, 9, 10, 21, 1, 14, 18, 2, 22, 6, 7, 23, 3, 19, 15, 4, 0, 11, 12, 20, 8],
   [17, 8, 12, 16, 20, 4, 11, 15, 0, 3, 7, 19, 23, 2, 6, 18, 22, 1, 10, 14, 21, 5, 9, 13],
   [18, 6, 11, 14, 19, 3, 9, 16, 22, 1, 8, 17, 0, 4, 5, 20, 21, 2, 12, 13, 23, 7, 10, 15],
   [19, 7, 10, 15, 18, 2, 12, 13, 23, 4, 5, 20, 21, 1, 8, 17, 0, 3, 9, 16, 22, 6, 11, 14],
   [20, 5, 9, 13, 17, 1, 10, 14, 21, 2, 6, 18, 22, 3, 7, 19, 23, 4, 11, 15, 0, 8, 12, 16],
   [21, 4, 3, 2, 1, 8, 7, 6, 5, 12, 11, 10, 9, 16, 15, 14, 13, 20, 19, 18, 17, 0, 23, 22],
   [22, 2, 4, 1, 3, 7, 5, 8, 6, 10, 12, 9, 11, 15, 13, 16, 14, 18, 20, 17, 19, 23, 21, 0],
   [23, 3, 1, 4, 2, 6, 8, 5, 7, 11, 9, 12, 10, 14, 16, 13, 15, 19, 17, 20, 18, 22, 0, 21]]

/-- generators, members as a bit mask, constraint number, verdict -/
def cubicSubs : List (List ℕ × ℕ × ℕ × Bool) :=
  [([], 1, 0, true),
   ([1], 3, 2, true),
   ([2], 5, 10, true),
   ([3], 9, 11, true),
   ([4], 17, 1, true),
   ([5], 33, 6, true),
   ([10], 1025, 0, false),
   ([14], 16385, 0, false),
   ([20], 1048577, 0, false),
   ([21], 2097153, 3, true),
   ([6], 8257, 11, false),
   ([7], 641, 10, false),
   ([12], 266241, 18, false),
   ([16], 589825, 18, true),
   ([1, 4], 2097171, 4, true),
   ([1, 5], 1048611, 5, true),
   ([8], 131331, 8, true),
   ([2, 3], 2097165, 9, true),
   ([4, 10], 17425, 1, false),
   ([11], 34833, 4, false),
   ([22], 14680065, 12, true),
   ([2, 5], 590885, 18, true),
   ([2, 7], 1065605, 10, false),
   ([3, 5], 282665, 18, false),
   ([3, 6], 1057865, 11, false),
   ([1, 2], 14680095, 12, true),
   ([4, 5], 3277107, 8, true),
   ([1, 10], 2149395, 4, false),
   ([1, 6], 2962131, 17, true),
   ([2, 6], 16777215, 17, true)]

/-- the rotations of the frame -/
def hexMats : List (Fin 9 → ℤ) :=
  [![1, 0, 0, 0, 1, 0, 0, 0, 1],
   ![-1, 0, 0, -1, 1, 0, 0, 0, -1],
   ![-1, 0, 0, 0, -1, 0, 0, 0, 1],
   ![-1, 1, 0, -1, 0, 0, 0, 0, 1],
   ![-1, 1, 0, 0, 1, 0, 0, 0, -1],
   ![0, -1, 0, -1, 0, 0, 0, 0, -1],
   ![0, -1, 0, 1, -1, 0, 0, 0, 1],
   ![0, 1, 0, -1, 1, 0, 0, 0, 1],
   ![0, 1, 0, 1, 0, 0, 0, 0, -1],
   ![1, -1, 0, 0, -1, 0, 0, 0, -1],
   ![1, -1, 0, 1, 0, 0, 0, 0, 1],
   ![1, 0, 0, 1, -1, 0, 0, 0, -1]]

/-- their products, by index -/
def hexTbl : List (List ℕ) :=
  [[0, 1, 2, 3, 4, 5, 6, 7, 8, 9, 10, 11],
   [1, 0, 11, 9, 10, 7, 8, 5, 6, 3, 4, 2],
   [2, 11, 0, 10, 9, 8, 7, 6, 5, 4, 3, 1],
   [3, 8, 10, 6, 11, 4, 0, 2, 9, 1, 7, 5],
   [4, 7, 9, 5, 0, 3, 11, 1, 10, 2, 8, 6],
   [5, 10, 8, 11, 6, 0, 4, 9, 2, 7, 1, 3],
   [6, 9, 7, 0, 5, 11, 3, 10, 1, 8, 2, 4],
   [7, 4, 6, 2, 8, 1, 10, 3, 11, 5, 0, 9],
   [8, 3, 5, 1, 7, 2, 9, 4, 0, 6, 11, 10],
   [9, 6, 4, 8, 2, 10, 1, 11, 3, 0, 5, 7],
   [10, 5, 3, 7, 1, 9, 2, 0, 4, 11, 6, 8],
   [11, 2, 1, 4, 3, 6, 5, 8, 7, 10, 9, 0]]

/-- generators, members as a bit mask, constraint number, verdict -/
def hexSubs : List (List ℕ × ℕ × ℕ × Bool) :=
  [([], 1, 0, true),
   ([1], 3, 0, false),
   ([2], 5, 2, true),
   ([4], 17, 13, true),
   ([5], 33, 6, true),
   ([8], 257, 0, false),
   ([9], 513, 15, true),
   ([11], 2049, 3, false),
   ([3], 73, 16, true),
   ([1, 2], 2055, 2, false),
   ([2, 4], 533, 14, true),
   ([2, 5], 293, 5, true),
   ([1, 3], 843, 16, true),
   ([7], 1229, 16, true),
   ([3, 4], 2169, 16, true),
   ([1, 4], 4095, 16, true)]

/-- members of a bit mask -/
def bits (n m : ℕ) : List ℕ := (List.range n).filter fun i => m.testBit i

def look (t : List (List ℕ)) (i j : ℕ) : ℕ := (t.getD i []).getD j 0

/-- one round of left multiplication by the generators -/
def stepMask (n : ℕ) (t : List (List ℕ)) (gens : List ℕ) (m : ℕ) : ℕ :=
  (bits n m).foldl (fun acc i => gens.foldl (fun acc g => acc ||| 1 <<< look t g i) acc) m

def orbit (n : ℕ) (t : List (List ℕ)) (gens : List ℕ) : ℕ → ℕ → ℕ
  | 0, m => m
  | k + 1, m => orbit n t gens k (stepMask n t gens m)

def eq9 (a b : Fin 9 → ℤ) : Bool :=
  a 0 == b 0 && a 1 == b 1 && a 2 == b 2 && a 3 == b 3 && a 4 == b 4 && a 5 == b 5 && a 6 == b 6 && a 7 == b 7 && a 8 == b 8

def mat (ms : List (Fin 9 → ℤ)) (i : ℕ) : Fin 9 → ℤ := ms.getD i fun _ => 0

def chkTbl (ms : List (Fin 9 → ℤ)) (t : List (List ℕ)) : Bool :=
  (List.range ms.length).all fun i => (List.range ms.length).all fun j =>
    decide (look t i j < ms.length) && eq9 (mulM (mat ms i) (mat ms j)) (mat ms (look t i j))

def chkInj (ms : List (Fin 9 → ℤ)) : Bool :=
  (List.range ms.length).all fun i => (List.range ms.length).all fun j =>
    (i == j || !eq9 (mat ms i) (mat ms j)) && !eq9 (mat ms i) (-mat ms j)

def chkLat (n : ℕ) (t : List (List ℕ)) (subs : List (List ℕ × ℕ × ℕ × Bool)) : Bool :=
  subs.all fun s => s.2.1.testBit 0 && decide (s.2.1 < 2 ^ n) && s.1.all (fun g => s.2.1.testBit g) && decide (orbit n t s.1 8 1 = s.2.1) &&
    ((bits n s.2.1).all fun i => s.1.all fun g => s.2.1.testBit (look t g i)) &&
    (List.range n).all fun g => s.2.1.testBit g ||
      subs.any fun k => decide (s.2.1 < k.2.1) && decide (orbit n t (g :: s.1) 8 (s.2.1 ||| 1 <<< g) = k.2.1)

/-- the matrix by which a rotation acts on the six numbers of a tensor -/
def act (r : Fin 9 → ℤ) : Fin 6 → Fin 6 → ℤ :=
  ![![r 0 ^ 2, r 1 ^ 2, r 2 ^ 2, 2 * r 0 * r 1, 2 * r 0 * r 2, 2 * r 1 * r 2],
    ![r 3 ^ 2, r 4 ^ 2, r 5 ^ 2, 2 * r 3 * r 4, 2 * r 3 * r 5, 2 * r 4 * r 5],
    ![r 6 ^ 2, r 7 ^ 2, r 8 ^ 2, 2 * r 6 * r 7, 2 * r 6 * r 8, 2 * r 7 * r 8],
    ![r 0 * r 3, r 1 * r 4, r 2 * r 5, r 0 * r 4 + r 1 * r 3, r 0 * r 5 + r 2 * r 3, r 1 * r 5 + r 2 * r 4],
    ![r 0 * r 6, r 1 * r 7, r 2 * r 8, r 0 * r 7 + r 1 * r 6, r 0 * r 8 + r 2 * r 6, r 1 * r 8 + r 2 * r 7],
    ![r 3 * r 6, r 4 * r 7, r 5 * r 8, r 3 * r 7 + r 4 * r 6, r 3 * r 8 + r 5 * r 6, r 4 * r 8 + r 5 * r 7]]

/-- twice the matrix of a constraint class -/
def v2 (numb : ℕ) : Fin 6 → Fin 6 → ℤ :=
  let e : Fin 6 → Fin 6 → ℤ := fun i j => if i = j then 2 else 0
  let z : Fin 6 → ℤ := fun _ => 0
  let k (c : ℤ) (i : Fin 6) : Fin 6 → ℤ := fun j => if i = j then c else 0
  match numb with
  | 1 => ![e 0, e 1, e 2, z, e 4, z]
  | 2 => ![e 0, e 1, e 2, e 3, z, z]
  | 3 => ![e 0, e 1, e 2, z, z, e 5]
  | 4 => ![e 0, e 1, e 2, z, z, z]
  | 5 => ![e 0, e 0, e 2, e 3, z, z]
  | 6 => ![e 0, e 0, e 2, e 3, e 4, e 4]
  | 7 => ![e 0, e 0, e 2, e 3, e 4, k (-2) 4]
  | 8 => ![e 0, e 0, e 2, z, z, z]
  | 9 => ![e 0, e 1, e 1, z, z, e 5]
  | 10 => ![e 0, e 1, e 1, e 3, e 3, e 5]
  | 11 => ![e 0, e 1, e 1, e 3, k (-2) 3, e 5]
  | 12 => ![e 0, e 1, e 1, z, z, z]
  | 13 => ![e 0, e 1, e 2, k 1 1, e 4, z]
  | 14 => ![e 0, e 1, e 2, k 1 1, z, z]
  | 15 => ![e 0, e 1, e 2, k 1 1, e 4, k 4 4]
  | 16 => ![e 0, e 0, e 2, k 1 0, z, z]
  | 17 => ![e 0, e 0, e 0, z, z, z]
  | 18 => ![e 0, e 0, e 0, e 3, e 3, e 3]
  | _ => e

def six : List (Fin 6) := [0, 1, 2, 3, 4, 5]

def mul6 (a b : Fin 6 → Fin 6 → ℤ) (i j : Fin 6) : ℤ :=
  a i 0 * b 0 j + a i 1 * b 1 j + a i 2 * b 2 j + a i 3 * b 3 j + a i 4 * b 4 j + a i 5 * b 5 j

def rightZ (ms : List (Fin 9 → ℤ)) (numb : ℕ) (H : List ℕ) : Bool :=
  (H.all fun j => six.all fun i => six.all fun k => mul6 (act (mat ms j)) (v2 numb) i k == v2 numb i k) &&
  (six.all fun i => six.all fun k => mul6 (v2 numb) (fun l m => (H.map fun j => act (mat ms j) l m).sum) i k ==
    2 * (H.map fun j => act (mat ms j) i k).sum)

def chkFinal (ms : List (Fin 9 → ℤ)) (subs : List (List ℕ × ℕ × ℕ × Bool)) : Bool :=
  subs.all fun s =>
    (numbOf (fun i => ((bits ms.length s.2.1).map fun j => sample (mat ms j) i).sum) == s.2.2.1) &&
    (numbOf (fun i => 2 * ((bits ms.length s.2.1).map fun j => sample (mat ms j) i).sum) == s.2.2.1) &&
    (rightZ ms s.2.2.1 (bits ms.length s.2.1) == s.2.2.2)

def chkTable (ms : List (Fin 9 → ℤ)) (subs : List (List ℕ × ℕ × ℕ × Bool)) (ks : List SiteKind) : Bool :=
  subs.length == ks.length && (subs.zip ks).all fun p =>
    p.1.1.length == p.2.gens.length && ((p.1.1.zip p.2.gens).all fun q => eq9 (mat ms q.1) q.2) && p.1.2.2.2 == p.2.right

def one9 : Fin 9 → ℤ := ![1, 0, 0, 0, 1, 0, 0, 0, 1]

/-- all matrices with columns from three lists that satisfy a condition are among `± ms` -/
def chkAll (ms : List (Fin 9 → ℤ)) (cond : (Fin 9 → ℤ) → Bool) (xs ys zs : List (ℤ × ℤ × ℤ)) : Bool :=
  xs.all fun x => ys.all fun y => zs.all fun z =>
    let o : Fin 9 → ℤ := ![x.1, y.1, z.1, x.2.1, y.2.1, z.2.1, x.2.2, y.2.2, z.2.2]
    !cond o || ms.any fun m => eq9 o m || eq9 o (-m)

def tr9 (o : Fin 9 → ℤ) : Fin 9 → ℤ := ![o 0, o 3, o 6, o 1, o 4, o 7, o 2, o 5, o 8]

def cubicCond (o : Fin 9 → ℤ) : Bool := eq9 (mulM (tr9 o) o) one9

def hexA : Fin 9 → ℤ := ![2, -1, 0, -1, 2, 0, 0, 0, 0]

def hexCond (o : Fin 9 → ℤ) : Bool := eq9 (mulM (mulM (tr9 o) hexA) o) hexA

def units : List (ℤ × ℤ × ℤ) := [(1, 0, 0), (-1, 0, 0), (0, 1, 0), (0, -1, 0), (0, 0, 1), (0, 0, -1)]
def hexes : List (ℤ × ℤ × ℤ) := [(1, 0, 0), (-1, 0, 0), (0, 1, 0), (0, -1, 0), (1, 1, 0), (-1, -1, 0)]

theorem cubic_all : chkAll cubicMats cubicCond units units units = true := by decide +kernel
theorem hex_all : chkAll hexMats hexCond hexes hexes [(0, 0, 1), (0, 0, -1)] = true := by decide +kernel
theorem cubic_tbl : chkTbl cubicMats cubicTbl = true := by decide +kernel
theorem cubic_inj : chkInj cubicMats = true := by decide +kernel
theorem cubic_lat : chkLat 24 cubicTbl cubicSubs = true := by decide +kernel
theorem cubic_table : chkTable cubicMats cubicSubs cubicSites = true := by decide +kernel
theorem cubic_final : chkFinal cubicMats cubicSubs = true := by decide +kernel
theorem hex_tbl : chkTbl hexMats hexTbl = true := by decide +kernel
theorem hex_inj : chkInj hexMats = true := by decide +kernel
theorem hex_lat : chkLat 12 hexTbl hexSubs = true := by decide +kernel
theorem hex_table : chkTable hexMats hexSubs hexSites = true := by decide +kernel
theorem hex_final : chkFinal hexMats hexSubs = true := by decide +kernel

end Cryspy.Vib
