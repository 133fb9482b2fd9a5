import Verif.Text.ValueProps
import Mathlib.Data.Int.GCD
import Mathlib.Data.Fin.VecNotation

/-!
# Model of `cryspy/A_functions_base/function_3_den_file.py`: density files

The text of the file is a list of characters.  Numbers are exact rationals: the rounding of the double arithmetic (quotient of two small
integers, product with 48, product with π/180) is left out; `rad` is the number `float(numpy.pi/180.)`.  `none` is an exception.
-/

namespace Cryspy.Den

open Text

/-! ### Python formatting -/

/-- right-aligned in `w` characters, the default of numbers in a format `{:w}` -/
def padLeft (w : ℕ) (s : Str) : Str := List.replicate (w - s.length) ' ' ++ s

/-- `f"{n:w}"` of an integer -/
def fmtInt (w : ℕ) (n : ℤ) : Str := padLeft w (intStr n)

/-- `n` written with at least `d` digits -/
def zeroPad (d n : ℕ) : Str := List.replicate (d - (natStr n).length) '0' ++ natStr n

/-- `f"{q:.df}"`: nearest multiple of `10^-d` (ties to even), sign, digits, point, `d` digits -/
def fixedStr (d : ℕ) (q : ℚ) : Str :=
  let n := (rint (q * 10 ^ d)).natAbs
  (if q < 0 then ['-'] else []) ++ natStr (n / 10 ^ d) ++ '.' :: zeroPad d (n % 10 ^ d)

/-- `f"{q:w.df}"` -/
def fmtFix (w d : ℕ) (q : ℚ) : Str := padLeft w (fixedStr d q)

/-- `int(s)` -/
def parseInt (s : Str) : Option ℤ :=
  let p := splitSign (strip s)
  if isDigits p.2 then some (if p.1 then -(natVal p.2 : ℤ) else natVal p.2) else none

/-- `float(s)` -/
def parseFlt (s : Str) : Option ℚ := parseFloat id s

/-! ### data -/

/-- a column of `sym_elems`: numerators and denominator of the shift, rotation row by row -/
structure Elem where
  b : Fin 3 → ℤ
  den : ℤ
  r : Fin 9 → ℤ

/-- the three admissible shapes of the argument `densities` -/
inductive Dens where
  | one (l : List ℚ)
  | two (l : List (ℚ × ℚ))
  | three (l : List (ℚ × ℚ × ℚ))

/-- the arguments of `save_to_den_file` -/
structure Input where
  points : Fin 3 → ℤ
  cell : Fin 6 → ℚ
  sym : List Elem
  index : List (ℤ × ℤ × ℤ)
  dens : Dens
  centro : Bool
  shift : List (ℤ × ℤ × ℤ × ℤ)

/-- the results of `read_den_file` -/
structure Output where
  points : Fin 3 → ℤ
  cell : Fin 6 → ℚ
  sym : List Elem
  index : List (ℤ × ℤ × ℤ)
  dens : List (ℚ × ℚ × ℚ)
  centro : Bool
  shift : List (ℤ × ℤ × ℤ × ℤ)

/-- density, spin up and spin down, function_3_den_file.py:135-156 -/
def Dens.triples : Dens → List (ℚ × ℚ × ℚ)
  | .three l => l
  | .two l => l.map fun p => (p.1 - p.2, p.1, p.2)
  | .one l => l.map fun d => (d, if 0 ≤ d then d else 0, if 0 ≤ d then 0 else d)

/-! ### writing -/

/-- a line of a point, function_3_den_file.py:162-166 -/
def pointLine (p : (ℤ × ℤ × ℤ) × (ℚ × ℚ × ℚ)) : Str :=
  fmtInt 4 p.1.1 ++ ' ' :: fmtInt 4 p.1.2.1 ++ ' ' :: fmtInt 4 p.1.2.2 ++ ' ' :: fmtFix 15 7 p.2.1 ++ ' ' :: fmtFix 15 7 p.2.2.1 ++
    ' ' :: fmtFix 15 7 p.2.2.2

/-- function_3_den_file.py:168-171 -/
def cellLine (c : Fin 6 → ℚ) : Str :=
  fmtFix 10 5 (c 0) ++ fmtFix 10 5 (c 1) ++ fmtFix 10 5 (c 2) ++ fmtFix 10 5 (c 3) ++ fmtFix 10 5 (c 4) ++ fmtFix 10 5 (c 5)

/-- function_3_den_file.py:173-176; `f"{True:5}"` is `"    1"` -/
def headLine (D : Input) : Str :=
  fmtInt 5 (D.points 0) ++ fmtInt 5 (D.points 1) ++ fmtInt 5 (D.points 2) ++ fmtInt 5 D.sym.length ++ fmtInt 5 (if D.centro then 1 else 0) ++
    fmtInt 5 D.shift.length

/-- a symmetry element: the rotation column by column, then the shift, function_3_den_file.py:178-190 -/
def symLine (e : Elem) : Str :=
  fmtInt 4 (e.r 0) ++ fmtInt 4 (e.r 3) ++ fmtInt 4 (e.r 6) ++ ' ' :: ' ' :: fmtInt 4 (e.r 1) ++ fmtInt 4 (e.r 4) ++ fmtInt 4 (e.r 7) ++
    ' ' :: ' ' :: fmtInt 4 (e.r 2) ++ fmtInt 4 (e.r 5) ++ fmtInt 4 (e.r 8) ++ ' ' :: ' ' :: ' ' :: ' ' :: fmtFix 8 5 (e.b 0 / e.den) ++
    fmtFix 8 5 (e.b 1 / e.den) ++ fmtFix 8 5 (e.b 2 / e.den)

/-- a centring translation: only the numerators are written, function_3_den_file.py:191-192 -/
def shiftLine (s : ℤ × ℤ × ℤ × ℤ) : Str := fmtFix 8 4 s.1 ++ fmtFix 8 4 s.2.1 ++ fmtFix 8 4 s.2.2.1

/-- the list `ls_out` of the two writers, which differ in the first line and in the centring translations -/
def linesOf (title : Str) (sl : ℤ × ℤ × ℤ × ℤ → Str) (D : Input) : List Str :=
  title :: natStr D.dens.triples.length :: ((D.index.zip D.dens.triples).map pointLine ++ cellLine D.cell ::
    headLine D :: (D.sym.map symLine ++ D.shift.map sl))

/-- the list `ls_out`, function_3_den_file.py:158-192 -/
def lines (D : Input) : List Str := linesOf "Created by CrysPy".toList shiftLine D

/-- `"\n".join(ls_out)` -/
def joinNl : List Str → Str
  | [] => []
  | [s] => s
  | s :: t => s ++ '\n' :: joinNl t

/-- `save_to_den_file`, function_3_den_file.py:111-195: the text of the file -/
def save (D : Input) : Str := joinNl (lines D)

/-- the arguments of `save_spin_density_into_file`, mempy.py:178-181; angles in radians; `sd` the two rows of the density -/
structure SpinInput where
  points : Fin 3 → ℤ
  cell : Fin 6 → ℚ
  sym : List Elem
  index : List (ℤ × ℤ × ℤ)
  sd : List (ℚ × ℚ)
  centro : Bool
  centre : Option (ℤ × ℤ × ℤ × ℤ)
  shift : List (ℤ × ℤ × ℤ × ℤ)

/-- a centring translation as `save_spin_density_into_file` writes it, mempy.py:215-218 -/
def spinShiftLine (s : ℤ × ℤ × ℤ × ℤ) : Str :=
  fmtFix 8 4 (s.1 / s.2.2.2) ++ fmtFix 8 4 (s.2.1 / s.2.2.2) ++ fmtFix 8 4 (s.2.2.1 / s.2.2.2)

/-- what `save_spin_density_into_file` writes with the formats of `save_to_den_file`, mempy.py:189-213: the sum of the rows before the
rows, the angles in degrees (`irad` is `180/π`); the position of the centre of symmetry is not used. -/
def SpinInput.toInput (irad : ℚ) (S : SpinInput) : Input where
  points := S.points
  cell := ![S.cell 0, S.cell 1, S.cell 2, S.cell 3 * irad, S.cell 4 * irad, S.cell 5 * irad]
  sym := S.sym
  index := S.index
  dens := .three (S.sd.map fun p => (p.1 + p.2, p.1, p.2))
  centro := S.centro
  shift := S.shift

/-- `save_spin_density_into_file`, mempy.py:178-223: the text of the file -/
def saveSpin (irad : ℚ) (S : SpinInput) : Str :=
  joinNl (linesOf "Collinear density (created by CrysPy)".toList spinShiftLine (S.toInput irad))

/-! ### reading -/

/-- `fid.readlines()`: each line with its newline -/
def readLines : Str → List Str
  | [] => []
  | c :: s =>
    if c = '\n' then ['\n'] :: readLines s
    else match readLines s with
      | [] => [[c]]
      | l :: ls => (c :: l) :: ls

/-- `calc_numerators_denominator_for_b_i` for one element, A_functions_base/function_2_sym_elems.py:127-142 -/
def numDen (x y z : ℚ) : (Fin 3 → ℤ) × ℤ :=
  let n := ![rint (48 * x), rint (48 * y), rint (48 * z)]
  let g : ℕ := Nat.gcd (Nat.gcd (Int.gcd (n 0) (n 1)) (n 2).natAbs) 48
  (fun i => n i / g, 48 / g)

/-- a line of a point, function_3_den_file.py:52-65 (`strip()` before `split()` changes nothing and is left out) -/
def readPoint (line : Str) : Option ((ℤ × ℤ × ℤ) × (ℚ × ℚ × ℚ)) := do
  let hh := words line
  let x ← parseInt (← hh[0]?)
  let y ← parseInt (← hh[1]?)
  let z ← parseInt (← hh[2]?)
  let den ← parseFlt (← hh[3]?)
  if hh.length = 6 then
    let f ← parseFlt (← hh[4]?)
    let a ← parseFlt (← hh[5]?)
    return ((x, y, z), (den, f, a))
  else if 0 ≤ den then return ((x, y, z), (den, den, 0))
  else return ((x, y, z), (den, 0, den))

/-- a line of a symmetry element, function_3_den_file.py:73-90 -/
def readSym (line : Str) : Option Elem := do
  let hh := words (replaceChar '-' [' ', '-'] line)
  let h0 ← parseInt (← hh[0]?)
  let h1 ← parseInt (← hh[1]?)
  let h2 ← parseInt (← hh[2]?)
  let h3 ← parseInt (← hh[3]?)
  let h4 ← parseInt (← hh[4]?)
  let h5 ← parseInt (← hh[5]?)
  let h6 ← parseInt (← hh[6]?)
  let h7 ← parseInt (← hh[7]?)
  let h8 ← parseInt (← hh[8]?)
  let x ← parseFlt (← hh[9]?)
  let y ← parseFlt (← hh[10]?)
  let z ← parseFlt (← hh[11]?)
  let nd := numDen x y z
  return ⟨nd.1, nd.2, ![h0, h3, h6, h1, h4, h7, h2, h5, h8]⟩

/-- a line of a centring translation, function_3_den_file.py:97-107 -/
def readShift (line : Str) : Option (ℤ × ℤ × ℤ × ℤ) := do
  let hh := words line
  let x ← parseFlt (← hh[0]?)
  let y ← parseFlt (← hh[1]?)
  let z ← parseFlt (← hh[2]?)
  let nd := numDen x y z
  return (nd.1 0, nd.1 1, nd.1 2, nd.2)

/-- `read_den_file`, function_3_den_file.py:17-108.  A negative count in the file (slices counted from the end) is not modelled: read as zero. -/
def read (rad : ℚ) (text : Str) : Option Output := do
  let content := readLines text
  let n := (← parseInt (← content[1]?)).toNat
  let hh := words (← content[n + 2]?)
  let a ← parseFlt (← hh[0]?)
  let b ← parseFlt (← hh[1]?)
  let c ← parseFlt (← hh[2]?)
  let al ← parseFlt (← hh[3]?)
  let be ← parseFlt (← hh[4]?)
  let ga ← parseFlt (← hh[5]?)
  match ← (words (← content[n + 3]?).dropLast).mapM parseInt with
  | [pa, pb, pc, nSym, centr, nShift] =>
    let pts ← ((content.drop 2).take n).mapM readPoint
    let sym ← ((content.drop (n + 4)).take nSym.toNat).mapM readSym
    let shift ← ((content.drop (n + 4 + nSym.toNat)).take nShift.toNat).mapM readShift
    return ⟨![pa, pb, pc], ![a, b, c, al * rad, be * rad, ga * rad], sym, pts.map (·.1), pts.map (·.2), centr ≠ 0, shift⟩
  | _ => none

end Cryspy.Den
