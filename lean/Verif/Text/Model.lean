import Mathlib.Data.Rat.Floor
import Mathlib.Data.Nat.Log
import Mathlib.Algebra.BigOperators.Group.List.Basic

/-!
# Model of `cryspy/A_functions_base/function_1_strings.py`

Strings are lists of characters; `none` is a Python exception (`ValueError`, `TypeError`,
`ZeroDivisionError`).  Digits are the ten ASCII digits (`str.isdigit` also accepts other scripts) and
whitespace is `Char.isWhitespace`.
-/

namespace Cryspy.Text

abbrev Str := List Char

/-! ## Python string methods -/

/-- `s.find(c)`; `none` is −1. -/
def find (c : Char) (s : Str) : Option ℕ := s.findIdx? (· == c)

/-- `s[: s.rfind(c)]`, for a `c` that occurs. -/
def beforeLast (c : Char) (s : Str) : Str := ((s.reverse.dropWhile (· != c)).drop 1).reverse

/-- `s.strip()`. -/
def strip (s : Str) : Str := ((s.dropWhile Char.isWhitespace).reverse.dropWhile Char.isWhitespace).reverse

/-- `s.split()`: maximal runs of non-blank characters. -/
def words : Str → List Str
  | [] => []
  | c :: s =>
    if c.isWhitespace then words s
    else match s with
      | [] => [[c]]
      | d :: _ => if d.isWhitespace then [c] :: words s
        else match words s with
          | [] => [[c]]
          | w :: ws => (c :: w) :: ws

/-- `s.split(",")`. -/
def splitComma : Str → List Str
  | [] => [[]]
  | c :: s =>
    if c = ',' then [] :: splitComma s
    else match splitComma s with
      | [] => [[c]]
      | w :: ws => (c :: w) :: ws

/-- `s.replace(c, by)` for a one-character pattern. -/
def replaceChar (c : Char) (by' : Str) (s : Str) : Str := s.flatMap fun d => if d = c then by' else [d]

/-- `s.replace(a + "/", a + "1/")`. -/
def insertOne (a : Char) : Str → Str
  | [] => []
  | c :: s => if c = a ∧ s.head? = some '/' then c :: '1' :: insertOne a s else c :: insertOne a s

/-- `str(n)` of a natural number. -/
def natStr (n : ℕ) : Str := Nat.toDigits 10 n

/-- `str(n)` of an integer. -/
def intStr (n : ℤ) : Str := if n < 0 then '-' :: natStr n.natAbs else natStr n.natAbs

/-- `int(s)` of a string of digits. -/
def natVal (s : Str) : ℕ := Nat.ofDigitChars 10 s 0

/-- `s.isdigit()`. -/
def isDigits (s : Str) : Bool := !s.isEmpty && s.all Char.isDigit

/-! ## Common prefix -/

/-- `zip(*argv)`: stops at the shortest argument; nothing without arguments. -/
def zipStar (argv : List Str) : List Str :=
  match argv with
  | [] => []
  | a :: l => (List.range (l.foldl (fun n s => min n s.length) a.length)).map
      fun i => (a :: l).map fun s => s.getD i ' '

/-- `common_string`, function_1_strings.py:64-75. -/
def commonString (argv : List Str) : Str :=
  ((zipStar argv).takeWhile fun args => args.all (· == args.headD ' ')).map (·.headD ' ')

/-- `find_prefix`, function_1_strings.py:28-61.  With no underscore `rfind` is −1 and the slice drops the
last character. -/
def findPrefix (argv : List Str) : Str :=
  let c := commonString argv
  if '.' ∈ c then beforeLast '.' c
  else if 1 < argv.length ∧ c ∈ argv then c
  else if '_' ∈ c then beforeLast '_' c
  else c.dropLast

/-! ## Fractions -/

/-- The loop of `Fraction.limit_denominator` of the standard library (continued fraction of `n/d`), which
the code calls with bound 10. -/
def limitLoop (bound : ℤ) (full : ℕ) (p0 q0 p1 q1 n : ℤ) (d : ℕ) : ℚ :=
  if h : d = 0 then mkRat p1 q1.toNat
  else
    let a := n / d
    let q2 := q0 + a * q1
    if q2 > bound then
      let k := (bound - q0) / q1
      if 2 * (d : ℤ) * (q0 + k * q1) ≤ full then mkRat p1 q1.toNat
      else mkRat (p0 + k * p1) (q0 + k * q1).toNat
    else limitLoop bound full p1 q1 (p0 + a * p1) q2 d (n % d).toNat
termination_by d
decreasing_by have := Int.emod_lt_of_pos n (by omega : (0:ℤ) < d); have := Int.emod_nonneg n (by omega : (d:ℤ) ≠ 0); omega

/-- `q.limit_denominator(10)`. -/
def limitDen (q : ℚ) : ℚ := if q.den ≤ 10 then q else limitLoop 10 q.den 0 1 1 0 q.num q.den

/-- The optional sign before a number: is it a minus, and what follows. -/
def splitSign (s : Str) : Bool × Str :=
  match s with
  | '-' :: t => (true, t)
  | '+' :: t => (false, t)
  | _ => (false, s)

/-- `Fraction(s)` of a string `[sign]digits`, `[sign]digits/digits` or `[sign]digits.digits` (either side
of the point may be empty, not both).  Exponents and underscores are not modelled (rejected here). -/
def parseFraction (s : Str) : Option ℚ :=
  let s := strip s
  let neg := (splitSign s).1
  let s := (splitSign s).2
  let ip := s.takeWhile Char.isDigit
  let rest := s.dropWhile Char.isDigit
  let v : Option ℚ :=
    match rest with
    | [] => if ip.isEmpty then none else some (natVal ip : ℚ)
    | '/' :: t => if ip.isEmpty || !isDigits t || natVal t == 0 then none else some ((natVal ip : ℚ) / natVal t)
    | '.' :: t => if !t.all Char.isDigit || (ip.isEmpty && t.isEmpty) then none
        else some ((natVal (ip ++ t) : ℚ) / 10 ^ t.length)
    | _ => none
  v.map fun q => if neg then -q else q

/-! ## Symmetry operations as text -/

/-- The text after removing the label, made acceptable for `Fraction`, function_1_strings.py:287-291. -/
def fixTerm (label : Char) (name : Str) : Str :=
  let s := insertOne '-' (insertOne '+' (replaceChar label [] name))
  let s := if s = [] then ['1'] else s
  let s := if s.head? = some '/' then '1' :: s else s
  let s := if s.getLast? = some '+' then s ++ ['1'] else s
  if s.getLast? = some '-' then s ++ ['1'] else s

/-- Sum of `Fraction(t).limit_denominator(10)` over a list of texts. -/
def sumTerms (l : List Str) : Option ℚ := (l.mapM fun t => (parseFraction t).map limitDen).map List.sum

/-- The terms of one component, function_1_strings.py:281. -/
def terms (name : Str) : List Str :=
  words (replaceChar '-' [' ', '-'] (replaceChar '+' [' ', '+'] (replaceChar ' ' [] (strip name))))

/-- `transform_string_to_digits`, function_1_strings.py:271-300.  Simplified: labels are single
characters, as in all callers. -/
def stringToDigits (labels : List Char) (name : Str) : Option (List ℚ × ℚ) := do
  let l := terms name
  let cs ← labels.mapM fun label => sumTerms ((l.filter (label ∈ ·)).map (fixTerm label))
  let o ← sumTerms (l.filter fun t => labels.all (· ∉ t))
  pure (cs, o)

/-- `transform_string_to_r_b`, function_1_strings.py:254-267. -/
def stringToRB (labels : List Char) (name : Str) : Option (List (List ℚ × ℚ)) :=
  let s := ((words (strip name)).flatten.dropWhile (· == '(')).reverse.dropWhile (· == ')') |>.reverse
  (splitComma s).mapM (stringToDigits labels)

/-- A number given to the writer: a `Fraction`, kept as it is, or a float/int, rounded first. -/
inductive Num where
  | frac (q : ℚ)
  | float (q : ℚ)

/-- What the writer keeps of a coefficient, function_1_strings.py:304-307. -/
def Num.kept : Num → ℚ
  | .frac q => q
  | .float q => limitDen q

/-- `transform_fraction_with_label_to_string`, function_1_strings.py:303-320. -/
def fractionWithLabel (number : Num) (label : Char) : Str :=
  let val := number.kept
  if val = 0 then []
  else if val = 1 then [label]
  else if val = -1 then ['-', label]
  else if val.den = 1 then intStr val.num ++ [label]
  else if val.num = 1 then label :: '/' :: natStr val.den
  else intStr val.num ++ label :: '/' :: natStr val.den

/-- `str(Fraction)`. -/
def fracStr (q : ℚ) : Str := if q.den = 1 then intStr q.num else intStr q.num ++ '/' :: natStr q.den

/-- One step of the loop of `transform_digits_to_string`, function_1_strings.py:342-350. -/
def pushTerm (l : List Str) (name : Str) : List Str :=
  if name = [] then l
  else if name.head? = some '-' then l ++ [name]
  else if l = [] then l ++ [name]
  else l ++ ['+' :: name]

/-- `transform_digits_to_string`, function_1_strings.py:323-358. -/
def digitsToString (labels : List Char) (coefficients : List Num) (offset : ℚ) : Str :=
  let l := (coefficients.zip labels).foldl (fun l p => pushTerm l (fractionWithLabel p.1 p.2)) []
  let name := fracStr (limitDen offset)
  let l := if name = ['0'] then (if l = [] then l ++ [name] else l)
    else if l = [] ∨ name.head? = some '-' then l ++ [name]
    else l ++ ['+' :: name]
  l.flatten

/-- `transform_r_b_to_string`, function_1_strings.py:361-363. -/
def rbToString (labels : List Char) (rb : List (List Num × ℚ)) : Str :=
  (rb.map fun p => digitsToString labels p.1 p.2).intersperse [','] |>.flatten

/-! ## Value, error and mark

`fl` is the rounding of the floating point arithmetic: `id` for exact arithmetic, `fl64` below for IEEE
double precision without overflow, underflow or special values. -/

/-- `numpy.rint`: nearest integer, ties to even. -/
def rint (q : ℚ) : ℤ :=
  let f := ⌊q⌋
  if q - f < 1 / 2 then f else if 1 / 2 < q - f then f + 1 else if f % 2 = 0 then f else f + 1

/-- `int(q)`: towards zero. -/
def trunc (q : ℚ) : ℤ := if 0 ≤ q then ⌊q⌋ else -⌊-q⌋

/-- `numpy.round(q, decimals=d)`: scale, `rint`, scale back. -/
def roundDec (fl : ℚ → ℚ) (q : ℚ) (d : ℕ) : ℚ := fl ((rint (fl (q * 10 ^ d)) : ℚ) / 10 ^ d)

/-- A point and the digits after it, if there is a point, and what follows. -/
def splitPoint (s : Str) : Str × Str :=
  match s with
  | '.' :: t => (t.takeWhile Char.isDigit, t.dropWhile Char.isDigit)
  | _ => ([], s)

/-- `float(s)`: optional sign, digits with an optional point, optional exponent.  `inf`, `nan` and
underscores are not modelled (rejected here). -/
def parseFloat (fl : ℚ → ℚ) (s : Str) : Option ℚ :=
  let s := strip s
  let neg := (splitSign s).1
  let s := (splitSign s).2
  let ip := s.takeWhile Char.isDigit
  let rest := s.dropWhile Char.isDigit
  let fp := (splitPoint rest).1
  let rest := (splitPoint rest).2
  let m : ℚ := (natVal (ip ++ fp) : ℚ) / 10 ^ fp.length
  let v : Option ℚ :=
    if (ip ++ fp).isEmpty then none
    else match rest with
      | [] => some m
      | e :: t =>
        if e = 'e' ∨ e = 'E' then
          match t with
          | '-' :: u => if isDigits u then some (m / 10 ^ natVal u) else none
          | '+' :: u => if isDigits u then some (m * 10 ^ natVal u) else none
          | u => if isDigits u then some (m * 10 ^ natVal u) else none
        else none
  v.map fun q => fl (if neg then -q else q)

/-- `string_to_value_error_mark`, function_1_strings.py:78-120: `some (value, error, mark)` or an
exception (`float` of the text before the parenthesis). -/
def readValue (fl : ℚ → ℚ) (s : Str) : Option (Option ℚ × Option ℚ × Str) :=
  if s = ['.'] then some (none, none, [])
  else match find '(' s with
    | some i1 =>
      let sig := match find ')' s with
        | some i2 => if i1 < i2 then
            let t := (s.drop (i1 + 1)).take (i2 - (i1 + 1))
            if isDigits t then t else []
          else []
        | none => []
      let str1 := s.take i1
      match parseFloat fl str1 with
      | none => none
      | some value =>
        let mark := strip (match find ')' s with | some i2 => s.drop (i2 + 1) | none => s)
        if sig ≠ [] then
          let sh := (str1.take (str1.length - sig.length)).map fun c => if c.isDigit then '0' else c
          match parseFloat fl (sh ++ sig) with
          | none => none
          | some e => some (some value, some |e|, mark)
        else some (some value, some 0, mark)
    | none => some (parseFloat fl s, none, [])

/-- `-int(log10(e))` for `0 < e ≤ 1`: the number of whole decades `e` lies below 1.  Simplified: the
logarithm is exact. -/
def decades (e : ℚ) : ℕ := Nat.log 10 ⌊1 / e⌋₊

/-- `value_error_mark_to_string`, function_1_strings.py:122-163.  `repr` is Python's `"{:}".format` of a
float.  A missing value with an error, and a negative error, raise. -/
def writeValue (fl : ℚ → ℚ) (repr : ℚ → Str) (value error : Option ℚ) (mark : Str) : Option Str :=
  match error with
  | none => some (match value with | none => "None".toList | some v => repr v)
  | some e =>
    if e = 0 then some ((match value with | none => "None".toList | some v => repr v) ++ '(' :: ')' :: strip mark)
    else match value with
      | none => none
      | some v =>
        if e < 0 then none
        else if e ≤ 1 then
          let k := decades e
          let val1 := roundDec fl v (k + 2)
          let val2 := roundDec fl e (k + 2)
          let i11 := trunc val1
          let frac := |val1| - ⌊|val1|⌋
          let s12 := intStr (trunc (fl (frac * 10 ^ (k + 2))))
          let s12 := List.replicate (k + 2 - s12.length) '0' ++ s12
          let i2 := trunc (fl (val2 * 10 ^ (k + 2)))
          some ((if val1 < 0 then ['-'] else []) ++ intStr |i11| ++ '.' :: s12 ++ '(' :: intStr i2 ++ ')' :: strip mark)
        else
          some (intStr (trunc (roundDec fl v 0)) ++ '(' :: intStr (trunc (roundDec fl e 0)) ++ ')' :: strip mark)

/-- Rounding to 53 significant bits, ties to even. -/
def fl64 (q : ℚ) : ℚ :=
  if q = 0 then 0
  else
    let n := q.num.natAbs
    let d := q.den
    if d ≤ n then
      let e := Nat.log 2 (n / d)
      if e ≤ 52 then (rint (q * 2 ^ (52 - e)) : ℚ) / 2 ^ (52 - e) else rint (q / 2 ^ (e - 52)) * 2 ^ (e - 52)
    else
      let e := Nat.clog 2 ((d + n - 1) / n)
      (rint (q * 2 ^ (52 + e)) : ℚ) / 2 ^ (52 + e)

end Cryspy.Text
