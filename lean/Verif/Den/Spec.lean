import Verif.Den.Model

/-! # Vocabulary for density files -/

namespace Cryspy.Den

/-- `y` is `x` rounded to `d` decimals -/
def Rounded (d : ℕ) (x y : ℚ) : Prop := (∃ n : ℤ, y = n / 10 ^ d) ∧ |y - x| ≤ 1 / 2 / 10 ^ d

/-- the two columns are the same operation, the second with the fractions in lowest terms -/
def SameElem (e e' : Elem) : Prop :=
  e'.r = e.r ∧ (∀ k, (e'.b k : ℚ) / e'.den = e.b k / e.den) ∧ 0 < e'.den ∧
    Nat.gcd (Nat.gcd (Int.gcd (e'.b 0) (e'.b 1)) (e'.b 2).natAbs) e'.den.natAbs = 1

/-- a column as the library keeps it: denominators of crystallographic groups (divisors of 48), shifts of a few cells, small integers -/
structure Elem.Usual (e : Elem) : Prop where
  den_pos : 0 < e.den
  den_dvd : e.den ∣ 48
  shift : ∀ k, |(e.b k : ℚ) / e.den| ≤ 9
  rot : ∀ k, |e.r k| < 1000

/-- data whose numbers fit the columns of the file, without the centring translations -/
structure Input.Core (D : Input) : Prop where
  points : ∀ k, 0 ≤ D.points k ∧ D.points k < 10000
  cell : ∀ k, 0 ≤ D.cell k ∧ D.cell k ≤ 999
  nSym : D.sym.length < 10000
  nShift : D.shift.length < 10000
  sym : ∀ e ∈ D.sym, e.Usual
  index : D.index.length = D.dens.triples.length
  some_line : D.sym ≠ [] ∨ D.shift ≠ []

/-- data whose numbers fit the columns of the file -/
structure Input.Fits (D : Input) : Prop extends D.Core where
  shift : ∀ s ∈ D.shift, |s.1| ≤ 9 ∧ |s.2.1| ≤ 9 ∧ |s.2.2.1| ≤ 9

/-- the two centring translations are the same, the second in lowest terms -/
def SameShift (s s' : ℤ × ℤ × ℤ × ℤ) : Prop :=
  (s'.1 : ℚ) / s'.2.2.2 = s.1 / s.2.2.2 ∧ (s'.2.1 : ℚ) / s'.2.2.2 = s.2.1 / s.2.2.2 ∧ (s'.2.2.1 : ℚ) / s'.2.2.2 = s.2.2.1 / s.2.2.2 ∧
    0 < s'.2.2.2 ∧ Nat.gcd (Nat.gcd (Int.gcd s'.1 s'.2.1) s'.2.2.1.natAbs) s'.2.2.2.natAbs = 1

end Cryspy.Den
