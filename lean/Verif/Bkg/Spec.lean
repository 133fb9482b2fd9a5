import Mathlib.Algebra.Order.Field.Basic

/-!
# What a background through points is (C35), independently of the program

A list of nodes `(position, intensity)` with increasing positions describes a broken line.  The two
relations below say what it means for `(t, y)` to lie on it, continued by constants (`OnClamped`)
or by the first and last chords (`OnExtended`) outside the range of the nodes.
-/

namespace Cryspy.Bkg

variable {K : Type*} [Field K] [LinearOrder K]

/-- The ordinate at `t` of the straight line through the points `a` and `b`. -/
def chord (a b : K × K) (t : K) : K := a.2 + (b.2 - a.2) / (b.1 - a.1) * (t - a.1)

/-- Positions strictly increase along the list. -/
def Increasing (l : List (K × K)) : Prop := l.Pairwise (fun a b => a.1 < b.1)

/-- `(t, y)` lies on the chord between two neighbouring nodes that enclose `t`. -/
def OnSegment (l : List (K × K)) (t y : K) : Prop :=
  ∃ pre a b post, l = pre ++ a :: b :: post ∧ a.1 ≤ t ∧ t ≤ b.1 ∧ y = chord a b t

/-- The broken line continued by constants. -/
def OnClamped (l : List (K × K)) (t y : K) : Prop :=
  OnSegment l t y ∨ (∃ a post, l = a :: post ∧ t ≤ a.1 ∧ y = a.2) ∨
    (∃ pre b, l = pre ++ [b] ∧ b.1 ≤ t ∧ y = b.2)

/-- The broken line continued by its first and its last chord. -/
def OnExtended (l : List (K × K)) (t y : K) : Prop :=
  OnSegment l t y ∨ (∃ a b post, l = a :: b :: post ∧ t ≤ a.1 ∧ y = chord a b t) ∨
    (∃ pre a b, l = pre ++ [a, b] ∧ b.1 ≤ t ∧ y = chord a b t)

end Cryspy.Bkg
