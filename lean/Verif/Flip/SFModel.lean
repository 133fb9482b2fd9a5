import Verif.Gen.FlipRatio

/-!
# Model of the derivative dictionaries of `calc_intensities_by_structure_factors` and `calc_flip_ratio_by_structure_factors`

A dictionary of derivatives is a function from keys to optional numbers (`none`: the key is absent).
-/

namespace Cryspy.Flip

/-- A dictionary of derivatives. -/
abbrev Dder := String → Option ℝ

/-- Intensities with the second-harmonic contribution, flip_ratio.py:425-445: `iint += c_lambda2*iint_2hkl`, where `iint_2hkl`
is `calc_iint` for an unpolarised beam.  `c = none` is `c_lambda2 is None` (or no 2hkl structure factors). -/
noncomputable def withHarmonic (c : Option ℝ) (iint iint_2hkl : ℝ) : ℝ :=
  match c with
  | none => iint
  | some c => iint + c * iint_2hkl

/-- One intensity's entry of one key, flip_ratio.py:460-483. -/
noncomputable def mergeKey (c : ℝ) (term_1 term_3 : Option ℝ) : Option ℝ :=
  match term_1, term_3 with
  | some a, some b => some (a + c * b)
  | some a, none => some a
  | none, some b => some (c * b)
  | none, none => none

/-- `dder_plus` (or `dder_minus`) of `calc_intensities_by_structure_factors`, flip_ratio.py:454-487, when `c_lambda2` is
given.  The keys of the 2hkl structure factors have been renamed before (flip_ratio.py:447-452). -/
noncomputable def mergeDder (flag_c_lambda2 : Bool) (c iint_2hkl : ℝ) (d_hkl d_2hkl : Dder) : Dder := fun key =>
  if flag_c_lambda2 ∧ key = "c_lambda2" then some iint_2hkl else mergeKey c (d_hkl key) (d_2hkl key)

/-- Without `c_lambda2` the dictionary is the one of `calc_iint`, flip_ratio.py:428-432 and 454-483. -/
def mergeDderNone (d_hkl : Dder) : Dder := fun key => d_hkl key

/-- `dder` of `calc_flip_ratio_by_structure_factors`, flip_ratio.py:521-535. -/
noncomputable def ratioKey (iint_plus iint_minus : ℝ) (dp dm : Option ℝ) : Option ℝ :=
  let flip_ration := iint_plus / iint_minus
  match dp, dm with
  | some a, some b => some (a / iint_minus - flip_ration * b / iint_minus)
  | some a, none => some (a / iint_minus)
  | none, some b => some (-flip_ration * b / iint_minus)
  | none, none => none

end Cryspy.Flip
