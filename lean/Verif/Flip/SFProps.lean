import Verif.Flip.SFModel
import Verif.Flip.DProps

/-!
# C25: the dictionaries of derivatives of the intensities and of the flip ratio
-/

namespace Cryspy.Flip

/-- An entry of a dictionary tells the truth: the derivative of `f` at `x` is the entry, and is zero when there is none. -/
def Reports (entry : Option ℝ) (f : ℝ → ℝ) (x : ℝ) : Prop := HasDerivAt f (entry.getD 0) x

/-- C25: adding the second harmonic keeps the reported derivative of every parameter right, also of parameters (such as those
of extinction) on which both contributions depend. -/
theorem merge_reports {c x : ℝ} {key : String} {flag : Bool} {i i2 : ℝ → ℝ} {d d2 : Dder} (hkey : key ≠ "c_lambda2")
    (h : Reports (d key) i x) (h2 : Reports (d2 key) i2 x) :
    Reports (mergeDder flag c (i2 x) d d2 key) (fun t => withHarmonic (some c) (i t) (i2 t)) x := by
  unfold Reports at *
  have := h.fun_add (h2.const_mul c)
  refine this.congr_deriv ?_
  simp only [mergeDder, hkey, and_false, if_false, mergeKey]
  cases d key <;> cases d2 key <;> simp

/-- C25: the derivative over the second-harmonic fraction itself. -/
theorem merge_reports_fraction (c i i2 : ℝ) (d d2 : Dder) :
    Reports (mergeDder true c i2 d d2 "c_lambda2") (fun t => withHarmonic (some t) i i2) c := by
  unfold Reports
  refine ((hasDerivAt_const c i).fun_add ((hasDerivAt_id' c).mul_const i2)).congr_deriv ?_
  simp [mergeDder]

/-- C25: without a second harmonic nothing changes. -/
theorem merge_reports_none {x : ℝ} {key : String} {i i2 : ℝ → ℝ} {d : Dder} (h : Reports (d key) i x) :
    Reports (mergeDderNone d key) (fun t => withHarmonic none (i t) (i2 t)) x := h

/-- C25: the flip ratio's reported derivative follows from those of the two intensities. -/
theorem ratio_reports {x : ℝ} {p m : ℝ → ℝ} {dp dm : Option ℝ} (hm : m x ≠ 0) (hp' : Reports dp p x) (hm' : Reports dm m x) :
    Reports (ratioKey (p x) (m x) dp dm) (fun t => p t / m t) x := by
  unfold Reports at *
  refine (hp'.fun_div hm' hm).congr_deriv ?_
  simp only [ratioKey]
  cases dp <;> cases dm <;> simp <;> field_simp <;> ring

/-- A parameter of extinction on which both intensities depend. -/
example : Reports (some (2 : ℝ)) (fun t => 2 * t) 3 ∧ Reports none (fun _ => (5 : ℝ)) 3 ∧
    Reports (ratioKey 6 5 (some 2) none) (fun t => 2 * t / 5) 3 := by
  have h1 : Reports (some (2 : ℝ)) (fun t => 2 * t) 3 := by
    unfold Reports; simpa using (hasDerivAt_id' (3 : ℝ)).const_mul 2
  have h2 : Reports none (fun _ => (5 : ℝ)) 3 := hasDerivAt_const _ _
  refine ⟨h1, h2, ?_⟩
  have := ratio_reports (p := fun t => 2 * t) (m := fun _ => 5) (by norm_num) h1 h2
  norm_num at this
  exact this

end Cryspy.Flip
