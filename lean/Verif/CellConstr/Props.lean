import Verif.CellConstr.Model
import Verif.CellConstr.Spec

/-!
# Constraints of the crystal system on the cell (C31)
-/

namespace Cryspy.CellConstr

variable {type code : List Char} {s : System}

/-- C31: after the constraints are applied the cell satisfies the conditions of its system; the determined parameters are marked as
constrained and not refined, the others keep value, error and refinement flag and are not marked.  Excluded: monoclinic settings whose
unique axis is not `b`. -/
theorem constraint_applied (h : Describes type code s) (hm : ∀ k, s = .monoclinic k → k = 1) (p : Fin 6 → Par) :
    s.Metric (fun i => (applyConstraint p type code i).val) ∧
    (∀ i ∈ s.dependent, (applyConstraint p type code i).con = true ∧ (applyConstraint p type code i).ref = false) ∧
    (∀ i ∉ s.dependent, applyConstraint p type code i = { p i with con := false }) := by
  cases h with
  | m x code k h =>
    obtain rfl := hm k rfl
    refine ⟨?_, ?_, ?_⟩
    · intro i hi
      fin_cases i <;> simp_all [applyConstraint, fixed]
      all_goals rfl
    · simp [System.dependent, applyConstraint, fixed]
    · intro i hi
      fin_cases i <;> simp [System.dependent, applyConstraint] at hi ⊢
      all_goals exact absurd rfl hi.1
  | _ => 
    refine ⟨by simp [System.Metric, applyConstraint, fixed, lower], by simp [System.dependent, applyConstraint, fixed, lower], fun i hi => ?_⟩
    fin_cases i <;> simp_all [System.dependent, applyConstraint, lower]

/-- C31: a cell that satisfies the conditions keeps all its values. -/
theorem constraint_keeps (h : Describes type code s) (hm : ∀ k, s = .monoclinic k → k = 1) (p : Fin 6 → Par)
    (hp : s.Metric fun i => (p i).val) (i : Fin 6) : (applyConstraint p type code i).val = (p i).val := by
  cases h with
  | m x code k h =>
    obtain rfl := hm k rfl
    have h0 := hp 0 (by decide)
    have h2 := hp 2 (by decide)
    have h0 : (p 3).val = 90 := h0
    have h2 : (p 5).val = 90 := h2
    fin_cases i <;> simp [applyConstraint, fixed, h0, h2]
  | _ =>
    simp only [System.Metric] at hp
    fin_cases i <;> simp [applyConstraint, fixed, lower] <;> grind

/-- C31: applying the constraints a second time changes nothing, whatever the type and code. -/
theorem constraint_idempotent (p : Fin 6 → Par) (type code : List Char) :
    applyConstraint (applyConstraint p type code) type code = applyConstraint p type code := by
  funext i
  by_cases h1 : type = ['a', 'P']
  · simp only [applyConstraint, h1, if_true]; fin_cases i <;> simp
  by_cases h2 : type.head? = some 'm'
  · simp only [applyConstraint, h1, h2, if_true, if_false]; fin_cases i <;> simp
  by_cases h3 : type.head? = some 'o'
  · simp only [applyConstraint, h1, h2, h3, if_true, if_false]; fin_cases i <;> simp
  by_cases h4 : type.head? = some 't'
  · simp only [applyConstraint, h1, h2, h3, h4, if_true, if_false]; fin_cases i <;> simp
  by_cases h5 : type.take 2 = ['h', 'P']
  · by_cases h : lower code = ['h']
    · simp only [applyConstraint, h1, h2, h3, h4, h5, h, if_true, if_false]; fin_cases i <;> simp
    · simp only [applyConstraint, h1, h2, h3, h4, h5, h, if_true, if_false]; fin_cases i <;> simp [fixed]
  by_cases h6 : type = ['h', 'R']
  · by_cases h : lower code = ['h']
    · simp only [applyConstraint, h1, h2, h3, h4, h5, h6, h, if_true, if_false]; fin_cases i <;> simp
    · simp only [applyConstraint, h1, h2, h3, h4, h5, h6, h, if_true, if_false]; fin_cases i <;> simp [fixed]
  by_cases h7 : type.head? = some 'c'
  · simp only [applyConstraint, h1, h2, h3, h4, h5, h6, h7, if_true, if_false]; fin_cases i <;> simp
  · simp only [applyConstraint, h1, h2, h3, h4, h5, h6, h7, if_false]; fin_cases i <;> simp

/-- C31: a determined length has the value and error of the one it follows; the determined angle of a rhombohedral cell likewise; a fixed angle
has no error. -/
theorem constraint_errors (h : Describes type code s) (hm : ∀ k, s = .monoclinic k → k = 1) (p : Fin 6 → Par) (i : Fin 6)
    (hi : i ∈ s.dependent) :
    (applyConstraint p type code i).sig = s.errorOf (fun i => (p i).sig) i := by
  cases h with
  | aP code => simp [System.dependent] at hi
  | m x code k h =>
    obtain rfl := hm k rfl
    simp only [System.dependent, List.mem_map, List.mem_filter] at hi
    obtain ⟨j, ⟨-, hj⟩, rfl⟩ := hi
    fin_cases j
    · rfl
    · simp at hj
    · rfl
  | _ =>
    simp only [System.dependent, List.mem_cons, List.not_mem_nil, or_false] at hi
    rcases hi with rfl | rfl | rfl | rfl | rfl <;> simp [applyConstraint, fixed, lower, System.errorOf]

/-- C31 is false for monoclinic cells with unique axis `c`: the free angle γ is overwritten with 90 and constrained, and β, which has to be 90,
is left as it is.  Likewise for unique axis `a`. -/
theorem monoclinic_axis_wrong (x : Char) (code : List Char) (p : Fin 6 → Par) :
    (∀ k : Fin 3, k ≠ 1 → applyConstraint p ['m', x] code (k.natAdd 3) = fixed 90 0) ∧
    applyConstraint p ['m', x] code 4 = { p 4 with con := false } ∧
    (∀ k : Fin 3, k ≠ 1 → (p 4).val ≠ 90 → ¬ (System.monoclinic k).Metric fun i => (applyConstraint p ['m', x] code i).val) := by
  refine ⟨fun k hk => ?_, rfl, fun k hk h hm => ?_⟩
  · fin_cases k
    · rfl
    · exact absurd rfl hk
    · rfl
  · exact h (hm 1 hk.symm)

example : Describes ['m', 'P'] ['-', 'c', '1'] (.monoclinic 2) ∧ Describes ['m', 'S'] ['b', '1'] (.monoclinic 1) ∧
    Describes ['h', 'R'] ['r'] .rhombohedral ∧ Describes ['c', 'F'] ['2'] .cubic :=
  ⟨.m _ _ _ (by decide), .m _ _ _ (by decide), .hRr, .c _ _⟩

/-- degrees to radians on the three angles -/
noncomputable def toRad (v : Fin 6 → ℝ) : Fin 6 → ℝ :=
  ![v 0, v 1, v 2, v 3 * Real.pi / 180, v 4 * Real.pi / 180, v 5 * Real.pi / 180]

/-- C31: the constraint used in refinements is the same one: on any cell, any type and code, it gives what `apply_constraints` gives. -/
theorem dictionary_agrees (p : Fin 6 → Par) (type code : List Char) :
    constrainDict type code (toRad fun i => (p i).val) = toRad fun i => (applyConstraint p type code i).val := by
  funext i
  by_cases h1 : type = ['a', 'P']
  · simp only [constrainDict, scV, applyConstraint, toRad, Fin.sum_univ_six, h1, if_true, if_false]; fin_cases i <;> simp [fixed, Matrix.one_apply] <;> ring
  by_cases h2 : type.head? = some 'm'
  · simp only [constrainDict, scV, applyConstraint, toRad, Fin.sum_univ_six, h1, h2, if_true, if_false]; fin_cases i <;> simp [fixed, Matrix.one_apply] <;> ring
  by_cases h3 : type.head? = some 'o'
  · simp only [constrainDict, scV, applyConstraint, toRad, Fin.sum_univ_six, h1, h2, h3, if_true, if_false]; fin_cases i <;> simp [fixed, Matrix.one_apply] <;> ring
  by_cases h4 : type.head? = some 't'
  · simp only [constrainDict, scV, applyConstraint, toRad, Fin.sum_univ_six, h1, h2, h3, h4, if_true, if_false]; fin_cases i <;> simp [fixed, Matrix.one_apply] <;> ring
  by_cases h5 : type.take 2 = ['h', 'P']
  · by_cases h : lower code = ['h']
    · simp only [constrainDict, scV, applyConstraint, toRad, Fin.sum_univ_six, h1, h2, h3, h4, h5, h, if_true, if_false]; fin_cases i <;> simp [fixed, Matrix.one_apply] <;> ring
    · simp only [constrainDict, scV, applyConstraint, toRad, Fin.sum_univ_six, h1, h2, h3, h4, h5, h, if_true, if_false]; fin_cases i <;> simp [fixed, Matrix.one_apply] <;> ring
  by_cases h6 : type = ['h', 'R']
  · by_cases h : lower code = ['h']
    · simp only [constrainDict, scV, applyConstraint, toRad, Fin.sum_univ_six, h1, h2, h3, h4, h5, h6, h, if_true, if_false]; fin_cases i <;> simp [fixed, Matrix.one_apply] <;> ring
    · simp only [constrainDict, scV, applyConstraint, toRad, Fin.sum_univ_six, h1, h2, h3, h4, h5, h6, h, if_true, if_false]; fin_cases i <;> simp [fixed, Matrix.one_apply] <;> ring
  by_cases h7 : type.head? = some 'c'
  · simp only [constrainDict, scV, applyConstraint, toRad, Fin.sum_univ_six, h1, h2, h3, h4, h5, h6, h7, if_true, if_false]; fin_cases i <;> simp [fixed, Matrix.one_apply] <;> ring
  simp only [constrainDict, scV, applyConstraint, toRad, Fin.sum_univ_six, h1, h2, h3, h4, h5, h6, h7, if_false]; fin_cases i <;> simp [fixed, Matrix.one_apply] <;> ring

/-- C31: constraining the dictionary twice is constraining it once. -/
theorem dictionary_idempotent (type code : List Char) (x : Fin 6 → ℝ) :
    constrainDict type code (constrainDict type code x) = constrainDict type code x := by
  funext i
  by_cases h1 : type = ['a', 'P']
  · simp only [constrainDict, scV, Fin.sum_univ_six, h1, if_true, if_false]; fin_cases i <;> simp [Matrix.one_apply]
  by_cases h2 : type.head? = some 'm'
  · simp only [constrainDict, scV, Fin.sum_univ_six, h1, h2, if_true, if_false]; fin_cases i <;> simp [Matrix.one_apply]
  by_cases h3 : type.head? = some 'o'
  · simp only [constrainDict, scV, Fin.sum_univ_six, h1, h2, h3, if_true, if_false]; fin_cases i <;> simp [Matrix.one_apply]
  by_cases h4 : type.head? = some 't'
  · simp only [constrainDict, scV, Fin.sum_univ_six, h1, h2, h3, h4, if_true, if_false]; fin_cases i <;> simp [Matrix.one_apply]
  by_cases h5 : type.take 2 = ['h', 'P']
  · by_cases h : lower code = ['h']
    · simp only [constrainDict, scV, Fin.sum_univ_six, h1, h2, h3, h4, h5, h, if_true, if_false]; fin_cases i <;> simp [Matrix.one_apply]
    · simp only [constrainDict, scV, Fin.sum_univ_six, h1, h2, h3, h4, h5, h, if_true, if_false]; fin_cases i <;> simp [Matrix.one_apply]
  by_cases h6 : type = ['h', 'R']
  · by_cases h : lower code = ['h']
    · simp only [constrainDict, scV, Fin.sum_univ_six, h1, h2, h3, h4, h5, h6, h, if_true, if_false]; fin_cases i <;> simp [Matrix.one_apply]
    · simp only [constrainDict, scV, Fin.sum_univ_six, h1, h2, h3, h4, h5, h6, h, if_true, if_false]; fin_cases i <;> simp [Matrix.one_apply]
  by_cases h7 : type.head? = some 'c'
  · simp only [constrainDict, scV, Fin.sum_univ_six, h1, h2, h3, h4, h5, h6, h7, if_true, if_false]; fin_cases i <;> simp [Matrix.one_apply]
  simp only [constrainDict, scV, Fin.sum_univ_six, h1, h2, h3, h4, h5, h6, h7, if_false]; fin_cases i <;> simp [Matrix.one_apply]

end Cryspy.CellConstr
