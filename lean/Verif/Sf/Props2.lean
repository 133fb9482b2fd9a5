import Verif.Sf.Props
import Verif.Cell.Props
import Mathlib.LinearAlgebra.Matrix.NonsingularInverse

/-!
# C55, C56: when the hypotheses hold, and where the program is wrong
-/

namespace Cryspy.Sf

open Symm Real Matrix

/-- The rotation as a matrix. -/
def rotR (r : M3) : Matrix (Fin 3) (Fin 3) ℝ := fun i j => (r i j : ℝ)

theorem hklR_rowMul (h : V3) (r : M3) : hklR (rowMul h r) = hklR h ᵥ* rotR r := by
  funext k
  simp [hklR, rowMul, rotR, Matrix.vecMul, dotProduct]

/-- **C56** A rotation that leaves the metric of the cell as it is leaves `sin θ/λ` of every reflection as it
is, so the condition of `f_nucl_equivalent` holds for cells that have the symmetry of the group. -/
theorem sthovl_equivalent (uc : Fin 6 → ℝ) (hu : Cell.NonDegenerate uc) (h : V3) (r : M3)
    (hm : (rotR r)ᵀ * Cell.metric uc * rotR r = Cell.metric uc) :
    Cell.calc_sthovl (hklR (rowMul h r)) uc = Cell.calc_sthovl (hklR h) uc := by
  obtain ⟨g1, g2⟩ := Cell.reciprocal_metric_inverse uc hu
  set Gs := Mat.toQ (Cell.calc_m_reciprocal_g uc)
  set G := Cell.metric uc
  set R := rotR r
  have e1 : (Gs * Rᵀ * G) * R = 1 := by
    rw [mul_assoc, mul_assoc, ← mul_assoc Rᵀ, hm]
    exact g1
  have e2 : R * (Gs * Rᵀ * G) = 1 := mul_eq_one_comm.1 e1
  have e3 : R * Gs * Rᵀ = Gs := by
    calc R * Gs * Rᵀ = R * Gs * Rᵀ * (G * Gs) := by rw [g2, mul_one]
      _ = (R * (Gs * Rᵀ * G)) * Gs := by simp only [mul_assoc]
      _ = Gs := by rw [e2, one_mul]
  obtain ⟨a1, -, a3, a4⟩ := Cell.inv_d_is_length (hklR (rowMul h r)) uc hu
  obtain ⟨b1, -, b3, b4⟩ := Cell.inv_d_is_length (hklR h) uc hu
  have e4 : Cell.calc_inv_d (hklR (rowMul h r)) uc ^ 2 = Cell.calc_inv_d (hklR h) uc ^ 2 := by
    rw [a3, b3, hklR_rowMul]
    change hklR h ᵥ* R ⬝ᵥ Gs *ᵥ hklR h ᵥ* R = hklR h ⬝ᵥ Gs *ᵥ hklR h
    rw [← Matrix.mulVec_transpose R, Matrix.mulVec_mulVec, Matrix.mulVec_transpose, ← Matrix.dotProduct_mulVec,
      Matrix.mulVec_mulVec, ← mul_assoc, e3]
  rw [a4, b4, (pow_left_inj₀ a1 b1 two_ne_zero).1 e4]

theorem npRound_int (n : ℤ) : npRound n = n := by simp [npRound]

/-- **C55** Coordinates that are multiples of `1/3000000`, except `0.333333`, `0.666666` and `0.666667`, are used as they are for the
multiplicity. -/
theorem snap_exact (x : Q3) (n : Fin 3 → ℤ) (hx : ∀ k, x k = n k / 3000000)
    (hn : ∀ k, n k ≠ 999999 ∧ n k ≠ 1999998 ∧ n k ≠ 2000001) : (siteOf x).val = x := by
  funext k
  have h1 : x k * 3 * 10 ^ 6 = n k := by rw [hx k]; ring
  obtain ⟨h2, h3, h4⟩ := hn k
  simp only [siteOf, Shift.val, snap, h1, npRound_int, if_neg h2, if_neg h3, if_neg h4]
  rw [hx k]; norm_num

/-- **C55** The usual decimal forms of one third and two thirds are taken for what is meant. -/
theorem snap_thirds : snap (333333 / 1000000) = 1000000 ∧ snap (1 / 3) = 1000000 ∧ snap (666666 / 1000000) = 2000000 ∧
    snap (666667 / 1000000) = 2000000 ∧ snap (2 / 3) = 2000000 := by decide +kernel

/-- The operations of `P 3 m 1` (156). -/
def p3m1 : List Elem :=
  [⟨![0, 0, 0], 1, ![![1, 0, 0], ![0, 1, 0], ![0, 0, 1]]⟩, ⟨![0, 0, 0], 1, ![![0, -1, 0], ![1, -1, 0], ![0, 0, 1]]⟩,
   ⟨![0, 0, 0], 1, ![![-1, 1, 0], ![-1, 0, 0], ![0, 0, 1]]⟩, ⟨![0, 0, 0], 1, ![![0, -1, 0], ![-1, 0, 0], ![0, 0, 1]]⟩,
   ⟨![0, 0, 0], 1, ![![-1, 1, 0], ![0, 1, 0], ![0, 0, 1]]⟩, ⟨![0, 0, 0], 1, ![![1, 0, 0], ![1, -1, 0], ![0, 0, 1]]⟩]

/-- The mirror plane `(x, 2x, z)` of `P 3 m 1`. -/
def mirror : Elem := ⟨![0, 0, 0], 1, ![![-1, 1, 0], ![0, 1, 0], ![0, 0, 1]]⟩

/-- **C55, failure** The coordinates are rounded one by one: the atom `(0.1234568, 0.2469136, 0)` is on the mirror plane
`(x, 2x, z)` of `P 3 m 1`, but `x` is rounded down and `2x` up, so that it gets the multiplicity 6 of a general
position and counts twice.  (With `x = 0.1234567` it gets 3.) -/
theorem rounding_wrong :
    IsGroup p3m1 ∧ mirror ∈ p3m1 ∧ act mirror ![1234568 / 10000000, 2 * (1234568 / 10000000), 0] = ![1234568 / 10000000, 2 * (1234568 / 10000000), 0] ∧
    multiplicity p3m1 (siteOf ![1234568 / 10000000, 2 * (1234568 / 10000000), 0]) = 6 ∧
    multiplicity p3m1 (siteOf ![1234567 / 10000000, 2 * (1234567 / 10000000), 0]) = 3 := by
  refine ⟨isGroup_of_check (by decide +kernel), by simp [p3m1, mirror], ?_, by decide +kernel, by decide +kernel⟩
  funext k
  fin_cases k <;> simp [act, mirror, Fin.sum_univ_three, Matrix.cons_val] <;> ring

/-- `P 4₂` as the program holds it: no centre, no centring. -/
def exSym : Sym := ⟨exG, false, ⟨fun _ => 0, 1⟩, [⟨fun _ => 0, 1⟩]⟩

theorem exSym_pos : exSym.Pos :=
  ⟨by unfold exSym; decide, by unfold exSym; decide, by intro t ht; simp only [exSym, List.mem_singleton] at ht; subst ht; decide⟩

theorem exSym_full : exSym.full = exG := by
  have h : ∀ e ∈ exG, (⟨(sumB e.shift ⟨fun _ => 0, 1⟩).n, (sumB e.shift ⟨fun _ => 0, 1⟩).d, e.r⟩ : Elem) = e := by
    intro e he
    simp only [exG, List.mem_cons, List.not_mem_nil, or_false] at he
    have ext : ∀ a b : Elem, (∀ k, a.bn k = b.bn k) → a.bd = b.bd → a.r = b.r → a = b := by
      rintro ⟨a1, a2, a3⟩ ⟨b1, b2, b3⟩ h1 h2 h3
      simp only at h1 h2 h3
      rw [funext h1, h2, h3]
    rcases he with rfl | rfl | rfl | rfl <;> exact ext _ _ (by decide) (by decide) rfl
  unfold Sym.full fullByReduced exSym
  simp only [Bool.false_eq_true, if_false, List.flatMap_cons, List.flatMap_nil, List.append_nil]
  rw [List.map_congr_left h, List.map_id']

/-- The hypotheses of `f_nucl_unit_cell` hold for an atom with `B_iso` at `(1/2, 0, 0)` of `P 4₂`, which has two images. -/
theorem exSym_cell (uc : Fin 6 → ℝ) (h : V3) (a : Atom) (ha : a.x = ![1 / 2, 0, 0]) (hb : a.beta = 0) :
    ∃ d : ℝ, IsCellOf exSym.full (dw uc h a) a.x [(![1 / 2, 0, 0], d), (![0, 1 / 2, 1 / 2], d)] ∧ (siteOf a.x).val = a.x := by
  refine ⟨exp (-(Adp.power_iso (Cell.calc_sthovl (hklR h) uc) a.bIso)), ⟨?_, ?_⟩, ?_⟩
  · rw [exSym_full, ha]
    have := exOrbit
    rwa [show Shift.val ⟨![1, 0, 0], 2⟩ = (![1 / 2, 0, 0] : Q3) by
      funext k; fin_cases k <;> simp [Shift.val, Matrix.cons_val]] at this
  · intro p hp e _ _
    have : dw uc h a e.r = exp (-(Adp.power_iso (Cell.calc_sthovl (hklR h) uc) a.bIso)) := by
      unfold dw Adp.dwf
      rw [hb]
      simp [Adp.power_aniso]
    rw [this]
    simp only [List.mem_cons, List.not_mem_nil, or_false] at hp
    rcases hp with rfl | rfl <;> rfl
  · apply snap_exact a.x ![1500000, 0, 0]
    · rw [ha]; intro k; fin_cases k <;> norm_num [Matrix.cons_val]
    · intro k; fin_cases k <;> simp [Matrix.cons_val]

/-- The reflection `(0, 0, 1)` of `P 4₂` is absent, whatever the atoms. -/
theorem exSym_absent (uc : Fin 6 → ℝ) (atoms : List Atom) : fNucl exSym uc atoms ![0, 0, 1] = 0 := by
  have hd := exG_distinct
  have hg := exG_isGroup
  rw [← exSym_full] at hd hg
  refine f_nucl_absent exSym exSym_pos hg hd uc atoms _ ex4 (by rw [exSym_full]; exact ex4_mem) ?_ ?_
  · funext k; fin_cases k <;> simp [rowMul, ex4, Fin.sum_univ_three, Matrix.cons_val]
  · rintro ⟨n, hn⟩
    have : (1 / 2 : ℚ) = n := by rw [← hn]; simp [hdot, Shift.val, Elem.shift, ex4, Matrix.cons_val]
    have h2 : (1 : ℤ) = 2 * n := by
      have : (1 : ℚ) = 2 * n := by rw [← this]; norm_num
      exact_mod_cast this
    omega

/-- Centring `I`: the hypotheses of `pr3_forbidden` hold and `(1, 0, 0)` is forbidden. -/
example : pr3 ![1, 0, 0] [⟨fun _ => 0, 1⟩, ⟨fun _ => 1, 2⟩] = 0 := by
  have hz : ∀ k, (Shift.val ⟨fun _ => 0, 1⟩ : Q3) k = 0 := fun k => by simp [Shift.val]
  have hh : ∀ k, (Shift.val ⟨fun _ => 1, 2⟩ : Q3) k = 1 / 2 := fun k => by simp [Shift.val]
  refine pr3_forbidden _ _ ?_ ?_ ⟨fun _ => 1, 2⟩ (by simp) ?_
  · simp only [List.pairwise_cons, List.mem_singleton, forall_eq, List.not_mem_nil, IsEmpty.forall_iff, implies_true,
      List.Pairwise.nil, and_true]
    intro h
    obtain ⟨z, hz'⟩ := h 0
    rw [hz, hh] at hz'
    have h2 : (-1 : ℚ) = 2 * z := by linarith
    have h3 : (-1 : ℤ) = 2 * z := by exact_mod_cast h2
    omega
  · intro a ha b hb
    simp only [List.mem_cons, List.not_mem_nil, or_false] at ha hb
    rcases ha with rfl | rfl <;> rcases hb with rfl | rfl
    · exact ⟨⟨fun _ => 0, 1⟩, by simp, fun k => ⟨0, by simp only [hz]; simp⟩⟩
    · exact ⟨⟨fun _ => 1, 2⟩, by simp, fun k => ⟨0, by simp only [hz, hh]; simp⟩⟩
    · exact ⟨⟨fun _ => 1, 2⟩, by simp, fun k => ⟨0, by simp only [hz, hh]; simp⟩⟩
    · exact ⟨⟨fun _ => 0, 1⟩, by simp, fun k => ⟨-1, by simp only [hz, hh]; norm_num⟩⟩
  · rintro ⟨n, hn⟩
    have : (1 / 2 : ℚ) = n := by rw [← hn]; simp [hdot, Shift.val, Matrix.cons_val]
    have h2 : (1 : ℤ) = 2 * n := by
      have : (1 : ℚ) = 2 * n := by rw [← this]; norm_num
      exact_mod_cast this
    omega

end Cryspy.Sf
