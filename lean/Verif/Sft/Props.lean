import Verif.Sft.Lemmas

/-!
# C61: structure factor tensors of paramagnetic crystals

`ph (hdot h y)` is the wave `exp(-2πi h·y)` of the reflection `h` at the point `y`, `rotC uc r` the rotation `r` in the Cartesian
frame of the program (Cell: columns of `calc_m_m` are the basis vectors), `localChi a` the susceptibility tensor of the atom.
-/

namespace Cryspy.Sft

open Symm Sf Real Matrix

/-- Specification: the basis vectors in the Cartesian frame take a rotation from fractional to Cartesian coordinates. -/
noncomputable def rotC (uc : Fin 6 → ℝ) (r : M3) : Matrix (Fin 3) (Fin 3) ℝ :=
  Mat.toM (Cell.calc_m_m uc) * rotR r * (Mat.toM (Cell.calc_m_m uc))⁻¹

/-- Specification: the susceptibility tensor (constrained by the site symmetry), in units of the structure factor: `0.2695` is
the scattering length of a Bohr magneton. -/
noncomputable def localChi (a : PAtom) : Matrix (Fin 3) (Fin 3) ℝ :=
  (2695 / 10000 : ℝ) • Mat.toQ fun i => ∑ j, a.sc i j * a.chi j

/-- Every operation is an isometry of the cell. -/
def Isometries (s : Sym) (uc : Fin 6 → ℝ) : Prop := ∀ g ∈ s.full, (rotR g.r)ᵀ * Cell.metric uc * rotR g.r = Cell.metric uc

/-- A real matrix as a complex one. -/
noncomputable def toC (A : Matrix (Fin 3) (Fin 3) ℝ) : Matrix (Fin 3) (Fin 3) ℂ := A.map Complex.ofReal

/-- place of an entry in the list of nine -/
def idx (i j : Fin 3) : Fin 9 := ⟨3 * i.val + j.val, by omega⟩

theorem toM_apply {K : Type} (f : Fin 9 → K) (i j : Fin 3) : Mat.toM f i j = f (idx i j) := by
  fin_cases i <;> fin_cases j <;> rfl

theorem sum_apply {ι : Type} (l : List ι) (f : ι → Matrix (Fin 3) (Fin 3) ℂ) (i j : Fin 3) :
    (l.map f).sum i j = (l.map fun a => f a i j).sum := by
  induction l with
  | nil => simp
  | cons a t ih => simp [Matrix.add_apply, ih]

theorem sum_conj {ι : Type} (l : List ι) (A B : Matrix (Fin 3) (Fin 3) ℂ) (f : ι → Matrix (Fin 3) (Fin 3) ℂ) :
    A * (l.map f).sum * B = (l.map fun a => A * f a * B).sum := by
  induction l with
  | nil => simp
  | cons a t ih => simp only [List.map_cons, List.sum_cons, Matrix.mul_add, Matrix.add_mul, ih]

theorem sum_smul {ι : Type} (l : List ι) (c : ℂ) (f : ι → Matrix (Fin 3) (Fin 3) ℂ) :
    c • (l.map f).sum = (l.map fun a => c • f a).sum := by
  induction l with
  | nil => simp
  | cons a t ih => simp only [List.map_cons, List.sum_cons, smul_add, ih]

theorem rotC_eq (uc : Fin 6 → ℝ) (hu : Cell.NonDegenerate uc) (r : M3) : rotC uc r = Mat.toM (pr5 uc r) := by
  rw [toM_pr5 uc hu, rotC, Matrix.inv_eq_right_inv (Cell.m_inv_m_spec uc hu).1]

theorem localChi_eq (a : PAtom) : localChi a = Mat.toQ (masConstr a) := by
  have : masConstr a = fun i => 2695 / 10000 * ∑ j, a.sc i j * a.chi j := by
    funext i
    simp only [masConstr, Finset.mul_sum, mul_assoc]
  rw [this]
  ext i j
  fin_cases i <;> fin_cases j <;> simp [localChi, Mat.toQ]

theorem toC_mul (A B : Matrix (Fin 3) (Fin 3) ℝ) : toC (A * B) = toC A * toC B := by
  ext i j
  simp [toC, Matrix.mul_apply, Fin.sum_univ_three]

theorem carried_spec (uc : Fin 6 → ℝ) (hu : Cell.NonDegenerate uc) (a : PAtom) (r : M3)
    (hm : (rotR r)ᵀ * Cell.metric uc * rotR r = Cell.metric uc) :
    Mat.toM (carried uc a r) = rotC uc r * localChi a * (rotC uc r)ᵀ := by
  rw [toM_carried uc hu a r hm, rotC_eq uc hu, localChi_eq]

/-- **C61** The tensor is a sum over the atoms; each contributes its form factor, occupancy and multiplicity times the average
over all operations of the space group of the wave times its susceptibility tensor turned by the operation. -/
theorem sft_average (orb : Bool) (s : Sym) (hs : s.Pos) (uc : Fin 6 → ℝ) (hu : Cell.NonDegenerate uc) (hi : Isometries s uc)
    (atoms : List PAtom) (h : V3) :
    Mat.toM (sft orb s uc atoms h) = (atoms.map fun a =>
      ((formFactor orb uc h a : ℂ) * a.occ * ((multiplicity s.full (siteOf a.x) : ℂ) / s.full.length)) •
      (s.full.map fun g => (ph (hdot h (act g a.x)) * (dwP uc h a g.r : ℂ)) •
        toC (rotC uc g.r * localChi a * (rotC uc g.r)ᵀ)).sum).sum := by
  ext i j
  rw [toM_apply, sft_eq, average s hs h _ (by
    intro p hp r
    obtain ⟨a, -, rfl⟩ := List.mem_map.1 hp
    exact wt_neg uc h a _ r), sum_apply, List.map_map]
  refine congrArg List.sum (List.map_congr_left fun a _ => ?_)
  simp only [Function.comp, toAtom, Matrix.smul_apply, smul_eq_mul]
  rw [sum_apply, mul_assoc (_ * _) (_ / _)]
  congr 2
  refine congrArg List.sum (List.map_congr_left fun g hg => ?_)
  rw [← carried_spec uc hu a g.r (hi g hg)]
  simp only [Matrix.smul_apply, smul_eq_mul, toC, Matrix.map_apply, toM_apply, wt]
  push_cast
  ring

/-- **C61** The tensor is that of the whole unit cell: the sum over the atoms of the asymmetric unit and over the distinct
positions that the symmetry gives them, each with the tensor of the operations that lead to it. -/
theorem sft_unit_cell (orb : Bool) (s : Sym) (hs : s.Pos) (hG : IsGroup s.full)
    (hN : s.full.Pairwise fun a b => ¬ SameOp a b) (uc : Fin 6 → ℝ) (hu : Cell.NonDegenerate uc) (hi : Isometries s uc)
    (atoms : List PAtom) (h : V3) (hx : ∀ a ∈ atoms, (siteOf a.x).val = a.x)
    (cell : PAtom → List (Q3 × ℝ × Matrix (Fin 3) (Fin 3) ℝ))
    (horb : ∀ a ∈ atoms, IsOrbitList s.full a.x ((cell a).map Prod.fst))
    (hcell : ∀ a ∈ atoms, ∀ p ∈ cell a, ∀ g ∈ s.full, Lat (act g a.x) p.1 →
      dwP uc h a g.r = p.2.1 ∧ rotC uc g.r * localChi a * (rotC uc g.r)ᵀ = p.2.2) :
    Mat.toM (sft orb s uc atoms h) = (atoms.map fun a => ((cell a).map fun p =>
      ((formFactor orb uc h a : ℂ) * a.occ * ph (hdot h p.1) * (p.2.1 : ℂ)) • toC p.2.2).sum).sum := by
  rw [sft_average orb s hs uc hu hi]
  refine congrArg List.sum (List.map_congr_left fun a ha => ?_)
  ext i j
  rw [Matrix.smul_apply, sum_apply, sum_apply, smul_eq_mul, mul_assoc]
  have := orbit_average s hs hG hN h a.x (hx a ha)
    (fun r => dwP uc h a r * (rotC uc r * localChi a * (rotC uc r)ᵀ) i j)
    ((cell a).map fun p => (p.1, p.2.1 * p.2.2 i j)) ⟨by
      have := horb a ha
      rwa [List.map_map, show (Prod.fst ∘ fun p : Q3 × ℝ × Matrix (Fin 3) (Fin 3) ℝ => (p.1, p.2.1 * p.2.2 i j)) = Prod.fst from rfl],
      by
      intro p hp g hg hl
      obtain ⟨q, hq, rfl⟩ := List.mem_map.1 hp
      obtain ⟨e1, e2⟩ := hcell a ha q hq g hg hl
      rw [e1, e2]⟩
  rw [List.map_map] at this
  have e : (s.full.map fun g => ((ph (hdot h (act g a.x)) * (dwP uc h a g.r : ℂ)) •
      toC (rotC uc g.r * localChi a * (rotC uc g.r)ᵀ)) i j) = s.full.map fun g => ph (hdot h (act g a.x)) *
      ((dwP uc h a g.r * (rotC uc g.r * localChi a * (rotC uc g.r)ᵀ) i j : ℝ) : ℂ) := by
    refine List.map_congr_left fun g _ => ?_
    simp only [Matrix.smul_apply, smul_eq_mul, toC, Matrix.map_apply]
    push_cast
    ring
  rw [e, mul_assoc, this, ← mul_assoc, ← sum_map_mul_left]
  refine congrArg List.sum (List.map_congr_left fun p _ => ?_)
  simp only [Function.comp, Matrix.smul_apply, smul_eq_mul, toC, Matrix.map_apply]
  push_cast
  ring

theorem localChi_symm (a : PAtom) : (localChi a)ᵀ = localChi a := by
  ext i j
  fin_cases i <;> fin_cases j <;> simp [localChi, Mat.toQ]

/-- **C61** The tensor is symmetric. -/
theorem sft_symmetric (orb : Bool) (s : Sym) (hs : s.Pos) (uc : Fin 6 → ℝ) (hu : Cell.NonDegenerate uc) (hi : Isometries s uc)
    (atoms : List PAtom) (h : V3) : (Mat.toM (sft orb s uc atoms h))ᵀ = Mat.toM (sft orb s uc atoms h) := by
  rw [sft_average orb s hs uc hu hi]
  ext i j
  rw [Matrix.transpose_apply, sum_apply, sum_apply]
  refine congrArg List.sum (List.map_congr_left fun a _ => ?_)
  rw [Matrix.smul_apply, Matrix.smul_apply, sum_apply, sum_apply]
  congr 2
  refine List.map_congr_left fun g _ => ?_
  rw [Matrix.smul_apply, Matrix.smul_apply]
  congr 1
  have : (rotC uc g.r * localChi a * (rotC uc g.r)ᵀ)ᵀ = rotC uc g.r * localChi a * (rotC uc g.r)ᵀ := by
    rw [Matrix.transpose_mul, Matrix.transpose_mul, Matrix.transpose_transpose, localChi_symm, mul_assoc]
  simp only [toC, Matrix.map_apply]
  conv_lhs => rw [← this]
  rfl

/-- **C61** Equivalent reflections: the tensors of `h` and of its image `h R` under an operation `x ↦ R x + t` of the group differ
by the phase `exp(-2πi h·t)` and the rotation. -/
theorem sft_equivalent (orb : Bool) (s : Sym) (hs : s.Pos) (hG : IsGroup s.full)
    (hN : s.full.Pairwise fun a b => ¬ SameOp a b) (uc : Fin 6 → ℝ) (hu : Cell.NonDegenerate uc) (hi : Isometries s uc)
    (atoms : List PAtom) (h : V3) (g : Elem) (hg : g ∈ s.full) :
    Mat.toM (sft orb s uc atoms h) = ph (hdot h g.shift.val) •
      (toC (rotC uc g.r) * Mat.toM (sft orb s uc atoms (rowMul h g.r)) * (toC (rotC uc g.r))ᵀ) := by
  have hsth := sthovl_equivalent uc hu h g.r (hi g hg)
  rw [sft_average orb s hs uc hu hi, sft_average orb s hs uc hu hi, sum_conj, sum_smul]
  refine congrArg List.sum (List.map_congr_left fun a _ => ?_)
  have hff : formFactor orb uc (rowMul h g.r) a = formFactor orb uc h a := by
    unfold formFactor
    rw [hsth]
  rw [Matrix.mul_smul, Matrix.smul_mul, smul_comm, hff]
  congr 1
  rw [sum_conj, sum_smul]
  apply sum_left_mul hG hN hg
  intro e he c hc hp
  have hrot := rot_of_isProd hp
  have e1 : dwP uc h a c.r = dwP uc (rowMul h g.r) a e.r := by
    rw [hrot, dwP_eq uc h a 0, dw_mmul uc h (toAtom 0 a) _ _ hsth]
    rfl
  have e2 : rotC uc c.r = rotC uc g.r * rotC uc e.r := by
    rw [hrot, rotC_eq uc hu, rotC_eq uc hu, rotC_eq uc hu, toM_pr5_mmul uc hu]
  rw [hdot_lat (hp a.x), hdot_act, ph_add, e1, e2, Matrix.mul_smul, Matrix.smul_mul, smul_smul, mul_assoc]
  congr 1
  have e3 : (toC (rotC uc g.r))ᵀ = toC (rotC uc g.r)ᵀ := rfl
  rw [e3, ← toC_mul, ← toC_mul, Matrix.transpose_mul]
  simp only [mul_assoc]

/-- **C61** A reflection that a centring translation forbids has no tensor. -/
theorem sft_centring (orb : Bool) (s : Sym) (uc : Fin 6 → ℝ) (atoms : List PAtom) (h : V3)
    (hN : s.trans.Pairwise fun a b => ¬ Lat a.val b.val)
    (hadd : ∀ a ∈ s.trans, ∀ b ∈ s.trans, ∃ c ∈ s.trans, Lat c.val (fun k => a.val k + b.val k)) (t : Shift) (ht : t ∈ s.trans)
    (hf : ¬ ∃ n : ℤ, hdot h t.val = n) (k : Fin 9) : sft orb s uc atoms h k = 0 := by
  have h0 := pr3_forbidden h s.trans hN hadd t ht hf
  unfold sft fByAsym
  rw [h0]
  simp

/-- **C61** Friedel's law: the tensors of `h` and `-h` are conjugate. -/
theorem sft_friedel (orb : Bool) (s : Sym) (hs : s.Pos) (uc : Fin 6 → ℝ) (atoms : List PAtom) (h : V3) (k : Fin 9) :
    sft orb s uc atoms (-h) k = (starRingEnd ℂ) (sft orb s uc atoms h k) := by
  have hw : ∀ h : V3, ∀ p ∈ atoms.map fun a => (toAtom (formFactor orb uc h a) a, wt uc h a k),
      ∀ r : M3, p.2 (fun i j => -1 * r i j) = p.2 r := by
    intro h p hp r
    obtain ⟨a, -, rfl⟩ := List.mem_map.1 hp
    exact wt_neg uc h a _ r
  rw [sft_eq, sft_eq, average s hs _ _ (hw _), average s hs _ _ (hw _), conj_sum, List.map_map, List.map_map]
  refine congrArg List.sum (List.map_congr_left fun a ha => ?_)
  have hff : formFactor orb uc (-h) a = formFactor orb uc h a := by
    unfold formFactor
    rw [sthovl_neg]
  simp only [Function.comp, toAtom, hff]
  rw [map_mul, map_mul, map_mul, Complex.conj_ofReal, Complex.conj_ofReal, map_div₀, map_natCast, map_natCast, conj_sum]
  suffices hsum : (s.full.map fun g => ph (hdot (-h) (act g a.x)) * (wt uc (-h) a k g.r : ℂ)).sum =
      (s.full.map fun g => (starRingEnd ℂ) (ph (hdot h (act g a.x)) * (wt uc h a k g.r : ℂ))).sum by rw [hsum]
  refine congrArg List.sum (List.map_congr_left fun g _ => ?_)
  rw [map_mul, ph_conj, Complex.conj_ofReal]
  have e1 : hdot (-h) (act g a.x) = -hdot h (act g a.x) := by unfold hdot; simp; ring
  have e2 : wt uc (-h) a k g.r = wt uc h a k g.r := by
    unfold wt dwP
    rw [sthovl_neg, hklR_neg]
    congr 1
    exact (Adp.dwf_friedel _ _ _ _ _).1
  rw [e1, e2]

end Cryspy.Sft
