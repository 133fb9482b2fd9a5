import Verif.Bulk.Model
import Verif.Sft.Example
import Mathlib.Algebra.BigOperators.Field

/-!
# Properties of the bulk susceptibility
-/

namespace Cryspy.Bulk

open Symm Sf Sft Real Matrix

/-- Specification: the susceptibility tensor of the atom of the asymmetric unit, its parameters constrained by the site symmetry. -/
noncomputable def tensor (a : PAtom) : Matrix (Fin 3) (Fin 3) ℝ := Mat.toQ fun i => ∑ j, a.sc i j * a.chi j

theorem sum_apply {ι : Type} (l : List ι) (f : ι → Matrix (Fin 3) (Fin 3) ℝ) (i j : Fin 3) :
    (l.map f).sum i j = (l.map fun a => f a i j).sum := by
  induction l with
  | nil => simp
  | cons a t ih => simp [Matrix.add_apply, ih]

theorem sum_conj {ι : Type} (l : List ι) (A B : Matrix (Fin 3) (Fin 3) ℝ) (f : ι → Matrix (Fin 3) (Fin 3) ℝ) :
    A * (l.map f).sum * B = (l.map fun a => A * f a * B).sum := by
  induction l with
  | nil => simp
  | cons a t ih => simp only [List.map_cons, List.sum_cons, Matrix.mul_add, Matrix.add_mul, ih]

theorem sum_trace {ι : Type} (l : List ι) (f : ι → Matrix (Fin 3) (Fin 3) ℝ) :
    (l.map f).sum.trace = (l.map fun a => (f a).trace).sum := by
  induction l with
  | nil => simp
  | cons a t ih => simp only [List.map_cons, List.sum_cons, Matrix.trace_add, ih]

theorem sum_transpose {ι : Type} (l : List ι) (f : ι → Matrix (Fin 3) (Fin 3) ℝ) :
    (l.map f).sumᵀ = (l.map fun a => (f a)ᵀ).sum := by
  induction l with
  | nil => simp
  | cons a t ih => simp only [List.map_cons, List.sum_cons, Matrix.transpose_add, ih]

theorem hh_neg (uc : Fin 6 → ℝ) (a : PAtom) (r : M3) : hh uc a (fun i j => -1 * r i j) = hh uc a r := by
  unfold hh
  rw [pr5_neg, m_q_inv_m_neg]

theorem hh_spec (uc : Fin 6 → ℝ) (hu : Cell.NonDegenerate uc) (a : PAtom) (r : M3)
    (hm : (rotR r)ᵀ * Cell.metric uc * rotR r = Cell.metric uc) :
    Mat.toM (hh uc a r) = rotC uc r * tensor a * (rotC uc r)ᵀ := by
  have ho := pr5_orthogonal uc hu r hm
  unfold hh
  rw [Mat.calc_m_q_inv_m_spec _ _ (det_of_orthogonal ho), Matrix.inv_eq_left_inv ho, rotC_eq uc hu]
  rfl

theorem hdot_zero (x : Q3) : hdot 0 x = 0 := by
  simp [hdot]

theorem ph_zero : ph 0 = 1 := by
  simp [ph]

theorem mulL {ι : Type} (l : List ι) (c : ℝ) (f : ι → ℝ) : (l.map fun a => c * f a).sum = c * (l.map f).sum := by
  induction l with
  | nil => simp
  | cons a t ih => simp only [List.map_cons, List.sum_cons, ih, mul_add]

theorem mulR {ι : Type} (l : List ι) (c : ℝ) (f : ι → ℝ) : (l.map fun a => f a * c).sum = (l.map f).sum * c := by
  induction l with
  | nil => simp
  | cons a t ih => simp only [List.map_cons, List.sum_cons, ih, add_mul]

theorem addL {ι : Type} (l : List ι) (f g : ι → ℝ) : (l.map fun a => f a + g a).sum = (l.map f).sum + (l.map g).sum := by
  induction l with
  | nil => simp
  | cons a t ih => simp only [List.map_cons, List.sum_cons, ih]; ring

theorem list_comm {α β : Type} (l : List α) (k : List β) (f : α → β → ℝ) :
    (l.map fun a => (k.map fun b => f a b).sum).sum = (k.map fun b => (l.map fun a => f a b).sum).sum := by
  induction l with
  | nil => simp
  | cons a t ih => simp only [List.map_cons, List.sum_cons, ih, addL]

/-- A quantity that does not tell a rotation from its opposite has the same mean over the reduced elements and over all. -/
theorem mean (s : Sym) (hs : s.Pos) (hne : s.full ≠ []) (d : M3 → ℝ) (hd : ∀ r, d (fun i j => -1 * r i j) = d r) :
    (s.reduced.map fun e => d e.r).sum / s.reduced.length = (s.full.map fun e => d e.r).sum / s.full.length := by
  have h := s.full_sum hs 0 0 d hd
  have hl := s.full_length
  simp only [hdot_zero, ph_zero, one_mul, mul_zero] at h
  have hc : ∀ l : List Elem, (l.map fun e => (d e.r : ℂ)).sum = (((l.map fun e => d e.r).sum : ℝ) : ℂ) := by
    intro l
    induction l with
    | nil => simp
    | cons e t ih => simp [ih]
  rw [hc, hc] at h
  have h1 : (s.trans.map fun _ => (1 : ℂ)).sum = (s.trans.length : ℂ) := by simp
  rw [h1] at h
  have hf : (s.full.length : ℂ) ≠ 0 := by
    simpa using hne
  have ht : (s.trans.length : ℂ) ≠ 0 := by
    intro h0
    rw [hl, h0] at hf
    simp at hf
  have hr : (s.reduced.length : ℂ) ≠ 0 := by
    intro h0
    rw [hl, h0] at hf
    simp at hf
  have : (((s.reduced.map fun e => d e.r).sum / s.reduced.length : ℝ) : ℂ) =
      (((s.full.map fun e => d e.r).sum / s.full.length : ℝ) : ℂ) := by
    push_cast
    rw [h, hl]
    by_cases hc' : s.centro = true
    · simp only [hc', if_true, map_mul, map_natCast, Complex.conj_ofReal]
      field_simp
      ring
    · simp only [hc', if_false, Bool.false_eq_true]
      field_simp
  exact_mod_cast this

/-- **C78** The bulk susceptibility is a sum over the atoms of the asymmetric unit: occupancy and multiplicity times the mean,
over all operations of the space group, of the susceptibility tensor of the atom turned by the operation. -/
theorem bulk_average (s : Sym) (hs : s.Pos) (hne : s.full ≠ []) (uc : Fin 6 → ℝ) (hu : Cell.NonDegenerate uc)
    (hi : Isometries s uc) (atoms : List PAtom) :
    Mat.toM (bulk s uc atoms) = (atoms.map fun a => (a.occ * ((multiplicity s.full (siteOf a.x) : ℝ) / s.full.length)) •
      (s.full.map fun g => rotC uc g.r * tensor a * (rotC uc g.r)ᵀ).sum).sum := by
  ext i j
  rw [toM_apply, sum_apply]
  unfold bulk
  rw [list_comm, div_eq_mul_inv, ← mulR]
  refine congrArg List.sum (List.map_congr_left fun a _ => ?_)
  rw [Matrix.smul_apply, sum_apply, mulL, smul_eq_mul]
  have hm := mean s hs hne (fun r => hh uc a r (idx i j)) (fun r => by rw [hh_neg])
  have he : (s.full.map fun g => (rotC uc g.r * tensor a * (rotC uc g.r)ᵀ) i j) = s.full.map fun g => hh uc a g.r (idx i j) :=
    List.map_congr_left fun g hg => by rw [← hh_spec uc hu a g.r (hi g hg), toM_apply]
  rw [he, mul_assoc, ← div_eq_mul_inv, hm]
  ring

/-- **C78** The bulk susceptibility is the sum over all atoms of the unit cell: over the distinct positions that the symmetry
gives to the atoms of the asymmetric unit, each with its occupancy and the tensor of the operations that lead to it. -/
theorem bulk_unit_cell (s : Sym) (hs : s.Pos) (hG : IsGroup s.full) (hN : s.full.Pairwise fun a b => ¬ SameOp a b)
    (uc : Fin 6 → ℝ) (hu : Cell.NonDegenerate uc) (hi : Isometries s uc) (atoms : List PAtom)
    (hx : ∀ a ∈ atoms, (siteOf a.x).val = a.x) (cell : PAtom → List (Q3 × Matrix (Fin 3) (Fin 3) ℝ))
    (horb : ∀ a ∈ atoms, IsOrbitList s.full a.x ((cell a).map Prod.fst))
    (hcell : ∀ a ∈ atoms, ∀ p ∈ cell a, ∀ g ∈ s.full, Lat (act g a.x) p.1 → rotC uc g.r * tensor a * (rotC uc g.r)ᵀ = p.2) :
    Mat.toM (bulk s uc atoms) = (atoms.map fun a => ((cell a).map fun p => a.occ • p.2).sum).sum := by
  have hne : s.full ≠ [] := by
    obtain ⟨e, he, -⟩ := hG.one
    exact List.ne_nil_of_mem he
  rw [bulk_average s hs hne uc hu hi]
  refine congrArg List.sum (List.map_congr_left fun a ha => ?_)
  ext i j
  rw [Matrix.smul_apply, sum_apply, sum_apply, smul_eq_mul, mul_assoc]
  have := orbit_average s hs hG hN 0 a.x (hx a ha) (fun r => (rotC uc r * tensor a * (rotC uc r)ᵀ) i j)
    ((cell a).map fun p => (p.1, p.2 i j)) ⟨by
      have := horb a ha
      rwa [List.map_map, show (Prod.fst ∘ fun p : Q3 × Matrix (Fin 3) (Fin 3) ℝ => (p.1, p.2 i j)) = Prod.fst from rfl], by
      intro p hp g hg hl
      obtain ⟨q, hq, rfl⟩ := List.mem_map.1 hp
      exact congrFun (congrFun (hcell a ha q hq g hg hl) i) j⟩
  simp only [hdot_zero, ph_zero, one_mul, List.map_map] at this
  have hc : ∀ {ι : Type} (l : List ι) (f : ι → ℝ), (l.map fun e => (f e : ℂ)).sum = (((l.map f).sum : ℝ) : ℂ) := by
    intro ι l f
    induction l with
    | nil => simp
    | cons e t ih => simp [ih]
  rw [hc] at this
  have e2 : ((cell a).map ((fun p : Q3 × ℝ => (p.2 : ℂ)) ∘ fun p => (p.1, p.2 i j))).sum =
      ((((cell a).map fun p => p.2 i j).sum : ℝ) : ℂ) := by
    rw [← hc]
    rfl
  rw [e2] at this
  have h3 : (multiplicity s.full (siteOf a.x) : ℝ) / s.full.length *
      (s.full.map fun g => (rotC uc g.r * tensor a * (rotC uc g.r)ᵀ) i j).sum = ((cell a).map fun p => p.2 i j).sum := by
    apply Complex.ofReal_injective
    push_cast
    exact this
  rw [h3]
  exact (mulL (cell a) a.occ fun p => p.2 i j).symm

theorem tensor_symm (a : PAtom) : (tensor a)ᵀ = tensor a := by
  ext i j
  fin_cases i <;> fin_cases j <;> rfl

/-- **C78** The bulk susceptibility is a symmetric tensor … -/
theorem bulk_symmetric (s : Sym) (hs : s.Pos) (hne : s.full ≠ []) (uc : Fin 6 → ℝ) (hu : Cell.NonDegenerate uc)
    (hi : Isometries s uc) (atoms : List PAtom) : (Mat.toM (bulk s uc atoms))ᵀ = Mat.toM (bulk s uc atoms) := by
  rw [bulk_average s hs hne uc hu hi, sum_transpose]
  refine congrArg List.sum (List.map_congr_left fun a _ => ?_)
  rw [Matrix.transpose_smul, sum_transpose]
  congr 2
  refine List.map_congr_left fun g _ => ?_
  rw [Matrix.transpose_mul, Matrix.transpose_mul, Matrix.transpose_transpose, tensor_symm, mul_assoc]

/-- **C78** … that has the symmetry of the crystal: no operation of the space group changes it (Neumann's principle) … -/
theorem bulk_invariant (s : Sym) (hs : s.Pos) (hG : IsGroup s.full) (hN : s.full.Pairwise fun a b => ¬ SameOp a b)
    (uc : Fin 6 → ℝ) (hu : Cell.NonDegenerate uc) (hi : Isometries s uc) (atoms : List PAtom) (g : Elem) (hg : g ∈ s.full) :
    rotC uc g.r * Mat.toM (bulk s uc atoms) * (rotC uc g.r)ᵀ = Mat.toM (bulk s uc atoms) := by
  have hne : s.full ≠ [] := List.ne_nil_of_mem hg
  rw [bulk_average s hs hne uc hu hi, sum_conj]
  refine congrArg List.sum (List.map_congr_left fun a _ => ?_)
  rw [Matrix.mul_smul, Matrix.smul_mul, sum_conj]
  congr 1
  symm
  apply sum_left_mul hG hN hg
  intro e he c hc hp
  have hrot := rot_of_isProd hp
  rw [hrot, rotC_eq uc hu, rotC_eq uc hu, rotC_eq uc hu, toM_pr5_mmul uc hu, Matrix.transpose_mul]
  simp only [mul_assoc]

/-- **C78** … and whose trace is the sum of those of the atoms, each as often as it occurs. -/
theorem bulk_trace (s : Sym) (hs : s.Pos) (hne : s.full ≠ []) (uc : Fin 6 → ℝ) (hu : Cell.NonDegenerate uc)
    (hi : Isometries s uc) (atoms : List PAtom) : (Mat.toM (bulk s uc atoms)).trace =
      (atoms.map fun a => a.occ * multiplicity s.full (siteOf a.x) * (tensor a).trace).sum := by
  rw [bulk_average s hs hne uc hu hi, sum_trace]
  refine congrArg List.sum (List.map_congr_left fun a _ => ?_)
  rw [Matrix.trace_smul, sum_trace, List.map_congr_left (g := fun _ => (tensor a).trace) (fun g hg => by
    have ho := pr5_orthogonal uc hu g.r (hi g hg)
    rw [← rotC_eq uc hu] at ho
    rw [Matrix.trace_mul_comm, ← mul_assoc, ho, one_mul])]
  have hl : (s.full.length : ℝ) ≠ 0 := by simpa using hne
  simp only [List.map_const', List.sum_replicate, nsmul_eq_mul, smul_eq_mul]
  field_simp

theorem sthovl_zero (uc : Fin 6 → ℝ) : Cell.calc_sthovl (hklR 0) uc = 0 := by
  simp [Cell.calc_sthovl, Cell.calc_inv_d, hklR]

theorem dwP_zero (uc : Fin 6 → ℝ) (a : PAtom) (r : M3) : dwP uc 0 a r = 1 := by
  unfold dwP Adp.dwf
  rw [sthovl_zero]
  simp [Adp.power_iso, Adp.power_aniso, hklR]

/-- **C78** The structure factor tensor in the forward direction: where the form factors are one, it is the bulk susceptibility
in units of the scattering length of a Bohr magneton. -/
theorem forward (orb : Bool) (s : Sym) (hs : s.Pos) (hne : s.full ≠ []) (uc : Fin 6 → ℝ) (hu : Cell.NonDegenerate uc)
    (hi : Isometries s uc) (atoms : List PAtom) (hf : ∀ a ∈ atoms, formFactor orb uc 0 a = 1) :
    Mat.toM (sft orb s uc atoms 0) = toC ((2695 / 10000 : ℝ) • Mat.toM (bulk s uc atoms)) := by
  rw [sft_average orb s hs uc hu hi, bulk_average s hs hne uc hu hi]
  ext i j
  have hc : ∀ {ι : Type} (l : List ι) (f : ι → ℝ), (l.map fun e => (f e : ℂ)).sum = (((l.map f).sum : ℝ) : ℂ) := by
    intro ι l f
    induction l with
    | nil => simp
    | cons e t ih => simp [ih]
  simp only [toC, Matrix.map_apply, Matrix.smul_apply, smul_eq_mul]
  rw [Sft.sum_apply, sum_apply, ← mulL, ← hc]
  refine congrArg List.sum (List.map_congr_left fun a ha => ?_)
  rw [Matrix.smul_apply, Matrix.smul_apply, Sft.sum_apply, sum_apply, hf a ha, smul_eq_mul, smul_eq_mul]
  rw [List.map_congr_left (g := fun g : Elem => (((2695 / 10000) * (rotC uc g.r * tensor a * (rotC uc g.r)ᵀ) i j : ℝ) : ℂ)) (fun g _ => by
    have : localChi a = (2695 / 10000 : ℝ) • tensor a := rfl
    rw [dwP_zero, hdot_zero, ph_zero, this]
    simp [Matrix.map_apply]), hc, mulL]
  push_cast
  ring

/-- **C78** The error bars are zero, whatever the errors of the parameters are … -/
theorem errors_zero (flag : Bool) (atoms : List PAtom) (sigma : PAtom → Fin 6 → ℝ) (k : Fin 9) : errorBars flag atoms sigma k = 0 := rfl

/-- The atom of the examples, its susceptibility `11` being free. -/
noncomputable def exA (t : ℝ) : PAtom := { exAtom with chi := Function.update exAtom.chi 0 t }

theorem exSym_full_ne : exSym.full ≠ [] := by
  rw [exSym_full]
  simp [exG]

theorem exA_bulk (t : ℝ) : (Mat.toM (bulk exSym Hkl.tetUC [exA t])).trace =
    multiplicity exSym.full (siteOf (exA 0).x) * (t + 4) := by
  rw [bulk_trace exSym exSym_pos exSym_full_ne Hkl.tetUC Hkl.tetUC_nonDegenerate exSym_isometries]
  have : (tensor (exA t)).trace = t + 4 := by
    simp [tensor, exA, exAtom, Matrix.trace, Fin.sum_univ_three, Fin.sum_univ_six, Mat.toQ, Function.update]
    ring
  have hx : (exA t).x = (exA 0).x := rfl
  have ho : (exA t).occ = 1 := rfl
  simp only [List.map_cons, List.map_nil, List.sum_cons, List.sum_nil, this, hx, ho]
  ring

/-- **C78** … although the susceptibility changes with its parameters. -/
theorem errors_missed : ∃ (s : Sym) (uc : Fin 6 → ℝ) (a : ℝ → PAtom) (k : Fin 9), Cell.NonDegenerate uc ∧ Isometries s uc ∧ s.Pos ∧
    (∀ t, (a t).chi 0 = t) ∧ bulk s uc [a 0] k ≠ bulk s uc [a 1] k ∧ ∀ t, errorBars true [a t] (fun _ _ => 1) k = 0 := by
  have hm : multiplicity exSym.full (siteOf (exA 0).x) = 2 := by
    obtain ⟨d, h1, h2⟩ := exSym_cell Hkl.tetUC 0 (toAtom 1 (exA 0)) rfl rfl
    have hd := exG_distinct
    have hg := exG_isGroup
    rw [← exSym_full] at hd hg
    exact multiplicity_counts_images exSym.full hg hd (Sym.full_pos exSym_pos) (siteOf (exA 0).x) (by unfold siteOf; norm_num)
      [![1 / 2, 0, 0], ![0, 1 / 2, 1 / 2]] (by
        have := h1.orbit
        rw [show (siteOf (exA 0).x).val = (exA 0).x from h2]
        exact this)
  have : ∃ k, bulk exSym Hkl.tetUC [exA 0] k ≠ bulk exSym Hkl.tetUC [exA 1] k := by
    by_contra hn
    push Not at hn
    have h1 := exA_bulk 0
    rw [show bulk exSym Hkl.tetUC [exA 0] = bulk exSym Hkl.tetUC [exA 1] from funext hn, exA_bulk 1, hm] at h1
    norm_num at h1
  obtain ⟨k, hk⟩ := this
  exact ⟨exSym, Hkl.tetUC, exA, k, Hkl.tetUC_nonDegenerate, exSym_isometries, exSym_pos,
    fun t => by simp [exA], hk, fun t => errors_zero _ _ _ _⟩

/-- The hypotheses of `bulk_average`, `bulk_unit_cell`, `bulk_invariant`, `bulk_trace` hold for the atom, which has two images in
the cell, and the tetragonal cell. -/
example : exSym.Pos ∧ IsGroup exSym.full ∧ (exSym.full.Pairwise fun a b => ¬ SameOp a b) ∧ Cell.NonDegenerate Hkl.tetUC ∧
    Isometries exSym Hkl.tetUC ∧ exSym.full ≠ [] ∧ (siteOf exAtom.x).val = exAtom.x ∧
    ∃ cell : PAtom → List (Q3 × Matrix (Fin 3) (Fin 3) ℝ), (cell exAtom).length = 2 ∧
      IsOrbitList exSym.full exAtom.x ((cell exAtom).map Prod.fst) ∧
      ∀ p ∈ cell exAtom, ∀ g ∈ exSym.full, Lat (act g exAtom.x) p.1 →
        rotC Hkl.tetUC g.r * tensor exAtom * (rotC Hkl.tetUC g.r)ᵀ = p.2 := by
  have hd := exG_distinct
  have hg := exG_isGroup
  rw [← exSym_full] at hd hg
  obtain ⟨d, ⟨c1, c2⟩, c3⟩ := exSym_cell Hkl.tetUC 0 (toAtom 1 exAtom) rfl rfl
  refine ⟨exSym_pos, hg, hd, Hkl.tetUC_nonDegenerate, exSym_isometries, exSym_full_ne, c3,
    fun _ => [(![1 / 2, 0, 0], (2 : ℝ) • 1), (![0, 1 / 2, 1 / 2], (2 : ℝ) • 1)], rfl, c1, ?_⟩
  intro p hp g hgm hl
  have ht : tensor exAtom = (2 : ℝ) • 1 := by
    ext i j
    fin_cases i <;> fin_cases j <;> simp [tensor, exAtom, Mat.toQ]
  have hrot : rotC Hkl.tetUC g.r * tensor exAtom * (rotC Hkl.tetUC g.r)ᵀ = (2 : ℝ) • 1 := by
    rw [ht, Matrix.mul_smul, Matrix.mul_one, Matrix.smul_mul,
      rotC_orthogonal Hkl.tetUC_nonDegenerate (exSym_isometries g hgm)]
  simp only [List.mem_cons, List.not_mem_nil, or_false] at hp
  rcases hp with rfl | rfl <;> exact hrot

end Cryspy.Bulk
