import Verif.Ord.Spec
import Mathlib.LinearAlgebra.Matrix.NonsingularInverse
import Mathlib.Algebra.BigOperators.Field

/-!
# The magnetic structure factor of ordered moments
-/

namespace Cryspy.Ord

open Symm Sf Matrix

theorem m_v (m : Fin 9 → ℝ) (v : Fin 3 → ℝ) : Mat.calc_m_v m v = Mat.toM m *ᵥ v := Mat.calc_m_v_spec m v

theorem toM_flat (r : M3) : Mat.toM (flat r) = rotR r := by
  ext i j
  fin_cases i <;> fin_cases j <;> rfl

theorem edge_pos {uc : Fin 6 → ℝ} (hu : Cell.NonDegenerate uc) (i : Fin 3) : 0 < edge uc i := by
  fin_cases i
  · exact hu.a_pos
  · exact hu.b_pos
  · exact hu.c_pos

theorem norm_eq {uc : Fin 6 → ℝ} (hu : Cell.NonDegenerate uc) (v : Fin 3 → ℝ) :
    Mat.toM (Cell.calc_m_m_norm uc) *ᵥ v = Mat.toM (Cell.calc_m_m uc) *ᵥ fun i => v i / edge uc i := by
  rw [← (Cell.m_m_norm_spec uc hu).1, ← Matrix.mulVec_mulVec]
  congr 1
  funext i
  unfold Cell.edges
  rw [Matrix.mulVec_diagonal]
  exact (mul_div_cancel₀ _ (edge_pos hu i).ne').symm

/-- What the program does: the components along the crystal axes are multiplied by the rotation. -/
theorem moment_eq {uc : Fin 6 → ℝ} (hu : Cell.NonDegenerate uc) (m : Fin 3 → ℝ) (g : Elem × ℤ) :
    moment uc m g = (2695 / 10000 : ℝ) • ((g.2 : ℝ) * (rotR g.1.r).det) •
      (Mat.toM (Cell.calc_m_m uc) *ᵥ fun i => (rotR g.1.r *ᵥ m) i / edge uc i) := by
  funext k
  unfold moment
  rw [m_v, m_v, norm_eq hu, toM_flat, Mat.calc_det_m_spec, toM_flat]
  simp only [Pi.smul_apply, smul_eq_mul]
  ring

theorem rotC_cart {uc : Fin 6 → ℝ} (hu : Cell.NonDegenerate uc) (r : M3) (m : Fin 3 → ℝ) :
    Sft.rotC uc r *ᵥ cartMoment uc m = Mat.toM (Cell.calc_m_m uc) *ᵥ (rotR r *ᵥ fun i => m i / edge uc i) := by
  unfold Sft.rotC cartMoment
  rw [Matrix.inv_eq_right_inv (Cell.m_inv_m_spec uc hu).1, Matrix.mulVec_mulVec, Matrix.mulVec_mulVec, Matrix.mul_assoc,
    (Cell.m_inv_m_spec uc hu).2, Matrix.mul_one]

/-- **C76** The program turns every moment rightly exactly when the rotation mixes axes of equal lengths only. -/
theorem moment_iff {uc : Fin 6 → ℝ} (hu : Cell.NonDegenerate uc) {g : Elem × ℤ} (hθ : g.2 ≠ 0) (hd : (rotR g.1.r).det ≠ 0) :
    (∀ m, moment uc m g = (2695 / 10000 : ℝ) • turned uc g (cartMoment uc m)) ↔ KeepsLengths uc g.1.r := by
  have hc : ((g.2 : ℝ) * (rotR g.1.r).det) ≠ 0 := mul_ne_zero (by exact_mod_cast hθ) hd
  have key : ∀ m, moment uc m g = (2695 / 10000 : ℝ) • turned uc g (cartMoment uc m) ↔
      ∀ i, (rotR g.1.r *ᵥ m) i / edge uc i = (rotR g.1.r *ᵥ fun i => m i / edge uc i) i := by
    intro m
    rw [moment_eq hu]
    unfold turned
    rw [rotC_cart hu]
    constructor
    · intro h
      have h1 := smul_right_injective _ (show (2695 / 10000 : ℝ) ≠ 0 by norm_num) h
      have h2 := smul_right_injective _ hc h1
      have h3 := congrArg (fun v => Mat.toM (Cell.calc_m_inv_m uc) *ᵥ v) h2
      simp only [Matrix.mulVec_mulVec, (Cell.m_inv_m_spec uc hu).2, Matrix.one_mulVec] at h3
      intro i
      have := congrFun h3 i
      simpa [Matrix.mulVec_mulVec, ← Matrix.mul_assoc, (Cell.m_inv_m_spec uc hu).2] using this
    · intro h
      rw [show (fun i => (rotR g.1.r *ᵥ m) i / edge uc i) = rotR g.1.r *ᵥ fun i => m i / edge uc i from funext h]
  constructor
  · intro h i j hr
    have h1 := (key (Pi.single j 1)).1 (h _) i
    have h2 : (fun i => (Pi.single j (1 : ℝ) : Fin 3 → ℝ) i / edge uc i) = Pi.single j (1 / edge uc j) := by
      funext l
      by_cases hl : l = j
      · subst hl; simp
      · simp [hl]
    rw [h2, Matrix.mulVec_single, Matrix.mulVec_single] at h1
    have h3 : rotR g.1.r i j ≠ 0 := by
      unfold rotR
      simpa using hr
    simp only [Pi.smul_apply, MulOpposite.smul_eq_mul_unop, MulOpposite.unop_op, mul_one, Matrix.col_apply] at h1
    have e1 := (edge_pos hu i).ne'
    have e2 := (edge_pos hu j).ne'
    field_simp at h1
    linarith
  · intro h m
    rw [key]
    intro i
    simp only [Matrix.mulVec, dotProduct, Finset.sum_div]
    refine Finset.sum_congr rfl fun j _ => ?_
    by_cases hr : g.1.r i j = 0
    · have : rotR g.1.r i j = 0 := by unfold rotR; simp [hr]
      rw [this]; simp
    · rw [h i j hr]; ring

/-- Two-fold rotation about `a` of a body-centred lattice described by a primitive cell. -/
def exR : M3 := ![![1, 0, 1], ![0, -1, 0], ![0, 0, -1]]

noncomputable def exUC : Fin 6 → ℝ := ![2, 1, Real.sqrt 2, Real.pi / 2, Real.pi / 4, Real.pi / 2]

theorem exUC_nonDegenerate : Cell.NonDegenerate exUC := by
  have h2 : (0 : ℝ) < Real.sqrt 2 := Real.sqrt_pos.2 (by norm_num)
  refine ⟨by simp [exUC], by simp [exUC], by simpa [exUC] using h2, ?_⟩
  rw [Matrix.det_fin_three]
  have hs : Real.sqrt 2 * Real.sqrt 2 = 2 := Real.mul_self_sqrt (by norm_num)
  simp [Cell.metric, exUC, Real.cos_pi_div_two, Real.cos_pi_div_four]
  nlinarith

theorem exR_isometry : (rotR exR)ᵀ * Cell.metric exUC * rotR exR = Cell.metric exUC := by
  have hs : Real.sqrt 2 * Real.sqrt 2 = 2 := Real.mul_self_sqrt (by norm_num)
  apply Mat.m_ext <;> simp [Matrix.mul_apply, Fin.sum_univ_three, rotR, exR, Cell.metric, exUC, Real.cos_pi_div_two,
    Real.cos_pi_div_four] <;> nlinarith

/-- **C76** So there are isometries of a cell, of the size of a body-centred lattice described by a primitive cell, that the program
applies wrongly to moments. -/
theorem moment_wrong : ∃ (uc : Fin 6 → ℝ) (g : Elem × ℤ) (m : Fin 3 → ℝ), Cell.NonDegenerate uc ∧
    (rotR g.1.r)ᵀ * Cell.metric uc * rotR g.1.r = Cell.metric uc ∧ g.2 = 1 ∧ (rotR g.1.r).det = 1 ∧
    moment uc m g ≠ (2695 / 10000 : ℝ) • turned uc g (cartMoment uc m) := by
  have hdet : (rotR exR).det = 1 := by
    rw [Matrix.det_fin_three]; simp [rotR, exR]
  by_contra hn
  push_neg at hn
  have h := (moment_iff exUC_nonDegenerate (g := (⟨0, 1, exR⟩, 1)) one_ne_zero (by show (rotR exR).det ≠ 0; rw [hdet]; norm_num)).1
    fun m => hn exUC _ m exUC_nonDegenerate exR_isometry rfl hdet
  have h1 := h 0 2 (by simp [exR])
  simp [edge, exUC] at h1
  have h2 : (2 : ℝ) * 2 = 2 := by
    nth_rewrite 1 [h1]
    nth_rewrite 2 [h1]
    exact Real.mul_self_sqrt (by norm_num)
  norm_num at h2

/-! ## sums over the operations -/

theorem sum_partition {α κ : Type} (l : List κ) (R : α → κ → Bool) (v : κ → ℂ) (f : α → ℂ) : ∀ G : List α,
    (∀ e ∈ G, (l.map fun y => if R e y then v y else 0).sum = f e) →
    (G.map f).sum = (l.map fun y => (G.countP (R · y) : ℂ) * v y).sum
  | [], _ => by simp
  | e :: G, h => by
    have ih := sum_partition l R v f G (fun e' he' => h e' (List.mem_cons_of_mem _ he'))
    rw [List.map_cons, List.sum_cons, ih, ← h e List.mem_cons_self, ← sum_map_add]
    refine congrArg List.sum (List.map_congr_left fun y _ => ?_)
    rw [List.countP_cons]
    by_cases hR : R e y <;> simp [hR] <;> ring

/-- Multiplying a magnetic group from the left by one of its elements permutes its elements. -/
theorem sum_left_mul {M : Type} [AddCommMonoid M] {G : List (Elem × ℤ)} (hG : IsMGroup G)
    (hN : G.Pairwise fun a b => ¬ (SameOp a.1 b.1 ∧ a.2 = b.2)) {g : Elem × ℤ} (hg : g ∈ G) (φ ψ : Elem × ℤ → M)
    (h : ∀ e ∈ G, ∀ c ∈ G, IsProd g.1 e.1 c.1 → c.2 = g.2 * e.2 → φ c = ψ e) : (G.map φ).sum = (G.map ψ).sum := by
  classical
  have hex : ∀ e : Elem × ℤ, ∃ c : Elem × ℤ, e ∈ G → c ∈ G ∧ IsProd g.1 e.1 c.1 ∧ c.2 = g.2 * e.2 := by
    intro e
    by_cases he : e ∈ G
    · obtain ⟨c, hc, hm⟩ := hG.mul g hg e he
      exact ⟨c, fun _ => ⟨hc, hm⟩⟩
    · exact ⟨e, fun h => absurd h he⟩
  choose σ hσ using hex
  have hnd : G.Nodup := hN.imp fun {a b} hab hEq => hab (by rw [hEq]; exact ⟨fun x => Lat.refl _, rfl⟩)
  have hne : ∀ a ∈ G, ∀ b ∈ G, SameOp a.1 b.1 → a.2 = b.2 → a = b := by
    intro a ha b hb hab h2
    by_contra hne
    have : Std.Symm fun a b : Elem × ℤ => ¬ (SameOp a.1 b.1 ∧ a.2 = b.2) := ⟨fun a b h h' => h ⟨fun x => (h'.1 x).symm, h'.2.symm⟩⟩
    exact List.Pairwise.forall hN ha hb hne ⟨hab, h2⟩
  have hinj : ∀ a ∈ G, ∀ b ∈ G, σ a = σ b → a = b := by
    intro a ha b hb hab
    obtain ⟨i, hi, hinv, hθ⟩ := hG.inv g hg
    apply hne a ha b hb
    · intro x
      have h1 := (hσ a ha).2.1 x
      have h2 := (hσ b hb).2.1 x
      rw [hab] at h1
      exact (hinv _).symm.trans (((h1.symm.trans h2).act i.1).trans (hinv _))
    · have h1 := (hσ a ha).2.2
      have h2 := (hσ b hb).2.2
      rw [hab] at h1
      have : g.2 ≠ 0 := fun h0 => by rw [h0] at hθ; simp at hθ
      exact mul_left_cancel₀ this (h1.symm.trans h2)
  have hnd2 : (G.map σ).Nodup := by
    rw [List.nodup_map_iff_inj_on hnd]
    exact fun a ha b hb hab => hinj a ha b hb hab
  have hperm : (G.map σ).Perm G := by
    apply List.Subperm.perm_of_length_le
    · apply List.subperm_of_subset hnd2
      intro c hc
      obtain ⟨e, he, rfl⟩ := List.mem_map.1 hc
      exact (hσ e he).1
    · simp
  rw [← (hperm.map φ).sum_eq, List.map_map]
  refine congrArg List.sum (List.map_congr_left fun e he => ?_)
  exact h e he _ (hσ e he).1 (hσ e he).2.1 (hσ e he).2.2

theorem list_comm {α β : Type} (l : List α) (k : List β) (f : α → β → ℂ) :
    (l.map fun a => (k.map fun b => f a b).sum).sum = (k.map fun b => (l.map fun a => f a b).sum).sum := by
  induction l with
  | nil => simp
  | cons a t ih => simp only [List.map_cons, List.sum_cons, ih, sum_map_add]

section
variable {G : List (Elem × ℤ)} {uc : Fin 6 → ℝ} (hu : Cell.NonDegenerate uc) (hk : ∀ g ∈ G, KeepsLengths uc g.1.r)
  (hi : Isometries G uc) (hθ : ∀ g ∈ G, g.2 ≠ 0)

include hu in
theorem det_ne {r : M3} (hi : (rotR r)ᵀ * Cell.metric uc * rotR r = Cell.metric uc) : (rotR r).det ≠ 0 := by
  intro h0
  have h1 := congrArg Matrix.det hi
  rw [Matrix.det_mul, h0, mul_zero] at h1
  exact hu.det_pos.ne h1

/-- The structure factor as a sum over atoms of averages over the operations. -/
theorem f_m_average (orb : Bool) (G : List (Elem × ℤ)) (uc : Fin 6 → ℝ) (atoms : List OAtom) (h : V3) (k : Fin 3) :
    fM orb G uc atoms h k = (atoms.map fun a => (formFactor orb uc h a : ℂ) * a.occ *
      ((multiplicity (G.map Prod.fst) (siteOf a.x) : ℂ) / G.length *
        (G.map fun g => ph (hdot h (act g.1 a.x)) * ((dwO uc h a g.1.r * moment uc a.m g k : ℝ) : ℂ)).sum)).sum := by
  unfold fM
  simp only [← sum_map_mul_left]
  rw [list_comm, div_eq_mul_inv, ← sum_map_mul_right]
  refine congrArg List.sum (List.map_congr_left fun a _ => ?_)
  rw [← sum_map_mul_right]
  refine congrArg List.sum (List.map_congr_left fun g _ => ?_)
  rw [← pr12]
  push_cast
  ring

end

end Cryspy.Ord
