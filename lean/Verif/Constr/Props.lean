import Verif.Constr.Lemmas

/-!
# C17: averaging over the site symmetry

The constraint matrices map every tensor to an invariant one, leave invariant ones alone, and (hence) are idempotent.
-/

namespace Cryspy.Constr

open Cryspy.Mat Cryspy.Cell
open scoped Matrix

/-! ## an example: the identity and the mirror `(y-x, y, z)` of a hexagonal cell, time reversed -/

def exId : Col := ⟨![0, 0, 0], 1, ![1, 0, 0, 0, 1, 0, 0, 0, 1], 1⟩
def exMirror (θ : ℝ) : Col := ⟨![0, 0, 0], 1, ![-1, 1, 0, 0, 1, 0, 0, 0, 1], θ⟩
def exG (θ : ℝ) : List Col := [exId, exMirror θ]
noncomputable def hexUC : Fin 6 → ℝ := ![2, 2, 5, Real.pi / 2, Real.pi / 2, 2 * Real.pi / 3]

theorem exG_isSiteGroup {θ : ℝ} (hθ : θ * θ = 1) : IsSiteGroup (exG θ) := by
  have h1 : op exId = 1 := by
    unfold op exId
    refine Prod.ext ?_ rfl
    apply m_ext <;> simp [toM]
  have h2 : op (exMirror θ) * op (exMirror θ) = 1 := by
    unfold op exMirror
    refine Prod.ext ?_ hθ
    apply m_ext <;> simp [toM, Matrix.mul_apply, Fin.sum_univ_three]
  have h3 : op (exMirror θ) ≠ 1 := by
    intro e
    have := congrFun (congrFun (congrArg Prod.fst e) 0) 1
    simp [op, exMirror, toM] at this
  unfold IsSiteGroup exG
  simp only [List.map_cons, List.map_nil, h1]
  refine ⟨by simpa using h3.symm, by simp, ?_, ?_⟩
  · intro a ha b hb
    simp only [List.mem_cons, List.not_mem_nil, or_false] at ha hb ⊢
    rcases ha with rfl | rfl <;> rcases hb with rfl | rfl <;> simp [h2]
  · intro a ha
    simp only [List.mem_cons, List.not_mem_nil, or_false] at ha
    rcases ha with rfl | rfl
    · exact ⟨1, by simp, by simp⟩
    · exact ⟨op (exMirror θ), by simp, h2⟩

theorem cos_two_pi_div_three : Real.cos (2 * Real.pi / 3) = -1 / 2 := by
  rw [show 2 * Real.pi / 3 = Real.pi - Real.pi / 3 by ring, Real.cos_pi_sub, Real.cos_pi_div_three]; norm_num

theorem hexUC_nonDegenerate : NonDegenerate hexUC := by
  refine ⟨?_, ?_, ?_, ?_⟩ <;> simp [hexUC, det_metric, calc_phi_sq, cos_two_pi_div_three] <;> norm_num

theorem exG_metric (θ : ℝ) : ∀ g ∈ exG θ, PreservesMetric hexUC g := by
  intro g hg
  unfold exG at hg
  simp only [List.mem_cons, List.not_mem_nil, or_false] at hg
  unfold PreservesMetric
  rcases hg with rfl | rfl
  · apply m_ext <;> simp [exId, toM, metric, hexUC, Matrix.mul_apply, Fin.sum_univ_three]
  · apply m_ext <;> simp [exMirror, toM, metric, hexUC, Matrix.mul_apply, Fin.sum_univ_three, cos_two_pi_div_three] <;> norm_num

example : IsSiteGroup (exG (-1)) ∧ NonDegenerate hexUC ∧ ∀ g ∈ exG (-1), PreservesMetric hexUC g :=
  ⟨exG_isSiteGroup (by norm_num), hexUC_nonDegenerate, exG_metric _⟩

/-! ## anisotropic displacement `β` -/

theorem scBeta_eq (G : List Col) (q : Fin 6 → ℝ) :
    toQ (apply (scBeta G) q) = (1 / (G.length : ℝ)) • (G.map fun e => toM e.r * toQ q * (toM e.r)ᵀ).sum := by
  have : apply (scBeta G) q = fun i => (G.map fun e => (fun k => ∑ j, rrt e.r k j * q j) i).sum / G.length :=
    funext fun i => apply_mean G (fun e => rrt e.r) q i
  rw [this, toQ_sum]
  simp only [rrt_spec]

/-- C17: the averaged `β` is invariant, `R β Rᵀ = β`, under every operation of the site. -/
theorem beta_invariant {G : List Col} (h : IsSiteGroup G) (q : Fin 6 → ℝ) {g : Col} (hg : g ∈ G) :
    toM g.r * toQ (apply (scBeta G) q) * (toM g.r)ᵀ = toQ (apply (scBeta G) q) := by
  rw [scBeta_eq]
  have := sum_translate h (fun p => p.1 * toQ q * p.1ᵀ) hg
  simp only [op, Prod.mk_mul_mk] at this
  rw [Matrix.mul_smul, Matrix.smul_mul, conj_sum]
  congr 1
  refine Eq.trans (congrArg List.sum (List.map_congr_left fun e _ => ?_)) this
  rw [Matrix.transpose_mul]
  simp only [Matrix.mul_assoc]

/-- C17: an invariant `β` is left alone. -/
theorem beta_fixes_invariant {G : List Col} (h : IsSiteGroup G) (q : Fin 6 → ℝ)
    (hq : ∀ g ∈ G, toM g.r * toQ q * (toM g.r)ᵀ = toQ q) : apply (scBeta G) q = q := by
  apply toQ_inj
  rw [scBeta_eq]
  exact mean_const h hq

/-- C17: averaging twice is averaging once. -/
theorem beta_idempotent {G : List Col} (h : IsSiteGroup G) (q : Fin 6 → ℝ) :
    apply (scBeta G) (apply (scBeta G) q) = apply (scBeta G) q :=
  beta_fixes_invariant h _ fun _ hg => beta_invariant h q hg

/-! ## susceptibility: full tensor -/

theorem scChiFull_eq {G : List Col} (h : IsSiteGroup G) {uc : Fin 6 → ℝ} (hu : NonDegenerate uc) (v : Fin 9 → ℝ) :
    toM (apply (scChiFull G uc) v) =
      (1 / (G.length : ℝ)) • (G.map fun e => e.θ • (cart uc e * toM v * (cart uc e)⁻¹)).sum := by
  have : apply (scChiFull G uc) v =
      fun i => (G.map fun e => (fun k => e.θ * ∑ j, calc_mm_as_m1_m2_inv_m1 (rCcs uc e) k j * v j) i).sum / G.length := by
    funext i
    unfold scChiFull
    rw [apply_mean G (fun e i j => calc_mm_as_m1_m2_inv_m1 (rCcs uc e) i j * e.θ) v i]
    congr 2
    apply List.map_congr_left
    intro e _
    show _ = e.θ * ∑ j, calc_mm_as_m1_m2_inv_m1 (rCcs uc e) i j * v j
    rw [Finset.mul_sum]
    exact Finset.sum_congr rfl fun j _ => by ring
  rw [this, toM_sum]
  congr 2
  apply List.map_congr_left
  intro e he
  rw [← rCcs_spec hu, ← calc_mm_as_m1_m2_inv_m1_spec (rCcs uc e) v (by rw [rCcs_spec hu, cart_det hu]; exact det_r_ne h he)]
  ext i j
  rw [Matrix.smul_apply, smul_eq_mul]
  revert i j
  apply fin3 <;> apply fin3 <;> simp [toM]

theorem chi_step {G : List Col} (h : IsSiteGroup G) {uc : Fin 6 → ℝ} (hu : NonDegenerate uc) (X : Matrix (Fin 3) (Fin 3) ℝ)
    {g : Col} (hg : g ∈ G) :
    g.θ • (cart uc g * ((1 / (G.length : ℝ)) • (G.map fun e => e.θ • (cart uc e * X * (cart uc e)⁻¹)).sum) * (cart uc g)⁻¹)
      = (1 / (G.length : ℝ)) • (G.map fun e => e.θ • (cart uc e * X * (cart uc e)⁻¹)).sum := by
  have := sum_translate h (fun p => p.2 • ((toM (calc_m_m uc) * p.1 * (toM (calc_m_m uc))⁻¹) * X *
    (toM (calc_m_m uc) * p.1 * (toM (calc_m_m uc))⁻¹)⁻¹)) hg
  simp only [op, Prod.mk_mul_mk] at this
  rw [Matrix.mul_smul, Matrix.smul_mul, smul_comm, conj_sum, smul_sum']
  congr 1
  refine Eq.trans (congrArg List.sum (List.map_congr_left fun e _ => ?_)) this
  rw [← cart_mul hu, Matrix.mul_inv_rev, Matrix.mul_smul, Matrix.smul_mul, smul_smul]
  simp only [Matrix.mul_assoc]

/-- C17: the averaged tensor is invariant, `θ R χ R⁻¹ = χ` (in Cartesian axes), under every operation of the site. -/
theorem chi_full_invariant {G : List Col} (h : IsSiteGroup G) {uc : Fin 6 → ℝ} (hu : NonDegenerate uc) (v : Fin 9 → ℝ)
    {g : Col} (hg : g ∈ G) :
    g.θ • (cart uc g * toM (apply (scChiFull G uc) v) * (cart uc g)⁻¹) = toM (apply (scChiFull G uc) v) := by
  rw [scChiFull_eq h hu]
  exact chi_step h hu _ hg

/-- C17: an invariant tensor is left alone. -/
theorem chi_full_fixes_invariant {G : List Col} (h : IsSiteGroup G) {uc : Fin 6 → ℝ} (hu : NonDegenerate uc)
    (v : Fin 9 → ℝ) (hv : ∀ g ∈ G, g.θ • (cart uc g * toM v * (cart uc g)⁻¹) = toM v) :
    apply (scChiFull G uc) v = v := by
  apply toM_inj
  rw [scChiFull_eq h hu]
  exact mean_const h hv

theorem chi_full_idempotent {G : List Col} (h : IsSiteGroup G) {uc : Fin 6 → ℝ} (hu : NonDegenerate uc) (v : Fin 9 → ℝ) :
    apply (scChiFull G uc) (apply (scChiFull G uc) v) = apply (scChiFull G uc) v :=
  chi_full_fixes_invariant h hu _ fun _ hg => chi_full_invariant h hu v hg

/-! ## susceptibility: symmetric tensor -/

theorem scChi_eq {G : List Col} (h : IsSiteGroup G) {uc : Fin 6 → ℝ} (hu : NonDegenerate uc)
    (hm : ∀ g ∈ G, PreservesMetric uc g) (q : Fin 6 → ℝ) :
    toQ (apply (scChi G uc) q) =
      (1 / (G.length : ℝ)) • (G.map fun e => e.θ • (cart uc e * toQ q * (cart uc e)⁻¹)).sum := by
  have hA : (fun i => ∑ j, mean (G.map fun e => calc_mm_as_m_q_inv_m (rCcs uc e) i j * e.θ) * q j) =
      fun i => (G.map fun e => (fun k => e.θ * ∑ j, calc_mm_as_m_q_inv_m (rCcs uc e) k j * q j) i).sum / G.length := by
    funext i
    simp only [mean_map, Finset.mul_sum]
    rw [← finset_list_sum, Finset.sum_div]
    apply Finset.sum_congr rfl
    intro j _
    rw [div_mul_eq_mul_div, sum_mul_right]
    congr 2
    apply List.map_congr_left
    intro e _
    ring
  have hT : toM (fun i => ∑ j, mean (G.map fun e => calc_mm_as_m_q_inv_m (rCcs uc e) i j * e.θ) * q j) =
      (1 / (G.length : ℝ)) • (G.map fun e => e.θ • (cart uc e * toQ q * (cart uc e)⁻¹)).sum := by
    rw [hA, toM_sum]
    congr 2
    apply List.map_congr_left
    intro e he
    rw [← rCcs_spec hu, ← calc_mm_as_m_q_inv_m_spec (rCcs uc e) q (by rw [rCcs_spec hu, cart_det hu]; exact det_r_ne h he)]
    ext i j
    rw [Matrix.smul_apply, smul_eq_mul]
    revert i j
    apply fin3 <;> apply fin3 <;> simp [toM]
  have hS : ((1 / (G.length : ℝ)) • (G.map fun e => e.θ • (cart uc e * toQ q * (cart uc e)⁻¹)).sum)ᵀ =
      (1 / (G.length : ℝ)) • (G.map fun e => e.θ • (cart uc e * toQ q * (cart uc e)⁻¹)).sum := by
    rw [Matrix.transpose_smul, transpose_sum]
    congr 2
    apply List.map_congr_left
    intro e he
    have ho := cart_orthogonal hu (hm e he)
    have hi : (cart uc e)⁻¹ = (cart uc e)ᵀ := Matrix.inv_eq_left_inv ho
    have hq : (toQ q)ᵀ = toQ q := by unfold toQ; apply m_ext <;> simp
    rw [hi, Matrix.transpose_smul, Matrix.transpose_mul, Matrix.transpose_mul, Matrix.transpose_transpose, hq, Matrix.mul_assoc]
  rw [← hT] at hS ⊢
  set w : Fin 9 → ℝ := fun i => ∑ j, mean (G.map fun e => calc_mm_as_m_q_inv_m (rCcs uc e) i j * e.θ) * q j with hw
  have hv : apply (scChi G uc) q = ![w 0, w 4, w 8, w 1, w 2, w 5] := by
    funext i
    revert i
    apply fin6 <;> simp [apply, scChi, hw]
  have s01 := congrFun (congrFun hS 0) 1
  have s02 := congrFun (congrFun hS 0) 2
  have s12 := congrFun (congrFun hS 1) 2
  rw [hv]
  simp [toM] at s01 s02 s12
  unfold toQ toM
  apply m_ext <;> simp [s01, s02, s12]

/-- C17: for operations that preserve the metric the averaged symmetric tensor is invariant. -/
theorem chi_invariant {G : List Col} (h : IsSiteGroup G) {uc : Fin 6 → ℝ} (hu : NonDegenerate uc)
    (hm : ∀ g ∈ G, PreservesMetric uc g) (q : Fin 6 → ℝ) {g : Col} (hg : g ∈ G) :
    g.θ • (cart uc g * toQ (apply (scChi G uc) q) * (cart uc g)⁻¹) = toQ (apply (scChi G uc) q) := by
  rw [scChi_eq h hu hm]
  exact chi_step h hu _ hg

theorem chi_fixes_invariant {G : List Col} (h : IsSiteGroup G) {uc : Fin 6 → ℝ} (hu : NonDegenerate uc)
    (hm : ∀ g ∈ G, PreservesMetric uc g) (q : Fin 6 → ℝ)
    (hq : ∀ g ∈ G, g.θ • (cart uc g * toQ q * (cart uc g)⁻¹) = toQ q) : apply (scChi G uc) q = q := by
  apply toQ_inj
  rw [scChi_eq h hu hm]
  exact mean_const h hq

theorem chi_idempotent {G : List Col} (h : IsSiteGroup G) {uc : Fin 6 → ℝ} (hu : NonDegenerate uc)
    (hm : ∀ g ∈ G, PreservesMetric uc g) (q : Fin 6 → ℝ) :
    apply (scChi G uc) (apply (scChi G uc) q) = apply (scChi G uc) q :=
  chi_fixes_invariant h hu hm _ fun _ hg => chi_invariant h hu hm q hg

/-! ## position -/

theorem constrained_eq {G : List Col} (h : IsSiteGroup G) (x0 y : Fin 3 → ℝ) :
    constrainedFract G x0 y = fun k => Int.fract (x0 k) +
      (toM (scFract G) *ᵥ fun l => Int.fract (y l) - Int.fract (x0 l)) k := by
  have hN := length_ne h
  have hb : ∀ i, scB G x0 i = Int.fract (x0 i) - (toM (scFract G) *ᵥ fun l => Int.fract (x0 l)) i := by
    intro i
    have e1 : scB G x0 i = (G.map fun e => Int.fract (x0 i) - calc_m_v e.r (fun k => Int.fract (x0 k)) i).sum / G.length := by
      unfold scB
      simp only [mean_map]
      congr 2
      apply List.map_congr_left
      intro e _
      ring
    have e2 : ∀ (c : ℝ) (f : Col → ℝ) (l : List Col), (l.map fun e => c - f e).sum = l.length * c - (l.map f).sum := by
      intro c f l
      induction l with
      | nil => simp
      | cons a l ih => simp [ih]; ring
    rw [e1, e2, sub_div, mul_div_cancel_left₀ _ hN]
    congr 1
    have e3 : ∀ (v : Fin 3 → ℝ) (l : List Col), (l.map fun e => calc_m_v e.r v i).sum / G.length =
        ((toM fun k => (l.map fun e => e.r k).sum / G.length) *ᵥ v) i := by
      intro v l
      induction l with
      | nil =>
        revert i
        apply fin3 <;> simp [toM, Matrix.mulVec, dotProduct, Fin.sum_univ_three]
      | cons a l ih =>
        rw [List.map_cons, List.sum_cons, add_div, ih]
        clear ih e1
        revert i
        apply fin3 <;> simp [toM, calc_m_v, Matrix.mulVec, dotProduct, Fin.sum_univ_three] <;> ring
    rw [e3]
    unfold scFract
    simp only [mean_map]
  funext k
  unfold constrainedFract
  rw [hb, congrFun (calc_m_v_spec (scFract G) fun k => Int.fract (y k)) k]
  have : (fun l => Int.fract (y l) - Int.fract (x0 l)) = (fun l => Int.fract (y l)) - fun l => Int.fract (x0 l) := rfl
  rw [this, Matrix.mulVec_sub, Pi.sub_apply]
  ring

theorem scFract_eq {G : List Col} : toM (scFract G) = (1 / (G.length : ℝ)) • (G.map fun e => toM e.r).sum := by
  rw [← toM_sum]
  unfold scFract
  simp only [mean_map]

theorem fract_step {G : List Col} (h : IsSiteGroup G) {g : Col} (hg : g ∈ G) :
    toM g.r * toM (scFract G) = toM (scFract G) := by
  rw [scFract_eq, Matrix.mul_smul]
  have := sum_translate h (fun p => p.1) hg
  simp only [op, Prod.mk_mul_mk] at this
  have e := conj_sum G (fun e => toM e.r) (toM g.r) 1
  simp only [Matrix.mul_one] at e
  rw [e, this]

/-- C17: if every operation of the site takes the starting position to itself up to a lattice translation, it takes every
constrained position to itself up to the same translation. -/
theorem position_fixed {G : List Col} (h : IsSiteGroup G) (x0 y : Fin 3 → ℝ)
    (hx : ∀ g ∈ G, SameSite (move g fun k => Int.fract (x0 k)) fun k => Int.fract (x0 k)) {g : Col} (hg : g ∈ G) :
    SameSite (move g (constrainedFract G x0 y)) (constrainedFract G x0 y) := by
  intro k
  obtain ⟨z, hz⟩ := hx g hg k
  refine ⟨z, ?_⟩
  rw [← hz, constrained_eq h]
  unfold move
  set u := fun l => Int.fract (y l) - Int.fract (x0 l)
  have e : (fun k => Int.fract (x0 k) + (toM (scFract G) *ᵥ u) k) = (fun k => Int.fract (x0 k)) + toM (scFract G) *ᵥ u := rfl
  rw [e, Matrix.mulVec_add, Matrix.mulVec_mulVec, fract_step h hg, Pi.add_apply, Pi.add_apply]
  ring

/-- C17: the starting position, and every position that differs from it (after reduction to the cell) by a displacement the
operations leave alone, is returned as it is. -/
theorem position_fixes_invariant {G : List Col} (h : IsSiteGroup G) (x0 y : Fin 3 → ℝ)
    (hy : ∀ g ∈ G, (toM g.r *ᵥ fun l => Int.fract (y l) - Int.fract (x0 l)) = fun l => Int.fract (y l) - Int.fract (x0 l)) :
    constrainedFract G x0 y = fun k => Int.fract (y k) := by
  rw [constrained_eq h]
  have hS : (toM (scFract G) *ᵥ fun l => Int.fract (y l) - Int.fract (x0 l)) = fun l => Int.fract (y l) - Int.fract (x0 l) := by
    generalize (fun l => Int.fract (y l) - Int.fract (x0 l)) = u at hy
    rw [scFract_eq]
    have hN := length_ne h
    have : (G.map fun e => toM e.r).sum *ᵥ u = (G.length : ℝ) • u := by
      clear h hN
      induction G with
      | nil => simp
      | cons a l ih =>
        rw [List.map_cons, List.sum_cons, Matrix.add_mulVec, ih fun g hg => hy g (List.mem_cons_of_mem _ hg),
          hy a (List.mem_cons_self ..)]
        simp [add_smul, add_comm]
    rw [Matrix.smul_mulVec, this, smul_smul]
    field_simp
    simp
  rw [hS]
  funext k
  ring

/-- positions `(x, 2x, z)` lie on the mirror -/
example : ∀ g ∈ exG 1, SameSite (move g fun k => Int.fract ((![1/4, 1/2, 0] : Fin 3 → ℝ) k))
    fun k => Int.fract ((![1/4, 1/2, 0] : Fin 3 → ℝ) k) := by
  have f1 : Int.fract (1/4 : ℝ) = 1/4 := by rw [Int.fract_eq_self]; norm_num
  have f2 : Int.fract (1/2 : ℝ) = 1/2 := by rw [Int.fract_eq_self]; norm_num
  intro g hg
  simp only [exG, List.mem_cons, List.not_mem_nil, or_false] at hg
  have e : (fun k => Int.fract ((![1/4, 1/2, 0] : Fin 3 → ℝ) k)) = ![1/4, 1/2, 0] := by
    apply v_ext <;> simp only [Matrix.cons_val, f1, f2, Int.fract_zero]
  rw [e]
  rcases hg with rfl | rfl <;> apply fin3 <;> refine ⟨0, ?_⟩ <;>
    simp [move, exId, exMirror, toM, Matrix.mulVec, dotProduct, Fin.sum_univ_three] <;> norm_num

/-- Not every position that satisfies the constraint is returned as it is: reduction to the cell before averaging moves a
position on the mirror by half a cell.  Starting at `(1/4, 1/2, 0)`, the position `(3/4, 3/2, 0)`, which also lies on the
mirror, is replaced by `(1/4, 1/2, 0)`. -/
theorem position_jumps : ∃ (G : List Col) (x0 y : Fin 3 → ℝ), IsSiteGroup G ∧ (∀ g ∈ G, move g x0 = x0) ∧
    (∀ g ∈ G, move g y = y) ∧ ¬ SameSite (constrainedFract G x0 y) y := by
  have f1 : Int.fract (1/4 : ℝ) = 1/4 := by rw [Int.fract_eq_self]; norm_num
  have f2 : Int.fract (1/2 : ℝ) = 1/2 := by rw [Int.fract_eq_self]; norm_num
  have f3 : Int.fract (3/4 : ℝ) = 3/4 := by rw [Int.fract_eq_self]; norm_num
  have f4 : Int.fract (3/2 : ℝ) = 1/2 := by
    rw [show (3/2 : ℝ) = 1/2 + (1 : ℤ) by norm_num, Int.fract_add_intCast, f2]
  have hG := exG_isSiteGroup (θ := 1) (by norm_num)
  refine ⟨exG 1, ![1/4, 1/2, 0], ![3/4, 3/2, 0], hG, ?_, ?_, ?_⟩
  · intro g hg
    simp only [exG, List.mem_cons, List.not_mem_nil, or_false] at hg
    rcases hg with rfl | rfl <;> apply v_ext <;>
      simp [move, exId, exMirror, toM, Matrix.mulVec, dotProduct, Fin.sum_univ_three] <;> norm_num
  · intro g hg
    simp only [exG, List.mem_cons, List.not_mem_nil, or_false] at hg
    rcases hg with rfl | rfl <;> apply v_ext <;>
      simp [move, exId, exMirror, toM, Matrix.mulVec, dotProduct, Fin.sum_univ_three] <;> norm_num
  · intro h
    obtain ⟨z, hz⟩ := h 0
    rw [constrained_eq hG] at hz
    have : constrainedFract (exG 1) ![1/4, 1/2, 0] ![3/4, 3/2, 0] 0 = 1/4 := by
      rw [constrained_eq hG]
      simp only [Matrix.mulVec, dotProduct, Fin.sum_univ_three, Matrix.cons_val, f1, f2, f3, f4, Int.fract_zero]
      simp [toM, scFract, mean, exG, exId, exMirror]
    rw [constrained_eq hG] at this
    rw [this] at hz
    simp only [Matrix.cons_val] at hz
    have h2 : (2 * z : ℝ) = -1 := by linarith
    have h3 : 2 * z = -1 := by exact_mod_cast h2
    omega

end Cryspy.Constr
