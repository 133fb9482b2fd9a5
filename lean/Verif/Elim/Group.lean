import Verif.Elim.Props

/-! # Constraints on the susceptibility tensor of a site -/

namespace Cryspy.Elim

open Matrix Cryspy.Constr Cryspy.Cell Cryspy.Mat

/-- weights for which averages over symmetry operations are symmetric: an off-diagonal element stands for two -/
def weights : Fin 6 → ℝ := ![1, 1, 1, 2, 2, 2]

theorem trace_eq (a b : Fin 6 → ℝ) : ∑ k, weights k * a k * b k = (toQ a * toQ b).trace := by
  simp [weights, Fin.sum_univ_six, toQ, Matrix.trace_fin_three, Matrix.mul_apply, Fin.sum_univ_three]
  ring

theorem trace_list {l : List Col} {X : Matrix (Fin 3) (Fin 3) ℝ} {f : Col → Matrix (Fin 3) (Fin 3) ℝ} {c : ℝ}
    (h : ∀ e ∈ l, (X * f e).trace = c) : (X * (l.map f).sum).trace = l.length * c := by
  induction l with
  | nil => simp
  | cons e l ih =>
    rw [List.map_cons, List.sum_cons, Matrix.mul_add, Matrix.trace_add, h e (by simp), ih fun g hg => h g (by simp [hg])]
    push_cast [List.length_cons]
    ring

/-- The contraction of an averaged tensor with another one is that with the averaged other one. -/
theorem contract {G : List Col} (h : IsSiteGroup G) {uc : Fin 6 → ℝ} (hu : NonDegenerate uc) (hm : ∀ g ∈ G, PreservesMetric uc g)
    (ht : ∀ g ∈ G, g.θ = 1) (a b : Fin 6 → ℝ) :
    (toQ (apply (scChi G uc) a) * toQ (apply (scChi G uc) b)).trace = (toQ (apply (scChi G uc) a) * toQ b).trace := by
  rw [scChi_eq h hu hm b, Matrix.mul_smul, Matrix.trace_smul,
    trace_list (c := (toQ (apply (scChi G uc) a) * toQ b).trace)]
  · rw [smul_eq_mul, ← mul_assoc, one_div, inv_mul_cancel₀ (length_ne h), one_mul]
  · intro e he
    have hi := chi_invariant h hu hm a he
    have hdet : (cart uc e).det ≠ 0 := by rw [cart_det hu]; exact det_r_ne h he
    have hun : IsUnit (cart uc e).det := isUnit_iff_ne_zero.2 hdet
    rw [ht e he, one_smul] at hi ⊢
    have h1 : (cart uc e)⁻¹ * toQ (apply (scChi G uc) a) * cart uc e = toQ (apply (scChi G uc) a) := by
      conv_lhs => rw [← hi]
      simp only [Matrix.mul_assoc]
      rw [Matrix.nonsing_inv_mul _ hun, Matrix.mul_one, ← Matrix.mul_assoc, Matrix.nonsing_inv_mul _ hun, Matrix.one_mul]
    conv_rhs => rw [← h1]
    rw [Matrix.mul_assoc, Matrix.mul_assoc, Matrix.mul_assoc, Matrix.trace_mul_comm ((cart uc e)⁻¹)]
    simp only [Matrix.mul_assoc]

theorem apply_mv (sc : Fin 6 → Fin 6 → ℝ) (v : Fin 6 → ℝ) : Matrix.of sc *ᵥ v = apply sc v := rfl

/-- The averages over the operations of a site (without time reversal) are such a projector. -/
theorem site_projector {G : List Col} (h : IsSiteGroup G) {uc : Fin 6 → ℝ} (hu : NonDegenerate uc) (hm : ∀ g ∈ G, PreservesMetric uc g)
    (ht : ∀ g ∈ G, g.θ = 1) : Projector weights (Matrix.of (scChi G uc)) := by
  refine ⟨?_, ?_, ?_, ?_⟩
  · intro k
    fin_cases k <;> simp [weights]
  · intro k j
    have h1 := contract h hu hm ht (Pi.single j 1) (Pi.single k 1)
    have h2 := contract h hu hm ht (Pi.single k 1) (Pi.single j 1)
    rw [Matrix.trace_mul_comm, h1] at h2
    rw [← trace_eq, ← trace_eq, ← apply_mv, ← apply_mv] at h2
    simpa [mulVec_single_one, Pi.single_apply] using h2
  · apply Matrix.ext_of_mulVec_single
    intro i
    rw [← mulVec_mulVec, apply_mv, apply_mv]
    exact chi_idempotent h hu hm _
  · refine ⟨![1, 1, 1, 0, 0, 0], ?_, by simp⟩
    rw [apply_mv]
    refine chi_fixes_invariant h hu hm _ fun g hg => ?_
    have hq : toQ (![1, 1, 1, 0, 0, 0] : Fin 6 → ℝ) = 1 := by
      apply m_ext <;> simp [toQ]
    have hdet : (cart uc g).det ≠ 0 := by rw [cart_det hu]; exact det_r_ne h hg
    rw [hq, ht g hg, one_smul, Matrix.mul_one, Matrix.mul_nonsing_inv _ (isUnit_iff_ne_zero.2 hdet)]

/-- the tensor is invariant under the operations of the site -/
def Allowed (G : List Col) (uc : Fin 6 → ℝ) (q : Fin 6 → ℝ) : Prop := ∀ g ∈ G, cart uc g * toQ q * (cart uc g)⁻¹ = toQ q

theorem allowed_iff {G : List Col} (h : IsSiteGroup G) {uc : Fin 6 → ℝ} (hu : NonDegenerate uc) (hm : ∀ g ∈ G, PreservesMetric uc g)
    (ht : ∀ g ∈ G, g.θ = 1) (q : Fin 6 → ℝ) : Matrix.of (scChi G uc) *ᵥ q = q ↔ Allowed G uc q := by
  rw [apply_mv]
  constructor
  · intro e g hg
    have := chi_invariant h hu hm q hg
    rwa [e, ht g hg, one_smul] at this
  · intro ha
    exact chi_fixes_invariant h hu hm q fun g hg => by rw [ht g hg, one_smul]; exact ha g hg

/-! ### what is written to the tensor -/

/-- the components that are not marked as constrained -/
def unconstrained (t : Tensor 6) : Finset (Fin 6) := Finset.univ.filter fun i => t.con i = false

theorem con_iff {P : Matrix (Fin 6) (Fin 6) ℝ} (t : Tensor 6) (i : Fin 6) :
    (applyGroup P true t).con i = false ↔ i ∈ independent (constrMatrix P) := by
  simp [applyGroup]

/-- For every site: an allowed tensor keeps its values; a component that is not marked as constrained keeps value, error and flag of
refinement; a component that is marked is not refined; the unmarked components are coordinates of the allowed tensors: for any
values of them there is exactly one allowed tensor. -/
theorem site_constraints {G : List Col} (h : IsSiteGroup G) {uc : Fin 6 → ℝ} (hu : NonDegenerate uc) (hm : ∀ g ∈ G, PreservesMetric uc g)
    (ht : ∀ g ∈ G, g.θ = 1) (t : Tensor 6) (hs : ∀ i, 0 ≤ t.sig i) :
    let t' := applyGroup (Matrix.of (scChi G uc)) true t
    (t'.val = t.val ↔ Allowed G uc t.val) ∧
    (∀ i, t'.con i = false → t'.val i = t.val i ∧ t'.sig i = t.sig i ∧ t'.ref i = t.ref i) ∧
    (∀ i, t'.con i = true → t'.ref i = false) ∧
    (∀ a : Fin 6 → ℝ, ∃! w, Allowed G uc w ∧ ∀ i, t'.con i = false → w i = a i) := by
  intro t'
  have hP := site_projector h hu hm ht
  set P := Matrix.of (scChi G uc) with hPd
  refine ⟨?_, ?_, ?_, ?_⟩
  · rw [← allowed_iff h hu hm ht]
    exact fixes t.val
  · intro i hi
    have hi' := (con_iff t i).1 hi
    have hf := (mem_independent hP i).1 hi'
    refine ⟨kept hP hi' t.val, ?_, ?_⟩
    · show Real.sqrt (∑ j, constrMatrix P i j ^ 2 * t.sig j ^ 2) = t.sig i
      rw [Finset.sum_congr rfl fun j _ => by rw [hf j]]
      simp [Real.sqrt_sq (hs i)]
    · have e1 : t'.ref i = (decide (∃ j, constrMatrix P i j ≠ 0 ∧ t.ref j) && decide (i ∈ independent (constrMatrix P))) := by
        simp only [t', applyGroup, if_true, hPd]
      rw [e1, decide_eq_true hi', Bool.and_true]
      by_cases hr : t.ref i = true
      · rw [hr]
        exact decide_eq_true ⟨i, by rw [hf i, if_pos rfl]; exact one_ne_zero, hr⟩
      · rw [Bool.not_eq_true] at hr
        rw [hr]
        refine decide_eq_false ?_
        rintro ⟨j, h1, h2⟩
        rw [hf j] at h1
        by_cases e : i = j
        · subst e
          rw [hr] at h2
          exact Bool.noConfusion h2
        · rw [if_neg e] at h1
          exact h1 rfl
  · intro i hi
    have hi' : i ∉ independent (constrMatrix P) := fun hh => by
      have := (con_iff (P := P) t i).2 hh
      have e2 : t'.con i = (applyGroup P true t).con i := rfl
      rw [e2, this] at hi
      exact Bool.noConfusion hi
    have e1 : t'.ref i = (decide (∃ j, constrMatrix P i j ≠ 0 ∧ t.ref j) && decide (i ∈ independent (constrMatrix P))) := by
      simp only [t', applyGroup, if_true, hPd]
    rw [e1, decide_eq_false hi', Bool.and_false]
  · intro a
    obtain ⟨w, ⟨h1, h2⟩, h3⟩ := coordinates hP a
    refine ⟨w, ⟨(allowed_iff h hu hm ht w).1 h1, fun i hi => h2 i ((con_iff t i).1 hi)⟩, ?_⟩
    intro y hy
    exact h3 y ⟨(allowed_iff h hu hm ht y).2 hy.1, fun i hi => hy.2 i ((con_iff t i).2 hi)⟩

/-- Applied five times the constraints give an allowed tensor, whatever the tensor was. -/
theorem five_times {G : List Col} (h : IsSiteGroup G) {uc : Fin 6 → ℝ} (hu : NonDegenerate uc) (hm : ∀ g ∈ G, PreservesMetric uc g)
    (ht : ∀ g ∈ G, g.θ = 1) (t : Tensor 6) :
    Allowed G uc ((applyGroup (Matrix.of (scChi G uc)) true)^[5] t).val := by
  have hP := site_projector h hu hm ht
  have e : ∀ m : ℕ, ((applyGroup (Matrix.of (scChi G uc)) true)^[m] t).val = constrMatrix (Matrix.of (scChi G uc)) ^ m *ᵥ t.val := by
    intro m
    induction m with
    | zero => simp
    | succ m ih =>
      rw [Function.iterate_succ_apply', pow_succ', ← mulVec_mulVec, ← ih]
      rfl
  rw [e, ← allowed_iff h hu hm ht]
  exact (repeated hP t.val).1

/-- A tensor of the type `Ciso` becomes a multiple of the unity, which every site allows. -/
theorem iso_allowed {G : List Col} (h : IsSiteGroup G) {uc : Fin 6 → ℝ} (hu : NonDegenerate uc) (t : Tensor 6) :
    Allowed G uc (applyIso true t).val ∧ ∀ i, i ≠ 0 → (applyIso true t).ref i = false ∧ (applyIso true t).con i = true := by
  constructor
  · intro g hg
    have hq : toQ (applyIso true t).val = t.val 0 • 1 := by
      apply m_ext <;> simp [toQ, applyIso]
    have hdet : (cart uc g).det ≠ 0 := by rw [cart_det hu]; exact det_r_ne h hg
    rw [hq, Matrix.mul_smul, Matrix.smul_mul, Matrix.mul_one, Matrix.mul_nonsing_inv _ (isUnit_iff_ne_zero.2 hdet)]
  · intro i hi
    fin_cases i <;> simp [applyIso] at hi ⊢

/-! ### one application is not enough -/

/-- the threefold axis along the diagonal of a cube, and its square -/
def c3 : Col := ⟨![0, 0, 0], 1, ![0, 0, 1, 1, 0, 0, 0, 1, 0], 1⟩
def c3' : Col := ⟨![0, 0, 0], 1, ![0, 1, 0, 0, 0, 1, 1, 0, 0], 1⟩
def cubicG : List Col := [exId, c3, c3']
noncomputable def cubicUC : Fin 6 → ℝ := ![1, 1, 1, Real.pi / 2, Real.pi / 2, Real.pi / 2]

theorem cubic_group : IsSiteGroup cubicG := by
  have h1 : op exId = 1 := by
    unfold op exId
    refine Prod.ext ?_ rfl
    apply m_ext <;> simp [toM]
  have m1 : op c3 * op c3 = op c3' := by
    unfold op c3 c3'
    refine Prod.ext ?_ (by simp)
    apply m_ext <;> simp [toM, Matrix.mul_apply, Fin.sum_univ_three]
  have m2 : op c3 * op c3' = 1 := by
    unfold op c3 c3'
    refine Prod.ext ?_ (by simp)
    apply m_ext <;> simp [toM, Matrix.mul_apply, Fin.sum_univ_three]
  have m3 : op c3' * op c3 = 1 := by
    unfold op c3 c3'
    refine Prod.ext ?_ (by simp)
    apply m_ext <;> simp [toM, Matrix.mul_apply, Fin.sum_univ_three]
  have m4 : op c3' * op c3' = op c3 := by
    unfold op c3 c3'
    refine Prod.ext ?_ (by simp)
    apply m_ext <;> simp [toM, Matrix.mul_apply, Fin.sum_univ_three]
  have n1 : op c3 ≠ 1 := by
    intro e
    have := congrFun (congrFun (congrArg Prod.fst e) 0) 0
    simp [op, c3, toM] at this
  have n2 : op c3' ≠ 1 := by
    intro e
    have := congrFun (congrFun (congrArg Prod.fst e) 0) 0
    simp [op, c3', toM] at this
  have n3 : op c3 ≠ op c3' := by
    intro e
    have := congrFun (congrFun (congrArg Prod.fst e) 0) 1
    simp [op, c3, c3', toM] at this
  unfold IsSiteGroup cubicG
  simp only [List.map_cons, List.map_nil, h1]
  refine ⟨by simp [n1.symm, n2.symm, n3], by simp, ?_, ?_⟩
  · intro a ha b hb
    simp only [List.mem_cons, List.not_mem_nil, or_false] at ha hb ⊢
    rcases ha with rfl | rfl | rfl <;> rcases hb with rfl | rfl | rfl <;> simp [m1, m2, m3, m4]
  · intro a ha
    simp only [List.mem_cons, List.not_mem_nil, or_false] at ha
    rcases ha with rfl | rfl | rfl
    · exact ⟨1, by simp, by simp⟩
    · exact ⟨op c3', by simp, m3⟩
    · exact ⟨op c3, by simp, m2⟩

theorem cubic_nonDegenerate : NonDegenerate cubicUC := by
  refine ⟨?_, ?_, ?_, ?_⟩ <;> simp [cubicUC, det_metric, calc_phi_sq]

theorem cubic_metric : ∀ g ∈ cubicG, PreservesMetric cubicUC g := by
  intro g hg
  unfold cubicG at hg
  simp only [List.mem_cons, List.not_mem_nil, or_false] at hg
  unfold PreservesMetric
  rcases hg with rfl | rfl | rfl
  · apply m_ext <;> simp [exId, toM, metric, cubicUC, Matrix.mul_apply, Fin.sum_univ_three]
  · apply m_ext <;> simp [c3, toM, metric, cubicUC, Matrix.mul_apply, Fin.sum_univ_three]
  · apply m_ext <;> simp [c3', toM, metric, cubicUC, Matrix.mul_apply, Fin.sum_univ_three]

theorem cubic_theta : ∀ g ∈ cubicG, g.θ = 1 := by
  intro g hg
  simp only [cubicG, List.mem_cons, List.not_mem_nil, or_false] at hg
  rcases hg with rfl | rfl | rfl <;> rfl

theorem cubic_cart {e : Col} : cart cubicUC e = toM e.r := by
  have : toM (calc_m_m cubicUC) = 1 := by
    apply m_ext <;> simp [toM, calc_m_m, cubicUC, calc_phi, calc_phi_sq]
  unfold cart
  rw [this]
  simp

/-- the elimination of rational matrices, which can be calculated -/
def stepQ {N : ℕ} (M : Fin N → Fin N → ℚ) (i : Fin N) : Fin N → Fin N → ℚ :=
  if M i i = 0 then M
  else fun k j => if k = i then M i j / M i i else if k < i then M k j - M i j / M i i * M k i else M k j

/-- a rational matrix as a real one -/
noncomputable def castM {N : ℕ} (M : Fin N → Fin N → ℚ) : Matrix (Fin N) (Fin N) ℝ := Matrix.of fun k j => (M k j : ℝ)

theorem step_cast {N : ℕ} (M : Fin N → Fin N → ℚ) (i : Fin N) : step (castM M) i = castM (stepQ M i) := by
  have h : castM M i i = (M i i : ℝ) := rfl
  ext k j
  unfold step stepQ
  by_cases h0 : M i i = 0
  · rw [if_pos (by rw [h, h0]; norm_num), if_pos h0]
  · rw [if_neg (by rw [h]; exact_mod_cast h0), if_neg h0]
    simp only [castM, Matrix.of_apply]
    split_ifs <;> push_cast <;> rfl

theorem fold_cast {N : ℕ} (l : List (Fin N)) (M : Fin N → Fin N → ℚ) : l.foldl step (castM M) = castM (l.foldl stepQ M) := by
  induction l generalizing M with
  | nil => rfl
  | cons i l ih => rw [List.foldl_cons, List.foldl_cons, step_cast, ih]

/-- the average over the threefold axis, minus the unity -/
def cubicQ : Fin 6 → Fin 6 → ℚ :=
  ![![1 / 3 - 1, 1 / 3, 1 / 3, 0, 0, 0], ![1 / 3, 1 / 3 - 1, 1 / 3, 0, 0, 0], ![1 / 3, 1 / 3, 1 / 3 - 1, 0, 0, 0],
    ![0, 0, 0, 1 / 3 - 1, 1 / 3, 1 / 3], ![0, 0, 0, 1 / 3, 1 / 3 - 1, 1 / 3], ![0, 0, 0, 1 / 3, 1 / 3, 1 / 3 - 1]]

theorem cubic_average (q : Fin 6 → ℝ) : apply (scChi cubicG cubicUC) q =
    ![(q 0 + q 1 + q 2) / 3, (q 0 + q 1 + q 2) / 3, (q 0 + q 1 + q 2) / 3, (q 3 + q 4 + q 5) / 3, (q 3 + q 4 + q 5) / 3, (q 3 + q 4 + q 5) / 3] := by
  apply toQ_inj
  rw [scChi_eq cubic_group cubic_nonDegenerate cubic_metric]
  have i1 : (cart cubicUC exId)⁻¹ = 1 := by
    rw [cubic_cart]
    have : toM exId.r = 1 := by apply m_ext <;> simp [toM, exId]
    rw [this, inv_one]
  have i2 : (cart cubicUC c3)⁻¹ = toM c3'.r := by
    rw [cubic_cart]
    apply Matrix.inv_eq_left_inv
    apply m_ext <;> simp [toM, c3, c3', Matrix.mul_apply, Fin.sum_univ_three]
  have i3 : (cart cubicUC c3')⁻¹ = toM c3.r := by
    rw [cubic_cart]
    apply Matrix.inv_eq_left_inv
    apply m_ext <;> simp [toM, c3, c3', Matrix.mul_apply, Fin.sum_univ_three]
  unfold cubicG
  simp only [List.map_cons, List.map_nil, List.sum_cons, List.sum_nil, i1, i2, i3]
  simp only [cubic_cart]
  apply m_ext <;> simp [toM, toQ, exId, c3, c3', Matrix.mul_apply, Fin.sum_univ_three] <;> ring

theorem cubic_start : Matrix.of (scChi cubicG cubicUC) - 1 = castM cubicQ := by
  apply Matrix.ext_of_mulVec_single
  intro i
  rw [sub_mulVec, one_mulVec, apply_mv, cubic_average]
  funext k
  fin_cases i <;> fin_cases k <;> simp [castM, cubicQ] <;> norm_num

/-- Known failure: on a threefold axis the values 1, 2, 3 of the diagonal become 1, 1, 3/2, which the site does not allow; a second
application makes it 1, 1, 1. -/
theorem once_not_enough : ∃ t : Tensor 6, (applyGroup (Matrix.of (scChi cubicG cubicUC)) true t).val 2 = 3 / 2 ∧
    (applyGroup (Matrix.of (scChi cubicG cubicUC)) true t).val 0 = 1 ∧
    ¬ Allowed cubicG cubicUC (applyGroup (Matrix.of (scChi cubicG cubicUC)) true t).val := by
  have hr : ∀ j, constrMatrix (Matrix.of (scChi cubicG cubicUC)) 2 j = ((![1 / 2, 1 / 2, 0, 0, 0, 0] : Fin 6 → ℚ) j : ℝ) := by
    intro j
    have hq : ((if (2 : Fin 6) = j then 1 else 0) - ((rows 5).foldl stepQ cubicQ) 2 j : ℚ) = (![1 / 2, 1 / 2, 0, 0, 0, 0] : Fin 6 → ℚ) j := by
      revert j
      decide +kernel
    unfold constrMatrix
    rw [cubic_start, fold_cast, Matrix.sub_apply, one_apply, ← hq]
    simp only [castM, Matrix.of_apply]
    push_cast
    split_ifs <;> simp
  have hP := site_projector cubic_group cubic_nonDegenerate cubic_metric cubic_theta
  have h0 : (0 : Fin 6) ∈ independent (constrMatrix (Matrix.of (scChi cubicG cubicUC))) :=
    (mem_independent hP 0).2 ((shape hP 0).resolve_right fun h => h.1 rfl)
  refine ⟨⟨![1, 2, 3, 0, 0, 0], fun _ => 0, fun _ => false, fun _ => false⟩, ?_, ?_, ?_⟩
  · show (constrMatrix _ *ᵥ _) 2 = _
    simp only [mulVec, dotProduct, hr]
    refine (Fin.sum_univ_six _).trans ?_
    simp
    norm_num
  · exact kept hP h0 _
  · intro ha
    rw [← allowed_iff cubic_group cubic_nonDegenerate cubic_metric cubic_theta, apply_mv, cubic_average] at ha
    have e0 := congrFun ha 0
    have e2 := congrFun ha 2
    have v0 : (applyGroup (Matrix.of (scChi cubicG cubicUC)) true ⟨![1, 2, 3, 0, 0, 0], fun _ => 0, fun _ => false, fun _ => false⟩).val 0 = 1 := kept hP h0 _
    have v2 : (applyGroup (Matrix.of (scChi cubicG cubicUC)) true ⟨![1, 2, 3, 0, 0, 0], fun _ => 0, fun _ => false, fun _ => false⟩).val 2 = 3 / 2 := by
      show (constrMatrix _ *ᵥ _) 2 = _
      simp only [mulVec, dotProduct, hr]
      refine (Fin.sum_univ_six _).trans ?_
      simp
      norm_num
    have := e0.symm.trans e2
    rw [v0, v2] at this
    norm_num at this

end Cryspy.Elim
