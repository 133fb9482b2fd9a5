import Verif.Constr.Spec
import Verif.Cell.Props
import Mathlib.Algebra.BigOperators.Field

namespace Cryspy.Constr

open Cryspy.Mat Cryspy.Cell
open scoped Matrix

theorem IsGroupList.perm {M : Type} [Monoid M] {G : List M} (h : IsGroupList G) {g : M} (hg : g ∈ G) :
    (G.map (g * ·)).Perm G := by
  obtain ⟨b, hb, hbg⟩ := h.inv_mem g hg
  have hinj : Function.Injective (g * ·) := by
    intro x y hxy
    have : b * (g * x) = b * (g * y) := congrArg (b * ·) hxy
    simpa [← mul_assoc, hbg] using this
  have hsub : G.map (g * ·) ⊆ G := by
    intro x hx
    obtain ⟨y, hy, rfl⟩ := List.mem_map.mp hx
    exact h.mul_mem g hg y hy
  have hnd : (G.map (g * ·)).Nodup := h.nodup.map hinj
  exact (List.subperm_of_subset hnd hsub).perm_of_length_le (by simp)

theorem length_ne {G : List Col} (h : IsSiteGroup G) : (G.length : ℝ) ≠ 0 := by
  have := h.one_mem
  have hne : G ≠ [] := by rintro rfl; simp at this
  simpa using hne

/-- the sum over the group does not change under a left translation -/
theorem sum_translate {G : List Col} (h : IsSiteGroup G) {V : Type} [AddCommMonoid V]
    (f : Matrix (Fin 3) (Fin 3) ℝ × ℝ → V) {g : Col} (hg : g ∈ G) :
    (G.map fun e => f (op g * op e)).sum = (G.map fun e => f (op e)).sum := by
  have hp := (h.perm (List.mem_map_of_mem (f := op) hg)).map f
  have := hp.sum_eq
  simpa [List.map_map, Function.comp_def] using this

theorem sum_map_linear {V W : Type} [AddCommMonoid V] [AddCommMonoid W] (T : V →+ W) (l : List Col) (f : Col → V) :
    T (l.map f).sum = (l.map fun e => T (f e)).sum := by
  rw [map_list_sum, List.map_map]; rfl

theorem mean_map (G : List Col) (f : Col → ℝ) : mean (G.map f) = (G.map f).sum / G.length := by simp [mean]

theorem list_sum_apply2 {m n : Type} (l : List Col) (f : Col → Matrix m n ℝ) (i : m) (j : n) :
    (l.map f).sum i j = (l.map fun e => f e i j).sum := by
  induction l with
  | nil => simp
  | cons a l ih => simp [Matrix.add_apply, ih]

theorem sum_mul_right (l : List Col) (f : Col → ℝ) (c : ℝ) : (l.map f).sum * c = (l.map fun e => f e * c).sum := by
  induction l with
  | nil => simp
  | cons a l ih => simp [add_mul, ih]

theorem finset_list_sum {n : ℕ} (l : List Col) (f : Fin n → Col → ℝ) :
    (∑ j, (l.map (f j)).sum) = (l.map fun e => ∑ j, f j e).sum := by
  induction l with
  | nil => simp
  | cons a l ih => simp [Finset.sum_add_distrib, ih]

/-- applying a mean of matrices is the mean of the applications -/
theorem apply_mean {n : ℕ} (G : List Col) (f : Col → Fin n → Fin n → ℝ) (v : Fin n → ℝ) (i : Fin n) :
    apply (fun i j => mean (G.map fun e => f e i j)) v i = (G.map fun e => ∑ j, f e i j * v j).sum / G.length := by
  unfold apply
  simp only [mean_map]
  rw [← finset_list_sum, Finset.sum_div]
  apply Finset.sum_congr rfl
  intro j _
  rw [div_mul_eq_mul_div, sum_mul_right]

theorem rrt_spec (r : Fin 9 → ℝ) (q : Fin 6 → ℝ) :
    toQ (fun i => ∑ j, rrt r i j * q j) = toM r * toQ q * (toM r)ᵀ := by
  unfold toQ toM rrt
  apply m_ext <;> simp [Matrix.mul_apply, Fin.sum_univ_three, Fin.sum_univ_six] <;> ring

theorem m_m_det {uc : Fin 6 → ℝ} (h : NonDegenerate uc) : (toM (calc_m_m uc)).det ≠ 0 := by
  intro e
  have := congrArg Matrix.det (m_inv_m_spec uc h).1
  rw [Matrix.det_mul, e] at this
  simp at this

theorem rCcs_spec {uc : Fin 6 → ℝ} (h : NonDegenerate uc) (e : Col) : toM (rCcs uc e) = cart uc e :=
  calc_m1_m2_inv_m1_spec _ _ (m_m_det h)

theorem cart_mul {uc : Fin 6 → ℝ} (h : NonDegenerate uc) (e f : Col) :
    cart uc e * cart uc f = toM (calc_m_m uc) * (toM e.r * toM f.r) * (toM (calc_m_m uc))⁻¹ := by
  have : (toM (calc_m_m uc))⁻¹ * toM (calc_m_m uc) = 1 := Matrix.nonsing_inv_mul _ (isUnit_iff_ne_zero.mpr (m_m_det h))
  unfold cart
  calc _ = toM (calc_m_m uc) * toM e.r * ((toM (calc_m_m uc))⁻¹ * toM (calc_m_m uc)) * toM f.r * (toM (calc_m_m uc))⁻¹ := by
        simp only [Matrix.mul_assoc]
    _ = _ := by rw [this]; simp only [Matrix.mul_assoc, Matrix.mul_one]

theorem det_r_ne {G : List Col} (h : IsSiteGroup G) {e : Col} (he : e ∈ G) : (toM e.r).det ≠ 0 := by
  obtain ⟨b, -, hb⟩ := h.inv_mem (op e) (List.mem_map_of_mem he)
  intro e0
  have h1 : b.1 * toM e.r = 1 := congrArg Prod.fst hb
  have := congrArg Matrix.det h1
  rw [Matrix.det_mul, e0] at this
  simp at this

theorem cart_det {uc : Fin 6 → ℝ} (h : NonDegenerate uc) (e : Col) : (cart uc e).det = (toM e.r).det := by
  unfold cart
  have := m_m_det h
  rw [Matrix.det_mul, Matrix.det_mul, Matrix.det_nonsing_inv, Ring.inverse_eq_inv']
  field_simp

/-- an operation that preserves the metric is orthogonal in Cartesian axes -/
theorem cart_orthogonal {uc : Fin 6 → ℝ} (h : NonDegenerate uc) {e : Col} (he : PreservesMetric uc e) :
    (cart uc e)ᵀ * cart uc e = 1 := by
  have hM := m_m_factors_metric uc h
  have hI : (toM (calc_m_m uc))⁻¹ * toM (calc_m_m uc) = 1 := Matrix.nonsing_inv_mul _ (isUnit_iff_ne_zero.mpr (m_m_det h))
  have hI' : toM (calc_m_m uc) * (toM (calc_m_m uc))⁻¹ = 1 := Matrix.mul_nonsing_inv _ (isUnit_iff_ne_zero.mpr (m_m_det h))
  unfold PreservesMetric at he
  rw [← hM] at he
  unfold cart
  generalize toM (calc_m_m uc) = M at *
  rw [Matrix.transpose_mul, Matrix.transpose_mul]
  calc (M⁻¹)ᵀ * ((toM e.r)ᵀ * Mᵀ) * (M * toM e.r * M⁻¹)
      = (M⁻¹)ᵀ * ((toM e.r)ᵀ * (Mᵀ * M) * toM e.r) * M⁻¹ := by simp only [Matrix.mul_assoc]
    _ = (M⁻¹)ᵀ * Mᵀ * (M * M⁻¹) := by rw [he]; simp only [Matrix.mul_assoc]
    _ = 1 := by rw [hI', Matrix.mul_one, ← Matrix.transpose_mul, hI', Matrix.transpose_one]

theorem conj_sum {n : Type} [Fintype n] [DecidableEq n] (l : List Col) (f : Col → Matrix n n ℝ) (A B : Matrix n n ℝ) :
    A * (l.map f).sum * B = (l.map fun e => A * f e * B).sum := by
  induction l with
  | nil => simp
  | cons a l ih => simp [Matrix.mul_add, Matrix.add_mul, ih]

theorem smul_sum' {n : Type} (l : List Col) (f : Col → Matrix n n ℝ) (c : ℝ) :
    c • (l.map f).sum = (l.map fun e => c • f e).sum := by
  induction l with
  | nil => simp
  | cons a l ih => simp [smul_add, ih]

theorem transpose_sum {n : Type} (l : List Col) (f : Col → Matrix n n ℝ) :
    ((l.map f).sum)ᵀ = (l.map fun e => (f e)ᵀ).sum := by
  induction l with
  | nil => simp
  | cons a l ih => simp [Matrix.transpose_add, ih]

theorem mean_const {n : Type} {G : List Col} (h : IsSiteGroup G) {f : Col → Matrix n n ℝ} {A : Matrix n n ℝ}
    (hf : ∀ g ∈ G, f g = A) : (1 / (G.length : ℝ)) • (G.map f).sum = A := by
  rw [List.map_congr_left hf]
  have := length_ne h
  simp only [List.map_const', List.sum_replicate]
  rw [← Nat.cast_smul_eq_nsmul ℝ, smul_smul]
  field_simp
  simp

theorem toM_inj {a b : Fin 9 → ℝ} (h : toM a = toM b) : a = b := by
  funext k
  have e := fun i j => congrFun (congrFun h i) j
  revert k
  apply fin9
  · exact e 0 0
  · exact e 0 1
  · exact e 0 2
  · exact e 1 0
  · exact e 1 1
  · exact e 1 2
  · exact e 2 0
  · exact e 2 1
  · exact e 2 2

theorem toM_sum (l : List Col) (f : Col → Fin 9 → ℝ) (c : ℝ) :
    toM (fun i => (l.map fun e => f e i).sum / c) = (1 / c) • (l.map fun e => toM (f e)).sum := by
  ext i j
  rw [Matrix.smul_apply, list_sum_apply2, smul_eq_mul]
  revert i j
  apply fin3 <;> apply fin3 <;> simp [toM] <;> ring

theorem toQ_sum (l : List Col) (f : Col → Fin 6 → ℝ) (c : ℝ) :
    toQ (fun i => (l.map fun e => f e i).sum / c) = (1 / c) • (l.map fun e => toQ (f e)).sum := by
  ext i j
  rw [Matrix.smul_apply, list_sum_apply2, smul_eq_mul]
  revert i j
  apply fin3 <;> apply fin3 <;> simp [toQ] <;> ring

end Cryspy.Constr
