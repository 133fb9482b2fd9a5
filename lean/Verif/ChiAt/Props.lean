import Verif.ChiAt.Model
import Verif.MemSf.Susc
import Mathlib.Algebra.BigOperators.Ring.Finset

/-!
# The refinement of the susceptibilities uses the structure factors of the reconstruction
-/

namespace Cryspy.ChiAt

open Symm Sf MemSf

theorem mm1_apply (a b : Fin 9 → ℝ) (i : Fin 9) : Mat.calc_m1_m2_inv_m1 a b i = ∑ j, Mat.calc_mm_as_m1_m2_inv_m1 a i j * b j := by
  revert i
  apply Mat.fin9 <;> simp only [Fin.sum_univ_succ, Finset.univ_eq_empty, Finset.sum_empty] <;>
    unfold Mat.calc_mm_as_m1_m2_inv_m1 Mat.calc_m1_m2_inv_m1 <;>
    simp only [Matrix.cons_val, Fin.isValue, Fin.reduceSucc, Fin.succ_zero_eq_one] <;> ring

theorem mm2_apply (a : Fin 9 → ℝ) (q : Fin 6 → ℝ) (i : Fin 9) : Mat.calc_m_q_inv_m a q i = ∑ j, Mat.calc_mm_as_m_q_inv_m a i j * q j := by
  revert i
  apply Mat.fin9 <;> rw [Fin.sum_univ_six] <;> unfold Mat.calc_mm_as_m_q_inv_m Mat.calc_m_q_inv_m Mat.calc_det_m <;>
    simp only [Matrix.cons_val] <;> ring

/-- The coefficients of the linear form `m ↦ (vp (m H))_k`. -/
noncomputable def coef (uc : Fin 6 → ℝ) (h : V3) (H : Fin 3 → ℝ) (k : Fin 3) : Fin 9 → ℝ :=
  let w := Mat.calc_vv_as_v1_v2_v1 (Cell.calc_eq_ccs (hklR h) uc) k
  ![w 0 * H 0, w 0 * H 1, w 0 * H 2, w 1 * H 0, w 1 * H 1, w 1 * H 2, w 2 * H 0, w 2 * H 1, w 2 * H 2]

theorem sum9 {M : Type} [AddCommMonoid M] (f : Fin 9 → M) :
    ∑ i, f i = f 0 + f 1 + f 2 + f 3 + f 4 + f 5 + f 6 + f 7 + f 8 := by
  rw [Fin.sum_univ_castSucc, Fin.sum_univ_eight]; rfl

theorem fByChiAtoms_eq (uc : Fin 6 → ℝ) (h : V3) (H : Fin 3 → ℝ) (m : Fin 9 → ℂ) (k : Fin 3) :
    fByChiAtoms uc h H m k = ∑ i, (coef uc h H k i : ℂ) * m i := by
  rw [sum9]
  unfold fByChiAtoms coef
  rw [Fin.sum_univ_three]
  simp [Mat.calc_m_v]
  ring

theorem mPerp_eq (uc : Fin 6 → ℝ) (h : V3) (H : Fin 3 → ℝ) (chi : Fin 9 → ℝ) (r : M3) (k : Fin 3) :
    mPerp uc h H chi r k = ∑ i, coef uc h H k i * ∑ j, Mat.calc_mm_as_m1_m2_inv_m1 (Sft.pr5 uc r) i j * chi j := by
  simp only [← mm1_apply]
  unfold mPerp
  generalize Mat.calc_m1_m2_inv_m1 (Sft.pr5 uc r) chi = X
  rw [sum9]
  unfold coef
  generalize Cell.calc_eq_ccs (hklR h) uc = q
  revert k
  apply Mat.fin3 <;> simp [Mat.calc_vector_product_v1_v2_v1, Mat.calc_vv_as_v1_v2_v1, Mat.calc_m_v] <;> ring

/-- `hh2` applied to the susceptibility of the atom is the susceptibility of the point. -/
theorem hh2_apply (uc : Fin 6 → ℝ) (G : List Elem) (x : Shift) (sc : Fin 6 → Fin 6 → ℝ) (r : M3) (q : Fin 6 → ℝ) (k : Fin 9) :
    ∑ j, hh2 uc G x sc r k j * q j = pointSusceptibility uc G x (Constr.apply sc q) r k := by
  unfold hh2 hh1 pointSusceptibility Constr.apply
  simp only [mm2_apply, Finset.sum_mul, Finset.mul_sum]
  rw [Finset.sum_comm]
  refine Finset.sum_congr rfl fun a _ => ?_
  rw [Finset.sum_comm]
  refine Finset.sum_congr rfl fun b _ => Finset.sum_congr rfl fun c _ => by ring

theorem list_sum_finset {α ι : Type} (s : Finset ι) (l : List α) (f : ι → α → ℂ) :
    ∑ a ∈ s, (l.map (f a)).sum = (l.map fun x => ∑ a ∈ s, f a x).sum := by
  induction l with
  | nil => simp
  | cons x l ih => simp [Finset.sum_add_distrib, ih]

/-- The moment of one point. -/
theorem point_term (uc : Fin 6 → ℝ) (h : V3) (H : Fin 3 → ℝ) (G : List Elem) (x : Shift) (m : ℕ) (d : ℝ) (sc : Fin 6 → Fin 6 → ℝ)
    (r : M3) (q : Fin 6 → ℝ) (k : Fin 3) :
    ∑ i, (coef uc h H k i : ℂ) * ∑ j, hhhh3 uc h G x m d sc r i j * (q j : ℝ) =
      (m : ℂ) * d * (G.map fun e => phase h e x * (mPerp uc h H (pointSusceptibility uc G x (Constr.apply sc q) r) e.r k : ℝ)).sum := by
  have h1 : ∀ i, ∑ j, hhhh3 uc h G x m d sc r i j * (q j : ℝ) =
      (m : ℂ) * d * (G.map fun e => phase h e x * ((∑ l, Mat.calc_mm_as_m1_m2_inv_m1 (Sft.pr5 uc e.r) i l *
        pointSusceptibility uc G x (Constr.apply sc q) r l : ℝ) : ℂ)).sum := by
    intro i
    have h2 : ∀ e, phase h e x * ((∑ l, Mat.calc_mm_as_m1_m2_inv_m1 (Sft.pr5 uc e.r) i l *
        pointSusceptibility uc G x (Constr.apply sc q) r l : ℝ) : ℂ) =
        ∑ l, phase h e x * (Mat.calc_mm_as_m1_m2_inv_m1 (Sft.pr5 uc e.r) i l : ℝ) *
          (pointSusceptibility uc G x (Constr.apply sc q) r l : ℝ) := by
      intro e
      push_cast
      rw [Finset.mul_sum]
      exact Finset.sum_congr rfl fun l _ => by ring
    simp only [h2]
    rw [← list_sum_finset]
    unfold hhhh3
    simp only [Finset.sum_mul]
    rw [Finset.sum_comm, Finset.mul_sum]
    refine Finset.sum_congr rfl fun l _ => ?_
    rw [← hh2_apply]
    unfold hhh
    rw [List.sum_map_mul_right]
    push_cast
    rw [Finset.mul_sum, Finset.mul_sum]
    exact Finset.sum_congr rfl fun j _ => by ring
  simp only [h1, mPerp_eq]
  have h3 : ∀ e, phase h e x * ((∑ i, coef uc h H k i * ∑ l, Mat.calc_mm_as_m1_m2_inv_m1 (Sft.pr5 uc e.r) i l *
      pointSusceptibility uc G x (Constr.apply sc q) r l : ℝ) : ℂ) = ∑ i, phase h e x * ((coef uc h H k i * ∑ l,
      Mat.calc_mm_as_m1_m2_inv_m1 (Sft.pr5 uc e.r) i l * pointSusceptibility uc G x (Constr.apply sc q) r l : ℝ) : ℂ) := by
    intro e
    rw [Complex.ofReal_sum, Finset.mul_sum]
  simp only [h3]
  rw [← list_sum_finset, Finset.mul_sum]
  refine Finset.sum_congr rfl fun i _ => ?_
  rw [mul_left_comm, ← List.sum_map_mul_left]
  refine congrArg _ (congrArg List.sum (List.map_congr_left fun e _ => ?_))
  push_cast
  ring

section
variable (uc : Fin 6 → ℝ) (n3 : V3) (h : V3) (H : Fin 3 → ℝ) (G : List Elem) (pts : List (V3 × ℕ)) (density : V3 → ℝ)
  (atomOf : V3 → ℕ) (rOf : V3 → M3) (sc : ℕ → Fin 6 → Fin 6 → ℝ) (v : ℝ) (N : ℕ)

theorem fBy_add (m m' : Fin 9 → ℂ) (k : Fin 3) : fByChiAtoms uc h H (fun i => m i + m' i) k = fByChiAtoms uc h H m k + fByChiAtoms uc h H m' k := by
  simp only [fByChiAtoms_eq, mul_add, Finset.sum_add_distrib]

theorem fBy_sum (n : ℕ) (m : ℕ → Fin 9 → ℂ) (k : Fin 3) :
    fByChiAtoms uc h H (fun i => ∑ a ∈ Finset.range n, m a i) k = ∑ a ∈ Finset.range n, fByChiAtoms uc h H (m a) k := by
  simp only [fByChiAtoms_eq, Finset.mul_sum]
  rw [Finset.sum_comm]

/-- What one atom contributes: the points it is closest to, with the susceptibility they take from it. -/
theorem atom_term (a : ℕ) (q : Fin 6 → ℝ) (k : Fin 3) :
    fByChiAtoms uc h H (fun i => ∑ j, chiAtoms uc n3 h G pts density atomOf rOf sc v N a i j * (q j : ℝ)) k =
      (pts.map fun p => (density p.1 : ℂ) * memChi uc h H G (pointOf n3 p.1)
        (pointSusceptibility uc G (pointOf n3 p.1) (Constr.apply (sc a) q) (rOf p.1)) p.2 v N k * if atomOf p.1 = a then 1 else 0).sum := by
  rw [fByChiAtoms_eq]
  have h1 : ∀ i, ∑ j, chiAtoms uc n3 h G pts density atomOf rOf sc v N a i j * (q j : ℝ) =
      (pts.map fun p => (2695 / 10000 * v / (G.length * N) * if atomOf p.1 = a then 1 else 0) *
        ∑ j, hhhh3 uc h G (pointOf n3 p.1) p.2 (density p.1) (sc a) (rOf p.1) i j * (q j : ℝ)).sum := by
    intro i
    unfold chiAtoms
    have : ∀ p : V3 × ℕ, (2695 / 10000 * v / (G.length * N) * if atomOf p.1 = a then 1 else 0) *
        ∑ j, hhhh3 uc h G (pointOf n3 p.1) p.2 (density p.1) (sc a) (rOf p.1) i j * (q j : ℝ) =
        ∑ j, 2695 / 10000 * v / (G.length * N) * (hhhh3 uc h G (pointOf n3 p.1) p.2 (density p.1) (sc a) (rOf p.1) i j *
          if atomOf p.1 = a then 1 else 0) * ((q j : ℝ) : ℂ) := by
      intro p
      rw [Finset.mul_sum]
      exact Finset.sum_congr rfl fun j _ => by ring
    simp only [this]
    rw [← list_sum_finset]
    refine Finset.sum_congr rfl fun j _ => ?_
    rw [List.sum_map_mul_right, List.sum_map_mul_left]
  simp only [h1]
  have h2 : ∀ i, (coef uc h H k i : ℂ) * (pts.map fun p => (2695 / 10000 * v / (G.length * N) * if atomOf p.1 = a then 1 else 0) *
        ∑ j, hhhh3 uc h G (pointOf n3 p.1) p.2 (density p.1) (sc a) (rOf p.1) i j * (q j : ℝ)).sum =
      (pts.map fun p => (2695 / 10000 * v / (G.length * N) * if atomOf p.1 = a then 1 else 0) * ((coef uc h H k i : ℂ) *
        ∑ j, hhhh3 uc h G (pointOf n3 p.1) p.2 (density p.1) (sc a) (rOf p.1) i j * (q j : ℝ))).sum := by
    intro i
    rw [← List.sum_map_mul_left]
    exact congrArg List.sum (List.map_congr_left fun p _ => by ring)
  simp only [h2]
  rw [list_sum_finset]
  refine congrArg List.sum (List.map_congr_left fun p _ => ?_)
  rw [← Finset.mul_sum, point_term]
  unfold memChi
  rw [mul_comm (G.length : ℂ), ← div_div]
  ring

theorem columns_spec {n : ℕ} (hlt : ∀ p ∈ pts, atomOf p.1 < n + 1) (hex : ∃ p ∈ pts, atomOf p.1 = n) : columns pts atomOf = some (n + 1) := by
  unfold columns
  rw [(List.max?_eq_some_iff (xs := pts.map fun p => atomOf p.1) (a := n)).2]
  · rfl
  · obtain ⟨p, hp, h1⟩ := hex
    refine ⟨List.mem_map.2 ⟨p, hp, h1⟩, fun b hb => ?_⟩
    obtain ⟨p, hp, rfl⟩ := List.mem_map.1 hb
    exact Nat.lt_succ_iff.1 (hlt p hp)

variable (susc : ℕ → Fin 6 → ℝ)

/-- The structure factor of the reconstruction with a density, mempy_by_dictionary.py:239 and 315-318, when the susceptibilities of the
points are those of their closest atoms: `q a` is the susceptibility that enters for the atom `a`. -/
noncomputable def fDensity (q : ℕ → Fin 6 → ℝ) : Fin 3 → ℂ :=
  fChi uc n3 h H G pts (fun p => pointSusceptibility uc G (pointOf n3 p) (q (atomOf p)) (rOf p)) density v N

/-- **C75** If the last paramagnetic atom is the closest one to some point, the refinement of the susceptibilities uses the structure factors
of the reconstruction with the current density and the current, constrained, susceptibilities. -/
theorem refine_agrees {n : ℕ} (hlt : ∀ p ∈ pts, atomOf p.1 < n + 1) (hex : ∃ p ∈ pts, atomOf p.1 = n) :
    fRefine uc n3 h H G pts density atomOf rOf (n + 1) sc susc v N =
      some (fDensity uc n3 h H G pts density atomOf rOf v N fun a => Constr.apply (sc a) (susc a)) := by
  unfold fRefine
  rw [columns_spec pts atomOf hlt hex]
  simp only [Option.bind_some, mChi, if_true, Option.map_some, Option.some.injEq]
  funext k
  rw [fBy_sum]
  simp only [atom_term]
  rw [list_sum_finset]
  unfold fDensity fChi
  refine congrArg List.sum (List.map_congr_left fun p hp => ?_)
  rw [Finset.sum_eq_single (atomOf p.1)]
  · simp
  · intro b _ hb
    rw [if_neg (Ne.symm hb), mul_zero]
  · intro hb
    exact absurd (Finset.mem_range.2 (hlt p hp)) hb

theorem apply_sum (n : ℕ) (m : Fin 6 → Fin 6 → ℝ) :
    Constr.apply m (fun j => ∑ a ∈ Finset.range n, susc a j) = fun i => ∑ a ∈ Finset.range n, Constr.apply m (susc a) i := by
  funext i
  unfold Constr.apply
  simp only [Finset.mul_sum]
  rw [Finset.sum_comm]

/-- **C75** If there are several paramagnetic atoms and the first is the closest one to every point (two atoms on one site), the program goes on
silently: the sum of all susceptibilities is given to the first atom. -/
theorem refine_adds {n : ℕ} (hn : n ≠ 1) (hne : pts ≠ []) (h0 : ∀ p ∈ pts, atomOf p.1 = 0) :
    fRefine uc n3 h H G pts density atomOf rOf n sc susc v N =
      some (fDensity uc n3 h H G pts density atomOf rOf v N fun _ => Constr.apply (sc 0) fun j => ∑ a ∈ Finset.range n, susc a j) := by
  obtain ⟨p0, hp0⟩ := List.exists_mem_of_ne_nil _ hne
  unfold fRefine
  rw [columns_spec pts atomOf (n := 0) (fun p hp => by rw [h0 p hp]; exact Nat.zero_lt_one) ⟨p0, hp0, h0 p0 hp0⟩]
  simp only [Option.bind_some, mChi]
  rw [if_neg (by omega), if_pos trivial, Option.map_some, Option.some.injEq]
  funext k
  have h1 : (fun i => ∑ a ∈ Finset.range n, ∑ j, chiAtoms uc n3 h G pts density atomOf rOf sc v N 0 i j * (susc a j : ℝ)) =
      fun i => ∑ j, chiAtoms uc n3 h G pts density atomOf rOf sc v N 0 i j * ((∑ a ∈ Finset.range n, susc a j : ℝ) : ℂ) := by
    funext i
    rw [Finset.sum_comm]
    refine Finset.sum_congr rfl fun j _ => ?_
    rw [Complex.ofReal_sum, Finset.mul_sum]
  rw [h1, atom_term uc n3 h H G pts density atomOf rOf sc v N 0 (fun j => ∑ a ∈ Finset.range n, susc a j)]
  unfold fDensity fChi
  refine congrArg List.sum (List.map_congr_left fun p hp => ?_)
  rw [if_pos (h0 p hp), mul_one]

/-- **C75** So with `n` equal atoms on one site the structure factor of the refinement is `n` times the one of the reconstruction (which gives
each point the susceptibility of its closest atom). -/
theorem refine_adds_wrong {n : ℕ} (hn : n ≠ 1) (hne : pts ≠ []) (h0 : ∀ p ∈ pts, atomOf p.1 = 0) (q : Fin 6 → ℝ) :
    fRefine uc n3 h H G pts density atomOf rOf n sc (fun _ => q) v N =
      some fun k => (n : ℂ) * fDensity uc n3 h H G pts density atomOf rOf v N (fun a => Constr.apply (sc a) q) k := by
  rw [refine_adds uc n3 h H G pts density atomOf rOf sc v N _ hn hne h0, Option.some.injEq]
  have key : ∀ (u : Fin 6 → ℝ) (k : Fin 3), fDensity uc n3 h H G pts density atomOf rOf v N (fun a => Constr.apply (sc 0) u) k =
      fByChiAtoms uc h H (fun i => ∑ j, chiAtoms uc n3 h G pts density atomOf rOf sc v N 0 i j * (u j : ℝ)) k := by
    intro u k
    rw [atom_term]
    unfold fDensity fChi
    refine congrArg List.sum (List.map_congr_left fun p hp => ?_)
    rw [if_pos (h0 p hp), mul_one]
  have same : fDensity uc n3 h H G pts density atomOf rOf v N (fun a => Constr.apply (sc a) q) =
      fDensity uc n3 h H G pts density atomOf rOf v N (fun _ => Constr.apply (sc 0) q) := by
    funext k
    unfold fDensity fChi
    refine congrArg List.sum (List.map_congr_left fun p hp => ?_)
    beta_reduce
    rw [h0 p hp]
  funext k
  rw [same, key, key, fByChiAtoms_eq, fByChiAtoms_eq, Finset.mul_sum]
  refine Finset.sum_congr rfl fun i _ => ?_
  rw [mul_left_comm]
  congr 1
  rw [Finset.mul_sum]
  refine Finset.sum_congr rfl fun j _ => ?_
  simp
  ring

/-- **C75** In all other cases the program raises: no point at all, or the last paramagnetic atoms are closest to no point. -/
theorem refine_raises {n : ℕ} (hn : 2 ≤ n) : fRefine uc n3 h H G pts density atomOf rOf n sc susc v N = none ↔
    pts = [] ∨ ((∃ p ∈ pts, 0 < atomOf p.1) ∧ ∀ p ∈ pts, atomOf p.1 ≠ n - 1) ∨ ∃ p ∈ pts, n ≤ atomOf p.1 := by
  unfold fRefine columns
  rcases pts.eq_nil_or_concat with rfl | ⟨l, x, hl⟩
  · simp
  have hne : pts ≠ [] := by rw [hl]; simp
  cases hm : (pts.map fun p => atomOf p.1).max? with
  | none => simp [List.max?_eq_none_iff, hne] at hm
  | some c =>
    obtain ⟨hc, hle⟩ := List.max?_eq_some_iff.1 hm
    obtain ⟨p, hp, hpc⟩ := List.mem_map.1 hc
    have hle' : ∀ p ∈ pts, atomOf p.1 ≤ c := fun p hp => hle _ (List.mem_map.2 ⟨p, hp, rfl⟩)
    simp only [Option.map_some, Option.bind_some, mChi]
    by_cases h1 : c + 1 = n
    · rw [if_pos h1]
      simp only [Option.map_some, reduceCtorEq, false_iff, not_or, not_and, not_forall]
      refine ⟨hne, fun _ => ⟨p, hp, by omega⟩, ?_⟩
      rintro ⟨q, hq, h2⟩
      have := hle' q hq
      omega
    rw [if_neg h1]
    by_cases h2 : c + 1 = 1
    · rw [if_pos h2]
      simp only [Option.map_some, reduceCtorEq, false_iff, not_or, not_and, not_forall]
      refine ⟨hne, ?_, ?_⟩
      · rintro ⟨q, hq, h3⟩
        have := hle' q hq
        omega
      · rintro ⟨q, hq, h3⟩
        have := hle' q hq
        omega
    rw [if_neg h2, if_neg (by omega)]
    simp only [Option.map_none, true_iff]
    right
    by_cases h3 : n ≤ c
    · right; exact ⟨p, hp, by omega⟩
    · left
      refine ⟨⟨p, hp, by omega⟩, fun q hq => ?_⟩
      have := hle' q hq
      omega

/-- **C75** The constrained susceptibilities that the refinement stores give the same structure factors as its parameters: the
constraints are those of site groups. -/
theorem refine_stored {n : ℕ} (hu : Cell.NonDegenerate uc) (S : ℕ → List Constr.Col) (hS : ∀ a, Constr.IsSiteGroup (S a))
    (hm : ∀ a, ∀ g ∈ S a, Constr.PreservesMetric uc g) (hlt : ∀ p ∈ pts, atomOf p.1 < n + 1) (hex : ∃ p ∈ pts, atomOf p.1 = n) :
    fRefine uc n3 h H G pts density atomOf rOf (n + 1) (fun a => Constr.scChi (S a) uc) (stored (fun a => Constr.scChi (S a) uc) susc) v N =
      fRefine uc n3 h H G pts density atomOf rOf (n + 1) (fun a => Constr.scChi (S a) uc) susc v N := by
  rw [refine_agrees uc n3 h H G pts density atomOf rOf _ v N _ hlt hex, refine_agrees uc n3 h H G pts density atomOf rOf _ v N _ hlt hex]
  congr 2
  funext a
  exact Constr.chi_idempotent (hS a) hu (hm a) _

end

/-- The hypotheses are met: two atoms and two points; and two atoms on one site. -/
example : (∀ p ∈ [((![0, 0, 0] : V3), 1), (![1, 0, 0], 2)], (fun q : V3 => (q 0).toNat) p.1 < 1 + 1) ∧
    (∃ p ∈ [((![0, 0, 0] : V3), 1), (![1, 0, 0], 2)], (fun q : V3 => (q 0).toNat) p.1 = 1) ∧
    (∀ p ∈ [((![0, 0, 0] : V3), 1), (![0, 1, 0], 2)], (fun q : V3 => (q 0).toNat) p.1 = 0) := by
  simp

/-- … and the site groups of `refine_stored`. -/
example : Cell.NonDegenerate Constr.hexUC ∧ Constr.IsSiteGroup (Constr.exG 1) ∧ ∀ g ∈ Constr.exG 1, Constr.PreservesMetric Constr.hexUC g :=
  ⟨Constr.hexUC_nonDegenerate, Constr.exG_isSiteGroup (by norm_num), Constr.exG_metric 1⟩

end Cryspy.ChiAt
