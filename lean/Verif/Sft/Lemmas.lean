import Verif.Sft.Model
import Verif.Sf.Props2
import Verif.Mat.Props

/-!
# Lemmas about structure factor tensors
-/

namespace Cryspy.Sft

open Symm Sf Real Matrix

/-- The average over the group, for any weight that does not change under inversion. -/
theorem average (s : Sym) (hs : s.Pos) (h : V3) (l : List (Atom × (M3 → ℝ)))
    (hd : ∀ p ∈ l, ∀ r : M3, p.2 (fun i j => -1 * r i j) = p.2 r) :
    fByAsym (l.map fun p => (p.1.b, fAsym (multiplicity s.full (siteOf p.1.x)) s.reduced p.2 h p.1))
      (pr3 h s.trans) s.centro (pr4 h s.centre) =
    (l.map fun p => p.1.b * p.1.occ * ((multiplicity s.full (siteOf p.1.x) : ℂ) / s.full.length *
      (s.full.map fun g => ph (hdot h (act g p.1.x)) * (p.2 g.r : ℂ)).sum)).sum := by
  have hl := s.full_length
  unfold fByAsym
  simp only [List.map_map]
  rw [pr3_eq, pr4_eq]
  by_cases hc : s.centro = true
  · rw [if_pos hc, ← sum_map_mul_left, ← sum_map_mul_left, ← sum_map_mul_left, ← sum_map_add, ← sum_map_mul_left]
    refine congrArg List.sum (List.map_congr_left fun p hp => ?_)
    simp only [Function.comp]
    rw [s.full_sum hs h p.1.x p.2 (hd p hp), fAsym_eq, hl]
    simp only [hc, if_true, map_div₀, map_mul, Complex.conj_ofReal, map_natCast]
    ring
  · rw [if_neg hc, ← sum_map_mul_left]
    refine congrArg List.sum (List.map_congr_left fun p hp => ?_)
    simp only [Function.comp]
    rw [s.full_sum hs h p.1.x p.2 (hd p hp), fAsym_eq, hl]
    simp only [hc, if_false, Bool.false_eq_true]
    ring

/-- … and the average is the sum over the unit cell. -/
theorem orbit_average (s : Sym) (hs : s.Pos) (hG : IsGroup s.full) (hN : s.full.Pairwise fun a b => ¬ SameOp a b) (h : V3)
    (x : Q3) (hx : (siteOf x).val = x) (d : M3 → ℝ) (l : List (Q3 × ℝ)) (hcell : IsCellOf s.full d x l) :
    (multiplicity s.full (siteOf x) : ℂ) / s.full.length * (s.full.map fun g => ph (hdot h (act g x)) * (d g.r : ℂ)).sum =
      (l.map fun p => ph (hdot h p.1) * (p.2 : ℂ)).sum := by
  classical
  have hxd : 0 < (siteOf x).d := by unfold siteOf; norm_num
  have hsum : (s.full.map fun g => ph (hdot h (act g x)) * (d g.r : ℂ)).sum =
      (l.map fun p => (s.full.countP (fun e => decide (Lat (act e x) p.1)) : ℂ) * (ph (hdot h p.1) * (p.2 : ℂ))).sum := by
    apply sum_partition l (fun e p => decide (Lat (act e x) p.1)) (fun p => ph (hdot h p.1) * (p.2 : ℂ))
    intro e he
    obtain ⟨y, hy, hye⟩ := hcell.orbit.covers e he
    obtain ⟨p, hp, rfl⟩ := List.mem_map.1 hy
    refine sum_ite_unique l (act e x) h _ hcell.orbit.distinct p hp hye ?_
    rw [hcell.factor p hp e he hye, hdot_lat hye]
  have hfib : ∀ p ∈ l, s.full.countP (fun e => decide (Lat (act e x) p.1)) = s.full.countP (symmFlag · (siteOf x)) := by
    intro p hp
    have := fibre_count hG hN (Sym.full_pos hs) hxd (y := p.1) (by
      rw [hx]
      exact hcell.orbit.onlyImages p.1 (List.mem_map.2 ⟨p, hp, rfl⟩))
    rw [← this]
    congr 1
    funext e
    rw [hx]
  have hos := orbit_stabiliser hG hN (Sym.full_pos hs) hxd (l := l.map Prod.fst) (by rw [hx]; exact hcell.orbit)
  have hm := multiplicity_counts_images s.full hG hN (Sym.full_pos hs) (siteOf x) hxd (l.map Prod.fst)
    (by rw [hx]; exact hcell.orbit)
  rw [hsum, List.map_congr_left (g := fun p => (s.full.countP (symmFlag · (siteOf x)) : ℂ) * (ph (hdot h p.1) * (p.2 : ℂ)))
    (fun p hp => by rw [hfib p hp]), sum_map_mul_left, hm, ← hos.1]
  have h1 : ((s.full.countP (symmFlag · (siteOf x)) : ℕ) : ℂ) ≠ 0 := by exact_mod_cast hos.2.ne'
  cases hca : l with
  | nil => simp
  | cons p t =>
    have hlen : (((p :: t).map Prod.fst).length : ℂ) ≠ 0 := (Nat.cast_ne_zero (R := ℂ)).2 (by simp)
    push_cast
    field_simp

/-- What the atom is for the sums above. -/
def toAtom (b : ℂ) (a : PAtom) : Atom := ⟨a.x, a.occ, b, a.bIso, a.beta⟩

theorem dwP_eq (uc : Fin 6 → ℝ) (h : V3) (a : PAtom) (b : ℂ) (r : M3) : dwP uc h a r = dw uc h (toAtom b a) r := rfl

theorem pr5_neg (uc : Fin 6 → ℝ) (r : M3) : pr5 uc (fun i j => -1 * r i j) = -pr5 uc r := by
  funext k
  have e : flat (fun i j => -1 * r i j) = -flat r := by
    funext k; fin_cases k <;> simp [flat]
  unfold pr5
  rw [e]
  fin_cases k <;> simp [Mat.calc_m1_m2_inv_m1] <;> ring

theorem m_q_inv_m_neg (m : Fin 9 → ℝ) (q : Fin 6 → ℝ) : Mat.calc_m_q_inv_m (-m) q = Mat.calc_m_q_inv_m m q := by
  have hd : Mat.calc_det_m (-m) = -Mat.calc_det_m m := by simp [Mat.calc_det_m]; ring
  funext k
  fin_cases k <;> simp only [Mat.calc_m_q_inv_m, hd] <;> simp [div_neg] <;> ring

theorem carried_neg (uc : Fin 6 → ℝ) (a : PAtom) (r : M3) : carried uc a (fun i j => -1 * r i j) = carried uc a r := by
  unfold carried
  rw [pr5_neg, m_q_inv_m_neg]

/-- The weight of a component. -/
noncomputable def wt (uc : Fin 6 → ℝ) (h : V3) (a : PAtom) (k : Fin 9) (r : M3) : ℝ := dwP uc h a r * carried uc a r k

theorem wt_neg (uc : Fin 6 → ℝ) (h : V3) (a : PAtom) (k : Fin 9) (r : M3) :
    wt uc h a k (fun i j => -1 * r i j) = wt uc h a k r := by
  unfold wt
  rw [carried_neg, dwP_eq uc h a 0, dwP_eq uc h a 0, dw_neg]

theorem sft_eq (orb : Bool) (s : Sym) (uc : Fin 6 → ℝ) (atoms : List PAtom) (h : V3) (k : Fin 9) :
    sft orb s uc atoms h k = fByAsym ((atoms.map fun a => (toAtom (formFactor orb uc h a) a, wt uc h a k)).map fun p =>
      (p.1.b, fAsym (multiplicity s.full (siteOf p.1.x)) s.reduced p.2 h p.1)) (pr3 h s.trans) s.centro (pr4 h s.centre) := by
  unfold sft
  rw [List.map_map]
  congr 1
  refine List.map_congr_left fun a _ => ?_
  simp only [Function.comp, toAtom, Prod.mk.injEq, true_and]
  unfold sftAsym fAsym wt
  congr 3
  funext e
  push_cast
  ring

/-- The rotations in the Cartesian frame. -/
theorem toM_pr5 (uc : Fin 6 → ℝ) (hu : Cell.NonDegenerate uc) (r : M3) :
    Mat.toM (pr5 uc r) = Mat.toM (Cell.calc_m_m uc) * rotR r * Mat.toM (Cell.calc_m_inv_m uc) := by
  have hi := Cell.m_inv_m_spec uc hu
  have hdet : (Mat.toM (Cell.calc_m_m uc)).det ≠ 0 := by
    intro h0
    have := congrArg Matrix.det hi.1
    rw [Matrix.det_mul, h0, zero_mul, Matrix.det_one] at this
    exact zero_ne_one this
  have hinv : (Mat.toM (Cell.calc_m_m uc))⁻¹ = Mat.toM (Cell.calc_m_inv_m uc) := Matrix.inv_eq_right_inv hi.1
  have hf : Mat.toM (flat r) = rotR r := by
    ext i j; fin_cases i <;> fin_cases j <;> rfl
  unfold pr5
  rw [Mat.calc_m1_m2_inv_m1_spec _ _ hdet, hinv, hf]

/-- A rotation that is an isometry of the cell is orthogonal in the Cartesian frame. -/
theorem pr5_orthogonal (uc : Fin 6 → ℝ) (hu : Cell.NonDegenerate uc) (r : M3)
    (hm : (rotR r)ᵀ * Cell.metric uc * rotR r = Cell.metric uc) : (Mat.toM (pr5 uc r))ᵀ * Mat.toM (pr5 uc r) = 1 := by
  have hi := Cell.m_inv_m_spec uc hu
  rw [toM_pr5 uc hu]
  rw [← Cell.m_m_factors_metric uc hu] at hm
  set M := Mat.toM (Cell.calc_m_m uc)
  set N := Mat.toM (Cell.calc_m_inv_m uc)
  calc (M * rotR r * N)ᵀ * (M * rotR r * N) = Nᵀ * ((rotR r)ᵀ * (Mᵀ * M) * rotR r) * N := by
        simp only [Matrix.transpose_mul, mul_assoc]
    _ = (M * N)ᵀ * (M * N) := by rw [hm, Matrix.transpose_mul]; simp only [mul_assoc]
    _ = 1 := by rw [hi.1]; simp

theorem det_of_orthogonal {O : Matrix (Fin 3) (Fin 3) ℝ} (h : Oᵀ * O = 1) : O.det ≠ 0 := by
  intro h0
  have := congrArg Matrix.det h
  rw [Matrix.det_mul, h0, mul_zero, Matrix.det_one] at this
  exact zero_ne_one this

/-- The carried tensor is `O χ Oᵀ`. -/
theorem toM_carried (uc : Fin 6 → ℝ) (hu : Cell.NonDegenerate uc) (a : PAtom) (r : M3)
    (hm : (rotR r)ᵀ * Cell.metric uc * rotR r = Cell.metric uc) :
    Mat.toM (carried uc a r) = Mat.toM (pr5 uc r) * Mat.toQ (masConstr a) * (Mat.toM (pr5 uc r))ᵀ := by
  have ho := pr5_orthogonal uc hu r hm
  unfold carried
  rw [Mat.calc_m_q_inv_m_spec _ _ (det_of_orthogonal ho), Matrix.inv_eq_left_inv ho]

theorem rotR_mmul (g r : M3) : rotR (mmul g r) = rotR g * rotR r := by
  ext i j
  simp [rotR, mmul, Matrix.mul_apply, Fin.sum_univ_three]

theorem toM_pr5_mmul (uc : Fin 6 → ℝ) (hu : Cell.NonDegenerate uc) (g r : M3) :
    Mat.toM (pr5 uc (mmul g r)) = Mat.toM (pr5 uc g) * Mat.toM (pr5 uc r) := by
  have hi := Cell.m_inv_m_spec uc hu
  rw [toM_pr5 uc hu, toM_pr5 uc hu, toM_pr5 uc hu, rotR_mmul]
  set M := Mat.toM (Cell.calc_m_m uc)
  set N := Mat.toM (Cell.calc_m_inv_m uc)
  calc M * (rotR g * rotR r) * N = M * rotR g * 1 * rotR r * N := by simp only [mul_assoc, one_mul]
    _ = M * rotR g * (N * M) * rotR r * N := by rw [hi.2]
    _ = M * rotR g * N * (M * rotR r * N) := by simp only [mul_assoc]

end Cryspy.Sft
