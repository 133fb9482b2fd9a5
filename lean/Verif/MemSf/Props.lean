import Verif.MemSf.Model
import Verif.Sft.Props
import Verif.Symm.Props

/-!
# Structure factors of a density are sums over the whole cell
-/

namespace Cryspy.MemSf

open Symm Sf Real Matrix

theorem lcm_dvd (n : V3) : ∀ k, n k ∣ (Int.lcm (Int.lcm (n 0) (n 1)) (n 2) : ℤ) := by
  apply fin3
  · exact (Int.dvd_lcm_left (n 0) (n 1)).trans (Int.dvd_lcm_left _ _)
  · exact (Int.dvd_lcm_right (n 0) (n 1)).trans (Int.dvd_lcm_left _ _)
  · exact Int.dvd_lcm_right _ _

theorem pointOf_pos {n : V3} (hn : ∀ k, 0 < n k) (p : V3) : 0 < (pointOf n p).d := by
  unfold pointOf
  have h1 : Int.lcm (n 0) (n 1) ≠ 0 := by
    rw [Ne, Int.lcm_eq_zero_iff]; exact fun h => h.elim (hn 0).ne' (hn 1).ne'
  have h2 : Int.lcm (Int.lcm (n 0) (n 1)) (n 2) ≠ 0 := by
    rw [Ne, Int.lcm_eq_zero_iff]; exact fun h => h.elim (by exact_mod_cast h1) (hn 2).ne'
  show (0 : ℤ) < (Int.lcm (Int.lcm (n 0) (n 1)) (n 2) : ℕ)
  exact_mod_cast Nat.pos_of_ne_zero h2

/-- **C69** The common denominator keeps the position of the point. -/
theorem pointOf_val {n : V3} (hn : ∀ k, 0 < n k) (p : V3) : (pointOf n p).val = fp n p := by
  funext k
  have hd := pointOf_pos hn p
  obtain ⟨c, hc⟩ := lcm_dvd n k
  have hk : (n k : ℚ) ≠ 0 := by exact_mod_cast (hn k).ne'
  have hd' : (pointOf n p).d = n k * c := hc
  have hc0 : (c : ℚ) ≠ 0 := by
    rintro h
    have : c = 0 := by exact_mod_cast h
    rw [hd', this, mul_zero] at hd
    exact lt_irrefl _ hd
  have hn' : (pointOf n p).n k = p k * c := by
    show p k * (_ / n k) = _
    rw [hc, Int.mul_ediv_cancel_left _ (hn k).ne']
  simp only [Shift.val, fp]
  rw [hn', hd']
  push_cast
  field_simp

theorem image_eq (e : Elem) (x : Shift) : image e x = act e x.val := by
  funext k
  unfold image act Shift.val
  congr 1
  rw [Fin.sum_univ_three]
  revert k
  apply fin3 <;> rfl

theorem phase_eq (h : V3) (e : Elem) (x : Shift) : phase h e x = ph (hdot h (act e x.val)) := by
  unfold phase hdot
  rw [image_eq]
  congr 1
  ring

variable {G : List Elem} {na nb nc : ℕ}

local notation "nn" => (![(na : ℤ), (nb : ℤ), (nc : ℤ)] : V3)

theorem nn_pos (hG : IsGroup G) (hC : ∀ e ∈ G, Compat e nn) : ∀ k, 0 < nn k := by
  obtain ⟨e, he, -⟩ := hG.one
  exact (hC e he).pos

/-- One orbit: the average over the operations, times the number of points, is the sum over the points. -/
theorem orbit_sum (hG : IsGroup G) (hN : G.Pairwise fun a b => ¬ SameOp a b) (hC : ∀ e ∈ G, Compat e nn) {p : V3}
    (_hp : InCell nn p) (W : V3 → ℂ) (O : Finset V3) (hO : ∀ q, q ∈ O ↔ InCell nn q ∧ EquivPoint G nn p q) :
    (G.map fun e => W (applyIndex e p nn)).sum / G.length * O.card = ∑ q ∈ O, W q := by
  classical
  have hn := nn_pos hG hC
  have hd := pointOf_pos hn p
  have hv := pointOf_val hn p
  have hb : ∀ e ∈ G, 0 < e.bd := fun e he => (hC e he).bd_pos
  have himg : ∀ e ∈ G, ∀ q, InCell nn q → (applyIndex e p nn = q ↔ Lat (act e (fp nn p)) (fp nn q)) := by
    intro e he q hq
    have h1 := grid_image_exact e nn p (hC e he)
    constructor
    · rintro rfl; exact h1.2.symm
    · intro hl; exact inCell_unique h1.1 hq (h1.2.trans hl)
  have hmem : ∀ e ∈ G, applyIndex e p nn ∈ O := by
    intro e he
    have h1 := grid_image_exact e nn p (hC e he)
    exact (hO _).2 ⟨h1.1, e, he, h1.2.symm⟩
  set c := G.countP (symmFlag · (pointOf nn p))
  have hfib : ∀ q ∈ O, G.countP (fun e => decide (applyIndex e p nn = q)) = c := by
    intro q hq
    obtain ⟨hq1, hq2⟩ := (hO q).1 hq
    refine Eq.trans ?_ (fibre_count hG hN hb hd (y := fp nn q) (by rw [hv]; exact hq2))
    apply List.countP_congr
    intro e he
    rw [decide_eq_true_iff, decide_eq_true_iff, hv, himg e he q hq1]
  have key : ∀ V : V3 → ℂ, (G.map fun e => V (applyIndex e p nn)).sum = c * ∑ q ∈ O, V q := by
    intro V
    have := sum_partition O.toList (fun e q => decide (applyIndex e p nn = q)) V (fun e => V (applyIndex e p nn)) G (by
      intro e he
      rw [Finset.sum_map_toList]
      simp only [decide_eq_true_eq]
      rw [Finset.sum_ite_eq, if_pos (hmem e he)])
    rw [this, Finset.sum_map_toList, Finset.mul_sum]
    refine Finset.sum_congr rfl fun q hq => ?_
    rw [hfib q hq]
  have hlen : (G.length : ℂ) = c * O.card := by
    have := key fun _ => 1
    simpa using this
  obtain ⟨e, he, -⟩ := hG.one
  have hl0 : (G.length : ℂ) ≠ 0 := by
    exact_mod_cast (List.length_pos_of_mem he).ne'
  have hc0 : (c : ℂ) ≠ 0 := fun h => hl0 (by rw [hlen, h, zero_mul])
  have ho0 : (O.card : ℂ) ≠ 0 := fun h => hl0 (by rw [hlen, h, mul_zero])
  rw [key, hlen]
  field_simp

/-- The orbit of a point. -/
noncomputable def orbit (G : List Elem) (n p : V3) : Finset V3 := by
  classical exact (cellPoints n).filter fun q => EquivPoint G n p q

theorem mem_orbit {n p q : V3} : q ∈ orbit G n p ↔ InCell n q ∧ EquivPoint G n p q := by
  unfold orbit
  simp [cellPoints, InCell]

/-- The points of the asymmetric unit with their multiplicities stand for all points of the cell. -/
theorem reps_sum (hG : IsGroup G) (hN : G.Pairwise fun a b => ¬ SameOp a b) (hC : ∀ e ∈ G, Compat e nn) {reps : List (V3 × ℕ)}
    (hr : asymUnit G na nb nc = some reps) (W : V3 → ℂ) :
    (reps.map fun rc => (G.map fun e => W (applyIndex e rc.1 nn)).sum / G.length * rc.2).sum = ∑ q ∈ cellPoints nn, W q := by
  classical
  obtain ⟨reps', hr', hnd, hcnt, huniq, -⟩ := asym_unit_spec G na nb nc hG hC
  obtain rfl : reps' = reps := Option.some.inj (hr'.symm.trans hr)
  have h1 : ∀ rc ∈ reps', (G.map fun e => W (applyIndex e rc.1 nn)).sum / G.length * (rc.2 : ℂ) = ∑ q ∈ orbit G nn rc.1, W q := by
    intro rc hrc
    obtain ⟨hin, hc⟩ := hcnt rc hrc
    have : rc.2 = (orbit G nn rc.1).card := by
      rw [hc, ← Set.ncard_coe_finset]
      congr 1
      ext q
      simp [mem_orbit]
    rw [this]
    exact orbit_sum hG hN hC hin W _ fun q => mem_orbit
  rw [List.map_congr_left h1]
  have h2 : (reps'.map fun rc => ∑ q ∈ orbit G nn rc.1, W q) = (reps'.map Prod.fst).map fun r => ∑ q ∈ orbit G nn r, W q := by
    rw [List.map_map]; rfl
  rw [h2, ← List.sum_toFinset _ hnd, ← Finset.sum_biUnion]
  · refine Finset.sum_congr ?_ fun _ _ => rfl
    ext q
    simp only [Finset.mem_biUnion, List.mem_toFinset, mem_orbit]
    constructor
    · rintro ⟨r, -, hq, -⟩
      simpa [cellPoints, InCell] using hq
    · intro hq
      have hq' : InCell nn q := by simpa [cellPoints, InCell] using hq
      obtain ⟨r, ⟨hr1, hr2⟩, -⟩ := huniq q hq'
      exact ⟨r, hr1, hq', hr2⟩
  · intro a ha b hb hab
    rw [Function.onFun, Finset.disjoint_left]
    intro q hqa hqb
    obtain ⟨hq, h1⟩ := mem_orbit.1 hqa
    obtain ⟨-, h2⟩ := mem_orbit.1 hqb
    exact hab ((huniq q hq).unique ⟨by simpa using ha, h1⟩ ⟨by simpa using hb, h2⟩)

/-- Points with weight zero can be left out. -/
theorem sum_sublist {l l' : List (V3 × ℕ)} (hs : l'.Sublist l) (f : V3 × ℕ → ℂ) (h0 : ∀ a ∈ l, a ∉ l' → f a = 0) (hnd : l.Nodup) :
    (l'.map f).sum = (l.map f).sum := by
  classical
  rw [← List.sum_toFinset _ hnd, ← List.sum_toFinset _ (hs.nodup hnd)]
  refine Finset.sum_subset (fun a ha => ?_) fun a ha hna => ?_
  · rw [List.mem_toFinset] at ha ⊢; exact hs.subset ha
  · rw [List.mem_toFinset] at ha hna; exact h0 a ha hna

/-- A density that respects the symmetry: the same at equivalent points of the cell. -/
def Invariant (G : List Elem) (n : V3) (ρ : V3 → ℝ) : Prop :=
  ∀ p q, InCell n p → InCell n q → EquivPoint G n p q → ρ q = ρ p

/-- A field of tensors that respects the symmetry: an operation that carries `p` to `q` turns the tensor at `p` into the tensor at `q`. -/
def Equivariant (uc : Fin 6 → ℝ) (G : List Elem) (n : V3) (T : V3 → Matrix (Fin 3) (Fin 3) ℝ) : Prop :=
  ∀ p q, InCell n p → InCell n q → ∀ g ∈ G, Lat (act g (fp n p)) (fp n q) →
    T q = Sft.rotC uc g.r * T p * (Sft.rotC uc g.r)ᵀ

/-- Specification: part of a vector perpendicular to the unit vector along the scattering vector. -/
noncomputable def perp (uc : Fin 6 → ℝ) (h : V3) (a : Fin 3 → ℝ) : Fin 3 → ℝ :=
  a - (Cell.calc_eq_ccs (hklR h) uc ⬝ᵥ a) • Cell.calc_eq_ccs (hklR h) uc

/-- Specification: Fourier sum over all points of the cell of a field of vectors. -/
noncomputable def cellWave (n : V3) (h : V3) (F : V3 → Fin 3 → ℝ) (k : Fin 3) : ℂ :=
  ∑ q ∈ cellPoints n, ph (hdot h (fp n q)) * (F q k : ℝ)

theorem reps_facts (hG : IsGroup G) (hC : ∀ e ∈ G, Compat e nn) {reps : List (V3 × ℕ)} (hr : asymUnit G na nb nc = some reps) :
    reps.Nodup ∧ ∀ rc ∈ reps, InCell nn rc.1 := by
  obtain ⟨reps', hr', hnd, hcnt, -⟩ := asym_unit_spec G na nb nc hG hC
  obtain rfl : reps' = reps := Option.some.inj (hr'.symm.trans hr)
  exact ⟨hnd.of_map _, fun rc h => (hcnt rc h).1⟩

theorem perp_eq (uc : Fin 6 → ℝ) (h : V3) (a : Fin 3 → ℝ) (hu : Cell.calc_eq_ccs (hklR h) uc ⬝ᵥ Cell.calc_eq_ccs (hklR h) uc = 1) :
    Mat.calc_vector_product_v1_v2_v1 (Cell.calc_eq_ccs (hklR h) uc) a = perp uc h a := by
  rw [Mat.calc_vector_product_v1_v2_v1_spec]
  unfold perp
  set e := Cell.calc_eq_ccs (hklR h) uc
  have h1 : e 0 * e 0 + e 1 * e 1 + e 2 * e 2 = 1 := by
    simpa [dotProduct, Fin.sum_univ_three] using hu
  funext k
  revert k
  apply fin3 <;> simp [cross_apply, dotProduct, Fin.sum_univ_three]
  · linear_combination (a 0) * h1
  · linear_combination (a 1) * h1
  · linear_combination (a 2) * h1

theorem eq_unit {uc : Fin 6 → ℝ} (huc : Cell.NonDegenerate uc) {h : V3} (hh : h ≠ 0) :
    Cell.calc_eq_ccs (hklR h) uc ⬝ᵥ Cell.calc_eq_ccs (hklR h) uc = 1 := by
  refine (Cell.eq_ccs_unit _ uc huc fun h0 => hh ?_).1
  funext k
  have := congrFun h0 k
  simpa [hklR] using this

/-- **C69** Channel plus-minus: the structure factor computed from the points of the asymmetric unit (points where both densities vanish
may be left out) is the Fourier sum over all points of the cell of the spin density `M₊ρ₊ + M₋ρ₋` along the field, times the
volume of a voxel and the magnetic scattering length; of the direction of the field the part perpendicular to the scattering
vector counts. -/
theorem f_col_cell (hG : IsGroup G) (hN : G.Pairwise fun a b => ¬ SameOp a b) (hC : ∀ e ∈ G, Compat e nn) {reps pts : List (V3 × ℕ)}
    (hr : asymUnit G na nb nc = some reps) (hs : pts.Sublist reps) (uc : Fin 6 → ℝ) (huc : Cell.NonDegenerate uc) (h : V3)
    (hh : h ≠ 0) (eh : Fin 3 → ℝ) (mP mM : ℝ) (plus minus : V3 → ℝ)
    (hp : Invariant G nn plus) (hm : Invariant G nn minus)
    (h0 : ∀ rc ∈ reps, rc ∉ pts → plus rc.1 = 0 ∧ minus rc.1 = 0) (v : ℝ) (k : Fin 3) :
    fCol uc nn h eh G pts mP mM plus minus v (na * nb * nc) k =
      2695 / 10000 * (v / (na * nb * nc)) *
        cellWave nn h (fun q => (mP * plus q + mM * minus q) • perp uc h eh) k := by
  obtain ⟨hnd, hin⟩ := reps_facts hG hC hr
  have hn := nn_pos hG hC
  unfold fCol
  rw [sum_sublist hs _ (fun a ha hna => by rw [(h0 a ha hna).1, (h0 a ha hna).2]; simp) hnd]
  unfold cellWave
  rw [← reps_sum hG hN hC hr, ← sum_map_mul_left]
  refine congrArg List.sum (List.map_congr_left fun rc hrc => ?_)
  have hsum : (G.map fun e => ph (hdot h (fp nn (applyIndex e rc.1 nn))) *
      ((((mP * plus (applyIndex e rc.1 nn) + mM * minus (applyIndex e rc.1 nn)) • perp uc h eh) k : ℝ) : ℂ)).sum =
      (G.map fun e => phase h e (pointOf nn rc.1)).sum * ((mP * plus rc.1 + mM * minus rc.1 : ℝ) * (perp uc h eh k : ℝ) : ℂ) := by
    rw [← List.sum_map_mul_right]
    refine congrArg List.sum (List.map_congr_left fun e he => ?_)
    have h1 := grid_image_exact e nn rc.1 (hC e he)
    have he' : EquivPoint G nn rc.1 (applyIndex e rc.1 nn) := ⟨e, he, h1.2.symm⟩
    rw [phase_eq, pointOf_val hn, hp _ _ (hin rc hrc) h1.1 he', hm _ _ (hin rc hrc) h1.1 he', hdot_lat h1.2]
    simp only [Pi.smul_apply, smul_eq_mul]
    push_cast
    ring
  rw [hsum]
  unfold memCol
  rw [perp_eq uc h eh (eq_unit huc hh)]
  push_cast
  ring

/-- **C69** Channel of the susceptibility: the same with the moment density `ρ χ H`, where the field of tensors respects the symmetry and
is known to the program at the points of the asymmetric unit. -/
theorem f_chi_cell (hG : IsGroup G) (hN : G.Pairwise fun a b => ¬ SameOp a b) (hC : ∀ e ∈ G, Compat e nn) {reps pts : List (V3 × ℕ)}
    (hr : asymUnit G na nb nc = some reps) (hs : pts.Sublist reps) (uc : Fin 6 → ℝ) (huc : Cell.NonDegenerate uc)
    (hi : ∀ g ∈ G, (rotR g.r)ᵀ * Cell.metric uc * rotR g.r = Cell.metric uc) (h : V3) (hh : h ≠ 0)
    (H : Fin 3 → ℝ) (density : V3 → ℝ)
    (hd : Invariant G nn density) (T : V3 → Matrix (Fin 3) (Fin 3) ℝ) (hT : Equivariant uc G nn T) (chi : V3 → Fin 9 → ℝ)
    (hchi : ∀ rc ∈ pts, Mat.toM (chi rc.1) = T rc.1)
    (h0 : ∀ rc ∈ reps, rc ∉ pts → density rc.1 = 0) (v : ℝ) (k : Fin 3) :
    fChi uc nn h H G pts chi density v (na * nb * nc) k =
      2695 / 10000 * (v / (na * nb * nc)) * cellWave nn h (fun q => density q • perp uc h (T q *ᵥ H)) k := by
  obtain ⟨hnd, hin⟩ := reps_facts hG hC hr
  have hn := nn_pos hG hC
  unfold fChi
  rw [sum_sublist hs _ (fun a ha hna => by rw [h0 a ha hna]; simp) hnd]
  unfold cellWave
  rw [← reps_sum hG hN hC hr, ← sum_map_mul_left]
  refine congrArg List.sum (List.map_congr_left fun rc hrc => ?_)
  by_cases hz : density rc.1 = 0
  · have : (G.map fun e => ph (hdot h (fp nn (applyIndex e rc.1 nn))) *
        (((density (applyIndex e rc.1 nn) • perp uc h (T (applyIndex e rc.1 nn) *ᵥ H)) k : ℝ) : ℂ)) = G.map fun _ => 0 := by
      refine List.map_congr_left fun e he => ?_
      have h1 := grid_image_exact e nn rc.1 (hC e he)
      rw [hd _ _ (hin rc hrc) h1.1 ⟨e, he, h1.2.symm⟩, hz]
      simp
    rw [this, hz]
    simp
  have hpt : rc ∈ pts := by
    by_contra hna
    exact hz (h0 rc hrc hna)
  have hsum : (G.map fun e => ph (hdot h (fp nn (applyIndex e rc.1 nn))) *
      (((density (applyIndex e rc.1 nn) • perp uc h (T (applyIndex e rc.1 nn) *ᵥ H)) k : ℝ) : ℂ)).sum =
      (G.map fun e => phase h e (pointOf nn rc.1) * (mPerp uc h H (chi rc.1) e.r k : ℝ)).sum * (density rc.1 : ℂ) := by
    rw [← List.sum_map_mul_right]
    refine congrArg List.sum (List.map_congr_left fun e he => ?_)
    have h1 := grid_image_exact e nn rc.1 (hC e he)
    have he' : EquivPoint G nn rc.1 (applyIndex e rc.1 nn) := ⟨e, he, h1.2.symm⟩
    have ho := Sft.pr5_orthogonal uc huc e.r (hi e he)
    have hTe : Mat.toM (Mat.calc_m1_m2_inv_m1 (Sft.pr5 uc e.r) (chi rc.1)) = T (applyIndex e rc.1 nn) := by
      rw [Mat.calc_m1_m2_inv_m1_spec _ _ (Sft.det_of_orthogonal ho), Matrix.inv_eq_left_inv ho, hchi rc hpt,
        hT _ _ (hin rc hrc) h1.1 e he h1.2.symm, Sft.rotC_eq uc huc]
    rw [phase_eq, pointOf_val hn, hd _ _ (hin rc hrc) h1.1 he', hdot_lat h1.2]
    unfold mPerp
    rw [perp_eq uc h _ (eq_unit huc hh), Mat.calc_m_v_spec, hTe]
    simp only [Pi.smul_apply, smul_eq_mul]
    push_cast
    ring
  rw [hsum]
  unfold memChi
  push_cast
  ring

end Cryspy.MemSf
