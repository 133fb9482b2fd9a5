import Verif.Ord.Props

/-!
# The magnetic structure factor as a sum over the unit cell; equivalent reflections; extinctions
-/

namespace Cryspy.Ord

open Symm Sf Matrix

/-- Average over the magnetic operations of a quantity that depends on the image of the point only. -/
theorem orbit_average {G : List (Elem × ℤ)} (hb : ∀ g ∈ G, 0 < g.1.bd) (hG : IsGroup (G.map Prod.fst))
    (hN : (G.map Prod.fst).Pairwise fun a b => ¬ SameOp a b) (h : V3) (x : Q3) (hx : (siteOf x).val = x) (d : Elem × ℤ → ℝ)
    (l : List (Q3 × ℝ)) (horb : IsOrbitList (G.map Prod.fst) x (l.map Prod.fst))
    (hf : ∀ p ∈ l, ∀ g ∈ G, Lat (act g.1 x) p.1 → d g = p.2) :
    (multiplicity (G.map Prod.fst) (siteOf x) : ℂ) / G.length * (G.map fun g => ph (hdot h (act g.1 x)) * (d g : ℂ)).sum =
      (l.map fun p => ph (hdot h p.1) * (p.2 : ℂ)).sum := by
  classical
  have hb' : ∀ e ∈ G.map Prod.fst, 0 < e.bd := by
    intro e he
    obtain ⟨g, hg, rfl⟩ := List.mem_map.1 he
    exact hb g hg
  have hxd : 0 < (siteOf x).d := by unfold siteOf; norm_num
  have hsum : (G.map fun g => ph (hdot h (act g.1 x)) * (d g : ℂ)).sum =
      (l.map fun p => (G.countP (fun e => decide (Lat (act e.1 x) p.1)) : ℂ) * (ph (hdot h p.1) * (p.2 : ℂ))).sum := by
    refine sum_partition l (fun (e : Elem × ℤ) p => decide (Lat (act e.1 x) p.1)) (fun p => ph (hdot h p.1) * (p.2 : ℂ))
      (fun g => ph (hdot h (act g.1 x)) * (d g : ℂ)) G ?_
    intro e he
    obtain ⟨y, hy, hye⟩ := horb.covers e.1 (List.mem_map_of_mem he)
    obtain ⟨p, hp, rfl⟩ := List.mem_map.1 hy
    refine sum_ite_unique l (act e.1 x) h _ horb.distinct p hp hye ?_
    rw [hf p hp e he hye, hdot_lat hye]
  have hfib : ∀ p ∈ l, G.countP (fun e => decide (Lat (act e.1 x) p.1)) = (G.map Prod.fst).countP (symmFlag · (siteOf x)) := by
    intro p hp
    have := fibre_count hG hN hb' hxd (y := p.1) (by
      rw [hx]
      exact horb.onlyImages p.1 (List.mem_map.2 ⟨p, hp, rfl⟩))
    rw [← this, List.countP_map]
    congr 1
    funext e
    simp only [Function.comp, hx]
  have hos := orbit_stabiliser hG hN hb' hxd (l := l.map Prod.fst) (by rw [hx]; exact horb)
  have hm := multiplicity_counts_images (G.map Prod.fst) hG hN hb' (siteOf x) hxd (l.map Prod.fst) (by rw [hx]; exact horb)
  rw [hsum, List.map_congr_left (g := fun p => ((G.map Prod.fst).countP (symmFlag · (siteOf x)) : ℂ) * (ph (hdot h p.1) * (p.2 : ℂ)))
    (fun p hp => by rw [hfib p hp]), sum_map_mul_left, hm, ← List.length_map (as := G) Prod.fst, ← hos.1]
  have h1 : (((G.map Prod.fst).countP (symmFlag · (siteOf x)) : ℕ) : ℂ) ≠ 0 := by exact_mod_cast hos.2.ne'
  cases hca : l with
  | nil => simp
  | cons p t =>
    have hlen : (((p :: t).map Prod.fst).length : ℂ) ≠ 0 := (Nat.cast_ne_zero (R := ℂ)).2 (by simp)
    push_cast
    field_simp

variable {G : List (Elem × ℤ)} {uc : Fin 6 → ℝ}

theorem moment_turned (hu : Cell.NonDegenerate uc) {g : Elem × ℤ} (hk : KeepsLengths uc g.1.r)
    (hi : (rotR g.1.r)ᵀ * Cell.metric uc * rotR g.1.r = Cell.metric uc) (m : Fin 3 → ℝ) (k : Fin 3) :
    moment uc m g k = 2695 / 10000 * turned uc g (cartMoment uc m) k := by
  by_cases hθ : g.2 = 0
  · unfold moment turned
    simp [hθ]
  · exact congrFun ((moment_iff hu hθ (det_ne hu hi)).2 hk m) k

/-- **C76** The magnetic structure factor is the sum over all atoms of the unit cell with a moment of `0.2695`, form factor, occupancy, wave,
displacement factor and moment in the Cartesian frame; the moments of equivalent atoms are carried into each other, as axial vectors, by the
magnetic operations. -/
theorem f_m_unit_cell (orb : Bool) (hb : ∀ g ∈ G, 0 < g.1.bd) (hG : IsGroup (G.map Prod.fst))
    (hN : (G.map Prod.fst).Pairwise fun a b => ¬ SameOp a b) (hu : Cell.NonDegenerate uc) (hi : Isometries G uc)
    (hk : ∀ g ∈ G, KeepsLengths uc g.1.r) (atoms : List OAtom) (h : V3) (hx : ∀ a ∈ atoms, (siteOf a.x).val = a.x)
    (cell : OAtom → List (Q3 × ℝ × (Fin 3 → ℝ))) (horb : ∀ a ∈ atoms, IsOrbitList (G.map Prod.fst) a.x ((cell a).map Prod.fst))
    (hcell : ∀ a ∈ atoms, ∀ p ∈ cell a, ∀ g ∈ G, Lat (act g.1 a.x) p.1 →
      dwO uc h a g.1.r = p.2.1 ∧ turned uc g (cartMoment uc a.m) = p.2.2) (k : Fin 3) :
    fM orb G uc atoms h k = (atoms.map fun a => ((cell a).map fun p =>
      2695 / 10000 * (formFactor orb uc h a : ℂ) * a.occ * ph (hdot h p.1) * (p.2.1 : ℂ) * (p.2.2 k : ℂ)).sum).sum := by
  rw [f_m_average]
  refine congrArg List.sum (List.map_congr_left fun a ha => ?_)
  have := orbit_average hb hG hN h a.x (hx a ha) (fun g => dwO uc h a g.1.r * moment uc a.m g k)
    ((cell a).map fun p => (p.1, p.2.1 * (2695 / 10000 * p.2.2 k))) (by
      have := horb a ha
      rwa [List.map_map, show (Prod.fst ∘ fun p : Q3 × ℝ × (Fin 3 → ℝ) => (p.1, p.2.1 * (2695 / 10000 * p.2.2 k))) = Prod.fst from rfl])
    (by
      intro p hp g hg hl
      obtain ⟨q, hq, rfl⟩ := List.mem_map.1 hp
      obtain ⟨e1, e2⟩ := hcell a ha q hq g hg hl
      rw [moment_turned hu (hk g hg) (hi g hg), e1, e2])
  rw [this, List.map_map, ← sum_map_mul_left]
  refine congrArg List.sum (List.map_congr_left fun p _ => ?_)
  simp only [Function.comp]
  push_cast
  ring

theorem dwO_mmul (h : V3) (a : OAtom) (g r : M3)
    (hsth : Cell.calc_sthovl (hklR (rowMul h g)) uc = Cell.calc_sthovl (hklR h) uc) :
    dwO uc h a (mmul g r) = dwO uc (rowMul h g) a r := by
  have := dw_mmul uc h ⟨a.x, a.occ, 0, a.bIso, a.beta⟩ g r hsth
  exact this

theorem turned_mul (hu : Cell.NonDegenerate uc) {g e c : Elem × ℤ} (hp : IsProd g.1 e.1 c.1) (hc : c.2 = g.2 * e.2) (M : Fin 3 → ℝ) :
    turned uc c M = turned uc g (turned uc e M) := by
  unfold turned
  have hr := rot_of_isProd hp
  rw [hr, Sft.rotR_mmul, hc, Matrix.det_mul, Sft.rotC_eq uc hu, Sft.rotC_eq uc hu, Sft.rotC_eq uc hu, Sft.toM_pr5_mmul uc hu,
    Matrix.mulVec_smul, Matrix.mulVec_mulVec, smul_smul]
  push_cast
  congr 1
  ring

/-- **C76** Equivalent reflections: the structure factors of `h` and of its image `h R` under a magnetic operation `x ↦ R x + t`, `θ` of the
group are related by the wave, the time reversal and the rotation of an axial vector. -/
theorem f_m_equivalent (orb : Bool) (hG : IsMGroup G) (hN : G.Pairwise fun a b => ¬ (SameOp a.1 b.1 ∧ a.2 = b.2))
    (hu : Cell.NonDegenerate uc) (hi : Isometries G uc) (hk : ∀ g ∈ G, KeepsLengths uc g.1.r) (atoms : List OAtom) (h : V3)
    {g : Elem × ℤ} (hg : g ∈ G) (k : Fin 3) :
    fM orb G uc atoms h k = ph (hdot h g.1.shift.val) * ((g.2 : ℝ) * (rotR g.1.r).det : ℝ) *
      ∑ l, (Sft.rotC uc g.1.r k l : ℂ) * fM orb G uc atoms (rowMul h g.1.r) l := by
  have hsth := sthovl_equivalent uc hu h g.1.r (hi g hg)
  simp only [f_m_average]
  have hff : ∀ a, formFactor orb uc (rowMul h g.1.r) a = formFactor orb uc h a := by
    intro a
    unfold formFactor
    rw [hsth]
  simp only [hff]
  have push : ∀ (F : Fin 3 → OAtom → ℂ), ∑ l, (Sft.rotC uc g.1.r k l : ℂ) * (atoms.map (F l)).sum =
      (atoms.map fun a => ∑ l, (Sft.rotC uc g.1.r k l : ℂ) * F l a).sum := by
    intro F
    simp only [Fin.sum_univ_three, sum_map_add, sum_map_mul_left]
  rw [push, ← sum_map_mul_left]
  refine congrArg List.sum (List.map_congr_left fun a _ => ?_)
  have key := sum_left_mul hG hN hg (fun e => ph (hdot h (act e.1 a.x)) * ((dwO uc h a e.1.r * moment uc a.m e k : ℝ) : ℂ))
    (fun e => ph (hdot h g.1.shift.val) * ((g.2 : ℝ) * (rotR g.1.r).det : ℝ) * ∑ l, (Sft.rotC uc g.1.r k l : ℂ) *
      (ph (hdot (rowMul h g.1.r) (act e.1 a.x)) * ((dwO uc (rowMul h g.1.r) a e.1.r * moment uc a.m e l : ℝ) : ℂ)))
    (by
      intro e he c hc hp hθ
      have e1 : dwO uc h a c.1.r = dwO uc (rowMul h g.1.r) a e.1.r := by
        rw [rot_of_isProd hp, dwO_mmul h a _ _ hsth]
      have e2 : moment uc a.m c k = ((g.2 : ℝ) * (rotR g.1.r).det) * ∑ l, Sft.rotC uc g.1.r k l * moment uc a.m e l := by
        rw [moment_turned hu (hk c hc) (hi c hc), turned_mul hu hp hθ]
        simp only [moment_turned hu (hk e he) (hi e he)]
        conv_lhs => unfold turned
        simp only [Pi.smul_apply, smul_eq_mul, Matrix.mulVec, dotProduct, Fin.sum_univ_three, turned]
        ring
      rw [hdot_lat (hp a.x), hdot_act, ph_add, e1, e2]
      simp only [Fin.sum_univ_three]
      push_cast
      ring)
  rw [key]
  simp only [Fin.sum_univ_three, sum_map_mul_left, sum_map_add]
  ring

/-- **C76** Magnetic extinctions: if a translation `t` belongs to the group with sign `θ` and `θ exp(-2πi h·t)` is not one, the reflection
`h` has no magnetic structure factor; in particular a grey group (`t` zero, `θ` minus one) gives none at all. -/
theorem f_m_extinct (orb : Bool) (hG : IsMGroup G) (hN : G.Pairwise fun a b => ¬ (SameOp a.1 b.1 ∧ a.2 = b.2))
    (hu : Cell.NonDegenerate uc) (hi : Isometries G uc) (hk : ∀ g ∈ G, KeepsLengths uc g.1.r) (atoms : List OAtom) (h : V3)
    {g : Elem × ℤ} (hg : g ∈ G) (hr : g.1.r = idElem.r) (hne : (g.2 : ℂ) * ph (hdot h g.1.shift.val) ≠ 1) (k : Fin 3) :
    fM orb G uc atoms h k = 0 := by
  have e := f_m_equivalent orb hG hN hu hi hk atoms h hg k
  have h1 : rowMul h g.1.r = h := by
    rw [hr]
    funext j
    fin_cases j <;> simp [rowMul, idElem, Fin.sum_univ_three]
  have h2 : rotR g.1.r = 1 := by
    rw [hr]
    ext i j
    fin_cases i <;> fin_cases j <;> simp [rotR, idElem]
  have h3 : Sft.rotC uc g.1.r = 1 := by
    unfold Sft.rotC
    rw [h2, Matrix.mul_one, Matrix.inv_eq_right_inv (Cell.m_inv_m_spec uc hu).1, (Cell.m_inv_m_spec uc hu).1]
  rw [h1, h2, h3] at e
  have e' : fM orb G uc atoms h k = (g.2 : ℂ) * ph (hdot h g.1.shift.val) * fM orb G uc atoms h k := by
    conv_lhs => rw [e]
    simp only [Matrix.det_one, mul_one, Complex.ofReal_intCast, Matrix.one_apply]
    rw [Finset.sum_eq_single k]
    · simp only [if_true, Complex.ofReal_one, one_mul]; ring
    · intro b _ hb; simp [Ne.symm hb]
    · simp
  have : ((g.2 : ℂ) * ph (hdot h g.1.shift.val) - 1) * fM orb G uc atoms h k = 0 := by
    rw [sub_mul, one_mul, ← e', sub_self]
  exact (mul_eq_zero.1 this).resolve_left (sub_ne_zero.2 hne)

/-- **C76** Friedel pairs have conjugate structure factors. -/
theorem f_m_friedel (orb : Bool) (G : List (Elem × ℤ)) (uc : Fin 6 → ℝ) (atoms : List OAtom) (h : V3) (k : Fin 3) :
    fM orb G uc atoms (-h) k = (starRingEnd ℂ) (fM orb G uc atoms h k) := by
  have hsth : Cell.calc_sthovl (hklR (-h)) uc = Cell.calc_sthovl (hklR h) uc := by
    unfold hklR Cell.calc_sthovl Cell.calc_inv_d
    simp [neg_div]
  have hdw : ∀ a r, dwO uc (-h) a r = dwO uc h a r := by
    intro a r
    unfold dwO
    rw [hsth]
    unfold Adp.dwf Adp.power_aniso hklR
    simp
    ring_nf
  have hff : ∀ a, formFactor orb uc (-h) a = formFactor orb uc h a := by
    intro a; unfold formFactor; rw [hsth]
  have hph : ∀ x, ph (hdot (-h) x) = (starRingEnd ℂ) (ph (hdot h x)) := by
    intro x
    rw [ph_conj]
    congr 1
    unfold hdot
    simp
    ring
  rw [f_m_average, f_m_average, conj_sum]
  refine congrArg List.sum (List.map_congr_left fun a _ => ?_)
  simp only [hff, hdw, hph, map_mul, map_div₀, conj_sum, Complex.conj_ofReal, Complex.conj_natCast]

end Cryspy.Ord
