import Verif.MemSf.Props
import Verif.Constr.Props
import Verif.Sft.Example

/-!
# The susceptibility of the points respects the symmetry
-/

namespace Cryspy.MemSf

open Symm Sf Real Matrix

theorem rot_one {e : Elem} (he : ∀ x, Lat (act e x) x) : e.r = idElem.r := by
  have : IsProd e idElem idElem := fun x => by
    rw [act_idElem]; exact (he x).symm
  have h := rot_of_isProd this
  rw [h]
  funext i j
  revert i j
  apply fin3 <;> apply fin3 <;> simp [mmul, idElem]

theorem op_col (e : Elem) : Constr.op (colOf e) = (rotR e.r, 1) := by
  unfold Constr.op colOf
  congr 1
  ext i j
  fin_cases i <;> fin_cases j <;> rfl

theorem rotR_id : rotR idElem.r = 1 := by
  ext i j
  fin_cases i <;> fin_cases j <;> simp [rotR, idElem]

theorem rotR_inj {a b : M3} (h : rotR a = rotR b) : a = b := by
  funext i j
  have := congrFun (congrFun h i) j
  simpa [rotR] using this

/-- The operations that keep a point form a group, listed once. -/
theorem stabiliser_isSiteGroup {G : List Elem} (hG : IsGroup G) (hN : G.Pairwise fun a b => ¬ SameOp a b) (hb : ∀ e ∈ G, 0 < e.bd)
    {x : Shift} (hx : 0 < x.d) : Constr.IsSiteGroup ((G.filter (symmFlag · x)).map colOf) := by
  have hm : ∀ e, e ∈ G.filter (symmFlag · x) ↔ e ∈ G ∧ Lat (act e x.val) x.val := by
    intro e
    rw [List.mem_filter]
    constructor
    · rintro ⟨h1, h2⟩; exact ⟨h1, (symmFlag_iff (hb e h1) hx).1 h2⟩
    · rintro ⟨h1, h2⟩; exact ⟨h1, (symmFlag_iff (hb e h1) hx).2 h2⟩
  have hop : (fun e => Constr.op (colOf e)) = fun e : Elem => (rotR e.r, (1 : ℝ)) := funext op_col
  refine ⟨?_, ?_, ?_, ?_⟩
  · rw [List.map_map]
    show ((G.filter (symmFlag · x)).map fun e => Constr.op (colOf e)).Nodup
    rw [hop]
    refine List.Pairwise.map _ (fun _ _ h => h) ?_
    refine List.Pairwise.imp_of_mem ?_ (hN.filter (symmFlag · x))
    intro a b ha hb' hne heq
    apply hne
    have hr : a.r = b.r := rotR_inj (Prod.mk.inj heq).1
    have h1 := ((hm a).1 ha).2
    have h2 := ((hm b).1 hb').2
    have h3 := h1.trans h2.symm
    intro y k
    obtain ⟨z, hz⟩ := h3 k
    refine ⟨z, ?_⟩
    rw [← hz]
    unfold act
    rw [hr]
    ring
  · obtain ⟨e, he, h1⟩ := hG.one
    refine List.mem_map.2 ⟨colOf e, List.mem_map.2 ⟨e, (hm e).2 ⟨he, h1 _⟩, rfl⟩, ?_⟩
    rw [op_col, rot_one h1, rotR_id]; rfl
  · intro a ha b hb'
    simp only [List.mem_map] at ha hb'
    obtain ⟨_, ⟨a, ha, rfl⟩, rfl⟩ := ha
    obtain ⟨_, ⟨b, hb', rfl⟩, rfl⟩ := hb'
    obtain ⟨c, hc, hp⟩ := hG.mul a ((hm a).1 ha).1 b ((hm b).1 hb').1
    refine List.mem_map.2 ⟨colOf c, List.mem_map.2 ⟨c, (hm c).2 ⟨hc, ?_⟩, rfl⟩, ?_⟩
    · exact ((hp _).trans (((hm b).1 hb').2.act a)).trans ((hm a).1 ha).2
    · rw [op_col, op_col, op_col, rot_of_isProd hp, Sft.rotR_mmul, Prod.mk_mul_mk, one_mul]
  · intro a ha
    simp only [List.mem_map] at ha
    obtain ⟨_, ⟨a, ha, rfl⟩, rfl⟩ := ha
    obtain ⟨b, hb', hinv⟩ := hG.inv a ((hm a).1 ha).1
    refine ⟨Constr.op (colOf b), List.mem_map.2 ⟨colOf b, List.mem_map.2 ⟨b, (hm b).2 ⟨hb', ?_⟩, rfl⟩, rfl⟩, ?_⟩
    · exact (((hm a).1 ha).2.act b).symm.trans (hinv _)
    · have : IsProd b a idElem := fun y => by rw [act_idElem]; exact (hinv y).symm
      rw [op_col, op_col, Prod.mk_mul_mk, one_mul, ← Sft.rotR_mmul, ← rot_of_isProd this, rotR_id]; rfl

theorem cart_col (uc : Fin 6 → ℝ) (e : Elem) : Constr.cart uc (colOf e) = Sft.rotC uc e.r := by
  unfold Constr.cart Sft.rotC
  congr 2
  ext i j
  fin_cases i <;> fin_cases j <;> rfl

/-- **C69** The susceptibility that the program gives to a point is invariant under the operations that keep the point. -/
theorem pointSusceptibility_invariant {G : List Elem} (hG : IsGroup G) (hN : G.Pairwise fun a b => ¬ SameOp a b)
    (hb : ∀ e ∈ G, 0 < e.bd) {uc : Fin 6 → ℝ} (hu : Cell.NonDegenerate uc)
    (hi : ∀ g ∈ G, (rotR g.r)ᵀ * Cell.metric uc * rotR g.r = Cell.metric uc) {x : Shift} (hx : 0 < x.d) (q : Fin 6 → ℝ) (r : M3)
    {g : Elem} (hg : g ∈ G) (hgx : Lat (act g x.val) x.val) :
    Sft.rotC uc g.r * Mat.toM (pointSusceptibility uc G x q r) * (Sft.rotC uc g.r)ᵀ = Mat.toM (pointSusceptibility uc G x q r) := by
  have hm : colOf g ∈ (G.filter (symmFlag · x)).map colOf :=
    List.mem_map.2 ⟨g, List.mem_filter.2 ⟨hg, (symmFlag_iff (hb g hg) hx).2 hgx⟩, rfl⟩
  have := Constr.chi_full_invariant (stabiliser_isSiteGroup hG hN hb hx) hu (Mat.calc_m_q_inv_m (Sft.pr5 uc r) q) hm
  rw [cart_col] at this
  have ho := Sft.pr5_orthogonal uc hu g.r (hi g hg)
  rw [← Sft.rotC_eq uc hu] at ho
  rw [Matrix.inv_eq_left_inv ho] at this
  unfold pointSusceptibility
  simpa [colOf] using this

theorem rotC_mul {uc : Fin 6 → ℝ} (hu : Cell.NonDegenerate uc) {a b c : Elem} (h : IsProd a b c) :
    Sft.rotC uc c.r = Sft.rotC uc a.r * Sft.rotC uc b.r := by
  rw [Sft.rotC_eq uc hu, Sft.rotC_eq uc hu, Sft.rotC_eq uc hu, rot_of_isProd h, Sft.toM_pr5_mmul uc hu]

theorem conj_trans {A B X : Matrix (Fin 3) (Fin 3) ℝ} : A * (B * X * Bᵀ) * Aᵀ = (A * B) * X * (A * B)ᵀ := by
  rw [Matrix.transpose_mul]; simp only [Matrix.mul_assoc]

variable {G : List Elem} {na nb nc : ℕ}

local notation "nn" => (![(na : ℤ), (nb : ℤ), (nc : ℤ)] : V3)

/-- Tensors at the points of the asymmetric unit, each invariant under the symmetry of its point, extend in one way to a field of
tensors that respects the symmetry. -/
theorem extend_field (hG : IsGroup G) (hC : ∀ e ∈ G, Compat e nn) {reps : List (V3 × ℕ)} (hr : asymUnit G na nb nc = some reps)
    {uc : Fin 6 → ℝ} (hu : Cell.NonDegenerate uc) (X : V3 → Matrix (Fin 3) (Fin 3) ℝ)
    (hX : ∀ rc ∈ reps, ∀ g ∈ G, Lat (act g (fp nn rc.1)) (fp nn rc.1) →
      Sft.rotC uc g.r * X rc.1 * (Sft.rotC uc g.r)ᵀ = X rc.1) :
    ∃ T, Equivariant uc G nn T ∧ ∀ rc ∈ reps, T rc.1 = X rc.1 := by
  classical
  obtain ⟨reps', hr', hnd, hcnt, huniq, -⟩ := asym_unit_spec G na nb nc hG hC
  obtain rfl : reps' = reps := Option.some.inj (hr'.symm.trans hr)
  -- two ways to the same point give the same tensor
  have key : ∀ rc ∈ reps', ∀ g ∈ G, ∀ g' ∈ G, Lat (act g (fp nn rc.1)) (act g' (fp nn rc.1)) →
      Sft.rotC uc g.r * X rc.1 * (Sft.rotC uc g.r)ᵀ = Sft.rotC uc g'.r * X rc.1 * (Sft.rotC uc g'.r)ᵀ := by
    intro rc hrc g hg g' hg' hl
    obtain ⟨b, hb, hinv⟩ := hG.inv g' hg'
    obtain ⟨c, hc, hp⟩ := hG.mul b hb g hg
    have hst : Lat (act c (fp nn rc.1)) (fp nn rc.1) := (hp _).trans ((hl.act b).trans (hinv _))
    have h1 := hX rc hrc c hc hst
    -- g' b = 1 in the Cartesian frame
    have hbg : IsProd b g' idElem := fun y => by rw [act_idElem]; exact (hinv y).symm
    have h2 := rotC_mul hu hbg
    have h3 : Sft.rotC uc idElem.r = 1 := by
      unfold Sft.rotC
      rw [rotR_id, Matrix.mul_one, Matrix.mul_nonsing_inv]
      have := Cell.m_inv_m_spec uc hu
      exact (Matrix.isUnit_iff_isUnit_det _).1 ⟨⟨_, _, this.1, this.2⟩, rfl⟩
    rw [h3] at h2
    have h4 : Sft.rotC uc g'.r * Sft.rotC uc b.r = 1 := mul_eq_one_comm.1 h2.symm
    have h5 : Sft.rotC uc g'.r * Sft.rotC uc c.r = Sft.rotC uc g.r := by
      rw [rotC_mul hu hp, ← Matrix.mul_assoc, h4, Matrix.one_mul]
    rw [← h5, ← conj_trans, h1]
  have hex : ∀ q, InCell nn q → ∃ rc ∈ reps', ∃ g ∈ G, Lat (act g (fp nn rc.1)) (fp nn q) := by
    intro q hq
    obtain ⟨r, ⟨hr1, g, hg, hl⟩, -⟩ := huniq q hq
    obtain ⟨rc, hrc, rfl⟩ := List.mem_map.1 hr1
    exact ⟨rc, hrc, g, hg, hl⟩
  have : Inhabited Elem := ⟨idElem⟩
  choose! rep hrep op hop hlat using hex
  refine ⟨fun q => Sft.rotC uc (op q).r * X (rep q).1 * (Sft.rotC uc (op q).r)ᵀ, ?_, ?_⟩
  · intro p q hp hq g hg hl
    obtain ⟨c, hc, hpr⟩ := hG.mul g hg (op p) (hop p hp)
    have hlc : Lat (act c (fp nn (rep p).1)) (fp nn q) := (hpr _).trans (((hlat p hp).act g).trans hl)
    have hsame : (rep q).1 = (rep p).1 := (huniq q hq).unique
      ⟨List.mem_map.2 ⟨_, hrep q hq, rfl⟩, op q, hop q hq, hlat q hq⟩ ⟨List.mem_map.2 ⟨_, hrep p hp, rfl⟩, c, hc, hlc⟩
    show _ = Sft.rotC uc g.r * (Sft.rotC uc (op p).r * X (rep p).1 * (Sft.rotC uc (op p).r)ᵀ) * (Sft.rotC uc g.r)ᵀ
    rw [conj_trans, ← rotC_mul hu hpr]
    have hq' := hlat q hq
    beta_reduce
    rw [hsame] at hq' ⊢
    exact key (rep p) (hrep p hp) (op q) (hop q hq) c hc (hq'.trans hlc.symm)
  · intro rc hrc
    have hin := (hcnt rc hrc).1
    obtain ⟨e, he, h1⟩ := hG.one
    have hsame : (rep rc.1).1 = rc.1 := (huniq rc.1 hin).unique
      ⟨List.mem_map.2 ⟨_, hrep _ hin, rfl⟩, op rc.1, hop _ hin, hlat _ hin⟩ ⟨List.mem_map.2 ⟨rc, hrc, rfl⟩, e, he, h1 _⟩
    have hl := hlat _ hin
    show Sft.rotC uc (op rc.1).r * X (rep rc.1).1 * (Sft.rotC uc (op rc.1).r)ᵀ = X rc.1
    rw [hsame] at hl ⊢
    exact hX rc hrc _ (hop _ hin) hl

/-- **C69** With the susceptibilities that the program gives to the points, whatever atom and operation is assigned to each point, the
structure factor is the Fourier sum over all points of the cell of `ρ χ H` for a field of tensors `χ` that respects the symmetry of the crystal
and equals the susceptibilities of the program at the points of the asymmetric unit. -/
theorem f_chi_program (hG : IsGroup G) (hN : G.Pairwise fun a b => ¬ SameOp a b) (hC : ∀ e ∈ G, Compat e nn) {reps pts : List (V3 × ℕ)}
    (hr : asymUnit G na nb nc = some reps) (hs : pts.Sublist reps) (uc : Fin 6 → ℝ) (huc : Cell.NonDegenerate uc)
    (hi : ∀ g ∈ G, (rotR g.r)ᵀ * Cell.metric uc * rotR g.r = Cell.metric uc) (q : V3 → Fin 6 → ℝ) (r : V3 → M3) (density : V3 → ℝ)
    (hd : Invariant G nn density) (h0 : ∀ rc ∈ reps, rc ∉ pts → density rc.1 = 0) :
    ∃ T, Equivariant uc G nn T ∧
      (∀ rc ∈ reps, T rc.1 = Mat.toM (pointSusceptibility uc G (pointOf nn rc.1) (q rc.1) (r rc.1))) ∧
      ∀ (h : V3) (_ : h ≠ 0) (H : Fin 3 → ℝ) (v : ℝ) (k : Fin 3),
        fChi uc nn h H G pts (fun p => pointSusceptibility uc G (pointOf nn p) (q p) (r p)) density v (na * nb * nc) k =
          2695 / 10000 * (v / (na * nb * nc)) * cellWave nn h (fun p => density p • perp uc h (T p *ᵥ H)) k := by
  have hn := nn_pos hG hC
  have hb : ∀ e ∈ G, 0 < e.bd := fun e he => (hC e he).bd_pos
  obtain ⟨T, hT, hX⟩ := extend_field hG hC hr huc (fun p => Mat.toM (pointSusceptibility uc G (pointOf nn p) (q p) (r p))) (by
    intro rc _ g hg hl
    rw [← pointOf_val hn] at hl
    exact pointSusceptibility_invariant hG hN hb huc hi (pointOf_pos hn _) _ _ hg hl)
  refine ⟨T, hT, hX, fun h hh H v k => ?_⟩
  exact f_chi_cell hG hN hC hr hs uc huc hi h hh H density hd T hT _ (fun rc hrc => (hX rc (hs.subset hrc)).symm) h0 v k

/-- **C69** The multiplicity that the program computes when none is given is the one of the asymmetric unit. -/
theorem multiplicity_agrees (hG : IsGroup G) (hN : G.Pairwise fun a b => ¬ SameOp a b) (hC : ∀ e ∈ G, Compat e nn)
    {reps : List (V3 × ℕ)} (hr : asymUnit G na nb nc = some reps) : ∀ rc ∈ reps, multiplicity G (pointOf nn rc.1) = rc.2 := by
  classical
  obtain ⟨reps', hr', hnd, hcnt, huniq, -⟩ := asym_unit_spec G na nb nc hG hC
  obtain rfl : reps' = reps := Option.some.inj (hr'.symm.trans hr)
  intro rc hrc
  have hn := nn_pos hG hC
  rw [(hcnt rc hrc).2]
  have : ({q | InCell nn q ∧ EquivPoint G nn rc.1 q} : Set V3) = (orbit G nn rc.1 : Finset V3) := by
    ext q; simp [mem_orbit]
  rw [this, Set.ncard_coe_finset, ← Finset.length_toList, ← List.length_map (f := fp nn)]
  refine multiplicity_counts_images G hG hN (fun e he => (hC e he).bd_pos) _ (pointOf_pos hn _) _ ⟨?_, ?_, ?_⟩
  · rw [List.pairwise_map]
    refine List.Pairwise.imp_of_mem ?_ (Finset.nodup_toList _)
    intro a b ha hb hne hl
    rw [Finset.mem_toList, mem_orbit] at ha hb
    exact hne (inCell_unique ha.1 hb.1 hl)
  · intro e he
    have h1 := grid_image_exact e nn rc.1 (hC e he)
    rw [pointOf_val hn]
    exact ⟨_, List.mem_map.2 ⟨applyIndex e rc.1 nn, by
      rw [Finset.mem_toList, mem_orbit]; exact ⟨h1.1, e, he, h1.2.symm⟩, rfl⟩, h1.2.symm⟩
  · intro y hy
    obtain ⟨q, hq, rfl⟩ := List.mem_map.1 hy
    rw [Finset.mem_toList, mem_orbit] at hq
    rw [pointOf_val hn]
    exact hq.2

/-- The hypotheses are met: P4₂ on a grid of 4 × 4 × 2 points in a tetragonal cell, and its asymmetric unit has fewer points than the cell. -/
example : IsGroup exG ∧ (exG.Pairwise fun a b => ¬ SameOp a b) ∧ (∀ e ∈ exG, Compat e ![((4 : ℕ) : ℤ), ((4 : ℕ) : ℤ), ((2 : ℕ) : ℤ)]) ∧
    Cell.NonDegenerate Hkl.tetUC ∧ (∀ g ∈ exG, (rotR g.r)ᵀ * Cell.metric Hkl.tetUC * rotR g.r = Cell.metric Hkl.tetUC) ∧
    Invariant exG ![4, 4, 2] (fun p => if p 0 = 0 ∧ p 1 = 0 then 1 else 0) := by
  refine ⟨exG_isGroup, exG_distinct, exG_compat, Hkl.tetUC_nonDegenerate, ?_, ?_⟩
  · have := Sft.exSym_isometries
    unfold Sft.Isometries at this
    rwa [exSym_full] at this
  · rintro p q hp hq ⟨e, he, hl⟩
    have h1 := grid_image_exact e ![4, 4, 2] p (exG_compat e he)
    have : applyIndex e p ![4, 4, 2] = q := inCell_unique h1.1 hq (h1.2.trans hl)
    subst this
    have a0 := hp 0
    have a1 := hp 1
    simp only [exG, List.mem_cons, List.not_mem_nil, or_false] at he
    have n0 : (![4, 4, 2] : V3) 0 = 4 := rfl
    have n1 : (![4, 4, 2] : V3) 1 = 4 := rfl
    rw [n0] at a0
    rw [n1] at a1
    rcases he with rfl | rfl | rfl | rfl <;>
      simp [applyIndex, idElem, ex4, ex2, ex43] <;> congr 1 <;> apply propext <;> constructor <;> intro hh <;>
      (try constructor) <;> omega

end Cryspy.MemSf
