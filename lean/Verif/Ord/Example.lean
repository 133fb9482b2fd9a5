import Verif.Ord.Perp

/-!
# The hypotheses of the theorems on ordered moments are met: an antiferromagnet with group P4₂'
-/

namespace Cryspy.Ord

open Symm Sf Matrix

/-- The fourfold rotations are combined with time reversal. -/
def exSign (e : Elem) : ℤ := 2 * (e.r 0 0) ^ 2 - 1

/-- The magnetic group P4₂'. -/
def exMG : List (Elem × ℤ) := exG.map fun e => (e, exSign e)

theorem exMG_fst : exMG.map Prod.fst = exG := by
  unfold exMG
  rw [List.map_map]
  exact List.map_id _

theorem exMG_isMGroup : IsMGroup exMG := by
  have hs : ∀ a ∈ exG, ∀ b ∈ exG, ∀ c : Elem, IsProd a b c → exSign c = exSign a * exSign b := by
    intro a ha b hb c hc
    have hr := rot_of_isProd hc
    unfold exSign
    rw [hr]
    simp only [exG, List.mem_cons, List.not_mem_nil, or_false] at ha hb
    rcases ha with rfl | rfl | rfl | rfl <;> rcases hb with rfl | rfl | rfl | rfl <;> decide
  have hg := exG_isGroup
  refine ⟨?_, ?_, ?_⟩
  · obtain ⟨e, he, h1⟩ := hg.one
    refine ⟨(e, exSign e), List.mem_map_of_mem he, h1, ?_⟩
    have : IsProd e e e := fun x => by
      have h2 := h1 (act e x)
      have h3 := h1 x
      intro k
      obtain ⟨z, hz⟩ := h2 k
      exact ⟨-z, by push_cast; linarith⟩
    have h2 := hs e he e he e this
    have h3 : exSign e = 1 ∨ exSign e = -1 := by
      simp only [exG, List.mem_cons, List.not_mem_nil, or_false] at he
      rcases he with rfl | rfl | rfl | rfl <;> decide
    rcases h3 with h | h
    · exact h
    · rw [h] at h2; norm_num at h2
  · intro a ha b hb
    obtain ⟨a, ha', rfl⟩ := List.mem_map.1 ha
    obtain ⟨b, hb', rfl⟩ := List.mem_map.1 hb
    obtain ⟨c, hc, hp⟩ := hg.mul a ha' b hb'
    exact ⟨(c, exSign c), List.mem_map_of_mem hc, hp, hs a ha' b hb' c hp⟩
  · intro a ha
    obtain ⟨a, ha', rfl⟩ := List.mem_map.1 ha
    obtain ⟨b, hb, hi⟩ := hg.inv a ha'
    refine ⟨(b, exSign b), List.mem_map_of_mem hb, hi, ?_⟩
    have hp : IsProd b a idElem := fun x => by
      have h1 := hi x
      intro k
      obtain ⟨z, hz⟩ := h1 k
      refine ⟨-z, ?_⟩
      have : act idElem x k = x k := by
        revert k
        apply Mat.fin3 <;> intros <;> simp [act, idElem, Fin.sum_univ_three]
      rw [this]; push_cast; linarith
    have := hs b hb a ha' idElem hp
    rw [show exSign idElem = 1 by decide] at this
    exact this.symm

theorem exMG_isometries : Isometries exMG Hkl.tetUC := by
  intro g hg
  obtain ⟨e, he, rfl⟩ := List.mem_map.1 hg
  have := Sft.exSym_isometries
  unfold Sft.Isometries at this
  rw [exSym_full] at this
  exact this e he

theorem exMG_keeps : ∀ g ∈ exMG, KeepsLengths Hkl.tetUC g.1.r := by
  intro g hg
  obtain ⟨e, he, rfl⟩ := List.mem_map.1 hg
  simp only [exG, List.mem_cons, List.not_mem_nil, or_false] at he
  have h0 : edge Hkl.tetUC 0 = edge Hkl.tetUC 1 := by simp [edge, Hkl.tetUC]
  intro i j hij
  rcases he with rfl | rfl | rfl | rfl <;> fin_cases i <;> fin_cases j <;>
    first
      | rfl
      | exact h0
      | exact h0.symm
      | exact absurd (by decide) hij

/-- An atom at `(1/2, 0, 0)` with a moment along the fourfold axis. -/
noncomputable def exAtom : OAtom :=
  { x := ![1 / 2, 0, 0], occ := 1, bIso := 1, beta := 0, lande := 2, kappa := 1, j0 := fun _ => 1, j2 := fun _ => 1, m := ![0, 0, 3] }

theorem ex_turned {g : Elem × ℤ} (hg : g ∈ exMG) :
    turned Hkl.tetUC g (cartMoment Hkl.tetUC exAtom.m) = (g.2 : ℝ) • cartMoment Hkl.tetUC exAtom.m := by
  have hu := Hkl.tetUC_nonDegenerate
  have hm := Cell.m_inv_m_spec Hkl.tetUC hu
  obtain ⟨e, he, rfl⟩ := List.mem_map.1 hg
  have hv : rotR e.r *ᵥ (fun i => exAtom.m i / edge Hkl.tetUC i) = fun i => exAtom.m i / edge Hkl.tetUC i := by
    simp only [exG, List.mem_cons, List.not_mem_nil, or_false] at he
    funext k
    rcases he with rfl | rfl | rfl | rfl <;> revert k <;> apply Mat.fin3 <;>
      simp [Matrix.mulVec, dotProduct, Fin.sum_univ_three, rotR, exAtom, idElem, ex4, ex2, ex43]
  have hd : (rotR e.r).det = 1 := by
    simp only [exG, List.mem_cons, List.not_mem_nil, or_false] at he
    rcases he with rfl | rfl | rfl | rfl <;> simp [Matrix.det_fin_three, rotR, idElem, ex4, ex2, ex43]
  unfold turned
  rw [hd, mul_one]
  congr 1
  unfold cartMoment Sft.rotC
  rw [Matrix.mulVec_mulVec, Matrix.inv_eq_right_inv hm.1, Matrix.mul_assoc, hm.2, Matrix.mul_one, ← Matrix.mulVec_mulVec, hv]

theorem not_int {q : ℚ} {z : ℤ} (h : q = z) (hq : q = 1 / 2 ∨ q = -1 / 2) : False := by
  have h2 : 2 * z = 1 ∨ 2 * z = -1 := by
    rcases hq with h' | h' <;> [left; right] <;>
    · have : (2 * z : ℚ) = 2 * q := by rw [h]
      rw [h'] at this
      norm_num at this
      exact_mod_cast this
  omega

/-- The hypotheses of the theorems are met: group, cell, an atom with two images in the cell that have opposite moments. -/
example (h : V3) : (∀ g ∈ exMG, 0 < g.1.bd) ∧ IsMGroup exMG ∧ IsGroup (exMG.map Prod.fst) ∧
    ((exMG.map Prod.fst).Pairwise fun a b => ¬ SameOp a b) ∧ (exMG.Pairwise fun a b => ¬ (SameOp a.1 b.1 ∧ a.2 = b.2)) ∧
    Cell.NonDegenerate Hkl.tetUC ∧ Isometries exMG Hkl.tetUC ∧ (∀ g ∈ exMG, KeepsLengths Hkl.tetUC g.1.r) ∧
    (siteOf exAtom.x).val = exAtom.x ∧ cartMoment Hkl.tetUC exAtom.m ≠ 0 ∧
    ∃ cell : OAtom → List (Q3 × ℝ × (Fin 3 → ℝ)), (∃ p q : Q3 × ℝ × (Fin 3 → ℝ), cell exAtom = [p, q] ∧ p.2.2 = -q.2.2) ∧
      IsOrbitList (exMG.map Prod.fst) exAtom.x ((cell exAtom).map Prod.fst) ∧
      ∀ p ∈ cell exAtom, ∀ g ∈ exMG, Lat (act g.1 exAtom.x) p.1 →
        dwO Hkl.tetUC h exAtom g.1.r = p.2.1 ∧ turned Hkl.tetUC g (cartMoment Hkl.tetUC exAtom.m) = p.2.2 := by
  have hd := exG_distinct
  have hg := exG_isGroup
  rw [exMG_fst]
  obtain ⟨d, ⟨c1, c2⟩, c3⟩ := exSym_cell Hkl.tetUC h ⟨exAtom.x, 1, 0, exAtom.bIso, exAtom.beta⟩ rfl rfl
  rw [exSym_full] at c1 c2
  have hdist := hd
  refine ⟨?_, exMG_isMGroup, hg, hd, ?_, Hkl.tetUC_nonDegenerate, exMG_isometries, exMG_keeps, c3, ?_,
    fun _ => [(![1 / 2, 0, 0], d, cartMoment Hkl.tetUC exAtom.m), (![0, 1 / 2, 1 / 2], d, -cartMoment Hkl.tetUC exAtom.m)],
    ⟨_, _, rfl, by simp⟩, c1, ?_⟩
  · intro g hg
    obtain ⟨e, he, rfl⟩ := List.mem_map.1 hg
    exact (exG_compat e he).bd_pos
  · unfold exMG
    rw [List.pairwise_map]
    exact hd.imp fun h hh => h hh.1
  · have hu := Hkl.tetUC_nonDegenerate
    have hm := Cell.m_inv_m_spec Hkl.tetUC hu
    intro h0
    have h1 := congrArg (fun v => Mat.toM (Cell.calc_m_inv_m Hkl.tetUC) *ᵥ v) h0
    simp only [cartMoment, Matrix.mulVec_mulVec, hm.2, Matrix.one_mulVec, Matrix.mulVec_zero] at h1
    have := congrFun h1 2
    simp [exAtom, edge, Hkl.tetUC] at this
  · intro p hp g hgm hl
    have hsite : ∀ y : Q3, p.1 = y → dwO Hkl.tetUC h exAtom g.1.r = d := by
      intro y _
      have : dwO Hkl.tetUC h exAtom g.1.r = dw Hkl.tetUC h ⟨exAtom.x, 1, 0, exAtom.bIso, exAtom.beta⟩ g.1.r := rfl
      rw [this]
      obtain ⟨e, he, rfl⟩ := List.mem_map.1 hgm
      simp only [List.mem_cons, List.not_mem_nil, or_false] at hp
      rcases hp with rfl | rfl
      · exact c2 (![1 / 2, 0, 0], d) (by simp) e he hl
      · exact c2 (![0, 1 / 2, 1 / 2], d) (by simp) e he hl
    refine ⟨?_, ?_⟩
    · rw [hsite _ rfl]
      simp only [List.mem_cons, List.not_mem_nil, or_false] at hp
      rcases hp with rfl | rfl <;> rfl
    · rw [ex_turned hgm]
      have key : ∀ (y : Q3) (s : ℤ), p.1 = y → (∀ e ∈ exG, Lat (act e exAtom.x) y → exSign e = s) → (g.2 : ℝ) = s := by
        intro y s hy hs
        obtain ⟨e, he, rfl⟩ := List.mem_map.1 hgm
        rw [hy] at hl
        exact_mod_cast hs e he hl
      simp only [List.mem_cons, List.not_mem_nil, or_false] at hp
      rcases hp with rfl | rfl
      · rw [key ![1 / 2, 0, 0] 1 rfl, Int.cast_one, one_smul]
        intro e he hl'
        simp only [exG, List.mem_cons, List.not_mem_nil, or_false] at he
        rcases he with rfl | rfl | rfl | rfl
        · decide
        · exfalso
          obtain ⟨z, hz⟩ := hl' 1
          exact not_int hz (by norm_num [act, ex4, exAtom, Fin.sum_univ_three, v3_2])
        · decide
        · exfalso
          obtain ⟨z, hz⟩ := hl' 1
          exact not_int hz (by norm_num [act, ex43, exAtom, Fin.sum_univ_three, v3_2])
      · rw [key ![0, 1 / 2, 1 / 2] (-1) rfl]
        · simp
        intro e he hl'
        simp only [exG, List.mem_cons, List.not_mem_nil, or_false] at he
        rcases he with rfl | rfl | rfl | rfl
        · exfalso
          obtain ⟨z, hz⟩ := hl' 0
          exact not_int hz (by norm_num [act, idElem, exAtom, Fin.sum_univ_three, v3_2])
        · decide
        · exfalso
          obtain ⟨z, hz⟩ := hl' 0
          exact not_int hz (by norm_num [act, ex2, exAtom, Fin.sum_univ_three, v3_2])
        · decide

end Cryspy.Ord
