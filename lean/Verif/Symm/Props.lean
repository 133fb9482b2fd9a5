import Verif.Symm.Lemmas2
import Mathlib.Data.Real.Basic
import Mathlib.Tactic.LinearCombination
import Mathlib.Data.Set.Function

/-!
# Properties C10 – C16: symmetry elements, grids, multiplicities and rational translations
-/

namespace Cryspy.Symm

theorem fin3 {P : Fin 3 → Prop} (h0 : P 0) (h1 : P 1) (h2 : P 2) : ∀ k, P k := by
  intro k; fin_cases k
  exacts [h0, h1, h2]

theorem v3_2 {α : Type} (a b c : α) : (![a, b, c] : Fin 3 → α) 2 = c := rfl

/-! ### A concrete group used for the non-vacuity examples: P4₂ (four elements, translations of 1/2) -/

/-- Fourfold rotation about `z` with translation `(0,0,1/2)`. -/
def ex4 : Elem := ⟨![0, 0, 1], 2, ![![0, -1, 0], ![1, 0, 0], ![0, 0, 1]]⟩
def ex2 : Elem := ⟨![0, 0, 0], 1, ![![-1, 0, 0], ![0, -1, 0], ![0, 0, 1]]⟩
def ex43 : Elem := ⟨![0, 0, 1], 2, ![![0, 1, 0], ![-1, 0, 0], ![0, 0, 1]]⟩
/-- The group P4₂. -/
def exG : List Elem := [idElem, ex4, ex2, ex43]

theorem ex4_mem : ex4 ∈ exG := by simp [exG]
theorem ex2_mem : ex2 ∈ exG := by simp [exG]
theorem exG_isGroup : IsGroup exG := isGroup_of_check (by decide)
theorem exG_compat : ∀ e ∈ exG, Compat e ![4, 4, 2] := by
  intro e he
  simp only [exG, List.mem_cons, List.not_mem_nil, or_false] at he
  rcases he with rfl | rfl | rfl | rfl <;>
    exact ⟨by decide, by decide, by decide, by decide⟩

/-! ### C10: action on grid points -/

/-- C10. The image of a grid point under an element is a point of the same grid in the unit cell, and it
is exactly the crystal image `R x + b` modulo lattice translations. -/
theorem grid_image_exact (e : Elem) (n p : V3) (h : Compat e n) :
    InCell n (applyIndex e p n) ∧ Lat (fp n (applyIndex e p n)) (act e (fp n p)) :=
  ⟨applyIndex_inCell p h, applyIndex_exact p h⟩

example : Compat ex4 ![4, 4, 2] ∧ applyIndex ex4 ![1, 2, 1] ![4, 4, 2] = ![2, 1, 0] :=
  ⟨exG_compat _ ex4_mem, by decide⟩

/-- C10. Applying two elements one after the other to a grid point is applying their product. -/
theorem grid_action_composes (a b c : Elem) (n p : V3) (ha : Compat a n) (hb : Compat b n) (hc : Compat c n)
    (h : IsProd a b c) : applyIndex a (applyIndex b p n) n = applyIndex c p n :=
  applyIndex_of_lat ha hb hc h

example : IsProd ex4 ex4 ex2 ∧ Compat ex4 ![4, 4, 2] ∧ Compat ex2 ![4, 4, 2] :=
  ⟨isProd_of_check (by decide) (by decide) (by decide) (by decide), exG_compat _ ex4_mem, exG_compat _ ex2_mem⟩

/-- C10. Each element of a group permutes the grid points of the cell. -/
theorem grid_action_permutes (G : List Elem) (n : V3) (hG : IsGroup G) (hC : ∀ e ∈ G, Compat e n)
    (e : Elem) (he : e ∈ G) : Set.BijOn (fun p => applyIndex e p n) {p | InCell n p} {p | InCell n p} := by
  obtain ⟨b, hb, hi⟩ := hG.inv e he
  obtain ⟨a, ha, hj⟩ := hG.inv b hb
  have hcanc : ∀ p, InCell n p → applyIndex b (applyIndex e p n) n = p := fun p hp =>
    applyIndex_id (hC b hb) (hC e he) hi hp
  -- the inverse of the inverse acts as the element itself
  have hright : ∀ x, Lat (act e (act b x)) x := by
    intro x
    have h1 : Lat (act a (act b (act e (act b x)))) (act a (act b x)) := (hi (act b x)).act a
    exact (hj _).symm.trans (h1.trans (hj x))
  refine ⟨fun p _ => applyIndex_inCell p (hC e he), ?_, ?_⟩
  · intro p hp q hq hpq
    have := congrArg (fun r => applyIndex b r n) hpq
    simpa [hcanc p hp, hcanc q hq] using this
  · intro q hq
    exact ⟨applyIndex b q n, applyIndex_inCell q (hC b hb), applyIndex_id (hC e he) (hC b hb) hright hq⟩

example : IsGroup exG ∧ (∀ e ∈ exG, Compat e ![4, 4, 2]) ∧ ex4 ∈ exG := ⟨exG_isGroup, exG_compat, ex4_mem⟩

/-- C10, the guard the code lacks: it checks that denominators divide the grid, but not that axes mixed by a
rotation have equal sizes.  On a 2x4x2 grid a fourfold axis of a valid group, whose denominators divide the
grid, identifies different points. -/
theorem grid_action_not_injective :
    IsGroup exG ∧ ex4 ∈ exG ∧ (∀ e ∈ exG, ∀ k, (![2, 4, 2] : V3) k % e.bd = 0) ∧
    ∃ p q, InCell ![2, 4, 2] p ∧ InCell ![2, 4, 2] q ∧ p ≠ q ∧
      applyIndex ex4 p ![2, 4, 2] = applyIndex ex4 q ![2, 4, 2] := by
  refine ⟨exG_isGroup, ex4_mem, by decide, ![0, 0, 0], ![0, 2, 0], ?_, ?_, by decide, by decide⟩
  · unfold InCell; decide
  · unfold InCell; decide

/-! ### C11: asymmetric unit -/

/-- C11. For a group on a matching grid the asymmetric unit contains exactly one representative of each
class of equivalent points; the count next to it is the size of the class, and the counts sum to the number
of points in the cell. -/
theorem asym_unit_spec (G : List Elem) (na nb nc : ℕ) (hG : IsGroup G)
    (hC : ∀ e ∈ G, Compat e ![(na : ℤ), (nb : ℤ), (nc : ℤ)]) :
    ∃ reps, asymUnit G na nb nc = some reps ∧
      (reps.map Prod.fst).Nodup ∧
      (∀ rc ∈ reps, InCell ![(na : ℤ), (nb : ℤ), (nc : ℤ)] rc.1 ∧
        rc.2 = Set.ncard {q | InCell ![(na : ℤ), (nb : ℤ), (nc : ℤ)] q ∧
          EquivPoint G ![(na : ℤ), (nb : ℤ), (nc : ℤ)] rc.1 q}) ∧
      (∀ p, InCell ![(na : ℤ), (nb : ℤ), (nc : ℤ)] p →
        ∃! r, r ∈ reps.map Prod.fst ∧ EquivPoint G ![(na : ℤ), (nb : ℤ), (nc : ℤ)] r p) ∧
      (reps.map Prod.snd).sum = na * nb * nc := by
  obtain ⟨vs, hnd, hmem, rep, hrep, hsum, heq⟩ := asymUnit_eq hG hC
  refine ⟨_, heq, ?_, ?_, ?_, ?_⟩
  · rw [List.map_map]
    apply List.Nodup.map_on _ hnd
    intro v hv w hw hvw
    simp only [Function.comp_apply] at hvw
    rw [← (hrep v hv).2.2, ← (hrep w hw).2.2, hvw]
  · intro rc hrc
    obtain ⟨v, hv, rfl⟩ := List.mem_map.mp hrc
    obtain ⟨h1, h2, h3⟩ := hrep v hv
    refine ⟨h1, ?_⟩
    have := count_orbit hG hC h1
    rw [h2] at this
    exact this
  · intro p hp
    have hv : mI G ![(na : ℤ), (nb : ℤ), (nc : ℤ)] p ∈ vs := (hmem _).mpr ⟨p, hp, rfl⟩
    obtain ⟨h1, h2, h3⟩ := hrep _ hv
    refine ⟨rep (mI G ![(na : ℤ), (nb : ℤ), (nc : ℤ)] p), ⟨?_, ?_⟩, ?_⟩
    · exact List.mem_map.mpr ⟨_, List.mem_map.mpr ⟨_, hv, rfl⟩, rfl⟩
    · exact (isImage_iff hC hp).mp ((mI_eq_iff hG hC h1 hp).mp h2)
    · rintro r ⟨hr, he⟩
      obtain ⟨rc, hrc, rfl⟩ := List.mem_map.mp hr
      obtain ⟨w, hw, rfl⟩ := List.mem_map.mp hrc
      obtain ⟨g1, g2, g3⟩ := hrep w hw
      have := (mI_eq_iff hG hC g1 hp).mpr ((isImage_iff hC hp).mpr he)
      rw [g2] at this
      rw [← this]
  · rw [List.map_map]; exact hsum

example : IsGroup exG ∧ ∀ e ∈ exG, Compat e ![((4 : ℕ) : ℤ), ((4 : ℕ) : ℤ), ((2 : ℕ) : ℤ)] :=
  ⟨exG_isGroup, exG_compat⟩

/-- C11. A grid that some denominator does not divide is refused with an error. -/
theorem asym_unit_refuses (G : List Elem) (na nb nc : ℕ) (e : Elem) (he : e ∈ G)
    (h : ∃ k, ¬ e.bd ∣ (![(na : ℤ), (nb : ℤ), (nc : ℤ)] : V3) k) : asymUnit G na nb nc = none := by
  unfold asymUnit
  rw [if_neg]
  intro hall
  rw [List.all_eq_true] at hall
  have := hall e he
  rw [decide_eq_true_iff] at this
  obtain ⟨k, hk⟩ := h
  exact hk (Int.dvd_of_emod_eq_zero (this k))

example : ex4 ∈ exG ∧ ∃ k, ¬ ex4.bd ∣ (![((4 : ℕ) : ℤ), ((4 : ℕ) : ℤ), ((3 : ℕ) : ℤ)] : V3) k :=
  ⟨ex4_mem, 2, by decide⟩

/-! ### C12: site multiplicity -/

/-- C12. An element is flagged for an atom exactly when it leaves the atom's position unchanged modulo lattice
translations. -/
theorem symm_flag_iff_fixes (e : Elem) (x : Shift) (he : 0 < e.bd) (hx : 0 < x.d) :
    symmFlag e x = true ↔ Lat (act e x.val) x.val := symmFlag_iff he hx

example : symmFlag ex2 ⟨![1, 1, 0], 2⟩ = true ∧ symmFlag ex4 ⟨![1, 1, 0], 2⟩ = false := by decide

/-- C12. The multiplicity of a site is the number of its distinct symmetry images. -/
theorem multiplicity_counts_images (G : List Elem) (hG : IsGroup G) (hN : G.Pairwise fun a b => ¬ SameOp a b)
    (hd : ∀ e ∈ G, 0 < e.bd) (x : Shift) (hx : 0 < x.d) (l : List Q3) (hl : IsOrbitList G x.val l) :
    multiplicity G x = l.length := by
  obtain ⟨h1, h2⟩ := orbit_stabiliser hG hN hd hx hl
  rw [multiplicity, ← h1]
  exact Nat.mul_div_cancel _ h2

/-- C12. Multiplicity times order of the site symmetry is the order of the group; in particular the division
in the code is exact. -/
theorem multiplicity_mul_stabiliser (G : List Elem) (hG : IsGroup G) (hN : G.Pairwise fun a b => ¬ SameOp a b)
    (hd : ∀ e ∈ G, 0 < e.bd) (x : Shift) (hx : 0 < x.d) (l : List Q3) (hl : IsOrbitList G x.val l) :
    multiplicity G x * G.countP (symmFlag · x) = G.length := by
  rw [multiplicity_counts_images G hG hN hd x hx l hl]
  exact (orbit_stabiliser hG hN hd hx hl).1

/-- Different fractional parts at some point: not the same operation. -/
theorem not_sameOp_of {a b : Elem} (x : Q3) (k : Fin 3) (h : act a x k - act b x k = 1 / 2) : ¬ SameOp a b := by
  intro hs
  obtain ⟨z, hz⟩ := hs x k
  rw [h] at hz
  have h2 : (1 : ℚ) = 2 * z := by linarith
  have h3 : (1 : ℤ) = 2 * z := by exact_mod_cast h2
  omega

theorem exG_distinct : exG.Pairwise fun a b => ¬ SameOp a b := by
  have t : ∀ q : ℚ, ∀ a b : Elem, (∃ x k, act a x k - act b x k = 1 / 2) → ¬ SameOp a b :=
    fun _ a b ⟨x, k, h⟩ => not_sameOp_of x k h
  simp only [exG, List.pairwise_cons, List.mem_cons, List.not_mem_nil, or_false, forall_eq_or_imp, forall_eq,
    IsEmpty.forall_iff, implies_true, List.Pairwise.nil, and_true]
  refine ⟨⟨t 0 _ _ ⟨![1/2, 0, 0], 0, ?_⟩, t 0 _ _ ⟨![1/4, 0, 0], 0, ?_⟩, t 0 _ _ ⟨![1/2, 0, 0], 0, ?_⟩⟩,
    ⟨t 0 _ _ ⟨![1/2, 0, 0], 0, ?_⟩, t 0 _ _ ⟨![0, -1/4, 0], 0, ?_⟩⟩, t 0 _ _ ⟨![-1/2, 0, 0], 0, ?_⟩⟩ <;>
  · norm_num [act, idElem, ex4, ex2, ex43, Fin.sum_univ_three, v3_2]

/-- The site (1/2, 0, 0) of P4₂ has the two images (1/2,0,0) and (0,1/2,1/2). -/
theorem exOrbit : IsOrbitList exG (Shift.val ⟨![1, 0, 0], 2⟩) [![1/2, 0, 0], ![0, 1/2, 1/2]] := by
  have hv : ∀ e : Elem, ∀ y : Q3, (∃ z : V3, ∀ k, act e (Shift.val ⟨![1, 0, 0], 2⟩) k - y k = z k) →
      Lat (act e (Shift.val ⟨![1, 0, 0], 2⟩)) y := fun e y ⟨z, hz⟩ k => ⟨z k, hz k⟩
  have c1 : Lat (act idElem (Shift.val ⟨![1, 0, 0], 2⟩)) ![1/2, 0, 0] := hv _ _ ⟨![0, 0, 0], by
    apply fin3 <;> norm_num [act, idElem, Shift.val, Fin.sum_univ_three, v3_2]⟩
  have c2 : Lat (act ex4 (Shift.val ⟨![1, 0, 0], 2⟩)) ![0, 1/2, 1/2] := hv _ _ ⟨![0, 0, 0], by
    apply fin3 <;> norm_num [act, ex4, Shift.val, Fin.sum_univ_three, v3_2]⟩
  have c3 : Lat (act ex2 (Shift.val ⟨![1, 0, 0], 2⟩)) ![1/2, 0, 0] := hv _ _ ⟨![-1, 0, 0], by
    apply fin3 <;> norm_num [act, ex2, Shift.val, Fin.sum_univ_three, v3_2]⟩
  have c4 : Lat (act ex43 (Shift.val ⟨![1, 0, 0], 2⟩)) ![0, 1/2, 1/2] := hv _ _ ⟨![0, -1, 0], by
    apply fin3 <;> norm_num [act, ex43, Shift.val, Fin.sum_univ_three, v3_2]⟩
  refine ⟨?_, ?_, ?_⟩
  · simp only [List.pairwise_cons, List.mem_singleton, forall_eq, List.not_mem_nil, IsEmpty.forall_iff, implies_true,
      List.Pairwise.nil, and_true]
    intro h
    obtain ⟨z, hz⟩ := h 2
    simp only [Matrix.cons_val] at hz
    have h2 : (-1 : ℚ) = 2 * z := by linarith
    have h3 : (-1 : ℤ) = 2 * z := by exact_mod_cast h2
    omega
  · intro e he
    simp only [exG, List.mem_cons, List.not_mem_nil, or_false] at he
    rcases he with rfl | rfl | rfl | rfl
    exacts [⟨_, by simp, c1⟩, ⟨_, by simp, c2⟩, ⟨_, by simp, c3⟩, ⟨_, by simp, c4⟩]
  · intro y hy
    rcases List.mem_cons.mp hy with rfl | hy
    · exact ⟨_, by simp [exG], c1⟩
    · rw [List.mem_singleton] at hy; subst hy
      exact ⟨ex4, by simp [exG], c2⟩

example : IsGroup exG ∧ (exG.Pairwise fun a b => ¬ SameOp a b) ∧ (∀ e ∈ exG, 0 < e.bd) ∧
    IsOrbitList exG (Shift.val ⟨![1, 0, 0], 2⟩) [![1/2, 0, 0], ![0, 1/2, 1/2]] ∧
    multiplicity exG ⟨![1, 0, 0], 2⟩ = 2 := ⟨exG_isGroup, exG_distinct, by decide, exOrbit, by decide⟩

/-! ### C13: rational translations -/

/-- C13. `sum_b_elems` is exact modulo lattice translations, and its result is in canonical form: reduced to
`[0, 1)` and with no common factor. -/
theorem sum_b_exact (b1 b2 : Shift) (h1 : 0 < b1.d) (h2 : 0 < b2.d) :
    Lat (sumB b1 b2).val (fun k => b1.val k + b2.val k) ∧ Canonical (sumB b1 b2) := sumB_lat b1 b2 h1 h2

example : (sumB ⟨![1, 0, 1], 2⟩ ⟨![1, 2, 1], 3⟩).n = ![5, 4, 5] ∧ (sumB ⟨![1, 0, 1], 2⟩ ⟨![1, 2, 1], 3⟩).d = 6 := by
  decide +kernel

/-- C13. Canonical fraction vectors that denote the same translation modulo the lattice are identical, so
comparing the integer columns is comparing translations. -/
theorem canonical_unique (a b : Shift) (ha : Canonical a) (hb : Canonical b) (h : Lat a.val b.val) : a = b := by
  have hav : ∀ k, (a.n k) * b.d = b.n k * a.d := by
    intro k
    obtain ⟨z, hz⟩ := h k
    obtain ⟨a0, a1⟩ := ha.range k
    obtain ⟨b0, b1⟩ := hb.range k
    have da : (0 : ℚ) < a.d := by exact_mod_cast ha.d_pos
    have db : (0 : ℚ) < b.d := by exact_mod_cast hb.d_pos
    have av0 : (0 : ℚ) ≤ a.val k := div_nonneg (by exact_mod_cast a0) da.le
    have av1 : a.val k < 1 := (div_lt_one da).mpr (by exact_mod_cast a1)
    have bv0 : (0 : ℚ) ≤ b.val k := div_nonneg (by exact_mod_cast b0) db.le
    have bv1 : b.val k < 1 := (div_lt_one db).mpr (by exact_mod_cast b1)
    have z1 : (z : ℚ) < 1 := by linarith
    have z0 : (-1 : ℚ) < z := by linarith
    have z1' : z < 1 := by exact_mod_cast z1
    have z0' : -1 < z := by exact_mod_cast z0
    have hz0 : z = 0 := by omega
    rw [hz0] at hz
    have : a.val k = b.val k := by push_cast at hz; linarith
    simp only [Shift.val] at this
    rw [div_eq_div_iff da.ne' db.ne'] at this
    exact_mod_cast this
  have key : ∀ u v : Shift, Canonical u → Canonical v → (∀ k, u.n k * v.d = v.n k * u.d) → u.d ∣ v.d := by
    intro u v hu hv huv
    have d0 : ∀ k, u.d ∣ u.n k * v.d := fun k => ⟨v.n k, by rw [huv k]; ring⟩
    have g2 : u.d ∣ (Int.gcd (u.n 0) (u.n 1) : ℤ) * v.d := by
      rw [Int.gcd_eq_gcd_ab]
      have : (u.n 0 * (u.n 0).gcdA (u.n 1) + u.n 1 * (u.n 0).gcdB (u.n 1)) * v.d
        = (u.n 0 * v.d) * (u.n 0).gcdA (u.n 1) + (u.n 1 * v.d) * (u.n 0).gcdB (u.n 1) := by ring
      rw [this]
      exact dvd_add ((d0 0).mul_right _) ((d0 1).mul_right _)
    have g3 : u.d ∣ (Int.gcd (Int.gcd (u.n 0) (u.n 1)) (u.n 2) : ℤ) * v.d := by
      rw [Int.gcd_eq_gcd_ab]
      set X : ℤ := (Int.gcd (u.n 0) (u.n 1) : ℤ)
      have : (X * X.gcdA (u.n 2) + u.n 2 * X.gcdB (u.n 2)) * v.d
        = (X * v.d) * X.gcdA (u.n 2) + (u.n 2 * v.d) * X.gcdB (u.n 2) := by ring
      rw [this]
      exact dvd_add (g2.mul_right _) ((d0 2).mul_right _)
    have hlow := hu.lowest
    set Y : ℤ := (Int.gcd (Int.gcd (u.n 0) (u.n 1)) (u.n 2) : ℤ)
    have hb := Int.gcd_eq_gcd_ab Y u.d
    rw [hlow] at hb
    have : v.d = (Y * v.d) * Y.gcdA u.d + u.d * (Y.gcdB u.d * v.d) := by
      have : v.d = ((1 : ℕ) : ℤ) * v.d := by push_cast; ring
      rw [hb] at this
      linarith
    rw [this]
    exact dvd_add (g3.mul_right _) (dvd_mul_right _ _)
  have hd : a.d = b.d :=
    Int.dvd_antisymm ha.d_pos.le hb.d_pos.le (key a b ha hb hav) (key b a hb ha fun k => by rw [hav k])
  have hn : a.n = b.n := by
    funext k
    have := hav k
    rw [hd] at this
    exact Int.eq_of_mul_eq_mul_right hb.d_pos.ne' this
  cases a; cases b; simp_all

example : Canonical ⟨![5, 4, 5], 6⟩ := ⟨by decide, by decide, by decide +kernel⟩

/-- C13. `calc_numerators_and_common_denominator` represents the same fractions over one positive denominator. -/
theorem common_denominator_exact (l : List (ℤ × ℤ)) (h : ∀ p ∈ l, 0 < p.2) :
    0 < (commonDenominator l).2 ∧
    (commonDenominator l).1.map (fun x : ℤ => (x : ℚ) / (commonDenominator l).2)
      = l.map fun p => (p.1 : ℚ) / p.2 := commonDenominator_spec l h

/-- C13. `calc_rational_sum` is the exact sum, in lowest terms, with a positive denominator. -/
theorem rational_sum_exact (l : List (ℤ × ℤ)) (h : ∀ p ∈ l, 0 < p.2) :
    0 < (rationalSum l).2 ∧ Int.gcd (rationalSum l).1 (rationalSum l).2 = 1 ∧
    ((rationalSum l).1 : ℚ) / (rationalSum l).2 = (l.map fun p => (p.1 : ℚ) / p.2).sum := by
  obtain ⟨h0, hs⟩ := commonDenominator_spec l h
  set D := (commonDenominator l).2 with hD
  set S := (commonDenominator l).1.sum with hS
  set g : ℕ := Int.gcd S D with hg
  have heq : rationalSum l = (S / (g : ℤ), D / (g : ℤ)) := rfl
  have hg0 : 0 < g := Int.gcd_pos_of_ne_zero_right _ h0.ne'
  have hgz : (0 : ℤ) < g := by exact_mod_cast hg0
  obtain ⟨s, hs'⟩ : (g : ℤ) ∣ S := Int.gcd_dvd_left _ _
  obtain ⟨d, hd'⟩ : (g : ℤ) ∣ D := Int.gcd_dvd_right _ _
  have es : S / (g : ℤ) = s := by rw [hs']; exact Int.mul_ediv_cancel_left _ hgz.ne'
  have ed : D / (g : ℤ) = d := by rw [hd']; exact Int.mul_ediv_cancel_left _ hgz.ne'
  have hd0 : 0 < d := by
    rw [hd'] at h0
    exact pos_of_mul_pos_right h0 hgz.le
  refine ⟨by rw [heq, ed]; exact hd0, ?_, ?_⟩
  · rw [heq]
    exact Int.gcd_div_gcd_div_gcd hg0
  · rw [heq]
    simp only [es, ed]
    rw [← hs, sum_div, ← hS, hs', hd']
    have : (g : ℚ) ≠ 0 := by exact_mod_cast hg0.ne'
    have : (d : ℚ) ≠ 0 := by exact_mod_cast hd0.ne'
    push_cast
    field_simp

example : rationalSum [(1, 2), (1, 3), (1, 6)] = (1, 1) ∧ ∀ p ∈ [((1 : ℤ), (2 : ℤ)), (1, 3), (1, 6)], 0 < p.2 := by
  decide +kernel

/-- Specification of the exactness of `sum_elem_symm_b`: over the product `D` of the denominators the sum has three numerators; the
smallest of their common divisors with `D` divides all three. -/
def SmallestDivides (b1 b2 : Shift) : Prop :=
  let num : Fin 3 → ℤ := fun k => b1.n k * b2.d + b2.n k * b1.d
  ∃ l, (∀ k, Int.gcd (num l) (b1.d * b2.d) ≤ Int.gcd (num k) (b1.d * b2.d)) ∧ ∀ k, (Int.gcd (num l) (b1.d * b2.d) : ℤ) ∣ num k

/-- C13. `sum_elem_symm_b` (used for magnetic elements) gives the sum, even modulo lattice translations, exactly if the smallest of
the three common divisors, which it divides out, divides all numerators; it then gives the very sum. -/
theorem sum_elem_symm_b_exact_iff (b1 b2 : Shift) (h1 : 0 < b1.d) (h2 : 0 < b2.d) :
    (Lat (sumElemSymmB b1 b2).val (fun k => b1.val k + b2.val k) ↔ SmallestDivides b1 b2) ∧
    (SmallestDivides b1 b2 → (sumElemSymmB b1 b2).val = fun k => b1.val k + b2.val k) := by
  set num : Fin 3 → ℤ := fun k => b1.n k * b2.d + b2.n k * b1.d with hnum
  set D : ℤ := b1.d * b2.d with hD
  have hDpos : 0 < D := mul_pos h1 h2
  set g : ℤ := min (min (Int.gcd (num 0) D) (Int.gcd (num 1) D)) (Int.gcd (num 2) D) with hg
  have hex : ∃ l, g = (Int.gcd (num l) D : ℤ) := by
    rcases le_total (min ((Int.gcd (num 0) D : ℤ)) (Int.gcd (num 1) D)) (Int.gcd (num 2) D) with h | h
    · rcases le_total ((Int.gcd (num 0) D : ℤ)) (Int.gcd (num 1) D) with h' | h'
      · exact ⟨0, by rw [hg, min_eq_left h, min_eq_left h']⟩
      · exact ⟨1, by rw [hg, min_eq_left h, min_eq_right h']⟩
    · exact ⟨2, by rw [hg, min_eq_right h]⟩
  have hle : ∀ k, g ≤ (Int.gcd (num k) D : ℤ) := by
    apply fin3
    · exact (min_le_left _ _).trans (min_le_left _ _)
    · exact (min_le_left _ _).trans (min_le_right _ _)
    · exact min_le_right _ _
  have hgpos : 0 < g := by
    obtain ⟨l, hl⟩ := hex
    rw [hl]
    exact_mod_cast Int.gcd_pos_of_ne_zero_right _ hDpos.ne'
  have hgD : g ∣ D := by
    obtain ⟨l, hl⟩ := hex
    rw [hl]
    exact Int.gcd_dvd_right ..
  have hSD : SmallestDivides b1 b2 ↔ ∀ k, g ∣ num k := by
    constructor
    · rintro ⟨l, hl, hd⟩ k
      obtain ⟨l', hl'⟩ := hex
      have : g = (Int.gcd (num l) D : ℤ) := by
        apply le_antisymm (hle l)
        rw [hl']
        exact_mod_cast hl l'
      rw [this]
      exact hd k
    · intro h
      obtain ⟨l, hl⟩ := hex
      refine ⟨l, fun k => ?_, fun k => ?_⟩
      · have := hle k
        rw [hl] at this
        exact_mod_cast this
      · have := h k
        rw [hl] at this
        exact this
  obtain ⟨q, hq⟩ := hgD
  have hqpos : 0 < q := by
    by_contra hn
    have : g * q ≤ 0 := mul_nonpos_of_nonneg_of_nonpos hgpos.le (by omega)
    omega
  have hval : ∀ k, (sumElemSymmB b1 b2).val k = ((num k / g : ℤ) : ℚ) / q := by
    intro k
    have : D / g = q := by rw [hq]; exact Int.mul_ediv_cancel_left _ hgpos.ne'
    show ((num k / g : ℤ) : ℚ) / ((D / g : ℤ) : ℚ) = _
    rw [this]
  have hb1 : (b1.d : ℚ) ≠ 0 := by exact_mod_cast h1.ne'
  have hb2 : (b2.d : ℚ) ≠ 0 := by exact_mod_cast h2.ne'
  have hgQ : (g : ℚ) ≠ 0 := by exact_mod_cast hgpos.ne'
  have hqQ : (q : ℚ) ≠ 0 := by exact_mod_cast hqpos.ne'
  have hDq : (b1.d : ℚ) * b2.d = g * q := by exact_mod_cast hq
  have hsum : ∀ k, b1.val k + b2.val k = (num k : ℚ) / (g * q) := by
    intro k
    rw [← hDq, hnum]
    simp only [Shift.val]
    push_cast
    field_simp
  have hdiff : ∀ k, (sumElemSymmB b1 b2).val k - (b1.val k + b2.val k) = -(((num k % g : ℤ) : ℚ) / (g * q)) := by
    intro k
    rw [hval, hsum]
    have : (num k : ℚ) = g * ((num k / g : ℤ) : ℚ) + ((num k % g : ℤ) : ℚ) := by
      exact_mod_cast (Int.mul_ediv_add_emod (num k) g).symm
    rw [this]
    field_simp
    ring
  refine ⟨⟨fun h => hSD.2 fun k => ?_, fun h k => ?_⟩, fun h => funext fun k => ?_⟩
  · obtain ⟨z, hz⟩ := h k
    dsimp only at hz
    rw [hdiff] at hz
    have e : ((num k % g : ℤ) : ℚ) = -(z * (g * q)) := by
      field_simp at hz
      linarith
    have e' : num k % g = -(z * (g * q)) := by exact_mod_cast e
    exact Int.dvd_of_emod_eq_zero (by
      have l1 := Int.emod_nonneg (num k) hgpos.ne'
      have l2 := Int.emod_lt_of_pos (num k) hgpos
      have : num k % g = g * (-(z * q)) := by rw [e']; ring
      have h3 : num k % g % g = 0 := by rw [this]; exact Int.mul_emod_right _ _
      rwa [Int.emod_emod] at h3)
  · refine ⟨0, ?_⟩
    dsimp only
    rw [hdiff, Int.emod_eq_zero_of_dvd (hSD.1 h k)]
    simp
  · have := hdiff k
    rw [Int.emod_eq_zero_of_dvd (hSD.1 h k)] at this
    simp only [Int.cast_zero, zero_div, neg_zero] at this
    linarith

/-- So for denominators that are powers of one prime, e.g. 1, 2, 4. -/
theorem sum_elem_symm_b_exact (p a c : ℕ) (hp : p.Prime) (b1 b2 : Shift)
    (h1 : b1.d = (p : ℤ) ^ a) (h2 : b2.d = (p : ℤ) ^ c) :
    0 < (sumElemSymmB b1 b2).d ∧ (sumElemSymmB b1 b2).val = fun k => b1.val k + b2.val k := by
  have hp0 : (0 : ℤ) < p := by exact_mod_cast hp.pos
  apply sumElemSymmB_exact
  · rw [h1]; exact pow_pos hp0 _
  · rw [h2]; exact pow_pos hp0 _
  · intro k l
    have : b1.d * b2.d = (p : ℤ) ^ (a + c) := by rw [h1, h2, pow_add]
    rw [this]
    exact prime_pow_gcd_chain hp _ _

example : Nat.Prime 2 ∧ (⟨![1, 0, 1], 2⟩ : Shift).d = ((2 : ℕ) : ℤ) ^ 1 ∧
    (⟨![1, 2, 3], 4⟩ : Shift).d = ((2 : ℕ) : ℤ) ^ 2 := ⟨Nat.prime_two, by decide, by decide⟩

/-- C13 fails for `sum_elem_symm_b` in general: (1/3, 1/2, 0) + 0 becomes (1/3, 1/3, 0). -/
theorem sum_elem_symm_b_inexact : ∃ b1 b2 : Shift, 0 < b1.d ∧ 0 < b2.d ∧
    ¬ Lat (sumElemSymmB b1 b2).val (fun k => b1.val k + b2.val k) := by
  refine ⟨⟨![2, 3, 0], 6⟩, ⟨![0, 0, 0], 1⟩, by decide, by decide, ?_⟩
  have h1 : (sumElemSymmB ⟨![2, 3, 0], 6⟩ ⟨![0, 0, 0], 1⟩).n = ![1, 1, 0] := by decide +kernel
  have h2 : (sumElemSymmB ⟨![2, 3, 0], 6⟩ ⟨![0, 0, 0], 1⟩).d = 3 := by decide +kernel
  have : sumElemSymmB ⟨![2, 3, 0], 6⟩ ⟨![0, 0, 0], 1⟩ = ⟨![1, 1, 0], 3⟩ := by
    generalize sumElemSymmB ⟨![2, 3, 0], 6⟩ ⟨![0, 0, 0], 1⟩ = w at h1 h2
    cases w; simp_all
  rw [this]
  intro h
  obtain ⟨z, hz⟩ := h 1
  simp [Shift.val] at hz
  have h2 : (-1 : ℚ) = 6 * z := by linarith
  have h3 : (-1 : ℤ) = 6 * z := by exact_mod_cast h2
  omega

/-! ### C14: full list of elements -/

/-- C14. The full list of symmetry elements consists, in order, of: each reduced element followed by each centring
translation, then — when the structure is centrosymmetric — the inversions of all of these about the centre.  Each is
exact modulo lattice translations; every translation part is in canonical form. -/
theorem full_elems_spec (reduced : List Elem) (centro : Bool) (centre : Shift) (trans : List Shift)
    (hr : ∀ e ∈ reduced, 0 < e.bd) (hc : 0 < centre.d) (ht : ∀ t ∈ trans, 0 < t.d) :
    List.Forall₂ (fun f g => Canonical f.shift ∧ ∀ x, Lat (act f x) (g x))
      (fullByReduced reduced centro centre trans) (fullMaps reduced centro centre trans) := by
  have hA : List.Forall₂ (fun (f : Elem) (g : Q3 → Q3) => Canonical f.shift ∧ ∀ x, Lat (act f x) (g x))
      (trans.flatMap fun te => reduced.map fun e =>
        (⟨(sumB e.shift te).n, (sumB e.shift te).d, e.r⟩ : Elem))
      (trans.flatMap fun t => reduced.map fun e => fun x k => act e x k + t.val k) := by
    induction trans with
    | nil => simp
    | cons t ts ih =>
      simp only [List.flatMap_cons]
      apply List.rel_append
      · clear ih
        induction reduced with
        | nil => simp
        | cons e es ih2 =>
          simp only [List.map_cons]
          refine List.Forall₂.cons ?_ (ih2 fun e' he' => hr e' (List.mem_cons_of_mem _ he'))
          obtain ⟨h1, h2⟩ := sumB_lat e.shift t (hr e List.mem_cons_self) (ht t List.mem_cons_self)
          refine ⟨h2, fun x k => ?_⟩
          obtain ⟨z, hz⟩ := h1 k
          refine ⟨z, ?_⟩
          rw [← hz]
          simp only [act, Shift.val, Elem.shift]
          ring
      · exact ih fun t' ht' => ht t' (List.mem_cons_of_mem _ ht')
  unfold fullByReduced fullMaps
  cases centro with
  | false => simpa using hA
  | true =>
    simp only [if_true]
    apply List.rel_append hA
    have hpos : ∀ f ∈ (trans.flatMap fun te => reduced.map fun e =>
        (⟨(sumB e.shift te).n, (sumB e.shift te).d, e.r⟩ : Elem)), 0 < f.bd := by
      intro f hf
      obtain ⟨i, hi, rfl⟩ := List.getElem_of_mem hf
      have := (List.forall₂_iff_get.mp hA).2 i hi (by rw [← hA.length_eq]; exact hi)
      exact this.1.d_pos
    have hB : (trans.flatMap fun t => reduced.map fun e => (fun (x : Q3) (k : Fin 3) =>
        2 * centre.val k - (act e x k + t.val k)))
        = (trans.flatMap fun t => reduced.map fun e => (fun (x : Q3) (k : Fin 3) => act e x k + t.val k)).map
          (fun (g : Q3 → Q3) (x : Q3) (k : Fin 3) => 2 * centre.val k - g x k) := by
      simp [List.map_flatMap, Function.comp_def]
    rw [hB]
    rw [List.forall₂_map_left_iff, List.forall₂_map_right_iff]
    generalize hL : (trans.flatMap fun te => reduced.map fun e =>
        (⟨(sumB e.shift te).n, (sumB e.shift te).d, e.r⟩ : Elem)) = L at hA hpos
    generalize (trans.flatMap fun t => reduced.map fun e => (fun (x : Q3) (k : Fin 3) => act e x k + t.val k)) = M at hA
    clear hB hL
    induction hA with
    | nil => exact List.Forall₂.nil
    | @cons f g fs gs hfg _ ih =>
      refine List.Forall₂.cons ?_ (ih fun f' hf' => hpos f' (List.mem_cons_of_mem _ hf'))
      obtain ⟨h1, h2⟩ := sumB_lat ⟨fun k => 2 * centre.n k, centre.d⟩ ⟨fun k => -1 * f.bn k, f.bd⟩ hc
        (hpos f List.mem_cons_self)
      refine ⟨h2, fun x k => ?_⟩
      obtain ⟨z, hz⟩ := h1 k
      obtain ⟨w, hw⟩ := hfg.2 x k
      refine ⟨z - w, ?_⟩
      push_cast
      rw [← hz, ← hw]
      simp only [act, Shift.val, Fin.sum_univ_three]
      push_cast
      ring

example : (∀ e ∈ exG, 0 < e.bd) ∧ 0 < (⟨![1, 1, 1], 4⟩ : Shift).d ∧
    (∀ t ∈ [(⟨![0, 0, 0], 1⟩ : Shift), ⟨![1, 1, 1], 2⟩], 0 < t.d) ∧
    (fullByReduced exG true ⟨![1, 1, 1], 4⟩ [⟨![0, 0, 0], 1⟩, ⟨![1, 1, 1], 2⟩]).length = 16 := by decide

/-! ### C15: magnetic elements -/

/-- C15. All pairs (operation, centring) occur, and time-reversal signs multiply. -/
theorem full_mag_pairs (os cs : List (Elem × ℤ)) (f : Elem) (θ : ℤ) :
    (f, θ) ∈ fullMagElems os cs ↔ ∃ o ∈ os, ∃ c ∈ cs, f = fullMag o.1 c.1 ∧ θ = o.2 * c.2 := by
  simp only [fullMagElems, List.mem_flatMap, List.mem_map, Prod.mk.injEq]
  constructor
  · rintro ⟨o, ho, c, hc, rfl, rfl⟩; exact ⟨o, ho, c, hc, rfl, rfl⟩
  · rintro ⟨o, ho, c, hc, rfl, rfl⟩; exact ⟨o, ho, c, hc, rfl, rfl⟩

/-- C15. The combined element is "operation, then centring" exactly if the two rotations commute (so for every centring with identity
rotation) and the sum of the translations is exact (C13). -/
theorem full_mag_is_composition_iff (o c : Elem) (ho : 0 < o.bd) (hc : 0 < c.bd) :
    IsProd c o (fullMag o c) ↔ mmul o.r c.r = mmul c.r o.r ∧ SmallestDivides ⟨mvec c.r o.bn, o.bd⟩ c.shift := by
  have hex := (sum_elem_symm_b_exact_iff ⟨mvec c.r o.bn, o.bd⟩ c.shift ho hc).1
  have hob : (o.bd : ℚ) ≠ 0 := by exact_mod_cast ho.ne'
  have key : mmul o.r c.r = mmul c.r o.r → ∀ x k, act (fullMag o c) x k - act c (act o x) k =
      (sumElemSymmB ⟨mvec c.r o.bn, o.bd⟩ c.shift).val k - (((⟨mvec c.r o.bn, o.bd⟩ : Shift).val k) + c.shift.val k) := by
    intro hcomm x k
    have hr : (fullMag o c).r = mmul c.r o.r := by rw [← hcomm]; rfl
    have hv : ((fullMag o c).bn k : ℚ) / (fullMag o c).bd = (sumElemSymmB ⟨mvec c.r o.bn, o.bd⟩ c.shift).val k := rfl
    simp only [act, hv, hr]
    simp only [Fin.sum_univ_three, mmul, mvec, Shift.val, Elem.shift]
    push_cast
    field_simp
    ring
  constructor
  · intro h
    have hcomm : mmul o.r c.r = mmul c.r o.r := rot_of_isProd h
    refine ⟨hcomm, hex.1 fun k => ?_⟩
    obtain ⟨z, hz⟩ := h 0 k
    exact ⟨z, by rw [← key hcomm, hz]⟩
  · rintro ⟨hcomm, hs⟩ x k
    obtain ⟨z, hz⟩ := hex.2 hs k
    exact ⟨z, by rw [key hcomm, hz]⟩

/-- C15. Denominators that are powers of one prime: the combined element is the composition, not only modulo lattice translations. -/
theorem full_mag_is_composition (p a b : ℕ) (hp : p.Prime) (o c : Elem) (hcomm : mmul o.r c.r = mmul c.r o.r)
    (h1 : o.bd = (p : ℤ) ^ a) (h2 : c.bd = (p : ℤ) ^ b) (x : Q3) : act (fullMag o c) x = act c (act o x) := by
  obtain ⟨_, h⟩ := sum_elem_symm_b_exact p a b hp ⟨mvec c.r o.bn, o.bd⟩ c.shift h1 h2
  have hp0 : (0 : ℤ) < p := by exact_mod_cast hp.pos
  funext k
  have hk := congrFun h k
  have hr : (fullMag o c).r = mmul c.r o.r := by rw [← hcomm]; rfl
  have hob : (o.bd : ℚ) ≠ 0 := by
    have : o.bd ≠ 0 := by rw [h1]; exact (pow_pos hp0 _).ne'
    exact_mod_cast this
  have hv : ((fullMag o c).bn k : ℚ) / (fullMag o c).bd = (mvec c.r o.bn k : ℚ) / o.bd + (c.bn k : ℚ) / c.bd := hk
  simp only [act, hv, hr]
  simp only [Fin.sum_univ_three, mmul, mvec]
  push_cast
  field_simp
  ring

example : mmul ex4.r idElem.r = mmul idElem.r ex4.r ∧ ex4.bd = ((2 : ℕ) : ℤ) ^ 1 ∧
    (⟨![1, 1, 0], 2, idElem.r⟩ : Elem).bd = ((2 : ℕ) : ℤ) ^ 1 := by decide

/-- C15 fails in general: the rotation part is `R_o R_c` while the translation part is that of "operation, then
centring", so for non-commuting rotations the element is neither order of composition. -/
theorem full_mag_not_composition : ∃ o c : Elem, 0 < o.bd ∧ 0 < c.bd ∧
    ¬ IsProd c o (fullMag o c) ∧ ¬ IsProd o c (fullMag o c) := by
  let o : Elem := ⟨![0, 0, 0], 1, ![![0, -1, 0], ![1, 0, 0], ![0, 0, 1]]⟩
  let c : Elem := ⟨![1, 0, 0], 2, ![![1, 0, 0], ![0, -1, 0], ![0, 0, -1]]⟩
  refine ⟨o, c, by decide, by decide, ?_, ?_⟩
  · intro h
    have := rot_of_isProd h
    have h2 : (fullMag o c).r 0 1 = mmul c.r o.r 0 1 := by rw [this]
    revert h2; decide
  · intro h
    obtain ⟨z, hz⟩ := h (fun _ => 0) 0
    have hf : fullMag o c = ⟨![1, 0, 0], 2, (fullMag o c).r⟩ := by
      have h1 : (fullMag o c).bn = ![1, 0, 0] := by decide +kernel
      have h2 : (fullMag o c).bd = 2 := by decide +kernel
      cases hfm : fullMag o c; simp_all
    rw [hf] at hz
    simp [act, o, c, Fin.sum_univ_three] at hz
    have h2 : (1 : ℚ) = 2 * z := by linarith
    have h3 : (1 : ℤ) = 2 * z := by exact_mod_cast h2
    omega

/-! ### C16: equivalent reflections -/

theorem hklImage_eq (r : M3) (h : V3) : hklImage r h = rowMul h r := by
  funext k; simp only [hklImage, rowMul, Fin.sum_univ_three]; ring

/-- C16. The listed reflections are exactly `h R`, and `-h R` when Friedel mates are asked for. -/
theorem equivalents_mem (h v : V3) (G : List Elem) (centro : Bool) :
    v ∈ equivReflections h G centro ↔
      ∃ e ∈ G, v = rowMul h e.r ∨ (centro = true ∧ v = -rowMul h e.r) := by
  have hn : ∀ w : V3, (fun k => -1 * w k) = -w := by intro w; funext k; simp
  unfold equivReflections
  cases centro <;> simp only [Bool.false_eq_true, if_false, if_true, List.mem_append, List.mem_map, List.map_map,
    Function.comp_def, hklImage_eq, hn, false_and, or_false, true_and]
  · constructor <;> rintro ⟨e, he, h⟩ <;> exact ⟨e, he, h.symm⟩
  · constructor
    · rintro (⟨e, he, h⟩ | ⟨e, he, h⟩)
      exacts [⟨e, he, Or.inl h.symm⟩, ⟨e, he, Or.inr h.symm⟩]
    · rintro ⟨e, he, h | h⟩
      exacts [Or.inl ⟨e, he, h.symm⟩, Or.inr ⟨e, he, h.symm⟩]

theorem rowMul_mmul (h : V3) (a b : M3) : rowMul h (mmul a b) = rowMul (rowMul h a) b := by
  funext k; simp only [rowMul, mmul, Fin.sum_univ_three]; ring

theorem rowMul_neg (h : V3) (a : M3) : rowMul (-h) a = -rowMul h a := by
  funext k; simp only [rowMul, Fin.sum_univ_three, Pi.neg_apply]; ring

theorem rowMul_one {e : Elem} (he : ∀ x, Lat (act e x) x) (h : V3) : rowMul h e.r = h := by
  have hp : IsProd idElem idElem e := fun x => by rw [act_idElem, act_idElem]; exact he x
  rw [rot_of_isProd hp]
  funext k
  simp only [rowMul, mmul, idElem, Fin.sum_univ_three]
  fin_cases k <;> simp

/-- C16. For a group, the list contains `h` itself, and reflections in it have the same list of equivalents: the lists are
the classes of an equivalence relation. -/
theorem equivalents_are_classes (G : List Elem) (hG : IsGroup G) (h : V3) (centro : Bool) :
    h ∈ equivReflections h G centro ∧
    ∀ v ∈ equivReflections h G centro, ∀ w, w ∈ equivReflections v G centro ↔ w ∈ equivReflections h G centro := by
  constructor
  · rw [equivalents_mem]
    obtain ⟨e, he, h1⟩ := hG.one
    exact ⟨e, he, Or.inl (rowMul_one h1 h).symm⟩
  · have fwd : ∀ (h v w : V3), v ∈ equivReflections h G centro → w ∈ equivReflections v G centro →
        w ∈ equivReflections h G centro := by
      intro h v w hv hw
      rw [equivalents_mem] at hv hw ⊢
      obtain ⟨a, ha, hva⟩ := hv
      obtain ⟨b, hb, hwb⟩ := hw
      obtain ⟨c, hc, hm⟩ := hG.mul a ha b hb
      refine ⟨c, hc, ?_⟩
      rw [rot_of_isProd hm, rowMul_mmul]
      rcases hva with rfl | ⟨hct, rfl⟩ <;> rcases hwb with rfl | ⟨hct', rfl⟩
      · exact Or.inl rfl
      · exact Or.inr ⟨hct', rfl⟩
      · exact Or.inr ⟨hct, by rw [rowMul_neg]⟩
      · exact Or.inl (by rw [rowMul_neg, neg_neg])
    intro v hv w
    refine ⟨fwd h v w hv, fwd v h w ?_⟩
    rw [equivalents_mem] at hv ⊢
    obtain ⟨a, ha, hva⟩ := hv
    obtain ⟨b, hb, hinv⟩ := hG.inv a ha
    obtain ⟨a', ha', hinv'⟩ := hG.inv b hb
    -- right inverse
    have hright : ∀ x, Lat (act a (act b x)) x := by
      intro x
      have h1 : Lat (act a' (act b (act a (act b x)))) (act a' (act b x)) := (hinv (act b x)).act a'
      exact (hinv' _).symm.trans (h1.trans (hinv' x))
    have hone : IsProd a b idElem := fun x => by rw [act_idElem]; exact (hright x).symm
    have hmat : rowMul (rowMul h a.r) b.r = h := by
      rw [← rowMul_mmul, ← rot_of_isProd hone]
      exact rowMul_one (e := idElem) (fun x => by rw [act_idElem]; exact Lat.refl x) h
    refine ⟨b, hb, ?_⟩
    rcases hva with rfl | ⟨hct, rfl⟩
    · exact Or.inl hmat.symm
    · exact Or.inr ⟨hct, by rw [rowMul_neg, hmat, neg_neg]⟩

example : IsGroup exG ∧ equivReflections ![1, 2, 3] exG true =
    [![1, 2, 3], ![2, -1, 3], ![-1, -2, 3], ![-2, 1, 3], ![-1, -2, -3], ![-2, 1, -3], ![1, 2, -3], ![2, -1, -3]] :=
  ⟨exG_isGroup, by decide⟩

/-- C16. Equivalent reflections have the same `1/d² = h G* hᵀ` when the rotations leave the reciprocal metric `G*`
unchanged (`R G* Rᵀ = G*`). -/
theorem equivalents_same_d (G : List Elem) (g : Fin 3 → Fin 3 → ℝ) (h v : V3) (centro : Bool)
    (hg : ∀ e ∈ G, ∀ i j, ∑ k, ∑ l, (e.r i k : ℝ) * g k l * (e.r j l : ℝ) = g i j)
    (hv : v ∈ equivReflections h G centro) :
    ∑ i, ∑ j, (v i : ℝ) * g i j * (v j : ℝ) = ∑ i, ∑ j, (h i : ℝ) * g i j * (h j : ℝ) := by
  rw [equivalents_mem] at hv
  obtain ⟨e, he, hv⟩ := hv
  have hsq : ∑ i, ∑ j, (v i : ℝ) * g i j * (v j : ℝ)
      = ∑ i, ∑ j, (rowMul h e.r i : ℝ) * g i j * (rowMul h e.r j : ℝ) := by
    rcases hv with rfl | ⟨_, rfl⟩
    · rfl
    · simp only [Pi.neg_apply]; push_cast; simp
  rw [hsq]
  have hh := hg e he
  simp only [Fin.sum_univ_three] at hh ⊢
  simp only [rowMul, Fin.sum_univ_three]
  push_cast
  linear_combination (h 0 : ℝ) * h 0 * hh 0 0 + (h 0 : ℝ) * h 1 * hh 0 1 + (h 0 : ℝ) * h 2 * hh 0 2 + (h 1 : ℝ) * h 0 * hh 1 0 + (h 1 : ℝ) * h 1 * hh 1 1 + (h 1 : ℝ) * h 2 * hh 1 2 + (h 2 : ℝ) * h 0 * hh 2 0 + (h 2 : ℝ) * h 1 * hh 2 1 + (h 2 : ℝ) * h 2 * hh 2 2

/-- The tetragonal metric `diag(a, a, c)` is invariant under P4₂. -/
example (a c : ℝ) : ∀ e ∈ exG, ∀ i j,
    ∑ k, ∑ l, (e.r i k : ℝ) * (![![a, 0, 0], ![0, a, 0], ![0, 0, c]] : Fin 3 → Fin 3 → ℝ) k l * (e.r j l : ℝ)
      = (![![a, 0, 0], ![0, a, 0], ![0, 0, c]] : Fin 3 → Fin 3 → ℝ) i j := by
  intro e he
  simp only [exG, List.mem_cons, List.not_mem_nil, or_false] at he
  rcases he with rfl | rfl | rfl | rfl <;> refine fin3 ?_ ?_ ?_ <;> refine fin3 ?_ ?_ ?_ <;>
    simp [idElem, ex4, ex2, ex43, Fin.sum_univ_three, v3_2]

end Cryspy.Symm
