import Verif.Orient.Model
import Verif.Rot.Props

/-! # C73: the angles of a reflection on the diffractometer -/

namespace Cryspy.Orient

open Real Matrix Cryspy.Mat Cryspy.Rot Cryspy.Regrid

theorem polar (x y : ℝ) : √(x ^ 2 + y ^ 2) * cos (arctan2 y x) = x ∧ √(x ^ 2 + y ^ 2) * sin (arctan2 y x) = y := by
  have hn : ‖(⟨x, y⟩ : ℂ)‖ = √(x ^ 2 + y ^ 2) := by
    rw [Complex.norm_def, Complex.normSq_mk, pow_two, pow_two]
  have h1 := Complex.norm_mul_cos_arg (⟨x, y⟩ : ℂ)
  have h2 := Complex.norm_mul_sin_arg (⟨x, y⟩ : ℂ)
  rw [hn] at h1 h2
  exact ⟨h1, h2⟩

theorem Rz_mulVec (t : ℝ) (q : Fin 3 → ℝ) : Rz t *ᵥ q = ![cos t * q 0 - sin t * q 1, sin t * q 0 + cos t * q 1, q 2] := by
  unfold Rz
  apply v_ext <;> simp [Matrix.mulVec, dotProduct, Fin.sum_univ_three] <;> ring

theorem outgoing_eq (q : Fin 3 → ℝ) (lam phi : ℝ) : outgoing q lam phi =
    ![1 / lam + (cos (phi * π / 180) * q 0 - sin (phi * π / 180) * q 1), sin (phi * π / 180) * q 0 + cos (phi * π / 180) * q 1, q 2] := by
  unfold outgoing beam
  rw [Rz_mulVec]
  apply v_ext <;> simp

/-- turning one vector of the plane into another of the same length -/
theorem turn_to {q0 q1 x y : ℝ} (h : x ^ 2 + y ^ 2 = q0 ^ 2 + q1 ^ 2) :
    cos (arctan2 y x - arctan2 q1 q0) * q0 - sin (arctan2 y x - arctan2 q1 q0) * q1 = x ∧
    sin (arctan2 y x - arctan2 q1 q0) * q0 + cos (arctan2 y x - arctan2 q1 q0) * q1 = y := by
  obtain ⟨a1, a2⟩ := polar x y
  obtain ⟨b1, b2⟩ := polar q0 q1
  rw [h] at a1 a2
  set r := √(q0 ^ 2 + q1 ^ 2)
  set a := arctan2 y x
  set b := arctan2 q1 q0
  have e1 := cos_sq_add_sin_sq b
  rw [cos_sub, sin_sub]
  constructor
  · calc _ = r * cos a * (cos b ^ 2 + sin b ^ 2) := by rw [← b1, ← b2]; ring
      _ = x := by rw [e1, mul_one, a1]
  · calc _ = r * sin a * (cos b ^ 2 + sin b ^ 2) := by rw [← b1, ← b2]; ring
      _ = y := by rw [e1, mul_one, a2]

theorem deg_back (x : ℝ) : x / π * 180 * π / 180 = x := by
  have := pi_pos.ne'; field_simp

theorem norm_deg (x : ℝ) : cos ((if x / π * 180 > 0 then x / π * 180 else x / π * 180 + 360) * π / 180) = cos x ∧
    sin ((if x / π * 180 > 0 then x / π * 180 else x / π * 180 + 360) * π / 180) = sin x := by
  split_ifs
  · rw [deg_back]; exact ⟨rfl, rfl⟩
  · have : (x / π * 180 + 360) * π / 180 = x + 2 * π := by have := pi_pos.ne'; field_simp; ring
    rw [this, cos_add_two_pi, sin_add_two_pi]; exact ⟨rfl, rfl⟩

/-- the three numbers before the choice of sides -/
noncomputable def core (q : Fin 3 → ℝ) (lam : ℝ) : ℝ × ℝ × ℝ :=
  let qn := √(q ⬝ᵥ q)
  let qx := -qn ^ 2 * lam / 2
  let qy := √(qn ^ 2 - qx ^ 2 - q 2 ^ 2)
  let kx := qx + 1 / lam
  let gamma := arctan2 qy kx / π * 180 - 0
  let phi := (arctan2 qy qx - arctan2 (q 1) (q 0)) / π * 180
  (if gamma > 0 then gamma else gamma + 360, arcsin (q 2 * lam) / π * 180 - 0, if phi > 0 then phi else phi + 360)

/-- the square of the missing component -/
noncomputable def qy2 (q : Fin 3 → ℝ) (lam : ℝ) : ℝ := √(q ⬝ᵥ q) ^ 2 - (-√(q ⬝ᵥ q) ^ 2 * lam / 2) ^ 2 - q 2 ^ 2

theorem calcAngle_eq (ub : M3) (hkl : Fin 3 → ℝ) (lam : ℝ) (left anti : Bool) :
    calcAngle ub hkl lam left anti = if qy2 (ub *ᵥ hkl) lam < 0 then none else
      let c := core (ub *ᵥ hkl) lam
      if left = anti then some c else some (-c.1, c.2.1, -c.2.2) := by
  unfold calcAngle qy2 core
  dsimp only
  split_ifs with h
  all_goals first
    | rfl
    | (cases left <;> cases anti <;> simp_all)

theorem qn_sq (q : Fin 3 → ℝ) : √(q ⬝ᵥ q) ^ 2 = q 0 ^ 2 + q 1 ^ 2 + q 2 ^ 2 := by
  rw [Real.sq_sqrt (by rw [dot3]; nlinarith [mul_self_nonneg (q 0), mul_self_nonneg (q 1), mul_self_nonneg (q 2)]), dot3]; ring

theorem core_spec (q : Fin 3 → ℝ) {lam : ℝ} (hl : 0 < lam) (h : 0 ≤ qy2 q lam) :
    outgoing q lam (core q lam).2.2 = (1 / lam) • dirDet ((core q lam).1 * π / 180) ((core q lam).2.1 * π / 180) ∧
    0 ≤ outgoing q lam (core q lam).2.2 1 := by
  have l0 := hl.ne'
  unfold qy2 at h
  have hy := Real.sq_sqrt h
  have hy0 := Real.sqrt_nonneg (√(q ⬝ᵥ q) ^ 2 - (-√(q ⬝ᵥ q) ^ 2 * lam / 2) ^ 2 - q 2 ^ 2)
  have hq := qn_sq q
  unfold core
  dsimp only
  set Y := √(√(q ⬝ᵥ q) ^ 2 - (-√(q ⬝ᵥ q) ^ 2 * lam / 2) ^ 2 - q 2 ^ 2) with hY
  set X := -√(q ⬝ᵥ q) ^ 2 * lam / 2 with hX
  have hXY : X ^ 2 + Y ^ 2 = q 0 ^ 2 + q 1 ^ 2 := by rw [hy, hq]; ring
  obtain ⟨t1, t2⟩ := turn_to hXY
  obtain ⟨n1, n2⟩ := norm_deg (arctan2 Y X - arctan2 (q 1) (q 0))
  obtain ⟨g1, g2⟩ := norm_deg (arctan2 Y (X + 1 / lam))
  obtain ⟨p1, p2⟩ := polar (X + 1 / lam) Y
  have ball : (X + 1 / lam) ^ 2 + Y ^ 2 = (1 - (q 2 * lam) ^ 2) / lam ^ 2 := by
    have : 2 * X * (1 / lam) = -√(q ⬝ᵥ q) ^ 2 := by rw [hX]; field_simp
    calc (X + 1 / lam) ^ 2 + Y ^ 2 = X ^ 2 + Y ^ 2 + 2 * X * (1 / lam) + 1 / lam ^ 2 := by field_simp; ring
      _ = _ := by rw [hXY, this, hq]; field_simp; ring
  have hz : (q 2 * lam) ^ 2 ≤ 1 := by
    by_contra hn
    have : (1 - (q 2 * lam) ^ 2) / lam ^ 2 < 0 := div_neg_of_neg_of_pos (by linarith [not_le.mp hn]) (by positivity)
    nlinarith [sq_nonneg (X + 1 / lam), sq_nonneg Y]
  have hzb := abs_le.mp ((sq_le_one_iff_abs_le_one _).mp hz)
  have rr : √((X + 1 / lam) ^ 2 + Y ^ 2) = 1 / lam * cos (arcsin (q 2 * lam)) := by
    rw [ball, cos_arcsin, Real.sqrt_div (by linarith), Real.sqrt_sq hl.le]; ring
  rw [rr] at p1 p2
  rw [outgoing_eq, sub_zero, sub_zero, n1, n2, t1, t2]
  constructor
  · unfold dirDet
    rw [g1, g2, deg_back, sin_arcsin hzb.1 hzb.2]
    apply v_ext <;> simp only [Matrix.cons_val, Pi.smul_apply, smul_eq_mul]
    · rw [← mul_assoc, p1]; ring
    · rw [← mul_assoc, p2]
    · field_simp
  · simp only [Matrix.cons_val]
    exact hy0

theorem core_ranges (q : Fin 3 → ℝ) (lam : ℝ) : (0 < (core q lam).1 ∧ (core q lam).1 ≤ 360) ∧
    (-90 ≤ (core q lam).2.1 ∧ (core q lam).2.1 ≤ 90) ∧ (0 < (core q lam).2.2 ∧ (core q lam).2.2 ≤ 360) := by
  have pp := pi_pos
  have bd : ∀ y x : ℝ, -π < arctan2 y x ∧ arctan2 y x ≤ π := fun y x => ⟨Complex.neg_pi_lt_arg _, Complex.arg_le_pi _⟩
  have key : ∀ x : ℝ, -(2 * π) < x → x ≤ 2 * π →
      0 < (if x / π * 180 > 0 then x / π * 180 else x / π * 180 + 360) ∧ (if x / π * 180 > 0 then x / π * 180 else x / π * 180 + 360) ≤ 360 := by
    intro x h1 h2
    have a : x / π ≤ 2 := by rw [div_le_iff₀ pp]; exact h2
    have b : -2 < x / π := by rw [lt_div_iff₀ pp]; linarith
    split_ifs with hp
    · exact ⟨hp, by linarith⟩
    · exact ⟨by linarith, by linarith⟩
  unfold core
  dsimp only
  rw [sub_zero, sub_zero]
  refine ⟨?_, ?_, ?_⟩
  · exact key _ (by linarith [(bd (√(√(q ⬝ᵥ q) ^ 2 - (-√(q ⬝ᵥ q) ^ 2 * lam / 2) ^ 2 - q 2 ^ 2)) (-√(q ⬝ᵥ q) ^ 2 * lam / 2 + 1 / lam)).1])
      (by linarith [(bd (√(√(q ⬝ᵥ q) ^ 2 - (-√(q ⬝ᵥ q) ^ 2 * lam / 2) ^ 2 - q 2 ^ 2)) (-√(q ⬝ᵥ q) ^ 2 * lam / 2 + 1 / lam)).2])
  · have a : arcsin (q 2 * lam) / π ≤ 1 / 2 := by rw [div_le_iff₀ pp]; linarith [arcsin_le_pi_div_two (q 2 * lam)]
    have b : -(1 / 2) ≤ arcsin (q 2 * lam) / π := by rw [le_div_iff₀ pp]; linarith [neg_pi_div_two_le_arcsin (q 2 * lam)]
    exact ⟨by linarith, by linarith⟩
  · have h1 := bd (√(√(q ⬝ᵥ q) ^ 2 - (-√(q ⬝ᵥ q) ^ 2 * lam / 2) ^ 2 - q 2 ^ 2)) (-√(q ⬝ᵥ q) ^ 2 * lam / 2)
    have h2 := bd (q 1) (q 0)
    exact key _ (by linarith [h1.1, h2.2]) (by linarith [h1.2, h2.1])

/-- the sense in which the angles of the diffractometer are counted: anticlockwise seen from above or clockwise -/
def sense (anti : Bool) : ℝ := if anti then 1 else -1

/-- C73: with the detector on the left of the beam the three angles found bring the crystal into reflection and the detector into the
outgoing beam: turned by `phi` (counted in the declared sense) the crystal sends the beam in the direction of the two angles `gamma` (same
sense) and `nu`, which is on the left; each angle lies in its range. -/
theorem angles_left (ub : M3) (hkl : Fin 3 → ℝ) {lam : ℝ} (hl : 0 < lam) (anti : Bool) {gamma nu phi : ℝ}
    (h : calcAngle ub hkl lam true anti = some (gamma, nu, phi)) :
    outgoing (ub *ᵥ hkl) lam (sense anti * phi) = (1 / lam) • dirDet (sense anti * gamma * π / 180) (nu * π / 180) ∧
    0 ≤ outgoing (ub *ᵥ hkl) lam (sense anti * phi) 1 ∧
    (0 < sense anti * gamma ∧ sense anti * gamma ≤ 360) ∧ (-90 ≤ nu ∧ nu ≤ 90) ∧ (0 < sense anti * phi ∧ sense anti * phi ≤ 360) := by
  rw [calcAngle_eq] at h
  by_cases hq : qy2 (ub *ᵥ hkl) lam < 0
  · rw [if_pos hq] at h; cases h
  rw [if_neg hq] at h
  dsimp only at h
  have s := core_spec (ub *ᵥ hkl) hl (not_lt.mp hq)
  obtain ⟨r1, r2, r3⟩ := core_ranges (ub *ᵥ hkl) lam
  generalize core (ub *ᵥ hkl) lam = c at *
  have e : sense anti * gamma = c.1 ∧ nu = c.2.1 ∧ sense anti * phi = c.2.2 := by
    cases anti
    · simp only [Bool.true_eq_false, if_false, Option.some.injEq, Prod.mk.injEq] at h
      obtain ⟨rfl, rfl, rfl⟩ := h
      simp [sense]
    · simp only [if_true, Option.some.injEq] at h
      rw [h]; simp [sense]
  obtain ⟨e1, e2, e3⟩ := e
  rw [e1, e2, e3]
  exact ⟨s.1, s.2, r1, r2, r3⟩

/-- C73: nothing is returned exactly when no turn of the crystal about the vertical axis makes the outgoing wave vector as long as the
incoming one, that is when the reflection cannot be measured. -/
theorem angles_none_iff (ub : M3) (hkl : Fin 3 → ℝ) {lam : ℝ} (hl : 0 < lam) (left anti : Bool) :
    calcAngle ub hkl lam left anti = none ↔ ¬ ∃ phi : ℝ, len (outgoing (ub *ᵥ hkl) lam phi) = len (beam lam) := by
  have l0 := hl.ne'
  rw [calcAngle_eq]
  generalize ub *ᵥ hkl = q
  have hb : len (beam lam) = 1 / lam := by
    unfold len beam
    rw [dot3]
    simp only [Matrix.cons_val]
    rw [show 1 / lam * (1 / lam) + 0 * 0 + 0 * 0 = (1 / lam) ^ 2 by ring]
    exact Real.sqrt_sq (by positivity)
  have iff1 : 0 ≤ qy2 q lam ↔ ∃ phi : ℝ, len (outgoing q lam phi) = len (beam lam) := by
    constructor
    · intro h
      refine ⟨(core q lam).2.2, ?_⟩
      rw [(core_spec q hl h).1, hb]
      have : ∀ g n : ℝ, len ((1 / lam) • dirDet g n) = 1 / lam := by
        intro g n
        have e : len ((1 / lam) • dirDet g n) ^ 2 = (1 / lam) ^ 2 := by
          rw [len_sq]
          unfold dirDet
          simp only [Matrix.cons_val, Pi.smul_apply, smul_eq_mul]
          have a := cos_sq_add_sin_sq g
          have b := cos_sq_add_sin_sq n
          calc _ = (1 / lam) ^ 2 * (cos n ^ 2 * (cos g ^ 2 + sin g ^ 2) + sin n ^ 2) := by ring
            _ = _ := by rw [a, mul_one, b, mul_one]
        have p : 0 ≤ len ((1 / lam) • dirDet g n) := by unfold len; exact Real.sqrt_nonneg _
        have p2 : 0 ≤ 1 / lam := by positivity
        exact (sq_eq_sq₀ p p2).mp e
      exact this _ _
    · rintro ⟨phi, h⟩
      rw [hb] at h
      have h2 : len (outgoing q lam phi) ^ 2 = (1 / lam) ^ 2 := by rw [h]
      rw [len_sq, outgoing_eq] at h2
      simp only [Matrix.cons_val] at h2
      have cs := cos_sq_add_sin_sq (phi * π / 180)
      set c := cos (phi * π / 180)
      set s := sin (phi * π / 180)
      have n2 : (c * q 0 - s * q 1) ^ 2 + (s * q 0 + c * q 1) ^ 2 = q 0 ^ 2 + q 1 ^ 2 := by
        linear_combination (q 0 ^ 2 + q 1 ^ 2) * cs
      have x : c * q 0 - s * q 1 = -√(q ⬝ᵥ q) ^ 2 * lam / 2 := by
        rw [qn_sq]
        have : 2 * (c * q 0 - s * q 1) / lam = -(q 0 ^ 2 + q 1 ^ 2 + q 2 ^ 2) := by
          have : 2 * (c * q 0 - s * q 1) / lam = 2 * (1 / lam) * (c * q 0 - s * q 1) := by ring
          rw [this]
          linear_combination h2 - n2
        rw [div_eq_iff l0] at this
        linarith
      unfold qy2
      rw [← x, qn_sq]
      have : q 0 ^ 2 + q 1 ^ 2 + q 2 ^ 2 - (c * q 0 - s * q 1) ^ 2 - q 2 ^ 2 = (s * q 0 + c * q 1) ^ 2 := by linarith
      rw [this]
      exact sq_nonneg _
  rw [← iff1, not_le]
  constructor
  · intro h
    by_contra hn
    rw [if_neg hn] at h
    dsimp only at h
    split_ifs at h
  · intro h; rw [if_pos h]

/-- C73 (failure): with the detector on the right the angles are right only for reflections whose scattering vector has no component across
the beam before the crystal is turned: the code turns the crystal by the mirror image of the angle for the left side. -/
theorem angles_right_iff (ub : M3) (hkl : Fin 3 → ℝ) {lam : ℝ} (hl : 0 < lam) (anti : Bool) {gamma nu phi : ℝ}
    (h : calcAngle ub hkl lam false anti = some (gamma, nu, phi)) :
    outgoing (ub *ᵥ hkl) lam (sense anti * phi) = (1 / lam) • dirDet (sense anti * gamma * π / 180) (nu * π / 180) ↔ (ub *ᵥ hkl) 1 = 0 := by
  rw [calcAngle_eq] at h
  by_cases hq : qy2 (ub *ᵥ hkl) lam < 0
  · rw [if_pos hq] at h; cases h
  rw [if_neg hq] at h
  dsimp only at h
  have s := (core_spec (ub *ᵥ hkl) hl (not_lt.mp hq)).1
  generalize core (ub *ᵥ hkl) lam = c at *
  generalize ub *ᵥ hkl = q at *
  have e : sense anti * gamma = -c.1 ∧ nu = c.2.1 ∧ sense anti * phi = -c.2.2 := by
    cases anti
    · simp only [if_true, Option.some.injEq] at h
      rw [h]; simp [sense]
    · simp only [Bool.false_eq_true, if_false, Option.some.injEq, Prod.mk.injEq] at h
      obtain ⟨rfl, rfl, rfl⟩ := h
      simp [sense]
  obtain ⟨e1, e2, e3⟩ := e
  rw [e1, e2, e3]
  rw [outgoing_eq] at s ⊢
  have s0 := congrFun s 0
  have s1 := congrFun s 1
  have s2 := congrFun s 2
  unfold dirDet at s0 s1 s2 ⊢
  simp only [Matrix.cons_val, Pi.smul_apply, smul_eq_mul] at s0 s1 s2
  have np : ∀ x : ℝ, -x * π / 180 = -(x * π / 180) := fun x => by ring
  rw [np, np, cos_neg, sin_neg, cos_neg, sin_neg]
  set C := cos (c.2.2 * π / 180)
  set S := sin (c.2.2 * π / 180)
  have cs : C ^ 2 + S ^ 2 = 1 := cos_sq_add_sin_sq _
  constructor
  · intro hh
    have h0 := congrFun hh 0
    have h1 := congrFun hh 1
    simp only [Matrix.cons_val, Pi.smul_apply, smul_eq_mul] at h0 h1
    have a : S * q 1 = 0 := by linarith
    have b : C * q 1 = 0 := by linarith
    calc q 1 = (C ^ 2 + S ^ 2) * q 1 := by rw [cs, one_mul]
      _ = C * (C * q 1) + S * (S * q 1) := by ring
      _ = 0 := by rw [a, b]; ring
  · intro h1
    rw [h1] at s0 s1 ⊢
    apply v_ext <;> simp only [Matrix.cons_val, Pi.smul_apply, smul_eq_mul]
    · linarith
    · linarith
    · exact s2

/-- a reflection that is found on both sides, and wrongly on the right -/
example : ∃ c, calcAngle 1 ![0, 1, 0] 1 true true = some c ∧ ∃ d, calcAngle 1 ![0, 1, 0] 1 false true = some d ∧
    ((1 : M3) *ᵥ ![0, 1, 0]) 1 ≠ 0 := by
  have hq : ¬ qy2 ((1 : M3) *ᵥ ![0, 1, 0]) 1 < 0 := by
    unfold qy2
    rw [qn_sq, Matrix.one_mulVec]
    simp only [Matrix.cons_val]
    norm_num
  refine ⟨_, by rw [calcAngle_eq, if_neg hq]; rfl, _, by rw [calcAngle_eq, if_neg hq]; rfl, ?_⟩
  rw [Matrix.one_mulVec]
  norm_num

/-- C73: the angles `gamma` and `nu` do not depend on the notation of the UB matrix: turning the laboratory axes about the vertical one only
changes the zero of `phi`. -/
theorem gamma_nu_of_turned (ub : M3) (t : ℝ) (hkl : Fin 3 → ℝ) (lam : ℝ) (left anti : Bool) :
    (calcAngle (Rz t * ub) hkl lam left anti).map (fun c => (c.1, c.2.1)) = (calcAngle ub hkl lam left anti).map (fun c => (c.1, c.2.1)) := by
  rw [calcAngle_eq, calcAngle_eq, ← Matrix.mulVec_mulVec]
  generalize ub *ᵥ hkl = q
  have d : (Rz t *ᵥ q) ⬝ᵥ (Rz t *ᵥ q) = q ⬝ᵥ q := by
    rw [Matrix.dotProduct_mulVec, ← Matrix.mulVec_transpose, Matrix.mulVec_mulVec, (Rz_rotation t).1, Matrix.one_mulVec]
  have z : (Rz t *ᵥ q) 2 = q 2 := by rw [Rz_mulVec]; rfl
  have c1 : (core (Rz t *ᵥ q) lam).1 = (core q lam).1 := by unfold core; dsimp only; rw [d, z]
  have c2 : (core (Rz t *ᵥ q) lam).2.1 = (core q lam).2.1 := by unfold core; dsimp only; rw [z]
  have y : qy2 (Rz t *ᵥ q) lam = qy2 q lam := by unfold qy2; rw [d, z]
  rw [y]
  split_ifs
  · rfl
  · simp [c1, c2]
  · simp [c1, c2]

end Cryspy.Orient
