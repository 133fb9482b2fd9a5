import Verif.Bkg.Model2
import Mathlib.Analysis.Calculus.Deriv.Add
import Mathlib.Analysis.Calculus.Deriv.Mul
import Mathlib.Analysis.SpecialFunctions.Trigonometric.Basic
import Mathlib.Tactic.Ring
import Mathlib.Tactic.LinearCombination
import Mathlib.Tactic.Linarith
import Mathlib.Tactic.NormNum
import Mathlib.Data.Rat.Floor

/-!
# The background in cosines (C47) and the interpolation of a density between grid points (C48)
-/

namespace Cryspy.Bkg

/-! ### Cosines -/

theorem sum_set (f : ℝ × ℕ → ℝ) (l : List ℝ) (n k : ℕ) (hk : k < l.length) :
    ∃ c, ∀ v, (((l.set k v).zipIdx n).map f).sum = c + f (v, n + k) := by
  induction l generalizing n k with
  | nil => simp at hk
  | cons a l ih =>
    cases k with
    | zero => exact ⟨((l.zipIdx (n + 1)).map f).sum, fun v => by simp [List.zipIdx_cons]; ring⟩
    | succ k =>
      obtain ⟨c, hc⟩ := ih (n + 1) k (by simpa using hk)
      refine ⟨f (a, n) + c, fun v => ?_⟩
      simp only [List.set_cons_succ, List.zipIdx_cons, List.map_cons, List.sum_cons, hc v]
      rw [show n + 1 + k = n + (k + 1) by omega]
      ring

/-- The reported derivative over each coefficient is the derivative of the reported background. -/
theorem d_cosines_spec (xs coefficients : List ℝ) (k : ℕ) (hk : k < coefficients.length)
    (x v : ℝ) :
    HasDerivAt (fun v => calcCosines xs (coefficients.set k v) x) (dCosines xs k x) v := by
  obtain ⟨c, hc⟩ := sum_set
    (fun q : ℝ × ℕ => q.1 * Real.cos (q.2 * ((x - 0) / xs.max?.getD 0 * Real.pi))) coefficients 0 k hk
  have e : (fun v => calcCosines xs (coefficients.set k v) x) =
      fun v => c + v * dCosines xs k x := by
    funext v
    unfold calcCosines
    simp only []
    rw [hc v]
    simp [dCosines]
  rw [e]
  simpa using (hasDerivAt_mul_const (dCosines xs k x) (x := v)).const_add c

example : ∃ coefficients : List ℝ, 1 < coefficients.length := ⟨[1, 2], by simp⟩

theorem lastNumber_ge (l : List (Option ℝ)) (s n : ℕ) :
    min n (s + 1) ≤ (l.zipIdx s).foldl (fun n c => if c.1.isSome then c.2 + 1 else n) n ∧
    ∀ i v, l[i]? = some (some v) →
      s + i < (l.zipIdx s).foldl (fun n c => if c.1.isSome then c.2 + 1 else n) n := by
  induction l generalizing s n with
  | nil => simp
  | cons a l ih =>
    simp only [List.zipIdx_cons, List.foldl_cons]
    obtain ⟨h1, h2⟩ := ih (s + 1) (if a.isSome then s + 1 else n)
    constructor
    · refine le_trans ?_ h1
      split_ifs <;> omega
    · intro i v hi
      cases i with
      | zero =>
        simp at hi; subst hi
        simp only [Option.isSome_some, if_true] at h1 ⊢
        omega
      | succ i =>
        have := h2 i v (by simpa using hi)
        omega

/-- When the largest measured time is the `time_max` of the item, the refinement computes the
background the item describes, for any set of defined coefficients. -/
theorem cosines_agree (timeMax : ℝ) (coeff : List (Option ℝ)) (xs : List ℝ)
    (hmax : xs.max? = some timeMax) (x : ℝ) :
    calcCosines xs (getCoefficients coeff) x = tofBackground timeMax coeff x := by
  obtain ⟨-, hlast⟩ := lastNumber_ge coeff 0 1
  set N := (coeff.zipIdx 0).foldl (fun n c => if c.1.isSome then c.2 + 1 else n) 1 with hN
  have eN : getCoefficients coeff = (coeff.map (·.getD 0)).take N := rfl
  set f : ℝ × ℕ → ℝ := fun q => q.1 * Real.cos (q.2 * (x / timeMax * Real.pi)) with hf
  have e1 : calcCosines xs (getCoefficients coeff) x =
      (((coeff.map (·.getD 0)).take N).zipIdx.map f).sum := by
    unfold calcCosines
    rw [eN, hmax]; simp [hf]
  have e2 : tofBackground timeMax coeff x = ((coeff.map (·.getD 0)).zipIdx.map f).sum := by
    unfold tofBackground
    rw [List.zipIdx_map, List.map_map]
    congr 1
    apply List.map_congr_left
    rintro ⟨c, i⟩ _
    cases c <;> simp [hf]
  rw [e1, e2]
  conv_rhs => rw [← List.take_append_drop N (coeff.map (·.getD 0)), List.zipIdx_append,
    List.map_append, List.sum_append]
  have hz : ∀ (l : List ℝ) (s : ℕ), (∀ v ∈ l, v = 0) → ((l.zipIdx s).map f).sum = 0 := by
    intro l
    induction l with
    | nil => intro s _; rfl
    | cons a l ih =>
      intro s h
      rw [List.zipIdx_cons, List.map_cons, List.sum_cons, ih _ (fun v hv => h v (by simp [hv]))]
      simp [hf, h a (by simp)]
  rw [hz ((coeff.map (·.getD 0)).drop N) _ ?_, add_zero]
  intro v hv
  obtain ⟨i, hi⟩ := List.mem_iff_getElem?.mp hv
  rw [List.getElem?_drop, List.getElem?_map] at hi
  rcases hc : coeff[N + i]? with _ | c
  · rw [hc] at hi; simp at hi
  · rw [hc] at hi
    cases c with
    | none => simpa using hi.symm
    | some w =>
      have := hlast (N + i) w hc
      omega

/-- In general it does not: with `time_max = 2` and data up to 1 the refined background is `-1`
where the item's own is `0`.  The entry `background_time_max` of the dictionary is not used. -/
theorem cosines_disagree :
    tofBackground 2 [some 0, some 1] 1 = 0 ∧
    calcCosines [1] (getCoefficients [some 0, some 1]) 1 = -1 := by
  constructor
  · simp [tofBackground, List.zipIdx_cons, ← div_eq_inv_mul]
  · simp [calcCosines, getCoefficients, List.zipIdx_cons, List.max?_cons']

/-! ### Density between grid points -/

section
variable {K : Type*} [Field K] [LinearOrder K] [IsStrictOrderedRing K] [FloorRing K]

/-- The density on the infinite periodic grid. -/
def periodic (n : Fin 3 → ℕ) (den : ℕ → ℕ → ℕ → K) (i j k : ℤ) : K :=
  den (i % n 0).toNat (j % n 1).toNat (k % n 2).toNat

omit [IsStrictOrderedRing K] in
theorem triLinear_eq (n : Fin 3 → ℕ) (den : ℕ → ℕ → ℕ → K) (x y z : K) :
    triLinear n den x y z =
      let g := periodic n den
      let xd := x - ⌊x⌋
      let yd := y - ⌊y⌋
      let zd := z - ⌊z⌋
      ((g ⌊x⌋ ⌊y⌋ ⌊z⌋ * (1 - xd) + g (⌊x⌋ + 1) ⌊y⌋ ⌊z⌋ * xd) * (1 - yd) +
        (g ⌊x⌋ (⌊y⌋ + 1) ⌊z⌋ * (1 - xd) + g (⌊x⌋ + 1) (⌊y⌋ + 1) ⌊z⌋ * xd) * yd) * (1 - zd) +
      ((g ⌊x⌋ ⌊y⌋ (⌊z⌋ + 1) * (1 - xd) + g (⌊x⌋ + 1) ⌊y⌋ (⌊z⌋ + 1) * xd) * (1 - yd) +
        (g ⌊x⌋ (⌊y⌋ + 1) (⌊z⌋ + 1) * (1 - xd) +
          g (⌊x⌋ + 1) (⌊y⌋ + 1) (⌊z⌋ + 1) * xd) * yd) * zd := by
  have e : ∀ w : K, (w - (⌊w⌋ : K)) / (((⌊w⌋ + 1 : ℤ) : K) - (⌊w⌋ : K)) = w - ⌊w⌋ := by
    intro w; push_cast; rw [add_sub_cancel_left, div_one]
  unfold triLinear
  simp only [e, periodic]

/-- At a grid point (also outside the first cell) the interpolated density is the density there. -/
theorem triLinear_grid (n : Fin 3 → ℕ) (den : ℕ → ℕ → ℕ → K) (i j k : ℤ) :
    triLinear n den i j k = periodic n den i j k := by
  rw [triLinear_eq]; simp

/-- The interpolated density is periodic with the cell in each direction. -/
theorem triLinear_periodic (n : Fin 3 → ℕ) (den : ℕ → ℕ → ℕ → K) (x y z : K) (a b c : ℤ) :
    triLinear n den (x + a * n 0) (y + b * n 1) (z + c * n 2) = triLinear n den x y z := by
  have e : ∀ (w : K) (m : ℕ) (d : ℤ), ⌊w + d * m⌋ = ⌊w⌋ + d * m := by
    intro w m d
    have : w + (d : K) * m = w + ((d * m : ℤ) : K) := by push_cast; ring
    rw [this, Int.floor_add_intCast]
  have s : ∀ (w : K) (m : ℕ) (d : ℤ), w + d * m - ((⌊w⌋ + d * m : ℤ) : K) = w - ⌊w⌋ := by
    intro w m d; push_cast; ring
  have hp : ∀ i j k : ℤ, ∀ u v w : ℤ,
      periodic n den (i + u * n 0) (j + v * n 1) (k + w * n 2) = periodic n den i j k := by
    intro i j k u v w
    simp [periodic]
  have r : ∀ (w d m : ℤ), w + d * m + 1 = (w + 1) + d * m := by intro w d m; ring
  rw [triLinear_eq, triLinear_eq]
  simp only [e, s, r, hp]

/-- The interpolated density stays between any bounds of the eight surrounding grid points. -/
theorem triLinear_between (n : Fin 3 → ℕ) (den : ℕ → ℕ → ℕ → K) (x y z lo up : K)
    (h : ∀ i ∈ [⌊x⌋, ⌊x⌋ + 1], ∀ j ∈ [⌊y⌋, ⌊y⌋ + 1], ∀ k ∈ [⌊z⌋, ⌊z⌋ + 1],
      lo ≤ periodic n den i j k ∧ periodic n den i j k ≤ up) :
    lo ≤ triLinear n den x y z ∧ triLinear n den x y z ≤ up := by
  have mix : ∀ (w : K) {p q : K}, (lo ≤ p ∧ p ≤ up) → (lo ≤ q ∧ q ≤ up) →
      lo ≤ p * (1 - (w - ⌊w⌋)) + q * (w - ⌊w⌋) ∧ p * (1 - (w - ⌊w⌋)) + q * (w - ⌊w⌋) ≤ up := by
    intro w p q hp hq
    have h0 : 0 ≤ w - ⌊w⌋ := sub_nonneg.mpr (Int.floor_le w)
    have h1 : w - ⌊w⌋ ≤ 1 := by linarith [Int.lt_floor_add_one w]
    constructor <;> nlinarith [hp.1, hp.2, hq.1, hq.2]
  rw [triLinear_eq]
  simp only
  refine mix z (mix y (mix x ?_ ?_) (mix x ?_ ?_)) (mix y (mix x ?_ ?_) (mix x ?_ ?_)) <;>
    exact h _ (by simp) _ (by simp) _ (by simp)

omit [IsStrictOrderedRing K] in
/-- Any function linear in each coordinate (eight coefficients, so any eight corner values) is
reproduced exactly inside its grid cell; this determines the interpolation. -/
theorem triLinear_exact (n : Fin 3 → ℕ) (den : ℕ → ℕ → ℕ → K) (x y z : K)
    (c0 cx cy cz cxy cxz cyz cxyz : K)
    (h : ∀ i ∈ [⌊x⌋, ⌊x⌋ + 1], ∀ j ∈ [⌊y⌋, ⌊y⌋ + 1], ∀ k ∈ [⌊z⌋, ⌊z⌋ + 1],
      periodic n den i j k = c0 + cx * i + cy * j + cz * k + cxy * i * j + cxz * i * k +
        cyz * j * k + cxyz * i * j * k) :
    triLinear n den x y z = c0 + cx * x + cy * y + cz * z + cxy * x * y + cxz * x * z +
        cyz * y * z + cxyz * x * y * z := by
  rw [triLinear_eq]
  simp only
  rw [h ⌊x⌋ (by simp) ⌊y⌋ (by simp) ⌊z⌋ (by simp), h (⌊x⌋ + 1) (by simp) ⌊y⌋ (by simp) ⌊z⌋ (by simp),
    h ⌊x⌋ (by simp) (⌊y⌋ + 1) (by simp) ⌊z⌋ (by simp),
    h (⌊x⌋ + 1) (by simp) (⌊y⌋ + 1) (by simp) ⌊z⌋ (by simp),
    h ⌊x⌋ (by simp) ⌊y⌋ (by simp) (⌊z⌋ + 1) (by simp),
    h (⌊x⌋ + 1) (by simp) ⌊y⌋ (by simp) (⌊z⌋ + 1) (by simp),
    h ⌊x⌋ (by simp) (⌊y⌋ + 1) (by simp) (⌊z⌋ + 1) (by simp),
    h (⌊x⌋ + 1) (by simp) (⌊y⌋ + 1) (by simp) (⌊z⌋ + 1) (by simp)]
  push_cast
  ring

end

example : triLinear ![2, 2, 2] (fun i j k => ((i + 2 * j + 4 * k : ℕ) : ℚ)) (1/2) (1/4) (3/2) = 3 := by
  decide +kernel

example : ∀ i ∈ [⌊(1/2 : ℚ)⌋, ⌊(1/2 : ℚ)⌋ + 1], ∀ j ∈ [⌊(1/4 : ℚ)⌋, ⌊(1/4 : ℚ)⌋ + 1],
    ∀ k ∈ [⌊(1/2 : ℚ)⌋, ⌊(1/2 : ℚ)⌋ + 1],
    periodic ![2, 2, 2] (fun i j k => ((i + 2 * j + 4 * k : ℕ) : ℚ)) i j k =
      0 + 1 * i + 2 * j + 4 * k + 0 * i * j + 0 * i * k + 0 * j * k + 0 * i * j * k := by
  decide +kernel

end Cryspy.Bkg
