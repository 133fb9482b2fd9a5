import Verif.Adp.Model
import Verif.Cell.Props
import Verif.CellConstr.Props
import Mathlib.LinearAlgebra.Matrix.PosDef
import Mathlib.Analysis.SpecialFunctions.ExpDeriv

/-!
# Displacement parameters (C30)
-/

namespace Cryspy.Adp

open Real Matrix Mat Cell

/-- the types with one number -/
def isoTypes : List String := ["Uiso", "Biso", "Uovl", "Umpe", "Bovl"]
/-- the types with a tensor -/
def anisoTypes : List String := ["Uani", "Bani"]

/-- C30: `U → β → U` and `β → U → β` give back the tensor, for any cell with non-zero reciprocal lengths. -/
theorem u_beta_round_trip (x r : Fin 6 → ℝ) (h0 : r 0 ≠ 0) (h1 : r 1 ≠ 0) (h2 : r 2 ≠ 0) :
    u_by_beta (beta_by_u x r) r = x ∧ beta_by_u (u_by_beta x r) r = x := by
  have hp := pi_ne_zero
  constructor
  · unfold u_by_beta beta_by_u
    ext i
    fin_cases i <;> simp only [Matrix.cons_val, Fin.reduceFinMk, Fin.zero_eta, Fin.mk_one, Fin.isValue] <;> field_simp
  · unfold u_by_beta beta_by_u
    ext i
    fin_cases i <;> simp only [Matrix.cons_val, Fin.reduceFinMk, Fin.zero_eta, Fin.mk_one, Fin.isValue] <;> field_simp

/-- the reciprocal lengths of a proper cell are positive -/
theorem reciprocal_pos {uc : Fin 6 → ℝ} (h : NonDegenerate uc) (hp : ProperAngles uc) :
    0 < calc_reciprocal uc 0 ∧ 0 < calc_reciprocal uc 1 ∧ 0 < calc_reciprocal uc 2 :=
  let n := (reciprocal_cell_nonDegenerate uc h hp).1
  ⟨n.a_pos, n.b_pos, n.c_pos⟩

theorem iso_round {t : String} (ht : t ∈ isoTypes) (x : ℝ) : isoOf t (bIsoOf t x) = x ∧ bIsoOf t (isoOf t x) = x := by
  have hp := pi_ne_zero
  simp only [isoTypes, List.mem_cons, List.not_mem_nil, or_false] at ht
  rcases ht with rfl | rfl | rfl | rfl | rfl <;> simp [isoOf, bIsoOf] <;> field_simp <;> simp

theorem aniso_round {uc : Fin 6 → ℝ} (h : NonDegenerate uc) (hp : ProperAngles uc) {t : String} (ht : t ∈ anisoTypes) (x : Fin 6 → ℝ) :
    anisoOf (calc_reciprocal uc) t (betaOf (calc_reciprocal uc) t x) = x ∧
    betaOf (calc_reciprocal uc) t (anisoOf (calc_reciprocal uc) t x) = x := by
  obtain ⟨a, b, c⟩ := reciprocal_pos h hp
  simp only [anisoTypes, List.mem_cons, List.not_mem_nil, or_false] at ht
  rcases ht with rfl | rfl <;> simp [anisoOf, betaOf, u_beta_round_trip _ _ a.ne' b.ne' c.ne']

/-- C30: for a list of atoms of any length and any mixture of types, converting to `B_iso`, `β` and back with the same cell gives for each
atom the parameter of its type, and zero for the other one. -/
theorem adp_round_trip {uc : Fin 6 → ℝ} (h : NonDegenerate uc) (hp : ProperAngles uc) (atoms : List (String × ℝ × (Fin 6 → ℝ)))
    (ht : ∀ a ∈ atoms, a.1 ∈ isoTypes ∨ a.1 ∈ anisoTypes) :
    paramIsoAniso uc (atoms.map Prod.fst) (bIsoBeta uc atoms) =
      atoms.map fun a => (if a.1 ∈ isoTypes then a.2.1 else 0, if a.1 ∈ anisoTypes then a.2.2 else fun _ => 0) := by
  induction atoms with
  | nil => rfl
  | cons a as ih =>
    have ih := ih fun x hx => ht x (List.mem_cons_of_mem _ hx)
    unfold paramIsoAniso bIsoBeta at ih ⊢
    simp only [List.map_cons, List.zipWith_cons_cons]
    rw [ih]
    congr 1
    obtain ⟨t, x, u⟩ := a
    simp only
    rcases ht (t, x, u) List.mem_cons_self with h1 | h1
    · have h1 : t ∈ isoTypes := h1
      have h2 : t ∉ anisoTypes := by
        simp only [isoTypes, List.mem_cons, List.not_mem_nil, or_false] at h1
        rcases h1 with rfl | rfl | rfl | rfl | rfl <;> decide
      rw [if_pos h1, if_neg h2, (iso_round h1 x).1]
      congr 1
      simp only [anisoTypes, List.mem_cons, List.not_mem_nil, or_false, not_or] at h2
      simp [anisoOf, h2.1, h2.2]
    · have h1 : t ∈ anisoTypes := h1
      have h2 : t ∉ isoTypes := by
        simp only [anisoTypes, List.mem_cons, List.not_mem_nil, or_false] at h1
        rcases h1 with rfl | rfl <;> decide
      rw [if_neg h2, if_pos h1, (aniso_round h hp h1 u).1]
      congr 1
      simp only [isoTypes, List.mem_cons, List.not_mem_nil, or_false, not_or] at h2
      simp [isoOf, h2]

/-- C30: the same the other way round, from `B_iso`, `β`. -/
theorem adp_round_trip' {uc : Fin 6 → ℝ} (h : NonDegenerate uc) (hp : ProperAngles uc) {t : String} (b : ℝ) (beta : Fin 6 → ℝ) :
    (t ∈ isoTypes → bIsoOf t (isoOf t b) = b) ∧
    (t ∈ anisoTypes → betaOf (calc_reciprocal uc) t (anisoOf (calc_reciprocal uc) t beta) = beta) :=
  ⟨fun ht => (iso_round ht b).2, fun ht => (aniso_round h hp ht beta).2⟩

example : NonDegenerate exUC ∧ ProperAngles exUC ∧
    ∀ a ∈ [("Uani", (0 : ℝ), ![0.01, 0.02, 0.01, 0.003, 0, (0 : ℝ)]), ("Biso", 0.5, fun _ => 0)], a.1 ∈ isoTypes ∨ a.1 ∈ anisoTypes :=
  ⟨exUC_nonDegenerate, exUC_proper, by simp [isoTypes, anisoTypes]⟩

/-- C30: the two implementations, on arrays and on items, give the same numbers for an atom whose tensor is listed. -/
theorem items_agree (ruc : Fin 6 → ℝ) (anisos : List AnisoItem) (a : AtomItem) (s : AnisoItem) (t : String) (ht : a.adp = some t)
    (hs : anisos.find? (·.label = a.label) = some s) :
    itemBIsoBeta ruc anisos a = some (bIsoOf t (if t = "Biso" ∨ t = "Bovl" then a.bIso else a.uIso),
      betaOf ruc t (if t = "Bani" then s.b else s.u)) := by
  unfold itemBIsoBeta
  rw [ht]
  simp only [hs, bIsoOf, betaOf]
  split_ifs <;> simp_all

example : ∃ a s, ([(⟨"Fe1", fun _ => 0.01, fun _ => 0⟩ : AnisoItem)] : List AnisoItem).find? (·.label = (⟨"Fe1", some "Uani", 0, 0⟩ : AtomItem).label) = some s ∧
    a = (⟨"Fe1", some "Uani", 0, 0⟩ : AtomItem) := ⟨_, _, by simp; rfl, rfl⟩

/-- C30: the derivative tables of the conversions are the true ones (the map is diagonal). -/
theorem d_conversions (x r : Fin 6 → ℝ) :
    IsJacobian (fun x => beta_by_u x r) (fun i j => if i = j then d_beta_by_u x r i else 0) x ∧
    IsJacobian (fun x => u_by_beta x r) (fun i j => if i = j then d_u_by_beta x r i else 0) x := by
  have lin : ∀ (j : Fin 6) (c : ℝ), HasDerivAt (fun t : ℝ => c * t) c (x j) := fun j c => by
    simpa using (hasDerivAt_id' (x j)).const_mul c
  constructor
  · intro i j
    by_cases h : i = j
    · subst h
      simp only [if_true]
      refine (lin i (d_beta_by_u x r i)).congr_of_eventuallyEq (Filter.Eventually.of_forall fun t => ?_)
      unfold beta_by_u d_beta_by_u
      fin_cases i <;> simp only [Matrix.cons_val, Fin.reduceFinMk, Fin.zero_eta, Fin.mk_one, Fin.isValue, Function.update_self] <;> ring
    · simp only [h, if_false]
      refine (hasDerivAt_const (x j) (beta_by_u x r i)).congr_of_eventuallyEq (Filter.Eventually.of_forall fun t => ?_)
      have e : Function.update x j t i = x i := Function.update_of_ne h _ _
      unfold beta_by_u
      fin_cases i <;> simp only [Matrix.cons_val, Fin.reduceFinMk, Fin.zero_eta, Fin.mk_one, Fin.isValue] at e ⊢ <;> rw [e]
  · intro i j
    by_cases h : i = j
    · subst h
      simp only [if_true]
      refine (lin i (d_u_by_beta x r i)).congr_of_eventuallyEq (Filter.Eventually.of_forall fun t => ?_)
      unfold u_by_beta d_u_by_beta
      fin_cases i <;> simp only [Matrix.cons_val, Fin.reduceFinMk, Fin.zero_eta, Fin.mk_one, Fin.isValue, Function.update_self] <;> ring
    · simp only [h, if_false]
      refine (hasDerivAt_const (x j) (u_by_beta x r i)).congr_of_eventuallyEq (Filter.Eventually.of_forall fun t => ?_)
      have e : Function.update x j t i = x i := Function.update_of_ne h _ _
      unfold u_by_beta
      fin_cases i <;> simp only [Matrix.cons_val, Fin.reduceFinMk, Fin.zero_eta, Fin.mk_one, Fin.isValue] at e ⊢ <;> rw [e]

/-- C30: the anisotropic exponent is the quadratic form of `β` on the rotated indices `h R`. -/
theorem power_aniso_spec (hkl : Fin 3 → ℝ) (beta : Fin 6 → ℝ) (r : Fin 9 → ℝ) :
    power_aniso hkl beta r = (hkl ᵥ* toM r) ⬝ᵥ (toQ beta *ᵥ (hkl ᵥ* toM r)) := by
  unfold power_aniso toM toQ
  simp [Matrix.vecMul, Matrix.mulVec, dotProduct, Fin.sum_univ_three]
  ring

/-- C30: derivatives of the exponents. -/
theorem d_powers (hkl : Fin 3 → ℝ) (beta : Fin 6 → ℝ) (r : Fin 9 → ℝ) (s b : ℝ) :
    (∀ j, HasDerivAt (fun t => power_aniso hkl (Function.update beta j t) r) (d_power_aniso hkl beta r j) (beta j)) ∧
    HasDerivAt (fun b => power_iso s b) (d_power_iso_b s b) b ∧ HasDerivAt (fun s => power_iso s b) (d_power_iso_s s b) s := by
  refine ⟨fun j => ?_, ?_, ?_⟩
  · have lin : ∀ c k : ℝ, HasDerivAt (fun t : ℝ => c * t + k) c (beta j) := fun c k => by
      simpa using ((hasDerivAt_id' (beta j)).const_mul c).add_const k
    refine (lin (d_power_aniso hkl beta r j) (power_aniso hkl (Function.update beta j 0) r)).congr_of_eventuallyEq
      (Filter.Eventually.of_forall fun t => ?_)
    unfold power_aniso d_power_aniso
    fin_cases j <;> simp [Function.update] <;> ring
  · unfold power_iso d_power_iso_b
    simpa using (hasDerivAt_id' b).mul_const (s ^ 2)
  · unfold power_iso d_power_iso_s
    refine ((hasDerivAt_pow 2 s).const_mul b).congr_deriv ?_
    simp; ring

/-- C30: for a positive semi-definite tensor and non-negative `B_iso` the factor lies in (0, 1]. -/
theorem dwf_range (hkl : Fin 3 → ℝ) (s b : ℝ) (beta : Fin 6 → ℝ) (r : Fin 9 → ℝ) (hb : 0 ≤ b) (hβ : (toQ beta).PosSemidef) :
    0 < dwf hkl s b beta r ∧ dwf hkl s b beta r ≤ 1 := by
  refine ⟨exp_pos _, exp_le_one_iff.2 ?_⟩
  have h1 : 0 ≤ power_aniso hkl beta r := by
    rw [power_aniso_spec]
    simpa using hβ.dotProduct_mulVec_nonneg (hkl ᵥ* toM r)
  have h2 : 0 ≤ power_iso s b := by unfold power_iso; positivity
  linarith

/-- C30: the factor is the same for `h` and `-h`, and one for `000`. -/
theorem dwf_friedel (hkl : Fin 3 → ℝ) (s b : ℝ) (beta : Fin 6 → ℝ) (r : Fin 9 → ℝ) :
    dwf (-hkl) s b beta r = dwf hkl s b beta r ∧ dwf 0 0 b beta r = 1 := by
  constructor
  · unfold dwf
    rw [power_aniso_spec, power_aniso_spec]
    simp [Matrix.neg_vecMul, Matrix.mulVec_neg]
  · unfold dwf
    rw [power_aniso_spec]
    simp [power_iso]

/-- C30: operations compose: the factor of the operation `r₂` on the indices `h R₁` is that of `R₁ R₂` on `h`. -/
theorem dwf_compose (hkl : Fin 3 → ℝ) (s b : ℝ) (beta : Fin 6 → ℝ) (r1 r2 r12 : Fin 9 → ℝ) (h : toM r12 = toM r1 * toM r2) :
    dwf (hkl ᵥ* toM r1) s b beta r2 = dwf hkl s b beta r12 := by
  unfold dwf
  rw [power_aniso_spec, power_aniso_spec, h, Matrix.vecMul_vecMul]

/-- C30: the tensor of an isotropic mean-square displacement `u`: its components on the unit vectors along `a* b* c*` are the cosines of the
reciprocal angles times `u`. -/
noncomputable def isotropicU (u : ℝ) (ruc : Fin 6 → ℝ) : Fin 6 → ℝ := ![u, u, u, u * cos (ruc 5), u * cos (ruc 4), u * cos (ruc 3)]

/-- C30: an isotropic displacement gives the same factor in both descriptions, `U_ij` and `B_iso = 8 π² u`. -/
theorem iso_aniso_agree (hkl : Fin 3 → ℝ) {uc : Fin 6 → ℝ} (h : NonDegenerate uc) (u : ℝ) :
    power_aniso hkl (beta_by_u (isotropicU u (calc_reciprocal uc)) (calc_reciprocal uc)) ![1, 0, 0, 0, 1, 0, 0, 0, 1] =
      power_iso (calc_sthovl hkl uc) (bIsoOf "Uiso" u) := by
  obtain ⟨-, -, h3, h4⟩ := inv_d_is_length hkl uc h
  have hm : metric (calc_reciprocal uc) = toQ (calc_m_reciprocal_g uc) := by
    have e1 := reciprocal_cell_metric uc h
    have e2 := (reciprocal_metric_inverse uc h).2
    calc metric (calc_reciprocal uc) = metric (calc_reciprocal uc) * (metric uc * toQ (calc_m_reciprocal_g uc)) := by rw [e2, mul_one]
      _ = toQ (calc_m_reciprocal_g uc) := by rw [← mul_assoc, e1, one_mul]
  rw [← hm] at h3
  unfold power_iso
  dsimp only
  rw [h4, div_pow, h3]
  generalize calc_reciprocal uc = R
  unfold power_aniso beta_by_u isotropicU metric bIsoOf
  simp [Matrix.mulVec, dotProduct, Fin.sum_univ_three]
  ring

example : NonDegenerate exUC ∧ (toQ (![2, 2, 3, 1, 0, 0] : Fin 6 → ℝ)).PosSemidef := by
  refine ⟨exUC_nonDegenerate, ?_⟩
  refine Matrix.PosSemidef.of_dotProduct_mulVec_nonneg ?_ fun x => ?_
  · ext i j; fin_cases i <;> fin_cases j <;> simp [toQ]
  · simp [toQ, Matrix.mulVec, dotProduct, Fin.sum_univ_three]
    nlinarith [sq_nonneg (x 0 + x 1), sq_nonneg (x 0), sq_nonneg (x 1), sq_nonneg (x 2)]

/-- C30: after a refinement the tensor written back, read again with the written cell, gives the refined `β` whenever the cell of the
dictionary already satisfies the constraints of the crystal system. -/
theorem write_back_constrained {type code : List Char} {raw : Fin 6 → ℝ} (h : NonDegenerate raw) (hp : ProperAngles raw)
    (hc : CellConstr.constrainDict type code raw = raw) (beta : Fin 6 → ℝ) :
    beta_by_u (takeU raw beta) (calc_reciprocal (CellConstr.constrainDict type code raw)) = beta := by
  rw [hc]
  have := (aniso_round h hp (t := "Uani") (by decide) beta).2
  simpa [betaOf, takeU] using this

theorem reciprocal_orth {a b c : ℝ} (ha : 0 < a) (hb : 0 < b) (hc : 0 < c) :
    calc_reciprocal ![a, b, c, π / 2, π / 2, π / 2] 1 = 1 / b := by
  unfold calc_reciprocal calc_volume_uc calc_phi calc_phi_sq
  simp
  field_simp

/-- C30 is false when a refinement moved the length `a` of a tetragonal cell (the dictionary then still holds the old `b`): the tensor is computed
with the old `b`, the cell is written with `b = a`, and reading both again gives another `β22`, off by the squared ratio of the two. -/
theorem write_back_wrong {a b c : ℝ} (x : Char) (code : List Char) (beta : Fin 6 → ℝ) (ha : 0 < a) (hb : 0 < b) (hc : 0 < c) :
    beta_by_u (takeU ![a, b, c, π / 2, π / 2, π / 2] beta)
      (calc_reciprocal (CellConstr.constrainDict ['t', x] code ![a, b, c, π / 2, π / 2, π / 2])) 1 = beta 1 * (b / a) ^ 2 := by
  have e : CellConstr.constrainDict ['t', x] code ![a, b, c, π / 2, π / 2, π / 2] = ![a, a, c, π / 2, π / 2, π / 2] := by
    funext i
    unfold CellConstr.constrainDict CellConstr.scV
    simp only [Fin.sum_univ_six]
    fin_cases i <;> simp
  rw [e]
  have hp := pi_ne_zero
  unfold takeU anisoOf u_by_beta beta_by_u
  simp [reciprocal_orth ha hb hc, reciprocal_orth ha ha hc]
  field_simp

example : ∃ a b c beta : ℝ, 0 < a ∧ 0 < b ∧ 0 < c ∧ beta * (b / a) ^ 2 ≠ beta := ⟨5, 4, 6, 1, by norm_num, by norm_num, by norm_num, by norm_num⟩

end Cryspy.Adp
