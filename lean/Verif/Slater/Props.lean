import Verif.Slater.Integral

/-!
# Form factors of orbitals

Specification: the radial function of an orbital is the sum of its normalised Slater functions, and the form factor of order
`l` is the transform of the square of the radial function with the spherical Bessel function, at `Q = 4 pi sin(theta)/lambda`.
-/

namespace Cryspy.Slater

open MeasureTheory Set

/-- the radial function of an orbital at the radius `r` (Angstrom) -/
noncomputable def radial (fs : List Fn) (kappa r : ℝ) : ℝ :=
  (fs.map fun f => f.coeff * norm (zetaAng kappa f) f.n * r ^ (f.n - 1) * Real.exp (-(zetaAng kappa f * r))).sum

/-- functions that can occur: positive principal number and exponent -/
def Valid (fs : List Fn) (kappa : ℝ) : Prop := ∀ f ∈ fs, 1 ≤ f.n ∧ 0 < zetaAng kappa f

/-- The entry of order `l` that `calc_transs` returns, times the power of twice sin(theta)/lambda, is the transform. -/
theorem transs_transform {lmax nn l : ℕ} {zeta s : ℝ} (hn : 2 ≤ nn) (hz : 0 < zeta) (hs : 0 < s) (hl : l ≤ lmax) (hk : l + 1 ≤ nn) :
    ∃ t, (transs lmax nn zeta s)[l]? = some (some t) ∧
      t * (2 * s) ^ l = ∫ r in Ioi (0:ℝ), r ^ nn * Real.exp (-(zeta * r)) * besselJ l (4 * Real.pi * s * r) := by
  refine ⟨_, transs_values hn hz.ne' hl, ?_⟩
  rw [if_pos hk, (transform hz (by positivity : 0 < 4 * Real.pi * s) l nn hk).2]
  have : (4 * Real.pi * s) ^ l = (2 * Real.pi) ^ l * (2 * s) ^ l := by rw [← mul_pow]; ring
  rw [this]
  ring

/-- An order that is not below the sum of the principal numbers gives zero (the transform is not zero there). -/
theorem transs_too_high {lmax nn l : ℕ} {zeta s : ℝ} (hn : 2 ≤ nn) (hz : 0 < zeta) (hl : l ≤ lmax) (hk : nn ≤ l) :
    (transs lmax nn zeta s)[l]? = some (some 0) := by
  rw [transs_values hn hz.ne' hl, if_neg (by omega)]

/-! ### sums over pairs -/

theorem sum_product {α : Type} (f g : α → ℝ) (a b : List α) :
    ((a.product b).map fun p => f p.1 * g p.2).sum = (a.map f).sum * (b.map g).sum := by
  induction a with
  | nil => simp [List.product]
  | cons x a ih =>
    have : (x :: a).product b = b.map (fun y => (x, y)) ++ a.product b := rfl
    rw [this, List.map_append, List.sum_append, ih, List.map_map, List.map_cons, List.sum_cons, add_mul]
    congr 1
    rw [← List.sum_map_mul_left]
    rfl

theorem mapM_some {α : Type} (l : List α) (f : α → Option ℝ) (g : α → ℝ) (h : ∀ x ∈ l, f x = some (g x)) : l.mapM f = some (l.map g) := by
  induction l with
  | nil => rfl
  | cons x l ih =>
    rw [List.mapM_cons, h x (by simp), ih fun y hy => h y (by simp [hy])]
    rfl

theorem integral_sum {α : Type} (l : List α) (f : α → ℝ → ℝ) (h : ∀ x ∈ l, IntegrableOn (f x) (Ioi 0)) :
    IntegrableOn (fun r => (l.map fun x => f x r).sum) (Ioi 0) ∧
    ∫ r in Ioi (0:ℝ), (l.map fun x => f x r).sum = (l.map fun x => ∫ r in Ioi (0:ℝ), f x r).sum := by
  induction l with
  | nil =>
    constructor
    · simp only [List.map_nil, List.sum_nil]
      exact integrableOn_zero
    · simp
  | cons x l ih =>
    obtain ⟨i1, i2⟩ := ih fun y hy => h y (by simp [hy])
    simp only [List.map_cons, List.sum_cons]
    exact ⟨(h x (by simp)).add i1, by rw [integral_add (h x (by simp)) i1, i2]⟩

theorem mem_product {α : Type} {a b : List α} {p : α × α} (h : p ∈ a.product b) : p.1 ∈ a ∧ p.2 ∈ b := by
  induction a with
  | nil => cases h
  | cons x a ih =>
    have e : (x :: a).product b = b.map (fun y => (x, y)) ++ a.product b := rfl
    rw [e] at h
    rcases List.mem_append.1 h with h | h
    · obtain ⟨y, hy, rfl⟩ := List.mem_map.1 h
      exact ⟨by simp, hy⟩
    · exact ⟨List.mem_cons_of_mem _ (ih h).1, (ih h).2⟩

/-- the constant of a pair of functions -/
noncomputable def pairC (kappa : ℝ) (p : Fn × Fn) : ℝ :=
  p.1.coeff * p.2.coeff * (norm (zetaAng kappa p.1) p.1.n * norm (zetaAng kappa p.2) p.2.n)

theorem density_pairs {fs : List Fn} {kappa : ℝ} (hv : Valid fs kappa) (r : ℝ) :
    r ^ 2 * radial fs kappa r ^ 2 = ((fs.product fs).map fun p : Fn × Fn =>
      pairC kappa p * (r ^ (p.1.n + p.2.n) * Real.exp (-((zetaAng kappa p.1 + zetaAng kappa p.2) * r)))).sum := by
  have h1 : (r * radial fs kappa r) = (fs.map fun f : Fn => f.coeff * norm (zetaAng kappa f) f.n * r ^ f.n * Real.exp (-(zetaAng kappa f * r))).sum := by
    rw [radial, ← List.sum_map_mul_left]
    congr 1
    refine List.map_congr_left fun f hf => ?_
    have : r ^ f.n = r * r ^ (f.n - 1) := by
      rw [← pow_succ']
      congr 1
      have := (hv f hf).1
      omega
    rw [this]
    ring
  rw [← mul_pow, pow_two, h1, ← sum_product]
  congr 1
  refine List.map_congr_left fun p _ => ?_
  have : Real.exp (-((zetaAng kappa p.1 + zetaAng kappa p.2) * r)) = Real.exp (-(zetaAng kappa p.1 * r)) * Real.exp (-(zetaAng kappa p.2 * r)) := by
    rw [← Real.exp_add]
    congr 1
    ring
  rw [this, pow_add, pairC]
  ring

/-! ### the form factor of an orbital -/

theorem jl_formula {fs : List Fn} {kappa s : ℝ} (hv : Valid fs kappa) {lmax l : ℕ} (hl : l ≤ lmax) (hk : ∀ f ∈ fs, l + 1 ≤ 2 * f.n) :
    jl s fs kappa lmax l = some (((fs.product fs).map fun p : Fn × Fn => pairC kappa p *
      ((2 * Real.pi) ^ l * U (zetaAng kappa p.1 + zetaAng kappa p.2) ((4 * Real.pi * s) ^ 2 + (zetaAng kappa p.1 + zetaAng kappa p.2) ^ 2) l (p.1.n + p.2.n))).sum
        * (2 * s) ^ l) := by
  unfold jl jlPer
  rw [mapM_some (fs.product fs) _ (fun p : Fn × Fn => pairC kappa p *
      ((2 * Real.pi) ^ l * U (zetaAng kappa p.1 + zetaAng kappa p.2) ((4 * Real.pi * s) ^ 2 + (zetaAng kappa p.1 + zetaAng kappa p.2) ^ 2) l (p.1.n + p.2.n)))]
  · rfl
  · intro p hp
    obtain ⟨h1, h2⟩ := mem_product hp
    have v1 := hv p.1 h1
    have v2 := hv p.2 h2
    have k1 := hk p.1 h1
    have k2 := hk p.2 h2
    have hz : zetaAng kappa p.1 + zetaAng kappa p.2 ≠ 0 := by linarith [v1.2, v2.2]
    rw [transs_values (by omega) hz hl, if_pos (by omega)]
    rfl

/-- The calculated form factor of an orbital is the transform of the square of its radial function with the spherical Bessel
function: every order below twice the smallest principal number, every coefficients, exponents and kappa. -/
theorem jl_transform {fs : List Fn} {kappa s : ℝ} (hv : Valid fs kappa) (hs : 0 < s) {lmax l : ℕ} (hl : l ≤ lmax) (hk : ∀ f ∈ fs, l + 1 ≤ 2 * f.n) :
    jl s fs kappa lmax l = some (∫ r in Ioi (0:ℝ), r ^ 2 * radial fs kappa r ^ 2 * besselJ l (4 * Real.pi * s * r)) := by
  have hq : 0 < 4 * Real.pi * s := by positivity
  rw [jl_formula hv hl hk]
  congr 1
  have hT : ∀ p ∈ fs.product fs, IntegrableOn (fun r : ℝ => r ^ (p.1.n + p.2.n) * Real.exp (-((zetaAng kappa p.1 + zetaAng kappa p.2) * r)) *
        besselJ l (4 * Real.pi * s * r)) (Ioi 0) ∧
      ∫ r in Ioi (0:ℝ), r ^ (p.1.n + p.2.n) * Real.exp (-((zetaAng kappa p.1 + zetaAng kappa p.2) * r)) * besselJ l (4 * Real.pi * s * r) =
      (4 * Real.pi * s) ^ l * U (zetaAng kappa p.1 + zetaAng kappa p.2) ((4 * Real.pi * s) ^ 2 + (zetaAng kappa p.1 + zetaAng kappa p.2) ^ 2) l (p.1.n + p.2.n) := by
    intro p hp
    obtain ⟨h1, h2⟩ := mem_product hp
    have v1 := hv p.1 h1
    have v2 := hv p.2 h2
    have k1 := hk p.1 h1
    have k2 := hk p.2 h2
    exact transform (by linarith [v1.2, v2.2]) hq l _ (by omega)
  have hI := (integral_sum (fs.product fs) (fun (p : Fn × Fn) (r : ℝ) => pairC kappa p *
    (r ^ (p.1.n + p.2.n) * Real.exp (-((zetaAng kappa p.1 + zetaAng kappa p.2) * r)) * besselJ l (4 * Real.pi * s * r)))
    fun p hp => (hT p hp).1.const_mul _).2
  have he : ∀ r : ℝ, r ^ 2 * radial fs kappa r ^ 2 * besselJ l (4 * Real.pi * s * r) = ((fs.product fs).map fun p : Fn × Fn => pairC kappa p *
    (r ^ (p.1.n + p.2.n) * Real.exp (-((zetaAng kappa p.1 + zetaAng kappa p.2) * r)) * besselJ l (4 * Real.pi * s * r))).sum := by
    intro r
    rw [density_pairs hv, ← List.sum_map_mul_right]
    congr 1
    refine List.map_congr_left fun p _ => ?_
    ring
  simp only [he]
  rw [hI, ← List.sum_map_mul_right]
  congr 1
  refine List.map_congr_left fun p hp => ?_
  rw [integral_const_mul, (hT p hp).2]
  have : (4 * Real.pi * s) ^ l = (2 * Real.pi) ^ l * (2 * s) ^ l := by rw [← mul_pow]; ring
  rw [this]
  ring

theorem density_integral {fs : List Fn} {kappa : ℝ} (hv : Valid fs kappa) :
    IntegrableOn (fun r : ℝ => r ^ 2 * radial fs kappa r ^ 2) (Ioi 0) ∧
    ∫ r in Ioi (0:ℝ), r ^ 2 * radial fs kappa r ^ 2 = ((fs.product fs).map fun p : Fn × Fn => pairC kappa p *
      ((p.1.n + p.2.n).factorial / (zetaAng kappa p.1 + zetaAng kappa p.2) ^ (p.1.n + p.2.n + 1))).sum := by
  have hT : ∀ p ∈ fs.product fs, 0 < zetaAng kappa p.1 + zetaAng kappa p.2 := by
    intro p hp
    obtain ⟨h1, h2⟩ := mem_product hp
    linarith [(hv p.1 h1).2, (hv p.2 h2).2]
  have hI := integral_sum (fs.product fs) (fun (p : Fn × Fn) (r : ℝ) => pairC kappa p *
    (r ^ (p.1.n + p.2.n) * Real.exp (-((zetaAng kappa p.1 + zetaAng kappa p.2) * r))))
    fun p hp => (integrable_pow_exp _ (hT p hp)).const_mul _
  simp only [density_pairs hv]
  refine ⟨hI.1, ?_⟩
  rw [hI.2]
  congr 1
  refine List.map_congr_left fun p hp => ?_
  rw [integral_const_mul, integral_pow_exp (hT p hp)]

/-- In forward direction the form factor of order zero is the integral of the density, and the others vanish. -/
theorem jl_forward {fs : List Fn} {kappa : ℝ} (hv : Valid fs kappa) {lmax l : ℕ} (hl : l ≤ lmax) (hk : ∀ f ∈ fs, l + 1 ≤ 2 * f.n) :
    jl 0 fs kappa lmax l = some (if l = 0 then ∫ r in Ioi (0:ℝ), r ^ 2 * radial fs kappa r ^ 2 else 0) := by
  rw [jl_formula hv hl hk]
  congr 1
  split_ifs with h
  · subst h
    rw [(density_integral hv).2]
    simp only [pow_zero, mul_one, one_mul]
    congr 1
    refine List.map_congr_left fun p hp => ?_
    obtain ⟨h1, h2⟩ := mem_product hp
    have v1 := hv p.1 h1
    have v2 := hv p.2 h2
    have hz : zetaAng kappa p.1 + zetaAng kappa p.2 ≠ 0 := by linarith [v1.2, v2.2]
    obtain ⟨m, hm⟩ : ∃ m, p.1.n + p.2.n = m + 1 := ⟨p.1.n + p.2.n - 1, by omega⟩
    rw [hm, mul_zero, U_forward hz]
  · have h2 : (2 * (0:ℝ)) ^ l = 0 := by rw [mul_zero, zero_pow h]
    rw [h2, mul_zero]

theorem besselJ_zero_le (x : ℝ) : |besselJ 0 x| ≤ 1 := by
  rw [besselJ, abs_div]
  exact div_le_one_of_le₀ Real.abs_sin_le_abs (abs_nonneg x)

/-- No angle scatters more than the forward direction. -/
theorem jl_bounded {fs : List Fn} {kappa s : ℝ} (hv : Valid fs kappa) (hs : 0 ≤ s) (lmax : ℕ) :
    ∃ x N, jl s fs kappa lmax 0 = some x ∧ jl 0 fs kappa lmax 0 = some N ∧ |x| ≤ N := by
  have hk : ∀ f ∈ fs, 0 + 1 ≤ 2 * f.n := fun f hf => by have := (hv f hf).1; omega
  have h0 := jl_forward (l := 0) hv (Nat.zero_le lmax) hk
  rw [if_pos rfl] at h0
  rcases hs.eq_or_lt with rfl | hs
  · refine ⟨_, _, h0, h0, ?_⟩
    rw [abs_of_nonneg]
    exact setIntegral_nonneg measurableSet_Ioi fun r _ => by positivity
  · refine ⟨_, _, jl_transform hv hs (Nat.zero_le lmax) hk, h0, ?_⟩
    rw [← Real.norm_eq_abs]
    refine norm_integral_le_of_norm_le (density_integral hv).1 (Filter.Eventually.of_forall fun r => ?_)
    have hp : 0 ≤ r ^ 2 * radial fs kappa r ^ 2 := by positivity
    rw [Real.norm_eq_abs, abs_mul, abs_of_nonneg hp]
    exact mul_le_of_le_one_right hp (besselJ_zero_le _)

theorem norm_sq {z : ℝ} (hz : 0 < z) (n : ℕ) : norm z n * norm z n = (2 * z) ^ (2 * n + 1) / (2 * n).factorial := by
  unfold norm
  rw [div_mul_div_comm, Real.mul_self_sqrt (by positivity), ← Real.rpow_add (by positivity)]
  congr 1
  rw [← Real.rpow_natCast]
  congr 1
  push_cast
  ring

/-- A single Slater function with coefficient one is normalised: forward form factor one. -/
theorem jl_single {n : ℕ} {zeta kappa : ℝ} (hn : 1 ≤ n) (hz : 0 < zeta) (hk : 0 < kappa) (lmax : ℕ) :
    jl 0 [⟨1, n, zeta⟩] kappa lmax 0 = some 1 := by
  have hza : 0 < zetaAng kappa ⟨1, n, zeta⟩ := by unfold zetaAng; positivity
  have hv : Valid [⟨1, n, zeta⟩] kappa := by
    intro f hf
    obtain rfl := List.mem_singleton.1 hf
    exact ⟨hn, hza⟩
  rw [jl_forward hv (Nat.zero_le lmax) (fun f hf => by obtain rfl := List.mem_singleton.1 hf; simp only; omega), if_pos rfl, (density_integral hv).2]
  congr 1
  have hp : ([⟨1, n, zeta⟩] : List Fn).product [⟨1, n, zeta⟩] = [((⟨1, n, zeta⟩ : Fn), (⟨1, n, zeta⟩ : Fn))] := rfl
  rw [hp]
  simp only [List.map_cons, List.map_nil, List.sum_cons, List.sum_nil, add_zero, pairC, one_mul]
  rw [norm_sq hza, ← two_mul, ← two_mul]
  generalize zetaAng kappa ⟨1, n, zeta⟩ = z at hza
  have : ((2 * n).factorial : ℝ) ≠ 0 := by positivity
  field_simp

/-- The density that the code calculates uses another Bohr radius than the form factor: it is the radial function for a kappa
smaller by six millionths. -/
theorem density_other_radius (fs : List Fn) (kappa r : ℝ) : rhoNormalized r fs kappa = radial fs (kappa * (0.529177 / 0.52918)) r := by
  unfold rhoNormalized radial
  congr 1
  refine List.map_congr_left fun f _ => ?_
  have : zetaAng (kappa * (0.529177 / 0.52918)) f = kappa * f.zeta / 0.52918 := by
    unfold zetaAng
    field_simp
  dsimp only
  rw [this, neg_mul]

/-! ### the form factor of a shell -/

/-- For normalised orbitals the forward form factor of a shell is its number of electrons, and no angle scatters more. -/
theorem shell_electrons {orbs : List (ℕ × List Fn)} {kappa s : ℝ} (hs : 0 ≤ s)
    (h : ∀ o ∈ orbs, Valid o.2 kappa ∧ ∫ r in Ioi (0:ℝ), r ^ 2 * radial o.2 kappa r ^ 2 = 1) (lmax : ℕ) :
    jlShell 0 orbs kappa lmax 0 = some ((orbs.map fun o => (o.1 : ℝ)).sum) ∧
    ∃ x, jlShell s orbs kappa lmax 0 = some x ∧ |x| ≤ (orbs.map fun o => (o.1 : ℝ)).sum := by
  have h0 : ∀ o ∈ orbs, jl 0 o.2 kappa lmax 0 = some 1 := by
    intro o ho
    have hv := (h o ho).1
    rw [jl_forward hv (Nat.zero_le lmax) (fun f hf => by have := (hv f hf).1; omega), if_pos rfl, (h o ho).2]
  constructor
  · unfold jlShell
    rw [mapM_some orbs _ (fun o => (o.1 : ℝ)) fun o ho => by rw [h0 o ho]; simp]
    rfl
  · have hx : ∀ o ∈ orbs, ∃ x, jl s o.2 kappa lmax 0 = some x ∧ |x| ≤ 1 := by
      intro o ho
      obtain ⟨x, N, e1, e2, e3⟩ := jl_bounded (h o ho).1 hs lmax
      rw [h0 o ho] at e2
      obtain rfl := Option.some.inj e2
      exact ⟨x, e1, e3⟩
    clear h0 h
    unfold jlShell
    induction orbs with
    | nil => exact ⟨0, rfl, by simp⟩
    | cons o orbs ih =>
      obtain ⟨x, e1, e2⟩ := hx o (by simp)
      obtain ⟨y, f1, f2⟩ := ih fun p hp => hx p (by simp [hp])
      obtain ⟨ys, g1, g2⟩ := Option.map_eq_some_iff.1 f1
      refine ⟨x * o.1 + y, ?_, ?_⟩
      · rw [List.mapM_cons, e1, g1]
        simp [g2]
      · rw [List.map_cons, List.sum_cons]
        have h1 : |x * (o.1 : ℝ)| ≤ o.1 := by
          rw [abs_mul, Nat.abs_cast]
          exact mul_le_of_le_one_left (Nat.cast_nonneg _) e2
        exact (abs_add_le _ _).trans (add_le_add h1 f2)

/-- The hypotheses are met: two electrons in a single Slater function. -/
theorem helium (s : ℝ) (hs : 0 ≤ s) : jlShell 0 [(2, [⟨1, 1, 27 / 16⟩])] 1 5 0 = some 2 ∧
    ∃ x, jlShell s [(2, [⟨1, 1, 27 / 16⟩])] 1 5 0 = some x ∧ |x| ≤ 2 := by
  have hv : Valid [⟨1, 1, 27 / 16⟩] 1 := by
    intro f hf
    obtain rfl := List.mem_singleton.1 hf
    exact ⟨le_refl _, by unfold zetaAng; positivity⟩
  have h1 := jl_single (n := 1) (zeta := 27 / 16) (kappa := 1) (le_refl _) (by norm_num) one_pos 5
  rw [jl_forward hv (by omega) (fun f hf => by obtain rfl := List.mem_singleton.1 hf; simp), if_pos rfl] at h1
  have := shell_electrons (orbs := [(2, [⟨1, 1, 27 / 16⟩])]) hs (fun o ho => by
    obtain rfl := List.mem_singleton.1 ho
    exact ⟨hv, Option.some.inj h1⟩) 5
  simpa using this

end Cryspy.Slater
