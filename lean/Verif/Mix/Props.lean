import Verif.Mix.Model
import Verif.Bulk.Props
import Mathlib.Tactic.FieldSimp
import Mathlib.Tactic.LinearCombination

/-!
# C96: the report on powder experiments
-/

namespace Cryspy.Mix

open Matrix

theorem sum_mul_map {α : Type} (l : List α) (c : ℝ) (f : α → ℝ) : (l.map fun a => c * f a).sum = c * (l.map f).sum := by
  induction l with
  | nil => simp
  | cons a l ih => simp only [List.map_cons, List.sum_cons, ih, mul_add]

theorem sum_map_div {α : Type} (l : List α) (c : ℝ) (f : α → ℝ) : (l.map fun a => f a / c).sum = (l.map f).sum / c := by
  simp only [div_eq_inv_mul]
  exact sum_mul_map l c⁻¹ f

/-- the moment of a unit cell (Bohr magnetons) induced along a field, averaged over the powder: the mean over three orthogonal directions -/
noncomputable def cellMoment (field : ℝ) (p : Phase) : ℝ := field * p.chi.trace / 3

/-! ## The fractions -/

/-- the fractions add up to one -/
theorem fractions_sum (field : ℝ) (ps : List Phase) (h1 : (ps.map Phase.svM).sum ≠ 0) (h2 : (ps.map Phase.svSq).sum ≠ 0) :
    ((rows field ps).map Row.wF).sum = 1 ∧ ((rows field ps).map Row.vF).sum = 1 := by
  unfold rows
  simp only [List.map_map]
  constructor
  · rw [show (ps.map (Row.wF ∘ row field ps)) = ps.map fun p => p.svM / (ps.map Phase.svM).sum from rfl, sum_map_div, div_self h1]
  · rw [show (ps.map (Row.vF ∘ row field ps)) = ps.map fun p => p.svSq / (ps.map Phase.svSq).sum from rfl, sum_map_div, div_self h2]

/-- … and lie between zero and one where no scale is negative -/
theorem fractions_range (field : ℝ) (ps : List Phase) (hs : ∀ p ∈ ps, 0 ≤ p.scale ∧ 0 ≤ p.vol ∧ 0 ≤ p.m) :
    ∀ r ∈ rows field ps, 0 ≤ r.wF ∧ r.wF ≤ 1 ∧ 0 ≤ r.vF ∧ r.vF ≤ 1 := by
  intro r hr
  obtain ⟨p, hp, rfl⟩ := List.mem_map.1 hr
  have a : ∀ q ∈ ps, 0 ≤ q.svM ∧ 0 ≤ q.svSq := fun q hq => by
    obtain ⟨h1, h2, h3⟩ := hs q hq
    unfold Phase.svM Phase.svSq
    constructor <;> positivity
  have le : ∀ f : Phase → ℝ, (∀ q ∈ ps, 0 ≤ f q) → f p ≤ (ps.map f).sum := fun f hf =>
    List.single_le_sum (fun x hx => by obtain ⟨q, hq, rfl⟩ := List.mem_map.1 hx; exact hf q hq) _ (List.mem_map_of_mem hp)
  have l1 := le Phase.svM fun q hq => (a q hq).1
  have l2 := le Phase.svSq fun q hq => (a q hq).2
  have n1 := (a p hp).1
  have n2 := (a p hp).2
  have m1 : 0 ≤ (ps.map Phase.svM).sum := n1.trans l1
  have m2 : 0 ≤ (ps.map Phase.svSq).sum := n2.trans l2
  refine ⟨div_nonneg n1 m1, div_le_one_of_le₀ l1 m1, div_nonneg n2 m2, div_le_one_of_le₀ l2 m2⟩

/-- **C96.** A sample with `n p` unit cells of every phase: as each scale is (up to one factor for all) the number of cells over the volume of one (the
scale of a phase that fills a volume `V` is proportional to `V/v²`), the reported fractions are those of the mass and of the volume of the sample -/
theorem fractions_of_sample (field : ℝ) (ps : List Phase) (n : Phase → ℝ) {K : ℝ} (hK : K ≠ 0) (hv : ∀ p ∈ ps, p.vol ≠ 0)
    (hn : ∀ p ∈ ps, p.scale = K * n p / p.vol) : ∀ p ∈ ps,
      (row field ps p).wF = n p * p.m / (ps.map fun q => n q * q.m).sum ∧
      (row field ps p).vF = n p * p.vol / (ps.map fun q => n q * q.vol).sum := by
  intro p hp
  have e1 : ∀ q ∈ ps, q.svM = K * (n q * q.m) := fun q hq => by
    have := hv q hq
    unfold Phase.svM
    rw [hn q hq]
    field_simp
  have e2 : ∀ q ∈ ps, q.svSq = K * (n q * q.vol) := fun q hq => by
    have := hv q hq
    unfold Phase.svSq
    rw [hn q hq]
    field_simp
  have s1 : (ps.map Phase.svM).sum = K * (ps.map fun q => n q * q.m).sum := by rw [List.map_congr_left e1, sum_mul_map]
  have s2 : (ps.map Phase.svSq).sum = K * (ps.map fun q => n q * q.vol).sum := by rw [List.map_congr_left e2, sum_mul_map]
  constructor
  · show p.svM / _ = _
    rw [s1, e1 p hp, mul_div_mul_left _ _ hK]
  · show p.svSq / _ = _
    rw [s2, e2 p hp, mul_div_mul_left _ _ hK]

/-- only the ratios of the scales matter -/
theorem scale_irrelevant (field : ℝ) (ps : List Phase) {k : ℝ} (hk : k ≠ 0) :
    rows field (ps.map fun p => { p with scale := k * p.scale }) = rows field ps := by
  have s1 : ((ps.map fun p => { p with scale := k * p.scale }).map Phase.svM).sum = k * (ps.map Phase.svM).sum := by
    rw [List.map_map, ← sum_mul_map]
    congr 1
    apply List.map_congr_left
    intro p _
    simp only [Function.comp, Phase.svM, Phase.vol, Phase.m]
    ring
  have s2 : ((ps.map fun p => { p with scale := k * p.scale }).map Phase.svSq).sum = k * (ps.map Phase.svSq).sum := by
    rw [List.map_map, ← sum_mul_map]
    congr 1
    apply List.map_congr_left
    intro p _
    simp only [Function.comp, Phase.svSq, Phase.vol]
    ring
  unfold rows
  rw [List.map_map]
  apply List.map_congr_left
  intro p _
  have w1 : ({ p with scale := k * p.scale } : Phase).svM / (k * (ps.map Phase.svM).sum) = p.svM / (ps.map Phase.svM).sum := by
    rw [← mul_div_mul_left p.svM _ hk]
    simp only [Phase.svM, Phase.vol, Phase.m]
    ring_nf
  have w2 : ({ p with scale := k * p.scale } : Phase).svSq / (k * (ps.map Phase.svSq).sum) = p.svSq / (ps.map Phase.svSq).sum := by
    rw [← mul_div_mul_left p.svSq _ hk]
    simp only [Phase.svSq, Phase.vol]
    ring_nf
  show row field _ _ = _
  unfold row
  rw [s1, s2, w1, w2]
  rfl

/-! ## The magnetizations -/

/-- the columns of a phase: density, mass and volume magnetization, moment per ion -/
theorem row_spec (field : ℝ) (ps : List Phase) (p : Phase) :
    (row field ps p).density = p.m / (6022 / 10000 * p.vol) ∧
    (row field ps p).massM = 5582394 / 1000 * cellMoment field p / p.m ∧
    (row field ps p).volM = (row field ps p).massM * (row field ps p).density ∧
    (row field ps p).moment = cellMoment field p / p.ions := by
  refine ⟨?_, ?_, rfl, ?_⟩
  · show p.density = _
    unfold Phase.density
    rw [mul_comm]
  · show field * _ / 3 = _
    unfold cellMoment Phase.coeff
    rw [Matrix.trace_fin_three]
    simp only [Matrix.smul_apply, smul_eq_mul]
    ring
  · show field * _ / 3 = _
    unfold cellMoment
    rw [Matrix.trace_fin_three]
    simp only [Matrix.smul_apply, smul_eq_mul]
    ring

/-- **C96.** The magnetizations of the mixture are those of the sample: the moment of all unit cells over the mass, over the volume -/
theorem mixture_of_sample (field : ℝ) (ps : List Phase) (n : Phase → ℝ) {K : ℝ} (hK : K ≠ 0) (hv : ∀ p ∈ ps, p.vol ≠ 0) (hm : ∀ p ∈ ps, p.m ≠ 0)
    (hn : ∀ p ∈ ps, p.scale = K * n p / p.vol) :
    massTotal field ps = 5582394 / 1000 * (ps.map fun p => n p * cellMoment field p).sum / (ps.map fun p => n p * p.m).sum ∧
    volTotal field ps = 5582394 / 1000 * (ps.map fun p => n p * cellMoment field p).sum / (6022 / 10000 * (ps.map fun p => n p * p.vol).sum) := by
  have F := fractions_of_sample field ps n hK hv hn
  unfold massTotal volTotal rows
  simp only [List.map_map]
  constructor
  · rw [show (5582394 / 1000 * (ps.map fun p => n p * cellMoment field p).sum) = (ps.map fun p => 5582394 / 1000 * (n p * cellMoment field p)).sum from
      (sum_mul_map _ _ _).symm, ← sum_map_div]
    congr 1
    apply List.map_congr_left
    intro p hp
    have h := hm p hp
    simp only [Function.comp]
    rw [(F p hp).1, (row_spec field ps p).2.1]
    generalize (ps.map fun q => n q * q.m).sum = S
    field_simp
  · rw [mul_comm (6022 / 10000 : ℝ), ← div_div, show (5582394 / 1000 * (ps.map fun p => n p * cellMoment field p).sum) =
      (ps.map fun p => 5582394 / 1000 * (n p * cellMoment field p)).sum from (sum_mul_map _ _ _).symm, ← sum_map_div, ← sum_map_div]
    congr 1
    apply List.map_congr_left
    intro p hp
    have h := hm p hp
    have h' := hv p hp
    simp only [Function.comp]
    rw [(F p hp).2, (row_spec field ps p).2.2.1, (row_spec field ps p).2.1, (row_spec field ps p).1]
    generalize (ps.map fun q => n q * q.vol).sum = S
    field_simp

/-- the volume magnetization of the mixture is its mass magnetization times its density, the mean of the densities by volume -/
theorem mixture_density (field : ℝ) (ps : List Phase) (hv : ∀ p ∈ ps, p.vol ≠ 0) (h1 : (ps.map Phase.svM).sum ≠ 0) :
    volTotal field ps = massTotal field ps * ((rows field ps).map fun r => r.vF * r.density).sum := by
  unfold massTotal volTotal rows
  simp only [List.map_map]
  have e : ∀ p ∈ ps, p.svSq * p.density = 10000 / 6022 * p.svM := fun p hp => by
    have := hv p hp
    unfold Phase.svSq Phase.density Phase.svM
    field_simp
  have d : (ps.map ((fun r : Row => r.vF * r.density) ∘ row field ps)).sum = 10000 / 6022 * (ps.map Phase.svM).sum / (ps.map Phase.svSq).sum := by
    rw [← sum_mul_map, ← sum_map_div]
    congr 1
    apply List.map_congr_left
    intro p hp
    show p.svSq / _ * p.density = _
    rw [← e p hp]
    ring
  rw [d, mul_comm, ← sum_mul_map]
  congr 1
  apply List.map_congr_left
  intro p hp
  show p.svSq / _ * ((row field ps p).massM * p.density) = _ * (p.svM / _ * (row field ps p).massM)
  have e' := e p hp
  generalize (ps.map Phase.svSq).sum = S at *
  have : p.svSq / S * ((row field ps p).massM * p.density) = p.svSq * p.density * (row field ps p).massM / S := by ring
  rw [this, e']
  field_simp

/-- a single phase: the fractions are one and the mixture is the phase -/
theorem single_phase (field : ℝ) (p : Phase) (hs : p.scale ≠ 0) (hv : p.vol ≠ 0) (hm : p.m ≠ 0) :
    (row field [p] p).wF = 1 ∧ (row field [p] p).vF = 1 ∧ massTotal field [p] = (row field [p] p).massM ∧ volTotal field [p] = (row field [p] p).volM := by
  have w : (row field [p] p).wF = 1 := by
    show p.svM / _ = 1
    have : p.svM ≠ 0 := by unfold Phase.svM; positivity
    simp [this]
  have v : (row field [p] p).vF = 1 := by
    show p.svSq / _ = 1
    have : p.svSq ≠ 0 := by unfold Phase.svSq; positivity
    simp [this]
  refine ⟨w, v, ?_, ?_⟩
  · unfold massTotal rows
    simp [w]
  · unfold volTotal rows
    simp [v]

/-- **C96.** The reported moments are means over the powder: for any orientation `Q` of a crystallite, the mean of the moments along three orthogonal
fields is a third of the trace -/
theorem powder_mean (field : ℝ) (ps : List Phase) (p : Phase) (Q : Matrix (Fin 3) (Fin 3) ℝ) (hQ : Q * Qᵀ = 1) :
    (row field ps p).moment = (∑ i, (fun j => Q j i) ⬝ᵥ (p.chi *ᵥ fun j => field * Q j i)) / 3 / p.ions := by
  rw [(row_spec field ps p).2.2.2]
  unfold cellMoment
  congr 2
  have : p.chi.trace = (Qᵀ * p.chi * Q).trace := by rw [Matrix.trace_mul_comm, ← mul_assoc, hQ, one_mul]
  rw [this, Matrix.trace_fin_three, Fin.sum_univ_three]
  simp only [Matrix.mul_apply, Matrix.transpose_apply, dotProduct, mulVec, Fin.sum_univ_three]
  ring

/-- the description of the crystal is irrelevant: with a unit cell `k` times as large (and the scale then being `k²` times less) the report is the same -/
theorem larger_cell (field : ℝ) (ps : List Phase) (f : Phase → Phase) (k : Phase → ℝ) (hk : ∀ p ∈ ps, k p ≠ 0)
    (h : ∀ p ∈ ps, (f p).vol = k p * p.vol ∧ (f p).m = k p * p.m ∧ (f p).chi = k p • p.chi ∧ (f p).scale = p.scale / k p ^ 2 ∧
      ((f p).ions = k p * p.ions ∨ p.chi = 0)) : rows field (ps.map f) = rows field ps := by
  have s1 : ((ps.map f).map Phase.svM).sum = (ps.map Phase.svM).sum := by
    rw [List.map_map]
    congr 1
    apply List.map_congr_left
    intro p hp
    obtain ⟨a, b, _, d, _⟩ := h p hp
    have := hk p hp
    simp only [Function.comp, Phase.svM, a, b, d]
    field_simp
  have s2 : ((ps.map f).map Phase.svSq).sum = (ps.map Phase.svSq).sum := by
    rw [List.map_map]
    congr 1
    apply List.map_congr_left
    intro p hp
    obtain ⟨a, b, _, d, _⟩ := h p hp
    have := hk p hp
    simp only [Function.comp, Phase.svSq, a, d]
    field_simp
  unfold rows
  rw [List.map_map]
  apply List.map_congr_left
  intro p hp
  obtain ⟨a, b, c, d, e⟩ := h p hp
  have hk' := hk p hp
  have c1 : (f p).coeff • (f p).chi = p.coeff • p.chi := by
    rw [c, smul_smul]
    congr 1
    unfold Phase.coeff
    rw [b]
    rcases eq_or_ne p.m 0 with h0 | h0
    · simp [h0]
    · field_simp
  have c2 : (1 / (f p).ions) • (f p).chi = (1 / p.ions) • p.chi := by
    rcases e with e | e
    · rw [c, e, smul_smul]
      congr 1
      rcases eq_or_ne p.ions 0 with h0 | h0
      · simp [h0]
      · field_simp
    · rw [c, e]
      simp
  have c3 : (f p).density = p.density := by
    unfold Phase.density
    rw [a, b, mul_assoc, mul_div_mul_left _ _ hk']
  have c4 : (f p).svM = p.svM := by
    simp only [Phase.svM, a, b, d]
    field_simp
  have c5 : (f p).svSq = p.svSq := by
    simp only [Phase.svSq, a, d]
    field_simp
  show row field _ _ = _
  unfold row
  rw [s1, s2, c1, c2, c3, c4, c5]

/-! ## The moment per ion and the susceptibilities of the atoms -/

open Symm Sf Sft

/-- **C96.** The moment per ion is the mean over the paramagnetic atoms of the unit cell of a third of the trace of their susceptibility, times the field -/
theorem moment_of_atoms (field : ℝ) (ps : List Phase) (p : Phase) (s : Sym) (hs : s.Pos) (hne : s.full ≠ []) (hu : Cell.NonDegenerate p.uc)
    (hi : Isometries s p.uc) (atoms : List PAtom) (idx : List ℕ) (hp : p.para = some (Bulk.bulk s p.uc atoms, idx))
    (hsites : idx.map p.countAt =
      atoms.map fun a => (multiplicity s.full (siteOf a.x) : ℝ) * a.occ) :
    (row field ps p).moment = field * (atoms.map fun a => (multiplicity s.full (siteOf a.x) : ℝ) * a.occ * ((Bulk.tensor a).trace / 3)).sum /
      (atoms.map fun a => (multiplicity s.full (siteOf a.x) : ℝ) * a.occ).sum := by
  rw [(row_spec field ps p).2.2.2]
  have hions : p.ions = (atoms.map fun a => (multiplicity s.full (siteOf a.x) : ℝ) * a.occ).sum := by
    unfold Phase.ions
    rw [hp]
    dsimp only
    rw [hsites]
  have hchi : p.chi = Mat.toM (Bulk.bulk s p.uc atoms) := by
    unfold Phase.chi
    rw [hp]
  rw [hions]
  congr 1
  unfold cellMoment
  rw [hchi, Bulk.bulk_trace s hs hne p.uc hu hi atoms, mul_div_assoc, ← sum_map_div]
  congr 2
  apply List.map_congr_left
  intro a _
  ring

/-- where all paramagnetic atoms have the same isotropic susceptibility `c`, the moment per ion is the field times `c`, whatever the symmetry, the sites and
the occupancies -/
theorem moment_isotropic (field c : ℝ) (ps : List Phase) (p : Phase) (s : Sym) (hs : s.Pos) (hne : s.full ≠ []) (hu : Cell.NonDegenerate p.uc)
    (hi : Isometries s p.uc) (atoms : List PAtom) (idx : List ℕ) (hp : p.para = some (Bulk.bulk s p.uc atoms, idx))
    (hsites : idx.map p.countAt =
      atoms.map fun a => (multiplicity s.full (siteOf a.x) : ℝ) * a.occ)
    (hc : ∀ a ∈ atoms, Bulk.tensor a = c • (1 : Matrix (Fin 3) (Fin 3) ℝ))
    (h0 : (atoms.map fun a => (multiplicity s.full (siteOf a.x) : ℝ) * a.occ).sum ≠ 0) : (row field ps p).moment = field * c := by
  rw [moment_of_atoms field ps p s hs hne hu hi atoms idx hp hsites]
  have : (atoms.map fun a => (multiplicity s.full (siteOf a.x) : ℝ) * a.occ * ((Bulk.tensor a).trace / 3)) =
      atoms.map fun a => c * ((multiplicity s.full (siteOf a.x) : ℝ) * a.occ) := by
    apply List.map_congr_left
    intro a ha
    rw [hc a ha, Matrix.trace_smul, Matrix.trace_one]
    simp only [Fintype.card_fin, smul_eq_mul]
    push_cast
    ring
  rw [this, sum_mul_map]
  field_simp

/-- a phase without paramagnetic atoms has no magnetization -/
theorem no_para (field : ℝ) (ps : List Phase) (p : Phase) (h : p.para = none) :
    (row field ps p).massM = 0 ∧ (row field ps p).volM = 0 ∧ (row field ps p).moment = 0 ∧ tensorRow p = 0 := by
  have hc : p.chi = 0 := by unfold Phase.chi; rw [h]
  obtain ⟨_, h2, h3, h4⟩ := row_spec field ps p
  have hm : cellMoment field p = 0 := by unfold cellMoment; rw [hc]; simp
  refine ⟨by rw [h2, hm]; simp, by rw [h3, h2, hm]; simp, by rw [h4, hm]; simp, ?_⟩
  unfold tensorRow
  rw [hc]
  ext i
  fin_cases i <;> simp

/-- the tensor of the second table has as a third of its trace the mass magnetization in a unit field -/
theorem tensor_trace (ps : List Phase) (p : Phase) : (row 1 ps p).massM = (tensorRow p 0 + tensorRow p 1 + tensorRow p 2) / 3 := by
  show (1 : ℝ) * _ / 3 = _
  simp [tensorRow]

/-- the six numbers of the second table, in the order 11, 22, 33, 12, 13, 23, give the mass magnetization along any direction, per unit of field -/
theorem tensor_reading (p : Phase) (hs : p.chi.IsSymm) (u : Fin 3 → ℝ) :
    5582394 / 1000 * (u ⬝ᵥ (p.chi *ᵥ u)) / p.m = tensorRow p 0 * u 0 ^ 2 + tensorRow p 1 * u 1 ^ 2 + tensorRow p 2 * u 2 ^ 2 +
      2 * tensorRow p 3 * (u 0 * u 1) + 2 * tensorRow p 4 * (u 0 * u 2) + 2 * tensorRow p 5 * (u 1 * u 2) := by
  have h01 := hs.apply 0 1
  have h02 := hs.apply 0 2
  have h12 := hs.apply 1 2
  simp only [tensorRow, Phase.coeff, Matrix.smul_apply, smul_eq_mul, dotProduct, Matrix.mulVec, Fin.sum_univ_three, Matrix.cons_val, h01, h02, h12]
  ring

/-! ## The mass of a unit cell and the constants -/

/-- listing an atom as two with the occupancy shared out changes nothing -/
theorem weight_split (l : List Site) (a : Site) (x : ℝ) : weight ({ a with occ := x } :: { a with occ := a.occ - x } :: l) = weight (a :: l) := by
  simp only [weight, List.map_cons, List.sum_cons]
  ring

/-- the order of the atoms is irrelevant -/
theorem weight_perm {l l' : List Site} (h : l.Perm l') : weight l = weight l' := (h.map _).sum_eq

/-- the factor for the mass magnetization is the Avogadro number times the Bohr magneton (emu) within five parts of ten thousand, that of the density the
atomic mass unit per cubic angstrom within a hundredth of a percent -/
theorem constants : |(5582394 / 1000 : ℝ) - 602214076 * 10 ^ 15 * (92740100783 / 10 ^ 31)| ≤ 5 / 10 ^ 4 * (602214076 * 10 ^ 15 * (92740100783 / 10 ^ 31)) ∧
    |(1 : ℝ) / (6022 / 10000) - 166053906660 / 10 ^ 11| ≤ 1 / 10 ^ 4 * (166053906660 / 10 ^ 11) := by
  constructor <;> rw [abs_le] <;> constructor <;> norm_num

/-! ## An example: two phases -/

/-- a tetragonal cell of the volume one with one atom -/
noncomputable def exP (scale aw : ℝ) : Phase :=
  { scale := scale, uc := ![1, 1, 1, Real.pi / 2, Real.pi / 2, Real.pi / 2], sites := [⟨2, 1 / 2, aw⟩], para := some (![3, 0, 0, 0, 3, 0, 0, 0, 3], [0]) }

theorem exP_vol (s a : ℝ) : (exP s a).vol = 1 := by
  simp [Phase.vol, exP, Cell.calc_volume_uc, Cell.calc_phi, Cell.calc_phi_sq]

theorem exP_m (s a : ℝ) : (exP s a).m = a := by
  simp [Phase.m, exP, weight]

/-- one part of a light and three parts of a heavy phase -/
theorem example_report : (rows 2 [exP 1 10, exP 3 20]).map (fun r => (r.wF, r.vF, r.moment)) = [(1 / 7, 1 / 4, 6), (6 / 7, 3 / 4, 6)] := by
  have e1 : (row 2 [exP 1 10, exP 3 20] (exP 1 10)).wF = 1 / 7 := by
    simp only [row, Phase.svM, List.map_cons, List.map_nil, List.sum_cons, List.sum_nil, exP_vol, exP_m]
    simp only [exP]
    norm_num
  have e2 : (row 2 [exP 1 10, exP 3 20] (exP 3 20)).wF = 6 / 7 := by
    simp only [row, Phase.svM, List.map_cons, List.map_nil, List.sum_cons, List.sum_nil, exP_vol, exP_m]
    simp only [exP]
    norm_num
  have e3 : (row 2 [exP 1 10, exP 3 20] (exP 1 10)).vF = 1 / 4 := by
    simp only [row, Phase.svSq, List.map_cons, List.map_nil, List.sum_cons, List.sum_nil, exP_vol]
    simp only [exP]
    norm_num
  have e4 : (row 2 [exP 1 10, exP 3 20] (exP 3 20)).vF = 3 / 4 := by
    simp only [row, Phase.svSq, List.map_cons, List.map_nil, List.sum_cons, List.sum_nil, exP_vol]
    simp only [exP]
    norm_num
  have e5 : ∀ s a, (row 2 [exP 1 10, exP 3 20] (exP s a)).moment = 6 := by
    intro s a
    simp [row, Phase.chi, Phase.ions, Phase.countAt, exP, Mat.toM]
    norm_num
  simp only [rows, List.map_cons, List.map_nil, e1, e2, e3, e4, e5]

/-- an atom of the example of C78 (two positions in the cell) with an isotropic susceptibility -/
noncomputable def exI (c : ℝ) : PAtom :=
  { exAtom with chi := fun i => if i < 3 then c else 0, sc := fun i j => if i = j then 1 else 0 }

theorem exI_tensor (c : ℝ) : Bulk.tensor (exI c) = c • (1 : Matrix (Fin 3) (Fin 3) ℝ) := by
  unfold Bulk.tensor
  ext i j
  fin_cases i <;> fin_cases j <;> simp [exI, Mat.toQ] <;> rw [Fin.sum_univ_six] <;> simp (decide := true) [Fin.lt_def]

/-- the hypotheses of `moment_isotropic` are met: whatever the susceptibility, in a field of five the moment per ion is five times it -/
theorem example_moment (c : ℝ) (ps : List Phase) : ∃ p : Phase, p.uc = Hkl.tetUC ∧ p.para = some (Bulk.bulk exSym p.uc [exI c], [1]) ∧
    p.sites.length = 2 ∧ (row 5 ps p).moment = 5 * c := by
  have hm : multiplicity exSym.full (siteOf (exI c).x) = 2 := by
    obtain ⟨d, h1, h2⟩ := exSym_cell Hkl.tetUC 0 (toAtom 1 (Bulk.exA 0)) rfl rfl
    have hd := exG_distinct
    have hg := exG_isGroup
    rw [← exSym_full] at hd hg
    exact multiplicity_counts_images exSym.full hg hd (Sym.full_pos exSym_pos) (siteOf (Bulk.exA 0).x) (by unfold siteOf; norm_num)
      [![1 / 2, 0, 0], ![0, 1 / 2, 1 / 2]] (by
        have := h1.orbit
        rw [show (siteOf (Bulk.exA 0).x).val = (Bulk.exA 0).x from h2]
        exact this)
  have ho : (exI c).occ = 1 := rfl
  refine ⟨⟨1, Hkl.tetUC, [⟨4, 1, 16⟩, ⟨2, 1, 56⟩], some (Bulk.bulk exSym Hkl.tetUC [exI c], [1])⟩, rfl, rfl, rfl, ?_⟩
  refine moment_isotropic 5 c ps _ exSym exSym_pos Bulk.exSym_full_ne Hkl.tetUC_nonDegenerate exSym_isometries [exI c] [1] rfl ?_ ?_ ?_
  · simp [Phase.countAt, hm, ho]
  · intro a ha
    rw [List.mem_singleton.1 ha]
    exact exI_tensor c
  · simp [hm, ho]

end Cryspy.Mix
