import Verif.Sect.Model

/-!
# C80: plane sections of the density — theorems
-/

namespace Cryspy.Sect

open Real Matrix

/-! ### the axes -/

theorem sq3_pos {x : V} (h : x ≠ 0) : 0 < x 0 ^ 2 + x 1 ^ 2 + x 2 ^ 2 := by
  by_contra hc
  apply h
  have h0 := sq_nonneg (x 0); have h1 := sq_nonneg (x 1); have h2 := sq_nonneg (x 2)
  exact Mat.v_ext (pow_eq_zero_iff (two_ne_zero) |>.1 (by linarith)) (pow_eq_zero_iff (two_ne_zero) |>.1 (by linarith))
    (pow_eq_zero_iff (two_ne_zero) |>.1 (by linarith))

theorem dot_self (x : V) : x ⬝ᵥ x = x 0 ^ 2 + x 1 ^ 2 + x 2 ^ 2 := by
  simp only [dotProduct, Fin.sum_univ_three]; ring

theorem normed_unit {x : V} (h : x ≠ 0) :
    normed x ⬝ᵥ normed x = 1 ∧ ∃ r : ℝ, 0 < r ∧ x = r • normed x ∧ normed x = r⁻¹ • x := by
  have hp := sq3_pos h
  have hs : 0 < √(x 0 ^ 2 + x 1 ^ 2 + x 2 ^ 2) := Real.sqrt_pos.2 hp
  refine ⟨?_, _, hs, ?_, rfl⟩
  · unfold normed
    rw [smul_dotProduct, dotProduct_smul, dot_self]
    simp only [smul_eq_mul]
    nth_rewrite 3 [← Real.mul_self_sqrt hp.le]
    field_simp
  · unfold normed
    rw [smul_smul, mul_inv_cancel₀ hs.ne', one_smul]

/-- C80: for three atoms that are not on a line the axes are orthonormal and right-handed, the first one points to the first atom and the
second atom lies in the plane on the positive side of the second axis. -/
theorem axes_spec {po px py : V} (h : (px - po) ⨯₃ (py - po) ≠ 0) :
    let v := axes po px py
    v.1 ⬝ᵥ v.1 = 1 ∧ v.2.1 ⬝ᵥ v.2.1 = 1 ∧ v.2.2 ⬝ᵥ v.2.2 = 1 ∧ v.1 ⬝ᵥ v.2.1 = 0 ∧ v.1 ⬝ᵥ v.2.2 = 0 ∧ v.2.1 ⬝ᵥ v.2.2 = 0 ∧
    v.1 ⨯₃ v.2.1 = v.2.2 ∧ (∃ r : ℝ, 0 < r ∧ px = po + r • v.1) ∧ ∃ a b : ℝ, 0 < b ∧ py = po + a • v.1 + b • v.2.1 := by
  intro v
  have hx : px - po ≠ 0 := by intro e; apply h; rw [e]; simp
  have hy : py - po ≠ 0 := by intro e; apply h; rw [e]; simp
  obtain ⟨ux, r, hr, hxr, hxr'⟩ := normed_unit hx
  obtain ⟨uy, q, hq, hyq, hyq'⟩ := normed_unit hy
  set vx := normed (px - po) with hvx
  set vay := normed (py - po) with hvay
  have hn : vay - (vay ⬝ᵥ vx) • vx ≠ 0 := by
    intro e
    apply h
    have e2 : vay = (vay ⬝ᵥ vx) • vx := sub_eq_zero.1 e
    rw [hxr, hyq, e2]
    simp
  obtain ⟨un, w, hw, hnw, hnw'⟩ := normed_unit hn
  have e1 : v.1 = vx := rfl
  have e2 : v.2.1 = normed (vay - (vay ⬝ᵥ vx) • vx) := rfl
  have e3 : v.2.2 = vx ⨯₃ normed (vay - (vay ⬝ᵥ vx) • vx) := rfl
  set vy := normed (vay - (vay ⬝ᵥ vx) • vx) with hvy
  have hxy : vx ⬝ᵥ vy = 0 := by
    rw [hnw', dotProduct_smul, dotProduct_sub, dotProduct_smul, ux, dotProduct_comm vx vay]
    simp
  rw [e1, e2, e3]
  refine ⟨ux, un, ?_, hxy, dot_self_cross vx vy, dot_cross_self vx vy, rfl, ⟨r, hr, ?_⟩, q * (vay ⬝ᵥ vx), q * w, by positivity, ?_⟩
  · rw [cross_dot_cross, ux, un, hxy]; simp
  · rw [← hxr]; simp
  · have : py - po = q • vay := hyq
    have e4 : vay = (vay ⬝ᵥ vx) • vx + w • vy := by rw [← hnw]; simp
    calc py = po + (py - po) := by simp
      _ = po + q • ((vay ⬝ᵥ vx) • vx + w • vy) := by rw [this, ← e4]
      _ = _ := by rw [smul_add, smul_smul, smul_smul, add_assoc]

/-- a vector is the sum of its components along orthonormal axes -/
theorem expand {a b c : V} (haa : a ⬝ᵥ a = 1) (hbb : b ⬝ᵥ b = 1) (hcc : c ⬝ᵥ c = 1) (hab : a ⬝ᵥ b = 0) (hac : a ⬝ᵥ c = 0) (hbc : b ⬝ᵥ c = 0)
    (m : V) : m = (a ⬝ᵥ m) • a + (b ⬝ᵥ m) • b + (c ⬝ᵥ m) • c := by
  set A : Matrix (Fin 3) (Fin 3) ℝ := Matrix.of ![a, b, c] with hA
  have h1 : A * Aᵀ = 1 := by
    apply Mat.m_ext <;> simp only [Matrix.mul_apply, Fin.sum_univ_three, Matrix.transpose_apply, hA, Matrix.of_apply]
    all_goals simp [dotProduct, Fin.sum_univ_three] at haa hbb hcc hab hac hbc ⊢
    all_goals linarith
  have h2 : Aᵀ * A = 1 := mul_eq_one_comm.1 h1
  have h3 : m = Aᵀ *ᵥ (A *ᵥ m) := by rw [Matrix.mulVec_mulVec, h2, Matrix.one_mulVec]
  conv_lhs => rw [h3]
  apply Mat.v_ext <;> simp [hA, Matrix.mulVec, dotProduct, Fin.sum_univ_three] <;> ring

/-! ### the points -/

theorem indices_eq (p : ℕ) : indices p = (List.range p).map fun i : ℕ => (-(p : ℤ)) / 2 + i := by
  unfold indices
  have : (((p : ℤ) / 2 - (-(p : ℤ)) / 2).toNat) = p := by omega
  rw [this]

/-- indices of the rows -/
def grid (s : Section) : List (ℕ × ℕ) := (List.range s.pointsX).flatMap fun i => (List.range s.pointsY).map fun j => (i, j)

/-- by how much the label of a point is too large -/
noncomputable def shift (size : ℝ) (p : ℕ) : ℝ := if p % 2 = 0 then 0 else size / (2 * p)

theorem index_label (size : ℝ) {p : ℕ} (hp : 0 < p) (i : ℕ) :
    (((-(p : ℤ)) / 2 + i : ℤ) : ℝ) * (size / p) = ((i : ℝ) - 1 / 2 * p) * size / p - shift size p := by
  have hpr : (p : ℝ) ≠ 0 := by positivity
  unfold shift
  rcases Nat.even_or_odd' p with ⟨q, h | h⟩
  · have e : (-(p : ℤ)) / 2 = -q := by omega
    rw [e, if_pos (by omega)]
    have hq : (p : ℝ) = 2 * q := by rw [h]; push_cast; ring
    push_cast
    field_simp
    rw [hq]; ring
  · have e : (-(p : ℤ)) / 2 = -q - 1 := by omega
    rw [e, if_neg (by omega)]
    have hq : (p : ℝ) = 2 * q + 1 := by rw [h]; push_cast; ring
    push_cast
    field_simp
    rw [hq]; ring

theorem rows_map (o : Cell.Obj) (s : Section) (po px py : V) (moment : V → V) :
    rows o s po px py moment = (grid s).map fun ij =>
      ((((ij.1 : ℝ) - 1 / 2 * s.pointsX) * s.sizeX / s.pointsX, ((ij.2 : ℝ) - 1 / 2 * s.pointsY) * s.sizeY / s.pointsY),
        (fun f => (![(axes po px py).1 ⬝ᵥ moment f, (axes po px py).2.1 ⬝ᵥ moment f, (axes po px py).2.2 ⬝ᵥ moment f] : V))
          (o.coordinate ((((-(s.pointsX : ℤ)) / 2 + ij.1 : ℤ) : ℝ) • (s.sizeX / s.pointsX) • (axes po px py).1 +
            (((-(s.pointsY : ℤ)) / 2 + ij.2 : ℤ) : ℝ) • (s.sizeY / s.pointsY) • (axes po px py).2.1 + po))) := by
  have h1 : labels s = (grid s).map fun ij : ℕ × ℕ =>
      (((ij.1 : ℝ) - 1 / 2 * s.pointsX) * s.sizeX / s.pointsX, ((ij.2 : ℝ) - 1 / 2 * s.pointsY) * s.sizeY / s.pointsY) := by
    unfold labels grid
    rw [List.map_flatMap]
    simp only [List.map_map]
    rfl
  have h2 : fractions o s po px py = (grid s).map fun ij : ℕ × ℕ =>
      o.coordinate ((((-(s.pointsX : ℤ)) / 2 + ij.1 : ℤ) : ℝ) • (s.sizeX / s.pointsX) • (axes po px py).1 +
            (((-(s.pointsY : ℤ)) / 2 + ij.2 : ℤ) : ℝ) • (s.sizeY / s.pointsY) • (axes po px py).2.1 + po) := by
    unfold fractions grid
    dsimp only
    rw [indices_eq, indices_eq, List.map_flatMap, List.flatMap_map]
    simp only [List.map_map]
    rfl
  unfold rows
  dsimp only
  rw [h1, h2, List.map_map, List.zip_map']
  rfl

/-- C80: the section has `points_x * points_y` rows; the row labelled `(x, y)` holds the components along the axes of the moment at the point
of the plane with these coordinates, if the numbers of points are even.  For an odd number the label is too large by half a step. -/
theorem rows_spec {p : Fin 6 → ℝ} (hc : Cell.NonDegenerate (Cell.rads p)) (hp : Cell.ProperAngles (Cell.rads p)) (s : Section)
    {po px py : V} (h : (px - po) ⨯₃ (py - po) ≠ 0) (moment : V → V) :
    (rows (Cell.object p) s po px py moment).length = s.pointsX * s.pointsY ∧
    ∀ row ∈ rows (Cell.object p) s po px py moment, ∃ f : V,
      (Cell.object p).position f = po + (row.1.1 - shift s.sizeX s.pointsX) • (axes po px py).1 +
        (row.1.2 - shift s.sizeY s.pointsY) • (axes po px py).2.1 ∧
      moment f = row.2 0 • (axes po px py).1 + row.2 1 • (axes po px py).2.1 + row.2 2 • (axes po px py).2.2 := by
  obtain ⟨haa, hbb, hcc, hab, hac, hbc, -, -, -⟩ := axes_spec h
  rw [rows_map]
  constructor
  · rw [List.length_map]
    unfold grid
    simp [List.length_flatMap]
  · intro row hrow
    rw [List.mem_map] at hrow
    obtain ⟨ij, hij, rfl⟩ := hrow
    have hX : 0 < s.pointsX ∧ 0 < s.pointsY := by
      unfold grid at hij
      simp only [List.mem_flatMap, List.mem_range, List.mem_map] at hij
      obtain ⟨i, hi, j, hj, -⟩ := hij
      omega
    refine ⟨_, ?_, expand haa hbb hcc hab hac hbc _⟩
    rw [(Cell.positions_spec hc hp _).2.1, smul_smul, smul_smul, index_label _ hX.1, index_label _ hX.2]
    abel

/-- C80: the labels: the first at minus half the size, in steps of the size divided by the number of points, the last one step before half
the size. -/
theorem labels_spec (o : Cell.Obj) (s : Section) (po px py : V) (moment : V → V) {i j : ℕ} (hi : i < s.pointsX) (hj : j < s.pointsY) :
    ∃ row ∈ rows o s po px py moment,
      row.1 = (-(s.sizeX / 2) + i * (s.sizeX / s.pointsX), -(s.sizeY / 2) + j * (s.sizeY / s.pointsY)) := by
  rw [rows_map]
  have hX : (s.pointsX : ℝ) ≠ 0 := by have : 0 < s.pointsX := by omega
                                      positivity
  have hY : (s.pointsY : ℝ) ≠ 0 := by have : 0 < s.pointsY := by omega
                                      positivity
  have hm : (i, j) ∈ grid s := by
    unfold grid
    simp only [List.mem_flatMap, List.mem_range, List.mem_map]
    exact ⟨i, hi, j, hj, rfl⟩
  refine ⟨_, List.mem_map_of_mem hm, Prod.ext ?_ ?_⟩
  · dsimp only; field_simp; ring
  · dsimp only; field_simp; ring

/-- C80, failure: with an odd number of points no row belongs to the point it is labelled with. -/
theorem odd_points_wrong {p : Fin 6 → ℝ} (hc : Cell.NonDegenerate (Cell.rads p)) (hp : Cell.ProperAngles (Cell.rads p)) (s : Section)
    {po px py : V} (h : (px - po) ⨯₃ (py - po) ≠ 0) (hodd : s.pointsX % 2 = 1) (hs : 0 < s.sizeX) :
    rows (Cell.object p) s po px py (fun f => (Cell.object p).position f - po) ≠ [] → ∀ row ∈
      rows (Cell.object p) s po px py (fun f => (Cell.object p).position f - po), row.2 0 ≠ row.1.1 := by
  intro _ row hrow
  obtain ⟨haa, hbb, hcc, hab, hac, hbc, -, -, -⟩ := axes_spec h
  obtain ⟨-, hall⟩ := rows_spec hc hp s h (fun f => (Cell.object p).position f - po)
  obtain ⟨f, hf, hm⟩ := hall row hrow
  have h1 : (axes po px py).1 ⬝ᵥ ((Cell.object p).position f - po) = row.2 0 := by
    rw [hm]
    simp [dotProduct_add, dotProduct_smul, haa, hab, hac]
  have h2 : (axes po px py).1 ⬝ᵥ ((Cell.object p).position f - po) = row.1.1 - shift s.sizeX s.pointsX := by
    rw [hf, add_assoc, add_sub_cancel_left]
    simp [dotProduct_add, dotProduct_smul, haa, hab]
  rw [h1] at h2
  rw [h2]
  unfold shift
  rw [if_neg (by omega)]
  have : 0 < s.sizeX / (2 * s.pointsX) := by
    have : 0 < s.pointsX := by omega
    positivity
  linarith

/-! ### the atoms -/

theorem rint_spec (x : ℝ) : |(rint x : ℝ) - x| ≤ 1 / 2 := by
  unfold rint
  have h1 := Int.floor_le x
  have h2 := Int.lt_floor_add_one x
  split_ifs with h3 h4 h5 <;> push_cast <;> rw [abs_le] <;> constructor <;> linarith

theorem rint_int (n : ℤ) : rint (n : ℝ) = n := by
  unfold rint
  simp

theorem rint_mono01 {x : ℝ} (h0 : 0 ≤ x) (h1 : x < 10 ^ 5) : 0 ≤ rint x ∧ rint x ≤ 10 ^ 5 := by
  have h := rint_spec x
  rw [abs_le] at h
  constructor
  · have : (-1 : ℝ) < rint x := by linarith [h.1]
    have : -1 < rint x := by exact_mod_cast this
    omega
  · have : (rint x : ℝ) < 10 ^ 5 + 1 := by linarith [h.2]
    have : rint x < 10 ^ 5 + 1 := by exact_mod_cast this
    omega

theorem round5_spec {x : ℝ} (h0 : 0 ≤ x) (h1 : x < 1) : |round5 x - x| ≤ 1 / 2 / 10 ^ 5 ∧ 0 ≤ round5 x ∧ round5 x ≤ 1 := by
  have h := rint_spec (x * 10 ^ 5)
  obtain ⟨a, b⟩ := rint_mono01 (x := x * 10 ^ 5) (by positivity) (by nlinarith)
  have a' : (0 : ℝ) ≤ rint (x * 10 ^ 5) := by exact_mod_cast a
  have b' : (rint (x * 10 ^ 5) : ℝ) ≤ 10 ^ 5 := by exact_mod_cast b
  unfold round5
  refine ⟨?_, by positivity, by rw [div_le_one (by positivity)]; exact b'⟩
  have e : (rint (x * 10 ^ 5) : ℝ) / 10 ^ 5 - x = ((rint (x * 10 ^ 5) : ℝ) - x * 10 ^ 5) / 10 ^ 5 := by field_simp
  rw [e, abs_div, abs_of_pos (by positivity : (0:ℝ) < 10 ^ 5)]
  gcongr

/-- C80: the atoms of the unit cell: every one listed is, within the fifth decimal and up to a lattice translation, an atom carried by an
operation, with coordinates from 0 to 1; every atom and operation is listed; no position is listed twice for an atom. -/
theorem atoms_in_cell (ops : List Op) (atoms : List (String × V)) :
    (∀ e ∈ atomsInUnitCell ops atoms, (∀ i, 0 ≤ e.1 i ∧ e.1 i ≤ 1) ∧ ∃ a ∈ atoms, a.1 = e.2 ∧ ∃ g ∈ ops, ∃ t : Fin 3 → ℤ,
      ∀ i, |e.1 i - (g.act a.2 i + t i)| ≤ 1 / 2 / 10 ^ 5) ∧
    (∀ a ∈ atoms, ∀ g ∈ ops, ∃ e ∈ atomsInUnitCell ops atoms, e.2 = a.1 ∧ ∃ t : Fin 3 → ℤ,
      ∀ i, |e.1 i - (g.act a.2 i + t i)| ≤ 1 / 2 / 10 ^ 5) ∧
    ((atoms.map Prod.fst).Nodup → (atomsInUnitCell ops atoms).Nodup) := by
  classical
  have key : ∀ (g : Op) (x : V), ∃ t : Fin 3 → ℤ, ∀ i, |round5 (Int.fract (g.act x i)) - (g.act x i + t i)| ≤ 1 / 2 / 10 ^ 5 := by
    intro g x
    refine ⟨fun i => -⌊g.act x i⌋, fun i => ?_⟩
    have := (round5_spec (Int.fract_nonneg (g.act x i)) (Int.fract_lt_one (g.act x i))).1
    have e : g.act x i + ((-⌊g.act x i⌋ : ℤ) : ℝ) = Int.fract (g.act x i) := by unfold Int.fract; push_cast; ring
    rw [e]; exact this
  refine ⟨?_, ?_, ?_⟩
  · intro e he
    unfold atomsInUnitCell at he
    simp only [List.mem_flatMap, List.mem_map, List.mem_dedup] at he
    obtain ⟨a, ha, f, ⟨g, hg, rfl⟩, rfl⟩ := he
    refine ⟨fun i => (round5_spec (Int.fract_nonneg _) (Int.fract_lt_one _)).2, a, ha, rfl, g, hg, key g a.2⟩
  · intro a ha g hg
    refine ⟨(fun i => round5 (Int.fract (g.act a.2 i)), a.1), ?_, rfl, key g a.2⟩
    unfold atomsInUnitCell
    simp only [List.mem_flatMap, List.mem_map, List.mem_dedup]
    exact ⟨a, ha, _, ⟨g, hg, rfl⟩, rfl⟩
  · intro hn
    unfold atomsInUnitCell
    rw [List.nodup_flatMap]
    constructor
    · intro a _
      refine (List.nodup_dedup _).map ?_
      intro x y hxy
      exact (Prod.ext_iff.1 hxy).1
    · have hpw : atoms.Pairwise fun a b => a.1 ≠ b.1 := by
        have := hn
        rw [List.Nodup, List.pairwise_map] at this
        exact this
      refine hpw.imp ?_
      intro a b hab
      simp only [Function.onFun, List.disjoint_left, List.mem_map]
      rintro x ⟨f, -, rfl⟩ ⟨f', -, h⟩
      exact hab (Prod.ext_iff.1 h).2.symm

/-- C80: an atom is listed in the section exactly if it is an atom of the unit cell within the rectangle and nearer to the plane than the
limit; its coordinates are those in the plane. -/
theorem section_atoms (o : Cell.Obj) (s : Section) {po px py : V} (h : (px - po) ⨯₃ (py - po) ≠ 0) (dmin : ℝ) (ops : List Op)
    (atoms : List (String × V)) (x y : ℝ) (l : String) :
    (x, y, l) ∈ calcAtoms o s po px py dmin ops atoms ↔ |x| < 1 / 2 * s.sizeX ∧ |y| < 1 / 2 * s.sizeY ∧ ∃ f z, (f, l) ∈ atomsInUnitCell ops atoms ∧
      |z| < dmin ∧ o.position f = po + x • (axes po px py).1 + y • (axes po px py).2.1 + z • (axes po px py).2.2 := by
  classical
  obtain ⟨haa, hbb, hcc, hab, hac, hbc, -, -, -⟩ := axes_spec h
  unfold calcAtoms
  simp only [List.mem_map, List.mem_filter, Bool.and_eq_true, decide_eq_true_eq]
  simp only [local_, Matrix.cons_val]
  constructor
  · rintro ⟨a, ⟨ha, h1, h2, h3⟩, he⟩
    obtain ⟨rfl, he2⟩ := Prod.ext_iff.1 he
    obtain ⟨rfl, rfl⟩ := Prod.ext_iff.1 he2
    refine ⟨h1, h2, a.1, _, ha, h3, ?_⟩
    have := expand haa hbb hcc hab hac hbc (o.position a.1 - po)
    calc o.position a.1 = po + (o.position a.1 - po) := by simp
      _ = _ := by conv_lhs => rw [this]
                  abel
  · rintro ⟨h1, h2, f, z, hf, h3, hpos⟩
    have e : o.position f - po = x • (axes po px py).1 + y • (axes po px py).2.1 + z • (axes po px py).2.2 := by
      rw [hpos]; abel
    have ex : (axes po px py).1 ⬝ᵥ (o.position f - po) = x := by
      rw [e]; simp [dotProduct_add, dotProduct_smul, haa, hab, hac]
    have ey : (axes po px py).2.1 ⬝ᵥ (o.position f - po) = y := by
      rw [e]; simp [dotProduct_add, dotProduct_smul, hbb, hbc, dotProduct_comm _ (axes po px py).1, hab]
    have ez : (axes po px py).2.2 ⬝ᵥ (o.position f - po) = z := by
      rw [e]; simp [dotProduct_add, dotProduct_smul, hcc, dotProduct_comm (axes po px py).2.2, hac, hbc]
    refine ⟨(f, l), ⟨hf, ?_, ?_, ?_⟩, ?_⟩
    · rw [ex]; exact h1
    · rw [ey]; exact h2
    · rw [ez]; exact h3
    · rw [ex, ey]

/-! ### atoms of the neighbouring cells -/

/-- the identity -/
def idOp : Op := ⟨1, 0⟩

/-- a cubic cell of 10 Å -/
noncomputable def cube : Fin 6 → ℝ := ![10, 10, 10, 90, 90, 90]

theorem cube_position (x : V) : (Cell.object cube).position x = (10 : ℝ) • x := by
  have h90 : (90 : ℝ) * (π / 180) = π / 2 := by ring
  have e : (Cell.object cube).mM = !![10, 0, 0; 0, 10, 0; 0, 0, 10] := by
    apply Mat.m_ext <;>
      simp only [Cell.object, cube, Matrix.of_apply, Matrix.cons_val] <;> simp only [h90] <;> simp [Cell.deg_rad, Real.cos_arccos] <;> norm_num
  unfold Cell.Obj.position
  rw [e]
  apply Mat.v_ext <;> simp [Matrix.mulVec, dotProduct, Fin.sum_univ_three]

theorem cube_proper : Cell.NonDegenerate (Cell.rads cube) ∧ Cell.ProperAngles (Cell.rads cube) := by
  have h90 : (90 : ℝ) * (π / 180) = π / 2 := by ring
  have := pi_pos
  refine ⟨?_, ?_⟩
  · have e : Cell.rads cube = ![10, 10, 10, π / 2, π / 2, π / 2] := by simp [Cell.rads, cube, h90]
    rw [e]
    refine ⟨by simp, by simp, by simp, ?_⟩
    simp [Cell.metric, Matrix.det_fin_three]
  · simp [Cell.ProperAngles, Cell.rads, cube, h90, this, pi_pos]
    try linarith

/-- the atoms of the example -/
noncomputable def three : List (String × V) := [("A", 0), ("B", ![1 / 2, 0, 0]), ("C", ![0, 1 / 2, 0])]

/-- C80 (failure): atoms of the neighbouring cells are not listed although they are in the section.  In a cubic cell of 10 Å with atoms at the
origin, half way along **a** and half way along **b**, a section of 30 Å x 30 Å through them contains an atom at (-1/2, 0, 0); the list has
no entry with a negative coordinate.  The atom at (1/2, 0, 0) is listed. -/
theorem neighbours_missing :
    let o := Cell.object cube
    let list := calcAtoms o ⟨30, 30, 10, 10⟩ (o.position 0) (o.position ![1 / 2, 0, 0]) (o.position ![0, 1 / 2, 0]) (3 / 10) [idOp] three
    (o.position ![1 / 2, 0, 0] - o.position 0) ⨯₃ (o.position ![0, 1 / 2, 0] - o.position 0) ≠ 0 ∧
    o.position ![1 / 2 - 1, 0, 0] = o.position 0 + (-5 : ℝ) • (axes (o.position 0) (o.position ![1 / 2, 0, 0]) (o.position ![0, 1 / 2, 0])).1 ∧
    (∀ x y l, (x, y, l) ∈ list → 0 ≤ x) ∧ (5, 0, "B") ∈ list := by
  intro o list
  have ho : ∀ x, o.position x = (10 : ℝ) • x := cube_position
  have p0 : o.position 0 = 0 := by rw [ho]; simp
  have p1 : o.position ![1 / 2, 0, 0] = ![5, 0, 0] := by rw [ho]; apply Mat.v_ext <;> simp; norm_num
  have p2 : o.position ![0, 1 / 2, 0] = ![0, 5, 0] := by rw [ho]; apply Mat.v_ext <;> simp; norm_num
  have s5 : √((5 : ℝ) ^ 2) = 5 := Real.sqrt_sq (by norm_num)
  have n1 : normed (![5, 0, 0] : V) = ![1, 0, 0] := by
    unfold normed; apply Mat.v_ext <;> simp [s5]
  have n2 : normed (![0, 5, 0] : V) = ![0, 1, 0] := by
    unfold normed; apply Mat.v_ext <;> simp [s5]
  have n3 : normed (![0, 1, 0] : V) = ![0, 1, 0] := by
    unfold normed; apply Mat.v_ext <;> simp
  have ax : axes 0 ![5, 0, 0] ![0, 5, 0] = (![1, 0, 0], ![0, 1, 0], ![0, 0, 1]) := by
    have d : (![0, 1, 0] : V) ⬝ᵥ ![1, 0, 0] = 0 := by simp [dotProduct, Fin.sum_univ_three]
    unfold axes
    simp only [sub_zero, n1, n2, d, zero_smul, n3]
    refine Prod.ext rfl (Prod.ext rfl ?_)
    apply Mat.v_ext <;> simp [cross_apply]
  have hn : ((![5, 0, 0] : V) - 0) ⨯₃ ((![0, 5, 0] : V) - 0) ≠ 0 := by
    intro e
    have := congrFun e 2
    simp [cross_apply] at this
  have r0 : round5 (Int.fract 0) = 0 := by
    unfold round5 rint; simp
  have r5 : round5 (Int.fract (1 / 2)) = 1 / 2 := by
    have f5 : Int.fract (1 / 2 : ℝ) = 1 / 2 := Int.fract_eq_self.2 ⟨by norm_num, by norm_num⟩
    have fl : ⌊(1 / 2 * 10 ^ 5 : ℝ)⌋ = 50000 := by
      rw [Int.floor_eq_iff]; norm_num
    unfold round5 rint
    rw [f5, fl]; norm_num
  have hB : ((![1 / 2, 0, 0] : V), "B") ∈ atomsInUnitCell [idOp] three := by
    classical
    unfold atomsInUnitCell
    simp only [List.mem_flatMap, List.mem_map, List.mem_dedup]
    refine ⟨("B", ![1 / 2, 0, 0]), by simp [three], ![1 / 2, 0, 0], ⟨idOp, by simp, ?_⟩, rfl⟩
    have act : idOp.act ![1 / 2, 0, 0] = ![1 / 2, 0, 0] := by
      apply Mat.v_ext <;> simp [Op.act, idOp]
    rw [act]
    apply Mat.v_ext
    · exact r5
    · exact r0
    · exact r0
  refine ⟨?_, ?_, ?_, ?_⟩
  · rw [p0, p1, p2]; exact hn
  · rw [p0, p1, p2, ax, ho]; apply Mat.v_ext <;> simp; norm_num
  · intro x y l hm
    simp only [list] at hm
    rw [p0, p1, p2] at hm
    obtain ⟨-, -, f, z, hf, -, hpos⟩ := (section_atoms o _ hn (3 / 10) [idOp] three x y l).1 hm
    rw [ax, ho] at hpos
    have := congrFun hpos 0
    simp at this
    have h0 := ((atoms_in_cell [idOp] three).1 _ hf).1 0
    simp only at h0
    linarith [h0.1]
  · simp only [list]
    rw [p0, p1, p2, section_atoms o _ hn]
    refine ⟨by norm_num, by norm_num, ![1 / 2, 0, 0], 0, hB, by norm_num, ?_⟩
    rw [p1, ax]; apply Mat.v_ext <;> simp

end Cryspy.Sect
