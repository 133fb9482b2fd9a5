import Verif.Regrid.Spec
import Verif.Regrid.Model
import Verif.Powder.Props

/-!
# C72: a two-dimensional pattern on another grid
-/

namespace Cryspy.Regrid

open Real

/-! ### Angles -/

theorem to_tthphi_eq (g n : ℝ) : gammanuToTthphi g n = (Powder.ttheta_by g n, Powder.phi_by g n) := by
  unfold gammanuToTthphi Powder.ttheta_by Powder.phi_by
  simp only [mul_comm]

theorem to_gammanu_eq (t p : ℝ) : tthphiToGammanu t p = (Powder.gamma_by t p, Powder.nu_by t p) := by
  unfold tthphiToGammanu Powder.gamma_by Powder.nu_by
  simp only [mul_comm]

/-- C72: the direction is kept, for all angles; the scattering angle is between 0 and π, the ring angle in (-π, π]. -/
theorem to_tthphi_direction (g n : ℝ) : dirRing (gammanuToTthphi g n).1 (gammanuToTthphi g n).2 = dirDet g n ∧
    (0 ≤ (gammanuToTthphi g n).1 ∧ (gammanuToTthphi g n).1 ≤ π) ∧ -π < (gammanuToTthphi g n).2 ∧ (gammanuToTthphi g n).2 ≤ π := by
  refine ⟨?_, ⟨arccos_nonneg _, arccos_le_pi _⟩, Complex.neg_pi_lt_arg _, Complex.arg_le_pi _⟩
  rw [to_tthphi_eq]
  obtain ⟨a, b, c⟩ := Powder.same_direction' g n
  unfold dirRing dirDet
  rw [a, b, c]

/-- C72: and back, with the angle in the plane in (-π, π] and the angle above it between -π/2 and π/2. -/
theorem to_gammanu_direction (t p : ℝ) : dirDet (tthphiToGammanu t p).1 (tthphiToGammanu t p).2 = dirRing t p ∧
    (-π < (tthphiToGammanu t p).1 ∧ (tthphiToGammanu t p).1 ≤ π) ∧ -(π / 2) ≤ (tthphiToGammanu t p).2 ∧ (tthphiToGammanu t p).2 ≤ π / 2 := by
  refine ⟨?_, ⟨Complex.neg_pi_lt_arg _, Complex.arg_le_pi _⟩, neg_pi_div_two_le_arcsin _, arcsin_le_pi_div_two _⟩
  rw [to_gammanu_eq]
  obtain ⟨a, b, c⟩ := Powder.same_direction t p
  unfold dirRing dirDet
  rw [a, b, c]

/-- C72: there and back. -/
theorem angles_round_trip {g n : ℝ} (h1 : -π < g) (h2 : g ≤ π) (h3 : -(π / 2) < n) (h4 : n < π / 2) :
    tthphiToGammanu (gammanuToTthphi g n).1 (gammanuToTthphi g n).2 = (g, n) := by
  rw [to_tthphi_eq, to_gammanu_eq]
  obtain ⟨a, b⟩ := Powder.gamma_nu_round_trip h1 h2 h3 h4
  rw [a, b]

theorem angles_round_trip' {t p : ℝ} (h1 : 0 < t) (h2 : t < π) (h3 : -π < p) (h4 : p ≤ π) :
    gammanuToTthphi (tthphiToGammanu t p).1 (tthphiToGammanu t p).2 = (t, p) := by
  rw [to_gammanu_eq, to_tthphi_eq]
  obtain ⟨a, b⟩ := Powder.ttheta_phi_round_trip h1 h2 h3 h4
  rw [a, b]

/-- C72: the angle the texture is calculated with is that between the scattering vector (difference of the directions of the scattered and the
incoming beam) and the vertical axis. -/
theorem alpha_spec (g n : ℝ) (h : dirDet g n ≠ ![1, 0, 0]) :
    let q := dirDet g n - ![1, 0, 0]
    cos (alphaDet g n) = q 2 / √(q 0 ^ 2 + q 1 ^ 2 + q 2 ^ 2) ∧ 0 ≤ alphaDet g n ∧ alphaDet g n ≤ π := by
  intro q
  have q0 : q 0 = cos n * cos g - 1 := by simp [q, dirDet]
  have q1 : q 1 = cos n * sin g := by simp [q, dirDet]
  have q2 : q 2 = sin n := by simp [q, dirDet]
  have e : q 0 ^ 2 + q 1 ^ 2 + q 2 ^ 2 = 2 - 2 * cos g * cos n := by
    rw [q0, q1, q2]
    have := sin_sq_add_cos_sq n
    have := sin_sq_add_cos_sq g
    grind
  have pos : 0 < q 0 ^ 2 + q 1 ^ 2 + q 2 ^ 2 := by
    rcases (by positivity : 0 ≤ q 0 ^ 2 + q 1 ^ 2 + q 2 ^ 2).lt_or_eq with h0 | h0
    · exact h0
    · exfalso
      apply h
      have z0 : q 0 = 0 := by nlinarith [sq_nonneg (q 0), sq_nonneg (q 1), sq_nonneg (q 2)]
      have z1 : q 1 = 0 := by nlinarith [sq_nonneg (q 0), sq_nonneg (q 1), sq_nonneg (q 2)]
      have z2 : q 2 = 0 := by nlinarith [sq_nonneg (q 0), sq_nonneg (q 1), sq_nonneg (q 2)]
      have : q = 0 := by
        funext k
        fin_cases k
        · exact z0
        · exact z1
        · exact z2
      exact sub_eq_zero.1 this
  refine ⟨?_, arccos_nonneg _, arccos_le_pi _⟩
  have hs : 0 < √(q 0 ^ 2 + q 1 ^ 2 + q 2 ^ 2) := sqrt_pos.2 pos
  have hq : |q 2| ≤ √(q 0 ^ 2 + q 1 ^ 2 + q 2 ^ 2) := abs_le_sqrt (by nlinarith [sq_nonneg (q 0), sq_nonneg (q 1)])
  unfold alphaDet
  rw [← e, ← q2]
  rw [cos_arccos]
  · rw [le_div_iff₀ hs]; linarith [neg_abs_le (q 2)]
  · rw [div_le_one hs]; exact (le_abs_self _).trans hq

/-! ### Interpolation -/

theorem app2d_eq (a b c d : Option ℝ) (u v : ℝ) : app2d a b c d u v = bilin u v a b c d := by
  unfold app2d bilin
  cases a <;> cases b <;> cases c <;> cases d <;> simp
  ring

theorem table_get (n m : ℕ) (F : ℕ → ℕ → Option ℝ) {j : ℕ} (hj : j < m) :
    (tableOf n m F)[j]? = some ((List.range n).map fun i : ℕ => F i j) := by
  unfold tableOf
  simp [List.getElem?_map, List.getElem?_range hj]

theorem row_get (n : ℕ) (G : ℕ → Option ℝ) {i : ℕ} (hi : i < n) : ((List.range n).map fun i : ℕ => G i)[i]? = some (G i) := by
  simp [List.getElem?_map, List.getElem?_range hi]

/-- One point of an equidistant grid. -/
theorem appPoint_spec {x0 sx : ℝ} {n : ℕ} {y0 sy : ℝ} {m : ℕ} (hx : sx ≠ 0) (hy : sy ≠ 0) (F : ℕ → ℕ → Option ℝ) (p : ℝ × ℝ) :
    ∃ r, appPoint (tableOf n m F) x0 sx n y0 sy m p = some r ∧ IsValueAt x0 sx n y0 sy m F p.1 p.2 r := by
  unfold appPoint
  rw [if_neg (by simp [hx, hy])]
  dsimp only
  by_cases h : 0 ≤ (p.1 - x0) / sx ∧ (p.1 - x0) / sx < (n : ℝ) - 1 ∧ 0 ≤ (p.2 - y0) / sy ∧ (p.2 - y0) / sy < (m : ℝ) - 1
  · rw [if_pos h]
    obtain ⟨a1, a2, b1, b2⟩ := h
    set X := (p.1 - x0) / sx with hX
    set Y := (p.2 - y0) / sy with hY
    have fx : ((⌊X⌋.toNat : ℕ) : ℝ) = X - Int.fract X := by
      have : ((⌊X⌋.toNat : ℕ) : ℤ) = ⌊X⌋ := Int.toNat_of_nonneg (Int.floor_nonneg.2 a1)
      rw [Int.self_sub_fract]
      exact_mod_cast congrArg (Int.cast (R := ℝ)) this
    have fy : ((⌊Y⌋.toNat : ℕ) : ℝ) = Y - Int.fract Y := by
      have : ((⌊Y⌋.toNat : ℕ) : ℤ) = ⌊Y⌋ := Int.toNat_of_nonneg (Int.floor_nonneg.2 b1)
      rw [Int.self_sub_fract]
      exact_mod_cast congrArg (Int.cast (R := ℝ)) this
    have gx := Int.fract_nonneg X
    have gy := Int.fract_nonneg Y
    have hi : ⌊X⌋.toNat + 1 < n := by
      have : ((⌊X⌋.toNat : ℕ) : ℝ) + 1 < n := by linarith
      exact_mod_cast this
    have hj : ⌊Y⌋.toNat + 1 < m := by
      have : ((⌊Y⌋.toNat : ℕ) : ℝ) + 1 < m := by linarith
      exact_mod_cast this
    rw [table_get n m F (by omega : ⌊Y⌋.toNat < m), table_get n m F hj]
    dsimp only
    rw [row_get n _ (by omega : ⌊X⌋.toNat < n), row_get n _ hi, row_get n (fun i => F i (⌊Y⌋.toNat + 1)) (by omega : ⌊X⌋.toNat < n),
      row_get n (fun i => F i (⌊Y⌋.toNat + 1)) hi]
    refine ⟨_, rfl, Or.inl ⟨⌊X⌋.toNat, ⌊Y⌋.toNat, Int.fract X, Int.fract Y, hi, hj, ⟨gx, Int.fract_lt_one X⟩, ⟨gy, Int.fract_lt_one Y⟩, ?_, ?_,
      app2d_eq ..⟩⟩
    · rw [fx, sub_add_cancel, hX, div_mul_cancel₀ _ hx]; ring
    · rw [fy, sub_add_cancel, hY, div_mul_cancel₀ _ hy]; ring
  · rw [if_neg h]
    refine ⟨none, rfl, Or.inr ⟨?_, rfl⟩⟩
    rintro ⟨i, j, u, v, hi, hj, hu, hv, e1, e2⟩
    apply h
    have X : (p.1 - x0) / sx = i + u := by rw [e1]; field_simp; ring
    have Y : (p.2 - y0) / sy = j + v := by rw [e2]; field_simp; ring
    have hi' : (i : ℝ) + 1 + 1 ≤ n := by exact_mod_cast hi
    have hj' : (j : ℝ) + 1 + 1 ≤ m := by exact_mod_cast hj
    have i0 : (0 : ℝ) ≤ i := Nat.cast_nonneg i
    have j0 : (0 : ℝ) ≤ j := Nat.cast_nonneg j
    rw [X, Y]
    refine ⟨by linarith [hu.1], by linarith [hu.2], by linarith [hv.1], by linarith [hv.2]⟩

theorem equidistant_ends {xs : List ℝ} {x0 s : ℝ} {n : ℕ} (h : Equidistant xs x0 s n) :
    xs.head? = some x0 ∧ xs.getLast? = some (x0 + ((n : ℝ) - 1) * s) ∧ xs.length = n := by
  obtain ⟨rfl, -, hn⟩ := h
  obtain ⟨k, rfl⟩ : ∃ k, n = k + 2 := ⟨n - 2, by omega⟩
  refine ⟨?_, ?_, by simp⟩
  · simp [List.range_succ_eq_map]
  · rw [List.range_succ, List.map_append, List.map_cons, List.map_nil, List.getLast?_append]
    simp only [List.getLast?_singleton, Option.some_or, Option.some.injEq]
    push_cast
    ring

theorem appGrid_eq {xs ys : List ℝ} {x0 sx y0 sy : ℝ} {n m : ℕ} (hx : Equidistant xs x0 sx n) (hy : Equidistant ys y0 sy m)
    (mat : List (List (Option ℝ))) (pts : List (ℝ × ℝ)) : appGrid mat xs ys pts = pts.mapM (appPoint mat x0 sx n y0 sy m) := by
  obtain ⟨a1, a2, a3⟩ := equidistant_ends hx
  obtain ⟨b1, b2, b3⟩ := equidistant_ends hy
  have hn : (n : ℝ) - 1 ≠ 0 := by
    have : (2 : ℝ) ≤ n := by exact_mod_cast hx.2.2
    linarith
  have hm : (m : ℝ) - 1 ≠ 0 := by
    have : (2 : ℝ) ≤ m := by exact_mod_cast hy.2.2
    linarith
  unfold appGrid
  simp only [a1, a2, b1, b2, a3, b3]
  rw [if_neg (by have := hx.2.2; have := hy.2.2; omega)]
  have e1 : (x0 + ((n : ℝ) - 1) * sx - x0) / ((n : ℝ) - 1) = sx := by field_simp; ring
  have e2 : (y0 + ((m : ℝ) - 1) * sy - y0) / ((m : ℝ) - 1) = sy := by field_simp; ring
  rw [e1, e2]

theorem mapM_eq_map {α β : Type} {f : α → Option β} {g : α → β} : ∀ l : List α, (∀ x ∈ l, f x = some (g x)) → l.mapM f = some (l.map g) := by
  intro l
  induction l with
  | nil => intro _; simp
  | cons x l ih =>
    intro h
    rw [List.mapM_cons, h x (by simp), ih fun y hy => h y (by simp [hy])]
    simp

/-- Entry `i + j * n` of a table written row by row. -/
theorem flat_get {α : Type} (rows : List ℝ) (cols : List ℝ) (f : ℝ → ℝ → α) {i j : ℕ} (hi : i < cols.length) (hj : j < rows.length) :
    (rows.flatMap fun r => cols.map fun c => f r c)[i + j * cols.length]? = some (f rows[j] cols[i]) := by
  induction rows generalizing j with
  | nil => simp at hj
  | cons r rows ih =>
    rw [List.flatMap_cons]
    cases j with
    | zero =>
      rw [Nat.zero_mul, Nat.add_zero, List.getElem?_append_left (by simpa using hi)]
      simp [hi]
    | succ j =>
      have h1 : j < rows.length := by simpa using hj
      rw [List.getElem?_append_right (by simp [Nat.succ_mul]; omega)]
      have : i + (j + 1) * cols.length - (cols.map fun c => f r c).length = i + j * cols.length := by
        simp [Nat.succ_mul]; omega
      rw [this, ih h1]
      simp

theorem regrid_spec (conv : ℝ → ℝ → ℝ × ℝ) {xs ys : List ℝ} {x0 sx y0 sy : ℝ} {n m : ℕ} (hx : Equidistant xs x0 sx n)
    (hy : Equidistant ys y0 sy m) (F : ℕ → ℕ → Option ℝ) (cols rows : List ℝ) :
    ∃ V : ℝ → ℝ → Option ℝ, (∀ c r, IsValueAt x0 sx n y0 sy m F (conv c r).1 (conv c r).2 (V c r)) ∧
      (match appGrid (tableOf n m F) xs ys (rows.flatMap fun r => cols.map fun c => conv c r) with
        | none => none
        | some l => (List.range rows.length).mapM fun j => (List.range cols.length).mapM fun i => l[i + j * cols.length]?) =
        some (rows.map fun r => cols.map fun c => V c r) := by
  choose V hV1 hV2 using appPoint_spec (x0 := x0) (n := n) (y0 := y0) (m := m) hx.2.1 hy.2.1 F
  refine ⟨fun c r => V (conv c r), fun c r => hV2 _, ?_⟩
  rw [appGrid_eq hx hy, mapM_eq_map (g := V) _ fun p _ => hV1 p]
  dsimp only
  rw [List.map_flatMap]
  simp only [List.map_map, Function.comp_def]
  have inner : ∀ j (hj : j < rows.length), ((List.range cols.length).mapM fun i =>
      (rows.flatMap fun r => cols.map fun c => V (conv c r))[i + j * cols.length]?) = some (cols.map fun c => V (conv c rows[j])) := by
    intro j hj
    rw [mapM_eq_map (g := fun i => (cols.map fun c => V (conv c rows[j])).getD i none)]
    · congr 1
      apply List.ext_getElem
      · simp
      · intro i h1 h2
        have hi : i < cols.length := by simpa using h1
        simp [hi]
    · intro i hi
      have hi' := List.mem_range.1 hi
      rw [flat_get rows cols (fun r c => V (conv c r)) hi' hj]
      simp [hi']
  rw [mapM_eq_map (g := fun j => (rows.map fun r => cols.map fun c => V (conv c r)).getD j [])]
  · congr 1
    apply List.ext_getElem
    · simp
    · intro j h1 h2
      have hj : j < rows.length := by simpa using h1
      simp [hj]
  · intro j hj
    have hj' := List.mem_range.1 hj
    rw [inner j hj']
    simp [hj']

/-- C72: a pattern on an equidistant grid of scattering and ring angle is given, at every pixel, the value interpolated in the direction of the
pixel. -/
theorem to_gamma_nu_spec {tths phis : List ℝ} {t0 st p0 sp : ℝ} {n m : ℕ} (ht : Equidistant tths t0 st n) (hp : Equidistant phis p0 sp m)
    (F : ℕ → ℕ → Option ℝ) (gammas nus : List ℝ) :
    ∃ V : ℝ → ℝ → Option ℝ, toGammaNu tths phis (tableOf n m F) gammas nus = some (nus.map fun nu => gammas.map fun gamma => V gamma nu) ∧
      ∀ gamma nu, ∃ t p, dirRing t p = dirDet gamma nu ∧ (0 ≤ t ∧ t ≤ π) ∧ (-π < p ∧ p ≤ π) ∧ IsValueAt t0 st n p0 sp m F t p (V gamma nu) := by
  obtain ⟨V, h1, h2⟩ := regrid_spec gammanuToTthphi ht hp F gammas nus
  refine ⟨V, h2, fun gamma nu => ?_⟩
  obtain ⟨d1, d2, d3⟩ := to_tthphi_direction gamma nu
  exact ⟨_, _, d1, d2, d3, h1 gamma nu⟩

/-- C72: and the other way. -/
theorem to_tth_phi_spec {gammas nus : List ℝ} {g0 sg n0 sn : ℝ} {n m : ℕ} (hg : Equidistant gammas g0 sg n) (hn : Equidistant nus n0 sn m)
    (F : ℕ → ℕ → Option ℝ) (tths phis : List ℝ) :
    ∃ V : ℝ → ℝ → Option ℝ, toTthPhi gammas nus (tableOf n m F) tths phis = some (phis.map fun phi => tths.map fun tth => V tth phi) ∧
      ∀ tth phi, ∃ g v, dirDet g v = dirRing tth phi ∧ (-π < g ∧ g ≤ π) ∧ (-(π / 2) ≤ v ∧ v ≤ π / 2) ∧
        IsValueAt g0 sg n n0 sn m F g v (V tth phi) := by
  obtain ⟨V, h1, h2⟩ := regrid_spec tthphiToGammanu hg hn F tths phis
  refine ⟨V, h2, fun tth phi => ?_⟩
  obtain ⟨d1, d2, d3⟩ := to_gammanu_direction tth phi
  exact ⟨_, _, d1, d2, d3, h1 tth phi⟩

/-! ### What the value is -/

/-- The cell of a point is unique. -/
theorem cell_unique {x0 s : ℝ} (hs : s ≠ 0) {i i' : ℕ} {u u' : ℝ} (hu : 0 ≤ u ∧ u < 1) (hu' : 0 ≤ u' ∧ u' < 1)
    (h : x0 + (i + u) * s = x0 + (i' + u') * s) : i = i' ∧ u = u' := by
  have e : (i : ℝ) + u = i' + u' := mul_right_cancel₀ hs (by linarith)
  have : i = i' := by
    have h1 : ⌊(i : ℝ) + u⌋ = i := by
      rw [Int.floor_eq_iff]; push_cast; constructor <;> linarith [hu.1, hu.2]
    have h2 : ⌊(i' : ℝ) + u'⌋ = i' := by
      rw [Int.floor_eq_iff]; push_cast; constructor <;> linarith [hu'.1, hu'.2]
    have : (i : ℤ) = i' := by rw [← h1, ← h2, e]
    exact_mod_cast this
  subst this
  exact ⟨rfl, by linarith⟩

/-- C72: at a node of the grid that is not on the last row or column, with its upper and right neighbours known, it is the value of the node. -/
theorem value_node {x0 sx : ℝ} {n : ℕ} {y0 sy : ℝ} {m : ℕ} (hx : sx ≠ 0) (hy : sy ≠ 0) {F : ℕ → ℕ → Option ℝ} {i j : ℕ} (hi : i + 1 < n)
    (hj : j + 1 < m) {a b c d : ℝ} (h1 : F i j = some a) (h2 : F (i + 1) j = some b) (h3 : F i (j + 1) = some c) (h4 : F (i + 1) (j + 1) = some d)
    {r : Option ℝ} (h : IsValueAt x0 sx n y0 sy m F (x0 + i * sx) (y0 + j * sy) r) : r = some a := by
  rcases h with ⟨i', j', u, v, -, -, hu, hv, e1, e2, rfl⟩ | ⟨h, -⟩
  · obtain ⟨rfl, rfl⟩ := cell_unique hx (i := i) (u := 0) ⟨le_refl _, by norm_num⟩ hu (by rw [add_zero]; exact e1)
    obtain ⟨rfl, rfl⟩ := cell_unique hy (i := j) (u := 0) ⟨le_refl _, by norm_num⟩ hv (by rw [add_zero]; exact e2)
    rw [h1, h2, h3, h4]
    simp [bilin]
  · exact absurd ⟨i, j, 0, 0, hi, hj, ⟨le_refl _, by norm_num⟩, ⟨le_refl _, by norm_num⟩, by ring, by ring⟩ h

/-- C72: it lies between the smallest and the largest intensity. -/
theorem value_between {x0 sx : ℝ} {n : ℕ} {y0 sy : ℝ} {m : ℕ} {F : ℕ → ℕ → Option ℝ} {lo hi : ℝ} (hF : ∀ i j a, F i j = some a → lo ≤ a ∧ a ≤ hi)
    {x y : ℝ} {w : ℝ} (h : IsValueAt x0 sx n y0 sy m F x y (some w)) : lo ≤ w ∧ w ≤ hi := by
  rcases h with ⟨i, j, u, v, -, -, hu, hv, -, -, e⟩ | ⟨-, h⟩
  · cases h1 : F i j with
    | none => rw [h1] at e; simp [bilin] at e
    | some a => cases h2 : F (i + 1) j with
      | none => rw [h1, h2] at e; simp [bilin] at e
      | some b => cases h3 : F i (j + 1) with
        | none => rw [h1, h2, h3] at e; simp [bilin] at e
        | some c => cases h4 : F (i + 1) (j + 1) with
          | none => rw [h1, h2, h3, h4] at e; simp [bilin] at e
          | some d =>
            rw [h1, h2, h3, h4] at e
            simp only [bilin, Option.some.injEq] at e
            have ha := hF _ _ _ h1
            have hb := hF _ _ _ h2
            have hc := hF _ _ _ h3
            have hd := hF _ _ _ h4
            have w1 : 0 ≤ (1 - u) * (1 - v) := mul_nonneg (by linarith [hu.2]) (by linarith [hv.2])
            have w2 : 0 ≤ u * (1 - v) := mul_nonneg hu.1 (by linarith [hv.2])
            have w3 : 0 ≤ (1 - u) * v := mul_nonneg (by linarith [hu.2]) hv.1
            have w4 : 0 ≤ u * v := mul_nonneg hu.1 hv.1
            have sum : (1 - u) * (1 - v) + u * (1 - v) + (1 - u) * v + u * v = 1 := by ring
            rw [e]
            constructor
            · calc lo = ((1 - u) * (1 - v) + u * (1 - v) + (1 - u) * v + u * v) * lo := by rw [sum, one_mul]
                _ = (1 - u) * (1 - v) * lo + u * (1 - v) * lo + (1 - u) * v * lo + u * v * lo := by ring
                _ ≤ _ := by
                  have := mul_le_mul_of_nonneg_left ha.1 w1
                  have := mul_le_mul_of_nonneg_left hb.1 w2
                  have := mul_le_mul_of_nonneg_left hc.1 w3
                  have := mul_le_mul_of_nonneg_left hd.1 w4
                  linarith
            · calc _ ≤ (1 - u) * (1 - v) * hi + u * (1 - v) * hi + (1 - u) * v * hi + u * v * hi := by
                    have := mul_le_mul_of_nonneg_left ha.2 w1
                    have := mul_le_mul_of_nonneg_left hb.2 w2
                    have := mul_le_mul_of_nonneg_left hc.2 w3
                    have := mul_le_mul_of_nonneg_left hd.2 w4
                    linarith
                _ = ((1 - u) * (1 - v) + u * (1 - v) + (1 - u) * v + u * v) * hi := by ring
                _ = hi := by rw [sum, one_mul]
  · cases h

/-- C72: an intensity linear in each of the two angles is reproduced inside the grid. -/
theorem value_linear {x0 sx : ℝ} {n : ℕ} {y0 sy : ℝ} {m : ℕ} {F : ℕ → ℕ → Option ℝ} {a b c d : ℝ}
    (hF : ∀ i j : ℕ, F i j = some (a + b * (x0 + i * sx) + c * (y0 + j * sy) + d * (x0 + i * sx) * (y0 + j * sy)))
    {x y : ℝ} {w : ℝ} (h : IsValueAt x0 sx n y0 sy m F x y (some w)) : w = a + b * x + c * y + d * x * y := by
  rcases h with ⟨i, j, u, v, -, -, hu, hv, e1, e2, e⟩ | ⟨-, h⟩
  · rw [hF, hF, hF, hF] at e
    simp only [bilin, Option.some.injEq] at e
    rw [e, e1, e2]
    push_cast
    ring
  · cases h

/-- C72, defect: the last row and the last column of the grid are given no value. -/
theorem last_column_lost {x0 sx : ℝ} {n : ℕ} {y0 sy : ℝ} {m : ℕ} (hx : sx ≠ 0) {F : ℕ → ℕ → Option ℝ} {y : ℝ} (hn : 0 < n) {r : Option ℝ}
    (h : IsValueAt x0 sx n y0 sy m F (x0 + ((n : ℝ) - 1) * sx) y r) : r = none := by
  rcases h with ⟨i, j, u, v, hi, -, hu, -, e1, -, -⟩ | ⟨-, h⟩
  · exfalso
    obtain ⟨k, rfl⟩ : ∃ k, n = k + 1 := ⟨n - 1, by omega⟩
    obtain ⟨rfl, -⟩ := cell_unique hx (i := k) (u := 0) ⟨le_refl _, by norm_num⟩ hu (by rw [add_zero, ← e1]; push_cast; ring)
    omega
  · exact h

/-- C72, defect: a missing neighbour takes the value away even at a node where its weight is zero. -/
theorem missing_neighbour (a : ℝ) (b c : Option ℝ) : app2d (some a) b c none 0 0 = none := by
  cases b <;> cases c <;> rfl

/-- C72, defect: the grid is taken for equidistant.  On the grid 0, 1, 3 the pattern with the values 0, 1, 3 is given the value 2/3 at 1. -/
theorem uneven_wrong : appGrid [[some 0, some 1, some 3], [some 0, some 1, some 3]] [0, 1, 3] [0, 1] [(1, 0)] = some [some (2 / 3)] := by
  have h1 : ⌊(2 / 3 : ℝ)⌋ = 0 := by rw [Int.floor_eq_zero_iff]; constructor <;> norm_num
  have h2 : Int.fract (2 / 3 : ℝ) = 2 / 3 := by rw [Int.fract, h1]; norm_num
  unfold appGrid
  simp only [List.head?_cons, List.getLast?_cons_cons, List.getLast?_singleton, List.length_cons, List.length_nil, List.mapM_cons, List.mapM_nil]
  unfold appPoint
  norm_num [h1, h2, app2d]

/-! ### The hypotheses can be met -/

example : Equidistant [1, 3, 5] 1 2 3 := by
  refine ⟨?_, by norm_num, by norm_num⟩
  simp [List.range_succ]
  norm_num

example : dirDet (π / 3) 0 ≠ ![1, 0, 0] := by
  intro h
  have := congrFun h 0
  simp [dirDet] at this

end Cryspy.Regrid
