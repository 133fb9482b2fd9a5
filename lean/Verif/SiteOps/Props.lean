import Verif.SiteOps.Model
import Verif.Induced.Props
import Verif.Vib.Spec

/-!
# C101: the operations of a site
-/

namespace Cryspy.SiteOps

open Cryspy.Gens Cryspy.Induced

/-! ## Rounded positions and their order -/

theorem cell_same (x : Fin 3 → ℚ) : SamePlace (cell x) x := ⟨fun i => -⌊x i⌋, fun i => by unfold cell Int.fract; push_cast; ring⟩

theorem pos_cell (o : Op) (x : Fin 3 → ℚ) : pos o (cell x) = pos o x := pos_of_same ((cell_same x).image o)

theorem lexLe_refl (p : Fin 3 → ℚ) : lexLe p p = true := by simp [lexLe]

theorem lexLe_iff (p q : Fin 3 → ℚ) : lexLe p q = true ↔ p 0 < q 0 ∨ p 0 = q 0 ∧ (p 1 < q 1 ∨ p 1 = q 1 ∧ p 2 ≤ q 2) := by
  simp [lexLe]

theorem lexLe_trans {p q r : Fin 3 → ℚ} (h : lexLe p q = true) (k : lexLe q r = true) : lexLe p r = true := by
  rw [lexLe_iff] at *
  rcases h with h | ⟨h, h1 | ⟨h1, h2⟩⟩ <;> rcases k with k | ⟨k, k1 | ⟨k1, k2⟩⟩
  · left; linarith
  · left; linarith
  · left; linarith
  · left; linarith
  · right; exact ⟨by linarith, Or.inl (by linarith)⟩
  · right; exact ⟨by linarith, Or.inl (by linarith)⟩
  · left; linarith
  · right; exact ⟨by linarith, Or.inl (by linarith)⟩
  · right; exact ⟨by linarith, Or.inr ⟨by linarith, by linarith⟩⟩

theorem lexLe_total (p q : Fin 3 → ℚ) : lexLe p q = true ∨ lexLe q p = true := by
  rw [lexLe_iff, lexLe_iff]
  rcases lt_trichotomy (p 0) (q 0) with h | h | h
  · exact Or.inl (Or.inl h)
  · rcases lt_trichotomy (p 1) (q 1) with k | k | k
    · exact Or.inl (Or.inr ⟨h, Or.inl k⟩)
    · rcases le_total (p 2) (q 2) with m | m
      · exact Or.inl (Or.inr ⟨h, Or.inr ⟨k, m⟩⟩)
      · exact Or.inr (Or.inr ⟨h.symm, Or.inr ⟨k.symm, m⟩⟩)
    · exact Or.inr (Or.inr ⟨h.symm, Or.inl k⟩)
  · exact Or.inr (Or.inl h)

theorem fold_spec (ps : List (Fin 3 → ℚ)) : ∀ p : Fin 3 → ℚ,
    (ps.foldl (fun a q => if lexLe a q then a else q) p ∈ p :: ps) ∧
    ∀ q ∈ p :: ps, lexLe (ps.foldl (fun a q => if lexLe a q then a else q) p) q = true := by
  induction ps with
  | nil => intro p; simp [lexLe_refl]
  | cons r rs ih =>
    intro p
    rw [List.foldl_cons]
    obtain ⟨a, b⟩ := ih (if lexLe p r then p else r)
    constructor
    · split_ifs at a ⊢ with h
      · rcases List.mem_cons.1 a with a | a
        · rw [a]; simp
        · exact List.mem_cons_of_mem _ (List.mem_cons_of_mem _ a)
      · exact List.mem_cons_of_mem _ a
    · intro q hq
      have base := b _ (List.mem_cons_self ..)
      rcases List.mem_cons.1 hq with rfl | hq
      · refine lexLe_trans base ?_
        split_ifs with h
        · exact lexLe_refl _
        · exact (lexLe_total q r).resolve_left h
      · rcases List.mem_cons.1 hq with rfl | hq
        · refine lexLe_trans base ?_
          split_ifs with h
          · exact h
          · exact lexLe_refl _
        · exact b q (List.mem_cons_of_mem _ hq)

theorem lexMin_spec {l : List (Fin 3 → ℚ)} {p : Fin 3 → ℚ} (h : lexMin l = some p) : p ∈ l ∧ ∀ q ∈ l, lexLe p q = true := by
  cases l with
  | nil => simp [lexMin] at h
  | cons a l =>
    unfold lexMin at h
    rw [Option.some.injEq] at h
    rw [← h]
    exact fold_spec l a

/-- the atom is near its own rounded position -/
theorem near_self (x : Fin 3 → ℚ) : near (cell x) (pos one x) = true := by
  unfold near
  rw [decide_eq_true_eq]
  have h : ∀ i, (cell x i - pos one x i) ^ 2 ≤ (1 / 200000) ^ 2 := by
    intro i
    have := abs_le.1 (round5_near (Int.fract (x i)))
    have e : pos one x i = round5 (Int.fract (x i)) := by unfold pos; rw [image_one]
    rw [e]
    unfold cell
    nlinarith [this.1, this.2]
  have : ∑ i, (cell x i - pos one x i) ^ 2 ≤ 3 * (1 / 200000) ^ 2 := by
    rw [Fin.sum_univ_three]; linarith [h 0, h 1, h 2]
  refine lt_of_le_of_lt this (by norm_num)

/-! ## What is found -/

/-- the other images of the atom in the cell are at least `√10⁻⁵` (0.00316) away from it, in the sum of the squares of the differences of the three
coordinates -/
def Clear (ops : List Op) (x : Fin 3 → ℚ) : Prop :=
  ∀ o ∈ ops, SamePlace (image o x) x ∨ 1 / 10 ^ 5 ≤ ∑ i, (Int.fract (x i) - pos o x i) ^ 2

/-- C101: the operations returned are, in every case, all those of the list that carry the atom to one rounded position near it, and there is such
a position if the identity is in the list. -/
theorem found {ops : List Op} (h1 : one ∈ ops) (x : Fin 3 → ℚ) : ∃ o ∈ ops, ∑ i, (Int.fract (x i) - pos o x i) ^ 2 < 1 / 10 ^ 5 ∧
    siteOps ops x = some (ops.filter fun q => decide (pos q x = pos o x)) ∧
    ∀ q ∈ ops, ∑ i, (Int.fract (x i) - pos q x i) ^ 2 < 1 / 10 ^ 5 → lexLe (pos o x) (pos q x) = true := by
  unfold siteOps
  simp only [pos_cell]
  have hn : pos one x ∈ (ops.map fun o => pos o x).filter (near (cell x)) :=
    List.mem_filter.2 ⟨List.mem_map.2 ⟨one, h1, rfl⟩, near_self x⟩
  cases hl : lexMin ((ops.map fun o => pos o x).filter (near (cell x))) with
  | none =>
    cases hc : (ops.map fun o => pos o x).filter (near (cell x)) with
    | nil => rw [hc] at hn; simp at hn
    | cons a l => rw [hc] at hl; simp [lexMin] at hl
  | some p =>
    obtain ⟨a, b⟩ := lexMin_spec hl
    obtain ⟨a1, a2⟩ := List.mem_filter.1 a
    obtain ⟨o, ho, rfl⟩ := List.mem_map.1 a1
    unfold near at a2
    rw [decide_eq_true_eq] at a2
    refine ⟨o, ho, a2, rfl, ?_⟩
    intro q hq hd
    exact b _ (List.mem_filter.2 ⟨List.mem_map.2 ⟨q, hq, rfl⟩, by unfold near; rw [decide_eq_true_eq]; exact hd⟩)

open Classical in
/-- C101: of an atom whose other images are not close to it, the operations returned are exactly those that carry it to itself or to a translation of
itself, in the order of the list. -/
theorem site_operations {ops : List Op} (h1 : one ∈ ops) {x : Fin 3 → ℚ} (hC : Clear ops x) :
    siteOps ops x = some (ops.filter fun o => SamePlace (image o x) x) := by
  obtain ⟨o, ho, hd, hs, -⟩ := found h1 x
  rw [hs]
  congr 1
  have same : ∀ q ∈ ops, SamePlace (image q x) x ↔ pos q x = pos one x := by
    intro q hq
    constructor
    · intro k
      exact pos_of_same (by rw [image_one]; exact k)
    · intro k
      rcases hC q hq with h | h
      · exact h
      · exfalso
        have := near_self x
        unfold near at this
        rw [decide_eq_true_eq, ← k] at this
        exact absurd this (not_lt.2 h)
  have ho1 : pos o x = pos one x := by
    rcases hC o ho with h | h
    · exact (same o ho).1 h
    · exact absurd hd (not_lt.2 h)
  apply List.filter_congr
  intro q hq
  rw [ho1, decide_eq_decide]
  exact (same q hq).symm

/-- C101: they form a group. -/
theorem site_group {ops : List Op} (hG : IsGroup ops) {x : Fin 3 → ℚ} (hC : Clear ops x) {l : List Op} (hl : siteOps ops x = some l) : IsGroup l := by
  classical
  rw [site_operations hG.one_mem hC, Option.some.injEq] at hl
  subst hl
  have mem : ∀ o, o ∈ (ops.filter fun o => decide (SamePlace (image o x) x)) ↔ o ∈ ops ∧ SamePlace (image o x) x := by
    intro o; rw [List.mem_filter, decide_eq_true_eq]
  constructor
  · exact hG.nodup.filter _
  · intro o ho
    exact hG.normal o ((mem o).1 ho).1
  · exact (mem _).2 ⟨hG.one_mem, by rw [image_one]; exact ⟨0, fun i => by simp⟩⟩
  · intro a ha b hb
    obtain ⟨a1, a2⟩ := (mem a).1 ha
    obtain ⟨b1, b2⟩ := (mem b).1 hb
    exact (mem _).2 ⟨hG.mul_mem a a1 b b1, ((image_mul a b x).trans (b2.image a)).trans a2⟩
  · intro a ha
    obtain ⟨a1, a2⟩ := (mem a).1 ha
    obtain ⟨b, hb, e, -⟩ := hG.right_inv a1
    refine ⟨b, (mem b).2 ⟨hb, ?_⟩, e⟩
    have h1 := (image_mul b a x).trans (a2.image b)
    rw [e, image_one] at h1
    exact h1.symm

/-- C101: no rotation occurs twice, and the rotations form a group: what the constraints on displacement parameters (C32) and on susceptibilities (C17)
suppose. -/
theorem site_rotations {ops : List Op} (hG : IsGroup ops) {x : Fin 3 → ℚ} (hC : Clear ops x) {l : List Op} (hl : siteOps ops x = some l) :
    Vib.IsSite (rots l) := by
  classical
  have g := site_group hG hC hl
  rw [site_operations hG.one_mem hC, Option.some.injEq] at hl
  have mem : ∀ o ∈ l, o ∈ ops ∧ SamePlace (image o x) x := by
    intro o ho
    rw [← hl, List.mem_filter, decide_eq_true_eq] at ho
    exact ho
  have e : (rots l).map Mat.toM = l.map Op.r := by
    unfold rots
    rw [List.map_map]
    apply List.map_congr_left
    intro o _
    ext i j
    fin_cases i <;> fin_cases j <;> rfl
  unfold Vib.IsSite
  rw [e]
  constructor
  · refine List.Nodup.map_on ?_ g.nodup
    intro a ha b hb h
    obtain ⟨-, n, hn⟩ := mem a ha
    obtain ⟨-, p, hp⟩ := mem b hb
    have ab : a.b = b.b := by
      funext i
      have h1 := hn i
      have h2 := hp i
      unfold image at h1 h2
      rw [h] at h1
      have d : a.b i = b.b i + ((n i - p i : ℤ) : ℚ) := by push_cast; linarith
      have := congrArg Int.fract d
      rwa [Int.fract_add_intCast, Int.fract_eq_self.2 (g.normal a ha i), Int.fract_eq_self.2 (g.normal b hb i)] at this
    cases a; cases b
    simp_all
  · exact List.mem_map.2 ⟨Gens.one, g.one_mem, rfl⟩
  · intro a ha b hb
    obtain ⟨o, ho, rfl⟩ := List.mem_map.1 ha
    obtain ⟨q, hq, rfl⟩ := List.mem_map.1 hb
    exact List.mem_map.2 ⟨_, g.mul_mem o ho q hq, rfl⟩
  · intro a ha
    obtain ⟨o, ho, rfl⟩ := List.mem_map.1 ha
    obtain ⟨b, hb, e⟩ := g.inv o ho
    exact ⟨b.r, List.mem_map.2 ⟨b, hb, rfl⟩, congrArg Op.r e⟩

/-- C101: the sum of the tensor turned by the operations of the site has the symmetry of the site. -/
theorem sum_has_symmetry {ops : List Op} (hG : IsGroup ops) {x : Fin 3 → ℚ} (hC : Clear ops x) {l : List Op} (hl : siteOps ops x = some l)
    (chi : Matrix (Fin 3) (Fin 3) ℝ) : SiteSym ops x ((l.map fun o => rot o * chi * (rot o).transpose).sum) := by
  classical
  have g := site_group hG hC hl
  intro s hs hx
  have sl : s ∈ l := by
    rw [site_operations hG.one_mem hC, Option.some.injEq] at hl
    rw [← hl, List.mem_filter, decide_eq_true_eq]
    exact ⟨hs, hx⟩
  obtain ⟨b, hb, e, e'⟩ := g.right_inv sl
  have perm : (l.map fun o => mul s o).Perm l := by
    refine (List.perm_ext_iff_of_nodup ?_ g.nodup).2 ?_
    · refine List.Nodup.map_on ?_ g.nodup
      intro o ho q hq h
      have := congrArg (mul b) h
      rwa [← mul_assoc', ← mul_assoc', e, one_mul' (g.normal o ho), one_mul' (g.normal q hq)] at this
    · intro o
      constructor
      · intro h
        obtain ⟨q, hq, rfl⟩ := List.mem_map.1 h
        exact g.mul_mem s sl q hq
      · intro h
        exact List.mem_map.2 ⟨mul b o, g.mul_mem b hb o h, by rw [← mul_assoc', e', one_mul' (g.normal o h)]⟩
  have lin : ∀ m : List Op, rot s * (m.map fun o => turned o chi).sum * (rot s).transpose = (m.map fun o => turned (mul s o) chi).sum := by
    intro m
    induction m with
    | nil => simp
    | cons o m ih =>
      rw [List.map_cons, List.sum_cons, Matrix.mul_add, Matrix.add_mul, ih, List.map_cons, List.sum_cons, turned_mul]
      rfl
  have := lin l
  unfold turned at this
  rw [this]
  have p2 := (perm.map fun o => rot o * chi * (rot o).transpose).sum_eq
  rw [List.map_map] at p2
  exact p2

/-! ## Known failures and examples -/

/-- C101, known failure: on a three-fold axis with coordinates written to five digits the operations found are not those of the site: there is one, the
rotation by 120°, without the identity; and the displacement parameters are not constrained, as they are with exact thirds. -/
theorem thirds_lost : siteOps p3 ![33333 / 100000, 66667 / 100000, 0] = some [⟨!![0, -1, 0; 1, -1, 0; 0, 0, 1], 0⟩] ∧
    constrNumber p3 ![33333 / 100000, 66667 / 100000, 0] = some 0 ∧
    siteOps p3 ![1 / 3, 2 / 3, 0] = some p3 ∧ constrNumber p3 ![1 / 3, 2 / 3, 0] = some 16 := by
  refine ⟨?_, ?_, ?_, ?_⟩ <;> decide +kernel

/-- C101, known failure: an atom within 0.0015 of a special position but not on it gets the operation that carries it to its neighbour, or its own, depending on
the side it is on: in `P -1` the atom at 0.501 is found on the inversion alone, the atom at 0.499 on the identity alone. -/
theorem other_side : siteOps [one, ⟨!![-1, 0, 0; 0, -1, 0; 0, 0, -1], 0⟩] ![501 / 1000, 1 / 2, 1 / 2] = some [⟨!![-1, 0, 0; 0, -1, 0; 0, 0, -1], 0⟩] ∧
    siteOps [one, ⟨!![-1, 0, 0; 0, -1, 0; 0, 0, -1], 0⟩] ![499 / 1000, 1 / 2, 1 / 2] = some [one] := by
  constructor <;> decide +kernel

/-- a non-trivial case: an atom on the three-fold axis, and one off it -/
theorem example_clear : IsGroup p3 ∧ Clear p3 ![1 / 3, 2 / 3, 1 / 7] ∧ Clear p3 ![1 / 10, 1 / 5, 1 / 7] ∧
    siteOps p3 ![1 / 3, 2 / 3, 1 / 7] = some p3 ∧ siteOps p3 ![1 / 10, 1 / 5, 1 / 7] = some [one] := by
  refine ⟨p3_group, ?_, ?_, by decide +kernel, by decide +kernel⟩
  · intro o ho
    left
    refine ⟨fun i => ⌊image o ![1 / 3, 2 / 3, 1 / 7] i⌋, ?_⟩
    revert o
    decide +kernel
  · intro o ho
    simp only [p3, List.mem_cons, List.not_mem_nil, or_false] at ho
    rcases ho with rfl | rfl | rfl
    · left; rw [image_one]; exact ⟨0, fun i => by simp⟩
    · right; decide +kernel
    · right; decide +kernel

end Cryspy.SiteOps
