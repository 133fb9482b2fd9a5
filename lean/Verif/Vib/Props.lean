import Verif.Vib.Frame

/-!
# C32: constraints of the site symmetry on displacement parameters

`cubic_sites` and `hex_sites` settle the constraint for every site group of the two frames: the group is one of the listed
kinds, and the library constrains it rightly exactly when the kind says so.  Kinds with `right = false` are defects of the library.
-/

namespace Cryspy.Vib

open Mat Matrix CellConstr

theorem cubicFrame : Frame cubicMats cubicTbl cubicSubs cubicSites where
  tbl := cubic_tbl
  inj := cubic_inj
  lat := cubic_lat
  table := cubic_table
  final := cubic_final
  one := rfl
  pos := by decide
  least := ⟨([], 1, 0, true), by simp [cubicSubs], rfl⟩

theorem hexFrame : Frame hexMats hexTbl hexSubs hexSites where
  tbl := hex_tbl
  inj := hex_inj
  lat := hex_lat
  table := hex_table
  final := hex_final
  one := rfl
  pos := by decide
  least := ⟨([], 1, 0, true), by simp [hexSubs], rfl⟩

theorem toM_tr (o : Fin 9 → ℤ) : toM (tr9 o) = (toM o)ᵀ := by
  ext i j
  fin_cases i <;> fin_cases j <;> simp [toM, tr9]

theorem sq_le_one {x : ℤ} (h : x * x ≤ 1) : x = -1 ∨ x = 0 ∨ x = 1 := by
  have h1 : -1 ≤ x := by nlinarith
  have h2 : x ≤ 1 := by nlinarith
  omega

theorem unit_col {x y z : ℤ} (h : x * x + y * y + z * z = 1) : (x, y, z) ∈ units := by
  have hx := sq_le_one (x := x) (by nlinarith [mul_self_nonneg y, mul_self_nonneg z])
  have hy := sq_le_one (x := y) (by nlinarith [mul_self_nonneg x, mul_self_nonneg z])
  have hz := sq_le_one (x := z) (by nlinarith [mul_self_nonneg x, mul_self_nonneg y])
  rcases hx with rfl | rfl | rfl <;> rcases hy with rfl | rfl | rfl <;> rcases hz with rfl | rfl | rfl <;>
    first | (exfalso; revert h; norm_num; done) | simp [units]

theorem hex_col {x y : ℤ} (h : x * x - x * y + y * y = 1) : (x, y, (0 : ℤ)) ∈ hexes := by
  have hx := sq_le_one (x := x) (by nlinarith [mul_self_nonneg (2 * y - x), mul_self_nonneg x])
  have hy := sq_le_one (x := y) (by nlinarith [mul_self_nonneg (2 * x - y), mul_self_nonneg y])
  rcases hx with rfl | rfl | rfl <;> rcases hy with rfl | rfl | rfl <;>
    first | (exfalso; revert h; norm_num; done) | simp [hexes]

theorem of_chkAll {ms : List (Fin 9 → ℤ)} {cond : (Fin 9 → ℤ) → Bool} {xs ys zs : List (ℤ × ℤ × ℤ)} (h : chkAll ms cond xs ys zs = true)
    {o : Fin 9 → ℤ} (hc : cond o = true) (hx : (o 0, o 3, o 6) ∈ xs) (hy : (o 1, o 4, o 7) ∈ ys) (hz : (o 2, o 5, o 8) ∈ zs) :
    ∃ i < ms.length, o = mat ms i ∨ o = -mat ms i := by
  simp only [chkAll, List.all_eq_true, Bool.or_eq_true, Bool.not_eq_true', List.any_eq_true] at h
  have e : o = ![o 0, o 1, o 2, o 3, o 4, o 5, o 6, o 7, o 8] := by funext i; fin_cases i <;> rfl
  have := h _ hx _ hy _ hz
  dsimp only at this
  rw [← e, hc] at this
  rcases this with h | ⟨m, hm, h⟩
  · cases h
  · obtain ⟨i, hi, rfl⟩ := List.getElem_of_mem hm
    refine ⟨i, hi, ?_⟩
    have e : mat ms i = ms[i] := by simp [mat, hi]
    rw [e]
    exact h.imp eq9_iff.1 eq9_iff.1

theorem cubic_within {o : Fin 9 → ℤ} (h : Cubic o) : ∃ i < cubicMats.length, o = mat cubicMats i ∨ o = -mat cubicMats i := by
  have hm : mulM (tr9 o) o = one9 := toM_inj (by rw [toM_mulM, toM_tr, toM_one]; exact h)
  have h0 := congrFun hm 0
  have h4 := congrFun hm 4
  have h8 := congrFun hm 8
  simp [mulM, tr9, one9] at h0 h4 h8
  refine of_chkAll cubic_all (eq9_iff.2 hm) (unit_col ?_) (unit_col ?_) (unit_col ?_) <;> assumption

theorem hex_within {o : Fin 9 → ℤ} (h : Hexagonal o) : ∃ i < hexMats.length, o = mat hexMats i ∨ o = -mat hexMats i := by
  have e1 : toM hexA = !![2, -1, 0; -1, 2, 0; 0, 0, 0] := by
    ext i j; fin_cases i <;> fin_cases j <;> simp [toM, hexA]
  have e2 : toM ![0, 0, 0, 0, 0, 0, 0, 0, 1] = !![0, 0, 0; 0, 0, 0; 0, 0, (1 : ℤ)] := by
    ext i j; fin_cases i <;> fin_cases j <;> simp [toM]
  have hm : mulM (mulM (tr9 o) hexA) o = hexA := toM_inj (by rw [toM_mulM, toM_mulM, toM_tr, e1]; exact h.1)
  have hn : mulM (mulM (tr9 o) ![0, 0, 0, 0, 0, 0, 0, 0, 1]) o = ![0, 0, 0, 0, 0, 0, 0, 0, 1] :=
    toM_inj (by rw [toM_mulM, toM_mulM, toM_tr, e2]; exact h.2)
  have a0 := congrFun hm 0
  have a4 := congrFun hm 4
  have a8 := congrFun hm 8
  have b0 := congrFun hn 0
  have b4 := congrFun hn 4
  have b8 := congrFun hn 8
  simp [mulM, tr9, hexA] at a0 a4 a8 b0 b4 b8
  have z : o 2 = 0 ∧ o 5 = 0 := by
    constructor <;> nlinarith [mul_self_nonneg (o 2), mul_self_nonneg (o 5), mul_self_nonneg (o 2 - o 5)]
  refine of_chkAll hex_all (eq9_iff.2 hm) ?_ ?_ ?_
  · rw [b0]; exact hex_col (by linarith)
  · rw [b4]; exact hex_col (by linarith)
  · rw [z.1, z.2]
    rcases mul_self_eq_one_iff.1 b8 with h | h <;> rw [h] <;> simp

/-- every site group of a crystal with `a = b = c` and right angles (or a subgroup of such) is one of the listed kinds, and its displacement
parameters are constrained rightly exactly when the kind says so -/
theorem cubic_sites {G : List (Fin 9 → ℤ)} (h : IsSite G) (hc : ∀ o ∈ G, Cubic o) :
    ∃ k ∈ cubicSites, k.Is G ∧ (Right G ↔ k.right = true) :=
  cubicFrame.sites h fun o ho => cubic_within (hc o ho)

/-- the same on hexagonal axes -/
theorem hex_sites {G : List (Fin 9 → ℤ)} (h : IsSite G) (hc : ∀ o ∈ G, Hexagonal o) :
    ∃ k ∈ hexSites, k.Is G ∧ (Right G ↔ k.right = true) :=
  hexFrame.sites h fun o ho => hex_within (hc o ho)

/-- the kind of a site is unique -/
theorem kind_unique {G : List (Fin 9 → ℤ)} {k l : SiteKind} (hk : k.Is G) (hl : l.Is G) (o : Fin 9 → ℤ) :
    (Gen k.gens o ∨ Gen k.gens (-o)) ↔ (Gen l.gens o ∨ Gen l.gens (-o)) := (hk o).symm.trans (hl o)

/-- the site `{1, 2 along [1 1 0]}` (such as `x, x, 0` in `P 4 2 2`) -/
def site110 : List (Fin 9 → ℤ) := [![1, 0, 0, 0, 1, 0, 0, 0, 1], ![0, 1, 0, 1, 0, 0, 0, 0, -1]]

theorem site110_isSite : IsSite site110 := by
  have e : mulM ![0, 1, 0, 1, 0, 0, 0, 0, -1] ![0, 1, 0, 1, 0, 0, 0, 0, -1] = one9 := by decide +kernel
  have t : toM ![(0 : ℤ), 1, 0, 1, 0, 0, 0, 0, -1] * toM ![(0 : ℤ), 1, 0, 1, 0, 0, 0, 0, -1] = 1 := by rw [← toM_mulM, e, toM_one]
  have o : toM ![(1 : ℤ), 0, 0, 0, 1, 0, 0, 0, 1] = 1 := toM_one
  have ne : (1 : Matrix (Fin 3) (Fin 3) ℤ) ≠ toM ![(0 : ℤ), 1, 0, 1, 0, 0, 0, 0, -1] := by
    intro h
    have := congrFun (congrFun h 0) 0
    simp [toM] at this
  have hl : site110.map toM = [1, toM ![(0 : ℤ), 1, 0, 1, 0, 0, 0, 0, -1]] := by simp only [site110, List.map_cons, List.map_nil, o]
  refine ⟨?_, ?_, ?_, ?_⟩ <;> rw [hl]
  · simp [ne]
  · simp
  · intro a ha b hb
    simp only [List.mem_cons, List.not_mem_nil, or_false] at ha hb ⊢
    rcases ha with rfl | rfl <;> rcases hb with rfl | rfl <;> simp [t]
  · intro a ha
    simp only [List.mem_cons, List.not_mem_nil, or_false] at ha
    rcases ha with rfl | rfl
    · exact ⟨1, by simp, by simp⟩
    · exact ⟨_, by simp, t⟩

/-- non-vacuity: the site is in the cubic frame -/
theorem site110_cubic : ∀ o ∈ site110, Cubic o := by
  intro o ho
  simp only [site110, List.mem_cons, List.not_mem_nil, or_false] at ho
  unfold Cubic
  rw [← toM_tr, ← toM_mulM, ← toM_one]
  rcases ho with rfl | rfl <;> congr 1 <;> decide +kernel

/-- defect: because line 225 of cl_1_atom_site.py compares `r_11` with the number 22, the site gets no constraint at all, and the parameters
`1 2 3 0 0 0`, which the two-fold axis does not leave as they are, pass -/
theorem two_fold_110_unconstrained : constrNumber site110 = 0 ∧ (∀ u, siteConstrained site110 u = u) ∧ ¬ Right site110 := by
  have h0 : constrNumber site110 = 0 := by decide +kernel
  have hs : ∀ u, siteConstrained site110 u = u := by
    intro u; funext i
    unfold siteConstrained
    rw [h0]
    rfl
  refine ⟨h0, hs, fun h => ?_⟩
  have := h.1 ![1, 2, 3, 0, 0, 0] ![0, 1, 0, 1, 0, 0, 0, 0, -1] (by simp [site110])
  rw [hs] at this
  have := congrFun (congrFun this 0) 0
  simp [toM, toQ, Matrix.mul_apply, Fin.sum_univ_three] at this

/-- applying the constraints again changes nothing, for every class -/
theorem vibration_idempotent (numb : ℕ) (p : Fin 6 → Par) :
    vibrationConstraints numb (vibrationConstraints numb p) = vibrationConstraints numb p := by
  unfold vibrationConstraints
  dsimp only
  split <;> (funext i; fin_cases i <;> simp [fixed])

/-- a parameter is either kept (value, error, refinement flag) and marked free, or marked constrained and not refined -/
theorem vibration_flags (numb : ℕ) (p : Fin 6 → Par) (i : Fin 6) :
    vibrationConstraints numb p i = { p i with con := false } ∨
      ((vibrationConstraints numb p i).con = true ∧ (vibrationConstraints numb p i).ref = false) := by
  unfold vibrationConstraints
  dsimp only
  split <;> fin_cases i <;> simp [fixed]

/-- values and errors of a constrained parameter are multiples of those of one and the same free parameter -/
theorem vibration_multiple (numb : ℕ) (p : Fin 6 → Par) (i : Fin 6) : ∃ (j : Fin 6) (k : ℝ),
    (vibrationConstraints numb p j).con = false ∧ (vibrationConstraints numb p i).val = k * (vibrationConstraints numb p j).val ∧
      (vibrationConstraints numb p i).sig = |k| * (vibrationConstraints numb p j).sig := by
  unfold vibrationConstraints
  dsimp only
  split <;> fin_cases i <;> first
    | (refine ⟨0, 1, rfl, ?_, ?_⟩ <;> simp [fixed]; done)
    | (refine ⟨1, 1, rfl, ?_, ?_⟩ <;> simp [fixed]; done)
    | (refine ⟨2, 1, rfl, ?_, ?_⟩ <;> simp [fixed]; done)
    | (refine ⟨3, 1, rfl, ?_, ?_⟩ <;> simp [fixed]; done)
    | (refine ⟨4, 1, rfl, ?_, ?_⟩ <;> simp [fixed]; done)
    | (refine ⟨5, 1, rfl, ?_, ?_⟩ <;> simp [fixed]; done)
    | (refine ⟨0, 0, rfl, ?_, ?_⟩ <;> simp [fixed]; done)
    | (refine ⟨3, -1, rfl, ?_, ?_⟩ <;> simp [fixed]; done)
    | (refine ⟨4, -1, rfl, ?_, ?_⟩ <;> simp [fixed]; done)
    | (refine ⟨4, 2, rfl, ?_, ?_⟩ <;> simp [fixed]; done)
    | (refine ⟨0, 1 / 2, rfl, ?_, ?_⟩ <;> simp [fixed]; done)
    | (refine ⟨1, 1 / 2, rfl, ?_, ?_⟩ <;> simp [fixed]; done)

/-- non-vacuity: the full rotation list of a three-fold site on hexagonal axes -/
example : ∀ o ∈ [one9, ![0, -1, 0, 1, -1, 0, 0, 0, 1], ![-1, 1, 0, -1, 0, 0, 0, 0, 1]], Hexagonal o := by
  intro o ho
  simp only [List.mem_cons, List.not_mem_nil, or_false] at ho
  rcases ho with rfl | rfl | rfl <;> constructor <;> (ext i j; fin_cases i <;> fin_cases j <;>
    simp [toM, one9, Matrix.mul_apply, Fin.sum_univ_three])

/-- non-vacuity: the trivial site is constrained rightly -/
example : Right [one9] := by
  constructor
  · intro u o ho
    rw [List.mem_singleton.1 ho]
    unfold Leaves
    rw [toM_one]; simp [Matrix.map_one]
  · intro u _
    have : constrNumber [one9] = 0 := by decide +kernel
    funext i
    unfold siteConstrained
    rw [this]; rfl

end Cryspy.Vib
