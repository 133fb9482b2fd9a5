import Verif.Bravais.Table
import Verif.CellConstr.Props
import Mathlib.Data.Set.Card
import Mathlib.Data.Fintype.Pi

/-!
# The cell type found from the symmetry operations of a magnetic crystal: properties
-/

namespace Cryspy.Bravais

open Cryspy.Symm Cryspy.CellConstr

/-! ## The lists of operations of the classes -/

theorem eqM_iff (a b : M3) : eqM a b = true ↔ a = b := by
  constructor
  · intro h
    simp only [eqM, Bool.and_eq_true, decide_eq_true_eq] at h
    funext i j
    fin_cases i <;> fin_cases j <;> simp_all
  · rintro rfl
    simp [eqM]

/-- is the list that of the group generated -/
def check (gens : List M3) (t : List ℕ × List (ℕ × ℕ)) : Bool :=
  (t.1.any fun c => eqM one (dec c)) && (gens.all fun g => t.1.all fun c => t.1.any fun d => eqM (mmul g (dec c)) (dec d)) &&
  (t.1.zip ((0, 0) :: t.2)).zipIdx.all (fun x => decide (x.2 = 0 ∧ eqM (dec x.1.1) one = true) ||
    (decide (x.1.2.2 < x.2) && match gens[x.1.2.1]?, t.1[x.1.2.2]? with
      | some g, some d => eqM (dec x.1.1) (mmul g (dec d))
      | _, _ => false)) && decide (t.1.length = t.2.length + 1) &&
  decide (t.1.Pairwise fun c d => eqM (dec c) (dec d) = false)

theorem one_eq : one = (![![1, 0, 0], ![0, 1, 0], ![0, 0, 1]] : M3) := rfl

theorem check_mem {gens : List M3} {t : List ℕ × List (ℕ × ℕ)} (h : check gens t = true) (r : M3) : Generated gens r ↔ ∃ c ∈ t.1, dec c = r := by
  simp only [check, Bool.and_eq_true, List.any_eq_true, List.all_eq_true, decide_eq_true_eq, eqM_iff] at h
  obtain ⟨⟨⟨⟨h1, h2⟩, h3⟩, h4⟩, -⟩ := h
  constructor
  · intro hr
    induction hr with
    | one => obtain ⟨c, hc, e⟩ := h1; exact ⟨c, hc, e.symm⟩
    | mul g r hg _ ih =>
      obtain ⟨c, hc, rfl⟩ := ih
      obtain ⟨d, hd, e⟩ := h2 g hg c hc
      exact ⟨d, hd, e.symm⟩
  · rintro ⟨c, hc, rfl⟩
    have key : ∀ k : ℕ, ∀ c : ℕ, t.1[k]? = some c → Generated gens (dec c) := by
      intro k
      induction k using Nat.strong_induction_on with
      | _ k ih =>
        intro c hc
        have hk : k < t.1.length := (List.getElem?_eq_some_iff.1 hc).1
        have hk2 : k < ((0, 0) :: t.2).length := by simp; omega
        have hm : ((c, ((0, 0) :: t.2)[k]), k) ∈ (t.1.zip ((0, 0) :: t.2)).zipIdx := by
          rw [List.mem_zipIdx_iff_getElem?]
          rw [List.getElem?_zip_eq_some]
          exact ⟨hc, List.getElem?_eq_getElem hk2⟩
        have := h3 _ hm
        simp only [Bool.or_eq_true, decide_eq_true_eq, Bool.and_eq_true] at this
        rcases this with ⟨_, e⟩ | ⟨hlt, e⟩
        · rw [e]; exact .one
        · split at e
          · rename_i g d hg hd
            rw [(eqM_iff _ _).1 e]
            exact .mul g _ (List.mem_of_getElem? hg) (ih _ hlt d hd)
          · simp at e
    obtain ⟨k, hk, rfl⟩ := List.getElem_of_mem hc
    exact key k _ (List.getElem?_eq_getElem hk)

theorem check_card {gens : List M3} {t : List ℕ × List (ℕ × ℕ)} (h : check gens t = true) : {r | Generated gens r}.ncard = t.1.length := by
  have hs : {r | Generated gens r} = ((t.1.map dec).toFinset : Set M3) := by
    ext r
    simp [check_mem h]
  have hn : (t.1.map dec).Nodup := by
    simp only [check, Bool.and_eq_true, decide_eq_true_eq] at h
    rw [List.Nodup, List.pairwise_map]
    refine h.2.imp ?_
    intro a b hab e
    rw [← eqM_iff, hab] at e
    simp at e
  rw [hs, Set.ncard_coe_finset, List.toFinset_card_of_nodup hn, List.length_map]

theorem classes_checked : (classes.zip classElems).all (fun x => check x.1.2.gens x.2) = true ∧ classes.length = classElems.length := by
  decide +kernel

theorem rhomb_checked : (rhombohedral.zip rhombElems).all (fun x => check x.1.2.gens x.2) = true ∧ rhombohedral.length = rhombElems.length := by
  decide +kernel

theorem rhomb3_checked : (rhombohedral3.zip rhomb3Elems).all (fun x => check x.1.2.gens x.2) = true ∧
    rhombohedral3.length = rhomb3Elems.length := by
  decide +kernel

/-! ## The type -/

/-- the operations of a crystal: their rotations are those of the class, and there are as many of them as rotations and centring translations -/
def Has (l : List Elem) (c : Cls) : Prop :=
  (∀ r, (∃ e ∈ l, e.r = r) ↔ Generated c.gens r) ∧ l.length = {r | Generated c.gens r}.ncard * (centring l).number

/-- the decision from the list of the class -/
def typeFrom (c : Centring) (t : List ℕ) : Option (Option (List Char) × List Char) :=
  let z := if t.any fun d => eqM (dec d) inv then 2 else 1
  let has (i j : Fin 3) : Bool := t.any fun d => decide (dec d i j ≠ 0)
  if t.length % z ≠ 0 then none else some (typeOf c (t.length / z) (has 0 1 && has 0 2 && has 1 0 && has 1 2 && has 2 0 && has 2 1))

theorem any_congr {l : List Elem} {t : List ℕ} (h : ∀ r, (∃ e ∈ l, e.r = r) ↔ ∃ c ∈ t, dec c = r) (f : M3 → Bool) :
    (l.any fun e => f e.r) = t.any fun d => f (dec d) := by
  rw [Bool.eq_iff_iff, List.any_eq_true, List.any_eq_true]
  constructor
  · rintro ⟨e, he, hf⟩
    obtain ⟨c, hc, hcr⟩ := (h e.r).1 ⟨e, he, rfl⟩
    exact ⟨c, hc, by rw [hcr]; exact hf⟩
  · rintro ⟨c, hc, hf⟩
    obtain ⟨e, he, her⟩ := (h (dec c)).2 ⟨c, hc, rfl⟩
    exact ⟨e, he, by rw [her]; exact hf⟩

theorem bravais_eq {l : List Elem} {c : Cls} {t : List ℕ × List (ℕ × ℕ)} (ht : check c.gens t = true) (h : Has l c) :
    bravais l = typeFrom (centring l) t.1 := by
  have h1 : ∀ r, (∃ e ∈ l, e.r = r) ↔ ∃ d ∈ t.1, dec d = r := fun r => (h.1 r).trans (check_mem ht r)
  have hlen := h.2
  rw [check_card ht] at hlen
  have hpos : 0 < (centring l).number := by cases centring l <;> decide
  unfold bravais typeFrom hasEntry centro
  dsimp only
  rw [any_congr h1 fun r => eqM r inv, any_congr h1 fun r => decide (r 0 1 ≠ 0), any_congr h1 fun r => decide (r 0 2 ≠ 0),
    any_congr h1 fun r => decide (r 1 0 ≠ 0), any_congr h1 fun r => decide (r 1 2 ≠ 0), any_congr h1 fun r => decide (r 2 0 ≠ 0),
    any_congr h1 fun r => decide (r 2 1 ≠ 0), hlen, Nat.mul_div_mul_right _ _ hpos, Nat.mul_mod_mul_right]
  have : ∀ z : ℕ, t.1.length % z * (centring l).number ≠ 0 ↔ t.1.length % z ≠ 0 := by
    intro z
    rw [Nat.mul_ne_zero_iff]
    simp [hpos.ne']
  simp only [this]

/-- name of the cell type: the letter and the centring, `S` for one pair of faces in the orthorhombic and monoclinic systems -/
def typeName (letter : Char) (c : Centring) : List Char := [letter, if letter = 'o' ∨ letter = 'm' then c.letterS else c.letter]

/-- all centring types -/
def centrings : List Centring := [.P, .A, .B, .C, .F, .H, .I, .R, .Rrev]

theorem mem_centrings (c : Centring) : c ∈ centrings := by cases c <;> decide

theorem classes_types : (classes.zip classElems).all (fun x => centrings.all fun c =>
    decide (typeFrom c x.2.1 = some (some (typeName x.1.2.letter c), x.1.2.code))) = true := by decide +kernel

theorem rhomb_types : (rhombohedral.zip rhombElems).all (fun x =>
    decide (typeFrom .P x.2.1 = some (some (typeName x.1.2.letter .P), x.1.2.code))) = true := by decide +kernel

theorem rhomb3_types : (rhombohedral3.zip rhomb3Elems).all (fun x =>
    decide (typeFrom .P x.2.1 = some (some (typeName x.1.2.letter .P), x.1.2.code))) = true := by decide +kernel

theorem zip_mem {α β : Type} {l : List α} {m : List β} (h : l.length = m.length) {a : α} (ha : a ∈ l) : ∃ b, (a, b) ∈ l.zip m := by
  obtain ⟨k, hk, rfl⟩ := List.getElem_of_mem ha
  refine ⟨m[k], ?_⟩
  rw [List.mem_iff_getElem]
  exact ⟨k, by simp; omega, by simp⟩

/-- the cell type of a crystal is that of the letter of its class, with the centring found -/
theorem type_found {n : String} {c : Cls} (hc : (n, c) ∈ classes) {l : List Elem} (h : Has l c) :
    bravais l = some (some (typeName c.letter (centring l)), c.code) := by
  obtain ⟨t, ht⟩ := zip_mem classes_checked.2 hc
  rw [bravais_eq (List.all_eq_true.1 classes_checked.1 _ ht) h]
  have := List.all_eq_true.1 classes_types _ ht
  exact of_decide_eq_true (List.all_eq_true.1 this _ (mem_centrings _))

/-- the names of the types: an orthorhombic or monoclinic cell centred on a face is of type `S`, whichever the face; otherwise the letter of the
centring -/
theorem type_names (x : Char) :
    (typeName 'o' .P = "oP".toList ∧ typeName 'o' .A = "oS".toList ∧ typeName 'o' .B = "oS".toList ∧ typeName 'o' .C = "oS".toList ∧
      typeName 'o' .I = "oI".toList ∧ typeName 'o' .F = "oF".toList) ∧
    (typeName 'm' .P = "mP".toList ∧ typeName 'm' .A = "mS".toList ∧ typeName 'm' .B = "mS".toList ∧ typeName 'm' .C = "mS".toList ∧
      typeName 'm' .I = "mI".toList ∧ typeName 'm' .F = "mF".toList) ∧
    (x ≠ 'o' → x ≠ 'm' → typeName x .P = [x, 'P'] ∧ typeName x .A = [x, 'A'] ∧ typeName x .B = [x, 'B'] ∧ typeName x .C = [x, 'C'] ∧
      typeName x .I = [x, 'I'] ∧ typeName x .F = [x, 'F'] ∧ typeName x .H = [x, 'H'] ∧ typeName x .R = [x, 'R'] ∧ typeName x .Rrev = [x, 'R']) := by
  refine ⟨by decide, by decide, fun h1 h2 => ?_⟩
  simp [typeName, h1, h2, Centring.letter]

/-- the centring read off a list of operations, when it is one on faces: all three, or exactly one and none of the others of the list -/
theorem face_centring (l : List Elem) :
    (centring l = .F ↔ hasShift l 0 1 1 2 = true ∧ hasShift l 1 0 1 2 = true ∧ hasShift l 1 1 0 2 = true) ∧
    (centring l = .A → hasShift l 0 1 1 2 = true ∧ hasShift l 1 1 1 2 = false) ∧
    (centring l = .B → hasShift l 1 0 1 2 = true ∧ hasShift l 1 1 1 2 = false ∧ hasShift l 0 1 1 2 = false) ∧
    (centring l = .C → hasShift l 1 1 0 2 = true ∧ hasShift l 1 1 1 2 = false ∧ hasShift l 0 1 1 2 = false ∧ hasShift l 1 0 1 2 = false) := by
  unfold centring
  generalize hasShift l 0 1 1 2 = a
  generalize hasShift l 1 0 1 2 = b
  generalize hasShift l 1 1 0 2 = c
  generalize hasShift l 1 1 1 2 = i
  generalize hasShift l 2 1 0 3 = h1
  generalize hasShift l 1 2 0 3 = h2
  generalize hasShift l 2 1 1 3 = r1
  generalize hasShift l 1 2 2 3 = r2
  generalize hasShift l 1 2 1 3 = s1
  generalize hasShift l 2 1 2 3 = s2
  revert a b c i h1 h2 r1 r2 s1 s2
  decide +kernel

/-- on rhombohedral axes, with twofold axes or mirror planes -/
theorem type_found_rhombohedral {n : String} {c : Cls} (hc : (n, c) ∈ rhombohedral) {l : List Elem} (h : Has l c) (hP : centring l = .P) :
    bravais l = some (some ['h', 'P'], ['r']) := by
  obtain ⟨t, ht⟩ := zip_mem rhomb_checked.2 hc
  rw [bravais_eq (List.all_eq_true.1 rhomb_checked.1 _ ht) h, hP]
  have := of_decide_eq_true (List.all_eq_true.1 rhomb_types _ ht)
  rw [this]
  have : (rhombohedral.all fun x => decide (x.2.letter = 'h' ∧ x.2.code = ['r'])) = true := by decide +kernel
  obtain ⟨h1, h2⟩ := of_decide_eq_true (List.all_eq_true.1 this _ hc)
  simp only at h1 h2
  rw [h1, h2]
  rfl

/-- known failure: on rhombohedral axes with neither, the type is cubic -/
theorem rhombohedral_made_cubic {n : String} {c : Cls} (hc : (n, c) ∈ rhombohedral3) {l : List Elem} (h : Has l c) (hP : centring l = .P)
    (p : Fin 6 → Par) : ∃ q, constrain l p = some q ∧ (q 3).val = 90 ∧ (q 4).val = 90 ∧ (q 5).val = 90 := by
  obtain ⟨t, ht⟩ := zip_mem rhomb3_checked.2 hc
  have hb : bravais l = some (some ['c', 'P'], []) := by
    rw [bravais_eq (List.all_eq_true.1 rhomb3_checked.1 _ ht) h, hP]
    rw [of_decide_eq_true (List.all_eq_true.1 rhomb3_types _ ht)]
    have : (rhombohedral3.all fun x => decide (x.2.letter = 'c' ∧ x.2.code = [])) = true := by decide +kernel
    obtain ⟨h1, h2⟩ := of_decide_eq_true (List.all_eq_true.1 this _ hc)
    simp only at h1 h2
    rw [h1, h2]
    rfl
  unfold constrain
  rw [hb]
  exact ⟨_, rfl, by simp [applyConstraint, fixed], by simp [applyConstraint, fixed], by simp [applyConstraint, fixed]⟩

/-! ## Cells that have the symmetry -/

theorem kept_neg {v : Fin 6 → ℝ} {r : M3} (h : Kept v (neg r)) : Kept v r := by
  have hn : ∀ i j, ((neg r i j : ℤ) : ℝ) = -(r i j : ℝ) := by
    intro i j
    fin_cases i <;> fin_cases j <;> simp [neg]
  intro i j
  rw [← h i j]
  refine Finset.sum_congr rfl fun k _ => Finset.sum_congr rfl fun m _ => ?_
  rw [hn, hn]
  ring

theorem angle_eq {a b : ℝ} (ha : 0 < a ∧ a < 180) (hb : 0 < b ∧ b < 180) (h : Real.cos (a * (Real.pi / 180)) = Real.cos (b * (Real.pi / 180))) :
    a = b := by
  have hpi := Real.pi_pos
  have key : ∀ {x : ℝ}, 0 < x ∧ x < 180 → x * (Real.pi / 180) ∈ Set.Icc 0 Real.pi := by
    rintro x ⟨h1, h2⟩
    constructor
    · positivity
    · calc x * (Real.pi / 180) ≤ 180 * (Real.pi / 180) := by gcongr
        _ = Real.pi := by ring
  have := Real.injOn_cos (key ha) (key hb) h
  exact mul_right_cancel₀ (by positivity) this

theorem angle_90 {a : ℝ} (ha : 0 < a ∧ a < 180) (h : Real.cos (a * (Real.pi / 180)) = 0) : a = 90 := by
  refine angle_eq ha (by norm_num) ?_
  rw [h, show (90 : ℝ) * (Real.pi / 180) = Real.pi / 2 by ring, Real.cos_pi_div_two]

theorem angle_120 {a : ℝ} (ha : 0 < a ∧ a < 180) (h : Real.cos (a * (Real.pi / 180)) = -(1 / 2)) : a = 120 := by
  refine angle_eq ha (by norm_num) ?_
  rw [h, show (120 : ℝ) * (Real.pi / 180) = Real.pi - Real.pi / 3 by ring, Real.cos_pi_sub, Real.cos_pi_div_three]

theorem kept_twoY {v : Fin 6 → ℝ} (hv : IsCell v) (h : Kept v twoY) : v 3 = 90 ∧ v 5 = 90 := by
  obtain ⟨⟨h0, h1, h2⟩, h3, h4, h5⟩ := hv
  have e1 := h 0 1
  have e2 := h 1 2
  simp [Fin.sum_univ_three, gram, twoY] at e1 e2
  constructor
  · refine angle_90 h3 ?_
    have : v 1 * v 2 * Real.cos (v 3 * (Real.pi / 180)) = 0 := by linarith
    simpa [h1.ne', h2.ne'] using this
  · refine angle_90 h5 ?_
    have : v 0 * v 1 * Real.cos (v 5 * (Real.pi / 180)) = 0 := by linarith
    simpa [h0.ne', h1.ne'] using this

theorem kept_twoZ {v : Fin 6 → ℝ} (hv : IsCell v) (h : Kept v twoZ) : v 3 = 90 ∧ v 4 = 90 := by
  obtain ⟨⟨h0, h1, h2⟩, h3, h4, h5⟩ := hv
  have e1 := h 0 2
  have e2 := h 1 2
  simp [Fin.sum_univ_three, gram, twoZ] at e1 e2
  constructor
  · refine angle_90 h3 ?_
    have : v 1 * v 2 * Real.cos (v 3 * (Real.pi / 180)) = 0 := by linarith
    simpa [h1.ne', h2.ne'] using this
  · refine angle_90 h4 ?_
    have : v 0 * v 2 * Real.cos (v 4 * (Real.pi / 180)) = 0 := by linarith
    simpa [h0.ne', h2.ne'] using this

theorem kept_fourZ {v : Fin 6 → ℝ} (hv : IsCell v) (h : Kept v fourZ) : v 0 = v 1 ∧ v 3 = 90 ∧ v 4 = 90 ∧ v 5 = 90 := by
  obtain ⟨⟨h0, h1, h2⟩, h3, h4, h5⟩ := hv
  have e0 := h 0 0
  have e1 := h 0 1
  have e2 := h 0 2
  have e3 := h 1 2
  simp [Fin.sum_univ_three, gram, fourZ] at e0 e1 e2 e3
  refine ⟨?_, angle_90 h3 ?_, angle_90 h4 ?_, angle_90 h5 ?_⟩
  · nlinarith
  · have : v 1 * v 2 * Real.cos (v 3 * (Real.pi / 180)) = 0 := by linarith
    simpa [h1.ne', h2.ne'] using this
  · have : v 0 * v 2 * Real.cos (v 4 * (Real.pi / 180)) = 0 := by linarith
    simpa [h0.ne', h2.ne'] using this
  · have : v 0 * v 1 * Real.cos (v 5 * (Real.pi / 180)) = 0 := by linarith
    simpa [h0.ne', h1.ne'] using this

theorem kept_threeZ {v : Fin 6 → ℝ} (hv : IsCell v) (h : Kept v threeZ) : v 0 = v 1 ∧ v 3 = 90 ∧ v 4 = 90 ∧ v 5 = 120 := by
  obtain ⟨⟨h0, h1, h2⟩, h3, h4, h5⟩ := hv
  have e0 := h 0 0
  have e1 := h 0 1
  have e2 := h 0 2
  have e3 := h 1 2
  simp [Fin.sum_univ_three, gram, threeZ] at e0 e1 e2 e3
  have h01 : v 0 = v 1 := by nlinarith
  refine ⟨h01, angle_90 h3 ?_, angle_90 h4 ?_, angle_120 h5 ?_⟩
  · have : v 1 * v 2 * Real.cos (v 3 * (Real.pi / 180)) = 0 := by linarith
    simpa [h1.ne', h2.ne'] using this
  · have : v 0 * v 2 * Real.cos (v 4 * (Real.pi / 180)) = 0 := by linarith
    simpa [h0.ne', h2.ne'] using this
  · have : v 0 * v 1 * (2 * Real.cos (v 5 * (Real.pi / 180)) + 1) = 0 := by
      have e4 : v 0 * v 1 = v 1 * v 1 := by rw [h01]
      linarith
    rcases mul_eq_zero.1 this with h | h
    · exact absurd h (mul_pos h0 h1).ne'
    · linarith

theorem kept_threeD {v : Fin 6 → ℝ} (hv : IsCell v) (h : Kept v threeD) : v 0 = v 1 ∧ v 0 = v 2 ∧ v 3 = v 4 ∧ v 3 = v 5 := by
  obtain ⟨⟨h0, h1, h2⟩, h3, h4, h5⟩ := hv
  have e0 := h 0 0
  have e1 := h 1 1
  have e2 := h 0 1
  have e3 := h 1 2
  simp [Fin.sum_univ_three, gram, threeD] at e0 e1 e2 e3
  have h01 : v 0 = v 1 := by nlinarith
  have h12 : v 1 = v 2 := by nlinarith
  rw [h01, h12] at e2 e3
  have hp : (v 2 * v 2) ≠ 0 := (mul_pos h2 h2).ne'
  refine ⟨h01, h01.trans h12, angle_eq h3 h4 ?_, angle_eq h3 h5 ?_⟩
  · exact mul_left_cancel₀ hp (by linarith)
  · exact mul_left_cancel₀ hp (by linarith)

/-- rotations that, with the opposite of each, decide the cell of a system -/
def needed : System → List M3
  | .triclinic => []
  | .monoclinic _ => [twoY]
  | .orthorhombic => [twoY, twoZ]
  | .tetragonal => [fourZ]
  | .hexagonal => [threeZ]
  | .rhombohedral => [threeD]
  | .cubic => [threeD, twoZ]

theorem metric_of_needed {s : System} (hm : ∀ k, s = .monoclinic k → k = 1) {v : Fin 6 → ℝ} (hv : IsCell v) (h : ∀ r ∈ needed s, Kept v r) :
    s.Metric v := by
  cases s with
  | triclinic => trivial
  | monoclinic k =>
    obtain rfl := hm k rfl
    obtain ⟨h1, h2⟩ := kept_twoY hv (h _ (by simp [needed]))
    intro i hi
    fin_cases i
    · exact h1
    · exact absurd rfl hi
    · exact h2
  | orthorhombic =>
    obtain ⟨h1, h2⟩ := kept_twoY hv (h _ (by simp [needed]))
    obtain ⟨_, h3⟩ := kept_twoZ hv (h twoZ (by simp [needed]))
    exact ⟨h1, h3, h2⟩
  | tetragonal => exact kept_fourZ hv (h _ (by simp [needed]))
  | hexagonal => exact kept_threeZ hv (h _ (by simp [needed]))
  | rhombohedral => exact kept_threeD hv (h _ (by simp [needed]))
  | cubic =>
    obtain ⟨h1, h2, h3, h4⟩ := kept_threeD hv (h _ (by simp [needed]))
    obtain ⟨h5, _⟩ := kept_twoZ hv (h twoZ (by simp [needed]))
    exact ⟨h1, h2, h5, h3 ▸ h5, h4 ▸ h5⟩

/-- which letters and codes come with which systems -/
def agrees : System → Char → List Char → Bool
  | .triclinic, 'a', _ => true
  | .monoclinic k, 'm', _ => decide (k = 1)
  | .orthorhombic, 'o', _ => true
  | .tetragonal, 'o', _ => true
  | .tetragonal, 't', _ => true
  | .hexagonal, 'h', ['h'] => true
  | .rhombohedral, 'h', ['r'] => true
  | .cubic, 'c', _ => true
  | _, _, _ => false

/-- has the list the rotations that decide the cell -/
def hasNeeded (s : System) (t : List ℕ) : Bool := (needed s).all fun x => t.any fun d => eqM (dec d) x || eqM (dec d) (neg x)

theorem classes_needed : (classes.zip classElems).all (fun x => hasNeeded x.1.2.system x.2.1 && agrees x.1.2.system x.1.2.letter x.1.2.code) = true := by
  decide +kernel

theorem rhomb_needed : (rhombohedral.zip rhombElems).all (fun x =>
    hasNeeded x.1.2.system x.2.1 && agrees x.1.2.system x.1.2.letter x.1.2.code) = true := by
  decide +kernel

theorem kept_needed {s : System} {gens : List M3} {t : List ℕ × List (ℕ × ℕ)} (ht : check gens t = true) (hn : hasNeeded s t.1 = true) {l : List Elem}
    (hl : ∀ r, (∃ e ∈ l, e.r = r) ↔ Generated gens r) {v : Fin 6 → ℝ} (h : ∀ e ∈ l, Kept v e.r) : ∀ r ∈ needed s, Kept v r := by
  intro r hr
  have := List.all_eq_true.1 hn r hr
  rw [List.any_eq_true] at this
  obtain ⟨d, hd, hdr⟩ := this
  obtain ⟨e, he, her⟩ := (hl (dec d)).2 ((check_mem ht _).2 ⟨d, hd, rfl⟩)
  have hk := h e he
  rw [her] at hk
  simp only [Bool.or_eq_true, eqM_iff] at hdr
  rcases hdr with hdr | hdr
  · rwa [hdr] at hk
  · rw [hdr] at hk
    exact kept_neg hk

theorem agrees_mono {s : System} {x : Char} {code : List Char} (ha : agrees s x code = true) : ∀ k, s = .monoclinic k → k = 1 := by
  rintro k rfl
  unfold agrees at ha
  split at ha <;> simp_all

/-- the constraints of the type do not move a cell that has the symmetry of the system -/
theorem constraint_still {s : System} {x : Char} {code : List Char} (ha : agrees s x code = true) (c : Centring) (p : Fin 6 → Par)
    (hm : s.Metric fun i => (p i).val) (i : Fin 6) : (applyConstraint p (typeName x c) code i).val = (p i).val := by
  unfold agrees at ha
  split at ha
  · cases c <;> fin_cases i <;> simp [applyConstraint, typeName, Centring.letter]
  · obtain rfl := of_decide_eq_true ha
    have h0 : (p 3).val = 90 := hm 0 (by decide)
    have h2 : (p 5).val = 90 := hm 2 (by decide)
    fin_cases i <;> simp [applyConstraint, typeName, fixed, h0, h2]
  · obtain ⟨h3, h4, h5⟩ : (p 3).val = 90 ∧ (p 4).val = 90 ∧ (p 5).val = 90 := hm
    fin_cases i <;> simp [applyConstraint, typeName, fixed, h3, h4, h5]
  · obtain ⟨h1, h3, h4, h5⟩ : (p 0).val = (p 1).val ∧ (p 3).val = 90 ∧ (p 4).val = 90 ∧ (p 5).val = 90 := hm
    fin_cases i <;> simp [applyConstraint, typeName, fixed, h3, h4, h5]
  · obtain ⟨h1, h3, h4, h5⟩ : (p 0).val = (p 1).val ∧ (p 3).val = 90 ∧ (p 4).val = 90 ∧ (p 5).val = 90 := hm
    fin_cases i <;> simp [applyConstraint, typeName, fixed, h1, h3, h4, h5]
  · obtain ⟨h1, h3, h4, h5⟩ : (p 0).val = (p 1).val ∧ (p 3).val = 90 ∧ (p 4).val = 90 ∧ (p 5).val = 120 := hm
    cases c <;> fin_cases i <;> simp [applyConstraint, typeName, Centring.letter, lower, fixed, h1, h3, h4, h5]
  · obtain ⟨h1, h2, h3, h4⟩ : (p 0).val = (p 1).val ∧ (p 0).val = (p 2).val ∧ (p 3).val = (p 4).val ∧ (p 3).val = (p 5).val := hm
    cases c <;> fin_cases i <;> simp [applyConstraint, typeName, Centring.letter, lower, fixed, h1, h2, h3, h4] <;> linarith
  · obtain ⟨h1, h2, h3, h4, h5⟩ : (p 0).val = (p 1).val ∧ (p 0).val = (p 2).val ∧ (p 3).val = 90 ∧ (p 4).val = 90 ∧ (p 5).val = 90 := hm
    fin_cases i <;> simp [applyConstraint, typeName, fixed, h1, h2, h3, h4, h5] <;> linarith
  · simp at ha

/-- a cell that has the symmetry of the crystal keeps its numbers when the type found is applied to it -/
theorem symmetric_cell_kept {n : String} {c : Cls} (hc : (n, c) ∈ classes) {l : List Elem} (h : Has l c) (p : Fin 6 → Par)
    (hp : IsCell fun i => (p i).val) (hk : ∀ e ∈ l, Kept (fun i => (p i).val) e.r) :
    ∃ q, constrain l p = some q ∧ ∀ i, (q i).val = (p i).val := by
  refine ⟨_, by unfold constrain; rw [type_found hc h], fun i => ?_⟩
  obtain ⟨t, ht⟩ := zip_mem classes_checked.2 hc
  have := List.all_eq_true.1 classes_needed _ ht
  simp only [Bool.and_eq_true] at this
  exact constraint_still this.2 _ p (metric_of_needed (agrees_mono this.2) hp
    (kept_needed (List.all_eq_true.1 classes_checked.1 _ ht) this.1 h.1 hk)) i

/-- the same on rhombohedral axes, with twofold axes or mirror planes -/
theorem symmetric_cell_kept_rhombohedral {n : String} {c : Cls} (hc : (n, c) ∈ rhombohedral) {l : List Elem} (h : Has l c) (hP : centring l = .P)
    (p : Fin 6 → Par) (hp : IsCell fun i => (p i).val) (hk : ∀ e ∈ l, Kept (fun i => (p i).val) e.r) :
    ∃ q, constrain l p = some q ∧ ∀ i, (q i).val = (p i).val := by
  refine ⟨_, by unfold constrain; rw [type_found_rhombohedral hc h hP], fun i => ?_⟩
  obtain ⟨t, ht⟩ := zip_mem rhomb_checked.2 hc
  have := List.all_eq_true.1 rhomb_needed _ ht
  simp only [Bool.and_eq_true] at this
  have hm := metric_of_needed (agrees_mono this.2) hp (kept_needed (List.all_eq_true.1 rhomb_checked.1 _ ht) this.1 h.1 hk)
  have : (rhombohedral.all fun x => agrees x.2.system 'h' ['r']) = true := by decide +kernel
  have ha : agrees c.system 'h' ['r'] = true := List.all_eq_true.1 this _ hc
  exact constraint_still ha .P p hm i

/-- after the type is applied the cell meets the conditions of the system; not for `4`, `-4` and `4/m`; hexagonal cells with a usual lattice -/
theorem conditions_hold {n : String} {c : Cls} (hc : (n, c) ∈ classes) {l : List Elem} (h : Has l c) (h4 : n ∉ ["4", "-4", "4/m"])
    (hh : c.letter = 'h' → centring l = .P ∨ centring l = .R ∨ centring l = .Rrev) (p : Fin 6 → Par) :
    ∃ q, constrain l p = some q ∧ c.system.Metric fun i => (q i).val := by
  refine ⟨_, by unfold constrain; rw [type_found hc h], ?_⟩
  obtain ⟨t, ht⟩ := zip_mem classes_checked.2 hc
  have := List.all_eq_true.1 classes_needed _ ht
  simp only [Bool.and_eq_true] at this
  have ha := this.2
  have hno : ∀ s, c.system = s → s = .tetragonal → c.letter ≠ 'o' := by
    have : (classes.all fun x => decide (x.1 ∈ ["4", "-4", "4/m"]) || match x.2.system with
      | .tetragonal => decide (x.2.letter ≠ 'o')
      | _ => true) = true := by decide +kernel
    have := List.all_eq_true.1 this _ hc
    intro s hs hst
    subst hst
    simp only [hs, Bool.or_eq_true, decide_eq_true_eq] at this
    rcases this with h | h
    · exact absurd h h4
    · exact h
  generalize c.system = s at *
  generalize c.letter = x at *
  generalize c.code = code at *
  generalize centring l = cen at *
  unfold agrees at ha
  split at ha
  · trivial
  · obtain rfl := of_decide_eq_true ha
    intro i hi
    fin_cases i
    · simp [applyConstraint, typeName, fixed]
    · exact absurd rfl hi
    · simp [applyConstraint, typeName, fixed]
  · simp [System.Metric, applyConstraint, typeName, fixed]
  · exact absurd rfl (hno _ rfl rfl)
  · simp [System.Metric, applyConstraint, typeName, fixed]
  · rcases hh rfl with rfl | rfl | rfl <;> simp [System.Metric, applyConstraint, typeName, Centring.letter, lower, fixed]
  · rcases hh rfl with rfl | rfl | rfl <;> simp [System.Metric, applyConstraint, typeName, Centring.letter, lower, fixed]
  · simp [System.Metric, applyConstraint, typeName, fixed]
  · simp at ha

/-- known failure: for `4`, `-4` and `4/m` the second length is not tied to the first -/
theorem fourfold_not_tied {n : String} {c : Cls} (hc : (n, c) ∈ classes) {l : List Elem} (h : Has l c) (h4 : n ∈ ["4", "-4", "4/m"]) (p : Fin 6 → Par) :
    ∃ q, constrain l p = some q ∧ q 0 = { p 0 with con := false } ∧ q 1 = { p 1 with con := false } := by
  refine ⟨_, by unfold constrain; rw [type_found hc h], ?_⟩
  have : (classes.all fun x => decide (x.1 ∈ ["4", "-4", "4/m"] → x.2.letter = 'o')) = true := by decide +kernel
  have := of_decide_eq_true (List.all_eq_true.1 this _ hc) h4
  simp only at this
  rw [this]
  simp [applyConstraint, typeName]

/-! ## From the operations and centrings of the file -/

/-- centring translations, International Tables A, table 2.1.1.2, as numerators and denominator -/
def shifts : Centring → List (V3 × ℤ)
  | .P => [(![0, 0, 0], 1)]
  | .A => [(![0, 0, 0], 1), (![0, 1, 1], 2)]
  | .B => [(![0, 0, 0], 1), (![1, 0, 1], 2)]
  | .C => [(![0, 0, 0], 1), (![1, 1, 0], 2)]
  | .F => [(![0, 0, 0], 1), (![0, 1, 1], 2), (![1, 0, 1], 2), (![1, 1, 0], 2)]
  | .H => [(![0, 0, 0], 1), (![2, 1, 0], 3), (![1, 2, 0], 3)]
  | .I => [(![0, 0, 0], 1), (![1, 1, 1], 2)]
  | .R => [(![0, 0, 0], 1), (![2, 1, 1], 3), (![1, 2, 2], 3)]
  | .Rrev => [(![0, 0, 0], 1), (![1, 2, 1], 3), (![2, 1, 2], 3)]

/-- what is in a file: each rotation of the class once, the identity without translation, and the centring translations; time reversal is free -/
structure Given (os cs : List (Elem × ℤ)) (c : Cls) (cen : Centring) : Prop where
  rotations : ∀ r, (∃ o ∈ os, o.1.r = r) ↔ Generated c.gens r
  once : (os.map (·.1.r)).Nodup
  identity : ∀ o ∈ os, o.1.r = one → o.1.bn = 0 ∧ o.1.bd = 1
  translations : (cs.map fun x => (x.1.bn, x.1.bd)).Perm (shifts cen)
  only : ∀ x ∈ cs, x.1.r = one

theorem mmul_one (r : M3) : mmul r one = r := by
  funext i j
  fin_cases j <;> simp [mmul, one]

theorem sum_shift (cen : Centring) : ∀ s ∈ shifts cen, sumElemSymmB ⟨0, 1⟩ ⟨s.1, s.2⟩ = ⟨s.1, s.2⟩ := by
  intro s hs
  have key : ∀ s ∈ centrings.flatMap shifts, (sumElemSymmB ⟨0, 1⟩ ⟨s.1, s.2⟩).n = s.1 ∧ (sumElemSymmB ⟨0, 1⟩ ⟨s.1, s.2⟩).d = s.2 := by decide +kernel
  obtain ⟨h1, h2⟩ := key s (List.mem_flatMap.2 ⟨cen, mem_centrings cen, hs⟩)
  generalize sumElemSymmB ⟨0, 1⟩ ⟨s.1, s.2⟩ = t at *
  obtain ⟨n, d⟩ := t
  simp only at h1 h2
  rw [h1, h2]

theorem Given.hasShift_full {os cs : List (Elem × ℤ)} {c : Cls} {cen : Centring} (h : Given os cs c cen) (x y z d : ℤ) :
    hasShift ((fullMagElems os cs).map (·.1)) x y z d =
      (shifts cen).any fun s => decide (s.1 0 = x) && decide (s.1 1 = y) && decide (s.1 2 = z) && decide (s.2 = d) := by
  have hfull : ∀ o ∈ os, ∀ k ∈ cs, o.1.r = one → (fullMag o.1 k.1).bn = k.1.bn ∧ (fullMag o.1 k.1).bd = k.1.bd := by
    intro o ho k hk hr
    obtain ⟨e1, e2⟩ := h.identity o ho hr
    have hs : (k.1.bn, k.1.bd) ∈ shifts cen := (h.translations.mem_iff).1 (List.mem_map.2 ⟨k, hk, rfl⟩)
    have := sum_shift cen _ hs
    have e3 : mvec k.1.r o.1.bn = 0 := by
      rw [e1]
      funext i
      simp [mvec]
    unfold fullMag Elem.shift
    rw [e3, e2]
    simp only at this
    rw [this]
    exact ⟨rfl, rfl⟩
  unfold hasShift
  rw [Bool.eq_iff_iff, List.any_eq_true, List.any_eq_true]
  simp only [fullMagElems, List.mem_map, List.mem_flatMap, Bool.and_eq_true, decide_eq_true_eq, eqM_iff]
  constructor
  · rintro ⟨_, ⟨_, ⟨o, ho, k, hk, rfl⟩, rfl⟩, ⟨⟨⟨h1, h2⟩, h3⟩, h4⟩, h5⟩
    have hr : o.1.r = one := by
      rw [← h5]
      show _ = mmul o.1.r k.1.r
      rw [h.only k hk, mmul_one]
    obtain ⟨e1, e2⟩ := hfull o ho k hk hr
    rw [e1] at h1 h2 h3
    rw [e2] at h4
    exact ⟨(k.1.bn, k.1.bd), (h.translations.mem_iff).1 (List.mem_map.2 ⟨k, hk, rfl⟩), ⟨⟨h1, h2⟩, h3⟩, h4⟩
  · rintro ⟨s, hs, ⟨⟨h1, h2⟩, h3⟩, h4⟩
    obtain ⟨k, hk, rfl⟩ := List.mem_map.1 ((h.translations.mem_iff).2 hs)
    obtain ⟨o, ho, hr⟩ := (h.rotations one).2 .one
    obtain ⟨e1, e2⟩ := hfull o ho k hk hr
    refine ⟨_, ⟨_, ⟨o, ho, k, hk, rfl⟩, rfl⟩, ⟨⟨⟨?_, ?_⟩, ?_⟩, ?_⟩, ?_⟩
    · simpa only [e1] using h1
    · simpa only [e1] using h2
    · simpa only [e1] using h3
    · simpa only [e2] using h4
    · show mmul o.1.r k.1.r = one
      rw [h.only k hk, mmul_one, hr]

/-- the complete list of operations of a crystal has the class and the centring of the file -/
theorem Given.full {os cs : List (Elem × ℤ)} {c : Cls} {cen : Centring} (h : Given os cs c cen) :
    Has ((fullMagElems os cs).map (·.1)) c ∧ centring ((fullMagElems os cs).map (·.1)) = cen := by
  have hcen : centring ((fullMagElems os cs).map (·.1)) = cen := by
    unfold centring
    simp only [h.hasShift_full]
    cases cen <;> decide +kernel
  have hlen : cs.length = cen.number := by
    have := h.translations.length_eq
    rw [List.length_map] at this
    rw [this]
    cases cen <;> rfl
  have hpos : 0 < cen.number := by cases cen <;> decide
  refine ⟨⟨fun r => ?_, ?_⟩, hcen⟩
  · rw [← h.rotations r]
    simp only [fullMagElems, List.mem_map, List.mem_flatMap]
    constructor
    · rintro ⟨_, ⟨_, ⟨o, ho, k, hk, rfl⟩, rfl⟩, rfl⟩
      refine ⟨o, ho, ?_⟩
      show _ = mmul o.1.r k.1.r
      rw [h.only k hk, mmul_one]
    · rintro ⟨o, ho, rfl⟩
      obtain ⟨k, hk⟩ := List.exists_mem_of_length_pos (hlen ▸ hpos)
      refine ⟨_, ⟨_, ⟨o, ho, k, hk, rfl⟩, rfl⟩, ?_⟩
      show mmul o.1.r k.1.r = _
      rw [h.only k hk, mmul_one]
  · rw [hcen]
    have hs : {r | Generated c.gens r} = ((os.map (·.1.r)).toFinset : Set M3) := by
      ext r
      rw [Set.mem_setOf_eq, ← h.rotations r]
      simp
    rw [hs, Set.ncard_coe_finset, List.toFinset_card_of_nodup h.once, List.length_map, ← hlen]
    simp [fullMagElems, List.length_flatMap]

/-- from the operations and centrings of a file: the type of the cell -/
theorem type_of_file {n : String} {c : Cls} (hc : (n, c) ∈ classes) {os cs : List (Elem × ℤ)} {cen : Centring} (h : Given os cs c cen) :
    bravais ((fullMagElems os cs).map (·.1)) = some (some (typeName c.letter cen), c.code) := by
  have := type_found hc h.full.1
  rwa [h.full.2] at this

/-- from the operations and centrings of a file: a cell that has the symmetry keeps its numbers -/
theorem file_cell_kept {n : String} {c : Cls} (hc : (n, c) ∈ classes) {os cs : List (Elem × ℤ)} {cen : Centring} (h : Given os cs c cen)
    (p : Fin 6 → Par) (hp : IsCell fun i => (p i).val) (hk : ∀ o ∈ os, Kept (fun i => (p i).val) o.1.r) :
    ∃ q, constrain ((fullMagElems os cs).map (·.1)) p = some q ∧ ∀ i, (q i).val = (p i).val := by
  refine symmetric_cell_kept hc h.full.1 p hp ?_
  simp only [fullMagElems, List.mem_map, List.mem_flatMap]
  rintro _ ⟨_, ⟨o, ho, k, hk', rfl⟩, rfl⟩
  have : (fullMag o.1 k.1).r = o.1.r := by
    show mmul o.1.r k.1.r = _
    rw [h.only k hk', mmul_one]
  rw [this]
  exact hk o ho

/-! ## Known failures and examples -/

/-- an operation without translation, with time reversal -/
def bare (r : M3) : Elem × ℤ := (⟨![0, 0, 0], 1, r⟩, 1)
/-- a translation with time reversal -/
def anti (n : V3) (d : ℤ) : Elem × ℤ := (⟨n, d, one⟩, -1)

/-- the operations of `222` -/
def ops222 : List (Elem × ℤ) := [bare one, bare twoX, bare twoY, bare twoZ]

/-- the operations of `422` -/
def ops422 : List (Elem × ℤ) := [bare one, bare fourZ, bare twoZ, bare (mmul fourZ twoZ), bare twoX, bare twoY, bare twoXY, bare twoXmY]

/-- known failure: an orthorhombic crystal whose moments double the cell along `a` gets a tetragonal cell: the length `b` becomes `a` -/
theorem antitranslation (p : Fin 6 → Par) :
    ∃ q, constrain ((fullMagElems ops222 [bare one, anti ![1, 0, 0] 2]).map (·.1)) p = some q ∧ (q 1).val = (p 0).val := by
  have : bravais ((fullMagElems ops222 [bare one, anti ![1, 0, 0] 2]).map (·.1)) = some (some ['t', 'P'], []) := by decide +kernel
  unfold constrain
  rw [this]
  exact ⟨_, rfl, by simp [applyConstraint, fixed]⟩

/-- known failure: a tetragonal crystal whose moments double the cell along `c` has no type: an exception -/
theorem antitranslation_raises (p : Fin 6 → Par) :
    constrain ((fullMagElems ops422 [bare one, anti ![0, 0, 1] 2]).map (·.1)) p = none := by
  have : bravais ((fullMagElems ops422 [bare one, anti ![0, 0, 1] 2]).map (·.1)) = some (none, []) := by decide +kernel
  unfold constrain
  rw [this]

/-- a body-centred lattice of `222`, the second translation with time reversal -/
theorem example_given : ∃ c, ("222", c) ∈ classes ∧ Given ops222 [bare one, anti ![1, 1, 1] 2] c .I := by
  refine ⟨⟨[twoZ, twoY], .orthorhombic, 'o', []⟩, by unfold classes; simp, ?_, by decide +kernel, ?_, ?_, ?_⟩
  · intro r
    have : ∃ t : List ℕ × List (ℕ × ℕ), check [twoZ, twoY] t = true ∧ (∀ c ∈ t.1, ∃ o ∈ ops222, o.1.r = dec c) ∧ ∀ o ∈ ops222, ∃ c ∈ t.1, dec c = o.1.r := by
      refine ⟨classElems[5], by decide +kernel, by decide +kernel, by decide +kernel⟩
    obtain ⟨t, h1, h2, h3⟩ := this
    rw [check_mem h1]
    constructor
    · rintro ⟨o, ho, rfl⟩; exact h3 o ho
    · rintro ⟨c, hc, rfl⟩; exact h2 c hc
  · decide +kernel
  · decide +kernel
  · decide +kernel

/-- a cell of it and its symmetry; the type is `oI` -/
theorem example_kept : ∃ v : Fin 6 → ℝ, IsCell v ∧ (∀ o ∈ ops222, Kept v o.1.r) ∧ v 0 ≠ v 1 := by
  refine ⟨![5, 6, 7, 90, 90, 90], ?_, ?_, by norm_num⟩
  · show ((0 : ℝ) < 5 ∧ (0 : ℝ) < 6 ∧ (0 : ℝ) < 7) ∧ ((0 : ℝ) < 90 ∧ (90 : ℝ) < 180) ∧ ((0 : ℝ) < 90 ∧ (90 : ℝ) < 180) ∧ ((0 : ℝ) < 90 ∧ (90 : ℝ) < 180)
    norm_num
  · have h : Real.cos (90 * (Real.pi / 180)) = 0 := by rw [show (90 : ℝ) * (Real.pi / 180) = Real.pi / 2 by ring, Real.cos_pi_div_two]
    intro o ho
    simp only [ops222, List.mem_cons, List.not_mem_nil, or_false] at ho
    rcases ho with rfl | rfl | rfl | rfl <;> intro i j <;> fin_cases i <;> fin_cases j <;>
      simp [Fin.sum_univ_three, gram, bare, one, twoX, twoY, twoZ, h]

end Cryspy.Bravais
