import Verif.Back.Model
import Verif.Site.Props
import Verif.Sect.Props
import Verif.CellConstr.Props

/-!
# C83: the crystal after a calculation
-/

namespace Cryspy.Back

open Real

theorem round6_near (x : ℝ) : |round6 x - x| ≤ 1 / 2 / 10 ^ 6 := by
  have h := Sect.rint_spec (x * 10 ^ 6)
  have e : round6 x - x = ((Sect.rint (x * 10 ^ 6) : ℝ) - x * 10 ^ 6) / 10 ^ 6 := by unfold round6; field_simp
  rw [e, abs_div, abs_of_pos (by positivity : (0 : ℝ) < 10 ^ 6)]
  gcongr

theorem round5_near (x : ℝ) : |Sect.round5 x - x| ≤ 1 / 2 / 10 ^ 5 := by
  have h := Sect.rint_spec (x * 10 ^ 5)
  have e : Sect.round5 x - x = ((Sect.rint (x * 10 ^ 5) : ℝ) - x * 10 ^ 5) / 10 ^ 5 := by unfold Sect.round5; field_simp
  rw [e, abs_div, abs_of_pos (by positivity : (0 : ℝ) < 10 ^ 5)]
  gcongr

theorem round5_of_int (n : ℤ) : Sect.round5 n = n := by
  unfold Sect.round5
  have : ((n : ℝ) * 10 ^ 5) = ((n * 10 ^ 5 : ℤ) : ℝ) := by push_cast; ring
  rw [this, Sect.rint_int]
  push_cast
  field_simp
  norm_num

theorem round6_of_six (n : ℤ) : round6 (n / 10 ^ 6) = n / 10 ^ 6 := by
  unfold round6
  have : ((n : ℝ) / 10 ^ 6 * 10 ^ 6) = ((n : ℤ) : ℝ) := by field_simp
  rw [this, Sect.rint_int]

/-! ## cell -/

variable {type code : List Char} {s : CellConstr.System}

/-- degrees -/
noncomputable def toDeg (u : Fin 6 → ℝ) : Fin 6 → ℝ := ![u 0, u 1, u 2, u 3 * 180 / π, u 4 * 180 / π, u 5 * 180 / π]

theorem toRad_toDeg (u : Fin 6 → ℝ) : CellConstr.toRad (toDeg u) = u := by
  have := pi_ne_zero
  funext i
  revert i
  apply Mat.fin6 <;> simp [CellConstr.toRad, toDeg, this]

/-- The numbers of the dictionary, constrained, in degrees: the conditions of the system hold. -/
theorem constrained_metric (h : CellConstr.Describes type code s) (hm : ∀ k, s = .monoclinic k → k = 1) (u : Fin 6 → ℝ) :
    s.Metric (toDeg (CellConstr.constrainDict type code u)) := by
  have h1 := CellConstr.dictionary_agrees (fun i => ⟨toDeg u i, 0, false, false⟩) type code
  have h2 : (CellConstr.toRad fun i => toDeg u i) = u := toRad_toDeg u
  simp only [h2] at h1
  have h3 := (CellConstr.constraint_applied h hm (fun i => ⟨toDeg u i, 0, false, false⟩)).1
  rw [h1]
  have h4 : ∀ v : Fin 6 → ℝ, toDeg (CellConstr.toRad v) = v := by
    intro v
    have := pi_ne_zero
    funext i
    revert i
    apply Mat.fin6 <;> simp [CellConstr.toRad, toDeg, this]
  rw [h4]
  exact h3

/-- C83: the cell written satisfies the conditions of the crystal system exactly, whatever numbers the refinement found. -/
theorem cell_metric (h : CellConstr.Describes type code s) (hm : ∀ k, s = .monoclinic k → k = 1) (u : Fin 6 → ℝ) :
    s.Metric (takeCell type code u) := by
  have h1 := constrained_metric h hm u
  have e90 : Sect.round5 90 = 90 := by exact_mod_cast round5_of_int 90
  have e120 : Sect.round5 120 = 120 := by exact_mod_cast round5_of_int 120
  unfold takeCell
  generalize CellConstr.constrainDict type code u = w at h1
  cases s with
  | triclinic => trivial
  | monoclinic k =>
    obtain rfl := hm k rfl
    intro i hi
    have := h1 i hi
    fin_cases i
    · have h2 : w 3 * 180 / π = 90 := this
      show Sect.round5 (w 3 * 180 / π) = 90
      rw [h2, e90]
    · exact absurd rfl hi
    · have h2 : w 5 * 180 / π = 90 := this
      show Sect.round5 (w 5 * 180 / π) = 90
      rw [h2, e90]
  | orthorhombic => simp only [CellConstr.System.Metric, toDeg, Matrix.cons_val] at h1 ⊢; simp [h1, e90]
  | tetragonal => simp only [CellConstr.System.Metric, toDeg, Matrix.cons_val] at h1 ⊢; simp [h1, e90]
  | hexagonal => simp only [CellConstr.System.Metric, toDeg, Matrix.cons_val] at h1 ⊢; simp [h1, e90, e120]
  | rhombohedral => simp only [CellConstr.System.Metric, toDeg, Matrix.cons_val] at h1 ⊢; simp [← h1.1, ← h1.2.1, ← h1.2.2.1, ← h1.2.2.2]
  | cubic =>
    simp only [CellConstr.System.Metric, toDeg, Matrix.cons_val] at h1 ⊢
    obtain ⟨a1, a2, a3, a4, a5⟩ := h1
    rw [a3, a4, a5, e90]
    exact ⟨a1, a2, rfl, rfl, rfl⟩

/-- C83: it is the cell of the last calculation, the angles rounded to five decimals of a degree. -/
theorem cell_written (type code : List Char) (u : Fin 6 → ℝ) :
    (∀ i : Fin 6, i.val < 3 → takeCell type code u i = CellConstr.constrainDict type code u i) ∧
    ∀ i : Fin 6, 3 ≤ i.val → |takeCell type code u i - CellConstr.constrainDict type code u i * 180 / π| ≤ 1 / 2 / 10 ^ 5 := by
  constructor
  · intro i
    revert i
    apply Mat.fin6 <;> simp [takeCell]
  · intro i
    revert i
    apply Mat.fin6
    · intro h; exact absurd h (by decide)
    · intro h; exact absurd h (by decide)
    · intro h; exact absurd h (by decide)
    · intro _; exact round5_near _
    · intro _; exact round5_near _
    · intro _; exact round5_near _

/-- C83: a calculation without refinement keeps a cell that satisfies its conditions, up to the rounding of the angles. -/
theorem cell_unchanged (h : CellConstr.Describes type code s) (hm : ∀ k, s = .monoclinic k → k = 1) (v : Fin 6 → ℝ) (hv : s.Metric v) :
    (∀ i : Fin 6, i.val < 3 → takeCell type code (getCell type code v) i = v i) ∧
    ∀ i : Fin 6, 3 ≤ i.val → takeCell type code (getCell type code v) i = Sect.round5 (v i) := by
  have h1 := CellConstr.dictionary_agrees (fun i => ⟨v i, 0, false, false⟩) type code
  have h2 : (fun i => (CellConstr.applyConstraint (fun i => ⟨v i, 0, false, false⟩) type code i).val) = v :=
    funext fun i => CellConstr.constraint_keeps h hm (fun i => ⟨v i, 0, false, false⟩) hv i
  rw [h2] at h1
  have h3 : getCell type code v = CellConstr.toRad v := h1
  have h4 : CellConstr.constrainDict type code (CellConstr.toRad v) = CellConstr.toRad v := h1
  have hp := pi_ne_zero
  rw [h3]
  constructor
  · intro i
    revert i
    unfold takeCell; rw [h4]
    apply Mat.fin6 <;> simp [CellConstr.toRad]
  · intro i
    revert i
    unfold takeCell; rw [h4]
    apply Mat.fin6 <;> simp [CellConstr.toRad]

/-- C83: errors of refined cell parameters go to their parameters, angles in degrees; the others keep theirs. -/
theorem cell_errors (sig : Fin 6 → ℝ) (l : List (Fin 6 × ℝ)) (hl : (l.map Prod.fst).Nodup) (i : Fin 6) :
    (∀ e, (i, e) ∈ l → takeCellErrors sig l i = if i.val < 3 then e else e * 180 / π) ∧
    ((∀ e, (i, e) ∉ l) → takeCellErrors sig l i = sig i) := by
  induction l generalizing sig with
  | nil => simp [takeCellErrors]
  | cons p l ih =>
    rw [List.map_cons, List.nodup_cons] at hl
    have hc : takeCellErrors sig (p :: l) = takeCellErrors (Function.update sig p.1 (if p.1.val < 3 then p.2 else p.2 * 180 / π)) l := rfl
    obtain ⟨a, b⟩ := ih (Function.update sig p.1 (if p.1.val < 3 then p.2 else p.2 * 180 / π)) hl.2
    rw [hc]
    constructor
    · intro e he
      rcases List.mem_cons.1 he with rfl | he
      · rw [b fun e' he' => hl.1 (List.mem_map.2 ⟨_, he', rfl⟩)]
        simp
      · exact a e he
    · intro hn
      rw [b fun e' he' => hn e' (List.mem_cons_of_mem _ he')]
      have : i ≠ p.1 := fun h => hn p.2 (by rw [h]; exact List.mem_cons_self)
      rw [Function.update_of_ne this]

/-! ## positions -/

/-- C83: coordinates written lie in the cell and are those of the last calculation up to lattice translations and the rounding to six decimals. -/
theorem position_written (fl : ℚ → ℚ) (G : List Symm.Elem) (x : Symm.Q3) (y : Fin 3 → ℝ) (k : Fin 3) :
    (0 ≤ takePosition fl G x y k ∧ takePosition fl G x y k ≤ 1) ∧
    ∃ z : ℤ, |takePosition fl G x y k - (Site.usedPosition fl G x y k + z)| ≤ 1 / 2 / 10 ^ 6 := by
  unfold takePosition
  generalize Site.usedPosition fl G x y k = w
  have h := round6_near (Int.fract w)
  have h0 := Int.fract_nonneg w
  have h1 := Int.fract_lt_one w
  refine ⟨⟨?_, ?_⟩, -⌊w⌋, ?_⟩
  · unfold round6
    have h2 := Sect.rint_spec (Int.fract w * 10 ^ 6)
    rw [abs_le] at h2
    have h3 : 0 ≤ Int.fract w * 10 ^ 6 := by positivity
    have : (-1 : ℝ) < Sect.rint (Int.fract w * 10 ^ 6) := by
      have h4 := h2.1
      clear h h2
      generalize (Sect.rint (Int.fract w * 10 ^ 6) : ℝ) = r at *
      linarith
    have : -1 < Sect.rint (Int.fract w * 10 ^ 6) := by exact_mod_cast this
    have : (0 : ℝ) ≤ Sect.rint (Int.fract w * 10 ^ 6) := by exact_mod_cast (by omega : 0 ≤ Sect.rint (Int.fract w * 10 ^ 6))
    positivity
  · unfold round6
    have h2 := Sect.rint_spec (Int.fract w * 10 ^ 6)
    rw [abs_le] at h2
    have h3 : Int.fract w * 10 ^ 6 < 1 * 10 ^ 6 := by gcongr
    have : (Sect.rint (Int.fract w * 10 ^ 6) : ℝ) < 10 ^ 6 + 1 := by
      have h4 := h2.2
      clear h h2
      generalize (Sect.rint (Int.fract w * 10 ^ 6) : ℝ) = r at *
      linarith
    have : Sect.rint (Int.fract w * 10 ^ 6) < 10 ^ 6 + 1 := by exact_mod_cast this
    have : (Sect.rint (Int.fract w * 10 ^ 6) : ℝ) ≤ 10 ^ 6 := by exact_mod_cast (by omega : Sect.rint (Int.fract w * 10 ^ 6) ≤ 10 ^ 6)
    rw [div_le_one (by positivity)]
    exact this
  · have e : w + ((-⌊w⌋ : ℤ) : ℝ) = Int.fract w := by push_cast; rw [← Int.self_sub_floor]; ring
    rw [e]; exact h

/-- C83: a calculation without refinement writes the coordinates reduced to the cell and rounded to six decimals. -/
theorem position_unchanged {fl : ℚ → ℚ} {G : List Symm.Elem} (hG : Symm.IsGroup G) (hN : G.Pairwise fun a b => ¬ Symm.SameOp a b)
    (hb : ∀ e ∈ G, 0 < e.bd) (x : Symm.Q3) (k : Fin 3) :
    takePosition fl G x (fun k => (x k : ℝ)) k = round6 (Int.fract ((x k : ℚ) : ℝ)) := by
  have h := Constr.position_fixes_invariant (MemSf.stabiliser_isSiteGroup hG hN hb (Site.atomElem_d fl x)) (fun k => ((x k : ℚ) : ℝ))
    (fun k => ((x k : ℚ) : ℝ)) (by intro g _; simp only [sub_self]; exact Matrix.mulVec_zero _)
  have e : Site.usedPosition fl G x (fun k => (x k : ℝ)) = fun k => Int.fract ((x k : ℚ) : ℝ) := h
  unfold takePosition
  rw [e]
  simp only [Int.fract_fract]

/-- C83: coordinates between 0 and 1 with at most six decimals are kept. -/
theorem six_decimals_kept {fl : ℚ → ℚ} {G : List Symm.Elem} (hG : Symm.IsGroup G) (hN : G.Pairwise fun a b => ¬ Symm.SameOp a b)
    (hb : ∀ e ∈ G, 0 < e.bd) (x : Symm.Q3) (k : Fin 3) {n : ℤ} (h0 : 0 ≤ n) (h1 : n < 10 ^ 6) (hx : x k = n / 10 ^ 6) :
    takePosition fl G x (fun k => (x k : ℝ)) k = x k := by
  rw [position_unchanged hG hN hb, hx]
  have e : (((n : ℚ) / 10 ^ 6 : ℚ) : ℝ) = (n : ℝ) / 10 ^ 6 := by push_cast; rfl
  have h0' : (0 : ℝ) ≤ n := by exact_mod_cast h0
  have h1' : (n : ℝ) < 10 ^ 6 := by exact_mod_cast h1
  rw [e, Int.fract_eq_self.2 ⟨by positivity, by rw [div_lt_one (by positivity)]; exact h1'⟩, round6_of_six]

/-- C83: any others are changed, by every calculation: among them one third and all negative ones. -/
theorem other_changed {fl : ℚ → ℚ} {G : List Symm.Elem} (hG : Symm.IsGroup G) (hN : G.Pairwise fun a b => ¬ Symm.SameOp a b)
    (hb : ∀ e ∈ G, 0 < e.bd) (x : Symm.Q3) (k : Fin 3) (hx : ∀ n : ℤ, 0 ≤ n → n ≤ 10 ^ 6 → x k ≠ n / 10 ^ 6) :
    takePosition fl G x (fun k => (x k : ℝ)) k ≠ x k := by
  intro h
  have hp := (position_written fl G x (fun k => (x k : ℝ)) k).1
  rw [h] at hp
  rw [position_unchanged hG hN hb] at h
  unfold round6 at h
  set n := Sect.rint (Int.fract ((x k : ℚ) : ℝ) * 10 ^ 6) with hn
  have e : x k = n / 10 ^ 6 := by
    have : ((x k : ℚ) : ℝ) = (((n : ℚ) / 10 ^ 6 : ℚ) : ℝ) := by rw [← h]; push_cast; rfl
    exact_mod_cast this
  have h2 : (0 : ℝ) ≤ n := by
    have := hp.1; rw [← h] at this
    have := mul_nonneg this (by positivity : (0 : ℝ) ≤ 10 ^ 6)
    rwa [div_mul_cancel₀ _ (by positivity)] at this
  have h3 : (n : ℝ) ≤ 10 ^ 6 := by
    have := hp.2; rw [← h, div_le_one (by positivity)] at this
    exact this
  exact hx n (by exact_mod_cast h2) (by exact_mod_cast h3) e

/-- C83: occupancies are those of the refinement to six decimals. -/
theorem occupancy_written (o : ℝ) : |takeOccupancy o - o| ≤ 1 / 2 / 10 ^ 6 := round6_near o

example : Symm.IsGroup Site.p3m1 ∧ (Site.p3m1.Pairwise fun a b => ¬ Symm.SameOp a b) ∧ (∀ e ∈ Site.p3m1, 0 < e.bd) ∧
    (∀ n : ℤ, 0 ≤ n → n ≤ 10 ^ 6 → (1 / 3 : ℚ) ≠ n / 10 ^ 6) := by
  refine ⟨Site.p3m1_group, Site.p3m1_distinct, ?_, ?_⟩
  · intro e he
    obtain ⟨r, -, rfl⟩ := Site.p3m1_mem.1 he
    simp [Site.op]
  · intro n _ _ h
    have : (3 * n : ℚ) = 10 ^ 6 := by field_simp at h; linarith
    have : 3 * n = 10 ^ 6 := by exact_mod_cast this
    omega

example : CellConstr.Describes ['m', 'P'] ['b', '1'] (.monoclinic 1) ∧
    (CellConstr.System.monoclinic 1).Metric ![5, 6, 7, 90, 100.1234567, 90] := by
  refine ⟨.m _ _ _ (by decide), ?_⟩
  intro i hi
  fin_cases i
  · rfl
  · exact absurd rfl hi
  · rfl

end Cryspy.Back
