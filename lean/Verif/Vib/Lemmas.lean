import Verif.Vib.Check
import Mathlib.Tactic.Linarith
import Mathlib.Tactic.FieldSimp
import Mathlib.Tactic.IntervalCases
import Mathlib.Algebra.BigOperators.Group.List.Basic

/-! # From the finite checks to all site groups -/

namespace Cryspy.Vib

open Mat Matrix

theorem eq9_iff {a b : Fin 9 → ℤ} : eq9 a b = true ↔ a = b := by
  constructor
  · intro h
    simp only [eq9, Bool.and_eq_true, beq_iff_eq] at h
    obtain ⟨⟨⟨⟨⟨⟨⟨⟨h0, h1⟩, h2⟩, h3⟩, h4⟩, h5⟩, h6⟩, h7⟩, h8⟩ := h
    funext i
    fin_cases i <;> assumption
  · rintro rfl
    simp [eq9]

theorem toM_inj {a b : Fin 9 → ℤ} (h : toM a = toM b) : a = b := by
  funext i
  have e := fun i j => congrFun (congrFun h i) j
  have h0 := e 0 0; have h1 := e 0 1; have h2 := e 0 2
  have h3 := e 1 0; have h4 := e 1 1; have h5 := e 1 2
  have h6 := e 2 0; have h7 := e 2 1; have h8 := e 2 2
  simp [toM] at h0 h1 h2 h3 h4 h5 h6 h7 h8
  fin_cases i <;> assumption

theorem toM_mulM (a b : Fin 9 → ℤ) : toM (mulM a b) = toM a * toM b := by
  ext i j
  fin_cases i <;> fin_cases j <;> simp [toM, mulM, Matrix.mul_apply, Fin.sum_univ_three]

theorem toM_one : toM one9 = 1 := by
  ext i j
  fin_cases i <;> fin_cases j <;> simp [toM, one9]

theorem toM_neg (a : Fin 9 → ℤ) : toM (-a) = -toM a := by
  ext i j
  fin_cases i <;> fin_cases j <;> simp [toM]

/-! ### the lattice of subgroups -/

section
variable {n : ℕ} {t : List (List ℕ)} {gens : List ℕ} {p : ℕ → Prop}

def Sub (n m : ℕ) (p : ℕ → Prop) : Prop := ∀ i, m.testBit i = true → i < n ∧ p i

theorem mem_bits {n m i : ℕ} : i ∈ bits n m ↔ i < n ∧ m.testBit i = true := by simp [bits]

theorem sub_or {m i : ℕ} (h : Sub n m p) (hi : i < n ∧ p i) : Sub n (m ||| 1 <<< i) p := by
  intro j hj
  rw [Nat.testBit_or, Bool.or_eq_true] at hj
  rcases hj with hj | hj
  · exact h j hj
  · rw [Nat.one_shiftLeft, Nat.testBit_two_pow] at hj
    simp only [decide_eq_true_eq] at hj
    exact hj ▸ hi

theorem step_sound {m : ℕ} (h : Sub n m p) (hs : ∀ g ∈ gens, ∀ i < n, p i → look t g i < n ∧ p (look t g i)) :
    Sub n (stepMask n t gens m) p := by
  unfold stepMask
  have key : ∀ (L : List ℕ) (acc : ℕ), (∀ i ∈ L, i < n ∧ p i) → Sub n acc p →
      Sub n (L.foldl (fun acc i => gens.foldl (fun acc g => acc ||| 1 <<< look t g i) acc) acc) p := by
    intro L
    induction L with
    | nil => intro acc _ h; exact h
    | cons i L ih =>
      intro acc hL h
      rw [List.foldl_cons]
      apply ih _ (fun j hj => hL j (List.mem_cons_of_mem _ hj))
      obtain ⟨hi, hp⟩ := hL i List.mem_cons_self
      have key2 : ∀ (gs : List ℕ) (acc : ℕ), (∀ g ∈ gs, g ∈ gens) → Sub n acc p →
          Sub n (gs.foldl (fun acc g => acc ||| 1 <<< look t g i) acc) p := by
        intro gs
        induction gs with
        | nil => intro acc _ h; exact h
        | cons g gs ih =>
          intro acc hg h
          rw [List.foldl_cons]
          exact ih _ (fun j hj => hg j (List.mem_cons_of_mem _ hj)) (sub_or h (hs g (hg g List.mem_cons_self) i hi hp))
      exact key2 gens acc (fun _ h => h) h
  exact key _ _ (fun i hi => h i (mem_bits.1 hi).2) h

theorem orbit_sound (hs : ∀ g ∈ gens, ∀ i < n, p i → look t g i < n ∧ p (look t g i)) (k : ℕ) :
    ∀ m, Sub n m p → Sub n (orbit n t gens k m) p := by
  induction k with
  | zero => intro m h; exact h
  | succ k ih => intro m h; exact ih _ (step_sound h hs)

variable {subs : List (List ℕ × ℕ × ℕ × Bool)}

structure LatFacts (n : ℕ) (t : List (List ℕ)) (subs : List (List ℕ × ℕ × ℕ × Bool)) (s : List ℕ × ℕ × ℕ × Bool) : Prop where
  zero : s.2.1.testBit 0 = true
  lt : s.2.1 < 2 ^ n
  gens : ∀ g ∈ s.1, s.2.1.testBit g = true
  orb : orbit n t s.1 8 1 = s.2.1
  closed : ∀ i ∈ bits n s.2.1, ∀ g ∈ s.1, s.2.1.testBit (look t g i) = true
  ext : ∀ g < n, s.2.1.testBit g = true ∨ ∃ k ∈ subs, s.2.1 < k.2.1 ∧ orbit n t (g :: s.1) 8 (s.2.1 ||| 1 <<< g) = k.2.1

theorem lat_facts (h : chkLat n t subs = true) {s : List ℕ × ℕ × ℕ × Bool} (hs : s ∈ subs) : LatFacts n t subs s := by
  have := List.all_eq_true.1 h s hs
  simp only [Bool.and_eq_true, decide_eq_true_eq, List.all_eq_true, Bool.or_eq_true, List.any_eq_true, List.mem_range] at this
  obtain ⟨⟨⟨⟨⟨h1, h2⟩, h3⟩, h4⟩, h5⟩, h6⟩ := this
  exact ⟨h1, h2, h3, h4, h5, h6⟩

theorem lat_complete (h : chkLat n t subs = true) (h0 : ∃ s ∈ subs, s.2.1 = 1) (hn : 0 < n) (p0 : p 0)
    (hlt : ∀ i < n, ∀ j < n, look t i j < n) (pmul : ∀ i < n, ∀ j < n, p i → p j → p (look t i j)) :
    ∃ s ∈ subs, ∀ i < n, p i ↔ s.2.1.testBit i = true := by
  classical
  obtain ⟨s0, hs0, e0⟩ := h0
  have hne : (subs.toFinset.filter fun s => Sub n s.2.1 p).Nonempty := by
    refine ⟨s0, Finset.mem_filter.2 ⟨List.mem_toFinset.2 hs0, ?_⟩⟩
    rw [e0]
    intro i hi
    have : i = 0 := by simpa [Nat.testBit_one_eq_true_iff_self_eq_zero] using hi
    exact this ▸ ⟨hn, p0⟩
  obtain ⟨s, hs, hmax⟩ := Finset.exists_max_image _ (fun s => s.2.1) hne
  obtain ⟨hs1, hs2⟩ := Finset.mem_filter.1 hs
  have hs1 := List.mem_toFinset.1 hs1
  refine ⟨s, hs1, fun i hi => ⟨fun hp => ?_, fun hb => (hs2 i hb).2⟩⟩
  have F := lat_facts h hs1
  rcases F.ext i hi with hb | ⟨k, hk, hlt', ho⟩
  · exact hb
  · exfalso
    have hsub : Sub n k.2.1 p := by
      rw [← ho]
      apply orbit_sound
      · intro g hg j hj hpj
        rcases List.mem_cons.1 hg with rfl | hg
        · exact ⟨hlt _ hi _ hj, pmul _ hi _ hj hp hpj⟩
        · obtain ⟨hgn, hpg⟩ := hs2 g (F.gens g hg)
          exact ⟨hlt _ hgn _ hj, pmul _ hgn _ hj hpg hpj⟩
      · exact sub_or hs2 ⟨hi, hp⟩
    have := hmax k (Finset.mem_filter.2 ⟨List.mem_toFinset.2 hk, hsub⟩)
    omega
end

/-! ### the action on tensors -/

/-- as a matrix -/
def actM (o : Fin 9 → ℤ) : Matrix (Fin 6) (Fin 6) ℤ := Matrix.of (act o)

theorem actM_neg (o : Fin 9 → ℤ) : actM (-o) = actM o := by
  ext i j
  fin_cases i <;> fin_cases j <;> simp [actM, act]

theorem actM_mul (a b : Fin 9 → ℤ) : actM (mulM a b) = actM a * actM b := by
  ext i j
  fin_cases i <;> fin_cases j <;> simp [actM, act, mulM, Matrix.mul_apply, Fin.sum_univ_six] <;> ring

/-- over the reals -/
def actR (o : Fin 9 → ℤ) : Matrix (Fin 6) (Fin 6) ℝ := (actM o).map (Int.cast : ℤ → ℝ)

theorem leaves_iff (o : Fin 9 → ℤ) (u : Fin 6 → ℝ) : Leaves o u ↔ actR o *ᵥ u = u := by
  have e : (toM o).map (Int.cast : ℤ → ℝ) * toQ u * ((toM o).map (Int.cast : ℤ → ℝ))ᵀ = toQ (actR o *ᵥ u) := by
    ext i j
    fin_cases i <;> fin_cases j <;>
      simp [toM, toQ, actR, actM, act, Matrix.mul_apply, Matrix.mulVec, dotProduct, Fin.sum_univ_three, Fin.sum_univ_six] <;> ring
  unfold Leaves
  rw [e]
  constructor
  · intro h
    have e := fun i j => congrFun (congrFun h i) j
    have h0 := e 0 0; have h1 := e 1 1; have h2 := e 2 2
    have h3 := e 0 1; have h4 := e 0 2; have h5 := e 1 2
    simp only [toQ, Matrix.of_apply, Matrix.cons_val', Matrix.cons_val_zero, Matrix.cons_val_one, Matrix.cons_val, Matrix.empty_val',
      Matrix.cons_val_fin_one] at h0 h1 h2 h3 h4 h5
    funext i
    fin_cases i <;> assumption
  · intro h; rw [h]

/-- twice the constraint of a class, over the reals -/
def v2R (numb : ℕ) : Matrix (Fin 6) (Fin 6) ℝ := (Matrix.of (v2 numb)).map (Int.cast : ℤ → ℝ)

theorem vib_eq (numb : ℕ) (u : Fin 6 → ℝ) (i : Fin 6) :
    2 * (vibrationConstraints numb (fun j => ⟨u j, 0, false, false⟩) i).val = (v2R numb *ᵥ u) i := by
  unfold vibrationConstraints v2R v2
  dsimp only
  split <;> fin_cases i <;>
    simp [Matrix.mulVec, dotProduct, CellConstr.fixed] <;> ring

end Cryspy.Vib
