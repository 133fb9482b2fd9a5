import Verif.MemIt.Model

/-!
# C67: what the iteration returns, for any objective and any update
-/

namespace Cryspy.MemIt

variable {D G : Type}

/-! ### specification -/

/-- specification: the density tried at a step, the best one so far, the step width for the next trial -/
structure Trial (D : Type) where
  tried : D
  best : D
  lam : ℝ

open Classical in
/-- specification: the search.  Each trial starts from the best density so far; it becomes the best unless its value is larger, and the width
grows by three percent; otherwise the width is halved. -/
noncomputable def trial (T : Task D G) (prior : D) (lam : ℝ) : ℕ → Trial D
  | 0 => ⟨prior, prior, 103 / 100 * lam⟩
  | k + 1 =>
    let b := (trial T prior lam k).best
    let l := (trial T prior lam k).lam
    let d := T.update l b (T.deriv b)
    if gt (T.value d) (T.value b) then ⟨d, b, 1 / 2 * l⟩ else ⟨d, d, 103 / 100 * l⟩

/-- specification: the search ends with step `k` -/
def Ends (T : Task D G) (prior : D) (lam : ℝ) (k : ℕ) : Prop :=
  T.iterMax ≤ k + 1 ∨ (trial T prior lam k).lam < T.lamMin ∨ le (T.value (trial T prior lam k).best) T.desired

/-! ### the loop is the search -/

/-- the state of the program after step `k` -/
noncomputable def stateOf (T : Task D G) (t : Trial D) (k : ℕ) : St D G :=
  ⟨T.update t.lam t.best (T.deriv t.best), T.value t.best, some t.best, T.deriv t.best, t.best, t.tried, t.lam, k + 1⟩

theorem turn_first (T : Task D G) (prior : D) (zero : G) (lam : ℝ) :
    turn T (initial prior zero lam) = some (stateOf T (trial T prior lam 0) 0) := by
  unfold turn initial
  dsimp only
  rw [if_neg]
  · rfl
  · cases T.value prior with
    | none => exact id
    | some a => exact not_lt.2 le_top

theorem turn_next (T : Task D G) (prior : D) (lam : ℝ) (k : ℕ) :
    turn T (stateOf T (trial T prior lam k) k) = some (stateOf T (trial T prior lam (k + 1)) (k + 1)) := by
  rw [trial]
  unfold turn stateOf
  dsimp only
  by_cases h : gt (T.value (T.update (trial T prior lam k).lam (trial T prior lam k).best (T.deriv (trial T prior lam k).best)))
    (T.value (trial T prior lam k).best)
  · rw [if_pos h, if_pos h]
  · rw [if_neg h, if_neg h]

theorem loop_step (T : Task D G) {s s' : St D G} (h : turn T s = some s') [Decidable (stop T s')] : loop T s = if stop T s' then some s' else loop T s' := by
  rw [loop]
  split
  · rename_i h'
    rw [h] at h'
    cases h'
  · rename_i h'
    rw [h] at h'
    cases h'
    congr

theorem stop_iff (T : Task D G) (prior : D) (lam : ℝ) (k : ℕ) : stop T (stateOf T (trial T prior lam k) k) ↔ Ends T prior lam k := Iff.rfl

theorem loop_spec (T : Task D G) (prior : D) (lam : ℝ) {s : St D G} {k j : ℕ} (hs : turn T s = some (stateOf T (trial T prior lam j) j))
    (hk : Ends T prior lam (j + k)) (hf : ∀ i < k, ¬ Ends T prior lam (j + i)) :
    loop T s = some (stateOf T (trial T prior lam (j + k)) (j + k)) := by
  classical
  induction k generalizing s j with
  | zero => rw [loop_step T hs, if_pos ((stop_iff T prior lam j).2 hk), Nat.add_zero]
  | succ k ih =>
    rw [loop_step T hs, if_neg (fun h => hf 0 (by omega) ((stop_iff T prior lam j).1 h))]
    have := ih (j := j + 1) (turn_next T prior lam j) (by rw [show j + 1 + k = j + (k + 1) by omega]; exact hk)
      (fun i hi => by rw [show j + 1 + i = j + (i + 1) by omega]; exact hf (i + 1) (by omega))
    rw [this, show j + 1 + k = j + (k + 1) by omega]

/-! ### theorems -/

/-- **C67.** The reconstruction never fails and ends after at most `iterMax` steps (one if `iterMax` is zero); it is the search of the
specification up to the first step at which an end is reached.  Both densities handed over are the best one, the goodness of fit is its
value; the flip ratios handed over belong to the density tried last. -/
theorem reconstruct_spec (T : Task D G) (prior : D) (zero : G) (lam : ℝ) :
    ∃ k, Ends T prior lam k ∧ (∀ j < k, ¬ Ends T prior lam j) ∧ k + 1 ≤ max 1 T.iterMax ∧
      reconstruct T prior zero lam = some ⟨T.value (trial T prior lam k).best, (trial T prior lam k).best, (trial T prior lam k).best,
        (trial T prior lam k).tried⟩ := by
  classical
  have hex : ∃ k, Ends T prior lam k := ⟨T.iterMax, Or.inl (by omega)⟩
  refine ⟨Nat.find hex, Nat.find_spec hex, fun j hj => Nat.find_min hex hj, ?_, ?_⟩
  · have : Nat.find hex ≤ T.iterMax - 1 := Nat.find_min' hex (Or.inl (by omega))
    omega
  · have := loop_spec T prior lam (k := Nat.find hex) (j := 0) (turn_first T prior zero lam) (by simpa using Nat.find_spec hex)
      (fun i hi => by simpa using Nat.find_min hex hi)
    unfold reconstruct
    rw [this, Nat.zero_add]
    rfl

/-- the best density is one of those tried -/
theorem best_tried (T : Task D G) (prior : D) (lam : ℝ) (k : ℕ) : ∃ j ≤ k, (trial T prior lam k).best = (trial T prior lam j).tried := by
  induction k with
  | zero => exact ⟨0, le_refl 0, rfl⟩
  | succ k ih =>
    obtain ⟨j, hj, e⟩ := ih
    by_cases h : gt (T.value (T.update (trial T prior lam k).lam (trial T prior lam k).best (T.deriv (trial T prior lam k).best)))
      (T.value (trial T prior lam k).best)
    · refine ⟨j, by omega, ?_⟩
      rw [trial]
      rw [if_pos h, ← e]
    · refine ⟨k + 1, le_refl _, ?_⟩
      rw [trial]
      rw [if_neg h]

/-- **C67.** When no value was NaN, the density handed over has the smallest value of all densities tried, the prior included -/
theorem best_minimal (T : Task D G) (prior : D) (lam : ℝ) (k : ℕ) (hn : ∀ j ≤ k, T.value (trial T prior lam j).tried ≠ none) :
    ∃ c, T.value (trial T prior lam k).best = some c ∧ ∀ j ≤ k, ∃ a, T.value (trial T prior lam j).tried = some a ∧ c ≤ a := by
  induction k with
  | zero =>
    obtain ⟨c, hc⟩ := Option.ne_none_iff_exists'.1 (hn 0 (le_refl 0))
    refine ⟨c, hc, fun j hj => ⟨c, ?_, le_refl c⟩⟩
    rw [Nat.le_zero.1 hj]
    exact hc
  | succ k ih =>
    obtain ⟨c, hc, hm⟩ := ih fun j hj => hn j (by omega)
    obtain ⟨a, ha⟩ := Option.ne_none_iff_exists'.1 (hn (k + 1) (le_refl _))
    have ht : (trial T prior lam (k + 1)).tried = T.update (trial T prior lam k).lam (trial T prior lam k).best (T.deriv (trial T prior lam k).best) := by
      rw [trial]
      split_ifs <;> rfl
    rw [ht] at ha
    by_cases h : gt (T.value (T.update (trial T prior lam k).lam (trial T prior lam k).best (T.deriv (trial T prior lam k).best)))
      (T.value (trial T prior lam k).best)
    · have hb : (trial T prior lam (k + 1)).best = (trial T prior lam k).best := by
        rw [trial]
        rw [if_pos h]
      rw [hb]
      refine ⟨c, hc, fun j hj => ?_⟩
      rcases Nat.lt_or_ge j (k + 1) with hj' | hj'
      · exact hm j (by omega)
      · rw [show j = k + 1 by omega, ht]
        rw [ha, hc] at h
        exact ⟨a, ha, le_of_lt h⟩
    · have hb : (trial T prior lam (k + 1)).best = T.update (trial T prior lam k).lam (trial T prior lam k).best (T.deriv (trial T prior lam k).best) := by
        rw [trial]
        rw [if_neg h]
      rw [hb]
      rw [ha, hc] at h
      have hac : a ≤ c := not_lt.1 h
      refine ⟨a, ha, fun j hj => ?_⟩
      rcases Nat.lt_or_ge j (k + 1) with hj' | hj'
      · obtain ⟨x, hx, hcx⟩ := hm j (by omega)
        exact ⟨x, hx, hac.trans hcx⟩
      · rw [show j = k + 1 by omega, ht]
        exact ⟨a, ha, le_refl a⟩

/-- **C67.** A property of the prior that every update keeps holds for all densities tried and for the one handed over -/
theorem trial_invariant (T : Task D G) {prior : D} (lam : ℝ) (Inv : D → Prop) (h0 : Inv prior) (hu : ∀ l d, Inv d → Inv (T.update l d (T.deriv d))) (k : ℕ) :
    Inv (trial T prior lam k).tried ∧ Inv (trial T prior lam k).best := by
  induction k with
  | zero => exact ⟨h0, h0⟩
  | succ k ih =>
    rw [trial]
    split_ifs
    · exact ⟨hu _ _ ih.2, ih.2⟩
    · exact ⟨hu _ _ ih.2, hu _ _ ih.2⟩

/-- the width after step `k`: positive, and between `lam/2^k` and `1.03^(k+1) lam` -/
theorem lam_bounds (T : Task D G) (prior : D) {lam : ℝ} (hl : 0 < lam) (k : ℕ) :
    lam / 2 ^ k ≤ (trial T prior lam k).lam ∧ (trial T prior lam k).lam ≤ (103 / 100) ^ (k + 1) * lam := by
  induction k with
  | zero => constructor <;> simp only [trial] <;> norm_num <;> linarith
  | succ k ih =>
    have h2 : (0 : ℝ) < lam / 2 ^ k := by positivity
    have e1 : lam / 2 ^ (k + 1) = 1 / 2 * (lam / 2 ^ k) := by rw [pow_succ]; field_simp
    have e2 : (103 / 100 : ℝ) ^ (k + 1 + 1) * lam = 103 / 100 * ((103 / 100) ^ (k + 1) * lam) := by ring
    rw [trial, e1, e2]
    split_ifs <;> dsimp only <;> constructor <;> linarith [ih.1, ih.2]

/-- a NaN is taken for the best: whatever the densities before it were worth -/
theorem nan_accepted (T : Task D G) (prior : D) (lam : ℝ) (k : ℕ) (h : T.value (trial T prior lam (k + 1)).tried = none) :
    (trial T prior lam (k + 1)).best = (trial T prior lam (k + 1)).tried := by
  rw [trial] at h ⊢
  split_ifs at h ⊢ with h1
  · rw [h] at h1
    exact h1.elim
  · rfl

/-- the flip ratios handed over belong to the density handed over exactly when the last trial was accepted -/
theorem flips_of_best (T : Task D G) (prior : D) (lam : ℝ) (k : ℕ) :
    (trial T prior lam (k + 1)).tried = (trial T prior lam (k + 1)).best ∨
      gt (T.value (trial T prior lam (k + 1)).tried) (T.value (trial T prior lam (k + 1)).best) := by
  rw [trial]
  split_ifs with h
  · exact Or.inr h
  · exact Or.inl rfl

end Cryspy.MemIt
