import Verif.MemIt.Loop
import Mathlib.Algebra.Order.BigOperators.Group.Finset
import Mathlib.Algebra.BigOperators.Field
import Mathlib.Tactic.Positivity
import Mathlib.Tactic.FieldSimp

/-!
# C67: the densities of the iteration are non-negative and normalised
-/

namespace Cryspy.MemIt

variable {n m : ℕ}

/-! ### specification -/

/-- specification: a density of the program.  Nowhere negative; each row of the channel plus/minus integrates to one over the cell; the basin of an
atom holds as many electrons as there are such atoms in the cell. -/
structure Proper (G : Grid n m) (d : Den n m) : Prop where
  plus_nonneg : ∀ i, 0 ≤ d.plus i
  minus_nonneg : ∀ i, 0 ≤ d.minus i
  chi_nonneg : ∀ j, 0 ≤ d.chi j
  plus_one : 0 < n → ∑ i, G.volume / G.points * G.multCol i * d.plus i = 1
  minus_one : 0 < n → ∑ i, G.volume / G.points * G.multCol i * d.minus i = 1
  chi_atoms : ∀ (a : String) (M : ℝ), (∃ j, G.label j = a) → (∀ j, G.label j = a → G.amult j = M) →
    ∑ j, (if G.label j = a then G.volume / G.points * G.multChi j * d.chi j else 0) = M

/-- specification: volumes and multiplicities are positive -/
structure Grid.Good (G : Grid n m) : Prop where
  volume : 0 < G.volume
  points : 0 < G.points
  multCol : ∀ i, 0 < G.multCol i
  multChi : ∀ j, 0 < G.multChi j
  amult : ∀ j, 0 < G.amult j

/-! ### lemmas -/

theorem step_nonneg (delta coeff x g : ℝ) : 0 ≤ step delta coeff x g := le_max_right _ _

theorem renormCol_spec {G : Grid n m} (hG : G.Good) {v w : Fin n → ℝ} (hv : ∀ i, 0 ≤ v i) (h : renormCol G v = some w) :
    (∀ i, 0 ≤ w i) ∧ (0 < n → ∑ i, G.volume / G.points * G.multCol i * w i = 1) := by
  unfold renormCol at h
  dsimp only at h
  split_ifs at h with h0
  cases h
  have ht : 0 ≤ ∑ i, v i * G.multCol i := Finset.sum_nonneg fun i _ => mul_nonneg (hv i) (hG.multCol i).le
  have hc : 0 ≤ G.points / G.volume := div_nonneg hG.points.le hG.volume.le
  refine ⟨fun i => div_nonneg (mul_nonneg hc (hv i)) ht, fun hn => ?_⟩
  have ht' : ∑ i, v i * G.multCol i ≠ 0 := fun e => h0 ⟨hn, e⟩
  have hv0 := hG.volume.ne'
  have hp0 := hG.points.ne'
  have : ∀ i, G.volume / G.points * G.multCol i * (G.points / G.volume * v i / ∑ i, v i * G.multCol i) =
      (v i * G.multCol i) / ∑ i, v i * G.multCol i := fun i => by field_simp
  rw [Finset.sum_congr rfl fun i _ => this i, ← Finset.sum_div, div_self ht']

theorem atomTotal_nonneg {G : Grid n m} (hG : G.Good) {v : Fin m → ℝ} (hv : ∀ j, 0 ≤ v j) (a : String) : 0 ≤ atomTotal G v a := by
  unfold atomTotal
  refine Finset.sum_nonneg fun j _ => ?_
  split_ifs
  · exact div_nonneg (mul_nonneg (hv j) (hG.multChi j).le) (hG.amult j).le
  · exact le_refl 0

theorem renormChi_spec {G : Grid n m} (hG : G.Good) {v w : Fin m → ℝ} (hv : ∀ j, 0 ≤ v j) (h : renormChi G v = some w) :
    (∀ j, 0 ≤ w j) ∧ ∀ (a : String) (M : ℝ), (∃ j, G.label j = a) → (∀ j, G.label j = a → G.amult j = M) →
      ∑ j, (if G.label j = a then G.volume / G.points * G.multChi j * w j else 0) = M := by
  unfold renormChi at h
  split_ifs at h with h0
  cases h
  have hc : 0 ≤ G.points / G.volume := div_nonneg hG.points.le hG.volume.le
  refine ⟨fun j => mul_nonneg (hv j) (div_nonneg hc (atomTotal_nonneg hG hv _)), ?_⟩
  rintro a M ⟨j, rfl⟩ hM
  have ht : atomTotal G v (G.label j) ≠ 0 := fun e => h0 ⟨j, e⟩
  have hv0 := hG.volume.ne'
  have hp0 := hG.points.ne'
  have hM0 : M ≠ 0 := by rw [← hM j rfl]; exact (hG.amult j).ne'
  have : ∀ i, (if G.label i = G.label j then G.volume / G.points * G.multChi i * (v i * (G.points / G.volume / atomTotal G v (G.label i))) else 0) =
      (if G.label i = G.label j then v i * G.multChi i / G.amult i else 0) * (M / atomTotal G v (G.label j)) := by
    intro i
    split_ifs with h
    · rw [hM i h, h]
      field_simp
    · rw [zero_mul]
  rw [Finset.sum_congr rfl fun i _ => this i, ← Finset.sum_mul]
  show atomTotal G v (G.label j) * (M / atomTotal G v (G.label j)) = M
  field_simp

/-- an update is a density of the program or has NaN -/
theorem update_proper {G : Grid n m} (hG : G.Good) (desired lam : ℝ) {d g : Option (Den n m)} {d' : Den n m} (h : update G desired lam d g = some d') :
    Proper G d' := by
  unfold update at h
  cases d with
  | none => cases h
  | some d =>
    cases g with
    | none => cases h
    | some g =>
      dsimp only at h
      split at h
      · rename_i p q r hp hq hr
        cases h
        obtain ⟨p0, p1⟩ := renormCol_spec hG (fun i => step_nonneg _ _ _ _) hp
        obtain ⟨q0, q1⟩ := renormCol_spec hG (fun i => step_nonneg _ _ _ _) hq
        obtain ⟨r0, r1⟩ := renormChi_spec hG (fun i => step_nonneg _ _ _ _) hr
        exact ⟨p0, q0, r0, p1, q1, r1⟩
      · cases h

/-! ### theorems -/

/-- **C67.** Whatever is measured, the density handed over is non-negative and normalised (or has NaN in it), and so is every density tried -/
theorem densities_proper {G : Grid n m} (hG : G.Good) (E : Exp n m) (odd : Den n m → CV × Option (Den n m)) (desired lamMin : ℝ) (iterMax : ℕ)
    {prior : Den n m} (hp : Proper G prior) (lam : ℝ) {r : Result (Option (Den n m))}
    (hr : reconstruct (task G E odd desired lamMin iterMax) (some prior) none lam = some r) :
    (∀ d, r.best = some d → Proper G d) ∧ (∀ d, r.den = some d → Proper G d) ∧ ∀ d, r.flips = some d → Proper G d := by
  obtain ⟨k, -, -, -, e⟩ := reconstruct_spec (task G E odd desired lamMin iterMax) (some prior) none lam
  rw [e] at hr
  cases hr
  have := trial_invariant (task G E odd desired lamMin iterMax) (prior := some prior) lam (fun d => ∀ d', d = some d' → Proper G d')
    (fun d' h => by cases h; exact hp) (fun l d _ d' h => update_proper hG desired l h) k
  exact ⟨this.2, this.2, this.1⟩

/-- **C67.** A density whose derivative vanishes is not changed -/
theorem update_fixed {G : Grid n m} (hG : G.Good) (desired lam : ℝ) {d : Den n m} (hd : Proper G d)
    (hl : ∀ i j, G.label i = G.label j → G.amult i = G.amult j) :
    update G desired lam (some d) (some ⟨fun _ => 0, fun _ => 0, fun _ => 0⟩) = some d := by
  have hs : ∀ coeff x : ℝ, 0 ≤ x → step G.delta coeff x 0 = x := by
    intro coeff x hx
    unfold step
    rw [mul_zero, Real.exp_zero, mul_one, add_sub_cancel_right, max_eq_left hx]
  have hv0 := hG.volume.ne'
  have hp0 := hG.points.ne'
  have hcol : ∀ v : Fin n → ℝ, (0 < n → ∑ i, G.volume / G.points * G.multCol i * v i = 1) → renormCol G v = some v := by
    intro v h1
    rcases Nat.eq_zero_or_pos n with h0 | h0
    · subst h0
      unfold renormCol
      dsimp only
      rw [if_neg (by simp)]
      congr 1
      funext i
      exact i.elim0
    · have h2 := h1 h0
      have e : ∑ i, v i * G.multCol i = G.points / G.volume := by
        have : ∀ i, v i * G.multCol i = G.points / G.volume * (G.volume / G.points * G.multCol i * v i) := fun i => by field_simp
        rw [Finset.sum_congr rfl fun i _ => this i, ← Finset.mul_sum, h2, mul_one]
      have hne : G.points / G.volume ≠ 0 := div_ne_zero hp0 hv0
      unfold renormCol
      dsimp only
      rw [e, if_neg (fun h => hne h.2)]
      congr 1
      funext i
      field_simp
  have hchi : renormChi G d.chi = some d.chi := by
    have e : ∀ j, atomTotal G d.chi (G.label j) = G.points / G.volume := by
      intro j
      have h1 := hd.chi_atoms (G.label j) (G.amult j) ⟨j, rfl⟩ (fun i h => hl i j h)
      have ha := (hG.amult j).ne'
      unfold atomTotal
      have : ∀ i, (if G.label i = G.label j then d.chi i * G.multChi i / G.amult i else 0) =
          G.points / G.volume / G.amult j * (if G.label i = G.label j then G.volume / G.points * G.multChi i * d.chi i else 0) := by
        intro i
        split_ifs with h
        · rw [hl i j h]; field_simp
        · rw [mul_zero]
      rw [Finset.sum_congr rfl fun i _ => this i, ← Finset.mul_sum, h1]
      field_simp
    have hne : G.points / G.volume ≠ 0 := div_ne_zero hp0 hv0
    unfold renormChi
    rw [if_neg (by rintro ⟨j, h⟩; rw [e j] at h; exact hne h)]
    congr 1
    funext j
    rw [e j]
    field_simp
  unfold update
  simp only [hs _ _ (hd.plus_nonneg _), hs _ _ (hd.minus_nonneg _), hs _ _ (hd.chi_nonneg _)]
  rw [hcol d.plus hd.plus_one, hcol d.minus hd.minus_one, hchi]

/-- **C67.** An update has no NaN when in every row and in every basin some point with a positive density has a derivative that is not positive -/
theorem update_some {G : Grid n m} (hG : G.Good) {desired lam : ℝ} (hd : 0 < desired) (hl : 0 < lam) (hδ : 0 ≤ G.delta) {d g : Den n m}
    (h1 : 0 < n → ∃ i, 0 < d.plus i ∧ g.plus i ≤ 0) (h2 : 0 < n → ∃ i, 0 < d.minus i ∧ g.minus i ≤ 0)
    (h3 : ∀ j, ∃ i, G.label i = G.label j ∧ 0 < d.chi i ∧ g.chi i ≤ 0) :
    ∃ d', update G desired lam (some d) (some g) = some d' := by
  have hs : ∀ coeff x y : ℝ, 0 ≤ coeff → 0 < x → y ≤ 0 → 0 < step G.delta coeff x y := by
    intro c x y hc hx hy
    have : 1 ≤ Real.exp (-c * y) := Real.one_le_exp (by nlinarith)
    exact lt_max_of_lt_left (by nlinarith)
  have hc : 0 ≤ lam * G.points / (desired * G.volume) := by
    have := hG.volume; have := hG.points; positivity
  have hcol : ∀ x y : Fin n → ℝ, (0 < n → ∃ i, 0 < x i ∧ y i ≤ 0) →
      ∃ w, renormCol G (fun i => step G.delta (lam * G.points / (desired * G.volume) / G.multCol i) (x i) (y i)) = some w := by
    intro x y hxy
    unfold renormCol
    dsimp only
    rw [if_neg]
    · exact ⟨_, rfl⟩
    · rintro ⟨hn, e⟩
      obtain ⟨i, hi, hi'⟩ := hxy hn
      rw [Finset.sum_eq_zero_iff_of_nonneg fun i _ => mul_nonneg (step_nonneg _ _ _ _) (hG.multCol i).le] at e
      exact (mul_pos (hs _ _ _ (div_nonneg hc (hG.multCol i).le) hi hi') (hG.multCol i)).ne' (e i (Finset.mem_univ i))
  obtain ⟨p, hp⟩ := hcol d.plus g.plus h1
  obtain ⟨q, hq⟩ := hcol d.minus g.minus h2
  have hr : ∃ w, renormChi G (fun j => step G.delta (lam * G.points / (desired * G.volume) * G.amult j / G.multChi j) (d.chi j) (g.chi j)) = some w := by
    unfold renormChi
    rw [if_neg]
    · exact ⟨_, rfl⟩
    · rintro ⟨j, e⟩
      obtain ⟨i, hi, hi1, hi2⟩ := h3 j
      unfold atomTotal at e
      rw [Finset.sum_eq_zero_iff_of_nonneg] at e
      · have := e i (Finset.mem_univ i)
        rw [if_pos hi] at this
        refine (div_pos (mul_pos (hs _ _ _ ?_ hi1 hi2) (hG.multChi i)) (hG.amult i)).ne' this
        exact div_nonneg (mul_nonneg hc (hG.amult i).le) (hG.multChi i).le
      · intro i _
        split_ifs
        · exact div_nonneg (mul_nonneg (step_nonneg _ _ _ _) (hG.multChi i).le) (hG.amult i).le
        · exact le_refl 0
  obtain ⟨r, hr⟩ := hr
  refine ⟨⟨p, q, r⟩, ?_⟩
  unfold update
  dsimp only
  rw [hp, hq, hr]

/-- defect: when all points of a row are cut off, the density becomes NaN -/
theorem all_clipped {G : Grid n m} {desired lam : ℝ} {d g : Den n m} (hn : 0 < n)
    (h : ∀ i, (d.plus i + G.delta) * Real.exp (-(lam * G.points / (desired * G.volume) / G.multCol i) * g.plus i) ≤ G.delta) :
    update G desired lam (some d) (some g) = none := by
  have : renormCol G (fun i => step G.delta (lam * G.points / (desired * G.volume) / G.multCol i) (d.plus i) (g.plus i)) = none := by
    unfold renormCol
    dsimp only
    refine if_pos ⟨hn, Finset.sum_eq_zero fun i _ => ?_⟩
    have : step G.delta (lam * G.points / (desired * G.volume) / G.multCol i) (d.plus i) (g.plus i) = 0 := max_eq_right (by linarith [h i])
    rw [this, zero_mul]
  unfold update
  dsimp only
  rw [this]

/-- defect: once a density is NaN, NaN is handed over as the best one, however good an earlier density was -/
theorem nan_handed_over {G : Grid n m} (E : Exp n m) (odd : Den n m → CV × Option (Den n m)) (desired lamMin : ℝ) (iterMax : ℕ) (prior : Option (Den n m)) (lam : ℝ)
    {k : ℕ} (h : (trial (task G E odd desired lamMin iterMax) prior lam k).tried = none) (j : ℕ) :
    (trial (task G E odd desired lamMin iterMax) prior lam (k + j)).best = none := by
  have hz : ∀ i, (trial (task G E odd desired lamMin iterMax) prior lam i).tried = none → (trial (task G E odd desired lamMin iterMax) prior lam i).best = none := by
    intro i hi
    cases i with
    | zero => exact hi
    | succ i => rw [nan_accepted _ _ _ _ (by rw [hi]; rfl), hi]
  induction j with
  | zero => exact hz k h
  | succ j ih =>
    apply hz
    rw [← Nat.add_assoc, trial]
    rw [ih]
    split_ifs <;> rfl

end Cryspy.MemIt
