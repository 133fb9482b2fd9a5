import Verif.PdStore.Props

/-!
# Refinements in which stored data are used wrongly
-/

namespace Cryspy.PdStore

open Symm

variable {V I P R S O : Type}

/-- Only the group `g` is refined. -/
def only (g : Grp) : Grp → Bool := fun h => decide (h = g)

/-- The refinements of one phase: if one evaluation maps a store of the form `st₀` to itself, with a result that depends on the parameters
by `F`, all following evaluations do. -/
theorem refine_const (pr : Proc) (E : Env V I P R S O) (f : Grp → Bool) (names : List ℕ) (F : (Grp → V) → O) (Q : (Grp → V) → Prop)
    (Good : Store I P R S → Prop)
    (h : ∀ p st, Q p → Good st → (eval pr E f names p true st).1 = F p ∧ Good (eval pr E f names p true st).2) :
    ∀ (ps : List (Grp → V)) (st : Store I P R S), (∀ p ∈ ps, Q p) → Good st → refine pr E f names ps st = ps.map F
  | [], _, _, _ => rfl
  | p :: t, st, hQ, hst => by
    obtain ⟨e1, e2⟩ := h p st (hQ p (by simp)) hst
    unfold refine
    dsimp only
    rw [e1, refine_const pr E f names F Q Good h t _ (fun p' hp' => hQ p' (by simp [hp'])) e2]
    rfl

/-- **C77** Ordered moments refined on their own: whatever the moments, every evaluation uses the intensities of the first one. -/
theorem moments_ignored (E : Env V I P R S O) (hE : E.Ok) (i : ℕ) (hk : E.kind i = .ordered) (p₀ : Grp → V) (ps : List (Grp → V))
    (h : ∀ p ∈ ps, SameFixed (only (.mom i)) p p₀) :
    history pd E (only (.mom i)) [i] p₀ ps = (p₀ :: ps).map fun p =>
      E.pattern p (E.bkg p) [(i, E.refl i p, E.iint i p₀ (E.refl i p),
        (if E.textured i then some (E.po i p (E.refl i p)) else none), E.prof i p (E.refl i p))] := by
  have hf : ∀ g, g ≠ .mom i → only (.mom i) g = false := fun g hg => by simp [only, hg]
  have hc : ∀ {α : Type} {F : (Grp → V) → α} {D : List Grp} (_ : DependsOn F D) (_ : ∀ g ∈ D, g ≠ .mom i) {p : Grp → V}
      (_ : SameFixed (only (.mom i)) p p₀), F p = F p₀ := by
    intro α F D hd hD p hp
    exact agree hd hp fun g hg => hf g (hD g hg)
  have hrefl : ∀ {p}, SameFixed (only (.mom i)) p p₀ → E.refl i p = E.refl i p₀ := hc (hE.refl i) (by simp)
  have hbkg : ∀ {p}, SameFixed (only (.mom i)) p p₀ → E.bkg p = E.bkg p₀ := hc hE.bkg (by simp)
  have hpo : ∀ {p} l, SameFixed (only (.mom i)) p p₀ → E.po i p l = E.po i p₀ l := fun l => hc (hE.po i l) (by simp)
  unfold history
  dsimp only
  rw [refine_const pd E (only (.mom i)) [i] (fun p => E.pattern p (E.bkg p) [(i, E.refl i p, E.iint i p₀ (E.refl i p),
        (if E.textured i then some (E.po i p (E.refl i p)) else none), E.prof i p (E.refl i p))])
      (fun p => SameFixed (only (.mom i)) p p₀)
      (fun st => st.bkg = some (E.bkg p₀) ∧ (st.phase i).idx = some (E.refl i p₀) ∧ (st.phase i).iint = some (E.iint i p₀ (E.refl i p₀)) ∧
        (E.textured i = true → (st.phase i).po = some (E.po i p₀ (E.refl i p₀))))
      ?_ ps _ h ?_]
  · simp [eval, phases, phaseStep, reflections, pick, pd]
  · rintro p st hp ⟨h1, h2, h3, h4⟩
    simp only [eval, phases, phaseStep, reflections, pick, pd, h1, h2, h3, hk, hf .bkg (by simp), hf (.uc i) (by simp), hf .offset (by simp),
      hf (.atoms i) (by simp), hf .beam (by simp), hf (.tex i) (by simp), hrefl hp, hbkg hp, List.any_cons, List.any_nil, Bool.or_false,
      Bool.not_false, Bool.and_true, if_true, decide_true, Bool.and_self, Function.update_self]
    cases ht : E.textured i with
    | false => simp
    | true => simp [h4 ht, hpo _ hp]
  · cases ht : E.textured i with
    | false => simp [eval, phases, phaseStep, reflections, pick, pd, ht]
    | true => simp [eval, phases, phaseStep, reflections, pick, pd, ht]

/-- **C77** So the second evaluation is right only if the changed moments give the same intensities, where pattern and chi squared tell different
intensities apart. -/
theorem moments_wrong (E : Env V I P R S O) (hE : E.Ok) (i : ℕ) (hk : E.kind i = .ordered)
    (hinj : ∀ p b l a a' o r, E.pattern p b [(i, l, a, o, r)] = E.pattern p b [(i, l, a', o, r)] → a = a') (p₀ p : Grp → V)
    (h : SameFixed (only (.mom i)) p p₀) :
    history pd E (only (.mom i)) [i] p₀ [p] = [fresh E [i] p₀, fresh E [i] p] ↔ E.iint i p (E.refl i p) = E.iint i p₀ (E.refl i p) := by
  rw [moments_ignored E hE i hk p₀ [p] (by simpa using h)]
  simp only [List.map_cons, List.map_nil, List.cons.injEq, and_true, fresh, true_and]
  constructor
  · intro h
    exact (hinj _ _ _ _ _ _ _ h).symm
  · intro h
    rw [h]

/-- **C77** A refined wavelength: every evaluation uses the list of reflections of the first one (also in two dimensions). -/
theorem wavelength_ignored (E : Env V I P R S O) (hE : E.Ok) (i : ℕ) (hk : E.kind i = .nuclear ∨ E.kind i = .para ∨ E.kind i = .mixed)
    (ht : E.textured i = false) (p₀ : Grp → V) (ps : List (Grp → V)) (h : ∀ p ∈ ps, SameFixed (only .wave) p p₀) :
    history pd E (only .wave) [i] p₀ ps = (p₀ :: ps).map fun p =>
      E.pattern p (E.bkg p) [(i, E.refl i p₀, E.iint i p (E.refl i p₀), none, E.prof i p (E.refl i p₀))] := by
  have hf : ∀ g, g ≠ .wave → only .wave g = false := fun g hg => by simp [only, hg]
  have hbkg : ∀ {p}, SameFixed (only .wave) p p₀ → E.bkg p = E.bkg p₀ := fun hp =>
    agree hE.bkg hp (by intro g hg; exact hf g (by simp at hg; simp [hg]))
  have hk' : pd.iintStored (E.kind i) = false := by
    rcases hk with h | h | h <;> rw [h] <;> rfl
  have hk'' : decide (E.kind i = .ordered) = false := hk'
  unfold history
  dsimp only
  rw [refine_const pd E (only .wave) [i]
      (fun p => E.pattern p (E.bkg p) [(i, E.refl i p₀, E.iint i p (E.refl i p₀), none, E.prof i p (E.refl i p₀))])
      (fun p => SameFixed (only .wave) p p₀)
      (fun st => st.bkg = some (E.bkg p₀) ∧ (st.phase i).idx = some (E.refl i p₀))
      ?_ ps _ h ?_]
  · simp [eval, phases, phaseStep, reflections, pick, pd, ht]
  · rintro p st hp ⟨h1, h2⟩
    have hp1 : ∀ (s : Option I) (v : I) (b : Bool), pick (false && b) s v = v := by intro s v b; cases s <;> rfl
    simp only [eval, phases, phaseStep, reflections, pd, h1, h2, hk'', hf .bkg (by simp), hf (.uc i) (by simp), hf .offset (by simp),
      hbkg hp, List.any_cons, List.any_nil, Bool.or_false, Bool.not_false, Bool.and_true, if_true, ht, Function.update_self,
      Bool.and_false, hp1, Bool.false_eq_true, if_false]
    exact ⟨by cases hsi : (st.phase i).iint <;> rfl, rfl, trivial⟩
  · simp [eval, phases, phaseStep, reflections, pick, pd]

/-- **C77** A refined calibration of the time of flight: every evaluation uses the list of reflections of the first one. -/
theorem calibration_ignored (E : Env V I P R S O) (hE : E.Ok) (i : ℕ) (ht : E.textured i = false) (p₀ : Grp → V) (ps : List (Grp → V))
    (h : ∀ p ∈ ps, SameFixed (only .offset) p p₀) :
    history tof E (only .offset) [i] p₀ ps = (p₀ :: ps).map fun p =>
      E.pattern p (E.bkg p) [(i, E.refl i p₀, E.iint i p (E.refl i p₀), none, E.prof i p (E.refl i p₀))] := by
  have hf : ∀ g, g ≠ .offset → only .offset g = false := fun g hg => by simp [only, hg]
  have ho : only .offset .offset = true := by simp [only]
  have hbkg : ∀ {p}, SameFixed (only .offset) p p₀ → E.bkg p = E.bkg p₀ := fun hp =>
    agree hE.bkg hp (by intro g hg; exact hf g (by simp at hg; simp [hg]))
  unfold history
  dsimp only
  rw [refine_const tof E (only .offset) [i]
      (fun p => E.pattern p (E.bkg p) [(i, E.refl i p₀, E.iint i p (E.refl i p₀), none, E.prof i p (E.refl i p₀))])
      (fun p => SameFixed (only .offset) p p₀)
      (fun st => st.bkg = some (E.bkg p₀) ∧ (st.phase i).idx = some (E.refl i p₀))
      ?_ ps _ h ?_]
  · simp [eval, phases, phaseStep, reflections, pick, tof, ht]
  · rintro p st hp ⟨h1, h2⟩
    have hp1 : ∀ {α : Type} (s : Option α) (v : α), pick false s v = v := by intro α s v; cases s <;> rfl
    simp only [eval, phases, phaseStep, reflections, tof, h1, h2, ho, hf .bkg (by simp), hf (.uc i) (by simp), hf .shape (by simp),
      hbkg hp, List.any_cons, List.any_nil, Bool.or_false, Bool.false_or, Bool.true_or, Bool.or_true, Bool.not_true, Bool.not_false,
      Bool.and_true, if_true, ht, Function.update_self, Bool.and_false, Bool.false_and, hp1, Bool.false_eq_true, if_false]
    exact ⟨rfl, rfl, trivial⟩
  · simp [eval, phases, phaseStep, reflections, pick, tof]

/-- **C77** A refined cell with fixed texture: as long as no index of a reflection is zero and their number does not change, every evaluation
uses the preferred orientation of the first one. -/
theorem texture_stale (E : Env V I P R S O) (hE : E.Ok) (i : ℕ) (ht : E.textured i = true) (p₀ p : Grp → V)
    (h : SameFixed (only (.uc i)) p p₀) (hz : keepUse (E.refl i p₀) (E.refl i p) = true) :
    history pd E (only (.uc i)) [i] p₀ [p] = [fresh E [i] p₀,
      E.pattern p (E.bkg p) [(i, E.refl i p, E.iint i p (E.refl i p), some (E.po i p₀ (E.refl i p₀)), E.prof i p (E.refl i p))]] := by
  have hb : E.bkg p = E.bkg p₀ := agree hE.bkg h (by intro g hg; simp at hg; simp [only, hg])
  have hbf : only (.uc i) .bkg = false := by simp [only]
  have htf : only (.uc i) (.tex i) = false := by simp [only]
  have huf : only (.uc i) (.uc i) = true := by simp [only]
  simp [history, refine, eval, phases, phaseStep, reflections, pick, pd, ht, fresh, hz, hb, hbf, htf, huf]

/-- A reflection list with zero indices switches the stored data off. -/
theorem zero_index_switches_off {old new : List V3} (h : HasZero old ∨ HasZero new) : keepUse old new = false := by
  rcases h with h | h
  · have : keepUse old new = keepUse new old := by
      unfold keepUse
      rw [Bool.and_assoc, Bool.and_comm (List.all old _), ← Bool.and_assoc]
      congr 2
      rw [Bool.eq_iff_iff, beq_iff_eq, beq_iff_eq]
      exact eq_comm
    rw [this]; exact keepUse_zero h
  · exact keepUse_zero h

section Example

/-- Scale, list, one number per reflection: a phase with ordered moments whose intensities are squares of the moments. -/
def exEnv : Env ℤ (List ℤ) (List ℤ) ℤ ℤ (ℤ × List ℤ) where
  kind _ := .ordered
  textured _ := false
  refl _ p := if p .wave = 1 then [![1, 0, 0], ![1, 1, 0]] else [![1, 0, 0]]
  iint i p l := l.map fun h => (h 0 * p (.mom i)) ^ 2 + p (.atoms i) * p (.uc i)
  po _ _ _ := []
  prof i p _ := p .offset + p (.uc i)
  bkg p := p .bkg
  pattern p b l := (b, (l.map fun x => x.2.2.1).flatten.map (p .rest * ·))

theorem exEnv_ok : exEnv.Ok where
  refl i p q h := by simp [exEnv, h .wave (by simp)]
  iint i l p q h := by
    have h1 := h (.mom i) (by simp [exEnv])
    have h2 := h (.atoms i) (by simp [exEnv])
    have h3 := h (.uc i) (by simp [exEnv])
    simp [exEnv, h1, h2, h3]
  po _ _ _ _ _ := rfl
  bkg p q h := by simp [exEnv, h .bkg (by simp)]

/-- The hypotheses of `history_fresh` are met with everything but wavelength and moments refined; with the moments alone the second
evaluation is wrong. -/
example : (∀ p : Grp → ℤ, p .wave = 1 → Safe pd exEnv (fun g => decide (g ≠ .wave ∧ g ≠ .mom 0)) 0 p) ∧
    history pd exEnv (only (.mom 0)) [0] (fun _ => 1) [fun g => if g = .mom 0 then 2 else 1] = [(1, [2, 2]), (1, [2, 2])] ∧
    fresh exEnv [0] (fun g => if g = .mom 0 then 2 else 1) = (1, [5, 5]) := by
  refine ⟨fun p hp => ⟨?_, fun _ => ⟨rfl, by simp⟩, by simp [pd]⟩, by decide, by decide⟩
  rw [if_pos (by simp [pd])]
  exact ⟨![1, 0, 0], by simp [exEnv, hp], 1, rfl⟩

end Example

end Cryspy.PdStore
