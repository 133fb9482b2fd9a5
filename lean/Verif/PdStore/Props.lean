import Verif.PdStore.Model
import Mathlib.Tactic.Tauto

/-!
# Stored intermediate results of a powder experiment
-/

namespace Cryspy.PdStore

open Symm

variable {V I P R S O : Type}

/-- A quantity depends on the parameters of the groups `D` only. -/
def DependsOn {α : Type} (F : (Grp → V) → α) (D : List Grp) : Prop := ∀ p q : Grp → V, (∀ g ∈ D, p g = q g) → F p = F q

/-- The dependences of the computed quantities: the reflections in range on angles (or times), wavelength and cell; the
intensities on the cell, the atoms, their magnetism and the beam; preferred orientation on texture and cell; the profile on cell,
calibration, wavelength and shape; the background on its own parameters. -/
structure Env.Ok (E : Env V I P R S O) : Prop where
  refl : ∀ i, DependsOn (E.refl i) [.offset, .wave, .uc i]
  iint : ∀ i l, DependsOn (fun p => E.iint i p l) (match E.kind i with
    | .nuclear => [.uc i, .atoms i]
    | .para => [.uc i, .atoms i, .para i, .beam]
    | .ordered => [.uc i, .atoms i, .mom i]
    | .mixed => [.uc i, .atoms i, .para i, .mom i, .beam])
  po : ∀ i l, DependsOn (fun p => E.po i p l) [.tex i, .uc i]
  bkg : DependsOn E.bkg [.bkg]

/-- What a computation from scratch gives. -/
def fresh (E : Env V I P R S O) (names : List ℕ) (p : Grp → V) : O :=
  E.pattern p (E.bkg p) (names.map fun i =>
    (i, E.refl i p, E.iint i p (E.refl i p), (if E.textured i then some (E.po i p (E.refl i p)) else none), E.prof i p (E.refl i p)))

/-- Parameters that are not refined do not change. -/
def SameFixed (f : Grp → Bool) (p q : Grp → V) : Prop := ∀ g, f g = false → p g = q g

/-- The phase is stored as it is for the parameters `q`. -/
def Stored (E : Env V I P R S O) (q : Grp → V) (st : PStore I P R) (i : ℕ) : Prop :=
  st.idx = some (E.refl i q) ∧ st.iint = some (E.iint i q (E.refl i q)) ∧
    (E.textured i = true → st.po = some (E.po i q (E.refl i q))) ∧ st.prof = some (E.prof i q (E.refl i q))

/-- A list that contains a zero index. -/
def HasZero (l : List V3) : Prop := ∃ h ∈ l, ∃ k, h k = 0

theorem keepUse_zero {old new : List V3} (h : HasZero new) : keepUse old new = false := by
  obtain ⟨v, hv, k, hk⟩ := h
  unfold keepUse
  rw [Bool.and_eq_false_iff]
  right
  rw [List.all_eq_false]
  refine ⟨v, hv, ?_⟩
  simp only [Bool.not_eq_true, List.all_eq_false]
  exact ⟨k, List.mem_finRange k, by simp [hk]⟩

/-- The refined parameters of a phase for which the stored data are used rightly: if the list of reflections is computed anew it has a zero
index; else nothing the list depends on is refined.  For ordered moments refined on their own the stored intensities are wrong. -/
structure Safe (q : Proc) (E : Env V I P R S O) (f : Grp → Bool) (i : ℕ) (p : Grp → V) : Prop where
  list : if (q.idxFlags i).any f then HasZero (E.refl i p) else f .offset = false ∧ f .wave = false ∧ f (.uc i) = false
  moments : q.iintStored (E.kind i) = true → E.kind i = .ordered ∧ (f (.mom i) = true → (q.idxFlags i).any f = true ∨ f (.atoms i) = true ∨ f .beam = true)
  prof : ∀ fl, q.profFlags = some fl → ∀ l, DependsOn (fun p => E.prof i p l) (fl i)

theorem agree {α : Type} {F : (Grp → V) → α} {D : List Grp} (h : DependsOn F D) {f : Grp → Bool} {p q : Grp → V} (hs : SameFixed f p q)
    (hD : ∀ g ∈ D, f g = false) : F p = F q := h p q fun g hg => hs g (hD g hg)

theorem phaseStep_fresh (pr : Proc) (E : Env V I P R S O) (hE : E.Ok) (f : Grp → Bool) {p q : Grp → V} (hs : SameFixed f p q)
    (i : ℕ) (hsafe : Safe pr E f i p) (use : Bool) (st : PStore I P R) (hst : use = true → Stored E q st i) :
    (phaseStep pr E f p use st i).1 =
      (E.refl i p, E.iint i p (E.refl i p), (if E.textured i then some (E.po i p (E.refl i p)) else none), E.prof i p (E.refl i p)) ∧
    Stored E p (phaseStep pr E f p use st i).2.1 i ∧ ((phaseStep pr E f p use st i).2.2 = true → use = true) := by
  -- the list of reflections and the flag
  have key : ∃ u, reflections pr E f p use st.idx i = (E.refl i p, u) ∧
      (u = true → use = true ∧ (pr.idxFlags i).any f = false ∧ f .offset = false ∧ f .wave = false ∧ f (.uc i) = false) := by
    cases use with
    | false =>
      refine ⟨false, ?_, by simp⟩
      unfold reflections
      cases st.idx <;> simp
    | true =>
      obtain ⟨h1, -, -, -⟩ := hst rfl
      have hl := hsafe.list
      by_cases hf : (pr.idxFlags i).any f = true
      · rw [if_pos hf] at hl
        refine ⟨false, ?_, by simp⟩
        unfold reflections
        rw [h1]
        simp only [hf, Bool.not_true, Bool.and_false, Bool.false_eq_true, if_false, Bool.true_and]
        rw [keepUse_zero hl]
      · rw [if_neg hf] at hl
        have hf' : (pr.idxFlags i).any f = false := by simpa using hf
        refine ⟨true, ?_, fun _ => ⟨rfl, hf', hl.1, hl.2.1, hl.2.2⟩⟩
        unfold reflections
        rw [h1]
        simp only [hf', Bool.not_false, Bool.and_true, if_true]
        rw [agree (hE.refl i) hs (by
          intro g hg
          simp only [List.mem_cons, List.not_mem_nil, or_false] at hg
          rcases hg with rfl | rfl | rfl
          · exact hl.1
          · exact hl.2.1
          · exact hl.2.2)]
  obtain ⟨u, hu, hu'⟩ := key
  have hrefl : u = true → E.refl i p = E.refl i q := by
    intro h
    obtain ⟨-, -, h1, h2, h3⟩ := hu' h
    refine agree (hE.refl i) hs ?_
    intro g hg
    simp only [List.mem_cons, List.not_mem_nil, or_false] at hg
    rcases hg with rfl | rfl | rfl
    · exact h1
    · exact h2
    · exact h3
  have hi : pick (u && pr.iintStored (E.kind i) && !(f (.uc i) || f (.atoms i) || f .beam)) st.iint (E.iint i p (E.refl i p)) =
      E.iint i p (E.refl i p) := by
    unfold pick
    cases hsi : st.iint with
    | none => rfl
    | some v =>
      dsimp only
      split_ifs with hc
      · simp only [Bool.and_eq_true, Bool.not_eq_true', Bool.or_eq_false_iff] at hc
        obtain ⟨⟨hu1, hk⟩, ⟨h1, h2⟩, h3⟩ := hc
        obtain ⟨hk1, hk2⟩ := hsafe.moments hk
        obtain ⟨hu2, hu3, -⟩ := hu' hu1
        obtain ⟨-, h4, -⟩ := hst hu2
        rw [h4] at hsi
        have hm : f (.mom i) = false := by
          by_contra hm
          rcases hk2 (by simpa using hm) with h | h | h
          · rw [hu3] at h; exact absurd h (by simp)
          · rw [h2] at h; exact absurd h (by simp)
          · rw [h3] at h; exact absurd h (by simp)
        rw [← Option.some.inj hsi, ← hrefl hu1]
        have := hE.iint i (E.refl i p)
        rw [hk1] at this
        refine (agree this hs ?_).symm
        intro g hg
        simp only [List.mem_cons, List.not_mem_nil, or_false] at hg
        rcases hg with rfl | rfl | rfl
        · exact h1
        · exact h2
        · exact hm
      · rfl
  have hp : E.textured i = true → pick (u && !f (.tex i)) st.po (E.po i p (E.refl i p)) = E.po i p (E.refl i p) := by
    intro ht
    unfold pick
    cases hsi : st.po with
    | none => rfl
    | some v =>
      dsimp only
      split_ifs with hc
      · simp only [Bool.and_eq_true, Bool.not_eq_true'] at hc
        obtain ⟨hu2, -, -, -, h3⟩ := hu' hc.1
        obtain ⟨-, -, h4, -⟩ := hst hu2
        rw [h4 ht] at hsi
        rw [← Option.some.inj hsi, ← hrefl hc.1]
        refine (agree (hE.po i _) hs ?_).symm
        intro g hg
        simp only [List.mem_cons, List.not_mem_nil, or_false] at hg
        rcases hg with rfl | rfl
        · exact hc.2
        · exact h3
      · rfl
  have hr : (match pr.profFlags with
      | none => E.prof i p (E.refl i p)
      | some fl => pick (u && !((fl i).any f)) st.prof (E.prof i p (E.refl i p))) = E.prof i p (E.refl i p) := by
    cases hfl : pr.profFlags with
    | none => rfl
    | some fl =>
      dsimp only
      unfold pick
      cases hsi : st.prof with
      | none => rfl
      | some v =>
        dsimp only
        split_ifs with hc
        · simp only [Bool.and_eq_true, Bool.not_eq_true'] at hc
          obtain ⟨hu2, -⟩ := hu' hc.1
          obtain ⟨-, -, -, h4⟩ := hst hu2
          rw [h4] at hsi
          rw [← Option.some.inj hsi, ← hrefl hc.1]
          refine (agree (hsafe.prof fl hfl _) hs ?_).symm
          intro g hg
          by_contra h
          exact absurd hc.2 (by rw [Bool.not_eq_false, List.any_eq_true]; exact ⟨g, hg, by simpa using h⟩)
        · rfl
  unfold phaseStep
  rw [hu]
  dsimp only
  rw [hi]
  refine ⟨?_, ⟨rfl, rfl, ?_, congrArg some hr⟩, fun h => (hu' h).1⟩
  · refine Prod.ext rfl (Prod.ext rfl (Prod.ext ?_ hr))
    cases ht : E.textured i with
    | false => simp
    | true => simp [hp ht]
  · intro ht
    simp only [ht, if_true]
    rw [hp ht]

theorem phases_fresh (pr : Proc) (E : Env V I P R S O) (hE : E.Ok) (f : Grp → Bool) {p q : Grp → V} (hs : SameFixed f p q) :
    ∀ (names : List ℕ), (∀ i ∈ names, Safe pr E f i p) → ∀ (use : Bool) (st : ℕ → PStore I P R),
    (use = true → ∀ i ∈ names, Stored E q (st i) i ∨ Stored E p (st i) i) →
    (phases pr E f p use st names).1 = (names.map fun i =>
      (i, E.refl i p, E.iint i p (E.refl i p), (if E.textured i then some (E.po i p (E.refl i p)) else none), E.prof i p (E.refl i p))) ∧
    (∀ i ∈ names, Stored E p ((phases pr E f p use st names).2 i) i) ∧
    (∀ i, i ∉ names → (phases pr E f p use st names).2 i = st i)
  | [], _, _, _, _ => ⟨rfl, by simp, fun _ _ => rfl⟩
  | i :: t, hsafe, use, st, hst => by
    have hself : SameFixed f p p := fun _ _ => rfl
    have h1 : (phaseStep pr E f p use (st i) i).1 =
        (E.refl i p, E.iint i p (E.refl i p), (if E.textured i then some (E.po i p (E.refl i p)) else none), E.prof i p (E.refl i p)) ∧
        Stored E p (phaseStep pr E f p use (st i) i).2.1 i ∧ ((phaseStep pr E f p use (st i) i).2.2 = true → use = true) := by
      cases use with
      | false => exact phaseStep_fresh pr E hE f hs i (hsafe i (by simp)) false (st i) (by simp)
      | true =>
        rcases hst rfl i (by simp) with h | h
        · exact phaseStep_fresh pr E hE f hs i (hsafe i (by simp)) true (st i) fun _ => h
        · exact phaseStep_fresh pr E hE f hself i (hsafe i (by simp)) true (st i) fun _ => h
    have h2 := phases_fresh pr E hE f hs t (fun j hj => hsafe j (by simp [hj])) (phaseStep pr E f p use (st i) i).2.2
      (Function.update st i (phaseStep pr E f p use (st i) i).2.1) (by
        intro hu j hj
        by_cases hij : j = i
        · subst hij; right; rw [Function.update_self]; exact h1.2.1
        · rw [Function.update_of_ne hij]; exact hst (h1.2.2 hu) j (by simp [hj]))
    unfold phases
    dsimp only
    refine ⟨by rw [h1.1, h2.1]; rfl, ?_, ?_⟩
    · intro j hj
      by_cases hjt : j ∈ t
      · exact h2.2.1 j hjt
      · rw [h2.2.2 j hjt]
        have : j = i := by simpa [hjt] using hj
        subst this
        rw [Function.update_self]; exact h1.2.1
    · intro j hj
      rw [List.mem_cons, not_or] at hj
      rw [h2.2.2 j hj.2, Function.update_of_ne hj.1]

/-- The store is that of an evaluation with the parameters `q`. -/
def StoreOf (E : Env V I P R S O) (names : List ℕ) (q : Grp → V) (st : Store I P R S) : Prop :=
  st.bkg = some (E.bkg q) ∧ ∀ i ∈ names, Stored E q (st.phase i) i

theorem eval_fresh (pr : Proc) (E : Env V I P R S O) (hE : E.Ok) (f : Grp → Bool) (names : List ℕ) {p q : Grp → V}
    (hs : SameFixed f p q) (hsafe : ∀ i ∈ names, Safe pr E f i p) (use : Bool) (st : Store I P R S)
    (hst : use = true → StoreOf E names q st) :
    (eval pr E f names p use st).1 = fresh E names p ∧ StoreOf E names p (eval pr E f names p use st).2 := by
  have h := phases_fresh pr E hE f hs names hsafe use st.phase fun hu i hi => Or.inl ((hst hu).2 i hi)
  have hb : pick (use && !f .bkg) st.bkg (E.bkg p) = E.bkg p := by
    unfold pick
    cases hsb : st.bkg with
    | none => rfl
    | some v =>
      dsimp only
      split_ifs with hc
      · simp only [Bool.and_eq_true, Bool.not_eq_true'] at hc
        have := (hst hc.1).1
        rw [hsb] at this
        rw [Option.some.inj this]
        exact (agree hE.bkg hs (by simpa using hc.2)).symm
      · rfl
  unfold eval
  dsimp only
  rw [hb, h.1]
  exact ⟨rfl, rfl, h.2.1⟩

theorem refine_fresh (pr : Proc) (E : Env V I P R S O) (hE : E.Ok) (f : Grp → Bool) (names : List ℕ) :
    ∀ (ps : List (Grp → V)) (q : Grp → V) (st : Store I P R S), StoreOf E names q st →
    (∀ p ∈ ps, SameFixed f p q ∧ ∀ i ∈ names, Safe pr E f i p) → refine pr E f names ps st = ps.map (fresh E names)
  | [], _, _, _, _ => rfl
  | p :: t, q, st, hst, h => by
    obtain ⟨hp, hsafe⟩ := h p (by simp)
    obtain ⟨e1, e2⟩ := eval_fresh pr E hE f names hp hsafe true st fun _ => hst
    unfold refine
    dsimp only
    rw [e1, refine_fresh pr E hE f names t p _ e2 ?_]
    · rfl
    · intro p' hp'
      obtain ⟨h1, h2⟩ := h p' (by simp [hp'])
      exact ⟨fun g hg => (h1 g hg).trans (hp g hg).symm, h2⟩

/-- **C77** In every refinement of powder patterns in which the lists of reflections that are computed anew have a zero index, the offset,
wavelength and cell behind the others are fixed, and ordered moments are not refined on their own, every evaluation gives the pattern
computed from scratch with the current parameters. -/
theorem history_fresh (pr : Proc) (E : Env V I P R S O) (hE : E.Ok) (f : Grp → Bool) (names : List ℕ) (p₀ : Grp → V)
    (ps : List (Grp → V)) (h : ∀ p ∈ p₀ :: ps, SameFixed f p p₀ ∧ ∀ i ∈ names, Safe pr E f i p) :
    history pr E f names p₀ ps = (p₀ :: ps).map (fresh E names) := by
  obtain ⟨e1, e2⟩ := eval_fresh pr E hE f names (h p₀ (by simp)).1 (h p₀ (by simp)).2 false {} (by simp)
  unfold history
  dsimp only
  rw [e1, refine_fresh pr E hE f names ps p₀ _ e2 fun p hp => h p (by simp [hp])]
  rfl

/-- **C77** for constant wavelength: every evaluation of a refinement gives the result of a computation from scratch, if
* when cell or angles are refined, the lists of reflections contain a zero index, and otherwise the wavelength is not refined;
* moments of phases that are only ordered are refined together with cell, angles, atoms or beam. -/
theorem history_fresh_pd (E : Env V I P R S O) (hE : E.Ok) (f : Grp → Bool) (names : List ℕ) (p₀ : Grp → V)
    (ps : List (Grp → V)) (hs : ∀ p ∈ p₀ :: ps, SameFixed f p p₀)
    (hl : ∀ p ∈ p₀ :: ps, ∀ i ∈ names, (f (.uc i) = true ∨ f .offset = true → HasZero (E.refl i p))
      ∧ (f (.uc i) = false ∧ f .offset = false → f .wave = false))
    (hm : ∀ i ∈ names, E.kind i = .ordered → f (.mom i) = true →
      f (.uc i) = true ∨ f .offset = true ∨ f (.atoms i) = true ∨ f .beam = true) :
    history pd E f names p₀ ps = (p₀ :: ps).map (fresh E names) := by
  refine history_fresh pd E hE f names p₀ ps fun p hp => ⟨hs p hp, fun i hi => ⟨?_, ?_, ?_⟩⟩
  · have := hl p hp i hi
    cases hu : f (.uc i) <;> cases ho : f .offset <;> simp_all [pd]
  · intro hk
    have hk' : E.kind i = .ordered := by simpa [pd] using hk
    refine ⟨hk', fun h => ?_⟩
    rcases hm i hi hk' h with h | h | h | h
    · exact Or.inl (by simp [pd, h])
    · exact Or.inl (by simp [pd, h])
    · exact Or.inr (Or.inl h)
    · exact Or.inr (Or.inr h)
  · intro fl hfl
    simp [pd] at hfl

/-- **C77** for time of flight: every evaluation of a refinement gives the result of a computation from scratch, if when the cell is
refined the lists of reflections contain a zero index, and otherwise the calibration is not refined (there is no wavelength). -/
theorem history_fresh_tof (E : Env V I P R S O) (hE : E.Ok) (f : Grp → Bool) (names : List ℕ) (p₀ : Grp → V)
    (ps : List (Grp → V)) (hs : ∀ p ∈ p₀ :: ps, SameFixed f p p₀)
    (hprof : ∀ i l, DependsOn (fun p => E.prof i p l) [.uc i, .offset, .shape])
    (hl : ∀ p ∈ p₀ :: ps, ∀ i ∈ names, (f (.uc i) = true → HasZero (E.refl i p))
      ∧ (f (.uc i) = false → f .offset = false ∧ f .wave = false)) :
    history tof E f names p₀ ps = (p₀ :: ps).map (fresh E names) := by
  refine history_fresh tof E hE f names p₀ ps fun p hp => ⟨hs p hp, fun i hi => ⟨?_, ?_, ?_⟩⟩
  · have := hl p hp i hi
    cases hu : f (.uc i) <;> simp_all [tof]
  · intro hk
    simp [tof] at hk
  · intro fl hfl
    simp only [tof, Option.some.injEq] at hfl
    subst hfl
    exact hprof i

end Cryspy.PdStore
