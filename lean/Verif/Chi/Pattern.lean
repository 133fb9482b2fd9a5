import Verif.Chi.Model
import Mathlib.Algebra.BigOperators.Ring.List
import Mathlib.Tactic.Ring

/-!
# C64: the calculated powder pattern is the sum of the phases
-/

namespace Cryspy.Chi

variable {P : Type}

/-! ### specification -/

/-- specification: a phase with the crystal it is made of and, if it is textured, the preferred orientation of its reflections -/
structure Assigned (P : Type) where
  phase : Phase P
  crystal : Crystal
  factor : Option (Hkl → P → ℝ)

/-- specification: the intensity one phase puts at the point `t`, for the intensities `I` of the reflections -/
noncomputable def Assigned.contribution (I : Hkl → ℝ) (L : P → ℝ) (a : Assigned P) (t : P) : ℝ :=
  match a.factor with
  | none => (a.crystal.own.map fun h => a.phase.scale / 2 * L t * h.mult * I h * a.phase.profile t h.pos).sum
  | some f => (a.crystal.p1.map fun h => a.phase.scale / 2 * L t * h.mult * I h * f h t * a.phase.profile t h.pos).sum

/-- specification: `a` belongs to the crystals and textures of the experiment.  Names of phases and crystals are compared without case, the name
in the texture table is compared with the lowered name of the phase. -/
def Assigned.Valid (crystals : List Crystal) (tex : Option (Texture P)) (a : Assigned P) : Prop :=
  a.crystal ∈ crystals ∧ a.crystal.name.toLower = a.phase.name.toLower ∧
  match a.factor with
  | none => ∀ T, tex = some T → a.phase.name.toLower ∉ T.names
  | some f => ∃ T, tex = some T ∧ ∃ i : ℕ, T.names[i]? = some a.phase.name.toLower ∧ T.pars[i]? = some f

/-! ### lemmas -/

theorem zip_weights (g : Hkl → ℝ) (φ : ℝ → ℝ) (t : P) (f : Hkl → P → ℝ) (hs : List Hkl) :
    List.zipWith (fun (h : Hkl) (x : P → ℝ) => φ h.pos * x t) hs
      (List.zipWith (fun (h : Hkl) (x : P → ℝ) => fun t => g h * h.mult * x t) hs (hs.map f)) =
    hs.map fun h => φ h.pos * (g h * h.mult * f h t) := by
  induction hs with
  | nil => rfl
  | cons h hs ih => simp only [List.map_cons, List.zipWith_cons_cons, ih]

theorem zip_plain (g : Hkl → ℝ) (φ : ℝ → ℝ) (t : P) (hs : List Hkl) :
    List.zipWith (fun (h : Hkl) (x : P → ℝ) => φ h.pos * x t) hs (hs.map fun h => fun _ : P => g h * h.mult) =
    hs.map fun h => φ h.pos * (g h * h.mult) := by
  induction hs with
  | nil => rfl
  | cons h hs ih => simp only [List.map_cons, List.zipWith_cons_cons, ih]

theorem zip_two (s l : ℝ) (φ : ℝ → ℝ) (t : P) (f : Hkl → P → ℝ) (hs gs : List Hkl) :
    1 / 2 * s * l * (List.zipWith (fun (h : Hkl) (x : P → ℝ) => φ h.pos * x t) hs
      (List.zipWith (fun (h : Hkl) (x : P → ℝ) => fun t => h.plus * h.mult * x t) hs (gs.map f))).sum =
    (List.zipWith (fun h g => s / 2 * l * h.mult * h.plus * f g t * φ h.pos) hs gs).sum := by
  induction hs generalizing gs with
  | nil => simp
  | cons h hs ih =>
    cases gs with
    | nil => simp
    | cons g gs =>
      simp only [List.map_cons, List.zipWith_cons_cons, List.sum_cons, ← ih]
      ring

theorem signal_textured (L : P → ℝ) (ph : Phase P) (I : Hkl → ℝ) (hs : List Hkl) (f : Hkl → P → ℝ) (t : P) :
    signal L ph hs (List.zipWith (fun (h : Hkl) (x : P → ℝ) => fun t => I h * h.mult * x t) hs (hs.map f)) t =
    (hs.map fun h => ph.scale / 2 * L t * h.mult * I h * f h t * ph.profile t h.pos).sum := by
  unfold signal
  rw [zip_weights I (ph.profile t), ← List.sum_map_mul_left]
  exact congrArg List.sum (List.map_congr_left fun h _ => by ring)

theorem signal_plain (L : P → ℝ) (ph : Phase P) (I : Hkl → ℝ) (hs : List Hkl) (t : P) :
    signal L ph hs (hs.map fun h => fun _ : P => I h * h.mult) t =
    (hs.map fun h => ph.scale / 2 * L t * h.mult * I h * ph.profile t h.pos).sum := by
  unfold signal
  rw [zip_plain I (ph.profile t), ← List.sum_map_mul_left]
  exact congrArg List.sum (List.map_congr_left fun h _ => by ring)

theorem find_unique {crystals : List Crystal} (hn : (crystals.map fun c => c.name.toLower).Nodup) {c : Crystal} (hc : c ∈ crystals) {n : String}
    (he : c.name.toLower = n) : (crystals.find? fun c => c.name.toLower == n) = some c := by
  induction crystals with
  | nil => cases hc
  | cons d L ih =>
    rw [List.map_cons, List.nodup_cons] at hn
    rcases List.mem_cons.1 hc with rfl | hc
    · rw [List.find?_cons_of_pos (by simpa using he)]
    · rw [List.find?_cons_of_neg, ih hn.2 hc]
      simp only [beq_iff_eq]
      intro h
      exact hn.1 (List.mem_map.2 ⟨c, hc, by rw [he, h]⟩)

theorem findIdx_unique {names : List String} (hn : names.Nodup) {i : ℕ} {n : String} (h : names[i]? = some n) :
    (names.findIdx? fun m => m == n) = some i := by
  rw [List.findIdx?_eq_some_iff_getElem]
  obtain ⟨hi, e⟩ := List.getElem?_eq_some_iff.1 h
  refine ⟨hi, by simp [e], fun j hj => ?_⟩
  simp only [beq_iff_eq, Bool.not_eq_true, beq_eq_false_iff_ne, ne_eq]
  intro e'
  have := (List.Nodup.getElem_inj_iff hn).1 (e'.trans e.symm)
  omega

theorem findIdx_none {names : List String} {n : String} (h : n ∉ names) : (names.findIdx? fun m => m == n) = none := by
  rw [List.findIdx?_eq_none_iff]
  intro x hx
  simp only [beq_eq_false_iff_ne, ne_eq]
  rintro rfl
  exact h hx

/-- a textured phase -/
theorem step_textured {prog : Prog} (hprog : prog ≠ .tof) (L : P → ℝ) {crystals : List Crystal}
    (hn : (crystals.map fun c => c.name.toLower).Nodup) {T : Texture P} (hT : T.names.Nodup) {a : Assigned P} (ha : a.Valid crystals (some T))
    {f : Hkl → P → ℝ} (hf : a.factor = some f) {st : St P} (hst : st.pars = T.pars) :
    phaseStep prog L crystals (some T) st a.phase = .ok ⟨some (a.crystal.p1.map f), T.pars,
      fun t => st.plus t + a.contribution (·.plus) L t, fun t => st.minus t + a.contribution (·.minus) L t⟩ := by
  obtain ⟨hc, he, hx⟩ := ha
  rw [hf] at hx
  obtain ⟨T', e, i, hi, hp⟩ := hx
  cases e
  unfold phaseStep
  have h1 : ((some T : Option (Texture P)).bind fun T => T.names.findIdx? fun n => n == a.phase.name.toLower) = some i := findIdx_unique hT hi
  simp only [h1, hst, hp, find_unique hn hc he, hprog, if_false, Assigned.contribution, hf, signal_textured L a.phase (fun h => h.plus),
    signal_textured L a.phase (fun h => h.minus)]

/-- a phase without texture, where the program keeps it apart -/
theorem step_plain {prog : Prog} {tex : Option (Texture P)} (hpt : tex = none ∨ prog = .pd2d) (L : P → ℝ) {crystals : List Crystal}
    (hn : (crystals.map fun c => c.name.toLower).Nodup) {a : Assigned P} (ha : a.Valid crystals tex)
    (hf : a.factor = none) (st : St P) :
    phaseStep prog L crystals tex st a.phase = .ok ⟨st.po, st.pars,
      fun t => st.plus t + a.contribution (·.plus) L t, fun t => st.minus t + a.contribution (·.minus) L t⟩ := by
  obtain ⟨hc, he, hx⟩ := ha
  rw [hf] at hx
  unfold phaseStep
  have h1 : (tex.bind fun T => T.names.findIdx? fun n => n == a.phase.name.toLower) = none := by
    cases tex with
    | none => rfl
    | some T => exact findIdx_none (hx T rfl)
  have h2 : ¬ (tex.isSome ∧ prog ≠ .pd2d) := by
    rintro ⟨h, h'⟩
    rcases hpt with rfl | rfl
    · cases h
    · exact h' rfl
  simp only [h1, find_unique hn hc he, if_neg h2, Assigned.contribution, hf, signal_plain L a.phase (fun h => h.plus),
    signal_plain L a.phase (fun h => h.minus)]

theorem fold_spec {prog : Prog} {tex : Option (Texture P)} (L : P → ℝ) {crystals : List Crystal}
    (hn : (crystals.map fun c => c.name.toLower).Nodup) (hT : ∀ T, tex = some T → T.names.Nodup)
    {as : List (Assigned P)} (ha : ∀ a ∈ as, a.Valid crystals tex)
    (hp : tex = none ∨ prog = .pd2d ∨ (prog = .pd ∧ ∀ a ∈ as, a.factor ≠ none)) {st : St P} (hst : ∀ T, tex = some T → st.pars = T.pars) :
    ∃ po pars, (as.map (·.phase)).foldlM (m := Except Err) (phaseStep prog L crystals tex) st = .ok ⟨po, pars,
      fun t => st.plus t + (as.map fun a => a.contribution (·.plus) L t).sum,
      fun t => st.minus t + (as.map fun a => a.contribution (·.minus) L t).sum⟩ := by
  induction as generalizing st with
  | nil => exact ⟨st.po, st.pars, by simp; rfl⟩
  | cons a as ih =>
    have hp' : tex = none ∨ prog = .pd2d ∨ (prog = .pd ∧ ∀ a ∈ as, a.factor ≠ none) := by
      rcases hp with h | h | ⟨h, h'⟩
      · exact .inl h
      · exact .inr (.inl h)
      · exact .inr (.inr ⟨h, fun a ha => h' a (by simp [ha])⟩)
    have hstep : ∃ po, phaseStep prog L crystals tex st a.phase = .ok ⟨po, st.pars,
        fun t => st.plus t + a.contribution (·.plus) L t, fun t => st.minus t + a.contribution (·.minus) L t⟩ := by
      cases hf : a.factor with
      | none =>
        refine ⟨st.po, step_plain ?_ L hn (ha a (by simp)) hf st⟩
        rcases hp with h | h | ⟨h, h'⟩
        · exact .inl h
        · exact .inr h
        · exact absurd hf (h' a (by simp))
      | some f =>
        have hv := ha a (by simp)
        obtain ⟨T, e⟩ : ∃ T, tex = some T := by
          have := hv.2.2
          rw [hf] at this
          obtain ⟨T, e, -⟩ := this
          exact ⟨T, e⟩
        have hprog : prog ≠ .tof := by
          rcases hp with h | h | ⟨h, -⟩
          · rw [e] at h; cases h
          · rw [h]; decide
          · rw [h]; decide
        subst e
        refine ⟨some (a.crystal.p1.map f), ?_⟩
        rw [step_textured hprog L hn (hT T rfl) hv hf (hst T rfl), hst T rfl]
    obtain ⟨po, hs⟩ := hstep
    rw [List.map_cons, List.foldlM_cons, hs]
    obtain ⟨po', pars', h⟩ := ih (fun b hb => ha b (by simp [hb])) hp' (st := ⟨po, st.pars,
        fun t => st.plus t + a.contribution (·.plus) L t, fun t => st.minus t + a.contribution (·.minus) L t⟩) hst
    refine ⟨po', pars', ?_⟩
    show (as.map (·.phase)).foldlM (m := Except Err) (phaseStep prog L crystals tex) _ = _
    rw [h]
    simp only [List.map_cons, List.sum_cons, add_assoc]

/-! ### theorems -/

/-- **C64.** The calculated pattern is the sum over the phases of the intensities of their reflections.  For `pd` and `tof` the experiment must have
no texture table, or (for `pd`) every phase must be in it; for `pd2d` there is no such restriction. -/
theorem pattern_spec {prog : Prog} {tex : Option (Texture P)} (L : P → ℝ) {crystals : List Crystal}
    (hn : (crystals.map fun c => c.name.toLower).Nodup) (hT : ∀ T, tex = some T → T.names.Nodup)
    {as : List (Assigned P)} (ha : ∀ a ∈ as, a.Valid crystals tex)
    (hp : tex = none ∨ prog = .pd2d ∨ (prog = .pd ∧ ∀ a ∈ as, a.factor ≠ none)) :
    pattern prog L crystals tex (as.map (·.phase)) =
      .ok (fun t => (as.map fun a => a.contribution (·.plus) L t).sum, fun t => (as.map fun a => a.contribution (·.minus) L t).sum) := by
  obtain ⟨po, pars, h⟩ := fold_spec (prog := prog) L hn hT ha hp (st := initial tex) (by rintro T rfl; rfl)
  unfold pattern
  rw [h]
  simp [initial]

/-- the order in which the phases are listed does not matter -/
theorem pattern_perm {prog : Prog} {tex : Option (Texture P)} (L : P → ℝ) {crystals : List Crystal}
    (hn : (crystals.map fun c => c.name.toLower).Nodup) (hT : ∀ T, tex = some T → T.names.Nodup)
    {as bs : List (Assigned P)} (hab : as.Perm bs) (ha : ∀ a ∈ as, a.Valid crystals tex)
    (hp : tex = none ∨ prog = .pd2d ∨ (prog = .pd ∧ ∀ a ∈ as, a.factor ≠ none)) :
    pattern prog L crystals tex (as.map (·.phase)) = pattern prog L crystals tex (bs.map (·.phase)) := by
  rw [pattern_spec L hn hT ha hp, pattern_spec L hn hT (fun b hb => ha b (hab.mem_iff.2 hb))
    (hp.imp_right fun h => h.imp_right fun h => ⟨h.1, fun b hb => h.2 b (hab.mem_iff.2 hb)⟩)]
  congr 3
  · funext t; exact (hab.map _).sum_eq
  · funext t; exact (hab.map _).sum_eq

/-- a phase that is not among the crystals stops the calculation -/
theorem pattern_missing {prog : Prog} (L : P → ℝ) {crystals : List Crystal} {phases : List (Phase P)} {ph : Phase P} (hph : ph ∈ phases)
    (hm : ∀ c ∈ crystals, c.name.toLower ≠ ph.name.toLower) (tex : Option (Texture P)) : ∃ e, pattern prog L crystals tex phases = .error e := by
  have hfind : (crystals.find? fun c => c.name.toLower == ph.name.toLower) = none := by
    rw [List.find?_eq_none]
    intro c hc
    simpa using hm c hc
  have hstep : ∀ st, ∃ e, phaseStep prog L crystals tex st ph = .error e := by
    intro st
    unfold phaseStep
    dsimp only
    split
    · split
      · exact ⟨_, rfl⟩
      · rw [hfind]; exact ⟨_, rfl⟩
    · rw [hfind]; exact ⟨_, rfl⟩
  have : ∀ (l : List (Phase P)) (st : St P), ph ∈ l → ∃ e, l.foldlM (m := Except Err) (phaseStep prog L crystals tex) st = .error e := by
    intro l
    induction l with
    | nil => intro st h; cases h
    | cons x l ih =>
      intro st h
      rw [List.foldlM_cons]
      rcases List.mem_cons.1 h with rfl | h
      · obtain ⟨e, he⟩ := hstep st
        rw [he]; exact ⟨e, rfl⟩
      · cases hx : phaseStep prog L crystals tex st x with
        | error e => exact ⟨e, rfl⟩
        | ok st' => exact ih st' h
  obtain ⟨e, he⟩ := this phases (initial tex) hph
  refine ⟨e, ?_⟩
  unfold pattern
  rw [he]

/-- defect of `pd` and `tof`: with a texture table, a first phase that is not in it raises -/
theorem untextured_first_raises {prog : Prog} (hprog : prog ≠ .pd2d) (L : P → ℝ) {crystals : List Crystal}
    (hn : (crystals.map fun c => c.name.toLower).Nodup) {T : Texture P} {a : Assigned P} (ha : a.Valid crystals (some T)) (hf : a.factor = none)
    (rest : List (Phase P)) : pattern prog L crystals (some T) (a.phase :: rest) = .error .unbound := by
  obtain ⟨hc, he, hx⟩ := ha
  rw [hf] at hx
  have h1 : ((some T : Option (Texture P)).bind fun T => T.names.findIdx? fun n => n == a.phase.name.toLower) = none := findIdx_none (hx T rfl)
  have hs : phaseStep prog L crystals (some T) (initial (some T)) a.phase = .error .unbound := by
    unfold phaseStep
    simp only [h1, find_unique hn hc he]
    rw [if_pos ⟨rfl, hprog⟩]
    rfl
  unfold pattern
  rw [List.foldlM_cons, hs]
  rfl

/-- defect of `pd`: a phase that is not textured, listed after a textured one with equally many reflections, is multiplied by the preferred
orientation of the other phase -/
theorem untextured_after_textured_wrong (L : P → ℝ) {crystals : List Crystal}
    (hn : (crystals.map fun c => c.name.toLower).Nodup) {T : Texture P} (hT : T.names.Nodup) {a b : Assigned P}
    (ha : a.Valid crystals (some T)) (hb : b.Valid crystals (some T)) {f : Hkl → P → ℝ} (hfa : a.factor = some f) (hfb : b.factor = none)
    (hlen : a.crystal.p1.length = b.crystal.own.length) :
    ∃ m, pattern .pd L crystals (some T) [a.phase, b.phase] = .ok (fun t => a.contribution (·.plus) L t +
      (List.zipWith (fun h g => b.phase.scale / 2 * L t * h.mult * h.plus * f g t * b.phase.profile t h.pos) b.crystal.own a.crystal.p1).sum, m) := by
  have h1 := step_textured (prog := .pd) (by decide) L hn hT ha hfa (st := initial (some T)) rfl
  obtain ⟨hc, he, hx⟩ := hb
  rw [hfb] at hx
  have hi : ((some T : Option (Texture P)).bind fun T => T.names.findIdx? fun n => n == b.phase.name.toLower) = none := findIdx_none (hx T rfl)
  unfold pattern
  rw [List.foldlM_cons, h1]
  dsimp only [bind, Except.bind]
  rw [List.foldlM_cons]
  unfold phaseStep
  simp only [hi, find_unique hn hc he]
  rw [if_pos ⟨rfl, by decide⟩]
  simp only [broadcast, List.length_map, hlen, if_true]
  refine ⟨_, congrArg Except.ok (Prod.ext (funext fun t => ?_) rfl)⟩
  simp only [initial, zero_add, signal]
  congr 1
  exact zip_two _ _ (b.phase.profile t) t f _ _

end Cryspy.Chi
