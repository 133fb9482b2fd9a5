import Verif.Chi.Pattern
import Mathlib.Tactic.NormNum

/-!
# C64, continued: scale factors, the remaining defects, a concrete experiment
-/

namespace Cryspy.Chi

variable {P : Type}

/-- specification: the same phase with another scale factor -/
def Assigned.rescale (a : Assigned P) (s : ℝ) : Assigned P := { a with phase := { a.phase with scale := s } }

theorem contribution_rescale (I : Hkl → ℝ) (L : P → ℝ) (a : Assigned P) (s : ℝ) (t : P) :
    (a.rescale s).contribution I L t = s * (a.rescale 1).contribution I L t := by
  unfold Assigned.contribution Assigned.rescale
  cases a.factor <;> dsimp only <;> rw [← List.sum_map_mul_left] <;>
    exact congrArg List.sum (List.map_congr_left fun h _ => by ring)

theorem valid_rescale {crystals : List Crystal} {tex : Option (Texture P)} {a : Assigned P} {s : ℝ} :
    (a.rescale s).Valid crystals tex ↔ a.Valid crystals tex := Iff.rfl

/-- the pattern is linear in the scale factors: with the scales `s` it is `∑ sᵢ · Uᵢ`, where `Uᵢ` is the pattern of the phase `i` alone with the
scale one -/
theorem pattern_linear {prog : Prog} {tex : Option (Texture P)} (L : P → ℝ) {crystals : List Crystal}
    (hn : (crystals.map fun c => c.name.toLower).Nodup) (hT : ∀ T, tex = some T → T.names.Nodup)
    {as : List (Assigned P × ℝ)} (ha : ∀ a ∈ as, a.1.Valid crystals tex)
    (hp : tex = none ∨ prog = .pd2d ∨ (prog = .pd ∧ ∀ a ∈ as, a.1.factor ≠ none)) :
    ∃ U : Assigned P → (P → ℝ) × (P → ℝ), (∀ a ∈ as, pattern prog L crystals tex [(a.1.rescale 1).phase] = .ok (U a.1)) ∧
      pattern prog L crystals tex (as.map fun a => (a.1.rescale a.2).phase) =
        .ok (fun t => (as.map fun a => a.2 * (U a.1).1 t).sum, fun t => (as.map fun a => a.2 * (U a.1).2 t).sum) := by
  refine ⟨fun a => (fun t => (a.rescale 1).contribution (·.plus) L t, fun t => (a.rescale 1).contribution (·.minus) L t), fun a h => ?_, ?_⟩
  · have := pattern_spec (prog := prog) (as := [a.1.rescale 1]) L hn hT (by
      intro b hb
      rw [List.mem_singleton] at hb
      subst hb
      exact valid_rescale.2 (ha a h)) (hp.imp_right fun h' => h'.imp_right fun h' => ⟨h'.1, fun b hb => by
        rw [List.mem_singleton] at hb
        subst hb
        exact h'.2 a h⟩)
    simpa using this
  · have := pattern_spec (prog := prog) (as := as.map fun a => a.1.rescale a.2) L hn hT (by
      intro b hb
      obtain ⟨a, h, rfl⟩ := List.mem_map.1 hb
      exact valid_rescale.2 (ha a h)) (hp.imp_right fun h' => h'.imp_right fun h' => ⟨h'.1, fun b hb => by
        obtain ⟨a, h, rfl⟩ := List.mem_map.1 hb
        exact h'.2 a h⟩)
    rw [List.map_map] at this
    rw [show (as.map fun a => (a.1.rescale a.2).phase) = as.map ((fun x : Assigned P => x.phase) ∘ fun a => a.1.rescale a.2) from rfl, this]
    simp only [List.map_map]
    congr 3
    · funext t
      exact congrArg List.sum (List.map_congr_left fun a _ => contribution_rescale _ L a.1 a.2 t)
    · funext t
      exact congrArg List.sum (List.map_congr_left fun a _ => contribution_rescale _ L a.1 a.2 t)

/-- defect of `pd` and `tof`: after a textured phase, a phase that is not textured and has another number of reflections raises (unless the textured
one has a single reflection) -/
theorem untextured_after_textured_raises (L : P → ℝ) {crystals : List Crystal}
    (hn : (crystals.map fun c => c.name.toLower).Nodup) {T : Texture P} (hT : T.names.Nodup) {a b : Assigned P}
    (ha : a.Valid crystals (some T)) (hb : b.Valid crystals (some T)) {f : Hkl → P → ℝ} (hfa : a.factor = some f) (hfb : b.factor = none)
    (hlen : a.crystal.p1.length ≠ b.crystal.own.length) (h1 : a.crystal.p1.length ≠ 1) (rest : List (Phase P)) :
    pattern .pd L crystals (some T) (a.phase :: b.phase :: rest) = .error .shape := by
  have hs := step_textured (prog := .pd) (by decide) L hn hT ha hfa (st := initial (some T)) rfl
  obtain ⟨hc, he, hx⟩ := hb
  rw [hfb] at hx
  have hi : ((some T : Option (Texture P)).bind fun T => T.names.findIdx? fun n => n == b.phase.name.toLower) = none := findIdx_none (hx T rfl)
  have hbr : broadcast b.crystal.own.length (a.crystal.p1.map f) = none := by
    unfold broadcast
    rw [if_neg (by simpa using hlen)]
    match h : a.crystal.p1 with
    | [] => rfl
    | [x] => rw [h] at h1; exact absurd rfl h1
    | _ :: _ :: _ => rfl
  have hs2 : ∀ st : St P, st.po = some (a.crystal.p1.map f) → phaseStep .pd L crystals (some T) st b.phase = .error .shape := by
    intro st hst
    unfold phaseStep
    simp only [hi, find_unique hn hc he]
    rw [if_pos ⟨rfl, by decide⟩]
    simp only [hst, hbr]
  unfold pattern
  rw [List.foldlM_cons, hs]
  show (match (b.phase :: rest).foldlM (m := Except Err) (phaseStep .pd L crystals (some T)) _ with
    | .error e => Except.error e
    | .ok st => Except.ok (st.plus, st.minus)) = _
  rw [List.foldlM_cons, hs2 _ rfl]
  rfl

/-- defect of `tof`: the second textured phase raises, unless it is the first row of the texture table -/
theorem tof_second_textured_raises (L : P → ℝ) {crystals : List Crystal}
    (hn : (crystals.map fun c => c.name.toLower).Nodup) {T : Texture P} (hT : T.names.Nodup) {a b : Assigned P}
    (ha : a.Valid crystals (some T)) (hfa : a.factor ≠ none) {j : ℕ} (hj : 0 < j) (hjb : T.names[j]? = some b.phase.name.toLower)
    (rest : List (Phase P)) : pattern .tof L crystals (some T) (a.phase :: b.phase :: rest) = .error .index := by
  obtain ⟨hc, he, hx⟩ := ha
  cases hf : a.factor with
  | none => exact absurd hf hfa
  | some f =>
    rw [hf] at hx
    obtain ⟨T', e, i, hi, hp⟩ := hx
    cases e
    have h1 : ((some T : Option (Texture P)).bind fun T => T.names.findIdx? fun n => n == a.phase.name.toLower) = some i := findIdx_unique hT hi
    have h2 : ((some T : Option (Texture P)).bind fun T => T.names.findIdx? fun n => n == b.phase.name.toLower) = some j := findIdx_unique hT hjb
    have hini : (initial (some T)).pars = T.pars := rfl
    have hs2 : ∀ st : St P, st.pars = [f] → phaseStep .tof L crystals (some T) st b.phase = .error .index := by
      intro st hst
      unfold phaseStep
      have : ([f] : List (Hkl → P → ℝ))[j]? = none := List.getElem?_eq_none (by simp; omega)
      simp only [h2, hst, this]
    unfold pattern
    have hs1 : ∃ st, phaseStep .tof L crystals (some T) (initial (some T)) a.phase = .ok st ∧ st.pars = [f] := by
      unfold phaseStep
      simp only [h1, hini, hp, find_unique hn hc he, if_true]
      exact ⟨_, rfl, rfl⟩
    obtain ⟨st, e1, e2⟩ := hs1
    rw [List.foldlM_cons, e1]
    dsimp only [bind, Except.bind]
    rw [List.foldlM_cons, hs2 st e2]
    rfl

/-- a texture whose name is not in lower case is never found -/
theorem texture_case {prog : Prog} (L : P → ℝ) (crystals : List Crystal) {T : Texture P} (hT : ∀ n ∈ T.names, n.toLower ≠ n) (st : St P) (ph : Phase P)
    (hidem : ph.name.toLower.toLower = ph.name.toLower) (st' : St P) (h : phaseStep prog L crystals (some T) st ph = .ok st') : st'.po = st.po := by
  have h1 : ((some T : Option (Texture P)).bind fun T => T.names.findIdx? fun n => n == ph.name.toLower) = none := by
    apply findIdx_none
    intro hm
    exact hT _ hm hidem
  unfold phaseStep at h
  simp only [h1] at h
  split at h
  · cases h
  · split at h
    · split at h
      · cases h
      · split at h
        · cases h
        · rename_i hpo _ _ _
          cases h
          exact hpo.symm
    · cases h; rfl

/-- non-vacuity: two phases, one textured; the two crystals, the phases and the table meet the hypotheses of the theorems -/
example : ∃ (crystals : List Crystal) (T : Texture ℝ) (a b : Assigned ℝ), (crystals.map fun c => c.name.toLower).Nodup ∧ T.names.Nodup ∧
    a.Valid crystals (some T) ∧ b.Valid crystals (some T) ∧ a.factor ≠ none ∧ b.factor = none ∧
    a.crystal.p1.length = b.crystal.own.length ∧ a.contribution (·.plus) (fun _ => 1) 0 ≠ 0 := by
  refine ⟨[⟨"Fe", [], [⟨1, 1, 1, 8, 2, 1, 3⟩]⟩, ⟨"Si", [⟨1, 1, 1, 8, 5, 5, 2⟩], []⟩], ⟨["fe"], [fun _ _ => 2]⟩,
    ⟨⟨"fe", 1, fun _ _ => 1⟩, ⟨"Fe", [], [⟨1, 1, 1, 8, 2, 1, 3⟩]⟩, some fun _ _ => 2⟩,
    ⟨⟨"Si", 1, fun _ _ => 1⟩, ⟨"Si", [⟨1, 1, 1, 8, 5, 5, 2⟩], []⟩, none⟩, ?_, ?_, ?_, ?_, by simp, rfl, rfl, ?_⟩
  · have : ("Fe" : String).toLower ≠ "Si".toLower := by decide +kernel
    simp [this]
  · simp
  · have h : ("fe" : String).toLower = "fe" := by decide +kernel
    exact ⟨by simp, by decide +kernel, _, rfl, 0, by simp [h], rfl⟩
  · refine ⟨by simp, rfl, ?_⟩
    rintro T ⟨⟩
    have : ("Si" : String).toLower ≠ "fe" := by decide +kernel
    simpa using this
  · norm_num [Assigned.contribution]

end Cryspy.Chi
