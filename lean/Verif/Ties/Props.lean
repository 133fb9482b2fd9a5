import Verif.Ties.Model
import Verif.Refine.Props2
import Mathlib.Tactic.IntervalCases

/-!
# What a mark ties: theorems
-/

namespace Cryspy.Ties

open Cryspy.Take Cryspy.Refine

/-! ### specification -/

/-- where the parameter is in the dictionary of its block: for experiments `Take.slot`, for susceptibilities the component and the row of the loop
(cl_1_crystal.py:766-775) -/
inductive Entry : Par → String → List ℕ → Prop
  | exp {a : Attr} {key : String} {idx : List ℕ} (h : slot key idx = some a) : Entry (.exp a) key idx
  | chi (i k : ℕ) (n : String) (h : (["chi_11", "chi_22", "chi_33", "chi_12", "chi_13", "chi_23"] : List String)[k]? = some n) :
      Entry (.crystal n (some i)) "atom_para_susceptibility" [k, i]

/-- an attribute that exists -/
def Valid : Attr → Prop
  | .res j => j < 5
  | .asym j => j < 4
  | .phaseRes j _ => j < 5
  | .axis j _ => j < 3
  | .coeff i => i < 18
  | .alpha j => j < 2
  | .beta j => j < 2
  | .sigma j => j < 3
  | .gamma j => j < 3
  | _ => True

/-- parameters of an experiment that can be tied -/
def Tiable : Attr → Prop
  | .polarization | .efficiency | .wavelength | .offsetTtheta | .offsetGamma | .offsetNu | .mosaicity | .radius | .res _ | .scale _
  | .zero | .dtt1 | .dtt2 | .zerot | .dtt1t | .dtt2t => True
  | _ => False

/-- parameters that can be tied -/
def Supported : Par → Prop
  | .exp a => Valid a ∧ Tiable a
  | .crystal n i => n ∈ ["chi_11", "chi_22", "chi_33", "chi_12", "chi_13", "chi_23"] ∧ i.isSome

/-! ### names -/

theorem tiable_slot {a : Attr} (hv : Valid a) (h : Tiable a) : slot (Par.exp a).place.1 (Par.exp a).place.2 = some a := by
  cases a <;> simp only [Tiable] at h <;> try rfl
  rename_i j
  simp only [Valid] at hv
  interval_cases j <;> rfl

/-- the width parameters of a phase are taken for those of the instrument -/
theorem phase_width_confused {j i : ℕ} (h : j < 5) : slot (Par.exp (.phaseRes j i)).place.1 (Par.exp (.phaseRes j i)).place.2 = some (.res j) := by
  interval_cases j <;> rfl

/-- any other parameter of an experiment has no place -/
theorem unknown {a : Attr} (hv : Valid a) (h : ¬ Tiable a) (hp : ∀ j i, a ≠ .phaseRes j i) :
    slot (Par.exp a).place.1 (Par.exp a).place.2 = none := by
  cases a <;> simp only [Tiable, not_true_eq_false, not_false_eq_true, Valid] at h hv <;> try rfl
  all_goals first
    | exact absurd rfl (hp _ _)
    | (rename_i j; interval_cases j <;> rfl)
    | (rename_i j i; interval_cases j <;> rfl)

/-- a parameter of an experiment gets its own place exactly if it is one of those that can be tied -/
theorem own_place_iff {a : Attr} (hv : Valid a) : slot (Par.exp a).place.1 (Par.exp a).place.2 = some a ↔ Tiable a := by
  refine ⟨fun h => ?_, tiable_slot hv⟩
  by_contra hn
  by_cases hp : ∃ j i, a = .phaseRes j i
  · obtain ⟨j, i, rfl⟩ := hp
    rw [phase_width_confused hv] at h
    cases h
  · rw [unknown hv hn (fun j i e => hp ⟨j, i, e⟩)] at h
    cases h

/-- of the parameters of a crystal only the susceptibilities get the name of an array of its dictionary -/
theorem crystal_known_iff {n : String} (hn : n ∈ crystalAttrs) (i : Option ℕ) :
    (Par.crystal n i).place.1 ∈ crystalKeys ↔ n ∈ ["chi_11", "chi_22", "chi_33", "chi_12", "chi_13", "chi_23"] := by
  simp only [crystalAttrs, List.mem_cons, List.not_mem_nil, or_false] at hn
  rcases hn with rfl | rfl | rfl | rfl | rfl | rfl | rfl | rfl | rfl | rfl | rfl | rfl | rfl | rfl | rfl | rfl | rfl | rfl | rfl | rfl | rfl |
    rfl | rfl | rfl | rfl | rfl | rfl | rfl | rfl | rfl | rfl | rfl | rfl | rfl | rfl | rfl | rfl | rfl | rfl | rfl | rfl | rfl <;>
  simp [Par.place, transfer, crystalKeys]

theorem chi_cases {n : String} (h : n ∈ ["chi_11", "chi_22", "chi_33", "chi_12", "chi_13", "chi_23"]) (i : ℕ) :
    ∃ k, (["chi_11", "chi_22", "chi_33", "chi_12", "chi_13", "chi_23"] : List String)[k]? = some n ∧
      (Par.crystal n (some i)).place = ("atom_para_susceptibility", [k, i]) := by
  simp only [List.mem_cons, List.not_mem_nil, or_false] at h
  rcases h with rfl | rfl | rfl | rfl | rfl | rfl
  · exact ⟨0, rfl, rfl⟩
  · exact ⟨1, rfl, rfl⟩
  · exact ⟨2, rfl, rfl⟩
  · exact ⟨3, rfl, rfl⟩
  · exact ⟨4, rfl, rfl⟩
  · exact ⟨5, rfl, rfl⟩

/-- a parameter that can be tied gets its own place -/
theorem supported_entry {p : Par} (h : Supported p) : Entry p p.place.1 p.place.2 := by
  cases p with
  | exp a => exact .exp (tiable_slot h.1 h.2)
  | crystal n i =>
    obtain ⟨h, hi⟩ := h
    obtain ⟨i, rfl⟩ := Option.isSome_iff_exists.1 hi
    obtain ⟨k, hk, e⟩ := chi_cases h i
    rw [e]
    exact .chi i k n hk

theorem slot_chi (idx : List ℕ) : slot "atom_para_susceptibility" idx = none := by
  unfold slot
  split <;> first | rfl | (exfalso; simp_all)

/-- two parameters have different places -/
theorem entry_inj {p q : Par} {key : String} {idx : List ℕ} (hp : Entry p key idx) (hq : Entry q key idx) : p = q := by
  cases hp with
  | exp h =>
    cases hq with
    | exp h' => rw [h] at h'; cases h'; rfl
    | chi i k n hn => rw [slot_chi] at h; cases h
  | chi i k n hn =>
    cases hq with
    | exp h' => rw [slot_chi] at h'; cases h'
    | chi i' k' n' hn' => rw [hn] at hn'; cases hn'; rfl

/-- the place that holds an attribute -/
def whereIs : Attr → String × List ℕ
  | .polarization => ("beam_polarization", [0])
  | .efficiency => ("flipper_efficiency", [0])
  | .wavelength => ("wavelength", [0])
  | .offsetTtheta => ("offset_ttheta", [0])
  | .offsetGamma => ("offset_gamma", [0])
  | .offsetNu => ("offset_nu", [0])
  | .ratioLambda2 => ("c_lambda2", [0])
  | .mosaicity => ("extinction_mosaicity", [0])
  | .radius => ("extinction_radius", [0])
  | .res j => ("resolution_parameters", [j])
  | .phi => ("resolution_phi_parameter", [0])
  | .asym j => ("asymmetry_parameters", [j])
  | .bkg i => ("background_intensity", i)
  | .scale i => ("phase_scale", [i])
  | .igsize i => ("phase_ig", [i])
  | .phaseRes j i => ("phase_resolution_parameters", [j, i])
  | .g1 i => ("texture_g1", [i])
  | .g2 i => ("texture_g2", [i])
  | .axis j i => ("texture_axis", [j, i])
  | .zero => ("zero", [0])
  | .dtt1 => ("dtt1", [0])
  | .dtt2 => ("dtt2", [0])
  | .zerot => ("zerot", [0])
  | .dtt1t => ("dtt1t", [0])
  | .dtt2t => ("dtt2t", [0])
  | .coeff i => ("background_coefficients", [i])
  | .alpha j => ("profile_alphas", [j])
  | .beta j => ("profile_betas", [j])
  | .sigma j => ("profile_sigmas", [j])
  | .gamma j => ("profile_gammas", [j])

theorem slot_where {a : Attr} {key : String} {idx : List ℕ} (h : slot key idx = some a) : (key, idx) = whereIs a := by
  unfold slot at h
  split at h <;> first
    | (cases h; done)
    | (cases h; rfl)
    | (split_ifs at h; cases h; rfl)

/-- a parameter has one place -/
theorem entry_unique {p : Par} {k k' : String} {i i' : List ℕ} (h : Entry p k i) (h' : Entry p k' i') : (k, i) = (k', i') := by
  cases h with
  | exp h =>
    cases h' with
    | exp h' => rw [slot_where h, slot_where h']
  | chi i k n hn =>
    cases h' with
    | chi i' k' n' hn' =>
      have hnd : (["chi_11", "chi_22", "chi_33", "chi_12", "chi_13", "chi_23"] : List String).Nodup := by decide
      have hk : k < 6 := by
        obtain ⟨h, -⟩ := List.getElem?_eq_some_iff.1 hn
        simpa using h
      have := (List.getElem?_inj (by simpa using hk) hnd).1 (hn.trans hn'.symm)
      rw [this]

/-! ### what the objective does -/

theorem toName_inj {q q' : String × Par} (h : Supported q.2) (h' : Supported q'.2) (e : toName q = toName q') : q = q' := by
  obtain ⟨b, p⟩ := q
  obtain ⟨b', p'⟩ := q'
  simp only [toName, Prod.mk.injEq] at e
  obtain ⟨rfl, e⟩ := e
  have hp := supported_entry h
  have hp' := supported_entry h'
  simp only at hp hp'
  rw [e] at hp
  rw [entry_inj hp hp']

theorem labelConstraints_marked {N : Type} [DecidableEq N] (params : List (N × Text.Str)) {label : Text.Str} (h : label ≠ []) :
    labelConstraints (params.filter fun p => markLabel p.2 ≠ []) label = labelConstraints params label := by
  unfold labelConstraints
  rw [List.filter_filter]
  have : (params.filter fun p => decide (markLabel p.2 = label) && decide (markLabel p.2 ≠ [])) =
      params.filter fun p => decide (markLabel p.2 = label) := by
    refine List.filter_congr fun p _ => ?_
    by_cases e : markLabel p.2 = label
    · simp [e, h]
    · simp [e]
  rw [this]

theorem linearConstraints_marked {N : Type} [DecidableEq N] (params : List (N × Text.Str)) {order : List Text.Str} (h : [] ∉ order) :
    linearConstraints (params.filter fun p => markLabel p.2 ≠ []) order = linearConstraints params order := by
  unfold linearConstraints
  refine List.flatMap_congr fun l hl => labelConstraints_marked params fun e => h (e ▸ hl)

theorem objective_eq {known : Name → Bool} (names : List Name) (cs : List ((ℝ × Name) × (ℝ × Name))) (v : List ℝ) (dict : Name → ℝ)
    (h : ∀ c ∈ cs, known c.2.2 = true) : objective known names cs v dict = assign (freeNames names cs) cs v dict := by
  unfold objective assign
  simp only
  generalize freeNames names cs = free
  generalize (free.zip v).foldl (fun d t => Function.update d t.1 t.2) dict = d
  induction cs generalizing d with
  | nil => rfl
  | cons c cs ih =>
    simp only [List.foldlM_cons]
    cases free.findIdx? (· = c.1.2) with
    | none => rfl
    | some i =>
      cases hx : v[i]? with
      | none => simp [hx]
      | some x =>
        simp only [hx, Option.bind_eq_bind, Option.bind_some, h c (by simp), ↓reduceIte]
        exact ih (fun c' hc' => h c' (by simp [hc'])) _

/-- the places of a constraint are those of two marked parameters with the same label -/
theorem constraint_spec {params : List ((String × Par) × Text.Str)} {order : List Text.Str} {c : (ℝ × Name) × (ℝ × Name)}
    (hc : c ∈ constraints params order) : ∃ q ∈ params, ∃ q' ∈ params, markLabel q.2 = markLabel q'.2 ∧ markLabel q.2 ∈ order ∧
      c = ((markSign q.2, toName q.1), (-markSign q'.2, toName q'.1)) := by
  obtain ⟨l, hl, hc⟩ := List.mem_flatMap.1 hc
  unfold labelConstraints at hc
  split at hc
  · cases hc
  · rename_i first later hf
    obtain ⟨p, hp, rfl⟩ := List.mem_map.1 hc
    have h1 : first ∈ (params.map fun q => (toName q.1, q.2)).filter fun p => markLabel p.2 = l := by rw [hf]; simp
    have h2 : p ∈ (params.map fun q => (toName q.1, q.2)).filter fun p => markLabel p.2 = l := by rw [hf]; simp [hp]
    obtain ⟨h1, e1⟩ := List.mem_filter.1 h1
    obtain ⟨h2, e2⟩ := List.mem_filter.1 h2
    obtain ⟨q, hq, rfl⟩ := List.mem_map.1 h1
    obtain ⟨q', hq', rfl⟩ := List.mem_map.1 h2
    have e1 := of_decide_eq_true e1
    have e2 := of_decide_eq_true e2
    simp only at e1 e2
    exact ⟨q, hq, q', hq', e1.trans e2.symm, e1 ▸ hl, rfl⟩

/-- Parameters that can be tied are tied: whatever vector the minimiser tries, the numbers in the places of two parameters whose marks have the
same label agree up to the signs; the free parameters get the numbers of the minimiser and what is not refined stays. -/
theorem ties_hold (params : List ((String × Par) × Text.Str)) (order : List Text.Str)
    (hn : ((params.filter fun q => markLabel q.2 ≠ []).map (·.1)).Nodup)
    (hs : ∀ q ∈ params, markLabel q.2 ≠ [] → Supported q.1.2)
    (ho : order.Nodup) (hol : ∀ l, l ∈ order ↔ l ≠ [] ∧ ∃ q ∈ params, markLabel q.2 = l)
    (names : List Name) (hnn : names.Nodup) (known : Name → Bool) (hk : ∀ n ∈ names, known n = true)
    (hsub : ∀ q ∈ params, markLabel q.2 ≠ [] → ∀ key idx, Entry q.1.2 key idx → (q.1.1, key, idx) ∈ names) (v : List ℝ)
    (hv : v.length = (freeNames names (constraints params order)).length) (dict : Name → ℝ) :
    ∃ d, objective known names (constraints params order) v dict = some d ∧
      (∀ q ∈ params, ∀ q' ∈ params, markLabel q.2 = markLabel q'.2 → markLabel q.2 ≠ [] →
        ∀ key idx key' idx', Entry q.1.2 key idx → Entry q'.1.2 key' idx' →
          markSign q.2 * d (q.1.1, key, idx) = markSign q'.2 * d (q'.1.1, key', idx')) ∧
      (∀ t ∈ (freeNames names (constraints params order)).zip v, d t.1 = t.2) ∧
      (∀ w, w ∉ names → d w = dict w) := by
  have hne : [] ∉ order := fun h => ((hol []).1 h).1 rfl
  let marked := params.filter fun q => markLabel q.2 ≠ []
  have hmk : ∀ q, q ∈ marked ↔ q ∈ params ∧ markLabel q.2 ≠ [] := fun q => by simp [marked]
  have e0 : ((params.map fun q => (toName q.1, q.2)).filter fun p => markLabel p.2 ≠ []) = marked.map fun q => (toName q.1, q.2) := by
    rw [List.filter_map]
    rfl
  have ec : constraints params order = linearConstraints (marked.map fun q => (toName q.1, q.2)) order := by
    rw [← e0, linearConstraints_marked _ hne]
    rfl
  have hin : ∀ q ∈ marked, toName q.1 ∈ names := fun q hq =>
    hsub q ((hmk q).1 hq).1 ((hmk q).1 hq).2 _ _ (supported_entry (hs q ((hmk q).1 hq).1 ((hmk q).1 hq).2))
  have hkn : ∀ c ∈ constraints params order, known c.2.2 = true := by
    intro c hc
    obtain ⟨q, hq, q', hq', e, ho', rfl⟩ := constraint_spec hc
    refine hk _ (hin q' ((hmk q').2 ⟨hq', fun h0 => ?_⟩))
    rw [e, h0] at ho'
    exact hne ho'
  rw [objective_eq names _ v dict hkn]
  have hnd : ((marked.map fun q => (toName q.1, q.2)).map (·.1)).Nodup := by
    rw [List.map_map]
    have : (marked.map ((fun x : Name × Text.Str => x.1) ∘ fun q => (toName q.1, q.2))) = (marked.map (·.1)).map toName := by
      rw [List.map_map]
      rfl
    rw [this]
    refine List.Nodup.map_on ?_ hn
    intro a ha b hb e
    obtain ⟨q, hq, rfl⟩ := List.mem_map.1 ha
    obtain ⟨q', hq', rfl⟩ := List.mem_map.1 hb
    exact toName_inj (hs q ((hmk q).1 hq).1 ((hmk q).1 hq).2) (hs q' ((hmk q').1 hq').1 ((hmk q').1 hq').2) e
  rw [ec] at hv ⊢
  obtain ⟨d, hd, h1, h2, h3⟩ := marks_hold (marked.map fun q => (toName q.1, q.2)) hnd order ho (fun l => by
      rw [hol l]
      constructor
      · rintro ⟨hl, q, hq, rfl⟩
        exact ⟨hl, (toName q.1, q.2), List.mem_map.2 ⟨q, (hmk q).2 ⟨hq, hl⟩, rfl⟩, rfl⟩
      · rintro ⟨hl, p, hp, rfl⟩
        obtain ⟨q, hq, rfl⟩ := List.mem_map.1 hp
        exact ⟨hl, q, ((hmk q).1 hq).1, rfl⟩) names hnn (by
      intro p hp
      obtain ⟨q, hq, rfl⟩ := List.mem_map.1 hp
      exact hin q hq) v hv dict
  refine ⟨d, hd, fun q hq q' hq' e h0 key idx key' idx' he he' => ?_, h2, h3⟩
  have := h1 (toName q.1, q.2) (List.mem_map.2 ⟨q, (hmk q).2 ⟨hq, h0⟩, rfl⟩) (toName q'.1, q'.2)
    (List.mem_map.2 ⟨q', (hmk q').2 ⟨hq', e ▸ h0⟩, rfl⟩) e h0
  have e1 := entry_unique he (supported_entry (hs q hq h0))
  have e2 := entry_unique he' (supported_entry (hs q' hq' (e ▸ h0)))
  simp only [Prod.mk.injEq] at e1 e2
  simp only [toName] at this
  rw [e1.1, e1.2, e2.1, e2.2]
  exact this

theorem foldlM_none {known : Name → Bool} {free : List Name} {v : List ℝ} {c : (ℝ × Name) × (ℝ × Name)} (h : c.1.2 ∉ free ∨ known c.2.2 = false)
    (cs : List ((ℝ × Name) × (ℝ × Name))) (hc : c ∈ cs) (d : Name → ℝ) :
    cs.foldlM (fun d c => do
      let coeff := -c.2.1 / c.1.1
      let i ← free.findIdx? (· = c.1.2)
      let x ← v[i]?
      if known c.2.2 then some (Function.update d c.2.2 (coeff * x)) else none) d = none := by
  induction cs generalizing d with
  | nil => cases hc
  | cons c' cs ih =>
    rw [List.foldlM_cons]
    simp only [Option.bind_eq_bind]
    rcases List.mem_cons.1 hc with rfl | hc
    · rcases h with h | h
      · have : free.findIdx? (· = c.1.2) = none := by
          rw [List.findIdx?_eq_none_iff]
          intro x hx
          simp only [decide_eq_false_iff_not]
          rintro rfl
          exact h hx
        rw [this]
        rfl
      · cases free.findIdx? (· = c.1.2) with
        | none => rfl
        | some i => cases hx : v[i]? <;> simp [hx, h]
    · cases free.findIdx? (· = c'.1.2) with
      | none => rfl
      | some i =>
        cases hx : v[i]? with
        | none => simp [hx]
        | some x =>
          by_cases hk : known c'.2.2 = true
          · simp only [hx, Option.bind_some, hk, ↓reduceIte]
            exact ih hc _
          · simp [hx, hk]

/-- Known failure: if one of two parameters with marks of the same label, of which there are no others, has a place that is none of the parameters
of the calculation and not in its dictionary, the refinement raises. -/
theorem unknown_raises {params : List ((String × Par) × Text.Str)} {order : List Text.Str} {q q' : (String × Par) × Text.Str} {label : Text.Str}
    (hl : label ∈ order) (hf : (params.filter fun p => markLabel p.2 = label) = [q, q']) (names : List Name) (known : Name → Bool)
    (h : toName q.1 ∉ names ∨ known (toName q'.1) = false) (v : List ℝ) (dict : Name → ℝ) :
    objective known names (constraints params order) v dict = none := by
  have hc : ((markSign q.2, toName q.1), (-markSign q'.2, toName q'.1)) ∈ constraints params order := by
    refine List.mem_flatMap.2 ⟨label, hl, ?_⟩
    have : ((params.map fun q => (toName q.1, q.2)).filter fun p => markLabel p.2 = label) = [(toName q.1, q.2), (toName q'.1, q'.2)] := by
      rw [List.filter_map]
      have : (params.filter ((fun p : Name × Text.Str => decide (markLabel p.2 = label)) ∘ fun q => (toName q.1, q.2))) = [q, q'] := by
        rw [← hf]
        rfl
      rw [this]
      rfl
    unfold labelConstraints
    rw [this]
    simp
  exact foldlM_none (c := ((markSign q.2, toName q.1), (-markSign q'.2, toName q'.1))) (h.imp_left fun h hm => h (List.mem_filter.1 hm).1) _ hc _

/-- Known failure: tying a width parameter of two phases of one experiment raises. -/
theorem phase_widths_raise {params : List ((String × Par) × Text.Str)} {order : List Text.Str} {b : String} {j i i' : ℕ} {m m' : Text.Str}
    {label : Text.Str} (hl : label ∈ order)
    (hf : (params.filter fun p => markLabel p.2 = label) = [((b, .exp (.phaseRes j i)), m), ((b, .exp (.phaseRes j i')), m')])
    (names : List Name) (known : Name → Bool) (v : List ℝ) (dict : Name → ℝ) :
    objective known names (constraints params order) v dict = none := by
  have hc : ((markSign m, toName (b, .exp (.phaseRes j i))), (-markSign m', toName (b, .exp (.phaseRes j i')))) ∈ constraints params order := by
    refine List.mem_flatMap.2 ⟨label, hl, ?_⟩
    have : ((params.map fun q => (toName q.1, q.2)).filter fun p => markLabel p.2 = label) =
        [(toName (b, .exp (.phaseRes j i)), m), (toName (b, .exp (.phaseRes j i')), m')] := by
      rw [List.filter_map]
      have : (params.filter ((fun p : Name × Text.Str => decide (markLabel p.2 = label)) ∘ fun q => (toName q.1, q.2))) =
          [((b, .exp (.phaseRes j i)), m), ((b, .exp (.phaseRes j i')), m')] := by
        rw [← hf]
        rfl
      rw [this]
      rfl
    unfold labelConstraints
    rw [this]
    simp
  refine foldlM_none (Or.inl fun hm => ?_) _ hc _
  have e : toName (b, .exp (.phaseRes j i)) = toName (b, .exp (.phaseRes j i')) := by
    simp only [toName, Par.place, attrName]
    by_cases h0 : j < 4
    · interval_cases j <;> rfl
    · obtain ⟨k, rfl⟩ : ∃ k, j = k + 4 := ⟨j - 4, by omega⟩
      rfl
  have := (List.mem_filter.1 hm).2
  simp only [List.mem_map, decide_eq_true_eq, not_exists, not_and] at this
  exact this _ hc e.symm

/-- Known failure: the same width parameter of phases of two experiments, if that of both instruments is refined too: the instruments are tied and
the phases are not. -/
theorem phase_widths_tie_instruments {b b' : String} (hb : b ≠ b') {j i i' : ℕ} (hj : j < 5) {m m' : Text.Str}
    (hm : markLabel m = markLabel m') (hm0 : markLabel m ≠ []) (names : List Name) (hnn : names.Nodup) (known : Name → Bool)
    (hk : ∀ n ∈ names, known n = true) (h1 : (b, "resolution_parameters", [j]) ∈ names) (h2 : (b', "resolution_parameters", [j]) ∈ names) (v : List ℝ)
    (hv : v.length = (names.filter (· ≠ (b', "resolution_parameters", [j]))).length) (dict : Name → ℝ) :
    ∃ d, objective known names (constraints [((b, .exp (.phaseRes j i)), m), ((b', .exp (.phaseRes j i')), m')] [markLabel m]) v dict = some d ∧
      markSign m * d (b, "resolution_parameters", [j]) = markSign m' * d (b', "resolution_parameters", [j]) ∧
      ∀ t ∈ (names.filter (· ≠ (b', "resolution_parameters", [j]))).zip v, d t.1 = t.2 := by
  have e : ∀ (b : String) (i : ℕ), toName (b, .exp (.phaseRes j i)) = toName (b, .exp (.res j)) := by
    intro b i
    interval_cases j <;> rfl
  have e' : ∀ b : String, toName (b, .exp (.res j)) = (b, "resolution_parameters", [j]) := by
    intro b
    interval_cases j <;> rfl
  have ec : constraints [((b, .exp (.phaseRes j i)), m), ((b', .exp (.phaseRes j i')), m')] [markLabel m] =
      [((markSign m, (b, "resolution_parameters", [j])), (-markSign m', (b', "resolution_parameters", [j])))] := by
    simp [constraints, linearConstraints, labelConstraints, e, e', hm]
  have ec' : constraints [((b, .exp (.res j)), m), ((b', .exp (.res j)), m')] [markLabel m] =
      [((markSign m, (b, "resolution_parameters", [j])), (-markSign m', (b', "resolution_parameters", [j])))] := by
    simp [constraints, linearConstraints, labelConstraints, e', hm]
  have ef : freeNames names [((markSign m, (b, "resolution_parameters", [j])), (-markSign m', (b', "resolution_parameters", [j])))] =
      names.filter (· ≠ (b', "resolution_parameters", [j])) := by
    unfold freeNames
    refine List.filter_congr fun w _ => ?_
    simp
  have hE : ∀ b : String, Entry (.exp (.res j)) "resolution_parameters" [j] := fun b => .exp (by interval_cases j <;> rfl)
  obtain ⟨d, hd, h3, h4, -⟩ := ties_hold [((b, .exp (.res j)), m), ((b', .exp (.res j)), m')] [markLabel m]
    (by simp [hm0, ← hm, hb]) (by simp [Supported, Valid, Tiable, hj]) (by simp)
    (by
      intro l
      simp only [List.mem_cons, List.not_mem_nil, or_false, exists_eq_or_imp, exists_eq_left, ← hm, or_self]
      constructor
      · rintro rfl; exact ⟨hm0, rfl⟩
      · rintro ⟨-, rfl⟩; rfl) names hnn known hk
    (by
      intro q hq _ key idx he
      simp only [List.mem_cons, List.not_mem_nil, or_false] at hq
      rcases hq with rfl | rfl
      · have := entry_unique he (hE b)
        rw [this]; exact h1
      · have := entry_unique he (hE b')
        rw [this]; exact h2) v (by rw [ec', ef]; exact hv) dict
  rw [ec'] at hd h4
  rw [ef] at h4
  rw [ec]
  exact ⟨d, hd, h3 ((b, .exp (.res j)), m) (by simp) ((b', .exp (.res j)), m') (by simp) hm hm0 _ _ _ _ (hE b) (hE b'), h4⟩

/-- instance: the polarizations of two experiments, tied, and the susceptibilities of two atoms, one the negative of the other -/
theorem example_ties :
    let params : List ((String × Par) × Text.Str) := [(("pd_a", .exp .polarization), "p".toList), (("pd_b", .exp .polarization), "p".toList),
      (("crystal_c", .crystal "chi_11" (some 0)), "s".toList), (("crystal_c", .crystal "chi_12" (some 1)), "s-".toList)]
    let names : List Name := [("crystal_c", "atom_para_susceptibility", [0, 0]), ("crystal_c", "atom_para_susceptibility", [3, 1]),
      ("pd_a", "beam_polarization", [0]), ("pd_b", "beam_polarization", [0])]
    ∃ d, objective (fun n => n ∈ names) names (constraints params ["s".toList, "p".toList]) [2, 3 / 4] (fun _ => 0) = some d ∧
      d ("crystal_c", "atom_para_susceptibility", [0, 0]) = 2 ∧ d ("crystal_c", "atom_para_susceptibility", [3, 1]) = -2 ∧
      d ("pd_a", "beam_polarization", [0]) = 3 / 4 ∧ d ("pd_b", "beam_polarization", [0]) = 3 / 4 := by
  intro params names
  have hc : constraints params ["s".toList, "p".toList] =
      [((1, ("crystal_c", "atom_para_susceptibility", [0, 0])), (1, ("crystal_c", "atom_para_susceptibility", [3, 1]))),
        ((1, ("pd_a", "beam_polarization", [0])), (-1, ("pd_b", "beam_polarization", [0])))] := by
    simp [params, constraints, linearConstraints, labelConstraints, toName, Par.place, transfer, attrName, markLabel, markSign]
  rw [hc]
  have hf : freeNames names [((1, ("crystal_c", "atom_para_susceptibility", [0, 0])), (1, ("crystal_c", "atom_para_susceptibility", [3, 1]))),
        ((1, ("pd_a", "beam_polarization", [0])), (-1, ("pd_b", "beam_polarization", [0])))] =
      [("crystal_c", "atom_para_susceptibility", [0, 0]), ("pd_a", "beam_polarization", [0])] := by
    simp [freeNames, names]
  unfold objective
  rw [hf]
  simp [names, Function.update, List.findIdx?_cons]

end Cryspy.Ties
