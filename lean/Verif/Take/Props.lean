import Verif.Take.Model
import Verif.Sect.Props

/-!
# C81: refined parameters come back to the attributes they were taken from
-/

namespace Cryspy.Take

open Real

/-- The entry of the dictionary an attribute stands for. -/
def place : Attr → String × List ℕ
  | .polarization => ("beam_polarization", [0])
  | .efficiency => ("flipper_efficiency", [0])
  | .wavelength => ("wavelength", [0])
  | .offsetTtheta => ("offset_ttheta", [0])
  | .offsetGamma => ("offset_gamma", [0])
  | .offsetNu => ("offset_nu", [0])
  | .ratioLambda2 => ("c_lambda2", [0])
  | .mosaicity => ("extinction_mosaicity", [0])
  | .radius => ("extinction_radius", [0])
  | .res j => ("resolution_parameters", [j])
  | .phi => ("resolution_phi_parameter", [0])
  | .asym j => ("asymmetry_parameters", [j])
  | .bkg i => ("background_intensity", i)
  | .scale i => ("phase_scale", [i])
  | .igsize i => ("phase_ig", [i])
  | .phaseRes j i => ("phase_resolution_parameters", [j, i])
  | .g1 i => ("texture_g1", [i])
  | .g2 i => ("texture_g2", [i])
  | .axis j i => ("texture_axis", [j, i])
  | .zero => ("zero", [0])
  | .dtt1 => ("dtt1", [0])
  | .dtt2 => ("dtt2", [0])
  | .zerot => ("zerot", [0])
  | .dtt1t => ("dtt1t", [0])
  | .dtt2t => ("dtt2t", [0])
  | .coeff i => ("background_coefficients", [i])
  | .alpha j => ("profile_alphas", [j])
  | .beta j => ("profile_betas", [j])
  | .sigma j => ("profile_sigmas", [j])
  | .gamma j => ("profile_gammas", [j])

theorem place_of_slot {k : String} {i : List ℕ} {a : Attr} (h : slot k i = some a) : place a = (k, i) := by
  unfold slot at h
  split at h <;> first
    | (simp only [Option.some.injEq] at h; subst h; rfl)
    | (split_ifs at h; simp only [Option.some.injEq] at h; subst h; rfl)
    | cases h

theorem slot_of_source {kind : Kind} {a : Attr} {p : String × List ℕ} (h : source kind a = some p) : slot p.1 p.2 = some a ∧ place a = p := by
  unfold source at h
  split at h <;> first
    | (simp only [Option.some.injEq] at h; subst h; exact ⟨rfl, rfl⟩)
    | (split_ifs at h with hc; simp only [Option.some.injEq] at h; subst h; refine ⟨?_, rfl⟩; simp only [slot]; rw [if_pos hc])
    | cases h

/-- the bounds of the attributes, C02 -/
def Bounded (kind : Kind) (a : Attr) (v : ℝ) : Prop :=
  match a with
  | .wavelength | .mosaicity | .radius | .igsize _ => 0 ≤ v
  | .res j => kind = .pd2d → 3 ≤ j → 0 ≤ v
  | _ => True

/-- An experiment with the items of its kind, values within their bounds; scale and crystallite size are given for every phase. -/
structure WF (kind : Kind) (o : Exp) : Prop where
  items : ∀ a, (o.val a).isSome → Has kind a
  bounds : ∀ a v, o.val a = some v → Bounded kind a v
  scale : ∀ i, (o.val (.scale i)).isSome ↔ i < o.nPhase
  igsize : ∀ i, (o.val (.igsize i)).isSome ↔ i < o.nPhase

theorem phaseValue_eq {o : Exp} {f : ℕ → Attr} (h : ∀ i, (o.val (f i)).isSome ↔ i < o.nPhase) (i : ℕ) : phaseValue o f i = o.val (f i) := by
  unfold phaseValue
  split_ifs with h1 h2
  · rfl
  · exact absurd (fun k hk => (h k).2 hk) h2
  · have := (h i).not.2 h1
    exact (by simpa using this : o.val (f i) = none).symm

theorem stored_get {kind : Kind} {o : Exp} (wf : WF kind o) {a : Attr} (ha : source kind a ≠ none) {x : ℝ} (hx : o.val a = some x) :
    ∃ v, dictValue o a = some v ∧ stored kind a v = match a with | .bkg _ => if kind = .pd2d then Sect.round5 x else x | _ => x := by
  have hb := wf.bounds a x hx
  have hpi : (π : ℝ) ≠ 0 := pi_ne_zero
  cases a <;> simp only [dictValue, stored, hx, Option.map_some, Option.some.injEq, exists_eq_left', phaseValue_eq wf.scale,
    phaseValue_eq wf.igsize]
  case offsetTtheta => field_simp
  case offsetGamma => field_simp
  case offsetNu => field_simp
  case wavelength => exact max_eq_left hb
  case mosaicity => exact max_eq_left hb
  case radius => exact max_eq_left hb
  case igsize => exact max_eq_left hb
  case res j =>
    split_ifs with hc
    · exact max_eq_left (hb hc.1 hc.2)
    · rfl
  case phaseRes j i => exact absurd (by cases kind <;> rfl) ha

/-- C81: what the refinement finds is written to the attribute it was taken from: with whatever numbers the entries of the dictionary end up, the
attribute of an entry gets its number (`stored`: in degrees for offsets, within the bounds of the attribute). -/
theorem refined_written (kind : Kind) (o : Exp) (d : Dict) {k : String} {i : List ℕ} {a : Attr} {v : ℝ} (hs : slot k i = some a)
    (hv : d k i = some v) (ha : source kind a ≠ none) : (take kind d o).val a = some (stored kind a v) := by
  obtain ⟨p, hp⟩ := Option.ne_none_iff_exists'.1 ha
  have e : p = (k, i) := by rw [← (slot_of_source hp).2, place_of_slot hs]
  subst e
  simp only [take, hp, hv]

/-- C81: nothing else changes: an attribute that is not refined keeps its value when the refinement changed only entries that are refined; the
background of a two-dimensional pattern is rounded to five decimals.  In particular a calculation without refinement leaves the experiment as it is. -/
theorem not_refined_unchanged {kind : Kind} {o : Exp} (wf : WF kind o) (d : Dict) (hd : ∀ k i, ¬ Refined o k i → d k i = get o k i) (a : Attr)
    (ha : o.flag a = false ∨ source kind a = none) :
    (take kind d o).val a = match a with
      | .bkg _ => if kind = .pd2d then (o.val a).map Sect.round5 else o.val a
      | _ => o.val a := by
  cases hp : source kind a with
  | none =>
    have : (take kind d o).val a = o.val a := by simp only [take, hp]
    rw [this]
    cases a <;> try rfl
    case bkg i => cases kind <;> first | rfl | (simp only [source] at hp; cases hp)
  | some p =>
    have hf : o.flag a = false := by
      rcases ha with h | h
      · exact h
      · rw [h] at hp; cases hp
    obtain ⟨hs, hpl⟩ := slot_of_source hp
    have hnr : ¬ Refined o p.1 p.2 := by
      rintro ⟨b, hb, hfl, -⟩
      rw [hs] at hb
      obtain rfl := Option.some.inj hb
      rw [hf] at hfl; cases hfl
    have hg : d p.1 p.2 = dictValue o a := by
      rw [hd _ _ hnr]; simp only [get, hs, Option.bind_some]
    simp only [take, hp]
    rw [hg]
    cases hx : o.val a with
    | some x =>
      obtain ⟨v, hv, hst⟩ := stored_get wf (by rw [hp]; simp) hx
      rw [hv]
      simp only [hst]
      cases a <;> simp only [Option.map_some]
      split_ifs <;> rfl
    | none =>
      have hn : dictValue o a = none := by
        cases a <;> simp only [dictValue, phaseValue_eq wf.scale, phaseValue_eq wf.igsize, hx, Option.map_none]
        case phaseRes j i => cases kind <;> simp [source] at hp
      rw [hn]
      cases a <;> simp

/-- C81: the number stored: within half of the fifth decimal for the background of a two-dimensional pattern, otherwise the number found, in degrees for
offsets, if it is within the bounds. -/
theorem stored_spec (kind : Kind) (a : Attr) (v : ℝ) (hb : Bounded kind a v) :
    stored kind a v = v ∨ (∃ i, a = .bkg i ∧ kind = .pd2d ∧ |stored kind a v - v| ≤ 1 / 2 / 10 ^ 5) ∨
    ((a = .offsetTtheta ∨ a = .offsetGamma ∨ a = .offsetNu) ∧ stored kind a v * (π / 180) = v) := by
  have hpi : (π : ℝ) ≠ 0 := pi_ne_zero
  have off : v * 180 / π * (π / 180) = v := by field_simp
  cases a <;> simp only [stored]
  case offsetTtheta => right; right; exact ⟨by simp, off⟩
  case offsetGamma => right; right; exact ⟨by simp, off⟩
  case offsetNu => right; right; exact ⟨by simp, off⟩
  case wavelength => left; exact max_eq_left hb
  case mosaicity => left; exact max_eq_left hb
  case radius => left; exact max_eq_left hb
  case igsize => left; exact max_eq_left hb
  case res j =>
    left
    split_ifs with hc
    · exact max_eq_left (hb hc.1 hc.2)
    · rfl
  case bkg i =>
    split_ifs with hc
    · right; left
      refine ⟨i, rfl, hc, ?_⟩
      have h := Sect.rint_spec (v * 10 ^ 5)
      have e : Sect.round5 v - v = ((Sect.rint (v * 10 ^ 5) : ℝ) - v * 10 ^ 5) / 10 ^ 5 := by unfold Sect.round5; field_simp
      rw [e, abs_div, abs_of_pos (by positivity : (0 : ℝ) < 10 ^ 5)]
      gcongr
    · left; rfl
  all_goals exact Or.inl trivial

/-- Attributes of which the calculation uses the value, that `take_parameters_from_dictionary` does not write. -/
def Lost (kind : Kind) (a : Attr) : Prop :=
  match kind with
  | .pd => a = .ratioLambda2 ∨ a = .offsetGamma ∨ a = .offsetNu ∨ a = .mosaicity ∨ a = .radius ∨ ∃ j i, a = .phaseRes j i
  | .pd2d => a = .ratioLambda2 ∨ a = .offsetTtheta ∨ a = .mosaicity ∨ a = .radius ∨ ∃ j i, a = .phaseRes j i
  | .tof => a = .wavelength ∨ a = .offsetTtheta ∨ a = .offsetGamma ∨ a = .offsetNu ∨ a = .ratioLambda2 ∨ (∃ i, a = .g1 i) ∨ (∃ i, a = .g2 i) ∨
      (∃ j i, a = .axis j i) ∨ ∃ j i, a = .phaseRes j i
  | .diffrn => a = .wavelength ∨ a = .offsetTtheta ∨ a = .offsetGamma ∨ a = .offsetNu ∨ a = .ratioLambda2 ∨ (∃ i, a = .igsize i) ∨
      ∃ j i, a = .phaseRes j i

/-- C81: the attributes that are not written, all of them. -/
theorem lost_iff (kind : Kind) (a : Attr) (h : Has kind a) : source kind a = none ↔ Lost kind a := by
  cases kind <;> cases a
  case diffrn.scale i => rcases i with _ | i <;> simp_all [source, Lost, Has]
  all_goals simp_all [source, Lost, Has]

/-- C81: a refined attribute of that list keeps the value it had before the refinement, whatever the refinement found. -/
theorem lost_keeps {kind : Kind} {a : Attr} (h : Has kind a) (hl : Lost kind a) (o : Exp) (d : Dict) : (take kind d o).val a = o.val a := by
  have := (lost_iff kind a h).2 hl
  simp only [take, this]

/-- C81: the fraction of half the wavelength of a single crystal experiment can be refined, and what is found is lost. -/
theorem ratio_lambda2_lost (o : Exp) (d : Dict) {x v : ℝ} (hx : o.val .ratioLambda2 = some x) (hf : o.flag .ratioLambda2 = true)
    (hd : d "c_lambda2" [0] = some v) (hne : v ≠ x) :
    Refined o "c_lambda2" [0] ∧ (take .diffrn d o).val .ratioLambda2 = some x ∧ get (take .diffrn d o) "c_lambda2" [0] ≠ d "c_lambda2" [0] := by
  have h1 : (take .diffrn d o).val .ratioLambda2 = some x := by
    rw [lost_keeps (by simp [Has]) (by simp [Lost]), hx]
  refine ⟨⟨_, rfl, hf, by rw [hx]; rfl⟩, h1, ?_⟩
  have h2 : get (take .diffrn d o) "c_lambda2" [0] = (take .diffrn d o).val .ratioLambda2 := rfl
  rw [h2, h1, hd]
  intro h; exact hne (Option.some.inj h).symm

/-- C81: so are the resolution parameters of a phase in a powder experiment. -/
theorem phase_resolution_lost (kind : Kind) (o : Exp) (d : Dict) (j i : ℕ) :
    (take kind d o).val (.phaseRes j i) = o.val (.phaseRes j i) := by
  have : source kind (.phaseRes j i) = none := by cases kind <;> rfl
  simp only [take, this]

/-- C81: if one phase has no crystallite size, a calculation without any refinement sets the sizes of all the others to zero. -/
theorem igsize_of_others_erased {kind : Kind} (hk : kind ≠ .diffrn) (o : Exp) {i k : ℕ} (hi : i < o.nPhase) (hk2 : k < o.nPhase)
    (hn : o.val (.igsize k) = none) : (take kind (get o) o).val (.igsize i) = some 0 := by
  have hs : source kind (.igsize i) = some ("phase_ig", [i]) := by cases kind <;> first | rfl | exact absurd rfl hk
  have hg : get o "phase_ig" [i] = some 0 := by
    change phaseValue o .igsize i = some 0
    unfold phaseValue
    rw [if_pos hi, if_neg (fun h => by have := h k hk2; rw [hn] at this; cases this)]
  simp only [take, hs, hg, stored, max_self]

/-- C81: and so are the scale factors if one phase has none. -/
theorem scale_of_others_erased {kind : Kind} (hk : kind ≠ .diffrn) (o : Exp) {i k : ℕ} (hi : i < o.nPhase) (hk2 : k < o.nPhase)
    (hn : o.val (.scale k) = none) : (take kind (get o) o).val (.scale i) = some 0 := by
  have hs : source kind (.scale i) = some ("phase_scale", [i]) := by cases kind <;> first | rfl | exact absurd rfl hk | simp [source]
  have hg : get o "phase_scale" [i] = some 0 := by
    change phaseValue o .scale i = some 0
    unfold phaseValue
    rw [if_pos hi, if_neg (fun h => by have := h k hk2; rw [hn] at this; cases this)]
  simp only [take, hs, hg, stored]

/-- C81: a crystallite size refined to a negative number comes back as zero: the experiment is not the one for which `chi_sq` was found. -/
theorem negative_igsize (kind : Kind) (hk : kind ≠ .diffrn) (o : Exp) (d : Dict) (i : ℕ) {v : ℝ} (hd : d "phase_ig" [i] = some v) (hv : v < 0) :
    (take kind d o).val (.igsize i) = some 0 := by
  have hs : source kind (.igsize i) = some ("phase_ig", [i]) := by cases kind <;> first | rfl | exact absurd rfl hk
  simp only [take, hs, hd, stored, max_eq_right hv.le]

/-! ## errors -/

theorem slot_of_target {kind : Kind} {k : String} {i : List ℕ} {a b : Attr} (h : sigmaTarget kind k i = some a) (hb : slot k i = some b)
    (hk : kind = .diffrn → Has kind b) : a = b := by
  have hp := place_of_slot hb
  cases b <;> simp only [place, Prod.mk.injEq] at hp <;> obtain ⟨rfl, rfl⟩ := hp <;> cases kind <;> first
    | exact (Option.some.inj (show some _ = some a from h)).symm
    | exact absurd (show none = some a from h) (Option.some_ne_none a).symm
    | skip
  case scale.diffrn i =>
    rcases i with _ | i
    · exact (Option.some.inj (show some _ = some a from h)).symm
    · exact absurd (hk rfl) (by simp [Has])
  all_goals
    simp only [sigmaTarget] at h
    first
      | (split_ifs at h; exact (Option.some.inj h).symm)
      | cases h

theorem foldl_sigma_other {kind : Kind} (l : List ((String × List ℕ) × ℝ)) (s : Attr → ℝ) (a : Attr)
    (h : ∀ p ∈ l, sigmaTarget kind p.1.1 p.1.2 ≠ some a) :
    l.foldl (sigmaStep kind) s a = s a := by
  induction l generalizing s with
  | nil => rfl
  | cons p l ih =>
    rw [List.foldl_cons, ih _ (fun q hq => h q (List.mem_cons_of_mem _ hq))]
    have := h p List.mem_cons_self
    cases hp : sigmaTarget kind p.1.1 p.1.2 with
    | none => simp only [sigmaStep, hp]
    | some b =>
      have hne : a ≠ b := fun e => this (by rw [hp, e])
      simp only [sigmaStep, hp, Function.update_of_ne hne]

/-- The entries a refinement varies: those of attributes of the experiment. -/
def Entries (kind : Kind) (l : List ((String × List ℕ) × ℝ)) : Prop :=
  (l.map Prod.fst).Nodup ∧ ∀ p ∈ l, ∃ a, slot p.1.1 p.1.2 = some a ∧ Has kind a

/-- C81: the error of a refined entry goes to the attribute of this entry, in degrees for offsets; for the attributes that get their errors. -/
theorem sigma_written {kind : Kind} (o : Exp) (l : List ((String × List ℕ) × ℝ)) (hl : Entries kind l) {p : (String × List ℕ) × ℝ} (hp : p ∈ l)
    {a : Attr} (ha : slot p.1.1 p.1.2 = some a) (ht : sigmaTarget kind p.1.1 p.1.2 ≠ none) :
    (takeSigmas kind l o).sig a = sigmaValue a p.2 := by
  obtain ⟨hn, he⟩ := hl
  have key : ∀ q ∈ l, sigmaTarget kind q.1.1 q.1.2 = some a → q.1 = p.1 := by
    intro q hq h
    obtain ⟨b, hb, hh⟩ := he q hq
    have : a = b := slot_of_target h hb (fun _ => hh)
    subst this
    have h1 := place_of_slot hb
    rw [place_of_slot ha] at h1
    exact h1.symm
  have hpt : sigmaTarget kind p.1.1 p.1.2 = some a := by
    obtain ⟨b, hb⟩ := Option.ne_none_iff_exists'.1 ht
    obtain ⟨c, hc, hh⟩ := he p hp
    rw [ha] at hc
    obtain rfl := Option.some.inj hc
    rw [hb, slot_of_target hb ha (fun _ => hh)]
  unfold takeSigmas
  simp only
  obtain ⟨l1, l2, rfl⟩ := List.append_of_mem hp
  rw [List.foldl_append, List.foldl_cons, foldl_sigma_other (kind := kind)]
  · simp only [sigmaStep, hpt, Function.update_self]
  · intro q hq h
    have hqe := key q (by simp [hq]) h
    rw [List.map_append, List.map_cons, List.nodup_append] at hn
    have h3 := (List.nodup_cons.1 hn.2.1).1
    exact h3 (hqe ▸ List.mem_map_of_mem hq)

/-- C81: errors of attributes that were not refined do not change. -/
theorem sigma_other {kind : Kind} (o : Exp) (l : List ((String × List ℕ) × ℝ)) (hl : Entries kind l) (a : Attr)
    (ha : ∀ p ∈ l, slot p.1.1 p.1.2 ≠ some a) : (takeSigmas kind l o).sig a = o.sig a := by
  unfold takeSigmas
  apply foldl_sigma_other
  intro q hq h
  obtain ⟨b, hb, hh⟩ := hl.2 q hq
  have : a = b := slot_of_target h hb (fun _ => hh)
  subst this
  exact ha q hq hb

/-- Attributes the refined values of which come back without their errors. -/
def NoError (kind : Kind) (a : Attr) : Prop :=
  match kind with
  | .pd | .diffrn => False
  | .pd2d => (∃ i, a = .g1 i) ∨ ∃ i, a = .g2 i
  | .tof => a = .zero ∨ a = .dtt1 ∨ a = .dtt2 ∨ a = .zerot ∨ a = .dtt1t ∨ a = .dtt2t ∨ (∃ i, a = .coeff i) ∨ (∃ i, a = .bkg i) ∨
      (∃ j, a = .alpha j) ∨ (∃ j, a = .beta j) ∨ (∃ j, a = .sigma j) ∨ ∃ j, a = .gamma j

/-- C81: of the attributes that are written, these get no error, and no others. -/
theorem no_error_iff (kind : Kind) (a : Attr) (h : Has kind a) (hs : source kind a ≠ none) :
    sigmaTarget kind (place a).1 (place a).2 = none ↔ NoError kind a := by
  cases kind <;> cases a <;> simp_all [source, NoError, Has, sigmaTarget, place]

/-- C81: in a time-of-flight experiment no refinement gives errors of the diffractometer constants, of the background and of the peak shape. -/
theorem tof_errors_lost (o : Exp) (l : List ((String × List ℕ) × ℝ)) (hl : Entries .tof l) (a : Attr) (ha : NoError .tof a) :
    (takeSigmas .tof l o).sig a = o.sig a := by
  unfold takeSigmas
  apply foldl_sigma_other
  intro q hq h
  obtain ⟨b, hb, hh⟩ := hl.2 q hq
  have e : a = b := slot_of_target h hb (fun _ => hh)
  subst e
  have hp := place_of_slot hb
  have : sigmaTarget .tof (place a).1 (place a).2 = none := by
    rcases ha with rfl | rfl | rfl | rfl | rfl | rfl | ⟨i, rfl⟩ | ⟨i, rfl⟩ | ⟨i, rfl⟩ | ⟨i, rfl⟩ | ⟨i, rfl⟩ | ⟨i, rfl⟩ <;> rfl
  rw [hp] at this
  rw [this] at h
  cases h

/-! ## an experiment -/

/-- A powder experiment with a background of two points and two phases. -/
noncomputable def pattern : Exp where
  val a := match a with
    | .polarization => some 0.7
    | .efficiency => some 1
    | .wavelength => some 1.4
    | .offsetTtheta => some (-0.3)
    | .res 0 => some 16.9
    | .res 1 => some (-2.8)
    | .bkg [0] => some 256
    | .bkg [1] => some 158
    | .scale 0 => some 0.02
    | .scale 1 => some 1.5
    | .igsize 0 => some 0
    | .igsize 1 => some 0.1
    | _ => none
  sig _ := 0
  flag a := match a with
    | .offsetTtheta | .scale _ | .bkg _ => true
    | _ => false
  nPhase := 2

theorem pattern_wf : WF .pd pattern where
  items a h := by
    revert h
    simp only [pattern]
    split <;> simp [Has]
  bounds a v h := by
    revert h
    simp only [pattern]
    split <;> simp [Bounded] <;> rintro rfl <;> norm_num
  scale i := by
    rcases i with _ | _ | i <;> simp [pattern]
  igsize i := by
    rcases i with _ | _ | i <;> simp [pattern]

/-- The refinement changes the offset to 0.01 rad; it comes back in degrees, everything else stays. -/
example : ∃ d : Dict, (∀ k i, ¬ Refined pattern k i → d k i = get pattern k i) ∧ Refined pattern "offset_ttheta" [0] ∧
    (take .pd d pattern).val .offsetTtheta = some (0.01 * 180 / π) ∧ (take .pd d pattern).val (.res 1) = some (-2.8) := by
  refine ⟨fun k i => if k = "offset_ttheta" ∧ i = [0] then some 0.01 else get pattern k i, ?_, ⟨_, rfl, rfl, rfl⟩, ?_, ?_⟩
  · intro k i h
    dsimp only
    split_ifs with hc
    · obtain ⟨rfl, rfl⟩ := hc
      exact absurd ⟨_, rfl, rfl, rfl⟩ h
    · rfl
  · exact refined_written .pd pattern _ (k := "offset_ttheta") (i := [0]) (v := 0.01) rfl (by simp) (by simp [source])
  · exact not_refined_unchanged pattern_wf _ (fun k i h => by
      split_ifs with hc
      · obtain ⟨rfl, rfl⟩ := hc
        exact absurd ⟨_, rfl, rfl, rfl⟩ h
      · rfl) (.res 1) (Or.inl rfl)

example : Entries .pd [(("offset_ttheta", [0]), 0.001), (("phase_scale", [1]), 0.02)] := by
  refine ⟨by simp, ?_⟩
  intro p hp
  simp only [List.mem_cons, List.not_mem_nil, or_false] at hp
  rcases hp with rfl | rfl
  · exact ⟨_, rfl, trivial⟩
  · exact ⟨_, rfl, trivial⟩

end Cryspy.Take
