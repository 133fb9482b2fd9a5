import Verif.Mem.Model
import Mathlib.Tactic.Linarith
import Mathlib.Tactic.FieldSimp
import Mathlib.Tactic.Positivity
import Mathlib.Tactic.Ring
import Mathlib.Tactic.NormNum
import Mathlib.Algebra.BigOperators.Ring.List

/-! # C34: normalisation of densities -/

namespace Cryspy.Mem

variable {volume points : ℚ}

theorem total_map_mul (c : ℚ) (l : List Pt) : total (l.map fun p => { p with den := c * p.den }) = c * total l := by
  unfold total
  rw [List.map_map, ← List.sum_map_mul_left]
  congr 1
  apply List.map_congr_left
  intro p _
  simp only [Function.comp]; ring

/-- one factor for all points -/
def Scaled (c : ℚ) (l l' : List Pt) : Prop := l' = l.map fun p => { p with den := c * p.den }

theorem renormCol_eq (l : List Pt) : renormCol volume points l = l.map fun p => { p with den := (points / volume / total l) * p.den } := by
  unfold renormCol
  apply List.map_congr_left
  intro p _
  congr 1; ring

/-- after normalisation the cell holds one electron, all values being multiplied by one number -/
theorem renormCol_total (hv : volume ≠ 0) (hp : points ≠ 0) {l : List Pt} (h : total l ≠ 0) :
    electrons volume points (renormCol volume points l) = 1 ∧ ∃ c, Scaled c l (renormCol volume points l) := by
  rw [renormCol_eq]
  refine ⟨?_, _, rfl⟩
  unfold electrons
  rw [total_map_mul]
  field_simp

/-- normalising twice is normalising once -/
theorem renormCol_idem (hv : volume ≠ 0) (hp : points ≠ 0) {l : List Pt} (h : total l ≠ 0) :
    renormCol volume points (renormCol volume points l) = renormCol volume points l := by
  have h1 := (renormCol_total hv hp h).1
  have ht : total (renormCol volume points l) = points / volume := by
    unfold electrons at h1
    field_simp at h1 ⊢
    linarith
  conv_lhs => rw [renormCol_eq, ht]
  have : points / volume / (points / volume) = 1 := div_self (div_ne_zero hp hv)
  rw [this]
  conv_rhs => rw [← List.map_id (renormCol volume points l)]
  apply List.map_congr_left
  intro p _
  simp

theorem total_ones (l : List Pt) : total (l.map fun p => { p with den := 1 }) = (l.map (·.mult)).sum := by
  unfold total; rw [List.map_map]
  congr 1
  apply List.map_congr_left
  intro p _
  simp

/-- the uniform density is one electron per volume when the multiplicities add up to the number of points -/
theorem uniformCol_spec (hp : points ≠ 0) {l : List Pt} (h : (l.map (·.mult)).sum = points) {p : Pt}
    (hm : p ∈ uniformCol volume points l) : p.den = 1 / volume := by
  unfold uniformCol renormCol at hm
  rw [total_ones, h] at hm
  simp only [List.map_map, List.mem_map, Function.comp] at hm
  obtain ⟨q, -, rfl⟩ := hm
  simp only
  field_simp

/-! ### per atom, mempy -/

/-- the density of each atom on its own points, relative to the number of equivalent atoms -/
def Normal (volume points : ℚ) (l : List PtA) : Prop := ∀ a, (∃ p ∈ l, p.label = a) → atomTotal a l * (volume / points) = 1

theorem atomTotal_scale (a : List Char) (l : List PtA) (c : PtA → ℚ) (k : ℚ) (hc : ∀ p ∈ l, p.label = a → c p = k) :
    atomTotal a (l.map fun p => { p with den := p.den * c p }) = atomTotal a l * k := by
  unfold atomTotal
  rw [List.filter_map, List.map_map, ← List.sum_map_mul_right]
  congr 1
  have e : ((fun p : PtA => decide (p.label = a)) ∘ fun p : PtA => { p with den := p.den * c p }) = fun p => decide (p.label = a) := by
    funext p; rfl
  rw [e]
  apply List.map_congr_left
  intro p hp
  rw [List.mem_filter, decide_eq_true_eq] at hp
  simp only [Function.comp, hc p hp.1 hp.2]
  ring

theorem chi_fold {coeff : ℚ} {l : List PtA} (L : List (List Char)) (hL : L.Nodup) (cur : List PtA) :
    (L.foldlM (fun (cur : List PtA) a =>
      if atomTotal a l = 0 then none
      else some (cur.map fun p => if p.label = a then { p with den := p.den * (coeff / atomTotal a l) } else p)) cur) =
    if ∃ a ∈ L, atomTotal a l = 0 then none
    else some (cur.map fun p => { p with den := p.den * (if p.label ∈ L then coeff / atomTotal p.label l else 1) }) := by
  induction L generalizing cur with
  | nil => simp
  | cons a L ih =>
    rw [List.nodup_cons] at hL
    rw [List.foldlM_cons]
    by_cases h : atomTotal a l = 0
    · rw [if_pos h, if_pos ⟨a, by simp, h⟩]; rfl
    · rw [if_neg h]
      show (L.foldlM _ _) = _
      rw [ih hL.2]
      by_cases h2 : ∃ b ∈ L, atomTotal b l = 0
      · rw [if_pos h2, if_pos]
        obtain ⟨b, hb, e⟩ := h2
        exact ⟨b, by simp [hb], e⟩
      · rw [if_neg h2, if_neg, List.map_map]
        · congr 1
          apply List.map_congr_left
          intro p _
          simp only [Function.comp]
          by_cases hp : p.label = a
          · simp [hp, hL.1]
          · simp [hp]
        · rintro ⟨b, hb, e⟩
          rcases List.mem_cons.1 hb with rfl | hb
          · exact h e
          · exact h2 ⟨b, hb, e⟩

/-- after normalisation every atom has density one per atom of the cell, all points of a basin being multiplied by one number; it fails
exactly when some basin has density zero -/
theorem renormChi_spec (hv : volume ≠ 0) (hp : points ≠ 0) (l : List PtA) :
    (renormChi volume points l = none ↔ ∃ p ∈ l, atomTotal p.label l = 0) ∧
    ∀ l', renormChi volume points l = some l' → Normal volume points l' ∧
      ∃ c : List Char → ℚ, l' = l.map fun p => { p with den := p.den * c p.label } := by
  unfold renormChi
  dsimp only
  rw [chi_fold _ (List.nodup_dedup _)]
  constructor
  · constructor
    · intro h
      by_contra hc
      rw [if_neg] at h
      · cases h
      · rintro ⟨a, ha, e⟩
        rw [List.mem_dedup, List.mem_map] at ha
        obtain ⟨p, hp, rfl⟩ := ha
        exact hc ⟨p, hp, e⟩
    · rintro ⟨p, hp, e⟩
      rw [if_pos ⟨p.label, List.mem_dedup.2 (List.mem_map.2 ⟨p, hp, rfl⟩), e⟩]
  · intro l' h
    split at h
    · cases h
    · rename_i hne
      cases h
      constructor
      · rintro a ⟨q, hq, rfl⟩
        obtain ⟨p, hp', rfl⟩ := List.mem_map.1 hq
        have hmem : p.label ∈ (l.map fun p => p.label).dedup := List.mem_dedup.2 (List.mem_map.2 ⟨p, hp', rfl⟩)
        have h0 : atomTotal p.label l ≠ 0 := fun e => hne ⟨_, hmem, e⟩
        show atomTotal p.label _ * _ = 1
        rw [atomTotal_scale p.label l _ (points / volume / atomTotal p.label l)]
        · field_simp
        · intro r _ hr
          rw [hr, if_pos hmem]
      · exact ⟨fun a => if a ∈ (l.map fun p => p.label).dedup then points / volume / atomTotal a l else 1, rfl⟩

/-- a normalised density is left as it is -/
theorem renormChi_fixed (hv : volume ≠ 0) (hp : points ≠ 0) {l : List PtA} (h : Normal volume points l) : renormChi volume points l = some l := by
  unfold renormChi
  dsimp only
  rw [chi_fold _ (List.nodup_dedup _)]
  have hn : ∀ p ∈ l, atomTotal p.label l = points / volume := by
    intro p hp'
    have := h p.label ⟨p, hp', rfl⟩
    field_simp at this ⊢
    linarith
  rw [if_neg]
  · congr 1
    conv_rhs => rw [← List.map_id l]
    apply List.map_congr_left
    intro p hp'
    rw [if_pos (List.mem_dedup.2 (List.mem_map.2 ⟨p, hp', rfl⟩)), hn p hp', div_self (div_ne_zero hp hv), mul_one]
    rfl
  · rintro ⟨a, ha, e⟩
    rw [List.mem_dedup, List.mem_map] at ha
    obtain ⟨p, hp', rfl⟩ := ha
    rw [hn p hp'] at e
    exact div_ne_zero hp hv e

/-- normalising twice is normalising once -/
theorem renormChi_idem (hv : volume ≠ 0) (hp : points ≠ 0) {l l' : List PtA} (h : renormChi volume points l = some l') :
    renormChi volume points l' = some l' := renormChi_fixed hv hp ((renormChi_spec hv hp l).2 l' h).1

/-! ### DensityPointL -/

/-- the basin of an atom after a pass over the points that changes densities label by label -/
theorem basin_map (a : List Char) (f : Pt → ℚ) (l : List Pt) :
    basin a (l.map fun p => { p with den := f p }) = (basin a l).map fun p => { p with den := f p } := by
  unfold basin
  rw [List.filter_map]
  rfl

theorem renormAtom_eq (coeff : ℚ) (l : List Pt) (at' : List Char × ℚ) : ∃ f : Pt → ℚ,
    renormAtom coeff l at' = (l.map fun p => { p with den := f p }) ∧ ∀ p, p.label ≠ at'.1.take 10 → f p = p.den := by
  unfold renormAtom
  dsimp only
  by_cases h : total (basin (at'.1.take 10) l) * coeff = 0
  · simp only [h, if_true, List.map_map]
    refine ⟨fun p => if p.label = at'.1.take 10 then at'.2 / (coeff * ((basin (at'.1.take 10) l).map (·.mult)).sum) * (at'.2 / at'.2) else p.den,
      ?_, fun p hp => if_neg hp⟩
    apply List.map_congr_left
    intro p _
    simp only [Function.comp]
    by_cases hl : p.label = at'.1.take 10 <;> simp [hl]
  · simp only [h, if_false]
    refine ⟨fun p => if p.label = at'.1.take 10 then p.den * (at'.2 / (total (basin (at'.1.take 10) l) * coeff)) else p.den,
      ?_, fun p hp => if_neg hp⟩
    apply List.map_congr_left
    intro p _
    by_cases hl : p.label = at'.1.take 10 <;> simp [hl]

/-- an atom's electrons after its turn -/
theorem renormAtom_self {coeff : ℚ} (hc : coeff ≠ 0) {l : List Pt} {at' : List Char × ℚ} (hm : at'.2 ≠ 0)
    (hw : ((basin (at'.1.take 10) l).map (·.mult)).sum ≠ 0) : total (basin (at'.1.take 10) (renormAtom coeff l at')) * coeff = at'.2 := by
  unfold renormAtom
  dsimp only
  set a := at'.1.take 10
  by_cases h : total (basin a l) * coeff = 0
  · simp only [h, if_true, List.map_map]
    have e : (l.map ((fun p => if p.label = a then { p with den := p.den * (at'.2 / at'.2) } else p) ∘ fun p =>
        if p.label = a then { p with den := at'.2 / (coeff * ((basin a l).map (·.mult)).sum) } else p)) =
        l.map fun p => { p with den := if p.label = a then at'.2 / (coeff * ((basin a l).map (·.mult)).sum) else p.den } := by
      apply List.map_congr_left
      intro p _
      simp only [Function.comp]
      by_cases hl : p.label = a <;> simp [hl, hm]
    rw [e, basin_map]
    have e2 : ((basin a l).map fun p => ({ p with den := if p.label = a then at'.2 / (coeff * ((basin a l).map (·.mult)).sum) else p.den } : Pt)) =
        ((basin a l).map fun p => { p with den := 1 }).map fun p => { p with den := at'.2 / (coeff * ((basin a l).map (·.mult)).sum) * p.den } := by
      rw [List.map_map]
      apply List.map_congr_left
      intro p hp
      simp only [basin, List.mem_filter, decide_eq_true_eq] at hp
      simp [hp.2]
    rw [e2, total_map_mul, total_ones]
    field_simp
  · simp only [h, if_false]
    have e : (l.map fun p => if p.label = a then ({ p with den := p.den * (at'.2 / (total (basin a l) * coeff)) } : Pt) else p) =
        l.map fun p => { p with den := if p.label = a then p.den * (at'.2 / (total (basin a l) * coeff)) else p.den } := by
      apply List.map_congr_left
      intro p _
      by_cases hl : p.label = a <;> simp [hl]
    rw [e, basin_map]
    have e2 : ((basin a l).map fun p => ({ p with den := if p.label = a then p.den * (at'.2 / (total (basin a l) * coeff)) else p.den } : Pt)) =
        (basin a l).map fun p => { p with den := (at'.2 / (total (basin a l) * coeff)) * p.den } := by
      apply List.map_congr_left
      intro p hp
      simp only [basin, List.mem_filter, decide_eq_true_eq] at hp
      simp [hp.2]; ring
    rw [e2, total_map_mul]
    have ht : total (basin a l) ≠ 0 := fun e => h (by rw [e, zero_mul])
    field_simp

/-- the other atoms are not touched -/
theorem renormAtom_other {coeff : ℚ} {l : List Pt} {at' : List Char × ℚ} {a : List Char} (h : a ≠ at'.1.take 10) :
    basin a (renormAtom coeff l at') = basin a l := by
  obtain ⟨f, e, hf⟩ := renormAtom_eq coeff l at'
  rw [e, basin_map]
  conv_rhs => rw [← List.map_id (basin a l)]
  apply List.map_congr_left
  intro p hp
  simp only [basin, List.mem_filter, decide_eq_true_eq] at hp
  have := hf p (by rw [hp.2]; exact h)
  rw [this]; rfl

theorem basin_mults {coeff : ℚ} (l : List Pt) (at' : List Char × ℚ) (a : List Char) :
    ((basin a (renormAtom coeff l at')).map (·.mult)) = (basin a l).map (·.mult) := by
  obtain ⟨f, e, -⟩ := renormAtom_eq coeff l at'
  rw [e, basin_map, List.map_map]; rfl

theorem renorm_fold {coeff : ℚ} (hc : coeff ≠ 0) (atoms : List (List Char × ℚ)) (hd : (atoms.map fun a => a.1.take 10).Nodup)
    (l : List Pt) {at' : List Char × ℚ} (hat : at' ∈ atoms) (hm : at'.2 ≠ 0) (hw : ((basin (at'.1.take 10) l).map (·.mult)).sum ≠ 0) :
    total (basin (at'.1.take 10) (atoms.foldl (renormAtom coeff) l)) * coeff = at'.2 := by
  have keep : ∀ (L : List (List Char × ℚ)) (l : List Pt) (a : List Char), a ∉ L.map (fun a => a.1.take 10) →
      basin a (L.foldl (renormAtom coeff) l) = basin a l := by
    intro L
    induction L with
    | nil => intro l a _; rfl
    | cons b L ih =>
      intro l a ha
      simp only [List.map_cons, List.mem_cons, not_or] at ha
      rw [List.foldl_cons, ih _ _ ha.2, renormAtom_other ha.1]
  induction atoms generalizing l with
  | nil => cases hat
  | cons b L ih =>
    rw [List.map_cons, List.nodup_cons] at hd
    rw [List.foldl_cons]
    rcases List.mem_cons.1 hat with rfl | hat
    · rw [keep _ _ _ hd.1]
      exact renormAtom_self hc hm hw
    · apply ih hd.2 _ hat
      rw [basin_mults]
      exact hw

/-- **C34.** After `renormalize_numpy_densities` both channels of the background hold one electron, and every atom whose label has at most ten
characters holds as many electrons as it has equivalents in the cell, even when its density was zero before -/
theorem renormalize_spec (hv : volume ≠ 0) (hp : points ≠ 0) {atoms : List (List Char × ℚ)} (hlen : ∀ a ∈ atoms, a.1.length ≤ 10)
    (hd : (atoms.map (·.1)).Nodup) (c : Cloud) (hf : total c.ferro ≠ 0) (ha : total c.anti ≠ 0) :
    electrons volume points (renormalize volume points atoms false c).ferro = 1 ∧
    electrons volume points (renormalize volume points atoms false c).anti = 1 ∧
    ∀ at' ∈ atoms, at'.2 ≠ 0 → ((basin at'.1 c.atoms).map (·.mult)).sum ≠ 0 →
      electrons volume points (basin at'.1 (renormalize volume points atoms false c).atoms) = at'.2 := by
  have hc : volume / points ≠ 0 := div_ne_zero hv hp
  have ch : ∀ l : List Pt, total l ≠ 0 → total (l.map fun p => { p with den := p.den / (total l * (volume / points)) }) * (volume / points) = 1 := by
    intro l hl
    have e : (l.map fun p => ({ p with den := p.den / (total l * (volume / points)) } : Pt)) =
        l.map fun p => { p with den := (1 / (total l * (volume / points))) * p.den } := by
      apply List.map_congr_left
      intro p _
      congr 1; ring
    rw [e, total_map_mul]
    field_simp
  have t10 : ∀ a ∈ atoms, a.1.take 10 = a.1 := fun a h => List.take_of_length_le (hlen a h)
  refine ⟨ch _ hf, ch _ ha, fun at' hat hm hw => ?_⟩
  have hd' : (atoms.map fun a => a.1.take 10).Nodup := by
    rw [List.map_congr_left t10]; exact hd
  have := renorm_fold hc atoms hd' c.atoms hat hm (by rw [t10 _ hat]; exact hw)
  rw [t10 _ hat] at this
  exact this

/-- defect: an atom with a longer label gets nothing, since the label is cut to ten characters and no longer equals that of the basin -/
theorem long_label_wrong (volume points : ℚ) {a : List Char} (h : 10 < a.length) (m : ℚ) (l : List Pt) :
    basin a (renormAtom (volume / points) l (a, m)) = basin a l ∧
      basin a (flatAtom volume points (l.map fun p => { p with den := 0 }) (a, m)) = (basin a l).map fun p => { p with den := 0 } := by
  have hne : a ≠ a.take 10 := fun e => by
    have := congrArg List.length e
    rw [List.length_take] at this
    omega
  constructor
  · exact renormAtom_other hne
  · unfold flatAtom
    dsimp only
    split
    · rw [basin_map]
    · have e : ∀ (k : ℚ) (l : List Pt), (l.map fun p => if p.label = a.take 10 then ({ p with den := k } : Pt) else p) =
          l.map fun p => { p with den := if p.label = a.take 10 then k else p.den } := by
        intro k l
        apply List.map_congr_left
        intro p _
        by_cases hl : p.label = a.take 10 <;> simp [hl]
      generalize points * m / _ = k
      rw [e, basin_map, basin_map, List.map_map]
      apply List.map_congr_left
      intro p hp
      simp only [basin, List.mem_filter, decide_eq_true_eq] at hp
      have : p.label ≠ a.take 10 := by rw [hp.2]; exact hne
      simp [this]

/-! ### flat start -/

theorem flatAtom_eq (l : List Pt) (at' : List Char × ℚ) : ∃ f : Pt → ℚ,
    flatAtom volume points l at' = (l.map fun p => { p with den := f p }) ∧ (∀ p, p.label ≠ at'.1.take 10 → f p = p.den) ∧
      (((basin (at'.1.take 10) l).map (·.mult)).sum ≠ 0 → ∀ p, p.label = at'.1.take 10 →
        f p = points * at'.2 / (((basin (at'.1.take 10) l).map (·.mult)).sum * volume)) := by
  unfold flatAtom
  dsimp only
  split
  · rename_i h
    refine ⟨fun p => p.den, by simp, fun _ _ => rfl, fun h' => absurd (by simpa using h) h'⟩
  · refine ⟨fun p => if p.label = at'.1.take 10 then points * at'.2 / (((basin (at'.1.take 10) l).map (·.mult)).sum * volume) else p.den,
      ?_, fun p hp => if_neg hp, fun _ p hp => if_pos hp⟩
    apply List.map_congr_left
    intro p _
    by_cases hl : p.label = at'.1.take 10 <;> simp [hl]

theorem flat_fold (atoms : List (List Char × ℚ)) (hd : (atoms.map fun a => a.1.take 10).Nodup)
    (l : List Pt) {at' : List Char × ℚ} (hat : at' ∈ atoms) (hw : ((basin (at'.1.take 10) l).map (·.mult)).sum ≠ 0) :
    ∀ p ∈ basin (at'.1.take 10) (atoms.foldl (flatAtom volume points) l),
      p.den = points * at'.2 / (((basin (at'.1.take 10) l).map (·.mult)).sum * volume) := by
  have keep : ∀ (L : List (List Char × ℚ)) (l : List Pt) (a : List Char), a ∉ L.map (fun a => a.1.take 10) →
      basin a (L.foldl (flatAtom volume points) l) = basin a l := by
    intro L
    induction L with
    | nil => intro l a _; rfl
    | cons b L ih =>
      intro l a ha
      simp only [List.map_cons, List.mem_cons, not_or] at ha
      rw [List.foldl_cons, ih _ _ ha.2]
      obtain ⟨f, e, hf, -⟩ := flatAtom_eq (volume := volume) (points := points) l b
      rw [e, basin_map]
      conv_rhs => rw [← List.map_id (basin a l)]
      apply List.map_congr_left
      intro p hp
      simp only [basin, List.mem_filter, decide_eq_true_eq] at hp
      rw [hf p (by rw [hp.2]; exact ha.1)]; rfl
  induction atoms generalizing l with
  | nil => cases hat
  | cons b L ih =>
    rw [List.map_cons, List.nodup_cons] at hd
    rw [List.foldl_cons]
    obtain ⟨f, e, hf, hs⟩ := flatAtom_eq (volume := volume) (points := points) l b
    rcases List.mem_cons.1 hat with rfl | hat
    · rw [keep _ _ _ hd.1, e, basin_map]
      intro p hp
      obtain ⟨q, hq, rfl⟩ := List.mem_map.1 hp
      simp only [basin, List.mem_filter, decide_eq_true_eq] at hq
      exact hs hw q hq.2
    · have hm : ((basin (at'.1.take 10) (flatAtom volume points l b)).map (·.mult)) = (basin (at'.1.take 10) l).map (·.mult) := by
        rw [e, basin_map, List.map_map]; rfl
      have := ih hd.2 (flatAtom volume points l b) hat (by rw [hm]; exact hw)
      rw [hm] at this
      exact this

theorem renorm_labels (coeff : ℚ) (L : List (List Char × ℚ)) (l : List Pt) : ∃ f : Pt → ℚ,
    L.foldl (renormAtom coeff) l = l.map fun p => { p with den := f p } := by
  induction L generalizing l with
  | nil => exact ⟨fun p => p.den, by simp⟩
  | cons b L ih =>
    rw [List.foldl_cons]
    obtain ⟨f, e, -⟩ := renormAtom_eq coeff l b
    obtain ⟨g, e'⟩ := ih (renormAtom coeff l b)
    rw [e', e, List.map_map]
    exact ⟨fun p => g { p with den := f p }, rfl⟩

theorem flat_mults (a : List Char) (L : List (List Char × ℚ)) (l : List Pt) :
    (basin a (L.foldl (flatAtom volume points) l)).map (·.mult) = (basin a l).map (·.mult) := by
  induction L generalizing l with
  | nil => rfl
  | cons b L ih =>
    rw [List.foldl_cons, ih]
    obtain ⟨f, e, -⟩ := flatAtom_eq (volume := volume) (points := points) l b
    rw [e, basin_map, List.map_map]; rfl

/-- the flat start gives every atom (label of at most ten characters, with a basin) its multiplicity, and each channel of the background one
electron; it fails exactly when no point belongs to the background -/
theorem flat_spec (hv : volume ≠ 0) (hp : points ≠ 0) {atoms : List (List Char × ℚ)} (hlen : ∀ a ∈ atoms, a.1.length ≤ 10)
    (hd : (atoms.map (·.1)).Nodup) (magnetic : List (List Char)) {pts : List Pt} (hpos : ∀ p ∈ pts, 0 < p.mult) :
    (setFlat volume points atoms magnetic false pts = none ↔ ∀ p ∈ pts, p.label ∈ magnetic) ∧
    ∀ c, setFlat volume points atoms magnetic false pts = some c →
      electrons volume points c.ferro = 1 ∧ electrons volume points c.anti = 1 ∧
      (∀ at' ∈ atoms, at'.2 ≠ 0 → (∃ p ∈ pts, p.label = at'.1) → electrons volume points (basin at'.1 c.atoms) = at'.2) ∧
      (∀ p ∈ c.ferro, p.label ∈ magnetic → p.den = 0) := by
  have possum : ∀ l : List Pt, (∀ p ∈ l, 0 < p.mult) → 0 ≤ (l.map (·.mult)).sum ∧ (l ≠ [] → 0 < (l.map (·.mult)).sum) := by
    intro l hl
    induction l with
    | nil => simp
    | cons a l ih =>
      have h1 := hl a (by simp)
      have h2 := (ih fun p hp => hl p (by simp [hp])).1
      simp only [List.map_cons, List.sum_cons]
      constructor
      · linarith
      · intro _; linarith
  unfold setFlat
  simp only [Bool.false_or]
  set B := pts.filter fun p => !(magnetic.contains p.label) with hB
  have hBpos : ∀ p ∈ B, 0 < p.mult := fun p hp => hpos p (List.mem_of_mem_filter hp)
  have hBnil : B = [] ↔ ∀ p ∈ pts, p.label ∈ magnetic := by
    rw [hB, List.filter_eq_nil_iff]
    simp
  have hw0 : (B.map (·.mult)).sum * volume = 0 ↔ B = [] := by
    constructor
    · intro h
      by_contra hne
      rcases mul_eq_zero.1 h with h | h
      · exact absurd h ((possum B hBpos).2 hne).ne'
      · exact hv h
    · intro h; rw [h]; simp
  constructor
  · rw [← hBnil, ← hw0]
    constructor
    · intro h
      by_contra hc
      rw [if_neg hc] at h
      cases h
    · intro h; rw [if_pos h]
  · intro c hc
    by_cases hz : (B.map (·.mult)).sum * volume = 0
    · rw [if_pos hz] at hc; cases hc
    · rw [if_neg hz] at hc
      cases hc
      have hBne : B ≠ [] := fun h => hz (hw0.2 h)
      have hwB := ((possum B hBpos).2 hBne).ne'
      -- the channels
      have hfe : total (pts.map fun p => { p with den := if (!(magnetic.contains p.label)) = true then points / ((B.map (·.mult)).sum * volume) else 0 }) =
          points / volume := by
        have e : ∀ (k : ℚ) (l : List Pt), total (l.map fun p => { p with den := if (!(magnetic.contains p.label)) = true then k else 0 }) =
            k * ((l.filter fun p => !(magnetic.contains p.label)).map (·.mult)).sum := by
          intro k l
          induction l with
          | nil => simp [total]
          | cons q l ih =>
            unfold total at ih ⊢
            simp only [List.map_cons, List.sum_cons]
            rw [ih]
            by_cases hq : (!(magnetic.contains q.label)) = true
            · rw [List.filter_cons_of_pos (p := fun p : Pt => !(magnetic.contains p.label)) hq, if_pos hq, List.map_cons, List.sum_cons]; ring
            · rw [List.filter_cons_of_neg (p := fun p : Pt => !(magnetic.contains p.label)) hq, if_neg hq]; ring
        rw [e, ← hB]
        field_simp
      have hne : points / volume ≠ 0 := div_ne_zero hp hv
      obtain ⟨r1, r2, r3⟩ := renormalize_spec hv hp hlen hd ⟨atoms.foldl (flatAtom volume points) (pts.map fun p => { p with den := 0 }),
        pts.map fun p => { p with den := if (!(magnetic.contains p.label)) = true then points / ((B.map (·.mult)).sum * volume) else 0 },
        pts.map fun p => { p with den := if (!(magnetic.contains p.label)) = true then points / ((B.map (·.mult)).sum * volume) else 0 }⟩
        (by rw [hfe]; exact hne) (by rw [hfe]; exact hne)
      refine ⟨r1, r2, fun at' hat hm hex => r3 at' hat hm ?_, ?_⟩
      · rw [flat_mults, basin_map, List.map_map]
        obtain ⟨p, hp', e⟩ := hex
        have hmem : p ∈ basin at'.1 pts := by simp [basin, hp', e]
        exact ((possum (basin at'.1 pts) fun q hq => hpos q (List.mem_of_mem_filter hq)).2 (List.ne_nil_of_mem hmem)).ne'
      · intro p hp' hl
        simp only [renormalize, List.map_map, List.mem_map, Function.comp] at hp'
        obtain ⟨q, -, rfl⟩ := hp'
        simp only at hl ⊢
        rw [if_neg (by simp [hl]), zero_div]

/-- non-vacuity: two atoms, one magnetic -/
example : ∃ c, setFlat 10 4 [(['F', 'e'], 1), (['O'], 2)] [['F', 'e']] false [⟨['F', 'e'], 1, 0⟩, ⟨['O'], 2, 0⟩, ⟨['O'], 1, 0⟩] = some c := by
  refine ⟨_, if_neg ?_⟩
  norm_num

example : total [⟨['O'], 2, 3⟩, ⟨['O'], 1, 1⟩] ≠ 0 := by norm_num [total]

end Cryspy.Mem
