import Verif.Mem.Props

/-!
# C34 restated without the helpers of the model

`inCell` and `inBasin` are the specification: a density on the points of the asymmetric unit is integrated over the cell by weighting each
point with the number of points of its orbit and with the volume of one voxel.
-/

namespace Cryspy.Mem

/-- specification: the integral over the cell of a density given on the points of the asymmetric unit -/
def inCell (volume points : ℚ) : List Pt → ℚ
  | [] => 0
  | p :: l => volume / points * p.mult * p.den + inCell volume points l

/-- specification: the part of it on the points that belong to the atom `a` -/
def inBasin (volume points : ℚ) (a : List Char) : List Pt → ℚ
  | [] => 0
  | p :: l => if p.label = a then volume / points * p.mult * p.den + inBasin volume points a l else inBasin volume points a l

variable {volume points : ℚ}

theorem inCell_eq (l : List Pt) : inCell volume points l = electrons volume points l := by
  unfold electrons total
  induction l with
  | nil => simp [inCell]
  | cons p l ih => rw [inCell, ih, List.map_cons, List.sum_cons]; ring

theorem inBasin_eq (a : List Char) (l : List Pt) : inBasin volume points a l = inCell volume points (basin a l) := by
  unfold basin
  induction l with
  | nil => rfl
  | cons p l ih =>
    by_cases h : p.label = a
    · rw [inBasin, if_pos h, ih, List.filter_cons_of_pos (by simpa using h), inCell]
    · rw [inBasin, if_neg h, ih, List.filter_cons_of_neg (by simpa using h)]

theorem total_of_inCell {l : List Pt} (h : inCell volume points l ≠ 0) : total l ≠ 0 := fun e => h (by
  rw [inCell_eq, electrons, e, zero_mul])

/-- **C34**, one channel of `mempy`: a density with a non-zero integral is scaled to one electron per cell -/
theorem renormCol_inCell (hv : volume ≠ 0) (hp : points ≠ 0) {l : List Pt} (h : inCell volume points l ≠ 0) :
    inCell volume points (renormCol volume points l) = 1 := by
  rw [inCell_eq]
  exact (renormCol_total hv hp (total_of_inCell h)).1

/-- **C34**, the atoms of `mempy`: when all points of an atom carry its multiplicity in the cell, the atom ends with that many electrons -/
theorem renormChi_inBasin (hv : volume ≠ 0) (hp : points ≠ 0) {l l' : List PtA} (h : renormChi volume points l = some l') {a : List Char} {m : ℚ}
    (hm : m ≠ 0) (ha : ∃ p ∈ l, p.label = a) (hl : ∀ p ∈ l, p.label = a → p.amult = m) :
    inBasin volume points a (l'.map (·.toPt)) = m := by
  obtain ⟨hn, c, rfl⟩ := (renormChi_spec hv hp l).2 l' h
  obtain ⟨p, hp', e⟩ := ha
  have h1 := hn a ⟨_, List.mem_map.2 ⟨p, hp', rfl⟩, e⟩
  have key : ∀ L : List PtA, (∀ p ∈ L, p.label = a → p.amult = m) →
      inBasin volume points a (L.map (·.toPt)) = m * (atomTotal a L * (volume / points)) := by
    intro L hL
    unfold atomTotal
    induction L with
    | nil => simp [inBasin]
    | cons q L ih =>
      have i := ih fun p hp => hL p (by simp [hp])
      rw [List.map_cons, inBasin]
      by_cases hq : q.label = a
      · rw [if_pos hq, i, List.filter_cons_of_pos (by simpa using hq), List.map_cons, List.sum_cons, hL q (by simp) hq]
        field_simp
      · rw [if_neg hq, i, List.filter_cons_of_neg (by simpa using hq)]
  rw [key _ (by
    intro q hq hqa
    obtain ⟨r, hr, rfl⟩ := List.mem_map.1 hq
    exact hl r hr hqa), h1, mul_one]

/-- **C34**, `renormalize_numpy_densities` -/
theorem renormalize_inBasin (hv : volume ≠ 0) (hp : points ≠ 0) {atoms : List (List Char × ℚ)} (hlen : ∀ a ∈ atoms, a.1.length ≤ 10)
    (hd : (atoms.map (·.1)).Nodup) (c : Cloud) (hf : inCell volume points c.ferro ≠ 0) (ha : inCell volume points c.anti ≠ 0) :
    inCell volume points (renormalize volume points atoms false c).ferro = 1 ∧
    inCell volume points (renormalize volume points atoms false c).anti = 1 ∧
    ∀ at' ∈ atoms, at'.2 ≠ 0 → ((c.atoms.filter (fun p => p.label = at'.1)).map (·.mult)).sum ≠ 0 →
      inBasin volume points at'.1 (renormalize volume points atoms false c).atoms = at'.2 := by
  have := renormalize_spec hv hp hlen hd c (total_of_inCell hf) (total_of_inCell ha)
  simp only [inBasin_eq, inCell_eq]
  exact this

/-- **C34**, `set_flat_density` -/
theorem flat_inBasin (hv : volume ≠ 0) (hp : points ≠ 0) {atoms : List (List Char × ℚ)} (hlen : ∀ a ∈ atoms, a.1.length ≤ 10)
    (hd : (atoms.map (·.1)).Nodup) (magnetic : List (List Char)) {pts : List Pt} (hpos : ∀ p ∈ pts, 0 < p.mult) {c : Cloud}
    (h : setFlat volume points atoms magnetic false pts = some c) :
    inCell volume points c.ferro = 1 ∧ inCell volume points c.anti = 1 ∧
      (∀ at' ∈ atoms, at'.2 ≠ 0 → (∃ p ∈ pts, p.label = at'.1) → inBasin volume points at'.1 c.atoms = at'.2) := by
  have := (flat_spec hv hp hlen hd magnetic hpos).2 c h
  simp only [inBasin_eq, inCell_eq]
  exact ⟨this.1, this.2.1, this.2.2.1⟩

/-- non-vacuity: two equivalent atoms, two points -/
example : ∃ l', renormChi 10 4 [⟨⟨['O'], 2, 3⟩, 2⟩, ⟨⟨['O'], 1, 1⟩, 2⟩] = some l' := by
  have h : atomTotal ['O'] [⟨⟨['O'], 2, 3⟩, 2⟩, ⟨⟨['O'], 1, 1⟩, 2⟩] ≠ 0 := by norm_num [atomTotal]
  exact ⟨_, by simp [renormChi, h]; rfl⟩

example : inCell 10 4 [⟨['O'], 2, 3⟩, ⟨['O'], 1, 1⟩] = 35 / 2 := by norm_num [inCell]

end Cryspy.Mem
