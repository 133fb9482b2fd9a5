import Verif.Den.Props

/-! # C33: the density files of the maximum entropy reconstruction -/

namespace Cryspy.Den

open Text

/-- **C33.** The columns of a density given as spin up and spin down: first their difference, then themselves; of a density given as one
column: the column, its positive and its negative part, which add up to it. -/
theorem two_columns {D : Input} {l : List (ℚ × ℚ)} (hd : D.dens = .two l) (rad : ℚ) (h : D.Fits) :
    ∃ out, read rad (save D) = some out ∧
      List.Forall₂ (fun p q => Rounded 7 (p.1 - p.2) q.1 ∧ Rounded 7 p.1 q.2.1 ∧ Rounded 7 p.2 q.2.2) l out.dens := by
  obtain ⟨out, e, -, -, h3, -⟩ := den_round_trip rad h
  refine ⟨out, e, ?_⟩
  rw [hd] at h3
  simp only [Dens.triples] at h3
  exact List.forall₂_map_left_iff.1 h3

theorem one_column {D : Input} {l : List ℚ} (hd : D.dens = .one l) (rad : ℚ) (h : D.Fits) :
    ∃ out, read rad (save D) = some out ∧
      List.Forall₂ (fun p q => Rounded 7 p q.1 ∧ Rounded 7 (max p 0) q.2.1 ∧ Rounded 7 (min p 0) q.2.2) l out.dens := by
  obtain ⟨out, e, -, -, h3, -⟩ := den_round_trip rad h
  refine ⟨out, e, ?_⟩
  rw [hd] at h3
  simp only [Dens.triples] at h3
  refine (List.forall₂_map_left_iff.1 h3).imp fun p q hpq => ?_
  by_cases h0 : 0 ≤ p
  · rw [max_eq_left h0, min_eq_right h0]; simpa [h0] using hpq
  · rw [max_eq_right (not_le.1 h0).le, min_eq_left (not_le.1 h0).le]; simpa [h0] using hpq

theorem read_spin_shift {s : ℤ × ℤ × ℤ × ℤ} (hb : |(s.1 : ℚ) / s.2.2.2| ≤ 9 ∧ |(s.2.1 : ℚ) / s.2.2.2| ≤ 9 ∧ |(s.2.2.1 : ℚ) / s.2.2.2| ≤ 9)
    (e : Str) (he : e = [] ∨ e = ['\n']) :
    readShift (spinShiftLine s ++ e) =
      let nd := numDen (kept 4 (s.1 / s.2.2.2)) (kept 4 (s.2.1 / s.2.2.2)) (kept 4 (s.2.2.1 / s.2.2.2))
      some (nd.1 0, nd.1 1, nd.1 2, nd.2) := by
  have hl : ∀ q : ℚ, |q| ≤ 9 → 0 < 8 - (fixedStr 4 q).length := by
    intro q hq
    have := fixedStr_length (d := 4) (k := 1) (by norm_num) (by norm_num) (q := q) (by
      norm_num; exact hq)
    have h2 : (if q < 0 then 1 else 0) ≤ 1 := by split <;> norm_num
    omega
  unfold spinShiftLine
  generalize (s.1 : ℚ) / s.2.2.2 = x at *
  generalize (s.2.1 : ℚ) / s.2.2.2 = y at *
  generalize (s.2.2.1 : ℚ) / s.2.2.2 = z at *
  have hf : fmtFix 8 4 x ++ fmtFix 8 4 y ++ fmtFix 8 4 z = [(8 - (fixedStr 4 x).length, fixedStr 4 x), (8 - (fixedStr 4 y).length, fixedStr 4 y),
      (8 - (fixedStr 4 z).length, fixedStr 4 z)].flatMap txt := by
    simp only [fmtFix, fmt_txt, List.flatMap_cons, List.flatMap_nil, List.append_nil, List.append_assoc]
  have hw := words_fields [(8 - (fixedStr 4 x).length, fixedStr 4 x), (8 - (fixedStr 4 y).length, fixedStr 4 y),
      (8 - (fixedStr 4 z).length, fixedStr 4 z)] (by
    intro f hf'
    simp only [List.mem_cons, List.not_mem_nil, or_false] at hf'
    rcases hf' with rfl | rfl | rfl <;> exact fixedStr_word _ _) (by
    intro f hf'
    simp only [List.tail_cons, List.mem_cons, List.not_mem_nil, or_false] at hf'
    rcases hf' with rfl | rfl
    · exact hl _ hb.2.1
    · exact hl _ hb.2.2) e he
  rw [← hf] at hw
  unfold readShift
  simp only [hw, List.map_cons, List.map_nil]
  simp [parseFlt_fixedStr]

/-- data of `save_spin_density_into_file` that fit the columns of the file -/
structure SpinInput.Fits (irad : ℚ) (S : SpinInput) : Prop where
  core : (S.toInput irad).Core
  shift : ∀ s ∈ S.shift, 0 < s.2.2.2 ∧ s.2.2.2 ∣ 48 ∧
    |(s.1 : ℚ) / s.2.2.2| ≤ 9 ∧ |(s.2.1 : ℚ) / s.2.2.2| ≤ 9 ∧ |(s.2.2.1 : ℚ) / s.2.2.2| ≤ 9

theorem numDen_same {s : ℤ × ℤ × ℤ × ℤ} (h0 : 0 < s.2.2.2) (h1 : s.2.2.2 ∣ 48) :
    let nd := numDen (kept 4 (s.1 / s.2.2.2)) (kept 4 (s.2.1 / s.2.2.2)) (kept 4 (s.2.2.1 / s.2.2.2))
    SameShift s (nd.1 0, nd.1 1, nd.1 2, nd.2) := by
  have := sym_same' (d := 4) (by norm_num) (x := ⟨![s.1, s.2.1, s.2.2.1], s.2.2.2, 0⟩) h0 h1
  obtain ⟨-, h2, h3, h4⟩ := this
  exact ⟨h2 0, h2 1, h2 2, h3, h4⟩

/-- **C33.** The files of the reconstruction: everything that was written is read back, the angles too (in degrees to five decimals in
between), and the centring translations. -/
theorem spin_round_trip {rad irad : ℚ} (hr : irad * rad = 1) {S : SpinInput} (h : S.Fits irad) :
    ∃ out, read rad (saveSpin irad S) = some out ∧ out.points = S.points ∧ out.index = S.index ∧
      List.Forall₂ (fun p q => Rounded 7 (p.1 + p.2) q.1 ∧ Rounded 7 p.1 q.2.1 ∧ Rounded 7 p.2 q.2.2) S.sd out.dens ∧
      (∀ k < 3, Rounded 5 (S.cell k) (out.cell k)) ∧ (∀ k ≥ 3, |out.cell k - S.cell k| ≤ |rad| / 200000) ∧
      List.Forall₂ SameElem S.sym out.sym ∧ out.centro = S.centro ∧ List.Forall₂ SameShift S.shift out.shift := by
  have hsv := read_lines rad (title := "Collinear density (created by CrysPy)".toList) (by unfold Line; decide +kernel)
    (sl := spinShiftLine) (fun _ => ((line_fix _ _ _).append (line_fix _ _ _)).append (line_fix _ _ _)) h.core
    (sv := fun s => let nd := numDen (kept 4 (s.1 / s.2.2.2)) (kept 4 (s.2.1 / s.2.2.2)) (kept 4 (s.2.2.1 / s.2.2.2))
      (nd.1 0, nd.1 1, nd.1 2, nd.2))
    fun x hx t ht => read_spin_shift (h.shift x hx).2.2 t ht
  refine ⟨_, hsv, rfl, rfl, ?_, ?_, ?_, ?_, rfl, ?_⟩
  · simp only [SpinInput.toInput, Dens.triples, List.map_map]
    rw [List.forall₂_map_right_iff]
    exact List.forall₂_same.2 fun p _ => ⟨kept_rounded _ _, kept_rounded _ _, kept_rounded _ _⟩
  · intro k hk
    fin_cases k
    · exact kept_rounded 5 (S.cell 0)
    · exact kept_rounded 5 (S.cell 1)
    · exact kept_rounded 5 (S.cell 2)
    · exact absurd hk (by decide)
    · exact absurd hk (by decide)
    · exact absurd hk (by decide)
  · have key : ∀ x : ℚ, |kept 5 (x * irad) * rad - x| ≤ |rad| / 200000 := by
      intro x
      have h1 := kept_near 5 (x * irad)
      have h2 : kept 5 (x * irad) * rad - x = (kept 5 (x * irad) - x * irad) * rad := by
        rw [sub_mul, mul_assoc, hr, mul_one]
      rw [h2, abs_mul]
      calc |kept 5 (x * irad) - x * irad| * |rad| ≤ (1 / 2 / 10 ^ 5) * |rad| := by gcongr
        _ = |rad| / 200000 := by ring
    intro k hk
    fin_cases k
    · exact absurd hk (by decide)
    · exact absurd hk (by decide)
    · exact absurd hk (by decide)
    · exact key (S.cell 3)
    · exact key (S.cell 4)
    · exact key (S.cell 5)
  · simp only [SpinInput.toInput]
    rw [List.forall₂_map_right_iff]
    exact List.forall₂_same.2 fun x hx => sym_same (h.core.sym x hx)
  · simp only [SpinInput.toInput]
    rw [List.forall₂_map_right_iff]
    exact List.forall₂_same.2 fun s hs => numDen_same (h.shift s hs).1 (h.shift s hs).2.1

/-- defect: the position of the centre of symmetry is not written; crystals that differ in it give the same file. -/
theorem centre_lost (irad : ℚ) (S : SpinInput) (c : Option (ℤ × ℤ × ℤ × ℤ)) : saveSpin irad { S with centre := c } = saveSpin irad S := rfl

/-- defect: the two writers disagree about the first column: a density read from a file of the reconstruction (or from one column), passed on as
its spin up and spin down columns, comes back with another first column wherever the density is negative. -/
theorem columns_disagree (rad irad : ℚ) {S : SpinInput} {D : Input} (hD : D.Fits) (hS : S.Fits irad)
    (hd : D.dens = .two S.sd) (hneg : (0, -1) ∈ S.sd) : ∃ o o', read rad (saveSpin irad S) = some o ∧ read rad (save D) = some o' ∧
      (-1, 0, -1) ∈ o.dens ∧ (1, 0, -1) ∈ o'.dens := by
  have hsv := read_lines rad (title := "Collinear density (created by CrysPy)".toList) (by unfold Line; decide +kernel)
    (sl := spinShiftLine) (fun _ => ((line_fix _ _ _).append (line_fix _ _ _)).append (line_fix _ _ _)) hS.core
    (sv := fun s => let nd := numDen (kept 4 (s.1 / s.2.2.2)) (kept 4 (s.2.1 / s.2.2.2)) (kept 4 (s.2.2.1 / s.2.2.2))
      (nd.1 0, nd.1 1, nd.1 2, nd.2))
    fun x hx t ht => read_spin_shift (hS.shift x hx).2.2 t ht
  have k0 : kept 7 0 = 0 := by simpa using kept_int 7 0
  have k1 : kept 7 1 = 1 := by simpa using kept_int 7 1
  have km : kept 7 (-1) = -1 := by simpa using kept_int 7 (-1)
  refine ⟨_, _, hsv, read_save rad hD, ?_, ?_⟩
  · simp only [SpinInput.toInput, Dens.triples, List.map_map]
    exact List.mem_map.2 ⟨_, hneg, by simp [k0, km]⟩
  · rw [hd]
    simp only [Dens.triples, List.map_map]
    exact List.mem_map.2 ⟨_, hneg, by simp [k0, k1, km]⟩

/-- non-vacuity: the sample of `sampleInput` with radians. -/
def sampleSpin : SpinInput where
  points := ![4, 4, 8]
  cell := ![5, 5, 25 / 2, 3 / 2, 3 / 2, 3 / 2]
  sym := [⟨![0, 0, 0], 1, ![1, 0, 0, 0, 1, 0, 0, 0, 1]⟩, ⟨![0, 0, 1], 2, ![0, -1, 0, 1, 0, 0, 0, 0, 1]⟩]
  index := [(0, 0, 0), (1, 0, 3)]
  sd := [(1 / 3, 0), (0, -1)]
  centro := true
  centre := some (1, 0, 0, 4)
  shift := [(0, 0, 0, 1), (1, 1, 1, 2)]

theorem sampleSpin_fits : sampleSpin.Fits 57 where
  core :=
    { points := by intro k; fin_cases k <;> simp [sampleSpin, SpinInput.toInput]
      cell := by intro k; fin_cases k <;> simp [sampleSpin, SpinInput.toInput] <;> norm_num
      nSym := by simp [sampleSpin, SpinInput.toInput]
      nShift := by simp [sampleSpin, SpinInput.toInput]
      sym := sampleInput_fits.sym
      index := by simp [sampleSpin, SpinInput.toInput, Dens.triples]
      some_line := by simp [sampleSpin, SpinInput.toInput] }
  shift := by
    intro s hs
    simp only [sampleSpin, List.mem_cons, List.not_mem_nil, or_false] at hs
    rcases hs with rfl | rfl
    · simp
    · refine ⟨by norm_num, by norm_num, ?_, ?_, ?_⟩ <;> rw [abs_le] <;> norm_num

example : ∃ D : Input, D.Fits ∧ D.dens = .two sampleSpin.sd ∧ (0, -1) ∈ sampleSpin.sd := by
  refine ⟨{ sampleInput with dens := .two sampleSpin.sd }, ?_, rfl, by simp [sampleSpin]⟩
  have := sampleInput_fits
  exact { points := this.points, cell := this.cell, nSym := this.nSym, nShift := this.nShift, sym := this.sym, shift := this.shift
          index := by simp [sampleInput, sampleSpin, Dens.triples]
          some_line := this.some_line }

end Cryspy.Den
