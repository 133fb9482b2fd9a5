import Verif.Sf.Lemmas

/-!
# C45, C55, C56: nuclear structure factors

`ph (hdot h y)` is the wave `exp(-2πi h·y)` of the reflection `h` at the point `y`, `dw uc h a r` the
Debye-Waller factor of the atom `a` carried by the rotation `r` (C30).
-/

namespace Cryspy.Sf

open Symm Real

/-- **C55** The structure factor is a sum over the atoms; each contributes its multiplicity times the average
of its wave over all operations of the space group: reduced operations, centrings and inversions. -/
theorem f_nucl_average (s : Sym) (hs : s.Pos) (uc : Fin 6 → ℝ) (atoms : List Atom) (h : V3) :
    fNucl s uc atoms h = (atoms.map fun a => a.b * a.occ * ((multiplicity s.full (siteOf a.x) : ℂ) / s.full.length *
      (s.full.map fun g => ph (hdot h (act g a.x)) * (dw uc h a g.r : ℂ)).sum)).sum := by
  have hl := s.full_length
  have key : ∀ a : Atom, (s.full.map fun g => ph (hdot h (act g a.x)) * (dw uc h a g.r : ℂ)).sum = _ :=
    fun a => s.full_sum hs h a.x (dw uc h a) (dw_neg uc h a)
  unfold fNucl fByAsym
  simp only [List.map_map]
  rw [pr3_eq, pr4_eq]
  by_cases hc : s.centro = true
  · rw [if_pos hc, ← sum_map_mul_left, ← sum_map_mul_left, ← sum_map_mul_left, ← sum_map_add, ← sum_map_mul_left]
    refine congrArg List.sum (List.map_congr_left fun a _ => ?_)
    simp only [Function.comp]
    rw [key a, fAsym_eq, hl]
    simp only [hc, if_true, map_div₀, map_mul, Complex.conj_ofReal, map_natCast]
    ring
  · rw [if_neg hc, ← sum_map_mul_left]
    refine congrArg List.sum (List.map_congr_left fun a _ => ?_)
    simp only [Function.comp]
    rw [key a, fAsym_eq, hl]
    simp only [hc, if_false, Bool.false_eq_true]
    ring

/-- Specification: `l` lists the atoms that the symmetry makes of an atom at `x` in the unit cell: the distinct
positions, each with the Debye-Waller factor of the operations that lead to it. -/
structure IsCellOf (G : List Elem) (d : M3 → ℝ) (x : Q3) (l : List (Q3 × ℝ)) : Prop where
  orbit : IsOrbitList G x (l.map Prod.fst)
  factor : ∀ p ∈ l, ∀ e ∈ G, Lat (act e x) p.1 → d e.r = p.2

open Classical in
theorem sum_partition {κ : Type} (l : List κ) (R : Elem → κ → Bool) (v : κ → ℂ) (f : Elem → ℂ) : ∀ G : List Elem,
    (∀ e ∈ G, (l.map fun y => if R e y then v y else 0).sum = f e) →
    (G.map f).sum = (l.map fun y => (G.countP (R · y) : ℂ) * v y).sum
  | [], _ => by simp
  | e :: G, h => by
    have ih := sum_partition l R v f G (fun e' he' => h e' (List.mem_cons_of_mem _ he'))
    rw [List.map_cons, List.sum_cons, ih, ← h e List.mem_cons_self, ← sum_map_add]
    refine congrArg List.sum (List.map_congr_left fun y _ => ?_)
    by_cases hy : R e y = true
    · rw [List.countP_cons_of_pos (l := G) hy, if_pos hy]; push_cast; ring
    · rw [List.countP_cons_of_neg (l := G) hy, if_neg hy]; ring

theorem fibre_count {G : List Elem} (hG : IsGroup G) (hN : G.Pairwise fun a b => ¬ SameOp a b)
    (hd : ∀ e ∈ G, 0 < e.bd) {x : Shift} (hx : 0 < x.d) {y : Q3} (hy : ∃ g ∈ G, Lat (act g x.val) y) [∀ e, Decidable (Lat (act e x.val) y)] :
    G.countP (fun e => decide (Lat (act e x.val) y)) = G.countP (symmFlag · x) := by
  obtain ⟨g, hg, hgy⟩ := hy
  apply le_antisymm
  · obtain ⟨b, hb, hinv⟩ := hG.inv g hg
    apply countP_le_of_mul hG hN hb
    intro e he c hc hprod hP
    rw [decide_eq_true_iff] at hP
    rw [symmFlag_iff (hd c hc) hx]
    exact (hprod _).trans (((hP.trans hgy.symm).act b).trans (hinv _))
  · apply countP_le_of_mul hG hN hg
    intro e he c hc hprod hP
    rw [decide_eq_true_iff]
    rw [symmFlag_iff (hd e he) hx] at hP
    exact (hprod _).trans ((hP.act g).trans hgy)

theorem sum_ite_unique (l : List (Q3 × ℝ)) (x : Q3) (h : V3) (c : ℂ) [∀ y, Decidable (Lat x y)]
    (hd : (l.map Prod.fst).Pairwise fun y z => ¬ Lat y z) (p : Q3 × ℝ) (hp : p ∈ l) (hx : Lat x p.1)
    (hc : c = ph (hdot h p.1) * p.2) :
    (l.map fun y => if decide (Lat x y.1) then ph (hdot h y.1) * (y.2 : ℂ) else 0).sum = c := by
  induction l with
  | nil => simp at hp
  | cons a t ih =>
    rw [List.map_cons, List.pairwise_cons] at hd
    rw [List.map_cons, List.sum_cons]
    rcases List.mem_cons.1 hp with rfl | hp'
    · have hz : (t.map fun y => if decide (Lat x y.1) then ph (hdot h y.1) * (y.2 : ℂ) else 0).sum = 0 := by
        apply List.sum_eq_zero
        intro v hv
        obtain ⟨y, hy, rfl⟩ := List.mem_map.1 hv
        have : ¬ Lat x y.1 := fun hxy => hd.1 y.1 (List.mem_map.2 ⟨y, hy, rfl⟩) (hx.symm.trans hxy)
        simp [this]
      rw [hz, hc]
      simp [hx]
    · have : ¬ Lat x a.1 := fun hxa => hd.1 p.1 (List.mem_map.2 ⟨p, hp', rfl⟩) (hxa.symm.trans hx)
      rw [ih hd.2 hp']
      simp [this]

theorem Sym.full_pos {s : Sym} (hs : s.Pos) : ∀ e ∈ s.full, 0 < e.bd := by
  have := full_elems_spec s.reduced s.centro s.centre s.trans hs.red hs.cen hs.tra
  intro e he
  obtain ⟨i, hi, rfl⟩ := List.getElem_of_mem he
  have h2 := List.Forall₂.get this hi (by rw [← this.length_eq]; exact hi)
  exact h2.1.d_pos

/-- **C55** The structure factor is that of the whole unit cell: the sum over the atoms of the asymmetric
unit and over the distinct positions that the symmetry gives them, of scattering length × occupancy ×
wave × Debye-Waller factor, if the operations form a group without repetitions and the coordinates are
on the raster of the multiplicity (see `snap_exact`, `rounding_wrong`). -/
theorem f_nucl_unit_cell (s : Sym) (hs : s.Pos) (hG : IsGroup s.full) (hN : s.full.Pairwise fun a b => ¬ SameOp a b)
    (uc : Fin 6 → ℝ) (atoms : List Atom) (h : V3) (hx : ∀ a ∈ atoms, (siteOf a.x).val = a.x)
    (cell : Atom → List (Q3 × ℝ)) (hc : ∀ a ∈ atoms, IsCellOf s.full (dw uc h a) a.x (cell a)) :
    fNucl s uc atoms h =
      (atoms.map fun a => ((cell a).map fun p => a.b * a.occ * ph (hdot h p.1) * (p.2 : ℂ)).sum).sum := by
  classical
  rw [f_nucl_average s hs]
  refine congrArg List.sum (List.map_congr_left fun a ha => ?_)
  have hxd : 0 < (siteOf a.x).d := by unfold siteOf; norm_num
  have hcell := hc a ha
  have hsum : (s.full.map fun g => ph (hdot h (act g a.x)) * (dw uc h a g.r : ℂ)).sum =
      ((cell a).map fun p => (s.full.countP (fun e => decide (Lat (act e a.x) p.1)) : ℂ) * (ph (hdot h p.1) * (p.2 : ℂ))).sum := by
    apply sum_partition (cell a) (fun e p => decide (Lat (act e a.x) p.1)) (fun p => ph (hdot h p.1) * (p.2 : ℂ))
    intro e he
    obtain ⟨y, hy, hye⟩ := hcell.orbit.covers e he
    obtain ⟨p, hp, rfl⟩ := List.mem_map.1 hy
    refine sum_ite_unique (cell a) (act e a.x) h _ hcell.orbit.distinct p hp hye ?_
    rw [hcell.factor p hp e he hye, hdot_lat hye]
  have hfib : ∀ p ∈ cell a, s.full.countP (fun e => decide (Lat (act e a.x) p.1)) = s.full.countP (symmFlag · (siteOf a.x)) := by
    intro p hp
    have := fibre_count hG hN (Sym.full_pos hs) hxd (y := p.1) (by
      rw [hx a ha]
      exact hcell.orbit.onlyImages p.1 (List.mem_map.2 ⟨p, hp, rfl⟩))
    rw [← this]
    congr 1
    funext e
    rw [hx a ha]
  have hos := orbit_stabiliser hG hN (Sym.full_pos hs) hxd (l := (cell a).map Prod.fst) (by rw [hx a ha]; exact hcell.orbit)
  have hm := multiplicity_counts_images s.full hG hN (Sym.full_pos hs) (siteOf a.x) hxd ((cell a).map Prod.fst)
    (by rw [hx a ha]; exact hcell.orbit)
  rw [hsum, List.map_congr_left (g := fun p => (s.full.countP (symmFlag · (siteOf a.x)) : ℂ) * (ph (hdot h p.1) * (p.2 : ℂ)))
    (fun p hp => by rw [hfib p hp]), sum_map_mul_left, hm, ← hos.1]
  have h1 : ((s.full.countP (symmFlag · (siteOf a.x)) : ℕ) : ℂ) ≠ 0 := by exact_mod_cast hos.2.ne'
  have h2 : ∀ p : Q3 × ℝ, a.b * a.occ * ph (hdot h p.1) * (p.2 : ℂ) = (a.b * a.occ) * (ph (hdot h p.1) * (p.2 : ℂ)) := fun p => by ring
  simp only [h2]
  rw [sum_map_mul_left]
  have hlen : (((cell a).map Prod.fst).length : ℂ) ≠ 0 ∨ (cell a) = [] := by
    cases hca : cell a with
    | nil => exact Or.inr rfl
    | cons p t => exact Or.inl ((Nat.cast_ne_zero (R := ℂ)).2 (by simp))
  rcases hlen with hlen | hlen
  · push_cast
    field_simp
  · rw [hlen]; simp

/-- Multiplying a group from the left by one of its elements permutes its elements. -/
theorem sum_left_mul {M : Type} [AddCommMonoid M] {G : List Elem} (hG : IsGroup G)
    (hN : G.Pairwise fun a b => ¬ SameOp a b) {g : Elem} (hg : g ∈ G) (φ : Elem → M) (ψ : Elem → M) (h : ∀ e ∈ G, ∀ c ∈ G, IsProd g e c → φ c = ψ e) : (G.map φ).sum = (G.map ψ).sum := by
  classical
  have hex : ∀ e : Elem, ∃ c : Elem, e ∈ G → c ∈ G ∧ IsProd g e c := by
    intro e
    by_cases he : e ∈ G
    · obtain ⟨c, hc, hm⟩ := hG.mul g hg e he
      exact ⟨c, fun _ => ⟨hc, hm⟩⟩
    · exact ⟨e, fun h => absurd h he⟩
  choose σ hσ using hex
  have hnd : G.Nodup := hN.imp fun {a b} hab hEq => hab (by rw [hEq]; exact fun x => Lat.refl _)
  have hne : ∀ a ∈ G, ∀ b ∈ G, SameOp a b → a = b := by
    intro a ha b hb hab
    by_contra hne
    have : Std.Symm fun a b : Elem => ¬ SameOp a b := ⟨fun a b h h' => h fun x => (h' x).symm⟩
    exact List.Pairwise.forall hN ha hb hne hab
  have hinj : ∀ a ∈ G, ∀ b ∈ G, σ a = σ b → a = b := by
    intro a ha b hb hab
    obtain ⟨i, hi, hinv⟩ := hG.inv g hg
    apply hne a ha b hb
    intro x
    have h1 := (hσ a ha).2 x
    have h2 := (hσ b hb).2 x
    rw [hab] at h1
    exact (hinv _).symm.trans (((h1.symm.trans h2).act i).trans (hinv _))
  have hnd2 : (G.map σ).Nodup := by
    rw [List.nodup_map_iff_inj_on hnd]
    exact fun a ha b hb hab => hinj a ha b hb hab
  have hperm : (G.map σ).Perm G := by
    apply List.Subperm.perm_of_length_le
    · apply List.subperm_of_subset hnd2
      intro c hc
      obtain ⟨e, he, rfl⟩ := List.mem_map.1 hc
      exact (hσ e he).1
    · simp
  rw [← (hperm.map φ).sum_eq, List.map_map]
  refine congrArg List.sum (List.map_congr_left fun e he => ?_)
  exact h e he _ (hσ e he).1 (hσ e he).2

theorem dw_mmul (uc : Fin 6 → ℝ) (h : V3) (a : Atom) (g r : M3)
    (hsth : Cell.calc_sthovl (hklR (rowMul h g)) uc = Cell.calc_sthovl (hklR h) uc) :
    dw uc h a (mmul g r) = dw uc (rowMul h g) a r := by
  unfold dw Adp.dwf
  rw [hsth, power_flat, power_flat (rowMul h g), rowMul_mmul]

theorem hdot_act (h : V3) (g : Elem) (y : Q3) : hdot h (act g y) = hdot h g.shift.val + hdot (rowMul h g.r) y := by
  unfold hdot act rowMul Elem.shift Shift.val
  simp only [Fin.sum_univ_three]
  push_cast
  ring

/-- **C56** Equivalent reflections: the structure factors of `h` and of its image `h R` under an operation
`x ↦ R x + t` of the group differ by the phase `exp(-2πi h·t)` only (provided both have the same
`sin θ/λ`, which is the case when the cell has the symmetry of the group). -/
theorem f_nucl_equivalent (s : Sym) (hs : s.Pos) (hG : IsGroup s.full) (hN : s.full.Pairwise fun a b => ¬ SameOp a b)
    (uc : Fin 6 → ℝ) (atoms : List Atom) (h : V3) (g : Elem) (hg : g ∈ s.full)
    (hsth : Cell.calc_sthovl (hklR (rowMul h g.r)) uc = Cell.calc_sthovl (hklR h) uc) :
    fNucl s uc atoms h = ph (hdot h g.shift.val) * fNucl s uc atoms (rowMul h g.r) := by
  rw [f_nucl_average s hs, f_nucl_average s hs, ← sum_map_mul_left]
  refine congrArg List.sum (List.map_congr_left fun a _ => ?_)
  have := sum_left_mul hG hN hg (fun e => ph (hdot h (act e a.x)) * (dw uc h a e.r : ℂ))
    (fun e => ph (hdot h g.shift.val) * (ph (hdot (rowMul h g.r) (act e a.x)) * (dw uc (rowMul h g.r) a e.r : ℂ)))
    (by
      intro e he c hc hp
      rw [hdot_lat (hp a.x), hdot_act, ph_add, rot_of_isProd hp, dw_mmul uc h a _ _ hsth]
      ring)
  rw [this, sum_map_mul_left]
  ring

/-- **C56** Equivalent reflections have the same modulus of the structure factor. -/
theorem f_nucl_equivalent_norm (s : Sym) (hs : s.Pos) (hG : IsGroup s.full)
    (hN : s.full.Pairwise fun a b => ¬ SameOp a b) (uc : Fin 6 → ℝ) (atoms : List Atom) (h : V3) (g : Elem) (hg : g ∈ s.full)
    (hsth : Cell.calc_sthovl (hklR (rowMul h g.r)) uc = Cell.calc_sthovl (hklR h) uc) :
    ‖fNucl s uc atoms (rowMul h g.r)‖ = ‖fNucl s uc atoms h‖ := by
  rw [f_nucl_equivalent s hs hG hN uc atoms h g hg hsth, norm_mul, ph_norm, one_mul]

/-- **C45** Systematic absences: if an operation `x ↦ R x + t` of the group leaves the reflection as it is,
`h R = h`, and `h·t` is not an integer, the structure factor is zero, whatever the atoms. -/
theorem f_nucl_absent (s : Sym) (hs : s.Pos) (hG : IsGroup s.full) (hN : s.full.Pairwise fun a b => ¬ SameOp a b)
    (uc : Fin 6 → ℝ) (atoms : List Atom) (h : V3) (g : Elem) (hg : g ∈ s.full) (hh : rowMul h g.r = h)
    (ht : ¬ ∃ n : ℤ, hdot h g.shift.val = n) : fNucl s uc atoms h = 0 := by
  have := f_nucl_equivalent s hs hG hN uc atoms h g hg (by rw [hh])
  rw [hh] at this
  have h1 : (1 - ph (hdot h g.shift.val)) * fNucl s uc atoms h = 0 := by linear_combination this
  rcases mul_eq_zero.1 h1 with h1 | h1
  · exact absurd ((ph_eq_one _).1 (sub_eq_zero.1 h1).symm) ht
  · exact h1

/-- **C45** The centring factor is one for a reflection that all centring translations allow. -/
theorem pr3_allowed (h : V3) (ts : List Shift) (hne : ts ≠ []) (ha : ∀ t ∈ ts, ∃ n : ℤ, hdot h t.val = n) : pr3 h ts = 1 := by
  rw [pr3_eq, List.map_congr_left (g := fun _ => (1 : ℂ)) (fun t ht => (ph_eq_one _).2 (ha t ht))]
  have : (ts.length : ℂ) ≠ 0 := by exact_mod_cast (List.length_pos_iff.2 hne).ne'
  simp [this]

/-- **C45** The centring factor is zero for any other reflection, when the translations are closed under
addition, modulo lattice translations, and different from each other. -/
theorem pr3_forbidden (h : V3) (ts : List Shift) (hN : ts.Pairwise fun a b => ¬ Lat a.val b.val)
    (hadd : ∀ a ∈ ts, ∀ b ∈ ts, ∃ c ∈ ts, Lat c.val (fun k => a.val k + b.val k)) (t : Shift) (ht : t ∈ ts)
    (hf : ¬ ∃ n : ℤ, hdot h t.val = n) : pr3 h ts = 0 := by
  classical
  have hex : ∀ e : Shift, ∃ c : Shift, e ∈ ts → c ∈ ts ∧ Lat c.val (fun k => t.val k + e.val k) := by
    intro e
    by_cases he : e ∈ ts
    · obtain ⟨c, hc, hm⟩ := hadd t ht e he
      exact ⟨c, fun _ => ⟨hc, hm⟩⟩
    · exact ⟨e, fun h => absurd h he⟩
  choose σ hσ using hex
  have hnd : ts.Nodup := hN.imp fun {a b} hab hEq => hab (by rw [hEq]; exact Lat.refl _)
  have hinj : ∀ a ∈ ts, ∀ b ∈ ts, σ a = σ b → a = b := by
    intro a ha b hb hab
    by_contra hne
    have hl : Lat a.val b.val := by
      have h1 := (hσ a ha).2
      have h2 := (hσ b hb).2
      rw [hab] at h1
      have h3 := h1.symm.trans h2
      intro k
      obtain ⟨z, hz⟩ := h3 k
      exact ⟨z, by linarith⟩
    have : Std.Symm fun a b : Shift => ¬ Lat a.val b.val := ⟨fun a b h h' => h h'.symm⟩
    exact List.Pairwise.forall hN ha hb hne hl
  have hperm : (ts.map σ).Perm ts := by
    apply List.Subperm.perm_of_length_le
    · apply List.subperm_of_subset
      · rw [List.nodup_map_iff_inj_on hnd]
        exact fun a ha b hb hab => hinj a ha b hb hab
      · intro c hc
        obtain ⟨e, he, rfl⟩ := List.mem_map.1 hc
        exact (hσ e he).1
    · simp
  have h1 : (ts.map fun t => ph (hdot h t.val)).sum = ph (hdot h t.val) * (ts.map fun t => ph (hdot h t.val)).sum := by
    conv_lhs => rw [← (hperm.map _).sum_eq, List.map_map]
    rw [← sum_map_mul_left]
    refine congrArg List.sum (List.map_congr_left fun e he => ?_)
    simp only [Function.comp]
    rw [hdot_lat (hσ e he).2, hdot_add, ph_add]
  have h2 : (1 - ph (hdot h t.val)) * (ts.map fun t => ph (hdot h t.val)).sum = 0 := by linear_combination h1
  rw [pr3_eq]
  rcases mul_eq_zero.1 h2 with h2 | h2
  · exact absurd ((ph_eq_one _).1 (sub_eq_zero.1 h2).symm) hf
  · rw [h2]; simp

/-- **C45** So a reflection that a centring translation forbids has no intensity, whatever the atoms. -/
theorem f_nucl_centring (s : Sym) (uc : Fin 6 → ℝ) (atoms : List Atom) (h : V3)
    (hN : s.trans.Pairwise fun a b => ¬ Lat a.val b.val)
    (hadd : ∀ a ∈ s.trans, ∀ b ∈ s.trans, ∃ c ∈ s.trans, Lat c.val (fun k => a.val k + b.val k)) (t : Shift)
    (ht : t ∈ s.trans) (hf : ¬ ∃ n : ℤ, hdot h t.val = n) : fNucl s uc atoms h = 0 := by
  unfold fNucl
  rw [pr3_forbidden h s.trans hN hadd t ht hf]
  unfold fByAsym
  simp

/-- **C45** Centrosymmetric structures with real scattering lengths: the structure factor is its own conjugate
times the phase of the centre, so it is real if the centre is at the origin. -/
theorem f_nucl_centro (s : Sym) (hcs : s.centro = true) (uc : Fin 6 → ℝ) (atoms : List Atom) (h : V3)
    (hb : ∀ a ∈ atoms, (starRingEnd ℂ) a.b = a.b) :
    fNucl s uc atoms h = ph (2 * hdot h s.centre.val) * (starRingEnd ℂ) (fNucl s uc atoms h) := by
  unfold fNucl fByAsym
  simp only [hcs, if_true, List.map_map]
  have h1 : ∀ f : Atom → ℂ, (starRingEnd ℂ) (atoms.map fun a => a.b * f a).sum = (atoms.map fun a => a.b * (starRingEnd ℂ) (f a)).sum := by
    intro f
    rw [conj_sum]
    refine congrArg List.sum (List.map_congr_left fun a ha => ?_)
    rw [map_mul, hb a ha]
  have e1 : ((fun bf : ℂ × ℂ => bf.1 * bf.2) ∘ fun a : Atom =>
      (a.b, fAsym (multiplicity s.full (siteOf a.x)) s.reduced (dw uc h a) h a)) =
      fun a => a.b * fAsym (multiplicity s.full (siteOf a.x)) s.reduced (dw uc h a) h a := rfl
  have e2 : ((fun bf : ℂ × ℂ => bf.1 * (starRingEnd ℂ) bf.2) ∘ fun a : Atom =>
      (a.b, fAsym (multiplicity s.full (siteOf a.x)) s.reduced (dw uc h a) h a)) =
      fun a => a.b * (starRingEnd ℂ) (fAsym (multiplicity s.full (siteOf a.x)) s.reduced (dw uc h a) h a) := rfl
  rw [e1, e2, ← h1, pr4_eq]
  generalize (List.map (fun a => a.b * fAsym (multiplicity s.full (siteOf a.x)) s.reduced (dw uc h a) h a) atoms).sum = S
  simp only [map_mul, map_add, map_div₀, map_one, map_ofNat, Complex.conj_conj, ph_conj]
  have : ph (2 * hdot h s.centre.val) * ph (-(2 * hdot h s.centre.val)) = 1 := by rw [← ph_add, add_neg_cancel, ph_zero]
  linear_combination (-(1 / 2) * pr3 h s.trans * S) * this

/-- **C45** Real structure factor. -/
theorem f_nucl_real (s : Sym) (hcs : s.centro = true) (h0 : ∀ k, s.centre.n k = 0) (uc : Fin 6 → ℝ) (atoms : List Atom)
    (h : V3) (hb : ∀ a ∈ atoms, (starRingEnd ℂ) a.b = a.b) : (fNucl s uc atoms h).im = 0 := by
  have := f_nucl_centro s hcs uc atoms h hb
  have hz : hdot h s.centre.val = 0 := by unfold hdot Shift.val; simp [h0]
  rw [hz, mul_zero, ph_zero, one_mul] at this
  exact Complex.conj_eq_iff_im.1 this.symm

theorem hklR_neg (h : V3) : hklR (-h) = -hklR h := by funext k; simp [hklR]

theorem sthovl_neg (h : V3) (uc : Fin 6 → ℝ) : Cell.calc_sthovl (hklR (-h)) uc = Cell.calc_sthovl (hklR h) uc := by
  unfold Cell.calc_sthovl Cell.calc_inv_d
  simp [hklR, neg_div]

/-- **C56** Friedel's law: for real scattering lengths the structure factors of `h` and `-h` are conjugate. -/
theorem f_nucl_friedel (s : Sym) (hs : s.Pos) (uc : Fin 6 → ℝ) (atoms : List Atom) (h : V3)
    (hb : ∀ a ∈ atoms, (starRingEnd ℂ) a.b = a.b) : fNucl s uc atoms (-h) = (starRingEnd ℂ) (fNucl s uc atoms h) := by
  rw [f_nucl_average s hs, f_nucl_average s hs, conj_sum]
  refine congrArg List.sum (List.map_congr_left fun a ha => ?_)
  rw [map_mul, map_mul, map_mul, hb a ha, Complex.conj_ofReal, map_div₀, map_natCast, map_natCast, conj_sum]
  suffices hsum : (s.full.map fun g => ph (hdot (-h) (act g a.x)) * (dw uc (-h) a g.r : ℂ)).sum =
      (s.full.map fun g => (starRingEnd ℂ) (ph (hdot h (act g a.x)) * (dw uc h a g.r : ℂ))).sum by rw [hsum]
  refine congrArg List.sum (List.map_congr_left fun g _ => ?_)
  rw [map_mul, ph_conj, Complex.conj_ofReal]
  have e1 : hdot (-h) (act g a.x) = -hdot h (act g a.x) := by unfold hdot; simp; ring
  have e2 : dw uc (-h) a g.r = dw uc h a g.r := by
    unfold dw
    rw [sthovl_neg, hklR_neg]
    exact (Adp.dwf_friedel _ _ _ _ _).1
  rw [e1, e2]

end Cryspy.Sf
