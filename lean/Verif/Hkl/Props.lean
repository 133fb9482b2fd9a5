import Verif.Hkl.Spec
import Mathlib.Algebra.Order.BigOperators.Ring.Finset
import Mathlib.Data.Set.Card

/-!
# The list of reflections is complete, without repetition and has the right multiplicities (C58)
-/

namespace Cryspy.Hkl

open Symm Sf Real Matrix

theorem mem_symRange (m i : ℤ) : i ∈ symRange m ↔ -m ≤ i ∧ i ≤ m := by
  unfold symRange
  simp only [List.mem_map, List.mem_range]
  constructor
  · rintro ⟨n, hn, rfl⟩; omega
  · intro h
    exact ⟨(i + m).toNat, by omega, by omega⟩

theorem symRange_nodup (m : ℤ) : (symRange m).Nodup := by
  unfold symRange
  apply List.Nodup.map _ List.nodup_range
  intro a b h
  simp only [add_right_inj] at h
  exact_mod_cast h

theorem mem_box (uc : Fin 6 → ℝ) (smax : ℝ) (v : V3) : v ∈ box uc smax ↔
    (-pyInt (2 * uc 0 * smax) ≤ v 0 ∧ v 0 ≤ pyInt (2 * uc 0 * smax)) ∧
    (-pyInt (2 * uc 1 * smax) ≤ v 1 ∧ v 1 ≤ pyInt (2 * uc 1 * smax)) ∧
    (-pyInt (2 * uc 2 * smax) ≤ v 2 ∧ v 2 ≤ pyInt (2 * uc 2 * smax)) := by
  unfold box
  simp only [List.mem_map, Prod.exists]
  constructor
  · rintro ⟨a, b, c, h, rfl⟩
    simpa [List.pair_mem_product, mem_symRange] using h
  · intro h
    refine ⟨v 0, v 1, v 2, ?_, ?_⟩
    · simpa [List.pair_mem_product, mem_symRange] using h
    · funext k; fin_cases k <;> rfl

theorem box_nodup (uc : Fin 6 → ℝ) (smax : ℝ) : (box uc smax).Nodup := by
  unfold box
  refine List.Nodup.map ?_ ((symRange_nodup _).product ((symRange_nodup _).product (symRange_nodup _)))
  rintro ⟨a, b, c⟩ ⟨a', b', c'⟩ h
  have h0 := congrFun h 0
  have h1 := congrFun h 1
  have h2 := congrFun h 2
  simp at h0 h1 h2
  simp [h0, h1, h2]

/-- The indices of a reflection are bounded by the edges of the cell. -/
theorem index_bound {uc : Fin 6 → ℝ} (hu : Cell.NonDegenerate uc) (v : V3) (i : Fin 3) :
    |(v i : ℝ)| ≤ 2 * ![uc 0, uc 1, uc 2] i * sthovl uc v := by
  obtain ⟨p0, p1, -, p3⟩ := Cell.inv_d_is_length (hklR v) uc hu
  have hd := Cell.m_b_dual_m_m uc hu
  have hm := Cell.m_m_factors_metric uc hu
  set B := Mat.toM (Cell.calc_m_b uc)
  set M := Mat.toM (Cell.calc_m_m uc)
  have hq : Cell.calc_q_ccs (hklR v) uc = B *ᵥ hklR v := Cell.q_ccs_spec _ _
  have hback : Mᵀ *ᵥ Cell.calc_q_ccs (hklR v) uc = hklR v := by
    have : Mᵀ * B = 1 := by rw [← Matrix.transpose_transpose B, ← Matrix.transpose_mul, hd, Matrix.transpose_one]
    rw [hq, Matrix.mulVec_mulVec, this, Matrix.one_mulVec]
  have hi : (v i : ℝ) = ∑ k, M k i * Cell.calc_q_ccs (hklR v) uc k := by
    have := congrFun hback i
    simp only [Matrix.mulVec, dotProduct, Matrix.transpose_apply, hklR] at this
    exact this.symm
  have hmi : ∑ k, M k i ^ 2 = (![uc 0, uc 1, uc 2] i) ^ 2 := by
    have h1 : (Mᵀ * M) i i = Cell.metric uc i i := by rw [hm]
    simp only [Matrix.mul_apply, Matrix.transpose_apply] at h1
    calc ∑ k, M k i ^ 2 = ∑ k, M k i * M k i := Finset.sum_congr rfl fun k _ => by ring
      _ = Cell.metric uc i i := h1
      _ = _ := by fin_cases i <;> simp [Cell.metric, sq]
  have hcs := Finset.sum_mul_sq_le_sq_mul_sq Finset.univ (fun k => M k i) (Cell.calc_q_ccs (hklR v) uc)
  rw [← hi, hmi] at hcs
  have hqq : ∑ k, Cell.calc_q_ccs (hklR v) uc k ^ 2 = Cell.calc_inv_d (hklR v) uc ^ 2 := by
    rw [p1]; simp only [dotProduct]; exact Finset.sum_congr rfl fun k _ => by ring
  rw [hqq] at hcs
  have hpos : 0 ≤ ![uc 0, uc 1, uc 2] i := by
    fin_cases i
    exacts [hu.a_pos.le, hu.b_pos.le, hu.c_pos.le]
  have : 2 * ![uc 0, uc 1, uc 2] i * sthovl uc v = ![uc 0, uc 1, uc 2] i * Cell.calc_inv_d (hklR v) uc := by
    unfold sthovl; rw [p3]; ring
  rw [this]
  apply abs_le_of_sq_le_sq _ (mul_nonneg hpos p0)
  rw [mul_pow]; exact hcs

theorem sthovl_nonneg {uc : Fin 6 → ℝ} (hu : Cell.NonDegenerate uc) (v : V3) : 0 ≤ sthovl uc v := by
  obtain ⟨p0, -, -, p3⟩ := Cell.inv_d_is_length (hklR v) uc hu
  unfold sthovl; rw [p3]; linarith

/-- Every reflection up to `smax` is in the box. -/
theorem inRange_box {uc : Fin 6 → ℝ} (hu : Cell.NonDegenerate uc) {smax : ℝ} {v : V3} (hv : sthovl uc v ≤ smax) :
    v ∈ box uc smax := by
  have h0 := sthovl_nonneg hu v
  have key : ∀ (z : ℤ) (a : ℝ), 0 < a → |(z : ℝ)| ≤ 2 * a * sthovl uc v →
      -pyInt (2 * a * smax) ≤ z ∧ z ≤ pyInt (2 * a * smax) := by
    intro z a ha hz
    have h1 : 2 * a * sthovl uc v ≤ 2 * a * smax := mul_le_mul_of_nonneg_left hv (by positivity)
    have h2 : (0 : ℝ) ≤ 2 * a * smax := le_trans (by positivity) h1
    have h3 : (|z| : ℤ) ≤ ⌊2 * a * smax⌋ := by
      rw [Int.le_floor]; push_cast; linarith
    rw [pyInt, if_pos h2]
    exact abs_le.1 h3
  rw [mem_box]
  exact ⟨key _ _ hu.a_pos (index_bound hu v 0), key _ _ hu.b_pos (index_bound hu v 1), key _ _ hu.c_pos (index_bound hu v 2)⟩

/-- Small indices: the labels of different reflections are different. -/
theorem label_inj {v w : V3} (hv : ∀ k, |v k| ≤ 499) (hw : ∀ k, |w k| ≤ 499) (h : label v = label w) : v = w := by
  have a0 := abs_le.1 (hv 0); have a1 := abs_le.1 (hv 1); have a2 := abs_le.1 (hv 2)
  have b0 := abs_le.1 (hw 0); have b1 := abs_le.1 (hw 1); have b2 := abs_le.1 (hw 2)
  unfold label at h
  have e0 : v 0 = w 0 := by omega
  have e1 : v 1 = w 1 := by omega
  have e2 : v 2 = w 2 := by omega
  funext k
  fin_cases k
  exacts [e0, e1, e2]

theorem mem_full_rot (s : Sym) (hne : s.trans ≠ []) (h v : V3) :
    v ∈ equivReflections h s.reduced s.centro ↔ Equivalent s h v := by
  rw [equivalents_mem]
  obtain ⟨t0, ht0⟩ := List.exists_mem_of_ne_nil _ hne
  unfold Equivalent Sym.full fullByReduced
  cases hc : s.centro
  · simp only [Bool.false_eq_true, if_false, false_and, or_false, List.mem_flatMap, List.mem_map]
    constructor
    · rintro ⟨e, he, rfl⟩
      exact ⟨_, ⟨t0, ht0, e, he, rfl⟩, rfl⟩
    · rintro ⟨_, ⟨t, ht, e, he, rfl⟩, rfl⟩
      exact ⟨e, he, rfl⟩
  · simp only [if_true, true_and, List.mem_append, List.mem_flatMap, List.mem_map]
    constructor
    · rintro ⟨e, he, rfl | rfl⟩
      · exact ⟨_, Or.inl ⟨t0, ht0, e, he, rfl⟩, rfl⟩
      · exact ⟨_, Or.inr ⟨_, ⟨t0, ht0, e, he, rfl⟩, rfl⟩, (rowMul_neg_r h e.r).symm⟩
    · rintro ⟨_, ⟨t, ht, e, he, rfl⟩ | ⟨_, ⟨t, ht, e, he, rfl⟩, rfl⟩, rfl⟩
      · exact ⟨e, he, Or.inl rfl⟩
      · exact ⟨e, he, Or.inr (rowMul_neg_r h e.r)⟩

variable {s : Sym} {uc : Fin 6 → ℝ}

theorem mem_equiv_full (h v : V3) : v ∈ equivReflections h s.full false ↔ Equivalent s h v := by
  rw [equivalents_mem]; simp [Equivalent]

theorem Equivalent.refl (g : Good s uc) (h : V3) : Equivalent s h h :=
  (mem_equiv_full h h).1 (equivalents_are_classes s.full g.group h false).1

theorem Equivalent.congr (g : Good s uc) {h v : V3} (e : Equivalent s h v) (w : V3) : Equivalent s v w ↔ Equivalent s h w := by
  have := (equivalents_are_classes s.full g.group h false).2 v ((mem_equiv_full h v).2 e) w
  rwa [mem_equiv_full, mem_equiv_full] at this

theorem Equivalent.symm (g : Good s uc) {h v : V3} (e : Equivalent s h v) : Equivalent s v h :=
  (e.congr g h).2 (Equivalent.refl g h)

theorem Equivalent.sthovl (g : Good s uc) {h v : V3} (e : Equivalent s h v) : Hkl.sthovl uc v = Hkl.sthovl uc h := by
  obtain ⟨o, ho, rfl⟩ := e
  exact sthovl_equivalent uc g.cell h o.r (g.metric o ho)

theorem Equivalent.allowed (g : Good s uc) {h v : V3} (e : Equivalent s h v) (ha : Allowed s h) : Allowed s v := by
  obtain ⟨o, ho, rfl⟩ := e
  intro t ht
  obtain ⟨t', ht', hl⟩ := g.trans_rot o ho t ht
  obtain ⟨n, hn⟩ := ha t' ht'
  choose z hz using hl
  refine ⟨n - (h 0 * z 0 + h 1 * z 1 + h 2 * z 2), ?_⟩
  have h0 := hz 0; have h1 := hz 1; have h2 := hz 2
  simp only [Fin.sum_univ_three] at h0 h1 h2
  push_cast
  rw [← hn, ← h0, ← h1, ← h2]
  simp only [hdot, rowMul, Fin.sum_univ_three]
  push_cast
  ring

open Classical in
theorem pr3_flag (g : Good s uc) (h : V3) : (!decide (‖pr3 h s.trans‖ ≤ 1 / 10 ^ 8)) = true ↔ Allowed s h := by
  by_cases ha : Allowed s h
  · rw [pr3_allowed h s.trans g.trans_ne ha]
    simp only [ha, iff_true, norm_one, Bool.not_eq_true', decide_eq_false_iff_not, not_le]
    norm_num
  · have ha' := ha
    unfold Allowed at ha'
    push Not at ha'
    obtain ⟨t, ht, hf⟩ := ha'
    rw [pr3_forbidden h s.trans g.trans_distinct g.trans_add t ht (by push Not; exact hf)]
    simp [ha]

/-- `2 a smax`, `2 b smax`, `2 c smax` are below 500. -/
def SmallBox (uc : Fin 6 → ℝ) (smax : ℝ) : Prop := 2 * uc 0 * smax < 500 ∧ 2 * uc 1 * smax < 500 ∧ 2 * uc 2 * smax < 500

theorem small_index (hu : Cell.NonDegenerate uc) {smax : ℝ} (hs : SmallBox uc smax) {v : V3} (hv : sthovl uc v ≤ smax) (k : Fin 3) :
    |v k| ≤ 499 := by
  have key : ∀ (z : ℤ) (a : ℝ), 0 < a → 2 * a * smax < 500 → |(z : ℝ)| ≤ 2 * a * sthovl uc v → |z| ≤ 499 := by
    intro z a ha hb hz
    have h1 : 2 * a * sthovl uc v ≤ 2 * a * smax := mul_le_mul_of_nonneg_left hv (by positivity)
    have h2 : ((|z| : ℤ) : ℝ) < 500 := by push_cast; linarith
    have h3 : |z| < 500 := by exact_mod_cast h2
    omega
  have := index_bound hu v k
  fin_cases k
  exacts [key _ _ hu.a_pos hs.1 this, key _ _ hu.b_pos hs.2.1 this, key _ _ hu.c_pos hs.2.2 this]

/-- The representative of a class. -/
noncomputable def rep (s : Sym) (c : Choices uc) (h : V3) : V3 := c.pick (equivReflections h s.reduced s.centro)

theorem rep_equiv (g : Good s uc) (c : Choices uc) (h : V3) : Equivalent s h (rep s c h) := by
  rw [← mem_full_rot s g.trans_ne]
  apply c.pick_mem
  exact List.ne_nil_of_mem ((mem_full_rot s g.trans_ne h h).2 (Equivalent.refl g h))

theorem rep_eq (g : Good s uc) (c : Choices uc) {smax : ℝ} (hs : SmallBox uc smax) {h v : V3} (hh : sthovl uc h ≤ smax)
    (e : Equivalent s h v) : rep s c v = rep s c h := by
  have e1 := rep_equiv g c h
  have e2 := rep_equiv g c v
  have e3 : Equivalent s h (rep s c v) := (e.congr g _).1 e2
  have e4 : Equivalent s v (rep s c h) := (e.congr g _).2 e1
  apply label_inj (small_index g.cell hs (by rw [e3.sthovl g]; exact hh)) (small_index g.cell hs (by rw [e1.sthovl g]; exact hh))
  apply le_antisymm
  · exact c.pick_max _ _ ((mem_full_rot s g.trans_ne _ _).2 e3)
  · exact c.pick_max _ _ ((mem_full_rot s g.trans_ne _ _).2 e4)

theorem mem_uniqueCounts (l : List V3) (p : V3 × ℕ) : p ∈ uniqueCounts l ↔ p.1 ∈ l ∧ p.2 = l.count p.1 := by
  unfold uniqueCounts
  rw [List.mem_map]
  constructor
  · rintro ⟨v, hv, rfl⟩
    exact ⟨List.mem_dedup.1 hv, rfl⟩
  · rintro ⟨h1, h2⟩
    exact ⟨p.1, List.mem_dedup.2 h1, by rw [← h2]⟩

theorem uniqueCounts_nodup (l : List V3) : (uniqueCounts l).Nodup := by
  unfold uniqueCounts
  exact List.Nodup.map (fun a b h => (Prod.mk.inj h).1) (List.nodup_dedup l)

theorem mem_indexHkl (g : Good s uc) (c : Choices uc) (smin smax : ℝ) (p : V3 × ℕ) :
    p ∈ indexHkl uc c smin smax s.reduced s.trans s.centro ↔
      (∃ h ∈ box uc smax, rep s c h = p.1) ∧ p.2 = ((box uc smax).map (rep s c)).count p.1 ∧ Allowed s p.1 ∧
        InRange uc smin smax p.1 := by
  unfold indexHkl
  simp only [List.mem_filter, (c.sort_perm _).mem_iff, mem_uniqueCounts, pr3_flag g, Bool.and_eq_true, decide_eq_true_eq,
    List.mem_map]
  unfold InRange rep
  tauto

theorem count_rep (g : Good s uc) (c : Choices uc) {smax : ℝ} (hs : SmallBox uc smax) {h : V3} (hh : sthovl uc h ≤ smax) :
    ((box uc smax).map (rep s c)).count (rep s c h) = Set.ncard {w | Equivalent s (rep s c h) w} := by
  classical
  have e1 := rep_equiv g c h
  rw [List.count, List.countP_map, List.countP_eq_length_filter]
  rw [← List.toFinset_card_of_nodup ((box_nodup uc smax).filter _), ← Set.ncard_coe_finset]
  congr 1
  ext w
  simp only [List.coe_toFinset, List.mem_filter, Set.mem_setOf_eq, Function.comp, beq_iff_eq]
  constructor
  · rintro ⟨-, hw⟩
    have := rep_equiv g c w
    rw [hw] at this
    exact this.symm g
  · intro hw
    have hw' : Equivalent s h w := (e1.congr g w).1 hw
    exact ⟨inRange_box g.cell (by rw [hw'.sthovl g]; exact hh), rep_eq g c hs hh hw'⟩

/-- **C58** Every entry of the list lies in the range, is allowed by the centring and has as multiplicity the number of
reflections equivalent to it. -/
theorem list_sound (g : Good s uc) (c : Choices uc) (smin smax : ℝ) (hs : SmallBox uc smax) :
    ∀ p ∈ indexHkl uc c smin smax s.reduced s.trans s.centro,
      InRange uc smin smax p.1 ∧ Allowed s p.1 ∧ p.2 = Set.ncard {w | Equivalent s p.1 w} := by
  intro p hp
  obtain ⟨⟨h, -, hr⟩, h2, h3, h4⟩ := (mem_indexHkl g c smin smax p).1 hp
  have hh : sthovl uc h ≤ smax := by
    rw [← (rep_equiv g c h).sthovl g, hr]; exact h4.2
  refine ⟨h4, h3, ?_⟩
  rw [h2, ← hr]
  exact count_rep g c hs hh

/-- **C58** Every allowed reflection in the range is equivalent to an entry of the list, and to one only. -/
theorem list_complete (g : Good s uc) (c : Choices uc) (smin smax : ℝ) (hs : SmallBox uc smax) (h : V3)
    (hr : InRange uc smin smax h) (ha : Allowed s h) :
    ∃! p, p ∈ indexHkl uc c smin smax s.reduced s.trans s.centro ∧ Equivalent s h p.1 := by
  have e := rep_equiv g c h
  refine ⟨(rep s c h, ((box uc smax).map (rep s c)).count (rep s c h)), ⟨?_, e⟩, ?_⟩
  · rw [mem_indexHkl g]
    refine ⟨⟨h, inRange_box g.cell hr.2, rfl⟩, rfl, e.allowed g ha, ?_⟩
    unfold InRange; rw [e.sthovl g]; exact hr
  · rintro ⟨v, n⟩ ⟨hp, hv⟩
    obtain ⟨⟨w, -, hw⟩, h2, -, -⟩ := (mem_indexHkl g c smin smax _).1 hp
    simp only at hw h2 hv
    have hwv := rep_equiv g c w
    rw [hw] at hwv
    have : v = rep s c h := by
      rw [← hw]
      exact rep_eq g c hs hr.2 ((hv.congr g w).1 (hwv.symm g))
    rw [h2, this]

/-- **C58** The list is sorted by `sin θ/λ` and different entries are not equivalent. -/
theorem list_sorted (g : Good s uc) (c : Choices uc) (smin smax : ℝ) (hs : SmallBox uc smax) :
    (indexHkl uc c smin smax s.reduced s.trans s.centro).Pairwise
      fun p q => sthovl uc p.1 ≤ sthovl uc q.1 ∧ ¬ Equivalent s p.1 q.1 := by
  have h1 : (indexHkl uc c smin smax s.reduced s.trans s.centro).Pairwise fun p q => sthovl uc p.1 ≤ sthovl uc q.1 :=
    (c.sort_sorted _).filter _
  have h2 : (indexHkl uc c smin smax s.reduced s.trans s.centro).Nodup :=
    (((c.sort_perm _).nodup_iff).2 ((uniqueCounts_nodup _).filter _)).filter _
  refine h1.and (h2.pairwise_of_forall_ne fun p hp q hq hne he => hne ?_)
  obtain ⟨r1, a1, -⟩ := list_sound g c smin smax hs p hp
  obtain ⟨r, -, hu⟩ := list_complete g c smin smax hs p.1 r1 a1
  rw [hu p ⟨hp, Equivalent.refl g _⟩, hu q ⟨hq, he⟩]

/-- **C58** So a sum over the list weighted with the multiplicities is the sum over all allowed reflections in the range,
for every quantity that equivalent reflections have in common. -/
theorem list_sum (g : Good s uc) (c : Choices uc) (smin smax : ℝ) (hs : SmallBox uc smax) (f : V3 → ℝ)
    (hf : ∀ h v, Equivalent s h v → f v = f h) (S : Finset V3) (hS : ∀ h, h ∈ S ↔ InRange uc smin smax h ∧ Allowed s h) :
    ((indexHkl uc c smin smax s.reduced s.trans s.centro).map fun p => (p.2 : ℝ) * f p.1).sum = ∑ h ∈ S, f h := by
  classical
  set L := indexHkl uc c smin smax s.reduced s.trans s.centro with hL
  have hnd : L.Nodup := by
    have := list_sorted g c smin smax hs
    rw [← hL] at this
    refine this.imp fun {p q} h he => h.2 ?_
    rw [he]; exact Equivalent.refl g _
  rw [← List.sum_toFinset _ hnd]
  have hex : ∀ h, ∃ p, h ∈ S → p ∈ L ∧ Equivalent s h p.1 := by
    intro h
    by_cases hh : h ∈ S
    · obtain ⟨p, hp, -⟩ := list_complete g c smin smax hs h ((hS h).1 hh).1 ((hS h).1 hh).2
      exact ⟨p, fun _ => hp⟩
    · exact ⟨(h, 0), fun h' => absurd h' hh⟩
  choose φ hφ using hex
  rw [← Finset.sum_fiberwise_of_maps_to (s := S) (t := L.toFinset) (g := φ) (fun h hh => List.mem_toFinset.2 (hφ h hh).1)]
  apply Finset.sum_congr rfl
  intro p hp
  have hp' := List.mem_toFinset.1 hp
  obtain ⟨r1, a1, m1⟩ := list_sound g c smin smax hs p hp'
  have hset : {w | Equivalent s p.1 w} = ((S.filter fun h => φ h = p : Finset V3) : Set V3) := by
    ext w
    simp only [Set.mem_setOf_eq, Finset.coe_filter]
    constructor
    · intro hw
      have hwS : w ∈ S := (hS w).2 ⟨by unfold InRange; rw [hw.sthovl g]; exact r1, hw.allowed g a1⟩
      refine ⟨hwS, ?_⟩
      obtain ⟨r, -, hu⟩ := list_complete g c smin smax hs w ((hS w).1 hwS).1 ((hS w).1 hwS).2
      rw [hu (φ w) (hφ w hwS), hu p ⟨hp', hw.symm g⟩]
    · rintro ⟨hwS, hw⟩
      have := (hφ w hwS).2
      rw [hw] at this
      exact this.symm g
  rw [hset, Set.ncard_coe_finset] at m1
  rw [m1, Finset.sum_congr rfl (g := fun _ => f p.1), Finset.sum_const, nsmul_eq_mul]
  intro w hw
  have hw2 := Finset.mem_filter.1 hw
  have := (hφ w hw2.1).2
  rw [hw2.2] at this
  exact (hf w p.1 this).symm

end Cryspy.Hkl
