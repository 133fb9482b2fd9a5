import Verif.HklCell.Props
import Verif.Hkl.Example
import Mathlib.Algebra.Order.Round

/-!
# C84: long cells, lists without symmetry, equivalent reflections
-/

namespace Cryspy.HklCell

open Symm Sf Real Hkl

variable {s : Sym} {uc : Fin 6 → ℝ}

/-! ## long cells -/

/-- the group P1 -/
def p1 : Sym := ⟨[idElem], false, ⟨fun _ => 0, 1⟩, [⟨fun _ => 0, 1⟩]⟩

theorem images_p1 (h : V3) : images h p1.reduced = [h, -h] := by
  have e : hklImage idElem.r h = h := by
    funext k; revert k; apply Mat.fin3 <;> simp [hklImage, idElem]
  unfold images equivReflections p1
  simp only [List.map_cons, List.map_nil, if_true, e, List.cons_append, List.nil_append]
  congr 2
  funext k; simp

/-- C84, known failure: in a cell so long that (0 1 -100) is inside the range, this reflection and its Friedel mate are both listed, each with
multiplicity 2. -/
theorem long_cell_twice (g : Good p1 uc) (smin smax : ℝ) (hr : Inside uc smin smax ![0, 1, -100]) :
    (![0, 1, -100], 2) ∈ calcHkl uc smin smax p1.reduced p1.trans ∧ (![0, -1, 100], 2) ∈ calcHkl uc smin smax p1.reduced p1.trans ∧
    Laue p1 ![0, 1, -100] ![0, -1, 100] := by
  have hneg : (-![0, 1, -100] : V3) = ![0, -1, 100] := by decide
  have hneg' : (-![0, -1, 100] : V3) = ![0, 1, -100] := by decide
  have tie : ∀ a b : V3, key a = key b → last [a, b] = b := by
    intro a b h
    unfold last
    rw [List.mergeSort_of_pairwise (by simp [h])]
    rfl
  have ha : ∀ h : V3, Allowed p1 h := by
    intro h t ht
    simp only [p1, List.mem_singleton] at ht
    subst ht
    exact ⟨0, by simp [hdot, Shift.val]⟩
  have key : ∀ v w : V3, -v = w → Inside uc smin smax v → v 0 = 0 → v ≠ w → HklCell.key v = HklCell.key w → (w, 2) ∈ calcHkl uc smin smax p1.reduced p1.trans := by
    intro v w hn hv h0 hne hk
    have hb : v ∈ halfBox uc smax := (mem_halfBox _ _ _).2 ⟨inRange_box g.cell hv.2.le, h0.ge⟩
    have hrep : rep p1 v = w := by
      unfold rep
      rw [images_p1, hn, tie v w hk]
    obtain ⟨p, hp, he⟩ := List.mem_map.1 ((loop_spec g (halfBox uc smax) [] (by simp)).2.2.2 v hb (ha v))
    rw [hrep] at he
    have hin : Inside uc smin smax w := by unfold Inside; rw [← hn, sthovl_neg g.cell]; exact hv
    have hp' : p ∈ calcHkl uc smin smax p1.reduced p1.trans := (mem_calcHkl _ _ _ _ _ _).2 ⟨hp, by rw [he]; exact hin⟩
    have h2 := (hkl_sound g smin smax p hp').2.2
    rw [← images_card g, he, images_p1, ← hn, neg_neg] at h2
    have h3 : ([-v, v] : List V3).dedup.length = 2 := by
      rw [List.Nodup.dedup (by rw [hn]; simp [hne.symm])]; rfl
    rw [h3] at h2
    have : p = (w, 2) := Prod.ext he h2
    rwa [this] at hp'
  have hr' : Inside uc smin smax ![0, -1, 100] := by unfold Inside; rw [← hneg, sthovl_neg g.cell]; exact hr
  refine ⟨key _ _ hneg' hr' rfl (by decide) (by decide), key _ _ hneg hr rfl (by decide) (by decide), ?_⟩
  rw [← hneg]
  exact laue_neg g _

/-! ## without symmetry -/

/-- C84: the list without symmetry has every reflection in the closed range, each once, with multiplicity 1, also absent ones and (000). -/
theorem in_range_spec (hu : Cell.NonDegenerate uc) (o : Order uc) (smin smax : ℝ) :
    (∀ p, p ∈ calcHklInRange uc o smin smax ↔ InRange uc smin smax p.1 ∧ p.2 = 1) ∧
    (calcHklInRange uc o smin smax).Nodup ∧
    (calcHklInRange uc o smin smax).Pairwise fun p q => sthovl uc p.1 ≤ sthovl uc q.1 := by
  refine ⟨?_, ?_, ?_⟩
  · rintro ⟨v, n⟩
    unfold calcHklInRange
    simp only [List.mem_map, (o.sort_perm _).mem_iff, List.mem_filter, Bool.and_eq_true, decide_eq_true_eq, Prod.mk.injEq]
    constructor
    · rintro ⟨w, ⟨-, h1, h2⟩, rfl, rfl⟩
      exact ⟨⟨h1, h2⟩, rfl⟩
    · rintro ⟨h1, rfl⟩
      exact ⟨v, ⟨inRange_box hu h1.2, h1⟩, rfl, rfl⟩
  · unfold calcHklInRange
    refine List.Nodup.map (fun a b h => (Prod.mk.inj h).1) ?_
    exact ((o.sort_perm _).nodup_iff).2 ((box_nodup uc smax).filter _)
  · unfold calcHklInRange
    rw [List.pairwise_map]
    exact o.sort_sorted _

/-! ## equivalent reflections -/

/-- rotations of the operations and their opposites -/
def signed (s : Sym) : List M3 := s.reduced.map (fun e => e.r) ++ s.reduced.map fun e => -e.r

theorem images_signed (h : V3) : images h s.reduced = (signed s).map fun r => rowMul h r := by
  unfold images equivReflections signed
  have hn : ∀ w : V3, (fun k => -1 * w k) = -w := by intro w; funext k; simp
  have e : ∀ r : M3, rowMul h (-r) = -rowMul h r := by
    intro r; funext k; simp [rowMul, Finset.sum_neg_distrib]
  simp only [if_true, List.map_append, List.map_map, Function.comp_def, hklImage_eq, e]
  congr 1
  exact List.map_congr_left fun x _ => hn _

theorem mem_signed (hne : s.trans ≠ []) (r : M3) : r ∈ signed s ↔ ∃ e ∈ s.full, r = e.r ∨ r = -e.r := by
  obtain ⟨t0, ht0⟩ := List.exists_mem_of_ne_nil _ hne
  have hn : ∀ w : M3, (fun i j => -1 * w i j) = -w := by intro w; funext i j; simp
  unfold signed Sym.full fullByReduced
  cases hc : s.centro
  · simp only [Bool.false_eq_true, if_false, List.mem_append, List.mem_map, List.mem_flatMap]
    constructor
    · rintro (⟨e, he, rfl⟩ | ⟨e, he, rfl⟩)
      · exact ⟨_, ⟨t0, ht0, e, he, rfl⟩, Or.inl rfl⟩
      · exact ⟨_, ⟨t0, ht0, e, he, rfl⟩, Or.inr rfl⟩
    · rintro ⟨_, ⟨t, -, e, he, rfl⟩, rfl | rfl⟩
      · exact Or.inl ⟨e, he, rfl⟩
      · exact Or.inr ⟨e, he, rfl⟩
  · simp only [if_true, List.mem_append, List.mem_map, List.mem_flatMap]
    constructor
    · rintro (⟨e, he, rfl⟩ | ⟨e, he, rfl⟩)
      · exact ⟨_, Or.inl ⟨t0, ht0, e, he, rfl⟩, Or.inl rfl⟩
      · exact ⟨_, Or.inl ⟨t0, ht0, e, he, rfl⟩, Or.inr rfl⟩
    · rintro ⟨_, ⟨t, -, e, he, rfl⟩ | ⟨_, ⟨t, -, e, he, rfl⟩, rfl⟩, rfl | rfl⟩
      · exact Or.inl ⟨e, he, rfl⟩
      · exact Or.inr ⟨e, he, rfl⟩
      · exact Or.inr ⟨e, he, (hn _).symm⟩
      · exact Or.inl ⟨e, he, by simp only [hn, neg_neg]⟩

theorem signed_mul (g : Good s uc) {a b : M3} (ha : a ∈ signed s) (hb : b ∈ signed s) : mmul a b ∈ signed s := by
  rw [mem_signed g.trans_ne] at *
  obtain ⟨x, hx, h1⟩ := ha
  obtain ⟨y, hy, h2⟩ := hb
  obtain ⟨c, hc, hp⟩ := g.group.mul x hx y hy
  have e := rot_of_isProd hp
  have n1 : mmul (-x.r) y.r = -mmul x.r y.r := by funext i j; simp only [mmul, Pi.neg_apply]; ring
  have n2 : mmul x.r (-y.r) = -mmul x.r y.r := by funext i j; simp only [mmul, Pi.neg_apply]; ring
  have n3 : mmul (-x.r) (-y.r) = mmul x.r y.r := by funext i j; simp only [mmul, Pi.neg_apply]; ring
  refine ⟨c, hc, ?_⟩
  rcases h1 with rfl | rfl <;> rcases h2 with rfl | rfl
  · exact Or.inl e.symm
  · exact Or.inr (by rw [n2, e])
  · exact Or.inr (by rw [n1, e])
  · exact Or.inl (by rw [n3, e])

theorem signed_inv (g : Good s uc) {a : M3} (ha : a ∈ signed s) : ∃ b ∈ signed s, mmul b a = idElem.r := by
  rw [mem_signed g.trans_ne] at ha
  obtain ⟨x, hx, h1⟩ := ha
  obtain ⟨y, hy, h2⟩ := g.group.inv x hx
  have hp : IsProd y x idElem := fun z => by
    rw [act_idElem]
    intro k
    obtain ⟨n, hn⟩ := h2 z k
    exact ⟨-n, by push_cast; linarith⟩
  have e := rot_of_isProd hp
  rcases h1 with rfl | rfl
  · exact ⟨y.r, (mem_signed g.trans_ne _).2 ⟨y, hy, Or.inl rfl⟩, e.symm⟩
  · refine ⟨-y.r, (mem_signed g.trans_ne _).2 ⟨y, hy, Or.inr rfl⟩, ?_⟩
    rw [e]
    funext i j; simp only [mmul, Pi.neg_apply]; ring

theorem mmul_assoc (a b c : M3) : mmul (mmul a b) c = mmul a (mmul b c) := by
  funext i j; simp only [mmul]; ring

theorem mmul_id (a : M3) : mmul a idElem.r = a := by
  funext i; apply funext; apply Mat.fin3 <;> simp [mmul, idElem]

theorem id_mmul (a : M3) : mmul idElem.r a = a := by
  apply funext; apply Mat.fin3 <;> funext j <;> simp [mmul, idElem]

theorem rowMul_id (h : V3) : rowMul h idElem.r = h := by
  funext k; revert k; apply Mat.fin3 <;> simp [rowMul, idElem, Fin.sum_univ_three]

theorem signed_inv2 (g : Good s uc) {a : M3} (ha : a ∈ signed s) : ∃ b ∈ signed s, mmul b a = idElem.r ∧ mmul a b = idElem.r := by
  obtain ⟨b, hb, h1⟩ := signed_inv g ha
  obtain ⟨c, hc, h2⟩ := signed_inv g hb
  have : c = a := by rw [← mmul_id c, ← h1, ← mmul_assoc, h2, id_mmul]
  exact ⟨b, hb, h1, this ▸ h2⟩

/-- number of rotations, with sign, that leave the reflection -/
noncomputable def fixing (s : Sym) (h : V3) : ℕ := ((signed s).toFinset.filter fun r => rowMul h r = h).card

theorem orbit_stabiliser (g : Good s uc) (hd : (signed s).Nodup) (h : V3) :
    (images h s.reduced).dedup.length * fixing s h = 2 * s.reduced.length := by
  have hf : ∀ v ∈ (images h s.reduced).toFinset, ((signed s).toFinset.filter fun r => rowMul h r = v).card = fixing s h := by
    intro v hv
    rw [List.mem_toFinset, images_signed, List.mem_map] at hv
    obtain ⟨a, ha, rfl⟩ := hv
    obtain ⟨b, hb, h1, h2⟩ := signed_inv2 g ha
    unfold fixing
    symm
    refine Finset.card_bij' (fun r _ => mmul r a) (fun r _ => mmul r b) ?_ ?_ ?_ ?_
    · intro r hr
      rw [Finset.mem_filter, List.mem_toFinset] at hr ⊢
      exact ⟨signed_mul g hr.1 ha, by rw [rowMul_mmul, hr.2]⟩
    · intro r hr
      rw [Finset.mem_filter, List.mem_toFinset] at hr ⊢
      exact ⟨signed_mul g hr.1 hb, by rw [rowMul_mmul, hr.2, ← rowMul_mmul, h2, rowMul_id]⟩
    · intro r _
      rw [mmul_assoc, h2, mmul_id]
    · intro r _
      rw [mmul_assoc, h1, mmul_id]
  have h1 := Finset.card_eq_sum_card_fiberwise (s := (signed s).toFinset) (t := (images h s.reduced).toFinset) (f := fun r => rowMul h r)
    (by
      intro r hr
      rw [images_signed]
      simp only [List.coe_toFinset, List.mem_map] at *
      exact ⟨r, hr, rfl⟩)
  rw [Finset.sum_congr rfl hf, Finset.sum_const, smul_eq_mul, List.card_toFinset, List.card_toFinset, hd.dedup] at h1
  rw [← h1]
  unfold signed
  rw [List.length_append, List.length_map, List.length_map]; omega

/-- C84: the equivalent reflections are those that are the same up to the operations and Friedel's law, each once; the number called multiplicity is
the number of operations that keep the reflection, so that its product with the number of equivalent reflections is the order of the Laue group. -/
theorem equiv_spec (g : Good s uc) (hd : (signed s).Nodup) (h : V3) :
    (∀ v, v ∈ (calcHklEquiv s.reduced h).1 ↔ Laue s h v) ∧ (calcHklEquiv s.reduced h).1.Nodup ∧
    (calcHklEquiv s.reduced h).2 = fixing s h ∧
    ((calcHklEquiv s.reduced h).1.length : ℤ) * (calcHklEquiv s.reduced h).2 = 2 * s.reduced.length := by
  have h0 := orbit_stabiliser g hd h
  have hm : (calcHklEquiv s.reduced h).2 = fixing s h := by
    unfold calcHklEquiv
    dsimp only
    have hl : (images h s.reduced).length = 2 * s.reduced.length := by
      rw [images_signed, List.length_map]
      unfold signed
      rw [List.length_append, List.length_map, List.length_map]; omega
    have hne : ((images h s.reduced).dedup.length : ℚ) ≠ 0 := by
      have : h ∈ (images h s.reduced).dedup := List.mem_dedup.2 ((mem_images g.trans_ne h h).2 (Laue.refl g h))
      exact_mod_cast (List.length_pos_of_mem this).ne'
    rw [hl, ← h0]
    push_cast
    rw [mul_comm, mul_div_assoc, div_self hne, mul_one]
    exact_mod_cast round_intCast (α := ℚ) (fixing s h : ℤ)
  refine ⟨?_, List.nodup_dedup _, hm, ?_⟩
  · intro v
    unfold calcHklEquiv
    rw [List.mem_dedup, mem_images g.trans_ne]
  · rw [hm]
    exact_mod_cast h0

/-- C84, known failure: it is the multiplicity of the reflection (the number of equivalent ones) only if its square is the order of the Laue group. -/
theorem equiv_multiplicity_iff (g : Good s uc) (hd : (signed s).Nodup) (h : V3) :
    (calcHklEquiv s.reduced h).2 = (Set.ncard {w | Laue s h w} : ℤ) ↔ (Set.ncard {w | Laue s h w}) ^ 2 = 2 * s.reduced.length := by
  obtain ⟨-, -, h3, h4⟩ := equiv_spec g hd h
  have hc : ((calcHklEquiv s.reduced h).1.length : ℤ) = (Set.ncard {w | Laue s h w} : ℤ) := by
    rw [← images_card g]; rfl
  have hpos : 0 < Set.ncard {w | Laue s h w} := by
    rw [← images_card g]
    exact List.length_pos_of_mem (List.mem_dedup.2 ((mem_images g.trans_ne h h).2 (Laue.refl g h)))
  rw [hc] at h4
  constructor
  · intro e
    rw [e] at h4
    have : ((Set.ncard {w | Laue s h w} ^ 2 : ℕ) : ℤ) = (2 * s.reduced.length : ℕ) := by push_cast; rw [sq]; exact h4
    exact_mod_cast this
  · intro e
    have e' : (Set.ncard {w | Laue s h w} : ℤ) * (Set.ncard {w | Laue s h w} : ℤ) = 2 * s.reduced.length := by
      rw [← sq]; exact_mod_cast e
    rw [← e'] at h4
    have : (Set.ncard {w | Laue s h w} : ℤ) ≠ 0 := by exact_mod_cast hpos.ne'
    exact mul_left_cancel₀ this h4

/-- C84: so it is wrong for every reflection, unless the group has 2 or 8 reduced operations (Laue classes 2/m and 4/mmm). -/
theorem equiv_multiplicity_wrong (g : Good s uc) (hd : (signed s).Nodup) (h : V3) (hn : s.reduced.length ∈ [1, 3, 4, 6, 12, 24]) :
    (calcHklEquiv s.reduced h).2 ≠ (Set.ncard {w | Laue s h w} : ℤ) := by
  rw [Ne, equiv_multiplicity_iff g hd]
  intro e
  have hb : Set.ncard {w | Laue s h w} < 7 := by
    by_contra hc
    have : 7 ^ 2 ≤ (Set.ncard {w | Laue s h w}) ^ 2 := Nat.pow_le_pow_left (by omega) 2
    simp only [List.mem_cons, List.not_mem_nil, or_false] at hn
    omega
  simp only [List.mem_cons, List.not_mem_nil, or_false] at hn
  generalize Set.ncard {w | Laue s h w} = n at *
  interval_cases n <;> omega

/-! ## the hypotheses are met -/

example : Good exSym tetUC ∧ Small tetUC 2 ∧ (signed exSym).Nodup ∧ Inside tetUC 0 2 ![1, 0, 0] := by
  refine ⟨tet_good, by simp only [Small, tetUC, Matrix.cons_val]; norm_num, by decide +kernel, ?_⟩
  have u0 : tetUC 0 = 2 := rfl
  have c3 : cos (tetUC 3) = 0 := cos_pi_div_two
  have c4 : cos (tetUC 4) = 0 := cos_pi_div_two
  have c5 : cos (tetUC 5) = 0 := cos_pi_div_two
  have hq : Cell.invDSq (hklR ![1, 0, 0]) tetUC = 1 / 4 := by
    unfold Cell.invDSq Cell.calc_phi_sq
    simp only [hklR, Matrix.cons_val, u0, c3, c4, c5]
    norm_num
  have hs : √(1 / 4 : ℝ) = 1 / 2 := by
    rw [show (1 / 4 : ℝ) = (1 / 2) ^ 2 by norm_num]; exact sqrt_sq (by norm_num)
  unfold Inside sthovl
  rw [Cell.calc_sthovl, Cell.calc_inv_d_eq, hq, hs]
  norm_num

/-- a long cell -/
noncomputable def longUC : Fin 6 → ℝ := ![5, 5, 100, π / 2, π / 2, π / 2]

theorem longUC_nonDegenerate : Cell.NonDegenerate longUC := by
  refine ⟨by norm_num [longUC], by norm_num [longUC], by simp [longUC], ?_⟩
  simp [Cell.metric, longUC, Matrix.det_fin_three]

theorem p1_full : p1.full = [idElem] := by
  unfold Sym.full fullByReduced p1
  simp only [Bool.false_eq_true, if_false, List.flatMap_cons, List.flatMap_nil, List.map_cons, List.map_nil, List.append_nil]
  congr 2

theorem long_good : Good p1 longUC := by
  refine ⟨longUC_nonDegenerate, ?_, ?_, by simp [p1], by simp [p1], ?_, ?_⟩
  · rw [p1_full]
    refine ⟨⟨idElem, by simp, fun x => by rw [act_idElem]; exact fun k => ⟨0, by simp⟩⟩, ?_, ?_⟩
    · intro a ha b hb
      simp only [List.mem_singleton] at ha hb
      subst ha hb
      exact ⟨idElem, by simp, fun x => by simp only [act_idElem]; exact fun k => ⟨0, by simp⟩⟩
    · intro a ha
      simp only [List.mem_singleton] at ha
      subst ha
      exact ⟨idElem, by simp, fun x => by simp only [act_idElem]; exact fun k => ⟨0, by simp⟩⟩
  · rw [p1_full]
    intro e he
    simp only [List.mem_singleton] at he
    subst he
    have : rotR idElem.r = 1 := by
      ext i j; simp only [rotR, idElem, Matrix.one_apply]; split_ifs <;> simp
    rw [this]; simp
  · intro a ha b hb
    refine ⟨⟨fun _ => 0, 1⟩, by simp [p1], ?_⟩
    simp only [p1, List.mem_singleton] at ha hb
    subst ha hb
    intro k; exact ⟨0, by simp [Shift.val]⟩
  · intro e _ t ht
    refine ⟨⟨fun _ => 0, 1⟩, by simp [p1], ?_⟩
    simp only [p1, List.mem_singleton] at ht
    subst ht
    intro k; exact ⟨0, by simp [Shift.val]⟩

example : Good p1 longUC ∧ Inside longUC 0 1 ![0, 1, -100] := by
  refine ⟨long_good, ?_⟩
  have u1 : longUC 1 = 5 := rfl
  have u2 : longUC 2 = 100 := rfl
  have c3 : cos (longUC 3) = 0 := cos_pi_div_two
  have c4 : cos (longUC 4) = 0 := cos_pi_div_two
  have c5 : cos (longUC 5) = 0 := cos_pi_div_two
  have hq : Cell.invDSq (hklR ![0, 1, -100]) longUC = 26 / 25 := by
    unfold Cell.invDSq Cell.calc_phi_sq
    simp only [hklR, Matrix.cons_val, u1, u2, c3, c4, c5]
    norm_num
  unfold Inside sthovl
  rw [Cell.calc_sthovl, Cell.calc_inv_d_eq, hq]
  have h1 : 0 < √(26 / 25 : ℝ) := sqrt_pos.2 (by norm_num)
  have h2 : √(26 / 25 : ℝ) < 2 := by rw [sqrt_lt' (by norm_num)]; norm_num
  constructor <;> linarith

end Cryspy.HklCell
