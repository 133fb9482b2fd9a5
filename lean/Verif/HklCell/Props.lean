import Verif.HklCell.Model

/-!
# C84: reflections listed by the crystal
-/

namespace Cryspy.HklCell

open Symm Sf Real Hkl

variable {s : Sym} {uc : Fin 6 → ℝ}

/-- The same reflection up to the operations of the group and Friedel's law. -/
def Laue (s : Sym) (h v : V3) : Prop := Equivalent s h v ∨ Equivalent s h (-v)

/-- `smin < sin θ/λ < smax`. -/
def Inside (uc : Fin 6 → ℝ) (smin smax : ℝ) (h : V3) : Prop := smin < sthovl uc h ∧ sthovl uc h < smax

theorem equivalent_neg {h v : V3} : Equivalent s (-h) (-v) ↔ Equivalent s h v := by
  constructor
  · rintro ⟨e, he, hv⟩
    refine ⟨e, he, ?_⟩
    rw [rowMul_neg] at hv
    exact neg_injective hv
  · rintro ⟨e, he, rfl⟩
    exact ⟨e, he, (rowMul_neg _ _).symm⟩

theorem mem_images (hne : s.trans ≠ []) (h v : V3) : v ∈ images h s.reduced ↔ Laue s h v := by
  unfold images Laue
  rw [← mem_full_rot s hne, ← mem_full_rot s hne, equivalents_mem, equivalents_mem, equivalents_mem]
  constructor
  · rintro ⟨e, he, h1 | ⟨-, h1⟩⟩
    · exact Or.inl ⟨e, he, Or.inl h1⟩
    · exact Or.inr ⟨e, he, Or.inl (by rw [h1, neg_neg])⟩
  · rintro (⟨e, he, h1 | ⟨-, h1⟩⟩ | ⟨e, he, h1 | ⟨-, h1⟩⟩)
    · exact ⟨e, he, Or.inl h1⟩
    · exact ⟨e, he, Or.inr ⟨rfl, h1⟩⟩
    · exact ⟨e, he, Or.inr ⟨rfl, by rw [← h1, neg_neg]⟩⟩
    · exact ⟨e, he, Or.inl (neg_injective h1)⟩

theorem Laue.refl (g : Good s uc) (h : V3) : Laue s h h := Or.inl (Equivalent.refl g h)

theorem Laue.trans (g : Good s uc) {h v w : V3} (a : Laue s h v) (b : Laue s v w) : Laue s h w := by
  rcases a with a | a <;> rcases b with b | b
  · exact Or.inl ((a.congr g w).1 b)
  · exact Or.inr ((a.congr g _).1 b)
  · exact Or.inr ((a.congr g _).1 (equivalent_neg.2 b))
  · refine Or.inl ((a.congr g _).1 ?_)
    have := equivalent_neg.2 b
    rwa [neg_neg] at this

theorem Laue.symm (g : Good s uc) {h v : V3} (a : Laue s h v) : Laue s v h := by
  rcases a with a | a
  · exact Or.inl (a.symm g)
  · have := equivalent_neg.2 (a.symm g)
    rw [neg_neg] at this
    exact Or.inr this

theorem laue_neg (g : Good s uc) (h : V3) : Laue s h (-h) := Or.inr (by rw [neg_neg]; exact Equivalent.refl g h)

theorem sthovl_neg (hu : Cell.NonDegenerate uc) (v : V3) : sthovl uc (-v) = sthovl uc v := by
  have h := sthovl_equivalent uc hu v (fun i j => if i = j then -1 else 0) (by
    have : rotR (fun i j => if i = j then -1 else 0) = -(1 : Matrix (Fin 3) (Fin 3) ℝ) := by
      ext i j
      simp only [rotR, Matrix.neg_apply, Matrix.one_apply]
      split_ifs <;> simp
    rw [this]; simp)
  have e : rowMul v (fun i j => if i = j then -1 else 0) = -v := by
    funext k; simp [rowMul]
  rw [e] at h
  exact h

theorem Laue.sthovl (g : Good s uc) {h v : V3} (e : Laue s h v) : Hkl.sthovl uc v = Hkl.sthovl uc h := by
  rcases e with e | e
  · exact e.sthovl g
  · rw [← e.sthovl g, sthovl_neg g.cell]

theorem allowed_neg {h : V3} (a : Allowed s h) : Allowed s (-h) := by
  intro t ht
  obtain ⟨n, hn⟩ := a t ht
  refine ⟨-n, ?_⟩
  push_cast
  rw [← hn]
  simp only [hdot, Pi.neg_apply]; push_cast; ring

theorem Laue.allowed (g : Good s uc) {h v : V3} (e : Laue s h v) (a : Allowed s h) : Allowed s v := by
  rcases e with e | e
  · exact e.allowed g a
  · have := allowed_neg (e.allowed g a); rwa [neg_neg] at this

theorem shiftSum_flag (g : Good s uc) (h : V3) : ‖shiftSum h s.trans‖ > 1 / 10 ^ 5 ↔ Allowed s h := by
  have hl : (s.trans.length : ℂ) ≠ 0 := by exact_mod_cast (List.length_pos_iff.2 g.trans_ne).ne'
  have e : shiftSum h s.trans = pr3 (-h) s.trans * s.trans.length := by
    rw [pr3_eq, div_mul_cancel₀ _ hl]
    unfold shiftSum
    congr 2
    funext t
    unfold ph hdot
    congr 1
    simp only [Pi.neg_apply]
    push_cast; ring
  rw [e]
  rw [show Allowed s h ↔ Allowed s (-h) from ⟨allowed_neg, fun a => by have := allowed_neg a; rwa [neg_neg] at this⟩]
  by_cases ha : Allowed s (-h)
  · rw [pr3_allowed (-h) s.trans g.trans_ne ha, one_mul]
    simp only [ha, iff_true, Complex.norm_natCast]
    have : (1 : ℝ) ≤ s.trans.length := by exact_mod_cast List.length_pos_iff.2 g.trans_ne
    norm_num; linarith
  · have ha' := ha
    unfold Allowed at ha'
    push Not at ha'
    obtain ⟨t, ht, hf⟩ := ha'
    rw [pr3_forbidden (-h) s.trans g.trans_distinct g.trans_add t ht (by push Not; exact hf)]
    simp only [zero_mul, norm_zero, ha, iff_false, not_lt, gt_iff_lt]
    positivity

/-! ## representatives -/

theorem key_le_trans (a b c : V3) (h1 : decide (key a ≤ key b) = true) (h2 : decide (key b ≤ key c) = true) : decide (key a ≤ key c) = true := by
  rw [decide_eq_true_eq] at *; omega

theorem key_le_total (a b : V3) : (decide (key a ≤ key b) || decide (key b ≤ key a)) = true := by
  rw [Bool.or_eq_true, decide_eq_true_eq, decide_eq_true_eq]; omega

theorem last_mem {l : List V3} (h : l ≠ []) : last l ∈ l := by
  unfold last
  have hp := List.mergeSort_perm l fun a b => decide (key a ≤ key b)
  have hne : (l.mergeSort fun a b => decide (key a ≤ key b)) ≠ [] := fun e => h (by rw [e] at hp; exact (List.nil_perm.1 hp))
  rw [← hp.mem_iff, List.getLastD_eq_getLast?, List.getLast?_eq_getLast_of_ne_nil hne, Option.getD_some]
  exact List.getLast_mem hne

theorem last_max {l : List V3} {v : V3} (hv : v ∈ l) : key v ≤ key (last l) := by
  unfold last
  have hp := List.mergeSort_perm l fun a b => decide (key a ≤ key b)
  have hs := List.pairwise_mergeSort key_le_trans key_le_total l
  rw [← hp.mem_iff] at hv
  generalize (l.mergeSort fun a b => decide (key a ≤ key b)) = m at *
  have hne : m ≠ [] := List.ne_nil_of_mem hv
  rw [List.getLastD_eq_getLast?, List.getLast?_eq_getLast_of_ne_nil hne, Option.getD_some]
  rw [← List.dropLast_append_getLast hne] at hs hv
  rw [List.pairwise_append] at hs
  rcases List.mem_append.1 hv with hv | hv
  · exact of_decide_eq_true (hs.2.2 v hv _ (List.mem_singleton.2 rfl))
  · rw [List.mem_singleton.1 hv]

theorem key_inj {v w : V3} (hv : |v 1| ≤ 49 ∧ |v 2| ≤ 49) (hw : |w 1| ≤ 49 ∧ |w 2| ≤ 49) (h : key v = key w) : v = w := by
  have a1 := abs_le.1 hv.1; have a2 := abs_le.1 hv.2
  have b1 := abs_le.1 hw.1; have b2 := abs_le.1 hw.2
  unfold key at h
  have e0 : v 0 = w 0 := by omega
  have e1 : v 1 = w 1 := by omega
  have e2 : v 2 = w 2 := by omega
  funext k
  revert k
  apply Mat.fin3 <;> assumption

/-- `2 b smax` and `2 c smax` are at most 50. -/
def Small (uc : Fin 6 → ℝ) (smax : ℝ) : Prop := 2 * uc 1 * smax ≤ 50 ∧ 2 * uc 2 * smax ≤ 50

theorem small_index (hu : Cell.NonDegenerate uc) {smax : ℝ} (hs : Small uc smax) {v : V3} (hv : sthovl uc v < smax) :
    |v 1| ≤ 49 ∧ |v 2| ≤ 49 := by
  have key : ∀ (z : ℤ) (a : ℝ), 0 < a → 2 * a * smax ≤ 50 → |(z : ℝ)| ≤ 2 * a * sthovl uc v → |z| ≤ 49 := by
    intro z a ha hb hz
    have h1 : 2 * a * sthovl uc v < 2 * a * smax := mul_lt_mul_of_pos_left hv (by positivity)
    have h2 : ((|z| : ℤ) : ℝ) < 50 := by push_cast; linarith
    have h3 : |z| < 50 := by exact_mod_cast h2
    omega
  have b1 := index_bound hu v 1
  have b2 := index_bound hu v 2
  exact ⟨key _ _ hu.b_pos hs.1 b1, key _ _ hu.c_pos hs.2 b2⟩

/-- the representative -/
def rep (s : Sym) (h : V3) : V3 := last (images h s.reduced)

theorem rep_laue (g : Good s uc) (h : V3) : Laue s h (rep s h) := by
  rw [← mem_images g.trans_ne]
  exact last_mem (List.ne_nil_of_mem ((mem_images g.trans_ne h h).2 (Laue.refl g h)))

theorem rep_eq (g : Good s uc) {smax : ℝ} (hs : Small uc smax) {h v : V3} (hh : sthovl uc h < smax) (e : Laue s h v) :
    rep s v = rep s h := by
  have e1 := rep_laue g h
  have e2 := rep_laue g v
  have e3 : Laue s h (rep s v) := e.trans g e2
  have e4 : Laue s v (rep s h) := (e.symm g).trans g e1
  apply key_inj (small_index g.cell hs (by rw [e3.sthovl g]; exact hh)) (small_index g.cell hs (by rw [e1.sthovl g]; exact hh))
  apply le_antisymm
  · exact last_max ((mem_images g.trans_ne _ _).2 e3)
  · exact last_max ((mem_images g.trans_ne _ _).2 e4)

theorem images_card (g : Good s uc) (h : V3) : (images h s.reduced).dedup.length = Set.ncard {w | Laue s h w} := by
  have : {w | Laue s h w} = ((images h s.reduced).toFinset : Set V3) := by
    ext w; simp [mem_images g.trans_ne]
  rw [this, Set.ncard_coe_finset, List.card_toFinset]

/-! ## the loop -/

theorem mem_halfRange (m i : ℤ) : i ∈ halfRange m ↔ 0 ≤ i ∧ i ≤ m := by
  unfold halfRange
  simp only [List.mem_map, List.mem_range]
  constructor
  · rintro ⟨n, hn, rfl⟩; omega
  · intro h
    exact ⟨i.toNat, by omega, by omega⟩

theorem mem_halfBox (uc : Fin 6 → ℝ) (smax : ℝ) (v : V3) : v ∈ halfBox uc smax ↔ v ∈ box uc smax ∧ 0 ≤ v 0 := by
  rw [mem_box]
  unfold halfBox
  simp only [List.mem_map, Prod.exists]
  constructor
  · rintro ⟨a, b, c, h, rfl⟩
    rw [List.mem_product, List.mem_product, mem_halfRange, mem_symRange, mem_symRange] at h
    simp only [Matrix.cons_val]
    exact ⟨⟨⟨by omega, h.1.2⟩, h.2⟩, h.1.1⟩
  · rintro ⟨h, h0⟩
    refine ⟨v 0, v 1, v 2, ?_, ?_⟩
    · rw [List.mem_product, List.mem_product, mem_halfRange, mem_symRange, mem_symRange]
      exact ⟨⟨h0, h.1.2⟩, h.2⟩
    · funext k; revert k; apply Mat.fin3 <;> rfl

theorem loop_spec (g : Good s uc) (l : List V3) (acc : List (V3 × ℕ)) (hacc : (acc.map Prod.fst).Nodup) :
    ((l.foldl (step s.reduced s.trans) acc).map Prod.fst).Nodup ∧
    (∀ p ∈ l.foldl (step s.reduced s.trans) acc, p ∈ acc ∨
      ∃ h ∈ l, Allowed s h ∧ p.1 = rep s h ∧ p.2 = Set.ncard {w | Laue s h w}) ∧
    (∀ v ∈ acc.map Prod.fst, v ∈ (l.foldl (step s.reduced s.trans) acc).map Prod.fst) ∧
    (∀ h ∈ l, Allowed s h → rep s h ∈ (l.foldl (step s.reduced s.trans) acc).map Prod.fst) := by
  induction l generalizing acc with
  | nil => exact ⟨hacc, fun p hp => Or.inl hp, fun v hv => hv, by simp⟩
  | cons h l ih =>
    rw [List.foldl_cons]
    have hstep : ((step s.reduced s.trans acc h).map Prod.fst).Nodup ∧
        (∀ p ∈ step s.reduced s.trans acc h, p ∈ acc ∨ (Allowed s h ∧ p.1 = rep s h ∧ p.2 = Set.ncard {w | Laue s h w})) ∧
        (∀ v ∈ acc.map Prod.fst, v ∈ (step s.reduced s.trans acc h).map Prod.fst) ∧
        (Allowed s h → rep s h ∈ (step s.reduced s.trans acc h).map Prod.fst) := by
      unfold step
      by_cases ha : Allowed s h
      · rw [if_pos ((shiftSum_flag g h).2 ha)]
        dsimp only
        rw [images_card g]
        rw [show last (images h s.reduced) = rep s h from rfl]
        by_cases hm : rep s h ∈ acc.map Prod.fst
        · rw [if_pos hm]
          exact ⟨hacc, fun p hp => Or.inl hp, fun v hv => hv, fun _ => hm⟩
        · rw [if_neg hm]
          refine ⟨?_, ?_, ?_, ?_⟩
          · rw [List.map_append, List.nodup_append]
            refine ⟨hacc, by simp, ?_⟩
            intro a ha b hb e
            simp only [List.map_cons, List.map_nil, List.mem_singleton] at hb
            rw [e, hb] at ha
            exact hm ha
          · intro p hp
            rcases List.mem_append.1 hp with hp | hp
            · exact Or.inl hp
            · rw [List.mem_singleton] at hp
              rw [hp]
              exact Or.inr ⟨ha, rfl, rfl⟩
          · intro v hv
            rw [List.map_append]; exact List.mem_append_left _ hv
          · intro _
            rw [List.map_append]; exact List.mem_append_right _ (by simp)
      · rw [if_neg (fun h' => ha ((shiftSum_flag g h).1 h'))]
        exact ⟨hacc, fun p hp => Or.inl hp, fun v hv => hv, fun h' => absurd h' ha⟩
    obtain ⟨a1, a2, a3, a4⟩ := hstep
    obtain ⟨b1, b2, b3, b4⟩ := ih _ a1
    refine ⟨b1, ?_, fun v hv => b3 v (a3 v hv), ?_⟩
    · intro p hp
      rcases b2 p hp with h1 | ⟨h', h1, h2⟩
      · rcases a2 p h1 with h1 | h1
        · exact Or.inl h1
        · exact Or.inr ⟨h, List.mem_cons_self, h1⟩
      · exact Or.inr ⟨h', List.mem_cons_of_mem _ h1, h2⟩
    · intro h' hh' hal
      rcases List.mem_cons.1 hh' with rfl | hh'
      · exact b3 _ (a4 hal)
      · exact b4 h' hh' hal

theorem mem_calcHkl (uc : Fin 6 → ℝ) (smin smax : ℝ) (reduced : List Elem) (trans : List Shift) (p : V3 × ℕ) :
    p ∈ calcHkl uc smin smax reduced trans ↔ p ∈ (halfBox uc smax).foldl (step reduced trans) [] ∧ Inside uc smin smax p.1 := by
  unfold calcHkl
  simp only [List.mem_filter, (List.mergeSort_perm _ _).mem_iff, Bool.and_eq_true, decide_eq_true_eq, gt_iff_lt]
  rfl

/-- C84: every entry lies strictly inside the range, is allowed by the centring, and has as multiplicity the number of reflections that are the same
up to the operations of the group and Friedel's law.  This holds for cells of any size. -/
theorem hkl_sound (g : Good s uc) (smin smax : ℝ) :
    ∀ p ∈ calcHkl uc smin smax s.reduced s.trans,
      Inside uc smin smax p.1 ∧ Allowed s p.1 ∧ p.2 = Set.ncard {w | Laue s p.1 w} := by
  intro p hp
  obtain ⟨h1, h2⟩ := (mem_calcHkl _ _ _ _ _ _).1 hp
  rcases (loop_spec g _ [] (by simp)).2.1 p h1 with h3 | ⟨h, -, h3, h4, h5⟩
  · cases h3
  · have e := rep_laue g h
    rw [← h4] at e
    refine ⟨h2, e.allowed g h3, ?_⟩
    rw [h5]
    congr 1
    ext w
    exact ⟨fun a => (e.symm g).trans g a, fun a => e.trans g a⟩

/-- C84: every allowed reflection strictly inside the range is the same as an entry of the list. -/
theorem hkl_listed (g : Good s uc) (smin smax : ℝ) (h : V3) (hr : Inside uc smin smax h) (ha : Allowed s h) :
    ∃ p ∈ calcHkl uc smin smax s.reduced s.trans, Laue s h p.1 := by
  have key : ∀ h, Inside uc smin smax h → Allowed s h → 0 ≤ h 0 → ∃ p ∈ calcHkl uc smin smax s.reduced s.trans, Laue s h p.1 := by
    intro h hr ha h0
    have hb : h ∈ halfBox uc smax := (mem_halfBox _ _ _).2 ⟨inRange_box g.cell hr.2.le, h0⟩
    obtain ⟨p, hp, he⟩ := List.mem_map.1 ((loop_spec g (halfBox uc smax) [] (by simp)).2.2.2 h hb ha)
    have e := rep_laue g h
    rw [← he] at e
    refine ⟨p, (mem_calcHkl _ _ _ _ _ _).2 ⟨hp, ?_⟩, e⟩
    unfold Inside; rw [e.sthovl g]; exact hr
  rcases le_total 0 (h 0) with h0 | h0
  · exact key h hr ha h0
  · obtain ⟨p, hp, e⟩ := key (-h) (by unfold Inside; rw [sthovl_neg g.cell]; exact hr) (allowed_neg ha) (by simpa using h0)
    exact ⟨p, hp, (laue_neg g h).trans g e⟩

/-- C84: the list is sorted by `sin θ/λ`. -/
theorem hkl_sorted (uc : Fin 6 → ℝ) (smin smax : ℝ) (reduced : List Elem) (trans : List Shift) :
    (calcHkl uc smin smax reduced trans).Pairwise fun p q => sthovl uc p.1 ≤ sthovl uc q.1 := by
  unfold calcHkl
  apply List.Pairwise.filter
  have := List.pairwise_mergeSort (le := fun p q : V3 × ℕ => @decide (sthovl uc p.1 ≤ sthovl uc q.1) (Classical.propDecidable _))
    (fun a b c h1 h2 => by rw [decide_eq_true_eq] at *; exact le_trans h1 h2)
    (fun a b => by rw [Bool.or_eq_true, decide_eq_true_eq, decide_eq_true_eq]; exact le_total _ _)
    ((halfBox uc smax).foldl (step reduced trans) [])
  exact this.imp fun h => of_decide_eq_true h

/-- C84: no reflection is listed twice, if the indices k and l in the range are below 50. -/
theorem hkl_distinct (g : Good s uc) (smin smax : ℝ) (hs : Small uc smax) :
    (calcHkl uc smin smax s.reduced s.trans).Pairwise fun p q => ¬ Laue s p.1 q.1 := by
  have hl := loop_spec g (halfBox uc smax) [] (by simp)
  have hnd : ((calcHkl uc smin smax s.reduced s.trans).map Prod.fst).Nodup := by
    unfold calcHkl
    dsimp only
    apply List.Nodup.sublist (List.filter_sublist.map Prod.fst)
    exact (((List.mergeSort_perm _ _).map Prod.fst).nodup_iff).2 hl.1
  have hrep : ∀ p ∈ calcHkl uc smin smax s.reduced s.trans, p.1 = rep s p.1 := by
    intro p hp
    obtain ⟨h1, h2⟩ := (mem_calcHkl _ _ _ _ _ _).1 hp
    rcases hl.2.1 p h1 with h3 | ⟨h, -, -, h4, -⟩
    · cases h3
    · have e := rep_laue g h
      have hh : sthovl uc h < smax := by rw [← e.sthovl g, ← h4]; exact h2.2
      have h5 := rep_eq g hs hh e
      rw [h4]; exact h5.symm
  have h2 : (calcHkl uc smin smax s.reduced s.trans).Pairwise fun p q => p.1 ≠ q.1 := List.pairwise_map.1 hnd
  refine h2.imp_of_mem fun {p q} hp hq hne he => hne ?_
  rw [hrep p hp, hrep q hq]
  exact (rep_eq g hs ((mem_calcHkl _ _ _ _ _ _).1 hp).2.2 he).symm

/-- C84: so a sum over the list weighted with the multiplicities is the sum over all allowed reflections inside the range, for every quantity that
equivalent reflections and Friedel mates have in common. -/
theorem hkl_sum (g : Good s uc) (smin smax : ℝ) (hs : Small uc smax) (f : V3 → ℝ)
    (hf : ∀ h v, Laue s h v → f v = f h) (S : Finset V3) (hS : ∀ h, h ∈ S ↔ Inside uc smin smax h ∧ Allowed s h) :
    ((calcHkl uc smin smax s.reduced s.trans).map fun p => (p.2 : ℝ) * f p.1).sum = ∑ h ∈ S, f h := by
  classical
  set L := calcHkl uc smin smax s.reduced s.trans with hL
  have hd := hkl_distinct g smin smax hs
  rw [← hL] at hd
  have hnd : L.Nodup := hd.imp fun {p q} h he => h (by rw [he]; exact Laue.refl g _)
  have huniq : ∀ p ∈ L, ∀ q ∈ L, Laue s p.1 q.1 → p = q := by
    intro p hp q hq he
    by_contra hne
    have h2 : L.Pairwise fun p q : V3 × ℕ => ¬ Laue s p.1 q.1 ∧ ¬ Laue s q.1 p.1 := hd.imp fun {p q} h => ⟨h, fun e => h (e.symm g)⟩
    have : Std.Symm fun p q : V3 × ℕ => ¬ Laue s p.1 q.1 ∧ ¬ Laue s q.1 p.1 := ⟨fun a b h => ⟨h.2, h.1⟩⟩
    exact (h2.forall hp hq hne).1 he
  rw [← List.sum_toFinset _ hnd]
  have hex : ∀ h, ∃ p, h ∈ S → p ∈ L ∧ Laue s h p.1 := by
    intro h
    by_cases hh : h ∈ S
    · obtain ⟨p, hp⟩ := hkl_listed g smin smax h ((hS h).1 hh).1 ((hS h).1 hh).2
      exact ⟨p, fun _ => hp⟩
    · exact ⟨(h, 0), fun h' => absurd h' hh⟩
  choose φ hφ using hex
  rw [← Finset.sum_fiberwise_of_maps_to (s := S) (t := L.toFinset) (g := φ) (fun h hh => List.mem_toFinset.2 (hφ h hh).1)]
  apply Finset.sum_congr rfl
  intro p hp
  have hp' := List.mem_toFinset.1 hp
  obtain ⟨r1, a1, m1⟩ := hkl_sound g smin smax p hp'
  have hset : {w | Laue s p.1 w} = ((S.filter fun h => φ h = p : Finset V3) : Set V3) := by
    ext w
    simp only [Set.mem_ofPred_eq, Finset.coe_filter]
    constructor
    · intro hw
      have hwS : w ∈ S := (hS w).2 ⟨by unfold Inside; rw [hw.sthovl g]; exact r1, hw.allowed g a1⟩
      refine ⟨hwS, ?_⟩
      exact (huniq p hp' _ (hφ w hwS).1 (hw.trans g (hφ w hwS).2)).symm
    · rintro ⟨hwS, hw⟩
      have := (hφ w hwS).2
      rw [hw] at this
      exact this.symm g
  rw [hset, Set.ncard_coe_finset] at m1
  rw [m1, Finset.sum_congr rfl (g := fun _ => f p.1), Finset.sum_const, nsmul_eq_mul]
  intro w hw
  have hw2 := Finset.mem_filter.1 hw
  have := (hφ w hw2.1).2
  rw [hw2.2] at this
  exact (hf w p.1 this).symm

end Cryspy.HklCell
