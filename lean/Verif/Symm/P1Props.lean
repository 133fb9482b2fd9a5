import Verif.Symm.P1Model
import Verif.Symm.Props

/-!
# C44: expansion of a density to the whole cell
-/

namespace Cryspy.Symm

/-- The operations of the crystal: elements and shifts, and with a centre of symmetry at the origin also
the inverted ones. -/
abbrev crystalMaps (G : List Elem) (T : List Shift) (centro : Bool) : List (Q3 → Q3) :=
  fullMaps G centro ⟨fun _ => 0, 1⟩ T

/-- Operation `f` carries the grid point `p` to the grid point `q` (modulo lattice translations). -/
def Carries (n : V3) (f : Q3 → Q3) (p q : V3) : Prop := Lat (f (fp n p)) (fp n q)

/-- The operations form a group modulo lattice translations. -/
structure IsMapGroup (F : List (Q3 → Q3)) : Prop where
  one : ∃ f ∈ F, ∀ x, Lat (f x) x
  mul : ∀ f ∈ F, ∀ g ∈ F, ∃ h ∈ F, ∀ x, Lat (h x) (f (g x))
  inv : ∀ f ∈ F, ∃ g ∈ F, ∀ x, Lat (g (f x)) x

/-- Points that the crystal operations identify carry the same density. -/
def Consistent {D : Type} (n : V3) (F : List (Q3 → Q3)) (pts : List (V3 × D)) : Prop :=
  ∀ a ∈ pts, ∀ b ∈ pts, ∀ f ∈ F, Carries n f a.1 b.1 → a.2 = b.2

/-! ## lemmas -/

theorem p1Index_inCell {n : V3} {e : Elem} (h : Compat e n) (s : Shift) (p : V3) : InCell n (p1Index n e s p) :=
  fun k => ⟨Int.emod_nonneg _ (h.pos k).ne', Int.emod_lt_of_pos _ (h.pos k)⟩

theorem p1Neg_inCell {n : V3} (h : ∀ k, 0 < n k) (p : V3) : InCell n (p1Neg n p) :=
  fun k => ⟨Int.emod_nonneg _ (h k).ne', Int.emod_lt_of_pos _ (h k)⟩

theorem cast_ediv {a b : ℤ} (h : b ∣ a) (hb : b ≠ 0) : ((a / b : ℤ) : ℚ) = (a : ℚ) / b :=
  Int.cast_div h (by exact_mod_cast hb)

theorem p1Index_exact {n : V3} {e : Elem} (h : Compat e n) {s : Shift} (hs : 0 < s.d) (hd : ∀ k, s.d ∣ n k) (p : V3) :
    Lat (fp n (p1Index n e s p)) (fun k => act e (fp n p) k + s.val k) := by
  intro k
  obtain ⟨den, hden⟩ : ∃ den : ℤ, (Int.lcm (Int.lcm (n 0) (n 1)) (n 2) : ℤ) = den := ⟨_, rfl⟩
  have hdvd : ∀ l, n l ∣ den := by
    rw [← hden]
    apply fin3
    · exact (Int.dvd_lcm_left (n 0) (n 1)).trans (Int.dvd_lcm_left _ _)
    · exact (Int.dvd_lcm_right (n 0) (n 1)).trans (Int.dvd_lcm_left _ _)
    · exact Int.dvd_lcm_right _ _
  have hden0 : den ≠ 0 := by
    rw [← hden]
    have h0 := (h.pos 0).ne'; have h1 := (h.pos 1).ne'; have h2 := (h.pos 2).ne'
    exact_mod_cast Int.lcm_ne_zero (by exact_mod_cast Int.lcm_ne_zero h0 h1) h2
  have hnq : ∀ l, (n l : ℚ) ≠ 0 := fun l => by exact_mod_cast (h.pos l).ne'
  have hdq : (den : ℚ) ≠ 0 := by exact_mod_cast hden0
  have hbq : (e.bd : ℚ) ≠ 0 := by exact_mod_cast h.bd_pos.ne'
  have hsq : (s.d : ℚ) ≠ 0 := by exact_mod_cast hs.ne'
  have hnum : ∀ l, ((p l * den / n l : ℤ) : ℚ) = (p l : ℚ) * den / n l := fun l => by
    rw [cast_ediv (Dvd.dvd.mul_left (hdvd l) _) (h.pos l).ne']; push_cast; ring
  have hsd : s.d ∣ s.n k * (e.bd * den) :=
    Dvd.dvd.mul_left (Dvd.dvd.mul_left ((hd k).trans (hdvd k)) _) _
  -- the exact new position times the number of points is an integer
  obtain ⟨tb, htb⟩ := h.dvd k
  obtain ⟨ts, hts⟩ := hd k
  have hmix : ∀ l, (n k : ℚ) * ((e.r k l : ℚ) * (p l / n l)) = e.r k l * p l := by
    intro l
    by_cases hz : e.r k l = 0
    · simp [hz]
    · rw [h.mix k l hz]; have := hnq l; field_simp
  let X : ℤ := e.r k 0 * p 0 + e.r k 1 * p 1 + e.r k 2 * p 2 + e.bn k * tb + s.n k * ts
  let numNew : ℤ := (e.r k 0 * (p 0 * den / n 0) + e.r k 1 * (p 1 * den / n 1) + e.r k 2 * (p 2 * den / n 2)) * e.bd +
    e.bn k * den + s.n k * (e.bd * den) / s.d
  have hX : (X : ℚ) = n k * (act e (fp n p) k + s.val k) := by
    have e1 : (n k : ℚ) * ((e.bn k : ℚ) / e.bd) = e.bn k * tb := by
      have : (n k : ℚ) = e.bd * tb := by exact_mod_cast htb
      rw [this]; field_simp
    have e2 : (n k : ℚ) * ((s.n k : ℚ) / s.d) = s.n k * ts := by
      have : (n k : ℚ) = s.d * ts := by exact_mod_cast hts
      rw [this]; field_simp
    simp only [X, act, Shift.val, fp, Fin.sum_univ_three]
    push_cast
    linear_combination -hmix 0 - hmix 1 - hmix 2 - e1 - e2
  have hN : numNew * n k = X * (e.bd * den) := by
    have : ((numNew * n k : ℤ) : ℚ) = ((X * (e.bd * den) : ℤ) : ℚ) := by
      push_cast
      rw [hX]
      simp only [numNew, act, Shift.val, fp, Fin.sum_univ_three]
      push_cast
      rw [hnum, hnum, hnum, cast_ediv hsd hs.ne']
      push_cast
      have h0 := hnq 0; have h1 := hnq 1; have h2 := hnq 2
      field_simp
    exact_mod_cast this
  have hidx : p1Index n e s p k = X % n k := by
    show (_ * n k / _) % n k = _
    rw [hden]
    change (numNew * n k / (e.bd * den)) % n k = _
    rw [hN, Int.mul_ediv_cancel _ (mul_ne_zero h.bd_pos.ne' hden0)]
  refine ⟨-(X / n k), ?_⟩
  have hdm : (X : ℚ) = n k * (X / n k : ℤ) + (X % n k : ℤ) := by
    exact_mod_cast (Int.mul_ediv_add_emod X (n k)).symm
  have hk := hnq k
  have : act e (fp n p) k + s.val k = (X : ℚ) / n k := by rw [hX]; field_simp
  beta_reduce
  rw [this]
  simp only [fp, hidx]
  push_cast
  field_simp
  linarith

theorem p1Neg_exact {n : V3} (h : ∀ k, 0 < n k) (p : V3) : Lat (fp n (p1Neg n p)) (fun k => -fp n p k) := by
  intro k
  have hk : (n k : ℚ) ≠ 0 := by exact_mod_cast (h k).ne'
  refine ⟨-((-1 * p k) / n k), ?_⟩
  have hdm : ((-1 * p k : ℤ) : ℚ) = n k * ((-1 * p k) / n k : ℤ) + ((-1 * p k) % n k : ℤ) := by
    exact_mod_cast (Int.mul_ediv_add_emod (-1 * p k) (n k)).symm
  simp only [fp, p1Neg]
  rw [Int.cast_neg]
  field_simp
  push_cast at hdm ⊢
  linarith

theorem Lat.neg {x y : Q3} (h : Lat x y) : Lat (fun k => -x k) (fun k => -y k) := fun k => by
  obtain ⟨z, hz⟩ := h k
  exact ⟨-z, by push_cast; linarith⟩

section
variable {D : Type} {n : V3} {G : List Elem} {T : List Shift}

theorem mem_direct (hC : ∀ e ∈ G, Compat e n) (hT : ∀ s ∈ T, 0 < s.d ∧ ∀ k, s.d ∣ n k) {p q : V3} :
    (q ∈ G.flatMap fun e => T.map fun s => p1Index n e s p) ↔
      InCell n q ∧ ∃ s ∈ T, ∃ e ∈ G, Lat (fun k => act e (fp n p) k + s.val k) (fp n q) := by
  simp only [List.mem_flatMap, List.mem_map]
  constructor
  · rintro ⟨e, he, s, hs, rfl⟩
    exact ⟨p1Index_inCell (hC e he) s p, s, hs, e, he, (p1Index_exact (hC e he) (hT s hs).1 (hT s hs).2 p).symm⟩
  · rintro ⟨hq, s, hs, e, he, hl⟩
    exact ⟨e, he, s, hs, inCell_unique (p1Index_inCell (hC e he) s p) hq
      ((p1Index_exact (hC e he) (hT s hs).1 (hT s hs).2 p).trans hl)⟩

theorem mem_p1List (hn : ∀ k, 0 < n k) (hC : ∀ e ∈ G, Compat e n) (hT : ∀ s ∈ T, 0 < s.d ∧ ∀ k, s.d ∣ n k) {centro : Bool}
    {pts : List (V3 × D)} {q : V3} {d : D} :
    (q, d) ∈ p1List n G T centro pts ↔
      InCell n q ∧ ∃ p, (p, d) ∈ pts ∧ ∃ f ∈ crystalMaps G T centro, Carries n f p q := by
  have hdir : ∀ p, (∃ f ∈ T.flatMap (fun t => G.map fun e => (fun x k => act e x k + t.val k : Q3 → Q3)), Carries n f p q) ↔
      ∃ s ∈ T, ∃ e ∈ G, Lat (fun k => act e (fp n p) k + s.val k) (fp n q) := by
    intro p
    simp only [List.mem_flatMap, List.mem_map, Carries]
    constructor
    · rintro ⟨f, ⟨s, hs, e, he, rfl⟩, hl⟩; exact ⟨s, hs, e, he, hl⟩
    · rintro ⟨s, hs, e, he, hl⟩; exact ⟨_, ⟨s, hs, e, he, rfl⟩, hl⟩
  have hinv : ∀ p, (∃ f ∈ T.flatMap (fun t => G.map fun e => (fun x k =>
      2 * Shift.val ⟨fun _ => 0, 1⟩ k - (act e x k + t.val k) : Q3 → Q3)), Carries n f p q) ↔
      ∃ s ∈ T, ∃ e ∈ G, Lat (fun k => -(act e (fp n p) k + s.val k)) (fp n q) := by
    intro p
    have h0 : ∀ k, 2 * Shift.val ⟨fun _ => 0, 1⟩ k = 0 := by intro k; simp [Shift.val]
    simp only [List.mem_flatMap, List.mem_map, Carries]
    constructor
    · rintro ⟨f, ⟨s, hs, e, he, rfl⟩, hl⟩
      exact ⟨s, hs, e, he, by simpa [h0] using hl⟩
    · rintro ⟨s, hs, e, he, hl⟩; exact ⟨_, ⟨s, hs, e, he, rfl⟩, by simpa [h0] using hl⟩
  unfold p1List
  simp only [List.mem_flatMap, List.mem_map, Prod.mk.injEq]
  cases centro
  · simp only [Bool.false_eq_true, if_false, crystalMaps, fullMaps]
    constructor
    · rintro ⟨⟨p, d'⟩, hp, q', hq', rfl, rfl⟩
      obtain ⟨h1, h2⟩ := (mem_direct hC hT).1 (List.mem_flatMap.2 (by simpa using hq'))
      exact ⟨h1, p, hp, (hdir p).2 h2⟩
    · rintro ⟨hq, p, hp, hf⟩
      exact ⟨(p, d), hp, q, by simpa using (mem_direct hC hT).2 ⟨hq, (hdir p).1 hf⟩, rfl, rfl⟩
  · simp only [if_true, crystalMaps, fullMaps, List.mem_append]
    constructor
    · rintro ⟨⟨p, d'⟩, hp, q', hq', rfl, rfl⟩
      rcases hq' with h | h
      · obtain ⟨h1, h2⟩ := (mem_direct hC hT).1 h
        obtain ⟨f, hf, hc⟩ := (hdir p).2 h2
        exact ⟨h1, p, hp, f, Or.inl hf, hc⟩
      · obtain ⟨q0, hq0, rfl⟩ := List.mem_map.1 h
        obtain ⟨h1, s, hs, e, he, hl⟩ := (mem_direct hC hT).1 hq0
        obtain ⟨f, hf, hc⟩ := (hinv p).2 ⟨s, hs, e, he, (hl.neg).trans (p1Neg_exact hn q0).symm⟩
        exact ⟨p1Neg_inCell hn q0, p, hp, f, Or.inr hf, hc⟩
    · rintro ⟨hq, p, hp, f, hf, hc⟩
      refine ⟨(p, d), hp, q, ?_, rfl, rfl⟩
      rcases hf with hf | hf
      · exact Or.inl ((mem_direct hC hT).2 ⟨hq, (hdir p).1 ⟨f, hf, hc⟩⟩)
      · right
        obtain ⟨s, hs, e, he, hl⟩ := (hinv p).1 ⟨f, hf, hc⟩
        refine List.mem_map.2 ⟨p1Index n e s p, ?_, ?_⟩
        · exact List.mem_flatMap.2 ⟨e, he, List.mem_map.2 ⟨s, hs, rfl⟩⟩
        · apply inCell_unique (p1Neg_inCell hn _) hq
          exact ((p1Neg_exact hn _).trans (p1Index_exact (hC e he) (hT s hs).1 (hT s hs).2 p).neg).trans hl

theorem mem_uniqueFirst {l : List (V3 × D)} {a : V3 × D} : a ∈ uniqueFirst l ↔ l.find? (·.1 = a.1) = some a := by
  unfold uniqueFirst
  simp only [List.mem_filterMap, List.mem_mergeSort, List.mem_dedup, List.mem_map]
  constructor
  · rintro ⟨q, -, h⟩
    have := List.find?_some h
    simp only [decide_eq_true_eq] at this
    rw [this]; exact h
  · intro h
    exact ⟨a.1, ⟨a, List.mem_of_find?_eq_some h, rfl⟩, h⟩

theorem uniqueFirst_map {l : List (V3 × D)} : (uniqueFirst l).map (·.1) = ((l.map (·.1)).dedup).mergeSort lexLe := by
  unfold uniqueFirst
  have : ∀ m : List V3, (∀ q ∈ m, ∃ d, (q, d) ∈ l) → (m.filterMap fun q => l.find? (·.1 = q)).map (·.1) = m := by
    intro m
    induction m with
    | nil => simp
    | cons q m ih =>
      intro h
      obtain ⟨d, hd⟩ := h q (by simp)
      have hs : (l.find? (·.1 = q)).isSome := by
        rw [List.find?_isSome]; exact ⟨_, hd, by simp⟩
      obtain ⟨a, ha⟩ := Option.isSome_iff_exists.1 hs
      have h1 : a.1 = q := by simpa using List.find?_some ha
      rw [List.filterMap_cons, ha]
      simp [h1, ih fun q' hq' => h q' (by simp [hq'])]
  apply this
  intro q hq
  rw [List.mem_mergeSort, List.mem_dedup, List.mem_map] at hq
  obtain ⟨a, ha, rfl⟩ := hq
  exact ⟨a.2, ha⟩

end

/-! ## properties -/

section
variable {D : Type} {n : V3} {G : List Elem} {T : List Shift} {centro : Bool} {pts res : List (V3 × D)}

/-- C44: a grid that does not match the denominators of the elements or shifts is refused. -/
theorem p1_refuses (h : ¬((∀ e ∈ G, ∀ k, n k % e.bd = 0) ∧ (∀ s ∈ T, ∀ k, n k % s.d = 0))) :
    transformToP1 n G T centro pts = none := if_neg h

/-- C44: a matching grid is accepted. -/
theorem p1_accepts (hC : ∀ e ∈ G, Compat e n) (hT : ∀ s ∈ T, 0 < s.d ∧ ∀ k, s.d ∣ n k) :
    ∃ res, transformToP1 n G T centro pts = some res :=
  ⟨_, if_pos ⟨fun e he k => Int.emod_eq_zero_of_dvd ((hC e he).dvd k), fun s hs k => Int.emod_eq_zero_of_dvd ((hT s hs).2 k)⟩⟩

theorem p1_eq (h : transformToP1 n G T centro pts = some res) : res = uniqueFirst (p1List n G T centro pts) := by
  unfold transformToP1 at h
  split at h
  · exact (Option.some.inj h).symm
  · cases h

/-- C44: the points of the expanded density are listed once. -/
theorem p1_nodup (h : transformToP1 n G T centro pts = some res) : (res.map (·.1)).Nodup := by
  rw [p1_eq h, uniqueFirst_map]
  exact (List.mergeSort_perm _ _).nodup_iff.2 (List.nodup_dedup _)

/-- C44: they are exactly the points of the cell to which an operation of the crystal carries an input point. -/
theorem p1_points (hn : ∀ k, 0 < n k) (hC : ∀ e ∈ G, Compat e n) (hT : ∀ s ∈ T, 0 < s.d ∧ ∀ k, s.d ∣ n k)
    (h : transformToP1 n G T centro pts = some res) (q : V3) :
    q ∈ res.map (·.1) ↔ InCell n q ∧ ∃ a ∈ pts, ∃ f ∈ crystalMaps G T centro, Carries n f a.1 q := by
  rw [p1_eq h, uniqueFirst_map, List.mem_mergeSort, List.mem_dedup, List.mem_map]
  constructor
  · rintro ⟨⟨q, d⟩, hm, rfl⟩
    obtain ⟨hq, p, hp, hf⟩ := (mem_p1List hn hC hT).1 hm
    exact ⟨hq, (p, d), hp, hf⟩
  · rintro ⟨hq, ⟨p, d⟩, hp, hf⟩
    exact ⟨(q, d), (mem_p1List hn hC hT).2 ⟨hq, p, hp, hf⟩, rfl⟩

/-- C44: each point carries the density of an input point that an operation carries to it. -/
theorem p1_density_source (hn : ∀ k, 0 < n k) (hC : ∀ e ∈ G, Compat e n) (hT : ∀ s ∈ T, 0 < s.d ∧ ∀ k, s.d ∣ n k)
    (h : transformToP1 n G T centro pts = some res) {q : V3} {d : D} (hq : (q, d) ∈ res) :
    InCell n q ∧ ∃ p, (p, d) ∈ pts ∧ ∃ f ∈ crystalMaps G T centro, Carries n f p q := by
  rw [p1_eq h, mem_uniqueFirst] at hq
  exact (mem_p1List hn hC hT).1 (List.mem_of_find?_eq_some hq)

theorem carries_map_lat {f : Q3 → Q3} (hf : f ∈ crystalMaps G T centro) {x y : Q3} (h : Lat x y) : Lat (f x) (f y) := by
  have hd : ∀ e : Elem, ∀ t : Shift, Lat (fun k => act e x k + t.val k) (fun k => act e y k + t.val k) := by
    intro e t k
    obtain ⟨z, hz⟩ := h.act e k
    exact ⟨z, by linarith⟩
  have hdir : f ∈ T.flatMap (fun t => G.map fun e => (fun x k => act e x k + t.val k : Q3 → Q3)) → Lat (f x) (f y) := by
    intro hm
    obtain ⟨t, ht, hm⟩ := List.mem_flatMap.1 hm
    obtain ⟨e, he, rfl⟩ := List.mem_map.1 hm
    exact hd e t
  cases centro
  · exact hdir (by simpa [crystalMaps, fullMaps] using hf)
  · simp only [crystalMaps, fullMaps, if_true, List.mem_append] at hf
    rcases hf with hm | hm
    · exact hdir hm
    · obtain ⟨t, ht, hm⟩ := List.mem_flatMap.1 hm
      obtain ⟨e, he, rfl⟩ := List.mem_map.1 hm
      intro k
      obtain ⟨z, hz⟩ := hd e t k
      exact ⟨-z, by push_cast; linarith⟩

/-- C44: the expanded density agrees with the input: any point reached from an input point carries the
density of that point. -/
theorem p1_density (hn : ∀ k, 0 < n k) (hC : ∀ e ∈ G, Compat e n) (hT : ∀ s ∈ T, 0 < s.d ∧ ∀ k, s.d ∣ n k)
    (hG : IsMapGroup (crystalMaps G T centro)) (hcons : Consistent n (crystalMaps G T centro) pts)
    (h : transformToP1 n G T centro pts = some res) {p q : V3} {d : D} (hp : (p, d) ∈ pts) (hq : InCell n q)
    {f : Q3 → Q3} (hf : f ∈ crystalMaps G T centro) (hc : Carries n f p q) : (q, d) ∈ res := by
  have hm : q ∈ res.map (·.1) := (p1_points hn hC hT h q).2 ⟨hq, (p, d), hp, f, hf, hc⟩
  obtain ⟨⟨q', d'⟩, hm', rfl⟩ := List.mem_map.1 hm
  obtain ⟨-, p', hp', f', hf', hc'⟩ := p1_density_source hn hC hT h hm'
  obtain ⟨g, hg, hgi⟩ := hG.inv f hf
  obtain ⟨k, hk, hkm⟩ := hG.mul g hg f' hf'
  have : Carries n k p' p := by
    -- k = f⁻¹ f' carries p' to p
    have h1 : Lat (g (f' (fp n p'))) (g (f (fp n p))) := carries_map_lat hg (hc'.trans hc.symm)
    exact (hkm _).trans (h1.trans (hgi _))
  have hd : d' = d := hcons (p', d') hp' (p, d) hp k hk this
  exact hd ▸ hm'

/-- C44: the expanded density is invariant under every operation of the crystal. -/
theorem p1_invariant (hn : ∀ k, 0 < n k) (hC : ∀ e ∈ G, Compat e n) (hT : ∀ s ∈ T, 0 < s.d ∧ ∀ k, s.d ∣ n k)
    (hG : IsMapGroup (crystalMaps G T centro)) (hcons : Consistent n (crystalMaps G T centro) pts)
    (h : transformToP1 n G T centro pts = some res) {q q' : V3} {d : D} (hq : (q, d) ∈ res) (hq' : InCell n q')
    {g : Q3 → Q3} (hg : g ∈ crystalMaps G T centro) (hc : Carries n g q q') : (q', d) ∈ res := by
  obtain ⟨-, p, hp, f, hf, hcf⟩ := p1_density_source hn hC hT h hq
  obtain ⟨k, hk, hkm⟩ := hG.mul g hg f hf
  exact p1_density hn hC hT hG hcons h hp hq' hk ((hkm _).trans ((carries_map_lat hg hcf).trans hc))

/-- C44: the input points keep their densities. -/
theorem p1_keeps_input (hn : ∀ k, 0 < n k) (hC : ∀ e ∈ G, Compat e n) (hT : ∀ s ∈ T, 0 < s.d ∧ ∀ k, s.d ∣ n k)
    (hG : IsMapGroup (crystalMaps G T centro)) (hcons : Consistent n (crystalMaps G T centro) pts)
    (h : transformToP1 n G T centro pts = some res) {p : V3} {d : D} (hp : (p, d) ∈ pts) (hin : InCell n p) : (p, d) ∈ res := by
  obtain ⟨f, hf, hid⟩ := hG.one
  exact p1_density hn hC hT hG hcons h hp hin hf (hid _)

end

/-! ## a case that meets the hypotheses -/

theorem crystalMaps_exG : crystalMaps exG [⟨fun _ => 0, 1⟩] false = exG.map fun e x k => act e x k + Shift.val ⟨fun _ => 0, 1⟩ k := by
  simp [crystalMaps, fullMaps]

theorem exG_mapGroup : IsMapGroup (crystalMaps exG [⟨fun _ => 0, 1⟩] false) := by
  have h0 : ∀ (x : Q3), (fun k => x k + Shift.val ⟨fun _ => 0, 1⟩ k) = x := by
    intro x; funext k; simp [Shift.val]
  rw [crystalMaps_exG]
  have hg := exG_isGroup
  refine ⟨?_, ?_, ?_⟩
  · obtain ⟨e, he, h⟩ := hg.one
    exact ⟨_, List.mem_map.2 ⟨e, he, rfl⟩, fun x => by simpa only [h0] using h x⟩
  · intro f hf g hg'
    obtain ⟨a, ha, rfl⟩ := List.mem_map.1 hf
    obtain ⟨b, hb, rfl⟩ := List.mem_map.1 hg'
    obtain ⟨c, hc, h⟩ := hg.mul a ha b hb
    exact ⟨_, List.mem_map.2 ⟨c, hc, rfl⟩, fun x => by simpa only [h0] using h x⟩
  · intro f hf
    obtain ⟨a, ha, rfl⟩ := List.mem_map.1 hf
    obtain ⟨b, hb, h⟩ := hg.inv a ha
    exact ⟨_, List.mem_map.2 ⟨b, hb, rfl⟩, fun x => by simpa only [h0] using h x⟩

/-- The fourfold screw group on a 4×4×2 grid, one point. -/
example : (∀ e ∈ exG, Compat e ![4, 4, 2]) ∧ IsMapGroup (crystalMaps exG [⟨fun _ => 0, 1⟩] false) ∧
    Consistent ![4, 4, 2] (crystalMaps exG [⟨fun _ => 0, 1⟩] false) [((![1, 2, 1] : V3), (7 : ℕ))] ∧
    (transformToP1 ![4, 4, 2] exG [⟨fun _ => 0, 1⟩] false [((![1, 2, 1] : V3), (7 : ℕ))]).isSome ∧
    exG.map (fun e => List.ofFn (p1Index ![4, 4, 2] e ⟨fun _ => 0, 1⟩ ![1, 2, 1])) =
      [[1, 2, 1], [2, 1, 0], [3, 2, 1], [2, 3, 0]] :=
  ⟨exG_compat, exG_mapGroup, fun a ha b hb _ _ _ => by
    rw [List.mem_singleton.1 ha, List.mem_singleton.1 hb], by decide +kernel, by decide +kernel⟩

end Cryspy.Symm
