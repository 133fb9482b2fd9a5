import Verif.Bkg.Lemmas
import Verif.Bkg.SmoothLemmas
import Verif.Bkg.AreaLemmas
import Mathlib.Analysis.Calculus.Deriv.Basic
import Mathlib.Analysis.Calculus.Deriv.Add
import Mathlib.Analysis.Calculus.Deriv.Mul
import Mathlib.Tactic.NormNum
import Mathlib.Tactic.Positivity

/-!
# Properties of backgrounds through points (C35)
-/

namespace Cryspy.Bkg

universe u
variable {K : Type u} [Field K] [LinearOrder K] [IsStrictOrderedRing K]

/-! ### The displayed background (`interpolate_by_points`) -/

/-- The interpolated background is the broken line through the nodes, continued by constants:
the value is exactly the number that lies on it. -/
theorem interpolate_spec (nodes : List (K × K)) (hne : nodes ≠ []) (h : Increasing nodes) (t y : K) :
    y = interpolate nodes t ↔ OnClamped nodes t y :=
  ⟨fun e => e ▸ interpolate_on nodes hne t, interpolate_unique h⟩

example : Increasing ([(0, 5), (1, 7), (3, 1)] : List (ℚ × ℚ)) := by
  norm_num [Increasing]

/-- No nodes gives zero. -/
theorem interpolate_empty (t : K) : interpolate ([] : List (K × K)) t = 0 := rfl

/-- The background passes through every node. -/
theorem interpolate_through (nodes : List (K × K)) (h : Increasing nodes) (a : K × K)
    (ha : a ∈ nodes) : interpolate nodes a.1 = a.2 := interpolate_node h ha

theorem chord_between {a b : K × K} {t : K} (ha : a.1 ≤ t) (hb : t ≤ b.1) (hab : a.1 < b.1) :
    min a.2 b.2 ≤ chord a b t ∧ chord a b t ≤ max a.2 b.2 := by
  have hd : 0 < b.1 - a.1 := sub_pos.mpr hab
  set w := (t - a.1) / (b.1 - a.1) with hw
  have hw0 : 0 ≤ w := div_nonneg (sub_nonneg.mpr ha) hd.le
  have hw1 : w ≤ 1 := (div_le_one hd).mpr (by linarith)
  have e : chord a b t = a.2 * (1 - w) + b.2 * w := by
    rw [hw]; simp only [chord]; field_simp; ring
  rw [e]
  constructor
  · nlinarith [min_le_left a.2 b.2, min_le_right a.2 b.2]
  · nlinarith [le_max_left a.2 b.2, le_max_right a.2 b.2]

/-- Between two neighbouring nodes the background stays between their intensities. -/
theorem interpolate_between (pre post : List (K × K)) (a b : K × K)
    (h : Increasing (pre ++ a :: b :: post)) (t : K) (ha : a.1 ≤ t) (hb : t ≤ b.1) :
    min a.2 b.2 ≤ interpolate (pre ++ a :: b :: post) t ∧
      interpolate (pre ++ a :: b :: post) t ≤ max a.2 b.2 := by
  have hab : a.1 < b.1 := (List.pairwise_cons.mp (List.pairwise_append.mp h).2.1).1 b (by simp)
  rw [← interpolate_segment h ⟨pre, a, b, post, rfl, ha, hb, rfl⟩]
  exact chord_between ha hb hab

/-- Outside the nodes the background is constant. -/
theorem interpolate_outside (nodes : List (K × K)) (h : Increasing nodes) (t : K) :
    (∀ a post, nodes = a :: post → t ≤ a.1 → interpolate nodes t = a.2) ∧
    (∀ pre b, nodes = pre ++ [b] → b.1 ≤ t → interpolate nodes t = b.2) :=
  ⟨fun a post e ht => (interpolate_unique h (.inr (.inl ⟨a, post, e, ht, rfl⟩))).symm,
   fun pre b e ht => (interpolate_unique h (.inr (.inr ⟨pre, b, e, ht, rfl⟩))).symm⟩

/-- The background never leaves the range of the node intensities. -/
theorem interpolate_bounds (nodes : List (K × K)) (hne : nodes ≠ []) (h : Increasing nodes) (t : K)
    (lo up : K) (hb : ∀ a ∈ nodes, lo ≤ a.2 ∧ a.2 ≤ up) :
    lo ≤ interpolate nodes t ∧ interpolate nodes t ≤ up := by
  rcases interpolate_on nodes hne t with ⟨pre, a, b, post, e, h1, h2, hy⟩ | ⟨a, post, e, _, hy⟩ |
    ⟨pre, b, e, _, hy⟩
  · have hab : a.1 < b.1 :=
      (List.pairwise_cons.mp (List.pairwise_append.mp (e ▸ h)).2.1).1 b (by simp)
    have ha := hb a (by rw [e]; simp)
    have hb' := hb b (by rw [e]; simp)
    have := chord_between h1 h2 hab
    rw [hy]
    exact ⟨(le_min ha.1 hb'.1).trans this.1, this.2.trans (max_le ha.2 hb'.2)⟩
  · rw [hy]; exact hb a (by rw [e]; simp)
  · rw [hy]; exact hb b (by rw [e]; simp)

/-! ### The background of the refinement (`calc_background`) -/

/-- For at least two increasing nodes and any measured points the refinement computes, at every
point, the broken line continued by its first and last chords; the value is determined by that. -/
theorem refined_spec (nodes : List (K × K)) (h : Increasing nodes) (h2 : 2 ≤ nodes.length)
    (tt : List K) (ht : tt ≠ []) :
    ∃ out, calcBackground tt (nodes.map Prod.fst) (nodes.map Prod.snd) = some out ∧
      List.Forall₂ (fun t y => ∀ z, z = y ↔ OnExtended nodes t z) tt out := by
  obtain ⟨out, h1, h3⟩ := calcBackground_eq nodes h h2 tt ht
  refine ⟨out, h1, h3.imp ?_⟩
  intro t y hy z
  exact ⟨fun e => e ▸ hy, fun hz => onExtended_unique h hz hy⟩

/-- At every measured point inside the range of the nodes the refinement and the displayed
background agree. -/
theorem refined_agrees_inside (c d : K × K) (mid : List (K × K))
    (h : Increasing (c :: mid ++ [d])) (tt : List K) (ht : tt ≠ [])
    (hin : ∀ t ∈ tt, c.1 ≤ t ∧ t ≤ d.1) :
    calcBackground tt ((c :: mid ++ [d]).map Prod.fst) ((c :: mid ++ [d]).map Prod.snd) =
      some (tt.map (interpolate (c :: mid ++ [d]))) := by
  obtain ⟨out, h1, h3⟩ := calcBackground_eq _ h (by simp) tt ht
  rw [h1]
  congr 1
  clear h1 ht
  induction h3 with
  | nil => rfl
  | @cons t y ts ys hty _ ih =>
    have e := ih (fun x hx => hin x (by simp [hx]))
    rw [List.map_cons, ← e]
    congr 1
    apply onExtended_unique h hty
    obtain ⟨hl, hr⟩ := hin t (by simp)
    rcases interpolate_on (c :: mid ++ [d]) (by simp) t with hs | ⟨a, post, ea, ha, hy⟩ |
      ⟨pre, b, eb, hb, hy⟩
    · exact .inl hs
    · simp at ea
      obtain ⟨rfl, rfl⟩ := ea
      obtain ⟨x, r, e⟩ : ∃ x r, mid ++ [d] = x :: r := by
        cases mid with
        | nil => exact ⟨d, [], rfl⟩
        | cons x m => exact ⟨x, m ++ [d], rfl⟩
      right; left
      refine ⟨c, x, r, by rw [List.cons_append, e], ha, ?_⟩
      rw [hy, le_antisymm ha hl, chord_left]
    · have e2 := (List.append_inj' eb rfl).2
      simp at e2; subst e2
      obtain ⟨r, x, e⟩ : ∃ r x, c :: mid = r ++ [x] := by
        rcases List.eq_nil_or_concat (c :: mid) with h0 | ⟨l, q, e⟩
        · simp at h0
        · exact ⟨l, q, by simpa using e⟩
      right; right
      refine ⟨r, x, d, by rw [e]; simp, hb, ?_⟩
      have hx : x.1 < d.1 := by
        have h9 := (List.pairwise_append.mp h).2.2 x (by rw [e]; simp) d (by simp)
        exact h9
      rw [hy, le_antisymm hr hb, chord_right hx]

example : calcBackground [(1/2 : ℚ), 2] [0, 1, 3] [5, 7, 1] = some [6, 4] := by decide +kernel

/-- Outside they differ whenever the first two nodes have different intensities: the program shows
the user another background than the one it refines. -/
theorem outside_disagrees (a b : K × K) (post : List (K × K)) (h : Increasing (a :: b :: post))
    (hne : a.2 ≠ b.2) (t : K) (ht : t < a.1) :
    calcBackground [t] ((a :: b :: post).map Prod.fst) ((a :: b :: post).map Prod.snd) ≠
      some [interpolate (a :: b :: post) t] := by
  obtain ⟨out, h1, h3⟩ := calcBackground_eq _ h (by simp) [t] (by simp)
  rw [h1]
  intro e
  cases e
  cases h3 with
  | cons hty _ =>
    have h4 := onExtended_unique h hty (.inr (.inl ⟨a, b, post, rfl, ht.le, rfl⟩))
    have hi : interpolate (a :: b :: post) t = a.2 := by simp [interpolate, ht]
    rw [hi] at h4
    have hab : a.1 < b.1 := (List.pairwise_cons.mp h).1 b (by simp)
    have h5 : (b.2 - a.2) / (b.1 - a.1) * (t - a.1) = 0 := by
      have : a.2 = a.2 + (b.2 - a.2) / (b.1 - a.1) * (t - a.1) := h4
      linear_combination -this
    rcases mul_eq_zero.mp h5 with h6 | h6
    · rcases div_eq_zero_iff.mp h6 with h7 | h7
      · exact hne (sub_eq_zero.mp h7).symm
      · exact hab.ne' (sub_eq_zero.mp h7)
    · exact ht.ne (sub_eq_zero.mp h6)

example : calcBackground [(-1 : ℚ)] [0, 1] [5, 7] = some [3] ∧
    interpolate [(0, 5), ((1 : ℚ), 7)] (-1) = 5 := by decide +kernel

omit [IsStrictOrderedRing K] in
/-- With a single node, which the displayed background accepts, the refinement raises an index
error. -/
theorem single_node_raises (tt : List K) (x y : K) : calcBackground tt [x] [y] = none := by
  unfold calcBackground
  have bs : ∀ {α β : Type u} (a : α) (f : α → Option β), (some a >>= f) = f a := fun _ _ => rfl
  rcases h1 : tt.min? with _ | a
  · rfl
  rcases h2 : tt.max? with _ | b
  · rfl
  rw [bs, bs]
  by_cases h3 : x > a
  · have : extendLeft a [x] [y] = none := by simp [extendLeft, h3, List.min?_cons']
    rw [this]; rfl
  · have e1 : extendLeft a [x] [y] = some ([x], [y]) := by simp [extendLeft, h3, List.min?_cons']
    have hab : x ≤ b := by
      have ha := List.min?_eq_some_iff.mp h1
      have hb := List.max?_eq_some_iff.mp h2
      exact (not_lt.mp h3).trans (hb.2 a ha.1)
    have e2 : extendRight b [x] [y] = none := by simp [extendRight, hab, List.max?_cons']
    rw [e1, bs]
    simp only []
    rw [e2]; rfl

/-- The derivative of the refined background at a node over the intensity of that node is one, but
the refinement reports zero. -/
theorem d_background_wrong (nodes : List (ℝ × ℝ)) (h : Increasing nodes) (h2 : 2 ≤ nodes.length)
    (k : ℕ) (x y : ℝ) (hk : nodes[k]? = some (x, y)) :
    HasDerivAt (fun v => ((calcBackground [x] (nodes.map Prod.fst)
      ((nodes.map Prod.snd).set k v)).bind List.head?).getD 0) 1 y ∧
    (dBackground [x] (nodes.map Prod.fst))[0]?.bind (·[k]?) = some 0 := by
  obtain ⟨hlt, hk'⟩ := List.getElem?_eq_some_iff.mp hk
  have val : ∀ v, calcBackground [x] (nodes.map Prod.fst) ((nodes.map Prod.snd).set k v) =
      some [v] := by
    intro v
    have e1 : nodes.map Prod.fst = (nodes.set k (x, v)).map Prod.fst := by
      rw [List.map_set]
      apply List.ext_getElem (by simp)
      intro i h1 h2
      rw [List.getElem_set]
      split_ifs with hik
      · subst hik; simp [hk']
      · rfl
    have e2 : (nodes.map Prod.snd).set k v = (nodes.set k (x, v)).map Prod.snd := by
      rw [List.map_set]
    have hinc : Increasing (nodes.set k (x, v)) := by
      unfold Increasing at *
      have : (nodes.map Prod.fst).Pairwise (· < ·) := List.pairwise_map.mpr h
      rw [e1] at this
      exact List.pairwise_map.mp this
    rw [e1, e2]
    obtain ⟨out, h1, h3⟩ := calcBackground_eq (nodes.set k (x, v)) hinc (by simpa using h2) [x]
      (by simp)
    rw [h1]
    cases h3 with
    | @cons _ y' _ ys hty hr =>
      cases hr
      congr 2
      have hmem : (x, v) ∈ nodes.set k (x, v) := by
        rw [List.mem_iff_getElem?]
        exact ⟨k, by rw [List.getElem?_set]; simp [hlt]⟩
      rcases hty with hs | ⟨a, b, post, e, ht, hy⟩ | ⟨pre, a, b, e, ht, hy⟩
      · rw [interpolate_segment hinc hs]
        exact interpolate_node hinc hmem
      · have hax : a.1 ≤ x := head_le (l := b :: post) (e ▸ hinc) (b := (x, v)) (e ▸ hmem)
        have hx : x = a.1 := le_antisymm ht hax
        rw [hy, hx, chord_left]
        have hn : interpolate (nodes.set k (x, v)) a.1 = a.2 :=
          interpolate_node hinc (by rw [e]; simp)
        have hn2 : interpolate (nodes.set k (x, v)) x = v := interpolate_node hinc hmem
        rw [← hn, ← hx, hn2]
      · have e' : nodes.set k (x, v) = (pre ++ [a]) ++ [b] := by simp [e]
        have hxb : x ≤ b.1 := le_last (l := pre ++ [a]) (e' ▸ hinc) (b := (x, v)) (e' ▸ hmem)
        have hx : x = b.1 := le_antisymm hxb ht
        have hab : a.1 < b.1 := by
          have h9 := (List.pairwise_append.mp (e ▸ hinc)).2.1
          exact (List.pairwise_cons.mp h9).1 b (by simp)
        have hn : interpolate (nodes.set k (x, v)) b.1 = b.2 :=
          interpolate_node hinc (by rw [e]; simp)
        have hn2 : interpolate (nodes.set k (x, v)) x = v := interpolate_node hinc hmem
        rw [hy, hx, chord_right hab, ← hn, ← hx, hn2]
  refine ⟨?_, ?_⟩
  · have : (fun v => ((calcBackground [x] (nodes.map Prod.fst)
        ((nodes.map Prod.snd).set k v)).bind List.head?).getD 0) = fun v => v := by
      funext v; rw [val v]; rfl
    rw [this]
    exact hasDerivAt_id y
  · simp [dBackground, hlt]

example : ∃ nodes : List (ℝ × ℝ), Increasing nodes ∧ 2 ≤ nodes.length ∧ nodes[1]? = some (1, 7) :=
  ⟨[(0, 5), (1, 7)], by norm_num [Increasing], by simp, rfl⟩

/-! ### The background on a detector area -/

/-- What the area background should be: each row of node intensities interpolated over nu, and the
results over gamma, both continued by constants. -/
def OnClamped2 (gas nus : List K) (signal : List (List K)) (ga nu y : K) : Prop :=
  ∃ rowValues, List.Forall₂ (fun row c => OnClamped (nus.zip row) nu c) signal rowValues ∧
    OnClamped (gas.zip rowValues) ga y

theorem increasing_zip (p ys : List K) (h : p.Pairwise (· < ·)) (hl : ys.length = p.length) :
    Increasing (p.zip ys) := by
  have : (p.zip ys).map Prod.fst = p := List.map_fst_zip (by omega)
  unfold Increasing
  rw [← this] at h
  exact List.pairwise_map.mp h

/-- For increasing node positions and a full table of intensities the refinement of area data
computes, for every pair of measured angles, the value of the surface described by `OnClamped2`. -/
theorem area_spec (ga nu gas nus : List K) (signal : List (List K)) (hga : ga ≠ []) (hnu : nu ≠ [])
    (hgas : gas ≠ []) (hnus : nus ≠ []) (h1 : gas.Pairwise (· < ·)) (h2 : nus.Pairwise (· < ·))
    (hs : signal.length = gas.length) (hrow : ∀ row ∈ signal, row.length = nus.length) :
    ∃ out, calcBackground2d ga nu gas nus signal = some out ∧
      List.Forall₂ (fun g row => List.Forall₂ (fun n y => OnClamped2 gas nus signal g n y) nu row)
        ga out := by
  obtain ⟨gl, gr, gP, eG, exG, fG⟩ := axis ga gas hga hgas h1
  obtain ⟨nl, nr, nP, eN, exN, fN⟩ := axis nu nus hnu hnus h2
  obtain ⟨s1, es1⟩ := exG signal hs
  have bs : ∀ {α β : Type u} (a : α) (f : α → Option β), (some a >>= f) = f a := fun _ _ => rfl
  have hs1 : ∀ row ∈ s1, row.length = nus.length := by
    have hmem : ∀ row ∈ s1, row ∈ signal := by
      unfold extendValues at es1
      have hne : signal ≠ [] := by
        rintro rfl; rw [List.length_nil] at hs; exact hgas (List.length_eq_zero_iff.mp hs.symm)
      obtain ⟨r0, rs, rfl⟩ : ∃ a l, signal = a :: l := by
        cases signal with
        | nil => exact absurd rfl hne
        | cons a l => exact ⟨a, l, rfl⟩
      obtain ⟨z, hz⟩ : ∃ z, (r0 :: rs).getLast? = some z := by
        rcases h0 : (r0 :: rs).getLast? with _ | z
        · simp at h0
        · exact ⟨z, rfl⟩
      have hzm : z ∈ r0 :: rs := List.mem_of_getLast? hz
      have hz2 : (r0 :: r0 :: rs).getLast? = some z := by
        simpa [List.getLast?_cons_cons] using hz
      intro row hr
      cases gl <;> cases gr <;>
        simp only [Bool.false_eq_true, if_false, if_true, bind, Option.bind, List.head?_cons,
          Option.map_some, hz, hz2, Option.some.injEq] at es1 <;> subst es1
      · exact hr
      · rcases List.mem_append.mp hr with hr | hr
        · exact hr
        · rw [List.mem_singleton.mp hr]; exact hzm
      · rcases List.mem_cons.mp hr with rfl | hr
        · simp
        · exact hr
      · rcases List.mem_append.mp hr with hr | hr
        · rcases List.mem_cons.mp hr with rfl | hr
          · simp
          · exact hr
        · rw [List.mem_singleton.mp hr]; exact hzm
    exact fun row hr => hrow row (hmem row hr)
  obtain ⟨s2, es2, fs2⟩ : ∃ s2, s1.mapM (extendValues nl nr) = some s2 ∧
      List.Forall₂ (fun a b => extendValues nl nr a = some b) s1 s2 := by
    clear es1
    induction s1 with
    | nil => exact ⟨[], rfl, .nil⟩
    | cons r s ih =>
      obtain ⟨s2, e, f⟩ := ih (fun row hr => hs1 row (by simp [hr]))
      obtain ⟨r', er⟩ := exN r (hs1 r (by simp))
      exact ⟨r' :: s2, by rw [List.mapM_cons, er, bs, e]; rfl, .cons er f⟩
  set vals : K → List K := fun n => signal.map fun row => interpolate (nus.zip row) n with hvals
  have hval : ∀ g ∈ ga, ∀ n ∈ nu, ∃ i j, columns gP g = [i] ∧ columns nP n = [j] ∧
      bilinear gP nP s2 g n i j = some (interpolate (gas.zip (vals n)) g) := by
    intro g hg n hn
    obtain ⟨i, x1, x2, a1, a2, c1, c2, c3, c4, c5, c6, c7, c8, c9, c10⟩ := fG g hg
    obtain ⟨j, z1, z2, b1, b2, d1, d2, d3, d4, d5, d6, d7, d8, d9, d10⟩ := fN n hn
    refine ⟨i, j, c1, d1, ?_⟩
    obtain ⟨e1, e2⟩ := c9 signal s1 hs es1
    obtain ⟨r1, hr1⟩ : ∃ r, signal[a1]? = some r :=
      ⟨_, List.getElem?_eq_getElem (by rw [hs]; exact c7)⟩
    obtain ⟨r2, hr2⟩ : ∃ r, signal[a2]? = some r :=
      ⟨_, List.getElem?_eq_getElem (by rw [hs]; exact c8)⟩
    rw [hr1] at e1; rw [hr2] at e2
    have hl1 := hrow r1 (List.mem_of_getElem? hr1)
    have hl2 := hrow r2 (List.mem_of_getElem? hr2)
    have hf := List.forall₂_iff_get.mp fs2
    obtain ⟨q1, hq1, hq1'⟩ : ∃ q, s2[i]? = some q ∧ extendValues nl nr r1 = some q := by
      obtain ⟨hlt, e⟩ := List.getElem?_eq_some_iff.mp e1
      have hlt2 : i < s2.length := by rw [← hf.1]; exact hlt
      refine ⟨s2[i], List.getElem?_eq_getElem hlt2, ?_⟩
      have := hf.2 i hlt hlt2
      rw [List.get_eq_getElem, List.get_eq_getElem, e] at this
      exact this
    obtain ⟨q2, hq2, hq2'⟩ : ∃ q, s2[i+1]? = some q ∧ extendValues nl nr r2 = some q := by
      obtain ⟨hlt, e⟩ := List.getElem?_eq_some_iff.mp e2
      have hlt2 : i + 1 < s2.length := by rw [← hf.1]; exact hlt
      refine ⟨s2[i+1], List.getElem?_eq_getElem hlt2, ?_⟩
      have := hf.2 (i+1) hlt hlt2
      rw [List.get_eq_getElem, List.get_eq_getElem, e] at this
      exact this
    obtain ⟨f11', f12'⟩ := d9 r1 q1 hl1 hq1'
    obtain ⟨f21', f22'⟩ := d9 r2 q2 hl2 hq2'
    have g11 := List.getElem?_eq_getElem (l := r1) (i := b1) (by rw [hl1]; exact d7)
    have g12 := List.getElem?_eq_getElem (l := r1) (i := b2) (by rw [hl1]; exact d8)
    have g21 := List.getElem?_eq_getElem (l := r2) (i := b1) (by rw [hl2]; exact d7)
    have g22 := List.getElem?_eq_getElem (l := r2) (i := b2) (by rw [hl2]; exact d8)
    have v1 := d10 r1 hl1 _ _ g11 g12
    have v2 := d10 r2 hl2 _ _ g21 g22
    have hv1 : (vals n)[a1]? = some (interpolate (nus.zip r1) n) := by
      rw [hvals, List.getElem?_map, hr1]; rfl
    have hv2 : (vals n)[a2]? = some (interpolate (nus.zip r2) n) := by
      rw [hvals, List.getElem?_map, hr2]; rfl
    have hv := c10 (vals n) (by simp [hvals, hs]) _ _ hv1 hv2
    rw [hv, v1, v2]
    rw [g11] at f11'; rw [g12] at f12'; rw [g21] at f21'; rw [g22] at f22'
    unfold bilinear
    simp only [c2, c3, d2, d3, hq1, hq2, f11', f12', f21', f22', bind, Option.bind]
    congr 1
    have hx : x2 - x1 ≠ 0 := sub_ne_zero.mpr c4.ne'
    have hz : z2 - z1 ≠ 0 := sub_ne_zero.mpr d4.ne'
    simp only [chord]
    field_simp
    ring
  have on2 : ∀ g n, OnClamped2 gas nus signal g n (interpolate (gas.zip (vals n)) g) := by
    intro g n
    refine ⟨vals n, ?_, ?_⟩
    · rw [hvals]
      have : ∀ s : List (List K), (∀ row ∈ s, row.length = nus.length) →
          List.Forall₂ (fun row c => OnClamped (nus.zip row) n c) s
            (s.map fun row => interpolate (nus.zip row) n) := by
        intro s hs'
        induction s with
        | nil => exact .nil
        | cons r s ih =>
          refine .cons ?_ (ih fun row hr => hs' row (by simp [hr]))
          apply interpolate_on
          intro e
          have h9 := congrArg List.length e
          rw [List.length_zip, hs' r (by simp), min_self] at h9
          exact hnus (List.length_eq_zero_iff.mp h9)
      exact this signal hrow
    · apply interpolate_on
      intro e
      have h9 := congrArg List.length e
      rw [List.length_zip] at h9
      simp only [hvals, List.length_map, hs, min_self] at h9
      exact hgas (List.length_eq_zero_iff.mp h9)
  have rowN : ∀ g ∈ ga, ∀ s : List K, (∀ n ∈ s, n ∈ nu) → ∃ i, columns gP g = [i] ∧
      (s.flatMap (columns nP)).length = s.length ∧
      ((s.zip (s.flatMap (columns nP))).mapM fun b => bilinear gP nP s2 g b.1 i b.2) =
        some (s.map fun n => interpolate (gas.zip (vals n)) g) := by
    intro g hg s hsn
    obtain ⟨n0, hn0⟩ : ∃ n, n ∈ nu := List.exists_mem_of_ne_nil nu hnu
    obtain ⟨i, _, hi, _, _⟩ := hval g hg n0 hn0
    refine ⟨i, hi, ?_⟩
    induction s with
    | nil => exact ⟨rfl, rfl⟩
    | cons n s ih =>
      obtain ⟨ih1, ih2⟩ := ih (fun x hx => hsn x (by simp [hx]))
      obtain ⟨i', j, hi', hj, hb⟩ := hval g hg n (hsn n (by simp))
      rw [hi] at hi'; simp at hi'; subst hi'
      refine ⟨by rw [List.flatMap_cons, hj]; simp [ih1], ?_⟩
      rw [List.flatMap_cons, hj, List.singleton_append, List.zip_cons_cons, List.mapM_cons]
      simp only []
      rw [hb, bs, ih2]; rfl
  have rowsG : ∀ s : List K, (∀ g ∈ s, g ∈ ga) →
      (s.flatMap (columns gP)).length = s.length ∧
      ((s.zip (s.flatMap (columns gP))).mapM fun a =>
        (nu.zip (nu.flatMap (columns nP))).mapM fun b => bilinear gP nP s2 a.1 b.1 a.2 b.2) =
        some (s.map fun g => nu.map fun n => interpolate (gas.zip (vals n)) g) := by
    intro s
    induction s with
    | nil => intro _; exact ⟨rfl, rfl⟩
    | cons g s ih =>
      intro hsg
      obtain ⟨ih1, ih2⟩ := ih (fun x hx => hsg x (by simp [hx]))
      obtain ⟨i, hi, _, hb⟩ := rowN g (hsg g (by simp)) nu (fun _ h => h)
      refine ⟨by rw [List.flatMap_cons, hi]; simp [ih1], ?_⟩
      rw [List.flatMap_cons, hi, List.singleton_append, List.zip_cons_cons, List.mapM_cons]
      simp only []
      rw [hb, bs, ih2]; rfl
  obtain ⟨g0, hg0⟩ : ∃ g, g ∈ ga := List.exists_mem_of_ne_nil ga hga
  obtain ⟨_, _, hln, _⟩ := rowN g0 hg0 nu (fun _ h => h)
  obtain ⟨hlg, hout⟩ := rowsG ga (fun _ h => h)
  refine ⟨ga.map fun g => nu.map fun n => interpolate (gas.zip (vals n)) g, ?_, ?_⟩
  · unfold calcBackground2d
    rw [eG, bs]
    simp only []
    rw [es1, bs, eN, bs]
    simp only []
    rw [es2, bs]
    simp only [hlg, hln, ne_eq, not_true_eq_false, or_self, if_false]
    exact hout
  · have : ∀ s : List K, List.Forall₂ (fun g row =>
        List.Forall₂ (fun n y => OnClamped2 gas nus signal g n y) nu row) s
        (s.map fun g => nu.map fun n => interpolate (gas.zip (vals n)) g) := by
      intro s
      induction s with
      | nil => exact .nil
      | cons g s ih =>
        refine .cons ?_ ih
        have : ∀ r : List K, List.Forall₂ (fun n y => OnClamped2 gas nus signal g n y) r
            (r.map fun n => interpolate (gas.zip (vals n)) g) := by
          intro r
          induction r with
          | nil => exact .nil
          | cons n r ih2 => exact .cons (on2 g n) ih2
        exact this nu
    exact this ga

example : calcBackground2d [(1/2 : ℚ), 3] [-1, 1/2] [0, 1] [0, 1] [[0, 4], [2, 8]] =
    some [[1, 7/2], [2, 5]] := by decide +kernel

/-- The surface is determined by its description. -/
theorem onClamped2_unique (gas nus : List K) (signal : List (List K)) (h1 : gas.Pairwise (· < ·))
    (h2 : nus.Pairwise (· < ·)) (hs : signal.length = gas.length)
    (hrow : ∀ row ∈ signal, row.length = nus.length) (g n y z : K)
    (hy : OnClamped2 gas nus signal g n y) (hz : OnClamped2 gas nus signal g n z) : y = z := by
  obtain ⟨c, hc, hy⟩ := hy
  obtain ⟨d, hd, hz⟩ := hz
  have hcd : c = d := by
    have hc' := hc
    clear hs hy hz hc'
    induction hc generalizing d with
    | nil => cases hd; rfl
    | @cons row a s c hra _ ih => cases hd with
      | cons hrb ht =>
        have hl := hrow row (by simp)
        rw [interpolate_unique (increasing_zip nus row h2 hl) hra,
          interpolate_unique (increasing_zip nus row h2 hl) hrb,
          ih (fun r hr => hrow r (by simp [hr])) _ ht]
  subst hcd
  have hl : c.length = gas.length := by rw [← hs, hc.length_eq]
  rw [interpolate_unique (increasing_zip gas c h1 hl) hy,
    interpolate_unique (increasing_zip gas c h1 hl) hz]

/-- The area background never leaves the range of the node intensities. -/
theorem area_bounds (gas nus : List K) (signal : List (List K)) (h1 : gas.Pairwise (· < ·))
    (h2 : nus.Pairwise (· < ·)) (hgas : gas ≠ []) (hnus : nus ≠ [])
    (hs : signal.length = gas.length)
    (hrow : ∀ row ∈ signal, row.length = nus.length) (g n y lo up : K)
    (hb : ∀ row ∈ signal, ∀ v ∈ row, lo ≤ v ∧ v ≤ up)
    (hy : OnClamped2 gas nus signal g n y) : lo ≤ y ∧ y ≤ up := by
  obtain ⟨c, hc, hy⟩ := hy
  have hl : c.length = gas.length := by rw [← hs, hc.length_eq]
  rw [interpolate_unique (increasing_zip gas c h1 hl) hy]
  apply interpolate_bounds _ _ (increasing_zip gas c h1 hl)
  · intro a ha
    have hac : a.2 ∈ c := (List.of_mem_zip ha).2
    clear hy hl hs ha
    induction hc with
    | nil => simp at hac
    | @cons row v s c hv _ ih =>
      rcases List.mem_cons.mp hac with e | hac
      · rw [e]
        have hl := hrow row (by simp)
        rw [interpolate_unique (increasing_zip nus row h2 hl) hv]
        apply interpolate_bounds _ _ (increasing_zip nus row h2 hl)
        · intro b hb'
          exact hb row (by simp) _ (List.of_mem_zip hb').2
        · intro e
          have h9 := congrArg List.length e
          rw [List.length_zip, hl, min_self] at h9
          exact hnus (List.length_eq_zero_iff.mp h9)
      · exact ih (fun r hr => hrow r (by simp [hr])) (fun r hr => hb r (by simp [hr])) hac
  · intro e
    have h9 := congrArg List.length e
    rw [List.length_zip, hl, min_self] at h9
    exact hgas (List.length_eq_zero_iff.mp h9)

/-- The reported derivatives of the area background are wrong: for the nodes `0, 1` in both
directions and measured points `(0, 0)` and `(1/2, 0)`, raising the node `(0, 0)` by `δ` raises the
background at the first point by `δ`, but the reported derivative, the same for both points, is
one half. -/
theorem d_area_wrong :
    (∀ δ : ℚ, ∀ v, calcBackground2d [0, 1/2] [0] [0, 1] [0, 1] [[v + δ, 0], [0, 0]] =
      some [[v + δ], [(v + δ) / 2]]) ∧
    dBackground2d [0, (1/2 : ℚ)] [0] [0, 1] [0, 1] [0, 0] [0] 0 0 = 1/2 := by
  constructor
  · intro δ v
    have e1 : extendPositions [0, (1/2 : ℚ)] [0, 1] = some (false, false, [0, 1]) := by
      decide +kernel
    have e2 : extendPositions [(0 : ℚ)] [0, 1] = some (false, false, [0, 1]) := by decide +kernel
    have c1 : [0, (1/2 : ℚ)].flatMap (columns [0, 1]) = [0, 0] := by decide +kernel
    have c2 : [(0 : ℚ)].flatMap (columns [0, 1]) = [0] := by decide +kernel
    have b1 : bilinear [0, 1] [0, 1] [[v + δ, 0], [0, 0]] (0 : ℚ) 0 0 0 = some (v + δ) := by
      simp [bilinear]
    have b2 : bilinear [0, 1] [0, 1] [[v + δ, 0], [0, 0]] (1/2 : ℚ) 0 0 0 = some ((v + δ) / 2) := by
      simp [bilinear]; ring
    have bs : ∀ {α β : Type} (a : α) (f : α → Option β), (some a >>= f) = f a := fun _ _ => rfl
    have ev : extendValues false false [[v + δ, 0], [0, 0]] = some [[v + δ, 0], [0, 0]] := rfl
    have em : [[v + δ, 0], [0, 0]].mapM (extendValues false false) =
      some [[v + δ, 0], [0, 0]] := rfl
    unfold calcBackground2d
    rw [e1, bs]
    simp only []
    rw [ev, bs, e2, bs]
    simp only []
    rw [em, bs, c1, c2, if_neg (by decide)]
    rw [List.zip_cons_cons, List.zip_cons_cons, List.zip_cons_cons, List.zip_nil_left,
      List.mapM_cons, List.mapM_cons, List.mapM_nil]
    simp only [List.mapM_cons, List.mapM_nil, b1, b2]
    rfl
  · decide +kernel

/-! ### The automatic estimate -/

/-- The estimate of the background has one value per data point, and each lies between any bounds
of the data. -/
theorem estimate_bounds (y : List K) (stepN : ℕ) (hs : 0 < stepN) (lo up : K)
    (h : ∀ v ∈ y, lo ≤ v ∧ v ≤ up) :
    (estimateBackground y stepN).length = y.length ∧
      ∀ v ∈ estimateBackground y stepN, lo ≤ v ∧ v ≤ up := by
  refine ⟨?_, ?_⟩
  · unfold estimateBackground
    rw [smooth_length, smooth_iter_length]
  · exact smooth_between stepN hs false _ lo up (smooth_iter_between stepN hs 99 y lo up h)

example : ∀ v ∈ ([3, 1, 2] : List ℚ), (1 : ℚ) ≤ v ∧ v ≤ 3 := by decide +kernel

/-- A flat pattern is its own background. -/
theorem estimate_constant (n stepN : ℕ) (hs : 0 < stepN) (c : K) :
    estimateBackground (List.replicate n c) stepN = List.replicate n c := by
  obtain ⟨h1, h2⟩ := estimate_bounds (List.replicate n c) stepN hs c c
    (fun v hv => by rw [List.eq_of_mem_replicate hv]; exact ⟨le_rfl, le_rfl⟩)
  rw [List.length_replicate] at h1
  apply List.eq_replicate_iff.mpr
  exact ⟨h1, fun v hv => le_antisymm (h2 v hv).2 (h2 v hv).1⟩

omit [IsStrictOrderedRing K] in
/-- Up to the last pass, which averages without clipping, the estimate lies below the data at every
point. -/
theorem estimate_below (y : List K) (stepN : ℕ) :
    ∃ z, estimateBackground y stepN = smooth stepN false z ∧ List.Forall₂ (· ≤ ·) z y :=
  ⟨_, rfl, smooth_iter_le stepN 99 y⟩

end Cryspy.Bkg
