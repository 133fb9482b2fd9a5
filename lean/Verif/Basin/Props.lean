import Verif.Basin.Spec
import Verif.Basin.Model
import Verif.Cell.Props

/-!
# C70: the nearest atom of a point

The distance is always the distance to some position of the reported atom.  In a cell with right angles it is the distance to the
nearest position of all atoms, points related by symmetry get the same atom and the same distance, and the pair (atom, operation) fits
when no other atom is as near.  In other cells, and for the pair when two atoms are equally near, this fails: see `hexagonal_misses`
and `pair_mismatch`.
-/

namespace Cryspy.Basin

open Symm Matrix Cell Mat

/-! ### Lists -/

theorem foldl_min_le (l : List ℝ) : ∀ x, l.foldl min x ≤ x ∧ ∀ y ∈ l, l.foldl min x ≤ y := by
  induction l with
  | nil => intro x; simp
  | cons z l ih =>
    intro x
    obtain ⟨h1, h2⟩ := ih (min x z)
    simp only [List.foldl_cons]
    refine ⟨h1.trans (min_le_left _ _), ?_⟩
    intro y hy
    rcases List.mem_cons.1 hy with rfl | hy
    · exact h1.trans (min_le_right _ _)
    · exact h2 y hy

theorem foldl_min_mem (l : List ℝ) : ∀ x, l.foldl min x = x ∨ l.foldl min x ∈ l := by
  induction l with
  | nil => intro x; simp
  | cons z l ih =>
    intro x
    simp only [List.foldl_cons, List.mem_cons]
    rcases ih (min x z) with h | h
    · rcases min_choice x z with h' | h' <;> rw [h'] at h ⊢
      · exact Or.inl h
      · exact Or.inr (Or.inl h)
    · exact Or.inr (Or.inr h)

theorem minL_le {l : List ℝ} {y : ℝ} (h : y ∈ l) : minL l ≤ y := by
  cases l with
  | nil => simp at h
  | cons x l =>
    rcases List.mem_cons.1 h with rfl | h
    · exact (foldl_min_le l _).1
    · exact (foldl_min_le l _).2 y h

theorem minL_mem {l : List ℝ} (h : l ≠ []) : minL l ∈ l := by
  cases l with
  | nil => exact absurd rfl h
  | cons x l =>
    rcases foldl_min_mem l x with h' | h'
    · exact List.mem_cons.2 (Or.inl h')
    · exact List.mem_cons.2 (Or.inr h')

theorem minL_eq {l : List ℝ} {m : ℝ} (h : m ∈ l) (h' : ∀ y ∈ l, m ≤ y) : minL l = m :=
  le_antisymm (minL_le h) (h' _ (minL_mem (List.ne_nil_of_mem h)))

theorem argminL_lt {l : List ℝ} (h : l ≠ []) : argminL l < l.length := by
  unfold argminL
  exact List.findIdx_lt_length_of_exists ⟨minL l, minL_mem h, by simp⟩

theorem argminL_get {l : List ℝ} (h : l ≠ []) : l[argminL l]'(argminL_lt h) = minL l := by
  have := List.findIdx_getElem (xs := l) (p := fun x => @decide (x = minL l) (Classical.decEq ℝ _ _)) (w := argminL_lt h)
  exact of_decide_eq_true this

theorem argminL_first {l : List ℝ} {k : ℕ} (h : k < argminL l) (hk : k < l.length) : minL l < l[k] := by
  have := List.not_of_lt_findIdx (xs := l) (p := fun x => @decide (x = minL l) (Classical.decEq ℝ _ _)) h
  have hne : l[k] ≠ minL l := by simpa using this
  exact lt_of_le_of_ne (minL_le (List.getElem_mem hk)) (Ne.symm hne)

/-! ### One component -/

/-- The wrapped difference differs from the difference by an integer. -/
theorem wrap_int (x y : ℝ) : ∃ n : ℤ, wrap (Int.fract x - Int.fract y) = x - y - n := by
  unfold wrap
  have hx := Int.self_sub_floor x
  have hy := Int.self_sub_floor y
  split_ifs
  · exact ⟨⌊x⌋ - ⌊y⌋ + 1, by push_cast; linarith⟩
  · exact ⟨⌊x⌋ - ⌊y⌋ - 1, by push_cast; linarith⟩
  · exact ⟨⌊x⌋ - ⌊y⌋, by push_cast; linarith⟩

theorem wrap_half (x y : ℝ) : |wrap (Int.fract x - Int.fract y)| ≤ 1 / 2 := by
  have h1 := Int.fract_nonneg x
  have h2 := Int.fract_lt_one x
  have h3 := Int.fract_nonneg y
  have h4 := Int.fract_lt_one y
  unfold wrap
  split_ifs with h h'
  · rw [abs_of_nonneg h'] at h
    rw [abs_le]; constructor <;> linarith
  · rw [abs_of_neg (not_le.1 h')] at h
    rw [abs_le]; constructor <;> linarith
  · exact not_lt.1 h

/-- Among the numbers that differ by integers none is nearer to zero than one within a half. -/
theorem half_least {w : ℝ} (h : |w| ≤ 1 / 2) (n : ℤ) : |w| ≤ |w - n| := by
  rcases eq_or_ne n 0 with rfl | hn
  · simp
  · have h1 : (1 : ℝ) ≤ |(n : ℝ)| := by exact_mod_cast Int.one_le_abs hn
    have h2 := abs_sub_abs_le_abs_sub (n : ℝ) w
    rw [abs_sub_comm] at h2
    linarith

theorem wrap_least (x y : ℝ) (n : ℤ) : |wrap (Int.fract x - Int.fract y)| ≤ |x - y - n| := by
  obtain ⟨m, hm⟩ := wrap_int x y
  have := half_least (wrap_half x y) (n - m)
  rw [hm] at this ⊢
  have h2 : x - y - m - ((n - m : ℤ) : ℝ) = x - y - n := by push_cast; ring
  rwa [h2] at this

/-- A number within less than a half is what `wrap` gives. -/
theorem wrap_unique (x y : ℝ) (n : ℤ) (h : |x - y - n| < 1 / 2) : wrap (Int.fract x - Int.fract y) = x - y - n := by
  obtain ⟨m, hm⟩ := wrap_int x y
  have h1 := wrap_half x y
  rw [hm] at h1 ⊢
  have : |((m - n : ℤ) : ℝ)| < 1 := by
    push_cast
    calc |(m : ℝ) - n| = |(x - y - n) - (x - y - m)| := by congr 1; ring
      _ ≤ |x - y - n| + |x - y - m| := abs_sub _ _
      _ < 1 := by linarith
  have h0 : m - n = 0 := by
    have : |m - n| < 1 := by exact_mod_cast this
    exact Int.abs_lt_one_iff.1 this
  have : m = n := by omega
  rw [this]

/-! ### Distances -/

theorem atomS_eq (e : Elem) (a : Fin 3 → ℝ) (k : Fin 3) : atomS e a k = Int.fract (act e a k) := by
  unfold atomS act
  congr 2
  rw [calc_m_v_spec]
  fin_cases k <;> simp [toM, Matrix.mulVec, dotProduct, Fin.sum_univ_three]

theorem lenSq_m (uc : Fin 6 → ℝ) (h : NonDegenerate uc) (v : Fin 3 → ℝ) :
    (calc_m_v (calc_m_m uc) v) 0 ^ 2 + (calc_m_v (calc_m_m uc) v) 1 ^ 2 + (calc_m_v (calc_m_m uc) v) 2 ^ 2 = lenSq uc v := by
  unfold lenSq
  rw [← m_m_factors_metric uc h, ← Matrix.mulVec_mulVec, Matrix.dotProduct_mulVec, Matrix.vecMul_transpose, ← calc_m_v_spec]
  simp only [dotProduct, Fin.sum_univ_three]
  ring

theorem distSq_eq (uc : Fin 6 → ℝ) (h : NonDegenerate uc) (p a : Fin 3 → ℝ) (e : Elem) :
    distSq uc p a e = lenSq uc fun k => wrap (Int.fract (p k) - Int.fract (act e a k)) := by
  unfold distSq
  dsimp only
  simp only [atomS_eq]
  exact lenSq_m uc h _

theorem distSq_image (uc : Fin 6 → ℝ) (h : NonDegenerate uc) (p a : Fin 3 → ℝ) (e : Elem) :
    ∃ n : Fin 3 → ℤ, distSq uc p a e = lenSq uc (p - (act e a + lat n)) := by
  choose n hn using fun k => wrap_int (p k) (act e a k)
  refine ⟨n, ?_⟩
  rw [distSq_eq uc h]
  congr 1
  funext k
  rw [hn k]
  simp only [Pi.sub_apply, Pi.add_apply, lat]
  ring

theorem lenSq_right {uc : Fin 6 → ℝ} (hr : RightAngled uc) (v : Fin 3 → ℝ) :
    lenSq uc v = (uc 0 * v 0) ^ 2 + (uc 1 * v 1) ^ 2 + (uc 2 * v 2) ^ 2 := by
  obtain ⟨h3, h4, h5⟩ := hr
  simp [lenSq, metric, h3, h4, h5, dotProduct, Matrix.mulVec, Fin.sum_univ_three]
  ring

theorem lenSq_right_mono {uc : Fin 6 → ℝ} (hr : RightAngled uc) {v w : Fin 3 → ℝ} (h : ∀ k, |v k| ≤ |w k|) :
    lenSq uc v ≤ lenSq uc w := by
  rw [lenSq_right hr, lenSq_right hr]
  have H : ∀ k (c : ℝ), (c * v k) ^ 2 ≤ (c * w k) ^ 2 := fun k c => by
    rw [mul_pow, mul_pow]
    exact mul_le_mul_of_nonneg_left (sq_le_sq.2 (h k)) (sq_nonneg c)
  linarith [H 0 (uc 0), H 1 (uc 1), H 2 (uc 2)]

theorem distSq_right {uc : Fin 6 → ℝ} (h : NonDegenerate uc) (hr : RightAngled uc) (p a : Fin 3 → ℝ) (e : Elem) (n : Fin 3 → ℤ) :
    distSq uc p a e ≤ lenSq uc (p - (act e a + lat n)) := by
  rw [distSq_eq uc h]
  refine lenSq_right_mono hr fun k => ?_
  have := wrap_least (p k) (act e a k) (n k)
  simpa [lat, sub_sub] using this

theorem distSq_near {uc : Fin 6 → ℝ} (h : NonDegenerate uc) (p a : Fin 3 → ℝ) (e : Elem) (n : Fin 3 → ℤ)
    (hn : ∀ k, |(p - (act e a + lat n)) k| < 1 / 2) : distSq uc p a e = lenSq uc (p - (act e a + lat n)) := by
  rw [distSq_eq uc h]
  congr 1
  funext k
  have := wrap_unique (p k) (act e a k) (n k) (by simpa [lat, sub_sub] using hn k)
  rw [this]
  simp only [Pi.sub_apply, Pi.add_apply, lat]
  ring

theorem distSq_nonneg (uc : Fin 6 → ℝ) (p a : Fin 3 → ℝ) (e : Elem) : 0 ≤ distSq uc p a e := by
  unfold distSq
  positivity

/-! ### The function -/

/-- What a successful call returned. -/
theorem closest_some {uc : Fin 6 → ℝ} {atoms : List (Fin 3 → ℝ)} {G : List Elem} {p : Fin 3 → ℝ} {i j : ℕ} {d : ℝ}
    (hc : closest uc atoms G p = some (i, j, d)) :
    atoms ≠ [] ∧ G ≠ [] ∧ i = argminL (atoms.map fun a => minL (G.map fun e => distSq uc p a e)) ∧
      j = argminL (G.map fun e => minL (atoms.map fun a => distSq uc p a e)) ∧
      d = Real.sqrt (minL (atoms.map fun a => minL (G.map fun e => distSq uc p a e))) := by
  unfold closest at hc
  split_ifs at hc with h
  rw [Bool.or_eq_true, not_or] at h
  simp only [Option.some.injEq, Prod.mk.injEq] at hc
  exact ⟨by simpa using h.1, by simpa using h.2, hc.1.symm, hc.2.1.symm, hc.2.2.symm⟩

/-- The function fails only without atoms or operations. -/
theorem closest_total (uc : Fin 6 → ℝ) {atoms : List (Fin 3 → ℝ)} {G : List Elem} (p : Fin 3 → ℝ) (ha : atoms ≠ []) (hG : G ≠ []) :
    ∃ i j d, closest uc atoms G p = some (i, j, d) := by
  unfold closest
  have : (atoms.isEmpty || G.isEmpty) = false := by
    simp [ha, hG]
  simp only [this]
  exact ⟨_, _, _, rfl⟩

theorem row_ne {G : List Elem} (hG : G ≠ []) (f : Elem → ℝ) : G.map f ≠ [] := by simpa using hG

theorem minRow_mem {uc : Fin 6 → ℝ} {G : List Elem} (hG : G ≠ []) (p a : Fin 3 → ℝ) :
    ∃ e ∈ G, minL (G.map fun e => distSq uc p a e) = distSq uc p a e := by
  obtain ⟨e, he, h⟩ := List.mem_map.1 (minL_mem (row_ne hG fun e => distSq uc p a e))
  exact ⟨e, he, h.symm⟩

theorem closest_sq {uc : Fin 6 → ℝ} {atoms : List (Fin 3 → ℝ)} {G : List Elem} {p : Fin 3 → ℝ} {i j : ℕ} {d : ℝ}
    (hc : closest uc atoms G p = some (i, j, d)) :
    d ^ 2 = minL (atoms.map fun a => minL (G.map fun e => distSq uc p a e)) := by
  obtain ⟨ha, hG, -, -, rfl⟩ := closest_some hc
  rw [Real.sq_sqrt]
  obtain ⟨a, -, h⟩ := List.mem_map.1 (minL_mem (l := atoms.map fun a => minL (G.map fun e => distSq uc p a e)) (by simpa using ha))
  rw [← h]
  obtain ⟨e, -, h'⟩ := minRow_mem (uc := uc) hG p a
  rw [h']
  exact distSq_nonneg ..

theorem closest_le {uc : Fin 6 → ℝ} {atoms : List (Fin 3 → ℝ)} {G : List Elem} {p : Fin 3 → ℝ} {i j : ℕ} {d : ℝ}
    (hc : closest uc atoms G p = some (i, j, d)) {a : Fin 3 → ℝ} (ha : a ∈ atoms) {e : Elem} (he : e ∈ G) :
    d ^ 2 ≤ distSq uc p a e := by
  rw [closest_sq hc]
  exact (minL_le (List.mem_map.2 ⟨a, ha, rfl⟩)).trans (minL_le (List.mem_map.2 ⟨e, he, rfl⟩))

/-- C70: the index is that of an atom of the list, the distance is not negative, and the atom has a position (an operation of the list
followed by a lattice translation) at exactly this distance of the point. -/
theorem closest_attained {uc : Fin 6 → ℝ} (h : NonDegenerate uc) {atoms : List (Fin 3 → ℝ)} {G : List Elem} {p : Fin 3 → ℝ}
    {i j : ℕ} {d : ℝ} (hc : closest uc atoms G p = some (i, j, d)) :
    0 ≤ d ∧ j < G.length ∧ ∃ a, atoms[i]? = some a ∧ ∃ q, IsImage G a q ∧ d ^ 2 = lenSq uc (p - q) := by
  have hsq := closest_sq hc
  obtain ⟨ha, hG, hi, hj, hd⟩ := closest_some hc
  have hne : (atoms.map fun a => minL (G.map fun e => distSq uc p a e)) ≠ [] := by simpa using ha
  have hne' : (G.map fun e => minL (atoms.map fun a => distSq uc p a e)) ≠ [] := by simpa using hG
  have hlt := argminL_lt hne
  have hget := argminL_get hne
  have hjl := argminL_lt hne'
  rw [← hi] at hlt
  simp only [← hi] at hget
  rw [List.length_map] at hlt
  rw [List.getElem_map] at hget
  refine ⟨hd ▸ Real.sqrt_nonneg _, by rw [hj]; simpa using hjl, atoms[i], List.getElem?_eq_getElem hlt, ?_⟩
  obtain ⟨e, he, h'⟩ := minRow_mem (uc := uc) hG p atoms[i]
  obtain ⟨n, hn⟩ := distSq_image uc h p atoms[i] e
  exact ⟨act e atoms[i] + lat n, ⟨e, he, n, rfl⟩, by rw [hsq, ← hget, h', hn]⟩

/-- C70: in a cell with right angles no position of any atom is nearer. -/
theorem closest_nearest {uc : Fin 6 → ℝ} (h : NonDegenerate uc) (hr : RightAngled uc) {atoms : List (Fin 3 → ℝ)} {G : List Elem}
    {p : Fin 3 → ℝ} {i j : ℕ} {d : ℝ} (hc : closest uc atoms G p = some (i, j, d)) {a q : Fin 3 → ℝ} (ha : a ∈ atoms)
    (hq : IsImage G a q) : d ^ 2 ≤ lenSq uc (p - q) := by
  obtain ⟨e, he, n, rfl⟩ := hq
  exact (closest_le hc ha he).trans (distSq_right h hr p a e n)

/-- C70: in every cell no position whose offset from the point has all its fractional components below a half is nearer. -/
theorem closest_nearest_short {uc : Fin 6 → ℝ} (h : NonDegenerate uc) {atoms : List (Fin 3 → ℝ)} {G : List Elem}
    {p : Fin 3 → ℝ} {i j : ℕ} {d : ℝ} (hc : closest uc atoms G p = some (i, j, d)) {a q : Fin 3 → ℝ} (ha : a ∈ atoms)
    (hq : IsImage G a q) (hn : ∀ k, |(p - q) k| < 1 / 2) : d ^ 2 ≤ lenSq uc (p - q) := by
  obtain ⟨e, he, n, rfl⟩ := hq
  exact (closest_le hc ha he).trans (distSq_near h p a e n hn).le

/-- C70: of several atoms equally near the first of the list is reported: in a cell with right angles all positions of the atoms before
it are farther. -/
theorem closest_first {uc : Fin 6 → ℝ} (h : NonDegenerate uc) (hr : RightAngled uc) {atoms : List (Fin 3 → ℝ)} {G : List Elem}
    {p : Fin 3 → ℝ} {i j : ℕ} {d : ℝ} (hc : closest uc atoms G p = some (i, j, d)) {k : ℕ} (hk : k < i) {a q : Fin 3 → ℝ}
    (ha : atoms[k]? = some a) (hq : IsImage G a q) : d ^ 2 < lenSq uc (p - q) := by
  obtain ⟨e, he, n, rfl⟩ := hq
  have hsq := closest_sq hc
  obtain ⟨-, -, hi, -, -⟩ := closest_some hc
  obtain ⟨hkl, hka⟩ := List.getElem?_eq_some_iff.1 ha
  rw [hi] at hk
  have := argminL_first hk (by simpa using hkl)
  rw [List.getElem_map, hka, ← hsq] at this
  exact this.trans_le ((minL_le (List.mem_map.2 ⟨e, he, rfl⟩)).trans (distSq_right h hr p a e n))

/-- C70: when no position of another atom is at the distance found, the reported operation takes the reported atom to a position at
this distance. -/
theorem closest_pair {uc : Fin 6 → ℝ} (h : NonDegenerate uc) {atoms : List (Fin 3 → ℝ)} {G : List Elem} {p : Fin 3 → ℝ}
    {i j : ℕ} {d : ℝ} (hc : closest uc atoms G p = some (i, j, d))
    (hu : ∀ k a q, atoms[k]? = some a → k ≠ i → IsImage G a q → lenSq uc (p - q) ≠ d ^ 2) :
    ∃ a e, atoms[i]? = some a ∧ G[j]? = some e ∧ ∃ n, d ^ 2 = lenSq uc (p - (act e a + lat n)) := by
  have hsq := closest_sq hc
  obtain ⟨ha, hG, hi, hj, hd⟩ := closest_some hc
  have hne' : (G.map fun e => minL (atoms.map fun a => distSq uc p a e)) ≠ [] := by simpa using hG
  have hjl := argminL_lt hne'
  have hget := argminL_get hne'
  rw [← hj] at hjl
  simp only [← hj] at hget
  rw [List.length_map] at hjl
  rw [List.getElem_map] at hget
  -- the least over all pairs, taken in the other order
  have hsw : minL (G.map fun e => minL (atoms.map fun a => distSq uc p a e)) = d ^ 2 := by
    refine minL_eq ?_ ?_
    · obtain ⟨a, haa, h1⟩ := List.mem_map.1 (minL_mem (l := atoms.map fun a => minL (G.map fun e => distSq uc p a e)) (by simpa using ha))
      obtain ⟨e, he, h2⟩ := minRow_mem (uc := uc) hG p a
      refine List.mem_map.2 ⟨e, he, ?_⟩
      refine minL_eq (List.mem_map.2 ⟨a, haa, ?_⟩) ?_
      · rw [hsq, ← h1, h2]
      · intro y hy
        obtain ⟨b, hb, rfl⟩ := List.mem_map.1 hy
        exact closest_le hc hb he
    · intro y hy
      obtain ⟨e, he, rfl⟩ := List.mem_map.1 hy
      obtain ⟨b, hb, h3⟩ := List.mem_map.1 (minL_mem (l := atoms.map fun a => distSq uc p a e) (by simpa using ha))
      rw [← h3]
      exact closest_le hc hb he
  obtain ⟨a, haa, h1⟩ := List.mem_map.1 (minL_mem (l := atoms.map fun a => distSq uc p a G[j]) (by simpa using ha))
  obtain ⟨k, hk, hka⟩ := List.getElem_of_mem haa
  obtain ⟨n, hn⟩ := distSq_image uc h p a G[j]
  have hdk : d ^ 2 = lenSq uc (p - (act G[j] a + lat n)) := by rw [← hn, h1, hget, hsw]
  have hki : k = i := by
    by_contra hne
    exact hu k a _ (by rw [List.getElem?_eq_getElem hk, hka]) hne ⟨G[j], List.getElem_mem hjl, n, rfl⟩ hdk.symm
  subst hki
  exact ⟨a, G[j], by rw [List.getElem?_eq_getElem hk, hka], List.getElem?_eq_getElem hjl, n, hdk⟩

/-- C70: a lattice translation of the point changes nothing. -/
theorem closest_translate (uc : Fin 6 → ℝ) (atoms : List (Fin 3 → ℝ)) (G : List Elem) (p : Fin 3 → ℝ) (n : Fin 3 → ℤ) :
    closest uc atoms G (p + lat n) = closest uc atoms G p := by
  have : ∀ a e, distSq uc (p + lat n) a e = distSq uc p a e := fun a e => by
    unfold distSq
    simp [lat, Int.fract_add_intCast]
  simp only [closest, this]

/-- C70: neither does a lattice translation of the atoms. -/
theorem closest_translate_atoms (uc : Fin 6 → ℝ) (atoms : List (Fin 3 → ℝ)) (G : List Elem) (p : Fin 3 → ℝ)
    (n : (Fin 3 → ℝ) → Fin 3 → ℤ) :
    closest uc (atoms.map fun a => a + lat (n a)) G p = closest uc atoms G p := by
  have key : ∀ a e, distSq uc p (a + lat (n a)) e = distSq uc p a e := fun a e => by
    unfold distSq
    simp only [atomS_eq]
    have : ∀ k, Int.fract (act e (a + lat (n a)) k) = Int.fract (act e a k) := fun k => by
      have : act e (a + lat (n a)) k = act e a k + ((∑ l, e.r k l * n a l : ℤ) : ℝ) := by
        simp only [act, lat, Pi.add_apply, Fin.sum_univ_three]
        push_cast
        ring
      rw [this, Int.fract_add_intCast]
    simp only [this]
  unfold closest
  simp only [List.map_map, Function.comp_def, key]
  have : (atoms.map fun a => a + lat (n a)).isEmpty = atoms.isEmpty := by cases atoms <;> rfl
  rw [this]

/-- C70: in a cell with right angles, a point and its image under an operation that keeps distances and permutes the positions of each
atom are given the same atom and the same distance. -/
theorem closest_symmetric {uc : Fin 6 → ℝ} (h : NonDegenerate uc) (hr : RightAngled uc) {atoms : List (Fin 3 → ℝ)} {G : List Elem}
    {s : Elem} (hs : Isometry uc s) (hp : ∀ a ∈ atoms, ∀ q, IsImage G a q → IsImage G a (act s q))
    (hp' : ∀ a ∈ atoms, ∀ q, IsImage G a q → ∃ q', IsImage G a q' ∧ act s q' = q) {p : Fin 3 → ℝ} {i j i' j' : ℕ} {d d' : ℝ}
    (hc : closest uc atoms G p = some (i, j, d)) (hc' : closest uc atoms G (act s p) = some (i', j', d')) :
    i' = i ∧ d' = d := by
  obtain ⟨-, hG, hi, -, hd⟩ := closest_some hc
  obtain ⟨-, -, hi', -, hd'⟩ := closest_some hc'
  have key : ∀ a ∈ atoms, minL (G.map fun e => distSq uc (act s p) a e) = minL (G.map fun e => distSq uc p a e) := by
    intro a ha
    -- the least distance of one atom
    have least : ∀ x : Fin 3 → ℝ, (∃ q, IsImage G a q ∧ minL (G.map fun e => distSq uc x a e) = lenSq uc (x - q)) ∧
        ∀ q, IsImage G a q → minL (G.map fun e => distSq uc x a e) ≤ lenSq uc (x - q) := by
      intro x
      constructor
      · obtain ⟨e, he, h1⟩ := minRow_mem (uc := uc) hG x a
        obtain ⟨n, hn⟩ := distSq_image uc h x a e
        exact ⟨_, ⟨e, he, n, rfl⟩, by rw [h1, hn]⟩
      · rintro q ⟨e, he, n, rfl⟩
        exact (minL_le (List.mem_map.2 ⟨e, he, rfl⟩)).trans (distSq_right h hr x a e n)
    obtain ⟨⟨q, hq, h1⟩, h2⟩ := least p
    obtain ⟨⟨r, hr', h3⟩, h4⟩ := least (act s p)
    refine le_antisymm ?_ ?_
    · rw [h1, ← hs p q]
      exact h4 _ (hp a ha q hq)
    · obtain ⟨q', hq', rfl⟩ := hp' a ha r hr'
      rw [h3, hs p q']
      exact h2 _ hq'
  have hl : (atoms.map fun a => minL (G.map fun e => distSq uc (act s p) a e)) =
      atoms.map fun a => minL (G.map fun e => distSq uc p a e) := List.map_congr_left key
  rw [hi', hd', hl, ← hi, ← hd]
  exact ⟨rfl, rfl⟩

/-! ### Basins -/

theorem mapM_some_get {α β : Type} {f : α → Option β} : ∀ {l : List α} {r : List β}, l.mapM f = some r →
    r.length = l.length ∧ ∀ (k : ℕ) (x : α), l[k]? = some x → ∃ y, r[k]? = some y ∧ f x = some y := by
  intro l
  induction l with
  | nil => intro r h; simp at h; subst h; simp
  | cons x l ih =>
    intro r h
    rw [List.mapM_cons] at h
    simp only [Option.bind_eq_bind, Option.bind_eq_some_iff, Option.pure_def, Option.some.injEq] at h
    obtain ⟨y, hy, s, hs, rfl⟩ := h
    obtain ⟨h1, h2⟩ := ih hs
    refine ⟨by simp [h1], ?_⟩
    rintro (_ | k) z hz
    · simp only [List.getElem?_cons_zero, Option.some.injEq] at hz
      subst hz
      exact ⟨y, rfl, hy⟩
    · simp only [List.getElem?_cons_succ] at hz ⊢
      exact h2 k z hz

/-- `x[flag]` when the flags are computed entry by entry -/
theorem compress_map {γ α : Type} (f : γ → Bool) (g : γ → α) : ∀ l : List γ, compress (l.map f) (l.map g) = (l.filter f).map g := by
  intro l
  induction l with
  | nil => rfl
  | cons x l ih =>
    unfold compress at ih ⊢
    simp only [List.map_cons, List.zip_cons_cons, List.filterMap_cons]
    by_cases hx : f x = true
    · rw [if_pos hx, List.filter_cons_of_pos hx, List.map_cons, ih]
    · rw [if_neg hx, List.filter_cons_of_neg hx, ih]

/-- One point with what was found for it. -/
structure Found where
  pt : Fin 3 → ℝ
  atom : Atom
  op : Elem
  dist : ℝ

/-- `f` is what the search for the nearest atom gives at its point -/
def Found.ok (uc : Fin 6 → ℝ) (atoms : List Atom) (G : List Elem) (f : Found) : Prop :=
  ∃ i j, closest uc (atoms.map Atom.pos) G f.pt = some (i, j, f.dist) ∧ atoms[i]? = some f.atom ∧ G[j]? = some f.op

/-- C70: `form_basins` flags a point exactly when the label of its nearest atom is among the magnetic labels, and its four other values
list, for the flagged points in their order, the label, the multiplicity, the distance and the operation found for the same point. -/
theorem basins_spec {uc : Fin 6 → ℝ} {atoms : List Atom} {G : List Elem} {mag : List String} {pts : List (Fin 3 → ℝ)} {b : Basins}
    (hb : formBasins uc atoms G mag pts = some b) :
    ∃ fs : List Found, fs.map Found.pt = pts ∧ (∀ f ∈ fs, f.ok uc atoms G) ∧
      b.flags = fs.map (fun f => decide (f.atom.label ∈ mag)) ∧
      b.labels = (fs.filter fun f => decide (f.atom.label ∈ mag)).map (fun f => f.atom.label) ∧
      b.mults = (fs.filter fun f => decide (f.atom.label ∈ mag)).map (fun f => f.atom.mult) ∧
      b.dists = (fs.filter fun f => decide (f.atom.label ∈ mag)).map Found.dist ∧
      b.ops = (fs.filter fun f => decide (f.atom.label ∈ mag)).map Found.op := by
  unfold formBasins at hb
  simp only [Option.bind_eq_bind, Option.bind_eq_some_iff, Option.pure_def, Option.some.injEq] at hb
  obtain ⟨cl, hcl, labels, hl, mults, hm, ops, ho, rfl⟩ := hb
  -- all four lists at once
  have key : ∃ fs : List Found, fs.map Found.pt = pts ∧ (∀ f ∈ fs, f.ok uc atoms G) ∧ labels = fs.map (fun f => f.atom.label) ∧
      mults = fs.map (fun f => f.atom.mult) ∧ (cl.map fun c => c.2.2) = fs.map Found.dist ∧ ops = fs.map Found.op := by
    clear mag
    induction pts generalizing cl labels mults ops with
    | nil =>
      simp only [List.mapM_nil, Option.pure_def, Option.some.injEq] at hcl
      subst hcl
      simp only [List.mapM_nil, Option.pure_def, Option.some.injEq] at hl hm ho
      subst hl hm ho
      exact ⟨[], by simp⟩
    | cons p pts ih =>
      rw [List.mapM_cons] at hcl
      simp only [Option.bind_eq_bind, Option.bind_eq_some_iff, Option.pure_def, Option.some.injEq] at hcl
      obtain ⟨⟨i, j, d⟩, hc, cl', hcl', rfl⟩ := hcl
      rw [List.mapM_cons] at hl hm ho
      simp only [Option.bind_eq_bind, Option.bind_eq_some_iff, Option.pure_def, Option.some.injEq] at hl hm ho
      obtain ⟨l, hl0, labels', hl', rfl⟩ := hl
      obtain ⟨m, hm0, mults', hm', rfl⟩ := hm
      obtain ⟨o, ho0, ops', ho', rfl⟩ := ho
      obtain ⟨fs, h1, h2, h3, h4, h5, h6⟩ := ih cl' hcl' labels' hl' mults' hm' ops' ho'
      rw [List.getElem?_map, Option.map_eq_some_iff] at hl0 hm0
      obtain ⟨a, ha, rfl⟩ := hl0
      obtain ⟨a', ha', rfl⟩ := hm0
      rw [ha] at ha'
      obtain rfl : a = a' := by simpa using ha'
      refine ⟨⟨p, a, o, d⟩ :: fs, by simp [h1], ?_, by simp [h3], by simp [h4], by simp [h5], by simp [h6]⟩
      intro f hf
      rcases List.mem_cons.1 hf with rfl | hf
      · exact ⟨i, j, hc, ha, ho0⟩
      · exact h2 f hf
  obtain ⟨fs, h1, h2, rfl, rfl, h5, rfl⟩ := key
  refine ⟨fs, h1, h2, ?_, ?_, ?_, ?_, ?_⟩
  · simp [Function.comp_def]
  all_goals
    simp only [List.map_map, h5]
    exact compress_map _ _ fs

/-- C70: with an atom and an operation at least, `form_basins` answers. -/
theorem basins_total (uc : Fin 6 → ℝ) {atoms : List Atom} {G : List Elem} (mag : List String) (pts : List (Fin 3 → ℝ))
    (ha : atoms ≠ []) (hG : G ≠ []) : ∃ b, formBasins uc atoms G mag pts = some b := by
  have H : ∀ {α β : Type} (f : α → Option β) (l : List α), (∀ x ∈ l, ∃ y, f x = some y) → ∃ r, l.mapM f = some r := by
    intro α β f l
    induction l with
    | nil => intro _; exact ⟨[], by simp⟩
    | cons x l ih =>
      intro h
      obtain ⟨y, hy⟩ := h x (by simp)
      obtain ⟨r, hr⟩ := ih fun z hz => h z (by simp [hz])
      exact ⟨y :: r, by simp [List.mapM_cons, hy, hr]⟩
  obtain ⟨cl, hcl⟩ := H (closest uc (atoms.map Atom.pos) G) pts fun p _ => by
    obtain ⟨i, j, d, h⟩ := closest_total uc (atoms := atoms.map Atom.pos) p (by simpa using ha) hG
    exact ⟨_, h⟩
  have hin : ∀ c ∈ cl, c.1 < atoms.length ∧ c.2.1 < G.length := by
    intro c hc
    obtain ⟨k, hk, hkc⟩ := List.getElem_of_mem hc
    obtain ⟨hlen, hget⟩ := mapM_some_get hcl
    obtain ⟨y, hy, hy'⟩ := hget k pts[k] (List.getElem?_eq_getElem (hlen ▸ hk))
    rw [List.getElem?_eq_getElem hk, hkc] at hy
    obtain rfl : c = y := by simpa using hy
    obtain ⟨i, j, d⟩ := c
    obtain ⟨h1, h2, rfl, rfl, -⟩ := closest_some hy'
    constructor
    · have := argminL_lt (l := (atoms.map Atom.pos).map fun a => minL (G.map fun e => distSq uc pts[k] a e)) (by simpa using h1)
      simpa only [List.length_map] using this
    · have := argminL_lt (l := G.map fun e => minL ((atoms.map Atom.pos).map fun a => distSq uc pts[k] a e)) (by simpa using h2)
      simpa only [List.length_map] using this
  obtain ⟨la, hla⟩ := H (fun c : ℕ × ℕ × ℝ => (atoms.map Atom.label)[c.1]?) cl fun c hc =>
    ⟨_, List.getElem?_eq_getElem (by simpa using (hin c hc).1)⟩
  obtain ⟨mu, hmu⟩ := H (fun c : ℕ × ℕ × ℝ => (atoms.map Atom.mult)[c.1]?) cl fun c hc =>
    ⟨_, List.getElem?_eq_getElem (by simpa using (hin c hc).1)⟩
  obtain ⟨op, hop⟩ := H (fun c : ℕ × ℕ × ℝ => G[c.2.1]?) cl fun c hc => ⟨_, List.getElem?_eq_getElem (hin c hc).2⟩
  unfold formBasins
  simp only [hcl, hla, hmu, hop, Option.bind_eq_bind, Option.bind_some, Option.pure_def]
  exact ⟨_, rfl⟩

end Cryspy.Basin
