import Verif.Sf.Model
import Verif.Symm.Props
import Verif.Adp.Props
import Mathlib.Tactic.LinearCombination

/-!
# Phases, sums over symmetry elements
-/

namespace Cryspy.Sf

open Symm Real

/-- `h · x` -/
def hdot (h : V3) (x : Q3) : ℚ := h 0 * x 0 + h 1 * x 1 + h 2 * x 2

theorem ph_add (a b : ℚ) : ph (a + b) = ph a * ph b := by
  unfold ph; rw [← Complex.exp_add]; push_cast; ring_nf

theorem ph_int (n : ℤ) : ph n = 1 := by
  unfold ph
  rw [show (-2 * π * Complex.I * ((n : ℚ) : ℂ) : ℂ) = ((-n : ℤ) : ℂ) * (2 * π * Complex.I) by push_cast; ring]
  exact Complex.exp_int_mul_two_pi_mul_I _

theorem ph_zero : ph 0 = 1 := by simpa using ph_int 0

theorem ph_ne_zero (a : ℚ) : ph a ≠ 0 := Complex.exp_ne_zero _

theorem ph_conj (a : ℚ) : (starRingEnd ℂ) (ph a) = ph (-a) := by
  unfold ph
  rw [← Complex.exp_conj]
  congr 1
  simp only [map_mul, map_neg, Complex.conj_ofReal, Complex.conj_I, map_ofNat, map_ratCast, Rat.cast_neg]
  ring

theorem ph_norm (a : ℚ) : ‖ph a‖ = 1 := by
  unfold ph
  rw [show (-2 * π * Complex.I * (a : ℂ) : ℂ) = ((-2 * π * a : ℝ) : ℂ) * Complex.I by push_cast; ring]
  exact Complex.norm_exp_ofReal_mul_I _

theorem ph_eq_one (a : ℚ) : ph a = 1 ↔ ∃ n : ℤ, a = n := by
  constructor
  · intro h
    unfold ph at h
    rw [Complex.exp_eq_one_iff] at h
    obtain ⟨n, hn⟩ := h
    refine ⟨-n, ?_⟩
    have h2 : (2 * π * Complex.I : ℂ) ≠ 0 := Complex.two_pi_I_ne_zero
    have : ((a + n : ℚ) : ℂ) = 0 := by
      have h3 : (2 * π * Complex.I : ℂ) * ((a + n : ℚ) : ℂ) = 0 := by push_cast; linear_combination -hn
      rcases mul_eq_zero.1 h3 with h | h
      · exact absurd h h2
      · exact h
    have h4 : (a + n : ℚ) = 0 := by exact_mod_cast this
    push_cast; linarith
  · rintro ⟨n, rfl⟩; exact ph_int n

theorem hdot_lat {h : V3} {x y : Q3} (hl : Lat x y) : ph (hdot h x) = ph (hdot h y) := by
  obtain ⟨z0, h0⟩ := hl 0
  obtain ⟨z1, h1⟩ := hl 1
  obtain ⟨z2, h2⟩ := hl 2
  have : hdot h x = hdot h y + ((h 0 * z0 + h 1 * z1 + h 2 * z2 : ℤ) : ℚ) := by
    unfold hdot; push_cast; rw [← h0, ← h1, ← h2]; ring
  rw [this, ph_add, ph_int, mul_one]

theorem pr12 (h : V3) (e : Elem) (x : Q3) : pr2 h e * pr1 h e x = ph (hdot h (act e x)) := by
  unfold pr1 pr2
  rw [← ph_add]
  congr 1
  unfold hdot act
  simp only [Fin.sum_univ_three]
  ring

theorem pr4_eq (h : V3) (c : Shift) : pr4 h c = ph (2 * hdot h c.val) := by
  unfold pr4 ph hdot Shift.val
  congr 1
  push_cast
  ring

theorem pr3_eq (h : V3) (ts : List Shift) : pr3 h ts = (ts.map fun t => ph (hdot h t.val)).sum / ts.length := by
  unfold pr3
  congr 3
  funext t
  congr 1
  unfold hdot Shift.val
  push_cast
  ring

theorem hdot_add (h : V3) (x y : Q3) : hdot h (fun k => x k + y k) = hdot h x + hdot h y := by unfold hdot; ring

theorem hdot_centre (h : V3) (c x : Q3) : hdot h (fun k => 2 * c k - x k) = 2 * hdot h c - hdot h x := by
  unfold hdot; ring

theorem rowMul_neg_r (h : V3) (r : M3) : rowMul h (fun i j => -1 * r i j) = -rowMul h r := by
  funext k; simp [rowMul]

/-- The Debye-Waller factor depends on the rotation through `h R` only, and not on its sign. -/
theorem power_flat (h : V3) (beta : Fin 6 → ℝ) (r : M3) :
    Adp.power_aniso (hklR h) beta (flat r) = Adp.power_aniso (hklR (rowMul h r)) beta (flat fun i j => if i = j then 1 else 0) := by
  unfold Adp.power_aniso hklR flat rowMul
  simp [Fin.sum_univ_three]

theorem dw_neg (uc : Fin 6 → ℝ) (h : V3) (a : Atom) (r : M3) : dw uc h a (fun i j => -1 * r i j) = dw uc h a r := by
  unfold dw Adp.dwf
  congr 3
  rw [power_flat, power_flat h _ r, rowMul_neg_r]
  unfold Adp.power_aniso hklR flat
  simp

/-- Sum of a list of products. -/
theorem sum_map_mul_left {ι : Type} (l : List ι) (c : ℂ) (f : ι → ℂ) : (l.map fun i => c * f i).sum = c * (l.map f).sum := by
  induction l with
  | nil => simp
  | cons a t ih => simp only [List.map_cons, List.sum_cons, ih]; ring

theorem sum_map_mul_right {ι : Type} (l : List ι) (c : ℂ) (f : ι → ℂ) : (l.map fun i => f i * c).sum = (l.map f).sum * c := by
  induction l with
  | nil => simp
  | cons a t ih => simp only [List.map_cons, List.sum_cons, ih]; ring

theorem sum_map_add {ι : Type} (l : List ι) (f g : ι → ℂ) : (l.map fun i => f i + g i).sum = (l.map f).sum + (l.map g).sum := by
  induction l with
  | nil => simp
  | cons a t ih => simp only [List.map_cons, List.sum_cons, ih]; ring

theorem conj_sum {ι : Type} (l : List ι) (f : ι → ℂ) :
    (starRingEnd ℂ) (l.map f).sum = (l.map fun i => (starRingEnd ℂ) (f i)).sum := by
  induction l with
  | nil => simp
  | cons a t ih => simp only [List.map_cons, List.sum_cons, map_add, ih]

theorem sum_flatMap {ι κ : Type} (l : List ι) (f : ι → List κ) (g : κ → ℂ) :
    ((l.flatMap f).map g).sum = (l.map fun i => ((f i).map g).sum).sum := by
  induction l with
  | nil => simp
  | cons a t ih => simp only [List.flatMap_cons, List.map_append, List.sum_append, ih, List.map_cons, List.sum_cons]

/-- The sum over the direct elements of the full list. -/
theorem direct_sum (s : Sym) (hr : ∀ e ∈ s.reduced, 0 < e.bd) (ht : ∀ t ∈ s.trans, 0 < t.d) (h : V3) (x : Q3)
    (d : M3 → ℝ) :
    ((s.trans.flatMap fun te => s.reduced.map fun e =>
        (⟨(sumB e.shift te).n, (sumB e.shift te).d, e.r⟩ : Elem)).map fun f => ph (hdot h (act f x)) * (d f.r : ℂ)).sum =
      (s.trans.map fun t => ph (hdot h t.val)).sum * (s.reduced.map fun e => ph (hdot h (act e x)) * (d e.r : ℂ)).sum := by
  rw [sum_flatMap, ← sum_map_mul_right]
  refine congrArg List.sum (List.map_congr_left fun t htm => ?_)
  rw [← sum_map_mul_left, List.map_map]
  refine congrArg List.sum (List.map_congr_left fun e he => ?_)
  simp only [Function.comp]
  have hl : Lat (act ⟨(sumB e.shift t).n, (sumB e.shift t).d, e.r⟩ x) (fun k => act e x k + t.val k) := by
    obtain ⟨h1, -⟩ := sumB_lat e.shift t (hr e he) (ht t htm)
    intro k
    obtain ⟨z, hz⟩ := h1 k
    refine ⟨z, ?_⟩
    rw [← hz]
    simp only [act, Shift.val, Elem.shift]
    ring
  rw [hdot_lat hl, hdot_add, ph_add]
  ring

/-- The sum over the inverted elements of the full list. -/
theorem inverted_sum (s : Sym) (l : List Elem) (hl : ∀ e ∈ l, 0 < e.bd) (hc : 0 < s.centre.d) (h : V3) (x : Q3)
    (d : M3 → ℝ) (hd : ∀ r, d (fun i j => -1 * r i j) = d r) :
    ((l.map fun e =>
      (⟨(sumB ⟨fun k => 2 * s.centre.n k, s.centre.d⟩ ⟨fun k => -1 * e.bn k, e.bd⟩).n,
        (sumB ⟨fun k => 2 * s.centre.n k, s.centre.d⟩ ⟨fun k => -1 * e.bn k, e.bd⟩).d,
        fun i j => -1 * e.r i j⟩ : Elem)).map fun f => ph (hdot h (act f x)) * (d f.r : ℂ)).sum =
      ph (2 * hdot h s.centre.val) * (starRingEnd ℂ) (l.map fun e => ph (hdot h (act e x)) * (d e.r : ℂ)).sum := by
  rw [conj_sum, ← sum_map_mul_left, List.map_map]
  refine congrArg List.sum (List.map_congr_left fun e he => ?_)
  simp only [Function.comp, hd]
  have hl : Lat (act ⟨(sumB ⟨fun k => 2 * s.centre.n k, s.centre.d⟩ ⟨fun k => -1 * e.bn k, e.bd⟩).n,
      (sumB ⟨fun k => 2 * s.centre.n k, s.centre.d⟩ ⟨fun k => -1 * e.bn k, e.bd⟩).d,
      fun i j => -1 * e.r i j⟩ x) (fun k => 2 * s.centre.val k - act e x k) := by
    obtain ⟨h1, -⟩ := sumB_lat ⟨fun k => 2 * s.centre.n k, s.centre.d⟩ ⟨fun k => -1 * e.bn k, e.bd⟩ hc (hl e he)
    intro k
    obtain ⟨z, hz⟩ := h1 k
    refine ⟨z, ?_⟩
    rw [← hz]
    simp only [act, Shift.val, Fin.sum_univ_three]
    push_cast
    ring
  rw [hdot_lat hl, hdot_centre, map_mul, ph_conj, Complex.conj_ofReal, sub_eq_add_neg, ph_add]
  ring

/-- Positive denominators everywhere. -/
structure Sym.Pos (s : Sym) : Prop where
  red : ∀ e ∈ s.reduced, 0 < e.bd
  cen : 0 < s.centre.d
  tra : ∀ t ∈ s.trans, 0 < t.d

theorem Sym.full_length (s : Sym) :
    (s.full.length : ℂ) = (if s.centro then 2 else 1) * (s.trans.length * s.reduced.length) := by
  unfold Sym.full fullByReduced
  dsimp only
  split_ifs <;> simp [List.length_flatMap] <;> ring

/-- The sum over the full list in terms of the reduced elements. -/
theorem Sym.full_sum (s : Sym) (hs : s.Pos) (h : V3) (x : Q3) (d : M3 → ℝ) (hd : ∀ r, d (fun i j => -1 * r i j) = d r) :
    (s.full.map fun f => ph (hdot h (act f x)) * (d f.r : ℂ)).sum =
      (let S := (s.trans.map fun t => ph (hdot h t.val)).sum * (s.reduced.map fun e => ph (hdot h (act e x)) * (d e.r : ℂ)).sum
       if s.centro then S + ph (2 * hdot h s.centre.val) * (starRingEnd ℂ) S else S) := by
  unfold Sym.full fullByReduced
  dsimp only
  have h1 := direct_sum s hs.red hs.tra h x d
  have hpos : ∀ e ∈ (s.trans.flatMap fun te => s.reduced.map fun e =>
        (⟨(sumB e.shift te).n, (sumB e.shift te).d, e.r⟩ : Elem)), 0 < e.bd := by
    intro e he
    obtain ⟨t, ht, he⟩ := List.mem_flatMap.1 he
    obtain ⟨e', he', rfl⟩ := List.mem_map.1 he
    exact (sumB_lat e'.shift t (hs.red e' he') (hs.tra t ht)).2.d_pos
  split_ifs with hc
  · rw [List.map_append, List.sum_append, inverted_sum s _ hpos hs.cen h x d hd, h1]
  · exact h1

/-- Asymmetric sum of one atom. -/
theorem fAsym_eq (m : ℕ) (reduced : List Elem) (d : M3 → ℝ) (h : V3) (a : Atom) :
    fAsym m reduced d h a =
      m * a.occ * (reduced.map fun e => ph (hdot h (act e a.x)) * (d e.r : ℂ)).sum / reduced.length := by
  unfold fAsym
  rw [← sum_map_mul_left]
  congr 3
  funext e
  rw [← pr12]
  ring

end Cryspy.Sf
