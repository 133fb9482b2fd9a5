import Verif.Site.Model
import Verif.Constr.Props
import Verif.MemSf.Susc
import Verif.Text.DoubleProps

/-!
# C82: an atom stays on its site
-/

namespace Cryspy.Site

open Cryspy.Symm

theorem gcdAll_pos (b : V3) : 0 < gcdAll b := by
  unfold gcdAll
  have h : Int.gcd (b 2) N ≠ 0 := by
    intro h
    have := (Int.gcd_eq_zero_iff.1 h).2
    simp [N] at this
  have : 0 < Int.gcd (Int.gcd (Int.gcd (b 0) N) (Int.gcd (b 1) N)) (Int.gcd (b 2) N) := by
    apply Nat.pos_of_ne_zero
    intro h2
    exact h (by exact_mod_cast (Int.gcd_eq_zero_iff.1 h2).2)
  exact_mod_cast this

theorem gcdAll_dvd (b : V3) : gcdAll b ∣ N ∧ ∀ k, gcdAll b ∣ b k := by
  have h2 : gcdAll b ∣ (Int.gcd (b 2) N : ℤ) := Int.gcd_dvd_right ..
  have h01 : gcdAll b ∣ (Int.gcd (Int.gcd (b 0) N) (Int.gcd (b 1) N) : ℤ) := Int.gcd_dvd_left ..
  have h0 : gcdAll b ∣ (Int.gcd (b 0) N : ℤ) := h01.trans (Int.gcd_dvd_left ..)
  have h1 : gcdAll b ∣ (Int.gcd (b 1) N : ℤ) := h01.trans (Int.gcd_dvd_right ..)
  refine ⟨h2.trans (Int.gcd_dvd_right ..), ?_⟩
  intro k
  revert k
  apply Mat.fin3
  · exact h0.trans (Int.gcd_dvd_left ..)
  · exact h1.trans (Int.gcd_dvd_left ..)
  · exact h2.trans (Int.gcd_dvd_left ..)

theorem atomElem_d (fl : ℚ → ℚ) (x : Q3) : 0 < (atomElem fl x).d := by
  have h := gcdAll_pos (bElem fl x)
  exact Int.ediv_pos_of_pos_of_dvd (by simp [N]) h.le (gcdAll_dvd _).1

/-- the point on the fine grid that stands for the atom -/
def gridPoint (fl : ℚ → ℚ) (x : Q3) : Q3 := fun k => (bElem fl x k : ℚ) / 3000000

theorem atomElem_val (fl : ℚ → ℚ) (x : Q3) : (atomElem fl x).val = gridPoint fl x := by
  funext k
  unfold Shift.val atomElem gridPoint
  have h := gcdAll_pos (bElem fl x)
  have hd := gcdAll_dvd (bElem fl x)
  obtain ⟨a, ha⟩ := hd.1
  obtain ⟨b, hb⟩ := hd.2 k
  have hg : (gcdAll (bElem fl x) : ℚ) ≠ 0 := by exact_mod_cast h.ne'
  have ea : N / gcdAll (bElem fl x) = a := by rw [ha]; exact Int.mul_ediv_cancel_left _ h.ne'
  have eb : bElem fl x k / gcdAll (bElem fl x) = b := by
    conv_lhs => rw [hb]
    exact Int.mul_ediv_cancel_left _ h.ne'
  have hN : (3000000 : ℚ) = gcdAll (bElem fl x) * a := by exact_mod_cast (show (3000000 : ℤ) = _ from ha)
  have hB : (bElem fl x k : ℚ) = gcdAll (bElem fl x) * b := by exact_mod_cast hb
  simp only [ea, eb]
  rw [hN, hB, mul_div_mul_left _ _ hg]

/-- The operations that are used are those that keep the point of the grid. -/
theorem siteOps_iff {fl : ℚ → ℚ} {G : List Elem} (hb : ∀ e ∈ G, 0 < e.bd) (x : Q3) (e : Elem) :
    e ∈ siteOps fl G x ↔ e ∈ G ∧ Lat (act e (gridPoint fl x)) (gridPoint fl x) := by
  unfold siteOps
  rw [List.mem_filter]
  constructor
  · rintro ⟨h1, h2⟩
    refine ⟨h1, ?_⟩
    rw [← atomElem_val]
    exact (symmFlag_iff (hb e h1) (atomElem_d fl x)).1 h2
  · rintro ⟨h1, h2⟩
    refine ⟨h1, ?_⟩
    rw [← atomElem_val] at h2
    exact (symmFlag_iff (hb e h1) (atomElem_d fl x)).2 h2

/-- C82: the parameters of an atom are tied by exactly the operations that keep it, if the coordinates are multiples of 1/3000000 (all six-digit decimals,
thirds) and the products come out as the integers they are. -/
theorem site_symmetry {fl : ℚ → ℚ} {G : List Elem} (hb : ∀ e ∈ G, 0 < e.bd) (x : Q3) (n : Fin 3 → ℤ)
    (hx : ∀ k, Int.fract (x k) = n k / 3000000) (hf : ∀ k, ⌊fl (fl (Int.fract (x k)) * N)⌋ = n k) (e : Elem) :
    e ∈ siteOps fl G x ↔ e ∈ G ∧ Lat (act e x) x := by
  have hg : gridPoint fl x = fun k => Int.fract (x k) := by
    funext k
    unfold gridPoint bElem
    rw [hf, hx]
  rw [siteOps_iff hb, hg]
  have h1 : Lat (fun k => Int.fract (x k)) x := fun k => ⟨-⌊x k⌋, by have := Int.self_sub_floor (x k); push_cast; linarith⟩
  constructor
  · rintro ⟨he, h⟩
    exact ⟨he, ((h1.act e).symm.trans h).trans h1⟩
  · rintro ⟨he, h⟩
    exact ⟨he, ((h1.act e).trans h).trans h1.symm⟩

/-- C82: in exact arithmetic the products are the integers. -/
theorem site_symmetry_exact {G : List Elem} (hb : ∀ e ∈ G, 0 < e.bd) (x : Q3) (n : Fin 3 → ℤ)
    (hx : ∀ k, Int.fract (x k) = n k / 3000000) (e : Elem) : e ∈ siteOps id G x ↔ e ∈ G ∧ Lat (act e x) x := by
  refine site_symmetry hb x n hx (fun k => ?_) e
  have : (id (id (Int.fract (x k)) * (N : ℚ)) : ℚ) = (n k : ℤ) := by
    simp only [id, hx, N]; push_cast; ring
  rw [this, Int.floor_intCast]

/-- C82: in double precision they are for coordinates that are exact in binary: halves, quarters, eighths, and so on to 1/64. -/
theorem site_symmetry_binary {fl : ℚ → ℚ} (R : Text.Rounds fl) (hfl : ∀ m : ℤ, 0 ≤ m → m < 64 → fl (m / 64) = m / 64) {G : List Elem}
    (hb : ∀ e ∈ G, 0 < e.bd) (x : Q3) (m : Fin 3 → ℤ) (hx : ∀ k, Int.fract (x k) = m k / 64) (e : Elem) :
    e ∈ siteOps fl G x ↔ e ∈ G ∧ Lat (act e x) x := by
  have hm : ∀ k, 0 ≤ m k ∧ m k < 64 := by
    intro k
    have h0 := Int.fract_nonneg (x k)
    have h1 := Int.fract_lt_one (x k)
    rw [hx k] at h0 h1
    constructor
    · have : (0 : ℚ) ≤ m k := by linarith [show (m k : ℚ) = m k / 64 * 64 by ring]
      exact_mod_cast this
    · have : (m k : ℚ) < 64 := by linarith [show (m k : ℚ) = m k / 64 * 64 by ring]
      exact_mod_cast this
  refine site_symmetry hb x (fun k => m k * 46875) (fun k => ?_) (fun k => ?_) e
  · rw [hx]; push_cast; ring
  · rw [hx, hfl _ (hm k).1 (hm k).2]
    have e1 : ((m k : ℚ) / 64 * (N : ℚ)) = ((m k * 46875 : ℤ) : ℚ) := by simp only [N]; push_cast; ring
    rw [e1, R.int _ ?_, Int.floor_intCast]
    have := hm k
    rw [abs_of_nonneg (by nlinarith)]
    nlinarith

/-! ## atoms that are lost -/

def op (r : M3) : Elem := ⟨![0, 0, 0], 1, r⟩

/-- `P 3 m 1`: `x,y,z; -y,x-y,z; -x+y,-x,z; -y,-x,z; -x+y,y,z; x,x-y,z` -/
def p3m1 : List Elem :=
  [op ![![1, 0, 0], ![0, 1, 0], ![0, 0, 1]], op ![![0, -1, 0], ![1, -1, 0], ![0, 0, 1]], op ![![-1, 1, 0], ![-1, 0, 0], ![0, 0, 1]],
   op ![![0, -1, 0], ![-1, 0, 0], ![0, 0, 1]], op ![![-1, 1, 0], ![0, 1, 0], ![0, 0, 1]], op ![![1, 0, 0], ![1, -1, 0], ![0, 0, 1]]]

def mirror : Elem := op ![![0, -1, 0], ![-1, 0, 0], ![0, 0, 1]]

/-- atoms `(x, -x, z)` are on the mirror -/
theorem mirror_keeps (x z : ℚ) : Lat (act mirror ![x, -x, z]) ![x, -x, z] := by
  intro k
  refine ⟨0, ?_⟩
  revert k
  apply Mat.fin3 <;> simp [act, mirror, op, Fin.sum_univ_three]

theorem floor_opposite {t : ℚ} (ht : Int.fract t ≠ 0) (n : ℤ) : ⌊(n : ℚ) - t⌋ = n - 1 - ⌊t⌋ := by
  rw [Int.floor_eq_iff]
  have h0 : 0 < Int.fract t := lt_of_le_of_ne (Int.fract_nonneg t) (Ne.symm ht)
  have h1 := Int.fract_lt_one t
  have h2 := Int.floor_add_fract t
  push_cast
  constructor <;> linarith

/-- If the two coordinates `x` and `-x` come out as integers that do not add up to 3000000, no operation but the identity is found. -/
theorem only_identity {fl : ℚ → ℚ} {x : Q3} (h : bElem fl x 0 + bElem fl x 1 = N - 1) :
    siteOps fl p3m1 x = [op ![![1, 0, 0], ![0, 1, 0], ![0, 0, 1]]] := by
  have hd := atomElem_d fl x
  have key : ∀ e ∈ p3m1, symmFlag e (atomElem fl x) = true ↔ Lat (act e (gridPoint fl x)) (gridPoint fl x) := by
    intro e he
    rw [symmFlag_iff _ hd, atomElem_val]
    simp only [p3m1, List.mem_cons, List.not_mem_nil, or_false] at he
    rcases he with rfl | rfl | rfl | rfl | rfl | rfl <;> simp [op]
  have lift : ∀ {p q z : ℤ} {u : ℚ}, u = (p : ℚ) / 3000000 → u = z → p = 3000000 * z := by
    intro p q z u h1 h2
    rw [h1, div_eq_iff (by norm_num)] at h2
    have : (p : ℚ) = ((z * 3000000 : ℤ) : ℚ) := by push_cast; exact h2
    have := Int.cast_injective this
    omega
  have hN : bElem fl x 0 + bElem fl x 1 = 2999999 := h
  have e1 : symmFlag (op ![![1, 0, 0], ![0, 1, 0], ![0, 0, 1]]) (atomElem fl x) = true := by
    rw [key _ (by simp [p3m1])]
    intro k
    refine ⟨0, ?_⟩
    revert k
    apply Mat.fin3 <;> simp [act, op, Fin.sum_univ_three]
  have e2 : symmFlag (op ![![0, -1, 0], ![1, -1, 0], ![0, 0, 1]]) (atomElem fl x) = false := by
    rw [← Bool.not_eq_true, key _ (by simp [p3m1])]
    intro hl
    obtain ⟨z, hz⟩ := hl 0
    have := lift (p := - bElem fl x 1 - bElem fl x 0) (q := 0) (by simp [act, op, Fin.sum_univ_three, gridPoint]; ring) hz
    omega
  have e3 : symmFlag (op ![![-1, 1, 0], ![-1, 0, 0], ![0, 0, 1]]) (atomElem fl x) = false := by
    rw [← Bool.not_eq_true, key _ (by simp [p3m1])]
    intro hl
    obtain ⟨z, hz⟩ := hl 1
    have := lift (p := - bElem fl x 0 - bElem fl x 1) (q := 0) (by simp [act, op, Fin.sum_univ_three, gridPoint]; ring) hz
    omega
  have e4 : symmFlag (op ![![0, -1, 0], ![-1, 0, 0], ![0, 0, 1]]) (atomElem fl x) = false := by
    rw [← Bool.not_eq_true, key _ (by simp [p3m1])]
    intro hl
    obtain ⟨z, hz⟩ := hl 0
    have := lift (p := - bElem fl x 1 - bElem fl x 0) (q := 0) (by simp [act, op, Fin.sum_univ_three, gridPoint]; ring) hz
    omega
  have e5 : symmFlag (op ![![-1, 1, 0], ![0, 1, 0], ![0, 0, 1]]) (atomElem fl x) = false := by
    rw [← Bool.not_eq_true, key _ (by simp [p3m1])]
    intro hl
    obtain ⟨z, hz⟩ := hl 0
    have := lift (p := bElem fl x 1 - 2 * bElem fl x 0) (q := 0) (by simp [act, op, Fin.sum_univ_three, gridPoint]; ring) hz
    omega
  have e6 : symmFlag (op ![![1, 0, 0], ![1, -1, 0], ![0, 0, 1]]) (atomElem fl x) = false := by
    rw [← Bool.not_eq_true, key _ (by simp [p3m1])]
    intro hl
    obtain ⟨z, hz⟩ := hl 1
    have := lift (p := bElem fl x 0 - 2 * bElem fl x 1) (q := 0) (by simp [act, op, Fin.sum_univ_three, gridPoint]; ring) hz
    omega
  simp only [siteOps, p3m1, List.filter_cons, e1, e2, e3, e4, e5, e6, if_true, List.filter_nil]
  rfl

/-- C82: an atom on the mirror of `P 3 m 1`, `(x, -x, z)`, of which `x` is not a multiple of 1/3000000 is taken for an atom off the mirror, in exact
arithmetic. -/
theorem opposite_lost {x : ℚ} (z : ℚ) (h0 : 0 < x) (h1 : x < 1) (hx : Int.fract (x * 3000000) ≠ 0) :
    Lat (act mirror ![x, -x, z]) ![x, -x, z] ∧ siteOps id p3m1 ![x, -x, z] = [op ![![1, 0, 0], ![0, 1, 0], ![0, 0, 1]]] := by
  refine ⟨mirror_keeps x z, only_identity ?_⟩
  have f0 : Int.fract x = x := Int.fract_eq_self.2 ⟨h0.le, h1⟩
  have f1 : Int.fract (-x) = 1 - x := by
    have : Int.fract (-x + 1) = -x + 1 := Int.fract_eq_self.2 ⟨by linarith, by linarith⟩
    rw [Int.fract_add_one] at this
    rw [this]; ring
  have e0 : bElem id ![x, -x, z] 0 = ⌊x * 3000000⌋ := by
    simp only [bElem, id, Matrix.cons_val, f0, N]; push_cast; rfl
  have e1 : bElem id ![x, -x, z] 1 = ⌊((3000000 : ℤ) : ℚ) - x * 3000000⌋ := by
    simp only [bElem, id, Matrix.cons_val, f1, N]
    congr 1
    push_cast
    ring
  rw [e0, e1, floor_opposite hx]
  simp only [N]
  ring

/-- C82: in double precision it also happens to decimals of three digits: `(0.009, 0.991, 0)`; the second number is the double nearest to `1 - 0.009`. -/
theorem double_lost : siteOps Text.fl64 p3m1 ![Text.fl64 (9 / 1000), Text.fl64 (1 - Text.fl64 (9 / 1000)), 0] =
    [op ![![1, 0, 0], ![0, 1, 0], ![0, 0, 1]]] := by
  apply only_identity
  decide +kernel

/-- fractional part of a rational coordinate among the real numbers -/
theorem fract_cast (q : ℚ) : Int.fract ((q : ℚ) : ℝ) = ((Int.fract q : ℚ) : ℝ) := by
  rw [← Rat.cast_fract]

theorem move_cast (e : Elem) (x : Q3) : Constr.move (MemSf.colOf e) (fun k => (x k : ℝ)) = fun k => ((act e x k : ℚ) : ℝ) := by
  funext k
  revert k
  apply Mat.fin3 <;> simp [Constr.move, MemSf.colOf, act, Sf.flat, Mat.toM, Matrix.mulVec, dotProduct, Fin.sum_univ_three]

theorem sameSite_cast {u v : Q3} (h : Lat u v) : Constr.SameSite (fun k => (u k : ℝ)) fun k => (v k : ℝ) := by
  intro k
  obtain ⟨z, hz⟩ := h k
  refine ⟨z, ?_⟩
  show ((u k : ℚ) : ℝ) - ((v k : ℚ) : ℝ) = (z : ℝ)
  exact_mod_cast hz

/-- C82: whatever numbers the refinement tries, the position it uses is kept by every operation that keeps the atom. -/
theorem stays_on_site {fl : ℚ → ℚ} {G : List Elem} (hG : IsGroup G) (hN : G.Pairwise fun a b => ¬ SameOp a b) (hb : ∀ e ∈ G, 0 < e.bd) (x : Q3)
    (n : Fin 3 → ℤ) (hx : ∀ k, Int.fract (x k) = n k / 3000000) (hf : ∀ k, ⌊fl (fl (Int.fract (x k)) * N)⌋ = n k) (y : Fin 3 → ℝ) {g : Elem}
    (hg : g ∈ G) (hgx : Lat (act g x) x) :
    Constr.SameSite (Constr.move (MemSf.colOf g) (usedPosition fl G x y)) (usedPosition fl G x y) := by
  have hs := site_symmetry (fl := fl) hb x n hx hf
  unfold usedPosition
  refine Constr.position_fixed (MemSf.stabiliser_isSiteGroup hG hN hb (atomElem_d fl x)) _ y ?_ (List.mem_map_of_mem ((hs g).2 ⟨hg, hgx⟩))
  intro c hc
  obtain ⟨e, he, rfl⟩ := List.mem_map.1 hc
  have he2 := (siteOps_iff hb x e).1 he
  have hgp : gridPoint fl x = fun k => Int.fract (x k) := by
    funext k
    unfold gridPoint bElem
    rw [hf, hx]
  rw [hgp] at he2
  have e1 : (fun k => Int.fract ((x k : ℚ) : ℝ)) = fun k => (((fun k => Int.fract (x k)) k : ℚ) : ℝ) := funext fun k => fract_cast (x k)
  rw [e1, move_cast]
  exact sameSite_cast he2.2

theorem trivial_site : Constr.IsSiteGroup [MemSf.colOf (op ![![1, 0, 0], ![0, 1, 0], ![0, 0, 1]])] := by
  have h1 : Constr.op (MemSf.colOf (op ![![1, 0, 0], ![0, 1, 0], ![0, 0, 1]])) = 1 := by
    refine Prod.ext ?_ rfl
    ext i j
    fin_cases i <;> fin_cases j <;> simp [Constr.op, MemSf.colOf, Sf.flat, Mat.toM, op]
  refine ⟨?_, ?_, ?_, ?_⟩
  · simp
  · simp [h1]
  · intro a ha b hb
    simp only [List.map_cons, List.map_nil, List.mem_singleton, h1] at *
    rw [ha, hb, one_mul]
  · intro a ha
    simp only [List.map_cons, List.map_nil, List.mem_singleton, h1] at *
    exact ⟨1, rfl, by rw [ha, one_mul]⟩

/-- C82: then nothing ties the coordinates: the refinement moves the atom along `x` alone, off the mirror. -/
theorem leaves_site {x : ℚ} (z : ℚ) (h0 : 0 < x) (h1 : x < 1) (hx : Int.fract (x * 3000000) ≠ 0) {t : ℝ} (ht0 : 0 ≤ t) (ht1 : t < 1) :
    usedPosition id p3m1 ![x, -x, z] ![t, 1 - x, z] = ![t, 1 - x, Int.fract (z : ℝ)] ∧
    (Constr.SameSite (Constr.move (MemSf.colOf mirror) ![t, 1 - x, Int.fract (z : ℝ)]) ![t, 1 - x, Int.fract (z : ℝ)] ↔ t = x) := by
  have hx0 : (0 : ℝ) < x := by exact_mod_cast h0
  have hx1 : (x : ℝ) < 1 := by exact_mod_cast h1
  constructor
  · unfold usedPosition
    rw [(opposite_lost z h0 h1 hx).2]
    rw [List.map_cons, List.map_nil, Constr.position_fixes_invariant trivial_site]
    · funext k
      revert k
      apply Mat.fin3
      · exact Int.fract_eq_self.2 ⟨ht0, ht1⟩
      · exact Int.fract_eq_self.2 ⟨by simp; linarith, by simp; linarith⟩
      · rfl
    · intro g hg
      rw [List.mem_singleton.1 hg]
      funext k
      revert k
      apply Mat.fin3 <;> simp [MemSf.colOf, Sf.flat, Mat.toM, op, Matrix.mulVec, dotProduct, Fin.sum_univ_three]
  · constructor
    · intro h
      obtain ⟨m, hm⟩ := h 0
      have hm' : -(1 - (x : ℝ)) - t = m := by
        rw [← hm]
        simp [Constr.move, MemSf.colOf, Sf.flat, Mat.toM, mirror, op, Matrix.mulVec, dotProduct, Fin.sum_univ_three]
      have h3 : (m : ℝ) < 0 := by rw [← hm']; linarith
      have h4 : (-2 : ℝ) < m := by rw [← hm']; linarith
      have h5 : m = -1 := by
        have a : m < 0 := by exact_mod_cast h3
        have b : -2 < m := by exact_mod_cast h4
        omega
      rw [h5] at hm'
      push_cast at hm'
      linarith
    · rintro rfl k
      revert k
      apply Mat.fin3
      · exact ⟨-1, by simp [Constr.move, MemSf.colOf, Sf.flat, Mat.toM, mirror, op, Matrix.mulVec, dotProduct, Fin.sum_univ_three]⟩
      · exact ⟨-1, by simp [Constr.move, MemSf.colOf, Sf.flat, Mat.toM, mirror, op, Matrix.mulVec, dotProduct, Fin.sum_univ_three]; ring⟩
      · exact ⟨0, by simp [Constr.move, MemSf.colOf, Sf.flat, Mat.toM, mirror, op, Matrix.mulVec, dotProduct, Fin.sum_univ_three]⟩

/-! ## flags -/

/-- C82: an atom without flags is not moved. -/
theorem no_flags (G : List Elem) (k : Fin 3) : ¬ flagsConstr G (fun _ => false) k := by
  unfold flagsConstr
  revert k
  apply Mat.fin3 <;> simp [Mat.calc_m_v]

/-- the site of `(x, -x, z)` -/
def mirrorSite : List Elem := [op ![![1, 0, 0], ![0, 1, 0], ![0, 0, 1]], mirror]

/-- C82: on the mirror one flag, that of `x` (the flag of `y` is cleared), makes two parameters. -/
theorem two_parameters (k : Fin 3) : flagsConstr mirrorSite ![true, false, false] k ↔ k ≠ 2 := by
  unfold flagsConstr
  revert k
  apply Mat.fin3 <;> simp [Mat.calc_m_v, Constr.scFract, Constr.mean, mirrorSite, mirror, op, MemSf.colOf, Sf.flat]

/-- C82: of which only the difference matters: every `chi_sq` is constant along the sum, its Hessian matrix singular. -/
theorem only_difference (x0 y : Fin 3 → ℝ) (s : ℝ) (hs : ∀ k, k ≠ 2 → 0 ≤ y k ∧ y k < 1 ∧ 0 ≤ y k + s ∧ y k + s < 1) :
    Constr.constrainedFract (mirrorSite.map MemSf.colOf) x0 ![y 0 + s, y 1 + s, y 2] = Constr.constrainedFract (mirrorSite.map MemSf.colOf) x0 y := by
  have a0 : Int.fract (y 0) = y 0 := Int.fract_eq_self.2 ⟨(hs 0 (by decide)).1, (hs 0 (by decide)).2.1⟩
  have a1 : Int.fract (y 1) = y 1 := Int.fract_eq_self.2 ⟨(hs 1 (by decide)).1, (hs 1 (by decide)).2.1⟩
  have b0 : Int.fract (y 0 + s) = y 0 + s := Int.fract_eq_self.2 (hs 0 (by decide)).2.2
  have b1 : Int.fract (y 1 + s) = y 1 + s := Int.fract_eq_self.2 (hs 1 (by decide)).2.2
  funext k
  unfold Constr.constrainedFract
  congr 1
  revert k
  apply Mat.fin3 <;> simp [Mat.calc_m_v, Constr.scFract, Constr.mean, mirrorSite, mirror, op, MemSf.colOf, Sf.flat, a0, a1, b0, b1] <;> ring

/-! ## a case -/

def p3m1R : List M3 := p3m1.map Elem.r

theorem act_op (r : M3) (x : Q3) : act (op r) x = fun k => ∑ l, (r k l : ℚ) * x l := by
  funext k
  revert k
  apply Mat.fin3 <;> simp [act, op]

theorem act_mul {a b c : M3} (h : ∀ i j, c i j = a i 0 * b 0 j + a i 1 * b 1 j + a i 2 * b 2 j) (x : Q3) :
    act (op c) x = act (op a) (act (op b) x) := by
  rw [act_op, act_op, act_op]
  funext k
  simp only [Fin.sum_univ_three, h]
  push_cast
  ring

theorem p3m1_mem {e : Elem} : e ∈ p3m1 ↔ ∃ r ∈ p3m1R, e = op r := by
  constructor
  · intro h
    exact ⟨e.r, List.mem_map_of_mem h, by simp only [p3m1, List.mem_cons, List.not_mem_nil, or_false] at h; rcases h with rfl | rfl | rfl | rfl | rfl | rfl <;> rfl⟩
  · rintro ⟨r, hr, rfl⟩
    obtain ⟨e, he, rfl⟩ := List.mem_map.1 hr
    have : op e.r = e := by
      simp only [p3m1, List.mem_cons, List.not_mem_nil, or_false] at he
      rcases he with rfl | rfl | rfl | rfl | rfl | rfl <;> rfl
    rw [this]; exact he

theorem lat_refl (x : Q3) : Lat x x := fun _ => ⟨0, by simp⟩

theorem p3m1_group : IsGroup p3m1 where
  one := by
    refine ⟨_, List.mem_cons_self, fun x k => ⟨0, ?_⟩⟩
    revert k
    apply Mat.fin3 <;> simp [act, op, Fin.sum_univ_three]
  mul a ha b hb := by
    obtain ⟨ra, hra, rfl⟩ := p3m1_mem.1 ha
    obtain ⟨rb, hrb, rfl⟩ := p3m1_mem.1 hb
    have : ∀ a ∈ p3m1R, ∀ b ∈ p3m1R, ∃ c ∈ p3m1R, ∀ i j, c i j = a i 0 * b 0 j + a i 1 * b 1 j + a i 2 * b 2 j := by decide +kernel
    obtain ⟨c, hc, h⟩ := this ra hra rb hrb
    refine ⟨op c, p3m1_mem.2 ⟨c, hc, rfl⟩, fun x => ?_⟩
    rw [act_mul h]; exact lat_refl _
  inv a ha := by
    obtain ⟨ra, hra, rfl⟩ := p3m1_mem.1 ha
    have : ∀ a ∈ p3m1R, ∃ b ∈ p3m1R, ∀ i j, (if i = j then 1 else 0) = b i 0 * a 0 j + b i 1 * a 1 j + b i 2 * a 2 j := by decide +kernel
    obtain ⟨b, hb, h⟩ := this ra hra
    refine ⟨op b, p3m1_mem.2 ⟨b, hb, rfl⟩, fun x => ?_⟩
    rw [← act_mul (c := fun i j => if i = j then 1 else 0) h, act_op]
    intro k
    refine ⟨0, ?_⟩
    revert k
    apply Mat.fin3 <;> simp [Fin.sum_univ_three]

theorem p3m1_distinct : p3m1.Pairwise fun a b => ¬ SameOp a b := by
  have hne : ∀ a b : M3, (∃ i j, a i j ≠ b i j ∧ |a i j - b i j| < 5) → ¬ SameOp (op a) (op b) := by
    rintro a b ⟨i, j, h1, h2⟩ h
    obtain ⟨z, hz⟩ := h (fun l => if l = j then 1 / 5 else 0) i
    rw [act_op, act_op] at hz
    simp only [mul_ite, mul_zero, Finset.sum_ite_eq', Finset.mem_univ, if_true] at hz
    have h3 : ((a i j - b i j : ℤ) : ℚ) = ((5 * z : ℤ) : ℚ) := by push_cast; linarith
    have h4 := Int.cast_injective h3
    have h5 := abs_lt.1 h2
    omega
  have hp : p3m1R.Pairwise fun a b => ∃ i j, a i j ≠ b i j ∧ |a i j - b i j| < 5 := by decide +kernel
  have e : p3m1 = p3m1R.map op := rfl
  rw [e]
  exact List.Pairwise.map _ hne hp

/-- Atoms on the mirror with coordinates `1/8`, `-1/8`, `1/3`, in exact arithmetic. -/
example (y : Fin 3 → ℝ) : Constr.SameSite (Constr.move (MemSf.colOf mirror) (usedPosition id p3m1 ![1 / 8, -(1 / 8), 1 / 3] y))
    (usedPosition id p3m1 ![1 / 8, -(1 / 8), 1 / 3] y) := by
  refine stays_on_site p3m1_group p3m1_distinct ?_ _ ![375000, 2625000, 1000000] ?_ ?_ y (by simp [p3m1, mirror]) (mirror_keeps _ _)
  · intro e he
    obtain ⟨r, -, rfl⟩ := p3m1_mem.1 he
    simp [op]
  · decide +kernel
  · decide +kernel

/-- and with coordinates `1/8`, `7/8`, `1/2` in double precision -/
example (y : Fin 3 → ℝ) : Constr.SameSite (Constr.move (MemSf.colOf mirror) (usedPosition Text.fl64 p3m1 ![1 / 8, -(1 / 8), 1 / 2] y))
    (usedPosition Text.fl64 p3m1 ![1 / 8, -(1 / 8), 1 / 2] y) := by
  refine stays_on_site p3m1_group p3m1_distinct ?_ _ ![375000, 2625000, 1500000] ?_ ?_ y (by simp [p3m1, mirror]) (mirror_keeps _ _)
  · intro e he
    obtain ⟨r, -, rfl⟩ := p3m1_mem.1 he
    simp [op]
  · decide +kernel
  · decide +kernel

/-- `1/7` is not a multiple of 1/3000000. -/
example : Int.fract ((1 / 7 : ℚ) * 3000000) ≠ 0 := by decide +kernel

end Cryspy.Site
