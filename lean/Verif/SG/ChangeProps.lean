import Verif.SG.Num
import Mathlib.Algebra.BigOperators.Fin
import Mathlib.LinearAlgebra.Matrix.NonsingularInverse
import Mathlib.Tactic.Ring

/-!
# Change of the coordinate system of an operation (C39)
-/

namespace Cryspy.SG

open Cryspy.Text Cryspy.Symm

/-! ## Specification -/

/-- `x ↦ R x + b`. -/
def Aff.app (a : Aff) (x : Q3) : Q3 := fun i => ∑ j, a.R i j * x j + a.b i

/-- The identity. -/
def Aff.id : Aff := ⟨fun i j => if i = j then 1 else 0, fun _ => 0⟩

/-- First `b`, then `a`. -/
def Aff.comp (a b : Aff) : Aff := ⟨fun i j => ∑ k, a.R i k * b.R k j, fun i => ∑ k, a.R i k * b.b k + a.b i⟩

/-- The columns of `P` are orthonormal. -/
def Orthonormal (P : Fin 3 → Fin 3 → ℚ) : Prop := ∀ i j, ∑ k, P k i * P k j = if i = j then 1 else 0

/-- Coordinates in the new axes, for axes `P` and origin `p`: `x = P x' + p`. -/
def IsNew (P : Fin 3 → Fin 3 → ℚ) (p x x' : Q3) : Prop := ∀ i, x i = ∑ j, P i j * x' j + p i

/-! ## Properties -/

theorem app_comp (a b : Aff) (x : Q3) : (a.comp b).app x = a.app (b.app x) := by
  funext i
  simp only [Aff.app, Aff.comp, Fin.sum_univ_three]
  ring

theorem app_id (x : Q3) : Aff.id.app x = x := by
  funext i
  fin_cases i <;> simp [Aff.app, Aff.id]

theorem change_b (P : Fin 3 → Fin 3 → ℚ) (p : Q3) (w : Aff) (i : Fin 3) :
    (changeAff P p w).b i = ∑ k, P k i * (w.app p k - p k) := by
  simp only [changeAff, mulVec, mulMat, Aff.app, Fin.sum_univ_three]
  ring

theorem change_R (P : Fin 3 → Fin 3 → ℚ) (p : Q3) (w : Aff) (i j : Fin 3) :
    (changeAff P p w).R i j = ∑ k, P k i * ∑ l, w.R k l * P l j := by
  simp only [changeAff, mulMat, Fin.sum_univ_three]
  ring

/-- C39: for orthonormal axes the changed operation does in the new coordinates what the operation does in the old ones. -/
theorem change_meaning {P : Fin 3 → Fin 3 → ℚ} (hP : Orthonormal P) (p : Q3) (w : Aff) {x x' y y' : Q3}
    (hx : IsNew P p x x') (hy : IsNew P p y y') : w.app x = y ↔ (changeAff P p w).app x' = y' := by
  have inv : ∀ (z z' : Q3), IsNew P p z z' → ∀ i, z' i = ∑ k, P k i * (z k - p k) := by
    intro z z' h i
    have : ∀ k, z k - p k = ∑ j, P k j * z' j := fun k => by rw [h k]; ring
    simp only [this]
    have e : ∑ k, P k i * ∑ j, P k j * z' j = ∑ j, (∑ k, P k i * P k j) * z' j := by
      simp only [Fin.sum_univ_three]; ring
    rw [e]
    simp only [hP i]
    simp
  have key : ∀ i, (changeAff P p w).app x' i = ∑ k, P k i * (w.app x k - p k) := by
    intro i
    have : ∀ l, x l = ∑ j, P l j * x' j + p l := hx
    simp only [Aff.app]
    simp only [change_b, change_R, Aff.app, this, Fin.sum_univ_three]
    ring
  constructor
  · intro h
    funext i
    rw [key, h, inv y y' hy]
  · intro h
    -- the rows are orthonormal as well
    have hrow : ∀ i j, ∑ k, P i k * P j k = if i = j then 1 else 0 := by
      have hm : (Matrix.of P).transpose * Matrix.of P = 1 := by
        ext i j
        rw [Matrix.mul_apply, Matrix.one_apply]
        exact hP i j
      have hm' := mul_eq_one_comm.1 hm
      intro i j
      have := congrFun (congrFun hm' i) j
      rw [Matrix.mul_apply, Matrix.one_apply] at this
      exact this
    funext i
    rw [hy i, ← h]
    simp only [key]
    have e : ∑ j, P i j * ∑ k, P k j * (w.app x k - p k) = ∑ k, (∑ j, P i j * P k j) * (w.app x k - p k) := by
      simp only [Fin.sum_univ_three]; ring
    rw [e]
    simp only [hrow i]
    simp

/-- C39: for orthonormal axes the change respects composition. -/
theorem change_comp {P : Fin 3 → Fin 3 → ℚ} (hP : Orthonormal P) (p : Q3) (a b : Aff) :
    changeAff P p (a.comp b) = (changeAff P p a).comp (changeAff P p b) := by
  have hrow : ∀ i j, ∑ k, P i k * P j k = if i = j then 1 else 0 := by
    have hm : (Matrix.of P).transpose * Matrix.of P = 1 := by
      ext i j
      rw [Matrix.mul_apply, Matrix.one_apply]
      exact hP i j
    have hm' := mul_eq_one_comm.1 hm
    intro i j
    have := congrFun (congrFun hm' i) j
    rw [Matrix.mul_apply, Matrix.one_apply] at this
    exact this
  -- `∑ m, P k m * (∑ l, P l m * v l) = v k`
  have back : ∀ (v : Fin 3 → ℚ) (k : Fin 3), ∑ m, P k m * ∑ l, P l m * v l = v k := by
    intro v k
    have e : ∑ m, P k m * ∑ l, P l m * v l = ∑ l, (∑ m, P k m * P l m) * v l := by
      simp only [Fin.sum_univ_three]; ring
    rw [e]
    simp only [hrow k]
    simp
  have hR : ∀ i j, (changeAff P p (a.comp b)).R i j = ((changeAff P p a).comp (changeAff P p b)).R i j := by
    intro i j
    change _ = ∑ m, (changeAff P p a).R i m * (changeAff P p b).R m j
    simp only [change_R]
    have e : ∑ m, (∑ k, P k i * ∑ l, a.R k l * P l m) * (∑ k, P k m * ∑ l, b.R k l * P l j) =
        ∑ k, P k i * ∑ l, a.R k l * ∑ m, P l m * ∑ n, P n m * ∑ q, b.R n q * P q j := by
      simp only [Fin.sum_univ_three]; ring
    rw [e]
    simp only [back (fun n => ∑ q, b.R n q * P q j)]
    simp only [Aff.comp, Fin.sum_univ_three]
    ring
  have hb : ∀ i, (changeAff P p (a.comp b)).b i = ((changeAff P p a).comp (changeAff P p b)).b i := by
    intro i
    change _ = ∑ m, (changeAff P p a).R i m * (changeAff P p b).b m + (changeAff P p a).b i
    simp only [change_R, change_b]
    have e : ∑ m, (∑ k, P k i * ∑ l, a.R k l * P l m) * (∑ k, P k m * (b.app p k - p k)) =
        ∑ k, P k i * ∑ l, a.R k l * ∑ m, P l m * ∑ n, P n m * (b.app p n - p n) := by
      simp only [Fin.sum_univ_three]; ring
    rw [e]
    simp only [back (fun n => b.app p n - p n)]
    rw [app_comp]
    simp only [Aff.app, Fin.sum_univ_three]
    ring
  cases h : changeAff P p (a.comp b)
  rename_i R b'
  cases h' : (changeAff P p a).comp (changeAff P p b)
  rename_i R' b''
  rw [h, h'] at hR hb
  congr
  · funext i j; exact hR i j
  · funext i; exact hb i

/-- C39: the identity is mapped to the identity exactly if the new axes are orthonormal (the program uses the transpose for the
inverse): false for every other change of axes, for example for doubling an axis. -/
theorem change_id (P : Fin 3 → Fin 3 → ℚ) (p : Q3) : changeAff P p Aff.id = Aff.id ↔ Orthonormal P := by
  have hR : ∀ i j, (changeAff P p Aff.id).R i j = ∑ k, P k i * P k j := by
    intro i j
    rw [change_R]
    congr 1
    funext k
    fin_cases k <;> simp [Aff.id]
  have hb : (changeAff P p Aff.id).b = fun _ => 0 := by
    funext i
    rw [change_b, app_id]
    simp
  constructor
  · intro h i j
    rw [← hR, h]
    rfl
  · intro h
    cases hc : changeAff P p Aff.id
    rename_i R b
    rw [hc] at hR hb
    simp only at hR hb
    rw [hb, Aff.id]
    congr 1
    funext i j
    rw [hR]
    exact h i j

/-- C39: for orthonormal axes the change is undone by the change with the transposed axes and the opposite origin. -/
theorem change_undo {P : Fin 3 → Fin 3 → ℚ} (hP : Orthonormal P) (p : Q3) (w : Aff) :
    changeAff (fun i j => P j i) (fun i => -∑ k, P k i * p k) (changeAff P p w) = w := by
  have hrow : ∀ i j, ∑ k, P i k * P j k = if i = j then 1 else 0 := by
    have hm : (Matrix.of P).transpose * Matrix.of P = 1 := by
      ext i j
      rw [Matrix.mul_apply, Matrix.one_apply]
      exact hP i j
    have hm' := mul_eq_one_comm.1 hm
    intro i j
    have := congrFun (congrFun hm' i) j
    rw [Matrix.mul_apply, Matrix.one_apply] at this
    exact this
  have back : ∀ (v : Fin 3 → ℚ) (k : Fin 3), ∑ m, P k m * ∑ l, P l m * v l = v k := by
    intro v k
    have e : ∑ m, P k m * ∑ l, P l m * v l = ∑ l, (∑ m, P k m * P l m) * v l := by
      simp only [Fin.sum_univ_three]; ring
    rw [e]
    simp only [hrow k]
    simp
  have hR : ∀ i j, (changeAff (fun i j => P j i) (fun i => -∑ k, P k i * p k) (changeAff P p w)).R i j = w.R i j := by
    intro i j
    simp only [change_R]
    have e : ∑ k, P i k * ∑ l, (∑ m, P m k * ∑ n, w.R m n * P n l) * P j l =
        ∑ k, P i k * ∑ m, P m k * ∑ n, w.R m n * ∑ l, P n l * P j l := by
      simp only [Fin.sum_univ_three]; ring
    rw [e, back (fun m => ∑ n, w.R m n * ∑ l, P n l * P j l)]
    simp only [hrow]
    simp
  have hb : ∀ i, (changeAff (fun i j => P j i) (fun i => -∑ k, P k i * p k) (changeAff P p w)).b i = w.b i := by
    intro i
    rw [change_b]
    have e1 : ∀ k, (changeAff P p w).app (fun i => -∑ k, P k i * p k) k - -∑ l, P l k * p l =
        ∑ m, P m k * w.b m := by
      intro k
      have e2 : (changeAff P p w).app (fun i => -∑ k, P k i * p k) k =
          ∑ m, P m k * (w.app p m - p m) - ∑ m, P m k * ∑ n, w.R m n * ∑ l, P n l * ∑ q, P q l * p q := by
        simp only [Aff.app]
        simp only [change_R, change_b, Aff.app, Fin.sum_univ_three]
        ring
      rw [e2]
      simp only [back p]
      simp only [Aff.app, Fin.sum_univ_three]
      ring
    simp only [e1]
    exact back w.b i
  cases h : changeAff (fun i j => P j i) (fun i => -∑ k, P k i * p k) (changeAff P p w)
  rename_i R b
  rw [h] at hR hb
  cases w
  congr
  · funext i j; exact hR i j
  · funext i; exact hb i

/-- C39: the axes of all settings are orthonormal. -/
theorem settings_orthonormal {code : Option Str} {name : Str} {a : Aff} (hn : transformName code = some name)
    (ha : (stringToRB ['a', 'b', 'c'] name).bind toAff = some a) : Orthonormal fun i j => a.R j i := by
  have hq : ∃ q, axesOp name = some q ∧ q.mul q.trans = ⟨1, 0, 0, 0, 1, 0, 0, 0, 1, 0, 0, 0⟩ := by
    unfold transformName at hn
    dsimp only at hn
    split_ifs at hn <;> cases hn
    all_goals exact ⟨_, rfl, by decide⟩
  obtain ⟨q, hq, ho⟩ := hq
  have := (axes_read hq).1
  rw [ha] at this
  cases this
  obtain ⟨h11, h12, h13, h21, h22, h23, h31, h32, h33, -⟩ := Op.mk.injEq .. ▸ ho
  simp only [Op.trans] at *
  intro i j
  fin_cases i <;> fin_cases j <;> simp only [Fin.sum_univ_three] <;>
    simp <;> first | exact_mod_cast h11 | exact_mod_cast h12 | exact_mod_cast h13 | exact_mod_cast h21 | exact_mod_cast h22 |
      exact_mod_cast h23 | exact_mod_cast h31 | exact_mod_cast h32 | exact_mod_cast h33

/-- Doubling the first axis. -/
def doubled : Fin 3 → Fin 3 → ℚ := fun i j => if i = j then (if i = 0 then 2 else 1) else 0

/-- C39 is false for doubling an axis: the identity becomes `4x, y, z`. -/
theorem change_wrong : (changeAff doubled (fun _ => 0) Aff.id).R 0 0 = 4 ∧ changeAff doubled (fun _ => 0) Aff.id ≠ Aff.id := by
  have h : (changeAff doubled (fun _ => 0) Aff.id).R 0 0 = 4 := by decide +kernel
  refine ⟨h, fun he => ?_⟩
  rw [he] at h
  exact absurd h (by decide +kernel)

/-- Axes `c,a,b` are orthonormal, and the theorems apply to them. -/
example : Orthonormal fun i j => (![![0, 0, 1], ![1, 0, 0], ![0, 1, 0]] : Fin 3 → Fin 3 → ℚ) j i := by
  unfold Orthonormal; decide +kernel

end Cryspy.SG
