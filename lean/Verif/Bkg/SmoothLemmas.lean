import Verif.Bkg.Model
import Mathlib.Tactic.Ring
import Mathlib.Tactic.FieldSimp
import Mathlib.Tactic.Linarith
import Mathlib.Algebra.Order.Field.Basic
import Mathlib.Algebra.Order.BigOperators.Group.List
import Mathlib.Logic.Function.Iterate

namespace Cryspy.Bkg

variable {K : Type*} [Field K] [LinearOrder K] [IsStrictOrderedRing K]

theorem neighbours_lt {n i : ℕ} (s : ℕ) (hi : i < n) :
    (neighbours n i s).1 < n ∧ (neighbours n i s).2 < n := by
  unfold neighbours
  simp only []
  split_ifs <;> simp <;> omega

theorem sum_between (f : ℕ → K) (lo hi : K) (l : List ℕ)
    (h : ∀ s ∈ l, lo ≤ f s ∧ f s ≤ hi) :
    l.length * lo ≤ (l.map f).sum ∧ (l.map f).sum ≤ l.length * hi := by
  induction l with
  | nil => simp
  | cons a l ih =>
    have h1 := h a (by simp)
    have h2 := ih (fun s hs => h s (by simp [hs]))
    simp only [List.map_cons, List.sum_cons, List.length_cons, Nat.cast_add, Nat.cast_one]
    constructor
    · nlinarith [h1.1, h2.1]
    · nlinarith [h1.2, h2.2]

theorem getD_mem {y : List K} {i : ℕ} (h : i < y.length) : y[i]?.getD 0 ∈ y := by
  rw [List.getElem?_eq_getElem h]; simp

theorem neighbourMean_between (y : List K) (stepN i : ℕ) (hs : 0 < stepN) (hi : i < y.length)
    (lo up : K) (h : ∀ v ∈ y, lo ≤ v ∧ v ≤ up) :
    lo ≤ neighbourMean y stepN i ∧ neighbourMean y stepN i ≤ up := by
  have hpos : (0 : K) < 2 * stepN := by
    have : (0 : K) < stepN := by exact_mod_cast hs
    linarith
  have key := sum_between (fun s =>
    y[(neighbours y.length i (s + 1)).1]?.getD 0 + y[(neighbours y.length i (s + 1)).2]?.getD 0)
    (2 * lo) (2 * up) (List.range stepN) (by
      intro s _
      have := neighbours_lt (s + 1) hi
      have h1 := h _ (getD_mem this.1)
      have h2 := h _ (getD_mem this.2)
      constructor <;> linarith [h1.1, h1.2, h2.1, h2.2])
  simp only [List.length_range] at key
  unfold neighbourMean
  rw [le_div_iff₀ hpos, div_le_iff₀ hpos]
  constructor
  · linarith [key.1]
  · linarith [key.2]

omit [IsStrictOrderedRing K] in
theorem smooth_length (stepN : ℕ) (clip : Bool) (y : List K) :
    (smooth stepN clip y).length = y.length := by
  unfold smooth
  cases clip <;> simp

theorem smooth_between (stepN : ℕ) (hs : 0 < stepN) (clip : Bool) (y : List K)
    (lo up : K) (h : ∀ v ∈ y, lo ≤ v ∧ v ≤ up) :
    ∀ v ∈ smooth stepN clip y, lo ≤ v ∧ v ≤ up := by
  have hnew : ∀ v ∈ (List.range y.length).map (neighbourMean y stepN), lo ≤ v ∧ v ≤ up := by
    intro v hv
    obtain ⟨i, hi, rfl⟩ := List.mem_map.mp hv
    exact neighbourMean_between y stepN i hs (List.mem_range.mp hi) lo up h
  intro v hv
  unfold smooth at hv
  cases clip with
  | false => exact hnew v (by simpa using hv)
  | true =>
    simp only [if_true] at hv
    obtain ⟨p, hp, rfl⟩ := List.mem_map.mp hv
    have := List.of_mem_zip hp
    split_ifs
    · exact h _ this.2
    · exact hnew _ this.1

omit [IsStrictOrderedRing K] in
theorem smooth_clip_le (stepN : ℕ) (y : List K) :
    List.Forall₂ (· ≤ ·) (smooth stepN true y) y := by
  unfold smooth
  simp only [if_true]
  have key : ∀ (a b : List K), a.length = b.length →
      List.Forall₂ (· ≤ ·) ((a.zip b).map fun p => if p.1 > p.2 then p.2 else p.1) b := by
    intro a
    induction a with
    | nil => intro b hb; cases b with
      | nil => exact .nil
      | cons => simp at hb
    | cons x a ih => intro b hb; cases b with
      | nil => simp at hb
      | cons z b =>
        refine .cons ?_ (ih b (by simpa using hb))
        simp only
        split_ifs with h
        · exact le_rfl
        · exact not_lt.mp h
  exact key _ _ (by simp)

theorem smooth_iter_between (stepN : ℕ) (hs : 0 < stepN) (k : ℕ) (y : List K)
    (lo up : K) (h : ∀ v ∈ y, lo ≤ v ∧ v ≤ up) :
    ∀ v ∈ (smooth stepN true)^[k] y, lo ≤ v ∧ v ≤ up := by
  induction k with
  | zero => simpa using h
  | succ k ih =>
    rw [Function.iterate_succ_apply']
    exact smooth_between stepN hs true _ lo up ih

omit [IsStrictOrderedRing K] in
theorem smooth_iter_le (stepN : ℕ) (k : ℕ) (y : List K) :
    List.Forall₂ (· ≤ ·) ((smooth stepN true)^[k] y) y := by
  induction k with
  | zero =>
    simp only [Function.iterate_zero, id_eq]
    induction y with
    | nil => exact .nil
    | cons a l ih => exact .cons le_rfl ih
  | succ k ih =>
    rw [Function.iterate_succ_apply']
    have := smooth_clip_le stepN ((smooth stepN true)^[k] y)
    generalize smooth stepN true ((smooth stepN true)^[k] y) = a at *
    generalize (smooth stepN true)^[k] y = b at *
    clear * - this ih
    induction this generalizing y with
    | nil => cases ih; exact .nil
    | cons h _ ih2 => cases ih with
      | cons h' t => exact .cons (h.trans h') (ih2 _ t)

omit [IsStrictOrderedRing K] in
theorem smooth_iter_length (stepN : ℕ) (k : ℕ) (y : List K) :
    ((smooth stepN true)^[k] y).length = y.length := by
  induction k with
  | zero => rfl
  | succ k ih => rw [Function.iterate_succ_apply', smooth_length, ih]

end Cryspy.Bkg
