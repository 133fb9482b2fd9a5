import Verif.Elim.Lemmas
import Verif.Constr.Props
import Mathlib.LinearAlgebra.Dimension.Constructions
import Mathlib.LinearAlgebra.FiniteDimensional.Lemmas
import Mathlib.LinearAlgebra.Matrix.ToLin

/-!
# Constraints on tensors: independent components

Specification: the tensors that a site allows are the fixed vectors of a projector `P` that is symmetric with respect to positive
weights.  The independent components shall be a set of coordinates of that space: they can be chosen freely and determine the rest.
-/

namespace Cryspy.Elim

open Matrix

variable {n : ℕ}

/-- a projector, symmetric for the weights `d`, such that the first component of an allowed tensor need not vanish -/
structure Projector (d : Fin (n + 1) → ℝ) (P : Matrix (Fin (n + 1)) (Fin (n + 1)) ℝ) : Prop where
  pos : ∀ k, 0 < d k
  sym : ∀ k j, d k * P k j = d j * P j k
  idem : P * P = P
  first : ∃ u, P *ᵥ u = u ∧ u 0 ≠ 0

theorem adjoint {d : Fin (n + 1) → ℝ} {A : Matrix (Fin (n + 1)) (Fin (n + 1)) ℝ} (h : ∀ k j, d k * A k j = d j * A j k) (a b : Fin (n + 1) → ℝ) :
    ∑ k, d k * (A *ᵥ a) k * b k = ∑ k, d k * a k * (A *ᵥ b) k := by
  simp only [mulVec, dotProduct, Finset.mul_sum, Finset.sum_mul]
  rw [Finset.sum_comm]
  refine Finset.sum_congr rfl fun j _ => Finset.sum_congr rfl fun k _ => ?_
  have := h k j
  calc d k * (A k j * a j) * b k = (d k * A k j) * a j * b k := by ring
    _ = d j * a j * (A j k * b k) := by rw [this]; ring

theorem start_inv {d : Fin (n + 1) → ℝ} {P : Matrix (Fin (n + 1)) (Fin (n + 1)) ℝ} (h : Projector d P) : Inv d (P - 1) (n + 1) := by
  have hs : ∀ k j, d k * (P - 1) k j = d j * (P - 1) j k := by
    intro k j
    by_cases e : k = j
    · subst e; rfl
    · rw [Matrix.sub_apply, Matrix.sub_apply, one_apply_ne e, one_apply_ne (Ne.symm e), sub_zero, sub_zero, h.sym]
  refine ⟨fun k j _ _ => hs k j, fun x _ => ?_, fun k j hj _ => absurd j.2 (by omega), fun i hi => absurd i.2 (by omega)⟩
  have hA : (P - 1) * (P - 1) = -(P - 1) := by
    rw [sub_mul, mul_sub, h.idem]
    simp
  have e := adjoint hs x ((P - 1) *ᵥ x)
  rw [mulVec_mulVec, hA, neg_mulVec] at e
  have : 0 ≤ ∑ k, d k * ((P - 1) *ᵥ x) k * ((P - 1) *ᵥ x) k :=
    Finset.sum_nonneg fun k _ => by rw [mul_assoc]; exact mul_nonneg (h.pos k).le (mul_self_nonneg _)
  rw [e] at this
  simp only [Pi.neg_apply, mul_neg, Finset.sum_neg_distrib] at this
  linarith

/-- the shape of the matrix: a row is that of the unity, or uses earlier components only -/
theorem shape {d : Fin (n + 1) → ℝ} {P : Matrix (Fin (n + 1)) (Fin (n + 1)) ℝ} (h : Projector d P) (i : Fin (n + 1)) :
    (∀ j, constrMatrix P i j = if i = j then 1 else 0) ∨ (i ≠ 0 ∧ ∀ j, i ≤ j → constrMatrix P i j = 0) := by
  have hi := fold_inv h.pos (start_inv h)
  set M := (rows n).foldl step (P - 1) with hM
  have e : ∀ j, constrMatrix P i j = (if i = j then 1 else 0) - M i j := fun j => by
    unfold constrMatrix
    rw [Matrix.sub_apply, one_apply]
  by_cases h0 : i = 0
  · subst h0
    left
    obtain ⟨u, hu, hu0⟩ := h.first
    have hk : M *ᵥ u = 0 := (fold_ker _ _ _).2 (by rw [sub_mulVec, hu, one_mulVec, sub_self])
    have hz : ∀ j, j ≠ 0 → M 0 j = 0 := fun j hj => hi.upper 0 j (by have := Fin.val_ne_of_ne hj; simp only [Fin.val_zero] at this; omega) (Fin.pos_of_ne_zero hj)
    have h00 := congrFun hk 0
    have : (M *ᵥ u) 0 = M 0 0 * u 0 := by
      simp only [mulVec, dotProduct]
      refine Finset.sum_eq_single 0 (fun j _ hj => by rw [hz j hj, zero_mul]) (fun h => absurd (Finset.mem_univ _) h)
    rw [this] at h00
    have h00' : M 0 0 = 0 := (mul_eq_zero.1 h00).resolve_right hu0
    intro j
    rw [e]
    by_cases hj : j = 0
    · subst hj; rw [h00', sub_zero]
    · rw [hz j hj, sub_zero]
  · have h1 : 1 ≤ i.1 := by have := Fin.val_ne_of_ne h0; simp only [Fin.val_zero] at this; omega
    rcases hi.done i h1 with hd | hd
    · right
      refine ⟨h0, fun j hj => ?_⟩
      rw [e]
      rcases hj.eq_or_lt with rfl | hj
      · rw [hd, if_pos rfl, sub_self]
      · rw [hi.upper i j (by have : i.1 < j.1 := hj; omega) hj, if_neg hj.ne, sub_zero]
    · left
      intro j
      rw [e, hd, sub_zero]

/-- Exactly the allowed tensors are left alone. -/
theorem fixes {P : Matrix (Fin (n + 1)) (Fin (n + 1)) ℝ} (v : Fin (n + 1) → ℝ) : constrMatrix P *ᵥ v = v ↔ P *ᵥ v = v := by
  have h1 : constrMatrix P *ᵥ v = v ↔ ((rows n).foldl step (P - 1)) *ᵥ v = 0 := by
    unfold constrMatrix
    rw [sub_mulVec, one_mulVec, sub_eq_self]
  rw [h1, fold_ker, sub_mulVec, one_mulVec, sub_eq_zero]

/-! ### the independent components -/

/-- the row `i` is that of the unity -/
def Free (R : Matrix (Fin (n + 1)) (Fin (n + 1)) ℝ) (i : Fin (n + 1)) : Prop := ∀ j, R i j = if i = j then 1 else 0

theorem pick_free {R : Matrix (Fin (n + 1)) (Fin (n + 1)) ℝ} {l : List (Fin (n + 1))} (hn : l.Nodup) (hf : ∀ i ∈ l, Free R i) :
    (pick R l).det = 1 := by
  have : pick R l = 1 := by
    ext a b
    unfold pick
    rw [submatrix_apply, hf _ (List.get_mem l a), one_apply]
    simp only [hn.get_inj_iff]
  rw [this, det_one]

theorem pick_dep {R : Matrix (Fin (n + 1)) (Fin (n + 1)) ℝ} {l : List (Fin (n + 1))} {i : Fin (n + 1)} (hf : ∀ k ∈ l, Free R k) (hi : i ∉ l)
    (h0 : R i i = 0) : (pick R (l ++ [i])).det = 0 := by
  refine det_eq_zero_of_column_eq_zero ⟨l.length, by simp⟩ fun a => ?_
  unfold pick
  rw [submatrix_apply]
  have e : (l ++ [i]).get ⟨l.length, by simp⟩ = i := by simp
  rw [e]
  have := List.get_mem (l ++ [i]) a
  rcases List.mem_append.1 this with h | h
  · rw [hf _ h, if_neg]
    intro he
    exact hi (he ▸ h)
  · rw [List.mem_singleton.1 h, h0]

theorem fold_grow {R : Matrix (Fin (n + 1)) (Fin (n + 1)) ℝ} (hR : ∀ i, Free R i ∨ R i i = 0) :
    ∀ (L l : List (Fin (n + 1))), (l ++ L).Nodup → (∀ k ∈ l, Free R k) → ∀ i, i ∈ L.foldl (grow R) l ↔ i ∈ l ∨ (i ∈ L ∧ Free R i) := by
  intro L
  induction L with
  | nil => intro l _ _ i; simp
  | cons x L ih =>
    intro l hn hf i
    rw [List.foldl_cons]
    have hx : x ∉ l := fun hx => by
      rw [List.nodup_append] at hn
      exact hn.2.2 x hx x (by simp) rfl
    rcases hR x with h | h
    · have e : grow R l x = l ++ [x] := by
        unfold grow
        rw [if_neg]
        rw [pick_free ?_ ?_]
        · exact one_ne_zero
        · rw [List.append_cons] at hn
          exact (List.nodup_append.1 hn).1
        · intro k hk
          rcases List.mem_append.1 hk with hk | hk
          · exact hf k hk
          · rw [List.mem_singleton.1 hk]; exact h
      rw [e, ih (l ++ [x]) (by rwa [List.append_assoc, List.singleton_append]) (by
        intro k hk
        rcases List.mem_append.1 hk with hk | hk
        · exact hf k hk
        · rw [List.mem_singleton.1 hk]; exact h)]
      simp only [List.mem_append, List.mem_cons, List.not_mem_nil, or_false]
      constructor
      · rintro ((h1 | rfl) | h1)
        · exact Or.inl h1
        · exact Or.inr ⟨Or.inl rfl, h⟩
        · exact Or.inr ⟨Or.inr h1.1, h1.2⟩
      · rintro (h1 | ⟨rfl | h1, h2⟩)
        · exact Or.inl (Or.inl h1)
        · exact Or.inl (Or.inr rfl)
        · exact Or.inr ⟨h1, h2⟩
    · have e : grow R l x = l := by
        unfold grow
        rw [if_pos (pick_dep hf hx h)]
      rw [e, ih l (by
        refine hn.sublist ?_
        exact List.Sublist.append_left (List.sublist_cons_self _ _) _) hf]
      have hxf : ¬ Free R x := fun hh => by have := hh x; rw [h, if_pos rfl] at this; exact zero_ne_one this
      simp only [List.mem_cons]
      constructor
      · rintro (h1 | h1)
        · exact Or.inl h1
        · exact Or.inr ⟨Or.inr h1.1, h1.2⟩
      · rintro (h1 | ⟨rfl | h1, h2⟩)
        · exact Or.inl h1
        · exact absurd h2 hxf
        · exact Or.inr ⟨h1, h2⟩

theorem mem_independent {d : Fin (n + 1) → ℝ} {P : Matrix (Fin (n + 1)) (Fin (n + 1)) ℝ} (h : Projector d P) (i : Fin (n + 1)) :
    i ∈ independent (constrMatrix P) ↔ Free (constrMatrix P) i := by
  have hR : ∀ i, Free (constrMatrix P) i ∨ constrMatrix P i i = 0 := fun i =>
    (shape h i).imp id fun h => h.2 i (le_refl _)
  have h0 : Free (constrMatrix P) 0 := (shape h 0).resolve_right fun h => h.1 rfl
  unfold independent
  rw [fold_grow hR]
  · constructor
    · rintro (h1 | h1)
      · rw [List.mem_singleton.1 h1]; exact h0
      · exact h1.2
    · intro h1
      by_cases e : i = 0
      · exact Or.inl (by rw [e]; simp)
      · obtain ⟨k, rfl⟩ := Fin.exists_succ_eq.2 e
        exact Or.inr ⟨by simp, h1⟩
  · rw [List.singleton_append, List.nodup_cons]
    refine ⟨by simp [Fin.succ_ne_zero], (List.nodup_finRange n).map (Fin.succ_injective n)⟩
  · intro k hk
    rw [List.mem_singleton.1 hk]
    exact h0

theorem independent_nodup (R : Matrix (Fin (n + 1)) (Fin (n + 1)) ℝ) : (independent R).Nodup := by
  have key : ∀ (L l : List (Fin (n + 1))), (l ++ L).Nodup → (L.foldl (grow R) l).Nodup := by
    intro L
    induction L with
    | nil => intro l h; simpa using h
    | cons x L ih =>
      intro l h
      rw [List.foldl_cons]
      apply ih
      unfold grow
      split_ifs
      · exact h.sublist (List.Sublist.append_left (List.sublist_cons_self _ _) _)
      · rwa [List.append_assoc, List.singleton_append]
  apply key
  rw [List.singleton_append, List.nodup_cons]
  exact ⟨by simp [Fin.succ_ne_zero], (List.nodup_finRange n).map (Fin.succ_injective n)⟩

/-- An independent component is kept. -/
theorem kept {d : Fin (n + 1) → ℝ} {P : Matrix (Fin (n + 1)) (Fin (n + 1)) ℝ} (h : Projector d P) {i : Fin (n + 1)}
    (hi : i ∈ independent (constrMatrix P)) (v : Fin (n + 1) → ℝ) : (constrMatrix P *ᵥ v) i = v i := by
  have hf := (mem_independent h i).1 hi
  simp only [mulVec, dotProduct]
  rw [Finset.sum_congr rfl fun j _ => by rw [hf j]]
  simp

/-- A dependent component is calculated from the components before it. -/
theorem dependent {d : Fin (n + 1) → ℝ} {P : Matrix (Fin (n + 1)) (Fin (n + 1)) ℝ} (h : Projector d P) {i : Fin (n + 1)}
    (hi : i ∉ independent (constrMatrix P)) {v w : Fin (n + 1) → ℝ} (hvw : ∀ j, j < i → v j = w j) :
    (constrMatrix P *ᵥ v) i = (constrMatrix P *ᵥ w) i := by
  have hs := ((shape h i).resolve_left fun hf => hi ((mem_independent h i).2 hf)).2
  simp only [mulVec, dotProduct]
  refine Finset.sum_congr rfl fun j _ => ?_
  rcases lt_or_ge j i with hj | hj
  · rw [hvw j hj]
  · rw [hs j hj, zero_mul, zero_mul]

theorem iterate_fixed {d : Fin (n + 1) → ℝ} {P : Matrix (Fin (n + 1)) (Fin (n + 1)) ℝ} (h : Projector d P) (v : Fin (n + 1) → ℝ) (m : ℕ) :
    ∀ i : Fin (n + 1), i.1 ≤ m → (constrMatrix P ^ (m + 1) *ᵥ v) i = (constrMatrix P ^ m *ᵥ v) i := by
  induction m with
  | zero =>
    intro i hi
    have : i = 0 := Fin.ext (by rw [Fin.val_zero]; omega)
    subst this
    have h0 : (0 : Fin (n + 1)) ∈ independent (constrMatrix P) := (mem_independent h 0).2 ((shape h 0).resolve_right fun h => h.1 rfl)
    rw [zero_add, pow_one, pow_zero, one_mulVec, kept h h0]
  | succ m ih =>
    intro i hi
    rw [pow_succ' _ (m + 1), ← mulVec_mulVec]
    by_cases hm : i ∈ independent (constrMatrix P)
    · rw [kept h hm]
    · conv_rhs => rw [pow_succ', ← mulVec_mulVec]
      exact dependent h hm fun j hj => ih j (by have : j.1 < i.1 := hj; omega)

/-- Applied again and again, as often as there are components after the first, the matrix gives an allowed tensor with the given
independent components. -/
theorem repeated {d : Fin (n + 1) → ℝ} {P : Matrix (Fin (n + 1)) (Fin (n + 1)) ℝ} (h : Projector d P) (v : Fin (n + 1) → ℝ) :
    P *ᵥ (constrMatrix P ^ n *ᵥ v) = constrMatrix P ^ n *ᵥ v ∧
    ∀ i ∈ independent (constrMatrix P), (constrMatrix P ^ n *ᵥ v) i = v i := by
  constructor
  · rw [← fixes, mulVec_mulVec, ← pow_succ']
    funext i
    exact iterate_fixed h v n i (by omega)
  · intro i hi
    have : ∀ m, (constrMatrix P ^ m *ᵥ v) i = v i := by
      intro m
      induction m with
      | zero => rw [pow_zero, one_mulVec]
      | succ m ih => rw [pow_succ', ← mulVec_mulVec, kept h hi, ih]
    exact this n

theorem determined {d : Fin (n + 1) → ℝ} {P : Matrix (Fin (n + 1)) (Fin (n + 1)) ℝ} (h : Projector d P) {v w : Fin (n + 1) → ℝ}
    (hv : P *ᵥ v = v) (hw : P *ᵥ w = w) (e : ∀ i ∈ independent (constrMatrix P), v i = w i) : v = w := by
  rw [← fixes] at hv hw
  have key : ∀ k, ∀ i : Fin (n + 1), i.1 < k → v i = w i := by
    intro k
    induction k with
    | zero => intro i hi; omega
    | succ k ih =>
      intro i hk
      by_cases hi : i ∈ independent (constrMatrix P)
      · exact e i hi
      · rw [← hv, ← hw]
        exact dependent h hi fun j hj => ih j (by have : j.1 < i.1 := hj; omega)
  funext i
  exact key (i.1 + 1) i (Nat.lt_succ_self _)

/-- The independent components can be chosen freely and determine the allowed tensor. -/
theorem coordinates {d : Fin (n + 1) → ℝ} {P : Matrix (Fin (n + 1)) (Fin (n + 1)) ℝ} (h : Projector d P) (a : Fin (n + 1) → ℝ) :
    ∃! w, P *ᵥ w = w ∧ ∀ i ∈ independent (constrMatrix P), w i = a i :=
  ⟨_, repeated h a, fun w hw => determined h hw.1 (repeated h a).1 fun i hi => by rw [hw.2 i hi, (repeated h a).2 i hi]⟩

/-- There are as many independent components as dimensions of the space of allowed tensors. -/
theorem count {d : Fin (n + 1) → ℝ} {P : Matrix (Fin (n + 1)) (Fin (n + 1)) ℝ} (h : Projector d P) :
    (independent (constrMatrix P)).length = Module.finrank ℝ (LinearMap.ker (toLin' (P - 1))) := by
  set l := independent (constrMatrix P) with hl
  let f : LinearMap.ker (toLin' (P - 1)) →ₗ[ℝ] (Fin l.length → ℝ) :=
    { toFun := fun w a => w.1 (l.get a)
      map_add' := fun _ _ => rfl
      map_smul' := fun _ _ => rfl }
  have hk : ∀ w : Fin (n + 1) → ℝ, w ∈ LinearMap.ker (toLin' (P - 1)) ↔ P *ᵥ w = w := by
    intro w
    rw [LinearMap.mem_ker, toLin'_apply, sub_mulVec, one_mulVec, sub_eq_zero]
  have hb : Function.Bijective f := by
    constructor
    · intro v w e
      apply Subtype.ext
      refine determined h ((hk _).1 v.2) ((hk _).1 w.2) fun i hi => ?_
      obtain ⟨a, rfl⟩ := List.get_of_mem hi
      exact congrFun e a
    · intro b
      have hn : l.Nodup := independent_nodup _
      classical
      let a : Fin (n + 1) → ℝ := fun i => if hi : ∃ k, l.get k = i then b hi.choose else 0
      obtain ⟨w, ⟨hw, hw2⟩, _⟩ := coordinates h a
      refine ⟨⟨w, (hk w).2 hw⟩, ?_⟩
      funext k
      have hx : ∃ k', l.get k' = l.get k := ⟨k, rfl⟩
      have h1 : w (l.get k) = a (l.get k) := hw2 _ (List.get_mem l k)
      have h2 : a (l.get k) = b hx.choose := dif_pos hx
      have h3 : hx.choose = k := (hn.get_inj_iff).1 hx.choose_spec
      show w (l.get k) = b k
      rw [h1, h2, h3]
  have := (LinearEquiv.ofBijective f hb).finrank_eq
  rw [this]
  simp

end Cryspy.Elim
