import Verif.Ion.Model
import Mathlib.Algebra.BigOperators.Group.List.Basic
import Mathlib.Tactic.Linarith

/-!
# The electron shell of an ion

Specification: the number of electrons of a list of orbitals, and orbitals that hold at least one electron and not more than
Pauli's principle allows.
-/

namespace Cryspy.Ion

/-- the number of electrons -/
def electrons (sh : List Orb) : ℕ := (sh.map fun o => o.el).sum

/-- twice the number of states with the angular momentum of the letter: 2 (2 l + 1) for s, p, d, f -/
def capacity (l : Char) : ℕ := 2 * (2 * ("spdf".toList.idxOf l) + 1)

/-- every orbital is s, p, d or f and has between one electron and its capacity -/
def Proper (sh : List Orb) : Prop := ∀ o ∈ sh, o.l ∈ "spdf".toList ∧ 0 < o.el ∧ o.el ≤ capacity o.l

/-- the electrons that can still be added -/
def room (sh : List Orb) : ℕ := (sh.map fun o => capacity o.l - o.el).sum

instance (sh : List Orb) : Decidable (Proper sh) := inferInstanceAs (Decidable (∀ o ∈ sh, _))

theorem cap_of_mem {l : Char} (h : l ∈ "spdf".toList) : cap l = some (capacity l) := by
  revert l
  decide

theorem electrons_cons (o : Orb) (sh : List Orb) : electrons (o :: sh) = o.el + electrons sh := by
  simp [electrons]

theorem electrons_append (a b : List Orb) : electrons (a ++ b) = electrons a + electrons b := by
  simp [electrons]

theorem electrons_reverse (a : List Orb) : electrons a.reverse = electrons a := by
  simp [electrons]

theorem room_cons (o : Orb) (sh : List Orb) : room (o :: sh) = capacity o.l - o.el + room sh := by
  simp [room]

theorem removeLoop_zero {r : List Orb} (h : ∀ o ∈ r, 0 < o.el) : removeLoop r 0 = (r, 0) := by
  induction r with
  | nil => rfl
  | cons o r ih =>
    rw [removeLoop, if_pos (h o (by simp)), ih fun x hx => h x (by simp [hx])]
    simp

theorem removeLoop_left (r : List Orb) (q : ℕ) : (removeLoop r q).2 = q - electrons r := by
  induction r generalizing q with
  | nil => simp [removeLoop, electrons]
  | cons o r ih =>
    rw [removeLoop, electrons_cons]
    split_ifs with h
    · simp only [ih]; omega
    · rw [ih]; omega

theorem removeLoop_shape {r : List Orb} (h : ∀ o ∈ r, 0 < o.el) {q : ℕ} (hq : q ≤ electrons r) :
    (q = electrons r ∧ (removeLoop r q).1 = []) ∨
      ∃ a o b e, r = a ++ o :: b ∧ (removeLoop r q).1 = { o with el := e } :: b ∧ 0 < e ∧ e ≤ o.el ∧ q + e = electrons a + o.el := by
  induction r generalizing q with
  | nil =>
    left
    simp only [electrons, List.map_nil, List.sum_nil] at hq ⊢
    exact ⟨by omega, rfl⟩
  | cons o r ih =>
    have hr : ∀ x ∈ r, 0 < x.el := fun x hx => h x (by simp [hx])
    rw [removeLoop]
    rw [electrons_cons] at hq
    split_ifs with hc
    · right
      refine ⟨[], o, r, o.el - q, rfl, ?_, by omega, by omega, ?_⟩
      · rw [removeLoop_zero hr]
      · simp only [electrons, List.map_nil, List.sum_nil]; omega
    · rcases ih hr (q := q - o.el) (by omega) with ⟨e1, e2⟩ | ⟨a, p, b, e, e1, e2, e3, e4, e5⟩
      · left
        exact ⟨by rw [electrons_cons]; omega, e2⟩
      · right
        exact ⟨o :: a, p, b, e, by rw [e1]; rfl, e2, e3, e4, by rw [electrons_cons]; omega⟩

/-- A positive charge that the listed electrons can give: the electrons are taken from the end of the list, whole orbitals
first and a part of one; the rest of the list is untouched. -/
theorem positive_charge {sh : List Orb} (h : Proper sh) {q : ℤ} (hq : 0 < q) (hle : q ≤ electrons sh) :
    ∃ sh', addCharge sh q = some sh' ∧ (electrons sh' : ℤ) = electrons sh - q ∧
      (sh' = [] ∨ ∃ a o b e, sh = a ++ o :: b ∧ sh' = a ++ [{ o with el := e }] ∧ 0 < e ∧ e ≤ o.el) := by
  have hr : ∀ o ∈ sh.reverse, 0 < o.el := fun o ho => (h o (List.mem_reverse.1 ho)).2.1
  have hle' : q.toNat ≤ electrons sh.reverse := by rw [electrons_reverse]; omega
  have h0 : (removeLoop sh.reverse q.toNat).2 = 0 := by rw [removeLoop_left]; omega
  refine ⟨(removeLoop sh.reverse q.toNat).1.reverse, ?_, ?_⟩
  · rw [addCharge, if_neg (by omega), if_pos hq]
    simp only [h0, if_true]
  · rcases removeLoop_shape hr hle' with ⟨e1, e2⟩ | ⟨a, o, b, e, e1, e2, e3, e4, e5⟩
    · rw [electrons_reverse] at e1
      rw [e2]
      refine ⟨?_, Or.inl rfl⟩
      simp only [List.reverse_nil, electrons, List.map_nil, List.sum_nil] at e1 ⊢
      omega
    · have es : sh = b.reverse ++ o :: a.reverse := by
        have := congrArg List.reverse e1
        simpa using this
      rw [e2, List.reverse_cons]
      refine ⟨?_, Or.inr ⟨b.reverse, o, a.reverse, e, es, rfl, e3, e4⟩⟩
      rw [es, electrons_append, electrons_append, electrons_cons, electrons_cons, electrons_reverse, electrons_reverse]
      simp only [electrons, List.map_nil, List.sum_nil] at e5 ⊢
      omega

/-- More electrons than are listed cannot be taken: the code raises. -/
theorem positive_too_much {sh : List Orb} {q : ℤ} (h : (electrons sh : ℤ) < q) : addCharge sh q = none := by
  rw [addCharge, if_neg (by omega), if_pos (by omega)]
  have : (removeLoop sh.reverse q.toNat).2 ≠ 0 := by rw [removeLoop_left, electrons_reverse]; omega
  simp only [this, if_false]

theorem addLoop_zero {r : List Orb} (h : Proper r) : addLoop r 0 = some (r, 0) := by
  induction r with
  | nil => rfl
  | cons o r ih =>
    have ho := h o (by simp)
    have ih' := ih fun x hx => h x (by simp [hx])
    rw [addLoop, cap_of_mem ho.1]
    simp only [Option.bind_eq_bind, Option.bind_some, ih']
    split_ifs with h1 h2
    · rfl
    · omega
    · rfl

theorem addLoop_spec {r : List Orb} (h : Proper r) (q : ℕ) :
    ∃ t, addLoop r q = some t ∧ t.2 = q - room r ∧ (0 < q → q ≤ room r →
      ∃ a o b e, r = a ++ o :: b ∧ t.1 = (a.map fun p => { p with el := capacity p.l }) ++ { o with el := e } :: b ∧
        o.el < e ∧ e ≤ capacity o.l ∧ electrons t.1 = electrons r + q) := by
  induction r generalizing q with
  | nil => exact ⟨([], q), rfl, by simp [room], fun h1 h2 => by simp [room] at h2; omega⟩
  | cons o r ih =>
    have ho := h o (by simp)
    have hr : Proper r := fun x hx => h x (by simp [hx])
    rw [addLoop, cap_of_mem ho.1]
    simp only [Option.bind_eq_bind, Option.bind_some]
    rw [room_cons]
    split_ifs with h1 h2
    · rw [addLoop_zero hr]
      refine ⟨({ o with el := o.el + q } :: r, 0), rfl, by simp only; omega, fun hq _ => ?_⟩
      exact ⟨[], o, r, o.el + q, rfl, rfl, by omega, by omega, by rw [electrons_cons, electrons_cons]; simp only; omega⟩
    · obtain ⟨t, e1, e2, e3⟩ := ih hr (q - (capacity o.l - o.el))
      rw [e1]
      refine ⟨({ o with el := capacity o.l } :: t.1, t.2), rfl, by clear e3; simp only [e2]; omega, fun hq hle => ?_⟩
      obtain ⟨a, p, b, e, f1, f2, f3, f4, f5⟩ := e3 (by clear e3; omega) (by clear e3; omega)
      clear e3
      refine ⟨o :: a, p, b, e, by rw [f1]; rfl, by rw [f2]; rfl, f3, f4, ?_⟩
      rw [electrons_cons, electrons_cons, f5]
      simp only
      omega
    · obtain ⟨t, e1, e2, e3⟩ := ih hr q
      rw [e1]
      refine ⟨(o :: t.1, t.2), rfl, by clear e3; simp only [e2]; omega, fun hq hle => ?_⟩
      obtain ⟨a, p, b, e, f1, f2, f3, f4, f5⟩ := e3 hq (by clear e3; omega)
      clear e3
      refine ⟨o :: a, p, b, e, by rw [f1]; rfl, ?_, f3, f4, ?_⟩
      · rw [f2]
        have : o = { o with el := capacity o.l } := by
          have : o.el = capacity o.l := by omega
          rw [← this]
        rw [List.map_cons, List.cons_append, ← this]
      · rw [electrons_cons, electrons_cons, f5]
        omega

/-- A negative charge for which there is room: the electrons fill the listed orbitals from the beginning of the list, the
last one possibly in part; the rest of the list is untouched. -/
theorem negative_charge {sh : List Orb} (h : Proper sh) {q : ℤ} (hq : q < 0) (hle : -q ≤ room sh) :
    ∃ sh', addCharge sh q = some sh' ∧ (electrons sh' : ℤ) = electrons sh - q ∧
      ∃ a o b e, sh = a ++ o :: b ∧ sh' = (a.map fun p => { p with el := capacity p.l }) ++ { o with el := e } :: b ∧
        o.el < e ∧ e ≤ capacity o.l := by
  obtain ⟨t, e1, e2, e3⟩ := addLoop_spec h (-q).toNat
  obtain ⟨a, p, b, e, f1, f2, f3, f4, f5⟩ := e3 (by clear e3; omega) (by clear e3; omega)
  refine ⟨t.1, ?_, by omega, a, p, b, e, f1, f2, f3, f4⟩
  rw [addCharge, if_neg (by omega), if_neg (by omega), e1]
  simp only [Option.bind_eq_bind, Option.bind_some]
  rw [if_pos (by omega)]

/-- More electrons than there is room for cannot be added: the code raises. -/
theorem negative_too_much {sh : List Orb} (h : Proper sh) {q : ℤ} (hq : (room sh : ℤ) < -q) : addCharge sh q = none := by
  obtain ⟨t, e1, e2, e3⟩ := addLoop_spec h (-q).toNat
  rw [addCharge, if_neg (by omega), if_neg (by omega), e1]
  simp only [Option.bind_eq_bind, Option.bind_some]
  rw [if_neg (by omega)]

/-- Whatever the charge: when the code gives a shell it has the right number of electrons and is again proper. -/
theorem charge_sound {sh sh' : List Orb} (h : Proper sh) {q : ℤ} (hs : addCharge sh q = some sh') :
    (electrons sh' : ℤ) = electrons sh - q ∧ Proper sh' := by
  rcases lt_trichotomy q 0 with hq | rfl | hq
  · by_cases hle : -q ≤ room sh
    · obtain ⟨s, e1, e2, a, o, b, e, f1, f2, f3, f4⟩ := negative_charge h hq hle
      rw [e1] at hs
      obtain rfl := Option.some.inj hs
      refine ⟨e2, ?_⟩
      subst f1
      have hPo := h o (by simp)
      rw [f2]
      intro x hx
      rcases List.mem_append.1 hx with hx | hx
      · obtain ⟨p, hp, rfl⟩ := List.mem_map.1 hx
        have := h p (by simp [hp])
        exact ⟨this.1, Nat.lt_of_lt_of_le this.2.1 this.2.2, Nat.le_refl _⟩
      · rcases List.mem_cons.1 hx with rfl | hx
        · exact ⟨hPo.1, by simp only; omega, f4⟩
        · exact h x (by simp [hx])
    · rw [negative_too_much h (by omega)] at hs
      cases hs
  · rw [addCharge, if_pos rfl] at hs
    obtain rfl := Option.some.inj hs
    exact ⟨by simp, h⟩
  · by_cases hle : q ≤ electrons sh
    · obtain ⟨s, e1, e2, e3⟩ := positive_charge h hq hle
      rw [e1] at hs
      obtain rfl := Option.some.inj hs
      refine ⟨e2, ?_⟩
      rcases e3 with e3 | ⟨a, o, b, e, f1, f2, f3, f4⟩
      · rw [e3]; intro x hx; cases hx
      · subst f1
        have hPo := h o (by simp)
        rw [f2]
        intro x hx
        rcases List.mem_append.1 hx with hx | hx
        · exact h x (by simp [hx])
        · rw [List.mem_singleton.1 hx]
          exact ⟨hPo.1, f3, Nat.le_trans f4 hPo.2.2⟩
    · rw [positive_too_much (by omega)] at hs
      cases hs

/-- The iron atom `3d6 4s2` gives three electrons: the two of 4s and one of 3d; oxygen `2s2 2p4` takes two into 2p. -/
theorem charge_example :
    addCharge [⟨3, 'd', 6⟩, ⟨4, 's', 2⟩] 3 = some [⟨3, 'd', 5⟩] ∧
    addCharge [⟨2, 's', 2⟩, ⟨2, 'p', 4⟩] (-2) = some [⟨2, 's', 2⟩, ⟨2, 'p', 6⟩] ∧
    addCharge [⟨3, 's', 1⟩] 2 = none := by
  decide

end Cryspy.Ion
