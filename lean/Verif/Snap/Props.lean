import Mathlib.Data.Fintype.Pi
import Verif.Snap.Model
import Verif.Wyck.Props
import Verif.Gen.WyckFirst
import Mathlib.Tactic.Linarith
import Mathlib.Tactic.FieldSimp
import Mathlib.Tactic.Ring
import Mathlib.Tactic.NormNum
import Mathlib.Tactic.FinCases
import Mathlib.Data.Fintype.Basic

/-!
# C85: the set-up of a crystal and the coordinates of the atoms
-/

namespace Cryspy.Snap

open Wyck

/-- Specification: `q` is the image of `p` under an operation of the space group, given by the coordinates
of its general position, modulo lattice translations. -/
def Equivalent (gen : List Pos) (x y : V) : Prop := ∃ g ∈ gen, ∀ k, Cong (at' g x k) (y k)

/-- Specification: every listed point of the position comes from the first listed one by an operation of
the space group. -/
def OneOrbit (gen : List Pos) (p0 : Pos) (full : List Pos) : Prop :=
  ∀ p ∈ full, ∃ g ∈ gen, ∀ t k, Cong (at' g (at' p0 t) k) (at' p t k)

/-- The coefficients of a position are integers. -/
def IntRows (p : Pos) : Prop := ∀ k j, ∃ n : ℤ, p.r k j = n

/-- The atom is on the position. -/
def On (p : Pos) (x : V) : Prop := ∃ t, ∀ k, Cong (at' p t k) (x k)

theorem cong_refl (u : ℚ) : Cong u u := ⟨0, by simp⟩

theorem cong_sub {u v : ℚ} (h : Cong u v) : Cong (u - v) 0 := by
  obtain ⟨n, rfl⟩ := h
  exact ⟨n, by ring⟩

theorem cong_of_sub {u v : ℚ} (h : Cong (u - v) 0) : Cong u v := by
  obtain ⟨n, hn⟩ := h
  exact ⟨n, by linarith⟩

theorem mod1_congr {u v : ℚ} (h : Cong u v) : mod1 u = mod1 v := by
  obtain ⟨n, rfl⟩ := h
  unfold mod1
  rw [Int.floor_add_intCast]
  push_cast
  ring

theorem at_congr {p : Pos} (hp : IntRows p) {t u : V} (h : ∀ k, Cong (t k) (u k)) (k : Fin 3) :
    Cong (at' p t k) (at' p u k) := by
  obtain ⟨n0, h0⟩ := h 0
  obtain ⟨n1, h1⟩ := h 1
  obtain ⟨n2, h2⟩ := h 2
  obtain ⟨m0, g0⟩ := hp k 0
  obtain ⟨m1, g1⟩ := hp k 1
  obtain ⟨m2, g2⟩ := hp k 2
  refine ⟨m0 * n0 + m1 * n1 + m2 * n2, ?_⟩
  unfold at' dot
  rw [h0, h1, h2, g0, g1, g2]
  push_cast
  ring

/-- The parameters tried are the coordinates in any order and with any signs, and the coordinates
themselves come first. -/
theorem tried_spec (x : V) :
    (∀ t, t ∈ tried x ↔ ∃ o ∈ orders, ∃ s ∈ signs, t = fun k => s k * x (o k))
      ∧ (tried x).head? = some x := by
  constructor
  · intro t
    simp only [tried, List.mem_flatMap, List.mem_map, eq_comm]
  · simp only [tried, orders, signs, List.flatMap_cons, List.map_cons, List.cons_append, List.head?_cons,
      Option.some.injEq]
    funext k
    revert k
    intro k
    fin_cases k <;> simp

/-- All orders and all signs are tried, and nothing else. -/
theorem tried_all (x t : V) : t ∈ tried x ↔
    ∃ (o : Fin 3 → Fin 3) (s : Fin 3 → ℚ), Function.Injective o ∧ (∀ k, s k = 1 ∨ s k = -1) ∧ t = fun k => s k * x (o k) := by
  rw [(tried_spec x).1]
  have ho : ∀ o : Fin 3 → Fin 3, Function.Injective o ↔ o ∈ orders := by decide +kernel
  constructor
  · rintro ⟨o, h1, s, h2, rfl⟩
    refine ⟨o, s, (ho o).2 h1, ?_, rfl⟩
    have : ∀ s ∈ signs, ∀ k, s k = 1 ∨ s k = -1 := by decide +kernel
    exact this s h2
  · rintro ⟨o, s, hinj, hs, rfl⟩
    refine ⟨o, (ho o).1 hinj, s, ?_, rfl⟩
    have e : s = ![s 0, s 1, s 2] := by funext k; fin_cases k <;> rfl
    rw [e]
    rcases hs 0 with h0 | h0 <;> rcases hs 1 with h1 | h1 <;> rcases hs 2 with h2 | h2 <;> rw [h0, h1, h2] <;> simp [signs]

theorem hits_iff (full : List Pos) (x t : V) :
    hits full x t = true ↔ ∃ p ∈ full, ∀ k, mod1 (at' p t k - x k) ≤ 1 / 10 ^ 8 := by
  simp only [hits, List.any_eq_true, Bool.and_eq_true, close, decide_eq_true_eq]
  constructor
  · rintro ⟨p, hp, ⟨h0, h1⟩, h2⟩
    refine ⟨p, hp, fun k => ?_⟩
    fin_cases k
    · exact h0
    · exact h1
    · exact h2
  · rintro ⟨p, hp, h⟩
    exact ⟨p, hp, ⟨h 0, h 1⟩, h 2⟩

/-- Some of the tried parameters give the atom. -/
def Found (full : List Pos) (x : V) : Prop := ∃ t ∈ tried x, hits full x t = true

theorem chosen_found {full : List Pos} {x : V} (h : Found full x) : hits full x (chosen full x) = true := by
  unfold chosen
  obtain ⟨t, ht, hh⟩ := h
  cases hf : (tried x).find? (hits full x) with
  | none =>
    rw [List.find?_eq_none] at hf
    exact absurd hh (hf t ht)
  | some u => exact List.find?_some hf

theorem chosen_not_found {full : List Pos} {x : V} (h : ¬ Found full x) : chosen full x = x := by
  unfold chosen
  have : (tried x).find? (hits full x) = none := by
    rw [List.find?_eq_none]
    intro t ht hh
    exact h ⟨t, ht, hh⟩
  rw [this]
  rfl

/-- **C85**: if parameters are found, the atom is put to a point that an operation of the space group
carries to the old one, up to `1e-8` and lattice translations. -/
theorem found_equivalent (gen : List Pos) (hg : ∀ g ∈ gen, IntRows g) (p0 : Pos) (full : List Pos)
    (ho : OneOrbit gen p0 full) (x : V) (hf : Found full x) :
    ∃ g ∈ gen, ∀ k, ∃ n : ℤ, 0 ≤ at' g (giveDefault p0 full x) k - (x k + n)
      ∧ at' g (giveDefault p0 full x) k - (x k + n) ≤ 1 / 10 ^ 8 := by
  obtain ⟨p, hp, hc⟩ := (hits_iff _ _ _).1 (chosen_found hf)
  obtain ⟨g, hgm, hgp⟩ := ho p hp
  refine ⟨g, hgm, fun k => ?_⟩
  have h1 : Cong (at' g (giveDefault p0 full x) k) (at' p (chosen full x) k) :=
    (at_congr (hg g hgm) (fun j => mod1_cong _) k).trans (hgp _ k)
  obtain ⟨m, hm⟩ := h1
  have h2 := hc k
  have h3 : 0 ≤ mod1 (at' p (chosen full x) k - x k) := by unfold mod1; linarith [Int.floor_le (at' p (chosen full x) k - x k)]
  unfold mod1 at h2 h3
  refine ⟨m + ⌊at' p (chosen full x) k - x k⌋, ?_, ?_⟩
  · rw [hm]; push_cast; linarith
  · rw [hm]; push_cast; linarith

/-- **C85**: the point is exactly equivalent when the coordinates of the atom and the constants of the
position have a common denominator below `10^8` (coordinates of up to five decimals). -/
theorem found_equivalent_exact (gen : List Pos) (hg : ∀ g ∈ gen, IntRows g) (p0 : Pos) (full : List Pos)
    (hi : ∀ p ∈ full, IntRows p)
    (ho : OneOrbit gen p0 full) (x : V) (D : ℕ) (hD : 0 < D) (hD8 : D < 10 ^ 8)
    (hx : ∀ k, ∃ n : ℤ, x k * D = n) (hb : ∀ p ∈ full, ∀ k, ∃ n : ℤ, p.b k * D = n) (hf : Found full x) :
    Equivalent gen (giveDefault p0 full x) x := by
  have hD' : (0 : ℚ) < D := by exact_mod_cast hD
  have hch : ∀ k, ∃ n : ℤ, chosen full x k * D = n := by
    by_cases hn : (tried x).find? (hits full x) = none
    · unfold chosen; rw [hn]; exact hx
    · obtain ⟨t, ht⟩ := Option.ne_none_iff_exists'.1 hn
      unfold chosen
      rw [ht]
      have hm := List.mem_of_find?_eq_some ht
      obtain ⟨o, _, s, hs, rfl⟩ := ((tried_spec x).1 t).1 hm
      intro k
      obtain ⟨n, hn⟩ := hx (o k)
      have hsk : s k = 1 ∨ s k = -1 := by
        simp only [signs, List.mem_cons, List.not_mem_nil, or_false] at hs
        rcases hs with rfl | rfl | rfl | rfl | rfl | rfl | rfl | rfl <;> fin_cases k <;> simp
      rcases hsk with h | h
      · exact ⟨n, by simp [h, hn]⟩
      · exact ⟨-n, by simp [h, hn]⟩
  obtain ⟨p, hp, hc⟩ := (hits_iff _ _ _).1 (chosen_found hf)
  obtain ⟨g, hgm, hgp⟩ := ho p hp
  refine ⟨g, hgm, fun k => ?_⟩
  refine (at_congr (hg g hgm) (fun j => mod1_cong _) k).trans ((hgp _ k).trans ?_)
  have hz : ∃ n : ℤ, (at' p (chosen full x) k - x k) * D = n := by
    obtain ⟨a0, h0⟩ := hch 0
    obtain ⟨a1, h1⟩ := hch 1
    obtain ⟨a2, h2⟩ := hch 2
    obtain ⟨m0, g0⟩ := hi p hp k 0
    obtain ⟨m1, g1⟩ := hi p hp k 1
    obtain ⟨m2, g2⟩ := hi p hp k 2
    obtain ⟨b, hb⟩ := hb p hp k
    obtain ⟨c, hc⟩ := hx k
    refine ⟨m0 * a0 + m1 * a1 + m2 * a2 + b - c, ?_⟩
    unfold at' dot
    push_cast
    rw [← h0, ← h1, ← h2, ← hb, ← hc, g0, g1, g2]
    ring
  obtain ⟨n, hn⟩ := hz
  have h2 := hc k
  have h3 : 0 ≤ mod1 (at' p (chosen full x) k - x k) := by unfold mod1; linarith [Int.floor_le (at' p (chosen full x) k - x k)]
  have h4 : mod1 (at' p (chosen full x) k - x k) * D = ((n - ⌊at' p (chosen full x) k - x k⌋ * D : ℤ) : ℚ) := by
    unfold mod1; push_cast; rw [sub_mul, hn]
  have h5 : mod1 (at' p (chosen full x) k - x k) * D < 1 := by
    have : mod1 (at' p (chosen full x) k - x k) * D ≤ 1 / 10 ^ 8 * D := mul_le_mul_of_nonneg_right h2 hD'.le
    have h6 : (D : ℚ) < 10 ^ 8 := by exact_mod_cast hD8
    nlinarith
  have h6 : mod1 (at' p (chosen full x) k - x k) * D = 0 := by
    rw [h4] at h5 ⊢
    have a : (n - ⌊at' p (chosen full x) k - x k⌋ * D : ℤ) < 1 := by exact_mod_cast h5
    have b : 0 ≤ (n - ⌊at' p (chosen full x) k - x k⌋ * D : ℤ) := by
      have : (0 : ℚ) ≤ ((n - ⌊at' p (chosen full x) k - x k⌋ * D : ℤ) : ℚ) := by rw [← h4]; positivity
      exact_mod_cast this
    have : (n - ⌊at' p (chosen full x) k - x k⌋ * D : ℤ) = 0 := by omega
    rw [this]; rfl
  have h7 : mod1 (at' p (chosen full x) k - x k) = 0 := by
    rcases mul_eq_zero.1 h6 with h | h
    · exact h
    · exact absurd h hD'.ne'
  exact cong_of_sub (mod1_eq_zero.1 h7)

/-- **C85**: an atom that the first listed coordinates of the position give for its own coordinates as
parameters is not moved. -/
theorem kept (p0 : Pos) (full : List Pos) (hm : ∃ p ∈ full, ∀ t k, Cong (at' p t k) (at' p0 t k)) (x : V)
    (h : ∀ k, Cong (at' p0 x k) (x k)) : giveDefault p0 full x = fun k => mod1 (x k) := by
  have hc : chosen full x = x := by
    unfold chosen
    have hh : hits full x x = true := by
      rw [hits_iff]
      obtain ⟨p, hp, hpp⟩ := hm
      refine ⟨p, hp, fun k => ?_⟩
      rw [mod1_eq_zero.2 (cong_sub ((hpp x k).trans (h k)))]
      norm_num
    have hd := (tried_spec x).2
    cases ht : tried x with
    | nil => rw [ht] at hd; simp at hd
    | cons a l =>
      rw [ht] at hd
      simp only [List.head?_cons, Option.some.injEq] at hd
      subst hd
      rw [List.find?_cons_of_pos hh]
      rfl
  funext k
  unfold giveDefault
  rw [hc]
  exact mod1_congr (h k)

/-- A position of the list of first coordinates: nine coefficients, three constants in 24ths. -/
def posOf (l : List ℤ) : Pos :=
  ⟨fun k j => ((l.getD (3 * k.val + j.val) 0 : ℤ) : ℚ), fun k => ((l.getD (9 + k.val) 0 : ℤ) : ℚ) / 24⟩

/-- The test of one entry: a parameter is either not used (its row has no coefficient on the diagonal), or
it is the coordinate of the same name. -/
def goodEntry (l : List ℤ) : Bool :=
  (List.range 3).all fun j =>
    let d := l.getD (3 * j + j) 0
    if d = 0 then (List.range 3).all fun k => decide (l.getD (3 * k + j) 0 = 0)
    else decide (l.getD (9 + j) 0 = 0)
      && (List.range 3).all fun k => decide (l.getD (3 * j + k) 0 = if k = j then 1 else 0)

theorem all_good : firstPositions.all goodEntry = true := by decide +kernel

theorem intRows_posOf (l : List ℤ) : IntRows (posOf l) := fun _ _ => ⟨_, rfl⟩

/-- The two cases of `goodEntry`. -/
theorem good_cases {l : List ℤ} (h : goodEntry l = true) (j : Fin 3) :
    ((posOf l).r j j = 0 → ∀ k, (posOf l).r k j = 0)
      ∧ ((posOf l).r j j ≠ 0 → (posOf l).b j = 0 ∧ ∀ k, (posOf l).r j k = if k = j then 1 else 0) := by
  unfold goodEntry at h
  rw [List.all_eq_true] at h
  have hj := h j.val (List.mem_range.2 j.isLt)
  dsimp only at hj
  constructor
  · intro h0 k
    have h0' : l.getD (3 * j.val + j.val) 0 = 0 := by
      have : (((l.getD (3 * j.val + j.val) 0 : ℤ)) : ℚ) = 0 := h0
      exact_mod_cast this
    rw [if_pos h0', List.all_eq_true] at hj
    have hk := of_decide_eq_true (hj k.val (List.mem_range.2 k.isLt))
    show (((l.getD (3 * k.val + j.val) 0 : ℤ)) : ℚ) = 0
    rw [hk]; rfl
  · intro h0
    have h0' : l.getD (3 * j.val + j.val) 0 ≠ 0 := by
      intro hh
      apply h0
      show (((l.getD (3 * j.val + j.val) 0 : ℤ)) : ℚ) = 0
      rw [hh]; rfl
    rw [if_neg h0', Bool.and_eq_true, List.all_eq_true] at hj
    constructor
    · have := of_decide_eq_true hj.1
      show (((l.getD (9 + j.val) 0 : ℤ)) : ℚ) / 24 = 0
      rw [this]; norm_num
    · intro k
      have hk := of_decide_eq_true (hj.2 k.val (List.mem_range.2 k.isLt))
      show (((l.getD (3 * j.val + k.val) 0 : ℤ)) : ℚ) = _
      rw [hk]
      by_cases hkj : k = j
      · subst hkj; simp
      · have : k.val ≠ j.val := fun hh => hkj (Fin.ext hh)
        simp [hkj, this]

theorem at_good {l : List ℤ} (h : goodEntry l = true) (t u : V)
    (htu : ∀ j, (posOf l).r j j ≠ 0 → t j = u j) (k : Fin 3) : at' (posOf l) t k = at' (posOf l) u k := by
  have key : ∀ j, (posOf l).r k j * t j = (posOf l).r k j * u j := by
    intro j
    by_cases hj : (posOf l).r j j = 0
    · rw [(good_cases h j).1 hj k]; ring
    · rw [htu j hj]
  unfold at' dot
  rw [key 0, key 1, key 2]

theorem at_free {l : List ℤ} (h : goodEntry l = true) (t : V) (j : Fin 3) (hj : (posOf l).r j j ≠ 0) :
    at' (posOf l) t j = t j := by
  obtain ⟨hb, hr⟩ := (good_cases h j).2 hj
  unfold at' dot
  rw [hb, hr 0, hr 1, hr 2]
  fin_cases j <;> simp

theorem at_idem {l : List ℤ} (h : goodEntry l = true) (t : V) (k : Fin 3) :
    at' (posOf l) (at' (posOf l) t) k = at' (posOf l) t k :=
  at_good h _ _ (fun j hj => at_free h t j hj) k

theorem good_on {l : List ℤ} (hl : goodEntry l = true) (x : V) (h : On (posOf l) x) (k : Fin 3) :
    Cong (at' (posOf l) x k) (x k) := by
  obtain ⟨t, ht⟩ := h
  have h1 := at_congr (intRows_posOf l) ht k
  rw [at_idem hl] at h1
  exact h1.symm.trans (ht k)

/-- **C85**: for all positions of the tables of all 4873 entries: an atom on the first listed coordinates of
its position stays where it is (it is only brought into the cell). -/
theorem first_kept (l : List ℤ) (hl : l ∈ firstPositions) (full : List Pos)
    (hm : ∃ p ∈ full, ∀ t k, Cong (at' p t k) (at' (posOf l) t k)) (x : V) (h : On (posOf l) x) :
    giveDefault (posOf l) full x = fun k => mod1 (x k) :=
  kept _ full hm x (good_on (List.all_eq_true.1 all_good l hl) x h)

/-- **C85**: the coordinates left free determine the point, and they can have any values: for all positions
of the tables and all values there is exactly one point of the first listed coordinates with these values
for the coordinates that are not constrained. -/
theorem free_determine (l : List ℤ) (hl : l ∈ firstPositions) (v : V) :
    ∃! y : V, (∃ t, y = at' (posOf l) t) ∧ ∀ k, (posOf l).r k k ≠ 0 → y k = v k := by
  have hg := List.all_eq_true.1 all_good l hl
  refine ⟨at' (posOf l) v, ⟨⟨v, rfl⟩, fun k hk => at_free hg v k hk⟩, ?_⟩
  rintro y ⟨⟨t, rfl⟩, hy⟩
  funext k
  refine at_good hg t v (fun j hj => ?_) k
  rw [← hy j hj, at_free hg t j hj]

/-- **C85**: an atom for which no parameters are found is put to the point that the first listed
coordinates give for the coordinates of the atom as parameters. -/
theorem not_found (p0 : Pos) (full : List Pos) (x : V) (h : ¬ Found full x) :
    giveDefault p0 full x = fun k => mod1 (at' p0 x k) := by
  unfold giveDefault
  rw [chosen_not_found h]

/-- **C85**: the flags. A coordinate is constrained exactly if it is not a parameter of the position, the
constrained coordinates are not refined, the flags of the others are those of the user. -/
theorem flags (lim : ℚ → ℚ) (a : Atom) (p : Place) (hp : a.place = some p) (k : Fin 3) :
    ((form lim a).constrained k = true ↔ p.first.r k k = 0)
      ∧ (p.first.r k k = 0 → (form lim a).refined k = false)
      ∧ (p.first.r k k ≠ 0 → (form lim a).refined k = a.refined k) := by
  have hc : (form lim a).constrained = fun k => decide (p.first.r k k = 0) := by simp only [form, hp]
  have hr : (form lim a).refined = fun k => if p.first.r k k = 0 then false else a.refined k := by
    simp only [form, hp]
  rw [hc, hr]
  exact ⟨decide_eq_true_iff, fun h => if_pos h, fun h => if_neg h⟩

/-- A place of the tables: its first coordinates are an entry of the list, and the points listed contain
them. -/
def OfTables (p : Place) : Prop :=
  ∃ l ∈ firstPositions, p.first = posOf l ∧ ∃ q ∈ p.item.positions, ∀ t k, Cong (at' q t k) (at' p.first t k)

/-- **C85**: the set-up of a crystal that is set up changes nothing (for coordinates with denominators
that `limit_denominator` keeps). -/
theorem again (lim : ℚ → ℚ) (hlim : ∀ q : ℚ, q.den ≤ 10 ^ 5 → lim q = q) (l : List Place) (a b : Atom)
    (h : apply lim l a = some b) (ht : ∀ p, b.place = some p → OfTables p) (hb : ∀ k, (b.x k).den ≤ 10 ^ 5) :
    apply lim l b = some b := by
  have key : ∀ c : Atom, ∀ p, c.place = some p → b = form lim c → apply lim l b = some b := by
    intro c p hc hbc
    have hbp : b.place = some p := by rw [hbc]; simp only [form, hc]
    obtain ⟨e, he, hpe, hq⟩ := ht p hbp
    unfold apply
    rw [hbp]
    simp only [Option.some.injEq]
    have hx : giveDefault p.first p.item.positions (fun k => lim (b.x k)) = b.x := by
      have h1 : (fun k => lim (b.x k)) = b.x := funext fun k => hlim _ (hb k)
      rw [h1]
      have hbx : b.x = giveDefault p.first p.item.positions fun k => lim (c.x k) := by
        rw [hbc]; simp only [form, hc]
      rw [hpe] at hbx hq ⊢
      have hon : On (posOf e) b.x :=
        ⟨chosen p.item.positions fun k => lim (c.x k), fun k => by rw [hbx]; exact (mod1_cong _).symm⟩
      rw [first_kept e he p.item.positions hq b.x hon]
      funext k
      rw [hbx]
      exact mod1_idem _
    have hm : b.multiplicity = some p.item.multiplicity := by rw [hbc]; simp only [form, hc]
    have hl : b.letter = some p.letter := by rw [hbc]; simp only [form, hc]
    have hcon : b.constrained = fun k => decide (p.first.r k k = 0) := by rw [hbc]; simp only [form, hc]
    have hr : (fun k => if p.first.r k k = 0 then false else b.refined k) = b.refined := by
      funext k
      rw [hbc]
      simp only [form, hc]
      split_ifs <;> rfl
    unfold form
    rw [hbp]
    simp only
    rw [hx, ← hm, ← hl, ← hcon, hr]
    rw [← hbp]
  unfold apply at h
  cases hp : a.place with
  | some p =>
    rw [hp] at h
    simp only [Option.some.injEq] at h
    exact key a p hp h.symm
  | none =>
    rw [hp] at h
    simp only [Option.map_eq_some_iff] at h
    obtain ⟨c, hc, hb'⟩ := h
    unfold define at hc
    split at hc
    · simp at hc
    · simp only [Option.map_eq_some_iff] at hc
      obtain ⟨p, _, rfl⟩ := hc
      exact key _ p rfl hb'.symm

/-- **C85**: the first set-up of an atom. The position taken is one of the list that contains the atom, of
the smallest multiplicity; multiplicity, letter and coordinates are those of this position. -/
theorem first_setup (lim : ℚ → ℚ) (l : List Place) (hid : (l.map fun p => p.item.id).Nodup) (a b : Atom)
    (ha : a.place = none) (h : apply lim l a = some b) :
    ∃ p ∈ l, b.place = some p ∧ p.item.isValid (fun k => lim (a.x k)) = true
      ∧ (∀ q ∈ l, q.item.isValid (fun k => lim (a.x k)) = true → p.item.multiplicity ≤ q.item.multiplicity)
      ∧ b.multiplicity = some p.item.multiplicity ∧ b.letter = some p.letter
      ∧ b.x = giveDefault p.first p.item.positions fun k => lim (a.x k) := by
  unfold apply at h
  rw [ha] at h
  simp only [Option.map_eq_some_iff] at h
  obtain ⟨c, hc, rfl⟩ := h
  unfold define at hc
  split at hc
  · simp at hc
  · rename_i w hw
    simp only [Option.map_eq_some_iff] at hc
    obtain ⟨p, hp, rfl⟩ := hc
    have hpl := List.mem_of_find?_eq_some hp
    have hpid : p.item.id = w.id := by simpa using List.find?_some hp
    obtain ⟨hwl, hwv, hwm⟩ := getFor_spec _ _ _ hw
    obtain ⟨p', hp', hpw⟩ := List.mem_map.1 hwl
    have hpp : p = p' := by
      apply List.inj_on_of_nodup_map hid hpl hp'
      rw [hpid, ← hpw]
    subst hpp
    refine ⟨p, hpl, rfl, by rw [hpw]; exact hwv, fun q hq hv => ?_, rfl, rfl, rfl⟩
    rw [hpw]
    exact hwm q.item (List.mem_map_of_mem hq) hv

/-- **C85, failure**: after the first set-up the position is never looked up again: whatever coordinates the
user writes, the multiplicity, the letter and the constraints stay those of the first position, and the
coordinates are brought to that position. -/
theorem position_stays (lim : ℚ → ℚ) (l : List Place) (a : Atom) (p : Place) (hp : a.place = some p) (x : V) :
    apply lim l (write a x) = some (form lim (write a x))
      ∧ (form lim (write a x)).place = some p
      ∧ (form lim (write a x)).multiplicity = some p.item.multiplicity
      ∧ On p.first (form lim (write a x)).x := by
  have hw : (write a x).place = some p := hp
  refine ⟨?_, ?_, ?_, ?_⟩
  · unfold apply; rw [hw]
  · simp only [form, hw]
  · simp only [form, hw]
  · simp only [form, hw]
    exact ⟨chosen p.item.positions fun k => lim ((write a x).x k), fun k => (mod1_cong _).symm⟩

/-- Position from rows. -/
abbrev mk (r0 r1 r2 b : V) : Pos := ⟨![r0, r1, r2], b⟩

theorem at_0 (r0 r1 r2 t : V) (b0 b1 b2 : ℚ) : at' (mk r0 r1 r2 ![b0, b1, b2]) t 0 = dot r0 t + b0 := rfl
theorem at_1 (r0 r1 r2 t : V) (b0 b1 b2 : ℚ) : at' (mk r0 r1 r2 ![b0, b1, b2]) t 1 = dot r1 t + b1 := rfl
theorem at_2 (r0 r1 r2 t : V) (b0 b1 b2 : ℚ) : at' (mk r0 r1 r2 ![b0, b1, b2]) t 2 = dot r2 t + b2 := rfl
theorem dot_3 (a b c : ℚ) (t : V) : dot ![a, b, c] t = a * t 0 + b * t 1 + c * t 2 := rfl
theorem v_0 (a b c : ℚ) : (![a, b, c] : V) 0 = a := rfl
theorem v_1 (a b c : ℚ) : (![a, b, c] : V) 1 = b := rfl
theorem v_2 (a b c : ℚ) : (![a, b, c] : V) 2 = c := rfl

theorem all3 {P : Fin 3 → Prop} (h0 : P 0) (h1 : P 1) (h2 : P 2) : ∀ k, P k := by
  intro k
  fin_cases k
  · exact h0
  · exact h1
  · exact h2

/-- Space group `C 2` (number 5), general position with centring, wyckoff.dat:217-219. -/
def gen5 : List Pos :=
  [mk ![1, 0, 0] ![0, 1, 0] ![0, 0, 1] ![0, 0, 0], mk ![1, 0, 0] ![0, 1, 0] ![0, 0, 1] ![1 / 2, 1 / 2, 0],
   mk ![-1, 0, 0] ![0, 1, 0] ![0, 0, -1] ![0, 0, 0], mk ![-1, 0, 0] ![0, 1, 0] ![0, 0, -1] ![1 / 2, 1 / 2, 0]]

/-- `(0, y, 0)`. -/
def first5 : Pos := mk ![0, 0, 0] ![0, 1, 0] ![0, 0, 0] ![0, 0, 0]

/-- Position `2a` of `C 2`, wyckoff.dat:222-223: `(0, y, 0)` and the centring. -/
def full5 : List Pos := [first5, mk ![0, 0, 0] ![0, 1, 0] ![0, 0, 0] ![1 / 2, 1 / 2, 0]]

/-- Position `2b` of `C 2`, wyckoff.dat:220-221. -/
def full5b : List Pos :=
  [mk ![0, 0, 0] ![0, 1, 0] ![0, 0, 0] ![0, 0, 1 / 2], mk ![0, 0, 0] ![0, 1, 0] ![0, 0, 0] ![1 / 2, 1 / 2, 1 / 2]]

/-- The positions of `C 2`. -/
def table5 : List Place :=
  [⟨⟨1, 4, gen5⟩, mk ![1, 0, 0] ![0, 1, 0] ![0, 0, 1] ![0, 0, 0], "c"⟩,
   ⟨⟨2, 2, full5b⟩, mk ![0, 0, 0] ![0, 1, 0] ![0, 0, 0] ![0, 0, 1 / 2], "b"⟩,
   ⟨⟨3, 2, full5⟩, first5, "a"⟩]

theorem mod1_half : mod1 (1 / 2) = 1 / 2 := by decide +kernel
theorem mod1_neg_half : mod1 (-(1 / 2)) = 1 / 2 := by decide +kernel

theorem table5_good : OneOrbit gen5 first5 full5 ∧ (∀ g ∈ gen5, IntRows g) ∧ (∀ p ∈ full5, IntRows p) := by
  have den : ∀ g ∈ gen5 ++ full5, ∀ k j, (g.r k j).den = 1 := by decide +kernel
  have int : ∀ g ∈ gen5 ++ full5, IntRows g :=
    fun g hg k j => ⟨(g.r k j).num, ((Rat.den_eq_one_iff _).1 (den g hg k j)).symm⟩
  refine ⟨?_, fun g hg => int g (List.mem_append_left _ hg), fun g hg => int g (List.mem_append_right _ hg)⟩
  intro p hp
  simp only [full5, List.mem_cons, List.not_mem_nil, or_false] at hp
  rcases hp with rfl | rfl
  · refine ⟨mk ![1, 0, 0] ![0, 1, 0] ![0, 0, 1] ![0, 0, 0], List.mem_cons_self, fun t => all3 ⟨0, ?_⟩ ⟨0, ?_⟩ ⟨0, ?_⟩⟩ <;>
      simp only [at_0, at_1, at_2, dot_3, first5] <;> push_cast <;> ring
  · refine ⟨mk ![1, 0, 0] ![0, 1, 0] ![0, 0, 1] ![1 / 2, 1 / 2, 0], List.mem_cons_of_mem _ List.mem_cons_self,
      fun t => all3 ⟨0, ?_⟩ ⟨0, ?_⟩ ⟨0, ?_⟩⟩ <;>
      simp only [at_0, at_1, at_2, dot_3, first5] <;> push_cast <;> ring

/-- **C85, failure**: an atom of `C 2` on the axis through `(1/2, 0, 0)` at height `y` is put on the axis
through the origin at the same height `y`, which is not an equivalent point (this would have height
`y + 1/2`); for every `y` that is not close to a multiple of a quarter. -/
theorem centred_atom_moved (y : ℚ) (h1 : ¬ mod1 (-y) ≤ 1 / 10 ^ 8) (h2 : ¬ mod1 (1 / 2 - y) ≤ 1 / 10 ^ 8)
    (h3 : ¬ mod1 (1 / 2 - 2 * y) ≤ 1 / 10 ^ 8) :
    giveDefault first5 full5 ![1 / 2, y, 0] = ![0, mod1 y, 0]
      ∧ ¬ Equivalent gen5 (giveDefault first5 full5 ![1 / 2, y, 0]) ![1 / 2, y, 0] := by
  have hnf : ¬ Found full5 ![1 / 2, y, 0] := by
    rintro ⟨t, ht, hh⟩
    obtain ⟨p, hp, hc⟩ := (hits_iff _ _ _).1 hh
    simp only [full5, List.mem_cons, List.not_mem_nil, or_false] at hp
    rcases hp with rfl | rfl
    · have h0 := hc 0
      rw [show at' first5 t 0 - (![1 / 2, y, 0] : V) 0 = -(1 / 2) by
        simp only [first5, at_0, dot_3, v_0]; ring, mod1_neg_half] at h0
      norm_num at h0
    · have h0 := hc 1
      have hy : t 1 = 1 / 2 ∨ t 1 = -(1 / 2) ∨ t 1 = y ∨ t 1 = -y ∨ t 1 = 0 := by
        obtain ⟨o, ho, s, hs, rfl⟩ := ((tried_spec _).1 t).1 ht
        have hsk : s 1 = 1 ∨ s 1 = -1 := by
          simp only [signs, List.mem_cons, List.not_mem_nil, or_false] at hs
          rcases hs with rfl | rfl | rfl | rfl | rfl | rfl | rfl | rfl <;> simp only [v_1, true_or, or_true]
        have hx : ∀ j : Fin 3, (![1 / 2, y, 0] : V) j = 1 / 2 ∨ (![1 / 2, y, 0] : V) j = y
            ∨ (![1 / 2, y, 0] : V) j = 0 := by
          exact all3 (Or.inl rfl) (Or.inr (Or.inl rfl)) (Or.inr (Or.inr rfl))
        rcases hsk with h | h <;> rcases hx (o 1) with g | g | g <;> simp only [h, g] <;> norm_num
      have hval : at' (mk ![0, 0, 0] ![0, 1, 0] ![0, 0, 0] ![1 / 2, 1 / 2, 0]) t 1 - (![1 / 2, y, 0] : V) 1
          = t 1 + 1 / 2 - y := by
        simp only [at_1, dot_3, v_1]; ring
      rw [hval] at h0
      rcases hy with h | h | h | h | h
      · rw [h, show (1 / 2 + 1 / 2 - y : ℚ) = 1 - y by ring, mod1_congr (v := -y) ⟨1, by push_cast; ring⟩] at h0
        exact h1 h0
      · rw [h, show (-(1 / 2) + 1 / 2 - y : ℚ) = -y by ring] at h0
        exact h1 h0
      · rw [h, show (y + 1 / 2 - y : ℚ) = 1 / 2 by ring, mod1_half] at h0
        norm_num at h0
      · rw [h, show (-y + 1 / 2 - y : ℚ) = 1 / 2 - 2 * y by ring] at h0
        exact h3 h0
      · rw [h, show (0 + 1 / 2 - y : ℚ) = 1 / 2 - y by ring] at h0
        exact h2 h0
  have hval : giveDefault first5 full5 ![1 / 2, y, 0] = ![0, mod1 y, 0] := by
    rw [not_found _ _ _ hnf]
    have m0 : mod1 0 = 0 := by decide +kernel
    funext k
    revert k
    refine all3 ?_ ?_ ?_
    · simp only [first5, at_0, dot_3, v_0, zero_mul, add_zero, m0]
    · simp only [first5, at_1, dot_3, v_1, zero_mul, add_zero, zero_add, one_mul]
    · simp only [first5, at_2, dot_3, v_2, zero_mul, add_zero, m0]
  refine ⟨hval, ?_⟩
  rw [hval]
  rintro ⟨g, hg, hc⟩
  have c0 := hc 0
  have c1 := hc 1
  obtain ⟨n0, c0⟩ := c0
  obtain ⟨n1, c1⟩ := c1
  have hmy : mod1 y = y - ⌊y⌋ := rfl
  simp only [gen5, List.mem_cons, List.not_mem_nil, or_false] at hg
  rcases hg with rfl | rfl | rfl | rfl
  · simp only [at_0, dot_3, v_0, v_1, v_2] at c0
    have : (2 * n0 + 1 : ℤ) = 0 := by have : (2 * n0 + 1 : ℚ) = 0 := by linarith
                                      exact_mod_cast this
    omega
  · simp only [at_1, dot_3, v_0, v_1, v_2, hmy] at c1
    have : (2 * (n1 + ⌊y⌋) - 1 : ℤ) = 0 := by
      have : (2 * (n1 + ⌊y⌋) - 1 : ℚ) = 0 := by linarith
      exact_mod_cast this
    omega
  · simp only [at_0, dot_3, v_0, v_1, v_2] at c0
    have : (2 * n0 + 1 : ℤ) = 0 := by have : (2 * n0 + 1 : ℚ) = 0 := by linarith
                                      exact_mod_cast this
    omega
  · simp only [at_1, dot_3, v_0, v_1, v_2, hmy] at c1
    have : (2 * (n1 + ⌊y⌋) - 1 : ℤ) = 0 := by
      have : (2 * (n1 + ⌊y⌋) - 1 : ℚ) = 0 := by linarith
      exact_mod_cast this
    omega

/-- An atom as the user enters it. -/
def entered (x : V) : Atom := ⟨x, fun _ => true, fun _ => false, none, none, none⟩

example : ¬ mod1 (-(1 / 5 : ℚ)) ≤ 1 / 10 ^ 8 ∧ ¬ mod1 (1 / 2 - (1 / 5 : ℚ)) ≤ 1 / 10 ^ 8
    ∧ ¬ mod1 (1 / 2 - 2 * (1 / 5 : ℚ)) ≤ 1 / 10 ^ 8 := by decide +kernel

/-- The whole set-up for such an atom. -/
theorem centred_atom_setup :
    (apply id table5 (entered ![1 / 2, 1 / 5, 0])).map (fun b => (b.letter, b.multiplicity, b.x 0, b.x 1, b.x 2))
      = some (some "a", some 2, 0, 1 / 5, 0) := by decide +kernel

/-- An atom at the equivalent point `(0, 7/10, 0)` is kept. -/
example : (apply id table5 (entered ![0, 7 / 10, 0])).map (fun b => (b.letter, b.x 0, b.x 1, b.x 2))
      = some (some "a", 0, 7 / 10, 0) := by decide +kernel

theorem equivalent_iff (gen : List Pos) (x y : V) :
    Equivalent gen x y ↔ (gen.any fun g => decide (mod1 (at' g x 0 - y 0) = 0) && decide (mod1 (at' g x 1 - y 1) = 0)
      && decide (mod1 (at' g x 2 - y 2) = 0)) = true := by
  simp only [List.any_eq_true, Bool.and_eq_true, decide_eq_true_eq, Equivalent]
  constructor
  · rintro ⟨g, hg, h⟩
    exact ⟨g, hg, ⟨mod1_eq_zero.2 (cong_sub (h 0)), mod1_eq_zero.2 (cong_sub (h 1))⟩,
      mod1_eq_zero.2 (cong_sub (h 2))⟩
  · rintro ⟨g, hg, ⟨h0, h1⟩, h2⟩
    refine ⟨g, hg, fun k => ?_⟩
    fin_cases k
    · exact cong_of_sub (mod1_eq_zero.1 h0)
    · exact cong_of_sub (mod1_eq_zero.1 h1)
    · exact cong_of_sub (mod1_eq_zero.1 h2)

/-- Space group `P 42/m n m` (number 136), general position, wyckoff.dat:9571-9575. -/
def gen136 : List Pos :=
  [mk ![1, 0, 0] ![0, 1, 0] ![0, 0, 1] ![0, 0, 0], mk ![-1, 0, 0] ![0, -1, 0] ![0, 0, 1] ![0, 0, 0],
   mk ![0, -1, 0] ![1, 0, 0] ![0, 0, 1] ![1 / 2, 1 / 2, 1 / 2], mk ![0, 1, 0] ![-1, 0, 0] ![0, 0, 1] ![1 / 2, 1 / 2, 1 / 2],
   mk ![-1, 0, 0] ![0, 1, 0] ![0, 0, -1] ![1 / 2, 1 / 2, 1 / 2], mk ![1, 0, 0] ![0, -1, 0] ![0, 0, -1] ![1 / 2, 1 / 2, 1 / 2],
   mk ![0, 1, 0] ![1, 0, 0] ![0, 0, -1] ![0, 0, 0], mk ![0, -1, 0] ![-1, 0, 0] ![0, 0, -1] ![0, 0, 0],
   mk ![-1, 0, 0] ![0, -1, 0] ![0, 0, -1] ![0, 0, 0], mk ![1, 0, 0] ![0, 1, 0] ![0, 0, -1] ![0, 0, 0],
   mk ![0, 1, 0] ![-1, 0, 0] ![0, 0, -1] ![1 / 2, 1 / 2, 1 / 2], mk ![0, -1, 0] ![1, 0, 0] ![0, 0, -1] ![1 / 2, 1 / 2, 1 / 2],
   mk ![1, 0, 0] ![0, -1, 0] ![0, 0, 1] ![1 / 2, 1 / 2, 1 / 2], mk ![-1, 0, 0] ![0, 1, 0] ![0, 0, 1] ![1 / 2, 1 / 2, 1 / 2],
   mk ![0, -1, 0] ![-1, 0, 0] ![0, 0, 1] ![0, 0, 0], mk ![0, 1, 0] ![1, 0, 0] ![0, 0, 1] ![0, 0, 0]]

/-- Position `4f` of `P 42/m n m`, wyckoff.dat:9588-9589. -/
def full136 : List Pos :=
  [mk ![1, 0, 0] ![1, 0, 0] ![0, 0, 0] ![0, 0, 0], mk ![-1, 0, 0] ![-1, 0, 0] ![0, 0, 0] ![0, 0, 0],
   mk ![-1, 0, 0] ![1, 0, 0] ![0, 0, 0] ![1 / 2, 1 / 2, 1 / 2], mk ![1, 0, 0] ![-1, 0, 0] ![0, 0, 0] ![1 / 2, 1 / 2, 1 / 2]]

/-- **C85, failure**: the oxygen of rutile. The points `(0.305, 0.305, 0)` and `(0.195, 0.805, 0.5)` are
equivalent; an atom entered at the first is kept, entered at the second it is put to `(0.195, 0.195, 0)`, which
is not equivalent to them. -/
theorem rutile_oxygen_moved :
    Equivalent gen136 ![61 / 200, 61 / 200, 0] ![39 / 200, 161 / 200, 1 / 2]
      ∧ giveDefault (mk ![1, 0, 0] ![1, 0, 0] ![0, 0, 0] ![0, 0, 0]) full136 ![61 / 200, 61 / 200, 0]
          = ![61 / 200, 61 / 200, 0]
      ∧ giveDefault (mk ![1, 0, 0] ![1, 0, 0] ![0, 0, 0] ![0, 0, 0]) full136 ![39 / 200, 161 / 200, 1 / 2]
          = ![39 / 200, 39 / 200, 0]
      ∧ ¬ Equivalent gen136 ![39 / 200, 39 / 200, 0] ![39 / 200, 161 / 200, 1 / 2] := by
  refine ⟨?_, ?_, ?_, ?_⟩
  · rw [equivalent_iff]; decide +kernel
  · funext k; revert k; decide +kernel
  · funext k; revert k; decide +kernel
  · rw [equivalent_iff]; decide +kernel

/-- Space group `P -1` (number 2): the general position and `1a` (the other seven positions, which contain
neither of the atoms below, are left out), wyckoff.dat:29-47. -/
def table2 : List Place :=
  [⟨⟨1, 2, [mk ![1, 0, 0] ![0, 1, 0] ![0, 0, 1] ![0, 0, 0], mk ![-1, 0, 0] ![0, -1, 0] ![0, 0, -1] ![0, 0, 0]]⟩,
     mk ![1, 0, 0] ![0, 1, 0] ![0, 0, 1] ![0, 0, 0], "i"⟩,
   ⟨⟨2, 1, [mk ![0, 0, 0] ![0, 0, 0] ![0, 0, 0] ![0, 0, 0]]⟩, mk ![0, 0, 0] ![0, 0, 0] ![0, 0, 0] ![0, 0, 0], "a"⟩]

/-- **C85, failure**: an atom set up at the origin of `P -1` cannot be moved: after the user writes
`(1/10, 1/5, 3/10)` the next set-up puts it back; an atom set up elsewhere and then written to the origin keeps
the multiplicity of the general position. -/
theorem stale_position :
    ((apply id table2 (entered ![0, 0, 0])).bind fun b => apply id table2 (write b ![1 / 10, 1 / 5, 3 / 10])).map
        (fun b => (b.letter, b.x 0, b.x 1, b.x 2)) = some (some "a", 0, 0, 0)
      ∧ ((apply id table2 (entered ![1 / 10, 1 / 5, 3 / 10])).bind fun b => apply id table2 (write b ![0, 0, 0])).map
        (fun b => (b.letter, b.multiplicity, b.x 0)) = some (some "i", some 2, 0)
      ∧ (apply id table2 (entered ![0, 0, 0])).map (fun b => (b.letter, b.multiplicity)) = some (some "a", some 1) := by
  refine ⟨?_, ?_, ?_⟩ <;> decide +kernel

/-- The position of `C 2` is one of the tables, and the atom `(0, y, 0)` is found. -/
example : [0, 0, 0, 0, 1, 0, 0, 0, 0, 0, 0, 0] ∈ firstPositions := by decide +kernel

example : Found full5 ![0, 1 / 5, 0] := by
  refine ⟨![0, 1 / 5, 0], ?_, ?_⟩
  · refine List.mem_of_mem_head? ?_
    rw [(tried_spec _).2]
    rfl
  · decide +kernel

end Cryspy.Snap
