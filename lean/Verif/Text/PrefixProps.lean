import Verif.Text.Model
import Mathlib.Data.List.GetD
import Mathlib.Data.List.TakeWhile

/-!
# C08: common prefix of names
-/

namespace Cryspy.Text

theorem takeWhile_range (q : ℕ → Bool) (n : ℕ) :
    ∃ m ≤ n, (List.range n).takeWhile q = List.range m ∧ (∀ i < m, q i) ∧ (m < n → q m = false) := by
  induction n with
  | zero => exact ⟨0, le_refl _, rfl, by simp, by simp⟩
  | succ n ih =>
    obtain ⟨m, hm, h1, h2, h3⟩ := ih
    rcases hm.lt_or_eq with h | h
    · refine ⟨m, by omega, ?_, h2, fun _ => h3 h⟩
      rw [List.range_succ, List.takeWhile_append, h1, if_neg]
      simp; omega
    · subst h
      rw [List.range_succ, List.takeWhile_append, h1, if_pos (by simp)]
      by_cases hq : q m
      · exact ⟨m + 1, le_refl _, by simp [hq, List.range_succ], by intro i hi; rcases Nat.lt_succ_iff_lt_or_eq.1 hi with h | h; exacts [h2 i h, h ▸ hq], by simp⟩
      · exact ⟨m, by omega, by simp [hq], h2, fun _ => by simpa using hq⟩

theorem foldl_min (l : List Str) (n k : ℕ) :
    k ≤ l.foldl (fun n s => min n s.length) n ↔ k ≤ n ∧ ∀ s ∈ l, k ≤ s.length := by
  induction l generalizing n with
  | nil => simp
  | cons a l ih => simp [ih, and_assoc]

theorem commonString_cons (a : Str) (l : List Str) : ∃ m, (∀ s ∈ a :: l, m ≤ s.length) ∧
    commonString (a :: l) = a.take m ∧ (∀ s ∈ a :: l, s.take m = a.take m) ∧
    ((∀ s ∈ a :: l, m < s.length) → ∃ s ∈ l, s.getD m ' ' ≠ a.getD m ' ') := by
  obtain ⟨m, hm, h1, h2, h3⟩ := takeWhile_range
    (fun i => ((a :: l).map fun s => s.getD i ' ').all (· == ((a :: l).map fun s => s.getD i ' ').headD ' '))
    (l.foldl (fun n s => min n s.length) a.length)
  have hlen : ∀ s ∈ a :: l, m ≤ s.length := by
    have := (foldl_min l a.length m).1 hm
    intro s hs
    rcases List.mem_cons.1 hs with h | h
    · exact h ▸ this.1
    · exact this.2 s h
  have hget : ∀ s ∈ a :: l, ∀ i < m, s.getD i ' ' = a.getD i ' ' := by
    intro s hs i hi
    have := h2 i hi
    rw [List.all_eq_true] at this
    simpa using this _ (List.mem_map_of_mem hs)
  have htake : ∀ s ∈ a :: l, s.take m = (List.range m).map fun i => a.getD i ' ' := by
    intro s hs
    apply List.ext_getElem
    · simpa using hlen s hs
    · intro i h1 h2
      have hi : i < m := by simpa using h2
      have := hget s hs i hi
      have hl := hlen s hs
      simp only [List.getElem_take, List.getElem_map, List.getElem_range]
      rw [← this, List.getD_eq_getElem _ _ (by omega)]
  refine ⟨m, hlen, ?_, fun s hs => by rw [htake s hs, htake a (by simp)], ?_⟩
  · unfold commonString zipStar
    simp only [List.takeWhile_map]
    rw [show (fun args : Str => args.all (· == args.headD ' ')) ∘ (fun i => (a :: l).map fun s => s.getD i ' ')
      = fun i => ((a :: l).map fun s => s.getD i ' ').all (· == ((a :: l).map fun s => s.getD i ' ').headD ' ') from rfl, h1]
    rw [htake a (by simp)]
    simp
  · intro hlt
    have : m < l.foldl (fun n s => min n s.length) a.length := by
      rw [← Nat.succ_le_iff, foldl_min]
      exact ⟨hlt a (by simp), fun s hs => hlt s (by simp [hs])⟩
    have := h3 this
    simpa using this

/-- C08: `common_string` returns the greatest common prefix: a string is a prefix of all names exactly when
it is a prefix of the result. -/
theorem common_string_greatest {argv : List Str} (h : argv ≠ []) (p : Str) :
    (∀ s ∈ argv, p <+: s) ↔ p <+: commonString argv := by
  obtain ⟨a, l, rfl⟩ := List.exists_cons_of_ne_nil h
  obtain ⟨m, hlen, h1, h2, h3⟩ := commonString_cons a l
  constructor
  · intro hp
    have ha := hp a (by simp)
    have hpm : p.length ≤ m := by
      by_contra hc
      obtain ⟨s, hs, hne⟩ := h3 fun s hs => lt_of_lt_of_le (by omega) (hp s hs).length_le
      apply hne
      have hs' := hp s (by simp [hs])
      rw [List.getD_eq_getElem _ _ (lt_of_lt_of_le (by omega) hs'.length_le),
        List.getD_eq_getElem _ _ (lt_of_lt_of_le (by omega) ha.length_le),
        ← hs'.getElem (by omega), ← ha.getElem (by omega)]
    rw [h1, List.prefix_iff_eq_take.1 ha]
    exact List.take_prefix_take_left hpm
  · intro hp s hs
    rw [h1, ← h2 s hs] at hp
    exact hp.trans (List.take_prefix _ _)

/-- C08: without names the result is empty. -/
theorem common_string_empty : commonString [] = [] := rfl

example : commonString ["_atom_site_label".toList, "_atom_site_fract_x".toList, "_atom_type".toList] = "_atom_".toList := by
  decide

theorem prefix_antisymm {p q : Str} (h1 : p <+: q) (h2 : q <+: p) : p = q :=
  h1.eq_of_length (le_antisymm h1.length_le h2.length_le)

/-- C08: the result depends on the set of names only, not on their order or repetition. -/
theorem common_string_set {l m : List Str} (h : ∀ s, s ∈ l ↔ s ∈ m) : commonString l = commonString m := by
  by_cases hl : l = []
  · subst hl
    have : m = [] := List.eq_nil_iff_forall_not_mem.2 fun s hs => by simpa using (h s).2 hs
    rw [this]
  · have hm : m ≠ [] := by
      rintro rfl
      exact hl (List.eq_nil_iff_forall_not_mem.2 fun s hs => by simpa using (h s).1 hs)
    apply prefix_antisymm
    · rw [← common_string_greatest hm]
      exact fun s hs => (common_string_greatest hl _).2 (List.prefix_refl _) s ((h s).2 hs)
    · rw [← common_string_greatest hl]
      exact fun s hs => (common_string_greatest hm _).2 (List.prefix_refl _) s ((h s).1 hs)

/-- C08: the prefix of a block does not depend on the order of its names. -/
theorem find_prefix_perm {l m : List Str} (h : l.Perm m) : findPrefix l = findPrefix m := by
  unfold findPrefix
  rw [common_string_set fun s => h.mem_iff, h.length_eq]
  simp only [h.mem_iff]

theorem beforeLast_prefix (c : Char) (s : Str) : beforeLast c s <+: s := by
  rw [← List.reverse_suffix]
  unfold beforeLast
  rw [List.reverse_reverse]
  exact (List.drop_suffix _ _).trans (List.dropWhile_suffix _)

/-- C08: the prefix of a block is a prefix of each of its names. -/
theorem find_prefix_is_prefix {argv : List Str} {s : Str} (hs : s ∈ argv) : findPrefix argv <+: s := by
  have hc : commonString argv <+: s :=
    (common_string_greatest (List.ne_nil_of_mem hs) _).2 (List.prefix_refl _) s hs
  unfold findPrefix
  dsimp only
  split
  · exact (beforeLast_prefix _ _).trans hc
  split
  · exact hc
  split
  · exact (beforeLast_prefix _ _).trans hc
  · exact (List.dropLast_prefix _).trans hc

/-- The part of a string before the last `c`: what remains is `c` and a text without `c`. -/
theorem beforeLast_spec {c : Char} {s : Str} (h : c ∈ s) : ∃ t, s = beforeLast c s ++ c :: t ∧ c ∉ t := by
  unfold beforeLast
  have hd := List.takeWhile_append_dropWhile (p := (· != c)) (l := s.reverse)
  have hne : s.reverse.dropWhile (· != c) ≠ [] := by
    intro h0
    have := List.dropWhile_eq_nil_iff.1 h0 c (by simpa using h)
    simp at this
  obtain ⟨x, t, hx⟩ := List.exists_cons_of_ne_nil hne
  have hxc : x = c := by
    have := List.head_dropWhile_not (· != c) hne
    simpa [hx] using this
  subst hxc
  refine ⟨(s.reverse.takeWhile (· != x)).reverse, ?_, ?_⟩
  · rw [hx] at hd ⊢
    have h3 := congrArg List.reverse hd
    rw [List.reverse_append, List.reverse_cons, List.reverse_reverse, List.append_assoc] at h3
    rw [List.drop_one, List.tail_cons]
    exact h3.symm
  · intro hm
    have := List.mem_takeWhile_imp (List.mem_reverse.1 hm)
    simp at this

/-- C08: if the names share a text with a point in it, the prefix is the shared text up to its last point. -/
theorem find_prefix_point {argv : List Str} (h : '.' ∈ commonString argv) :
    ∃ t, commonString argv = findPrefix argv ++ '.' :: t ∧ '.' ∉ t := by
  have := beforeLast_spec h
  unfold findPrefix
  rw [if_pos h]
  exact this

/-- C08: with no point, if one of several names is a prefix of all the others it is the prefix of the block. -/
theorem find_prefix_name {argv : List Str} {s : Str} (hs : s ∈ argv) (hall : ∀ t ∈ argv, s <+: t)
    (h1 : 1 < argv.length) (hp : '.' ∉ s) : findPrefix argv = s := by
  have hne : argv ≠ [] := List.ne_nil_of_mem hs
  have hc : commonString argv = s := prefix_antisymm
    ((common_string_greatest hne _).2 (List.prefix_refl _) s hs) ((common_string_greatest hne _).1 hall)
  unfold findPrefix
  rw [hc, if_neg hp, if_pos ⟨h1, hs⟩]

/-- C08: otherwise it is the shared text up to its last underscore. -/
theorem find_prefix_underscore {argv : List Str} (hp : '.' ∉ commonString argv)
    (hn : commonString argv ∉ argv ∨ argv.length ≤ 1) (h : '_' ∈ commonString argv) :
    ∃ t, commonString argv = findPrefix argv ++ '_' :: t ∧ '_' ∉ t := by
  have := beforeLast_spec h
  unfold findPrefix
  rw [if_neg hp, if_neg (by rintro ⟨a, b⟩; rcases hn with h | h; exacts [h b, by omega]), if_pos h]
  exact this

example : findPrefix ["_geom_torsion".toList, "_geom_torsion_atom_site_label_1".toList] = "_geom_torsion".toList := by
  decide
example : findPrefix ["_cell.length_a".toList, "_cell.length_b".toList] = "_cell".toList := by decide
example : findPrefix ["_atom_site_label".toList, "_atom_site_fract_x".toList] = "_atom_site".toList := by decide

end Cryspy.Text
