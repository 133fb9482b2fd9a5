import Verif.SG.NamesCheck

/-!
# Names and numbers of space groups (C53)
-/

namespace Cryspy.SG

open Cryspy.Text

/-! ## Specification -/

/-- The input holds one name of the space group number `n` (or the number) and nothing else. -/
inductive Names (n : ℕ) : Given Str → Prop
  | short (s) : nameOf hmShort n = some s → Names n { alt := some s }
  | full (s) : fullName n = some s → Names n { alt := some s }
  | ref (s) : nameOf hmShort n = some s → Names n { ref := some s }
  | hall (s) : nameOf hallShort n = some s → Names n { hall := some s }
  | schoenflies (s) : nameOf schoenflies n = some s → Names n { schoenflies := some s }
  | number : Names n { number := some n }

/-! ## Lemmas -/

theorem findIdx?_nodup {α : Type} [DecidableEq α] : ∀ {l : List α}, l.Nodup → ∀ {s : α} {i : ℕ},
    l.findIdx? (· == s) = some i ↔ l[i]? = some s
  | [], _, s, i => by simp
  | a :: l, h, s, i => by
    rw [List.findIdx?_cons]
    by_cases ha : a = s
    · subst ha
      simp only [beq_self_eq_true, if_true, Option.some.injEq]
      cases i with
      | zero => simp
      | succ i =>
        simp only [List.getElem?_cons_succ]
        constructor
        · intro h'; omega
        · intro h'; exact absurd (List.mem_of_getElem? h') (List.nodup_cons.1 h).1
    · simp only [beq_eq_false_iff_ne.2 ha, Bool.false_eq_true, if_false]
      cases i with
      | zero => simp [ha]
      | succ i => simp [findIdx?_nodup (List.nodup_cons.1 h).2]

theorem kShort_nodup : kShort.Nodup ∧ kShort.length = 230 := by decide +kernel
theorem kHall_nodup : kHall.Nodup ∧ kHall.length = 230 := by decide +kernel
theorem kSchoenflies_nodup : kSchoenflies.Nodup ∧ kSchoenflies.length = 230 := by decide +kernel

theorem nodup_of_key {t : List String} {k : List ℕ} (h1 : (t.map fun s => key s.toList) = k) (h2 : k.Nodup ∧ k.length = 230) :
    (t.map String.toList).Nodup ∧ t.length = 230 := by
  have e : (t.map fun s => key s.toList) = (t.map String.toList).map key := by rw [List.map_map]; rfl
  rw [e] at h1
  rw [← h1] at h2
  exact ⟨List.Nodup.of_map _ h2.1, by simpa using h2.2⟩

theorem nodup_names {t : List String} (h : t ∈ [hmShort, hallShort, schoenflies]) : (t.map String.toList).Nodup ∧ t.length = 230 := by
  rw [List.mem_cons, List.mem_cons, List.mem_singleton] at h
  rcases h with h | h | h
  · rw [h]; exact nodup_of_key kShort_eq kShort_nodup
  · rw [h]; exact nodup_of_key kHall_eq kHall_nodup
  · rw [h]; exact nodup_of_key kSchoenflies_eq kSchoenflies_nodup

/-! ## Properties -/

/-- C53: for each of the notations (short Hermann–Mauguin, Hall, Schoenflies) names and numbers determine each other: the number of a
name is `n` exactly if the name of `n` is that name. -/
theorem name_number {t : List String} (ht : t ∈ [hmShort, hallShort, schoenflies]) (s : Str) (n : ℕ) :
    numberOf (t.map String.toList) s = some n ↔ nameOf t n = some s := by
  obtain ⟨hn, hl⟩ := nodup_names ht
  unfold numberOf nameOf
  rw [Option.map_eq_some_iff]
  constructor
  · rintro ⟨i, hi, rfl⟩
    have hi' := (findIdx?_nodup hn).1 hi
    have hlt : i < 230 := by
      have := (List.getElem?_eq_some_iff.1 hi').1
      rwa [List.length_map, hl] at this
    rw [if_pos (mem_itNumbers.2 ⟨by omega, by omega⟩), Nat.add_sub_cancel, ← List.getElem?_map, hi']
  · intro h
    split_ifs at h with hm
    have hr := mem_itNumbers.1 hm
    refine ⟨n - 1, (findIdx?_nodup hn).2 ?_, by omega⟩
    rw [List.getElem?_map, h]

/-- C53: every number from 1 to 230 has a name in each of these notations, and no other number has one. -/
theorem name_exists {t : List String} (ht : t ∈ [hmShort, hallShort, schoenflies]) (n : ℕ) :
    (∃ s, nameOf t n = some s) ↔ 1 ≤ n ∧ n ≤ 230 := by
  obtain ⟨-, hl⟩ := nodup_names ht
  unfold nameOf
  constructor
  · rintro ⟨s, h⟩
    split_ifs at h with hm
    exact mem_itNumbers.1 hm
  · intro h
    rw [if_pos (mem_itNumbers.2 h), List.getElem?_eq_getElem (by omega)]
    exact ⟨_, rfl⟩

theorem key_nameOf {t : List String} {k : List ℕ} (h : (t.map fun s => key s.toList) = k) {n : ℕ} {s : Str}
    (hs : nameOf t n = some s) : k[n - 1]? = some (key s) := by
  unfold nameOf at hs
  split_ifs at hs
  rw [← h, List.getElem?_map]
  obtain ⟨x, hx, rfl⟩ := Option.map_eq_some_iff.1 hs
  rw [hx]
  rfl

theorem standard_auto {n : ℕ} (h1 : 1 ≤ n) (h2 : n ≤ 230) : autoChoose n (codesOf n) = standardCode n :=
  of_decide_eq_true (forall_number (p := fun n => decide (autoChoose n (codesOf n) = standardCode n)) (by decide +kernel) h1 h2)

theorem names_all {n : ℕ} (h1 : 1 ≤ n) (h2 : n ≤ 230) {g : Given Str} (hg : Names n g) :
    resolve g = some (some n, standardCode n) ∧
    ∀ c ∈ codesOf n, resolve { g with code := some c } = some (some n, some c) := by
  have hnum : ∀ {t : List String} (ht : t ∈ [hmShort, hallShort, schoenflies]) {s : Str}, nameOf t n = some s →
      numberOf (t.map String.toList) s = some n := fun ht s hs => (name_number ht s n).2 hs
  have hauto := standard_auto h1 h2
  -- a name of the first kind of attribute
  have halt : ∀ s : Str, ((match resolveWith keyTables { alt := some (key s) } with
      | some (some m, c) => m == n && decide (c = standardCode n)
      | _ => false) && (!isFull keyTables (key s) || fullNumber keyTables (key s) == some n)) = true →
      (isFull tables s = false → numberOf tables.short s = some n) →
      resolve { alt := some s } = some (some n, standardCode n) ∧
      ∀ c ∈ codesOf n, resolve { alt := some s, code := some c } = some (some n, some c) := by
    intro s h hs
    rw [Bool.and_eq_true] at h
    obtain ⟨h, hf⟩ := h
    constructor
    · rw [resolve_eq]
      change resolveWith keyTables { alt := some (key s) } = _
      split at h
      · rename_i m c he
        rw [he]
        simp only [Bool.and_eq_true, beq_iff_eq, decide_eq_true_eq] at h
        rw [h.1, h.2]
      · cases h
    · intro c hc
      rw [← keyTables_eq, isFull_map key_injective, fullNumber_map key_injective] at hf
      unfold resolve resolveWith resolveFirst
      cases hfull : isFull tables s with
      | true =>
        rw [hfull] at hf
        have hf' : fullNumber tables s = some n := by simpa using hf
        simp [hfull, hf', hc]
      | false =>
        have hn := hs hfull
        have hsh : isShort tables s = true := by
          unfold numberOf at hn
          obtain ⟨i, hi, -⟩ := Option.map_eq_some_iff.1 hn
          unfold isShort
          rw [List.any_eq_true]
          obtain ⟨hlt, hp, -⟩ := List.findIdx?_eq_some_iff_getElem.1 hi
          exact ⟨_, List.getElem_mem hlt, hp⟩
        simp [hfull, hsh, hn, hc]
  have hc := forall_number names_checked h1 h2
  unfold namesCheck at hc
  rw [Bool.and_eq_true] at hc
  obtain ⟨c1, c2⟩ := hc
  have hS : hmShort ∈ [hmShort, hallShort, schoenflies] := List.mem_cons_self
  have hH : hallShort ∈ [hmShort, hallShort, schoenflies] := List.mem_cons_of_mem _ List.mem_cons_self
  have hF : schoenflies ∈ [hmShort, hallShort, schoenflies] := List.mem_cons_of_mem _ (List.mem_cons_of_mem _ List.mem_cons_self)
  cases hg with
  | short s hs =>
    rw [List.getD_eq_getElem?_getD, key_nameOf kShort_eq hs, Option.getD_some] at c1
    exact halt s c1 fun _ => hnum hS hs
  | full s hs =>
    have hk : (kFull.find? fun e => e.1 == n) = (fullTable.find? fun e => e.1 == n).map fun e => (e.1, key e.2.toList) := by
      rw [← kFull_eq, List.find?_map]; rfl
    unfold fullName at hs
    obtain ⟨e, he, hes⟩ := Option.map_eq_some_iff.1 hs
    rw [hk, he, Option.map_some] at c2
    dsimp only at c2
    rw [hes] at c2
    refine halt s c2 fun hf => ?_
    exfalso
    have : isFull tables s = true := by
      unfold isFull tables
      rw [List.any_map, List.any_eq_true]
      exact ⟨e, List.mem_of_find?_eq_some he, by simp [hes]⟩
    rw [this] at hf
    cases hf
  | ref s hs =>
    have hn : numberOf tables.short s = some n := hnum hS hs
    unfold resolve resolveWith resolveFirst
    refine ⟨by simp only [hn, Option.map_some, Option.getD_some, hauto], fun c hc => by simp only [hn, Option.map_some, hc, if_true]⟩
  | hall s hs =>
    have hn : numberOf tables.hall s = some n := hnum hH hs
    unfold resolve resolveWith resolveFirst
    refine ⟨by simp only [hn, Option.map_some, Option.getD_some, hauto], fun c hc => by simp only [hn, Option.map_some, hc, if_true]⟩
  | schoenflies s hs =>
    have hn : numberOf tables.schoenflies s = some n := hnum hF hs
    unfold resolve resolveWith resolveFirst
    refine ⟨by simp only [hn, Option.map_some, Option.getD_some, hauto], fun c hc => by simp only [hn, Option.map_some, hc, if_true]⟩
  | number =>
    unfold resolve resolveWith resolveFirst
    refine ⟨by simp only [Option.map_some, Option.getD_some, hauto], fun c hc => by simp only [Option.map_some, hc, if_true]⟩

/-- C53: a space group given by any one of its names (short or full Hermann–Mauguin, Hall, Schoenflies) or its number gets that number and
the standard setting. -/
theorem resolve_name {n : ℕ} (h1 : 1 ≤ n) (h2 : n ≤ 230) {g : Given Str} (hg : Names n g) :
    resolve g = some (some n, standardCode n) := (names_all h1 h2 hg).1

/-- C53: given with a code that the space group has, it gets that number and that code. -/
theorem resolve_name_code {n : ℕ} (h1 : 1 ≤ n) (h2 : n ≤ 230) {g : Given Str} (hg : Names n g) {c : Str} (hc : c ∈ codesOf n) :
    resolve { g with code := some c } = some (some n, some c) := (names_all h1 h2 hg).2 c hc

/-- Whatever is given, the code that results is one of the number that results (or there is none if the number has no codes). -/
theorem resolve_code_valid (g : Given Str) {n : ℕ} {c : Option Str} (h : resolve g = some (some n, c)) : c ∈ settingsOf n := by
  unfold resolve resolveWith at h
  obtain ⟨⟨num, code⟩, -, h⟩ := Option.map_eq_some_iff.1 h
  have auto : ∀ n, autoChoose n (codesOf n) ∈ settingsOf n := by
    intro n
    unfold settingsOf
    split_ifs with he
    · rw [he]; simp [autoChoose]
    · cases ha : autoChoose n (codesOf n) with
      | none => exact absurd ((auto_none n _).1 ha) he
      | some c => exact List.mem_map_of_mem (auto_mem n _ ha)
  cases num with
  | none =>
    cases code with
    | none => simp at h
    | some c =>
      dsimp only at h
      split_ifs at h <;> simp at h
  | some m =>
    cases code with
    | none =>
      simp only [Option.getD_some, Prod.mk.injEq, Option.some.injEq] at h
      obtain ⟨rfl, rfl⟩ := h
      exact auto m
    | some d =>
      dsimp only at h
      split_ifs at h with hm
      · simp only [Prod.mk.injEq, Option.some.injEq] at h
        obtain ⟨rfl, rfl⟩ := h
        unfold settingsOf
        rw [if_neg (by intro he; rw [he] at hm; simp at hm)]
        exact List.mem_map_of_mem hm
      · simp only [Option.getD_some, Prod.mk.injEq, Option.some.injEq] at h
        obtain ⟨rfl, rfl⟩ := h
        exact auto m

/-- C53: a second resolution, from the number and code found, changes nothing. -/
theorem resolve_again (g : Given Str) {n : ℕ} {c : Str} (h : resolve g = some (some n, some c)) (g' : Given Str)
    (h1 : g'.number = some n) (h2 : g'.code = some c) : resolve g' = some (some n, some c) := by
  have hc := resolve_code_valid g h
  unfold settingsOf at hc
  split_ifs at hc with he
  · simp at hc
  · obtain ⟨d, hd, e⟩ := List.mem_map.1 hc
    cases e
    unfold resolve resolveWith resolveFirst
    obtain ⟨n', c', a, r, hh, s⟩ := g'
    simp only at h1 h2
    subst h1; subst h2
    simp only [Option.map_some, hd, if_true]

end Cryspy.SG
