import Verif.Text.Model
import Mathlib.Data.List.TakeWhile
import Mathlib.Data.Rat.Lemmas
import Mathlib.Tactic.FieldSimp
import Mathlib.Tactic.Linarith

/-!
# Lemmas about the text of symmetry operations
-/

namespace Cryspy.Text

/-! ## characters -/

/-- A character that can stand for a coordinate: not a digit, sign, separator or blank. -/
def GoodLabel (c : Char) : Prop :=
  c.isDigit = false ∧ c.isWhitespace = false ∧ c ≠ '+' ∧ c ≠ '-' ∧ c ≠ '/' ∧ c ≠ ',' ∧ c ≠ '(' ∧ c ≠ ')' ∧ c ≠ '.'

theorem natStr_digits (n : ℕ) : ∀ c ∈ natStr n, c.isDigit = true := fun _ hc =>
  Nat.isDigit_of_mem_toDigits (by decide) (by decide) hc

theorem natStr_ne_nil (n : ℕ) : natStr n ≠ [] := Nat.toDigits_ne_nil

theorem natVal_natStr (n : ℕ) : natVal (natStr n) = n := Nat.ofDigitChars_ten_toDigits

theorem isDigit_ws {c : Char} (h : c.isDigit = true) : c.isWhitespace = false := by
  rw [Bool.eq_false_iff]
  intro hw
  simp only [Char.isWhitespace, Bool.or_eq_true, decide_eq_true_eq] at hw
  rcases hw with (((hw | hw) | hw) | hw) <;> subst hw <;> revert h <;> decide

theorem isDigit_ne {c d : Char} (h : c.isDigit = true) (hd : d.isDigit = false) : c ≠ d := by
  rintro rfl; rw [h] at hd; cases hd

/-! ## lists -/

theorem words_word (w rest : Str) (hw : w ≠ []) (hc : ∀ c ∈ w, c.isWhitespace = false)
    (hr : rest = [] ∨ ∃ c s, rest = c :: s ∧ c.isWhitespace = true) : words (w ++ rest) = w :: words rest := by
  induction w with
  | nil => exact absurd rfl hw
  | cons a w ih =>
    have ha : a.isWhitespace = false := hc a (by simp)
    cases w with
    | nil =>
      rcases hr with rfl | ⟨c, s, rfl, hcs⟩
      · simp [words, ha]
      · simp [words, ha, hcs]
    | cons b w =>
      have hb : b.isWhitespace = false := hc b (by simp)
      have := ih (by simp) (fun c h => hc c (by simp [h]))
      rw [List.cons_append, List.cons_append] at *
      rw [words]
      rw [if_neg (by simp [ha])]
      simp only [hb, Bool.false_eq_true, if_false]
      rw [this]

theorem words_space (s : Str) : words (' ' :: s) = words s := by
  simp [words]

theorem dropWhile_none {p : Char → Bool} {s : Str} (h : ∀ c ∈ s, p c = false) : s.dropWhile p = s := by
  cases s with
  | nil => rfl
  | cons a s => simp [h a (by simp)]

theorem strip_none {s : Str} (h : ∀ c ∈ s, c.isWhitespace = false) : strip s = s := by
  unfold strip
  rw [dropWhile_none h, dropWhile_none (by simpa using h), List.reverse_reverse]

theorem replaceChar_none {c : Char} {b s : Str} (h : c ∉ s) : replaceChar c b s = s := by
  unfold replaceChar
  induction s with
  | nil => rfl
  | cons a s ih =>
    have : a ≠ c := fun e => h (by simp [e])
    simp [this, ih (fun hc => h (by simp [hc]))]

theorem replaceChar_append (c : Char) (b s t : Str) :
    replaceChar c b (s ++ t) = replaceChar c b s ++ replaceChar c b t := by
  simp [replaceChar]

theorem replaceChar_cons_self (c : Char) (b s : Str) : replaceChar c b (c :: s) = b ++ replaceChar c b s := by
  simp [replaceChar]

theorem replaceChar_cons_ne {c a : Char} (h : a ≠ c) (b s : Str) : replaceChar c b (a :: s) = a :: replaceChar c b s := by
  simp [replaceChar, h]

theorem insertOne_none {a : Char} {s : Str} (h : a ∉ s) : insertOne a s = s := by
  induction s with
  | nil => rfl
  | cons c s ih =>
    have : c ≠ a := fun e => h (by simp [e])
    simp [insertOne, this, ih (fun hc => h (by simp [hc]))]

theorem splitComma_none {s : Str} (h : ',' ∉ s) : splitComma s = [s] := by
  induction s with
  | nil => rfl
  | cons c s ih =>
    have : c ≠ ',' := fun e => h (by simp [e])
    simp [splitComma, this, ih (fun hc => h (by simp [hc]))]

theorem splitComma_append {s : Str} (h : ',' ∉ s) (t : Str) : splitComma (s ++ ',' :: t) = s :: splitComma t := by
  induction s with
  | nil => simp [splitComma]
  | cons c s ih =>
    have : c ≠ ',' := fun e => h (by simp [e])
    simp [splitComma, this, ih (fun hc => h (by simp [hc]))]

theorem splitComma_join (l : List Str) (hl : l ≠ []) (h : ∀ s ∈ l, ',' ∉ s) :
    splitComma (l.intersperse [',']).flatten = l := by
  induction l with
  | nil => exact absurd rfl hl
  | cons a l ih =>
    cases l with
    | nil => simpa using splitComma_none (h a (by simp))
    | cons b l =>
      have := ih (by simp) (fun s hs => h s (by simp [hs]))
      rw [List.intersperse_cons_cons, List.flatten_cons, List.flatten_cons, List.singleton_append,
        splitComma_append (h a (by simp)), this]

theorem mapM_some {α β : Type} {f : α → Option β} {l : List α} {m : List β}
    (h : List.Forall₂ (fun a b => f a = some b) l m) : l.mapM f = some m := by
  induction h with
  | nil => rfl
  | cons h _ ih => simp [h, ih]

/-! ## limit_denominator -/

theorem den_mkRat_le (p : ℤ) (q : ℤ) (h : q ≤ 10) : (mkRat p q.toNat).den ≤ 10 := by
  rcases Nat.eq_zero_or_pos q.toNat with h0 | h0
  · rw [h0]; simp [mkRat]
  · have : (mkRat p q.toNat).den ∣ q.toNat := by
      have := Rat.den_dvd p q.toNat
      rw [← Rat.mkRat_eq_divInt] at this
      exact_mod_cast this
    have := Nat.le_of_dvd h0 this
    omega

theorem limitLoop_den (full : ℕ) (p0 q0 p1 q1 n : ℤ) (d : ℕ) (h0 : q0 ≤ 10) (h1 : q1 ≤ 10) :
    (limitLoop 10 full p0 q0 p1 q1 n d).den ≤ 10 := by
  induction d using Nat.strong_induction_on generalizing p0 q0 p1 q1 n with
  | _ d ih =>
    rw [limitLoop]
    split
    · exact den_mkRat_le _ _ h1
    · rename_i hd
      dsimp only
      split
      · split
        · exact den_mkRat_le _ _ h1
        · apply den_mkRat_le
          rcases eq_or_ne q1 0 with hq | hq
          · subst hq; simpa using h0
          · have := Int.ediv_mul_le (10 - q0) hq
            linarith
      · rename_i hq
        apply ih
        · have := Int.emod_lt_of_pos n (by omega : (0:ℤ) < d)
          have := Int.emod_nonneg n (by omega : (d:ℤ) ≠ 0)
          omega
        · exact h1
        · push Not at hq; exact hq

theorem limitDen_den (q : ℚ) : (limitDen q).den ≤ 10 := by
  unfold limitDen
  split
  · assumption
  · exact limitLoop_den _ _ _ _ _ _ _ (by norm_num) (by norm_num)

theorem limitDen_of_le {q : ℚ} (h : q.den ≤ 10) : limitDen q = q := by
  unfold limitDen; rw [if_pos h]

/-! ## one term -/

/-- A sign that can stand before a term. -/
def SignOf (sg : Str) (neg : Bool) : Prop := (sg = ['-'] ∧ neg = true) ∨ (sg = [] ∧ neg = false) ∨ (sg = ['+'] ∧ neg = false)

/-- Digits, then nothing or a slash and digits. -/
structure Frac (A B : Str) (v : ℚ) : Prop where
  dig : ∀ c ∈ A, c.isDigit = true
  form : (B = [] ∧ v = natVal (if A = [] then ['1'] else A)) ∨
    (∃ D, B = '/' :: D ∧ D ≠ [] ∧ (∀ c ∈ D, c.isDigit = true) ∧ natVal D ≠ 0 ∧
      v = (natVal (if A = [] then ['1'] else A) : ℚ) / natVal D)

theorem fixTerm_eq {c : Char} (hc : GoodLabel c) {sg A B : Str} {neg : Bool} (hs : SignOf sg neg) {v : ℚ}
    (h : Frac A B v) : fixTerm c (sg ++ A ++ c :: B) = sg ++ (if A = [] then ['1'] else A) ++ B := by
  have hB : c ∉ B := by
    rcases h.form with ⟨rfl, _⟩ | ⟨D, rfl, _, hD, _⟩
    · simp
    · intro hm
      rcases List.mem_cons.1 hm with rfl | hm
      · exact hc.2.2.2.2.1 rfl
      · have := hD c hm; rw [hc.1] at this; cases this
  have hA : c ∉ A := fun hm => by have := h.dig c hm; rw [hc.1] at this; cases this
  have hBn : ∀ d, d.isDigit = false → d ≠ '/' → d ∉ B := by
    intro d hd hne
    rcases h.form with ⟨rfl, _⟩ | ⟨D, rfl, _, hD, _⟩
    · simp
    · intro hm
      rcases List.mem_cons.1 hm with rfl | hm
      · exact hne rfl
      · have := hD d hm; rw [hd] at this; cases this
  have hAn : ∀ d, d.isDigit = false → d ∉ A := fun d hd hm => by have := h.dig d hm; rw [hd] at this; cases this
  have hsc : c ∉ sg := by
    rcases hs with ⟨rfl, _⟩ | ⟨rfl, _⟩ | ⟨rfl, _⟩
    · simpa using hc.2.2.2.1
    · simp
    · simpa using hc.2.2.1
  have hrep : replaceChar c [] (sg ++ A ++ c :: B) = sg ++ (A ++ B) := by
    rw [replaceChar_append, replaceChar_append, replaceChar_none hsc, replaceChar_none hA, replaceChar_cons_self,
      replaceChar_none hB]
    simp
  have hno : ∀ d, d.isDigit = false → d ≠ '/' → d ∉ A ++ B := fun d h1 h2 hm =>
    (List.mem_append.1 hm).elim (hAn d h1) (hBn d h1 h2)
  have hp : '+' ∉ A ++ B := hno '+' (by decide) (by decide)
  have hm : '-' ∉ A ++ B := hno '-' (by decide) (by decide)
  have hhead : (A ++ B).head? = some '/' ↔ A = [] ∧ B ≠ [] := by
    cases A with
    | nil =>
      rcases h.form with ⟨rfl, _⟩ | ⟨D, rfl, _⟩ <;> simp
    | cons a A =>
      have : a ≠ '/' := isDigit_ne (h.dig a (by simp)) (by decide)
      simp [this]
  have hlast : ∀ d, d.isDigit = false → d ≠ '/' → ∀ t : Str, t ≠ [] → (∀ x ∈ t, x.isDigit = true ∨ x ∈ B) →
      ∀ pre : Str, (pre ++ t).getLast? ≠ some d := by
    intro d hd hne t ht hx pre hl
    rw [List.getLast?_append_of_ne_nil _ ht] at hl
    have := List.mem_of_getLast? hl
    rcases hx d this with h1 | h1
    · rw [hd] at h1; cases h1
    · exact hBn d hd hne h1
  unfold fixTerm
  rw [hrep]
  -- after the two insertions
  have hins : insertOne '-' (insertOne '+' (sg ++ (A ++ B))) =
      if sg = [] then A ++ B else if A = [] ∧ B ≠ [] then sg ++ '1' :: B else sg ++ (A ++ B) := by
    rcases hs with ⟨rfl, _⟩ | ⟨rfl, _⟩ | ⟨rfl, _⟩
    · rw [insertOne_none (a := '+') (by simpa using hp)]
      simp only [List.singleton_append, insertOne, true_and, insertOne_none hm]
      simp only [hhead]
      split
      · rename_i h1; simp [h1.1]
      · simp
    · simp only [List.nil_append, if_true]
      rw [insertOne_none hp, insertOne_none hm]
    · have h1 : insertOne '+' (['+'] ++ (A ++ B)) = if A = [] ∧ B ≠ [] then '+' :: '1' :: B else '+' :: (A ++ B) := by
        simp only [List.singleton_append, insertOne, true_and, insertOne_none hp]
        simp only [hhead]
        split
        · rename_i h1; simp [h1.1]
        · rfl
      rw [h1]
      simp only [List.singleton_append, List.cons_ne_self, if_false]
      split
      · rw [insertOne_none]
        rename_i h2
        simp only [List.mem_cons, not_or]
        exact ⟨by decide, by decide, fun hmm => hm (by simp [hmm])⟩
      · rw [insertOne_none]
        simp only [List.mem_cons, not_or]
        exact ⟨by decide, hm⟩
  rw [hins]
  have hdig1 : ∀ x ∈ ['1'] ++ B, x.isDigit = true ∨ x ∈ B := by
    intro x hx
    rcases List.mem_append.1 hx with h1 | h1
    · left; rw [List.mem_singleton.1 h1]; decide
    · exact Or.inr h1
  have hdigA : ∀ x ∈ A ++ B, x.isDigit = true ∨ x ∈ B := by
    intro x hx
    rcases List.mem_append.1 hx with h1 | h1
    · exact Or.inl (h.dig x h1)
    · exact Or.inr h1
  have e1 : ∀ pre : Str, (pre ++ (['1'] ++ B)).getLast? ≠ some '+' := hlast '+' (by decide) (by decide) _ (by simp) hdig1
  have e2 : ∀ pre : Str, (pre ++ (['1'] ++ B)).getLast? ≠ some '-' := hlast '-' (by decide) (by decide) _ (by simp) hdig1
  by_cases hA0 : A = []
  · subst hA0
    simp only [List.nil_append, true_and, if_true]
    by_cases hB0 : B = []
    · subst hB0
      rcases hs with ⟨rfl, _⟩ | ⟨rfl, _⟩ | ⟨rfl, _⟩ <;> decide
    · rcases h.form with ⟨rfl, _⟩ | ⟨D, rfl, hD0, hD, _⟩
      · exact absurd rfl hB0
      · have f1 := e1 []; have f2 := e2 []
        have g1 := e1 sg; have g2 := e2 sg
        rcases hs with ⟨rfl, _⟩ | ⟨rfl, _⟩ | ⟨rfl, _⟩ <;> simp_all
  · have f1 : ∀ pre : Str, (pre ++ (A ++ B)).getLast? ≠ some '+' :=
      hlast '+' (by decide) (by decide) _ (by simp [hA0]) hdigA
    have f2 : ∀ pre : Str, (pre ++ (A ++ B)).getLast? ≠ some '-' :=
      hlast '-' (by decide) (by decide) _ (by simp [hA0]) hdigA
    have hh : ∀ pre : Str, (pre = ['-'] ∨ pre = [] ∨ pre = ['+']) → (pre ++ (A ++ B)).head? ≠ some '/' := by
      rintro pre (rfl | rfl | rfl)
      · simp
      · rw [List.nil_append, ne_eq, hhead]; simp [hA0]
      · simp
    have hsg : sg = ['-'] ∨ sg = [] ∨ sg = ['+'] := by
      rcases hs with ⟨rfl, _⟩ | ⟨rfl, _⟩ | ⟨rfl, _⟩ <;> simp
    have hsum : (if sg = [] then A ++ B else if A = [] ∧ B ≠ [] then sg ++ '1' :: B else sg ++ (A ++ B)) = sg ++ (A ++ B) := by
      split
      · simp [*]
      · simp [hA0]
    rw [hsum]
    have hne : sg ++ (A ++ B) ≠ [] := by simp [hA0]
    simp only [hne, if_false, hh sg hsg, f1 sg, f2 sg, hA0, List.append_assoc]

theorem span_digits {A B : Str} (hA : ∀ c ∈ A, c.isDigit = true) (hB : ∀ c ∈ B.head?, c.isDigit = false) :
    (A ++ B).takeWhile Char.isDigit = A ∧ (A ++ B).dropWhile Char.isDigit = B := by
  constructor
  · rw [List.takeWhile_append_of_pos hA]
    cases B with
    | nil => simp
    | cons b B => simp [hB b (by simp)]
  · rw [List.dropWhile_append_of_pos hA]
    cases B with
    | nil => simp
    | cons b B => simp [hB b (by simp)]

theorem splitSign_eq {sg A : Str} {neg : Bool} (hs : SignOf sg neg) (hA0 : A ≠ []) (hA : ∀ c ∈ A, c.isDigit = true)
    (B : Str) : splitSign (sg ++ A ++ B) = (neg, A ++ B) := by
  rcases hs with ⟨rfl, rfl⟩ | ⟨rfl, rfl⟩ | ⟨rfl, rfl⟩
  · rfl
  · obtain ⟨a, A', rfl⟩ := List.exists_cons_of_ne_nil hA0
    have h1 : a ≠ '-' := isDigit_ne (hA a (by simp)) (by decide)
    have h2 : a ≠ '+' := isDigit_ne (hA a (by simp)) (by decide)
    simp only [List.nil_append, List.cons_append]
    unfold splitSign
    split
    · simp_all
    · simp_all
    · rfl
  · rfl

theorem parseFraction_eq {sg A B : Str} {neg : Bool} (hs : SignOf sg neg) (hA0 : A ≠ []) {v : ℚ} (h : Frac A B v) :
    parseFraction (sg ++ A ++ B) = some (if neg then -v else v) := by
  have hws : ∀ c ∈ sg ++ A ++ B, c.isWhitespace = false := by
    intro c hm
    rcases List.mem_append.1 hm with hm | hm
    · rcases List.mem_append.1 hm with hm | hm
      · rcases hs with ⟨rfl, _⟩ | ⟨rfl, _⟩ | ⟨rfl, _⟩
        · rw [List.mem_singleton.1 hm]; decide
        · cases hm
        · rw [List.mem_singleton.1 hm]; decide
      · exact isDigit_ws (h.dig c hm)
    · rcases h.form with ⟨rfl, _⟩ | ⟨D, rfl, _, hD, _⟩
      · cases hm
      · rcases List.mem_cons.1 hm with rfl | hm
        · decide
        · exact isDigit_ws (hD c hm)
  have hmatch : splitSign (sg ++ A ++ B) = (neg, A ++ B) := splitSign_eq hs hA0 h.dig B
  unfold parseFraction
  rw [strip_none hws]
  dsimp only
  rw [hmatch]
  dsimp only
  have hBh : ∀ c ∈ B.head?, c.isDigit = false := by
    rcases h.form with ⟨rfl, _⟩ | ⟨D, rfl, _⟩
    · simp
    · simp
  rw [(span_digits h.dig hBh).1, (span_digits h.dig hBh).2]
  rcases h.form with ⟨rfl, hv⟩ | ⟨D, rfl, hD0, hD, hDn, hv⟩
  · simp [hA0, hv]
  · have hid : isDigits D = true := by
      unfold isDigits
      simp only [Bool.and_eq_true, Bool.not_eq_true', List.isEmpty_eq_false_iff, List.all_eq_true]
      exact ⟨hD0, hD⟩
    simp [hA0, hv, hid, hDn]

end Cryspy.Text
