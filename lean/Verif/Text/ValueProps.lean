import Verif.Text.SymopLemmas
import Mathlib.Algebra.Order.Floor.Ring
import Mathlib.Tactic.Positivity
import Mathlib.Tactic.GCongr
import Mathlib.Tactic.Ring
import Mathlib.Tactic.LinearCombination

/-!
# C07: value, error and mark as text
-/

namespace Cryspy.Text

/-! ## lemmas -/

theorem find_append {c : Char} {p q : Str} (h : c ∉ p) : find c (p ++ c :: q) = some p.length := by
  unfold find
  induction p with
  | nil => simp [List.findIdx?_cons]
  | cons a p ih =>
    have : a ≠ c := fun e => h (by simp [e])
    rw [List.cons_append, List.findIdx?_cons, ih (fun hc => h (by simp [hc]))]
    simp [this]

theorem sign_ws {sg : Str} {neg : Bool} (hs : SignOf sg neg) : ∀ c ∈ sg, c.isWhitespace = false := by
  intro c hm
  rcases hs with ⟨rfl, _⟩ | ⟨rfl, _⟩ | ⟨rfl, _⟩
  · rw [List.mem_singleton.1 hm]; decide
  · cases hm
  · rw [List.mem_singleton.1 hm]; decide

theorem splitSign_any {sg T : Str} {neg : Bool} (hs : SignOf sg neg) (hT : ∀ c ∈ T.head?, c ≠ '-' ∧ c ≠ '+') :
    splitSign (sg ++ T) = (neg, T) := by
  rcases hs with ⟨rfl, rfl⟩ | ⟨rfl, rfl⟩ | ⟨rfl, rfl⟩
  · rfl
  · rw [List.nil_append]
    unfold splitSign
    split
    · have := hT '-' (by simp); simp at this
    · have := hT '+' (by simp); simp at this
    · rfl
  · rfl

theorem parseFloat_point (fl : ℚ → ℚ) {sg I F : Str} {neg : Bool} (hs : SignOf sg neg) (hI : ∀ c ∈ I, c.isDigit = true)
    (hF : ∀ c ∈ F, c.isDigit = true) (h0 : I ++ F ≠ []) :
    parseFloat fl (sg ++ I ++ '.' :: F) =
      some (fl (if neg then -((natVal (I ++ F) : ℚ) / 10 ^ F.length) else (natVal (I ++ F) : ℚ) / 10 ^ F.length)) := by
  have hws : ∀ c ∈ sg ++ I ++ '.' :: F, c.isWhitespace = false := by
    intro c hm
    simp only [List.mem_append, List.mem_cons] at hm
    rcases hm with (hm | hm) | (rfl | hm)
    · exact sign_ws hs c hm
    · exact isDigit_ws (hI c hm)
    · decide
    · exact isDigit_ws (hF c hm)
  have hsp : splitSign (sg ++ I ++ '.' :: F) = (neg, I ++ '.' :: F) := by
    rw [List.append_assoc]
    apply splitSign_any hs
    intro c hc
    cases I with
    | nil =>
      rw [List.nil_append, List.head?_cons, Option.mem_def, Option.some.injEq] at hc
      rw [← hc]; decide
    | cons a I =>
      rw [List.cons_append, List.head?_cons, Option.mem_def, Option.some.injEq] at hc
      rw [← hc]; exact ⟨isDigit_ne (hI a (by simp)) (by decide), isDigit_ne (hI a (by simp)) (by decide)⟩
  have hspan := span_digits (A := I) (B := '.' :: F) hI (by simp)
  have hspanF := span_digits (A := F) (B := []) hF (by simp)
  rw [List.append_nil] at hspanF
  unfold parseFloat
  rw [strip_none hws]
  dsimp only
  rw [hsp]
  dsimp only
  have hpt : splitPoint ('.' :: F) = (F, []) := by
    show (F.takeWhile Char.isDigit, F.dropWhile Char.isDigit) = _
    rw [hspanF.1, hspanF.2]
  rw [hspan.1, hspan.2, hpt]
  have : (I ++ F).isEmpty = false := by simpa using h0
  simp only [this, Bool.false_eq_true, if_false, Option.map_some]

theorem parseFloat_int (fl : ℚ → ℚ) {sg I : Str} {neg : Bool} (hs : SignOf sg neg) (hI : ∀ c ∈ I, c.isDigit = true)
    (h0 : I ≠ []) :
    parseFloat fl (sg ++ I) = some (fl (if neg then -(natVal I : ℚ) else natVal I)) := by
  have hws : ∀ c ∈ sg ++ I, c.isWhitespace = false := by
    intro c hm
    simp only [List.mem_append] at hm
    rcases hm with hm | hm
    · exact sign_ws hs c hm
    · exact isDigit_ws (hI c hm)
  have hsp : splitSign (sg ++ I) = (neg, I) := by
    have := splitSign_eq hs h0 hI []
    simpa using this
  have hspan := span_digits (A := I) (B := []) hI (by simp)
  rw [List.append_nil] at hspan
  unfold parseFloat
  rw [strip_none hws]
  dsimp only
  rw [hsp]
  dsimp only
  rw [hspan.1, hspan.2]
  rw [show splitPoint [] = ([], []) from rfl]
  simp [h0]

theorem natVal_append (s t : Str) : natVal (s ++ t) = 10 ^ t.length * natVal s + natVal t := by
  unfold natVal
  rw [Nat.ofDigitChars_append, Nat.ofDigitChars_eq_ofDigitChars_zero]

theorem natVal_zeros (s : Str) (h : ∀ c ∈ s, c = '0') : natVal s = 0 := by
  have : s = List.replicate s.length '0' := List.eq_replicate_iff.2 ⟨rfl, h⟩
  rw [this]; unfold natVal; rw [Nat.ofDigitChars_replicate_zero]; simp

theorem natVal_zeros_append {s : Str} (h : ∀ c ∈ s, c = '0') (t : Str) : natVal (s ++ t) = natVal t := by
  rw [natVal_append, natVal_zeros s h]; simp

/-- Digits become zeros. -/
def zeroed (s : Str) : Str := s.map fun c => if c.isDigit then '0' else c

theorem zeroed_digits {s : Str} (h : ∀ c ∈ s, c.isDigit = true) : ∀ c ∈ zeroed s, c = '0' := by
  intro c hc
  obtain ⟨d, hd, rfl⟩ := List.mem_map.1 hc
  simp [h d hd]

theorem zeroed_sign {sg : Str} {neg : Bool} (hs : SignOf sg neg) : zeroed sg = sg := by
  rcases hs with ⟨rfl, _⟩ | ⟨rfl, _⟩ | ⟨rfl, _⟩ <;> decide

theorem zeros_digits {s : Str} (h : ∀ c ∈ s, c = '0') : ∀ c ∈ s, c.isDigit = true := fun c hc => by
  rw [h c hc]; decide

theorem isDigits_iff {D : Str} : isDigits D = true ↔ D ≠ [] ∧ ∀ c ∈ D, c.isDigit = true := by
  unfold isDigits
  simp only [Bool.and_eq_true, Bool.not_eq_true', List.isEmpty_eq_false_iff, List.all_eq_true]

/-- Reading `number(sigma)mark` when the number can be read. -/
theorem readValue_paren (fl : ℚ → ℚ) {s1 sig mark : Str} (h1 : '(' ∉ s1) (h2 : ')' ∉ s1) (hsig : isDigits sig = true)
    {v : ℚ} (hv : parseFloat fl s1 = some v) {e : ℚ}
    (he : parseFloat fl (zeroed (s1.take (s1.length - sig.length)) ++ sig) = some e) :
    readValue fl (s1 ++ '(' :: sig ++ ')' :: mark) = some (some v, some |e|, strip mark) := by
  obtain ⟨hs0, hsd⟩ := isDigits_iff.1 hsig
  have hne : s1 ++ '(' :: sig ++ ')' :: mark ≠ ['.'] := by
    intro h
    have : '(' ∈ (['.'] : Str) := by rw [← h]; simp
    revert this; decide
  have hf1 : find '(' (s1 ++ '(' :: sig ++ ')' :: mark) = some s1.length := by
    rw [List.append_assoc, List.cons_append]; exact find_append h1
  have hf2 : find ')' (s1 ++ '(' :: sig ++ ')' :: mark) = some (s1 ++ '(' :: sig).length := by
    apply find_append
    intro hm
    simp only [List.mem_append, List.mem_cons] at hm
    rcases hm with hm | hm | hm
    · exact h2 hm
    · revert hm; decide
    · have := hsd _ hm; revert this; decide
  have hlen : (s1 ++ '(' :: sig).length = s1.length + 1 + sig.length := by simp; omega
  unfold readValue
  rw [if_neg hne, hf1, hf2, hlen]
  have ht : List.take (s1.length + 1 + sig.length - (s1.length + 1)) ((s1 ++ '(' :: sig ++ ')' :: mark).drop (s1.length + 1)) = sig := by
    rw [List.append_assoc, show s1.length + 1 = (s1 ++ ['(']).length by simp,
      show s1 ++ ('(' :: sig ++ ')' :: mark) = (s1 ++ ['(']) ++ (sig ++ ')' :: mark) by simp, List.drop_left,
      Nat.add_sub_cancel_left, List.take_left]
  have ht1 : (s1 ++ '(' :: sig ++ ')' :: mark).take s1.length = s1 := by
    rw [List.append_assoc]; exact List.take_left
  have ht2 : (s1 ++ '(' :: sig ++ ')' :: mark).drop (s1.length + 1 + sig.length + 1) = mark := by
    rw [show s1.length + 1 + sig.length + 1 = (s1 ++ '(' :: sig ++ [')']).length by simp; omega,
      show s1 ++ '(' :: sig ++ ')' :: mark = (s1 ++ '(' :: sig ++ [')']) ++ mark by simp, List.drop_left]
  dsimp only
  rw [if_pos (by omega), ht, if_pos hsig, ht1, hv]
  dsimp only
  rw [if_pos hs0, ht2]
  unfold zeroed at he
  rw [he]

theorem digits_no {c : Char} (hc : c.isDigit = false) {s : Str} (h : ∀ c ∈ s, c.isDigit = true) : c ∉ s :=
  fun hm => by have := h c hm; rw [hc] at this; cases this

theorem sign_no {sg : Str} {neg : Bool} (hs : SignOf sg neg) {c : Char} (h : c ≠ '+') (h' : c ≠ '-') : c ∉ sg := by
  rcases hs with ⟨rfl, _⟩ | ⟨rfl, _⟩ | ⟨rfl, _⟩ <;> simp [h, h']

theorem abs_sign (neg : Bool) (x : ℚ) (hx : 0 ≤ x) : |if neg then -x else x| = x := by
  cases neg
  · simpa using hx
  · simpa using hx

theorem dropWhile_idem (p : Char → Bool) (s : Str) : (s.dropWhile p).dropWhile p = s.dropWhile p := by
  induction s with
  | nil => rfl
  | cons a s ih =>
    by_cases h : p a
    · simp [h, ih]
    · simp [h]

theorem strip_strip (s : Str) : strip (strip s) = strip s := by
  unfold strip
  generalize ht : s.dropWhile Char.isWhitespace = t
  have h1 : (t.reverse.dropWhile Char.isWhitespace).reverse.dropWhile Char.isWhitespace =
      (t.reverse.dropWhile Char.isWhitespace).reverse := by
    have hpre : (t.reverse.dropWhile Char.isWhitespace).reverse <+: t := by
      rw [← List.reverse_suffix, List.reverse_reverse]; exact List.dropWhile_suffix _
    cases hu : (t.reverse.dropWhile Char.isWhitespace).reverse with
    | nil => rfl
    | cons a u =>
      rw [hu] at hpre
      obtain ⟨r, hr⟩ := hpre
      have : a.isWhitespace = false := by
        have h2 := dropWhile_idem Char.isWhitespace s
        rw [ht, ← hr] at h2
        by_contra hc
        rw [Bool.not_eq_false] at hc
        rw [List.cons_append, List.dropWhile_cons_of_pos hc] at h2
        have := congrArg List.length h2
        have h3 := (List.dropWhile_suffix (l := u ++ r) Char.isWhitespace).length_le
        simp at this h3
        omega
      simp [this]
  rw [h1, List.reverse_reverse, dropWhile_idem]

/-! ## reading -/

/-- reading `I.F(S)mark` in any arithmetic -/
theorem read_decimal_fl (fl : ℚ → ℚ) {sg I F S : Str} {neg : Bool} (hs : SignOf sg neg) (hI : ∀ c ∈ I, c.isDigit = true)
    (hF : ∀ c ∈ F, c.isDigit = true) (hS : ∀ c ∈ S, c.isDigit = true) (hS0 : S ≠ []) (hSF : S.length ≤ F.length) (mark : Str) :
    readValue fl (sg ++ I ++ '.' :: F ++ '(' :: S ++ ')' :: mark) =
      some (some (fl (if neg then -((natVal (I ++ F) : ℚ) / 10 ^ F.length) else (natVal (I ++ F) : ℚ) / 10 ^ F.length)),
        some |fl (if neg then -((natVal S : ℚ) / 10 ^ F.length) else (natVal S : ℚ) / 10 ^ F.length)|, strip mark) := by
  have hF0 : F ≠ [] := by
    rintro rfl
    exact hS0 (List.length_eq_zero_iff.1 (by simpa using hSF))
  have hno : ∀ c : Char, c.isDigit = false → c ≠ '+' → c ≠ '-' → c ≠ '.' → c ∉ sg ++ I ++ '.' :: F := by
    intro c h1 h2 h3 h4 hm
    simp only [List.mem_append, List.mem_cons] at hm
    rcases hm with (hm | hm) | (hm | hm)
    · exact sign_no hs h2 h3 hm
    · exact digits_no h1 hI hm
    · exact h4 hm
    · exact digits_no h1 hF hm
  have hv := parseFloat_point fl hs hI hF (by simp [hF0])
  have htake : (sg ++ I ++ '.' :: F).take ((sg ++ I ++ '.' :: F).length - S.length)
      = sg ++ I ++ '.' :: F.take (F.length - S.length) := by
    rw [show (sg ++ I ++ '.' :: F).length - S.length = (sg ++ I ++ ['.']).length + (F.length - S.length) by
      simp; omega, show sg ++ I ++ '.' :: F = (sg ++ I ++ ['.']) ++ F by simp, List.take_length_add_append]
    simp
  have hz1 := zeroed_digits hI
  have hz2 := zeroed_digits (s := F.take (F.length - S.length)) fun c hc => hF c (List.mem_of_mem_take hc)
  have he : parseFloat fl (zeroed ((sg ++ I ++ '.' :: F).take ((sg ++ I ++ '.' :: F).length - S.length)) ++ S)
      = some (fl (if neg then -((natVal S : ℚ) / 10 ^ F.length) else (natVal S : ℚ) / 10 ^ F.length)) := by
    rw [htake]
    have e1 : zeroed (sg ++ I ++ '.' :: F.take (F.length - S.length)) ++ S =
        sg ++ zeroed I ++ '.' :: (zeroed (F.take (F.length - S.length)) ++ S) := by
      have := zeroed_sign hs
      unfold zeroed at this ⊢
      rw [List.map_append, List.map_append, this, List.map_cons, if_neg (by decide)]
      simp
    rw [e1, parseFloat_point fl hs (zeros_digits hz1) _ (by simp [hS0])]
    · have e2 : (zeroed (F.take (F.length - S.length)) ++ S).length = F.length := by
        simp [zeroed]; omega
      rw [e2, ← List.append_assoc, natVal_zeros_append]
      · intro c hc
        rcases List.mem_append.1 hc with h | h
        · exact hz1 c h
        · exact hz2 c h
    · intro c hc
      rcases List.mem_append.1 hc with h | h
      · exact zeros_digits hz2 c h
      · exact hS c h
  rw [readValue_paren fl (hno '(' (by decide) (by decide) (by decide) (by decide))
    (hno ')' (by decide) (by decide) (by decide) (by decide)) (isDigits_iff.2 ⟨hS0, hS⟩) hv he]

/-- C07, reading: `I.F(S)mark` with no more digits in the parentheses than after the point is the value
`I.F` with the error `S` in units of its last digit, as CIF prescribes. -/
theorem read_decimal {sg I F S : Str} {neg : Bool} (hs : SignOf sg neg) (hI : ∀ c ∈ I, c.isDigit = true)
    (hF : ∀ c ∈ F, c.isDigit = true) (hS : ∀ c ∈ S, c.isDigit = true) (hS0 : S ≠ []) (hSF : S.length ≤ F.length) (mark : Str) :
    readValue id (sg ++ I ++ '.' :: F ++ '(' :: S ++ ')' :: mark) =
      some (some (if neg then -((natVal (I ++ F) : ℚ) / 10 ^ F.length) else (natVal (I ++ F) : ℚ) / 10 ^ F.length),
        some ((natVal S : ℚ) / 10 ^ F.length), strip mark) := by
  rw [read_decimal_fl id hs hI hF hS hS0 hSF mark]
  simp only [id]
  rw [abs_sign _ _ (by positivity)]

/-- C07 fails when reading: with more digits in the parentheses than after the point the point is lost and
the error is taken in whole units, so `5.1(12)` has error 12 and not 1.2. -/
theorem read_wide_error {sg I F S : Str} {neg : Bool} (hs : SignOf sg neg) (hI : ∀ c ∈ I, c.isDigit = true)
    (hF : ∀ c ∈ F, c.isDigit = true) (hI0 : I ≠ []) (hS : ∀ c ∈ S, c.isDigit = true) (hSF : F.length < S.length) (mark : Str) :
    readValue id (sg ++ I ++ '.' :: F ++ '(' :: S ++ ')' :: mark) =
      some (some (if neg then -((natVal (I ++ F) : ℚ) / 10 ^ F.length) else (natVal (I ++ F) : ℚ) / 10 ^ F.length),
        some (natVal S : ℚ), strip mark) := by
  have hS0 : S ≠ [] := by rintro rfl; simp at hSF
  have hno : ∀ c : Char, c.isDigit = false → c ≠ '+' → c ≠ '-' → c ≠ '.' → c ∉ sg ++ I ++ '.' :: F := by
    intro c h1 h2 h3 h4 hm
    simp only [List.mem_append, List.mem_cons] at hm
    rcases hm with (hm | hm) | (hm | hm)
    · exact sign_no hs h2 h3 hm
    · exact digits_no h1 hI hm
    · exact h4 hm
    · exact digits_no h1 hF hm
  have hv := parseFloat_point id hs hI hF (by simp [hI0])
  have htake : ∃ n, (sg ++ I ++ '.' :: F).take ((sg ++ I ++ '.' :: F).length - S.length) = (sg ++ I).take n := by
    refine ⟨(sg ++ I ++ '.' :: F).length - S.length, ?_⟩
    rw [List.take_append_of_le_length]
    simp; omega
  obtain ⟨n, hn⟩ := htake
  have he : ∃ b : Bool, parseFloat id (zeroed ((sg ++ I).take n) ++ S) = some (if b then -(natVal S : ℚ) else natVal S) := by
    rcases hs with ⟨rfl, _⟩ | ⟨rfl, _⟩ | ⟨rfl, _⟩
    all_goals
      rcases n with _ | n
      · refine ⟨false, ?_⟩
        have := parseFloat_int id (sg := []) (neg := false) (Or.inr (Or.inl ⟨rfl, rfl⟩)) hS hS0
        simpa [zeroed] using this
    · refine ⟨true, ?_⟩
      have hz := zeroed_digits (s := I.take n) fun c hc => hI c (List.mem_of_mem_take hc)
      have := parseFloat_int id (sg := ['-']) (neg := true) (I := zeroed (I.take n) ++ S) (Or.inl ⟨rfl, rfl⟩)
        (fun c hc => (List.mem_append.1 hc).elim (fun h => zeros_digits hz c h) (fun h => hS c h)) (by simp [hS0])
      rw [natVal_zeros_append hz] at this
      simpa [zeroed] using this
    · refine ⟨false, ?_⟩
      have hz := zeroed_digits (s := I.take (n+1)) fun c hc => hI c (List.mem_of_mem_take hc)
      have := parseFloat_int id (sg := []) (neg := false) (I := zeroed (I.take (n+1)) ++ S) (Or.inr (Or.inl ⟨rfl, rfl⟩))
        (fun c hc => (List.mem_append.1 hc).elim (fun h => zeros_digits hz c h) (fun h => hS c h)) (by simp [hS0])
      rw [natVal_zeros_append hz] at this
      simpa [zeroed] using this
    · refine ⟨false, ?_⟩
      have hz := zeroed_digits (s := I.take n) fun c hc => hI c (List.mem_of_mem_take hc)
      have := parseFloat_int id (sg := ['+']) (neg := false) (I := zeroed (I.take n) ++ S) (Or.inr (Or.inr ⟨rfl, rfl⟩))
        (fun c hc => (List.mem_append.1 hc).elim (fun h => zeros_digits hz c h) (fun h => hS c h)) (by simp [hS0])
      rw [natVal_zeros_append hz] at this
      simpa [zeroed] using this
  obtain ⟨b, hb⟩ := he
  rw [← hn] at hb
  rw [readValue_paren id (hno '(' (by decide) (by decide) (by decide) (by decide))
    (hno ')' (by decide) (by decide) (by decide) (by decide)) (isDigits_iff.2 ⟨hS0, hS⟩) hv hb, abs_sign _ _ (by positivity)]
  rfl

example : readValue id "-5.12(3)ab ".toList = some (some (-512 / 100), some (3 / 100), ['a', 'b']) := by decide +kernel
example : readValue id "5.1(12)".toList = some (some (51 / 10), some 12, []) := by decide +kernel

/-- reading `I(S)mark` in any arithmetic -/
theorem read_integer_fl (fl : ℚ → ℚ) {sg I S : Str} {neg : Bool} (hs : SignOf sg neg) (hI : ∀ c ∈ I, c.isDigit = true) (hI0 : I ≠ [])
    (hS : ∀ c ∈ S, c.isDigit = true) (hS0 : S ≠ []) (mark : Str) :
    ∃ b : Bool, readValue fl (sg ++ I ++ '(' :: S ++ ')' :: mark) =
      some (some (fl (if neg then -(natVal I : ℚ) else natVal I)), some |fl (if b then -(natVal S : ℚ) else natVal S)|, strip mark) := by
  have hno : ∀ c : Char, c.isDigit = false → c ≠ '+' → c ≠ '-' → c ∉ sg ++ I := by
    intro c h1 h2 h3 hm
    rcases List.mem_append.1 hm with hm | hm
    · exact sign_no hs h2 h3 hm
    · exact digits_no h1 hI hm
  have hv := parseFloat_int fl hs hI hI0
  have he : ∀ n, ∃ b : Bool, parseFloat fl (zeroed ((sg ++ I).take n) ++ S) = some (fl (if b then -(natVal S : ℚ) else natVal S)) := by
    intro n
    rcases hs with ⟨rfl, _⟩ | ⟨rfl, _⟩ | ⟨rfl, _⟩
    all_goals
      rcases n with _ | n
      · refine ⟨false, ?_⟩
        have := parseFloat_int fl (sg := []) (neg := false) (Or.inr (Or.inl ⟨rfl, rfl⟩)) hS hS0
        simpa [zeroed] using this
    · refine ⟨true, ?_⟩
      have hz := zeroed_digits (s := I.take n) fun c hc => hI c (List.mem_of_mem_take hc)
      have := parseFloat_int fl (sg := ['-']) (neg := true) (I := zeroed (I.take n) ++ S) (Or.inl ⟨rfl, rfl⟩)
        (fun c hc => (List.mem_append.1 hc).elim (fun h => zeros_digits hz c h) (fun h => hS c h)) (by simp [hS0])
      rw [natVal_zeros_append hz] at this
      simpa [zeroed] using this
    · refine ⟨false, ?_⟩
      have hz := zeroed_digits (s := I.take (n+1)) fun c hc => hI c (List.mem_of_mem_take hc)
      have := parseFloat_int fl (sg := []) (neg := false) (I := zeroed (I.take (n+1)) ++ S) (Or.inr (Or.inl ⟨rfl, rfl⟩))
        (fun c hc => (List.mem_append.1 hc).elim (fun h => zeros_digits hz c h) (fun h => hS c h)) (by simp [hS0])
      rw [natVal_zeros_append hz] at this
      simpa [zeroed] using this
    · refine ⟨false, ?_⟩
      have hz := zeroed_digits (s := I.take n) fun c hc => hI c (List.mem_of_mem_take hc)
      have := parseFloat_int fl (sg := ['+']) (neg := false) (I := zeroed (I.take n) ++ S) (Or.inr (Or.inr ⟨rfl, rfl⟩))
        (fun c hc => (List.mem_append.1 hc).elim (fun h => zeros_digits hz c h) (fun h => hS c h)) (by simp [hS0])
      rw [natVal_zeros_append hz] at this
      simpa [zeroed] using this
  obtain ⟨b, hb⟩ := he ((sg ++ I).length - S.length)
  exact ⟨b, by rw [readValue_paren fl (hno '(' (by decide) (by decide) (by decide))
    (hno ')' (by decide) (by decide) (by decide)) (isDigits_iff.2 ⟨hS0, hS⟩) hv hb]⟩
/-- C07, reading: integers, `I(S)mark`. -/
theorem read_integer {sg I S : Str} {neg : Bool} (hs : SignOf sg neg) (hI : ∀ c ∈ I, c.isDigit = true) (hI0 : I ≠ [])
    (hS : ∀ c ∈ S, c.isDigit = true) (hS0 : S ≠ []) (mark : Str) :
    readValue id (sg ++ I ++ '(' :: S ++ ')' :: mark) =
      some (some (if neg then -(natVal I : ℚ) else natVal I), some (natVal S : ℚ), strip mark) := by
  obtain ⟨b, hb⟩ := read_integer_fl id hs hI hI0 hS hS0 mark
  rw [hb]
  simp only [id]
  rw [abs_sign _ _ (by positivity)]


/-! ## writing -/

theorem rint_spec (q : ℚ) : |(rint q : ℚ) - q| ≤ 1 / 2 := by
  have h1 := Int.floor_le q
  have h2 := Int.lt_floor_add_one q
  unfold rint
  dsimp only
  rw [abs_le]
  split
  · constructor <;> linarith
  split
  · push_cast; constructor <;> linarith
  split
  · constructor <;> linarith
  · push_cast; constructor <;> linarith

theorem rint_int (n : ℤ) : rint n = n := by
  have := rint_spec n
  rw [abs_le] at this
  have h1 : ((rint n : ℤ) : ℚ) - n < 1 := by linarith [this.2]
  have h2 : (-1 : ℚ) < ((rint n : ℤ) : ℚ) - n := by linarith [this.1]
  have h3 : rint n - n < 1 := by exact_mod_cast h1
  have h4 : -1 < rint n - n := by exact_mod_cast h2
  omega

theorem decades_spec {e : ℚ} (h0 : 0 < e) (h1 : e ≤ 1) : 1 < e * 10 ^ (decades e + 1) ∧ e * 10 ^ decades e ≤ 1 := by
  have hf1 : (1 : ℚ) ≤ 1 / e := by rw [le_div_iff₀ h0]; linarith
  have hpos : ⌊1 / e⌋₊ ≠ 0 := by
    have : 1 ≤ ⌊1 / e⌋₊ := Nat.le_floor (by exact_mod_cast hf1)
    omega
  have ha : 10 ^ decades e ≤ ⌊1 / e⌋₊ := Nat.pow_log_le_self 10 hpos
  have hb : ⌊1 / e⌋₊ < 10 ^ (decades e + 1) := Nat.lt_pow_succ_log_self (by norm_num) _
  constructor
  · have := (Nat.floor_lt (by positivity)).1 hb
    push_cast at this
    rw [div_lt_iff₀ h0] at this
    linarith
  · have := (Nat.le_floor_iff (by positivity)).1 ha
    push_cast at this
    rw [le_div_iff₀ h0] at this
    linarith

/-- `n` written with at least `d` digits. -/
def padded (d n : ℕ) : Str := List.replicate (d - (natStr n).length) '0' ++ natStr n

theorem padded_digits (d n : ℕ) : ∀ c ∈ padded d n, c.isDigit = true := by
  intro c hc
  rcases List.mem_append.1 hc with h | h
  · rw [(List.mem_replicate.1 h).2]; decide
  · exact natStr_digits n c h

theorem padded_val (d n : ℕ) : natVal (padded d n) = n := by
  unfold padded
  rw [natVal_zeros_append (fun c hc => (List.mem_replicate.1 hc).2), natVal_natStr]

theorem padded_length {d n : ℕ} (hd : 0 < d) (h : n < 10 ^ d) : (padded d n).length = d := by
  have : (natStr n).length ≤ d := (Nat.length_toDigits_le_iff (by norm_num) hd).2 h
  unfold padded
  rw [List.length_append, List.length_replicate]; omega

theorem trunc_nat (n : ℕ) : trunc (n : ℚ) = n := by
  unfold trunc
  rw [if_pos (by positivity), Int.floor_natCast]

theorem trunc_int (n : ℤ) : trunc (n : ℚ) = n := by
  unfold trunc
  split
  · rw [Int.floor_intCast]
  · rw [← Int.cast_neg, Int.floor_intCast, neg_neg]

theorem natAbs_trunc (N : ℤ) {p : ℕ} (hp : 0 < p) : |trunc ((N : ℚ) / p)| = (N.natAbs / p : ℕ) := by
  have hq : ∀ n : ℕ, ⌊(n : ℚ) / p⌋ = (n / p : ℕ) := by
    intro n
    rw [Rat.floor_natCast_div_natCast]
    norm_cast
  unfold trunc
  rcases le_or_gt 0 N with h | h
  · obtain ⟨n, rfl⟩ := Int.eq_ofNat_of_zero_le h
    rw [if_pos (by positivity)]
    have := hq n
    push_cast at this ⊢
    rw [this, abs_of_nonneg (by positivity)]
    simp
  · obtain ⟨n, rfl⟩ := Int.exists_eq_neg_ofNat h.le
    have hn : 0 < n := by omega
    rw [if_neg]
    · have := hq n
      push_cast at this ⊢
      rw [neg_div, neg_neg, this, abs_neg, abs_of_nonneg (by positivity)]
      simp
    · push_cast
      rw [neg_div, not_le, neg_lt_zero]
      positivity

theorem fract_part (N : ℤ) {p : ℕ} (hp : 0 < p) :
    (|(N : ℚ) / p| - ⌊|(N : ℚ) / p|⌋) * p = (N.natAbs % p : ℕ) := by
  have hp' : (p : ℚ) ≠ 0 := by positivity
  have h1 : |(N : ℚ) / p| = (N.natAbs : ℚ) / p := by
    rw [abs_div, abs_of_pos (by positivity : (0:ℚ) < p), ← Int.cast_abs, Int.abs_eq_natAbs]; rfl
  rw [h1, Rat.floor_natCast_div_natCast, sub_mul, div_mul_cancel₀ _ hp']
  have := Nat.div_add_mod N.natAbs p
  have h2 : (N.natAbs : ℚ) = p * (N.natAbs / p : ℕ) + (N.natAbs % p : ℕ) := by exact_mod_cast this.symm
  have h3 : (((N.natAbs : ℤ) / (p : ℤ) : ℤ) : ℚ) = ((N.natAbs / p : ℕ) : ℚ) := by
    rw [← Int.natCast_div]; exact Int.cast_natCast _
  rw [h3]
  linear_combination h2

/-- The sign written before a number. -/
def minusIf (b : Bool) : Str := if b then ['-'] else []

theorem minusIf_sign (b : Bool) : SignOf (minusIf b) b := by
  cases b
  · exact Or.inr (Or.inl ⟨rfl, rfl⟩)
  · exact Or.inl ⟨rfl, rfl⟩

theorem intStr_nat (n : ℕ) : intStr (n : ℤ) = natStr n := by
  unfold intStr; rw [if_neg (by omega)]; simp

/-- What is written for an error up to one (exact arithmetic): the value and the error as whole numbers of
the last decimal kept. -/
theorem write_small (repr : ℚ → Str) {v e : ℚ} (h0 : 0 < e) (h1 : e ≤ 1) (mark : Str) :
    ∃ N : ℤ, ∃ M : ℕ, |(N : ℚ) - v * 10 ^ (decades e + 2)| ≤ 1 / 2 ∧ |(M : ℚ) - e * 10 ^ (decades e + 2)| ≤ 1 / 2 ∧
      M = (rint (e * 10 ^ (decades e + 2))).toNat ∧ 10 ≤ M ∧ M ≤ 100 ∧
      writeValue id repr (some v) (some e) mark = some (minusIf (N < 0) ++ natStr (N.natAbs / 10 ^ (decades e + 2)) ++
        '.' :: padded (decades e + 2) (N.natAbs % 10 ^ (decades e + 2)) ++ '(' :: natStr M ++ ')' :: strip mark) := by
  obtain ⟨hk1, hk2⟩ := decades_spec h0 h1
  generalize hd : decades e = k at *
  have hM := rint_spec (e * 10 ^ (k + 2))
  have hlo : 10 < e * 10 ^ (k + 2) := by
    have : e * 10 ^ (k + 2) = 10 * (e * 10 ^ (k + 1)) := by ring
    rw [this]; linarith
  have hhi : e * 10 ^ (k + 2) ≤ 100 := by
    have : e * 10 ^ (k + 2) = 100 * (e * 10 ^ k) := by ring
    rw [this]; linarith
  rw [abs_le] at hM
  have hM10 : 10 ≤ rint (e * 10 ^ (k + 2)) := by
    by_contra hc
    have : rint (e * 10 ^ (k + 2)) ≤ 9 := by omega
    have : (rint (e * 10 ^ (k + 2)) : ℚ) ≤ 9 := by exact_mod_cast this
    linarith [hM.1]
  have hM100 : rint (e * 10 ^ (k + 2)) ≤ 100 := by
    by_contra hc
    have : 101 ≤ rint (e * 10 ^ (k + 2)) := by omega
    have : (101 : ℚ) ≤ rint (e * 10 ^ (k + 2)) := by exact_mod_cast this
    linarith [hM.2]
  have hMn : ((rint (e * 10 ^ (k + 2))).toNat : ℤ) = rint (e * 10 ^ (k + 2)) := Int.toNat_of_nonneg (by omega)
  have hMq : (((rint (e * 10 ^ (k + 2))).toNat : ℕ) : ℚ) = rint (e * 10 ^ (k + 2)) := by exact_mod_cast hMn
  refine ⟨rint (v * 10 ^ (k + 2)), (rint (e * 10 ^ (k + 2))).toNat, rint_spec _, by rw [hMq]; exact rint_spec _, rfl,
    by omega, by omega, ?_⟩
  have hp : 0 < 10 ^ (k + 2) := by positivity
  have hcast : ((10 : ℚ) ^ (k + 2)) = ((10 ^ (k + 2) : ℕ) : ℚ) := by push_cast; rfl
  unfold writeValue
  dsimp only
  rw [if_neg h0.ne']
  rw [if_neg (not_lt.2 h0.le), if_pos h1, hd]
  unfold roundDec
  simp only [id_eq]
  set N := rint (v * 10 ^ (k + 2)) with hNdef
  set M' := rint (e * 10 ^ (k + 2)) with hMdef
  have hs : (if (N : ℚ) / 10 ^ (k + 2) < 0 then ['-'] else ([] : Str)) = minusIf (N < 0) := by
    unfold minusIf
    have : ((N : ℚ) / 10 ^ (k + 2) < 0) ↔ N < 0 := by
      rw [div_lt_iff₀ (by positivity)]; simp
    simp [this]
  rw [hs]
  have hM2 : trunc ((M' : ℚ) / 10 ^ (k + 2) * 10 ^ (k + 2)) = M' := by
    rw [div_mul_cancel₀ _ (by positivity), trunc_int]
  rw [hM2, ← hMn, intStr_nat, Int.toNat_natCast]
  have ht := natAbs_trunc N hp
  have hf := fract_part N hp
  rw [← hcast] at ht hf
  rw [ht, hf, trunc_nat, intStr_nat, intStr_nat]
  rfl

/-- C07 for a positive error in exact arithmetic, unless `0.995 ≤ e ≤ 1`: the text is read back as a value
and an error that differ from the given ones by at most half the last digit written (so by at most a
twentieth of the error, or half a unit for errors above one), with the same mark. -/
theorem value_error_mark (repr : ℚ → Str) (v : ℚ) {e : ℚ} (h0 : 0 < e) (hbad : e < 199 / 200 ∨ 1 < e) (mark : Str) :
    ∃ s v' e', writeValue id repr (some v) (some e) mark = some s ∧
      readValue id s = some (some v', some e', strip mark) ∧ 0 < e' ∧
      (e ≤ 1 → |v' - v| ≤ e / 20 ∧ |e' - e| ≤ e / 20) ∧ (1 < e → |v' - v| ≤ 1 / 2 ∧ |e' - e| ≤ 1 / 2) := by
  rcases le_or_gt e 1 with h1 | h1
  · obtain ⟨N, M, hN, hM, hMr, hM10, hM100, hw⟩ := write_small repr (v := v) h0 h1 mark
    obtain ⟨hk1, hk2⟩ := decades_spec h0 h1
    generalize decades e = k at *
    have hp : (0 : ℚ) < 10 ^ (k + 2) := by positivity
    have hlen : (padded (k + 2) (N.natAbs % 10 ^ (k + 2))).length = k + 2 :=
      padded_length (by omega) (Nat.mod_lt _ (by positivity))
    have hSF : (natStr M).length ≤ k + 2 := by
      refine (Nat.length_toDigits_le_iff (by norm_num) (by omega)).2 ?_
      rcases k with _ | k
      · have he : e < 199 / 200 := hbad.resolve_right (not_lt.2 h1)
        have : (M : ℚ) < 100 := by
          rw [abs_le] at hM
          norm_num at hM
          linarith [hM.2]
        have : M < 100 := by exact_mod_cast this
        simpa using this
      · calc M < 10 ^ 3 := by omega
          _ ≤ 10 ^ (k + 1 + 2) := Nat.pow_le_pow_right (by norm_num) (by omega)
    have hr := read_decimal (minusIf_sign (decide (N < 0))) (natStr_digits (N.natAbs / 10 ^ (k + 2)))
      (padded_digits (k + 2) (N.natAbs % 10 ^ (k + 2))) (natStr_digits M) (natStr_ne_nil M) (by rw [hlen]; exact hSF) (strip mark)
    rw [hlen, natVal_append, hlen, natVal_natStr, padded_val, natVal_natStr, Nat.div_add_mod] at hr
    have hstrip : strip (strip mark) = strip mark := strip_strip mark
    have hval : (if decide (N < 0) = true then -((N.natAbs : ℚ) / 10 ^ (k + 2)) else (N.natAbs : ℚ) / 10 ^ (k + 2)) = N / 10 ^ (k + 2) := by
      have : (N.natAbs : ℚ) = |(N : ℚ)| := by rw [← Int.cast_abs, Int.abs_eq_natAbs]; rfl
      rw [this]
      rcases lt_or_ge N 0 with h | h
      · have hq : (N : ℚ) < 0 := by exact_mod_cast h
        rw [if_pos (by simpa using h), abs_of_neg hq]; ring
      · have hq : (0 : ℚ) ≤ N := by exact_mod_cast h
        rw [if_neg (by simpa using h), abs_of_nonneg hq]
    rw [hval, hstrip] at hr
    have hun : 1 / 2 / (10 : ℚ) ^ (k + 2) ≤ e / 20 := by
      rw [div_le_iff₀ hp]
      have : e / 20 * 10 ^ (k + 2) = (e * 10 ^ (k + 1)) / 2 := by ring
      rw [this]; linarith
    have hscale : ∀ a b : ℚ, |a - b * 10 ^ (k + 2)| ≤ 1 / 2 → |a / 10 ^ (k + 2) - b| ≤ e / 20 := by
      intro a b hab
      have : a / 10 ^ (k + 2) - b = (a - b * 10 ^ (k + 2)) / 10 ^ (k + 2) := by field_simp
      rw [this, abs_div, abs_of_pos hp]
      exact le_trans (div_le_div_of_nonneg_right hab hp.le) hun
    refine ⟨_, _, _, hw, hr, ?_, fun _ => ⟨hscale _ _ hN, hscale _ _ hM⟩, fun h => absurd h (not_lt.2 h1)⟩
    have : (0 : ℚ) < M := by exact_mod_cast (by omega : 0 < M)
    positivity
  · have hM := rint_spec e
    have hMpos : 1 ≤ rint e := by
      rw [abs_le] at hM
      by_contra hc
      have : rint e ≤ 0 := by omega
      have : (rint e : ℚ) ≤ 0 := by exact_mod_cast this
      linarith [hM.1]
    obtain ⟨M, hMe⟩ := Int.eq_ofNat_of_zero_le (by omega : 0 ≤ rint e)
    have hw : writeValue id repr (some v) (some e) mark =
        some (minusIf (rint v < 0) ++ natStr (rint v).natAbs ++ '(' :: natStr M ++ ')' :: strip mark) := by
      unfold writeValue
      dsimp only
      rw [if_neg h0.ne']
      rw [if_neg (not_lt.2 h0.le), if_neg (not_le.2 h1)]
      unfold roundDec
      simp only [pow_zero, mul_one, div_one, id_eq, trunc_int]
      rw [hMe, intStr_nat]
      congr 3
      unfold intStr minusIf
      by_cases h : rint v < 0 <;> simp [h]
    have hr := read_integer (minusIf_sign (decide (rint v < 0))) (natStr_digits (rint v).natAbs) (natStr_ne_nil _)
      (natStr_digits M) (natStr_ne_nil M) (strip mark)
    rw [natVal_natStr, natVal_natStr, strip_strip] at hr
    have hval : (if decide (rint v < 0) = true then -(((rint v).natAbs : ℕ) : ℚ) else ((rint v).natAbs : ℕ)) = rint v := by
      have : (((rint v).natAbs : ℕ) : ℚ) = |(rint v : ℚ)| := by rw [← Int.cast_abs, Int.abs_eq_natAbs]; rfl
      rw [this]
      rcases lt_or_ge (rint v) 0 with h | h
      · have hq : (rint v : ℚ) < 0 := by exact_mod_cast h
        rw [if_pos (by simpa using h), abs_of_neg hq]; ring
      · have hq : (0 : ℚ) ≤ rint v := by exact_mod_cast h
        rw [if_neg (by simpa using h), abs_of_nonneg hq]
    rw [hval] at hr
    have hMq : (M : ℚ) = rint e := by rw [hMe]; simp
    refine ⟨_, _, _, hw, hr, ?_, fun h => absurd h1 (not_lt.2 h), fun _ => ⟨rint_spec v, by rw [hMq]; exact hM⟩⟩
    have : 0 < M := by omega
    exact_mod_cast this

/-- C07 fails for errors from 0.995 to 1: such an error is written `(100)` after two decimals and read
back as 100. -/
theorem error_near_one_wrong (repr : ℚ → Str) (v : ℚ) {e : ℚ} (h0 : 199 / 200 ≤ e) (h1 : e ≤ 1) (mark : Str) :
    ∃ s v', writeValue id repr (some v) (some e) mark = some s ∧
      readValue id s = some (some v', some 100, strip mark) := by
  have hk : decades e = 0 := by
    have hlo : ¬ (10 : ℚ) ≤ 1 / e := by
      rw [le_div_iff₀ (by linarith)]; linarith
    unfold decades
    rw [Nat.log_eq_zero_iff]
    left
    exact (Nat.floor_lt (by positivity)).2 (by push_cast; linarith)
  obtain ⟨N, M, hN, hM, hMr, hM10, hM100, hw⟩ := write_small repr (v := v) (by linarith : 0 < e) h1 mark
  rw [hk] at hw hN hM hMr
  have hM' : M = 100 := by
    have hr : rint (e * 10 ^ (0 + 2)) = 100 := by
      have hx := rint_spec (e * 10 ^ (0 + 2))
      rcases eq_or_lt_of_le h0 with h | h
      · rw [← h]; decide +kernel
      · rw [abs_le] at hx
        have h99 : (99 : ℚ) < rint (e * 10 ^ (0 + 2)) := by norm_num at hx ⊢; linarith [hx.1]
        have : 99 < rint (e * 10 ^ (0 + 2)) := by exact_mod_cast h99
        have h101 : (rint (e * 10 ^ (0 + 2)) : ℚ) < 101 := by norm_num at hx ⊢; linarith [hx.2]
        have : rint (e * 10 ^ (0 + 2)) < 101 := by exact_mod_cast h101
        omega
    rw [hMr, hr]; rfl
  subst hM'
  have hlen : (padded (0 + 2) (N.natAbs % 10 ^ (0 + 2))).length = 2 :=
    padded_length (by omega) (Nat.mod_lt _ (by positivity))
  have hr := read_wide_error (minusIf_sign (decide (N < 0))) (natStr_digits (N.natAbs / 10 ^ (0 + 2)))
    (padded_digits (0 + 2) (N.natAbs % 10 ^ (0 + 2))) (natStr_ne_nil _) (natStr_digits 100)
    (by rw [hlen]; decide) (strip mark)
  rw [natVal_natStr, strip_strip] at hr
  exact ⟨_, _, hw, by exact_mod_cast hr⟩

/-- C07 fails over two saves: an error between 1 and 1.5 becomes 1 after one save and load, and 100 after
the next. -/
theorem two_saves_wrong (repr : ℚ → Str) (v : ℚ) {e : ℚ} (h0 : 1 < e) (h1 : e < 3 / 2) (mark : Str) :
    ∃ s v' s' v'', writeValue id repr (some v) (some e) mark = some s ∧ readValue id s = some (some v', some 1, strip mark) ∧
      writeValue id repr (some v') (some 1) (strip mark) = some s' ∧ readValue id s' = some (some v'', some 100, strip mark) := by
  obtain ⟨s, v', e', hw, hr, hpos, -, herr⟩ := value_error_mark repr v (by linarith : 0 < e) (Or.inr h0) mark
  have he' : e' = 1 := by
    -- the error read is the nearest integer
    have hr2 : rint e = 1 := by
      unfold rint
      have hf : ⌊e⌋ = 1 := by rw [Int.floor_eq_iff]; constructor <;> push_cast <;> linarith
      rw [hf]
      norm_num
      linarith
    have hw' : writeValue id repr (some v) (some e) mark =
        some (minusIf (rint v < 0) ++ natStr (rint v).natAbs ++ '(' :: natStr 1 ++ ')' :: strip mark) := by
      unfold writeValue
      dsimp only
      rw [if_neg (by linarith)]
      rw [if_neg (by linarith), if_neg (by linarith)]
      unfold roundDec
      simp only [pow_zero, mul_one, div_one, id_eq, trunc_int]
      rw [hr2]
      have : intStr 1 = natStr 1 := by decide
      rw [this]
      congr 3
      unfold intStr minusIf
      by_cases h : rint v < 0 <;> simp [h]
    rw [hw'] at hw
    have hs := Option.some.inj hw
    have := read_integer (minusIf_sign (decide (rint v < 0))) (natStr_digits (rint v).natAbs) (natStr_ne_nil _)
      (natStr_digits 1) (natStr_ne_nil 1) (strip mark)
    rw [hs, hr, natVal_natStr] at this
    simp only [Option.some.injEq, Prod.mk.injEq] at this
    rw [this.2.1, natVal_natStr]; norm_num
  subst he'
  obtain ⟨s', v'', hw2, hr2⟩ := error_near_one_wrong repr v' (e := 1) (by norm_num) (by norm_num) (strip mark)
  rw [strip_strip] at hr2
  exact ⟨s, v', s', v'', hw, hr, hw2, hr2⟩

example : writeValue id (fun _ => []) (some (-512 / 100)) (some (37 / 1000)) "ab ".toList = some "-5.120(37)ab".toList := by
  decide +kernel
example : (0 : ℚ) < 37 / 1000 ∧ ((37 : ℚ) / 1000 < 199 / 200 ∨ (1 : ℚ) < 37 / 1000) := by norm_num
example : writeValue id (fun _ => []) (some 512) (some (13 / 10)) [] = some "512(1)".toList ∧
    writeValue id (fun _ => []) (some 512) (some 1) [] = some "512.00(100)".toList := by decide +kernel

/-- C07 in double precision: the last digit can be lost.  0.57 with error 0.5 is written `0.56(50)`. -/
theorem double_precision_wrong : ∀ repr, writeValue fl64 repr (some (fl64 (57 / 100))) (some (fl64 (1 / 2))) [] =
    some "0.56(50)".toList := by
  intro repr
  have : writeValue fl64 (fun _ => []) (some (fl64 (57 / 100))) (some (fl64 (1 / 2))) [] = some "0.56(50)".toList := by
    decide +kernel
  rw [← this]
  have h : fl64 (1 / 2) = 1 / 2 := by decide +kernel
  unfold writeValue
  dsimp only
  rw [h]
  simp only [show ¬((1 / 2 : ℚ) = 0) by norm_num, if_false]

/-- C07: a fixed parameter (no error) has no parentheses and is read back without an error, whatever text
Python uses for the number, provided that text denotes the number. -/
theorem fixed_round_trip (repr : ℚ → Str) (v : ℚ) (hr : parseFloat id (repr v) = some v) (hp : '(' ∉ repr v) (mark : Str) :
    ∃ s, writeValue id repr (some v) none mark = some s ∧ readValue id s = some (some v, none, []) := by
  refine ⟨repr v, rfl, ?_⟩
  have h1 : repr v ≠ ['.'] := by
    intro h; rw [h] at hr
    have : parseFloat id ['.'] = none := by decide +kernel
    rw [this] at hr; cases hr
  have h2 : find '(' (repr v) = none := by
    unfold find
    rw [List.findIdx?_eq_none_iff]
    intro c hc
    have : c ≠ '(' := fun h => hp (h ▸ hc)
    simpa using this
  unfold readValue
  rw [if_neg h1, h2, hr]

/-- C07: zero error is written `v()mark` and read back as zero error with the mark. -/
theorem zero_error_round_trip (repr : ℚ → Str) (v : ℚ) (hr : parseFloat id (repr v) = some v) (hp : '(' ∉ repr v)
    (hq : ')' ∉ repr v) (mark : Str) :
    ∃ s, writeValue id repr (some v) (some 0) mark = some s ∧ readValue id s = some (some v, some 0, strip mark) := by
  refine ⟨repr v ++ '(' :: ')' :: strip mark, by simp [writeValue], ?_⟩
  have hne : repr v ++ '(' :: ')' :: strip mark ≠ ['.'] := by
    intro h
    have : '(' ∈ (['.'] : Str) := by rw [← h]; simp
    revert this; decide
  have hf1 : find '(' (repr v ++ '(' :: ')' :: strip mark) = some (repr v).length := find_append hp
  have hf2 : find ')' (repr v ++ '(' :: ')' :: strip mark) = some ((repr v).length + 1) := by
    have := find_append (c := ')') (p := repr v ++ ['(']) (q := strip mark) (by simp [hq])
    simpa using this
  have hd : (repr v ++ '(' :: ')' :: strip mark).drop ((repr v).length + 1 + 1) = strip mark := by
    rw [show (repr v).length + 1 + 1 = (repr v ++ ['(', ')']).length by simp,
      show repr v ++ '(' :: ')' :: strip mark = (repr v ++ ['(', ')']) ++ strip mark by simp, List.drop_left]
  unfold readValue
  rw [if_neg hne, hf1, hf2]
  dsimp only
  rw [List.take_left, hr, hd, strip_strip]
  simp [isDigits]

/-- Python writes 5/4 as `1.25`. -/
example : parseFloat id "1.25".toList = some (5 / 4) ∧ '(' ∉ "1.25".toList ∧ ')' ∉ "1.25".toList := by decide +kernel

/-- C07: `.` is read as undefined; an undefined value is written as `None` (not `.`), which is also read as
undefined. -/
theorem undefined_value (fl : ℚ → ℚ) (repr : ℚ → Str) (mark : Str) :
    readValue fl ['.'] = some (none, none, []) ∧ writeValue fl repr none none mark = some "None".toList ∧
      readValue fl "None".toList = some (none, none, []) := by
  refine ⟨rfl, rfl, ?_⟩
  have : find '(' "None".toList = none := by decide
  unfold readValue
  rw [if_neg (by decide), this]
  have : parseFloat fl "None".toList = none := by
    have hs : strip "None".toList = "None".toList := by decide
    unfold parseFloat
    rw [hs]
    rfl
  rw [this]

end Cryspy.Text
