import Verif.Ion.Model
import Verif.Text.SymopLemmas

/-!
# What is read from the symbol of an ion

A symbol is an optional isotope number, the letters of the element in any case, and optionally the charge as digits with a
sign behind them; blanks around it do not matter.
-/

namespace Cryspy.Ion

open Cryspy.Text Cryspy.Den

/-- letters, at least one -/
def Letters (s : Str) : Prop := s ≠ [] ∧ ∀ c ∈ s, c.isAlpha = true

/-- digits, at least one -/
def Digits (s : Str) : Prop := s ≠ [] ∧ ∀ c ∈ s, c.isDigit = true

/-- blanks, possibly none -/
def Blanks (s : Str) : Prop := ∀ c ∈ s, c.isWhitespace = true

/-! ## characters -/

theorem ascii_all {P : Char → Bool} (h : ∀ n < 128, P (Char.ofNat n) = true) {c : Char} (hc : c.toNat < 128) : P c = true := by
  have := h c.toNat hc
  rwa [Char.ofNat_toNat] at this

theorem alpha_ascii {c : Char} (h : c.isAlpha = true) : c.toNat < 128 := by
  simp only [Char.isAlpha, Char.isUpper, Char.isLower, Bool.or_eq_true, decide_eq_true_eq, Bool.and_eq_true, ge_iff_le,
    UInt32.le_iff_toNat_le] at h
  have e1 : (90 : UInt32).toNat = 90 := rfl
  have e2 : (122 : UInt32).toNat = 122 := rfl
  have e3 : c.toNat = c.val.toNat := rfl
  rcases h with ⟨_, h⟩ | ⟨_, h⟩
  · have h' : c.val.toNat ≤ 90 := h
    omega
  · have h' : c.val.toNat ≤ 122 := h
    omega

theorem digit_ascii {c : Char} (h : c.isDigit = true) : c.toNat < 128 := by
  simp only [Char.isDigit, decide_eq_true_eq, Bool.and_eq_true, ge_iff_le, UInt32.le_iff_toNat_le] at h
  have e3 : c.toNat = c.val.toNat := rfl
  have h' : c.val.toNat ≤ 57 := h.2
  omega

theorem alpha_facts {c : Char} (h : c.isAlpha = true) :
    c.isDigit = false ∧ c.isWhitespace = false ∧ c.toLower.isDigit = false ∧ c.toLower.isWhitespace = false ∧
      c.toLower.toUpper = c.toUpper ∧ c.toLower.toLower = c.toLower ∧ c.toLower.isAlpha = true := by
  have := ascii_all (P := fun c => !c.isAlpha || (!c.isDigit && !c.isWhitespace && !c.toLower.isDigit && !c.toLower.isWhitespace &&
      (c.toLower.toUpper == c.toUpper) && (c.toLower.toLower == c.toLower) && c.toLower.isAlpha)) (by decide +kernel) (alpha_ascii h)
  simpa [h, and_assoc] using this

theorem digit_facts {c : Char} (h : c.isDigit = true) : c.toLower = c ∧ c.isWhitespace = false := by
  have := ascii_all (P := fun c => !c.isDigit || ((c.toLower == c) && !c.isWhitespace)) (by decide +kernel) (digit_ascii h)
  simpa [h] using this

theorem sign_facts {c : Char} (h : c ∈ ['+', '-']) : c.toLower = c ∧ c.isDigit = false ∧ c.isWhitespace = false := by
  revert c
  decide

/-! ## pieces -/

theorem lower_append (a b : Str) : lower (a ++ b) = lower a ++ lower b := List.map_append

theorem lower_digits {d : Str} (h : Digits d) : lower d = d := by
  unfold lower
  conv_rhs => rw [← List.map_id d]
  exact List.map_congr_left fun c hc => (digit_facts (h.2 c hc)).1

theorem capitalize_lower {s : Str} (h : Letters s) : capitalize (lower s) = capitalize s := by
  obtain ⟨hn, ha⟩ := h
  cases s with
  | nil => exact absurd rfl hn
  | cons c s =>
    have e := alpha_facts (ha c (by simp))
    change (c.toLower).toUpper :: lower (lower s) = c.toUpper :: lower s
    rw [e.2.2.2.2.1]
    congr 1
    unfold lower
    rw [List.map_map]
    exact List.map_congr_left fun x hx => (alpha_facts (ha x (by simp [hx]))).2.2.2.2.2.1

theorem letters_lower {s : Str} (h : Letters s) : ∀ c ∈ lower s, c.isDigit = false := by
  intro c hc
  obtain ⟨x, hx, rfl⟩ := List.mem_map.1 hc
  exact (alpha_facts (h.2 x hx)).2.2.1

theorem capitalize_length (s : Str) : (capitalize s).length = s.length := by
  cases s with
  | nil => rfl
  | cons c s => simp [capitalize, lower]

theorem dropWhile_blank {w s : Str} (hw : Blanks w) (hs : ∀ c ∈ s, c.isWhitespace = false) :
    (w ++ s).dropWhile Char.isWhitespace = s := by
  induction w with
  | nil => exact dropWhile_none hs
  | cons a w ih =>
    rw [List.cons_append, List.dropWhile_cons_of_pos (hw a (by simp))]
    exact ih fun c hc => hw c (by simp [hc])

theorem strip_blanks {w w' s : Str} (hw : Blanks w) (hw' : Blanks w') (hs : ∀ c ∈ s, c.isWhitespace = false) :
    strip (w ++ s ++ w') = s := by
  unfold strip
  by_cases hn : s = []
  · subst hn
    have h1 : (w ++ [] ++ w').dropWhile Char.isWhitespace = [] := by
      have := dropWhile_blank (w := w ++ w') (s := []) (by
        intro c hc
        rcases List.mem_append.1 hc with h | h
        · exact hw c h
        · exact hw' c h) (by simp)
      simpa using this
    rw [h1]
    rfl
  · have h1 : (w ++ s ++ w').dropWhile Char.isWhitespace = s ++ w' := by
      clear hw'
      rw [List.append_assoc]
      induction w with
      | nil =>
        cases s with
        | nil => exact absurd rfl hn
        | cons a s =>
          rw [List.nil_append, List.cons_append, List.dropWhile_cons_of_neg (by simp [hs a (by simp)])]
      | cons a w ih =>
        rw [List.cons_append, List.dropWhile_cons_of_pos (hw a (by simp))]
        exact ih fun c hc => hw c (by simp [hc])
    rw [h1, List.reverse_append, dropWhile_blank (fun c hc => hw' c (List.mem_reverse.1 hc)) (fun c hc => hs c (List.mem_reverse.1 hc)),
      List.reverse_reverse]

theorem scan_letters {l : Str} (h : ∀ c ∈ l, c.isDigit = false) (i : ℕ) (iso t : Str) :
    scan i iso (l ++ t) = scan (i + l.length) iso t := by
  induction l generalizing i with
  | nil => rfl
  | cons a l ih =>
    rw [List.cons_append, scan, if_neg (by simp [h a (by simp)]), ih (fun c hc => h c (by simp [hc]))]
    rw [List.length_cons]
    congr 1
    omega

theorem scan_digits {d : Str} (h : ∀ c ∈ d, c.isDigit = true) (iso t : Str) :
    scan iso.length iso (d ++ t) = scan (iso ++ d).length (iso ++ d) t := by
  induction d generalizing iso with
  | nil => simp
  | cons a d ih =>
    rw [List.cons_append, scan, if_pos (h a (by simp)), if_pos rfl]
    have := ih (fun c hc => h c (by simp [hc])) (iso ++ [a])
    simp only [List.length_append, List.length_cons, List.length_nil, List.append_assoc, List.cons_append, List.nil_append] at this ⊢
    exact this

theorem scan_charge {d : Str} (h : Digits d) {i : ℕ} {iso : Str} (hi : i ≠ iso.length) (t : Str) :
    scan i iso (d ++ t) = (iso, some i) := by
  obtain ⟨hn, hd⟩ := h
  cases d with
  | nil => exact absurd rfl hn
  | cons a d => rw [List.cons_append, scan, if_pos (hd a (by simp)), if_neg hi]

/-- the value of `digits` with a sign -/
def signed (sign : Char) (d : Str) : ℤ := if sign = '-' then -(natVal d : ℤ) else natVal d

theorem parse_signed {sign : Char} (hs : sign ∈ ['+', '-']) {d : Str} (h : Digits d) : charge (d ++ [sign]) = some (signed sign d) := by
  have hw : ∀ c ∈ sign :: d, c.isWhitespace = false := by
    intro c hc
    rcases List.mem_cons.1 hc with rfl | hc
    · exact (sign_facts hs).2.2
    · exact (digit_facts (h.2 c hc)).2
  have h1 : strip (sign :: d) = sign :: d := by
    have := strip_blanks (w := []) (w' := []) (by intro c hc; cases hc) (by intro c hc; cases hc) hw
    simpa using this
  have h2 : isDigits d = true := by
    unfold isDigits
    simp only [Bool.and_eq_true, Bool.not_eq_true', List.isEmpty_eq_false_iff, List.all_eq_true]
    exact h
  unfold charge
  rw [List.getLast?_append, List.dropLast_concat]
  simp only [List.getLast?_singleton, Option.some_or, Option.bind_eq_bind, Option.bind_some]
  unfold parseInt
  rw [h1]
  rcases List.mem_cons.1 hs with rfl | hs
  · simp only [splitSign, h2, if_true, Bool.false_eq_true, if_false]
    rfl
  · obtain rfl := List.mem_singleton.1 hs
    simp only [splitSign, h2, if_true]
    rfl

/-! ## symbols -/

/-- A symbol without a number: the name of the element in its usual spelling, no charge. -/
theorem symbol_atom {w w' name : Str} (hw : Blanks w) (hw' : Blanks w') (hn : Letters name) :
    symbol (w ++ name ++ w') = some (capitalize name, 0, none) := by
  have hs : strip (w ++ name ++ w') = name := strip_blanks hw hw' fun c hc => (alpha_facts (hn.2 c hc)).2.1
  have hr : scan 0 [] (lower name) = ([], none) := by
    have := scan_letters (letters_lower hn) 0 [] []
    rw [List.append_nil] at this
    rw [this]
    rfl
  unfold symbol
  simp only [hs, hr, List.length_nil, List.drop_zero, if_true, capitalize_lower hn]

/-- Letters, digits and a sign: the name of the element and the charge. -/
theorem symbol_ion {w w' name d : Str} {sign : Char} (hw : Blanks w) (hw' : Blanks w') (hn : Letters name) (hd : Digits d)
    (hsg : sign ∈ ['+', '-']) : symbol (w ++ (name ++ d ++ [sign]) ++ w') = some (capitalize name, signed sign d, none) := by
  have hsl : sign.toLower = sign := (sign_facts hsg).1
  have hs : strip (w ++ (name ++ d ++ [sign]) ++ w') = name ++ d ++ [sign] := strip_blanks hw hw' fun c hc => by
    rcases List.mem_append.1 hc with hc | hc
    · rcases List.mem_append.1 hc with hc | hc
      · exact (alpha_facts (hn.2 c hc)).2.1
      · exact (digit_facts (hd.2 c hc)).2
    · obtain rfl := List.mem_singleton.1 hc
      exact (sign_facts hsg).2.2
  have hl : lower (name ++ d ++ [sign]) = lower name ++ (d ++ [sign]) := by
    rw [lower_append, lower_append, lower_digits hd, List.append_assoc]
    simp only [lower, List.map_cons, List.map_nil, hsl]
  have hlen : (lower name).length = name.length := by simp [lower]
  have hr : scan 0 [] (lower name ++ (d ++ [sign])) = ([], some name.length) := by
    rw [scan_letters (letters_lower hn), Nat.zero_add, hlen]
    refine scan_charge hd ?_ _
    have := hn.1
    cases name with
    | nil => exact absurd rfl this
    | cons _ _ => simp
  unfold symbol
  simp only [hs, hl, hr, List.length_nil, Nat.add_zero, List.drop_zero, if_true]
  have hdr : (lower name ++ (d ++ [sign])).drop name.length = d ++ [sign] := by rw [← hlen, List.drop_left]
  have htk : (lower name ++ (d ++ [sign])).take name.length = lower name := by rw [← hlen, List.take_left]
  rw [hdr, htk, parse_signed hsg hd, capitalize_lower hn]
  rfl

/-- Digits and letters: the isotope and the element, no charge. -/
theorem symbol_isotope {w w' d name : Str} (hw : Blanks w) (hw' : Blanks w') (hd : Digits d) (hn : Letters name) :
    symbol (w ++ (d ++ name) ++ w') = some (capitalize name, 0, some (natVal d)) := by
  have hs : strip (w ++ (d ++ name) ++ w') = d ++ name := strip_blanks hw hw' fun c hc => by
    rcases List.mem_append.1 hc with hc | hc
    · exact (digit_facts (hd.2 c hc)).2
    · exact (alpha_facts (hn.2 c hc)).2.1
  have hl : lower (d ++ name) = d ++ lower name := by rw [lower_append, lower_digits hd]
  have hr : scan 0 [] (d ++ lower name) = (d, none) := by
    have h1 := scan_digits hd.2 [] (lower name)
    have h2 := scan_letters (letters_lower hn) d.length d []
    simp only [List.length_nil, List.nil_append, List.append_nil] at h1 h2
    rw [h1, h2]
    rfl
  unfold symbol
  simp only [hs, hl, hr, List.drop_left, if_neg hd.1, capitalize_lower hn]

/-- A symbol with an isotope and a charge is never read right: whatever is returned, the name of the element is not the one
that is written. -/
theorem symbol_isotope_ion_wrong {w w' d name q : Str} {sign : Char} (hw : Blanks w) (hw' : Blanks w') (hd : Digits d) (hn : Letters name)
    (hq : Digits q) (hsg : sign ∈ ['+', '-']) :
    ∀ r, symbol (w ++ (d ++ name ++ q ++ [sign]) ++ w') = some r → r.1 ≠ capitalize name := by
  intro r hr'
  have hsl : sign.toLower = sign := (sign_facts hsg).1
  have hs : strip (w ++ (d ++ name ++ q ++ [sign]) ++ w') = d ++ name ++ q ++ [sign] := strip_blanks hw hw' fun c hc => by
    rcases List.mem_append.1 hc with hc | hc
    · rcases List.mem_append.1 hc with hc | hc
      · rcases List.mem_append.1 hc with hc | hc
        · exact (digit_facts (hd.2 c hc)).2
        · exact (alpha_facts (hn.2 c hc)).2.1
      · exact (digit_facts (hq.2 c hc)).2
    · obtain rfl := List.mem_singleton.1 hc
      exact (sign_facts hsg).2.2
  have hl : lower (d ++ name ++ q ++ [sign]) = d ++ (lower name ++ (q ++ [sign])) := by
    rw [lower_append, lower_append, lower_append, lower_digits hq, lower_digits hd, List.append_assoc, List.append_assoc]
    simp only [lower, List.map_cons, List.map_nil, hsl]
  have hlen : (lower name).length = name.length := by simp [lower]
  have hnl : 0 < name.length := List.length_pos_iff.2 hn.1
  have hdl : 0 < d.length := List.length_pos_iff.2 hd.1
  have hql : 0 < q.length := List.length_pos_iff.2 hq.1
  have hr : scan 0 [] (d ++ (lower name ++ (q ++ [sign]))) = (d, some (d.length + name.length)) := by
    have h1 := scan_digits hd.2 [] (lower name ++ (q ++ [sign]))
    simp only [List.length_nil, List.nil_append] at h1
    rw [h1, scan_letters (letters_lower hn), hlen]
    exact scan_charge hq (by omega) _
  unfold symbol at hr'
  simp only [hs, hl, hr, if_neg hd.1] at hr'
  obtain ⟨z, _, hz⟩ := Option.bind_eq_some_iff.1 hr'
  obtain rfl := Option.some.inj hz
  intro h
  have hl2 := congrArg List.length h
  simp only [capitalize_length, List.length_drop, List.length_take, List.length_append, hlen, List.length_cons, List.length_nil] at hl2
  omega

/-- Without digits there is no charge: a lone sign stays in the name of the element. -/
theorem symbol_lone_sign {w w' name : Str} {sign : Char} (hw : Blanks w) (hw' : Blanks w') (hn : Letters name) (hsg : sign ∈ ['+', '-']) :
    symbol (w ++ (name ++ [sign]) ++ w') = some (capitalize name ++ [sign], 0, none) := by
  have hsl : sign.toLower = sign ∧ sign.isDigit = false ∧ sign.isWhitespace = false := sign_facts hsg
  have hs : strip (w ++ (name ++ [sign]) ++ w') = name ++ [sign] := strip_blanks hw hw' fun c hc => by
    rcases List.mem_append.1 hc with hc | hc
    · exact (alpha_facts (hn.2 c hc)).2.1
    · obtain rfl := List.mem_singleton.1 hc
      exact hsl.2.2
  have hl : lower (name ++ [sign]) = lower name ++ [sign] := by
    rw [lower_append]
    simp only [lower, List.map_cons, List.map_nil, hsl.1]
  have hr : scan 0 [] (lower name ++ [sign]) = ([], none) := by
    rw [scan_letters (letters_lower hn), scan, if_neg (by simp [hsl.2.1])]
    rfl
  unfold symbol
  simp only [hs, hl, hr, List.length_nil, List.drop_zero, if_true]
  have : capitalize (lower name ++ [sign]) = capitalize name ++ [sign] := by
    rw [← capitalize_lower hn]
    have := hn.1
    cases name with
    | nil => exact absurd rfl this
    | cons c s =>
      simp only [lower, List.map_cons, List.cons_append, capitalize, List.map_append, List.map_nil, hsl.1]
  rw [this]

/-- The reading of some symbols: the example of the docstring, `13C2-`, raises; `2H12+` gives an element `H1`; two digits
without a sign are exchanged; a sign before the digits stays in the name. -/
theorem symbol_examples :
    symbol " fe3+ ".toList = some ("Fe".toList, 3, none) ∧
    symbol "O2-".toList = some ("O".toList, -2, none) ∧
    symbol "57Fe".toList = some ("Fe".toList, 0, some 57) ∧
    symbol "13C2-".toList = none ∧
    symbol "2H12+".toList = some ("H1".toList, 2, some 2) ∧
    symbol "Fe3".toList = some ("Fe".toList, 3, none) ∧
    symbol "Fe12".toList = some ("Fe".toList, 21, none) ∧
    symbol "Fe+3".toList = some ("Fe+".toList, 3, none) := by
  refine ⟨?_, ?_, ?_, ?_, ?_, ?_, ?_, ?_⟩ <;> decide +kernel

end Cryspy.Ion
