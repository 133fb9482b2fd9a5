import Verif.Cif.Model

/-!
# C63: the line of a loop row

`LoopN.to_cif` writes each item of a loop as a line.  Here the line is split as the CIF syntax prescribes.
-/

namespace Cryspy.Cif.Row

open Text (Str)

/-! ## Specification: the values on a line of a CIF file -/

inductive State where
  | blank
  | word (acc : Str)
  | quoted (q : Char) (acc : Str)

/-- CIF 1.1: values are separated by white space; a value that begins with a quote ends at the next such quote before white space or
the end; `#` at the beginning of a value begins a comment. -/
def scan : State → Str → List Str
  | .blank, [] => []
  | .blank, c :: s =>
    if c.isWhitespace then scan .blank s
    else if c = '#' then []
    else if c = '"' ∨ c = '\'' then scan (.quoted c []) s
    else scan (.word [c]) s
  | .word a, [] => [a.reverse]
  | .word a, c :: s => if c.isWhitespace then a.reverse :: scan .blank s else scan (.word (c :: a)) s
  | .quoted _ a, [] => [a.reverse]
  | .quoted q a, c :: s =>
    if c = q ∧ (s.headD ' ').isWhitespace then a.reverse :: scan .blank s else scan (.quoted q (c :: a)) s

/-- The values on a line. -/
def values (line : Str) : List Str := scan .blank line

/-! ## Model -/

/-- The text of a value in a loop, cl_2_loop.py:399-403, 406-411: between quotes if it has a space or begins with an
underscore, then `rjust(n)`. -/
def cell (n : ℕ) (s : Str) : Str :=
  let t := if ' ' ∈ s ∨ s.head? = some '_' then '"' :: s ++ ['"'] else s
  List.replicate (n - t.length) ' ' ++ t

/-- Width of a column, cl_2_loop.py:398, 405. -/
def width (column : List Str) : ℕ := (column.map List.length).foldl max 0 + 2

/-- The line of an item, cl_2_loop.py:413-415: `" ".join`. -/
def line : List (ℕ × Str) → Str
  | [] => []
  | p :: l => cell p.1 p.2 ++ match l with
    | [] => []
    | q :: t => ' ' :: line (q :: t)

/-! ## Properties -/

/-- Texts that survive: not empty, not beginning with `"`, `'` or `#`, one line, and no `"` before a blank. -/
structure Plain (s : Str) : Prop where
  ne : s ≠ []
  head : s.head? ≠ some '"' ∧ s.head? ≠ some '\'' ∧ s.head? ≠ some '#'
  ws : ∀ c ∈ s, c.isWhitespace = true → c = ' '
  quote : ' ' ∈ s ∨ s.head? = some '_' → '"' ∉ s

theorem blank_cons (c : Char) (s : Str) : scan .blank (c :: s) = if c.isWhitespace then scan .blank s else if c = '#' then []
    else if c = '"' ∨ c = '\'' then scan (.quoted c []) s else scan (.word [c]) s := by rw [scan]

theorem space_cons (s : Str) : scan .blank (' ' :: s) = scan .blank s := by rw [blank_cons, if_pos (by decide)]

theorem word_cons (a : Str) (c : Char) (s : Str) : scan (.word a) (c :: s) =
    if c.isWhitespace then a.reverse :: scan .blank s else scan (.word (c :: a)) s := by rw [scan]

theorem quoted_cons (q : Char) (a : Str) (c : Char) (s : Str) : scan (.quoted q a) (c :: s) =
    if c = q ∧ (s.headD ' ').isWhitespace then a.reverse :: scan .blank s else scan (.quoted q (c :: a)) s := by rw [scan]

theorem scan_blanks (k : ℕ) (s : Str) : scan .blank (List.replicate k ' ' ++ s) = scan .blank s := by
  induction k with
  | zero => rfl
  | succ k ih =>
    rw [List.replicate_succ, List.cons_append, space_cons, ih]

theorem scan_word (a s r : Str) (hs : ∀ c ∈ s, c.isWhitespace = false) (hr : r = [] ∨ ∃ r', r = ' ' :: r') :
    scan (.word a) (s ++ r) = (a.reverse ++ s) :: scan .blank r := by
  induction s generalizing a with
  | nil =>
    rw [List.nil_append, List.append_nil]
    rcases hr with rfl | ⟨r', rfl⟩
    · rfl
    · rw [word_cons, if_pos (by decide), space_cons]
  | cons c s ih =>
    rw [List.cons_append, word_cons]
    rw [if_neg (by rw [hs c (by simp)]; simp), ih (c :: a) fun b hb => hs b (by simp [hb])]
    simp

theorem scan_quoted (a s r : Str) (hs : '"' ∉ s) (hr : r = [] ∨ ∃ r', r = ' ' :: r') :
    scan (.quoted '"' a) (s ++ '"' :: r) = (a.reverse ++ s) :: scan .blank r := by
  induction s generalizing a with
  | nil =>
    rw [List.nil_append, List.append_nil]
    rw [quoted_cons, if_pos]
    refine ⟨rfl, ?_⟩
    rcases hr with rfl | ⟨r', rfl⟩ <;> rfl
  | cons c s ih =>
    rw [List.cons_append]
    have hc : c ≠ '"' := fun h => hs (by simp [h])
    rw [quoted_cons, if_neg (fun h => hc h.1), ih (c :: a) fun hb => hs (by simp [hb])]
    simp

theorem scan_cell (n : ℕ) {s r : Str} (hs : Plain s) (hr : r = [] ∨ ∃ r', r = ' ' :: r') :
    scan .blank (cell n s ++ r) = s :: scan .blank r := by
  unfold cell
  dsimp only
  rw [List.append_assoc, scan_blanks]
  split
  · rename_i hq
    rw [List.cons_append, List.cons_append, List.append_assoc]
    rw [blank_cons, if_neg (by decide), if_neg (by decide), if_pos (Or.inl rfl)]
    exact scan_quoted [] s r (hs.quote hq) hr
  · rename_i hq
    have hq1 : ' ' ∉ s := fun h => hq (Or.inl h)
    cases s with
    | nil => exact absurd rfl hs.ne
    | cons c s =>
      have hw : ∀ b ∈ c :: s, b.isWhitespace = false := by
        intro b hb
        by_contra h
        have := hs.ws b hb (by simpa using h)
        exact hq1 (this ▸ hb)
      have hh := hs.head
      simp only [List.head?_cons, ne_eq, Option.some.injEq] at hh
      rw [List.cons_append, blank_cons]
      rw [if_neg (by rw [hw c (by simp)]; simp), if_neg hh.2.2, if_neg (by rintro (h | h) <;> [exact hh.1 h; exact hh.2.1 h])]
      rw [scan_word [c] s r (fun b hb => hw b (by simp [hb])) hr]
      rfl

theorem line_cons_split (p : ℕ × Str) (l : List (ℕ × Str)) : ∃ r, line (p :: l) = cell p.1 p.2 ++ r ∧ (l = [] → r = []) ∧
    (l ≠ [] → r = ' ' :: line l) := by
  cases l with
  | nil => exact ⟨[], by rw [line], fun _ => rfl, fun h => absurd rfl h⟩
  | cons q l =>
    refine ⟨' ' :: line (q :: l), by rw [line], fun h => ?_, fun _ => rfl⟩
    exact absurd h (by simp)

/-- C63: the values on the line of an item are its texts, whatever the widths of the columns. -/
theorem line_values (l : List (ℕ × Str)) (h : ∀ p ∈ l, Plain p.2) : values (line l) = l.map Prod.snd := by
  unfold values
  induction l with
  | nil => rfl
  | cons p l ih =>
    obtain ⟨r, hr, h1, h2⟩ := line_cons_split p l
    by_cases hl : l = []
    · rw [hr, h1 hl, scan_cell p.1 (h p (by simp)) (Or.inl rfl), hl]; rfl
    · rw [hr, h2 hl, scan_cell p.1 (h p (by simp)) (Or.inr ⟨_, rfl⟩), space_cons, ih fun r hr => h r (by simp [hr])]
      rfl

example : Plain "Fe1".toList ∧ Plain "P 1".toList ∧ Plain "_x".toList ∧ Plain "0.25(1)".toList := by
  refine ⟨⟨by decide, by decide, by decide, by decide⟩, ⟨by decide, by decide, by decide, by decide⟩,
    ⟨by decide, by decide, by decide, by decide⟩, ⟨by decide, by decide, by decide, by decide⟩⟩

/-- C63 fails: an empty text is written as blanks, so the line has one value less and the following values move to the columns
before them. -/
theorem empty_text_lost (l₁ l₂ : List (ℕ × Str)) (n : ℕ) (h₁ : ∀ p ∈ l₁, Plain p.2) (h₂ : ∀ p ∈ l₂, Plain p.2) :
    values (line (l₁ ++ (n, []) :: l₂)) = l₁.map Prod.snd ++ l₂.map Prod.snd := by
  have h0 : values (line ((n, []) :: l₂)) = l₂.map Prod.snd := by
    have hc : cell n [] = List.replicate n ' ' := by
      unfold cell; simp
    obtain ⟨r, hr, h1, h2⟩ := line_cons_split (n, []) l₂
    unfold values
    rw [hr, hc, scan_blanks]
    by_cases hl : l₂ = []
    · rw [h1 hl, hl]; rfl
    · rw [h2 hl]
      rw [space_cons]
      exact line_values l₂ h₂
  induction l₁ with
  | nil => exact h0
  | cons p l ih =>
    obtain ⟨r, hr, -, h2⟩ := line_cons_split p (l ++ (n, []) :: l₂)
    have hne : l ++ (n, []) :: l₂ ≠ [] := by simp
    unfold values at ih ⊢
    rw [List.cons_append, hr, h2 hne, scan_cell p.1 (h₁ p (by simp)) (Or.inr ⟨_, rfl⟩)]
    rw [space_cons, ih fun q hq => h₁ q (by simp [hq])]
    rfl

/-- C63 fails: a text that begins with `#` begins a comment: it and the rest of the line are lost. -/
theorem hash_text_lost (l₁ l₂ : List (ℕ × Str)) (n : ℕ) (s : Str) (hs : ' ' ∉ s) (h₁ : ∀ p ∈ l₁, Plain p.2) :
    values (line (l₁ ++ (n, '#' :: s) :: l₂)) = l₁.map Prod.snd := by
  induction l₁ with
  | nil =>
    obtain ⟨r, hr, -, -⟩ := line_cons_split (n, '#' :: s) l₂
    unfold values
    rw [List.nil_append, hr]
    unfold cell
    dsimp only
    rw [if_neg (by simp [hs]), List.append_assoc, scan_blanks, List.cons_append, blank_cons]
    rfl
  | cons p l ih =>
    obtain ⟨r, hr, -, h2⟩ := line_cons_split p (l ++ (n, '#' :: s) :: l₂)
    have hne : l ++ (n, '#' :: s) :: l₂ ≠ [] := by simp
    unfold values at ih ⊢
    rw [List.cons_append, hr, h2 hne, scan_cell p.1 (h₁ p (by simp)) (Or.inr ⟨_, rfl⟩)]
    rw [space_cons, ih fun q hq => h₁ q (by simp [hq])]
    rfl

end Cryspy.Cif.Row
