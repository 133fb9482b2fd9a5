import Verif.SG.Reader

/-!
# The tables, read by the modelled reader
-/

set_option Elab.async false

namespace Cryspy.SG

open Cryspy.Text

/-- What the rest of the program uses of a card. -/
structure View where
  it : ℕ
  choice : Option (List Str)
  pcentr : Option (List Str)
  symmetry : Option (List Str)
deriving DecidableEq

/-- What the rest of the program uses of a card. -/
def Card.view (c : Card) : View :=
  ⟨c.it, c.fields.lookup "choice".toList, c.fields.lookup "pcentr".toList, c.fields.lookup "symmetry".toList⟩

/-- The distinct operations. -/
def symList : List (Str × Option Op) := symTab.flatten.map fun p => (p.1.toList, p.2)

/-- The text of the `i`-th distinct operation. -/
def symText (i : ℕ) : Str := (symList.getD i ([], none)).1

/-- The same of a card given by numbers. -/
def CardN.view (c : CardN) : View :=
  ⟨c.it, some [c.choice.toList], some [c.pcText.toList], some (c.ops.map symText)⟩

/-! ## Reading part by part -/

/-- Does a line begin a card? -/
def isHeader (line : Str) : Bool :=
  match words line with
  | [] => false
  | w :: _ => isDigits w

/-- The lines that count. -/
def content (lines : List Str) : List Str := (lines.map strip).filter (· ≠ [])

/-- The first line that counts begins a card. -/
def startsCard (lines : List Str) : Bool :=
  match content lines with
  | [] => false
  | l :: _ => isHeader l

theorem readLine_prefix (p l : List Card) (o : Option Card) (line : Str) :
    readLine (p ++ l, o) line = (readLine (l, o) line).map fun s => (p ++ s.1, s.2) := by
  unfold readLine
  cases words line with
  | nil => rfl
  | cons w ws =>
    dsimp only
    split
    · cases ws with
      | nil => rfl
      | cons n t =>
        cases t with
        | nil => rfl
        | cons s u =>
          dsimp only
          cases o <;> simp
    · cases o with
      | none => rfl
      | some c =>
        cases h : splitOnChar ':' line with
        | nil => simp
        | cons k t =>
          cases t with
          | nil => simp
          | cons v u => simp

theorem readLine_header (l : List Card) (o : Option Card) {line : Str} (h : isHeader line = true) :
    readLine (l, o) line = (readLine ([], none) line).map fun s => (l ++ o.toList ++ s.1, s.2) := by
  unfold isHeader at h
  unfold readLine
  cases hw : words line with
  | nil => rfl
  | cons w ws =>
    rw [hw] at h
    dsimp only at h ⊢
    rw [if_pos h, if_pos h]
    cases ws with
    | nil => rfl
    | cons n t =>
      cases t with
      | nil => rfl
      | cons s u => cases o <;> simp

theorem fold_prefix (p : List Card) : ∀ (lines : List Str) (l : List Card) (o : Option Card),
    lines.foldlM readLine (p ++ l, o) = (lines.foldlM readLine (l, o)).map fun s => (p ++ s.1, s.2) := by
  intro lines
  induction lines with
  | nil => intro l o; rfl
  | cons a t ih =>
    intro l o
    rw [List.foldlM_cons, List.foldlM_cons, readLine_prefix]
    cases readLine (l, o) a with
    | none => rfl
    | some s => exact ih s.1 s.2

theorem fold_header (l : List Card) (o : Option Card) {a : Str} (t : List Str) (h : isHeader a = true) :
    (a :: t).foldlM readLine (l, o) = ((a :: t).foldlM readLine ([], none)).map fun s => (l ++ o.toList ++ s.1, s.2) := by
  rw [List.foldlM_cons, List.foldlM_cons, readLine_header l o h]
  cases readLine ([], none) a with
  | none => rfl
  | some s => exact fold_prefix _ t s.1 s.2

theorem readElCards_append {a b : List Str} {la lb : List Card} (ha : readElCards a = some la) (hb : readElCards b = some lb)
    (hs : startsCard b = true) : readElCards (a ++ b) = some (la ++ lb) := by
  unfold readElCards at *
  rw [List.map_append, List.filter_append, List.foldlM_append]
  unfold startsCard content at hs
  cases hfa : ((a.map strip).filter (· ≠ [])).foldlM readLine ([], none) with
  | none => rw [hfa] at ha; simp at ha
  | some sa =>
    obtain ⟨l1, o1⟩ := sa
    rw [hfa] at ha
    cases o1 with
    | none => simp at ha
    | some c1 =>
      simp only [Option.some.injEq] at ha
      cases hcb : (b.map strip).filter (· ≠ []) with
      | nil => rw [hcb] at hs; simp at hs
      | cons x t =>
        rw [hcb] at hs hb
        have := fold_header l1 (some c1) t hs
        change (match (x :: t).foldlM readLine (l1, some c1) with | some (l, some c) => some (l ++ [c]) | _ => none) = _
        rw [this]
        cases hfb : (x :: t).foldlM readLine ([], none) with
        | none => rw [hfb] at hb; simp at hb
        | some sb =>
          obtain ⟨l2, o2⟩ := sb
          rw [hfb] at hb
          cases o2 with
          | none => simp at hb
          | some c2 =>
            simp only [Option.some.injEq] at hb
            simp [← ha, ← hb]

/-- The lines of one part of the file. -/
def partLines (b : List (List String)) : List Str := b.flatten.map (·.toList)

/-- One part of the file is read as one part of the table of numbers. -/
def partOk (b : List (List String)) (c : List CardN) : Bool :=
  startsCard (partLines b) && decide (((readElCards (partLines b)).map fun l => l.map Card.view) = some (c.map CardN.view))

theorem parts_read : ∀ (bs : List (List (List String))) (cs : List (List CardN)), bs ≠ [] → List.Forall₂ (fun b c => partOk b c = true) bs cs →
    ((readElCards (bs.flatten.flatten.map (·.toList))).map fun l => l.map Card.view) = some (cs.flatten.map CardN.view) ∧
      startsCard (bs.flatten.flatten.map (·.toList)) = true := by
  intro bs cs hne h
  induction h with
  | nil => exact absurd rfl hne
  | @cons b c bs cs hb hbs ih =>
    simp only [partOk, Bool.and_eq_true, decide_eq_true_eq] at hb
    obtain ⟨h1, h2⟩ := hb
    cases bs with
    | nil =>
      cases hbs
      simpa [partLines] using And.intro h2 h1
    | cons b2 bs2 =>
      obtain ⟨i1, i2⟩ := ih (by simp)
      obtain ⟨lb, hlb, hb'⟩ := Option.map_eq_some_iff.1 h2
      obtain ⟨lt, hlt, ht'⟩ := Option.map_eq_some_iff.1 i1
      have e : (List.flatten (b :: b2 :: bs2)).flatten.map (·.toList) = partLines b ++ (List.flatten (b2 :: bs2)).flatten.map (·.toList) := by
        simp [partLines]
      rw [e, readElCards_append hlb hlt i2]
      refine ⟨by rw [List.flatten_cons, List.map_append, ← hb', ← ht']; simp, ?_⟩
      unfold startsCard content at h1 ⊢
      rw [List.map_append, List.filter_append]
      cases hc : ((partLines b).map strip).filter (· ≠ []) with
      | nil => rw [hc] at h1; simp at h1
      | cons x t => rw [hc] at h1; exact h1

set_option maxRecDepth 100000 in
theorem part0_ok : partOk itablesBlocks0 cardTab0 = true := by decide +kernel

set_option maxRecDepth 100000 in
theorem part1_ok : partOk itablesBlocks1 cardTab1 = true := by decide +kernel

set_option maxRecDepth 100000 in
theorem part2_ok : partOk itablesBlocks2 cardTab2 = true := by decide +kernel

set_option maxRecDepth 100000 in
theorem part3_ok : partOk itablesBlocks3 cardTab3 = true := by decide +kernel

set_option maxRecDepth 100000 in
theorem part4_ok : partOk itablesBlocks4 cardTab4 = true := by decide +kernel

set_option maxRecDepth 100000 in
theorem part5_ok : partOk itablesBlocks5 cardTab5 = true := by decide +kernel

set_option maxRecDepth 100000 in
theorem part6_ok : partOk itablesBlocks6 cardTab6 = true := by decide +kernel

set_option maxRecDepth 100000 in
theorem part7_ok : partOk itablesBlocks7 cardTab7 = true := by decide +kernel

set_option maxRecDepth 100000 in
theorem part8_ok : partOk itablesBlocks8 cardTab8 = true := by decide +kernel

set_option maxRecDepth 100000 in
theorem part9_ok : partOk itablesBlocks9 cardTab9 = true := by decide +kernel

set_option maxRecDepth 100000 in
theorem part10_ok : partOk itablesBlocks10 cardTab10 = true := by decide +kernel

set_option maxRecDepth 100000 in
theorem part11_ok : partOk itablesBlocks11 cardTab11 = true := by decide +kernel

/-- Reading the lines of itables.txt gives the cards of the table of numbers. -/
theorem cards_read : (elCards.map fun l => l.map Card.view) = some (cardTab.flatten.map CardN.view) := by
  refine (parts_read itablesBlocks cardTab (by simp [itablesBlocks]) ?_).1
  unfold itablesBlocks cardTab
  exact .cons part0_ok (.cons part1_ok (.cons part2_ok (.cons part3_ok (.cons part4_ok (.cons part5_ok (.cons part6_ok
    (.cons part7_ok (.cons part8_ok (.cons part9_ok (.cons part10_ok (.cons part11_ok .nil)))))))))))

end Cryspy.SG
