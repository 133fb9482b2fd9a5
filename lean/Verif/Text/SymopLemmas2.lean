import Verif.Text.SymopLemmas
import Mathlib.Data.List.Forall2

namespace Cryspy.Text

theorem natVal_one : natVal ['1'] = 1 := by decide

theorem frac_natStr (n : ℕ) : Frac (natStr n) [] n :=
  ⟨natStr_digits n, Or.inl ⟨rfl, by rw [if_neg (natStr_ne_nil n), natVal_natStr]⟩⟩

theorem frac_natStr_div (n : ℕ) {d : ℕ} (hd : d ≠ 0) : Frac (natStr n) ('/' :: natStr d) ((n : ℚ) / d) :=
  ⟨natStr_digits n, Or.inr ⟨natStr d, rfl, natStr_ne_nil d, natStr_digits d, by rwa [natVal_natStr],
    by rw [if_neg (natStr_ne_nil n), natVal_natStr, natVal_natStr]⟩⟩

theorem frac_nil : Frac [] [] 1 := ⟨by simp, Or.inl ⟨rfl, by simp [natVal_one]⟩⟩

theorem frac_nil_div {d : ℕ} (hd : d ≠ 0) : Frac [] ('/' :: natStr d) (1 / d) :=
  ⟨by simp, Or.inr ⟨natStr d, rfl, natStr_ne_nil d, natStr_digits d, by rwa [natVal_natStr],
    by simp [natVal_one, natVal_natStr]⟩⟩

/-- `str` of an integer is a sign and digits. -/
theorem intStr_form (n : ℤ) : ∃ sg neg, SignOf sg neg ∧ sg ≠ ['+'] ∧ intStr n = sg ++ natStr n.natAbs ∧
    (n : ℚ) = if neg then -(n.natAbs : ℚ) else n.natAbs := by
  unfold intStr
  split
  · rename_i h
    refine ⟨['-'], true, Or.inl ⟨rfl, rfl⟩, by simp, by simp, ?_⟩
    have : n = -(n.natAbs : ℤ) := by omega
    rw [if_pos rfl]
    exact_mod_cast congrArg (Int.cast : ℤ → ℚ) this
  · rename_i h
    refine ⟨[], false, Or.inr (Or.inl ⟨rfl, rfl⟩), by simp, by simp, ?_⟩
    have : n = (n.natAbs : ℤ) := by omega
    simp only [Bool.false_eq_true, if_false]
    conv_lhs => rw [this]
    rfl

/-- Shape of a written coefficient. -/
theorem fractionWithLabel_form (x : Num) (c : Char) (h0 : x.kept ≠ 0) : ∃ sg neg A B v, SignOf sg neg ∧ sg ≠ ['+'] ∧
    Frac A B v ∧ fractionWithLabel x c = sg ++ A ++ c :: B ∧ x.kept = if neg then -v else v := by
  unfold fractionWithLabel
  generalize hv : x.kept = val at *
  dsimp only
  rw [if_neg h0]
  split
  · rename_i h
    exact ⟨[], false, [], [], 1, Or.inr (Or.inl ⟨rfl, rfl⟩), by simp, frac_nil, by simp, by simp [h]⟩
  split
  · rename_i h
    exact ⟨['-'], true, [], [], 1, Or.inl ⟨rfl, rfl⟩, by simp, frac_nil, by simp, by simp [h]⟩
  obtain ⟨sg, neg, h1, h2, h3, h4⟩ := intStr_form val.num
  have hq := Rat.num_div_den val
  split
  · rename_i hd
    refine ⟨sg, neg, natStr val.num.natAbs, [], _, h1, h2, frac_natStr _, by rw [h3], ?_⟩
    rw [← h4, ← hq, hd]; simp
  split
  · rename_i hn
    refine ⟨[], false, [], '/' :: natStr val.den, _, Or.inr (Or.inl ⟨rfl, rfl⟩), by simp, frac_nil_div val.den_nz, by simp, ?_⟩
    rw [← hq]; simp [hn]
  · refine ⟨sg, neg, natStr val.num.natAbs, '/' :: natStr val.den, _, h1, h2, frac_natStr_div _ val.den_nz, by rw [h3], ?_⟩
    conv_lhs => rw [← hq, h4]
    cases neg
    · simp
    · simp [neg_div]

/-- Shape of a written offset. -/
theorem fracStr_form (q : ℚ) : ∃ sg neg A B v, SignOf sg neg ∧ sg ≠ ['+'] ∧ A ≠ [] ∧
    Frac A B v ∧ fracStr q = sg ++ A ++ B ∧ q = if neg then -v else v := by
  unfold fracStr
  obtain ⟨sg, neg, h1, h2, h3, h4⟩ := intStr_form q.num
  have hq := Rat.num_div_den q
  split
  · rename_i hd
    refine ⟨sg, neg, natStr q.num.natAbs, [], _, h1, h2, natStr_ne_nil _, frac_natStr _, by rw [h3]; simp, ?_⟩
    rw [← h4]; conv_lhs => rw [← hq, hd]
    simp
  · refine ⟨sg, neg, natStr q.num.natAbs, '/' :: natStr q.den, _, h1, h2, natStr_ne_nil _, frac_natStr_div _ q.den_nz, by rw [h3], ?_⟩
    conv_lhs => rw [← hq, h4]
    cases neg
    · simp
    · simp [neg_div]

/-! ## tokens -/

/-- Characters inside a term. -/
def Clean (c : Char) : Prop := c.isWhitespace = false ∧ c ≠ '+' ∧ c ≠ '-' ∧ c ≠ ',' ∧ c ≠ '(' ∧ c ≠ ')'

/-- A signed text without signs inside. -/
def Tok (t : Str) : Prop := ∃ sg neg U, SignOf sg neg ∧ t = sg ++ U ∧ U ≠ [] ∧ ∀ c ∈ U, Clean c

/-- The term `t` stands for `v` times the label (or for `v`) and mentions no other label. -/
def GoodTok (labels : List Char) (e : Option Char × ℚ) (t : Str) : Prop :=
  Tok t ∧ match e.1 with
  | some c => (∀ c' ∈ labels, c' ∈ t ↔ c' = c) ∧ (parseFraction (fixTerm c t)).map limitDen = some e.2
  | none => (∀ c' ∈ labels, c' ∉ t) ∧ (parseFraction t).map limitDen = some e.2

theorem digit_clean {c : Char} (h : c.isDigit = true) : Clean c :=
  ⟨isDigit_ws h, isDigit_ne h (by decide), isDigit_ne h (by decide), isDigit_ne h (by decide), isDigit_ne h (by decide),
    isDigit_ne h (by decide)⟩

theorem Frac.clean {A B : Str} {v : ℚ} (h : Frac A B v) {c : Char} (hc : c ∈ A ++ B) : Clean c ∧ (c.isDigit = true ∨ c = '/') := by
  rcases List.mem_append.1 hc with hc | hc
  · exact ⟨digit_clean (h.dig c hc), Or.inl (h.dig c hc)⟩
  · rcases h.form with ⟨rfl, _⟩ | ⟨D, rfl, _, hD, _⟩
    · cases hc
    · rcases List.mem_cons.1 hc with rfl | hc
      · exact ⟨⟨by decide, by decide, by decide, by decide, by decide, by decide⟩, Or.inr rfl⟩
      · exact ⟨digit_clean (hD c hc), Or.inl (hD c hc)⟩

theorem label_not_frac {A B : Str} {v : ℚ} (h : Frac A B v) {c : Char} (hg : GoodLabel c) : c ∉ A ++ B := by
  intro hm
  rcases (h.clean hm).2 with h1 | h1
  · rw [hg.1] at h1; cases h1
  · exact hg.2.2.2.2.1 h1

theorem label_not_sign {sg : Str} {neg : Bool} (hs : SignOf sg neg) {c : Char} (hg : GoodLabel c) : c ∉ sg := by
  rcases hs with ⟨rfl, _⟩ | ⟨rfl, _⟩ | ⟨rfl, _⟩
  · simpa using hg.2.2.2.1
  · simp
  · simpa using hg.2.2.1

theorem goodTok_label {labels : List Char} (hl : ∀ c ∈ labels, GoodLabel c) {c : Char} (hc : c ∈ labels) {sg A B : Str} {neg : Bool}
    (hs : SignOf sg neg) {v : ℚ} (h : Frac A B v) (hd : (if neg then -v else v : ℚ).den ≤ 10) :
    GoodTok labels (some c, if neg then -v else v) (sg ++ A ++ c :: B) := by
  refine ⟨⟨sg, neg, A ++ c :: B, hs, by simp, by simp, ?_⟩, ?_, ?_⟩
  · intro d hd
    have : d = c ∨ d ∈ A ++ B := by
      simp only [List.mem_append, List.mem_cons] at hd ⊢; tauto
    rcases this with rfl | h1
    · exact ⟨(hl d hc).2.1, (hl d hc).2.2.1, (hl d hc).2.2.2.1, (hl d hc).2.2.2.2.2.1, (hl d hc).2.2.2.2.2.2.1, (hl d hc).2.2.2.2.2.2.2.1⟩
    · exact (h.clean h1).1
  · intro c' hc'
    constructor
    · intro hm
      have h1 := label_not_frac h (hl c' hc')
      have h2 := label_not_sign hs (hl c' hc')
      simp only [List.mem_append, List.mem_cons, not_or] at hm h1
      tauto
    · rintro rfl; simp
  · show Option.map limitDen (parseFraction (fixTerm c (sg ++ A ++ c :: B))) = _
    rw [fixTerm_eq (hl c hc) hs h]
    have h' : Frac (if A = [] then ['1'] else A) B v := by
      refine ⟨?_, ?_⟩
      · intro d hd
        split at hd
        · rw [List.mem_singleton.1 hd]; decide
        · exact h.dig d hd
      · rw [if_neg (by split <;> simp [*])]
        exact h.form
    rw [parseFraction_eq hs (by split <;> simp [*]) h', Option.map_some, limitDen_of_le hd]

theorem goodTok_offset {labels : List Char} (hl : ∀ c ∈ labels, GoodLabel c) {sg A B : Str} {neg : Bool}
    (hs : SignOf sg neg) {v : ℚ} (hA : A ≠ []) (h : Frac A B v) (hd : (if neg then -v else v : ℚ).den ≤ 10) :
    GoodTok labels (none, if neg then -v else v) (sg ++ A ++ B) := by
  refine ⟨⟨sg, neg, A ++ B, hs, by simp, by simp [hA], fun c hc => (h.clean hc).1⟩, ?_, ?_⟩
  · intro c' hc' hm
    have h1 := label_not_frac h (hl c' hc')
    have h2 := label_not_sign hs (hl c' hc')
    simp only [List.mem_append, not_or] at hm h1
    tauto
  · show Option.map limitDen (parseFraction (sg ++ A ++ B)) = _
    rw [parseFraction_eq hs hA h, Option.map_some, limitDen_of_le hd]

/-- The sign put before a term that is not the first. -/
def signed (t : Str) : Str := if t.head? = some '-' then t else '+' :: t

theorem signed_eq {sg U : Str} {neg : Bool} (hs : SignOf sg neg) (hp : sg ≠ ['+']) (hU : ∀ c ∈ U.head?, c ≠ '-') :
    ∃ sg', SignOf sg' neg ∧ sg' ≠ [] ∧ signed (sg ++ U) = sg' ++ U := by
  rcases hs with ⟨rfl, rfl⟩ | ⟨rfl, rfl⟩ | ⟨rfl, rfl⟩
  · exact ⟨['-'], Or.inl ⟨rfl, rfl⟩, by simp, by simp [signed]⟩
  · refine ⟨['+'], Or.inr (Or.inr ⟨rfl, rfl⟩), by simp, ?_⟩
    unfold signed
    rw [if_neg]
    · simp
    · intro h; exact hU '-' (by simpa using h) rfl
  · exact absurd rfl hp

/-! ## writing a component -/

/-- Texts of the non-zero terms. -/
def texts (z : List (Num × Char)) : List Str := (z.map fun p => fractionWithLabel p.1 p.2).filter (· ≠ [])

theorem foldl_push (l : List Str) (z : List (Num × Char)) (hl : l ≠ []) :
    z.foldl (fun l p => pushTerm l (fractionWithLabel p.1 p.2)) l = l ++ (texts z).map signed := by
  induction z generalizing l with
  | nil => simp [texts]
  | cons p z ih =>
    rw [List.foldl_cons]
    by_cases h0 : fractionWithLabel p.1 p.2 = []
    · have : pushTerm l (fractionWithLabel p.1 p.2) = l := by simp [pushTerm, h0]
      rw [this, ih l hl]
      simp [texts, h0]
    · have : pushTerm l (fractionWithLabel p.1 p.2) = l ++ [signed (fractionWithLabel p.1 p.2)] := by
        unfold pushTerm signed
        rw [if_neg h0]
        split
        · rfl
        · simp [hl]
      rw [this, ih _ (by simp)]
      simp [texts, h0]

/-- The list of terms: the first as it is, the others signed. -/
def signList : List Str → List Str
  | [] => []
  | a :: l => a :: l.map signed

theorem foldl_push_nil (z : List (Num × Char)) :
    z.foldl (fun l p => pushTerm l (fractionWithLabel p.1 p.2)) [] = signList (texts z) := by
  induction z with
  | nil => rfl
  | cons p z ih =>
    rw [List.foldl_cons]
    by_cases h0 : fractionWithLabel p.1 p.2 = []
    · have : pushTerm [] (fractionWithLabel p.1 p.2) = [] := by simp [pushTerm, h0]
      rw [this, ih]
      simp [texts, h0]
    · have : pushTerm [] (fractionWithLabel p.1 p.2) = [fractionWithLabel p.1 p.2] := by
        simp [pushTerm, h0]
      rw [this, foldl_push _ _ (by simp)]
      simp [texts, h0, signList]

theorem intStr_zero_iff (n : ℤ) : intStr n = ['0'] ↔ n = 0 := by
  constructor
  · intro h
    unfold intStr at h
    split at h
    · cases h
    · have := congrArg natVal h
      rw [natVal_natStr, show natVal ['0'] = 0 by decide] at this
      omega
  · rintro rfl; decide

theorem fracStr_zero_iff (q : ℚ) : fracStr q = ['0'] ↔ q = 0 := by
  constructor
  · intro h
    obtain ⟨sg, neg, A, B, v, hs, _, hA, hf, he, hq⟩ := fracStr_form q
    unfold fracStr at h
    split at h
    · rw [intStr_zero_iff] at h
      exact Rat.num_eq_zero.1 h
    · exfalso
      have : '/' ∈ (['0'] : Str) := by rw [← h]; simp
      revert this; decide
  · rintro rfl; decide

/-- The terms written for one component. -/
def allTexts (labels : List Char) (cs : List Num) (o : ℚ) : List Str :=
  let l := texts (cs.zip labels) ++ if limitDen o = 0 then [] else [fracStr (limitDen o)]
  if l = [] then [['0']] else l

theorem signList_append_singleton (l : List Str) (t : Str) (h : l ≠ []) : signList l ++ [signed t] = signList (l ++ [t]) := by
  cases l with
  | nil => exact absurd rfl h
  | cons a l => simp [signList]

theorem signList_eq_nil (l : List Str) : signList l = [] ↔ l = [] := by cases l <;> simp [signList]

theorem digitsToString_eq (labels : List Char) (cs : List Num) (o : ℚ) :
    digitsToString labels cs o = (signList (allTexts labels cs o)).flatten := by
  unfold digitsToString allTexts
  dsimp only
  rw [foldl_push_nil]
  congr 1
  by_cases hz : limitDen o = 0
  · rw [if_pos ((fracStr_zero_iff _).2 hz), if_pos hz, List.append_nil, hz]
    by_cases hl : texts (cs.zip labels) = []
    · rw [if_pos hl, if_pos ((signList_eq_nil _).2 hl), hl]; decide
    · rw [if_neg hl, if_neg (by rwa [signList_eq_nil])]
  · rw [if_neg (by rwa [fracStr_zero_iff]), if_neg hz, if_neg (c := _ ++ _ = []) (by simp)]
    by_cases hl : texts (cs.zip labels) = []
    · rw [if_pos (Or.inl ((signList_eq_nil _).2 hl)), hl]
      rfl
    · rw [← signList_append_singleton _ _ hl, signed]
      have : ¬signList (texts (cs.zip labels)) = [] := by rwa [signList_eq_nil]
      by_cases hm : (fracStr (limitDen o)).head? = some '-'
      · rw [if_pos (Or.inr hm), if_pos hm]
      · rw [if_neg (by tauto), if_neg hm]

/-! ## reading a component -/

/-- Space before signs. -/
def spaced (s : Str) : Str := replaceChar '-' [' ', '-'] (replaceChar '+' [' ', '+'] s)

theorem spaced_append (s t : Str) : spaced (s ++ t) = spaced s ++ spaced t := by
  simp [spaced, replaceChar_append]

theorem spaced_clean {U : Str} (h : ∀ c ∈ U, Clean c) : spaced U = U := by
  unfold spaced
  rw [replaceChar_none (c := '+') (fun hm => (h _ hm).2.1 rfl), replaceChar_none (c := '-') (fun hm => (h _ hm).2.2.1 rfl)]

theorem spaced_tok {sg U : Str} {neg : Bool} (hs : SignOf sg neg) (h : ∀ c ∈ U, Clean c) :
    spaced (sg ++ U) = if sg = [] then U else ' ' :: (sg ++ U) := by
  rw [spaced_append, spaced_clean h]
  rcases hs with ⟨rfl, _⟩ | ⟨rfl, _⟩ | ⟨rfl, _⟩
  · rw [show spaced ['-'] = [' ', '-'] by decide]; rfl
  · rfl
  · rw [show spaced ['+'] = [' ', '+'] by decide]; rfl

theorem tok_ws {t : Str} (h : Tok t) : ∀ c ∈ t, c.isWhitespace = false := by
  obtain ⟨sg, neg, U, hs, rfl, _, hU⟩ := h
  intro c hc
  rcases List.mem_append.1 hc with hc | hc
  · rcases hs with ⟨rfl, _⟩ | ⟨rfl, _⟩ | ⟨rfl, _⟩
    · rw [List.mem_singleton.1 hc]; decide
    · cases hc
    · rw [List.mem_singleton.1 hc]; decide
  · exact (hU c hc).1

/-- A term that carries a sign. -/
def TokS (t : Str) : Prop := Tok t ∧ (t.head? = some '+' ∨ t.head? = some '-')

theorem spaced_tokS {t : Str} (h : TokS t) : spaced t = ' ' :: t := by
  obtain ⟨⟨sg, neg, U, hs, rfl, hU0, hU⟩, hh⟩ := h
  rw [spaced_tok hs hU, if_neg]
  rintro rfl
  obtain ⟨u, U', rfl⟩ := List.exists_cons_of_ne_nil hU0
  have := hU u (by simp)
  simp only [List.nil_append, List.head?_cons, Option.some.injEq] at hh
  rcases hh with h | h
  · exact this.2.1 h
  · exact this.2.2.1 h

theorem words_signed (l : List Str) (h : ∀ t ∈ l, TokS t) : words (spaced l.flatten) = l ∧
    (spaced l.flatten = [] ∨ ∃ c s, spaced l.flatten = c :: s ∧ c.isWhitespace = true) := by
  induction l with
  | nil => exact ⟨rfl, Or.inl rfl⟩
  | cons t l ih =>
    obtain ⟨ih1, ih2⟩ := ih fun s hs => h s (by simp [hs])
    have ht := h t (by simp)
    rw [List.flatten_cons, spaced_append, spaced_tokS ht]
    refine ⟨?_, Or.inr ⟨' ', _, rfl, by decide⟩⟩
    rw [List.cons_append, words_space, words_word _ _ _ (tok_ws ht.1) ih2, ih1]
    obtain ⟨sg, neg, U, hs, rfl, hU0, hU⟩ := ht.1
    simp [hU0]

theorem terms_eq (a : Str) (l : List Str) (ha : Tok a) (h : ∀ t ∈ l, TokS t) : terms ((a :: l).flatten) = a :: l := by
  have hws : ∀ c ∈ (a :: l).flatten, c.isWhitespace = false := by
    intro c hc
    obtain ⟨t, ht, hct⟩ := List.mem_flatten.1 hc
    rcases List.mem_cons.1 ht with rfl | ht
    · exact tok_ws ha c hct
    · exact tok_ws (h t ht).1 c hct
  unfold terms
  rw [strip_none hws, replaceChar_none (c := ' ') (fun hm => by have := hws _ hm; revert this; decide)]
  change words (spaced _) = _
  obtain ⟨h1, h2⟩ := words_signed l h
  have hne : a ≠ [] := by obtain ⟨sg, neg, U, hs, rfl, hU0, hU⟩ := ha; simp [hU0]
  have haw := tok_ws ha
  obtain ⟨sg, neg, U, hs, rfl, hU0, hU⟩ := ha
  rw [List.flatten_cons, spaced_append, spaced_tok hs hU]
  split
  · rename_i hsg; subst hsg
    rw [List.nil_append] at *
    rw [words_word _ _ hU0 haw h2, h1]
  · rw [List.cons_append, words_space, words_word _ _ hne haw h2, h1]

theorem sum_filter_some {labels : List Char} {E : List (Option Char × ℚ)} {l : List Str}
    (h : List.Forall₂ (GoodTok labels) E l) {c : Char} (hc : c ∈ labels) :
    sumTerms ((l.filter (c ∈ ·)).map (fixTerm c)) = some ((E.filter (·.1 = some c)).map (·.2)).sum := by
  induction h with
  | nil => rfl
  | @cons e t E l h _ ih =>
    obtain ⟨e1, e2⟩ := e
    have key : sumTerms ((l.filter (c ∈ ·)).map (fixTerm c)) = some ((E.filter (·.1 = some c)).map (·.2)).sum := ih
    unfold sumTerms at key ⊢
    cases e1 with
    | none =>
      have : c ∉ t := h.2.1 c hc
      simpa [this] using key
    | some c' =>
      by_cases hcc : c = c'
      · subst hcc
        have h1 : c ∈ t := (h.2.1 c hc).2 rfl
        have h2 : (parseFraction (fixTerm c t)).map limitDen = some e2 := h.2.2
        rw [Option.map_eq_some_iff] at key
        obtain ⟨m, hm, hs⟩ := key
        simp [h1, h2, hm, hs]
      · have h1 : c ∉ t := fun hm => hcc ((h.2.1 c hc).1 hm)
        have h2 : ¬ c' = c := fun h => hcc h.symm
        simpa [h1, h2] using key

theorem sum_filter_none {labels : List Char} {E : List (Option Char × ℚ)} {l : List Str}
    (h : List.Forall₂ (GoodTok labels) E l) (hE : ∀ e ∈ E, ∀ c, e.1 = some c → c ∈ labels) :
    sumTerms (l.filter fun t => labels.all (· ∉ t)) = some ((E.filter (·.1 = none)).map (·.2)).sum := by
  induction h with
  | nil => rfl
  | @cons e t E l h _ ih =>
    obtain ⟨e1, e2⟩ := e
    have key := ih fun e he => hE e (by simp [he])
    unfold sumTerms at key ⊢
    cases e1 with
    | none =>
      have h1 : labels.all (· ∉ t) = true := by
        simp only [List.all_eq_true, decide_eq_true_eq]; exact h.2.1
      have h2 : (parseFraction t).map limitDen = some e2 := h.2.2
      rw [Option.map_eq_some_iff] at key
      obtain ⟨m, hm, hs⟩ := key
      rw [List.filter_cons_of_pos (p := fun t : Str => labels.all fun x => decide (x ∉ t)) h1]
      rw [List.mapM_cons, h2, hm]
      simp [hs]
    | some c' =>
      have hc' := hE (some c', e2) (by simp) c' rfl
      have h1 : labels.all (· ∉ t) = false := by
        rw [List.all_eq_false]
        exact ⟨c', hc', by simp [(h.2.1 c' hc').2 rfl]⟩
      rw [List.filter_cons_of_neg (p := fun t : Str => labels.all fun x => decide (x ∉ t)) (by rw [h1]; simp)]
      simpa using key

/-! ## entries -/

/-- Label and value of the non-zero coefficients. -/
def coefEntries (z : List (Num × Char)) : List (Option Char × ℚ) :=
  (z.filter fun p => p.1.kept ≠ 0).map fun p => (some p.2, p.1.kept)

theorem fractionWithLabel_nil_iff (x : Num) (c : Char) : fractionWithLabel x c = [] ↔ x.kept = 0 := by
  constructor
  · intro h
    by_contra h0
    obtain ⟨sg, neg, A, B, v, _, _, _, he, _⟩ := fractionWithLabel_form x c h0
    rw [he] at h; simp at h
  · intro h; simp [fractionWithLabel, h]

/-- Entry `e` is written as `t`: both `t` and the signed `t` stand for `e`. -/
def WrittenAs (labels : List Char) (e : Option Char × ℚ) (t : Str) : Prop :=
  GoodTok labels e t ∧ GoodTok labels e (signed t) ∧ TokS (signed t)

theorem writtenAs_of_sign {labels : List Char} {e : Option Char × ℚ} {U : Str} (hU : ∀ c ∈ U.head?, c ≠ '-') {sg : Str} {neg : Bool}
    (hs : SignOf sg neg) (hp : sg ≠ ['+']) (h : ∀ sg', SignOf sg' neg → GoodTok labels e (sg' ++ U)) :
    WrittenAs labels e (sg ++ U) := by
  obtain ⟨sg', hs', h0, he⟩ := signed_eq hs hp hU
  refine ⟨h sg hs, he ▸ h sg' hs', he ▸ (h sg' hs').1, ?_⟩
  rw [he]
  rcases hs' with ⟨rfl, _⟩ | ⟨rfl, _⟩ | ⟨rfl, _⟩
  · simp
  · exact absurd rfl h0
  · simp

theorem written_coefs {labels : List Char} (hl : ∀ c ∈ labels, GoodLabel c) (z : List (Num × Char))
    (hz : ∀ p ∈ z, p.2 ∈ labels ∧ p.1.kept.den ≤ 10) :
    List.Forall₂ (WrittenAs labels) (coefEntries z) (texts z) := by
  induction z with
  | nil => exact List.Forall₂.nil
  | cons p z ih =>
    have ih := ih fun q hq => hz q (by simp [hq])
    obtain ⟨x, c⟩ := p
    by_cases h0 : x.kept = 0
    · have h1 := (fractionWithLabel_nil_iff x c).2 h0
      simpa [coefEntries, texts, h0, h1] using ih
    · have h1 : fractionWithLabel x c ≠ [] := by rwa [ne_eq, fractionWithLabel_nil_iff]
      have e1 : coefEntries ((x, c) :: z) = (some c, x.kept) :: coefEntries z := by simp [coefEntries, h0]
      have e2 : texts ((x, c) :: z) = fractionWithLabel x c :: texts z := by simp [texts, h1]
      rw [e1, e2]
      refine List.Forall₂.cons ?_ ih
      obtain ⟨hc, hd⟩ := hz (x, c) (by simp)
      obtain ⟨sg, neg, A, B, v, hs, hp, hf, he, hv⟩ := fractionWithLabel_form x c h0
      rw [he, hv, List.append_assoc]
      apply writtenAs_of_sign _ hs hp
      · intro sg' hs'
        rw [← List.append_assoc]
        exact goodTok_label hl hc hs' hf (hv ▸ hd)
      · intro d hd'
        cases A with
        | nil =>
          rw [List.nil_append, List.head?_cons, Option.mem_def, Option.some.injEq] at hd'
          rw [← hd']; exact (hl c hc).2.2.2.1
        | cons a A =>
          rw [List.cons_append, List.head?_cons, Option.mem_def, Option.some.injEq] at hd'
          rw [← hd']; exact isDigit_ne (hf.dig a (by simp)) (by decide)

theorem written_offset {labels : List Char} (hl : ∀ c ∈ labels, GoodLabel c) {q : ℚ} (hd : q.den ≤ 10) :
    WrittenAs labels (none, q) (fracStr q) := by
  obtain ⟨sg, neg, A, B, v, hs, hp, hA, hf, he, hv⟩ := fracStr_form q
  rw [he, hv, List.append_assoc]
  apply writtenAs_of_sign _ hs hp
  · intro sg' hs'
    rw [← List.append_assoc]
    exact goodTok_offset hl hs' hA hf (hv ▸ hd)
  · intro d hd'
    obtain ⟨a, A', rfl⟩ := List.exists_cons_of_ne_nil hA
    rw [List.cons_append, List.head?_cons, Option.mem_def, Option.some.injEq] at hd'
    rw [← hd']; exact isDigit_ne (hf.dig a (by simp)) (by decide)

theorem sum_coefEntries_ne {z : List (Num × Char)} {c : Char} (h : c ∉ z.map (·.2)) :
    ((coefEntries z).filter (·.1 = some c)).map (·.2) = [] := by
  rw [List.map_eq_nil_iff, List.filter_eq_nil_iff]
  intro e he
  obtain ⟨p, hp, rfl⟩ := List.mem_map.1 he
  have : p.2 ≠ c := fun hc => h (List.mem_map.2 ⟨p, (List.mem_filter.1 hp).1, hc⟩)
  simpa using this

theorem sum_coefEntries {z : List (Num × Char)} (hn : (z.map (·.2)).Nodup) {x : Num} {c : Char} (h : (x, c) ∈ z) :
    (((coefEntries z).filter (·.1 = some c)).map (·.2)).sum = x.kept := by
  induction z with
  | nil => cases h
  | cons p z ih =>
    obtain ⟨y, d⟩ := p
    rw [List.map_cons, List.nodup_cons] at hn
    rcases List.mem_cons.1 h with he | hm
    · obtain ⟨rfl, rfl⟩ := Prod.mk.inj he
      have hz := sum_coefEntries_ne hn.1
      by_cases h0 : x.kept = 0
      · have : coefEntries ((x, c) :: z) = coefEntries z := by simp [coefEntries, h0]
        rw [this, hz, h0]; rfl
      · have : coefEntries ((x, c) :: z) = (some c, x.kept) :: coefEntries z := by simp [coefEntries, h0]
        rw [this, List.filter_cons_of_pos (by simp), List.map_cons, hz]
        simp
    · have hdc : d ≠ c := fun e => hn.1 (e ▸ List.mem_map.2 ⟨(x, c), hm, rfl⟩)
      have := ih hn.2 hm
      by_cases h0 : y.kept = 0
      · have e : coefEntries ((y, d) :: z) = coefEntries z := by simp [coefEntries, h0]
        rw [e, this]
      · have e : coefEntries ((y, d) :: z) = (some d, y.kept) :: coefEntries z := by simp [coefEntries, h0]
        rw [e, List.filter_cons_of_neg (by simp [hdc]), this]

theorem sum_coefEntries_none (z : List (Num × Char)) : (coefEntries z).filter (·.1 = none) = [] := by
  rw [List.filter_eq_nil_iff]
  intro e he
  obtain ⟨p, hp, rfl⟩ := List.mem_map.1 he
  simp

end Cryspy.Text
