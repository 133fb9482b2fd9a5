import Verif.Text.SymopLemmas2

/-!
# C09: symmetry operations as text
-/

namespace Cryspy.Text

theorem forall₂_signList {labels : List Char} {E : List (Option Char × ℚ)} {l : List Str}
    (h : List.Forall₂ (WrittenAs labels) E l) : List.Forall₂ (GoodTok labels) E (signList l) := by
  cases h with
  | nil => exact List.Forall₂.nil
  | cons h t =>
    refine List.Forall₂.cons h.1 ?_
    clear h
    induction t with
    | nil => exact List.Forall₂.nil
    | cons h _ ih => exact List.Forall₂.cons h.2.1 ih

theorem tokS_signList {labels : List Char} {E : List (Option Char × ℚ)} {l : List Str}
    (h : List.Forall₂ (WrittenAs labels) E l) : ∀ t ∈ l.map signed, TokS t := by
  induction h with
  | nil => simp
  | cons h _ ih =>
    intro t ht
    rcases List.mem_cons.1 ht with rfl | ht
    · exact h.2.2
    · exact ih t ht

/-- What is written for one component, as a list of terms with their meaning. -/
theorem component_entries {labels : List Char} (hl : ∀ c ∈ labels, GoodLabel c) {cs : List Num}
    (hd : ∀ x ∈ cs, x.kept.den ≤ 10) (o : ℚ) :
    ∃ E, List.Forall₂ (WrittenAs labels) E (allTexts labels cs o) ∧ (∀ e ∈ E, ∀ c, e.1 = some c → c ∈ labels) ∧
      (∀ c, (E.filter (·.1 = some c)) = (coefEntries (cs.zip labels)).filter (·.1 = some c)) ∧
      ((E.filter (·.1 = none)).map (·.2)).sum = limitDen o := by
  have hz := written_coefs hl (cs.zip labels) fun p hp => ⟨(List.of_mem_zip hp).2, hd _ (List.of_mem_zip hp).1⟩
  have hm : ∀ e ∈ coefEntries (cs.zip labels), ∀ c, e.1 = some c → c ∈ labels := by
    intro e he c hc
    obtain ⟨p, hp, rfl⟩ := List.mem_map.1 he
    have := (List.of_mem_zip (List.mem_filter.1 hp).1).2
    simp only [Option.some.injEq] at hc
    exact hc ▸ this
  unfold allTexts
  dsimp only
  by_cases h0 : limitDen o = 0
  · rw [if_pos h0, List.append_nil, h0]
    split
    · rename_i ht
      refine ⟨[(none, 0)], List.Forall₂.cons ?_ List.Forall₂.nil, by simp, ?_, by simp⟩
      · have := written_offset hl (q := 0) (by decide)
        rwa [(fracStr_zero_iff 0).2 rfl] at this
      · have : coefEntries (cs.zip labels) = [] := by
          rw [ht] at hz; exact List.forall₂_nil_right_iff.1 hz
        intro c
        rw [this]; simp
    · exact ⟨_, hz, hm, fun _ => rfl, by rw [sum_coefEntries_none]; rfl⟩
  · rw [if_neg h0, if_neg (by simp)]
    refine ⟨coefEntries (cs.zip labels) ++ [(none, limitDen o)], ?_, ?_, ?_, ?_⟩
    · exact List.rel_append hz (List.Forall₂.cons (written_offset hl (limitDen_den o)) List.Forall₂.nil)
    · intro e he c hc
      rcases List.mem_append.1 he with h | h
      · exact hm e h c hc
      · rw [List.mem_singleton.1 h] at hc; cases hc
    · intro c
      simp
    · rw [List.filter_append, sum_coefEntries_none]
      simp

/-- One component is read back as written. -/
theorem component_read_write {labels : List Char} (hl : ∀ c ∈ labels, GoodLabel c) (hn : labels.Nodup) {cs : List Num}
    (hlen : cs.length = labels.length) (hd : ∀ x ∈ cs, x.kept.den ≤ 10) (o : ℚ) :
    stringToDigits labels (digitsToString labels cs o) = some (cs.map Num.kept, limitDen o) := by
  obtain ⟨E, h1, h2, h3, h4⟩ := component_entries hl hd o
  have hterms : terms (digitsToString labels cs o) = signList (allTexts labels cs o) := by
    rw [digitsToString_eq]
    generalize allTexts labels cs o = l at h1
    cases h1 with
    | nil => rfl
    | cons h t => exact terms_eq _ _ h.1.1 (tokS_signList t)
  have hg := forall₂_signList h1
  have hcoef : labels.mapM (fun label => sumTerms (((signList (allTexts labels cs o)).filter (label ∈ ·)).map (fixTerm label)))
      = some (cs.map Num.kept) := by
    apply mapM_some
    rw [List.forall₂_iff_zip]
    refine ⟨by simp [hlen], ?_⟩
    intro c q hcq
    rw [List.zip_map_right, List.mem_map] at hcq
    obtain ⟨⟨c', x⟩, hx, he⟩ := hcq
    obtain ⟨rfl, rfl⟩ := Prod.mk.inj he
    have hx' : (x, c') ∈ cs.zip labels := by
      obtain ⟨i, hi, he⟩ := List.mem_iff_getElem.1 hx
      rw [List.getElem_zip] at he
      obtain ⟨e1, e2⟩ := Prod.mk.inj he
      rw [List.length_zip] at hi
      refine List.mem_iff_getElem.2 ⟨i, by rw [List.length_zip]; omega, ?_⟩
      rw [List.getElem_zip, e1, e2]
    have hcl : c' ∈ labels := (List.of_mem_zip hx').2
    rw [id_eq]
    show sumTerms _ = some x.kept
    rw [sum_filter_some hg hcl, h3, sum_coefEntries _ hx']
    rw [List.map_snd_zip (by omega)]
    exact hn
  unfold stringToDigits
  rw [hterms]
  simp only [hcoef, sum_filter_none hg h2, h4, Option.bind_eq_bind, Option.bind_some, Option.pure_def]

theorem component_clean {labels : List Char} (hl : ∀ c ∈ labels, GoodLabel c) {cs : List Num}
    (hd : ∀ x ∈ cs, x.kept.den ≤ 10) (o : ℚ) :
    ∀ c ∈ digitsToString labels cs o, c.isWhitespace = false ∧ c ≠ ',' ∧ c ≠ '(' ∧ c ≠ ')' := by
  obtain ⟨E, h1, -⟩ := component_entries hl hd o
  have hg := forall₂_signList h1
  intro c hc
  rw [digitsToString_eq] at hc
  obtain ⟨t, ht, hct⟩ := List.mem_flatten.1 hc
  obtain ⟨i, hi, rfl⟩ := List.mem_iff_getElem.1 ht
  have := (hg.get (i := i) (by rw [hg.length_eq]; exact hi) hi).1
  obtain ⟨sg, neg, U, hs, he, _, hU⟩ := this
  rw [List.get_eq_getElem] at he
  rw [he] at hct
  rcases List.mem_append.1 hct with h | h
  · rcases hs with ⟨rfl, _⟩ | ⟨rfl, _⟩ | ⟨rfl, _⟩
    · rw [List.mem_singleton.1 h]; decide
    · cases h
    · rw [List.mem_singleton.1 h]; decide
  · have := hU c h
    exact ⟨this.1, this.2.2.2.1, this.2.2.2.2.1, this.2.2.2.2.2⟩

theorem words_flatten {s : Str} (h : ∀ c ∈ s, c.isWhitespace = false) : (words s).flatten = s := by
  by_cases h0 : s = []
  · subst h0; rfl
  · have := words_word s [] h0 h (Or.inl rfl)
    rw [List.append_nil] at this
    rw [this]; simp [words]

theorem mem_intersperse {a t : Str} {l : List Str} (h : t ∈ l.intersperse a) : t ∈ l ∨ t = a := by
  induction l with
  | nil => simp at h
  | cons b l ih =>
    cases l with
    | nil => left; simpa using h
    | cons d l =>
      rw [List.intersperse_cons_cons] at h
      simp only [List.mem_cons] at h ih ⊢
      rcases h with h | h | h
      · exact Or.inl (Or.inl h)
      · exact Or.inr h
      · rcases ih h with h | h
        · exact Or.inl (Or.inr h)
        · exact Or.inr h

/-- C09: an operation (any number of components, any labels) that is written as text is read back with
the coefficients the writer keeps and the translation it keeps. -/
theorem symop_read_write {labels : List Char} (hl : ∀ c ∈ labels, GoodLabel c) (hn : labels.Nodup)
    {rb : List (List Num × ℚ)} (hne : rb ≠ []) (hlen : ∀ p ∈ rb, p.1.length = labels.length)
    (hd : ∀ p ∈ rb, ∀ x ∈ p.1, x.kept.den ≤ 10) :
    stringToRB labels (rbToString labels rb) = some (rb.map fun p => (p.1.map Num.kept, limitDen p.2)) := by
  have hc : ∀ s ∈ rb.map (fun p => digitsToString labels p.1 p.2),
      ∀ c ∈ s, c.isWhitespace = false ∧ c ≠ ',' ∧ c ≠ '(' ∧ c ≠ ')' := by
    intro s hs
    obtain ⟨p, hp, rfl⟩ := List.mem_map.1 hs
    exact component_clean hl (hd p hp) _
  have hall : ∀ c ∈ rbToString labels rb, c.isWhitespace = false ∧ c ≠ '(' ∧ c ≠ ')' := by
    intro c h
    obtain ⟨t, ht, hct⟩ := List.mem_flatten.1 h
    rcases mem_intersperse ht with h | h
    · have := hc t h c hct
      exact ⟨this.1, this.2.2.1, this.2.2.2⟩
    · subst h
      rw [List.mem_singleton.1 hct]; decide
  unfold stringToRB
  rw [strip_none fun c h => (hall c h).1, words_flatten fun c h => (hall c h).1]
  rw [dropWhile_none (p := (· == '(')) fun c h => by simpa using (hall c h).2.1]
  rw [dropWhile_none (p := (· == ')')) fun c h => by simpa using (hall c (List.mem_reverse.1 h)).2.2]
  rw [List.reverse_reverse]
  dsimp only
  rw [rbToString, splitComma_join _ (by simpa using hne) fun s hs hm => (hc s hs ',' hm).2.1 rfl]
  apply mapM_some
  rw [List.forall₂_map_left_iff, List.forall₂_map_right_iff, List.forall₂_same]
  intro p hp
  exact component_read_write hl hn (hlen p hp) (hd p hp) p.2

theorem xyz_good : ∀ c ∈ ['x', 'y', 'z'], GoodLabel c := by
  unfold GoodLabel; decide

theorem int_kept (n : ℤ) : (Num.float n).kept = n := limitDen_of_le (by simp)

/-- C09 in crystallographic terms: `r` an integer 3×3 matrix (floats or fractions), `b` a translation with
denominators up to 10; the text `x,y,z` form is read back as exactly `r` and `b`. -/
theorem symop_round_trip (r : Fin 3 → Fin 3 → ℤ) (b : Fin 3 → ℚ) (hb : ∀ i, (b i).den ≤ 10) (asFraction : Bool) :
    stringToRB ['x', 'y', 'z'] (rbToString ['x', 'y', 'z'] (List.ofFn fun i =>
        (List.ofFn fun j => if asFraction then Num.frac (r i j) else Num.float (r i j), b i))) =
      some (List.ofFn fun i => (List.ofFn fun j => (r i j : ℚ), b i)) := by
  have hk : ∀ i j, (if asFraction then Num.frac (r i j) else Num.float (r i j)).kept = r i j := by
    intro i j; cases asFraction
    · exact int_kept _
    · rfl
  rw [symop_read_write xyz_good (by decide) (by simp) (by simp)]
  · rw [List.map_ofFn]
    congr 2
    funext i
    simp only [Function.comp_apply, List.map_ofFn, limitDen_of_le (hb i)]
    congr 2
    funext j
    exact hk i j
  · intro p hp x hx
    obtain ⟨i, rfl⟩ := List.mem_ofFn.1 hp
    obtain ⟨j, rfl⟩ := List.mem_ofFn.1 hx
    rw [hk]; simp

/-- The text of a hexagonal operation, and what it is read as. -/
example : rbToString ['x', 'y', 'z'] [([.float 1, .float (-1), .float 0], 1 / 2), ([.float 1, .float 0, .float 0], 0),
      ([.float 0, .float 0, .float (-1)], 5 / 6)] = "x-y+1/2,x,-z+5/6".toList ∧
    stringToRB ['x', 'y', 'z'] " x - y+1/2, x,-z+5/6 ".toList =
      some [([1, -1, 0], 1 / 2), ([1, 0, 0], 0), ([0, 0, -1], 5 / 6)] := by
  decide +kernel

/-- C09, limit of the claim: a translation is rounded to a denominator of at most 10 when written, so
`x+1/12` is not kept. -/
theorem symop_translation_rounded : ∃ b : ℚ,
    stringToRB ['x'] (rbToString ['x'] [([.float 1], b)]) ≠ some [([1], b)] := ⟨1 / 12, by decide +kernel⟩

/-- C09, limit of the claim: fractional coefficients with larger denominators are written exactly but read
rounded. -/
theorem symop_coefficient_rounded : ∃ q : ℚ, rbToString ['x'] [([.frac q], 0)] = "x/12".toList ∧
    stringToRB ['x'] (rbToString ['x'] [([.frac q], 0)]) ≠ some [([q], 0)] := ⟨1 / 12, by decide +kernel⟩

/-! ## reading alone -/

theorem words_ws (s : Str) : (words s).flatten = s.filter (!·.isWhitespace) := by
  induction s with
  | nil => rfl
  | cons c s ih =>
    by_cases hc : c.isWhitespace = true
    · simp [words, hc, ih]
    · cases s with
      | nil => simp [words, hc]
      | cons d s =>
        rw [words, if_neg hc]
        split
        · simp only [List.flatten_cons, ih, List.filter_cons, hc]; simp
        · rename_i hd
          have hne : words (d :: s) ≠ [] := by
            cases s with
            | nil => simp [words, hd]
            | cons e s =>
              rw [words, if_neg hd]
              split
              · simp
              · split <;> simp
          obtain ⟨w, ws, hw⟩ := List.exists_cons_of_ne_nil hne
          rw [hw] at ih ⊢
          dsimp only
          rw [List.flatten_cons, List.cons_append, ← List.flatten_cons, ih, List.filter_cons_of_pos (a := c) (by simpa using hc)]

theorem dropWhile_ws_filter (s : Str) :
    (s.dropWhile Char.isWhitespace).filter (!·.isWhitespace) = s.filter (!·.isWhitespace) := by
  induction s with
  | nil => rfl
  | cons c s ih =>
    by_cases hc : c.isWhitespace = true
    · simp [hc, ih]
    · simp [hc]

theorem strip_filter (s : Str) : (strip s).filter (!·.isWhitespace) = s.filter (!·.isWhitespace) := by
  unfold strip
  rw [List.filter_reverse, dropWhile_ws_filter, List.filter_reverse, List.reverse_reverse, dropWhile_ws_filter]

/-- C09: blanks anywhere in the text do not matter. -/
theorem symop_read_blanks (labels : List Char) {s t : Str}
    (h : s.filter (!·.isWhitespace) = t.filter (!·.isWhitespace)) : stringToRB labels s = stringToRB labels t := by
  unfold stringToRB
  rw [words_ws, words_ws, strip_filter, strip_filter, h]

example : ("x, y ,z".toList.filter (!·.isWhitespace)) = ("x,y,z".toList.filter (!·.isWhitespace)) := by decide

end Cryspy.Text
