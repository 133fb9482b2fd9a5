import Verif.Refine.TextModel
import Verif.Refine.Props
import Verif.Den.Lemmas
import Mathlib.Data.List.Perm.Basic
import Mathlib.Data.List.Nodup

/-!
# The inverse Hessian as text (C36)
-/

namespace Cryspy.Refine

open Cryspy.Text Cryspy.Den

/-- The entry of a labelled matrix for two labels. -/
def entry (s : List Str × List (List ℚ)) (a b : Str) : Option ℚ :=
  (s.2[s.1.idxOf a]?).bind fun row => row[s.1.idxOf b]?

/-- A matrix with as many rows and columns as labels. -/
def Square (s : List Str × List (List ℚ)) : Prop :=
  s.2.length = s.1.length ∧ ∀ row ∈ s.2, row.length = s.1.length

theorem argsort_perm (labels : List Str) : (argsort labels).Perm (List.range labels.length) :=
  List.mergeSort_perm _ _

theorem argsort_sorted (labels : List Str) :
    (argsort labels).Pairwise fun i j => labels.getD i [] ≤ labels.getD j [] := by
  have := List.pairwise_mergeSort (le := fun i j => decide (labels.getD i [] ≤ labels.getD j []))
    (by intro a b c h1 h2; simp only [decide_eq_true_eq] at *; exact h1.trans h2)
    (by intro a b; simp only [Bool.or_eq_true, decide_eq_true_eq]; exact le_total _ _)
    (List.range labels.length)
  refine this.imp ?_
  intro a b h; simpa using h

theorem permute_some {A : Type} (l : List A) : ∀ (ind : List ℕ) (h : ∀ i ∈ ind, i < l.length),
    ∃ r, permute ind l = some r ∧ r.length = ind.length ∧ (∀ k : ℕ, r[k]? = (ind[k]?).bind (fun i : ℕ => l[i]?)) := by
  intro ind
  induction ind with
  | nil => intro _; exact ⟨[], rfl, rfl, by simp⟩
  | cons i ind ih =>
    intro h
    obtain ⟨r, hr, hl, hk⟩ := ih (fun j hj => h j (by simp [hj]))
    have hi : l[i]? = some (l[i]'(h i (by simp))) := List.getElem?_eq_getElem _
    refine ⟨l[i]'(h i (by simp)) :: r, ?_, by simp [hl], ?_⟩
    · unfold permute at hr ⊢
      rw [List.mapM_cons, hi, hr]; rfl
    · intro k
      cases k with
      | zero => simp
      | succ k => simpa using hk k

theorem mapM_permute (ind : List ℕ) (n : ℕ) (h : ∀ i ∈ ind, i < n) : ∀ (m : List (List ℚ)),
    (∀ row ∈ m, row.length = n) → ∃ r, m.mapM (permute ind) = some r ∧ r.length = m.length ∧
      ∀ (k : ℕ) (row : List ℚ), m[k]? = some row → ∃ row', r[k]? = some row' ∧ row'.length = ind.length ∧
        ∀ j : ℕ, row'[j]? = (ind[j]?).bind (fun i : ℕ => row[i]?) := by
  intro m
  induction m with
  | nil => intro _; exact ⟨[], rfl, rfl, by simp⟩
  | cons row m ih =>
    intro hm
    obtain ⟨r, hr, hl, hk⟩ := ih (fun x hx => hm x (by simp [hx]))
    obtain ⟨row', hrow', hl', hk'⟩ := permute_some row ind (by rw [hm row (by simp)]; exact h)
    refine ⟨row' :: r, by rw [List.mapM_cons, hrow', hr]; rfl, by simp [hl], ?_⟩
    intro k x hx
    cases k with
    | zero =>
      simp only [List.getElem?_cons_zero, Option.some.injEq] at hx
      subst hx
      exact ⟨row', by simp, hl', hk'⟩
    | succ k => simpa using hk k x (by simpa using hx)

/-- Sorting keeps the matrix as a function of the pair of labels. -/
theorem hessSorted_spec (s : List Str × List (List ℚ)) (hn : s.1.Nodup) (hs : Square s) :
    ∃ r, hessSorted s.1 s.2 = some r ∧ r.1.Perm s.1 ∧ r.1.Pairwise (· ≤ ·) ∧ Square r ∧
      ∀ a ∈ s.1, ∀ b ∈ s.1, entry r a b = entry s a b := by
  obtain ⟨labels, m⟩ := s
  simp only at hn
  set ind := argsort labels with hind
  have hp := argsort_perm labels
  rw [← hind] at hp
  have hlt : ∀ i ∈ ind, i < labels.length := fun i hi => List.mem_range.1 (hp.mem_iff.1 hi)
  have hil : ind.length = labels.length := by rw [hp.length_eq, List.length_range]
  obtain ⟨labs, h1, h1l, h1k⟩ := permute_some labels ind hlt
  obtain ⟨rows, h2, h2l, h2k⟩ := permute_some m ind (by rw [hs.1]; exact hlt)
  have hrl : ∀ row ∈ rows, row.length = labels.length := by
    intro row hrow
    obtain ⟨k, hk⟩ := List.getElem?_of_mem hrow
    rw [h2k] at hk
    match e : ind[k]? with
    | none => rw [e] at hk; cases hk
    | some i => rw [e] at hk; exact hs.2 row (List.mem_of_getElem? hk)
  obtain ⟨r, h3, h3l, h3k⟩ := mapM_permute ind labels.length hlt rows hrl
  have hlabs : labs = ind.map fun i => labels.getD i [] := by
    apply List.ext_getElem?
    intro k
    rw [h1k, List.getElem?_map]
    match e : ind[k]? with
    | none => rfl
    | some i =>
      have := hlt i (List.mem_of_getElem? e)
      simp [List.getD, List.getElem?_eq_getElem this]
  have hperm : labs.Perm labels := by
    have e : (List.range labels.length).map (fun i => labels.getD i []) = labels := by
      apply List.ext_getElem
      · simp
      · intro k h1 h2
        simp [List.getD, List.getElem?_eq_getElem h2]
    rw [hlabs]
    exact (hp.map _).trans (by rw [e])
  have hnl : labs.Nodup := hperm.nodup_iff.2 hn
  refine ⟨(labs, r), ?_, hperm, ?_, ⟨by simp [h3l, h2l, h1l], ?_⟩, ?_⟩
  · unfold hessSorted
    simp only [← hind]
    rw [h1]
    change (do let rows ← permute ind m; let rows ← rows.mapM (permute ind); some (labs, rows)) = _
    rw [h2]
    change (do let rows ← rows.mapM (permute ind); some (labs, rows)) = _
    rw [h3]
    rfl
  · change labs.Pairwise (· ≤ ·)
    rw [hlabs, List.pairwise_map]
    exact argsort_sorted labels
  · intro row hrow
    obtain ⟨k, hk⟩ := List.getElem?_of_mem hrow
    have hk : r[k]? = some row := hk
    have hkr : k < r.length := by
      by_contra hcon; rw [List.getElem?_eq_none (by omega)] at hk; cases hk
    have hkrows : rows[k]? = some (rows[k]'(by omega)) := List.getElem?_eq_getElem _
    obtain ⟨row', e, hl, -⟩ := h3k k _ hkrows
    rw [hk] at e
    cases e
    change row.length = labs.length
    rw [hl, h1l]
  · intro a ha b hb
    have pos : ∀ a ∈ labels, ∃ k, labs.idxOf a = k ∧ ind[k]? = some (labels.idxOf a) := by
      intro a ha
      have hma : a ∈ labs := hperm.mem_iff.2 ha
      refine ⟨labs.idxOf a, rfl, ?_⟩
      have hk := List.getElem?_idxOf hma
      rw [h1k] at hk
      match e : ind[labs.idxOf a]? with
      | none => rw [e] at hk; cases hk
      | some i =>
        rw [e] at hk
        have hk : labels[i]? = some a := hk
        have hi := hlt i (List.mem_of_getElem? e)
        rw [List.getElem?_eq_getElem hi] at hk
        have hk := Option.some.inj hk
        rw [← hk, List.Nodup.idxOf_getElem hn]
    obtain ⟨ka, hka, hia⟩ := pos a ha
    obtain ⟨kb, hkb, hib⟩ := pos b hb
    unfold entry
    simp only [hka, hkb]
    have hma : labels.idxOf a < m.length := by
      have hl : m.length = labels.length := hs.1
      rw [hl]; exact List.idxOf_lt_length_iff.2 ha
    have e1 : rows[ka]? = some (m[labels.idxOf a]'hma) := by
      rw [h2k, hia]; exact List.getElem?_eq_getElem _
    obtain ⟨row', e2, -, e3⟩ := h3k ka _ e1
    rw [e2, List.getElem?_eq_getElem hma]
    change row'[kb]? = _
    rw [e3, hib]
    rfl

/-! ### The text -/

theorem splitNl_line (s : Str) (h : '\n' ∉ s) (t : Str) : splitNl (s ++ '\n' :: t) = s :: splitNl t := by
  induction s with
  | nil => simp [splitNl]
  | cons c s ih =>
    simp only [List.mem_cons, not_or] at h
    rw [List.cons_append, splitNl, if_neg (fun e => h.1 e.symm), ih h.2]

theorem splitNl_last (s : Str) (h : '\n' ∉ s) : splitNl s = [s] := by
  induction s with
  | nil => rfl
  | cons c s ih =>
    simp only [List.mem_cons, not_or] at h
    rw [splitNl, if_neg (fun e => h.1 e.symm), ih h.2]

theorem splitNl_join (l : List Str) (h : ∀ s ∈ l, '\n' ∉ s) (h0 : l ≠ []) : splitNl (joinNl l) = l := by
  induction l with
  | nil => exact absurd rfl h0
  | cons s t ih =>
    cases t with
    | nil => exact splitNl_last s (h s (by simp))
    | cons u t =>
      rw [show joinNl (s :: u :: t) = s ++ '\n' :: joinNl (u :: t) from rfl,
        splitNl_line s (h s (by simp)), ih (fun x hx => h x (by simp [hx])) (by simp)]

/-- A text whose first and last characters are not blank is not changed by `strip`. -/
theorem strip_ends (s : Str) (h1 : ∀ c, s.head? = some c → c.isWhitespace = false)
    (h2 : ∀ c, s.getLast? = some c → c.isWhitespace = false) : strip s = s := by
  have dw : ∀ t : Str, (∀ c, t.head? = some c → c.isWhitespace = false) →
      t.dropWhile Char.isWhitespace = t := by
    intro t ht
    cases t with
    | nil => rfl
    | cons c t => rw [List.dropWhile_cons_of_neg]; rw [ht c rfl]; simp
  unfold strip
  rw [dw s h1, dw s.reverse (by rw [List.head?_reverse]; exact h2), List.reverse_reverse]

theorem joinSp_txt : ∀ (l : List Str), l ≠ [] → ' ' :: joinSp l = (l.map fun s => (1, s)).flatMap txt := by
  intro l
  induction l with
  | nil => intro h; exact absurd rfl h
  | cons s t ih =>
    intro _
    cases t with
    | nil => simp [joinSp, txt]
    | cons u t =>
      have := ih (by simp)
      rw [show joinSp (s :: u :: t) = s ++ ' ' :: joinSp (u :: t) from rfl, this]
      simp [txt]

theorem blanks_txt (k : ℕ) (l : List Str) (h : l ≠ []) :
    List.replicate k ' ' ++ ' ' :: joinSp l =
      ((k + 1, l.head h) :: l.tail.map fun s => (1, s)).flatMap txt := by
  rw [joinSp_txt l h]
  cases l with
  | nil => exact absurd rfl h
  | cons s t => simp [txt, List.replicate_add, List.append_assoc]

theorem words_hessLine (lab : Str) (hw : Word lab) (row : List ℚ) (h : row ≠ []) :
    words (hessLine lab row) = lab :: row.map (fixedStr 10) := by
  have hne : row.map (fixedStr 10) ≠ [] := by simpa using h
  have e : hessLine lab row = ((0, lab) :: (7 - lab.length + 1, (row.map (fixedStr 10)).head hne) ::
      (row.map (fixedStr 10)).tail.map fun s => (1, s)).flatMap txt ++ [] := by
    unfold hessLine
    rw [List.append_assoc, blanks_txt _ _ hne]
    simp [txt]
  rw [e, words_fields _ _ _ [] (Or.inl rfl)]
  · simp [Function.comp_def]
    rw [← List.map_tail]
    cases row with
    | nil => exact absurd rfl h
    | cons a t => simp
  · intro f hf
    simp only [List.mem_cons] at hf
    rcases hf with rfl | rfl | hf
    · exact hw
    · have := List.head_mem hne
      obtain ⟨q, -, hq⟩ := List.mem_map.1 this
      simp only
      rw [← hq]; exact fixedStr_word _ _
    · obtain ⟨x, hx, rfl⟩ := List.mem_map.1 hf
      obtain ⟨q, -, rfl⟩ := List.mem_map.1 (List.mem_of_mem_tail hx)
      exact fixedStr_word _ _
  · intro f hf
    simp only [List.tail_cons, List.mem_cons] at hf
    rcases hf with rfl | hf
    · simp
    · obtain ⟨x, hx, rfl⟩ := List.mem_map.1 hf
      simp

theorem parse_hessLine (lab : Str) (hw : Word lab) (row : List ℚ) (h : row ≠ []) :
    parseHessLine (hessLine lab row) = some (lab, row.map (kept 10)) := by
  unfold parseHessLine
  rw [words_hessLine lab hw row h]
  have : ∀ row : List ℚ, (row.map (fixedStr 10)).mapM parseFlt = some (row.map (kept 10)) := by
    intro row
    induction row with
    | nil => rfl
    | cons q t ih =>
      rw [List.map_cons, List.mapM_cons, parseFlt_fixedStr (by norm_num), ih]; rfl
  simp only [this]
  rfl

theorem hessLine_chars (lab : Str) (hw : Word lab) (row : List ℚ) : '\n' ∉ hessLine lab row := by
  have hj : ∀ l : List Str, (∀ s ∈ l, '\n' ∉ s) → '\n' ∉ joinSp l := by
    intro l
    induction l with
    | nil => intro _; simp [joinSp]
    | cons s t ih =>
      intro h
      cases t with
      | nil => exact h s (by simp)
      | cons u t =>
        rw [show joinSp (s :: u :: t) = s ++ ' ' :: joinSp (u :: t) from rfl]
        simp only [List.mem_append, List.mem_cons, not_or]
        exact ⟨h s (by simp), by decide, ih (fun x hx => h x (by simp [hx]))⟩
  have hword : ∀ s : Str, Word s → '\n' ∉ s := by
    intro s hs hm
    have := hs.2 _ hm
    revert this; decide
  unfold hessLine
  simp only [List.mem_append, List.mem_cons, not_or, List.mem_replicate, not_and]
  refine ⟨⟨hword lab hw, fun _ => by decide⟩, by decide, hj _ ?_⟩
  intro s hs
  obtain ⟨q, -, rfl⟩ := List.mem_map.1 hs
  exact hword _ (fixedStr_word _ _)

theorem getLast_joinSp (l : List Str) (h : ∀ s ∈ l, Word s) (h0 : l ≠ []) :
    ∃ c, (joinSp l).getLast? = some c ∧ c.isWhitespace = false := by
  induction l with
  | nil => exact absurd rfl h0
  | cons s t ih =>
    cases t with
    | nil =>
      obtain ⟨hs0, hs⟩ := h s (by simp)
      exact ⟨s.getLast hs0, by simp [joinSp, List.getLast?_eq_getLast_of_ne_nil hs0], hs _ (List.getLast_mem hs0)⟩
    | cons u t =>
      obtain ⟨c, hc, hcw⟩ := ih (fun x hx => h x (by simp [hx])) (by simp)
      refine ⟨c, ?_, hcw⟩
      rw [show joinSp (s :: u :: t) = s ++ ' ' :: joinSp (u :: t) from rfl]
      rw [List.getLast?_append, List.getLast?_cons, hc]
      rfl

theorem hessLine_last (lab : Str) (row : List ℚ) (h : row ≠ []) :
    ∃ c, (hessLine lab row).getLast? = some c ∧ c.isWhitespace = false := by
  obtain ⟨c, hc, hcw⟩ := getLast_joinSp (row.map (fixedStr 10)) (by
    intro s hs
    obtain ⟨q, -, rfl⟩ := List.mem_map.1 hs
    exact fixedStr_word _ _) (by simpa using h)
  refine ⟨c, ?_, hcw⟩
  unfold hessLine
  rw [List.getLast?_append, List.getLast?_cons, hc]
  rfl

theorem joinNl_last (l : List Str) (h : ∀ s ∈ l, ∃ c, s.getLast? = some c ∧ c.isWhitespace = false)
    (c : Char) (hc : (joinNl l).getLast? = some c) : c.isWhitespace = false := by
  induction l with
  | nil => cases hc
  | cons s t ih =>
    cases t with
    | nil =>
      obtain ⟨d, hd, hdw⟩ := h s (by simp)
      have hc : s.getLast? = some c := hc
      rw [hd] at hc; cases hc; exact hdw
    | cons u t =>
      rw [show joinNl (s :: u :: t) = s ++ '\n' :: joinNl (u :: t) from rfl, List.getLast?_append,
        List.getLast?_cons] at hc
      match e : (joinNl (u :: t)).getLast? with
      | none =>
        exfalso
        obtain ⟨d, hd, -⟩ := h u (by simp)
        rw [List.getLast?_eq_none_iff] at e
        cases t with
        | nil => have e : u = [] := e; rw [e] at hd; cases hd
        | cons v t =>
          rw [show joinNl (u :: v :: t) = u ++ '\n' :: joinNl (v :: t) from rfl] at e
          simp at e
      | some d =>
        rw [e] at hc
        have hc : some d = some c := hc
        cases hc
        exact ih (fun x hx => h x (by simp [hx])) e

/-- The inverse Hessian written to the item and read again: the labels are the same, in sorted order,
and for every pair of labels the number read is the one written, rounded to ten decimals. -/
theorem hessian_text_round_trip (s : List Str × List (List ℚ)) (h0 : s.1 ≠ []) (hn : s.1.Nodup)
    (hw : ∀ l ∈ s.1, Word l) (hs : Square s) :
    ∃ text r, formText s.1 s.2 = some text ∧ formObject text = some r ∧ r.1.Perm s.1 ∧
      r.1.Pairwise (· ≤ ·) ∧ Square r ∧
      ∀ a ∈ s.1, ∀ b ∈ s.1, ∃ q, entry s a b = some q ∧ entry r a b = some (kept 10 q) := by
  obtain ⟨t, ht, htp, hts, htq, hte⟩ := hessSorted_spec s hn hs
  set lines := List.zipWith hessLine t.1 t.2 with hlines
  have htl : t.1.length ≠ 0 := by
    rw [htp.length_eq]; simpa using h0
  have hrow : ∀ row ∈ t.2, row ≠ [] := by
    rintro row hr rfl
    exact htl (htq.2 [] hr).symm
  have hparse : ∀ (labs : List Str) (rows : List (List ℚ)), labs.length = rows.length →
      (∀ l ∈ labs, Word l) → (∀ row ∈ rows, row ≠ []) →
      (List.zipWith hessLine labs rows).mapM parseHessLine =
        some (List.zip labs (rows.map (List.map (kept 10)))) ∧
      ∀ s ∈ List.zipWith hessLine labs rows, '\n' ∉ s ∧ (∃ c, s.getLast? = some c ∧ c.isWhitespace = false) ∧
        (∃ c, s.head? = some c ∧ c.isWhitespace = false) := by
    intro labs
    induction labs with
    | nil => intro rows _ _ _; simp
    | cons l labs ih =>
      intro rows hl hlw hr
      cases rows with
      | nil => simp at hl
      | cons row rows =>
        obtain ⟨e, he⟩ := ih rows (by simpa using hl) (fun x hx => hlw x (by simp [hx]))
          (fun x hx => hr x (by simp [hx]))
        constructor
        · rw [List.zipWith_cons_cons, List.mapM_cons, parse_hessLine l (hlw l (by simp)) row (hr row (by simp)), e]
          rfl
        · intro x hx
          rw [List.zipWith_cons_cons] at hx
          rcases List.mem_cons.1 hx with rfl | hx
          · refine ⟨hessLine_chars l (hlw l (by simp)) row, hessLine_last l row (hr row (by simp)), ?_⟩
            obtain ⟨hl0, hlc⟩ := hlw l (by simp)
            cases l with
            | nil => exact absurd rfl hl0
            | cons c l => exact ⟨c, by simp [hessLine], hlc c (by simp)⟩
          · exact he x hx
  obtain ⟨hp, hok⟩ := hparse t.1 t.2 htq.1.symm (fun l hl => hw l (htp.mem_iff.1 hl)) hrow
  rw [← hlines] at hp hok
  have hl0 : lines ≠ [] := by
    intro e
    have : lines.length = 0 := by rw [e]; rfl
    rw [hlines, List.length_zipWith, htq.1, Nat.min_self] at this
    exact htl this
  have hstrip : strip (joinNl lines) = joinNl lines := by
    apply strip_ends
    · intro c hc
      clear_value lines
      cases lines with
      | nil => exact absurd rfl hl0
      | cons x xs =>
        obtain ⟨d, hd, hdw⟩ := (hok x (by simp)).2.2
        have : (joinNl (x :: xs)).head? = x.head? := by
          cases xs with
          | nil => rfl
          | cons y ys =>
            cases x with
            | nil => cases hd
            | cons => rfl
        rw [this, hd] at hc
        cases hc; exact hdw
    · exact fun c hc => joinNl_last lines (fun x hx => (hok x hx).2.1) c hc
  set t2 : List Str × List (List ℚ) := (t.1, t.2.map (List.map (kept 10))) with ht2
  have hsq2 : Square t2 := by
    refine ⟨by simp [ht2, htq.1], ?_⟩
    intro row hr
    obtain ⟨row', hr', rfl⟩ := List.mem_map.1 hr
    simpa using htq.2 row' hr'
  obtain ⟨r, hr, hrp, hrs, hrq, hre⟩ := hessSorted_spec t2 (htp.nodup_iff.2 hn) hsq2
  refine ⟨joinNl lines, r, ?_, ?_, hrp.trans htp, hrs, hrq, ?_⟩
  · unfold formText; rw [ht]; rfl
  · unfold formObject
    rw [hstrip, splitNl_join lines (fun x hx => (hok x hx).1) hl0, hp]
    have e1 : (List.zip t.1 (t.2.map (List.map (kept 10)))).map (·.1) = t2.1 := by
      rw [List.map_fst_zip]; simp [htq.1]
    have e2 : (List.zip t.1 (t.2.map (List.map (kept 10)))).map (·.2) = t2.2 := by
      rw [List.map_snd_zip]; simp [htq.1]
    change hessSorted _ _ = _
    rw [e1, e2]; exact hr
  · intro a ha b hb
    have ha' := htp.mem_iff.2 ha
    have hb' := htp.mem_iff.2 hb
    rw [hre a ha' b hb', ← hte a ha b hb]
    have hi : t.1.idxOf a < t.2.length := by rw [htq.1]; exact List.idxOf_lt_length_iff.2 ha'
    have hj : t.1.idxOf b < (t.2[t.1.idxOf a]).length := by
      rw [htq.2 _ (List.getElem_mem _)]; exact List.idxOf_lt_length_iff.2 hb'
    refine ⟨t.2[t.1.idxOf a][t.1.idxOf b], ?_, ?_⟩
    · unfold entry
      rw [List.getElem?_eq_getElem hi]
      exact List.getElem?_eq_getElem hj
    · unfold entry
      simp only [ht2, List.getElem?_map, List.getElem?_eq_getElem hi, Option.map_some, Option.bind_some]
      rw [List.getElem?_eq_getElem hj]; rfl

/-- The rounding is at most half of the tenth decimal. -/
theorem hessian_text_error (q : ℚ) : |kept 10 q - q| ≤ 1 / 2 / 10 ^ 10 := kept_near 10 q

/-- A variance below that, of a scale factor with the error `7e-6` for instance, becomes zero: the
sigma calculated from the text is zero and the correlations are no numbers. -/
theorem small_variance_lost (q : ℚ) (h : |q| < 1 / 2 / 10 ^ 10) : kept 10 q = 0 := by
  unfold kept
  rw [rint_near (n := 0)]
  · simp
  · have h10 : (0 : ℚ) < 10 ^ 10 := by positivity
    simp only [Int.cast_zero, sub_zero]
    rw [abs_mul, abs_of_pos h10]
    calc |q| * 10 ^ 10 < (1 / 2 / 10 ^ 10) * 10 ^ 10 := by
          exact mul_lt_mul_of_pos_right h h10
      _ = 1 / 2 := by norm_num

example : kept 10 (49 / 10 ^ 12) = 0 := small_variance_lost _ (by norm_num)

/-- No parameters: the empty text raises when it is read. -/
theorem empty_raises : formText [] [] = some [] ∧ formObject [] = none := by
  constructor
  · simp [formText, hessSorted, argsort, permute, joinNl]
  · rfl

example : ∃ s : List Str × List (List ℚ), s.1 ≠ [] ∧ s.1.Nodup ∧ (∀ l ∈ s.1, Word l) ∧ Square s :=
  ⟨(["b".toList, "a".toList], [[1, 2], [3, 4]]), by decide, by decide, by
    intro l hl; fin_cases hl <;> exact ⟨by decide, by decide⟩, rfl, by
    intro row hr; fin_cases hr <;> rfl⟩

/-- Two parameters with the same label cannot be told apart: the entry for the label is that of the
first one only. -/
theorem same_label_hides (x y : ℚ) : entry (["a".toList, "a".toList], [[x, 0], [0, y]]) "a".toList "a".toList = some x :=
  rfl

end Cryspy.Refine
