import Verif.Split.Model
import Mathlib.Data.List.Perm.Basic

/-!
# Every column in one loop, under the shortest fitting prefix
-/

namespace Cryspy.Split

/-! ## Specification -/

/-- the column name (without underscores at its ends) is prefix, one character, and a name of the class up to the case -/
def Fits (s : Str) (c : Cls) : Prop := ∃ sep name, s = c.pre ++ sep :: name ∧ lower name ∈ c.cif.map lower

/-- no class has the empty name, and prefixes are different -/
def Proper (cs : List Cls) : Prop := (∀ c ∈ cs, [] ∉ c.cif) ∧ (cs.map (·.pre)).Nodup

/-! ## The search -/

theorem mem_insertLen (a x : Str) (l : List Str) : x ∈ insertLen a l ↔ x = a ∨ x ∈ l := by
  induction l with
  | nil => simp [insertLen]
  | cons b l ih =>
    unfold insertLen
    split
    · simp
    · simp only [List.mem_cons, ih]
      tauto

theorem mem_sortLen (x : Str) (l : List Str) : x ∈ sortLen l ↔ x ∈ l := by
  unfold sortLen
  induction l with
  | nil => simp
  | cons a l ih => rw [List.foldr_cons, mem_insertLen, ih, List.mem_cons]

theorem insertLen_sorted {a : Str} {l : List Str} (h : l.Pairwise fun x y => x.length ≤ y.length) :
    (insertLen a l).Pairwise fun x y => x.length ≤ y.length := by
  induction l with
  | nil => simp [insertLen]
  | cons b l ih =>
    rw [List.pairwise_cons] at h
    unfold insertLen
    split
    · rename_i hab
      rw [List.pairwise_cons]
      refine ⟨?_, List.pairwise_cons.2 h⟩
      intro y hy
      rcases List.mem_cons.1 hy with rfl | hy
      · exact hab
      · exact Nat.le_trans hab (h.1 y hy)
    · rename_i hab
      rw [List.pairwise_cons]
      refine ⟨?_, ih h.2⟩
      intro y hy
      rcases (mem_insertLen a y l).1 hy with rfl | hy
      · omega
      · exact h.1 y hy

theorem sortLen_sorted (l : List Str) : (sortLen l).Pairwise fun x y => x.length ≤ y.length := by
  unfold sortLen
  induction l with
  | nil => exact List.Pairwise.nil
  | cons a l ih => exact insertLen_sorted ih

theorem find_class {cs : List Cls} (h : (cs.map (·.pre)).Nodup) {c : Cls} (hc : c ∈ cs) : cs.find? (fun d => d.pre == c.pre) = some c := by
  induction cs with
  | nil => cases hc
  | cons d cs ih =>
    rw [List.map_cons, List.nodup_cons] at h
    rw [List.find?_cons]
    by_cases hd : d.pre = c.pre
    · rcases List.mem_cons.1 hc with rfl | hc
      · simp
      · exact absurd (hd ▸ List.mem_map_of_mem hc) h.1
    · rcases List.mem_cons.1 hc with rfl | hc
      · exact absurd rfl hd
      · rw [show (d.pre == c.pre) = false from by simp [hd]]
        exact ih h.2 hc

/-- for a proper list of classes, the rest of the name is a name exactly when the class fits -/
theorem fits_iff {cs : List Cls} (hp : Proper cs) {c : Cls} (hc : c ∈ cs) (s : Str) :
    (c.pre <+: s ∧ named s c.pre c = true) ↔ Fits s c := by
  constructor
  · rintro ⟨⟨t, rfl⟩, hn⟩
    unfold named at hn
    rw [List.contains_iff_mem] at hn
    cases t with
    | nil =>
      exfalso
      rw [List.append_nil, List.drop_eq_nil_of_le (by omega)] at hn
      obtain ⟨a, ha, he⟩ := List.mem_map.1 hn
      have : a = [] := by simpa [lower] using he
      exact hp.1 c hc (this ▸ ha)
    | cons sep name =>
      refine ⟨sep, name, rfl, ?_⟩
      rwa [← List.drop_drop, List.drop_left] at hn
  · rintro ⟨sep, name, rfl, hn⟩
    refine ⟨⟨_, rfl⟩, ?_⟩
    unfold named
    rw [List.contains_iff_mem, ← List.drop_drop, List.drop_left]
    exact hn

theorem firstNamed_spec {cs : List Cls} (hp : Proper cs) (s : Str) {l : List Str} (hl : ∀ p ∈ l, p <+: s ∧ ∃ c ∈ cs, c.pre = p)
    (hs : l.Pairwise fun x y => x.length ≤ y.length) :
    (firstNamed cs s l = some none ∧ ∀ c ∈ cs, c.pre ∈ l → ¬ Fits s c) ∨
    ∃ c ∈ cs, c.pre ∈ l ∧ (∃ sep name, s = c.pre ++ sep :: name ∧ lower name ∈ c.cif.map lower ∧ firstNamed cs s l = some (some (c.pre, name, sep))) ∧
      ∀ d ∈ cs, d.pre ∈ l → Fits s d → c.pre.length ≤ d.pre.length := by
  induction l with
  | nil => exact Or.inl ⟨rfl, fun c _ h => by cases h⟩
  | cons p l ih =>
    obtain ⟨hps, c, hc, rfl⟩ := hl p List.mem_cons_self
    rw [List.pairwise_cons] at hs
    unfold firstNamed
    rw [find_class hp.2 hc]
    simp only
    by_cases hn : named s c.pre c = true
    · right
      obtain ⟨sep, name, rfl, hname⟩ := (fits_iff hp hc s).1 ⟨hps, hn⟩
      refine ⟨c, hc, List.mem_cons_self, ⟨sep, name, rfl, hname, ?_⟩, ?_⟩
      · rw [if_pos hn]
        simp [← List.drop_drop]
      · intro d _ hd _
        rcases List.mem_cons.1 hd with h | h
        · rw [h]; exact Nat.le_refl _
        · exact hs.1 _ h
    · rw [if_neg hn]
      rcases ih (fun q hq => hl q (List.mem_cons_of_mem _ hq)) hs.2 with ⟨h1, h2⟩ | ⟨e, he, hel, h1, h2⟩
      · left
        refine ⟨h1, fun d hd hdl hf => ?_⟩
        rcases List.mem_cons.1 hdl with h | h
        · have : d = c := by
            have h1 := find_class hp.2 hd
            rw [h, find_class hp.2 hc] at h1
            exact (Option.some.inj h1).symm
          subst this
          exact hn ((fits_iff hp hd s).2 hf).2
        · exact h2 d hd h hf
      · right
        refine ⟨e, he, List.mem_cons_of_mem _ hel, h1, fun d hd hdl hf => ?_⟩
        rcases List.mem_cons.1 hdl with h | h
        · exfalso
          have : d = c := by
            have h1 := find_class hp.2 hd
            rw [h, find_class hp.2 hc] at h1
            exact (Option.some.inj h1).symm
          subst this
          exact hn ((fits_iff hp hd s).2 hf).2
        · exact h2 d hd h hf

/-- **C91.** For a column of a file the search gives the class of the shortest prefix that fits, with the rest of the name and the character between;
it gives nothing exactly when no class fits -/
theorem find_spec {cs : List Cls} (hp : Proper cs) (ln : Str) :
    (findNamePrefix ln cs = some none ∧ ∀ c ∈ cs, ¬ Fits (strip ln) c) ∨
    ∃ c ∈ cs, (∃ sep name, strip ln = c.pre ++ sep :: name ∧ lower name ∈ c.cif.map lower ∧ findNamePrefix ln cs = some (some (c.pre, name, sep))) ∧
      ∀ d ∈ cs, Fits (strip ln) d → c.pre.length ≤ d.pre.length := by
  have hmem (c : Cls) (hc : c ∈ cs) (hf : Fits (strip ln) c) :
      c.pre ∈ sortLen ((cs.map (·.pre)).filter fun p => p.isPrefixOf (strip ln)) := by
    rw [mem_sortLen, List.mem_filter]
    exact ⟨List.mem_map_of_mem hc, List.isPrefixOf_iff_prefix.2 ((fits_iff hp hc _).2 hf).1⟩
  have hall : ∀ p ∈ sortLen ((cs.map (·.pre)).filter fun p => p.isPrefixOf (strip ln)), p <+: strip ln ∧ ∃ c ∈ cs, c.pre = p := by
    intro p h
    rw [mem_sortLen, List.mem_filter] at h
    obtain ⟨c, hc, rfl⟩ := List.mem_map.1 h.1
    exact ⟨List.isPrefixOf_iff_prefix.1 h.2, c, hc, rfl⟩
  rcases firstNamed_spec hp (strip ln) hall (sortLen_sorted _) with ⟨h1, h2⟩ | ⟨c, hc, _, h1, h2⟩
  · exact Or.inl ⟨h1, fun c hc hf => h2 c hc (hmem c hc hf) hf⟩
  · exact Or.inr ⟨c, hc, h1, fun d hd hf => h2 d hd (hmem d hd hf) hf⟩

/-- so a proper list of classes never raises -/
theorem assign_total {cs : List Cls} (hp : Proper cs) (ln : Str) : ∃ r, assign cs ln = some r := by
  unfold assign
  rcases find_spec hp ln with ⟨h, _⟩ | ⟨c, _, ⟨sep, name, _, _, h⟩, _⟩
  · exact ⟨_, by rw [h]⟩
  · exact ⟨_, by rw [h]⟩

/-! ## The columns are shared out -/

theorem assignAll_spec {α : Type} {cs : List Cls} (hp : Proper cs) (cols : List (Str × List α)) :
    ∃ l : List (Col α), assignAll cs cols = some l ∧ l.map (fun c => (c.name, c.vals)) = cols.map (fun c => (lower c.1, c.2)) ∧
      ∀ c ∈ l, assign cs c.name = some (c.pre, c.short, c.sep) := by
  unfold assignAll
  induction cols with
  | nil => exact ⟨[], rfl, rfl, fun c h => by cases h⟩
  | cons a cols ih =>
    obtain ⟨l, h1, h2, h3⟩ := ih
    obtain ⟨r, hr⟩ := assign_total hp (lower a.1)
    refine ⟨⟨lower a.1, a.2, r.1, r.2.1, r.2.2⟩ :: l, ?_, ?_, ?_⟩
    · rw [List.mapM_cons, hr, h1]
      rfl
    · simp [h2]
    · intro c hc
      rcases List.mem_cons.1 hc with rfl | hc
      · exact hr
      · exact h3 c hc

/-- the own columns of a prefix -/
def own {α : Type} (l : List (Col α)) (p : Str) : List (Str × List α) := (l.filter fun c => c.pre == p).map fun c => (c.name, c.vals)

theorem own_perm {α : Type} (order : List Str) (hn : order.Nodup) (l : List (Col α)) (hm : ∀ c ∈ l, c.pre ∈ order) :
    (order.flatMap (own l)).Perm (l.map fun c => (c.name, c.vals)) := by
  induction l with
  | nil => simp [own]
  | cons c l ih =>
    have ih' := ih fun d hd => hm d (List.mem_cons_of_mem _ hd)
    have hc := hm c List.mem_cons_self
    rw [List.map_cons]
    refine List.Perm.trans ?_ (List.Perm.cons _ ih')
    clear ih ih' hm
    induction order with
    | nil => cases hc
    | cons q order ih =>
      rw [List.nodup_cons] at hn
      rw [List.flatMap_cons, List.flatMap_cons]
      by_cases hq : c.pre = q
      · have e1 : own (c :: l) q = (c.name, c.vals) :: own l q := by simp [own, hq]
        have e2 : order.flatMap (own (c :: l)) = order.flatMap (own l) := by
          rw [List.flatMap_def, List.flatMap_def]
          congr 1
          apply List.map_congr_left
          intro p hp
          have : c.pre ≠ p := fun h => hn.1 (hq ▸ h ▸ hp)
          simp [own, this]
        rw [e1, e2]
        exact List.Perm.refl _
      · have e1 : own (c :: l) q = own l q := by simp [own, hq]
        rw [e1]
        have := ih hn.2 (by rcases List.mem_cons.1 hc with h | h; exact absurd h hq; exact h)
        exact (List.Perm.append_left _ this).trans (List.perm_middle)

/-- **C91.** Whatever order the set of prefixes has, every column of the loop of the file is in exactly one of the resulting loops (the own columns of
the loops are, together, the columns of the file, none twice, names in lower case, values untouched), every resulting loop has columns of its own, and
apart from them at most one copied column -/
theorem split_spec {α : Type} {cs : List Cls} (hp : Proper cs) (cols : List (Str × List α)) :
    ∃ l : List (Col α), assignAll cs cols = some l ∧ ∀ order : List Str, order.Nodup → (∀ p, p ∈ order ↔ ∃ c ∈ l, c.pre = p) →
      split cs cols order = some (order.map fun p => (p, part l p)) ∧
      (order.flatMap (own l)).Perm (cols.map fun c => (lower c.1, c.2)) ∧
      (∀ p ∈ order, own l p ≠ []) ∧ ∀ p, ∃ e, part l p = own l p ++ e ∧ e.length ≤ 1 := by
  obtain ⟨l, h1, h2, _⟩ := assignAll_spec hp cols
  refine ⟨l, h1, fun order hn hm => ⟨?_, ?_, ?_, ?_⟩⟩
  · unfold split
    rw [h1]
    rfl
  · rw [← h2]
    exact own_perm order hn l fun c hc => (hm _).2 ⟨c, hc, rfl⟩
  · intro p hpo
    obtain ⟨c, hc, rfl⟩ := (hm p).1 hpo
    unfold own
    intro h
    rw [List.map_eq_nil_iff, List.filter_eq_nil_iff] at h
    exact h c hc (by simp)
  · intro p
    refine ⟨_, rfl, ?_⟩
    unfold extra
    dsimp only
    split
    · split <;> simp
    · split
      · split <;> simp
      · split
        · split <;> simp
        · simp

/-- a column of the file is in the loop of the class with the shortest fitting prefix -/
theorem column_place {α : Type} {cs : List Cls} (hp : Proper cs) (cols : List (Str × List α)) {l : List (Col α)} (hl : assignAll cs cols = some l)
    {c : Cls} (hc : c ∈ cs) {a : Str × List α} (ha : a ∈ cols) (hf : Fits (strip (lower a.1)) c)
    (hshort : ∀ d ∈ cs, Fits (strip (lower a.1)) d → c.pre.length ≤ d.pre.length) : (lower a.1, a.2) ∈ own l c.pre := by
  obtain ⟨l', h1, h2, h3⟩ := assignAll_spec hp cols
  rw [hl] at h1
  cases h1
  have : (lower a.1, a.2) ∈ l.map fun c => (c.name, c.vals) := by rw [h2]; exact List.mem_map_of_mem ha
  obtain ⟨b, hb, he⟩ := List.mem_map.1 this
  have hn : b.name = lower a.1 := congrArg Prod.fst he
  have hb' := h3 b hb
  refine List.mem_map.2 ⟨b, List.mem_filter.2 ⟨hb, ?_⟩, he⟩
  rw [hn] at hb'
  unfold assign at hb'
  rcases find_spec hp (lower a.1) with ⟨_, h⟩ | ⟨d, hd, ⟨sep, name, hs, hnm, h⟩, hmin⟩
  · exact absurd hf (h c hc)
  · rw [h] at hb'
    have hpre : d.pre = b.pre := congrArg Prod.fst (Option.some.inj hb')
    have hlen : c.pre.length = d.pre.length := Nat.le_antisymm (hshort d hd ⟨sep, name, hs, hnm⟩) (hmin c hc hf)
    have : c.pre = d.pre := by
      obtain ⟨s2, n2, e2, _⟩ := hf
      rw [e2] at hs
      exact (List.append_inj hs hlen).1
    simp [← hpre, this]

/-- the identifying column is given to the other loops as well: with an `id` column somewhere, the last one of them is copied to every loop of another
prefix under the name of that loop -/
theorem id_copied {α : Type} {l : List (Col α)} {p : Str} {c : Col α} (h : lastNamed "id".toList l = some c) (hne : c.pre ≠ p) :
    ∃ sep, part l p = own l p ++ [('_' :: p ++ sep :: "id".toList, c.vals)] := by
  have hb : (c.pre == p) = false := by simp [hne]
  refine ⟨match (l.filter fun c => c.pre == p).getLast? with | some c => c.sep | none => '_', ?_⟩
  unfold part extra
  rw [h]
  simp only [hb]
  rfl

/-- without an `id` the same with `label` -/
theorem label_copied {α : Type} {l : List (Col α)} {p : Str} {c : Col α} (h0 : lastNamed "id".toList l = none)
    (h : lastNamed "label".toList l = some c) (hne : c.pre ≠ p) :
    ∃ sep, part l p = own l p ++ [('_' :: p ++ sep :: "label".toList, c.vals)] := by
  have hb : (c.pre == p) = false := by simp [hne]
  refine ⟨match (l.filter fun c => c.pre == p).getLast? with | some c => c.sep | none => '_', ?_⟩
  unfold part extra
  rw [h0, h]
  simp only [hb]
  rfl

/-- stripping underscores keeps a point -/
theorem dot_mem_strip {s : Str} (h : '.' ∈ s) : '.' ∈ strip s := by
  have key : ∀ l : Str, '.' ∈ l → '.' ∈ l.dropWhile (· == '_') := by
    intro l
    induction l with
    | nil => simp
    | cons a l ih =>
      intro h
      rw [List.dropWhile_cons]
      split
      · rename_i ha
        rcases List.mem_cons.1 h with h | h
        · subst h
          exact absurd ha (by decide)
        · exact ih h
      · exact h
  unfold strip
  exact List.mem_reverse.2 (key _ (List.mem_reverse.2 (key _ h)))

/-- a text is what comes before the first `d`, and either that is all, or `d` and the rest follow -/
theorem cut_spec (d : Char) (s : Str) :
    d ∉ s.takeWhile (· != d) ∧
    ((d ∉ s ∧ s.takeWhile (· != d) = s) ∨ s = s.takeWhile (· != d) ++ d :: s.drop ((s.takeWhile (· != d)).length + 1)) := by
  induction s with
  | nil => simp
  | cons a l ih =>
    by_cases h : a = d
    · subst h
      simp
    · have hb : (a != d) = true := by simp [h]
      rw [List.takeWhile_cons, if_pos hb]
      refine ⟨?_, ?_⟩
      · intro hm
        rcases List.mem_cons.1 hm with h' | h'
        · exact h h'.symm
        · exact ih.1 h'
      · rcases ih.2 with ⟨h1, h2⟩ | h2
        · left
          refine ⟨?_, by rw [h2]⟩
          intro hm
          rcases List.mem_cons.1 hm with h' | h'
          · exact h h'.symm
          · exact h1 h'
        · right
          rw [List.length_cons, List.drop_succ_cons, List.cons_append, ← h2]

/-- a column that belongs to no class: with a point in its name the prefix is the text before the first point and the short name the text between the
first and the second point, whatever follows is dropped; without one the prefix ends at the first underscore and the short name is the rest -/
theorem fallback_spec (ln : Str) :
    ('.' ∈ ln → ∃ p name rest, fallback ln = (p, name, '.') ∧ '.' ∉ p ∧ '.' ∉ name ∧ strip ln = p ++ '.' :: name ++ rest ∧
      (rest = [] ∨ ∃ r, rest = '.' :: r)) ∧
    ('.' ∉ ln → ∃ p name, fallback ln = (p, name, '_') ∧ '_' ∉ p ∧ (strip ln = p ++ '_' :: name ∨ (strip ln = p ∧ name = []))) := by
  refine ⟨fun h => ?_, fun h => ?_⟩
  · have hc : ln.contains '.' = true := by simpa using h
    have h1 := cut_spec '.' (strip ln)
    have e1 : strip ln = (strip ln).takeWhile (· != '.') ++ '.' :: (strip ln).drop (((strip ln).takeWhile (· != '.')).length + 1) := by
      rcases h1.2 with ⟨h2, _⟩ | h2
      · exact absurd (dot_mem_strip h) h2
      · exact h2
    have h3 := cut_spec '.' ((strip ln).drop (((strip ln).takeWhile (· != '.')).length + 1))
    have hf : fallback ln = ((strip ln).takeWhile (· != '.'),
        ((strip ln).drop (((strip ln).takeWhile (· != '.')).length + 1)).takeWhile (· != '.'), '.') := by
      unfold fallback
      simp only [hc, if_true]
    rcases h3.2 with ⟨_, h4⟩ | h4
    · refine ⟨_, _, [], hf, h1.1, h3.1, ?_, Or.inl rfl⟩
      rw [List.append_nil, h4]
      exact e1
    · refine ⟨_, _, '.' :: ((strip ln).drop (((strip ln).takeWhile (· != '.')).length + 1)).drop
          ((((strip ln).drop (((strip ln).takeWhile (· != '.')).length + 1)).takeWhile (· != '.')).length + 1), hf, h1.1, h3.1, ?_, Or.inr ⟨_, rfl⟩⟩
      rw [List.append_assoc, List.cons_append, ← h4]
      exact e1
  · have hc : '.' ∉ ln := h
    have h1 := cut_spec '_' (strip ln)
    have hf : fallback ln = ((strip ln).takeWhile (· != '_'), (strip ln).drop (((strip ln).takeWhile (· != '_')).length + 1), '_') := by
      unfold fallback
      simp [hc]
    rcases h1.2 with ⟨_, h4⟩ | h4
    · refine ⟨_, _, hf, h1.1, Or.inr ⟨h4.symm, ?_⟩⟩
      rw [h4, List.drop_eq_nil_iff]
      omega
    · exact ⟨_, _, hf, h1.1, Or.inl h4⟩

example : fallback "_foo.bar.baz".toList = ("foo".toList, "bar".toList, '.') := by decide +kernel

end Cryspy.Split
