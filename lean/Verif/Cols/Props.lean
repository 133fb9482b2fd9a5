import Verif.Cols.Model
import Verif.Item.Props
import Mathlib.Data.List.Forall2

/-!
# The columns of a loop as arrays
-/

namespace Cryspy.Cols

open Cryspy.Item

/-! ## Specification -/

/-- The array value `w` is made of what the item has under `x`. -/
def ColOf (E : PyEnv) (ty : PyType) (x : String) (d : Dict) (w : PyVal) : Prop :=
  ∃ v, d x = some v ∧ toArr E ty v = some w

/-- The stored arrays have different names (they are keys of a dictionary). -/
def Loop.WF (L : Loop) : Prop := (L.cols.map Prod.fst).Nodup

/-- Every stored array shows the items as they are now. -/
def Fresh (E : PyEnv) (K : ClassDesc) (L : Loop) : Prop :=
  ∀ x a, L.cols.lookup x = some a → ∃ ty, colType K x = some ty ∧ List.Forall₂ (ColOf E ty x) L.items a

/-- The value goes through an array and back as it is: `numpy` keeps it, and writing it to an item
that has it leaves it. -/
def Stable (E : PyEnv) (K : ClassDesc) (x : String) (v : PyVal) : Prop :=
  (∃ ty, colType K x = some ty ∧ toArr E ty v = some v) ∧
  ∀ d, d x = some v → ∃ d', setattr E K d x v = .ok d' ∧ d' x = some v

/-- In the history every write to an item's attribute is made when no array of that attribute is
stored. -/
def Careful (E : PyEnv) (K : ClassDesc) (d0 : Dict) : Loop → List Op → Prop
  | _, [] => True
  | L, o :: os =>
    (∀ i x v, o = .write i x v → L.cols.lookup x = none) ∧
    ∀ L', step E K d0 L o = .ok L' → Careful E K d0 L' os

/-! ## Lemmas -/

theorem isCol_declared {K : ClassDesc} {x : String} (h : isCol K x = true) : K.Declared x := by
  unfold isCol at h
  rw [List.contains_iff_mem] at h
  simp only [List.mem_append] at h
  unfold ClassDesc.Declared
  tauto

theorem colType_isCol {K : ClassDesc} {x : String} {ty : PyType} (h : colType K x = some ty) :
    isCol K x = true := by
  unfold colType at h
  unfold isCol
  rw [List.contains_iff_mem]
  simp only [List.mem_append]
  split_ifs at h with h1 h2 h3 h4
  · tauto
  · rw [List.mem_append] at h2
    tauto
  · tauto
  · tauto

theorem values_iff (items : List Dict) (x : String) (l : List PyVal) :
    values items x = .ok l ↔ List.Forall₂ (fun d v => d x = some v) items l := by
  unfold values
  induction items generalizing l with
  | nil => cases l <;> simp [pure, Except.pure]
  | cons d items ih =>
    rw [List.mapM_cons]
    cases hd : d x with
    | none =>
      have hg : getDecl x d = .error .attributeError := by unfold getDecl; rw [hd]
      rw [hg]
      cases l <;> simp [hd, bind, Except.bind]
    | some v =>
      have hg : getDecl x d = .ok v := by unfold getDecl; rw [hd]
      rw [hg]
      cases hm : List.mapM (getDecl x) items with
      | error e =>
        cases l with
        | nil => simp [bind, Except.bind]
        | cons w l =>
          have := ih l
          rw [hm] at this
          simp only [reduceCtorEq, false_iff] at this
          simp [bind, Except.bind, this]
      | ok l' =>
        cases l with
        | nil => simp [pure, Except.pure, bind, Except.bind]
        | cons w l =>
          have := ih l
          rw [hm] at this
          simp only [bind, Except.bind, pure, Except.pure, Except.ok.injEq, List.cons.injEq,
            List.forall₂_cons, hd, Option.some.injEq] at this ⊢
          rw [this]

theorem mapM_option_iff {α β : Type} (f : α → Option β) (l : List α) (a : List β) :
    l.mapM f = some a ↔ List.Forall₂ (fun v w => f v = some w) l a := by
  induction l generalizing a with
  | nil => cases a <;> simp
  | cons v l ih =>
    rw [List.mapM_cons]
    cases hf : f v with
    | none => cases a <;> simp [hf]
    | some w =>
      cases a with
      | nil => cases l.mapM f <;> simp
      | cons w' a =>
        have := ih a
        simp only [Option.bind_eq_bind, Option.bind_some, Option.bind_eq_some_iff, Option.pure_def,
          Option.some.injEq, List.cons.injEq, List.forall₂_cons, hf, ← this]
        constructor
        · rintro ⟨_, h1, h2, h3⟩
          exact ⟨h2, h3 ▸ h1⟩
        · rintro ⟨h1, h2⟩
          exact ⟨a, h2, h1, rfl⟩

theorem column_iff (E : PyEnv) (ty : PyType) (items : List Dict) (x : String) (a : List PyVal) :
    column E ty items x = .ok a ↔ List.Forall₂ (ColOf E ty x) items a := by
  unfold column
  constructor
  · intro h
    split at h
    · cases h
    · rename_i l hl
      split at h
      · cases h
      · rename_i a' ha
        cases h
        have h1 := (values_iff _ _ _).1 hl
        have h2 := (mapM_option_iff _ _ _).1 ha
        clear hl ha
        induction h1 generalizing a with
        | nil => cases h2; exact List.Forall₂.nil
        | cons hd _ ih =>
          cases h2 with
          | cons hw h2 => exact List.Forall₂.cons ⟨_, hd, hw⟩ (ih _ h2)
  · intro h
    have : ∃ l, List.Forall₂ (fun d v => d x = some v) items l ∧
        List.Forall₂ (fun v w => toArr E ty v = some w) l a := by
      induction h with
      | nil => exact ⟨[], .nil, .nil⟩
      | cons hd _ ih =>
        obtain ⟨v, h1, h2⟩ := hd
        obtain ⟨l, h3, h4⟩ := ih
        exact ⟨v :: l, .cons h1 h3, .cons h2 h4⟩
    obtain ⟨l, h1, h2⟩ := this
    rw [(values_iff _ _ _).2 h1]
    dsimp only
    rw [(mapM_option_iff _ _ _).2 h2]

theorem lookup_none_iff (cols : List (String × List PyVal)) (x : String) :
    cols.lookup x = none ↔ x ∉ cols.map Prod.fst := by
  induction cols with
  | nil => simp
  | cons p cols ih =>
    obtain ⟨k, a⟩ := p
    rw [List.lookup_cons]
    by_cases h : x = k
    · subst h
      simp
    · simp only [beq_eq_false_iff_ne.2 h, Bool.false_eq_true, if_false, List.map_cons, List.mem_cons, h, false_or]
      exact ih

theorem lookup_append_new (cols : List (String × List PyVal)) (x y : String) (a : List PyVal)
    (h : cols.lookup x = none) :
    (cols ++ [(x, a)]).lookup y = if y = x then some a else cols.lookup y := by
  induction cols with
  | nil =>
    by_cases hy : y = x
    · simp [hy]
    · simp [List.lookup_cons, beq_eq_false_iff_ne.2 hy, hy]
  | cons p cols ih =>
    obtain ⟨k, b⟩ := p
    rw [List.lookup_cons] at h
    rw [List.cons_append, List.lookup_cons, List.lookup_cons]
    by_cases hk : x = k
    · subst hk
      simp at h
    · simp only [beq_eq_false_iff_ne.2 hk, Bool.false_eq_true, if_false] at h
      by_cases hy : y = k
      · subst hy
        simp [Ne.symm hk]
      · simp only [beq_eq_false_iff_ne.2 hy, Bool.false_eq_true, if_false]
        exact ih h

theorem store_new {cols : List (String × List PyVal)} {x : String} (a : List PyVal)
    (h : cols.lookup x = none) : store cols x a = cols ++ [(x, a)] := by
  unfold store
  rw [if_neg ((lookup_none_iff _ _).1 h)]

theorem store_nodup {cols : List (String × List PyVal)} (x : String) (a : List PyVal)
    (h : (cols.map Prod.fst).Nodup) : ((store cols x a).map Prod.fst).Nodup := by
  unfold store
  split_ifs with hx
  · have : (cols.map fun p => if p.1 = x then (x, a) else p).map Prod.fst = cols.map Prod.fst := by
      rw [List.map_map]
      apply List.map_congr_left
      intro p _
      simp only [Function.comp]
      split_ifs with hp
      · exact hp.symm
      · rfl
    rw [this]
    exact h
  · rw [List.map_append]
    exact List.nodup_append.2 ⟨h, by simp, by
      intro y hy z hz
      simp only [List.map_cons, List.map_nil, List.mem_singleton] at hz
      rintro rfl
      exact hx (hz ▸ hy)⟩

theorem store_lookup (cols : List (String × List PyVal)) (x y : String) (a : List PyVal) :
    (store cols x a).lookup y = if y = x then some a else cols.lookup y := by
  by_cases h : x ∈ cols.map Prod.fst
  · unfold store
    rw [if_pos h]
    induction cols with
    | nil => simp at h
    | cons p cols ih =>
      obtain ⟨k, b⟩ := p
      rw [List.map_cons, List.lookup_cons]
      by_cases hk : k = x
      · subst hk
        simp only [if_true]
        rw [List.lookup_cons]
        by_cases hy : y = k
        · simp [hy]
        · simp only [beq_eq_false_iff_ne.2 hy, Bool.false_eq_true, if_false, hy]
          by_cases h' : k ∈ cols.map Prod.fst
          · rw [ih h', if_neg hy]
          · have : (cols.map fun p => if p.1 = k then (k, a) else p) = cols := by
              conv_rhs => rw [← List.map_id cols]
              apply List.map_congr_left
              intro p hp
              have : p.1 ≠ k := fun e => h' (e ▸ List.mem_map.2 ⟨p, hp, rfl⟩)
              simp [this]
            rw [this]
      · have h' : x ∈ cols.map Prod.fst := by
          rw [List.map_cons, List.mem_cons] at h
          exact h.resolve_left fun e => hk e.symm
        simp only [hk, if_false]
        rw [List.lookup_cons]
        by_cases hy : y = k
        · subst hy
          simp [hk]
        · simp only [beq_eq_false_iff_ne.2 hy, Bool.false_eq_true, if_false]
          exact ih h'
  · have hn := (lookup_none_iff cols x).2 h
    rw [store_new a hn, lookup_append_new _ _ _ _ hn]

/-- What a write leaves under the name it writes depends only on what was there. -/
theorem setattr_local {E : PyEnv} {K : ClassDesc} {d e : Dict} {x : String} {v : PyVal}
    (hx : isCol K x = true) (h : e x = d x) {d' : Dict} (hd : setattr E K d x v = .ok d') :
    ∃ e', setattr E K e x v = .ok e' ∧ e' x = d' x := by
  have hdec := isCol_declared hx
  unfold setattr at hd ⊢
  by_cases h1 : isNoneLike v = true
  · rw [if_pos h1] at hd ⊢
    cases hd
    exact ⟨_, rfl, by rw [Dict.set_self, Dict.set_self]⟩
  · rw [if_neg h1] at hd ⊢
    by_cases h2 : x ∈ K.names
    · rw [if_pos h2] at hd ⊢
      cases h3 : K.types[K.names.idxOf x]? with
      | none => simp [h3] at hd
      | some ty =>
        simp only [h3] at hd ⊢
        cases h4 : coerce E ty v with
        | none => simp [h4] at hd
        | some v0 =>
          simp only [h4] at hd ⊢
          cases h5 : clampMin K x v0 with
          | error _ => simp [h5] at hd
          | ok v1 =>
            simp only [h5] at hd ⊢
            cases h6 : clampMax K x v1 with
            | error _ => simp [h6] at hd
            | ok v2 =>
              simp only [h6] at hd ⊢
              by_cases h7 : allowed K x v0 = true
              · rw [if_pos h7] at hd ⊢
                cases hd
                exact ⟨_, rfl, by rw [Dict.set_self, Dict.set_self]⟩
              · rw [if_neg h7] at hd ⊢
                cases hd
                exact ⟨_, rfl, by rw [deleteInternal_declared hdec, deleteInternal_declared hdec, h]⟩
    · rw [if_neg h2] at hd ⊢
      by_cases h3 : x ∈ K.sigma
      · rw [if_pos h3] at hd ⊢
        cases h4 : coerce E .float v with
        | none => simp [h4] at hd
        | some w =>
          simp only [h4] at hd ⊢
          cases hd
          exact ⟨_, rfl, by rw [Dict.set_self, Dict.set_self]⟩
      · rw [if_neg h3] at hd ⊢
        by_cases h4 : x ∈ K.constrFlag ++ K.refFlag
        · rw [if_pos h4] at hd ⊢
          cases hd
          exact ⟨_, rfl, by rw [Dict.set_self, Dict.set_self]⟩
        · rw [if_neg h4] at hd ⊢
          by_cases h5 : x ∈ K.constrMark
          · rw [if_pos h5] at hd ⊢
            cases hd
            exact ⟨_, rfl, by rw [Dict.set_self, Dict.set_self]⟩
          · rw [if_neg h5] at hd ⊢
            cases hd
            exact ⟨_, rfl, by rw [Dict.set_self, Dict.set_self]⟩

theorem fill_spec {E : PyEnv} {K : ClassDesc} {x : String} {ds ds' : List Dict} {vs : List PyVal}
    (h : fill E K x ds vs = .ok ds') :
    ds'.length = ds.length ∧ ∀ (i : ℕ) (d d' : Dict), ds[i]? = some d → ds'[i]? = some d' →
      (∀ v, vs[i]? = some v → setattr E K d x v = .ok d') ∧ (vs[i]? = none → d' = d) := by
  induction ds generalizing vs ds' with
  | nil =>
    simp only [fill, Except.ok.injEq] at h
    subst h
    simp
  | cons e ds ih =>
    cases vs with
    | nil =>
      simp only [fill, Except.ok.injEq] at h
      subst h
      refine ⟨rfl, ?_⟩
      intro i d d' h1 h2
      rw [h1] at h2
      cases h2
      simp
    | cons w vs =>
      unfold fill at h
      split at h
      · cases h
      · rename_i e' he
        split at h
        · cases h
        · rename_i ds2 hf
          cases h
          obtain ⟨i1, i2⟩ := ih hf
          refine ⟨by simp [i1], ?_⟩
          intro i d d' h1 h2
          cases i with
          | zero =>
            simp only [List.getElem?_cons_zero, Option.some.injEq] at h1 h2
            subst h1 h2
            simp [he]
          | succ i =>
            simp only [List.getElem?_cons_succ] at h1 h2 ⊢
            exact i2 i d d' h1 h2

/-- What becomes of one item: `d` before, `d'` after the arrays `cols` are written. -/
def Written (E : PyEnv) (K : ClassDesc) (cols : List (String × List PyVal)) (i : ℕ) (d d' : Dict) :
    Prop :=
  ∀ y, isCol K y = true →
    (∀ a v, cols.lookup y = some a → a[i]? = some v → ∃ e, setattr E K d y v = .ok e ∧ d' y = e y) ∧
    ((∀ a, cols.lookup y = some a → a.length ≤ i) → d' y = d y)

theorem flushAll_spec {E : PyEnv} {K : ClassDesc} {d0 : Dict} {items items' : List Dict}
    {cols : List (String × List PyVal)} (hn : (cols.map Prod.fst).Nodup)
    (hc : ∀ p ∈ cols, isCol K p.1 = true) (hi : items ≠ [])
    (h : flushAll E K d0 items cols = .ok items') :
    items'.length = items.length ∧ ∀ (i : ℕ) (d d' : Dict), items[i]? = some d → items'[i]? = some d' →
      Written E K cols i d d' := by
  induction cols generalizing items with
  | nil =>
    simp only [flushAll, Except.ok.injEq] at h
    subst h
    refine ⟨rfl, ?_⟩
    intro i d d' h1 h2 y _
    rw [h1] at h2
    cases h2
    simp
  | cons p cols ih =>
    obtain ⟨x, a⟩ := p
    unfold flushAll at h
    split at h
    · cases h
    · rename_i items1 h1
      unfold flushOne at h1
      have hl : items.length ≠ 0 := by simpa using hi
      rw [if_neg hl] at h1
      obtain ⟨f1, f2⟩ := fill_spec h1
      rw [List.map_cons, List.nodup_cons] at hn
      have hi1 : items1 ≠ [] := by
        intro e
        rw [e] at f1
        exact hl (by simpa using f1.symm)
      obtain ⟨g1, g2⟩ := ih hn.2 (fun q hq => hc q (List.mem_cons_of_mem _ hq)) hi1 h
      refine ⟨by rw [g1, f1], ?_⟩
      intro i d d' e1 e2 y hy
      have hlt : i < items1.length := by
        have := (List.getElem?_eq_some_iff.1 e1).1
        omega
      have e3 : items1[i]? = some items1[i] := List.getElem?_eq_getElem hlt
      have F := f2 i d items1[i] e1 e3
      have G := g2 i items1[i] d' e3 e2 y hy
      have hxl : cols.lookup x = none := (lookup_none_iff _ _).2 hn.1
      by_cases hyx : y = x
      · subst hyx
        have hd1 : d' y = items1[i] y := G.2 (by
          intro b hb
          rw [hxl] at hb
          cases hb)
        rw [List.lookup_cons, beq_self_eq_true]
        simp only
        constructor
        · rintro b v hb hv
          cases hb
          exact ⟨items1[i], F.1 v hv, hd1⟩
        · intro hb
          have := hb a rfl
          rw [hd1, F.2 (List.getElem?_eq_none this)]
      · have hsame : items1[i] y = d y := by
          cases hv : a[i]? with
          | none => rw [F.2 hv]
          | some v => exact write_changes_nothing_else E K d _ x v (F.1 v hv) y hyx (isCol_declared hy)
        rw [List.lookup_cons, beq_eq_false_iff_ne.2 hyx]
        simp only
        constructor
        · intro b v hb hv
          obtain ⟨e, he, hd'⟩ := G.1 b v hb hv
          obtain ⟨e', he', hee⟩ := setattr_local hy hsame.symm he
          exact ⟨e', he', by rw [hd', hee]⟩
        · intro hb
          rw [G.2 hb, hsame]

theorem lookup_filter (K : ClassDesc) (cols : List (String × List PyVal)) {y : String}
    (hy : isCol K y = true) :
    (cols.filter fun p => isCol K p.1).lookup y = cols.lookup y := by
  induction cols with
  | nil => rfl
  | cons p cols ih =>
    obtain ⟨k, a⟩ := p
    by_cases hk : isCol K k = true
    · rw [List.filter_cons_of_pos (by exact hk), List.lookup_cons, List.lookup_cons, ih]
    · rw [List.filter_cons_of_neg (by exact hk), List.lookup_cons, ih]
      have : y ≠ k := fun e => hk (e ▸ hy)
      rw [beq_eq_false_iff_ne.2 this]

theorem lookup_filter_not (K : ClassDesc) (cols : List (String × List PyVal)) {y : String}
    (hy : isCol K y = true) :
    (cols.filter fun p => !isCol K p.1).lookup y = none := by
  rw [lookup_none_iff]
  intro h
  obtain ⟨p, hp, rfl⟩ := List.mem_map.1 h
  have := (List.mem_filter.1 hp).2
  rw [hy] at this
  simp at this

/-! ## Theorems -/

/-- An array read for the first time is made of the values of the items, in their order; the items
are not touched. -/
theorem read_new {E : PyEnv} {K : ClassDesc} {L L' : Loop} {x : String} {a : List PyVal}
    (hl : L.cols.lookup x = none) (h : read E K L x = .ok (a, L')) :
    L'.items = L.items ∧ ∃ ty, colType K x = some ty ∧ List.Forall₂ (ColOf E ty x) L.items a := by
  unfold read at h
  rw [hl] at h
  dsimp only at h
  split at h
  · cases h
  · rename_i ty hty
    split at h
    · cases h
    · rename_i b hb
      cases h
      exact ⟨rfl, ty, hty, (column_iff _ _ _ _ _).1 hb⟩

/-- It can be read exactly when every item has a value of the kind. -/
theorem read_new_iff {E : PyEnv} {K : ClassDesc} {L : Loop} {x : String} {ty : PyType}
    (hl : L.cols.lookup x = none) (hty : colType K x = some ty) :
    (∃ r, read E K L x = .ok r) ↔ ∀ d ∈ L.items, ∃ w, ColOf E ty x d w := by
  unfold read
  rw [hl, hty]
  dsimp only
  constructor
  · rintro ⟨r, h⟩
    split at h
    · cases h
    · rename_i a ha
      have := (column_iff _ _ _ _ _).1 ha
      clear h ha hl
      generalize L.items = items at this ⊢
      induction this with
      | nil => simp
      | cons hd _ ih =>
        intro d hm
        rcases List.mem_cons.1 hm with rfl | hm
        · exact ⟨_, hd⟩
        · exact ih d hm
  · intro h
    have : ∃ a, List.Forall₂ (ColOf E ty x) L.items a := by
      generalize L.items = items at h
      induction items with
      | nil => exact ⟨[], .nil⟩
      | cons d items ih =>
        obtain ⟨w, hw⟩ := h d List.mem_cons_self
        obtain ⟨a, ha⟩ := ih fun e he => h e (List.mem_cons_of_mem _ he)
        exact ⟨w :: a, .cons hw ha⟩
    obtain ⟨a, ha⟩ := this
    rw [(column_iff _ _ _ _ _).2 ha]
    exact ⟨_, rfl⟩

theorem read_lookup {E : PyEnv} {K : ClassDesc} {L L' : Loop} {x : String} {a : List PyVal}
    (h : read E K L x = .ok (a, L')) : L'.cols.lookup x = some a := by
  unfold read at h
  split at h
  · rename_i b hb
    cases h
    exact hb
  · split at h
    · cases h
    · split at h
      · cases h
      · cases h
        exact (store_lookup _ _ _ _).trans (if_pos rfl)

/-- An array that was read is given again, whatever has been written to the items. -/
theorem read_again {E : PyEnv} {K : ClassDesc} {L L' : Loop} {x : String} {a : List PyVal}
    (h : read E K L x = .ok (a, L')) (items : List Dict) :
    read E K { L' with items := items } x = .ok (a, { L' with items := items }) := by
  have hl := read_lookup h
  unfold read
  rw [show ({ L' with items := items } : Loop).cols = L'.cols from rfl, hl]

/-- After `numpy_to_items` every item is as if each value of the stored arrays had been written to
it; where no array is stored, or the array is shorter, nothing changes; there are as many items. -/
theorem flush_spec {E : PyEnv} {K : ClassDesc} {d0 : Dict} {L L' : Loop} (hL : L.WF)
    (hi : L.items ≠ []) (h : flush E K d0 L = .ok L') :
    L'.items.length = L.items.length ∧
    ∀ (i : ℕ) (d d' : Dict), L.items[i]? = some d → L'.items[i]? = some d' → ∀ y, isCol K y = true →
      (∀ a v, L.cols.lookup y = some a → a[i]? = some v →
        ∃ e, setattr E K d y v = .ok e ∧ d' y = e y) ∧
      ((∀ a, L.cols.lookup y = some a → a.length ≤ i) → d' y = d y) := by
  unfold flush at h
  split at h
  · cases h
  · rename_i items hf
    cases h
    have hn : ((L.cols.filter fun p => isCol K p.1).map Prod.fst).Nodup :=
      hL.sublist (List.filter_sublist.map _)
    obtain ⟨h1, h2⟩ := flushAll_spec hn (fun p hp => (List.mem_filter.1 hp).2) hi hf
    refine ⟨h1, ?_⟩
    intro i d d' e1 e2 y hy
    have := h2 i d d' e1 e2 y hy
    rwa [lookup_filter K L.cols hy] at this

/-- No array of a declared name is stored after it, so that the next reading shows the items. -/
theorem flush_clears {E : PyEnv} {K : ClassDesc} {d0 : Dict} {L L' : Loop}
    (h : flush E K d0 L = .ok L') {y : String} (hy : isCol K y = true) :
    L'.cols.lookup y = none := by
  unfold flush at h
  split at h
  · cases h
  · cases h
    exact lookup_filter_not K L.cols hy

/-- A loop without items: the first stored array makes as many items as it is long, and then they
are filled as above. -/
theorem flush_new {E : PyEnv} {K : ClassDesc} {d0 : Dict} {x : String} {a : List PyVal}
    {cols : List (String × List PyVal)} (hx : isCol K x = true) (ha : a ≠ []) :
    flush E K d0 ⟨[], (x, a) :: cols⟩ =
      flush E K d0 ⟨List.replicate a.length d0, (x, a) :: cols⟩ := by
  have hr : List.replicate a.length d0 = a.map fun _ => d0 := by
    rw [List.map_const']
  unfold flush
  dsimp only
  rw [List.filter_cons_of_pos (by exact hx), hr]
  unfold flushAll flushOne
  dsimp only
  have : (a.map fun _ => d0).length ≠ 0 := by simpa using ha
  rw [if_pos (by rfl), if_neg this]

/-- So a loop filled from arrays has as many items as the first array is long, and each has what
writing the values of the arrays to a new item gives. -/
theorem flush_new_spec {E : PyEnv} {K : ClassDesc} {d0 : Dict} {x : String} {a : List PyVal}
    {cols : List (String × List PyVal)} {L' : Loop} (hx : isCol K x = true) (ha : a ≠ [])
    (hW : Loop.WF ⟨[], (x, a) :: cols⟩) (h : flush E K d0 ⟨[], (x, a) :: cols⟩ = .ok L') :
    L'.items.length = a.length ∧
    ∀ (i : ℕ) (d' : Dict), L'.items[i]? = some d' → ∀ y, isCol K y = true →
      (∀ b v, ((x, a) :: cols).lookup y = some b → b[i]? = some v →
        ∃ e, setattr E K d0 y v = .ok e ∧ d' y = e y) ∧
      ((∀ b, ((x, a) :: cols).lookup y = some b → b.length ≤ i) → d' y = d0 y) := by
  rw [flush_new hx ha] at h
  have hl : a.length ≠ 0 := by simpa using ha
  have hne : List.replicate a.length d0 ≠ [] := by
    intro e
    have := congrArg List.length e
    simp at this
    exact ha this
  obtain ⟨h1, h2⟩ := flush_spec (L := ⟨List.replicate a.length d0, (x, a) :: cols⟩) hW hne h
  have h1' : L'.items.length = a.length := by simpa using h1
  refine ⟨h1', ?_⟩
  intro i d' hd' y hy
  have hi : i < a.length := by
    have := (List.getElem?_eq_some_iff.1 hd').1
    omega
  exact h2 i d0 d' (by simp [hi]) hd' y hy

theorem store_WF {L : Loop} (hL : L.WF) (x : String) (a : List PyVal) :
    Loop.WF { L with cols := store L.cols x a } := store_nodup x a hL

theorem read_cols {E : PyEnv} {K : ClassDesc} {L L' : Loop} {x : String} {a : List PyVal}
    (h : read E K L x = .ok (a, L')) :
    L' = L ∨ (L.cols.lookup x = none ∧ L' = { L with cols := store L.cols x a }) := by
  unfold read at h
  split at h
  · cases h
    exact Or.inl rfl
  · rename_i hl
    split at h
    · cases h
    · split at h
      · cases h
      · cases h
        exact Or.inr ⟨hl, rfl⟩

/-- Names of stored arrays stay different. -/
theorem step_WF {E : PyEnv} {K : ClassDesc} {d0 : Dict} {L L' : Loop} {o : Op} (hL : L.WF)
    (h : step E K d0 L o = .ok L') : L'.WF := by
  cases o with
  | read x =>
    unfold step at h
    dsimp only at h
    split at h
    · rename_i a L2 hr
      cases h
      rcases read_cols hr with rfl | ⟨_, rfl⟩
      · exact hL
      · exact store_WF hL _ _
    · cases h
  | write i x v =>
    unfold step writeItem at h
    dsimp only at h
    split at h
    · cases h
    · split at h
      · cases h
      · cases h
        exact hL
  | flush =>
    unfold step flush at h
    dsimp only at h
    split at h
    · cases h
    · cases h
      exact hL.sublist (List.filter_sublist.map _)

theorem forall2_set {α β : Type} {R : α → β → Prop} {l : List α} {m : List β}
    (h : List.Forall₂ R l m) {i : ℕ} {d d' : α} (hd : l[i]? = some d)
    (hR : ∀ w, R d w → R d' w) : List.Forall₂ R (l.set i d') m := by
  induction h generalizing i with
  | nil => simp at hd
  | cons hab hrest ih =>
    cases i with
    | zero =>
      simp only [List.getElem?_cons_zero, Option.some.injEq] at hd
      subst hd
      exact .cons (hR _ hab) hrest
    | succ i =>
      simp only [List.getElem?_cons_succ] at hd
      exact .cons hab (ih hd)

/-- In every careful history the stored arrays show the items as they are. -/
theorem history_fresh {E : PyEnv} {K : ClassDesc} {d0 : Dict} (os : List Op) :
    ∀ {L L' : Loop}, Fresh E K L → Careful E K d0 L os → run E K d0 L os = .ok L' →
      Fresh E K L' := by
  induction os with
  | nil =>
    intro L L' hF _ h
    simp only [run, Except.ok.injEq] at h
    exact h ▸ hF
  | cons o os ih =>
    intro L L' hF hC h
    unfold run at h
    split at h
    · rename_i L1 h1
      refine ih ?_ (hC.2 L1 h1) h
      cases o with
      | read x =>
        unfold step at h1
        dsimp only at h1
        split at h1
        · rename_i a L2 hr
          cases h1
          rcases read_cols hr with rfl | ⟨hn, rfl⟩
          · exact hF
          · intro y b hy
            have hnew := (read_new hn hr).2
            rw [show ({ L with cols := store L.cols x a } : Loop).cols = store L.cols x a from rfl,
              store_lookup] at hy
            split_ifs at hy with hyx
            · cases hy
              subst hyx
              exact hnew
            · exact hF y b hy
        · cases h1
      | write i x v =>
        have hn := hC.1 i x v rfl
        unfold step writeItem at h1
        dsimp only at h1
        split at h1
        · cases h1
        · rename_i d hd
          split at h1
          · cases h1
          · rename_i d' hs
            cases h1
            intro y b hy
            obtain ⟨ty, hty, hf⟩ := hF y b hy
            refine ⟨ty, hty, forall2_set hf hd ?_⟩
            have hyx : y ≠ x := by
              rintro rfl
              have hy' : L.cols.lookup y = some b := hy
              rw [hn] at hy'
              cases hy'
            rintro w ⟨u, hu, hw⟩
            refine ⟨u, ?_, hw⟩
            rw [write_changes_nothing_else E K d d' x v hs y hyx
              (isCol_declared (colType_isCol hty)), hu]
      | flush =>
        intro y b hy
        by_cases hc : isCol K y = true
        · rw [flush_clears (show flush E K d0 L = .ok L1 from h1) hc] at hy
          cases hy
        · exfalso
          have h1' : flush E K d0 L = .ok L1 := h1
          unfold flush at h1'
          split at h1'
          · cases h1'
          · cases h1'
            have hm : y ∈ (L.cols.filter fun p => !isCol K p.1).map Prod.fst := by
              by_contra hx
              rw [← lookup_none_iff] at hx
              have hy' : (L.cols.filter fun p => !isCol K p.1).lookup y = some b := hy
              rw [hx] at hy'
              cases hy'
            have hm' : y ∈ L.cols.map Prod.fst := by
              obtain ⟨p, hp, rfl⟩ := List.mem_map.1 hm
              exact List.mem_map.2 ⟨p, (List.mem_filter.1 hp).1, rfl⟩
            cases hl : L.cols.lookup y with
            | none => exact (lookup_none_iff _ _).1 hl hm'
            | some c =>
              obtain ⟨ty, hty, _⟩ := hF y c hl
              exact hc (colType_isCol hty)
    · cases h

/-- ... and so reading an array in such a state gives the present values. -/
theorem careful_read {E : PyEnv} {K : ClassDesc} {L L' : Loop} {x : String} {a : List PyVal}
    (hF : Fresh E K L) (h : read E K L x = .ok (a, L')) :
    ∃ ty, colType K x = some ty ∧ List.Forall₂ (ColOf E ty x) L.items a := by
  cases hl : L.cols.lookup x with
  | none => exact (read_new hl h).2
  | some b =>
    unfold read at h
    rw [hl] at h
    cases h
    exact hF x a hl

/-- Reading arrays and moving them back changes nothing, for values that an array keeps. -/
theorem flush_unchanged {E : PyEnv} {K : ClassDesc} {d0 : Dict} {L L' : Loop} (hL : L.WF)
    (hF : Fresh E K L) (hi : L.items ≠ [])
    (hs : ∀ d ∈ L.items, ∀ y, L.cols.lookup y ≠ none → ∃ v, d y = some v ∧ Stable E K y v)
    (h : flush E K d0 L = .ok L') :
    List.Forall₂ (fun d d' => ∀ y, isCol K y = true → d' y = d y) L.items L'.items := by
  obtain ⟨h1, h2⟩ := flush_spec hL hi h
  rw [List.forall₂_iff_get]
  refine ⟨h1.symm, ?_⟩
  intro i i1 i2 y hy
  have e1 : L.items[i]? = some L.items[i] := List.getElem?_eq_getElem i1
  have e2 : L'.items[i]? = some L'.items[i] := List.getElem?_eq_getElem i2
  obtain ⟨g1, g2⟩ := h2 i _ _ e1 e2 y hy
  show L'.items[i] y = L.items[i] y
  cases hl : L.cols.lookup y with
  | none => exact g2 (by rw [hl]; simp)
  | some a =>
    obtain ⟨ty, hty, hf⟩ := hF y a hl
    have hlen := hf.length_eq
    have hia : i < a.length := hlen ▸ i1
    have hc : ColOf E ty y L.items[i] a[i] := (List.forall₂_iff_get.1 hf).2 i i1 hia
    obtain ⟨u, hu, hw⟩ := hc
    obtain ⟨v, hv, ⟨ty', hty', hv2⟩, hv3⟩ := hs L.items[i] (List.getElem_mem i1) y (by rw [hl]; simp)
    have huv := Option.some.inj (hv.symm.trans hu)
    subst huv
    rw [hty] at hty'
    cases hty'
    rw [hv2] at hw
    obtain ⟨e, he, hd'⟩ := g1 a a[i] hl (List.getElem?_eq_getElem hia)
    obtain ⟨d2, hd2, hd3⟩ := hv3 _ hv
    have : a[i] = v := (Option.some.inj hw).symm
    rw [this] at he
    rw [hd2] at he
    cases he
    rw [hd', hd3, hv]

/-- Known failure: a value written to an item after the array of that attribute was read is lost
when the arrays are moved back. -/
theorem lost_update {E : PyEnv} {K : ClassDesc} {d0 : Dict} {L L1 L2 L3 : Loop} {x : String}
    {a : List PyVal} {i : ℕ} {v w : PyVal} {d : Dict} (hL : L.WF) (hn : L.cols.lookup x = none)
    (h1 : read E K L x = .ok (a, L1)) (hd : L.items[i]? = some d) (hw : d x = some w)
    (hs : ∃ ty, colType K x = some ty ∧ toArr E ty w = some w)
    (hw2 : ∀ e : Dict, ∃ e', setattr E K e x w = .ok e' ∧ e' x = some w)
    (h2 : writeItem E K L1 i x v = .ok L2) (h3 : flush E K d0 L2 = .ok L3) :
    ∃ d', L3.items[i]? = some d' ∧ d' x = some w := by
  obtain ⟨hitems, ty, hty, hf⟩ := read_new hn h1
  obtain ⟨ty', hty', hwa⟩ := hs
  rw [hty] at hty'
  cases hty'
  obtain ⟨hi1, hde⟩ := List.getElem?_eq_some_iff.1 hd
  have hia : i < a.length := hf.length_eq ▸ hi1
  have hai : a[i] = w := by
    obtain ⟨u, hu, hw'⟩ := (List.forall₂_iff_get.1 hf).2 i hi1 hia
    have hu' : d x = some u := by rw [← hde]; exact hu
    rw [hw] at hu'
    cases hu'
    rw [hwa] at hw'
    exact (Option.some.inj hw').symm
  have hl1 := read_lookup h1
  have hWF1 : L1.WF := by
    rcases read_cols h1 with rfl | ⟨_, rfl⟩
    · exact hL
    · exact store_WF hL _ _
  unfold writeItem at h2
  split at h2
  · cases h2
  · rename_i e he
    split at h2
    · cases h2
    · rename_i e' he'
      cases h2
      have hi2 : i < L1.items.length := by rw [hitems]; exact hi1
      have hne : (L1.items.set i e') ≠ [] := by
        intro hnil
        have := congrArg List.length hnil
        rw [List.length_set] at this
        simp only [List.length_nil] at this
        omega
      obtain ⟨k1, k2⟩ := flush_spec (L := { L1 with items := L1.items.set i e' }) hWF1 hne h3
      have hi3 : i < L3.items.length := by
        rw [k1]
        simpa using hi2
      refine ⟨L3.items[i], List.getElem?_eq_getElem hi3, ?_⟩
      have hget : (L1.items.set i e')[i]? = some e' := by
        rw [List.getElem?_set_self hi2]
      obtain ⟨m1, _⟩ := k2 i e' L3.items[i] hget (List.getElem?_eq_getElem hi3) x
        (colType_isCol hty)
      obtain ⟨e2, he2, hv2⟩ := m1 a a[i] hl1 (List.getElem?_eq_getElem hia)
      rw [hai] at he2
      obtain ⟨e3, he3, hv3⟩ := hw2 e'
      rw [he3] at he2
      cases he2
      rw [hv2, hv3]

/-! ## Which values an array keeps -/

/-- Numbers within the bounds of a `float` attribute without a set of allowed values. -/
theorem stable_float {E : PyEnv} {K : ClassDesc} {x : String} {q : ℚ} (hn : x ∈ K.names)
    (hty : K.types[K.names.idxOf x]? = some .float) (ha : K.dConstraints.lookup x = none)
    (hb : clampQ (K.dMin.lookup x) (K.dMax.lookup x) q = q) :
    Stable E K x (.num q) ∧ ∀ e : Dict, ∃ e', setattr E K e x (.num q) = .ok e' ∧
      e' x = some (.num q) := by
  have key : ∀ e : Dict, ∃ e', setattr E K e x (.num q) = .ok e' ∧ e' x = some (.num q) := by
    intro e
    obtain ⟨e', h1, h2, _⟩ := write_number_reads_back E K e x q hn hty
    refine ⟨e', h1, ?_⟩
    rw [h2 (by intro l hl; rw [ha] at hl; cases hl), hb]
  refine ⟨⟨⟨.float, ?_, rfl⟩, fun d _ => key d⟩, key⟩
  unfold colType
  rw [if_pos hn, hty]

/-- Strings of a `str` attribute other than the two signs of "undefined". -/
theorem stable_str {E : PyEnv} {K : ClassDesc} {x : String} {s : String} (hn : x ∈ K.names)
    (hty : K.types[K.names.idxOf x]? = some .str) (ha : K.dConstraints.lookup x = none)
    (hmin : K.dMin.lookup x = none) (hmax : K.dMax.lookup x = none) (h1 : s ≠ ".") (h2 : s ≠ "?") :
    Stable E K x (.str s) := by
  refine ⟨⟨.str, ?_, rfl⟩, ?_⟩
  · unfold colType
    rw [if_pos hn, hty]
  · intro d _
    refine ⟨(deleteInternal K d).set x (.str s), ?_, Dict.set_self _ _ _⟩
    unfold setattr
    have hnl : isNoneLike (.str s) = false := by simp [isNoneLike, h1, h2]
    rw [if_neg (by simp [hnl]), if_pos hn, hty]
    simp [coerce, clampMin, clampMax, hmin, hmax, allowed, ha]

/-- Known failure: an undefined `float` (the item has `None`) becomes `nan`, and so a value, when the
array of the attribute is read and moved back. -/
theorem undefined_becomes_nan {E : PyEnv} {K : ClassDesc} {d0 : Dict} {L L1 L2 : Loop} {x : String}
    {a : List PyVal} {i : ℕ} {d : Dict} (hL : L.WF) (hn : L.cols.lookup x = none)
    (hx : x ∈ K.names) (hty : K.types[K.names.idxOf x]? = some .float)
    (ha : K.dConstraints.lookup x = none)
    (h1 : read E K L x = .ok (a, L1)) (hd : L.items[i]? = some d) (hw : d x = some .none)
    (h2 : flush E K d0 L1 = .ok L2) :
    ∃ d', L2.items[i]? = some d' ∧ d' x = some .nan := by
  obtain ⟨hitems, ty, hct, hf⟩ := read_new hn h1
  have hct' : colType K x = some .float := by
    unfold colType
    rw [if_pos hx, hty]
  rw [hct'] at hct
  cases hct
  obtain ⟨hi1, hde⟩ := List.getElem?_eq_some_iff.1 hd
  have hia : i < a.length := hf.length_eq ▸ hi1
  have hai : a[i] = .nan := by
    obtain ⟨u, hu, hw'⟩ := (List.forall₂_iff_get.1 hf).2 i hi1 hia
    have hu' : d x = some u := by rw [← hde]; exact hu
    rw [hw] at hu'
    cases hu'
    exact (Option.some.inj hw').symm
  have hl1 := read_lookup h1
  have hWF1 : L1.WF := by
    rcases read_cols h1 with rfl | ⟨_, rfl⟩
    · exact hL
    · exact store_WF hL _ _
  have hne : L1.items ≠ [] := by
    rw [hitems]
    intro e
    rw [e] at hi1
    simp at hi1
  obtain ⟨k1, k2⟩ := flush_spec hWF1 hne h2
  have hi3 : i < L2.items.length := by
    rw [k1, hitems]
    exact hi1
  refine ⟨L2.items[i], List.getElem?_eq_getElem hi3, ?_⟩
  obtain ⟨m1, _⟩ := k2 i d L2.items[i] (by rw [hitems]; exact hd) (List.getElem?_eq_getElem hi3) x
    (colType_isCol hct')
  obtain ⟨e2, he2, hv2⟩ := m1 a a[i] hl1 (List.getElem?_eq_getElem hia)
  rw [hai] at he2
  obtain ⟨ty, w, q1, q2, _, q3, q4⟩ := write_value_reads_back E K d e2 x .nan hx rfl he2
  rw [hty] at q1
  cases q1
  simp only [coerce, Option.some.injEq] at q2
  obtain ⟨ty0, v0, v1, v2, r1, r2, r3, r4, r5⟩ := setattr_name_inv he2 rfl hx
  rw [hty] at r1
  cases r1
  simp only [coerce, Option.some.injEq] at r2
  subst r2
  have s1 : v1 = .nan := by
    unfold clampMin at r3
    split at r3
    · cases r3; rfl
    · simp only [ltBound, Except.ok.injEq] at r3
      exact r3.symm
  subst s1
  have s2 : v2 = .nan := by
    unfold clampMax at r4
    split at r4
    · cases r4; rfl
    · simp only [gtBound, Except.ok.injEq] at r4
      exact r4.symm
  subst s2
  rw [hv2, r5]
  have hal : allowed K x .nan = true := by simp [allowed, ha]
  rw [if_pos hal, Dict.set_self]

/-- An array of integers cannot be read when an item has `None`. -/
theorem undefined_int_raises {E : PyEnv} {K : ClassDesc} {L : Loop} {x : String} {d : Dict}
    (hn : L.cols.lookup x = none) (hty : colType K x = some .int) (hd : d ∈ L.items)
    (hw : d x = some .none) : ¬ ∃ r, read E K L x = .ok r := by
  rw [read_new_iff hn hty]
  intro h
  obtain ⟨w, v, hv, hw'⟩ := h d hd
  rw [hw] at hv
  cases hv
  simp [toArr] at hw'

/-- What the array of an attribute has at an item with `None`: `nan` for numbers, the text "None" for texts (known failure: it is not
distinguished from a text entered so), false for flags. -/
theorem array_of_undefined {E : PyEnv} {K : ClassDesc} {L L' : Loop} {x : String} {a : List PyVal} {i : ℕ} {d : Dict} {ty : PyType}
    (hn : L.cols.lookup x = none) (hty : colType K x = some ty) (h : read E K L x = .ok (a, L')) (hd : L.items[i]? = some d)
    (hw : d x = some .none) :
    (ty = .float → a[i]? = some .nan) ∧ (ty = .str → a[i]? = some (.str "None")) ∧ (ty = .bool → a[i]? = some (.bool false)) := by
  obtain ⟨_, ty', hct, hf⟩ := read_new hn h
  rw [hty] at hct
  obtain rfl : ty = ty' := Option.some.inj hct
  obtain ⟨hi, hde⟩ := List.getElem?_eq_some_iff.1 hd
  have hl := hf.length_eq
  have hi2 : i < a.length := hl ▸ hi
  obtain ⟨v, hv, hv'⟩ := (List.forall₂_iff_get.1 hf).2 i hi hi2
  have hde' : L.items.get ⟨i, hi⟩ = d := hde
  rw [hde', hw] at hv
  obtain rfl : PyVal.none = v := Option.some.inj hv
  have ha : a[i]? = some (a.get ⟨i, hi2⟩) := by simp [List.getElem?_eq_getElem hi2]
  refine ⟨?_, ?_, ?_⟩ <;> rintro rfl <;> rw [ha]
  · exact hv'.symm
  · exact hv'.symm
  · exact hv'.symm

/-! ## Cases -/

/-- Part of the tables of `DiffrnRefln`, cl_1_diffrn_refln.py:28-84. -/
def frDesc : ClassDesc where
  prefixName := "diffrn_refln"
  mandatory := ["index_h"]
  optional := ["fr", "excluded"]
  types := [.int, .float, .bool]
  intNames := []
  intProtected := []
  ref := []
  sigma := []
  constrFlag := []
  refFlag := []
  constrMark := []
  dConstraints := []
  dMin := [("fr", 0)]
  dMax := []

/-- An item with a flipping ratio. -/
def frItem (v : PyVal) : Dict := fun k =>
  if k = "index_h" then some (.num 1) else if k = "fr" then some v
  else if k = "excluded" then some (.bool false) else none

/-- Two reflections, no arrays stored. -/
def frLoop : Loop := ⟨[frItem (.num 2), frItem (.num 3)], []⟩

example : frLoop.WF ∧ Fresh env0 frDesc frLoop := by
  constructor
  · simp [Loop.WF, frLoop]
  · intro x a h
    simp [frLoop] at h

/-- Read the array, write 7 to the first item, move the arrays back: the item has 2 again. -/
theorem example_lost : ∃ L1 L2 L3, read env0 frDesc frLoop "fr" = .ok ([.num 2, .num 3], L1) ∧
    writeItem env0 frDesc L1 0 "fr" (.num 7) = .ok L2 ∧ flush env0 frDesc (fun _ => none) L2 = .ok L3 ∧
    (L2.items.map fun d => d "fr") = [some (.num 7), some (.num 3)] ∧
    (L3.items.map fun d => d "fr") = [some (.num 2), some (.num 3)] ∧ L3.cols = [] :=
  ⟨_, _, _, rfl, rfl, rfl, by decide +kernel, by decide +kernel, by decide +kernel⟩

/-- A careful history: write, read, move back, write, read. -/
def frHistory : List Op :=
  [.write 0 "fr" (.num 7), .read "fr", .flush, .write 1 "fr" (.num 5), .read "fr"]

theorem example_careful : Careful env0 frDesc (fun _ => none) frLoop frHistory ∧
    ∃ L', run env0 frDesc (fun _ => none) frLoop frHistory = .ok L' ∧
      L'.cols = [("fr", [.num 7, .num 5])] := by
  refine ⟨⟨?_, ?_⟩, _, rfl, by decide +kernel⟩
  · intro i x v _
    rfl
  · intro L1 h1
    cases h1
    refine ⟨fun i x v h => (by cases h), ?_⟩
    intro L2 h2
    cases h2
    refine ⟨fun i x v h => (by cases h), ?_⟩
    intro L3 h3
    cases h3
    refine ⟨fun i x v h => (by cases h; rfl), ?_⟩
    intro L4 h4
    cases h4
    refine ⟨fun i x v h => (by cases h), ?_⟩
    intro L5 _
    trivial

/-- New items from arrays: three reflections are made. -/
theorem example_new : ∃ L', flush env0 frDesc (frItem .none)
      (assign (assign ⟨[], []⟩ "index_h" [.num 4, .num 5, .num 6]) "fr" [.num 1, .num (-1)]) = .ok L' ∧
    (L'.items.map fun d => (d "index_h", d "fr")) =
      [(some (.num 4), some (.num 1)), (some (.num 5), some (.num 0)), (some (.num 6), some .none)] :=
  ⟨_, rfl, by decide +kernel⟩

example : Stable env0 frDesc "fr" (.num 2) :=
  (stable_float (by decide) (by decide) (by decide) (by decide +kernel)).1

end Cryspy.Cols
