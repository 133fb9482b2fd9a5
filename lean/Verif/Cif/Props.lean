import Verif.Cif.Lemmas
import Mathlib.Data.List.Lookmap

/-!
# C63: items saved to a file are loaded as they were
-/

namespace Cryspy.Cif

open Item

variable {C : CifClass} {T : TextEnv}

/-- The object can be written and every text can be read: attributes with a default are set, the mandatory ones are set, and the
text of each attribute is accepted by a new object. -/
structure Saveable (T : TextEnv) (C : CifClass) (d : Dict) : Prop where
  defaults : ∀ n ∈ C.K.names, C.init n ≠ none → d n ≠ none
  mandatory : ∀ n ∈ C.K.mandatory, d n ≠ none
  some_set : ∃ n ∈ C.K.names, d n ≠ none
  texts : ∀ n ∈ C.K.names, d n ≠ none → ∃ s e, itemText T d n = some s ∧ readAttr T C.K C.init n s = .ok e

/-- `d'` is what is loaded from the file to which `d` was saved. -/
def Loaded (T : TextEnv) (C : CifClass) (form : Dict → Dict) (sep : String) (d d' : Dict) : Prop :=
  ∃ recs, toCif T C sep d = some recs ∧ fromCif T C form recs = .ok (some d')

/-- `form_object` of the class does not change attributes (a new object has no cell type or Wyckoff position attached). -/
def KeepsAttributes (K : ClassDesc) (form : Dict → Dict) : Prop := ∀ e x, K.Declared x → form e x = e x

theorem lower_append (a b : String) : lower (a ++ b) = lower a ++ lower b := by
  unfold lower; rw [String.toList_append, List.map_append]

theorem lower_fullName (pre sep c : String) : lower (fullName pre sep c) = lower "_" ++ lower pre ++ lower sep ++ lower c := by
  unfold fullName; rw [lower_append, lower_append, lower_append]

theorem fullName_same {pre sep c c' : String} : lower (fullName pre sep c) = lower (fullName pre sep c') ↔ lower c = lower c' := by
  rw [lower_fullName, lower_fullName]
  exact List.append_cancel_left_eq _ _ _ |>.to_iff

theorem fullName_sep {pre c c' : String} : lower (fullName pre "_" c) ≠ lower (fullName pre "." c') := by
  rw [lower_fullName, lower_fullName]
  intro h
  simp only [List.append_assoc] at h
  have h1 := List.append_cancel_left (List.append_cancel_left h)
  have h2 : lower "_" ++ lower c = '_' :: lower c := rfl
  have h3 : lower "." ++ lower c' = '.' :: lower c' := rfl
  rw [h2, h3] at h1
  exact absurd (List.cons.inj h1).1 (by decide)

theorem CifClass.WF.len (w : C.WF) : C.cif.length = C.K.names.length := by
  unfold CifClass.cif ClassDesc.names
  rw [List.length_append, List.length_append, w.mand_len, w.opt_len]

theorem CifClass.WF.attrs_fst (w : C.WF) : C.attrs.map Prod.fst = C.K.names := by
  unfold CifClass.attrs
  rw [List.map_fst_zip (by rw [w.len])]

theorem CifClass.WF.attrs_snd (w : C.WF) : C.attrs.map Prod.snd = C.cif := by
  unfold CifClass.attrs
  rw [List.map_snd_zip (by rw [w.len])]

theorem CifClass.WF.mem_names (w : C.WF) {p : String × String} (hp : p ∈ C.attrs) : p.1 ∈ C.K.names := by
  rw [← w.attrs_fst]; exact List.mem_map_of_mem hp

theorem CifClass.WF.mem_cif (w : C.WF) {p : String × String} (hp : p ∈ C.attrs) : p.2 ∈ C.cif := by
  rw [← w.attrs_snd]; exact List.mem_map_of_mem hp

theorem CifClass.WF.attr_of_name (w : C.WF) {n : String} (hn : n ∈ C.K.names) : ∃ c, (n, c) ∈ C.attrs := by
  rw [← w.attrs_fst] at hn
  obtain ⟨p, hp, rfl⟩ := List.mem_map.1 hn
  exact ⟨p.2, hp⟩

theorem CifClass.WF.attr_of_cif (w : C.WF) {c : String} (hc : c ∈ C.cif) : ∃ n, (n, c) ∈ C.attrs := by
  rw [← w.attrs_snd] at hc
  obtain ⟨p, hp, rfl⟩ := List.mem_map.1 hc
  exact ⟨p.1, hp⟩

theorem CifClass.WF.mand_attr (w : C.WF) {c : String} (hc : c ∈ C.mandCif) : ∃ n ∈ C.K.mandatory, (n, c) ∈ C.attrs := by
  have e : C.attrs = C.K.mandatory.zip C.mandCif ++ C.K.optional.zip C.optCif := by
    unfold CifClass.attrs ClassDesc.names CifClass.cif
    exact List.zip_append w.mand_len.symm
  have : c ∈ (C.K.mandatory.zip C.mandCif).map Prod.snd := by
    rw [List.map_snd_zip (by rw [w.mand_len])]; exact hc
  obtain ⟨p, hp, rfl⟩ := List.mem_map.1 this
  exact ⟨p.1, (List.of_mem_zip hp).1, by rw [e]; exact List.mem_append_left _ hp⟩

theorem CifClass.WF.attrs_inj (w : C.WF) {p q : String × String} (hp : p ∈ C.attrs) (hq : q ∈ C.attrs) (h : lower p.2 = lower q.2) :
    p = q := by
  have hn : (C.attrs.map fun p => lower p.2).Nodup := by
    have := w.cif_distinct
    rwa [← w.attrs_snd, List.map_map] at this
  exact List.inj_on_of_nodup_map hn hp hq h

theorem mapM_map {α β : Type} {f : α → Option β} {g : α → β} {l : List α} (h : ∀ a ∈ l, f a = some (g a)) :
    l.mapM f = some (l.map g) := by
  induction l with
  | nil => rfl
  | cons a t ih =>
    rw [List.mapM_cons, h a (by simp), ih fun b hb => h b (by simp [hb])]
    rfl

/-- text of an attribute that is set -/
def txt (T : TextEnv) (d : Dict) (n : String) : String := (itemText T d n).getD ""

/-- the records -/
def recsOf (T : TextEnv) (C : CifClass) (sep : String) (d : Dict) : List (String × String) :=
  (C.attrs.filter fun p => hasAttr d p.1).map fun p => (fullName C.K.prefixName sep p.2, txt T d p.1)

theorem hasAttr_iff (d : Dict) (n : String) : hasAttr d n = true ↔ d n ≠ none := by
  unfold hasAttr; rw [Option.isSome_iff_ne_none]

theorem toCif_eq (w : C.WF) {d : Dict} (hS : Saveable T C d) (sep : String) : toCif T C sep d = some (recsOf T C sep d) := by
  unfold toCif recsOf
  apply mapM_map
  intro p hp
  obtain ⟨hp, ha⟩ := List.mem_filter.1 hp
  obtain ⟨s, e, hs, -⟩ := hS.texts p.1 (w.mem_names hp) ((hasAttr_iff d p.1).1 ha)
  rw [if_neg (w.cif_ne _ (w.mem_cif hp))]
  unfold txt
  rw [hs]; rfl

theorem find_map {α β : Type} (l : List α) (f : α → β) (q : β → Bool) (r : α → Bool) (h : ∀ a ∈ l, q (f a) = r a) :
    (l.map f).find? q = (l.find? r).map f := by
  induction l with
  | nil => rfl
  | cons a t ih =>
    rw [List.map_cons, List.find?_cons, List.find?_cons, h a (by simp)]
    cases r a with
    | true => rfl
    | false => exact ih fun b hb => h b (by simp [hb])

theorem find_unique {α : Type} [DecidableEq α] (l : List α) (r : α → Bool) (a : α) (ha : a ∈ l) (hr : r a = true)
    (h : ∀ b ∈ l, r b = true → b = a) : l.find? r = some a := by
  cases hf : l.find? r with
  | none => rw [List.find?_eq_none] at hf; exact absurd hr (hf a ha)
  | some b => rw [h b (List.mem_of_find?_eq_some hf) (by simpa using List.find?_some hf)]

theorem value_recs (w : C.WF) {d : Dict} (sep : String) {p : String × String} (hp : p ∈ C.attrs) :
    value? (recsOf T C sep d) (fullName C.K.prefixName sep p.2) = if hasAttr d p.1 then some (txt T d p.1) else none := by
  unfold value? recsOf
  rw [find_map _ _ _ (fun q => decide (lower q.2 = lower p.2)) (by
    intro q _
    have := @fullName_same C.K.prefixName sep q.2 p.2
    simp only [beq_eq_decide, this])]
  by_cases ha : hasAttr d p.1 = true
  · rw [if_pos ha, find_unique _ _ p (List.mem_filter.2 ⟨hp, ha⟩) (by simp) (fun q hq hr =>
      w.attrs_inj (List.mem_filter.1 hq).1 hp (by simpa using hr))]
    rfl
  · rw [if_neg ha]
    have : (C.attrs.filter fun p => hasAttr d p.1).find? (fun q => decide (lower q.2 = lower p.2)) = none := by
      rw [List.find?_eq_none]
      intro q hq
      obtain ⟨hq, hqa⟩ := List.mem_filter.1 hq
      intro hr
      have := w.attrs_inj hq hp (by simpa using hr)
      rw [this] at hqa
      exact ha hqa
    rw [this]; rfl

theorem value_other {d : Dict} {sep sep' c : String} (h : sep = "_" ∧ sep' = "." ∨ sep = "." ∧ sep' = "_") :
    value? (recsOf T C sep d) (fullName C.K.prefixName sep' c) = none := by
  unfold value? recsOf
  rw [Option.map_eq_none_iff, List.find?_eq_none]
  intro q hq
  obtain ⟨p, -, rfl⟩ := List.mem_map.1 hq
  rcases h with ⟨rfl, rfl⟩ | ⟨rfl, rfl⟩
  · simpa using fullName_sep
  · simpa using fullName_sep.symm

theorem separator_eq (w : C.WF) {d : Dict} (hS : Saveable T C d) {sep : String} (hsep : sep = "_" ∨ sep = ".") :
    separator? C (recsOf T C sep d) = some sep := by
  have hm : (C.mandCif.all fun c => (value? (recsOf T C sep d) (fullName C.K.prefixName sep c)).isSome) = true := by
    rw [List.all_eq_true]
    intro c hc
    obtain ⟨n, hn, hp⟩ := w.mand_attr hc
    have := value_recs (T := T) w (d := d) sep hp
    simp only at this
    rw [this, if_pos ((hasAttr_iff _ _).2 (hS.mandatory n hn))]; rfl
  have ha : (C.cif.any fun c => (value? (recsOf T C sep d) (fullName C.K.prefixName sep c)).isSome) = true := by
    obtain ⟨n, hn, hd⟩ := hS.some_set
    obtain ⟨c, hc⟩ := w.attr_of_name hn
    rw [List.any_eq_true]
    refine ⟨c, w.mem_cif hc, ?_⟩
    have := value_recs (T := T) w (d := d) sep hc
    simp only at this
    rw [this, if_pos ((hasAttr_iff _ _).2 hd)]; rfl
  unfold separator?
  dsimp only
  rcases hsep with rfl | rfl
  · rw [hm, ha]; rfl
  · have hn : (C.cif.any fun c => (value? (recsOf T C "." d) (fullName C.K.prefixName "_" c)).isSome) = false := by
      rw [List.any_eq_false]
      intro c _
      rw [value_other (Or.inr ⟨rfl, rfl⟩)]; simp
    rw [hm, ha, hn]; simp

/-- An object that can be saved is loaded, and every attribute of the loaded object is what a new object takes from the text of the
attribute; attributes that are not set stay as in a new object. -/
theorem load_spec (w : C.WF) {form : Dict → Dict} (hf : KeepsAttributes C.K form) {sep : String} (hsep : sep = "_" ∨ sep = ".")
    {d : Dict} (hS : Saveable T C d) : ∃ d', Loaded T C form sep d d' ∧
      (∀ n ∈ C.K.names, d n = none → Agree (entries C.K n) C.init d') ∧
      ∀ n ∈ C.K.names, d n ≠ none → ∀ s e, itemText T d n = some s → readAttr T C.K C.init n s = .ok e →
        Agree (entries C.K n) e d' := by
  set l : List (String × Option String) := C.attrs.map fun p => (p.1, if hasAttr d p.1 then some (txt T d p.1) else none) with hl
  have hfst : l.map Prod.fst = C.K.names := by
    rw [hl, List.map_map, ← w.attrs_fst]; rfl
  have hmem : ∀ n ∈ C.K.names, (n, if hasAttr d n then some (txt T d n) else none) ∈ l := by
    intro n hn
    obtain ⟨c, hc⟩ := w.attr_of_name hn
    exact List.mem_map.2 ⟨_, hc, rfl⟩
  have hform : ∀ p ∈ l, p.1 ∈ C.K.names ∧ p.2 = if hasAttr d p.1 then some (txt T d p.1) else none := by
    intro p hp
    obtain ⟨q, hq, rfl⟩ := List.mem_map.1 hp
    exact ⟨w.mem_names hq, rfl⟩
  have htx : ∀ n ∈ C.K.names, d n ≠ none → ∃ e, itemText T d n = some (txt T d n) ∧ readAttr T C.K C.init n (txt T d n) = .ok e := by
    intro n hn hd
    obtain ⟨s, e, h1, h2⟩ := hS.texts n hn hd
    have : txt T d n = s := by unfold txt; rw [h1]; rfl
    rw [this]; exact ⟨e, h1, h2⟩
  obtain ⟨d0, h1, h2, h3⟩ := readAll_spec (T := T) w l (fun p hp => (hform p hp).1) (by rw [hfst]; exact w.names_nodup) C.init C.init
    (fun _ _ _ _ => rfl) (by
      intro p hp s hs
      obtain ⟨hn, e⟩ := hform p hp
      rw [e] at hs
      split at hs
      · rename_i ha
        cases hs
        obtain ⟨e, -, h⟩ := htx p.1 hn ((hasAttr_iff _ _).1 ha)
        exact ⟨e, h⟩
      · cases hs)
  have hfold : C.attrs.foldlM (readRec T C (recsOf T C sep d) sep) C.init = .ok d0 := by
    rw [← h1]
    unfold readAll
    rw [hl, List.foldlM_map]
    apply foldlM_congr
    intro p hp d'
    unfold readRec
    rw [value_recs w sep hp]
    rfl
  refine ⟨if isDefined C.K d0 then form d0 else d0, ⟨recsOf T C sep d, toCif_eq w hS sep, ?_⟩, ?_, ?_⟩
  · unfold fromCif
    rw [separator_eq w hS hsep]
    dsimp only
    rw [hfold]
  · intro n hn hd x hx
    have hx' := w.declared hn hx
    have : (if isDefined C.K d0 then form d0 else d0) x = d0 x := by split <;> [exact hf _ _ hx'; rfl]
    rw [this]
    symm
    apply h3 x hx'
    intro p hp s hs
    obtain ⟨hpn, e⟩ := hform p hp
    by_cases hne : n = p.1
    · rw [e, ← hne, if_neg (by rw [hasAttr_iff]; simpa using hd)] at hs; cases hs
    · exact w.disjoint hn hpn hne hx
  · intro n hn hd s e hs he x hx
    have hx' := w.declared hn hx
    have : (if isDefined C.K d0 then form d0 else d0) x = d0 x := by split <;> [exact hf _ _ hx'; rfl]
    rw [this]
    have hts : txt T d n = s := by unfold txt; rw [hs]; rfl
    refine h2 _ (hmem n hn) s ?_ e he x hx
    simp only
    rw [if_pos ((hasAttr_iff _ _).2 hd), hts]

end Cryspy.Cif
