import Verif.Cif.SaveProps

/-!
# C63 for loops
-/

namespace Cryspy.Cif

open Item

variable {C : CifClass} {T : TextEnv}

/-- The columns of a file: the attributes that the first item has. -/
def cols (C : CifClass) (d : Dict) : List (String × String) := C.attrs.filter fun p => hasAttr d p.1

/-- The loop can be written and every text can be read: there is an item, the first one has an attribute, and the text of each
attribute of the first item is, in every item, accepted by a new object. -/
structure LoopSaveable (T : TextEnv) (C : CifClass) (d : Dict) (l : List Dict) : Prop where
  some_set : ∃ n ∈ C.K.names, d n ≠ none
  texts : ∀ x ∈ d :: l, ∀ n ∈ C.K.names, d n ≠ none → ∃ s e, asString T x n = some s ∧ readAttr T C.K C.init n s = .ok e

/-- `l'` is what is loaded from the file to which the loop `l` was saved. -/
def LoopLoaded (T : TextEnv) (C : CifClass) (sep : String) (l l' : List Dict) : Prop :=
  ∃ r, loopToCif T C sep l = some r ∧ loopFromCif T C r = .ok l'

theorem mapM_ok {α β : Type} {f : α → Except Err β} {g : α → β} {l : List α} (h : ∀ a ∈ l, f a = .ok (g a)) :
    l.mapM f = .ok (l.map g) := by
  induction l with
  | nil => rfl
  | cons a t ih =>
    rw [List.mapM_cons, h a (by simp), ih fun b hb => h b (by simp [hb])]
    rfl

theorem column_eq (w : C.WF) {sep : String} (hsep : sep = "_" ∨ sep = ".") {p : String × String} (hp : p ∈ C.attrs) :
    column? C (fullName C.K.prefixName sep p.2) = some p.1 := by
  have hl : (lower (fullName C.K.prefixName sep p.2)).drop (C.K.prefixName.length + 2) = lower p.2 := by
    rw [lower_fullName]
    have : (lower "_" ++ lower C.K.prefixName ++ lower sep).length = C.K.prefixName.length + 2 := by
      unfold lower
      rcases hsep with rfl | rfl <;> simp <;> rw [← String.length_toList]
    rw [← this, List.drop_left]
  unfold column?
  dsimp only
  rw [hl, find_unique _ _ p hp (by simp) (fun q hq hr => w.attrs_inj hq hp (by simpa using hr))]
  exact if_pos (w.mem_names hp)

theorem mapM_map_ok {α β γ : Type} {k : γ → α} {f : α → Except Err β} {g : γ → β} {l : List γ} (h : ∀ a ∈ l, f (k a) = .ok (g a)) :
    (l.map k).mapM f = .ok (l.map g) := by
  induction l with
  | nil => rfl
  | cons a t ih =>
    rw [List.map_cons, List.mapM_cons, h a (by simp), ih fun b hb => h b (by simp [hb])]
    rfl

/-- what an item gets from a text -/
def readOr (T : TextEnv) (C : CifClass) (d : Dict) (n s : String) : Dict :=
  match readAttr T C.K d n s with
  | .ok e => e
  | .error _ => d

theorem readColumn_some (w : C.WF) {sep : String} (hsep : sep = "_" ∨ sep = ".") {p : String × String} (hp : p ∈ C.attrs)
    (xs : List Dict) (g : Dict → Dict) (t : Dict → String) (h : ∀ x ∈ xs, ∃ e, readAttr T C.K (g x) p.1 (t x) = .ok e) :
    readColumn T C (some (xs.map g)) (fullName C.K.prefixName sep p.2) (xs.map t) =
      .ok (some (xs.map fun x => readOr T C (g x) p.1 (t x))) := by
  unfold readColumn
  rw [column_eq w hsep hp]
  dsimp only
  rw [List.zip_map', mapM_map_ok (g := fun x => readOr T C (g x) p.1 (t x))]
  · rfl
  · intro x hx
    obtain ⟨e, he⟩ := h x hx
    unfold readOr
    rw [he]

theorem readColumn_none (w : C.WF) {sep : String} (hsep : sep = "_" ∨ sep = ".") {p : String × String} (hp : p ∈ C.attrs)
    (xs : List Dict) (t : Dict → String) (h : ∀ x ∈ xs, ∃ e, readAttr T C.K C.init p.1 (t x) = .ok e) :
    readColumn T C none (fullName C.K.prefixName sep p.2) (xs.map t) =
      .ok (some (xs.map fun x => readOr T C C.init p.1 (t x))) := by
  unfold readColumn
  rw [column_eq w hsep hp]
  dsimp only
  rw [mapM_map_ok (g := fun x => readOr T C C.init p.1 (t x))]
  · rfl
  · intro x hx
    obtain ⟨e, he⟩ := h x hx
    unfold readOr
    rw [he]

/-- the attributes of one item -/
def texts (t : Dict → String → String) (ps : List (String × String)) (x : Dict) : List (String × Option String) :=
  ps.map fun p => (p.1, some (t x p.1))

theorem fold_some (w : C.WF) {sep : String} (hsep : sep = "_" ∨ sep = ".") (xs : List Dict) (t : Dict → String → String)
    (ps : List (String × String)) (hps : ∀ p ∈ ps, p ∈ C.attrs) (g h : Dict → Dict)
    (hok : ∀ x ∈ xs, readAll T C.K (g x) (texts t ps x) = .ok (h x)) :
    ps.foldlM (fun st p => readColumn T C st (fullName C.K.prefixName sep p.2) (xs.map fun x => t x p.1)) (some (xs.map g)) =
      .ok (some (xs.map h)) := by
  induction ps generalizing g with
  | nil =>
    have : xs.map g = xs.map h := List.map_congr_left fun x hx => by
      have := hok x hx
      unfold texts readAll at this
      exact Except.ok.inj this
    rw [this]; rfl
  | cons p ps ih =>
    have hp : ∀ x ∈ xs, ∃ e, readAttr T C.K (g x) p.1 (t x p.1) = .ok e ∧ readAll T C.K e (texts t ps x) = .ok (h x) := by
      intro x hx
      have := hok x hx
      unfold texts at this
      rw [List.map_cons, readAll_cons] at this
      dsimp only at this
      cases he : readAttr T C.K (g x) p.1 (t x p.1) with
      | error z => rw [he] at this; cases this
      | ok e => rw [he] at this; exact ⟨e, rfl, this⟩
    rw [List.foldlM_cons, readColumn_some w hsep (hps p (by simp)) xs g (fun x => t x p.1) fun x hx =>
      let ⟨e, he, _⟩ := hp x hx; ⟨e, he⟩]
    refine ih (fun q hq => hps q (by simp [hq])) (fun x => readOr T C (g x) p.1 (t x p.1)) ?_
    intro x hx
    obtain ⟨e, he, h2⟩ := hp x hx
    unfold readOr
    rw [he]; exact h2

theorem fold_none (w : C.WF) {sep : String} (hsep : sep = "_" ∨ sep = ".") (xs : List Dict) (t : Dict → String → String)
    (ps : List (String × String)) (hne : ps ≠ []) (hps : ∀ p ∈ ps, p ∈ C.attrs) (h : Dict → Dict)
    (hok : ∀ x ∈ xs, readAll T C.K C.init (texts t ps x) = .ok (h x)) :
    ps.foldlM (fun st p => readColumn T C st (fullName C.K.prefixName sep p.2) (xs.map fun x => t x p.1)) none =
      .ok (some (xs.map h)) := by
  rw [← fold_some w hsep xs t ps hps (fun _ => C.init) h hok]
  cases ps with
  | nil => exact absurd rfl hne
  | cons p ps =>
    have hp : ∀ x ∈ xs, ∃ e, readAttr T C.K C.init p.1 (t x p.1) = .ok e := by
      intro x hx
      have := hok x hx
      unfold texts at this
      rw [List.map_cons, readAll_cons] at this
      dsimp only at this
      cases he : readAttr T C.K C.init p.1 (t x p.1) with
      | error z => rw [he] at this; cases this
      | ok e => exact ⟨e, rfl⟩
    rw [List.foldlM_cons, List.foldlM_cons, readColumn_some w hsep (hps p (by simp)) xs (fun _ => C.init) (fun x => t x p.1) hp,
      readColumn_none w hsep (hps p (by simp)) xs (fun x => t x p.1) hp]

/-- text of an attribute of an item of a loop -/
def ltxt (T : TextEnv) (x : Dict) (n : String) : String := (asString T x n).getD ""

/-- A written loop of which the columns are known attributes is read item by item. -/
theorem loopFrom_eq (w : C.WF) {sep : String} (hsep : sep = "_" ∨ sep = ".") (xs : List Dict) (t : Dict → String → String)
    (ps : List (String × String)) (hne : ps ≠ []) (hps : ∀ p ∈ ps, p ∈ C.attrs) (h : Dict → Dict)
    (hok : ∀ x ∈ xs, readAll T C.K C.init (texts t ps x) = .ok (h x)) :
    loopFromCif T C ⟨ps.map fun p => fullName C.K.prefixName sep p.2, xs.map fun x => ps.map fun p => t x p.1⟩ = .ok (xs.map h) := by
  have key : (ps.map fun p => fullName C.K.prefixName sep p.2).zipIdx.foldlM
      (fun st p => readColumn T C st p.1 ((xs.map fun x => ps.map fun p => t x p.1).map fun row => row.getD p.2 "")) none =
      .ok (some (xs.map h)) := by
    rw [← fold_none w hsep xs t ps hne hps h hok]
    conv_rhs => rw [← List.zipIdx_map_fst 0 ps, List.foldlM_map]
    rw [List.zipIdx_map, List.foldlM_map]
    apply foldlM_congr
    intro q hq st
    have hq' : ps[q.2]? = some q.1 := List.mem_zipIdx_iff_getElem?.1 hq
    congr 1
    rw [List.map_map]
    apply List.map_congr_left
    intro x _
    simp [hq']
  unfold loopFromCif
  dsimp only
  rw [key]

theorem loopTo_eq (w : C.WF) (sep : String) {d : Dict} {l : List Dict}
    (h : ∀ x ∈ d :: l, ∀ p ∈ cols C d, asString T x p.1 = some (ltxt T x p.1)) :
    loopToCif T C sep (d :: l) = some ⟨(cols C d).map fun p => fullName C.K.prefixName sep p.2,
      (d :: l).map fun x => (cols C d).map fun p => ltxt T x p.1⟩ := by
  have h1 : ((d :: l).mapM fun x => (cols C d).mapM fun p => asString T x p.1) =
      some ((d :: l).map fun x => (cols C d).map fun p => ltxt T x p.1) := mapM_map fun x hx => mapM_map (h x hx)
  have h2 : ((cols C d).map fun p => if p.2 = "" then "_" ++ C.K.prefixName else fullName C.K.prefixName sep p.2) =
      (cols C d).map fun p => fullName C.K.prefixName sep p.2 :=
    List.map_congr_left fun p hp => if_neg (w.cif_ne _ (w.mem_cif (List.mem_filter.1 hp).1))
  have h3 : loopToCif T C sep (d :: l) = (((d :: l).mapM fun x => (cols C d).mapM fun p => asString T x p.1).map fun rows =>
      ⟨(cols C d).map fun p => if p.2 = "" then "_" ++ C.K.prefixName else fullName C.K.prefixName sep p.2, rows⟩) := rfl
  rw [h3, h1, h2]
  rfl

/-- `d'` is read from the texts of `x` in the columns of `d`. -/
def ItemRead (T : TextEnv) (C : CifClass) (d x d' : Dict) : Prop :=
  readAll T C.K C.init (texts (ltxt T) (cols C d) x) = .ok d' ∧
      (∀ p ∈ texts (ltxt T) (cols C d) x, ∀ s, p.2 = some s → ∀ e, readAttr T C.K C.init p.1 s = .ok e →
        Agree (entries C.K p.1) e d') ∧
      ∀ y, C.K.Declared y → (∀ p ∈ texts (ltxt T) (cols C d) x, ∀ s, p.2 = some s → y ∉ entries C.K p.1) → d' y = C.init y

/-- A loop that can be saved is loaded with the same number and order of items; an attribute of the first item is what a new item takes
from its text, any other attribute is that of a new item. -/
theorem loop_load_spec (w : C.WF) {sep : String} (hsep : sep = "_" ∨ sep = ".") {d : Dict} {l : List Dict} (hS : LoopSaveable T C d l) :
    ∃ h : Dict → Dict, LoopLoaded T C sep (d :: l) ((d :: l).map h) ∧ ∀ x ∈ d :: l,
      (∀ n ∈ C.K.names, d n = none → Agree (entries C.K n) C.init (h x)) ∧
      ∀ n ∈ C.K.names, d n ≠ none → ∀ s e, asString T x n = some s → readAttr T C.K C.init n s = .ok e →
        Agree (entries C.K n) e (h x) := by
  have hcol : ∀ p ∈ cols C d, p ∈ C.attrs ∧ d p.1 ≠ none := fun p hp =>
    ⟨(List.mem_filter.1 hp).1, (hasAttr_iff d p.1).1 (List.mem_filter.1 hp).2⟩
  have htx : ∀ x ∈ d :: l, ∀ n ∈ C.K.names, d n ≠ none → asString T x n = some (ltxt T x n) ∧
      ∃ e, readAttr T C.K C.init n (ltxt T x n) = .ok e := by
    intro x hx n hn hd
    obtain ⟨s, e, h1, h2⟩ := hS.texts x hx n hn hd
    have : ltxt T x n = s := by unfold ltxt; rw [h1]; rfl
    rw [this]; exact ⟨h1, e, h2⟩
  have hform : ∀ x, ∀ p ∈ texts (ltxt T) (cols C d) x, p.1 ∈ C.K.names ∧ d p.1 ≠ none ∧ p.2 = some (ltxt T x p.1) := by
    intro x p hp
    obtain ⟨q, hq, rfl⟩ := List.mem_map.1 hp
    exact ⟨w.mem_names (hcol q hq).1, (hcol q hq).2, rfl⟩
  have hnd : ∀ x, ((texts (ltxt T) (cols C d) x).map Prod.fst).Nodup := by
    intro x
    unfold texts cols
    rw [List.map_map]
    have : (C.attrs.map Prod.fst).Nodup := by rw [w.attrs_fst]; exact w.names_nodup
    exact this.sublist (List.Sublist.map _ List.filter_sublist)
  have hsp : ∀ x ∈ d :: l, ∃ d', ItemRead T C d x d' := fun x hx => readAll_spec (T := T) w (texts (ltxt T) (cols C d) x)
    (fun p hp => (hform x p hp).1) (hnd x) C.init C.init (fun _ _ _ _ => rfl) (fun p hp s hs => by
      obtain ⟨a, b, c⟩ := hform x p hp
      rw [c] at hs
      cases hs
      exact (htx x hx p.1 a b).2)
  have hex : ∀ x, ∃ d', x ∈ d :: l → ItemRead T C d x d' := by
    intro x
    by_cases hx : x ∈ d :: l
    · obtain ⟨d', a⟩ := hsp x hx
      exact ⟨d', fun _ => a⟩
    · exact ⟨C.init, fun h => absurd h hx⟩
  obtain ⟨h, hh⟩ := Classical.axiomOfChoice hex
  have hne : cols C d ≠ [] := by
    obtain ⟨n, hn, hd⟩ := hS.some_set
    obtain ⟨c, hc⟩ := w.attr_of_name hn
    exact List.ne_nil_of_mem (List.mem_filter.2 ⟨hc, (hasAttr_iff d n).2 hd⟩)
  have hT := loopTo_eq (T := T) w sep (d := d) (l := l) fun x hx p hp => (htx x hx p.1 (w.mem_names (hcol p hp).1) (hcol p hp).2).1
  have hF := loopFrom_eq (T := T) w hsep (d :: l) (ltxt T) (cols C d) hne (fun p hp => (hcol p hp).1) h fun x hx => (hh x hx).1
  have hLL : LoopLoaded T C sep (d :: l) ((d :: l).map h) := ⟨_, hT, hF⟩
  refine ⟨h, hLL, ?_⟩
  · intro x hx
    obtain ⟨-, h2, h3⟩ := hh x hx
    refine ⟨fun n hn hd y hy => ?_, fun n hn hd s e hs he => ?_⟩
    · symm
      apply h3 y (w.declared hn hy)
      intro p hp s _
      obtain ⟨a, b, c⟩ := hform x p hp
      exact w.disjoint hn a (fun hnp => b (hnp ▸ hd)) hy
    · obtain ⟨c, hc⟩ := w.attr_of_name hn
      have hst : ltxt T x n = s := by unfold ltxt; rw [hs]; rfl
      refine h2 (n, some (ltxt T x n)) (List.mem_map.2 ⟨(n, c), List.mem_filter.2 ⟨hc, (hasAttr_iff d n).2 hd⟩, rfl⟩) s ?_ e he
      rw [hst]

/-- C63 for loops: a loop that can be saved is loaded as many items in the same order, and an attribute of the first item is
loaded in every item as a single object loads it from its text. -/
theorem loop_saved_is_loaded (w : C.WF) {sep : String} (hsep : sep = "_" ∨ sep = ".") {d : Dict} {l : List Dict}
    (hS : LoopSaveable T C d l) : ∃ l', LoopLoaded T C sep (d :: l) l' ∧ l'.length = l.length + 1 ∧
      ∀ (i : ℕ) (x : Dict), (d :: l)[i]? = some x → ∃ x', l'[i]? = some x' ∧ ∀ n ∈ C.K.names, d n ≠ none →
        ∀ s e, asString T x n = some s → readAttr T C.K C.init n s = .ok e → Agree (entries C.K n) e x' := by
  obtain ⟨h, h1, h2⟩ := loop_load_spec w hsep hS
  refine ⟨_, h1, by simp, fun i x hx => ⟨h x, by rw [List.getElem?_map, hx]; rfl, (h2 x (List.mem_of_getElem? hx)).2⟩⟩

theorem LoopLoaded.unique {sep : String} {l a b : List Dict} (h : LoopLoaded T C sep l a) (h' : LoopLoaded T C sep l b) : a = b := by
  obtain ⟨r, h1, h2⟩ := h
  obtain ⟨r', h1', h2'⟩ := h'
  rw [h1] at h1'; cases h1'
  rw [h2] at h2'
  injection h2'

/-- C63 fails for loops: an attribute that the first item does not have is lost, in all items. -/
theorem loop_attribute_lost (w : C.WF) {sep : String} (hsep : sep = "_" ∨ sep = ".") {d : Dict} {l l' : List Dict}
    (hS : LoopSaveable T C d l) (hL : LoopLoaded T C sep (d :: l) l') {n : String} (hn : n ∈ C.K.names) (hd : d n = none)
    (hi : C.init n = none) : ∀ x' ∈ l', x' n = none := by
  obtain ⟨h, h1, h2⟩ := loop_load_spec w hsep hS
  cases hL.unique h1
  intro x' hx'
  obtain ⟨x, hx, rfl⟩ := List.mem_map.1 hx'
  rw [← (h2 x hx).1 n hn hd n (self_mem_entries _ _), hi]

/-- C63 fails for loops: an attribute that the first item has and another item has not is loaded as `None` in the other item. -/
theorem loop_unset_becomes_none (w : C.WF) {sep : String} (hsep : sep = "_" ∨ sep = ".") {d : Dict} {l l' : List Dict}
    (hS : LoopSaveable T C d l) (hL : LoopLoaded T C sep (d :: l) l') {n : String} (hn : n ∈ C.K.names) (hd : d n ≠ none)
    {i : ℕ} {x : Dict} (hx : (d :: l)[i]? = some x) (hxn : x n = none) : ∃ x', l'[i]? = some x' ∧ x' n = some .none := by
  obtain ⟨h, h1, h2⟩ := loop_load_spec w hsep hS
  cases hL.unique h1
  obtain ⟨e, he, g, -⟩ := readAttr_dot (T := T) w hn C.init
  refine ⟨h x, by rw [List.getElem?_map, hx]; rfl, ?_⟩
  rw [← (h2 x (List.mem_of_getElem? hx)).2 n hn hd "." e (by unfold asString; rw [hxn]) he n (self_mem_entries _ _), g]

/-- C63 fails for loops: an empty loop is loaded as one item of which every attribute is `None`. -/
theorem empty_loop_loaded_as_one_item (w : C.WF) {sep : String} (hsep : sep = "_" ∨ sep = ".") (hne : C.K.names ≠ []) :
    ∃ x', LoopLoaded T C sep [] [x'] ∧ ∀ n ∈ C.K.names, x' n = some .none := by
  have hform : ∀ x, ∀ p ∈ texts (fun _ _ => ".") C.attrs x, p.1 ∈ C.K.names ∧ p.2 = some "." := by
    intro x p hp
    obtain ⟨q, hq, rfl⟩ := List.mem_map.1 hp
    exact ⟨w.mem_names hq, rfl⟩
  obtain ⟨d', h1, h2, -⟩ := readAll_spec (T := T) w (texts (fun _ _ => ".") C.attrs C.init) (fun p hp => (hform _ p hp).1) (by
      unfold texts
      rw [List.map_map]
      have : (C.attrs.map Prod.fst).Nodup := by rw [w.attrs_fst]; exact w.names_nodup
      exact this) C.init C.init (fun _ _ _ _ => rfl) (fun p hp s hs => by
      obtain ⟨a, c⟩ := hform _ p hp
      rw [c] at hs
      cases hs
      obtain ⟨e, he, -⟩ := readAttr_dot (T := T) w a C.init
      exact ⟨e, he⟩)
  have hlen : C.attrs ≠ [] := by
    intro h
    apply hne
    rw [← w.attrs_fst, h]; rfl
  refine ⟨d', ⟨⟨C.attrs.map fun p => fullName C.K.prefixName sep p.2, [C.init].map fun x => C.attrs.map fun p => "."⟩, ?_,
    loopFrom_eq w hsep [C.init] (fun _ _ => ".") C.attrs hlen (fun _ h => h) (fun _ => d') ?_⟩, ?_⟩
  · unfold loopToCif
    rw [← w.attrs_snd, List.map_map, List.map_map]
    rfl
  · intro x hx
    rw [List.mem_singleton.1 hx]; exact h1
  · intro n hn
    obtain ⟨c, hc⟩ := w.attr_of_name hn
    obtain ⟨e, he, g, -⟩ := readAttr_dot (T := T) w hn C.init
    rw [← h2 (n, some ".") (List.mem_map.2 ⟨(n, c), hc, rfl⟩) "." rfl e he n (self_mem_entries _ _), g]

end Cryspy.Cif
