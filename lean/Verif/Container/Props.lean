import Verif.Container.Lemmas
import Mathlib.Data.List.Dedup
import Mathlib.Data.List.Perm.Subperm

/-!
# Properties C04 (loops, data containers) and C06
-/

namespace Cryspy.Container

open Cryspy.Item

/-! ## C04 -/

/-- Loop-level form of C03: the variables of a loop are exactly the flagged parameters of its items,
addressed by attribute and position. -/
theorem loop_variable_names_exact (L : Loop) (hK : L.cls.WF) (hd : ∀ d ∈ L.items, FlagsSet L.cls d) :
    ∃ l, L.varNames = .ok l ∧ ∀ n, n ∈ l ↔ ∃ i d a, L.items[i]? = some d ∧ a ∈ L.cls.ref ∧
      Refined d a = true ∧ n = ⟨L.cls.prefixName, lowerOpt L.name, a, some i⟩ := by
  obtain ⟨l, h, hl⟩ := loopVarsFrom_spec L.cls hK (lowerOpt L.name) L.items 0 hd
  exact ⟨l, h, by simpa using hl⟩

/-- C04 for loops and for items in one statement: for a member whose loop name is in lower case, a
listed variable that is set is read back and the other listed variables keep their values. -/
theorem member_set_variable_then_get (E : PyEnv) (form : Dict → Dict) (m : Member) (hm : m.Good)
    (l : List VName) (hl : m.varNames = .ok l) (n : VName) (hn : n ∈ l) (q : ℚ) :
    ∃ m', m.setVar E n (.num q) = .ok m' ∧ m'.getVar form n = .ok (.num (m.clamp n q)) ∧
      ∀ k ∈ l, k ≠ n → m'.getVar form k = m.getVar form k := by
  obtain ⟨m', h1, -, h2, h3⟩ := member_set_get E form m hm l hl n hn q
  exact ⟨m', h1, h2, h3⟩

/-- C04 for data containers: with lower-case data and loop names and members that answer to different
names, every listed variable that is set is read back, clamped to the bounds that its class declares,
and every other listed variable keeps its value.
Missing: names with capital letters, for which the claim is false (next theorem). -/
theorem data_set_variable_then_get (E : PyEnv) (form : Dict → Dict) (D : Data)
    (hgood : ∀ m ∈ D.members, m.Good) (hdist : D.members.Pairwise Distinct)
    (hname : lowerOpt D.name = D.name)
    (l : List DName) (hl : D.varNames = .ok l) (n : DName) (hn : n ∈ l) (q : ℚ) :
    ∃ D' m, D.setVar E n (.num q) = .ok D' ∧ m ∈ D.members ∧
      D'.getVar form n = .ok (.num (m.clamp n.2 q)) ∧
      ∀ k ∈ l, k ≠ n → D'.getVar form k = D.getVar form k := by
  obtain ⟨lv, hlv, hspec⟩ := memberVars_spec D.members hgood
  unfold Data.varNames at hl
  rw [hlv] at hl
  simp only [Except.ok.injEq] at hl
  subst hl
  obtain ⟨v, hv, rfl⟩ := List.mem_map.mp hn
  obtain ⟨m, hm, lm, hlm, hvm⟩ := (hspec v).mp hv
  obtain ⟨m', hset, hpre, hget, hframe⟩ := member_set_get E form m (hgood m hm) lm hlm v hvm q
  obtain ⟨pre, post, hsplit⟩ := List.append_of_mem hm
  have hp : m.prefixName = v.prefixName := by
    obtain ⟨l', hl', hprop⟩ := member_names m (hgood m hm)
    rw [hlm] at hl'; cases hl'
    exact (hprop v hvm).1.symm
  rw [hsplit, List.pairwise_append] at hdist
  obtain ⟨-, hpp, hcross⟩ := hdist
  rw [List.pairwise_cons] at hpp
  have hin1 : ∀ x ∈ pre, Inert x v := fun x hx =>
    inert_of_distinct (hcross x hx m List.mem_cons_self) (hgood m hm) hlm hvm
  have hin2 : ∀ x ∈ post, Inert x v := fun x hx =>
    inert_of_distinct (hpp.1 x hx).symm (hgood m hm) hlm hvm
  have hsm := set_split (E := E) (v := .num q) hp hset pre post hin1 hin2
  refine ⟨{ D with members := pre ++ m' :: post }, m, ?_, hm, ?_, ?_⟩
  · simp [Data.setVar, hname, hsplit, hsm, Except.map]
  · simp only [Data.getVar, hname, ne_eq, not_true, if_false]
    rw [inert_get_append pre _ hin1, getFromMembers_cons_hit (hpre.trans hp), hget]
  · intro k hk hkn
    obtain ⟨w, hw, rfl⟩ := List.mem_map.mp hk
    have hwv : w ≠ v := fun h => hkn (by rw [h])
    simp only [Data.getVar, hname, ne_eq, not_true, if_false, hsplit]
    -- where does w live?
    obtain ⟨x, hx, lx, hlx, hwx⟩ := (hspec w).mp hw
    rw [hsplit] at hx
    have key : ∀ (pre : List Member), getFromMembers form w (pre ++ m' :: post)
        = getFromMembers form w (pre ++ m :: post) := by
      intro pre
      induction pre with
      | nil =>
        simp only [List.nil_append]
        by_cases hpw : m.prefixName = w.prefixName
        · rw [getFromMembers_cons_hit hpw, getFromMembers_cons_hit (hpre.trans hpw)]
          rcases List.mem_append.mp hx with hx | hx
          · have hine : Inert m w := inert_of_distinct (hcross x hx m List.mem_cons_self).symm
              (hgood x (by rw [hsplit]; exact List.mem_append_left _ hx)) hlx hwx
            have hine' : Inert m' w := by
              rcases hine with h | ⟨L, rfl, h⟩
              · exact absurd hpw h
              · right
                simp only [Member.setVar, Except.map] at hset
                split at hset
                · cases hset
                · rename_i L' hL'
                  cases hset
                  refine ⟨L', rfl, ?_⟩
                  unfold Loop.setVar at hL'
                  split at hL'
                  · cases hL'; exact h
                  · split at hL'
                    · cases hL'
                    · split at hL'
                      · cases hL'
                      · split at hL'
                        · cases hL'
                        · cases hL'; exact h
            rw [← getFromMembers_cons_hit hpw, ← getFromMembers_cons_hit (hpre.trans hpw),
              inert_get hine, inert_get hine']
          · rcases List.mem_cons.mp hx with rfl | hx
            · rw [hlm] at hlx; cases hlx
              rw [hframe w hwx hwv]
            · have hine : Inert m w := inert_of_distinct (hpp.1 x hx)
                (hgood x (by rw [hsplit]; simp [hx])) hlx hwx
              have hine' : Inert m' w := by
                rcases hine with h | ⟨L, rfl, h⟩
                · exact absurd hpw h
                · right
                  simp only [Member.setVar, Except.map] at hset
                  split at hset
                  · cases hset
                  · rename_i L' hL'
                    cases hset
                    refine ⟨L', rfl, ?_⟩
                    unfold Loop.setVar at hL'
                    split at hL'
                    · cases hL'; exact h
                    · split at hL'
                      · cases hL'
                      · split at hL'
                        · cases hL'
                        · split at hL'
                          · cases hL'
                          · cases hL'; exact h
              rw [← getFromMembers_cons_hit hpw, ← getFromMembers_cons_hit (hpre.trans hpw),
                inert_get hine, inert_get hine']
        · have : m'.prefixName ≠ w.prefixName := by rw [hpre]; exact hpw
          simp only [getFromMembers, hpw, this, if_false]
      | cons y ys ih => simp only [List.cons_append, getFromMembers, ih]
    exact key pre

/-- A cell and a loop with one refined parameter each, for the examples. -/
def cellRefined : Dict := fun k => if k = "length_a_refinement" then some (.bool true) else cell0 k

theorem cellRefined_flags : FlagsSet cellDesc cellRefined := by
  unfold FlagsSet; decide

theorem cell_good : GoodClass cellDesc where
  wf := cell_WF
  ref_names := by decide
  ref_float := by decide
  ref_free := by decide

example : ∃ l, (Data.mk "crystal" (some "phase1") [.item cellDesc cellRefined]).varNames = .ok l ∧
    ((("crystal", some "phase1"), ⟨"cell", none, "length_a", none⟩) : DName) ∈ l ∧
    lowerOpt (some "phase1") = some "phase1" ∧ (Member.item cellDesc cellRefined).Good := by
  refine ⟨[((("crystal", some "phase1"), ⟨"cell", none, "length_a", none⟩) : DName)],
    ?_, by simp, by decide, cell_good, cellRefined_flags⟩
  have h := variable_names_exact cellDesc cell_WF cellRefined cellRefined_flags
  have hf : cellDesc.ref.filter (Refined cellRefined) = ["length_a"] := by decide
  rw [hf] at h
  have h3 : lowerOpt (some "phase1") = some "phase1" := by decide
  simp only [Data.varNames, memberVars, Member.varNames, h, h3]
  rfl

/-- C04 fails for a loop whose name has a capital letter: the variable is listed and can be read under
the lower-case name, but setting it under that name silently does nothing. -/
theorem loop_set_variable_ignored (E : PyEnv) (form : Dict → Dict) :
    ∃ (L : Loop) (l : List VName) (n : VName), L.varNames = .ok l ∧ n ∈ l ∧
      L.getVar form n = .ok (.num 1) ∧
      L.setVar E n (.num 2) = .ok L := by
  refine ⟨⟨cellDesc, some "A", [cellRefined]⟩, [⟨"cell", some "a", "length_a", some 0⟩],
    ⟨"cell", some "a", "length_a", some 0⟩, ?_, by simp, ?_, ?_⟩
  · have h := variable_names_exact cellDesc cell_WF cellRefined cellRefined_flags
    have hf : cellDesc.ref.filter (Refined cellRefined) = ["length_a"] := by decide
    rw [hf] at h
    have h3 : lowerOpt (some "A") = some "a" := by decide
    simp only [Loop.varNames, loopVarsFrom, h, h3]
    rfl
  · have h1 : cellRefined "length_a" = some (.num 1) := by decide
    have h3 : lowerOpt (some "A") = some "a" := by decide
    have h4 : lowerOpt (some "a") = some "a" := by decide
    have h5 : cellDesc.prefixName = "cell" := rfl
    simp [Loop.getVar, h3, h4, h5, getattr_of_some h1, Except.map]
  · simp [Loop.setVar]

/-- C04, error branch: a wrong position is reported as `IndexError`, the loop is not extended. -/
theorem loop_set_variable_out_of_range (E : PyEnv) (L : Loop) (a : String) (i : Nat) (v : PyVal)
    (hi : L.items.length ≤ i) :
    L.setVar E ⟨L.cls.prefixName, L.name, a, some i⟩ v = .error .indexError := by
  simp [Loop.setVar, List.getElem?_eq_none hi]

/-- Assigning `loop.items` keeps exactly the values of the item class, in order. -/
theorem loop_items_filtered {α : Type} (isItem : α → Bool) (value : List α) :
    setLoopItems isItem value = value.filter isItem := by
  unfold setLoopItems
  split
  · rename_i h
    rw [List.filter_eq_self.mpr (fun a ha => List.all_eq_true.mp h a ha)]
  · rfl

/-- `loop[key]` returns the first item whose index attribute is the key. -/
theorem loop_getitem_first (attr : String) (L : Loop) (key : PyVal) (pos : Option Nat) (d : Dict)
    (h : L.getItem attr key pos = some d) (hex : ∃ e ∈ L.items, e attr = some key) :
    ∃ pre post, L.items = pre ++ d :: post ∧ d attr = some key ∧ ∀ e ∈ pre, e attr ≠ some key := by
  unfold Loop.getItem at h
  split at h
  · rename_i e he
    cases h
    obtain ⟨h1, pre, post, h2, h3⟩ := List.find?_eq_some_iff_append.mp he
    exact ⟨pre, post, h2, by simpa using h1, fun e he => by simpa using h3 e he⟩
  · rename_i he
    obtain ⟨e, he1, he2⟩ := hex
    have := List.find?_eq_none.mp he e he1
    simp [he2] at this

/-! ## C06 -/

/-- No two members have the same name. -/
def UniqueNames {α : Type} (l : List (Obj α)) : Prop := (l.map Obj.name).Nodup

/-- The first object of the list with the name, as the specification of "the object given". -/
def firstNamed {α : Type} (l : List (Obj α)) (n : String) : Option (Obj α) :=
  l.find? (fun o => n == o.name)

theorem filterMap_first_names {α : Type} (items : List (Obj α)) :
    ∀ (s : List String), (∀ x ∈ s, x ∈ items.map Obj.name) →
    (s.filterMap (fun n => items[(items.map Obj.name).idxOf n]?)).map Obj.name = s
  | [], _ => rfl
  | n :: s, h => by
    have hn := h n List.mem_cons_self
    have hlt := List.idxOf_lt_length_of_mem hn
    have hlt' : (items.map Obj.name).idxOf n < items.length := by simpa using hlt
    have hname : (items[(items.map Obj.name).idxOf n]).name = n := by
      have := List.getElem_idxOf hlt
      rw [List.getElem_map] at this
      exact this
    rw [List.filterMap_cons, List.getElem?_eq_getElem hlt']
    simp only [List.map_cons, hname,
      filterMap_first_names items s (fun x hx => h x (List.mem_cons_of_mem _ hx))]

theorem length_order_le {S : SetOrder} {l : List String} (h : (S.order l).length = l.length) : l.Nodup := by
  have hsub : l ⊆ S.order l := fun x hx => (S.mem l x).mpr hx
  have hsub2 : S.order l ⊆ l := fun x hx => (S.mem l x).mp hx
  have hp : (S.order l).Subperm l := List.Nodup.subperm (S.nodup l) hsub2
  exact (hp.perm_of_length_le h.ge).nodup_iff.mp (S.nodup l)

/-- The reduced argument list: names distinct, the same names, each the first object with its name. -/
theorem unique_spec {α : Type} (S : SetOrder) (items : List (Obj α)) :
    ∃ u, (if (S.order (items.map Obj.name)).length ≠ (items.map Obj.name).length
        then (S.order (items.map Obj.name)).filterMap (fun n => items[(items.map Obj.name).idxOf n]?)
        else items) = u ∧ UniqueNames u ∧ (∀ n, n ∈ u.map Obj.name ↔ n ∈ items.map Obj.name) ∧
      ∀ o ∈ u, firstNamed items o.name = some o := by
  refine ⟨_, rfl, ?_⟩
  split
  · have hnames := filterMap_first_names items (S.order (items.map Obj.name))
      (fun x hx => (S.mem _ x).mp hx)
    refine ⟨?_, ?_, ?_⟩
    · unfold UniqueNames; rw [hnames]; exact S.nodup _
    · intro n; rw [hnames]; exact S.mem _ n
    · intro o ho
      obtain ⟨n, hn, hon⟩ := List.mem_filterMap.mp ho
      have hmem := (S.mem _ n).mp hn
      have hlt := List.idxOf_lt_length_of_mem hmem
      have hlt' : (items.map Obj.name).idxOf n < items.length := by simpa using hlt
      rw [List.getElem?_eq_getElem hlt'] at hon
      cases hon
      have hname : (items[(items.map Obj.name).idxOf n]).name = n := by
        have := List.getElem_idxOf hlt
        rw [List.getElem_map] at this
        exact this
      unfold firstNamed
      rw [hname, List.find?_eq_some_iff_getElem]
      refine ⟨by simp [hname], _, hlt', rfl, ?_⟩
      intro j hj
      have hjl : j < items.length := hj.trans hlt'
      have := List.not_of_lt_findIdx (p := (· == n)) (xs := items.map Obj.name) (i := j)
        (by simpa [List.idxOf] using hj)
      simp only [List.getElem_map, beq_eq_false_iff_ne, ne_eq] at this
      simpa using fun h => this (by simp [h])
  · rename_i h
    have hnd := length_order_le (S := S) (not_not.mp h)
    refine ⟨hnd, fun n => Iff.rfl, ?_⟩
    intro o ho
    obtain ⟨i, hi, rfl⟩ := List.getElem_of_mem ho
    unfold firstNamed
    rw [List.find?_eq_some_iff_getElem]
    refine ⟨by simp, i, hi, rfl, ?_⟩
    intro j hj
    simp only [beq_eq_false_iff_ne, ne_eq, Bool.not_eq_eq_eq_not, Bool.not_true]
    intro heq
    have hjl := hj.trans hi
    have := (List.Nodup.getElem_inj_iff hnd (i := i) (j := j) (hi := by simpa using hi)
      (hj := by simpa using hjl)).mp (by simpa using heq)
    omega

/-- C06: one `add_items` call.  Afterwards names are unique; under a name of the argument one finds
the first object given under that name (nothing, if the container does not accept its class); under
any other name one finds what was there before; members with other names keep their order and
come first. -/
theorem add_items_spec {α : Type} (S : SetOrder) (self items : List (Obj α)) (hself : UniqueNames self) :
    UniqueNames (addItems S self items) ∧
    (∀ n ∈ items.map Obj.name, firstNamed (addItems S self items) n =
      (firstNamed items n).filter Obj.accepted) ∧
    (∀ n, n ∉ items.map Obj.name → firstNamed (addItems S self items) n = firstNamed self n) ∧
    (∃ new, addItems S self items =
      self.filter (fun o => decide (o.name ∉ items.map Obj.name)) ++ new) := by
  obtain ⟨u, hu, hun, hum, huf⟩ := unique_spec S items
  have hfilt : self.filter (fun o => !((S.order (items.map Obj.name)).contains o.name)) =
      self.filter (fun o => decide (o.name ∉ items.map Obj.name)) := by
    apply List.filter_congr
    intro o _
    have := S.mem (items.map Obj.name) o.name
    by_cases h : o.name ∈ items.map Obj.name
    · simp [h, this.mpr h]
    · have h2 : o.name ∉ S.order (items.map Obj.name) := fun hh => h (this.mp hh)
      simp [h, h2]
  have hadd : addItems S self items =
      self.filter (fun o => decide (o.name ∉ items.map Obj.name)) ++ u.filter Obj.accepted := by
    unfold addItems
    simp only [hu, hfilt]
  have hnm : ∀ x ∈ u.filter Obj.accepted, x.name ∈ items.map Obj.name := fun x hx =>
    (hum _).mp (List.mem_map_of_mem (List.mem_filter.mp hx).1)
  refine ⟨?_, ?_, ?_, ⟨_, hadd⟩⟩
  · rw [hadd]
    unfold UniqueNames
    rw [List.map_append, List.nodup_append]
    refine ⟨?_, ?_, ?_⟩
    · exact hself.sublist (List.Sublist.map _ List.filter_sublist)
    · exact hun.sublist (List.Sublist.map _ List.filter_sublist)
    · intro a ha b hb hab
      obtain ⟨x, hx, rfl⟩ := List.mem_map.mp ha
      obtain ⟨y, hy, rfl⟩ := List.mem_map.mp hb
      have h1 : x.name ∉ items.map Obj.name := by simpa using (List.mem_filter.mp hx).2
      exact h1 (hab ▸ hnm y hy)
  · intro n hn
    rw [hadd]
    unfold firstNamed
    rw [List.find?_append]
    have hleft : List.find? (fun o : Obj α => n == o.name)
        (self.filter (fun o => decide (o.name ∉ items.map Obj.name))) = none := by
      rw [List.find?_eq_none]
      intro x hx hxn
      have h1 : x.name ∉ items.map Obj.name := by simpa using (List.mem_filter.mp hx).2
      simp only [beq_iff_eq] at hxn
      exact h1 (hxn ▸ hn)
    rw [hleft, Option.none_or]
    obtain ⟨o, ho, hon⟩ := List.mem_map.mp ((hum n).mpr hn)
    have hfirst := huf o ho
    rw [hon] at hfirst
    unfold firstNamed at hfirst
    rw [hfirst]
    have huniq : ∀ x ∈ u, x.name = n → x = o := by
      intro x hx hxn
      have := huf x hx
      unfold firstNamed at this
      rw [hxn, hfirst] at this
      exact (Option.some.inj this).symm
    by_cases hacc : o.accepted = true
    · rw [Option.filter_some, if_pos hacc]
      have hsome : (List.find? (fun o : Obj α => n == o.name) (u.filter Obj.accepted)).isSome := by
        rw [List.find?_isSome]
        exact ⟨o, List.mem_filter.mpr ⟨ho, hacc⟩, by simp [hon]⟩
      obtain ⟨x, hx⟩ := Option.isSome_iff_exists.mp hsome
      rw [hx]
      have hxm := List.mem_of_find?_eq_some hx
      have hxn := List.find?_some hx
      rw [huniq x (List.mem_filter.mp hxm).1 (by simpa using (eq_of_beq hxn).symm)]
    · rw [Option.filter_some, if_neg hacc, List.find?_eq_none]
      intro x hx hxn
      have hxo := huniq x (List.mem_filter.mp hx).1 (by simpa using (eq_of_beq hxn).symm)
      rw [hxo] at hx
      exact hacc (List.mem_filter.mp hx).2
  · intro n hn
    rw [hadd]
    unfold firstNamed
    rw [List.find?_append]
    have hright : List.find? (fun o : Obj α => n == o.name) (u.filter Obj.accepted) = none := by
      rw [List.find?_eq_none]
      intro x hx hxn
      exact hn ((eq_of_beq hxn) ▸ hnm x hx)
    rw [hright, Option.or_none, List.find?_filter]
    congr 1
    funext o
    by_cases ho : n = o.name
    · subst ho
      simp only [BEq.rfl]
      simpa using hn
    · simp [ho]

/-- C06: in every history of `add_items` calls on an empty container names stay unique. -/
theorem names_unique_in_every_history {α : Type} (S : SetOrder) (calls : List (List (Obj α))) :
    UniqueNames (calls.foldl (addItems S) []) := by
  suffices h : ∀ (self : List (Obj α)), UniqueNames self → UniqueNames (calls.foldl (addItems S) self) from
    h [] List.nodup_nil
  induction calls with
  | nil => exact fun self h => h
  | cons c cs ih => exact fun self h => ih _ (add_items_spec S self c h).1

/-- The order of first occurrence is one possible iteration order of a set. -/
def dedupOrder : SetOrder where
  order := List.dedup
  nodup := List.nodup_dedup
  mem := fun _ _ => List.mem_dedup

example : UniqueNames [(⟨"cell", true, 1⟩ : Obj Nat), ⟨"atom", true, 2⟩] := by
  simp [UniqueNames]

/-- C06, assignment `data.name = obj` under the object's own name: the object replaces the one with
that name, the others stay in order, names remain unique. -/
theorem assign_under_own_name {α : Type} (self : List (Obj α)) (o : Obj α)
    (hself : UniqueNames self) :
    ∃ r, assignObj self o.name o = .ok r ∧ UniqueNames r ∧ firstNamed r o.name = some o ∧
      (∀ n, n ≠ o.name → firstNamed r n = firstNamed self n) := by
  by_cases hm : o.name ∈ self.map Obj.name
  · have herase : self.eraseIdx ((self.map Obj.name).idxOf o.name) =
        self.filter (fun x => decide (x.name ≠ o.name)) := by
      clear hm
      induction self with
      | nil => rfl
      | cons x xs ih =>
        unfold UniqueNames at hself
        rw [List.map_cons, List.nodup_cons] at hself
        by_cases hx : x.name = o.name
        · rw [List.map_cons, List.idxOf_cons, hx]
          simp only [BEq.rfl, cond_true, List.eraseIdx_zero, List.tail_cons, List.filter_cons, hx,
            ne_eq, not_true, decide_false, Bool.false_eq_true, if_false]
          symm
          rw [List.filter_eq_self]
          intro y hy
          simp only [decide_eq_true_eq]
          intro hyo
          exact hself.1 (hx.trans hyo.symm ▸ List.mem_map_of_mem hy)
        · have hb : (x.name == o.name) = false := by simpa using hx
          rw [List.map_cons, List.idxOf_cons, hb, List.filter_cons]
          simp only [cond_false, List.eraseIdx_cons_succ, ih hself.2, ne_eq, hx, not_false_eq_true,
            decide_true, if_true]
    refine ⟨self.filter (fun x => decide (x.name ≠ o.name)) ++ [o], ?_, ?_, ?_, ?_⟩
    · simp only [assignObj, hm, if_true, herase]
    · unfold UniqueNames
      rw [List.map_append, List.nodup_append]
      refine ⟨hself.sublist (List.Sublist.map _ List.filter_sublist), by simp, ?_⟩
      intro a ha b hb hab
      obtain ⟨x, hx, rfl⟩ := List.mem_map.mp ha
      simp only [List.map_cons, List.map_nil, List.mem_singleton] at hb
      have := (List.mem_filter.mp hx).2
      simp [hab, hb] at this
    · unfold firstNamed
      rw [List.find?_append]
      have : List.find? (fun x : Obj α => o.name == x.name)
          (self.filter (fun x => decide (x.name ≠ o.name))) = none := by
        rw [List.find?_eq_none]
        intro x hx hxn
        have := (List.mem_filter.mp hx).2
        simp [← eq_of_beq hxn] at this
      rw [this]; simp
    · intro n hn
      unfold firstNamed
      rw [List.find?_append, List.find?_filter]
      have hne : (n == o.name) = false := by simpa using hn
      simp only [List.find?_cons, hne, List.find?_nil, Option.or_none]
      congr 1
      funext x
      by_cases hx : n = x.name
      · subst hx; simp [hn]
      · simp [hx]
  · refine ⟨self ++ [o], by simp [assignObj, hm], ?_, ?_, ?_⟩
    · unfold UniqueNames
      rw [List.map_append, List.nodup_append]
      refine ⟨hself, by simp, ?_⟩
      intro a ha b hb hab
      simp only [List.map_cons, List.map_nil, List.mem_singleton] at hb
      exact hm (hb ▸ hab ▸ ha)
    · unfold firstNamed
      rw [List.find?_append]
      have : List.find? (fun x : Obj α => o.name == x.name) self = none := by
        rw [List.find?_eq_none]
        intro x hx hxn
        exact hm ((eq_of_beq hxn) ▸ List.mem_map_of_mem hx)
      rw [this]; simp
    · intro n hn
      unfold firstNamed
      rw [List.find?_append]
      have hne : (n == o.name) = false := by simpa using hn
      simp [hne]

/-- C06 fails for `data.atom = new_cell` when both `atom` and `cell` are present: the unrelated
object is removed and two objects named `cell` remain. -/
theorem assign_under_other_name_breaks :
    ∃ (self r : List (Obj Nat)) (o : Obj Nat) (name : String), UniqueNames self ∧
      assignObj self name o = .ok r ∧ ¬ UniqueNames r ∧ firstNamed r name = none ∧
      firstNamed r o.name ≠ some o := by
  refine ⟨[⟨"cell", true, 1⟩, ⟨"atom", true, 2⟩], [⟨"cell", true, 1⟩, ⟨"cell", true, 3⟩],
    ⟨"cell", true, 3⟩, "atom", by simp [UniqueNames], ?_, by simp [UniqueNames], ?_, ?_⟩
  · rfl
  · rfl
  · intro h
    have h2 : firstNamed [(⟨"cell", true, 1⟩ : Obj Nat), ⟨"cell", true, 3⟩] "cell" =
      some ⟨"cell", true, 1⟩ := rfl
    rw [h2] at h
    simp at h

/-- Case-insensitive access: names that agree up to case find the same member. -/
theorem find_case_insensitive {α : Type} (self : List (Obj α)) (n m : String)
    (h : lower n = lower m) : findName self n = findName self m := by
  unfold findName; rw [h]

end Cryspy.Container
