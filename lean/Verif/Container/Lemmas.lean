import Verif.Container.Model
import Verif.Item.Props

namespace Cryspy.Container

open Cryspy.Item

/-- What every class of refinable items satisfies (see `cell_WF` and the examples of C04). -/
structure GoodClass (K : ClassDesc) : Prop where
  wf : K.WF
  ref_names : ∀ n ∈ K.ref, n ∈ K.names
  ref_float : ∀ n ∈ K.ref, K.types[K.names.idxOf n]? = some .float
  ref_free : ∀ n ∈ K.ref, K.dConstraints.lookup n = none

theorem loopVarsFrom_spec (K : ClassDesc) (hK : K.WF) (ln : Option String) :
    ∀ (ds : List Dict) (i : Nat), (∀ d ∈ ds, FlagsSet K d) →
    ∃ l, loopVarsFrom K ln i ds = .ok l ∧
      ∀ n, n ∈ l ↔ ∃ j d a, ds[j]? = some d ∧ a ∈ K.ref ∧ Refined d a = true ∧
        n = ⟨K.prefixName, ln, a, some (i + j)⟩
  | [], i, _ => ⟨[], rfl, by simp⟩
  | d :: ds, i, h => by
    obtain ⟨l1, h1, -, hl1⟩ := variable_listed_iff_flagged K hK d (h d List.mem_cons_self)
    obtain ⟨l2, h2, hl2⟩ := loopVarsFrom_spec K hK ln ds (i + 1)
      (fun x hx => h x (List.mem_cons_of_mem _ hx))
    refine ⟨l1.map (fun n => ⟨K.prefixName, ln, n.2, some i⟩) ++ l2, by simp [loopVarsFrom, h1, h2], ?_⟩
    intro n
    rw [List.mem_append, hl2, List.mem_map]
    constructor
    · rintro (⟨⟨p, a⟩, ha, rfl⟩ | ⟨j, d', a, hj, ha, hr, rfl⟩)
      · obtain ⟨-, ha1, ha2⟩ := (hl1 p a).mp ha
        exact ⟨0, d, a, rfl, ha1, ha2, rfl⟩
      · exact ⟨j + 1, d', a, by simpa using hj, ha, hr, by simp; omega⟩
    · rintro ⟨j, d', a, hj, ha, hr, rfl⟩
      cases j with
      | zero =>
        left
        simp only [List.getElem?_cons_zero, Option.some.injEq] at hj
        subst hj
        exact ⟨(K.prefixName, a), (hl1 _ _).mpr ⟨rfl, ha, hr⟩, by simp⟩
      | succ j =>
        right
        exact ⟨j, d', a, by simpa using hj, ha, hr, by simp; omega⟩

/-- A member is well-formed: a good class and all flags defined. -/
def Member.Good : Member → Prop
  | .item K d => GoodClass K ∧ FlagsSet K d
  | .loop L => GoodClass L.cls ∧ (∀ d ∈ L.items, FlagsSet L.cls d) ∧ lowerOpt L.name = L.name

/-- The declared bounds clamp for variable `n` in member `m`. -/
def Member.clamp (m : Member) (n : VName) (q : ℚ) : ℚ :=
  match m with
  | .item K _ => clampQ (K.dMin.lookup n.attr) (K.dMax.lookup n.attr) q
  | .loop L => clampQ (L.cls.dMin.lookup n.attr) (L.cls.dMax.lookup n.attr) q

theorem getattr_of_some {K form d n v} (h : d n = some v) : getattr K form d n = .ok (v, d) := by
  unfold getattr; rw [h]

theorem getattr_congr_names {K : ClassDesc} {form : Dict → Dict} {d d' : Dict} {n : String}
    (hn : n ∈ K.names) (h : d' n = d n) :
    (getattr K form d' n).map Prod.fst = (getattr K form d n).map Prod.fst := by
  unfold getattr
  rw [h]
  cases d n with
  | some v => rfl
  | none =>
    have : n ∈ K.names ++ K.sigma ++ K.intProtected := by simp [hn]
    simp only [this, if_true]

theorem member_names (m : Member) (hm : m.Good) :
    ∃ l, m.varNames = .ok l ∧ ∀ n ∈ l, n.prefixName = m.prefixName ∧
      (∀ K d, m = .item K d → n.loopName = none ∧ n.index = none ∧ n.attr ∈ K.ref) ∧
      (∀ L, m = .loop L → n.loopName = L.name ∧ ∃ i d, n.index = some i ∧ L.items[i]? = some d ∧
        n.attr ∈ L.cls.ref) := by
  cases m with
  | item K d =>
    obtain ⟨l, h, -, hl⟩ := variable_listed_iff_flagged K hm.1.wf d hm.2
    refine ⟨_, by rw [Member.varNames, h]; rfl, ?_⟩
    intro n hn
    obtain ⟨⟨p, a⟩, ha, rfl⟩ := List.mem_map.mp hn
    obtain ⟨hp, ha1, -⟩ := (hl p a).mp ha
    refine ⟨hp, ?_, by intro L h; cases h⟩
    rintro K' d' h; cases h; exact ⟨rfl, rfl, ha1⟩
  | loop L =>
    obtain ⟨l, h, hl⟩ := loopVarsFrom_spec L.cls hm.1.wf (lowerOpt L.name) L.items 0 hm.2.1
    refine ⟨l, h, ?_⟩
    intro n hn
    obtain ⟨j, d, a, hj, ha, -, rfl⟩ := (hl n).mp hn
    refine ⟨rfl, (fun K d h => by cases h), ?_⟩
    rintro L' h; cases h
    exact ⟨hm.2.2, j, d, by simp, hj, ha⟩

theorem item_write (E : PyEnv) {K : ClassDesc} (hK : GoodClass K) (d : Dict) {a : String} (ha : a ∈ K.ref)
    (q : ℚ) : ∃ d', setattr E K d a (.num q) = .ok d' ∧
      d' a = some (.num (clampQ (K.dMin.lookup a) (K.dMax.lookup a) q)) ∧
      ∀ x, x ≠ a → K.Declared x → d' x = d x := by
  obtain ⟨d', h, h2, -⟩ := write_number_reads_back E K d a q (hK.ref_names a ha) (hK.ref_float a ha)
  exact ⟨d', h, h2 (fun l hl => by rw [hK.ref_free a ha] at hl; cases hl),
    fun x hx hd => setattr_frame' h hx hd⟩

theorem member_set_get (E : PyEnv) (form : Dict → Dict) (m : Member) (hm : m.Good) (l : List VName)
    (hl : m.varNames = .ok l) (n : VName) (hn : n ∈ l) (q : ℚ) :
    ∃ m', m.setVar E n (.num q) = .ok m' ∧ m'.prefixName = m.prefixName ∧
      m'.getVar form n = .ok (.num (m.clamp n q)) ∧
      ∀ k ∈ l, k ≠ n → m'.getVar form k = m.getVar form k := by
  obtain ⟨l', hl', hprop⟩ := member_names m hm
  rw [hl] at hl'; cases hl'
  obtain ⟨hp, hitem, hloop⟩ := hprop n hn
  cases m with
  | item K d =>
    obtain ⟨h1, h2, h3⟩ := hitem K d rfl
    change n.prefixName = K.prefixName at hp
    obtain ⟨d', hd, hd1, hd2⟩ := item_write E hm.1 d h3 q
    refine ⟨.item K d', ?_, rfl, ?_, ?_⟩
    · simp [Member.setVar, hp, hd, Except.map]
    · simp [Member.getVar, hp, getattr_of_some hd1, Except.map, Member.clamp]
    · intro k hk hkn
      obtain ⟨kp, kitem, -⟩ := hprop k hk
      obtain ⟨k1, k2, k3⟩ := kitem K d rfl
      change k.prefixName = K.prefixName at kp
      simp only [Member.getVar, kp, ne_eq, not_true, if_false]
      apply getattr_congr_names (hm.1.ref_names _ k3)
      apply hd2 _ ?_ (Or.inl (hm.1.ref_names _ k3))
      intro hka
      apply hkn
      cases n; cases k; simp_all
  | loop L =>
    obtain ⟨h1, i, d, h2, h3, h4⟩ := hloop L rfl
    change n.prefixName = L.cls.prefixName at hp
    obtain ⟨d', hd, hd1, hd2⟩ := item_write E hm.1 d h4 q
    have hilt : i < L.items.length := by
      by_contra hc
      rw [List.getElem?_eq_none (not_lt.mp hc)] at h3; cases h3
    refine ⟨.loop { L with items := L.items.set i d' }, ?_, rfl, ?_, ?_⟩
    · simp [Member.setVar, Loop.setVar, hp, h1, h2, h3, hd, Except.map]
    · simp [Member.getVar, Loop.getVar, hp, h1, h2, hilt, getattr_of_some hd1, Except.map,
        Member.clamp]
    · intro k hk hkn
      obtain ⟨kp, -, kloop⟩ := hprop k hk
      obtain ⟨k1, j, e, k2, k3, k4⟩ := kloop L rfl
      change k.prefixName = L.cls.prefixName at kp
      simp only [Member.getVar, Loop.getVar, kp, k1, k2, ne_eq, not_true, if_false]
      by_cases hij : i = j
      · subst hij
        rw [h3] at k3; cases k3
        rw [List.getElem?_set_self hilt, h3]
        apply getattr_congr_names (hm.1.ref_names _ k4)
        apply hd2 _ ?_ (Or.inl (hm.1.ref_names _ k4))
        intro hka
        apply hkn
        cases n; cases k; simp_all
      · rw [List.getElem?_set_ne hij]

/-- Member `m` ignores variable names `n`. -/
def Inert (m : Member) (n : VName) : Prop :=
  m.prefixName ≠ n.prefixName ∨ ∃ L, m = .loop L ∧ lowerOpt L.name ≠ lowerOpt n.loopName

theorem inert_set {E m n v} (h : Inert m n) :
    (if m.prefixName = n.prefixName then m.setVar E n v else .ok m) = .ok m := by
  rcases h with h | ⟨L, rfl, h⟩
  · simp [h]
  · split
    · have : n.loopName ≠ L.name := fun hh => h (by rw [hh])
      simp [Member.setVar, Loop.setVar, this, Except.map]
    · rfl

theorem inert_get {form m n ms} (h : Inert m n) :
    getFromMembers form n (m :: ms) = getFromMembers form n ms := by
  rcases h with h | ⟨L, rfl, h⟩
  · simp [getFromMembers, h]
  · have : lowerOpt n.loopName ≠ lowerOpt L.name := fun hh => h hh.symm
    simp [getFromMembers, Member.getVar, Loop.getVar, this]

theorem inert_get_append {form n} : ∀ (pre : List Member) (ms), (∀ m ∈ pre, Inert m n) →
    getFromMembers form n (pre ++ ms) = getFromMembers form n ms
  | [], _, _ => rfl
  | m :: pre, ms, h => by
    rw [List.cons_append, inert_get (h m List.mem_cons_self)]
    exact inert_get_append pre ms (fun x hx => h x (List.mem_cons_of_mem _ hx))

theorem inert_set_all {E n v} : ∀ (ms : List Member), (∀ m ∈ ms, Inert m n) →
    setInMembers E n v ms = .ok ms
  | [], _ => rfl
  | m :: ms, h => by
    rw [setInMembers, inert_set (h m List.mem_cons_self)]
    simp only [inert_set_all ms (fun x hx => h x (List.mem_cons_of_mem _ hx))]

theorem set_split {E n v m m'} (hp : m.prefixName = n.prefixName) (hs : m.setVar E n v = .ok m') :
    ∀ (pre post : List Member), (∀ x ∈ pre, Inert x n) → (∀ x ∈ post, Inert x n) →
    setInMembers E n v (pre ++ m :: post) = .ok (pre ++ m' :: post)
  | [], post, _, h2 => by
    simp [setInMembers, hp, hs, inert_set_all post h2]
  | x :: pre, post, h1, h2 => by
    rw [List.cons_append, setInMembers, inert_set (h1 x List.mem_cons_self)]
    simp only [set_split hp hs pre post (fun y hy => h1 y (List.mem_cons_of_mem _ hy)) h2,
      List.cons_append]

/-- Two members answer to different names: different prefixes, or two loops with different names. -/
def Distinct (m1 m2 : Member) : Prop :=
  m1.prefixName ≠ m2.prefixName ∨
    ∃ L1 L2, m1 = .loop L1 ∧ m2 = .loop L2 ∧ lowerOpt L1.name ≠ lowerOpt L2.name

theorem Distinct.symm {m1 m2} (h : Distinct m1 m2) : Distinct m2 m1 := by
  rcases h with h | ⟨L1, L2, rfl, rfl, h⟩
  · exact Or.inl h.symm
  · exact Or.inr ⟨L2, L1, rfl, rfl, h.symm⟩

theorem inert_of_distinct {m1 m2 l n} (h : Distinct m1 m2) (hm : m2.Good) (hl : m2.varNames = .ok l)
    (hn : n ∈ l) : Inert m1 n := by
  obtain ⟨l', hl', hprop⟩ := member_names m2 hm
  rw [hl] at hl'; cases hl'
  obtain ⟨hp, -, hloop⟩ := hprop n hn
  rcases h with h | ⟨L1, L2, rfl, rfl, h⟩
  · left; rw [hp]; exact h
  · right
    obtain ⟨h1, -⟩ := hloop L2 rfl
    exact ⟨L1, rfl, by rw [h1]; exact h⟩

theorem memberVars_spec : ∀ (ms : List Member), (∀ m ∈ ms, m.Good) →
    ∃ l, memberVars ms = .ok l ∧ ∀ n, n ∈ l ↔ ∃ m ∈ ms, ∃ lm, m.varNames = .ok lm ∧ n ∈ lm
  | [], _ => ⟨[], rfl, by simp⟩
  | m :: ms, h => by
    obtain ⟨lm, hlm, -⟩ := member_names m (h m List.mem_cons_self)
    obtain ⟨l, hl, hspec⟩ := memberVars_spec ms (fun x hx => h x (List.mem_cons_of_mem _ hx))
    refine ⟨lm ++ l, by simp [memberVars, hlm, hl], fun n => ?_⟩
    rw [List.mem_append, hspec]
    constructor
    · rintro (h1 | ⟨x, hx, lx, h1, h2⟩)
      · exact ⟨m, List.mem_cons_self, lm, hlm, h1⟩
      · exact ⟨x, List.mem_cons_of_mem _ hx, lx, h1, h2⟩
    · rintro ⟨x, hx, lx, h1, h2⟩
      rcases List.mem_cons.mp hx with rfl | hx
      · rw [hlm] at h1; cases h1; exact Or.inl h2
      · exact Or.inr ⟨x, hx, lx, h1, h2⟩

theorem getFromMembers_cons_hit {form n m ms} (hp : m.prefixName = n.prefixName) :
    getFromMembers form n (m :: ms) = match m.getVar form n with
      | .error e => .error e
      | .ok .none => getFromMembers form n ms
      | .ok v => .ok v := by
  rw [getFromMembers, if_pos hp]
  cases m.getVar form n with
  | error e => rfl
  | ok v => cases v <;> rfl

end Cryspy.Container
