import Verif.Cif.Model

/-!
# Lemmas about reading attributes
-/

namespace Cryspy.Cif

open Item

/-- What the class tables of the library have in common (cl_1_cell.py:34-99): names do not clash, every attribute has a name in
files, and these are different. -/
structure CifClass.WF (C : CifClass) : Prop where
  base : C.K.WF
  sigma_eq : C.K.sigma = C.K.ref.map (· ++ "_sigma")
  mark_eq : C.K.constrMark = C.K.ref.map (· ++ "_mark")
  ref_names : ∀ n ∈ C.K.ref, n ∈ C.K.names
  names_nodup : C.K.names.Nodup
  companion : ∀ n ∈ C.K.ref, n ++ "_sigma" ∉ C.K.names ∧ n ++ "_mark" ∉ C.K.names
  mand_len : C.mandCif.length = C.K.mandatory.length
  opt_len : C.optCif.length = C.K.optional.length
  cif_ne : ∀ c ∈ C.cif, c ≠ ""
  cif_distinct : (C.cif.map lower).Nodup

/-- The entries of an object that belong to an attribute: its value and, for a parameter that can be refined, its error, flag and
mark. -/
def entries (K : ClassDesc) (n : String) : List String :=
  if n ∈ K.ref then [n, n ++ "_sigma", n ++ "_refinement", n ++ "_mark"] else [n]

theorem self_mem_entries (K : ClassDesc) (n : String) : n ∈ entries K n := by unfold entries; split <;> simp

theorem append_inj_right {m n s : String} (h : m ++ s = n ++ s) : m = n := by
  apply String.toList_inj.1
  have := congrArg String.toList h
  rw [String.toList_append, String.toList_append] at this
  exact List.append_cancel_right this

theorem suffix_ne {m n s t : String} (h : s.toList.getLast? ≠ t.toList.getLast?) (hs : s ≠ "") (ht : t ≠ "") :
    m ++ s ≠ n ++ t := by
  intro e
  apply h
  have := congrArg (fun x : String => x.toList.getLast?) e
  simp only [String.toList_append] at this
  have hs' : s.toList ≠ [] := fun h => hs (String.toList_inj.1 h)
  have ht' : t.toList ≠ [] := fun h => ht (String.toList_inj.1 h)
  rwa [List.getLast?_append_of_ne_nil _ hs', List.getLast?_append_of_ne_nil _ ht'] at this

variable {C : CifClass} {T : TextEnv}

theorem CifClass.WF.declared (w : C.WF) {n x : String} (hn : n ∈ C.K.names) (hx : x ∈ entries C.K n) : C.K.Declared x := by
  unfold entries at hx
  split at hx
  · rename_i hr
    simp only [List.mem_cons, List.not_mem_nil, or_false] at hx
    rcases hx with rfl | rfl | rfl | rfl
    · exact Or.inl hn
    · right; left; rw [w.sigma_eq]; exact List.mem_map_of_mem hr
    · right; right; right; left; rw [w.base.refFlag_eq]; exact List.mem_map_of_mem hr
    · right; right; right; right; left; rw [w.mark_eq]; exact List.mem_map_of_mem hr
  · simp only [List.mem_singleton] at hx; subst hx; exact Or.inl hn

theorem CifClass.WF.disjoint (w : C.WF) {n m : String} (hn : n ∈ C.K.names) (hm : m ∈ C.K.names) (h : n ≠ m) {x : String}
    (hx : x ∈ entries C.K n) : x ∉ entries C.K m := by
  have hflag : ∀ k ∈ C.K.ref, k ++ "_refinement" ∉ C.K.names := fun k hk =>
    (w.base.flag_not_name _ (by rw [w.base.refFlag_eq]; exact List.mem_map_of_mem hk)).1
  have s1 : ∀ a b : String, a ++ "_sigma" ≠ b ++ "_refinement" := fun a b => suffix_ne (by decide) (by decide) (by decide)
  have s2 : ∀ a b : String, a ++ "_sigma" ≠ b ++ "_mark" := fun a b => suffix_ne (by decide) (by decide) (by decide)
  have s3 : ∀ a b : String, a ++ "_refinement" ≠ b ++ "_mark" := fun a b => suffix_ne (by decide) (by decide) (by decide)
  intro hy
  unfold entries at hx hy
  have key : ∀ {a b : String}, a ∈ C.K.names → a ≠ b → a ∉ entries C.K b := by
    intro a b ha hab hmem
    unfold entries at hmem
    split at hmem
    · rename_i hr
      simp only [List.mem_cons, List.not_mem_nil, or_false] at hmem
      rcases hmem with rfl | rfl | rfl | rfl
      · exact hab rfl
      · exact (w.companion b hr).1 ha
      · exact hflag b hr ha
      · exact (w.companion b hr).2 ha
    · simp only [List.mem_singleton] at hmem; exact hab hmem
  by_cases hxn : x = n
  · subst hxn; exact key hn h (by unfold entries; exact hy)
  by_cases hxm : x = m
  · subst hxm; exact key hm (Ne.symm h) (by unfold entries; exact hx)
  split at hx
  · split at hy
    · simp only [List.mem_cons, List.not_mem_nil, or_false, hxn, hxm, false_or] at hx hy
      rcases hx with rfl | rfl | rfl <;> rcases hy with hy | hy | hy
      · exact h (append_inj_right hy)
      · exact s1 _ _ hy
      · exact s2 _ _ hy
      · exact s1 _ _ hy.symm
      · exact h (append_inj_right hy)
      · exact s3 _ _ hy
      · exact s2 _ _ hy.symm
      · exact s3 _ _ hy.symm
      · exact h (append_inj_right hy)
    · simp only [List.mem_singleton] at hy; exact hxm hy
  · simp only [List.mem_singleton] at hx; exact hxn hx

/-- A write depends on the object only through the entry that is written. -/
theorem setattr_local {E : PyEnv} {K : ClassDesc} {d₁ d₂ e₁ : Dict} {n : String} {v : PyVal} (hd : d₁ n = d₂ n)
    (h : setattr E K d₁ n v = .ok e₁) : ∃ e₂, setattr E K d₂ n v = .ok e₂ ∧ e₂ n = e₁ n := by
  unfold setattr at h ⊢
  by_cases hv : isNoneLike v = true
  · simp only [hv, if_true] at h ⊢
    cases h
    exact ⟨_, rfl, by rw [Dict.set_self, Dict.set_self]⟩
  · simp only [hv, if_false, Bool.false_eq_true] at h ⊢
    by_cases hn : n ∈ K.names
    · simp only [hn, if_true] at h ⊢
      split at h
      · cases h
      · rename_i ty hty
        split at h
        · cases h
        · rename_i v0 hc
          split at h
          · cases h
          · rename_i v1 h1
            split at h
            · cases h
            · rename_i v2 h2
              split at h
              · rename_i hal
                cases h; exact ⟨_, if_pos hal, by rw [Dict.set_self, Dict.set_self]⟩
              · rename_i hal
                cases h
                exact ⟨_, if_neg hal, by rw [deleteInternal_declared (Or.inl hn), deleteInternal_declared (Or.inl hn), hd]⟩
    · simp only [hn, if_false] at h ⊢
      split at h
      · rename_i hs
        split at h
        · cases h
        · cases h; simp only [*, if_true]; exact ⟨_, rfl, by rw [Dict.set_self, Dict.set_self]⟩
      · rename_i hs
        split at h
        · rename_i hf
          cases h; simp only [hs, hf, if_true, if_false]; exact ⟨_, rfl, by rw [Dict.set_self, Dict.set_self]⟩
        · rename_i hf
          split at h
          · rename_i hm
            cases h; simp only [hs, hf, hm, if_true, if_false]; exact ⟨_, rfl, by rw [Dict.set_self, Dict.set_self]⟩
          · rename_i hm
            cases h; simp only [hs, hf, hm, if_false]; exact ⟨_, rfl, by rw [Dict.set_self, Dict.set_self]⟩

/-- The objects have the same entries `l`. -/
def Agree (l : List String) (d₁ d₂ : Dict) : Prop := ∀ x ∈ l, d₁ x = d₂ x

theorem setattr_agree {E : PyEnv} {K : ClassDesc} {l : List String} (hl : ∀ x ∈ l, K.Declared x) {d₁ d₂ e₁ : Dict} {n : String}
    {v : PyVal} (hn : n ∈ l) (ha : Agree l d₁ d₂) (h : setattr E K d₁ n v = .ok e₁) :
    ∃ e₂, setattr E K d₂ n v = .ok e₂ ∧ Agree l e₁ e₂ := by
  obtain ⟨e₂, h2, h3⟩ := setattr_local (ha n hn) h
  refine ⟨e₂, h2, fun x hx => ?_⟩
  by_cases hxn : x = n
  · subst hxn; exact h3.symm
  · rw [setattr_frame' h hxn (hl x hx), setattr_frame' h2 hxn (hl x hx)]; exact ha x hx

theorem readAttr_agree (w : C.WF) {n s : String} (hn : n ∈ C.K.names) {d₁ d₂ e₁ : Dict} (ha : Agree (entries C.K n) d₁ d₂)
    (h : readAttr T C.K d₁ n s = .ok e₁) : ∃ e₂, readAttr T C.K d₂ n s = .ok e₂ ∧ Agree (entries C.K n) e₁ e₂ := by
  have hl : ∀ x ∈ entries C.K n, C.K.Declared x := fun x hx => w.declared hn hx
  unfold readAttr at h ⊢
  by_cases hr : n ∈ C.K.ref
  · have m1 : n ∈ entries C.K n := self_mem_entries _ _
    have m2 : n ++ "_sigma" ∈ entries C.K n := by unfold entries; simp [hr]
    have m3 : n ++ "_refinement" ∈ entries C.K n := by unfold entries; simp [hr]
    have m4 : n ++ "_mark" ∈ entries C.K n := by unfold entries; simp [hr]
    simp only [hr, if_true] at h ⊢
    split at h
    · cases h
    · rename_i v e m hv
      split at h
      · cases h
      · rename_i d1 h1
        obtain ⟨d1', h1', a1⟩ := setattr_agree hl m1 ha h1
        simp only [h1']
        split at h
        · exact setattr_agree hl m3 a1 h
        · split at h
          · cases h
          · rename_i d2 h2
            obtain ⟨d2', h2', a2⟩ := setattr_agree hl m2 a1 h2
            simp only [h2']
            split at h
            · cases h
            · rename_i d3 h3
              obtain ⟨d3', h3', a3⟩ := setattr_agree hl m3 a2 h3
              simp only [h3']
              exact setattr_agree hl m4 a3 h
  · simp only [hr, if_false] at h ⊢
    exact setattr_agree hl (self_mem_entries _ _) ha h

theorem readAttr_frame {n s : String} {d e : Dict} (h : readAttr T C.K d n s = .ok e) {x : String}
    (hx : C.K.Declared x) (hxn : x ∉ entries C.K n) : e x = d x := by
  unfold readAttr at h
  unfold entries at hxn
  by_cases hr : n ∈ C.K.ref
  · simp only [hr, if_true, List.mem_cons, List.not_mem_nil, or_false, not_or] at h hxn
    obtain ⟨x1, x2, x3, x4⟩ := hxn
    split at h
    · cases h
    · split at h
      · cases h
      · rename_i d1 h1
        split at h
        · rw [setattr_frame' h x3 hx, setattr_frame' h1 x1 hx]
        · split at h
          · cases h
          · rename_i d2 h2
            split at h
            · cases h
            · rename_i d3 h3
              rw [setattr_frame' h x4 hx, setattr_frame' h3 x3 hx, setattr_frame' h2 x2 hx, setattr_frame' h1 x1 hx]
  · simp only [hr, if_false, List.mem_singleton] at h hxn
    exact setattr_frame' h hxn hx

theorem foldlM_congr {α β : Type} {f g : β → α → Except Err β} (l : List α) (b : β) (h : ∀ a ∈ l, ∀ b, f b a = g b a) :
    l.foldlM f b = l.foldlM g b := by
  induction l generalizing b with
  | nil => rfl
  | cons a t ih =>
    rw [List.foldlM_cons, List.foldlM_cons, h a (by simp)]
    congr 1
    funext c
    exact ih c fun a' ha => h a' (by simp [ha])

/-- Several attributes are read, some of which may be missing. -/
def readAll (T : TextEnv) (K : ClassDesc) (d : Dict) (l : List (String × Option String)) : Except Err Dict :=
  l.foldlM (m := Except Err) (fun d p => match p.2 with
    | none => Except.ok d
    | some s => readAttr T K d p.1 s) d

theorem readAll_cons (K : ClassDesc) (d : Dict) (p : String × Option String) (l : List (String × Option String)) :
    readAll T K d (p :: l) = (match p.2 with
    | none => Except.ok d
    | some s => readAttr T K d p.1 s) >>= fun e => readAll T K e l := by
  unfold readAll
  rw [List.foldlM_cons]

/-- Reading attributes one after the other is reading each of them from a new object. -/
theorem readAll_spec (w : C.WF) (l : List (String × Option String)) (hl : ∀ p ∈ l, p.1 ∈ C.K.names) (hn : (l.map Prod.fst).Nodup)
    (d0 d : Dict) (hd : ∀ p ∈ l, Agree (entries C.K p.1) d0 d)
    (hok : ∀ p ∈ l, ∀ s, p.2 = some s → ∃ e, readAttr T C.K d0 p.1 s = .ok e) :
    ∃ d', readAll T C.K d l = .ok d' ∧
      (∀ p ∈ l, ∀ s, p.2 = some s → ∀ e, readAttr T C.K d0 p.1 s = .ok e → Agree (entries C.K p.1) e d') ∧
      ∀ x, C.K.Declared x → (∀ p ∈ l, ∀ s, p.2 = some s → x ∉ entries C.K p.1) → d' x = d x := by
  induction l generalizing d with
  | nil => exact ⟨d, rfl, by simp, fun x _ _ => rfl⟩
  | cons p l ih =>
    obtain ⟨n, o⟩ := p
    simp only [List.map_cons, List.nodup_cons] at hn
    have hne : ∀ q ∈ l, q.1 ≠ n := fun q hq h => hn.1 (h ▸ List.mem_map_of_mem hq)
    have hnn : n ∈ C.K.names := hl (n, o) (by simp)
    have hl' : ∀ q ∈ l, q.1 ∈ C.K.names := fun q hq => hl q (by simp [hq])
    have hok' : ∀ q ∈ l, ∀ s, q.2 = some s → ∃ e, readAttr T C.K d0 q.1 s = .ok e := fun q hq => hok q (by simp [hq])
    rw [readAll_cons]
    cases o with
    | none =>
      obtain ⟨d', h1, h2, h3⟩ := ih hl' hn.2 d (fun q hq => hd q (by simp [hq])) hok'
      refine ⟨d', h1, ?_, ?_⟩
      · intro q hq s hs
        rcases List.mem_cons.1 hq with rfl | hq
        · cases hs
        · exact h2 q hq s hs
      · intro x hx hxl
        exact h3 x hx fun q hq => hxl q (by simp [hq])
    | some s =>
      obtain ⟨e0, he0⟩ := hok (n, some s) (by simp) s rfl
      obtain ⟨e, he, hag⟩ := readAttr_agree w hnn (hd (n, some s) (by simp)) he0
      simp only at he he0
      simp only [he]
      obtain ⟨d', h1, h2, h3⟩ := ih hl' hn.2 e (by
        intro q hq x hx
        have hxd := w.declared (hl' q hq) hx
        rw [readAttr_frame he hxd (w.disjoint (hl' q hq) hnn (hne q hq) hx)]
        exact hd q (by simp [hq]) x hx) hok'
      refine ⟨d', h1, ?_, ?_⟩
      · intro q hq t ht f hf
        rcases List.mem_cons.1 hq with rfl | hq
        · cases ht
          simp only at hf
          rw [he0] at hf; cases hf
          intro x hx
          rw [hag x hx]
          exact (h3 x (w.declared hnn hx) fun q hq _ _ => w.disjoint hnn (hl' q hq) (Ne.symm (hne q hq)) hx).symm
        · exact h2 q hq t ht f hf
      · intro x hx hxl
        rw [h3 x hx fun q hq => hxl q (by simp [hq])]
        exact readAttr_frame he hx (hxl (n, some s) (by simp) s rfl)

end Cryspy.Cif
