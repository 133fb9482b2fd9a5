import Verif.Cif.Props

/-!
# C63, attribute by attribute
-/

namespace Cryspy.Cif

open Item

variable {C : CifClass} {T : TextEnv}

theorem Loaded.unique {form : Dict → Dict} {sep : String} {d d' d'' : Dict} (h : Loaded T C form sep d d')
    (h' : Loaded T C form sep d d'') : d' = d'' := by
  obtain ⟨r, h1, h2⟩ := h
  obtain ⟨r', h1', h2'⟩ := h'
  rw [h1] at h1'; cases h1'
  rw [h2] at h2'
  injection h2' with h2'
  exact Option.some.inj h2'

theorem saved_entry (w : C.WF) {form : Dict → Dict} (hf : KeepsAttributes C.K form) {sep : String} (hsep : sep = "_" ∨ sep = ".")
    {d d' : Dict} (hS : Saveable T C d) (hL : Loaded T C form sep d d') {n s : String} {v : PyVal} {e : Dict} (hn : n ∈ C.K.names)
    (hv : d n = some v) (hs : itemText T d n = some s) (he : readAttr T C.K C.init n s = .ok e) : Agree (entries C.K n) e d' := by
  obtain ⟨d'', h1, -, h3⟩ := load_spec w hf hsep hS
  cases hL.unique h1
  exact h3 n hn (by rw [hv]; simp) s e hs he

/-- C63: an object that can be saved is loaded again. -/
theorem saved_is_loaded (w : C.WF) {form : Dict → Dict} (hf : KeepsAttributes C.K form) {sep : String} (hsep : sep = "_" ∨ sep = ".")
    {d : Dict} (hS : Saveable T C d) : ∃ d', Loaded T C form sep d d' := by
  obtain ⟨d', h, -⟩ := load_spec w hf hsep hS
  exact ⟨d', h⟩

/-- C63: an attribute that was not set is not set after loading. -/
theorem saved_unset (w : C.WF) {form : Dict → Dict} (hf : KeepsAttributes C.K form) {sep : String} (hsep : sep = "_" ∨ sep = ".")
    {d d' : Dict} (hS : Saveable T C d) (hL : Loaded T C form sep d d') {n : String} (hn : n ∈ C.K.names) (hv : d n = none) :
    d' n = none := by
  obtain ⟨d'', h1, h2, -⟩ := load_spec w hf hsep hS
  cases hL.unique h1
  rw [← h2 n hn hv n (self_mem_entries _ _)]
  by_contra h
  exact hS.defaults n hn h hv

theorem readAttr_dot (w : C.WF) {n : String} (hn : n ∈ C.K.names) (d : Dict) :
    ∃ e, readAttr T C.K d n "." = .ok e ∧ e n = some .none ∧ (n ∈ C.K.ref → e (n ++ "_refinement") = some (.bool false)) ∧
      (n ∈ C.K.ref → e (n ++ "_sigma") = d (n ++ "_sigma")) := by
  have e1 : ∀ d, setattr T.toPyEnv C.K d n .none = .ok (d.set n .none) := fun d => by unfold setattr; rfl
  unfold readAttr
  by_cases hr : n ∈ C.K.ref
  · have hf : n ++ "_refinement" ∈ C.K.refFlag := by rw [w.base.refFlag_eq]; exact List.mem_map_of_mem hr
    have hff := w.base.flag_not_name _ hf
    have hne : n ≠ n ++ "_refinement" := fun h => hff.1 (h ▸ hn)
    have hse : n ++ "_sigma" ≠ n ++ "_refinement" := suffix_ne (by decide) (by decide) (by decide)
    have hsn : n ++ "_sigma" ≠ n := fun h => (w.companion n hr).1 (by rw [h]; exact hn)
    rw [if_pos hr, show Text.readValue T.fl ".".toList = some (none, none, []) from (Text.undefined_value T.fl T.repr []).1]
    dsimp only [optNum]
    rw [e1]
    dsimp only
    rw [setattr_flag hf hff.1 hff.2]
    refine ⟨_, rfl, ?_, fun _ => Dict.set_self _ _ _, fun _ => ?_⟩
    · rw [Dict.set_ne _ _ hne, Dict.set_self]
    · rw [Dict.set_ne _ _ hse, Dict.set_ne _ _ hsn]
  · rw [if_neg hr]
    exact ⟨_, by unfold setattr; rfl, Dict.set_self _ _ _, fun h => absurd h hr, fun h => absurd h hr⟩

/-- C63: an attribute that was `None` is `None` after loading. -/
theorem saved_none (w : C.WF) {form : Dict → Dict} (hf : KeepsAttributes C.K form) {sep : String} (hsep : sep = "_" ∨ sep = ".")
    (hstr : T.strOf .none = "None")
    {d d' : Dict} (hS : Saveable T C d) (hL : Loaded T C form sep d d') {n : String} (hn : n ∈ C.K.names) (hv : d n = some .none) :
    d' n = some .none := by
  have hs : itemText T d n = some "." := by
    unfold itemText asString
    rw [hv]
    dsimp only
    rw [hstr, if_neg (by decide)]
  obtain ⟨e, he, h1, -⟩ := readAttr_dot (T := T) w hn C.init
  rw [← saved_entry w hf hsep hS hL hn hv hs he n (self_mem_entries _ _), h1]

/-- The class does not move the value: it has no bounds, or is a number between them. -/
def InBounds (K : ClassDesc) (n : String) (v : PyVal) : Prop :=
  (K.dMin.lookup n = none ∧ K.dMax.lookup n = none) ∨
    ∃ q, v = .num q ∧ (∀ b, K.dMin.lookup n = some b → b ≤ q) ∧ ∀ b, K.dMax.lookup n = some b → q ≤ b

theorem clampQ_inBounds {lo hi : Option ℚ} {q : ℚ} (h1 : ∀ b, lo = some b → b ≤ q) (h2 : ∀ b, hi = some b → q ≤ b) :
    clampQ lo hi q = q := by
  unfold clampQ
  cases lo <;> cases hi <;> simp_all

/-- The text of the value is read as the value. -/
theorem setattr_text {K : ClassDesc} {d : Dict} {n s : String} {v : PyVal} {ty : PyType} (hn : n ∈ K.names)
    (hty : K.types[K.names.idxOf n]? = some ty) (hs : isNoneLike (.str s) = false) (hc : coerce T.toPyEnv ty (.str s) = some v)
    (hp : K.Permitted n v) (hb : InBounds K n v) :
    ∃ e, setattr T.toPyEnv K d n (.str s) = .ok e ∧ e n = some v := by
  have hcl : clampMin K n v = .ok v ∧ clampMax K n v = .ok v := by
    rcases hb with ⟨h1, h2⟩ | ⟨q, rfl, h1, h2⟩
    · unfold clampMin clampMax; rw [h1, h2]; exact ⟨rfl, rfl⟩
    · constructor
      · unfold clampMin
        cases hl : K.dMin.lookup n with
        | none => rfl
        | some b => simp only [ltBound, decide_eq_false (not_lt.2 (h1 b hl))]
      · unfold clampMax
        cases hl : K.dMax.lookup n with
        | none => rfl
        | some b => simp only [gtBound, decide_eq_false (not_lt.2 (h2 b hl))]
  unfold setattr
  simp only [hs, hn, hty, hc, hcl.1, hcl.2, allowed_iff.2 hp, if_true, Bool.false_eq_true, if_false]
  exact ⟨_, rfl, Dict.set_self _ _ _⟩

/-- C63 for attributes that cannot be refined: if the text of the value is read by Python as the value (with the type of the
attribute), the loaded object has the value. -/
theorem saved_plain (w : C.WF) {form : Dict → Dict} (hf : KeepsAttributes C.K form) {sep : String} (hsep : sep = "_" ∨ sep = ".")
    {d d' : Dict} (hS : Saveable T C d) (hL : Loaded T C form sep d d') {n s : String} {v : PyVal} {ty : PyType}
    (hn : n ∈ C.K.names) (hr : n ∉ C.K.ref) (hv : d n = some v) (hty : C.K.types[C.K.names.idxOf n]? = some ty)
    (ht : itemText T d n = some s) (hs : s ≠ "." ∧ s ≠ "?") (hc : coerce T.toPyEnv ty (.str s) = some v)
    (hp : C.K.Permitted n v) (hb : InBounds C.K n v) : d' n = some v := by
  obtain ⟨e, he, h1⟩ := setattr_text (T := T) (d := C.init) hn hty (by simp [isNoneLike, hs.1, hs.2]) hc hp hb
  have he' : readAttr T C.K C.init n s = .ok e := by unfold readAttr; rw [if_neg hr, he]
  rw [← saved_entry w hf hsep hS hL hn hv ht he' n (self_mem_entries _ _), h1]

/-- C63: texts are loaded as they were, also with spaces and several lines, unless they are `.` or `?`. -/
theorem saved_string (w : C.WF) {form : Dict → Dict} (hf : KeepsAttributes C.K form) {sep : String} (hsep : sep = "_" ∨ sep = ".")
    {d d' : Dict} (hS : Saveable T C d) (hL : Loaded T C form sep d d') {n s : String}
    (hn : n ∈ C.K.names) (hr : n ∉ C.K.ref) (hflag : d (n ++ "_refinement") = none) (hv : d n = some (.str s))
    (hty : C.K.types[C.K.names.idxOf n]? = some .str) (hstr : T.strOf (.str s) = s) (hfmt : T.format n (.str s) = s)
    (hs : s ≠ "." ∧ s ≠ "?") (hp : C.K.Permitted n (.str s))
    (hb : C.K.dMin.lookup n = none ∧ C.K.dMax.lookup n = none) : d' n = some (.str s) := by
  have ht : itemText T d n = some s := by
    unfold itemText asString
    rw [hv]
    dsimp only
    rw [hstr, hfmt, hflag]
    split <;> rfl
  exact saved_plain w hf hsep hS hL hn hr hv hty ht hs rfl hp (Or.inl hb)

/-- C63 fails: the texts `.` and `?` are loaded as `None`.  (They can be stored only through `__dict__`: writing the attribute
already stores `None`, C01.) -/
theorem dots_become_none {n : String} (hr : n ∉ C.K.ref) (s : String) (hs : s = "." ∨ s = "?") :
    ∃ e, readAttr T C.K C.init n s = .ok e ∧ e n = some .none := by
  unfold readAttr
  rw [if_neg hr]
  rcases hs with rfl | rfl <;> exact ⟨_, by unfold setattr; rfl, Dict.set_self _ _ _⟩

theorem readAttr_number (w : C.WF) {n s : String} {q : ℚ} {m : Text.Str} (hn : n ∈ C.K.names) (hr : n ∈ C.K.ref)
    (hty : C.K.types[C.K.names.idxOf n]? = some .float) (hp : ∀ q, C.K.Permitted n (.num q)) (d : Dict)
    (hs : Text.readValue T.fl s.toList = some (some q, none, m)) :
    ∃ e, readAttr T C.K d n s = .ok e ∧
      e n = some (.num (clampQ (C.K.dMin.lookup n) (C.K.dMax.lookup n) q)) ∧
      e (n ++ "_sigma") = d (n ++ "_sigma") ∧ e (n ++ "_refinement") = some (.bool false) ∧ e (n ++ "_mark") = d (n ++ "_mark") := by
  have hf : n ++ "_refinement" ∈ C.K.refFlag := by rw [w.base.refFlag_eq]; exact List.mem_map_of_mem hr
  have hff := w.base.flag_not_name _ hf
  have hne : n ≠ n ++ "_refinement" := fun h => hff.1 (h ▸ hn)
  have hsn : n ++ "_sigma" ≠ n := fun h => (w.companion n hr).1 (by rw [h]; exact hn)
  have hmn : n ++ "_mark" ≠ n := fun h => (w.companion n hr).2 (by rw [h]; exact hn)
  have mem : ∀ x ∈ [n ++ "_sigma", n ++ "_refinement", n ++ "_mark"], C.K.Declared x := by
    intro x hx
    apply w.declared hn
    unfold entries; rw [if_pos hr]
    exact List.mem_cons_of_mem _ hx
  obtain ⟨d1, h1, h2, -⟩ := write_number_reads_back T.toPyEnv C.K d n q hn hty
  unfold readAttr
  rw [if_pos hr, hs]
  simp only [optNum, h1]
  rw [setattr_flag hf hff.1 hff.2]
  refine ⟨_, rfl, ?_, ?_, Dict.set_self _ _ _, ?_⟩
  · rw [Dict.set_ne _ _ hne, h2 (hp q)]
  · rw [Dict.set_ne _ _ (suffix_ne (by decide) (by decide) (by decide)), setattr_frame' h1 hsn (mem _ (by simp))]
  · rw [Dict.set_ne _ _ (suffix_ne (by decide) (by decide) (by decide)), setattr_frame' h1 hmn (mem _ (by simp))]

/-- C63 for a parameter that is not refined: it is loaded as the number its text denotes (moved into the bounds of the class), not
refined.  Its error and mark are not saved: they are those of a new object. -/
theorem saved_fixed (w : C.WF) {form : Dict → Dict} (hf : KeepsAttributes C.K form) {sep : String} (hsep : sep = "_" ∨ sep = ".")
    {d d' : Dict} (hS : Saveable T C d) (hL : Loaded T C form sep d d') {n : String} {v q : ℚ} {m : Text.Str}
    (hn : n ∈ C.K.names) (hr : n ∈ C.K.ref) (hty : C.K.types[C.K.names.idxOf n]? = some .float)
    (hp : ∀ q, C.K.Permitted n (.num q)) (hv : d n = some (.num v)) (hflag : d (n ++ "_refinement") = some (.bool false))
    (hsp : '\n' ∉ (T.strOf (.num v)).toList ∧ ' ' ∉ (T.strOf (.num v)).toList)
    (htext : Text.readValue T.fl (T.format n (.num v)).toList = some (some q, none, m)) :
    d' n = some (.num (clampQ (C.K.dMin.lookup n) (C.K.dMax.lookup n) q)) ∧ d' (n ++ "_refinement") = some (.bool false) ∧
      d' (n ++ "_sigma") = C.init (n ++ "_sigma") ∧ d' (n ++ "_mark") = C.init (n ++ "_mark") := by
  have ht : itemText T d n = some (T.format n (.num v)) := by
    unfold itemText asString
    rw [hv, hflag]
    dsimp only
    rw [if_neg (by rintro (h | h) <;> [exact hsp.1 h; exact hsp.2 h])]
    cases d (n ++ "_sigma") <;> rfl
  obtain ⟨e, he, h1, h2, h3, h4⟩ := readAttr_number (T := T) w hn hr hty hp C.init htext
  have ha := saved_entry w hf hsep hS hL hn hv ht he
  have mem : ∀ x ∈ [n, n ++ "_sigma", n ++ "_refinement", n ++ "_mark"], x ∈ entries C.K n := by
    intro x hx; unfold entries; rw [if_pos hr]; exact hx
  exact ⟨by rw [← ha _ (mem _ (by simp)), h1], by rw [← ha _ (mem _ (by simp)), h3], by rw [← ha _ (mem _ (by simp)), h2],
    by rw [← ha _ (mem _ (by simp)), h4]⟩

theorem readAttr_refined (w : C.WF) {n s : String} {q e : ℚ} {m : Text.Str} (hn : n ∈ C.K.names) (hr : n ∈ C.K.ref)
    (hty : C.K.types[C.K.names.idxOf n]? = some .float) (hp : ∀ q, C.K.Permitted n (.num q)) (d : Dict)
    (hm : (∀ c ∈ m, c.isWhitespace = false) ∧ m ≠ ['.'] ∧ m ≠ ['?'])
    (hs : Text.readValue T.fl s.toList = some (some q, some e, m)) :
    ∃ d', readAttr T C.K d n s = .ok d' ∧
      d' n = some (.num (clampQ (C.K.dMin.lookup n) (C.K.dMax.lookup n) q)) ∧
      d' (n ++ "_sigma") = some (.num e) ∧ d' (n ++ "_refinement") = some (.bool true) ∧
      d' (n ++ "_mark") = some (.str (String.ofList m)) := by
  have hf : n ++ "_refinement" ∈ C.K.refFlag := by rw [w.base.refFlag_eq]; exact List.mem_map_of_mem hr
  have hff := w.base.flag_not_name _ hf
  have hfn : n ≠ n ++ "_refinement" := fun h => hff.1 (h ▸ hn)
  have hsn : n ≠ n ++ "_sigma" := fun h => (w.companion n hr).1 (by rw [← h]; exact hn)
  have hmn : n ≠ n ++ "_mark" := fun h => (w.companion n hr).2 (by rw [← h]; exact hn)
  have hS : n ++ "_sigma" ∈ C.K.sigma := by rw [w.sigma_eq]; exact List.mem_map_of_mem hr
  have hM : n ++ "_mark" ∈ C.K.constrMark := by rw [w.mark_eq]; exact List.mem_map_of_mem hr
  have hMs : n ++ "_mark" ∉ C.K.sigma := by
    rw [w.sigma_eq]; intro h
    obtain ⟨k, -, hk⟩ := List.mem_map.1 h
    exact suffix_ne (by decide) (by decide) (by decide) hk
  have hMf : n ++ "_mark" ∉ C.K.constrFlag ++ C.K.refFlag := by
    rw [w.base.refFlag_eq, w.base.constrFlag_eq]; intro h
    rcases List.mem_append.1 h with h | h
    · obtain ⟨k, -, hk⟩ := List.mem_map.1 h
      exact suffix_ne (by decide) (by decide) (by decide) hk
    · obtain ⟨k, -, hk⟩ := List.mem_map.1 h
      exact suffix_ne (by decide) (by decide) (by decide) hk
  have h12 : n ++ "_sigma" ≠ n ++ "_refinement" := suffix_ne (by decide) (by decide) (by decide)
  have h13 : n ++ "_sigma" ≠ n ++ "_mark" := suffix_ne (by decide) (by decide) (by decide)
  have h23 : n ++ "_refinement" ≠ n ++ "_mark" := suffix_ne (by decide) (by decide) (by decide)
  obtain ⟨d1, h1, h2, -⟩ := write_number_reads_back T.toPyEnv C.K d n q hn hty
  have e2 : ∀ d, setattr T.toPyEnv C.K d (n ++ "_sigma") (.num e) = .ok (d.set (n ++ "_sigma") (.num e)) := fun d => by
    unfold setattr
    simp [isNoneLike, (w.companion n hr).1, hS, coerce]
  have e4 : ∀ d, setattr T.toPyEnv C.K d (n ++ "_mark") (.str (String.ofList m)) =
      .ok (d.set (n ++ "_mark") (.str (String.ofList m))) := fun d => by
    have hnn : isNoneLike (.str (String.ofList m)) = false := by
      unfold isNoneLike
      have a : String.ofList m ≠ "." := fun h => hm.2.1 (by have := congrArg String.toList h; simpa using this)
      have b : String.ofList m ≠ "?" := fun h => hm.2.2 (by have := congrArg String.toList h; simpa using this)
      simp [a, b]
    have hst : stripStr (String.ofList m) = String.ofList m := by
      unfold stripStr
      rw [String.toList_ofList, Text.strip_none hm.1]
    unfold setattr
    simp only [hnn, (w.companion n hr).2, hMs, hMf, hM, hst, if_true, if_false, Bool.false_eq_true]
  unfold readAttr
  rw [if_pos hr, hs]
  simp only [optNum, h1, e2]
  rw [setattr_flag hf hff.1 hff.2]
  simp only [e4]
  refine ⟨_, rfl, ?_, ?_, ?_, Dict.set_self _ _ _⟩
  · rw [Dict.set_ne _ _ hmn, Dict.set_ne _ _ hfn, Dict.set_ne _ _ hsn, h2 (hp q)]
  · rw [Dict.set_ne _ _ h13, Dict.set_ne _ _ h12, Dict.set_self]
  · rw [Dict.set_ne _ _ h23, Dict.set_self]

theorem clampQ_closer {lo hi : Option ℚ} {q v : ℚ} (h1 : ∀ b, lo = some b → b ≤ v) (h2 : ∀ b, hi = some b → v ≤ b) :
    |clampQ lo hi q - v| ≤ |q - v| := by
  unfold clampQ
  rcases lo with _ | lo <;> rcases hi with _ | hi
  · exact le_refl _
  · have h2 := h2 hi rfl
    dsimp only
    rcases le_total hi q with h | h
    · rw [min_eq_left h, abs_of_nonneg (by linarith), abs_of_nonneg (by linarith)]; linarith
    · rw [min_eq_right h]
  · have h1 := h1 lo rfl
    dsimp only
    rcases le_total lo q with h | h
    · rw [max_eq_right h]
    · rw [max_eq_left h, abs_of_nonpos (by linarith), abs_of_nonpos (by linarith)]; linarith
  · have h1 := h1 lo rfl
    have h2 := h2 hi rfl
    dsimp only
    rcases le_total lo q with h | h
    · rw [max_eq_right h]
      rcases le_total hi q with h | h
      · rw [min_eq_left h, abs_of_nonneg (by linarith), abs_of_nonneg (by linarith)]; linarith
      · rw [min_eq_right h]
    · rw [max_eq_left h, min_eq_right (by linarith), abs_of_nonpos (by linarith), abs_of_nonpos (by linarith)]; linarith

/-- C63 for a refined parameter with a positive error (in exact arithmetic, unless `0.995 ≤ error ≤ 1`, see C07): it is loaded as a
refined parameter with the same mark, and value and error differ from the saved ones by at most a twentieth of the error, or half a
unit if the error is above one. -/
theorem saved_refined (w : C.WF) {form : Dict → Dict} (hf : KeepsAttributes C.K form) {sep : String} (hsep : sep = "_" ∨ sep = ".")
    (hfl : T.fl = id) {d d' : Dict} (hS : Saveable T C d) (hL : Loaded T C form sep d d') {n m : String} {v σ : ℚ}
    (hn : n ∈ C.K.names) (hr : n ∈ C.K.ref) (hty : C.K.types[C.K.names.idxOf n]? = some .float)
    (hp : ∀ q, C.K.Permitted n (.num q)) (hb : InBounds C.K n (.num v))
    (hv : d n = some (.num v)) (hflag : d (n ++ "_refinement") = some (.bool true)) (hσ : d (n ++ "_sigma") = some (.num σ))
    (hm : d (n ++ "_mark") = some (.str m)) (hmm : (∀ c ∈ m.toList, c.isWhitespace = false) ∧ m ≠ "." ∧ m ≠ "?")
    (h0 : 0 < σ) (hbad : σ < 199 / 200 ∨ 1 < σ)
    (hsp : '\n' ∉ (T.strOf (.num v)).toList ∧ ' ' ∉ (T.strOf (.num v)).toList) :
    ∃ v' σ', d' n = some (.num v') ∧ d' (n ++ "_sigma") = some (.num σ') ∧ 0 < σ' ∧
      d' (n ++ "_refinement") = some (.bool true) ∧ d' (n ++ "_mark") = some (.str m) ∧
      (σ ≤ 1 → |v' - v| ≤ σ / 20 ∧ |σ' - σ| ≤ σ / 20) ∧ (1 < σ → |v' - v| ≤ 1 / 2 ∧ |σ' - σ| ≤ 1 / 2) := by
  obtain ⟨s, q, e, hw, hread, he0, hs1, hs2⟩ := Text.value_error_mark T.repr v h0 hbad m.toList
  have ht : itemText T d n = some (String.ofList s) := by
    unfold itemText asString
    rw [hv, hflag, hσ, hm]
    dsimp only
    rw [if_neg (by rintro (h | h) <;> [exact hsp.1 h; exact hsp.2 h])]
    simp only [truthy, if_true, numOf, Option.bind_some, hfl, hw, Option.map_some]
  have hmm' : Text.strip m.toList = m.toList := Text.strip_none hmm.1
  obtain ⟨d1, hd1, g1, g2, g3, g4⟩ := readAttr_refined (T := T) (s := String.ofList s) (q := q) (e := e) (m := m.toList) w hn hr hty hp
    C.init ⟨hmm.1, fun h => hmm.2.1 (String.toList_inj.1 h), fun h => hmm.2.2 (String.toList_inj.1 h)⟩
    (by rw [hfl, String.toList_ofList, hread, hmm'])
  have ha := saved_entry w hf hsep hS hL hn hv ht hd1
  have mem : ∀ x ∈ [n, n ++ "_sigma", n ++ "_refinement", n ++ "_mark"], x ∈ entries C.K n := by
    intro x hx; unfold entries; rw [if_pos hr]; exact hx
  have hcl : |clampQ (C.K.dMin.lookup n) (C.K.dMax.lookup n) q - v| ≤ |q - v| := by
    rcases hb with ⟨a, b⟩ | ⟨q', h, a, b⟩
    · rw [a, b]; exact le_refl _
    · cases h
      exact clampQ_closer a b
  refine ⟨_, e, by rw [← ha _ (mem _ (by simp)), g1], by rw [← ha _ (mem _ (by simp)), g2], he0, by rw [← ha _ (mem _ (by simp)), g3],
    by rw [← ha _ (mem _ (by simp)), g4, String.ofList_toList], fun h => ⟨hcl.trans (hs1 h).1, (hs1 h).2⟩,
    fun h => ⟨hcl.trans (hs2 h).1, (hs2 h).2⟩⟩

theorem mem_mapM {α β : Type} {f : α → Option β} {l : List α} {r : List β} (h : l.mapM f = some r) {b : β} (hb : b ∈ r) :
    ∃ a ∈ l, f a = some b := by
  induction l generalizing r with
  | nil => cases h; cases hb
  | cons a t ih =>
    rw [List.mapM_cons] at h
    cases ha : f a with
    | none => rw [ha] at h; cases h
    | some c =>
      cases ht : t.mapM f with
      | none => rw [ha, ht] at h; cases h
      | some r' =>
        rw [ha, ht] at h
        cases h
        rcases List.mem_cons.1 hb with rfl | hb
        · exact ⟨a, by simp, ha⟩
        · obtain ⟨x, hx, e⟩ := ih ht hb
          exact ⟨x, by simp [hx], e⟩

/-- C63 fails: an object without one of its mandatory attributes is saved but not loaded: `from_cif` gives `None`. -/
theorem missing_mandatory_not_loaded (w : C.WF) (form : Dict → Dict) {sep : String} (hsep : sep = "_" ∨ sep = ".") {d : Dict}
    {n : String} (hn : n ∈ C.K.mandatory) (hd : d n = none) {recs : List (String × String)} (hrec : toCif T C sep d = some recs) :
    fromCif T C form recs = .ok none := by
  have hc : ∃ c ∈ C.mandCif, (n, c) ∈ C.attrs := by
    have e : C.attrs = C.K.mandatory.zip C.mandCif ++ C.K.optional.zip C.optCif := by
      unfold CifClass.attrs ClassDesc.names CifClass.cif
      exact List.zip_append w.mand_len.symm
    have : n ∈ (C.K.mandatory.zip C.mandCif).map Prod.fst := by rw [List.map_fst_zip (by rw [w.mand_len])]; exact hn
    obtain ⟨p, hp, rfl⟩ := List.mem_map.1 this
    exact ⟨p.2, (List.of_mem_zip hp).2, by rw [e]; exact List.mem_append_left _ hp⟩
  obtain ⟨c, hc, ha⟩ := hc
  have hnone : ∀ sep', sep' = "_" ∨ sep' = "." → value? recs (fullName C.K.prefixName sep' c) = none := by
    intro sep' hsep'
    unfold value?
    rw [Option.map_eq_none_iff, List.find?_eq_none]
    intro r hr
    have : ∃ p ∈ C.attrs, hasAttr d p.1 = true ∧ r.1 = fullName C.K.prefixName sep p.2 := by
      unfold toCif at hrec
      obtain ⟨p, hp, hpr⟩ := mem_mapM hrec hr
      obtain ⟨hp, hpa⟩ := List.mem_filter.1 hp
      obtain ⟨t, -, ht⟩ := Option.map_eq_some_iff.1 hpr
      rw [if_neg (w.cif_ne _ (w.mem_cif hp))] at ht
      exact ⟨p, hp, hpa, by rw [← ht]⟩
    obtain ⟨p, hp, hpa, hpr⟩ := this
    rw [beq_iff_eq, hpr]
    intro h
    rcases hsep with rfl | rfl <;> rcases hsep' with rfl | rfl
    · have := w.attrs_inj hp ha (fullName_same.1 h)
      rw [this, (hasAttr_iff d n)] at hpa; exact hpa hd
    · exact fullName_sep h
    · exact fullName_sep h.symm
    · have := w.attrs_inj hp ha (fullName_same.1 h)
      rw [this, (hasAttr_iff d n)] at hpa; exact hpa hd
  have hall : ∀ sep', sep' = "_" ∨ sep' = "." →
      (C.mandCif.all fun c => (value? recs (fullName C.K.prefixName sep' c)).isSome) = false := by
    intro sep' h
    rw [List.all_eq_false]
    exact ⟨c, hc, by rw [hnone sep' h]; simp⟩
  unfold fromCif separator?
  dsimp only
  rw [hall "_" (Or.inl rfl), hall "." (Or.inr rfl)]
  rfl

end Cryspy.Cif
