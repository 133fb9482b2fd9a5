import Verif.Refine.Model
import Mathlib.Tactic.Ring
import Mathlib.Tactic.FieldSimp
import Mathlib.Tactic.Linarith
import Mathlib.Tactic.NormNum
import Mathlib.Data.List.Nodup
import Mathlib.Data.List.Perm.Basic
import Mathlib.Algebra.BigOperators.Group.List.Lemmas

/-!
# Properties of the constraint matrix and of the parameters tied by marks (C41, C50)
-/

namespace Cryspy.Refine

open Cryspy.Text (Str)

/-! ### The matrix of constraints -/

section formq
variable {N : Type} [DecidableEq N]

/-- The value of a row of the matrix on a vector of parameters given by name. -/
def rowValue (row : List ℝ) (names : List N) (p : N → ℝ) : ℝ := (List.zipWith (fun a w => a * p w) row names).sum

theorem rowValue_replicate (names : List N) (p : N → ℝ) :
    rowValue (List.replicate names.length 0) names p = 0 := by
  induction names with
  | nil => rfl
  | cons w t ih =>
    unfold rowValue at ih ⊢
    simp only [List.length_cons, List.replicate_succ, List.zipWith_cons_cons, List.sum_cons, zero_mul,
      zero_add]
    exact ih

theorem rowValue_set : ∀ (names : List N) (row : List ℝ) (i : ℕ) (a : ℝ) (w : N) (p : N → ℝ),
    row.length = names.length → names[i]? = some w → row[i]? = some 0 →
    rowValue (row.set i a) names p = rowValue row names p + a * p w := by
  intro names
  induction names with
  | nil => intro row i a w p _ h; simp at h
  | cons x t ih =>
    intro row i a w p hl hi hr
    cases row with
    | nil => simp at hl
    | cons r rs =>
      cases i with
      | zero =>
        simp only [List.getElem?_cons_zero, Option.some.injEq] at hi hr
        subst hi hr
        simp [rowValue]
        ring
      | succ i =>
        simp only [List.getElem?_cons_succ] at hi hr
        have := ih rs i a w p (by simpa using hl) hi hr
        unfold rowValue at this ⊢
        simp only [List.set_cons_succ, List.zipWith_cons_cons, List.sum_cons, this]
        ring

theorem findIdx_get (names : List N) (w : N) (i : ℕ) (h : names.findIdx? (· = w) = some i) :
    names[i]? = some w := by
  rw [List.findIdx?_eq_some_iff_getElem] at h
  obtain ⟨hi, hw, -⟩ := h
  rw [List.getElem?_eq_getElem hi]
  simpa using hw

theorem findIdx_mem (names : List N) (w : N) (h : w ∈ names) : ∃ i, names.findIdx? (· = w) = some i := by
  rw [← Option.isSome_iff_exists, List.findIdx?_isSome, List.any_eq_true]
  exact ⟨w, h, by simp⟩

/-- One row: for a constraint over distinct parameters, all of them known, the row of the matrix
applied to the parameters is the weighted sum the constraint names. -/
theorem formMatrixQ_row (names : List N) (c : List (ℝ × N)) (hc : (c.map (·.2)).Nodup)
    (hk : ∀ t ∈ c, t.2 ∈ names) (p : N → ℝ) :
    ∃ row, formMatrixQ [c] names = some [row] ∧ row.length = names.length ∧
      rowValue row names p = (c.map fun t => t.1 * p t.2).sum := by
  have key : ∀ (c : List (ℝ × N)) (row : List ℝ), (c.map (·.2)).Nodup → (∀ t ∈ c, t.2 ∈ names) →
      row.length = names.length →
      (∀ t ∈ c, ∀ i, names.findIdx? (· = t.2) = some i → row[i]? = some 0) →
      ∃ r, c.foldlM (fun row t => do
        let i ← names.findIdx? (· = t.2)
        some (row.set i t.1)) row = some r ∧ r.length = names.length ∧
        rowValue r names p = rowValue row names p + (c.map fun t => t.1 * p t.2).sum := by
    intro c
    induction c with
    | nil => intro row _ _ hl _; exact ⟨row, rfl, hl, by simp⟩
    | cons t c ih =>
      intro row hn hk hl hz
      obtain ⟨i, hi⟩ := findIdx_mem names t.2 (hk t (by simp))
      simp only [List.map_cons, List.nodup_cons] at hn
      obtain ⟨r, hr, hrl, hrv⟩ := ih (row.set i t.1) hn.2 (fun u hu => hk u (by simp [hu]))
        (by simpa using hl) (by
          intro u hu j hj
          have hne : i ≠ j := by
            rintro rfl
            have h1 := findIdx_get _ _ _ hi
            have h2 := findIdx_get _ _ _ hj
            rw [h1] at h2
            exact hn.1 (by rw [Option.some.inj h2]; exact List.mem_map_of_mem hu)
          rw [List.getElem?_set_ne hne]
          exact hz u (by simp [hu]) j hj)
      refine ⟨r, ?_, hrl, ?_⟩
      · rw [List.foldlM_cons, hi]; exact hr
      · rw [hrv, rowValue_set names row i t.1 t.2 p hl (findIdx_get _ _ _ hi) (hz t (by simp) i hi)]
        simp; ring
  obtain ⟨r, hr, hrl, hrv⟩ := key c (List.replicate names.length 0) hc hk (by simp) (by
    intro t _ i hi
    have := findIdx_get _ _ _ hi
    have hlt : i < names.length := by
      by_contra h; rw [List.getElem?_eq_none (by omega)] at this; cases this
    rw [List.getElem?_replicate, if_pos hlt])
  refine ⟨r, ?_, hrl, ?_⟩
  · unfold formMatrixQ
    simp only [List.mapM_cons, List.mapM_nil]
    rw [hr]; rfl
  · rw [hrv, rowValue_replicate, zero_add]

/-- The matrix has one row for every constraint, each as in `formMatrixQ_row`. -/
theorem formMatrixQ_rows (names : List N) (cs : List (List (ℝ × N))) (hc : ∀ c ∈ cs, (c.map (·.2)).Nodup)
    (hk : ∀ c ∈ cs, ∀ t ∈ c, t.2 ∈ names) :
    ∃ q, formMatrixQ cs names = some q ∧
      List.Forall₂ (fun c row => row.length = names.length ∧
        ∀ p : N → ℝ, rowValue row names p = (c.map fun t => t.1 * p t.2).sum) cs q := by
  induction cs with
  | nil => exact ⟨[], rfl, .nil⟩
  | cons c cs ih =>
    obtain ⟨q, hq, hf⟩ := ih (fun d hd => hc d (by simp [hd])) (fun d hd => hk d (by simp [hd]))
    obtain ⟨row, hrow, hl, -⟩ := formMatrixQ_row names c (hc c (by simp)) (hk c (by simp)) (fun _ => 0)
    have hall : ∀ p : N → ℝ, rowValue row names p = (c.map fun t => t.1 * p t.2).sum := by
      intro p
      obtain ⟨row', hrow', -, hv⟩ := formMatrixQ_row names c (hc c (by simp)) (hk c (by simp)) p
      rw [hrow] at hrow'
      cases hrow'
      exact hv
    refine ⟨row :: q, ?_, .cons ⟨hl, hall⟩ hf⟩
    unfold formMatrixQ at hrow hq ⊢
    simp only [List.mapM_cons, List.mapM_nil] at hrow ⊢
    rw [hq]
    match h : List.foldlM (fun row t => do
      let i ← names.findIdx? (· = t.2)
      some (row.set i t.1)) (List.replicate names.length (0 : ℝ)) c with
    | none => rw [h] at hrow; cases hrow
    | some r => rw [h] at hrow; cases hrow; rfl

example : ∃ q, formMatrixQ [[((1 : ℝ), 'a'), (-2, 'c')]] ['a', 'b', 'c'] = some q ∧ q = [[1, 0, -2]] :=
  ⟨_, rfl, rfl⟩

/-- A parameter named twice in one constraint: only the last coefficient is kept, so `a + 2 a = 0`
becomes `2 a = 0`, and `a - a + b = 0` becomes `-a + b = 0`. -/
theorem formMatrixQ_duplicate :
    formMatrixQ [[((1 : ℝ), 'a'), (-1, 'a'), (1, 'b')]] ['a', 'b'] = some [[-1, 1]] := rfl

/-- An unknown name raises. -/
theorem formMatrixQ_unknown (names : List N) (a : ℝ) (w : N) (h : w ∉ names) :
    formMatrixQ [[(a, w)]] names = none := by
  have : names.findIdx? (· = w) = none := by
    rw [List.findIdx?_eq_none_iff]
    intro x hx
    simp only [decide_eq_false_iff_not]
    rintro rfl; exact h hx
  unfold formMatrixQ
  simp only [List.mapM_cons, List.mapM_nil, List.foldlM_cons, this]
  rfl

end formq

/-! ### Parameters tied by marks -/

section marks
variable {N : Type} [DecidableEq N]

theorem markSign_sq (m : Str) : markSign m * markSign m = 1 := by
  unfold markSign; split_ifs <;> norm_num

theorem markSign_ne (m : Str) : markSign m ≠ 0 := by
  unfold markSign; split_ifs <;> norm_num

theorem fold_update (free : List N) : ∀ (v : List ℝ) (dict : N → ℝ), free.Nodup →
    (∀ t ∈ free.zip v, ((free.zip v).foldl (fun d t => Function.update d t.1 t.2) dict) t.1 = t.2) ∧
    (∀ w, w ∉ free → ((free.zip v).foldl (fun d t => Function.update d t.1 t.2) dict) w = dict w) := by
  induction free with
  | nil => intro v dict _; simp
  | cons x free ih =>
    intro v dict hn
    cases v with
    | nil => simp
    | cons y v =>
      rw [List.nodup_cons] at hn
      obtain ⟨h1, h2⟩ := ih v (Function.update dict x y) hn.2
      constructor
      · intro t ht
        simp only [List.zip_cons_cons, List.mem_cons] at ht
        rcases ht with rfl | ht
        · simp only [List.zip_cons_cons, List.foldl_cons]
          rw [h2 x hn.1]; simp
        · simpa using h1 t ht
      · intro w hw
        simp only [List.mem_cons, not_or] at hw
        simp only [List.zip_cons_cons, List.foldl_cons]
        rw [h2 w hw.2]; simp [hw.1]

theorem fold_constraints (free : List N) (v : List ℝ) (hv : v.length = free.length) :
    ∀ (cs : List ((ℝ × N) × (ℝ × N))) (d0 : N → ℝ), (∀ c ∈ cs, c.1.2 ∈ free) →
    (cs.map (·.2.2)).Nodup →
    ∃ d, cs.foldlM (fun d c => do
      let coeff := -c.2.1 / c.1.1
      let i ← free.findIdx? (· = c.1.2)
      let x ← v[i]?
      some (Function.update d c.2.2 (coeff * x))) d0 = some d ∧
      (∀ w, w ∉ cs.map (·.2.2) → d w = d0 w) ∧
      (∀ c ∈ cs, ∃ x, (c.1.2, x) ∈ free.zip v ∧ d c.2.2 = (-c.2.1 / c.1.1) * x) := by
  intro cs
  induction cs with
  | nil => intro d0 _ _; exact ⟨d0, rfl, fun _ _ => rfl, by simp⟩
  | cons c cs ih =>
    intro d0 hf hn
    simp only [List.map_cons, List.nodup_cons] at hn
    obtain ⟨i, hi⟩ := findIdx_mem free c.1.2 (hf c (by simp))
    have hg := findIdx_get _ _ _ hi
    have hlt : i < free.length := by
      by_contra h; rw [List.getElem?_eq_none (by omega)] at hg; cases hg
    have hx : v[i]? = some (v[i]'(by omega)) := List.getElem?_eq_getElem _
    set x := v[i]'(by omega) with hxd
    obtain ⟨d, hd, h1, h2⟩ := ih (Function.update d0 c.2.2 ((-c.2.1 / c.1.1) * x))
      (fun u hu => hf u (by simp [hu])) hn.2
    refine ⟨d, ?_, ?_, ?_⟩
    · rw [List.foldlM_cons, hi]
      change (do let x ← v[i]?; some (Function.update d0 c.2.2 (-c.2.1 / c.1.1 * x))) >>= _ = _
      rw [hx]
      exact hd
    · intro w hw
      simp only [List.map_cons, List.mem_cons, not_or] at hw
      rw [h1 w hw.2]; simp [hw.1]
    · intro u hu
      rcases List.mem_cons.1 hu with rfl | hu
      · refine ⟨x, ?_, ?_⟩
        · have hm : (free.zip v)[i]? = some (u.1.2, x) := by
            rw [List.zip_eq_zipWith, List.getElem?_zipWith, hg, hx]
          exact List.mem_of_getElem? hm
        · rw [h1 _ hn.1]; simp
      · exact h2 u hu

/-- What a constraint of a label is made of. -/
theorem labelConstraints_spec (params : List (N × Str)) (label : Str) (c : (ℝ × N) × (ℝ × N))
    (hc : c ∈ labelConstraints params label) :
    ∃ first later p, params.filter (fun p => markLabel p.2 = label) = first :: later ∧ p ∈ later ∧
      c = ((markSign first.2, first.1), (-markSign p.2, p.1)) := by
  unfold labelConstraints at hc
  split at hc
  · cases hc
  · rename_i first later hfl
    obtain ⟨p, hp, rfl⟩ := List.mem_map.1 hc
    exact ⟨first, later, p, hfl, hp, rfl⟩

theorem labelConstraints_seconds (params : List (N × Str)) (label : Str) :
    (labelConstraints params label).map (·.2.2) =
      ((params.filter (fun p => markLabel p.2 = label)).tail).map (·.1) := by
  unfold labelConstraints
  split
  · rename_i h; rw [h]; rfl
  · rename_i first later h; rw [h]; simp

theorem mem_unique {params : List (N × Str)} (hn : (params.map (·.1)).Nodup) {p q : N × Str}
    (hp : p ∈ params) (hq : q ∈ params) (h : p.1 = q.1) : p = q :=
  List.inj_on_of_nodup_map hn hp hq h

theorem seconds_nodup (params : List (N × Str)) (hn : (params.map (·.1)).Nodup) (order : List Str)
    (ho : order.Nodup) : ((linearConstraints params order).map (·.2.2)).Nodup := by
  unfold linearConstraints
  rw [List.map_flatMap, List.nodup_flatMap]
  constructor
  · intro l _
    change ((labelConstraints params l).map (·.2.2)).Nodup
    rw [labelConstraints_seconds]
    refine (List.Nodup.sublist ?_ hn)
    exact ((List.tail_sublist _).trans List.filter_sublist).map _
  · refine ho.imp ?_
    intro l l' hll
    simp only [Function.onFun]
    rw [labelConstraints_seconds, labelConstraints_seconds]
    intro w hw hw'
    obtain ⟨p, hp, rfl⟩ := List.mem_map.1 hw
    obtain ⟨p', hp', e⟩ := List.mem_map.1 hw'
    have h1 := List.mem_filter.1 (List.mem_of_mem_tail hp)
    have h2 := List.mem_filter.1 (List.mem_of_mem_tail hp')
    have := mem_unique hn h2.1 h1.1 e
    subst this
    simp only [decide_eq_true_eq] at h1 h2
    exact hll (h1.2.symm.trans h2.2)

theorem first_not_second (params : List (N × Str)) (hn : (params.map (·.1)).Nodup) (order : List Str)
    (label : Str) (first : N × Str) (later : List (N × Str))
    (hf : params.filter (fun p => markLabel p.2 = label) = first :: later) :
    first.1 ∉ (linearConstraints params order).map (·.2.2) := by
  intro hmem
  obtain ⟨c, hc, e⟩ := List.mem_map.1 hmem
  obtain ⟨l', -, hc⟩ := List.mem_flatMap.1 hc
  obtain ⟨first', later', p, hfl, hp, rfl⟩ := labelConstraints_spec params l' c hc
  simp only at e
  have hfm : first ∈ params.filter (fun p => markLabel p.2 = label) := by rw [hf]; simp
  have hpm : p ∈ params.filter (fun p => markLabel p.2 = l') := by rw [hfl]; simp [hp]
  have := mem_unique hn (List.mem_filter.1 hpm).1 (List.mem_filter.1 hfm).1 e
  subst this
  have h1 : markLabel p.2 = label := by simpa using (List.mem_filter.1 hfm).2
  have h2 : markLabel p.2 = l' := by simpa using (List.mem_filter.1 hpm).2
  rw [h1] at h2; subst h2
  rw [hf] at hfl
  have hpl : p ∈ later := by rw [(List.cons.inj hfl).2]; exact hp
  have hnd : ((p :: later).map (·.1)).Nodup := by
    rw [← hf]; exact hn.sublist (List.filter_sublist.map _)
  rw [List.map_cons, List.nodup_cons] at hnd
  exact hnd.1 (List.mem_map_of_mem hpl)

/-- Whatever vector the minimiser tries, and in whatever order Python runs through the labels: the
parameters that carry marks with the same label are equal, up to the sign given by a trailing minus;
the free ones get the numbers of the minimiser, and everything that is not refined stays as it was. -/
theorem marks_hold (params : List (N × Str)) (hn : (params.map (·.1)).Nodup) (order : List Str)
    (ho : order.Nodup) (hol : ∀ l, l ∈ order ↔ l ≠ [] ∧ ∃ p ∈ params, markLabel p.2 = l)
    (names : List N) (hnn : names.Nodup) (hsub : ∀ p ∈ params, p.1 ∈ names) (v : List ℝ)
    (hv : v.length = (freeNames names (linearConstraints params order)).length) (dict : N → ℝ) :
    ∃ d, assign (freeNames names (linearConstraints params order)) (linearConstraints params order) v
        dict = some d ∧
      (∀ p ∈ params, ∀ p' ∈ params, markLabel p.2 = markLabel p'.2 → markLabel p.2 ≠ [] →
        markSign p.2 * d p.1 = markSign p'.2 * d p'.1) ∧
      (∀ t ∈ (freeNames names (linearConstraints params order)).zip v, d t.1 = t.2) ∧
      (∀ w, w ∉ names → d w = dict w) := by
  set cs := linearConstraints params order with hcs
  set free := freeNames names cs with hfree
  have hfn : free.Nodup := hnn.filter _
  have hfirst : ∀ c ∈ cs, c.1.2 ∈ free := by
    intro c hc
    obtain ⟨l, -, hc⟩ := List.mem_flatMap.1 hc
    obtain ⟨first, later, p, hfl, hp, rfl⟩ := labelConstraints_spec params l c hc
    refine List.mem_filter.2 ⟨?_, ?_⟩
    · apply hsub
      have : first ∈ params.filter (fun p => markLabel p.2 = l) := by rw [hfl]; simp
      exact (List.mem_filter.1 this).1
    · have := first_not_second params hn order l first later hfl
      simpa using this
  have hsn := seconds_nodup params hn order ho
  obtain ⟨h1, h2⟩ := fold_update free v dict hfn
  obtain ⟨d, hd, h3, h4⟩ := fold_constraints free v hv cs
    ((free.zip v).foldl (fun d t => Function.update d t.1 t.2) dict) hfirst hsn
  have hfreeval : ∀ t ∈ free.zip v, d t.1 = t.2 := by
    intro t ht
    rw [h3, h1 t ht]
    have := List.mem_filter.1 (List.of_mem_zip ht).1
    simpa using this.2
  refine ⟨d, hd, ?_, hfreeval, ?_⟩
  · have toFirst : ∀ p ∈ params, markLabel p.2 ≠ [] → ∀ first later,
        params.filter (fun q => markLabel q.2 = markLabel p.2) = first :: later →
        markSign p.2 * d p.1 = markSign first.2 * d first.1 := by
      intro p hp hne first later hfl
      have hpm : p ∈ first :: later := by
        rw [← hfl]; exact List.mem_filter.2 ⟨hp, by simp⟩
      rcases List.mem_cons.1 hpm with rfl | hpl
      · rfl
      · have hcm : ((markSign first.2, first.1), (-markSign p.2, p.1)) ∈ cs := by
          refine List.mem_flatMap.2 ⟨markLabel p.2, (hol _).2 ⟨hne, p, hp, rfl⟩, ?_⟩
          unfold labelConstraints
          rw [hfl]
          exact List.mem_map_of_mem hpl
        obtain ⟨x, hx, hdx⟩ := h4 _ hcm
        have := hfreeval _ hx
        simp only [neg_neg] at hdx this
        rw [hdx, this]
        have hs := markSign_sq p.2
        have hs' := markSign_sq first.2
        have hne' := markSign_ne first.2
        field_simp
        rw [show markSign p.2 ^ 2 = 1 by rw [pow_two]; exact hs, show markSign first.2 ^ 2 = 1 by
          rw [pow_two]; exact hs']
    intro p hp p' hp' e hne
    match hfl : params.filter (fun q => markLabel q.2 = markLabel p.2) with
    | [] =>
      have : p ∈ params.filter (fun q => markLabel q.2 = markLabel p.2) :=
        List.mem_filter.2 ⟨hp, by simp⟩
      rw [hfl] at this; cases this
    | first :: later =>
      rw [toFirst p hp hne first later hfl, toFirst p' hp' (e ▸ hne) first later (by rw [← e]; exact hfl)]
  · intro w hw
    rw [h3, h2]
    · intro h; exact hw (List.mem_filter.1 h).1
    · intro h
      obtain ⟨c, hc, rfl⟩ := List.mem_map.1 h
      obtain ⟨l, -, hc⟩ := List.mem_flatMap.1 hc
      obtain ⟨first, later, p, hfl, hp, rfl⟩ := labelConstraints_spec params l c hc
      apply hw
      apply hsub
      have : p ∈ params.filter (fun p => markLabel p.2 = l) := by rw [hfl]; simp [hp]
      exact (List.mem_filter.1 this).1

/-- Which parameters are varied: all without a mark, and of each label the first. -/
theorem free_iff (params : List (N × Str)) (hn : (params.map (·.1)).Nodup) (order : List Str)
    (hol : ∀ l, l ∈ order ↔ l ≠ [] ∧ ∃ p ∈ params, markLabel p.2 = l)
    (names : List N) (hsub : ∀ p ∈ params, p.1 ∈ names) (p : N × Str) (hp : p ∈ params) :
    p.1 ∈ freeNames names (linearConstraints params order) ↔
      markLabel p.2 = [] ∨ (params.filter (fun q => markLabel q.2 = markLabel p.2)).head? = some p := by
  constructor
  · intro h
    by_contra hcon
    push Not at hcon
    match hfl : params.filter (fun q => markLabel q.2 = markLabel p.2) with
    | [] =>
      have : p ∈ params.filter (fun q => markLabel q.2 = markLabel p.2) :=
        List.mem_filter.2 ⟨hp, by simp⟩
      rw [hfl] at this; cases this
    | first :: later =>
      have hpm : p ∈ first :: later := by rw [← hfl]; exact List.mem_filter.2 ⟨hp, by simp⟩
      rcases List.mem_cons.1 hpm with rfl | hpl
      · exact hcon.2 (by rw [hfl]; rfl)
      · have := (List.mem_filter.1 h).2
        simp only [decide_eq_true_eq] at this
        apply this
        refine List.mem_map.2 ⟨((markSign first.2, first.1), (-markSign p.2, p.1)), ?_, rfl⟩
        refine List.mem_flatMap.2 ⟨markLabel p.2, (hol _).2 ⟨hcon.1, p, hp, rfl⟩, ?_⟩
        unfold labelConstraints
        rw [hfl]
        exact List.mem_map_of_mem hpl
  · intro h
    refine List.mem_filter.2 ⟨hsub p hp, ?_⟩
    simp only [decide_eq_true_eq]
    rcases h with h | h
    · intro hmem
      obtain ⟨c, hc, e⟩ := List.mem_map.1 hmem
      obtain ⟨l', hl', hc⟩ := List.mem_flatMap.1 hc
      obtain ⟨first', later', q, hfl, hq, rfl⟩ := labelConstraints_spec params l' c hc
      have hqm : q ∈ params.filter (fun p => markLabel p.2 = l') := by rw [hfl]; simp [hq]
      have := mem_unique hn (List.mem_filter.1 hqm).1 hp e
      subst this
      have h2 : markLabel q.2 = l' := by simpa using (List.mem_filter.1 hqm).2
      exact ((hol l').1 hl').1 (h2 ▸ h)
    · match hfl : params.filter (fun q => markLabel q.2 = markLabel p.2) with
      | [] => rw [hfl] at h; cases h
      | first :: later =>
        rw [hfl] at h
        cases h
        exact first_not_second params hn order _ _ _ hfl

example : markLabel "a-".toList = "a".toList ∧ markLabel "a".toList = "a".toList := by decide

example : let params := [(0, "a".toList), (1, []), (2, "a-".toList)]
    freeNames [0, 1, 2] (linearConstraints params ["a".toList]) = [0, 1] := by
  simp [linearConstraints, labelConstraints, freeNames, markLabel]

/-- If the first parameter of a label is not among those of the calculation, the objective raises. -/
theorem mark_first_unknown (free : List N) (c : (ℝ × N) × (ℝ × N)) (cs : List ((ℝ × N) × (ℝ × N)))
    (v : List ℝ) (dict : N → ℝ) (h : c.1.2 ∉ free) : assign free (c :: cs) v dict = none := by
  have : free.findIdx? (· = c.1.2) = none := by
    rw [List.findIdx?_eq_none_iff]
    intro x hx
    simp only [decide_eq_false_iff_not]
    rintro rfl; exact h hx
  unfold assign
  simp only [List.foldlM_cons, this]
  rfl

end marks

end Cryspy.Refine
