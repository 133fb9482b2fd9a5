import Verif.Pts.Model
import Verif.Chi.Powder

/-!
# The measured points within the range, once each and in order, and the excluded ones among them
-/

namespace Cryspy.Pts

open Real
open Cryspy.Powder

/-! ## Specification -/

/-- a measured point with all the numbers of a polarised measurement -/
structure PolPoint where
  x : ℝ
  plus : ℝ
  plusS : ℝ
  minus : ℝ
  minusS : ℝ

/-- a measured point with its intensity -/
structure SumPoint where
  x : ℝ
  int : ℝ
  intS : ℝ

/-- the item of the loop holding a polarised point (nothing else defined) -/
def PolPoint.item (p : PolPoint) : Meas := ⟨.num p.x, .num p.plus, .num p.plusS, .num p.minus, .num p.minusS, .missing, .missing⟩
/-- the item of the loop holding an unpolarised point -/
def SumPoint.item (p : SumPoint) : Meas := ⟨.num p.x, .missing, .missing, .missing, .missing, .num p.int, .num p.intS⟩

/-- an interval with numbers as limits -/
structure Ivl where
  lo : ℝ
  hi : ℝ
/-- as the program holds it -/
def Ivl.win (w : Ivl) : Win := ⟨.num w.lo, .num w.hi⟩
/-- the closed interval -/
def Ivl.has (w : Ivl) (x : ℝ) : Prop := w.lo ≤ x ∧ x ≤ w.hi

noncomputable instance (w : Ivl) (x : ℝ) : Decidable (w.has x) := inferInstanceAs (Decidable (_ ∧ _))

/-! ## Masks and comparisons -/

theorem mask_cons {α : Type} (b : Bool) (fl : List Bool) (a : α) (l : List α) :
    mask (b :: fl) (a :: l) = if b then a :: mask fl l else mask fl l := by
  unfold mask
  cases b <;> simp

theorem mask_map {α β : Type} (p : α → Bool) (f : α → β) (l : List α) : mask (l.map p) (l.map f) = (l.filter p).map f := by
  induction l with
  | nil => rfl
  | cons a l ih =>
    rw [List.map_cons, List.map_cons, mask_cons, ih, List.filter_cons]
    split <;> simp

theorem inside_num (l : List ℝ) (w : Ivl) : inside (l.map some) w.win = .ok (l.map fun x => decide (w.has x)) := by
  simp only [inside, cmp, Ivl.win, bind, Except.bind, pure, Except.pure, band, Ivl.has, List.map_map]
  congr 1
  induction l with
  | nil => rfl
  | cons a l ih =>
    simp only [List.map_cons, List.zipWith_cons_cons, ih]
    congr 1
    exact (Bool.decide_and ..).symm

theorem column_num {α : Type} (l : List α) (item : α → Meas) (f : Meas → Val) (g : α → ℝ) (h : ∀ a, f (item a) = .num (g a)) :
    column (l.map item) f = .ok ((l.map g).map some) := by
  unfold column
  induction l with
  | nil => rfl
  | cons a l ih =>
    rw [List.map_cons, List.mapM_cons, ih, h]
    rfl

theorem bor_map {α : Type} (l : List α) (p q : α → Bool) : bor (l.map p) (l.map q) = l.map fun a => p a || q a := by
  unfold bor
  induction l with
  | nil => rfl
  | cons a l ih => simp only [List.map_cons, List.zipWith_cons_cons, ih]

theorem foldl_excl (ws : List Ivl) (xs : List ℝ) (p : ℝ → Bool) :
    (ws.map Ivl.win).foldlM (exclStep (xs.map some)) (xs.map p) = .ok (xs.map fun x => p x || ws.any fun w => decide (w.has x)) := by
  induction ws generalizing p with
  | nil => simp [pure, Except.pure]
  | cons w ws ih =>
    rw [List.map_cons, List.foldlM_cons]
    have h1 : exclStep (xs.map some) (xs.map p) w.win = .ok (xs.map fun x => p x || decide (w.has x)) := by
      simp only [exclStep, inside_num, bind, Except.bind, pure, Except.pure, bor_map]
    rw [h1]
    show (ws.map Ivl.win).foldlM _ _ = _
    rw [ih]
    simp [Bool.or_assoc]

theorem exclFlags_num (xs : List ℝ) (e : Option (List Ivl)) :
    exclFlags (xs.map some) (e.map fun ws => ws.map Ivl.win) =
      .ok (xs.map fun x => decide (∃ ws, e = some ws ∧ ∃ w ∈ ws, w.has x)) := by
  cases e with
  | none => simp [exclFlags]
  | some ws =>
    simp only [exclFlags, Option.map_some, List.map_map]
    have := foldl_excl ws xs (fun _ => false)
    rw [show (xs.map ((fun _ => false) ∘ some)) = xs.map fun _ => false from rfl, this]
    congr 1
    apply List.map_congr_left
    intro x _
    simp [List.any_eq]

/-- the frame common to both kinds of patterns -/
theorem points_frame {α : Type} (scale : ℝ) (l : List α) (item : α → Meas) (x : α → ℝ) (hx : ∀ a, (item a).x = .num (x a)) (r : Ivl)
    (e : Option (List Ivl)) (sg : Signal) (hs : signals (l.map fun a => decide (r.has (x a))) (l.map item) = .ok sg) :
    points scale (l.map item) (some r.win) (e.map fun ws => ws.map Ivl.win) =
      .ok ⟨(l.filter fun a => decide (r.has (x a))).map fun a => some (x a * scale), sg,
        (l.filter fun a => decide (r.has (x a))).map fun a => decide (∃ ws, e = some ws ∧ ∃ w ∈ ws, w.has (x a))⟩ := by
  have h0 : column (l.map item) (fun m => m.x) = .ok ((l.map x).map some) := column_num l item (fun m => m.x) x hx
  have h1 : inside ((l.map x).map some) r.win = .ok (l.map fun a => decide (r.has (x a))) := by
    rw [inside_num, List.map_map]; rfl
  have h2 : mask (l.map fun a => decide (r.has (x a))) ((l.map x).map some) = ((l.filter fun a => decide (r.has (x a))).map x).map some := by
    rw [List.map_map, List.map_map]
    exact mask_map (fun a => decide (r.has (x a))) (some ∘ x) l
  have h3 := exclFlags_num ((l.filter fun a => decide (r.has (x a))).map x) e
  have h4 : r.win.lo.read = .ok () := rfl
  have h5 : r.win.hi.read = .ok () := rfl
  unfold points
  simp only [h0, bind, Except.bind, h4, h5, h1, hs, h2, h3, pure, Except.pure]
  simp only [List.map_map]
  rfl

theorem mask_some {α : Type} (l : List α) (p : α → Bool) (g : α → ℝ) :
    mask (l.map p) ((l.map g).map some) = (l.filter p).map fun a => some (g a) := by
  rw [List.map_map]
  exact mask_map p (some ∘ g) l

/-! ## C89 -/

/-- **C89.** The dictionary of a polarised pattern holds, in their order, precisely the measured points within the closed range, each with its own
intensities and errors, and marks those lying in one of the closed excluded intervals -/
theorem polarised_spec (scale : ℝ) (l : List PolPoint) (r : Ivl) (e : Option (List Ivl)) :
    points scale (l.map PolPoint.item) (some r.win) (e.map fun ws => ws.map Ivl.win) =
      .ok
        { x := (l.filter fun p => decide (r.has p.x)).map fun p => some (p.x * scale)
          signal := .pol ((l.filter fun p => decide (r.has p.x)).map fun p => some p.plus)
            ((l.filter fun p => decide (r.has p.x)).map fun p => some p.plusS)
            ((l.filter fun p => decide (r.has p.x)).map fun p => some p.minus)
            ((l.filter fun p => decide (r.has p.x)).map fun p => some p.minusS)
          excluded := (l.filter fun p => decide (r.has p.x)).map fun p => decide (∃ ws, e = some ws ∧ ∃ w ∈ ws, w.has p.x) } := by
  apply points_frame scale l PolPoint.item (fun p => p.x) (fun _ => rfl)
  have hall : ((l.map PolPoint.item).all fun m => m.plus.defined) = true := by
    rw [List.all_eq_true]
    intro m hm
    obtain ⟨p, _, rfl⟩ := List.mem_map.1 hm
    rfl
  have c1 : column (l.map PolPoint.item) (fun m => m.plus) = .ok ((l.map fun p => p.plus).map some) :=
    column_num l PolPoint.item (fun m => m.plus) _ fun _ => rfl
  have c2 : column (l.map PolPoint.item) (fun m => m.plusS) = .ok ((l.map fun p => p.plusS).map some) :=
    column_num l PolPoint.item (fun m => m.plusS) _ fun _ => rfl
  have c3 : column (l.map PolPoint.item) (fun m => m.minus) = .ok ((l.map fun p => p.minus).map some) :=
    column_num l PolPoint.item (fun m => m.minus) _ fun _ => rfl
  have c4 : column (l.map PolPoint.item) (fun m => m.minusS) = .ok ((l.map fun p => p.minusS).map some) :=
    column_num l PolPoint.item (fun m => m.minusS) _ fun _ => rfl
  unfold signals
  simp only [hall, if_true, c1, c2, c3, c4, bind, Except.bind, pure, Except.pure, mask_some]

/-- the same for an unpolarised pattern with at least one point -/
theorem unpolarised_spec (scale : ℝ) (l : List SumPoint) (hl : l ≠ []) (r : Ivl) (e : Option (List Ivl)) :
    points scale (l.map SumPoint.item) (some r.win) (e.map fun ws => ws.map Ivl.win) =
      .ok
        { x := (l.filter fun p => decide (r.has p.x)).map fun p => some (p.x * scale)
          signal := .sum ((l.filter fun p => decide (r.has p.x)).map fun p => some p.int)
            ((l.filter fun p => decide (r.has p.x)).map fun p => some p.intS)
          excluded := (l.filter fun p => decide (r.has p.x)).map fun p => decide (∃ ws, e = some ws ∧ ∃ w ∈ ws, w.has p.x) } := by
  apply points_frame scale l SumPoint.item (fun p => p.x) (fun _ => rfl)
  have hall : ((l.map SumPoint.item).all fun m => m.plus.defined) = false := by
    rw [Bool.eq_false_iff, Ne, List.all_eq_true]
    intro h
    obtain ⟨p, hp⟩ := List.exists_mem_of_ne_nil l hl
    have := h p.item (List.mem_map_of_mem hp)
    simp [SumPoint.item, Val.defined] at this
  have c1 : column (l.map SumPoint.item) (fun m => m.int) = .ok ((l.map fun p => p.int).map some) :=
    column_num l SumPoint.item (fun m => m.int) _ fun _ => rfl
  have c2 : column (l.map SumPoint.item) (fun m => m.intS) = .ok ((l.map fun p => p.intS).map some) :=
    column_num l SumPoint.item (fun m => m.intS) _ fun _ => rfl
  unfold signals
  simp only [hall, Bool.false_eq_true, if_false, c1, c2, bind, Except.bind, pure, Except.pure, mask_some]

/-- points out of the range do not matter: two measurements with the same points within the range give the same dictionary -/
theorem out_of_range_irrelevant (scale : ℝ) (l l' : List PolPoint) (r : Ivl) (e : Option (List Ivl))
    (h : (l.filter fun p => decide (r.has p.x)) = l'.filter fun p => decide (r.has p.x)) :
    points scale (l.map PolPoint.item) (some r.win) (e.map fun ws => ws.map Ivl.win) =
      points scale (l'.map PolPoint.item) (some r.win) (e.map fun ws => ws.map Ivl.win) := by
  rw [polarised_spec, polarised_spec, h]

/-- only the union of the excluded intervals within the range matters: not their order, overlaps, or an interval out of the range or with its
limits exchanged -/
theorem exclusions_union (scale : ℝ) (l : List PolPoint) (r : Ivl) (ws ws' : List Ivl)
    (h : ∀ x, r.has x → ((∃ w ∈ ws, w.has x) ↔ ∃ w ∈ ws', w.has x)) :
    points scale (l.map PolPoint.item) (some r.win) (some (ws.map Ivl.win)) =
      points scale (l.map PolPoint.item) (some r.win) (some (ws'.map Ivl.win)) := by
  have e1 := polarised_spec scale l r (some ws)
  have e2 := polarised_spec scale l r (some ws')
  rw [Option.map_some] at e1 e2
  rw [e1, e2]
  congr 2
  apply List.map_congr_left
  intro p hp
  have hp' := of_decide_eq_true (List.mem_filter.1 hp).2
  rw [decide_eq_decide]
  simpa using h p.x hp'

/-- an interval with its limits exchanged excludes nothing -/
theorem exchanged_limits (w : Ivl) (h : w.hi < w.lo) (x : ℝ) : ¬ w.has x := fun hx => absurd (hx.1.trans hx.2) (not_le.2 h)

/-! ## chi squared -/

/-- the points of the chi squared of C65 for the dictionary and a calculation (`plus`, `minus`, background as functions of the position) -/
noncomputable def chiPoints (d : PdDict) (cp cm bg : ℝ → ℝ) : List Chi.Point :=
  match d.signal with
  | .pol p ps m ms =>
    (d.x.zip (p.zip (ps.zip (m.zip (ms.zip d.excluded))))).filterMap fun t =>
      match t with
      | (some x, some p, some ps, some m, some ms, ex) => some ⟨p, ps, m, ms, ex, cp x, cm x, bg x⟩
      | _ => none
  | .sum _ _ => []

theorem filterMap_zip (l : List PolPoint) (scale : ℝ) (ex : PolPoint → Bool) (cp cm bg : ℝ → ℝ) :
    ((l.map fun p => some (p.x * scale)).zip ((l.map fun p => some p.plus).zip ((l.map fun p => some p.plusS).zip
      ((l.map fun p => some p.minus).zip ((l.map fun p => some p.minusS).zip (l.map ex)))))).filterMap (fun t =>
      match t with
      | (some x, some p, some ps, some m, some ms, ex) => some (⟨p, ps, m, ms, ex, cp x, cm x, bg x⟩ : Chi.Point)
      | _ => none) =
    l.map fun p => ⟨p.plus, p.plusS, p.minus, p.minusS, ex p, cp (p.x * scale), cm (p.x * scale), bg (p.x * scale)⟩ := by
  induction l with
  | nil => rfl
  | cons a l ih => simp only [List.map_cons, List.zip_cons_cons, List.filterMap_cons, ih]

/-- the sum of the patterns is fitted to precisely the measured points within the range and in no excluded interval: chi squared from the measured
loop, the range and the exclusions is the sum of the weighted squares over these points, and their number is the number of points -/
theorem chi_over_points (scale : ℝ) (l : List PolPoint) (r : Ivl) (ws : List Ivl) (cp cm bg : ℝ → ℝ)
    (hs : ∀ p ∈ l, p.plusS ≠ 0) :
    ∃ d, points scale (l.map PolPoint.item) (some r.win) (some (ws.map Ivl.win)) = .ok d ∧
      Chi.chiPowder true false (chiPoints d cp cm bg) =
        (.fin (((l.filter fun p => decide (r.has p.x ∧ ∀ w ∈ ws, ¬ w.has p.x)).map fun p =>
          (p.plus + p.minus - (cp (p.x * scale) + cm (p.x * scale) + bg (p.x * scale))) ^ 2 / (p.plusS ^ 2 + p.minusS ^ 2)).sum),
        (l.filter fun p => decide (r.has p.x ∧ ∀ w ∈ ws, ¬ w.has p.x)).length) := by
  have e1 := polarised_spec scale l r (some ws)
  rw [Option.map_some] at e1
  refine ⟨_, e1, ?_⟩
  unfold chiPoints
  simp only
  rw [filterMap_zip]
  rw [Chi.chiPowder_spec]
  · simp only [if_true, Bool.false_eq_true, if_false, add_zero]
    rw [List.filter_map, List.filter_filter]
    have hf : (l.filter fun a => ((fun p : Chi.Point => !p.excluded) ∘ fun p : PolPoint =>
        (⟨p.plus, p.plusS, p.minus, p.minusS, decide (∃ ws_1, some ws = some ws_1 ∧ ∃ w ∈ ws_1, w.has p.x), cp (p.x * scale),
          cm (p.x * scale), bg (p.x * scale)⟩ : Chi.Point)) a && decide (r.has a.x))
        = l.filter fun p => decide (r.has p.x ∧ ∀ w ∈ ws, ¬ w.has p.x) := by
      apply List.filter_congr
      intro p _
      rw [Bool.eq_iff_iff]
      simp
      tauto
    rw [hf, List.length_map, List.map_map]
    congr 3
    apply List.map_congr_left
    intro p hp
    simp only [Function.comp, Chi.Point.misfitSum]
    ring_nf
  · intro q hq
    obtain ⟨p, hp, rfl⟩ := List.mem_map.1 hq
    exact Or.inl (hs p (List.mem_filter.1 hp).1)

end Cryspy.Pts
