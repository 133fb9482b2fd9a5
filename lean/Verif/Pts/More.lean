import Verif.Pts.Props

/-!
# The two-dimensional pattern, the errors set from counts, and what goes wrong
-/

namespace Cryspy.Pts

open Real
open Cryspy.Powder

/-! ## The two-dimensional pattern -/

/-- an excluded rectangle: in the angles of the detector, or in the scattering angles -/
inductive Rect
  | det (gamma nu : Ivl)
  | scat (ttheta phi : Ivl)

/-- as the program holds it -/
def Rect.win : Rect → Win2
  | .det g n => ⟨g.win, n.win, ⟨.missing, .missing⟩, ⟨.missing, .missing⟩⟩
  | .scat t p => ⟨⟨.missing, .missing⟩, ⟨.missing, .missing⟩, t.win, p.win⟩

/-- the pixel at `gamma`, `nu` (degrees) lies in the rectangle: detector angles as measured, scattering angles `2θ = arccos (cos γ cos ν)` and
`φ = arg (sin γ cos ν + i sin ν)` after subtraction of the offsets (radians) -/
def Rect.has (og on : ℝ) : Rect → ℝ → ℝ → Prop
  | .det wg wn, g, n => wg.has g ∧ wn.has n
  | .scat wt wp, g, n =>
    let g' := g * π / 180 - og
    let n' := n * π / 180 - on
    wt.has (arccos (cos n' * cos g') * 180 / π) ∧ wp.has (Complex.arg ⟨sin g' * cos n', sin n'⟩ * 180 / π)

noncomputable instance (og on : ℝ) (r : Rect) (g n : ℝ) : Decidable (r.has og on g n) := Classical.dec _

theorem outer_map (gs ns : List ℝ) (p q : ℝ → Bool) : outer (gs.map p) (ns.map q) = gs.map fun g => ns.map fun n => p g && q n := by
  simp [outer, List.map_map, Function.comp_def]

theorem zipWith_map_same {α β γ δ : Type} (l : List α) (f : β → γ → δ) (p : α → β) (q : α → γ) :
    List.zipWith f (l.map p) (l.map q) = l.map fun a => f (p a) (q a) := by
  induction l with
  | nil => rfl
  | cons a l ih => simp only [List.map_cons, List.zipWith_cons_cons, ih]

theorem zip2_map (gs ns : List ℝ) (f : Bool → Bool → Bool) (p q : ℝ → ℝ → Bool) :
    zip2 f (gs.map fun g => ns.map fun n => p g n) (gs.map fun g => ns.map fun n => q g n) = gs.map fun g => ns.map fun n => f (p g n) (q g n) := by
  unfold zip2
  rw [zipWith_map_same]
  apply List.map_congr_left
  intro g _
  rw [zipWith_map_same]

theorem inside2_num (gs ns : List ℝ) (f : ℝ → ℝ → ℝ) (w : Ivl) :
    inside2 (gs.map fun g => ns.map fun n => f g n) w.win = .ok (gs.map fun g => ns.map fun n => decide (w.has (f g n))) := by
  have h4 : w.win.lo.read = .ok () := rfl
  have h5 : w.win.hi.read = .ok () := rfl
  unfold inside2
  simp only [h4, h5, bind, Except.bind]
  induction gs with
  | nil => rfl
  | cons g gs ih =>
    rw [List.map_cons, List.mapM_cons, ih, inside_num]
    simp only [bind, Except.bind, pure, Except.pure, List.map_cons, List.map_map]
    rfl

theorem step2_num (gs ns : List ℝ) (og on : ℝ) (p : ℝ → ℝ → Bool) (r : Rect) :
    exclStep2 gs ns (gs.map fun g => ns.map fun n => ttheta_by (g * π / 180 - og) (n * π / 180 - on) * 180 / π)
      (gs.map fun g => ns.map fun n => phi_by (g * π / 180 - og) (n * π / 180 - on) * 180 / π) (gs.map fun g => ns.map fun n => p g n) r.win
      = .ok (gs.map fun g => ns.map fun n => p g n || decide (r.has og on g n)) := by
  cases r with
  | det wg wn =>
    have e1 : inside (gs.map some) (Rect.det wg wn).win.gamma = .ok (gs.map fun x => decide (wg.has x)) := inside_num gs wg
    have e2 : inside (ns.map some) (Rect.det wg wn).win.nu = .ok (ns.map fun x => decide (wn.has x)) := inside_num ns wn
    have e3 : (Rect.det wg wn).win.gamma.lo.isNum = true := rfl
    have e4 : (Rect.det wg wn).win.ttheta.lo.isNum = false := rfl
    unfold exclStep2
    simp only [e1, e2, e3, e4, bind, Except.bind, pure, Except.pure, if_true, Bool.false_eq_true, if_false, outer_map, zip2_map]
    congr 1
    apply List.map_congr_left
    intro g _
    apply List.map_congr_left
    intro n _
    congr 1
    rw [← Bool.decide_and]
    exact decide_eq_decide.2 Iff.rfl
  | scat wt wp =>
    have e1 := inside2_num gs ns (fun g n => ttheta_by (g * π / 180 - og) (n * π / 180 - on) * 180 / π) wt
    have e2 := inside2_num gs ns (fun g n => phi_by (g * π / 180 - og) (n * π / 180 - on) * 180 / π) wp
    have e3 : (Rect.scat wt wp).win.gamma.lo.isNum = false := rfl
    have e5 : (Rect.scat wt wp).win.ttheta = wt.win := rfl
    have e6 : (Rect.scat wt wp).win.phi = wp.win := rfl
    unfold exclStep2
    simp only [e3, e5, bind, Except.bind, pure, Except.pure, Bool.false_eq_true, if_false]
    have e7 : wt.win.lo.isNum = true := rfl
    simp only [e7, if_true, e6, e1, e2, zip2_map]
    congr 1
    apply List.map_congr_left
    intro g _
    apply List.map_congr_left
    intro n _
    congr 1
    rw [← Bool.decide_and]
    refine decide_eq_decide.2 ?_
    simp only [Rect.has, ttheta_by, phi_by, arctan2]

theorem fold2_num (rs : List Rect) (gs ns : List ℝ) (og on : ℝ) (p : ℝ → ℝ → Bool) :
    (rs.map Rect.win).foldlM (exclStep2 gs ns (gs.map fun g => ns.map fun n => ttheta_by (g * π / 180 - og) (n * π / 180 - on) * 180 / π)
      (gs.map fun g => ns.map fun n => phi_by (g * π / 180 - og) (n * π / 180 - on) * 180 / π)) (gs.map fun g => ns.map fun n => p g n)
      = .ok (gs.map fun g => ns.map fun n => p g n || decide (∃ r ∈ rs, r.has og on g n)) := by
  induction rs generalizing p with
  | nil => simp [pure, Except.pure]
  | cons r rs ih =>
    rw [List.map_cons, List.foldlM_cons, step2_num]
    show (rs.map Rect.win).foldlM _ _ = _
    rw [ih]
    congr 1
    apply List.map_congr_left
    intro g _
    apply List.map_congr_left
    intro n _
    rw [Bool.eq_iff_iff]
    simp [or_assoc]

/-- the array of an experiment measured at the angles `γ` and `ν`: `f i j` is the count of the pixel with the `i`-th `γ` and the `j`-th `ν` -/
def grid (a b : ℕ) (f : ℕ → ℕ → ℝ) : List (List ℝ) := (List.range a).map fun i : ℕ => (List.range b).map fun j : ℕ => f i j

/-- the numbers `i` of the angles within an interval -/
noncomputable def kept (xs : List ℝ) (w : Ivl) : List ℕ := (List.range xs.length).filter fun i : ℕ => decide (∃ x, xs[i]? = some x ∧ w.has x)

theorem flags_range (xs : List ℝ) (w : Ivl) :
    (xs.map fun x => decide (w.has x)) = (List.range xs.length).map fun i : ℕ => decide (∃ x, xs[i]? = some x ∧ w.has x) := by
  apply List.ext_getElem
  · simp
  · intro i h1 h2
    rw [List.length_map] at h1
    simp only [List.getElem_map, List.getElem_range]
    refine decide_eq_decide.2 ?_
    simp [List.getElem?_eq_getElem h1]

theorem mask2_grid (gamma nu : List ℝ) (wg wn : Ivl) (f : ℕ → ℕ → ℝ) :
    mask2 (gamma.map fun x => decide (wg.has x)) (nu.map fun x => decide (wn.has x)) (grid gamma.length nu.length f) =
      (kept gamma wg).map fun i => (kept nu wn).map fun j => f i j := by
  unfold mask2 grid
  rw [flags_range, flags_range, mask_map, List.map_map]
  apply List.map_congr_left
  intro i _
  exact mask_map _ _ _

/-- **C89, two dimensions.** The dictionary of a two-dimensional pattern holds the measured angles within the two closed intervals, of every array the
counts of the pixels with both angles within, each in its row and column, and marks the pixels in one of the excluded rectangles; the rectangles in
scattering angles are compared with the angles corrected for the offsets -/
theorem two_dimensional_spec (gamma nu : List ℝ) (fs : List (ℕ → ℕ → ℝ)) (wg wn : Ivl) (rs : List Rect) (og on : ℝ) :
    points2 gamma nu (fs.map (grid gamma.length nu.length)) (some (wg.win, wn.win)) (some (rs.map Rect.win)) og on =
      .ok
        { gamma := (gamma.filter fun g => decide (wg.has g)).map fun g => g * π / 180
          nu := (nu.filter fun n => decide (wn.has n)).map fun n => n * π / 180
          signal := fs.map fun f => (kept gamma wg).map fun i => (kept nu wn).map fun j => f i j
          excluded := (gamma.filter fun g => decide (wg.has g)).map fun g =>
            (nu.filter fun n => decide (wn.has n)).map fun n => decide (∃ r ∈ rs, r.has og on g n) } := by
  have hm (l : List ℝ) (w : Ivl) : mask (l.map fun x => decide (w.has x)) l = l.filter fun x => decide (w.has x) := by
    have := mask_map (fun x => decide (w.has x)) id l
    rwa [List.map_id, List.map_id] at this
  unfold points2
  simp only [inside_num, bind, Except.bind, hm]
  have := fold2_num rs (gamma.filter fun g => decide (wg.has g)) (nu.filter fun n => decide (wn.has n)) og on (fun _ _ => false)
  simp only [Bool.false_or] at this
  rw [this]
  simp only [pure, Except.pure, List.map_map]
  congr 2
  apply List.map_congr_left
  intro f _
  exact mask2_grid gamma nu wg wn f

/-! ## Limits -/

/-- limits between 0 and 180 are kept as given -/
theorem limits_kept {lo hi : ℝ} (h1 : 0 ≤ lo) (h2 : lo ≤ 180) (h3 : 0 ≤ hi) (h4 : hi ≤ 180) : Win.ofTtheta lo hi = Ivl.win ⟨lo, hi⟩ := by
  simp [Win.ofTtheta, Ivl.win, clip, not_lt.2 h1, not_lt.2 h2, not_lt.2 h3, not_lt.2 h4]

/-- whatever limits are given, between 0 and 180 degrees (these two left out) the interval is the asked one -/
theorem limits_between (lo hi : ℝ) : ∃ w : Ivl, Win.ofTtheta lo hi = w.win ∧ ∀ x, 0 < x → x < 180 → (w.has x ↔ lo ≤ x ∧ x ≤ hi) := by
  refine ⟨⟨clip 0 180 lo, clip 0 180 hi⟩, rfl, fun x h0 h1 => ?_⟩
  unfold Ivl.has clip
  dsimp only
  split_ifs <;> constructor <;> intro h <;> constructor <;> first | linarith [h.1, h.2] | (exfalso; linarith [h.1, h.2])

/-- the limits that are kept are the angles between 0 and 180 degrees nearest to the given ones -/
theorem limits_nearest (lo hi : ℝ) : ∃ a b, Win.ofTtheta lo hi = ⟨.num a, .num b⟩ ∧ 0 ≤ a ∧ a ≤ 180 ∧ 0 ≤ b ∧ b ≤ 180 ∧
    ∀ y, 0 ≤ y → y ≤ 180 → |lo - a| ≤ |lo - y| ∧ |hi - b| ≤ |hi - y| := by
  have key : ∀ x : ℝ, 0 ≤ clip 0 180 x ∧ clip 0 180 x ≤ 180 ∧ ∀ y, 0 ≤ y → y ≤ 180 → |x - clip 0 180 x| ≤ |x - y| := by
    intro x
    unfold clip
    dsimp only
    split_ifs with h1 h2 h2
    · linarith
    · refine ⟨le_refl _, by norm_num, fun y h3 _ => ?_⟩
      rw [abs_of_nonpos (by linarith), abs_of_nonpos (by linarith)]
      linarith
    · refine ⟨by norm_num, le_refl _, fun y _ h4 => ?_⟩
      rw [abs_of_nonneg (by linarith), abs_of_nonneg (by linarith)]
      linarith
    · refine ⟨by linarith, by linarith, fun y _ _ => ?_⟩
      rw [sub_self, abs_zero]
      exact abs_nonneg _
  obtain ⟨a1, a2, a3⟩ := key lo
  obtain ⟨b1, b2, b3⟩ := key hi
  exact ⟨_, _, rfl, a1, a2, b1, b2, fun y h0 h1 => ⟨a3 y h0 h1, b3 y h0 h1⟩⟩

/-- points measured beyond 180 degrees never take part either -/
theorem beyond_left_out (lo hi x : ℝ) (hx : 180 < x) : ∃ w : Ivl, Win.ofTtheta lo hi = w.win ∧ ¬ w.has x := by
  refine ⟨⟨clip 0 180 lo, clip 0 180 hi⟩, rfl, fun h => ?_⟩
  have h1 := h.2
  unfold clip at h1
  dsimp only at h1
  split_ifs at h1 <;> linarith

/-- defect: points measured at negative angles never take part, whatever range is given -/
theorem negative_angle_left_out (lo hi x : ℝ) (hx : x < 0) : ∃ w : Ivl, Win.ofTtheta lo hi = w.win ∧ ¬ w.has x := by
  refine ⟨⟨clip 0 180 lo, clip 0 180 hi⟩, rfl, fun h => ?_⟩
  have h1 := h.1
  unfold clip at h1
  dsimp only at h1
  split_ifs at h1 <;> linarith

/-- defect: excluding an interval below zero excludes the point at zero -/
theorem zero_excluded {lo hi : ℝ} (h : lo ≤ hi) (hn : hi < 0) : ∃ w : Ivl, Win.ofTtheta lo hi = w.win ∧ w.has 0 ∧ ¬ (lo ≤ 0 ∧ 0 ≤ hi) := by
  refine ⟨⟨clip 0 180 lo, clip 0 180 hi⟩, rfl, ?_, fun h => absurd h.2 (not_le.2 hn)⟩
  unfold Ivl.has clip
  rw [if_pos hn, if_pos (lt_of_le_of_lt h hn)]
  norm_num

/-! ## Undefined values -/

theorem column_missing {l : List Meas} {f : Meas → Val} (h : ∃ m ∈ l, f m = .missing) : column l f = .error .attr := by
  unfold column
  induction l with
  | nil => simp at h
  | cons a l ih =>
    rw [List.mapM_cons]
    rcases ha : f a with _ | _ | x
    · rfl
    all_goals
      have h' : ∃ m ∈ l, f m = .missing := by
        obtain ⟨m, hm, hf⟩ := h
        rcases List.mem_cons.1 hm with rfl | hm
        · rw [ha] at hf; cases hf
        · exact ⟨m, hm, hf⟩
      rw [ih h']
      rfl

/-- there is no dictionary of a measured pattern without a range -/
theorem no_range_raises (scale : ℝ) (l : List Meas) (e : Option (List Win)) : ∃ er, points scale l none e = .error er := by
  unfold points
  cases h : column l (fun m => m.x) with
  | error er => exact ⟨er, by simp [bind, Except.bind]⟩
  | ok xs => exact ⟨.attr, by simp [bind, Except.bind]⟩

/-- the errors are not set when the dictionary is formed: one unpolarised point without error raises -/
theorem missing_error_raises (scale : ℝ) (l : List Meas) (r : Ivl) (e : Option (List Win)) (h : ∃ m ∈ l, m.plus = .missing)
    (hs : ∃ m ∈ l, m.intS = .missing) : ∃ er, points scale l (some r.win) e = .error er := by
  have hall : (l.all fun m => m.plus.defined) = false := by
    rw [Bool.eq_false_iff, Ne, List.all_eq_true]
    intro h'
    obtain ⟨m, hm, hp⟩ := h
    have := h' m hm
    rw [hp] at this
    cases this
  have hsig (fl : List Bool) : ∃ er, signals fl l = .error er := by
    unfold signals
    simp only [hall, Bool.false_eq_true, if_false, column_missing hs]
    cases hc : column l (fun m => m.int) with
    | error er => exact ⟨er, rfl⟩
    | ok xs => exact ⟨.attr, rfl⟩
  have h4 : r.win.lo.read = .ok () := rfl
  have h5 : r.win.hi.read = .ok () := rfl
  unfold points
  cases hx : column l (fun m => m.x) with
  | error er => exact ⟨er, rfl⟩
  | ok xs =>
    simp only [bind, Except.bind, h4, h5]
    cases hi : inside xs r.win with
    | error er => exact ⟨er, rfl⟩
    | ok fl =>
      obtain ⟨er, her⟩ := hsig fl
      exact ⟨er, by simp only [her]⟩

/-- a mixture of polarised and unpolarised points raises, as soon as one point has no plus and one no intensity -/
theorem mixture_raises (fl : List Bool) (l : List Meas) (h : ∃ m ∈ l, m.plus = .missing) (hs : ∃ m ∈ l, m.int = .missing) :
    signals fl l = .error .attr := by
  have hall : (l.all fun m => m.plus.defined) = false := by
    rw [Bool.eq_false_iff, Ne, List.all_eq_true]
    intro h'
    obtain ⟨m, hm, hp⟩ := h
    have := h' m hm
    rw [hp] at this
    cases this
  unfold signals
  simp only [hall, Bool.false_eq_true, if_false, column_missing hs]
  rfl

/-! ## The errors of counts -/

theorem fill_given {v s : Val} (h : s ≠ .missing) : fill v s = .ok s := by
  cases s <;> simp_all [fill, Val.defined]

/-- setting the errors: an error that is given stays, a missing one becomes the root of the (not negative) intensity, nothing else changes -/
theorem applyConstraints_spec {m : Meas} (hp : ∀ x, m.plus = .num x → 0 ≤ x) (hm : ∀ x, m.minus = .num x → 0 ≤ x) (hi : ∀ x, m.int = .num x → 0 ≤ x)
    (np : m.plus ≠ .null) (nm : m.minus ≠ .null) (ni : m.int ≠ .null) :
    ∃ m', m.applyConstraints = .ok m' ∧ m'.x = m.x ∧ m'.plus = m.plus ∧ m'.minus = m.minus ∧ m'.int = m.int ∧
      (m.plusS ≠ .missing → m'.plusS = m.plusS) ∧ (m.minusS ≠ .missing → m'.minusS = m.minusS) ∧ (m.intS ≠ .missing → m'.intS = m.intS) ∧
      (∀ x, m.plus = .num x → m.plusS = .missing → m'.plusS = .num (√x)) ∧
      (∀ x, m.minus = .num x → m.minusS = .missing → m'.minusS = .num (√x)) ∧
      (∀ x, m.int = .num x → m.intS = .missing → m'.intS = .num (√x)) := by
  have key {v s : Val} (h : ∀ x, v = .num x → 0 ≤ x) (hn : v ≠ .null) :
      ∃ s', fill v s = .ok s' ∧ (s ≠ .missing → s' = s) ∧ ∀ x, v = .num x → s = .missing → s' = .num (√x) := by
    by_cases hs : s = .missing
    · subst hs
      rcases v with _ | _ | x
      · exact ⟨.missing, rfl, fun h => absurd rfl h, fun x hx => by cases hx⟩
      · exact absurd rfl hn
      · refine ⟨.num (√x), ?_, fun h => absurd rfl h, fun y hy _ => by cases hy; rfl⟩
        simp [fill, Val.defined, rootVal, not_lt.2 (h x rfl)]
    · exact ⟨s, fill_given hs, fun _ => rfl, fun x _ h => absurd h hs⟩
  obtain ⟨a, ha, ha1, ha2⟩ := key (s := m.plusS) hp np
  obtain ⟨b, hb, hb1, hb2⟩ := key (s := m.minusS) hm nm
  obtain ⟨c, hc, hc1, hc2⟩ := key (s := m.intS) hi ni
  refine ⟨{ m with plusS := a, minusS := b, intS := c }, ?_, rfl, rfl, rfl, rfl, ha1, hb1, hc1, ha2, hb2, hc2⟩
  simp only [Meas.applyConstraints, ha, hb, hc, bind, Except.bind, pure, Except.pure]

/-- doing it twice is doing it once -/
theorem applyConstraints_idem {m m' : Meas} (h : m.applyConstraints = .ok m') : m'.applyConstraints = .ok m' := by
  have key {v s s' : Val} (h : fill v s = .ok s') : fill v s' = .ok s' := by
    by_cases hs : s = .missing
    · subst hs
      rcases v with _ | _ | x
      · cases h; rfl
      · cases h
      · simp only [fill, Val.defined, rootVal, Bool.not_false, Bool.and_self, if_true] at h
        split_ifs at h
        cases h
        rfl
    · rw [fill_given hs] at h
      cases h
      exact fill_given hs
  unfold Meas.applyConstraints at h
  cases ha : fill m.plus m.plusS with
  | error er => simp [ha, bind, Except.bind] at h
  | ok a =>
    cases hb : fill m.minus m.minusS with
    | error er => simp [ha, hb, bind, Except.bind] at h
    | ok b =>
      cases hc : fill m.int m.intS with
      | error er => simp [ha, hb, hc, bind, Except.bind] at h
      | ok c =>
        simp only [ha, hb, hc, bind, Except.bind, pure, Except.pure] at h
        cases h
        simp only [Meas.applyConstraints, key ha, key hb, key hc, bind, Except.bind, pure, Except.pure]

/-- defect: a negative intensity (background already subtracted) without error raises -/
theorem negative_raises {m : Meas} {x : ℝ} (h : m.plus = .num x) (hx : x < 0) (hs : m.plusS = .missing) : m.applyConstraints = .error .type := by
  simp [Meas.applyConstraints, fill, h, hs, Val.defined, rootVal, hx, bind, Except.bind]

/-! ## An instance -/

/-- four points, the second in an excluded interval, the fourth out of the range -/
theorem example_points :
    points 1 ([⟨4, 10, 1, 20, 2⟩, ⟨5, 11, 1, 21, 2⟩, ⟨6, 12, 1, 22, 2⟩, ⟨8, 13, 1, 23, 2⟩].map PolPoint.item) (some (Ivl.win ⟨4, 6⟩))
      (some ([⟨5, 5⟩, ⟨7, 9⟩].map Ivl.win)) =
      .ok ⟨[some 4, some 5, some 6], .pol [some 10, some 11, some 12] [some 1, some 1, some 1] [some 20, some 21, some 22] [some 2, some 2, some 2],
        [false, true, false]⟩ := by
  have := polarised_spec 1 [⟨4, 10, 1, 20, 2⟩, ⟨5, 11, 1, 21, 2⟩, ⟨6, 12, 1, 22, 2⟩, ⟨8, 13, 1, 23, 2⟩] ⟨4, 6⟩ (some [⟨5, 5⟩, ⟨7, 9⟩])
  rw [Option.map_some] at this
  rw [this]
  have f4 : decide (Ivl.has ⟨4, 6⟩ 4) = true := by rw [decide_eq_true_eq]; constructor <;> norm_num
  have f5 : decide (Ivl.has ⟨4, 6⟩ 5) = true := by rw [decide_eq_true_eq]; constructor <;> norm_num
  have f6 : decide (Ivl.has ⟨4, 6⟩ 6) = true := by rw [decide_eq_true_eq]; constructor <;> norm_num
  have f8 : decide (Ivl.has ⟨4, 6⟩ 8) = false := by rw [decide_eq_false_iff_not]; intro h; have := h.2; norm_num at this
  simp only [List.filter_cons, f4, f5, f6, f8, if_true, Bool.false_eq_true, if_false, List.filter_nil, List.map_cons, List.map_nil, mul_one]
  congr 2
  simp [Ivl.has]
  norm_num

end Cryspy.Pts
