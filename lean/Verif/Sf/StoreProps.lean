import Verif.Sf.Store
import Verif.Sf.Props2

/-!
# C57: stored intermediate results
-/

namespace Cryspy.Sf

open Symm Real

/-- Crystal parameters that a refinement can change. -/
structure Params where
  uc : Fin 6 → ℝ
  atoms : List Atom

/-- Specification: `q` is `p` with changes in the refined groups only; scattering lengths and the multiplicities of the
sites stay. -/
structure Admissible (s : Sym) (f : Flags) (p q : Params) : Prop where
  uc : f.uc = false → q.uc = p.uc
  xyz : f.xyz = false → q.atoms.map (·.x) = p.atoms.map (·.x)
  occ : f.occ = false → q.atoms.map (·.occ) = p.atoms.map (·.occ)
  bIso : f.bIso = false → q.atoms.map (·.bIso) = p.atoms.map (·.bIso)
  beta : f.beta = false → q.atoms.map (·.beta) = p.atoms.map (·.beta)
  b : q.atoms.map (·.b) = p.atoms.map (·.b)
  mult : q.atoms.map (fun a => multiplicity s.full (siteOf a.x)) = p.atoms.map fun a => multiplicity s.full (siteOf a.x)

/-! ### Fresh values -/

noncomputable def multOf (s : Sym) (p : Params) : List ℕ := p.atoms.map fun a => multiplicity s.full (siteOf a.x)
noncomputable def p1Of (s : Sym) (h : V3) (p : Params) : List (List ℂ) := p.atoms.map fun a => s.reduced.map fun e => pr1 h e a.x
noncomputable def dwfOf (s : Sym) (h : V3) (p : Params) : List (List ℝ) :=
  p.atoms.map fun a => s.reduced.map fun e => Adp.dwf (hklR h) (Cell.calc_sthovl (hklR h) p.uc) a.bIso a.beta (flat e.r)
noncomputable def fasOf (s : Sym) (h : V3) (p : Params) : List ℂ :=
  fAsymArr (multOf s p) (dwfOf s h p) (p.atoms.map (·.occ)) (p1Of s h p) (s.reduced.map (pr2 h))
noncomputable def fnOf (s : Sym) (h : V3) (p : Params) : ℂ :=
  fByAsym ((p.atoms.map (·.b)).zip (fasOf s h p)) (pr3 h s.trans) s.centro (if s.centro then pr4 h s.centre else 0)

theorem zipWith_diag {α β : Type} (F : α → α → β) (l : List α) : List.zipWith F l l = l.map fun a => F a a := by
  induction l with
  | nil => rfl
  | cons a l ih => simp [ih]

theorem fasOf_eq (s : Sym) (h : V3) (p : Params) :
    fasOf s h p = p.atoms.map fun a => fAsym (multiplicity s.full (siteOf a.x)) s.reduced (dw p.uc h a) h a := by
  unfold fasOf fAsymArr multOf dwfOf p1Of
  rw [List.zip_map', List.zip_map', List.zip_map', List.map_map]
  refine List.map_congr_left fun a _ => ?_
  simp only [Function.comp]
  unfold fAsym dw
  rw [List.zip_map', List.zipWith_map, zipWith_diag, List.length_map]

theorem fnOf_eq (s : Sym) (h : V3) (p : Params) : fnOf s h p = fNucl s p.uc p.atoms h := by
  unfold fnOf fNucl
  rw [fasOf_eq, List.zip_map']
  unfold fByAsym
  by_cases hc : s.centro = true
  · simp [hc]
  · simp [hc]

/-- The dictionary with everything computed from the parameters. -/
noncomputable def freshStore (use : Bool) (s : Sym) (h : V3) (q : Params) (st : Store) : Store :=
  ⟨st.hkl, if use && st.mult.isSome then st.full else some s.full, some (multOf s q), some (p1Of s h q),
    some (s.reduced.map (pr2 h)), some (pr3 h s.trans), some (if s.centro then pr4 h s.centre else 0),
    some (Cell.calc_sthovl (hklR h) q.uc), some (dwfOf s h q), some (fasOf s h q), some (fnOf s h q)⟩

/-- Every entry of the dictionary is what would be computed from the parameters `p`. -/
structure Consistent (s : Sym) (h : V3) (p : Params) (st : Store) : Prop where
  hkl : ∀ v, st.hkl = some v → v = h
  full : ∀ v, st.full = some v → v = s.full
  mult : ∀ v, st.mult = some v → v = multOf s p
  p1 : ∀ v, st.p1 = some v → v = p1Of s h p
  p2 : ∀ v, st.p2 = some v → v = s.reduced.map (pr2 h)
  p3 : ∀ v, st.p3 = some v → v = pr3 h s.trans
  p4 : ∀ v, st.p4 = some v → v = if s.centro then pr4 h s.centre else 0
  sth : ∀ v, st.sth = some v → v = Cell.calc_sthovl (hklR h) p.uc
  dwf : ∀ v, st.dwf = some v → v = dwfOf s h p
  fas : ∀ v, st.fas = some v → v = fasOf s h p
  fn : ∀ v, st.fn = some v → v = fnOf s h p

theorem recall_eq {α : Type} {use again : Bool} {o : Option α} {c v : α} (hc : c = v)
    (ho : ∀ w, o = some w → again = false → w = v) : recall use o again c = v := by
  unfold recall
  cases o with
  | none => exact hc
  | some w =>
    simp only
    split_ifs with h
    · simp only [Bool.and_eq_true, Bool.not_eq_true'] at h
      exact ho w rfl h.2
    · exact hc

/-- The parameters that `f_asym` uses are flagged so that a change is noticed. -/
def Noticed (f : Flags) : Prop := f.xyz = true ∨ f.bIso = true ∨ f.beta = true ∨ (f.occ = false ∧ f.uc = false)

theorem map_pair {α β γ : Type} {l m : List α} {g : α → β} {k : α → γ} (h1 : l.map g = m.map g) (h2 : l.map k = m.map k) :
    l.map (fun a => (g a, k a)) = m.map fun a => (g a, k a) := by
  rw [← List.zip_map', ← List.zip_map', h1, h2]

theorem call_consistent (use : Bool) (f : Flags) (s : Sym) (h : V3) (p q : Params) (st : Store) (hf : Noticed f)
    (hst : Consistent s h p st) (ha : Admissible s f p q) :
    Consistent s h q (call use f s q.uc q.atoms h st) ∧ (call use f s q.uc q.atoms h st).fn = some (fnOf s h q) := by
  -- the reflection has not changed
  have hany : (use && st.hkl.any (fun g => decide (g ≠ h))) = false := by
    cases hh : st.hkl with
    | none => simp
    | some v => simp [hst.hkl v hh]
  have hfull : st.full.getD s.full = s.full := by
    cases hh : st.full with
    | none => rfl
    | some v => exact hst.full v hh
  have eM : recall use st.mult false (q.atoms.map fun a => multiplicity (st.full.getD s.full) (siteOf a.x)) = multOf s q := by
    apply recall_eq
    · rw [hfull]; rfl
    · intro w hw _
      rw [hst.mult w hw]
      exact ha.mult.symm
  have e1 : recall use st.p1 f.xyz (q.atoms.map fun a => s.reduced.map fun e => pr1 h e a.x) = p1Of s h q := by
    apply recall_eq rfl
    intro w hw hx
    rw [hst.p1 w hw]
    have := congrArg (List.map fun x => s.reduced.map fun e => pr1 h e x) (ha.xyz hx)
    rw [List.map_map, List.map_map] at this
    exact this.symm
  have e2 : recall use st.p2 false (s.reduced.map (pr2 h)) = s.reduced.map (pr2 h) := recall_eq rfl fun w hw _ => hst.p2 w hw
  have e3 : recall use st.p3 false (pr3 h s.trans) = pr3 h s.trans := recall_eq rfl fun w hw _ => hst.p3 w hw
  have e4 : recall use st.p4 false (if s.centro then pr4 h s.centre else 0) = if s.centro then pr4 h s.centre else 0 :=
    recall_eq rfl fun w hw _ => hst.p4 w hw
  have eS : recall use st.sth f.uc (Cell.calc_sthovl (hklR h) q.uc) = Cell.calc_sthovl (hklR h) q.uc :=
    recall_eq rfl fun w hw hu => by rw [hst.sth w hw, ha.uc hu]
  have dwfSame : f.uc = false → f.bIso = false → f.beta = false → dwfOf s h q = dwfOf s h p := by
    intro h1 h2 h3
    unfold dwfOf
    rw [ha.uc h1]
    have := congrArg (List.map fun bb : ℝ × (Fin 6 → ℝ) => s.reduced.map fun e =>
      Adp.dwf (hklR h) (Cell.calc_sthovl (hklR h) p.uc) bb.1 bb.2 (flat e.r)) (map_pair (ha.bIso h2) (ha.beta h3))
    rw [List.map_map, List.map_map] at this
    exact this
  have eD : recall use st.dwf (f.uc || f.bIso || f.beta) (q.atoms.map fun a => s.reduced.map fun e =>
      Adp.dwf (hklR h) (recall use st.sth f.uc (Cell.calc_sthovl (hklR h) q.uc)) a.bIso a.beta (flat e.r)) = dwfOf s h q := by
    rw [eS]
    apply recall_eq rfl
    intro w hw hx
    simp only [Bool.or_eq_false_iff] at hx
    rw [hst.dwf w hw, ← dwfSame hx.1.1 hx.1.2 hx.2]; rfl
  have fasSame : (f.bIso || f.beta || f.xyz) = false → fasOf s h q = fasOf s h p := by
    intro hx
    simp only [Bool.or_eq_false_iff] at hx
    obtain ⟨ho, hu⟩ : f.occ = false ∧ f.uc = false := by
      rcases hf with h | h | h | h
      · rw [hx.2] at h; simp at h
      · rw [hx.1.1] at h; simp at h
      · rw [hx.1.2] at h; simp at h
      · exact h
    unfold fasOf
    rw [dwfSame hu hx.1.1 hx.1.2, ha.occ ho]
    have hm : multOf s q = multOf s p := ha.mult
    have hp : p1Of s h q = p1Of s h p := by
      have := congrArg (List.map fun x => s.reduced.map fun e => pr1 h e x) (ha.xyz hx.2)
      rw [List.map_map, List.map_map] at this
      exact this
    rw [hm, hp]
  have eA : recall use st.fas (f.bIso || f.beta || f.xyz) (fasOf s h q) = fasOf s h q :=
    recall_eq rfl fun w hw hx => by rw [hst.fas w hw, fasSame hx]
  have eF : recall use st.fn (f.bIso || f.beta || f.xyz) (fnOf s h q) = fnOf s h q :=
    recall_eq rfl fun w hw hx => by
      rw [hst.fn w hw]
      unfold fnOf
      rw [fasSame hx, ha.b]
  have hcall : call use f s q.uc q.atoms h st = freshStore use s h q st := by
    unfold call freshStore
    simp only [hany, Bool.false_eq_true, if_false]
    rw [hfull] at eM
    rw [hfull, eM, e1, e2, e3, e4, eD, eS]
    rw [show fAsymArr (multOf s q) (dwfOf s h q) (q.atoms.map (·.occ)) (p1Of s h q) (s.reduced.map (pr2 h)) = fasOf s h q from rfl, eA]
    rw [show fByAsym ((q.atoms.map (·.b)).zip (fasOf s h q)) (pr3 h s.trans) s.centro (if s.centro then pr4 h s.centre else 0) = fnOf s h q from rfl, eF]
  rw [hcall]
  unfold freshStore
  refine ⟨⟨hst.hkl, ?_, ?_, ?_, ?_, ?_, ?_, ?_, ?_, ?_, ?_⟩, rfl⟩
  · intro v hv
    simp only at hv
    split_ifs at hv
    · exact hst.full v hv
    · rw [Option.some.injEq] at hv; exact hv.symm
  all_goals
    intro v hv
    simp only [Option.some.injEq] at hv
    exact hv.symm

/-- **C57** Without stored data the result is the structure factor. -/
theorem call_empty (use : Bool) (f : Flags) (s : Sym) (uc : Fin 6 → ℝ) (atoms : List Atom) (h : V3) :
    (call use f s uc atoms h {}).fn = some (fNucl s uc atoms h) := by
  simp only [call, recall, Option.any_none, Bool.and_false, Bool.false_eq_true, if_false, Option.getD_none, Option.some.injEq]
  exact fnOf_eq s h ⟨uc, atoms⟩

/-- The store after the calls with the parameters of the list, one after the other. -/
noncomputable def runCalls (f : Flags) (s : Sym) (h : V3) (st : Store) (ps : List Params) : Store :=
  ps.foldl (fun st p => call true f s p.uc p.atoms h st) st

/-- **C57** A whole refinement, any number of calls that use the stored data: if the calls differ in refined groups of
parameters only, and coordinates or displacement parameters are among these, or neither occupancies nor the cell are,
the last result is the structure factor of the last parameters.  For refinements of
occupancies or of the cell without coordinates and displacement parameters see `stored_stale`.  `Admissible` asks
that the multiplicities of the sites stay as they are: the site constraints keep atoms on their positions. -/
theorem stored_correct (f : Flags) (hf : Noticed f) (s : Sym) (h : V3) (p0 : Params) (ps : List Params)
    (hp : (p0 :: ps).IsChain (Admissible s f)) :
    (runCalls f s h {} (p0 :: ps)).fn =
      some (fNucl s ((p0 :: ps).getLast (by simp)).uc ((p0 :: ps).getLast (by simp)).atoms h) := by
  have h0 : Consistent s h p0 {} := by
    constructor <;> · intro v hv; simp at hv
  have hrefl : Admissible s f p0 p0 := ⟨fun _ => rfl, fun _ => rfl, fun _ => rfl, fun _ => rfl, fun _ => rfl, rfl, rfl⟩
  have aux : ∀ (ps : List Params) (p q : Params) (st : Store), Consistent s h p st → Admissible s f p q → (q :: ps).IsChain (Admissible s f) →
      (runCalls f s h st (q :: ps)).fn = some (fnOf s h ((q :: ps).getLast (by simp))) := by
    intro ps
    induction ps with
    | nil =>
      intro p q st hc ha _
      exact (call_consistent true f s h p q st hf hc ha).2
    | cons r t ih =>
      intro p q st hc ha hch
      have h1 := call_consistent true f s h p q st hf hc ha
      rw [List.isChain_cons_cons] at hch
      have := ih q r _ h1.1 hch.1 hch.2
      simpa only [runCalls, List.foldl_cons, List.getLast_cons_cons] using this
  rw [aux ps p0 p0 {} h0 hrefl hp, fnOf_eq]

/-- **C57, failure** If neither coordinates nor displacement parameters are refined, a second call gives the result of the
first one, whatever the new occupancies and the new cell. -/
theorem stored_stale (f : Flags) (hx : f.xyz = false) (hb : f.bIso = false) (he : f.beta = false) (s : Sym)
    (uc uc' : Fin 6 → ℝ) (atoms atoms' : List Atom) (h : V3) :
    (call true f s uc' atoms' h (call true f s uc atoms h {})).fn = some (fNucl s uc atoms h) := by
  have h1 : (call true f s uc atoms h {}).fn = some (fNucl s uc atoms h) := call_empty true f s uc atoms h
  have h2 : (call true f s uc atoms h {}).hkl = none := by simp [call]
  generalize call true f s uc atoms h {} = st at h1 h2
  unfold call
  simp only [h2, Option.any_none, Bool.and_false, Bool.false_eq_true, if_false, hx, hb, he, Bool.or_false]
  rw [h1]
  rfl

/-- One atom at the origin without symmetry, of the given occupancy. -/
def oneAtom (occ : ℝ) : Atom := ⟨fun _ => 0, occ, 1, 0, 0⟩
def p1Sym : Sym := ⟨[idElem], false, ⟨fun _ => 0, 1⟩, [⟨fun _ => 0, 1⟩]⟩

theorem oneAtom_f (uc : Fin 6 → ℝ) (occ : ℝ) : fNucl p1Sym uc [oneAtom occ] 0 = occ := by
  have hm : multiplicity p1Sym.full (siteOf (oneAtom occ).x) = 1 := by
    have : siteOf (oneAtom occ).x = siteOf (fun _ => 0) := rfl
    rw [this]
    decide +kernel
  have hd : dw uc 0 (oneAtom occ) idElem.r = 1 := by
    unfold dw Adp.dwf
    simp [Adp.power_iso, Adp.power_aniso, oneAtom, hklR]
  unfold fNucl fByAsym
  simp only [List.map_cons, List.map_nil]
  rw [hm, pr3_allowed 0 p1Sym.trans (by simp [p1Sym]) (fun t _ => ⟨0, by simp [hdot]⟩), fAsym_eq]
  have hr : p1Sym.reduced = [idElem] := rfl
  have hc : p1Sym.centro = false := rfl
  rw [hr, hc]
  simp only [List.map_cons, List.map_nil, hd]
  rw [show hdot 0 (act idElem (oneAtom occ).x) = 0 by simp [hdot], ph_zero]
  simp [oneAtom]

/-- **C57, failure** A refinement of an occupancy alone: after the occupancy has changed from 1 to 1/2 the program still uses the structure factor 1. -/
theorem occupancy_stale (uc : Fin 6 → ℝ) :
    (call true ⟨false, false, true, false, false⟩ p1Sym uc [oneAtom (1 / 2)] 0
      (call true ⟨false, false, true, false, false⟩ p1Sym uc [oneAtom 1] 0 {})).fn = some 1 ∧
    fNucl p1Sym uc [oneAtom (1 / 2)] 0 = 1 / 2 := by
  constructor
  · rw [stored_stale _ rfl rfl rfl, oneAtom_f]; simp
  · rw [oneAtom_f]; push_cast; rfl

/-- The hypotheses of `stored_correct` hold for a refinement of occupancy and `B_iso` together, and there the result is right. -/
example (uc : Fin 6 → ℝ) :
    (runCalls ⟨false, false, true, true, false⟩ p1Sym 0 {} [⟨uc, [oneAtom 1]⟩, ⟨uc, [oneAtom (1 / 2)]⟩]).fn = some (1 / 2) := by
  rw [stored_correct _ (Or.inr (Or.inl rfl))]
  · simp only [List.getLast_cons_cons, List.getLast_singleton]
    rw [oneAtom_f]; push_cast; rfl
  · simp only [List.isChain_cons_cons, List.isChain_singleton, and_true]
    exact ⟨fun _ => rfl, fun _ => rfl, fun h => by simp at h, fun h => by simp at h, fun _ => rfl, rfl, rfl⟩

end Cryspy.Sf
