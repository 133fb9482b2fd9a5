import Verif.Symm.Model

/-!
# Stored intermediate results of a powder experiment, procedure_rhochi/rhochi_pd.py, rhochi_pd2d.py, rhochi_tof.py

During a refinement the chi squared of a powder experiment is computed again and again with the same dictionary `dict_in_out` and
`flag_use_precalculated_data=True` (rhochi_by_dictionary.py:155-170).  The model follows the decisions between stored and computed
quantities; the computed quantities themselves are functions of the parameters (they are the subject of C58, C59, C27, C28, C46, C47).
The structure factors are taken to be those of the current parameters: their own stored data are the subject of C57.
-/

namespace Cryspy.PdStore

open Symm

/-- Groups of parameters that are flagged for refinement together.  `offset` stands for the zero shifts of the angles or the
calibration of the time of flight, `beam` for polarisation and efficiency of the flipper, `shape` for the parameters of the peak shape, `rest` for scales,
`bkg` for background and incident spectrum;
the others belong to phase number `i`: cell, atoms (positions, occupancies, displacements), susceptibilities, moments (with the
parameters of their form factors), texture. -/
inductive Grp
  | offset | wave | bkg | beam | shape | rest
  | uc (i : ℕ) | atoms (i : ℕ) | para (i : ℕ) | mom (i : ℕ) | tex (i : ℕ)
deriving DecidableEq

/-- Which branch computes the intensities, rhochi_pd.py:253-316. -/
inductive Kind
  | nuclear | para | ordered | mixed
deriving DecidableEq

/-- What differs between the three procedures.
`idxFlags`: flags that make the list of reflections be computed again (rhochi_pd.py:216-220: cell and offset; rhochi_pd2d.py:267-269: the
same; rhochi_tof.py:283-285: cell).
`iintStored`: the branches in which stored intensities can be used: only that of ordered moments, because the others look for the key
"iint_minu" (rhochi_pd.py:276, 287, 301; rhochi_pd2d.py:339, 353, 367; rhochi_tof.py:347).
`profFlags`: flags that make the profile be computed again; the list of `none` always (rhochi_pd.py:366; rhochi_pd2d.py:425 looks for the
key in the wrong dictionary); rhochi_tof.py:376-379: cell, calibration, shape. -/
structure Proc where
  idxFlags : ℕ → List Grp
  iintStored : Kind → Bool
  profFlags : Option (ℕ → List Grp)

/-- rhochi_pd.py and rhochi_pd2d.py -/
def pd : Proc := ⟨fun i => [.uc i, .offset], fun k => k = .ordered, none⟩

/-- rhochi_tof.py -/
def tof : Proc := ⟨fun i => [.uc i], fun _ => false, some fun i => [.uc i, .offset, .shape]⟩

variable (V I P R S O : Type)

/-- The computed quantities as functions of the parameters: list of reflections of a phase, its intensities, preferred orientation and
profile on that list, background; the pattern (with chi squared) from all of them. -/
structure Env where
  kind : ℕ → Kind
  textured : ℕ → Bool
  refl : ℕ → (Grp → V) → List V3
  iint : ℕ → (Grp → V) → List V3 → I
  po : ℕ → (Grp → V) → List V3 → P
  prof : ℕ → (Grp → V) → List V3 → R
  bkg : (Grp → V) → S
  pattern : (Grp → V) → S → List (ℕ × List V3 × I × Option P × R) → O

/-- `dict_in_out[f"dict_in_out_{p_name:}"]` -/
structure PStore where
  idx : Option (List V3) := none
  iint : Option I := none
  po : Option P := none
  prof : Option R := none

/-- `dict_in_out` -/
structure Store where
  bkg : Option S := none
  phase : ℕ → PStore I P R := fun _ => {}

variable {V I P R S O}

/-- the shape of the stored list is that of the new one and `numpy.all(numpy.logical_and(stored, new))`, rhochi_pd.py:235-239: the lists have
the same length and no index in either is zero. -/
def keepUse (old new : List V3) : Bool :=
  old.length == new.length && old.all (fun h => (List.finRange 3).all fun k => h k != 0) &&
    new.all (fun h => (List.finRange 3).all fun k => h k != 0)

/-- `if stored and allowed: stored else: computed` -/
def pick {α : Type} (allowed : Bool) (stored : Option α) (computed : α) : α :=
  match stored with
  | some v => if allowed then v else computed
  | none => computed

/-- The list of reflections and the new value of `flag_use_precalculated_data`, rhochi_pd.py:216-242. -/
def reflections (q : Proc) (E : Env V I P R S O) (f : Grp → Bool) (p : Grp → V) (use : Bool) (old : Option (List V3)) (i : ℕ) :
    List V3 × Bool :=
  match old with
  | none => (E.refl i p, use)
  | some l => if use && !((q.idxFlags i).any f) then (l, use) else (E.refl i p, use && keepUse l (E.refl i p))

/-- One phase, rhochi_pd.py:174-395: the quantities used, the new store and flag. -/
def phaseStep (q : Proc) (E : Env V I P R S O) (f : Grp → Bool) (p : Grp → V) (use : Bool) (st : PStore I P R) (i : ℕ) :
    (List V3 × I × Option P × R) × PStore I P R × Bool :=
  let lu := reflections q E f p use st.idx i
  let l := lu.1
  let use := lu.2
  let flagIint := f (.uc i) || f (.atoms i) || f .beam
  let iint := pick (use && q.iintStored (E.kind i) && !flagIint) st.iint (E.iint i p l)
  let po := pick (use && !f (.tex i)) st.po (E.po i p l)
  let prof := match q.profFlags with
    | none => E.prof i p l
    | some fl => pick (use && !((fl i).any f)) st.prof (E.prof i p l)
  ((l, iint, if E.textured i then some po else none, prof),
    ⟨some l, some iint, if E.textured i then some po else st.po, some prof⟩, use)

/-- The loop over the phases: once the flag is lost it is lost for all following phases. -/
def phases (q : Proc) (E : Env V I P R S O) (f : Grp → Bool) (p : Grp → V) :
    Bool → (ℕ → PStore I P R) → List ℕ → List (ℕ × List V3 × I × Option P × R) × (ℕ → PStore I P R)
  | _, st, [] => ([], st)
  | use, st, i :: t =>
    let r := phaseStep q E f p use (st i) i
    let rest := phases q E f p r.2.2 (Function.update st i r.2.1) t
    ((i, r.1) :: rest.1, rest.2)

/-- One evaluation: background (rhochi_pd.py:118-124), phases, pattern. -/
def eval (q : Proc) (E : Env V I P R S O) (f : Grp → Bool) (names : List ℕ) (p : Grp → V) (use : Bool) (st : Store I P R S) :
    O × Store I P R S :=
  let b := pick (use && !f .bkg) st.bkg (E.bkg p)
  let r := phases q E f p use st.phase names
  (E.pattern p b r.1, ⟨some b, r.2⟩)

/-- A refinement, rhochi_by_dictionary.py:112-175: the first evaluation without stored data, the others with; the results. -/
def refine (q : Proc) (E : Env V I P R S O) (f : Grp → Bool) (names : List ℕ) : List (Grp → V) → Store I P R S → List O
  | [], _ => []
  | p :: t, st => let r := eval q E f names p true st; r.1 :: refine q E f names t r.2

/-- The results of the whole history `p₀, ps`. -/
def history (q : Proc) (E : Env V I P R S O) (f : Grp → Bool) (names : List ℕ) (p₀ : Grp → V) (ps : List (Grp → V)) : List O :=
  let r := eval q E f names p₀ false {}
  r.1 :: refine q E f names ps r.2

end Cryspy.PdStore
