import Verif.Slater.Model
import Verif.MemIt.Model
import Verif.Text.Model

/-!
# The prior density made of core electrons

`AtomElectronConfiguration`, C_item_loop_classes/cl_1_atom_electron_configuration.py:73-99; the shells of a crystal, E_data_classes/cl_1_crystal.py:962-986;
`calc_density_spherical`, A_functions_base/orbital_functions.py:25-30; the prior, procedure_mempy/mempy_by_dictionary.py:171-192.  Text is ASCII (the
digits of other alphabets, which `\d` and `int` accept too, are left out); numbers are real.
-/

namespace Cryspy.Core

open Cryspy.Text Cryspy.Slater

/-- the groups of `re.match(r"(\d*)([s,p,d,f])(\d*)", w)`, cl_1_atom_electron_configuration.py:81, 95: the comma is one of the characters of the class, and what
follows the match is not looked at -/
def shellOf (w : Str) : Option (Str × Char × Str) :=
  match w.dropWhile Char.isDigit with
  | c :: t => if c ∈ ['s', ',', 'p', 'd', 'f'] then some (w.takeWhile Char.isDigit, c, t.takeWhile Char.isDigit) else none
  | [] => none

/-- `get_core_shells_populations`, cl_1_atom_electron_configuration.py:73-85; `none` is the exception of `int("")` -/
def coreShells : Option Str → Option (List (Str × ℕ))
  | none => some []
  | some s => ((words s).filterMap shellOf).mapM fun g => if g.2.2 = [] then none else some (g.1 ++ [g.2.1], natVal g.2.2)

/-- `get_valence_shells`, cl_1_atom_electron_configuration.py:87-99 -/
def valenceShells : Option Str → List Str
  | none => []
  | some s => ((words s).filterMap shellOf).map fun g => g.1 ++ [g.2.1]

/-- an item of `atom_electron_configuration` with the entries of the data base for the element of its atom: by the name of the shell -/
structure Conf where
  label : String
  core : Option Str
  table : Str → Option (List Fn)

/-- electrons and functions of the orbitals of an atom, cl_1_crystal.py:969-980; `none` is the `KeyError` of a shell that is not in the data base -/
def orbitals (c : Conf) : Option (List (ℕ × List Fn)) :=
  (coreShells c.core).bind fun l => l.mapM fun p : Str × ℕ => (c.table p.1).map fun fs => (p.2, fs)

/-- the entries `shell_...` of the dictionary, cl_1_crystal.py:962-986: those that are not empty -/
def setup (confs : List Conf) : Option (List (String × List (ℕ × List Fn))) :=
  (confs.mapM fun c => (orbitals c).map fun o => (c.label, o)).map fun l => l.filter fun e => !e.2.isEmpty

/-- `dict_crystal[f"shell_{label:}"]`, mempy_by_dictionary.py:184: what was written last -/
def lookup (d : List (String × List (ℕ × List Fn))) (l : String) : Option (List (ℕ × List Fn)) :=
  (d.reverse.find? fun e => decide (e.1 = l)).map Prod.snd

/-- `float(mag_atom_kappa[mag_atom_label == label])`, mempy_by_dictionary.py:185: an exception unless there is exactly one -/
def kappaOf (k : List (String × ℝ)) (l : String) : Option ℝ := match k.filter fun e => decide (e.1 = l) with
  | [e] => some e.2
  | _ => none

/-- `calc_density_spherical` at one radius, orbital_functions.py:25-30 -/
noncomputable def spherical (r : ℝ) (orbs : List (ℕ × List Fn)) (kappa : ℝ) : ℝ :=
  (orbs.map fun o => 4 * Real.pi * (o.1 : ℝ) * rhoNormalized r o.2 kappa ^ 2).sum

variable {n m : ℕ}

/-- the loop over the paramagnetic atoms, mempy_by_dictionary.py:180-189: from an array of zeros; `dist` are the distances of the points to their atoms -/
noncomputable def fill (G : MemIt.Grid n m) (dist : Fin m → ℝ) (d : List (String × List (ℕ × List Fn))) (kap : List (String × ℝ)) :
    List String → (Fin m → ℝ) → Option (Fin m → ℝ)
  | [], v => some v
  | l :: ls, v => do
    let orbs ← lookup d l
    let k ← kappaOf kap l
    fill G dist d kap ls fun j => if G.label j = l then spherical (dist j) orbs k else v j

/-- the prior density of the channel chi with `flag_uniform_prior_density` off, mempy_by_dictionary.py:176-192: `none` is an exception, `some none`
the NaN of an atom without density at its points -/
noncomputable def prior (G : MemIt.Grid n m) (dist : Fin m → ℝ) (d : List (String × List (ℕ × List Fn))) (kap : List (String × ℝ)) (para : List String) :
    Option (Option (Fin m → ℝ)) :=
  (fill G dist d kap para fun _ => 0).map (MemIt.renormChi G)

end Cryspy.Core
