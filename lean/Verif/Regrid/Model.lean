import Verif.Gen.Powder

/-!
# Two-dimensional patterns on another grid, A_functions_base/function_1_gamma_nu.py

Numbers are reals; an intensity is `none` where it is `None`.  `none` as the value of a function is an exception.
-/

namespace Cryspy.Regrid

open Real

/-- `gammanu_to_tthphi`, function_1_gamma_nu.py:15-31. -/
noncomputable def gammanuToTthphi (gamma nu : ℝ) : ℝ × ℝ :=
  (arccos (cos gamma * cos nu), Powder.arctan2 (sin nu) (cos nu * sin gamma))

/-- `tthphi_to_gammanu`, function_1_gamma_nu.py:34-38. -/
noncomputable def tthphiToGammanu (tth phi : ℝ) : ℝ × ℝ :=
  (Powder.arctan2 (cos phi * sin tth) (cos tth), arcsin (sin tth * sin phi))

/-- `app_2d`, function_1_gamma_nu.py:105-112; arithmetic with `None` raises and is caught. -/
def app2d : Option ℝ → Option ℝ → Option ℝ → Option ℝ → ℝ → ℝ → Option ℝ
  | some f11, some f12, some f21, some f22, nx, ny =>
    let res2 := f21 - nx * (f21 - f22)
    let res1 := f11 - nx * (f11 - f12)
    some (res1 - ny * (res1 - res2))
  | _, _, _, _, _, _ => none

/-- one turn of the loop of `app_grid`, function_1_gamma_nu.py:82-101; the exceptions are `ZeroDivisionError` and `IndexError`. -/
noncomputable def appPoint (mat : List (List (Option ℝ))) (minX stepX : ℝ) (nX : ℕ) (minY stepY : ℝ) (nY : ℕ) (p : ℝ × ℝ) : Option (Option ℝ) :=
  if stepX = 0 ∨ stepY = 0 then none
  else
    let x := (p.1 - minX) / stepX
    let y := (p.2 - minY) / stepY
    if 0 ≤ x ∧ x < (nX : ℝ) - 1 ∧ 0 ≤ y ∧ y < (nY : ℝ) - 1 then
      let i := ⌊x⌋.toNat
      let j := ⌊y⌋.toNat
      match mat[j]?, mat[j + 1]? with
      | some r1, some r2 =>
        match r1[i]?, r1[i + 1]?, r2[i]?, r2[i + 1]? with
        | some f11, some f12, some f21, some f22 => some (app2d f11 f12 f21 f22 (Int.fract x) (Int.fract y))
        | _, _, _, _ => none
      | _, _ => none
    else some none

/-- `app_grid`, function_1_gamma_nu.py:73-102: the steps are those of equidistant grids with the given ends and numbers of points. -/
noncomputable def appGrid (mat : List (List (Option ℝ))) (xs ys : List ℝ) (pts : List (ℝ × ℝ)) : Option (List (Option ℝ)) :=
  match xs.head?, xs.getLast?, ys.head?, ys.getLast? with
  | some x0, some x1, some y0, some y1 =>
    if xs.length = 1 ∨ ys.length = 1 then none
    else pts.mapM (appPoint mat x0 ((x1 - x0) / ((xs.length : ℝ) - 1)) xs.length y0 ((y1 - y0) / ((ys.length : ℝ) - 1)) ys.length)
  | _, _, _, _ => none

/-- `recal_int_to_gammanu_grid`, function_1_gamma_nu.py:58-70. -/
noncomputable def toGammaNu (tths phis : List ℝ) (mat : List (List (Option ℝ))) (gammas nus : List ℝ) : Option (List (List (Option ℝ))) :=
  let pts := nus.flatMap fun nu => gammas.map fun gamma => gammanuToTthphi gamma nu
  match appGrid mat tths phis pts with
  | none => none
  | some l => (List.range nus.length).mapM fun j => (List.range gammas.length).mapM fun i => l[i + j * gammas.length]?

/-- `recal_int_to_tthphi_grid`, function_1_gamma_nu.py:41-55. -/
noncomputable def toTthPhi (gammas nus : List ℝ) (mat : List (List (Option ℝ))) (tths phis : List ℝ) : Option (List (List (Option ℝ))) :=
  let pts := phis.flatMap fun phi => tths.map fun tth => tthphiToGammanu tth phi
  match appGrid mat gammas nus pts with
  | none => none
  | some l => (List.range phis.length).mapM fun j => (List.range tths.length).mapM fun i => l[i + j * tths.length]?

/-- `alpha_det`, procedure_rhochi/rhochi_pd2d.py:154-158, one pixel. -/
noncomputable def alphaDet (gamma nu : ℝ) : ℝ := arccos (sin nu / √(2 - 2 * cos gamma * cos nu))

end Cryspy.Regrid
