import Verif.Tof.Model
import Verif.Gen.Powder

/-!
# The range of reflections of a powder pattern

The arrays of measured angles or times are not empty: first element and the rest.
-/

namespace Cryspy.Range

open Real Tof

/-- `sthovl_min`, `sthovl_max` of a one-dimensional pattern, procedure_rhochi/rhochi_pd.py:83, 105-112; `t :: ts` are the measured angles. -/
noncomputable def rangePd (t : ℝ) (ts : List ℝ) (offset wavelength : ℝ) : ℝ × ℝ :=
  let z := t - offset
  let zs := ts.map fun x => x - offset
  let m := sin (1 / 2 * npMin z zs - π / 90) / wavelength
  let sMin := if m ≤ 0 then 1 / 10000 else m
  let sMax := sin (1 / 2 * npMax z zs + π / 90) / wavelength
  if sMax ≤ sMin then
    let s := sMin + 1 / 100
    (sMin, if 1 ≤ s then 99999 / 100000 / wavelength else s)
  else (sMin, sMax)

/-- … of a two-dimensional pattern, procedure_rhochi/rhochi_pd2d.py:124-125, 164-170; `g :: gs` and `n :: ns` are the measured angles gamma
and nu. -/
noncomputable def rangePd2d (g : ℝ) (gs : List ℝ) (n : ℝ) (ns : List ℝ) (offG offN wavelength : ℝ) : ℝ × ℝ :=
  let z := g - offG
  let zs := gs.map fun x => x - offG
  let y := n - offN
  let ys := ns.map fun x => x - offN
  let tMin := Powder.ttheta_by (npMin z zs) 0
  let tMax := Powder.ttheta_by (npMax z zs) (npMax y ys)
  let m := sin (1 / 2 * tMin - π / 90) / wavelength
  let sMin := if m < 0 then 1 / 100000 else m
  (sMin, sin (1 / 2 * tMax + π / 90) / wavelength)

/-- … of a pattern over time of flight with thermal neutrons, procedure_rhochi/rhochi_tof.py:101-103, 123-124. -/
noncomputable def rangeTof (t : ℝ) (ts : List ℝ) (zero dtt1 dtt2 : ℝ) : Option (ℝ × ℝ) :=
  match dMinMax t ts zero dtt1 dtt2 with
  | (some lo, some hi) => some (1 / 2 / hi, 1 / 2 / lo)
  | _ => none

end Cryspy.Range
