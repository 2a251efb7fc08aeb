import Verif.Model.Float
import Verif.Model.Helpers

/-!
# Overlap of two circles in double precision

Every operation is rounded to 53 binary digits; `np.arccos` is that of a mathematical library.  Squares are taken to be correctly rounded products.
Overflow and underflow are not represented.
-/

noncomputable section

namespace Vsm

open Real

namespace Libm

variable (M : Libm)

open Classical in
/-- The inner function `area(_R, _d)` (helpers.py:275-276): NaN if the argument of `np.arccos` is outside [-1, 1] or that of `np.sqrt` negative. -/
def segArea (R d : ℝ) : Fl :=
  let q := dbl (d / R)
  let s := dbl (dbl (R * R) - dbl (d * d))
  if |q| ≤ 1 ∧ 0 ≤ s then .fin (dbl (dbl (dbl (R * R) * M.arccos q) - dbl (d * dbl √s))) else .nan

open Classical in
/-- `calc_circ_fraction_inside_unit_circle` (helpers.py:223-282). -/
def circFraction (x y r : ℝ) : Py Fl :=
  let d := dbl √(dbl (dbl (x * x) + dbl (y * y)))
  if 1 < r then .error .valueError
  else if dbl (1 + r) < d then .ok (.fin 0)
  else if d ≤ dbl (1 - r) then .ok (.fin 1)
  else if d = 0 ∧ r = 1 then .ok (.fin 1)
  else
    let d1 := dbl (dbl (dbl (dbl (d * d) - dbl (r * r)) + 1) / dbl (2 * d))
    let d2 := dbl (dbl (dbl (dbl (d * d) + dbl (r * r)) - 1) / dbl (2 * d))
    match M.segArea 1 d1, M.segArea r d2 with
    | .fin a, .fin b => .ok (.fin (dbl (dbl (a + b) / dbl (dbl π * dbl (r * r)))))
    | _, _ => .ok .nan

/-- `wall_frac` of `Facula.effective_area` (faculae.py:252-255) from the depth, the radius and the computed tangent of the angle. -/
def wallFraction (depth radius tan : ℝ) : Py Fl :=
  match M.circFraction (dbl (dbl (depth / radius) * tan)) 0 1 with
  | .ok (.fin f) => .ok (.fin (dbl (1 - f)))
  | .ok _ => .ok .nan
  | .error e => .error e

/-- The two areas `Facula.effective_area` reports, wall and floor, of a facula whose radius is at least `floor_teff_min_rad` (faculae.py:254-262);
`tan` is the computed `np.tan(angle)`. -/
def wallFloor (depth radius angle tan : ℝ) : Py (Fl × Fl) :=
  let proj := dbl (dbl (dbl π * dbl (radius * radius)) * M.cos angle)
  match M.wallFraction depth radius tan with
  | .ok (.fin w) => .ok (.fin (dbl (w * proj)), .fin (dbl (dbl (1 - w) * proj)))
  | .ok _ => .ok (.nan, .nan)
  | .error e => .error e

open Classical in
/-- The shares of `Facula.fractional_effective_area` (faculae.py:281-288) of the two areas. -/
def wallFloorShares (depth radius angle tan : ℝ) : Py (Fl × Fl) :=
  match M.wallFloor depth radius angle tan with
  | .ok (.fin a, .fin b) =>
    let total := dbl (dbl (0 + a) + b)
    if total = 0 then .ok (.nan, .nan) else .ok (.fin (dbl (a / total)), .fin (dbl (b / total)))
  | .ok _ => .ok (.nan, .nan)
  | .error e => .error e

/-- `1 - calc_circ_fraction_inside_unit_circle(x, y, rad)` (star.py:400). -/
def oneMinus : Py Fl → Py Fl
  | .ok (.fin f) => .ok (.fin (dbl (1 - f)))
  | .ok _ => .ok .nan
  | .error e => .error e

open Classical in
/-- The fraction of the planet that `get_transit_mask` returns (star.py:426-441 and `get_pl_frac`, :395-400).  The phase and the inclination are given in degrees, the
radius `R` of the star, that of the orbit and that of the planet in the same unit, so that astropy multiplies by 1.  The mask is not part of this
definition. -/
def planetFraction (R orbit planet phase incl : ℝ) : Py Fl :=
  let a := toRad (dbl (phase - 180))
  let x := dbl (dbl (orbit / R) * M.sin a)
  let y := dbl (dbl (dbl (orbit / R) * M.cos a) * M.cos (toRad incl))
  let rp := dbl (planet / R)
  if dbl (1 + dbl (2 * rp)) < dbl √(dbl (dbl (x * x) + dbl (y * y))) then .ok (.fin 1)
  else if 0 < M.cos (toRad phase) then oneMinus (M.circFraction x y rp)
  else .ok (.fin 1)

end Libm

end Vsm
