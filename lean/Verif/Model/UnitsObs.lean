import Verif.Model.Star
import Verif.Model.Units

/-!
# The arguments of `calc_coverage` with units

What `calc_coverage` does with the arguments it is given: angles and lengths as astropy quantities in any unit, or plain numbers.
`np.sin` and `np.cos` take a plain number as radians and refuse quantities that are not angles (`UnitTypeError`, a `TypeError`).
A plain number minus an angle raises `UnitConversionError` unless the number is zero.  Simplifications: numbers are real
(astropy lets plain infinities and nan pass like zero); the star's own attributes (except its radius) are in the model's units.
-/

noncomputable section

namespace Vsm
open Real

/-- An argument: a plain number, or a number times a unit of size `scale` (km, days, kelvin, radians) of dimension `d`. -/
inductive Given where
  | number (x : ℝ)
  | quantity (x scale : ℝ) (d : Dim)

namespace Given

/-- Argument of `np.sin` and `np.cos`, in radians. -/
def radians : Given → Py ℝ
  | number x => .ok x
  | quantity x k d => open Classical in if d = .angle then .ok (x * k) else .error .typeError

/-- `a` in `a - b` where `b` is a quantity (or an array of quantities) of angles, in radians. -/
def minuend : Given → Py ℝ
  | number x => open Classical in if x = 0 then .ok 0 else .error .unitConversion
  | quantity x k d => open Classical in if d = .angle then .ok (x * k) else .error .unitConversion

/-- `(a/radius * f).to_value(u.dimensionless_unscaled)` for a length `radius` of `R` km given in a unit of `k` km and a number `f`. -/
def ratio (R k : ℝ) (f : Fl) : Given → Py Fl
  | number _ => .error .unitConversion
  | quantity x j d => open Classical in
      if d = .len then .ok (.fin x / .fin (R / k) * f * .fin (j / k)) else .error .unitConversion

/-- `a.to_value(u.rad)` after `isinstance(a, u.Quantity)`, as in `proj_ortho` (helpers.py:165-178). -/
def checkedRadians : Given → Py ℝ
  | number _ => .error .typeError
  | quantity x k d => open Classical in if d = .angle then .ok (x * k) else .error .unitConversion

end Given

namespace Star

open Classical in
/-- `Star.get_transit_mask` (star.py:428-495, with `get_pl_frac` at 387-392) for arguments with units; the star's radius is given in a
unit of `unit` km.  (Plain numbers for `lat0` and `lon0` are only noticed by `proj_ortho`, star.py:445.) -/
def transitMaskQ (s : Star) (unit : ℝ) (lat0 lon0 orbit radius phase incl : Given) : Py ((s.grid.Pix → Fl) × Fl) := do
  let eclipse := 0 < cos (← phase.radians)
  let angle := (← phase.minuend) - π
  let x ← orbit.ratio s.radius unit (.fin (sin angle))
  let i ← incl.radians
  let y ← orbit.ratio s.radius unit (.fin (cos angle) * .fin (cos i))
  let rp ← radius.ratio s.radius unit (.fin 1)
  if .fin 1 + .fin 2 * rp < Fl.sqrt (x * x + y * y) then return (fun _ => .fin 0, .fin 1)
  else if eclipse then
    let f ← Helpers.circFraction x y rp
    return (fun _ => .fin 0, .fin 1 - f)
  else
    let lon ← lon0.checkedRadians
    let lat ← lat0.checkedRadians
    let covered := s.coveredValue lat lon x y rp
    if ∃ p, (covered p).isNan then .error .valueError
    else return (covered, .fin 1)

/-- `Star.calc_coverage` (star.py:533-573) for arguments with units.  Every use of the observer's coordinates before the transit mask
(star.py:533, 540, 344, 347; coordinate_grid.py:132-134; helpers.py:97-99) takes sine and cosine of the latitude and subtracts
other longitudes from the longitude, so it works with the numbers `lat` and `lon` or raises at the first of them. -/
def calcCoverageQ (s : Star) (unit : ℝ) (lat0 lon0 : Given) (gran : ℝ) (orbit planetRadius phase incl : Given) :
    Py (Np.Dict ℤ Fl × Np.Dict ℤ Fl × Fl) := do
  let lat ← lat0.radians
  let lon ← lon0.minuend
  let m ← s.addFaculaeToMap lat lon
  let (covered, plf) ← s.transitMaskQ unit lat0 lon0 orbit planetRadius phase incl
  match s.granulation with
  | none => .error .typeError
  | some gr =>
    let granTeff := s.teff - gr.dteff
    let total ← granulate (s.rawData lat lon m (fun _ => .fin 1) granTeff) (key s.teff) (key granTeff) gran
    let cov ← granulate (s.rawData lat lon m covered granTeff) (key s.teff) (key granTeff) gran
    return (total, cov, plf)

end Star
end Vsm
