import Verif.Model.Grid

/-!
# Model of `vspec_vsm/helpers.py`
-/

noncomputable section

namespace Vsm
namespace Helpers

open Real

/-- `round_teff` (helpers.py:45-47): `int(round(val))`; Python raises `ValueError` for NaN and
`OverflowError` for infinities. -/
def roundTeff : Fl → Py ℤ
  | .fin x => .ok (Np.roundHalfEven x)
  | .nan => .error .valueError
  | _ => .error .overflow

/-- `get_angle_between` (helpers.py:100-103). -/
def angleBetween (lat1 lon1 lat2 lon2 : ℝ) : Fl :=
  Fl.arccos (Fl.fin (sin lat1 * sin lat2 + cos lat1 * cos lat2 * cos (lon1 - lon2)))

/-- The haversine distance used by `StarSpot.set_gridmaker` (spots.py:148-149) and `Facula._r`
(faculae.py:180-181) for one pixel.  `arcsin` and `sqrt` are applied to reals: the argument is a sum of a
square and a product that is non-negative for latitudes in [-90°,90°], and `Real.arcsin` agrees with
`np.arcsin` on `[-1,1]`. -/
def haversine (lat0 lon0 lat lon : ℝ) : ℝ :=
  2 * Real.arcsin (√(sin (0.5 * (lat0 - lat)) ^ 2
    + cos lat * cos lat0 * sin (0.5 * (lon0 - lon)) ^ 2))

/-- `np.round(x, 4)` (helpers.py:200). -/
def round4 : Fl → Fl
  | .fin x => .fin ((Np.roundHalfEven (10 ^ 4 * x) : ℝ) / 10 ^ 4)
  | y => y

/-- `proj_ortho` for one point (helpers.py:105-220); the `isinstance` checks are not represented.
For arrays of points; a scalar `lats` has no item assignment, so `den[den==0] = 1e-20` (helpers.py:194) raises
`TypeError` for it.  Result `(x, y)`. -/
def projOrtho (lat0 lon0 lat lon : ℝ) : Fl × Fl :=
  let b := π / 2 - lat0
  let c := π / 2 - lat
  if b = 0 then
    -- centred on north pole (helpers.py:181-183)
    let C : Fl := if c ≤ π / 2 then .fin (π - lon) else .nan
    (Fl.sin C * Fl.sin (.fin c), Fl.cos C * Fl.sin (.fin c))
  else if b = π then
    -- centred on south pole (helpers.py:184-186)
    let C : Fl := if c ≥ π / 2 then .fin lon else .nan
    (Fl.sin C * Fl.sin (.fin c), Fl.cos C * Fl.sin (.fin c))
  else
    -- centred elsewhere (helpers.py:187-217)
    let mu := sin lat0 * sin lat + cos lat0 * cos lat * cos (lon0 - lon)
    let a := Fl.arccos (.fin mu)
    let num := Fl.fin (cos c) - Fl.cos a * Fl.fin (cos b)
    let den₀ := Fl.sin a * Fl.fin (sin b)
    let den := if den₀ = .fin 0 then .fin 1e-20 else den₀
    let cosC₀ := if mu < 1 then num / den else .fin 1
    let cosC := round4 cosC₀
    let C₁ := if lon = lon0 then .fin 0 else Fl.arccos cosC
    let C₂ := if lon = lon0 ∧ lat < lat0 then .fin π else C₁
    let C₃ := if 0 ≤ mu then C₂ else .nan
    let C := if sin (lon - lon0) < 0 then -C₃ else C₃
    (Fl.sin C * Fl.sin a, Fl.cos C * Fl.sin a)

/-- The inner function `area(_R, _d)` (helpers.py:275-276). -/
def segArea (R d : Fl) : Fl :=
  R * R * Fl.arccos (d / R) - d * Fl.sqrt (R * R - d * d)

/-- `calc_circ_fraction_inside_unit_circle` (helpers.py:223-282). -/
def circFraction (x y r : Fl) : Py Fl :=
  let d := Fl.sqrt (x * x + y * y)
  if .fin 1 < r then .error .valueError
  else if .fin 1 + r < d then .ok (.fin 0)
  else if d ≤ .fin 1 - r then .ok (.fin 1)
  else if d = .fin 0 ∧ r = .fin 1 then .ok (.fin 1)
  else
    let R : Fl := .fin 1
    let d1 := (d * d - r * r + R * R) / (.fin 2 * d)
    let d2 := (d * d + r * r - R * R) / (.fin 2 * d)
    let A1 := segArea R d1
    let A2 := segArea r d2
    .ok ((A1 + A2) / (.fin π * (r * r)))

/-- `config.grid_teff_bounds`, low end (config.py:61). -/
def teffLow : ℝ := 2300
/-- `config.grid_teff_bounds`, high end (config.py:61). -/
def teffHigh : ℝ := 3900

/-- `clip_teff` (helpers.py:304-314). -/
def clipTeff (teff : ℝ) : ℝ :=
  if teffHigh < teff then teffHigh
  else if teff < teffLow then teffLow
  else teff

end Helpers
end Vsm
