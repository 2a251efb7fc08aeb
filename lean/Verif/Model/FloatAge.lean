import Verif.Model.Float

/-!
# Aging of spots and faculae in double precision

Every operation is rounded to 53 binary digits; the exponential and the logarithm are those of a mathematical library.  Overflow and
underflow are not represented.  Areas are given in one unit, rates in this unit per day and times in days, so that astropy multiplies by
nothing but 1.
-/

noncomputable section

namespace Vsm

/-- `np.exp` and `np.log` as computed. -/
structure ExpLog where
  exp : ℝ → ℝ
  log : ℝ → ℝ

/-- The functions correctly rounded. -/
def ExpLog.rounded : ExpLog where
  exp x := dbl (Real.exp x)
  log x := dbl (Real.log x)

open Classical in
/-- `StarSpot.age` (spots.py:294-317) in double precision: whether the spot still grows, and its area, from the largest area, the two rates
and the area before.  `time_to_max` is infinite if `tau` is 0. -/
def ExpLog.ageArea (E : ExpLog) (areaMax growth decay : ℝ) (growing : Bool) (area time : ℝ) : Bool × ℝ :=
  if growing then
    let tau := E.log (dbl (growth + 1))
    let timeToMax := dbl (E.log (dbl (areaMax / area)) / tau)
    if tau = 0 ∨ time < timeToMax then (true, dbl (area * E.exp (dbl (tau * time))))
    else
      let areaDecay := dbl (dbl (time - timeToMax) * decay)
      if areaMax < areaDecay then (false, 0) else (false, dbl (areaMax - areaDecay))
  else
    let areaDecay := dbl (time * decay)
    if areaMax < areaDecay then (false, 0) else (false, dbl (area - areaDecay))

/-- `StarSpot.age` in double precision; areas that are not finite are left to the other model. -/
def StarSpot.ageFloat (E : ExpLog) (s : StarSpot) (time : ℝ) : StarSpot :=
  match s.area with
  | .fin a =>
    let x := E.ageArea s.areaMax s.growthRate s.decayRate s.isGrowing a time
    { s with isGrowing := x.1, area := .fin x.2 }
  | _ => s.age time

/-- `SpotCollection.age` (spots.py:464-466) in double precision. -/
def SpotCollection.ageFloat (E : ExpLog) (c : SpotCollection) (time : ℝ) : SpotCollection :=
  SpotCollection.clean { c with spots := c.spots.map fun s => s.ageFloat E time }

open Classical in
/-- `Facula.age` (faculae.py:217-226) in double precision: whether the facula still grows, and its radius, from the largest radius, the
lifetime and the radius before.  Products with -1, 0.5, 2 and -2 are exact. -/
def ExpLog.ageRadius (E : ExpLog) (rMax lifetime : ℝ) (growing : Bool) (radius time : ℝ) : Bool × ℝ :=
  if growing then
    let timeFromMax := dbl (-1 * E.log (dbl (radius / rMax)) * lifetime) * 0.5
    if timeFromMax ≤ time then (false, dbl (rMax * E.exp (dbl (-2 * dbl (time - timeFromMax) / lifetime))))
    else (true, dbl (radius * E.exp (dbl (2 * time / lifetime))))
  else (false, dbl (radius * E.exp (dbl (-2 * time / lifetime))))

/-- `Facula.age` in double precision; radii that are not finite are left to the other model. -/
def Facula.ageFloat (E : ExpLog) (f : Facula) (time : ℝ) : Facula :=
  match f.radius with
  | .fin r =>
    let x := E.ageRadius f.rMax f.lifetime f.isGrowing r time
    { f with isGrowing := x.1, radius := .fin x.2 }
  | _ => f.age time

/-- `r_max/np.e**2` (faculae.py:395): `np.e` is the double next to e, and its square is rounded. -/
def faintRadius (rMax : ℝ) : ℝ := dbl (rMax / dbl (dbl (Real.exp 1) ^ 2))

open Classical in
/-- `FaculaCollection.age` (faculae.py:411-413) with `clean_faclist` (faculae.py:391-398) in double precision. -/
def FaculaCollection.ageFloat (E : ExpLog) (c : FaculaCollection) (time : ℝ) : FaculaCollection :=
  { c with faculae := (c.faculae.map fun f => f.ageFloat E time).filter fun f => !(decide (f.radius ≤ .fin (faintRadius f.rMax)) && !f.isGrowing) }

end Vsm
