import Verif.Model.Faculae

/-!
# Units

The other model files work with numbers in one fixed unit per dimension.  This file models what the code does with astropy
quantities: a number, a scale and a dimension; sums and comparisons convert the second operand to the unit of the first,
logarithms and exponentials demand a dimensionless argument, and a conversion between different dimensions raises
`UnitConversionError`.  Simplifications: conversions are exact scalings; a plain number is a dimensionless quantity (astropy lets
the plain numbers 0, inf and nan pass in any dimension, which the code modelled here does not use).  What an object looks like
after a method raised half way is not represented.
-/

noncomputable section

namespace Vsm

open Real

/-- The base dimensions of the units in the code. -/
inductive BaseDim where
  | len
  | time
  | temp
  | angle
  | mass
  deriving DecidableEq

/-- The dimension of a unit: the exponent of each base dimension. -/
abbrev Dim := BaseDim → ℚ

namespace Dim

/-- length -/
def len : Dim := Pi.single .len 1
/-- area -/
def area : Dim := Pi.single .len 2
/-- time -/
def time : Dim := Pi.single .time 1
/-- temperature -/
def temp : Dim := Pi.single .temp 1
/-- angle -/
def angle : Dim := Pi.single .angle 1

end Dim

/-- `astropy.units.Quantity`: a number times `scale` (in km, days, kelvin, radians and a unit of mass) of a dimension. -/
structure Qty where
  val : Fl
  scale : ℝ
  dim : Dim

namespace Qty

/-- A plain number. -/
def num (x : Fl) : Qty := ⟨x, 1, 0⟩
/-- `x*u.day`. -/
def days (x : Fl) : Qty := ⟨x, 1, .time⟩
/-- `x*MSH` (config.py:8). -/
def msh (x : Fl) : Qty := ⟨x, MSH, .area⟩

/-- `a*b`. -/
def mul (a b : Qty) : Qty := ⟨a.val * b.val, a.scale * b.scale, a.dim + b.dim⟩
/-- `a/b`. -/
def div (a b : Qty) : Qty := ⟨a.val / b.val, a.scale / b.scale, a.dim - b.dim⟩
/-- `np.sqrt(a)`. -/
def sqrt (a : Qty) : Qty := ⟨Fl.sqrt a.val, Real.sqrt a.scale, fun i => a.dim i / 2⟩

open Classical in
/-- `a.to_value(unit)` for the unit of scale `s` and dimension `d`. -/
def toValue (a : Qty) (s : ℝ) (d : Dim) : Py Fl :=
  if a.dim = d then .ok (a.val * .fin (a.scale / s)) else .error .unitConversion
/-- `a.to(unit)`. -/
def into (a : Qty) (s : ℝ) (d : Dim) : Py Qty := (a.toValue s d).map fun v => ⟨v, s, d⟩
/-- `a+b`. -/
def add (a b : Qty) : Py Qty := (b.toValue a.scale a.dim).map fun v => ⟨a.val + v, a.scale, a.dim⟩
/-- `a-b`. -/
def sub (a b : Qty) : Py Qty := (b.toValue a.scale a.dim).map fun v => ⟨a.val - v, a.scale, a.dim⟩
open Classical in
/-- `a > b`. -/
def gt (a b : Qty) : Py Bool := (b.toValue a.scale a.dim).map fun v => decide (v < a.val)
open Classical in
/-- `a <= b`. -/
def le (a b : Qty) : Py Bool := (b.toValue a.scale a.dim).map fun v => decide (a.val ≤ v)
open Classical in
/-- `a == b`: quantities of different dimensions are unequal, without an exception. -/
def eq (a b : Qty) : Bool :=
  match b.toValue a.scale a.dim with
  | .ok v => decide (Fl.feq a.val v)
  | .error _ => false
/-- `np.log(a)`. -/
def log (a : Qty) : Py Qty := (a.toValue 1 0).map fun v => num (Fl.log v)
/-- `np.exp(a)`. -/
def exp (a : Qty) : Py Qty := (a.toValue 1 0).map fun v => num (Fl.exp v)
/-- `np.arccos(a)`, in radians. -/
def arccos (a : Qty) : Py Qty := (a.toValue 1 0).map fun v => ⟨Fl.arccos v, 1, .angle⟩

end Qty

/-- The loop of `clean_spotlist` and `clean_faclist` (spots.py:410-415, faculae.py:392-398): the entries to keep, where the test may
raise. -/
def keepM {α : Type} : List α → (α → Py Bool) → Py (List α)
  | [], _ => .ok []
  | x :: l, f => (f x).bind fun b => (keepM l f).map fun l' => if b then x :: l' else l'

/-- The attributes of `StarSpot` that evolve or take part in the evolution (spots.py:120-128), with units. -/
structure SpotQ where
  areaMax : Qty
  area : Qty
  decayRate : Qty
  growthRate : Qty
  isGrowing : Bool

namespace SpotQ

/-- `StarSpot.radius` (spots.py:170). -/
def radius (s : SpotQ) : Py Qty := (s.area.div (.num (.fin π))).sqrt.into 1 .len

/-- `StarSpot.angular_radius` (spots.py:188-189). -/
def angularRadius (s : SpotQ) (starRad : Qty) : Py Qty :=
  ((Qty.num (.fin 1)).sub (s.area.div ((Qty.num (.fin (2 * π))).mul (starRad.mul starRad)))).bind fun c =>
    c.arccos.bind fun a => a.into (π / 180) .angle

/-- The end of the growing branch of `StarSpot.age` and the decaying branch (spots.py:304-317): decay by `areaDecay`, starting
from `start`. -/
def decay (s : SpotQ) (start areaDecay : Qty) : Py SpotQ :=
  (areaDecay.gt s.areaMax).bind fun gone =>
    if gone then .ok { s with isGrowing := false, area := .msh (.fin 0) }
    else (start.sub areaDecay).map fun a => { s with isGrowing := false, area := a }

open Classical in
/-- `StarSpot.age` (spots.py:294-317). -/
def age (s : SpotQ) (time : Qty) : Py SpotQ :=
  if s.isGrowing then
    ((s.growthRate.mul (.days (.fin 1))).into 1 0).bind fun g =>
    (g.add (.num (.fin 1))).bind fun g1 =>
    g1.log.bind fun tau =>
    (if tau.val = .fin 0 then .ok (.days .pinf)
      else (s.areaMax.div s.area).log.map fun l => (l.div tau).mul (.days (.fin 1))).bind fun timeToMax =>
    (timeToMax.gt time).bind fun grows =>
    if grows then
      ((tau.mul time).div (.days (.fin 1))).exp.map fun e => { s with area := s.area.mul e }
    else
      (time.sub timeToMax).bind fun decayTime => s.decay s.areaMax (decayTime.mul s.decayRate)
  else s.decay s.area (time.mul s.decayRate)

/-- `SpotCollection.age` with `clean_spotlist` (spots.py:464-466, 409-415) on the list of spots. -/
def ageAll (l : List SpotQ) (time : Qty) : Py (List SpotQ) :=
  (l.mapM fun s : SpotQ => s.age time).bind fun l' =>
    keepM l' fun s : SpotQ => (s.area.le (.msh (.fin 0))).map fun z => !(z && !s.isGrowing)

end SpotQ

/-- The attributes of `SpotGenerator` that have units, and those that enter the same formulas (spots.py:583-597). -/
structure SpotGeneratorQ where
  distAreaMean : Qty
  distAreaLogsigma : ℝ
  growthRate : Qty
  decayRate : Qty
  initArea : Qty
  coverage : ℝ

namespace SpotGeneratorQ

/-- `SpotGenerator.off` (spots.py:617-630): the growth rate is given in days. -/
def off : SpotGeneratorQ :=
  { distAreaMean := .msh (.fin 10), distAreaLogsigma := 1, growthRate := .days (.fin 0),
    decayRate := (Qty.msh (.fin 0)).div (.days (.fin 1)), initArea := .msh (.fin 10), coverage := 0 }

/-- `SpotGenerator.is_static` (spots.py:643). -/
def isStatic (s : SpotGeneratorQ) : Bool := s.decayRate.eq ((Qty.msh (.fin 0)).div (.days (.fin 1)))

/-- `SpotGenerator.mean_lifetime` (spots.py:655-659). -/
def meanLifetime (s : SpotGeneratorQ) : Py Qty :=
  if s.isStatic then .ok (.days .pinf)
  else (s.initArea.div s.distAreaMean).log.bind fun l =>
    ((s.distAreaMean.div s.decayRate).sub (l.div s.growthRate)).bind fun t => t.into 1 .time

/-- `SpotGenerator.mean_area` (spots.py:671-677). -/
def meanArea (s : SpotGeneratorQ) : Py Qty :=
  if s.isStatic then .ok s.distAreaMean
  else ((s.distAreaMean.div s.growthRate).add (s.initArea.div s.growthRate)).bind fun a =>
    (a.add (((s.distAreaMean.mul s.distAreaMean).div (.num (.fin 2))).div s.decayRate)).bind fun b =>
    s.meanLifetime.map fun t => b.div t

/-- `SpotGenerator.get_n_spots_to_birth` (spots.py:777-779). -/
def nExpected (s : SpotGeneratorQ) (time radStar : Qty) : Py Fl :=
  s.meanArea.bind fun a => s.meanLifetime.bind fun t =>
    (((((Qty.num (.fin (s.coverage * 4 * π))).mul (radStar.mul radStar)).div a).mul time).div t).toValue 1 0

/-- A spot made by `generate_spots` (spots.py:734-757); `z` is the standard normal behind its peak area. -/
def newSpot (s : SpotGeneratorQ) (z : ℝ) : Py SpotQ :=
  ((s.distAreaMean.div (.msh (.fin 1))).log).map fun m =>
    { areaMax := .msh (Fl.exp (m.val + .fin (s.distAreaLogsigma * z))), area := s.initArea, decayRate := s.decayRate,
      growthRate := s.growthRate, isGrowing := true }

/-- One spot of `generate_mature_spots` (spots.py:830-838). -/
def matureStep (s : SpotGeneratorQ) (z x : ℝ) : Py SpotQ :=
  (s.newSpot z).bind fun sp =>
    if s.isStatic then
      (sp.areaMax.sub s.initArea).bind fun range =>
        (((Qty.num (.fin x)).mul range).add s.initArea).map fun a => { sp with area := a }
    else s.meanLifetime.bind fun t => sp.age ((Qty.num (.fin x)).mul t)

/-- The `while` loop of `generate_mature_spots` (spots.py:829-841), fuelled: `none` means still running after that many
iterations.  `draws k` are the normal behind the peak area of spot `k` and its `rng.random()`; the draws without units are those of
`SpotGenerator.matureLoop`. -/
def matureLoop (s : SpotGeneratorQ) (target rStar : Qty) (draws : ℕ → ℝ × ℝ) : ℕ → ℕ → Qty → List SpotQ → Option (Py (List SpotQ))
  | fuel, k, omega, acc =>
    match target.gt omega with
    | .error e => some (.error e)
    | .ok false => some (.ok acc)
    | .ok true =>
      match fuel with
      | 0 => none
      | fuel + 1 =>
        match (s.matureStep (draws k).1 (draws k).2).bind fun sp =>
            (sp.angularRadius rStar).bind fun a => (omega.add ((a.mul a).mul (.num (.fin π)))).map fun o => (sp, o) with
        | .error e => some (.error e)
        | .ok (sp, o) => matureLoop s target rStar draws fuel (k + 1) o (acc ++ [sp])

/-- `SpotGenerator.generate_mature_spots` (spots.py:824-842) ends with the result `r`. -/
def maturesTo (s : SpotGeneratorQ) (coverage : ℝ) (rStar : Qty) (draws : ℕ → ℝ × ℝ) (r : Py (List SpotQ)) : Prop :=
  if 1 < coverage ∨ coverage < 0 then r = .error .valueError
  else ∃ target fuel, (Qty.mk (.fin (4 * π * coverage)) 1 (.angle + .angle)).into ((π / 180) ^ 2) (.angle + .angle) = .ok target ∧
    s.matureLoop target rStar draws fuel 0 ⟨.fin 0, (π / 180) ^ 2, .angle + .angle⟩ [] = some r

end SpotGeneratorQ

/-- The attributes of `Facula` with units (faculae.py:131-147). -/
structure FaculaQ where
  rMax : Qty
  radius : Qty
  depth : Qty
  lifetime : Qty
  floorSlope : Qty
  floorMinRad : Qty
  floorBase : Qty
  wallSlope : Qty
  wallIntercept : Qty
  isGrowing : Bool

namespace FaculaQ

/-- `Facula.floor_dteff` (faculae.py:156-158). -/
def floorDteff (f : FaculaQ) : Py Qty :=
  (f.radius.sub f.floorMinRad).bind fun d => ((d.mul f.floorSlope).add f.floorBase).bind fun t => t.into 1 .temp

/-- `Facula.wall_dteff` (faculae.py:167-168). -/
def wallDteff (f : FaculaQ) : Py Qty := ((f.wallSlope.mul f.radius).add f.wallIntercept).bind fun t => t.into 1 .temp

/-- `Facula.age` (faculae.py:217-226). -/
def age (f : FaculaQ) (time : Qty) : Py FaculaQ :=
  if f.isGrowing then
    (f.radius.div f.rMax).log.bind fun l =>
    let timeFromMax := (((Qty.num (.fin (-1))).mul l).mul f.lifetime).mul (.num (.fin 0.5))
    (timeFromMax.le time).bind fun reached =>
    if reached then
      (time.sub timeFromMax).bind fun rest =>
        (((Qty.num (.fin (-2))).mul rest).div f.lifetime).exp.map fun e => { f with isGrowing := false, radius := f.rMax.mul e }
    else
      (((Qty.num (.fin 2)).mul time).div f.lifetime).exp.map fun e => { f with radius := f.radius.mul e }
  else
    (((Qty.num (.fin (-2))).mul time).div f.lifetime).exp.map fun e => { f with radius := f.radius.mul e }

/-- `FaculaCollection.age` with `clean_faclist` (faculae.py:411-413, 391-398) on the list of faculae. -/
def ageAll (l : List FaculaQ) (time : Qty) : Py (List FaculaQ) :=
  (l.mapM fun f : FaculaQ => f.age time).bind fun l' =>
    keepM l' fun f : FaculaQ => (f.radius.le (f.rMax.div (.num (.fin (Real.exp 1 ^ 2))))).map fun z => !(z && !f.isGrowing)

/-- `Facula.angular_radius` (faculae.py:304). -/
def angularRadius (f : FaculaQ) (starRad : Qty) : Qty := (((f.radius.div starRad).mul (.num (.fin 180))).div (.num (.fin π))).mul ⟨.fin 1, π / 180, .angle⟩

end FaculaQ

/-- The attributes of `FaculaGenerator` that enter the number of births (faculae.py:560-573). -/
structure FaculaGeneratorQ where
  distRPeak : Qty
  distLifePeak : Qty
  coverage : ℝ

/-- `FaculaGenerator.get_n_faculae_expected` with `mean_area` (faculae.py:622, 648-650). -/
def FaculaGeneratorQ.nExpected (s : FaculaGeneratorQ) (time radStar : Qty) : Py Fl :=
  let meanArea := (Qty.num (.fin (0.5 * π * (1 - Real.exp 1 ^ (-2 : ℤ))))).mul (s.distRPeak.mul s.distRPeak)
  (((((Qty.num (.fin (s.coverage * 4 * π))).mul (radStar.mul radStar)).div meanArea).mul time).div
    ((Qty.num (.fin 2)).mul s.distLifePeak)).toValue 1 0

end Vsm
