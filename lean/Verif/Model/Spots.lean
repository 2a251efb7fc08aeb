import Verif.Model.Helpers

/-!
# Model of `vspec_vsm/spots.py`

Units: lengths in km, areas in km², times in days, rates per day, temperatures in K, angles in radians.
-/

noncomputable section

namespace Vsm

open Real

/-- `config.MSH` in km² (config.py:8): `1e-6 * 0.5 * 4π R_sun²` with `R_sun = 695700 km`. -/
def MSH : ℝ := 1e-6 * 0.5 * 4 * π * 695700 ^ 2

/-- A stellar surface array together with the grid it was computed on (used for the cached `r`). -/
abbrev Field (α : Type) := (g : Grid) × (g.Pix → α)

/-- Use an array as an array on grid `g`; arrays of another shape raise `e`. -/
def Field.on {α : Type} (f : Field α) (g : Grid) (e : PyErr) : Py (g.Pix → α) :=
  if h : f.1 = g then .ok (fun p => f.2 (h ▸ p)) else .error e

/-- `StarSpot` attributes (spots.py:120-128, 144-149).  `r` is the cached distance array; it carries the
grid it was computed on because `SpotCollection.add_spot` can change `gridmaker` alone (spots.py:393). -/
structure StarSpot where
  lat : ℝ
  lon : ℝ
  areaMax : ℝ
  area : Fl
  teffUmbra : ℝ
  teffPenumbra : ℝ
  decayRate : ℝ
  ratio : Fl
  isGrowing : Bool
  growthRate : ℝ
  grid : Grid
  r : Field ℝ

namespace StarSpot

/-- Distance array computed by `set_gridmaker` (spots.py:145-149). -/
def distances (lat lon : ℝ) (g : Grid) : Field ℝ :=
  ⟨g, fun p => Helpers.haversine lat lon (g.lat p) (g.lon p)⟩

/-- `StarSpot.set_gridmaker` (spots.py:135-149). -/
def setGridmaker (s : StarSpot) (g : Grid) : StarSpot :=
  { s with grid := g, r := distances s.lat s.lon g }

/-- `StarSpot.__init__` (spots.py:104-133) for an explicit grid. -/
def new (lat lon areaMax : ℝ) (area : Fl) (teffUmbra teffPenumbra : ℝ) (ratio : Fl) (isGrowing : Bool)
    (growthRate decayRate : ℝ) (g : Grid) : StarSpot :=
  { lat, lon, areaMax, area, teffUmbra, teffPenumbra, decayRate, ratio, isGrowing, growthRate
    grid := g, r := distances lat lon g }

/-- `StarSpot.radius` (spots.py:158-170). -/
def radius (s : StarSpot) : Fl := Fl.sqrt (s.area / .fin π)

/-- `StarSpot.angular_radius` (spots.py:188-189). -/
def angularRadius (s : StarSpot) (starRad : ℝ) : Fl :=
  Fl.arccos (.fin 1 - s.area / .fin (2 * π * starRad ^ 2))

/-- Angular radius of the umbra (spots.py:214-215). -/
def umbraRadius (s : StarSpot) (starRad : ℝ) : Fl := s.angularRadius starRad / Fl.sqrt s.ratio

/-- Mask stored under the key `teff_penumbra` by `map_pixels` (spots.py:217), on the grid of `r`. -/
def penumbraMask (s : StarSpot) (starRad : ℝ) (p : s.r.1.Pix) : Prop :=
  Fl.fin (s.r.2 p) < s.angularRadius starRad

/-- Mask stored under the key `teff_umbra` by `map_pixels` (spots.py:216).  When both temperatures are equal
the dict literal has one key and its value is the penumbra mask. -/
def umbraMask (s : StarSpot) (starRad : ℝ) (p : s.r.1.Pix) : Prop :=
  if s.teffUmbra = s.teffPenumbra then s.penumbraMask starRad p
  else Fl.fin (s.r.2 p) < s.umbraRadius starRad

/-- `StarSpot.surface_fraction` (spots.py:219-253).  Angles in radians, so the division by `2π sr` needs no
unit factor. -/
def surfaceFraction (s : StarSpot) (lat0 lon0 starRad : ℝ) (n : ℕ) : Fl :=
  let c0 := Fl.arccos (.fin (sin lat0 * sin s.lat + cos lat0 * cos s.lat * cos (lon0 - s.lon)))
  let c := Np.linspace (-(π / 2)) (π / 2) n
  let a := s.angularRadius starRad
  let integrand := c.map fun ci =>
    let rad := a * a - (Fl.fin ci - c0) * (Fl.fin ci - c0)
    let rad' := if rad < .fin 0 then .fin 0 else rad
    Fl.fin (2 * cos ci) * Fl.sqrt rad'
  Np.trapz integrand (c.map .fin) / .fin (2 * π)

/-- `StarSpot.age` (spots.py:294-317).  The time may be infinite or NaN (`generate_mature_spots` can ask for that, spots.py:837). -/
def ageFl (s : StarSpot) (time : Fl) : StarSpot :=
  if s.isGrowing then
    let tau := Fl.log (.fin (s.growthRate + 1))
    let timeToMax := if tau = .fin 0 then .pinf else Fl.log (.fin s.areaMax / s.area) / tau
    if time < timeToMax then
      { s with area := s.area * Fl.exp (tau * time) }
    else
      let decayTime := time - timeToMax
      let areaDecay := decayTime * .fin s.decayRate
      if .fin s.areaMax < areaDecay then
        { s with isGrowing := false, area := .fin 0 }
      else
        { s with isGrowing := false, area := .fin s.areaMax - areaDecay }
  else
    let areaDecay := time * .fin s.decayRate
    if .fin s.areaMax < areaDecay then { s with area := .fin 0 }
    else { s with area := s.area - areaDecay }

/-- `StarSpot.age` (spots.py:294-317) for an ordinary time. -/
def age (s : StarSpot) (time : ℝ) : StarSpot := s.ageFl (.fin time)

/-- The two in one. -/
theorem age_eq (s : StarSpot) (time : ℝ) : s.age time =
    if s.isGrowing then
      let tau := Fl.log (.fin (s.growthRate + 1))
      let timeToMax := if tau = .fin 0 then .pinf else Fl.log (.fin s.areaMax / s.area) / tau
      if .fin time < timeToMax then
        { s with area := s.area * Fl.exp (tau * .fin time) }
      else
        let decayTime := .fin time - timeToMax
        let areaDecay := decayTime * .fin s.decayRate
        if .fin s.areaMax < areaDecay then
          { s with isGrowing := false, area := .fin 0 }
        else
          { s with isGrowing := false, area := .fin s.areaMax - areaDecay }
    else
      let areaDecay := Fl.fin (time * s.decayRate)
      if .fin s.areaMax < areaDecay then { s with area := .fin 0 }
      else { s with area := s.area - areaDecay } := rfl

end StarSpot

/-- `SpotCollection` (spots.py:320-358). -/
structure SpotCollection where
  spots : List StarSpot
  grid : Grid

namespace SpotCollection

/-- `SpotCollection.set_gridmaker` (spots.py:359-370). -/
def setGridmaker (c : SpotCollection) (g : Grid) : SpotCollection :=
  { grid := g, spots := c.spots.map (·.setGridmaker g) }

/-- `SpotCollection.__init__` with an explicit grid (spots.py:349-358). -/
def new (spots : List StarSpot) (g : Grid) : SpotCollection :=
  setGridmaker { spots, grid := g } g

/-- `SpotCollection.add_spot` with a list (spots.py:390-394): only the attribute `gridmaker` of the spot is
replaced, not the cached distances. -/
def addSpot (c : SpotCollection) (new : List StarSpot) : SpotCollection :=
  { c with spots := c.spots ++ new.map fun s => { s with grid := c.grid } }

/-- `SpotCollection.clean_spotlist` (spots.py:409-415). -/
def clean (c : SpotCollection) : SpotCollection :=
  { c with spots := c.spots.filter fun s => !(decide (s.area ≤ .fin 0) && !s.isGrowing) }

/-- `SpotCollection.age` (spots.py:464-466).  Each list entry is aged once; see `Model/Aliasing.lean` for
collections that hold the same object twice. -/
def age (c : SpotCollection) (time : ℝ) : SpotCollection :=
  clean { c with spots := c.spots.map (·.age time) }

open Classical in
/-- One loop iteration of `map_pixels` (spots.py:440-449) at a pixel, for masks given as propositions. -/
def overlay {T : Type} [LinearOrder T] (emb : ℝ → T) (tu tp : ℝ) (inU inP : Prop) (cur : T) : T :=
  if inU ∧ emb tu < cur then emb tu
  else if inP ∧ emb tp < cur then emb tp
  else cur

/-- One loop iteration of `map_pixels` (spots.py:440-449).  If the cached distances of the spot belong to
a grid of another shape numpy cannot combine the arrays: `ValueError` (for shapes that happen to
broadcast see Model/Broadcast.lean). -/
def mapStep {T : Type} [LinearOrder T] (emb : ℝ → T) (starRad : ℝ) (g : Grid) (s : StarSpot)
    (cur : g.Pix → T) : Py (g.Pix → T) :=
  if h : s.r.1 = g then
    .ok fun p => overlay emb s.teffUmbra s.teffPenumbra (s.umbraMask starRad (h ▸ p))
      (s.penumbraMask starRad (h ▸ p)) (cur p)
  else .error .valueError

/-- `SpotCollection.map_pixels` (spots.py:439-450).  Generic in the temperature type because
`get_coverage` uses an infinite photosphere temperature (`T = WithTop ℝ`), `Star.map` a real one
(`T = ℝ`, `emb = id`). -/
def mapPixels {T : Type} [LinearOrder T] (emb : ℝ → T) (c : SpotCollection) (starRad : ℝ) (starTeff : T) :
    Py (c.grid.Pix → T) :=
  c.spots.foldlM (fun cur s => mapStep emb starRad c.grid s cur) (fun _ => starTeff)

open Classical in
/-- `SpotCollection.get_coverage` (spots.py:485-489). -/
def coverage (c : SpotCollection) (rStar : ℝ) : Py Fl :=
  (mapPixels (T := WithTop ℝ) (fun x => (x : WithTop ℝ)) c rStar ⊤).map fun tmap =>
    (∑ p, c.grid.area p * (if tmap p ≠ ⊤ then Fl.fin 1 else Fl.fin 0)) / ∑ p, c.grid.area p

end SpotCollection

/-- `distribution` argument of `SpotGenerator` (spots.py:700-712). -/
inductive SpotDist where
  | solar
  | iso
  | other
  deriving DecidableEq

/-- `SpotGenerator` attributes (spots.py:583-597) except `rng` and `grid_params` (the grid is always
passed explicitly, spots.py:753-755). -/
structure SpotGenerator where
  distAreaMean : ℝ
  distAreaLogsigma : ℝ
  umbraTeff : ℝ
  penumbraTeff : ℝ
  growthRate : ℝ
  decayRate : ℝ
  initArea : ℝ
  distribution : SpotDist
  coverage : ℝ
  grid : Grid

/-- Random numbers consumed by one `generate_spots(n)` call (spots.py:702-709, 734-738): standard normals
for the log areas, the successive batches of standard normals behind the area ratios, hemisphere signs, standard normals
behind the latitudes and two arrays of uniforms in `[0,1)`. -/
structure SpotDraws (n : ℕ) where
  z : Fin n → ℝ
  zRatio : ℕ → Fin n → ℝ
  north : Fin n → Bool
  zLat : Fin n → ℝ
  uLon : Fin n → Set.Ico (0 : ℝ) 1
  uLat : Fin n → Set.Ico (0 : ℝ) 1

/-- Batch `k` of `rng.normal(loc=5, scale=1, size=n_spots)` (spots.py:736, 738). -/
def SpotDraws.ratios {n : ℕ} (d : SpotDraws n) (k : ℕ) (i : Fin n) : ℝ := 5 + 1 * d.zRatio k i

/-- `rng.normal(15, 5, size=n_spots)` (spots.py:703), degrees. -/
def SpotDraws.latDeg {n : ℕ} (d : SpotDraws n) (i : Fin n) : ℝ := 15 + 5 * d.zLat i

namespace SpotGenerator

/-- `SpotGenerator.off` (spots.py:617-630).  (Its `growth_rate` carries the wrong unit, `0*u.day`;
see `Model/Units.lean` for what follows from that.) -/
def off (g : Grid) : SpotGenerator :=
  { distAreaMean := 10 * MSH, distAreaLogsigma := 1, umbraTeff := 0, penumbraTeff := 0, growthRate := 0,
    decayRate := 0, initArea := 10 * MSH, distribution := .iso, coverage := 0, grid := g }

/-- `SpotGenerator.is_static` (spots.py:643). -/
def isStatic (s : SpotGenerator) : Prop := s.decayRate = 0

open Classical in
/-- `SpotGenerator.mean_lifetime` (spots.py:655-659). -/
def meanLifetime (s : SpotGenerator) : Fl :=
  if s.isStatic then .pinf
  else .fin s.distAreaMean / .fin s.decayRate
    - Fl.log (.fin s.initArea / .fin s.distAreaMean) / .fin s.growthRate

open Classical in
/-- `SpotGenerator.mean_area` (spots.py:671-677). -/
def meanArea (s : SpotGenerator) : Fl :=
  if s.isStatic then .fin s.distAreaMean
  else (.fin s.distAreaMean / .fin s.growthRate + .fin s.initArea / .fin s.growthRate
    + .fin (s.distAreaMean ^ 2 / 2) / .fin s.decayRate) / s.meanLifetime

/-- `get_coordinates`, latitude of spot `i` (spots.py:702-703 and 708-709), radians. -/
def drawLat (s : SpotGenerator) {n : ℕ} (d : SpotDraws n) (i : Fin n) : ℝ :=
  match s.distribution with
  | .solar => Grid.deg (d.latDeg i * (if d.north i then 1 else -1))
  | _ => Grid.deg (Real.arcsin (2 * (d.uLat i : ℝ) - 1) / π * 180)

/-- `get_coordinates`, longitude of spot `i` (spots.py:704, 706), radians. -/
def drawLon (_s : SpotGenerator) {n : ℕ} (d : SpotDraws n) (i : Fin n) : ℝ :=
  Grid.deg ((d.uLon i : ℝ) * 360)

open Classical in
/-- The rejection loop for the area ratios (spots.py:736-738): the first batch without a non-positive
entry; `none` if the loop never ends. -/
def acceptRatios {n : ℕ} (d : SpotDraws n) : Option (Fin n → ℝ) :=
  if h : ∃ k, ∀ i, 0 < d.ratios k i then some (d.ratios (Nat.find h)) else none

/-- `SpotGenerator.generate_spots` (spots.py:734-757).  The peak area is
`exp(log(mean/MSH) + σ z)·MSH`; the log is total here, so the model is faithful for a positive mean
(numpy gives NaN areas for a negative one).  `rng.lognormal` rejects `σ < 0`. -/
def generate (s : SpotGenerator) (n : ℕ) (d : SpotDraws n) : Py (List StarSpot) :=
  if s.distAreaLogsigma < 0 then .error .valueError
  else match acceptRatios d with
    | none => .error .diverges
    | some ratios =>
      if s.distribution = .other then .error .valueError
      else .ok <| List.ofFn fun i =>
        StarSpot.new (s.drawLat d i) (s.drawLon d i)
          (Real.exp (Real.log (s.distAreaMean / MSH) + s.distAreaLogsigma * d.z i) * MSH) (.fin s.initArea)
          s.umbraTeff s.penumbraTeff (.fin (ratios i)) true s.growthRate s.decayRate s.grid

/-- `SpotGenerator.get_n_spots_to_birth` (spots.py:777-779). -/
def nExpected (s : SpotGenerator) (time radStar : ℝ) : Fl :=
  .fin (s.coverage * 4 * π * radStar ^ 2) / s.meanArea * .fin time / s.meanLifetime

/-- `SpotGenerator.birth_spots` (spots.py:798-803): `k` is the raw Poisson draw. -/
def birth (s : SpotGenerator) (time radStar : ℝ) (k : ℕ) (d : (n : ℕ) → SpotDraws n) :
    Py (List StarSpot) :=
  (Np.poisson (s.nExpected time radStar) k).bind fun n => s.generate n (d n)

/-- One iteration of the loop of `generate_mature_spots` (spots.py:830-838).  `x` is `rng.random()`. -/
def matureStep (s : SpotGenerator) (d : SpotDraws 1) (x : Set.Ico (0 : ℝ) 1) : Py StarSpot :=
  open Classical in
  (s.generate 1 d).bind fun l =>
    match l with
    | [] => .error .valueError
    | sp :: _ =>
      if s.isStatic then
        .ok { sp with area := .fin ((x : ℝ) * (sp.areaMax - s.initArea) + s.initArea) }
      else .ok (sp.ageFl (.fin (x : ℝ) * s.meanLifetime))

/-- The solid angle the loop adds for a spot (spots.py:840): `π·θ²`. -/
def solidAngle (sp : StarSpot) (rStar : ℝ) : Fl :=
  sp.angularRadius rStar * sp.angularRadius rStar * .fin π

/-- The `while` loop of `generate_mature_spots` (spots.py:829-841), fuelled: `none` means still running
after that many iterations. -/
def matureLoop (s : SpotGenerator) (target rStar : ℝ) (draws : ℕ → SpotDraws 1 × Set.Ico (0 : ℝ) 1) :
    ℕ → ℕ → Fl → List StarSpot → Option (Py (List StarSpot))
  | 0, _, omega, acc => if omega < .fin target then none else some (.ok acc)
  | fuel + 1, k, omega, acc =>
      if omega < .fin target then
        match s.matureStep (draws k).1 (draws k).2 with
        | .error e => some (.error e)
        | .ok sp => matureLoop s target rStar draws fuel (k + 1) (omega + solidAngle sp rStar) (acc ++ [sp])
      else some (.ok acc)

open Classical in
/-- `SpotGenerator.generate_mature_spots` (spots.py:824-842).  Non-termination is reported as the
pseudo-exception `diverges`. -/
def generateMature (s : SpotGenerator) (coverage rStar : ℝ)
    (draws : ℕ → SpotDraws 1 × Set.Ico (0 : ℝ) 1) : Py (List StarSpot) :=
  if 1 < coverage ∨ coverage < 0 then .error .valueError
  else if h : ∃ fuel, (matureLoop s (4 * π * coverage) rStar draws fuel 0 (.fin 0) []).isSome then
    (matureLoop s (4 * π * coverage) rStar draws (Nat.find h) 0 (.fin 0) []).getD (.ok [])
  else .error .diverges

end SpotGenerator
end Vsm
