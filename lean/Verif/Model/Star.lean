import Verif.Model.Faculae
import Verif.Model.Flares
import Verif.Model.Granules

/-!
# Model of `vspec_vsm/star.py`

Units: km, days, K, radians.
-/

noncomputable section

namespace Vsm

open Real

/-- `Star` attributes (star.py:118-171) except `rng` and `grid_params`. -/
structure Star where
  teff : ℝ
  radius : ℝ
  period : ℝ
  spots : SpotCollection
  faculae : FaculaCollection
  grid : Grid
  flareGen : FlareGenerator
  spotGen : SpotGenerator
  facGen : FaculaGenerator
  /-- `None` after assignment by the user (star.py:776); never `None` after construction. -/
  granulation : Option Granulation
  u1 : ℝ
  u2 : ℝ
  flares : Option FlareCollection

/-- The grid with arrays that belongs to a grid object.  Simplification: negative sizes are refused here
(`ValueError`); numpy refuses them when the first array is built. -/
def Grid.ofObj : Grid.Obj → Py Grid
  | .rect a b => if 0 ≤ a ∧ 0 ≤ b then .ok (.rect a.toNat b.toNat) else .error .valueError
  | .spiral n => if 0 ≤ n then .ok (.spiral n.toNat) else .error .valueError

namespace Star

/-- `try: if gen.gridmaker != self.gridmaker: gen.gridmaker = self.gridmaker
except TypeError: gen.gridmaker = self.gridmaker` (star.py:146-150 and 161-165). -/
def unify (gen star : Grid) : Py Grid :=
  match Grid.ne gen star with
  | .ok true => .ok star
  | .ok false => .ok gen
  | .error .typeError => .ok star
  | .error e => .error e

/-- `Star.set_spot_grid` (star.py:175-180). -/
def setSpotGrid (s : Star) : Star :=
  { s with spots := { s.spots with spots := s.spots.spots.map fun sp => { sp with grid := s.grid } } }

/-- `Star.set_fac_grid` (star.py:182-187). -/
def setFacGrid (s : Star) : Star :=
  { s with faculae := { s.faculae with faculae := s.faculae.faculae.map fun f => { f with grid := s.grid } } }

/-- `Star.__init__` (star.py:104-173). -/
def new (teff radius period : ℝ) (spots : SpotCollection) (faculae : FaculaCollection)
    (gridParams : Grid.PyVal) (flareGen : Option FlareGenerator) (spotGen : Option SpotGenerator)
    (facGen : Option FaculaGenerator) (granulation : Option Granulation) (u1 u2 : ℝ) : Py Star := do
  let obj ← Grid.Obj.new gridParams
  let g ← Grid.ofObj obj
  let spotGen' ← match spotGen with
    | none => pure (SpotGenerator.off g)
    | some sg => (unify sg.grid g).map fun g' => { sg with grid := g' }
  let facGen' ← match facGen with
    | none => pure (FaculaGenerator.off g)
    | some fg => (unify fg.grid g).map fun g' => { fg with grid := g' }
  return setFacGrid <| setSpotGrid
    { teff, radius, period
      spots := spots.setGridmaker g
      faculae := faculae.setGridmaker g
      grid := g
      flareGen := flareGen.getD FlareGenerator.off
      spotGen := spotGen'
      facGen := facGen'
      granulation := some (granulation.getD Granulation.off)
      u1, u2
      flares := none }

/-- `Star.map` (star.py:199). -/
def map (s : Star) : Py (s.spots.grid.Pix → ℝ) := s.spots.mapPixels id s.radius s.teff

/-- `Star.age` (star.py:213-214). -/
def age (s : Star) (time : ℝ) : Star :=
  { s with spots := s.spots.age time, faculae := s.faculae.age time }

/-- `Star.add_spot` (star.py:225). -/
def addSpot (s : Star) (new : List StarSpot) : Star := { s with spots := s.spots.addSpot new }

/-- `Star.add_fac` (star.py:237). -/
def addFac (s : Star) (new : List Facula) : Py Star :=
  (s.faculae.addFaculae new).map fun f => { s with faculae := f }

/-- `Star.birth_spots` (star.py:585). -/
def birthSpots (s : Star) (time : ℝ) (k : ℕ) (d : (n : ℕ) → SpotDraws n) : Py Star :=
  (s.spotGen.birth time s.radius k d).map fun new => s.addSpot new

/-- `Star.birth_faculae` (star.py:598-599). -/
def birthFaculae (s : Star) (time : ℝ) (k : ℕ) (d : (n : ℕ) → FaculaDraws n) : Py Star :=
  (s.facGen.birth time s.radius k d).bind fun new => s.addFac new

/-- `Star.generate_mature_spots` (star.py:758-760). -/
def generateMatureSpots (s : Star) (coverage : ℝ) (draws : ℕ → SpotDraws 1 × Set.Ico (0 : ℝ) 1) : Py Star :=
  (s.spotGen.generateMature coverage s.radius draws).map fun new => s.addSpot new

/-- `Star.get_mu` (star.py:257). -/
def mu (s : Star) (lat0 lon0 : ℝ) : s.grid.Pix → ℝ := s.grid.mu lat0 lon0

/-- `Star.ld_mask` at one value of mu (star.py:280-283). -/
def ldMask (s : Star) (mu : ℝ) : ℝ :=
  if mu < 0 then 0 else 1 - (s.u1 + 1) * (1 - mu) - s.u2 * (1 - mu) ^ 2

/-- `Star.ld_mask_for_plotting` at one value of mu (star.py:307-310). -/
def ldMaskForPlotting (s : Star) (mu : ℝ) : ℝ :=
  if mu < 0 then 0 else 1 - s.u1 * (1 - mu) - s.u2 * (1 - mu) ^ 2

/-- `Star.area_projection_coefficient` at one value of mu (star.py:300). -/
def areaProjection (mu : ℝ) : ℝ := if 0 < mu then mu else 0

open Classical in
/-- Loop body of `add_faculae_to_map` once the two fractions are known (star.py:353-362). -/
def paintFacula (s : Star) (lat0 lon0 : ℝ) (inside : s.grid.Pix → Prop) (fracs : Np.Dict ℤ Fl)
    (cur : s.grid.Pix → ℝ) : Py (s.grid.Pix → ℝ) :=
  match fracs with
  | [(dteffWall, frac), (dteffFloor, _)] => do
      let muOfFacPix := (Finset.univ.filter inside).val.map (s.mu lat0 lon0)
      let borderMu ← Np.percentile muOfFacPix frac
      let teffWall := Helpers.clipTeff (dteffWall + s.teff)
      let teffFloor := Helpers.clipTeff (dteffFloor + s.teff)
      return fun p =>
        if inside p ∧ borderMu < s.mu lat0 lon0 p then teffFloor
        else if inside p ∧ s.mu lat0 lon0 p ≤ borderMu then teffWall
        else cur p
  -- `dteff_wall, dteff_floor = fracs.keys()` with a number of keys other than two
  | _ => .error .valueError

open Classical in
/-- One iteration of the loop of `add_faculae_to_map` (star.py:346-362).  A facula on a grid of another
shape raises `IndexError` at `mu[inside_fac]` (star.py:355). -/
def addFacula (s : Star) (lat0 lon0 : ℝ) (cur : s.grid.Pix → ℝ) (f : Facula) : Py (s.grid.Pix → ℝ) :=
  let angle := Helpers.angleBetween lat0 lon0 f.lat f.lon
  if ¬ ∃ p, (f.inside s.radius).2 p then .ok cur
  else do
    let fracs ← f.fractionalEffectiveArea angle
    let inside ← (f.inside s.radius).on s.grid .indexError
    s.paintFacula lat0 lon0 inside fracs cur

/-- `Star.add_faculae_to_map` (star.py:343-363).  (The spot map lives on `self.spots.gridmaker`; arrays of
different shapes raise `IndexError`.) -/
def addFaculaeToMap (s : Star) (lat0 lon0 : ℝ) : Py (s.grid.Pix → ℝ) := do
  let m ← s.map
  let m' ← Field.on ⟨s.spots.grid, m⟩ s.grid .indexError
  s.faculae.faculae.foldlM (fun cur f => s.addFacula lat0 lon0 cur f) m'

/-- Projected position of the planet in stellar radii (star.py:387-390, 432-435). -/
def planetX (s : Star) (angle orbit : ℝ) : Fl := .fin orbit / .fin s.radius * .fin (sin angle)

/-- See `planetX`. -/
def planetY (s : Star) (angle orbit incl : ℝ) : Fl :=
  .fin orbit / .fin s.radius * .fin (cos angle) * .fin (cos incl)

/-- `Star.get_pl_frac` (star.py:387-392). -/
def plFrac (s : Star) (angle orbit planetRadius incl : ℝ) : Py Fl :=
  (Helpers.circFraction (s.planetX angle orbit) (s.planetY angle orbit incl)
    (.fin planetRadius / .fin s.radius)).map fun f => .fin 1 - f

/-- Sample `i` of `np.linspace(-3*sigma_x, 3*sigma_x, 100)` (star.py:483). -/
def gaussX (sigmaX : Fl) (i : ℕ) : Fl := Np.linspaceFlAt (.fin (-3) * sigmaX) (.fin 3 * sigmaX) 100 i

/-- Entry of `overlap` before integration (star.py:484-489): row `i` (y), column `j` (x). -/
def gaussEntry (rp dist sigmaX sigmaY : Fl) (i j : ℕ) : Fl :=
  let xx := gaussX sigmaX j
  let yy := gaussX sigmaX i
  let zz := .fin 1 / (.fin (2 * π) * sigmaX * sigmaY) *
    Fl.exp (.fin (-0.5) * ((xx / sigmaX) * (xx / sigmaX)) - .fin 0.5 * ((yy / sigmaY) * (yy / sigmaY)))
  let d := Fl.sqrt ((xx - dist) * (xx - dist) + yy * yy)
  if d < rp then zz else .fin 0

/-- Gaussian overlap of a pixel with the planet (star.py:483-492). -/
def gaussOverlap (rp dist sigmaX sigmaY : Fl) : Fl :=
  let xs := (List.range 100).map (gaussX sigmaX)
  Np.trapz ((List.range 100).map fun i =>
    Np.trapz ((List.range 100).map fun j => gaussEntry rp dist sigmaX sigmaY i j) xs) xs

/-- Radius of each pixel in radians, `point_radii` (star.py:448). -/
def pointRadius (s : Star) (p : s.grid.Pix) : Fl := .fin 2 * Fl.sqrt (s.grid.area p)

/-- Distance of each pixel from the planet centre in the projection, `rad_map` (star.py:445, 452). -/
def radMap (s : Star) (lat0 lon0 : ℝ) (x y : Fl) (p : s.grid.Pix) : Fl :=
  let xy := Helpers.projOrtho lat0 lon0 (s.grid.lat p) (s.grid.lon p)
  Fl.sqrt ((xy.1 - x) * (xy.1 - x) + (xy.2 - y) * (xy.2 - y))

open Classical in
/-- `covered_value` of one pixel during a transit (star.py:446-492). -/
def coveredValue (s : Star) (lat0 lon0 : ℝ) (x y rp : Fl) (p : s.grid.Pix) : Fl :=
  let projRadius := s.pointRadius p * .fin (s.mu lat0 lon0 p)
  let rad := s.radMap lat0 lon0 x y p
  if rp + .fin 2 * projRadius < rad ∨ rad.isNan then .fin 0
  else if rad + .fin 2 * projRadius < rp then .fin 1
  else gaussOverlap rp rad projRadius (s.pointRadius p)

open Classical in
/-- `Star.get_transit_mask` (star.py:428-495): mask and visible planet fraction.  The low-resolution
warning (:459-472) is `transitWarning`. -/
def transitMask (s : Star) (lat0 lon0 orbit radius phase incl : ℝ) : Py ((s.grid.Pix → Fl) × Fl) :=
  let angle := phase - π
  let x := s.planetX angle orbit
  let y := s.planetY angle orbit incl
  let rp := .fin radius / .fin s.radius
  if .fin 1 + .fin 2 * rp < Fl.sqrt (x * x + y * y) then .ok (fun _ => .fin 0, .fin 1)
  else if 0 < cos phase then (s.plFrac angle orbit radius incl).map fun f => (fun _ => .fin 0, f)
  else
    let covered := s.coveredValue lat0 lon0 x y rp
    if ∃ p, (covered p).isNan then .error .valueError
    else .ok (covered, .fin 1)

open Classical in
/-- The pixels near enough to the planet to be looked at, `~case1` (star.py:454, 459). -/
def relevant (s : Star) (lat0 lon0 : ℝ) (x y rp : Fl) : Finset s.grid.Pix :=
  Finset.univ.filter fun p =>
    ¬ (rp + .fin 2 * (s.pointRadius p * .fin (s.mu lat0 lon0 p)) < s.radMap lat0 lon0 x y p ∨
      (s.radMap lat0 lon0 x y p).isNan)

open Classical in
/-- The low-resolution check inside the transit branch (star.py:459-472): the factor shown in the
`InsufficientResolutionWarning`, `none` if there is no warning. -/
def lowResolution (s : Star) (lat0 lon0 : ℝ) (x y rp : Fl) : Option Fl :=
  let near := s.relevant lat0 lon0 x y rp
  if 0 < near.card then
    let radMean := (∑ p ∈ near, s.pointRadius p * .fin (s.mu lat0 lon0 p)) / .fin near.card
    if .fin 0.5 * rp < radMean then
      let areaMean := .fin π * (radMean * radMean)
      let targetArea := .fin π * (rp * rp) / .fin 4
      some (areaMean / targetArea)
    else none
  else none

open Classical in
/-- Warnings issued by `get_transit_mask` (star.py:428-472), branch structure as in `transitMask`. -/
def transitWarning (s : Star) (lat0 lon0 orbit radius phase incl : ℝ) : Option Fl :=
  let angle := phase - π
  let x := s.planetX angle orbit
  let y := s.planetY angle orbit incl
  let rp := .fin radius / .fin s.radius
  if .fin 1 + .fin 2 * rp < Fl.sqrt (x * x + y * y) then none
  else if 0 < cos phase then none
  else s.lowResolution lat0 lon0 x y rp

/-- Dict key `f'{teff:.2f}'` (star.py:558-571): the temperature in hundredths of a kelvin. -/
def key (teff : ℝ) : ℤ := Np.roundHalfEven (100 * teff)

/-- Limb darkened projected area of a pixel, `ld*proj_area` (star.py:533-538, 553); `Star.get_jacobian` is the area of the grid
(star.py:321). -/
def weight (s : Star) (lat0 lon0 : ℝ) (p : s.grid.Pix) : Fl :=
  .fin (s.ldMaskForPlotting (s.mu lat0 lon0 p)) *
    (s.grid.area p * .fin (areaProjection (s.mu lat0 lon0 p)))

open Classical in
/-- Sum over the pixels with temperature `teff` (star.py:555-557), with an extra factor per pixel. -/
def areaWithTeff (s : Star) (lat0 lon0 : ℝ) (m : s.grid.Pix → ℝ) (extra : s.grid.Pix → Fl) (teff : ℝ) : Fl :=
  ∑ p, (if m p = teff then Fl.fin 1 else Fl.fin 0) * s.weight lat0 lon0 p * extra p

/-- `np.unique(surface_map)` (star.py:550). -/
def uniqueTeffs {ι : Type} [Fintype ι] (m : ι → ℝ) : List ℝ := (Finset.univ.image m).sort (· ≤ ·)

/-- `total_data` or `covered_data` before granulation (star.py:554-564). -/
def rawData (s : Star) (lat0 lon0 : ℝ) (m : s.grid.Pix → ℝ) (extra : s.grid.Pix → Fl) (granTeff : ℝ) :
    Np.Dict ℤ Fl :=
  let total := ∑ p, s.weight lat0 lon0 p
  let d := (uniqueTeffs m).foldl
    (fun d teff => Np.Dict.set d (key teff) (s.areaWithTeff lat0 lon0 m extra teff / total)) []
  open Classical in
  if granTeff ∈ uniqueTeffs m then d else Np.Dict.set d (key granTeff) (.fin 0)

/-- The granulation update of one dict (star.py:566-568 and 569-571). -/
def granulate (d : Np.Dict ℤ Fl) (kPhot kGran : ℤ) (gran : ℝ) : Py (Np.Dict ℤ Fl) := do
  let phot ← Np.Dict.get d kPhot
  let d₁ := Np.Dict.set d kPhot (phot * .fin (1 - gran))
  let old ← Np.Dict.get d₁ kGran
  return Np.Dict.set d₁ kGran (old + phot * .fin gran)

/-- `Star.calc_coverage` (star.py:533-573).  `self.granulation` is an object (`None` would raise
`AttributeError` at :560; reported here as `typeError`). -/
def calcCoverage (s : Star) (lat0 lon0 gran orbit planetRadius phase incl : ℝ) :
    Py (Np.Dict ℤ Fl × Np.Dict ℤ Fl × Fl) := do
  let m ← s.addFaculaeToMap lat0 lon0
  let (covered, plf) ← s.transitMask lat0 lon0 orbit planetRadius phase incl
  match s.granulation with
  | none => .error .typeError
  | some gr =>
    let granTeff := s.teff - gr.dteff
    let total ← granulate (s.rawData lat0 lon0 m (fun _ => .fin 1) granTeff) (key s.teff) (key granTeff) gran
    let cov ← granulate (s.rawData lat0 lon0 m covered granTeff) (key s.teff) (key granTeff) gran
    return (total, cov, plf)

/-- Default orbital arguments of `calc_coverage` (star.py:501-504): 1 AU in km. -/
def defaultOrbit : ℝ := 149597870.7
/-- Default planet radius of `calc_coverage`, 1 R_earth in km (star.py:502). -/
def defaultPlanetRadius : ℝ := 6378.1

/-- The keys of the coverage dict are strings; `str ** int` raises `TypeError` (star.py:623).  An empty dict
would give `0/0`, a `ZeroDivisionError` (star.py:625). -/
def averageOfStrings (d : Np.Dict ℤ Fl) : Py Fl :=
  match d with
  | [] => .error .zeroDivision
  | _ :: _ => .error .typeError

/-- Arithmetic of the loop of `average_teff` (star.py:620-625), had the keys been numbers (here a key `k` is the
temperature `k/100`).  Not reachable in the code, see `averageOfStrings`. -/
def averageOfNumbers (d : Np.Dict ℤ Fl) : Fl :=
  let nd := d.foldl (fun (nd : Fl × Fl) kv => (nd.1 + .fin (((kv.1 : ℝ) / 100) ^ 4) * kv.2, nd.2 + kv.2)) (.fin 0, .fin 0)
  Fl.rpow (nd.1 / nd.2) 0.25

/-- `Star.average_teff` (star.py:619-625). -/
def averageTeff (s : Star) (lat0 lon0 : ℝ) : Py Fl := do
  let (dat, _, _) ← s.calcCoverage lat0 lon0 0 defaultOrbit defaultPlanetRadius (Grid.deg 90) 0
  averageOfStrings dat

/-- `Star.get_flares_over_observation` (star.py:707-708). -/
def getFlares (s : Star) (duration : ℝ) (k : ℕ) (d : (n : ℕ) → FlareDraws n) : Py Star :=
  (s.flareGen.series duration k d).map fun fl => { s with flares := some (FlareCollection.new fl) }

/-- `Star.get_flare_int_over_timeperiod` (star.py:739-741); before any flares were generated `self.flares`
is `None` and the attribute access raises (reported as `typeError`). -/
def flareInt (s : Star) (tstart tfinish lat0 lon0 : ℝ) : Py (List (ℝ × Fl)) :=
  match s.flares with
  | none => .error .typeError
  | some c => c.integrals tstart tfinish lat0 lon0

open Classical in
/-- `Star.get_granulation_coverage` (star.py:776-785).  `params` has no key `'amp'` (granules.py:116-120),
so evaluating `params['amp']` raises `KeyError`; it is evaluated only when `dteff ≠ 0` and `mean = 0`. -/
def granulationCoverage (s : Star) {n : ℕ} (sample : Fin n → Fl) : Py (Fin n → Fl) :=
  match s.granulation with
  | none => .ok fun _ => .fin 0
  | some g =>
    if g.dteff = 0 then .ok fun _ => .fin 0
    else if g.mean = 0 then .error .keyError
    else .ok fun i => if (g.getCoverage sample i).isNan then .fin 0 else g.getCoverage sample i

end Star
end Vsm
