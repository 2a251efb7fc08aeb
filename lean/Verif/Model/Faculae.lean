import Verif.Model.Spots

/-!
# Model of `vspec_vsm/faculae.py`

Units: km, days, K, radians.
-/

noncomputable section

namespace Vsm

open Real

/-- `Facula` attributes (faculae.py:131-147). -/
structure Facula where
  lat : ℝ
  lon : ℝ
  rMax : ℝ
  radius : Fl
  depth : ℝ
  lifetime : ℝ
  floorSlope : ℝ
  floorMinRad : ℝ
  floorBase : ℝ
  wallSlope : ℝ
  wallIntercept : ℝ
  isGrowing : Bool
  grid : Grid

namespace Facula

/-- `Facula.floor_dteff` (faculae.py:156-158). -/
def floorDteff (f : Facula) : Fl := (f.radius - .fin f.floorMinRad) * .fin f.floorSlope + .fin f.floorBase

/-- `Facula.wall_dteff` (faculae.py:167-168). -/
def wallDteff (f : Facula) : Fl := .fin f.wallSlope * f.radius + .fin f.wallIntercept

/-- `Facula._r` (faculae.py:171-181); unlike a spot's it is recomputed on every access. -/
def dist (f : Facula) : Field ℝ :=
  ⟨f.grid, fun p => Helpers.haversine f.lat f.lon (f.grid.lat p) (f.grid.lon p)⟩

/-- `Facula.age` (faculae.py:217-226). -/
def age (f : Facula) (time : ℝ) : Facula :=
  if f.isGrowing then
    let timeFromMax := .fin (-1) * Fl.log (f.radius / .fin f.rMax) * .fin f.lifetime * .fin 0.5
    if timeFromMax ≤ .fin time then
      { f with
        isGrowing := false
        radius := .fin f.rMax * Fl.exp (.fin (-2) * (.fin time - timeFromMax) / .fin f.lifetime) }
    else
      { f with radius := f.radius * Fl.exp (.fin (2 * time) / .fin f.lifetime) }
  else
    { f with radius := f.radius * Fl.exp (.fin (-2 * time) / .fin f.lifetime) }

/-- The dict `{round_teff(wall): aw, round_teff(floor): af}` (faculae.py:249-252, 259-262): when both
rounded keys coincide only one entry is left, with the floor's value. -/
def twoKeys (f : Facula) (aw af : Fl) : Py (Np.Dict ℤ Fl) := do
  let kw ← Helpers.roundTeff f.wallDteff
  let kf ← Helpers.roundTeff f.floorDteff
  return Np.Dict.set (Np.Dict.set [] kw aw) kf af

/-- `Facula.effective_area` (faculae.py:228-262). -/
def effectiveArea (f : Facula) (angle : Fl) : Py (Np.Dict ℤ Fl) :=
  if Fl.feq f.floorDteff f.wallDteff then .error .valueError
  else if f.radius < .fin f.floorMinRad then
    f.twoKeys (.fin π * (f.radius * f.radius) * Fl.cos angle) (.fin 0)
  else do
    let depthOverRadius := .fin f.depth / f.radius
    let frac ← Helpers.circFraction (depthOverRadius * Fl.tan angle) (.fin 0) (.fin 1)
    let wallFrac := .fin 1 - frac
    let projArea := .fin π * (f.radius * f.radius) * Fl.cos angle
    f.twoKeys (wallFrac * projArea) ((.fin 1 - wallFrac) * projArea)

/-- `Facula.fractional_effective_area` (faculae.py:281-288). -/
def fractionalEffectiveArea (f : Facula) (angle : Fl) : Py (Np.Dict ℤ Fl) :=
  (f.effectiveArea angle).map fun d =>
    let total := d.values.sum
    d.map fun kv => (kv.1, kv.2 / total)

/-- `Facula.angular_radius` (faculae.py:304), in radians. -/
def angularRadius (f : Facula) (starRad : ℝ) : Fl := f.radius / .fin starRad

/-- `Facula.map_pixels` (faculae.py:320-322) as a predicate on the pixels of the facula's grid. -/
def inside (f : Facula) (starRad : ℝ) : Field Prop :=
  ⟨f.grid, fun p => Fl.fin (f.dist.2 p) ≤ f.angularRadius starRad⟩

end Facula

/-- `FaculaCollection` (faculae.py:325-355). -/
structure FaculaCollection where
  faculae : List Facula
  grid : Grid

namespace FaculaCollection

/-- `FaculaCollection.set_gridmaker` (faculae.py:356-368). -/
def setGridmaker (c : FaculaCollection) (g : Grid) : FaculaCollection :=
  { grid := g, faculae := c.faculae.map fun f => { f with grid := g } }

/-- `FaculaCollection.__init__` with an explicit grid (faculae.py:348-355). -/
def new (faculae : List Facula) (g : Grid) : FaculaCollection :=
  setGridmaker { faculae, grid := g } g

/-- `FaculaCollection.add_faculae` with a sequence (faculae.py:379-385).  The comparison
`fac.gridmaker == self.gridmaker` is `Grid.eq` and may raise. -/
def addFaculae (c : FaculaCollection) (new : List Facula) : Py FaculaCollection := do
  let new' ← new.mapM fun f =>
    (Grid.eq f.grid c.grid).map fun b => if !b then { f with grid := c.grid } else f
  return { c with faculae := c.faculae ++ new' }

/-- `FaculaCollection.clean_faclist` (faculae.py:391-398). -/
def clean (c : FaculaCollection) : FaculaCollection :=
  { c with faculae := c.faculae.filter fun f =>
      !(decide (f.radius ≤ .fin (f.rMax / Real.exp 1 ^ 2)) && !f.isGrowing) }

/-- `FaculaCollection.age` (faculae.py:411-413). -/
def age (c : FaculaCollection) (time : ℝ) : FaculaCollection :=
  clean { c with faculae := c.faculae.map (·.age time) }

open Classical in
/-- `FaculaCollection.map_pixels` (faculae.py:438-447, deprecated): integer map of facula locations on the
photosphere pixels of `pixmap`.  Masks of different shapes cannot be combined (`ValueError`); the int16 range is
not represented. -/
def mapPixels (c : FaculaCollection) (pixmap : c.grid.Pix → ℝ) (starRad starTeff : ℝ) :
    Py (c.grid.Pix → ℕ) :=
  (c.faculae.zipIdx).foldlM (fun cur fi => do
    let ins ← (fi.1.inside starRad).on c.grid .valueError
    return fun p => if ins p ∧ pixmap p = starTeff then fi.2 + 1 else cur p) (fun _ => 0)

end FaculaCollection

/-- `FaculaGenerator` attributes (faculae.py:548-573) except `rng`, `grid_params`; `dist` can only be
`'iso'` once constructed (faculae.py:562-567). -/
structure FaculaGenerator where
  distRPeak : ℝ
  distRLogsigma : ℝ
  depth : ℝ
  distLifePeak : ℝ
  distLifeLogsigma : ℝ
  floorSlope : ℝ
  floorMinRad : ℝ
  floorBase : ℝ
  wallSlope : ℝ
  wallIntercept : ℝ
  coverage : ℝ
  grid : Grid

/-- Random numbers consumed by `generate_faculae(n)` (faculae.py:676-678, 701). -/
structure FaculaDraws (n : ℕ) where
  mu : Fin n → ℝ
  uLat : Fin n → Set.Ico (0 : ℝ) 1
  uLon : Fin n → Set.Ico (0 : ℝ) 1

namespace FaculaGenerator

/-- The `dist` check of `FaculaGenerator.__init__` (faculae.py:562-567). -/
def checkDist (dist : SpotDist) : Py Unit :=
  match dist with
  | .solar => .error .notImplemented
  | .iso => .ok ()
  | .other => .error .valueError

/-- `FaculaGenerator.off` (faculae.py:593-609). -/
def off (g : Grid) : FaculaGenerator :=
  { distRPeak := 100, distRLogsigma := 0.1, depth := 10, distLifePeak := 6 / 24, distLifeLogsigma := 0.2
    floorSlope := 0, floorMinRad := 20, floorBase := -100, wallSlope := 0, wallIntercept := 100
    coverage := 0, grid := g }

/-- `FaculaGenerator.mean_area` (faculae.py:622). -/
def meanArea (s : FaculaGenerator) : ℝ := 0.5 * π * (1 - Real.exp 1 ^ (-2 : ℤ)) * s.distRPeak ^ 2

/-- `FaculaGenerator.get_n_faculae_expected` (faculae.py:648-650). -/
def nExpected (s : FaculaGenerator) (time radStar : ℝ) : Fl :=
  .fin (s.coverage * 4 * π * radStar ^ 2) / .fin s.meanArea * .fin time / .fin (2 * s.distLifePeak)

/-- `get_coords`, latitude of facula `i` (faculae.py:676-677), radians. -/
def drawLat (_s : FaculaGenerator) {n : ℕ} (d : FaculaDraws n) (i : Fin n) : ℝ :=
  Grid.deg (Real.arcsin (2 * (d.uLat i : ℝ) - 1) / π * 180)

/-- `get_coords`, longitude of facula `i` (faculae.py:678), radians. -/
def drawLon (_s : FaculaGenerator) {n : ℕ} (d : FaculaDraws n) (i : Fin n) : ℝ :=
  Grid.deg ((d.uLon i : ℝ) * 360)

/-- `FaculaGenerator.generate_faculae` (faculae.py:701-726). -/
def generate (s : FaculaGenerator) (n : ℕ) (d : FaculaDraws n) : List Facula :=
  List.ofFn fun i =>
    let rMax := s.distRPeak * (10 : ℝ) ^ (d.mu i * s.distRLogsigma)
    { lat := s.drawLat d i, lon := s.drawLon d i, rMax := rMax
      radius := .fin (rMax / Real.exp 1 ^ 2), depth := s.depth
      lifetime := s.distLifePeak * (10 : ℝ) ^ (d.mu i * s.distLifeLogsigma)
      floorSlope := s.floorSlope, floorMinRad := s.floorMinRad, floorBase := s.floorBase
      wallSlope := s.wallSlope, wallIntercept := s.wallIntercept, isGrowing := true, grid := s.grid }

/-- `FaculaGenerator.birth_faculae` (faculae.py:747-749): `k` is the raw Poisson draw. -/
def birth (s : FaculaGenerator) (time radStar : ℝ) (k : ℕ) (d : (n : ℕ) → FaculaDraws n) :
    Py (List Facula) :=
  (Np.poisson (s.nExpected time radStar) k).map fun n => s.generate n (d n)

end FaculaGenerator
end Vsm
