import Verif.Model.Single

/-!
# Geometry in double precision

`Star`, `Spots` and `Helpers` work with exact numbers.  Here the computations that decide which pixels belong to a spot or facula, and the
angle between two points, are modelled with the rounding of double precision.  Sums, products, quotients and square roots are
correctly rounded (IEEE 754); the functions of the mathematical library are given as an argument (`Libm`), theorems ask of them a relative error of at most
`2^-52`.  Overflow and subnormal numbers are not modelled.  Angles are quantities in radians as `grid()` returns them, areas and
radii are in the same unit of length.
-/

noncomputable section

namespace Vsm

open Real

/-- Rounding to `n` binary digits, to even on ties. -/
def roundBits (n : ℕ) (x : ℝ) : ℝ :=
  let ulp := (2 : ℝ) ^ (Int.log 2 |x| - ((n : ℤ) - 1))
  Np.roundHalfEven (x / ulp) * ulp

/-- Rounding to double precision. -/
def dbl (x : ℝ) : ℝ := roundBits 53 x

/-- Functions of the mathematical library that numpy calls. -/
structure Libm where
  /-- `np.sin` -/
  sin : ℝ → ℝ
  /-- `np.cos` -/
  cos : ℝ → ℝ
  /-- `np.arcsin` on [-1, 1] -/
  arcsin : ℝ → ℝ
  /-- `np.arccos` on [-1, 1] -/
  arccos : ℝ → ℝ

namespace Libm

/-- The library whose functions are correctly rounded. -/
def rounded : Libm where
  sin x := dbl (Real.sin x)
  cos x := dbl (Real.cos x)
  arcsin x := dbl (Real.arcsin x)
  arccos x := dbl (Real.arccos x)

variable (M : Libm)

/-- `cos_angle_from_disk_center` (coordinate_grid.py:130-133) and `mu` of `get_angle_between` (helpers.py:100-102). -/
def mu (lat1 lon1 lat2 lon2 : ℝ) : ℝ :=
  dbl (dbl (M.sin lat1 * M.sin lat2) + dbl (dbl (M.cos lat1 * M.cos lat2) * M.cos (dbl (lon1 - lon2))))

/-- `get_angle_between` (helpers.py:100-103): `np.arccos` is NaN outside [-1, 1]. -/
def angleBetween (lat1 lon1 lat2 lon2 : ℝ) : Fl :=
  let m := M.mu lat1 lon1 lat2 lon2
  if |m| ≤ 1 then .fin (M.arccos m) else .nan

/-- The argument of the square root in the distance of a pixel (spots.py:148-149, faculae.py:180-181). -/
def hav (lat0 lon0 lat lon : ℝ) : ℝ :=
  let a := M.sin (dbl (0.5 * dbl (lat0 - lat)))
  let b := M.sin (dbl (0.5 * dbl (lon0 - lon)))
  dbl (dbl (a * a) + dbl (dbl (M.cos lat * M.cos lat0) * dbl (b * b)))

/-- The distance of a pixel from the centre of a spot (spots.py:148-149) or facula (faculae.py:180-181).  `np.sqrt` is NaN for negative numbers,
`np.arcsin` outside [-1, 1]. -/
def dist (lat0 lon0 lat lon : ℝ) : Fl :=
  let h := M.hav lat0 lon0 lat lon
  let x := dbl (√h)
  if 0 ≤ h ∧ x ≤ 1 then .fin (dbl (2 * M.arcsin x)) else .nan

/-- `Quantity.to(u.deg)` of an angle in radians. -/
def toDeg (x : ℝ) : ℝ := dbl (x * dbl (180 / π))

/-- The angle in radians of one in degrees. -/
def toRad (x : ℝ) : ℝ := dbl (x * dbl (π / 180))

/-- `StarSpot.angular_radius` (spots.py:188-189) in degrees; `none` is NaN. -/
def spotRadiusDeg (area starRad : ℝ) : Option ℝ :=
  let c := dbl (1 - dbl (area / dbl (dbl (2 * dbl π) * dbl (starRad * starRad))))
  if |c| ≤ 1 then some (toDeg (M.arccos c)) else none

/-- `self.r < radius` for the whole spot (spots.py:217): the radius in degrees is converted to radians. -/
def inSpot (lat0 lon0 area starRad lat lon : ℝ) : Prop :=
  match M.dist lat0 lon0 lat lon, M.spotRadiusDeg area starRad with
  | .fin d, some ρ => d < toRad ρ
  | _, _ => False

/-- `self.r < radius_umbra` (spots.py:215-216). -/
def inUmbra (lat0 lon0 area ratio starRad lat lon : ℝ) : Prop :=
  match M.dist lat0 lon0 lat lon, M.spotRadiusDeg area starRad with
  | .fin d, some ρ => d < toRad (dbl (ρ / dbl (√ratio)))
  | _, _ => False

/-- `Facula.map_pixels` (faculae.py:304, 320-322): `self._r <= self.radius/star_rad * 180/np.pi * u.deg`. -/
def inFacula (lat0 lon0 radius starRad lat lon : ℝ) : Prop :=
  match M.dist lat0 lon0 lat lon with
  | .fin d => d ≤ toRad (dbl (dbl (dbl (radius / starRad) * 180) / dbl π))
  | _ => False

open Classical in
/-- `SpotCollection.map_pixels` (spots.py:439-450) at one pixel with coordinates `lat`, `lon`; `emb` stores a temperature in the map.  Spots with an area or a ratio that is
NaN or infinite cover nothing here. -/
def mapPixel (emb : ℝ → ℝ) (spots : List StarSpot) (starRad starTeff lat lon : ℝ) : ℝ :=
  spots.foldl (fun cur s =>
    match s.area, s.ratio with
    | .fin area, .fin ratio =>
      let pen := M.inSpot s.lat s.lon area starRad lat lon
      let umb := if s.teffUmbra = s.teffPenumbra then pen else M.inUmbra s.lat s.lon area ratio starRad lat lon
      SpotCollection.overlay emb s.teffUmbra s.teffPenumbra umb pen cur
    | _, _ => cur) starTeff

end Libm

/-- One iteration of the loop of `add_faculae_to_map` (star.py:346-362) with the angle computed in double precision, see `Star.addFacula`. -/
def Star.addFaculaFloat (M : Libm) (s : Star) (lat0 lon0 : ℝ) (cur : s.grid.Pix → ℝ) (f : Facula) : Py (s.grid.Pix → ℝ) :=
  open Classical in
  let angle := M.angleBetween lat0 lon0 f.lat f.lon
  if ¬ ∃ p, (f.inside s.radius).2 p then .ok cur
  else do
    let fracs ← f.fractionalEffectiveArea angle
    let inside ← (f.inside s.radius).on s.grid .indexError
    s.paintFacula lat0 lon0 inside fracs cur

/-- `Star.add_faculae_to_map` (star.py:343-363) with the angles to the faculae computed in double precision. -/
def Star.addFaculaeToMapFloat (M : Libm) (s : Star) (lat0 lon0 : ℝ) : Py (s.grid.Pix → ℝ) := do
  let m ← s.map
  let m' ← Field.on ⟨s.spots.grid, m⟩ s.grid .indexError
  s.faculae.faculae.foldlM (fun cur f => s.addFaculaFloat M lat0 lon0 cur f) m'

/-! ## The report -/

/-- The order in which `np.sum` adds the entries of an array. -/
inductive SumTree (ι : Type) where
  | leaf (i : ι)
  | node (l r : SumTree ι)

namespace SumTree

variable {ι : Type}

/-- The entries that are added. -/
def leaves : SumTree ι → List ι
  | leaf i => [i]
  | node l r => l.leaves ++ r.leaves

/-- The largest number of additions that an entry takes part in. -/
def depth : SumTree ι → ℕ
  | leaf _ => 0
  | node l r => max l.depth r.depth + 1

/-- The sum, every addition rounded. -/
def sum (x : ι → ℝ) : SumTree ι → ℝ
  | leaf i => x i
  | node l r => dbl (l.sum x + r.sum x)

end SumTree

namespace Libm

variable (M : Libm)

/-- `np.linspace(-90, 90, nlat)[j]` (coordinate_grid.py:25), degrees.  numpy computes `j*step + start` and then overwrites the last entry by `stop`. -/
def latDeg (nlat j : ℕ) : ℝ :=
  if 1 < nlat ∧ j + 1 = nlat then 90 else dbl (dbl (j * dbl (180 / ((nlat : ℝ) - 1))) + -90)

/-- `np.linspace(0, 360, nlon, endpoint=False)[i]` (coordinate_grid.py:43), degrees. -/
def lonDeg (nlon i : ℕ) : ℝ := dbl (i * dbl (360 / nlon))

/-- `SpiralGrid.GOLDEN_RATIO` (coordinate_grid.py:413). -/
def golden : ℝ := dbl (0.5 * dbl (1 + dbl √5))

/-- Latitude of a pixel in radians: `grid()` converted from degrees (coordinate_grid.py:25, 303), or that of a spiral (:434-438). -/
def gridLat : (g : Grid) → g.Pix → ℝ
  | .rect nlat _, p => toRad (latDeg nlat p.2)
  | .spiral n, i => dbl (dbl (dbl π / 2) - M.arccos (dbl (1 - dbl (dbl (2 * dbl ((i : ℕ) + 0.5)) / n))))

/-- Longitude of a pixel in radians (coordinate_grid.py:43, 303 and :434-436).  The remainder of two doubles is exact. -/
def gridLon : (g : Grid) → g.Pix → ℝ
  | .rect _ nlon, p => toRad (lonDeg nlon p.1)
  | .spiral _, i =>
    let x := dbl (dbl (dbl (2 * dbl π) * (i : ℕ)) / golden)
    x - dbl (2 * dbl π) * ⌊x / dbl (2 * dbl π)⌋

/-- `np.sin(latgrid + 90*u.deg)` at one latitude (coordinate_grid.py:359); the sum is in degrees. -/
def jacobian (nlat j : ℕ) : ℝ := M.sin (toRad (dbl (latDeg nlat j + 90)))

/-- `CoordinateGrid.area` (coordinate_grid.py:358-361, 449); the areas of a spiral grid are `float32`.  `T` is the order of the sum. -/
def area : (g : Grid) → (T : SumTree g.Pix) → g.Pix → ℝ
  | .rect nlat _, T, p => dbl (M.jacobian nlat p.2 / T.sum fun q => M.jacobian nlat q.2)
  | .spiral n, _, _ => single (dbl (1 / n))

/-- `ld_mask_for_plotting` at one value of mu (star.py:307-310). -/
def ldMask (u1 u2 mu : ℝ) : ℝ :=
  if mu < 0 then 0 else dbl (dbl (1 - dbl (u1 * dbl (1 - mu))) - dbl (u2 * dbl (dbl (1 - mu) * dbl (1 - mu))))

/-- `ld*proj_area` at one pixel (star.py:533-538, 553); the observer is given in radians. -/
def weight (s : Star) (T : SumTree s.grid.Pix) (lat0 lon0 : ℝ) (p : s.grid.Pix) : ℝ :=
  let mu := M.mu lat0 lon0 (M.gridLat s.grid p) (gridLon s.grid p)
  dbl (ldMask s.u1 s.u2 mu * dbl (M.area s.grid T p * Star.areaProjection mu))

open Classical in
/-- `nominal_area/total_area` (star.py:553-558) for a surface map; `T` is the order of the sum in the areas, `T₁` and `T₂` those of the two sums here. -/
def nominalShare (s : Star) (T T₁ T₂ : SumTree s.grid.Pix) (lat0 lon0 : ℝ) (m : s.grid.Pix → ℝ) (teff : ℝ) : ℝ :=
  dbl ((T₁.sum fun p => if m p = teff then M.weight s T lat0 lon0 p else 0) / T₂.sum (M.weight s T lat0 lon0))

open Classical in
/-- `covered_area/total_area` (star.py:553-559) for a surface map and a transit mask. -/
def coveredShare (s : Star) (T T₁ T₂ : SumTree s.grid.Pix) (lat0 lon0 : ℝ) (m covered : s.grid.Pix → ℝ) (teff : ℝ) : ℝ :=
  dbl ((T₁.sum fun p => dbl ((if m p = teff then M.weight s T lat0 lon0 p else 0) * covered p)) / T₂.sum (M.weight s T lat0 lon0))

/-- `total_data` or `covered_data` before granulation (star.py:554-564), given the value of every temperature. -/
def rawData {ι : Type} [Fintype ι] (m : ι → ℝ) (share : ℝ → ℝ) (granTeff : ℝ) : Np.Dict ℤ ℝ :=
  let d := (Star.uniqueTeffs m).foldl (fun d teff => Np.Dict.set d (Star.key teff) (share teff)) []
  open Classical in
  if granTeff ∈ Star.uniqueTeffs m then d else Np.Dict.set d (Star.key granTeff) 0

/-- The granulation update of one dict (star.py:566-568 and 569-571). -/
def granulate (d : Np.Dict ℤ ℝ) (kPhot kGran : ℤ) (gran : ℝ) : Py (Np.Dict ℤ ℝ) := do
  let phot ← Np.Dict.get d kPhot
  let d₁ := Np.Dict.set d kPhot (dbl (phot * dbl (1 - gran)))
  let old ← Np.Dict.get d₁ kGran
  return Np.Dict.set d₁ kGran (dbl (old + dbl (phot * gran)))

/-- `total_data` and `covered_data` of `calc_coverage` (star.py:550-573) for a surface map and a transit mask.  The two temperatures that
name the entries of the photosphere and of the granulation are not rounded here. -/
def report (s : Star) (T T₁ T₂ : SumTree s.grid.Pix) (lat0 lon0 gran : ℝ) (m covered : s.grid.Pix → ℝ) (granTeff : ℝ) :
    Py (Np.Dict ℤ ℝ × Np.Dict ℤ ℝ) := do
  let total ← granulate (rawData m (M.nominalShare s T T₁ T₂ lat0 lon0 m) granTeff) (Star.key s.teff) (Star.key granTeff) gran
  let cov ← granulate (rawData m (M.coveredShare s T T₁ T₂ lat0 lon0 m covered) granTeff) (Star.key s.teff) (Star.key granTeff) gran
  return (total, cov)

end Libm

end Vsm
