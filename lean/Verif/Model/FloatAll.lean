import Verif.Model.Float

/-!
# The whole report of a star with spots, with rounding

The pieces of `Model/Float.lean` put together: the grid, the distances of its pixels to the spots and the areas in double precision, the surface map in single
precision, and the fractions in double precision.  Simplifications: no faculae; the transit mask is an argument.
-/

noncomputable section

namespace Vsm

namespace Libm

variable (M : Libm)

/-- `Star.map` (star.py:199, spots.py:439-450): masks in double precision at the coordinates of the grid as computed, temperatures stored in single precision. -/
def spotMap (s : Star) (p : s.grid.Pix) : ℝ :=
  M.mapPixel single s.spots.spots s.radius (single s.teff) (M.gridLat s.grid p) (gridLon s.grid p)

/-- `total_data` or `covered_data` before granulation (star.py:554-564) of a map in single precision: `granulation_teff not in teffs` compares in single
precision, the key of the granules is printed from the double. -/
def rawDataSingle {ι : Type} [Fintype ι] (m : ι → ℝ) (share : ℝ → ℝ) (granTeff : ℝ) : Np.Dict ℤ ℝ :=
  let d := (Star.uniqueTeffs m).foldl (fun d teff => Np.Dict.set d (Star.key teff) (share teff)) []
  open Classical in
  if single granTeff ∈ Star.uniqueTeffs m then d else Np.Dict.set d (Star.key granTeff) 0

/-- `Star.calc_coverage` (star.py:533-573) of a star without faculae, for a transit mask `covered`. -/
def calcCoverageSpots (s : Star) (T T₁ T₂ : SumTree s.grid.Pix) (lat0 lon0 gran : ℝ) (covered : s.grid.Pix → ℝ) :
    Py (Np.Dict ℤ ℝ × Np.Dict ℤ ℝ) :=
  match s.granulation with
  | none => .error .typeError
  | some gr => do
    let granTeff := dbl (s.teff - gr.dteff)
    let m := M.spotMap s
    let total ← granulate (rawDataSingle m (M.nominalShare s T T₁ T₂ lat0 lon0 m) granTeff) (Star.key s.teff) (Star.key granTeff) gran
    let cov ← granulate (rawDataSingle m (M.coveredShare s T T₁ T₂ lat0 lon0 m covered) granTeff) (Star.key s.teff) (Star.key granTeff) gran
    return (total, cov)

end Libm

end Vsm
