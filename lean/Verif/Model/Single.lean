import Verif.Model.Star

/-!
# The surface map in single precision

`Star` works with exact numbers.  In the code the surface map is an array of `float32`: `gridmaker.zeros()` is one (coordinate_grid.py:320,
442), and with the numpy the package requires (`numpy~=1.26`, pyproject.toml) adding a scalar to it, comparing it with a scalar and `np.where`
with a scalar (spots.py:439-449) first round the scalar to `float32`.  Writing a scalar into the map with `map[pixels] = teff`
(star.py:361-362) does not round: astropy's `Quantity.__setitem__` raises `TypeError` ("cannot convert value type to array type without
precision loss") if the number changes.  Temperatures in other variables are `float64` and exact here.  Overflow and subnormal numbers are
not modelled.
-/

noncomputable section

namespace Vsm

/-- `numpy.float32(x)`: the nearest number with 24 binary digits, of two equally near ones the one with even last digit. -/
def single (x : ℝ) : ℝ :=
  let ulp := (2 : ℝ) ^ (Int.log 2 |x| - 23)
  Np.roundHalfEven (x / ulp) * ulp

namespace Star

/-- `Star.map` (star.py:199, spots.py:439-450) in single precision. -/
def mapSingle (s : Star) : Py (s.spots.grid.Pix → ℝ) := s.spots.mapPixels single s.radius (single s.teff)

open Classical in
/-- Loop body of `add_faculae_to_map` once the two fractions are known (star.py:353-362), writing into a `float32` array. -/
def paintFaculaSingle (s : Star) (lat0 lon0 : ℝ) (inside : s.grid.Pix → Prop) (fracs : Np.Dict ℤ Fl)
    (cur : s.grid.Pix → ℝ) : Py (s.grid.Pix → ℝ) :=
  match fracs with
  | [(dteffWall, frac), (dteffFloor, _)] => do
      let muOfFacPix := (Finset.univ.filter inside).val.map (s.mu lat0 lon0)
      let borderMu ← Np.percentile muOfFacPix frac
      let teffWall := Helpers.clipTeff (dteffWall + s.teff)
      let teffFloor := Helpers.clipTeff (dteffFloor + s.teff)
      if single teffWall ≠ teffWall then .error .typeError
      else if single teffFloor ≠ teffFloor then .error .typeError
      else return fun p =>
        if inside p ∧ borderMu < s.mu lat0 lon0 p then teffFloor
        else if inside p ∧ s.mu lat0 lon0 p ≤ borderMu then teffWall
        else cur p
  | _ => .error .valueError

open Classical in
/-- One iteration of the loop of `add_faculae_to_map` (star.py:346-362), see `Star.addFacula`. -/
def addFaculaSingle (s : Star) (lat0 lon0 : ℝ) (cur : s.grid.Pix → ℝ) (f : Facula) : Py (s.grid.Pix → ℝ) :=
  let angle := Helpers.angleBetween lat0 lon0 f.lat f.lon
  if ¬ ∃ p, (f.inside s.radius).2 p then .ok cur
  else do
    let fracs ← f.fractionalEffectiveArea angle
    let inside ← (f.inside s.radius).on s.grid .indexError
    s.paintFaculaSingle lat0 lon0 inside fracs cur

/-- `Star.add_faculae_to_map` (star.py:343-363) in single precision. -/
def addFaculaeToMapSingle (s : Star) (lat0 lon0 : ℝ) : Py (s.grid.Pix → ℝ) := do
  let m ← s.mapSingle
  let m' ← Field.on ⟨s.spots.grid, m⟩ s.grid .indexError
  s.faculae.faculae.foldlM (fun cur f => s.addFaculaSingle lat0 lon0 cur f) m'

/-- `rawData` (star.py:554-564) of a map in single precision: `granulation_teff not in teffs` compares in single precision, the key of the
granules is printed from the double. -/
def rawDataSingle (s : Star) (lat0 lon0 : ℝ) (m : s.grid.Pix → ℝ) (extra : s.grid.Pix → Fl) (granTeff : ℝ) :
    Np.Dict ℤ Fl :=
  let total := ∑ p, s.weight lat0 lon0 p
  let d := (uniqueTeffs m).foldl
    (fun d teff => Np.Dict.set d (key teff) (s.areaWithTeff lat0 lon0 m extra teff / total)) []
  open Classical in
  if single granTeff ∈ uniqueTeffs m then d else Np.Dict.set d (key granTeff) (.fin 0)

/-- `Star.calc_coverage` (star.py:533-573) with the surface map in single precision. -/
def calcCoverageSingle (s : Star) (lat0 lon0 gran orbit planetRadius phase incl : ℝ) :
    Py (Np.Dict ℤ Fl × Np.Dict ℤ Fl × Fl) := do
  let m ← s.addFaculaeToMapSingle lat0 lon0
  let (covered, plf) ← s.transitMask lat0 lon0 orbit planetRadius phase incl
  match s.granulation with
  | none => .error .typeError
  | some gr =>
    let granTeff := s.teff - gr.dteff
    let total ← granulate (s.rawDataSingle lat0 lon0 m (fun _ => .fin 1) granTeff) (key s.teff) (key granTeff) gran
    let cov ← granulate (s.rawDataSingle lat0 lon0 m covered granTeff) (key s.teff) (key granTeff) gran
    return (total, cov, plf)

end Star
end Vsm
