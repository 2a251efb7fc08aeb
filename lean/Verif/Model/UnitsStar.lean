import Verif.Model.Star

/-!
# The report of a star whose temperature is given in another unit

`Star` works with temperatures in kelvin.  The surface map takes the unit of `Star.teff` (star.py:159-162, spots.py:439-450: the map
is `star_teff` times an array of ones, and the temperatures of spots and faculae are converted when they are written into it), and
so do the temperatures of `calc_coverage`, whose dict keys are the printed temperatures.  Here `unit` is the size of that unit in
kelvin (1000 for kK); conversions are exact scalings.
-/

noncomputable section

namespace Vsm
namespace Star

/-- Dict key `f'{teff:.2f}'` (star.py:558-571) of a temperature of `teff` kelvin given in a unit of `unit` kelvin: the printed number
in hundredths.  (The name of the unit, the same in every key, is left out.) -/
def keyIn (unit teff : ℝ) : ℤ := Np.roundHalfEven (100 * (teff / unit))

/-- `rawData` (star.py:554-564) with temperatures in that unit. -/
def rawDataIn (unit : ℝ) (s : Star) (lat0 lon0 : ℝ) (m : s.grid.Pix → ℝ) (extra : s.grid.Pix → Fl) (granTeff : ℝ) :
    Np.Dict ℤ Fl :=
  let total := ∑ p, s.weight lat0 lon0 p
  let d := (uniqueTeffs m).foldl
    (fun d teff => Np.Dict.set d (keyIn unit teff) (s.areaWithTeff lat0 lon0 m extra teff / total)) []
  open Classical in
  if granTeff ∈ uniqueTeffs m then d else Np.Dict.set d (keyIn unit granTeff) (.fin 0)

/-- `Star.calc_coverage` (star.py:533-573) of a star whose `teff` is given in a unit of `unit` kelvin. -/
def calcCoverageIn (unit : ℝ) (s : Star) (lat0 lon0 gran orbit planetRadius phase incl : ℝ) :
    Py (Np.Dict ℤ Fl × Np.Dict ℤ Fl × Fl) := do
  let m ← s.addFaculaeToMap lat0 lon0
  let (covered, plf) ← s.transitMask lat0 lon0 orbit planetRadius phase incl
  match s.granulation with
  | none => .error .typeError
  | some gr =>
    let granTeff := s.teff - gr.dteff
    let total ← granulate (s.rawDataIn unit lat0 lon0 m (fun _ => .fin 1) granTeff) (keyIn unit s.teff) (keyIn unit granTeff) gran
    let cov ← granulate (s.rawDataIn unit lat0 lon0 m covered granTeff) (keyIn unit s.teff) (keyIn unit granTeff) gran
    return (total, cov, plf)

end Star
end Vsm
