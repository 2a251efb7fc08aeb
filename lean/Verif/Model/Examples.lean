import Verif.Model.Star

/-!
# The calculations of the examples

Model of the functions that the scripts under `examples/` define.
-/

noncomputable section

namespace Vsm

/-- `make_fac` (examples/plot_effect_facula_depth.py:24-41).  Lengths in km with the sun's radius of astropy, 695700 km; the grid is the
default one of `Facula` and does not matter here. -/
def Example.makeFac (g : Grid) (depthOverRad : ℝ) : Facula :=
  let radius : ℝ := 0.005 * 695700
  { lat := 0, lon := 0, rMax := radius, radius := .fin radius, depth := radius * depthOverRad, lifetime := 1, floorSlope := 0, floorMinRad := 1,
    floorBase := -100, wallIntercept := 100, wallSlope := 0, isGrowing := true, grid := g }

/-- `relative_flux` (examples/plot_effect_facula_depth.py:59-69), with the star's radius and the two brightnesses, which are constants of
the script, as arguments.  A temperature that is not a key raises `KeyError`. -/
def Example.relativeFlux (radStar wallBrightness floorBrightness : ℝ) (f : Facula) (angle : Fl) : Py Fl := do
  let effectiveArea ← f.effectiveArea angle
  let areaFloor ← Np.Dict.get effectiveArea (← Helpers.roundTeff f.floorDteff)
  let areaWall ← Np.Dict.get effectiveArea (← Helpers.roundTeff f.wallDteff)
  let areaOfDisk := Fl.fin (Real.pi * radStar ^ 2)
  let floorFraction := areaFloor / areaOfDisk
  let wallFraction := areaWall / areaOfDisk
  return .fin 1 + floorFraction * .fin (floorBrightness - 1) + wallFraction * .fin (wallBrightness - 1)

end Vsm
