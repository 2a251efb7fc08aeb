import Verif.Model.FloatMask

/-!
# The planet in double precision

The place and the size of the planet, the sizes of the pixels and the three branches of `Star.get_transit_mask` (star.py:428-494) with the rounding of double precision.  Simplifications: the
lengths are in one unit and the angles in radians, so that no unit is converted but that of `180*u.deg`; the Gaussian integrals of the pixels at the planet's edge are an argument.
-/

noncomputable section

namespace Vsm

open Real Np

namespace Libm

variable (M : Libm)

/-- `x` (star.py:431-433): the place of the planet along its orbit in stellar radii.  `phase` is in radians, and so is `phase - 180*u.deg`; radii of star and orbit are in one unit. -/
def planetX (R orbit phase : ℝ) : ℝ := dbl (dbl (orbit / R) * M.sin (dbl (phase - toRad 180)))

/-- `y` (star.py:434-435). -/
def planetY (R orbit phase incl : ℝ) : ℝ := dbl (dbl (dbl (orbit / R) * M.cos (dbl (phase - toRad 180))) * M.cos incl)

/-- `point_radii` (star.py:449-450).  The doubling is exact; the areas of a spiral are `float32`, and so are their roots. -/
def pointRadius : (g : Grid) → SumTree g.Pix → g.Pix → ℝ
  | .rect a b, T, p => 2 * dbl √(M.area (.rect a b) T p)
  | .spiral n, T, p => 2 * single √(M.area (.spiral n) T p)

open Classical in
/-- `Star.get_transit_mask` (star.py:428-494) as computed: no planet in front of the star, a planet behind it, or a transit.  `mid` is what the Gaussian integrals give. -/
def transitMask (s : Star) (T : SumTree s.grid.Pix) (lat0 lon0 orbit r phase incl : ℝ) (mid : s.grid.Pix → ℝ) : s.grid.Pix → ℝ :=
  let x := M.planetX s.radius orbit phase
  let y := M.planetY s.radius orbit phase incl
  let rp := dbl (r / s.radius)
  if dbl (1 + dbl (2 * rp)) < dbl √(dbl (dbl (x * x) + dbl (y * y))) then fun _ => 0
  else if 0 < M.cos phase then fun _ => 0
  else M.maskD s.grid lat0 lon0 x y rp (M.pointRadius s.grid T) mid

end Libm

end Vsm
