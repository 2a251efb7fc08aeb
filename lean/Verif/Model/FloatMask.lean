import Verif.Model.FloatTransit
import Verif.Model.FloatAll

/-!
# The mask of a transit in double precision

Follows the in-transit branch of `Star.get_transit_mask` (star.py:442-492) on the grid as computed.  The place and the size of the planet and the sizes of the pixels are inputs here:
C180 allows them an error.  So is the Gaussian integral of a pixel at the planet's edge.
-/

noncomputable section

namespace Vsm

open Real Np

namespace Libm

open Classical in
/-- `covered_value` of one pixel during a transit as computed (star.py:454-492): the pixel at its coordinates as computed, its `point_radii` `ρ`, the planet at `(X, Y)` with
radius `rp`; `mid` is what the Gaussian integral gives for a pixel at the edge of the planet. -/
def maskD (M : Libm) (g : Grid) (lat0 lon0 X Y rp : ℝ) (ρ mid : g.Pix → ℝ) (p : g.Pix) : ℝ :=
  if M.outside lat0 lon0 (M.gridLat g p) (gridLon g p) (ρ p) X Y rp then 0
  else if M.behind lat0 lon0 (M.gridLat g p) (gridLon g p) (ρ p) X Y rp then 1
  else mid p

end Libm

end Vsm
