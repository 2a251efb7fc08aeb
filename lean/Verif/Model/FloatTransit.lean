import Verif.Model.Float

/-!
# The projection and the transit mask in double precision

`proj_ortho` and the decision which pixels are behind the planet, with the rounding of double precision (see `Model/Float`).  Angles are in radians, the
position `X`, `Y` and the radius `rp` of the planet are in units of the radius of the star, as computed.
-/

noncomputable section

namespace Vsm

open Real

namespace Libm

variable (M : Libm)

/-- `np.round(x, 4)`: multiply, round to an integer, divide. -/
def round4 (x : ℝ) : ℝ := dbl (Np.roundHalfEven (dbl (x * 10000)) / 10000)

/-- `x` and `y` at the end of `proj_ortho` (helpers.py:218-219). -/
def place (C a : ℝ) : Fl × Fl := (.fin (dbl (M.sin C * M.sin a)), .fin (dbl (M.cos C * M.sin a)))

/-- The angle at the centre of the projection (helpers.py:191-217), given the distance `a` of the point and its rounded cosine `mu`; `none` is NaN. -/
def bearing (lat0 lon0 lat lon b c mu a : ℝ) : Option ℝ :=
  let num := dbl (M.cos c - dbl (M.cos a * M.cos b))
  let den₀ := dbl (M.sin a * M.sin b)
  let den := if den₀ = 0 then dbl 1e-20 else den₀
  let cosC := round4 (if mu < 1 then dbl (num / den) else 1)
  let C₁ := if lon = lon0 then some 0 else if |cosC| ≤ 1 then some (M.arccos cosC) else none
  let C₂ := if lon = lon0 ∧ lat < lat0 then some (dbl π) else C₁
  let C₃ := if 0 ≤ mu then C₂ else none
  if M.sin (dbl (lon - lon0)) < 0 then C₃.map (-·) else C₃

/-- `proj_ortho` for one point (helpers.py:178-220).  `np.arccos` is NaN outside [-1, 1], and then so are the coordinates. -/
def projOrtho (lat0 lon0 lat lon : ℝ) : Fl × Fl :=
  let b := dbl (dbl π / 2 - lat0)
  let c := dbl (dbl π / 2 - lat)
  if b = 0 then
    if c ≤ dbl π / 2 then M.place (dbl (dbl π - lon)) c else (.nan, .nan)
  else if b = dbl π then
    if dbl π / 2 ≤ c then M.place lon c else (.nan, .nan)
  else
    let mu := M.mu lat0 lon0 lat lon
    if 1 < |mu| then (.nan, .nan)
    else
      match M.bearing lat0 lon0 lat lon b c mu (M.arccos mu) with
      | some C => M.place C (M.arccos mu)
      | none => (.nan, .nan)

/-- `rad_map` (star.py:452): distance of a projected point from the centre of the planet. -/
def radMap (X Y : ℝ) : Fl × Fl → Fl
  | (.fin x, .fin y) => .fin (dbl √(dbl (dbl (dbl (x - X) * dbl (x - X)) + dbl (dbl (y - Y) * dbl (y - Y)))))
  | _ => .nan

/-- `proj_radii` (star.py:450) of a pixel with `point_radii` `ρ` (star.py:448, as computed: single precision on a spiral grid). -/
def projRadius (ρ mu : ℝ) : ℝ := dbl (ρ * mu)

/-- `case1` (star.py:454): the point is completely outside the transit radius. -/
def outside (lat0 lon0 lat lon ρ X Y rp : ℝ) : Prop :=
  match radMap X Y (M.projOrtho lat0 lon0 lat lon) with
  | .fin d => dbl (rp + dbl (2 * projRadius ρ (M.mu lat0 lon0 lat lon))) < d
  | _ => True

/-- The condition under which the covered value is set to one (star.py:476-482). -/
def behind (lat0 lon0 lat lon ρ X Y rp : ℝ) : Prop :=
  ¬ M.outside lat0 lon0 lat lon ρ X Y rp ∧
  match radMap X Y (M.projOrtho lat0 lon0 lat lon) with
  | .fin d => dbl (d + dbl (2 * projRadius ρ (M.mu lat0 lon0 lat lon))) < rp
  | _ => False

end Libm

end Vsm
