import Verif.Np
import Mathlib.NumberTheory.Real.GoldenRatio

/-!
# Model of `vspec_vsm/coordinate_grid.py`

Angles are in radians in the model unless the name says `Deg`.
-/

noncomputable section

namespace Vsm

open Real

/-- A `CoordinateGrid` object: `RectangularGrid(nlat, nlon)` (coordinate_grid.py:219-272) or
`SpiralGrid(n_points)` (coordinate_grid.py:408-416).  Simplification: sizes are natural numbers (negative
sizes are accepted by the constructors, but numpy then refuses to build the arrays). -/
inductive Grid where
  | rect (nlat nlon : ℕ)
  | spiral (nPoints : ℕ)
  deriving DecidableEq

namespace Grid

/-- Index type of the arrays belonging to a grid.  A rectangular grid has arrays of shape `(nlon, nlat)`
(`np.meshgrid(lats, lons)`, coordinate_grid.py:303, and `np.zeros((nlon, nlat))`, :320), a spiral grid of
shape `(n_points,)` (:434-442). -/
@[reducible] def Pix : Grid → Type
  | rect nlat nlon => Fin nlon × Fin nlat
  | spiral n => Fin n

instance (g : Grid) : Fintype g.Pix := by cases g <;> (dsimp only [Pix]; infer_instance)
instance (g : Grid) : DecidableEq g.Pix := by cases g <;> (dsimp only [Pix]; infer_instance)

/-- The numpy shape of the arrays of the grid (coordinate_grid.py:303, 320, 434, 442). -/
def shape : Grid → List ℕ
  | rect nlat nlon => [nlon, nlat]
  | spiral n => [n]

/-- `get_lat_points(n)`, entry `j`, in degrees (coordinate_grid.py:25). -/
def latPointDeg (n j : ℕ) : ℝ := Np.linspaceAt (-90) 90 n j

/-- `get_lon_points(n)`, entry `i`, in degrees (coordinate_grid.py:43). -/
def lonPointDeg (n i : ℕ) : ℝ := Np.linspaceOpenAt 0 360 n i

/-- Degrees to radians (astropy unit conversion). -/
def deg (x : ℝ) : ℝ := x * (π / 180)

/-- `x % (2π)` for numpy floats: the representative in `[0, 2π)`. -/
def mod2pi (x : ℝ) : ℝ := x - 2 * π * ⌊x / (2 * π)⌋

/-- Latitude array of `grid()` (coordinate_grid.py:302-303 and 437-438). -/
def lat : (g : Grid) → g.Pix → ℝ
  | rect nlat _, p => deg (latPointDeg nlat p.2)
  | spiral n, i => π / 2 - Real.arccos (1 - 2 * ((i : ℕ) + 0.5) / n)

/-- Longitude array of `grid()` (coordinate_grid.py:302-303 and 435-436); `SpiralGrid.GOLDEN_RATIO`
(coordinate_grid.py:413) is `(1+√5)/2`. -/
def lon : (g : Grid) → g.Pix → ℝ
  | rect _ nlon, p => deg (lonPointDeg nlon p.1)
  | spiral _, i => mod2pi (2 * π * (i : ℕ) / (0.5 * (1 + √5)))

/-- The scalar expression of `cos_angle_from_disk_center` at one point (coordinate_grid.py:132-134). -/
def cosAngle (lat0 lon0 lat lon : ℝ) : ℝ :=
  sin lat0 * sin lat + cos lat0 * cos lat * cos (lon0 - lon)

/-- `CoordinateGrid.cos_angle_from_disk_center(lat0, lon0)` (coordinate_grid.py:100-135). -/
def mu (g : Grid) (lat0 lon0 : ℝ) (p : g.Pix) : ℝ := cosAngle lat0 lon0 (g.lat p) (g.lon p)

/-- `CoordinateGrid.area` (coordinate_grid.py:142-153): for a rectangular grid `sin(lat+90°)` normalised by
its sum (:358-361), for a spiral grid `0 + 1/n_points` (:449; `n_points = 0` raises `ZeroDivisionError` in
Python, but there is then no pixel to ask for). -/
def area : (g : Grid) → g.Pix → Fl
  | rect nlat nlon, p =>
      Fl.fin (sin (lat (rect nlat nlon) p + deg 90)) /
        ∑ q : (rect nlat nlon).Pix, Fl.fin (sin (lat (rect nlat nlon) q + deg 90))
  | spiral n, _ => Fl.fin 0 + Fl.fin 1 / Fl.fin n

/-- `CoordinateGrid.zeros()` (coordinate_grid.py:159-174, 320, 442). -/
def zeros (g : Grid) : g.Pix → ℝ := fun _ => 0

/-- `a == b` for two grids (coordinate_grid.py:322-345 and 451-460): a rectangular grid raises `TypeError`
against anything that is not rectangular, a spiral grid warns and answers `False` against a rectangular
grid.  (Operands that are not grids raise `TypeError` in both classes and are not represented.) -/
def eq : Grid → Grid → Py Bool
  | rect a b, rect c d => .ok (a == c && b == d)
  | rect _ _, spiral _ => .error .typeError
  | spiral n, spiral m => .ok (n == m)
  | spiral _, rect _ _ => .ok false

/-- `a != b`: Python derives `__ne__` by negating `__eq__` and propagates its exception. -/
def ne (a b : Grid) : Py Bool := (eq a b).map (!·)

/-- Python values that can be passed to `CoordinateGrid.new` / `RectangularGrid(...)`. -/
inductive PyVal where
  | int (n : ℤ)
  | tuple (l : List PyVal)
  | other

/-- A grid object as constructed, before any array is built (sizes may be negative). -/
inductive Obj where
  | rect (nlat nlon : ℤ)
  | spiral (nPoints : ℤ)
  deriving DecidableEq

/-- `RectangularGrid.__init__` (coordinate_grid.py:266-272): both sizes must be `int`. -/
def Obj.mkRect : PyVal → PyVal → Py Obj
  | .int a, .int b => .ok (.rect a b)
  | _, _ => .error .typeError

/-- `CoordinateGrid.new(grid_params)` (coordinate_grid.py:56-85).  `RectangularGrid(*grid_params)` with
zero or one argument falls back to the defaults `nlat=500, nlon=1000` (:266); with more than two the call
itself raises `TypeError`.  (`bool` is a subclass of `int` and is counted as `int`.) -/
def Obj.new : PyVal → Py Obj
  | .int n => .ok (.spiral n)
  | .tuple [] => Obj.mkRect (.int 500) (.int 1000)
  | .tuple [a] => Obj.mkRect a (.int 1000)
  | .tuple [a, b] => Obj.mkRect a b
  | .tuple _ => .error .typeError
  | .other => .error .typeError

/-- The numpy array handed to `display_grid`: its shape and (for the matching ranks) its entries. -/
inductive Data where
  | one (n : ℕ) (f : Fin n → ℝ)
  | two (n m : ℕ) (f : Fin n → Fin m → ℝ)
  | higher

/-- Result of `display_grid`: latitude axis, longitude axis (radians) and the `(nlon, nlat)` data. -/
structure Display where
  lats : List ℝ
  lons : List ℝ
  n : ℕ
  m : ℕ
  data : Fin n → Fin m → ℝ

/-- `RectangularGrid.oned()` latitudes in radians (coordinate_grid.py:274-288, 405). -/
def latAxis (nlat : ℕ) : List ℝ := (List.range nlat).map fun j => deg (latPointDeg nlat j)

/-- `RectangularGrid.oned()` longitudes in radians (coordinate_grid.py:274-288, 405). -/
def lonAxis (nlon : ℕ) : List ℝ := (List.range nlon).map fun i => deg (lonPointDeg nlon i)

/-- `RectangularGrid.dlat` in degrees (coordinate_grid.py:374).  A numpy-free division of a Quantity by a Python
int: `nlat = 1` gives infinity. -/
def dlatDeg (nlat : ℕ) : Fl := .fin 180 / .fin ((nlat : ℝ) - 1)

/-- `RectangularGrid.dlon` in degrees (coordinate_grid.py:385). -/
def dlonDeg (nlon : ℕ) : Fl := .fin 360 / .fin (nlon : ℝ)

/-- `RectangularGrid._display_grid` (coordinate_grid.py:387-405).  `gnlat, gnlon` are the sizes of the grid
itself, `nlat, nlon` the requested ones. -/
def displayRect (gnlat gnlon nlat nlon : ℕ) : Data → Py Display
  | .two n m f =>
      if n ≠ nlon then .error .typeError
      else if m ≠ nlat then .error .typeError
      else .ok ⟨latAxis gnlat, lonAxis gnlon, n, m, f⟩
  | _ => .error .typeError

/-- Weight of data point `k` at a target pixel (coordinate_grid.py:482-488):
`exp(-(r/len)^2)` with `r = arccos(cos_r)`, `len = 1/sqrt(n/(4π))`. -/
def spiralWeight (n nlat nlon : ℕ) (p : (rect nlat nlon).Pix) (k : Fin n) : ℝ :=
  let r := Real.arccos (mu (rect nlat nlon) (lat (spiral n) k) (lon (spiral n) k) p)
  let len := 1 / √((n : ℝ) / (4 * π))
  Real.exp (-(r / len) ^ 2)

/-- `SpiralGrid._display_grid` (coordinate_grid.py:462-493): Gaussian-weighted mean. -/
def displaySpiral (n nlat nlon : ℕ) : Data → Py Display
  | .one m f =>
      if h : m = n then
        .ok ⟨latAxis nlat, lonAxis nlon, nlon, nlat, fun i j =>
          (∑ k : Fin n, spiralWeight n nlat nlon (i, j) k * f (Fin.cast h.symm k)) /
            (∑ k : Fin n, spiralWeight n nlat nlon (i, j) k)⟩
      else .error .valueError
  | _ => .error .valueError

/-- `CoordinateGrid.display_grid` (coordinate_grid.py:184-216); the unit is stripped and re-attached. -/
def display : Grid → ℕ → ℕ → Data → Py Display
  | rect a b, nlat, nlon, d => displayRect a b nlat nlon d
  | spiral n, nlat, nlon, d => displaySpiral n nlat nlon d

end Grid
end Vsm
