import Verif.Model.Star

/-!
# Model of `Star.plot_surface` (star.py:627-689)

What is modelled is the data handed to matplotlib: the arguments of `pcolormesh`, `contourf` and `imshow`.  What
matplotlib and cartopy make of them (and whether they accept them) is not modelled, nor are the colour bar, the colour
limits and the rasterisation.
-/

noncomputable section

namespace Vsm

open Real

/-- A two-dimensional array handed to matplotlib; rows are latitudes, columns longitudes. -/
structure Layer (α : Type) where
  rows : ℕ
  cols : ℕ
  at_ : Fin rows → Fin cols → α

/-- Entry in row `r` and column `c`, if there is one. -/
def Layer.get {α : Type} (l : Layer α) (r c : ℕ) : Option α :=
  if h : r < l.rows ∧ c < l.cols then some (l.at_ ⟨r, h.1⟩ ⟨c, h.2⟩) else none

/-- The array handed to `imshow`: on a spiral grid it has one dimension. -/
inductive Image where
  | flat (n : ℕ) (f : Fin n → Fl)
  | layer (l : Layer Fl)

/-- The data of one figure: axes in degrees, the temperature mesh (star.py:665-676), the cells filled in black for the
planet and their `zorder` (star.py:679-684), and the opacity of the dark image laid over the extent
longitude `0..360`, latitude `-90..90` (star.py:685-689). -/
structure SurfacePlot where
  lats : List ℝ
  lons : List ℝ
  mesh : Layer ℝ
  planet : Layer Bool
  zorder : ℤ
  shade : Image

/-- An array over the grid as handed to `display_grid`. -/
def Grid.toData : (g : Grid) → (g.Pix → ℝ) → Grid.Data
  | .rect nlat nlon, f => .two nlon nlat fun i j => f (i, j)
  | .spiral n, f => .one n f

/-- The transpose `x.T` of an array over the grid (star.py:687). -/
def Grid.toImage : (g : Grid) → (g.Pix → Fl) → Image
  | .rect nlat nlon, f => .layer ⟨nlat, nlon, fun j i => f (i, j)⟩
  | .spiral n, f => .flat n f

/-- The transposed data of a display (star.py:673, 683). -/
def Grid.Display.layer {α : Type} (d : Grid.Display) (f : ℝ → α) : Layer α := ⟨d.m, d.n, fun j i => f (d.data i j)⟩

/-- The real number in a finite entry.  Simplification: the mask of `get_transit_mask` is passed to `display_grid`
with entries that are not finite read as 0; for physical stars there are none (C63). -/
def Fl.real : Fl → ℝ
  | .fin x => x
  | _ => 0

/-- Radians to degrees (star.py:670-671). -/
def Grid.toDeg (x : ℝ) : ℝ := x * (180 / π)

open Classical in
/-- `Star.plot_surface` (star.py:627-689).  `np.max` of an array without entries raises `ValueError` (:687). -/
def Star.plotSurface (s : Star) (lat0 lon0 orbit radius phase incl : ℝ) (nlon nlat : ℕ) : Py SurfacePlot := do
  let (covered, plFrac) ← s.transitMask lat0 lon0 orbit radius phase incl
  let m ← s.addFaculaeToMap lat0 lon0
  let d ← s.grid.display nlat nlon (s.grid.toData m)
  let c ← s.grid.display nlat nlon (s.grid.toData fun p => (covered p).real)
  let ld := fun p => s.ldMaskForPlotting (s.mu lat0 lon0 p)
  if h : (Finset.univ : Finset s.grid.Pix).Nonempty then
    return {
      lats := d.lats.map Grid.toDeg
      lons := d.lons.map Grid.toDeg
      mesh := d.layer id
      planet := c.layer fun x => decide (0.5 < x)
      zorder := if plFrac = .fin 1 then 100 else -100
      shade := s.grid.toImage fun p => .fin 1 - .fin (ld p) / .fin (Finset.univ.sup' h ld) }
  else .error .valueError

end Vsm
