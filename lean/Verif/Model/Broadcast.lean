import Verif.Model.Star

/-!
# Surface arrays with numpy's broadcasting

The other model files refuse to combine arrays of different grids.  numpy refuses less: arrays of different shapes are combined
whenever the trailing axes agree or have length 1.  This file is the surface map (spots.py:439-450), the overlay of faculae
(star.py:343-363) and the report (star.py:533-573) with numpy's rules, for stars some of whose spots or faculae carry arrays of
another grid than the star.
-/

noncomputable section

namespace Vsm

/-- A numpy array: its shape and its entries by multi-index (entries outside of the shape mean nothing). -/
structure Arr (α : Type) where
  shape : List ℕ
  val : List ℕ → α

/-- Multi-indices of the arrays of a grid (coordinate_grid.py:303, 434). -/
def Grid.index : (g : Grid) → g.Pix → List ℕ
  | .rect _ _, p => [p.1, p.2]
  | .spiral _, p => [p]

namespace Arr

/-- Length of one axis after broadcasting (numpy's rule). -/
def pairDim (a b : ℕ) : Option ℕ := if a = b then some a else if a = 1 then some b else if b = 1 then some a else none

/-- Shapes after broadcasting, last axis first. -/
def broadRev : List ℕ → List ℕ → Option (List ℕ)
  | [], t => some t
  | s, [] => some s
  | a :: s, b :: t => do
    let d ← pairDim a b
    let r ← broadRev s t
    return d :: r

/-- `np.broadcast_shapes(s, t)`, `none` if numpy raises `ValueError`. -/
def broad (s t : List ℕ) : Option (List ℕ) := (broadRev s.reverse t.reverse).map List.reverse

/-- The entry of an array that broadcasting puts at index `i` of a larger array: leading axes are dropped, axes of length 1
repeated. -/
def at' {α : Type} (a : Arr α) (i : List ℕ) : α :=
  a.val (List.zipWith (fun n k => if n = 1 then 0 else k) a.shape (i.drop (i.length - a.shape.length)))

/-- A binary numpy operation on arrays. -/
def map₂ {α β γ : Type} (f : α → β → γ) (a : Arr α) (b : Arr β) : Py (Arr γ) :=
  match broad a.shape b.shape with
  | some s => .ok ⟨s, fun i => f (a.at' i) (b.at' i)⟩
  | none => .error .valueError

/-- An operation of an array with scalars. -/
def map {α β : Type} (f : α → β) (a : Arr α) : Arr β := ⟨a.shape, fun i => f (a.val i)⟩

/-- All multi-indices of a shape. -/
def indices : List ℕ → Finset (List ℕ)
  | [] => {[]}
  | n :: s => (Finset.range n).biUnion fun k => (indices s).image (k :: ·)

/-- `np.sum(a)`. -/
def sum (a : Arr Fl) : Fl := ∑ i ∈ indices a.shape, a.val i

/-- `np.unique(a)`. -/
def unique (a : Arr ℝ) : List ℝ := ((indices a.shape).image a.val).sort (· ≤ ·)

/-- An array of a grid. -/
def ofGrid {α : Type} [Inhabited α] (g : Grid) (f : g.Pix → α) : Arr α :=
  open Classical in ⟨g.shape, fun i => if h : ∃ p, g.index p = i then f h.choose else default⟩

open Classical in
/-- `a[mask]` with a boolean mask, as the multiset of the entries: the shape of the mask must begin that of the array. -/
def select {α : Type} (a : Arr α) (mask : Arr Prop) : Py (Multiset α) :=
  if mask.shape <+: a.shape then
    .ok (((indices a.shape).filter fun i => mask.val (i.take mask.shape.length)).val.map a.val)
  else .error .indexError

open Classical in
/-- `a[mask] = v`. -/
def assign {α : Type} (a : Arr α) (mask : Arr Prop) (v : α) : Py (Arr α) :=
  if mask.shape <+: a.shape then .ok ⟨a.shape, fun i => if mask.val (i.take mask.shape.length) then v else a.val i⟩
  else .error .indexError

end Arr

namespace SpotCollection

/-- One loop iteration of `map_pixels` (spots.py:440-449): `umbra` and `penumbra` are masks combined with the present map, then
`np.where` twice. -/
def mapStepB (starRad : ℝ) (s : StarSpot) (cur : Arr ℝ) : Py (Arr ℝ) := do
  let inP : Arr Prop := Arr.ofGrid s.r.1 (s.penumbraMask starRad)
  let inU : Arr Prop := Arr.ofGrid s.r.1 (s.umbraMask starRad)
  let penumbra ← Arr.map₂ (· ∧ ·) inP (cur.map (s.teffPenumbra < ·))
  let umbra ← Arr.map₂ (· ∧ ·) inU (cur.map (s.teffUmbra < ·))
  let inner ← Arr.map₂ (fun (b : Prop) (t : ℝ) => open Classical in if b then s.teffPenumbra else t) penumbra cur
  Arr.map₂ (fun (b : Prop) (t : ℝ) => open Classical in if b then s.teffUmbra else t) umbra inner

/-- `SpotCollection.map_pixels` (spots.py:439-450) of `Star.map` (star.py:200). -/
def mapPixelsB (c : SpotCollection) (starRad starTeff : ℝ) : Py (Arr ℝ) :=
  c.spots.foldlM (fun cur s => mapStepB starRad s cur) (Arr.ofGrid c.grid fun _ => starTeff)

end SpotCollection

namespace Star

/-- Loop body of `add_faculae_to_map` once the two fractions are known (star.py:353-362). -/
def paintFaculaB (s : Star) (lat0 lon0 : ℝ) (inside : Arr Prop) (fracs : Np.Dict ℤ Fl) (cur : Arr ℝ) : Py (Arr ℝ) :=
  match fracs with
  | [(dteffWall, frac), (dteffFloor, _)] => do
      let mu : Arr ℝ := Arr.ofGrid s.grid (s.mu lat0 lon0)
      let muOfFacPix ← mu.select inside
      let borderMu ← Np.percentile muOfFacPix frac
      let wallPix ← Arr.map₂ (· ∧ ·) inside (mu.map (· ≤ borderMu))
      let floorPix ← Arr.map₂ (· ∧ ·) inside (mu.map (borderMu < ·))
      let cur' ← cur.assign wallPix (Helpers.clipTeff (dteffWall + s.teff))
      cur'.assign floorPix (Helpers.clipTeff (dteffFloor + s.teff))
  | _ => .error .valueError

open Classical in
/-- One iteration of the loop of `add_faculae_to_map` (star.py:346-362). -/
def addFaculaB (s : Star) (lat0 lon0 : ℝ) (cur : Arr ℝ) (f : Facula) : Py (Arr ℝ) :=
  if ¬ ∃ p, (f.inside s.radius).2 p then .ok cur
  else do
    let fracs ← f.fractionalEffectiveArea (Helpers.angleBetween lat0 lon0 f.lat f.lon)
    s.paintFaculaB lat0 lon0 (Arr.ofGrid (f.inside s.radius).1 (f.inside s.radius).2) fracs cur

/-- `Star.add_faculae_to_map` (star.py:343-363). -/
def addFaculaeToMapB (s : Star) (lat0 lon0 : ℝ) : Py (Arr ℝ) := do
  let m ← s.spots.mapPixelsB s.radius s.teff
  s.faculae.faculae.foldlM (fun cur f => s.addFaculaB lat0 lon0 cur f) m

/-- Sum over the entries with temperature `teff` (star.py:555-557), with an extra factor per pixel of the star (for `total_data`
it is one). -/
def areaWithTeffB (s : Star) (lat0 lon0 : ℝ) (m : Arr ℝ) (extra : s.grid.Pix → Fl) (teff : ℝ) : Py Fl := do
  let pixHasTeff : Arr Fl := m.map fun t => open Classical in if t = teff then Fl.fin 1 else Fl.fin 0
  let x ← Arr.map₂ (· * ·) pixHasTeff (Arr.ofGrid s.grid (s.weight lat0 lon0))
  let y ← Arr.map₂ (· * ·) x (Arr.ofGrid s.grid extra)
  return y.sum

/-- `total_data` or `covered_data` before granulation (star.py:554-564). -/
def rawDataB (s : Star) (lat0 lon0 : ℝ) (m : Arr ℝ) (extra : s.grid.Pix → Fl) (granTeff : ℝ) : Py (Np.Dict ℤ Fl) := do
  let total := (Arr.ofGrid s.grid (s.weight lat0 lon0)).sum
  let d ← m.unique.foldlM (fun d teff => do
    let area ← s.areaWithTeffB lat0 lon0 m extra teff
    return Np.Dict.set d (key teff) (area / total)) []
  return open Classical in if granTeff ∈ m.unique then d else Np.Dict.set d (key granTeff) (.fin 0)

/-- `Star.calc_coverage` (star.py:533-573). -/
def calcCoverageB (s : Star) (lat0 lon0 gran orbit planetRadius phase incl : ℝ) :
    Py (Np.Dict ℤ Fl × Np.Dict ℤ Fl × Fl) := do
  let m ← s.addFaculaeToMapB lat0 lon0
  let (covered, plf) ← s.transitMask lat0 lon0 orbit planetRadius phase incl
  match s.granulation with
  | none => .error .typeError
  | some gr =>
    let granTeff := s.teff - gr.dteff
    let raw ← s.rawDataB lat0 lon0 m (fun _ => .fin 1) granTeff
    let rawCov ← s.rawDataB lat0 lon0 m covered granTeff
    let total ← granulate raw (key s.teff) (key granTeff) gran
    let cov ← granulate rawCov (key s.teff) (key granTeff) gran
    return (total, cov, plf)

end Star
end Vsm
