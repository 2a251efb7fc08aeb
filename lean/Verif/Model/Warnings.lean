import Verif.Model.Star
/-!
# Warnings

The calls of `warnings.warn` in the package, in the order in which a method reaches them: the value model of the other files with the
warnings added.  (numpy's own warnings, such as the one for a division by zero, are not represented, nor is Python's suppression of
repeated warnings.)
-/
set_option autoImplicit false

noncomputable section

namespace Vsm
open Real

/-- A warning of the package with what its text shows. -/
inductive PyWarning where
  /-- `DeprecationWarning` of `clip_teff` (helpers.py:301-303). -/
  | clipDeprecated
  /-- `RuntimeWarning`, temperature too high (helpers.py:306-307). -/
  | tooHigh (teff : ℝ)
  /-- `RuntimeWarning`, temperature too low (helpers.py:310-311). -/
  | tooLow (teff : ℝ)
  /-- `UserWarning` of `SpiralGrid.__eq__` (coordinate_grid.py:456-457). -/
  | otherSubclass
  /-- `InsufficientResolutionWarning` with its factor (star.py:469-472). -/
  | lowResolution (factor : Fl)
  /-- `DeprecationWarning` of `FaculaCollection.map_pixels` (faculae.py:438-439). -/
  | mapDeprecated
  /-- `DeprecationWarning` of `Facula.set_gridmaker` (faculae.py:197-198). -/
  | gridDeprecated
  /-- `UserWarning` about `texp` (xoflares.py:132). -/
  | texpUnclear

/-- The result of a call and the warnings issued until it returned or raised. -/
structure Warned (α : Type) where
  warnings : List PyWarning
  value : Py α

namespace Warned

/-- Sequencing: after an exception nothing more is issued. -/
protected def bind {α β : Type} (w : Warned α) (f : α → Warned β) : Warned β :=
  match w.value with
  | .error e => ⟨w.warnings, .error e⟩
  | .ok a => ⟨w.warnings ++ (f a).warnings, (f a).value⟩

instance : Monad Warned where
  pure a := ⟨[], .ok a⟩
  bind := Warned.bind

/-- `warnings.warn(…)`. -/
def warn (x : PyWarning) : Warned Unit := ⟨[x], .ok ()⟩

/-- A call that issues no warnings. -/
def quiet {α : Type} (v : Py α) : Warned α := ⟨[], v⟩

/-- `w` as seen by a program that turns warnings into exceptions (`warnings.simplefilter('error')`): the first warning ends the call.
(No `except` clause of the package catches warnings.) -/
def strict {α : Type} (w : Warned α) : Except (PyWarning ⊕ PyErr) α :=
  match w.warnings with
  | x :: _ => .error (.inl x)
  | [] => w.value.mapError .inr

end Warned

open Warned

/-- `clip_teff` (helpers.py:301-314). -/
def Helpers.clipTeffW (teff : ℝ) : Warned ℝ := do
  warn .clipDeprecated
  if Helpers.teffHigh < teff then do
    warn (.tooHigh teff)
    return Helpers.teffHigh
  else if teff < Helpers.teffLow then do
    warn (.tooLow teff)
    return Helpers.teffLow
  else return teff

/-- `a == b` for two grids (coordinate_grid.py:322-345 and 451-460). -/
def Grid.eqW (a b : Grid) : Warned Bool :=
  match a, b with
  | .spiral _, .rect _ _ => do
    warn .otherSubclass
    return false
  | a, b => quiet (Grid.eq a b)

/-- `FaculaCollection.add_faculae` with a sequence (faculae.py:379-385). -/
def FaculaCollection.addFaculaeW (c : FaculaCollection) (new : List Facula) : Warned FaculaCollection := do
  let new' ← new.mapM fun f => do
    let b ← Grid.eqW f.grid c.grid
    return if !b then { f with grid := c.grid } else f
  return { c with faculae := c.faculae ++ new' }

/-- `FaculaCollection.map_pixels` (faculae.py:438-447). -/
def FaculaCollection.mapPixelsW (c : FaculaCollection) (pixmap : c.grid.Pix → ℝ) (starRad starTeff : ℝ) : Warned (c.grid.Pix → ℕ) := do
  warn .mapDeprecated
  quiet (c.mapPixels pixmap starRad starTeff)

/-- `Facula.set_gridmaker` (faculae.py:196-198). -/
def Facula.setGridmakerW (f : Facula) (g : Grid) : Warned Facula := do
  warn .gridDeprecated
  return { f with grid := g }

/-- `get_light_curvenp` at one time, with or without an exposure time (xoflares.py:118-145). -/
def Xoflares.lightCurveW (time : ℝ) (texp : Option ℝ) (oversample : ℕ) (flares : List (ℝ × ℝ × Fl)) : Warned Fl :=
  match texp with
  | none => quiet (.ok (Xoflares.lightCurve time flares))
  | some t => do
    warn .texpUnclear
    return Xoflares.lightCurveExp time t oversample flares

namespace Star

/-- `try: if gen.gridmaker != self.gridmaker: … except TypeError: …` (star.py:146-150 and 161-165). -/
def unifyW (gen star : Grid) : Warned Grid :=
  let c := Grid.eqW gen star
  match c.value with
  | .ok b => ⟨c.warnings, .ok (if !b then star else gen)⟩
  | .error .typeError => ⟨c.warnings, .ok star⟩
  | .error e => ⟨c.warnings, .error e⟩

/-- `Star.__init__` (star.py:104-173). -/
def newW (teff radius period : ℝ) (spots : SpotCollection) (faculae : FaculaCollection)
    (gridParams : Grid.PyVal) (flareGen : Option FlareGenerator) (spotGen : Option SpotGenerator)
    (facGen : Option FaculaGenerator) (granulation : Option Granulation) (u1 u2 : ℝ) : Warned Star := do
  let obj ← quiet (Grid.Obj.new gridParams)
  let g ← quiet (Grid.ofObj obj)
  let spotGen' ← match spotGen with
    | none => pure (SpotGenerator.off g)
    | some sg => do
      let g' ← unifyW sg.grid g
      pure { sg with grid := g' }
  let facGen' ← match facGen with
    | none => pure (FaculaGenerator.off g)
    | some fg => do
      let g' ← unifyW fg.grid g
      pure { fg with grid := g' }
  return setFacGrid <| setSpotGrid
    { teff, radius, period
      spots := spots.setGridmaker g
      faculae := faculae.setGridmaker g
      grid := g
      flareGen := flareGen.getD FlareGenerator.off
      spotGen := spotGen'
      facGen := facGen'
      granulation := some (granulation.getD Granulation.off)
      u1, u2
      flares := none }

/-- `Star.add_fac` (star.py:237). -/
def addFacW (s : Star) (new : List Facula) : Warned Star := do
  let f ← s.faculae.addFaculaeW new
  return { s with faculae := f }

/-- `Star.birth_faculae` (star.py:598-599). -/
def birthFaculaeW (s : Star) (time : ℝ) (k : ℕ) (d : (n : ℕ) → FaculaDraws n) : Warned Star := do
  let new ← quiet (s.facGen.birth time s.radius k d)
  s.addFacW new

open Classical in
/-- Loop body of `add_faculae_to_map` once the two fractions are known (star.py:353-362). -/
def paintFaculaW (s : Star) (lat0 lon0 : ℝ) (inside : s.grid.Pix → Prop) (fracs : Np.Dict ℤ Fl)
    (cur : s.grid.Pix → ℝ) : Warned (s.grid.Pix → ℝ) :=
  match fracs with
  | [(dteffWall, frac), (dteffFloor, _)] => do
      let muOfFacPix := (Finset.univ.filter inside).val.map (s.mu lat0 lon0)
      let borderMu ← quiet (Np.percentile muOfFacPix frac)
      let teffWall ← Helpers.clipTeffW (dteffWall + s.teff)
      let teffFloor ← Helpers.clipTeffW (dteffFloor + s.teff)
      return fun p =>
        if inside p ∧ borderMu < s.mu lat0 lon0 p then teffFloor
        else if inside p ∧ s.mu lat0 lon0 p ≤ borderMu then teffWall
        else cur p
  | _ => quiet (.error .valueError)

open Classical in
/-- One iteration of the loop of `add_faculae_to_map` (star.py:346-362). -/
def addFaculaW (s : Star) (lat0 lon0 : ℝ) (cur : s.grid.Pix → ℝ) (f : Facula) : Warned (s.grid.Pix → ℝ) :=
  let angle := Helpers.angleBetween lat0 lon0 f.lat f.lon
  if ¬ ∃ p, (f.inside s.radius).2 p then pure cur
  else do
    let fracs ← quiet (f.fractionalEffectiveArea angle)
    let inside ← quiet ((f.inside s.radius).on s.grid .indexError)
    s.paintFaculaW lat0 lon0 inside fracs cur

/-- `Star.add_faculae_to_map` (star.py:343-363). -/
def addFaculaeToMapW (s : Star) (lat0 lon0 : ℝ) : Warned (s.grid.Pix → ℝ) := do
  let m ← quiet s.map
  let m' ← quiet (Field.on ⟨s.spots.grid, m⟩ s.grid .indexError)
  s.faculae.faculae.foldlM (fun cur f => s.addFaculaW lat0 lon0 cur f) m'

/-- `Star.get_transit_mask` (star.py:428-495). -/
def transitMaskW (s : Star) (lat0 lon0 orbit radius phase incl : ℝ) : Warned ((s.grid.Pix → Fl) × Fl) :=
  ⟨((s.transitWarning lat0 lon0 orbit radius phase incl).map PyWarning.lowResolution).toList, s.transitMask lat0 lon0 orbit radius phase incl⟩

/-- `Star.calc_coverage` (star.py:533-573). -/
def calcCoverageW (s : Star) (lat0 lon0 gran orbit planetRadius phase incl : ℝ) :
    Warned (Np.Dict ℤ Fl × Np.Dict ℤ Fl × Fl) := do
  let m ← s.addFaculaeToMapW lat0 lon0
  let (covered, plf) ← s.transitMaskW lat0 lon0 orbit planetRadius phase incl
  match s.granulation with
  | none => quiet (.error .typeError)
  | some gr => do
    let granTeff := s.teff - gr.dteff
    let total ← quiet (granulate (s.rawData lat0 lon0 m (fun _ => .fin 1) granTeff) (key s.teff) (key granTeff) gran)
    let cov ← quiet (granulate (s.rawData lat0 lon0 m covered granTeff) (key s.teff) (key granTeff) gran)
    return (total, cov, plf)

end Star
end Vsm
