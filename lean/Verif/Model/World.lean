import Verif.Model.Star
import Verif.Model.Aliasing

/-!
# Programs that handle several stars: a heap of objects

In Python a star holds references to a `SpotCollection`, a `FaculaCollection` and generators, and the collections
hold references to spots and faculae.  The same object may be handed to two stars.  The other modules use nested
values.  Here every mutable object lives at an address and the calls of a program change the objects in place, in
the order of the Python statements, so that sharing can be seen.

Simplifications: grids, granulation and flare generators are never changed after their construction and are kept as
values; random numbers are arguments; when a call raises, the program ends.
-/

noncomputable section

namespace Vsm

/-- A `SpotCollection` object (spots.py:349-358): references to spots and a grid. -/
structure SpotColl where
  refs : List ℕ
  grid : Grid

/-- A `FaculaCollection` object (faculae.py:348-355): references to faculae and a grid. -/
structure FaculaColl where
  refs : List ℕ
  grid : Grid

/-- A `Star` object (star.py:119-173); `spots`, `faculae`, `spotGen`, `facGen` are addresses. -/
structure StarObj where
  teff : ℝ
  radius : ℝ
  period : ℝ
  spots : ℕ
  faculae : ℕ
  grid : Grid
  flareGen : FlareGenerator
  spotGen : ℕ
  facGen : ℕ
  granulation : Option Granulation
  u1 : ℝ
  u2 : ℝ
  flares : Option FlareCollection

/-- All objects of a running program.  `stars` are the stars built so far, in order; addresses from `next` on are
free. -/
structure World where
  spot : Heap StarSpot
  facula : Heap Facula
  spotColl : Heap SpotColl
  faculaColl : Heap FaculaColl
  spotGen : Heap SpotGenerator
  facGen : Heap FaculaGenerator
  stars : List StarObj
  next : ℕ

namespace Heap

/-- New objects at the addresses `n`, `n + 1`, … -/
def alloc {α : Type} (h : Heap α) (n : ℕ) (l : List α) : Heap α :=
  fun a => if n ≤ a then (l[a - n]?).getD (h a) else h a

end Heap

namespace World

/-- What the attributes of a spot collection amount to. -/
def spotsAt (W : World) (c : ℕ) : SpotCollection :=
  { spots := (W.spotColl c).refs.map W.spot, grid := (W.spotColl c).grid }

/-- What the attributes of a facula collection amount to. -/
def faculaeAt (W : World) (c : ℕ) : FaculaCollection :=
  { faculae := (W.faculaColl c).refs.map W.facula, grid := (W.faculaColl c).grid }

/-- What a star amounts to: the value read through all references. -/
def view (W : World) (s : StarObj) : Star :=
  { teff := s.teff, radius := s.radius, period := s.period
    spots := W.spotsAt s.spots, faculae := W.faculaeAt s.faculae, grid := s.grid
    flareGen := s.flareGen, spotGen := W.spotGen s.spotGen, facGen := W.facGen s.facGen
    granulation := s.granulation, u1 := s.u1, u2 := s.u2, flares := s.flares }

/-- The `i`-th star of the program. -/
def look (W : World) (i : ℕ) : Option Star := W.stars[i]?.map W.view

/-- `SpotCollection.set_gridmaker` (spots.py:359-370). -/
def setSpotCollGrid (W : World) (c : ℕ) (g : Grid) : World :=
  { W with
    spotColl := W.spotColl.update c { W.spotColl c with grid := g }
    spot := Heap.ageAll (·.setGridmaker g) (W.spotColl c).refs W.spot }

/-- `FaculaCollection.set_gridmaker` (faculae.py:356-368). -/
def setFaculaCollGrid (W : World) (c : ℕ) (g : Grid) : World :=
  { W with
    faculaColl := W.faculaColl.update c { W.faculaColl c with grid := g }
    facula := Heap.ageAll (fun f => { f with grid := g }) (W.faculaColl c).refs W.facula }

/-- `StarSpot(...)` and `Facula(...)`, `SpotGenerator(...)`, `FaculaGenerator(...)`: a new object (the attributes
are those computed by the constructors of the other modules). -/
def newSpot (W : World) (s : StarSpot) : World := { W with spot := W.spot.update W.next s, next := W.next + 1 }

/-- See `newSpot`. -/
def newFacula (W : World) (f : Facula) : World := { W with facula := W.facula.update W.next f, next := W.next + 1 }

/-- See `newSpot`. -/
def newSpotGen (W : World) (G : SpotGenerator) : World :=
  { W with spotGen := W.spotGen.update W.next G, next := W.next + 1 }

/-- See `newSpot`. -/
def newFacGen (W : World) (G : FaculaGenerator) : World :=
  { W with facGen := W.facGen.update W.next G, next := W.next + 1 }

/-- `SpotCollection(*spots, gridmaker=g)` (spots.py:349-358). -/
def newSpotColl (W : World) (refs : List ℕ) (g : Grid) : World :=
  setSpotCollGrid { W with spotColl := W.spotColl.update W.next { refs, grid := g }, next := W.next + 1 } W.next g

/-- `FaculaCollection(*faculae, gridmaker=g)` (faculae.py:348-355). -/
def newFaculaColl (W : World) (refs : List ℕ) (g : Grid) : World :=
  setFaculaCollGrid { W with faculaColl := W.faculaColl.update W.next { refs, grid := g }, next := W.next + 1 } W.next g

/-- `spot_generator` argument of `Star.__init__` (star.py:137-150): the address of the generator used. -/
def takeSpotGen (W : World) (gen : Option ℕ) (g : Grid) : Py (ℕ × World) :=
  match gen with
  | none => .ok (W.next, W.newSpotGen (SpotGenerator.off g))
  | some a => (Star.unify (W.spotGen a).grid g).map fun g' =>
      (a, { W with spotGen := W.spotGen.update a { W.spotGen a with grid := g' } })

/-- `fac_generator` argument of `Star.__init__` (star.py:153-165). -/
def takeFacGen (W : World) (gen : Option ℕ) (g : Grid) : Py (ℕ × World) :=
  match gen with
  | none => .ok (W.next, W.newFacGen (FaculaGenerator.off g))
  | some a => (Star.unify (W.facGen a).grid g).map fun g' =>
      (a, { W with facGen := W.facGen.update a { W.facGen a with grid := g' } })

/-- `Star.set_spot_grid` (star.py:175-180). -/
def setSpotGrid (W : World) (c : ℕ) (g : Grid) : World :=
  { W with spot := Heap.ageAll (fun s => { s with grid := g }) (W.spotColl c).refs W.spot }

/-- `Star.set_fac_grid` (star.py:182-187). -/
def setFacGrid (W : World) (c : ℕ) (g : Grid) : World :=
  { W with facula := Heap.ageAll (fun f => { f with grid := g }) (W.faculaColl c).refs W.facula }

/-- Arguments of `Star(...)` (star.py:104-118). -/
structure StarArgs where
  teff : ℝ
  radius : ℝ
  period : ℝ
  spots : ℕ
  faculae : ℕ
  gridParams : Grid.PyVal
  flareGen : Option FlareGenerator
  spotGen : Option ℕ
  facGen : Option ℕ
  granulation : Option Granulation
  u1 : ℝ
  u2 : ℝ

/-- `Star.__init__` (star.py:119-173). -/
def newStar (W : World) (x : StarArgs) : Py World := do
  let obj ← Grid.Obj.new x.gridParams
  let g ← Grid.ofObj obj
  let W₁ := (W.setFaculaCollGrid x.faculae g).setSpotCollGrid x.spots g
  let (sg, W₂) ← W₁.takeSpotGen x.spotGen g
  let (fg, W₃) ← W₂.takeFacGen x.facGen g
  let W₄ := (W₃.setSpotGrid x.spots g).setFacGrid x.faculae g
  return { W₄ with stars := W₄.stars ++ [{ teff := x.teff, radius := x.radius, period := x.period, spots := x.spots
                                           faculae := x.faculae, grid := g
                                           flareGen := x.flareGen.getD FlareGenerator.off, spotGen := sg, facGen := fg
                                           granulation := some (x.granulation.getD Granulation.off)
                                           u1 := x.u1, u2 := x.u2, flares := none }] }

/-- `SpotCollection.age` (spots.py:464-466). -/
def ageSpots (W : World) (c : ℕ) (time : ℝ) : World :=
  let h := Heap.ageAll (fun s : StarSpot => s.age time) (W.spotColl c).refs W.spot
  { W with
    spot := h
    spotColl := W.spotColl.update c { W.spotColl c with
      refs := Heap.cleanRefs (fun s => !(decide (s.area ≤ .fin 0) && !s.isGrowing)) (W.spotColl c).refs h } }

/-- `FaculaCollection.age` (faculae.py:411-413). -/
def ageFaculae (W : World) (c : ℕ) (time : ℝ) : World :=
  let h := Heap.ageAll (fun f : Facula => f.age time) (W.faculaColl c).refs W.facula
  { W with
    facula := h
    faculaColl := W.faculaColl.update c { W.faculaColl c with
      refs := Heap.cleanRefs (fun f => !(decide (f.radius ≤ .fin (f.rMax / Real.exp 1 ^ 2)) && !f.isGrowing))
        (W.faculaColl c).refs h } }

/-- `SpotCollection.add_spot` (spots.py:390-394) with references. -/
def addSpots (W : World) (c : ℕ) (new : List ℕ) : World :=
  { W with
    spot := Heap.ageAll (fun s => { s with grid := (W.spotColl c).grid }) new W.spot
    spotColl := W.spotColl.update c { W.spotColl c with refs := (W.spotColl c).refs ++ new } }

/-- Loop of `FaculaCollection.add_faculae` (faculae.py:381-384). -/
def adoptFaculae (g : Grid) (new : List ℕ) (h : Heap Facula) : Py (Heap Facula) :=
  new.foldlM (fun h a => (Grid.eq (h a).grid g).map fun b => if !b then h.update a { h a with grid := g } else h) h

/-- `FaculaCollection.add_faculae` (faculae.py:379-385) with references. -/
def addFaculae (W : World) (c : ℕ) (new : List ℕ) : Py World :=
  (adoptFaculae (W.faculaColl c).grid new W.facula).map fun h =>
    { W with
      facula := h
      faculaColl := W.faculaColl.update c { W.faculaColl c with refs := (W.faculaColl c).refs ++ new } }

/-- Spots returned by a generator: new objects, then `add_spot` (star.py:585, 758-760). -/
def addNewSpots (W : World) (c : ℕ) (l : List StarSpot) : World :=
  addSpots { W with spot := W.spot.alloc W.next l, next := W.next + l.length } c (List.range' W.next l.length)

/-- Faculae returned by a generator: new objects, then `add_faculae` (star.py:598-599). -/
def addNewFaculae (W : World) (c : ℕ) (l : List Facula) : Py World :=
  addFaculae { W with facula := W.facula.alloc W.next l, next := W.next + l.length } c (List.range' W.next l.length)

/-- Calls on one star. -/
inductive Call where
  /-- `star.add_spot([...])` (star.py:225) -/
  | addSpot (refs : List ℕ)
  /-- `star.birth_spots(time)` (star.py:585) -/
  | birthSpots (time : ℝ) (k : ℕ) (d : (n : ℕ) → SpotDraws n)
  /-- `star.generate_mature_spots(coverage)` (star.py:758-760) -/
  | matureSpots (coverage : ℝ) (draws : ℕ → SpotDraws 1 × Set.Ico (0 : ℝ) 1)
  /-- `star.add_fac((...))` (star.py:237) -/
  | addFac (refs : List ℕ)
  /-- `star.birth_faculae(time)` (star.py:598-599) -/
  | birthFaculae (time : ℝ) (k : ℕ) (d : (n : ℕ) → FaculaDraws n)
  /-- `star.get_flares_over_observation(duration)` (star.py:707-708) -/
  | flares (duration : ℝ) (k : ℕ) (d : (n : ℕ) → FlareDraws n)
  /-- `star.age(time)` (star.py:213-214) -/
  | age (time : ℝ)

/-- One call on the star `s`, the `i`-th one. -/
def call (W : World) (i : ℕ) (s : StarObj) : Call → Py World
  | .addSpot refs => .ok (W.addSpots s.spots refs)
  | .birthSpots t k d => ((W.spotGen s.spotGen).birth t s.radius k d).map fun l => W.addNewSpots s.spots l
  | .matureSpots c d => ((W.spotGen s.spotGen).generateMature c s.radius d).map fun l => W.addNewSpots s.spots l
  | .addFac refs => W.addFaculae s.faculae refs
  | .birthFaculae t k d => ((W.facGen s.facGen).birth t s.radius k d).bind fun l => W.addNewFaculae s.faculae l
  | .flares t k d => (s.flareGen.series t k d).map fun fl =>
      { W with stars := W.stars.set i { s with flares := some (FlareCollection.new fl) } }
  | .age t => .ok ((W.ageSpots s.spots t).ageFaculae s.faculae t)

/-- Statements of a program. -/
inductive Cmd where
  | newSpot (s : StarSpot)
  | newFacula (f : Facula)
  | newSpotGen (G : SpotGenerator)
  | newFacGen (G : FaculaGenerator)
  | newSpotColl (refs : List ℕ) (g : Grid)
  | newFaculaColl (refs : List ℕ) (g : Grid)
  | newStar (x : StarArgs)
  | on (i : ℕ) (c : Call)

/-- Running one statement; a star that does not exist is an error of the program (`keyError`). -/
def run (W : World) : Cmd → Py World
  | .newSpot s => .ok (W.newSpot s)
  | .newFacula f => .ok (W.newFacula f)
  | .newSpotGen G => .ok (W.newSpotGen G)
  | .newFacGen G => .ok (W.newFacGen G)
  | .newSpotColl refs g => .ok (W.newSpotColl refs g)
  | .newFaculaColl refs g => .ok (W.newFaculaColl refs g)
  | .newStar x => W.newStar x
  | .on i c => match W.stars[i]? with
    | none => .error .keyError
    | some s => W.call i s c

end World
end Vsm
