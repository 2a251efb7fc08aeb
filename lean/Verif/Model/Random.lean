import Verif.Model.Star

/-!
# Random number generators as objects

The other modules take the random numbers as arguments.  Here they come from `numpy.random.Generator` objects: every call on such an
object returns numbers and leaves the object in another state.  The functions below are the methods of the package that draw random
numbers, statement by statement.
-/

noncomputable section

namespace Vsm

open Real

/-- `numpy.random.Generator`.  `normal`, `uniform` and `expo` give standard numbers; `rng.normal(loc, scale)` is `loc + scale·z`,
`rng.lognormal(mean, sigma)` is `exp(mean + sigma·z)`, `rng.exponential(scale)` is `scale·e`.  `sign` is `rng.choice([-1, 1])` (`true`
for 1). -/
structure RngLib where
  St : Type
  seed : ℕ → St
  normal : (n : ℕ) → St → (Fin n → ℝ) × St
  uniform : (n : ℕ) → St → (Fin n → Set.Ico (0 : ℝ) 1) × St
  sign : (n : ℕ) → St → (Fin n → Bool) × St
  poisson : ℝ → St → ℕ × St
  poissons : ℝ → (n : ℕ) → St → (Fin n → ℕ) × St
  expo : St → Set.Ici (0 : ℝ) × St

namespace RngLib

variable (L : RngLib)

/-- `rng.poisson(lam)`: refused if `lam` is negative, NaN or infinite (`0` for `lam = 0`). -/
def drawPoisson (lam : Fl) (r : L.St) : Py (ℕ × L.St) :=
  match lam with
  | .fin x => if x < 0 then .error .valueError else .ok (if x = 0 then (0, r) else L.poisson x r)
  | _ => .error .valueError

/-- `rng.poisson(lam, size=n)`. -/
def drawPoissons (lam : Fl) (n : ℕ) (r : L.St) : Py ((Fin n → ℕ) × L.St) :=
  match lam with
  | .fin x => if x < 0 then .error .valueError else .ok (if x = 0 then (fun _ => 0, r) else L.poissons x n r)
  | _ => .error .valueError

/-- The state after `k` calls `rng.normal(size=n)`. -/
def afterNormals (n : ℕ) (r : L.St) : ℕ → L.St
  | 0 => r
  | k + 1 => (L.normal n (afterNormals n r k)).2

/-- The `k`-th of these batches. -/
def batch (n : ℕ) (r : L.St) (k : ℕ) : Fin n → ℝ := (L.normal n (L.afterNormals n r k)).1

open Classical in
/-- The rejection loop of spots.py:736-738. -/
def drawRatios (n : ℕ) (r : L.St) : Py ((Fin n → ℝ) × L.St) :=
  if h : ∃ k, ∀ i, 0 < 5 + 1 * L.batch n r k i then
    .ok (fun i => 5 + 1 * L.batch n r (Nat.find h) i, L.afterNormals n r (Nat.find h + 1))
  else .error .diverges

/-- The waiting times of one cluster (flares.py:397-400): `m` exponentials of scale `scale`, after one of scale `first`. -/
def drawExpos (scale : ℝ) : ℕ → L.St → List ℝ × L.St
  | 0, r => ([], r)
  | m + 1, r =>
    let (e, r) := L.expo r
    let (l, r) := drawExpos scale m r
    (scale * (e : ℝ) :: l, r)

/-- The loop over the clusters (flares.py:396-400). -/
def drawClusters (timescale : ℝ) : List ℕ → L.St → List ℝ × L.St
  | [], r => ([], r)
  | size :: rest, r =>
    let (e, r) := L.expo r
    let (l, r) := L.drawExpos (timescale / size / 2) (size - 1) r
    let (l', r) := drawClusters timescale rest r
    (timescale * (e : ℝ) :: l ++ l', r)

end RngLib

variable {L : RngLib}

namespace SpotGenerator

/-- `SpotGenerator.get_coordinates` (spots.py:700-713): latitudes and longitudes in radians. -/
def coordinatesR (G : SpotGenerator) (n : ℕ) (r : L.St) : Py ((Fin n → ℝ) × (Fin n → ℝ) × L.St) :=
  match G.distribution with
  | .solar =>
    let (hemi, r) := L.sign n r
    let (z, r) := L.normal n r
    let (u, r) := L.uniform n r
    .ok (fun i => Grid.deg ((15 + 5 * z i) * (if hemi i then 1 else -1)), fun i => Grid.deg ((u i : ℝ) * 360), r)
  | .iso =>
    let (u, r) := L.uniform n r
    let (x, r) := L.uniform n r
    .ok (fun i => Grid.deg (Real.arcsin (2 * (x i : ℝ) - 1) / π * 180), fun i => Grid.deg ((u i : ℝ) * 360), r)
  | .other => .error .valueError

/-- `SpotGenerator.generate_spots` (spots.py:734-757). -/
def generateR (G : SpotGenerator) (n : ℕ) (r : L.St) : Py (List StarSpot × L.St) :=
  if G.distAreaLogsigma < 0 then .error .valueError
  else do
    let (z, r) := L.normal n r
    let (ratios, r) ← L.drawRatios n r
    let (lat, lon, r) ← G.coordinatesR n r
    return (List.ofFn fun i =>
      StarSpot.new (lat i) (lon i) (Real.exp (Real.log (G.distAreaMean / MSH) + G.distAreaLogsigma * z i) * MSH) (.fin G.initArea)
        G.umbraTeff G.penumbraTeff (.fin (ratios i)) true G.growthRate G.decayRate G.grid, r)

/-- `SpotGenerator.birth_spots` (spots.py:798-803). -/
def birthR (G : SpotGenerator) (time radStar : ℝ) (r : L.St) : Py (List StarSpot × L.St) := do
  let (n, r) ← L.drawPoisson (G.nExpected time radStar) r
  G.generateR n r

open Classical in
/-- One pass of the loop of `generate_mature_spots` (spots.py:830-838). -/
def matureStepR (G : SpotGenerator) (r : L.St) : Py (StarSpot × L.St) := do
  let (l, r) ← G.generateR 1 r
  match l with
  | [] => .error .valueError
  | sp :: _ =>
    let (x, r) := L.uniform 1 r
    if G.isStatic then return ({ sp with area := .fin ((x 0 : ℝ) * (sp.areaMax - G.initArea) + G.initArea) }, r)
    else return (sp.ageFl (.fin (x 0 : ℝ) * G.meanLifetime), r)

/-- The loop of `generate_mature_spots` (spots.py:829-841); `none` if it is still running after so many passes. -/
def matureLoopR (G : SpotGenerator) (target rStar : ℝ) : ℕ → L.St → Fl → List StarSpot → Option (Py (List StarSpot × L.St))
  | 0, r, omega, acc => if omega < .fin target then none else some (.ok (acc, r))
  | fuel + 1, r, omega, acc =>
      if omega < .fin target then
        match G.matureStepR r with
        | .error e => some (.error e)
        | .ok (sp, r) => matureLoopR G target rStar fuel r (omega + solidAngle sp rStar) (acc ++ [sp])
      else some (.ok (acc, r))

open Classical in
/-- `SpotGenerator.generate_mature_spots` (spots.py:824-842). -/
def generateMatureR (G : SpotGenerator) (coverage rStar : ℝ) (r : L.St) : Py (List StarSpot × L.St) :=
  if 1 < coverage ∨ coverage < 0 then .error .valueError
  else if h : ∃ fuel, (matureLoopR G (4 * π * coverage) rStar fuel r (.fin 0) []).isSome then
    (matureLoopR G (4 * π * coverage) rStar (Nat.find h) r (.fin 0) []).getD (.ok ([], r))
  else .error .diverges

end SpotGenerator

namespace FaculaGenerator

/-- `FaculaGenerator.generate_faculae` and `get_coords` (faculae.py:676-678, 701-726). -/
def generateR (G : FaculaGenerator) (n : ℕ) (r : L.St) : List Facula × L.St :=
  let (mu, r) := L.normal n r
  let (x, r) := L.uniform n r
  let (u, r) := L.uniform n r
  (List.ofFn fun i =>
    let rMax := G.distRPeak * (10 : ℝ) ^ (mu i * G.distRLogsigma)
    { lat := Grid.deg (Real.arcsin (2 * (x i : ℝ) - 1) / π * 180), lon := Grid.deg ((u i : ℝ) * 360), rMax := rMax
      radius := .fin (rMax / Real.exp 1 ^ 2), depth := G.depth
      lifetime := G.distLifePeak * (10 : ℝ) ^ (mu i * G.distLifeLogsigma)
      floorSlope := G.floorSlope, floorMinRad := G.floorMinRad, floorBase := G.floorBase
      wallSlope := G.wallSlope, wallIntercept := G.wallIntercept, isGrowing := true, grid := G.grid }, r)

/-- `FaculaGenerator.birth_faculae` (faculae.py:747-749). -/
def birthR (G : FaculaGenerator) (time radStar : ℝ) (r : L.St) : Py (List Facula × L.St) := do
  let (n, r) ← L.drawPoisson (G.nExpected time radStar) r
  return G.generateR n r

end FaculaGenerator

namespace FlareGenerator

/-- `FlareGenerator.get_peaks` (flares.py:382-403), in units of the observation time. -/
def peaksR (G : FlareGenerator) (n : ℕ) (r : L.St) : Py (List ℝ × L.St) := do
  let (raw, r) ← L.drawPoissons G.clusterSize n r
  let sizes := clusterSizes n (List.ofFn raw)
  if sizes.sum ≠ n then .error .valueError
  else if sizes.length = 0 then .error .zeroDivision
  else
    let (dtimes, r) := L.drawClusters (1 / sizes.length) sizes r
    .ok (Np.cumsum dtimes, r)

/-- `FlareGenerator.generate_flare_series` (flares.py:496-517), with `gen_fwhm`, `gen_teffs` and `gen_coords` (flares.py:419-478). -/
def seriesR (G : FlareGenerator) (time : ℝ) (r : L.St) : Py (List StellarFlare × L.St) := do
  let (n, r) ← L.drawPoisson (G.nTotal time) r
  if n = 0 then return ([], r)
  let (u, r) := L.uniform n r
  let energies ← G.quantile (List.ofFn fun i => (u i : ℝ))
  let (peaks, r) ← G.peaksR n r
  if G.fwhmLogsigma < 0 then .error .valueError
  let (zF, r) := L.normal n r
  if G.teffSigma < 0 then .error .valueError
  let (zT, r) := L.normal n r
  let (uLon, r) := L.uniform n r
  let (uLat, r) := L.uniform n r
  return (zipFlares (List.ofFn fun i => (10 : ℝ) ^ (Real.logb 10 G.fwhmMean + G.fwhmLogsigma * zF i)) energies
    (List.ofFn fun i => Grid.deg (Real.arcsin (2 * (uLat i : ℝ) - 1) / π * 180)) (List.ofFn fun i => Grid.deg ((uLon i : ℝ) * 360))
    (List.ofFn fun i => G.teffMean + G.teffSigma * zT i) (peaks.map (· * time)), r)

end FlareGenerator

/-- The three generators of a star. -/
inductive Role where
  | spots
  | faculae
  | flares
  deriving DecidableEq

/-- A star whose generators hold references to random number generators. -/
structure RStar where
  star : Star
  ref : Role → ℕ

/-- Calls on a star. -/
inductive Call where
  | addSpot (new : List StarSpot)
  | birthSpots (time : ℝ)
  | matureSpots (coverage : ℝ)
  | addFac (new : List Facula)
  | birthFaculae (time : ℝ)
  | flares (duration : ℝ)
  | age (time : ℝ)

/-- A call that draws from the generator `role`, given that generator's state: the new star and the new state. -/
def Call.run (c : Call) (s : Star) (r : Role → L.St) : Py (Star × Option (Role × L.St)) :=
  match c with
  | .addSpot new => .ok (s.addSpot new, none)
  | .birthSpots t => (s.spotGen.birthR t s.radius (r .spots)).map fun x => (s.addSpot x.1, some (.spots, x.2))
  | .matureSpots c => (s.spotGen.generateMatureR c s.radius (r .spots)).map fun x => (s.addSpot x.1, some (.spots, x.2))
  | .addFac new => (s.addFac new).map fun s' => (s', none)
  | .birthFaculae t => do
    let x ← s.facGen.birthR t s.radius (r .faculae)
    let s' ← s.addFac x.1
    return (s', some (.faculae, x.2))
  | .flares t => (s.flareGen.seriesR t (r .flares)).map fun x => ({ s with flares := some (FlareCollection.new x.1) }, some (.flares, x.2))
  | .age t => .ok (s.age t, none)

/-- The stars of a program and the random number generators, by address. -/
structure Machine (L : RngLib) where
  rng : ℕ → L.St
  stars : List RStar

namespace Machine

/-- One call on star `i` (`Star.birth_spots`, star.py:585; `birth_faculae`, :598; `generate_mature_spots`, :758;
`get_flares_over_observation`, :707; `age`, :213; `add_spot`, :225; `add_fac`, :237).  A star that does not exist is an `IndexError`. -/
def step (W : Machine L) (i : ℕ) (c : Call) : Py (Machine L) :=
  match W.stars[i]? with
  | none => .error .indexError
  | some s => (c.run s.star fun a => W.rng (s.ref a)).map fun x =>
      { rng := match x.2 with
          | none => W.rng
          | some (a, r) => fun b => if b = s.ref a then r else W.rng b
        stars := W.stars.set i { s with star := x.1 } }

/-- A program: calls on stars, in order. -/
def run (W : Machine L) : List (ℕ × Call) → Py (Machine L)
  | [] => .ok W
  | (i, c) :: rest => (W.step i c).bind fun W' => W'.run rest

end Machine

/-- The functions with a default argument `rng = np.random.default_rng()`.  Each default is made once, when the class is defined:
spots.py:581, 603; faculae.py:546, 579; flares.py:227, 241; star.py:116. -/
inductive Maker where
  | spotGen
  | spotOff
  | facGen
  | facOff
  | flareGen
  | flareOff
  | star
  deriving DecidableEq

/-- The generator that a constructor called with `rng=given` (or without) keeps; `home` are the default objects. -/
def Maker.rng (home : Maker → ℕ) (m : Maker) (given : Option ℕ) : ℕ := given.getD (home m)

/-- The random number generators of a star (star.py:123-159): a generator given to `Star(...)` keeps its own, a missing one is made with
that of the star.  `gens a` is `none` if the generator was not given, otherwise the `rng` argument its constructor had. -/
def Star.refs (home : Maker → ℕ) (rng : Option ℕ) (gens : Role → Option (Option ℕ)) (a : Role) : ℕ :=
  match gens a with
  | none => Maker.star.rng home rng
  | some given =>
    match a with
    | .spots => Maker.spotGen.rng home given
    | .faculae => Maker.facGen.rng home given
    | .flares => Maker.flareGen.rng home given

end Vsm
