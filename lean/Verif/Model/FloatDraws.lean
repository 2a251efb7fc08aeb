import Verif.Model.FloatPeaks
import Verif.Model.FloatAge

/-!
# Generated spots and faculae in double precision

As in `Verif.Model.FloatEnergy` every operation is rounded to 53 binary digits and overflow and underflow are not represented.  Angles are given in
degrees, areas of spots in millionths of the solar hemisphere, as the code does.
-/

noncomputable section

namespace Vsm

/-- What `generate_spots` computes for a new spot: peak area (millionths of the solar hemisphere), ratio of areas, place (degrees). -/
structure NewSpot where
  areaMax : ℝ
  ratio : ℝ
  lat : ℝ
  lon : ℝ

/-- What `generate_faculae` computes for a new facula: largest radius, first radius, lifetime, place (degrees). -/
structure NewFacula where
  rMax : ℝ
  radius : ℝ
  lifetime : ℝ
  lat : ℝ
  lon : ℝ

namespace SpotGenerator

open Classical in
/-- The rejection loop for the area ratios as computed (spots.py:736-738). -/
def acceptRatiosD {n : ℕ} (d : SpotDraws n) : Option (Fin n → ℝ) :=
  if h : ∃ k, ∀ i, 0 < normalD 5 1 (d.zRatio k i) then some fun i => normalD 5 1 (d.zRatio (Nat.find h) i) else none

/-- `get_coordinates`, latitude of spot `i` as computed (spots.py:702-703 and 708-709), degrees. -/
def drawLatD (s : SpotGenerator) (M : Libm) {n : ℕ} (d : SpotDraws n) (i : Fin n) : ℝ :=
  match s.distribution with
  | .solar => dbl (normalD 15 5 (d.zLat i) * (if d.north i then 1 else -1))
  | _ => M.randomLat (d.uLat i)

/-- `SpotGenerator.generate_spots` as computed (spots.py:734-757); the mean area is given in millionths of the solar hemisphere. -/
def generateD (s : SpotGenerator) (M : Libm) (E : ExpLog) (n : ℕ) (d : SpotDraws n) : Py (List NewSpot) :=
  if s.distAreaLogsigma < 0 then .error .valueError
  else match acceptRatiosD d with
    | none => .error .diverges
    | some ratios =>
      if s.distribution = .other then .error .valueError
      else .ok <| List.ofFn fun i =>
        { areaMax := E.exp (normalD (E.log (s.distAreaMean / MSH)) s.distAreaLogsigma (d.z i)), ratio := ratios i
          lat := s.drawLatD M d i, lon := Libm.randomLon (d.uLon i) }

end SpotGenerator

/-- `FaculaGenerator.generate_faculae` as computed (faculae.py:701-726). -/
def FaculaGenerator.generateD (s : FaculaGenerator) (M : Libm) (L : RealPow) (n : ℕ) (d : FaculaDraws n) : List NewFacula :=
  List.ofFn fun i =>
    let rMax := dbl (s.distRPeak * L.pow 10 (dbl (d.mu i * s.distRLogsigma)))
    { rMax := rMax, radius := dbl (rMax / L.pow (dbl (Real.exp 1)) 2)
      lifetime := dbl (s.distLifePeak * L.pow 10 (dbl (d.mu i * s.distLifeLogsigma)))
      lat := M.randomLat (d.uLat i), lon := Libm.randomLon (d.uLon i) }

end Vsm
