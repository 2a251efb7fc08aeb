import Verif.Np
import Verif.Model.Grid
import Mathlib.Analysis.SpecialFunctions.Log.Base

/-!
# Model of `vspec_vsm/flares.py` and `vspec_vsm/xoflares.py`

Units: time in days, area in km², energy in erg, temperature in K, angles in radians.
-/

noncomputable section

namespace Vsm

open Real

namespace Xoflares

/-- `get_int_before` (xoflares.py:32-40). -/
def intBefore (x : ℝ) : ℝ :=
  1.00000 * x + (1.94053 * x ^ 2 / 2) + (-0.175084 * x ^ 3 / 3) + (-2.24588 * x ^ 4 / 4)
    + (-1.12498 * x ^ 5 / 5)

/-- `get_int_after` (xoflares.py:42-46). -/
def intAfter (x : ℝ) : ℝ :=
  (0.689008 / (-1.60053) * Real.exp (-1.60053 * x)) + (0.302963 / (-0.278318) * Real.exp (-0.278318 * x))

/-- `_flareintegralnp` (xoflares.py:28-50). -/
def flareIntegral (fwhm ampl : ℝ) : ℝ :=
  (intBefore 0 - intBefore (-1) + (intAfter 20 - intAfter 0)) * ampl * fwhm

/-- Rise polynomial of `_flaremodelnp` (xoflares.py:59-65). -/
def riseP (x : Fl) : Fl :=
  .fin 1.00000 + .fin 1.94053 * x + .fin (-0.175084) * (x * x) + .fin (-2.24588) * (x * x * x)
    + .fin (-1.12498) * (x * x * x * x)

/-- Decay profile of `_flaremodelnp` (xoflares.py:71-74). -/
def decayP (x : Fl) : Fl :=
  .fin 0.689008 * Fl.exp (x * .fin (-1.60053)) + .fin 0.302963 * Fl.exp (x * .fin (-0.278318))

/-- `_flaremodelnp` at one time (xoflares.py:52-78). -/
def flareModel (time tpeak fwhm : ℝ) (ampl : Fl) : Fl :=
  let x := Fl.fin (time - tpeak) / .fin fwhm
  let lc₀ : Fl := .fin 0
  let lc₁ := if time ≤ tpeak ∧ .fin (-1) < x then riseP x * ampl else lc₀
  if tpeak < time ∧ x < .fin 20 then decayP x * ampl else lc₁

/-- `multiflaremodelnp` at one time (xoflares.py:81-91); flares as `(tpeak, fwhm, ampl)`. -/
def multiFlareModel (time : ℝ) (flares : List (ℝ × ℝ × Fl)) : Fl :=
  flares.foldl (fun lc f => lc + flareModel time f.1 f.2.1 f.2.2) (.fin 0)

/-- `get_light_curvenp` with `texp=None` at one time (xoflares.py:118-125, 140-145), the only mode the
package uses (flares.py:108-113). -/
def lightCurve (time : ℝ) (flares : List (ℝ × ℝ × Fl)) : Fl := multiFlareModel time flares

/-- `get_light_curvenp` with an exposure time (xoflares.py:126-145): mean over `oversample` (made odd)
sub-samples spread over `texp`. -/
def lightCurveExp (time texp : ℝ) (oversample : ℕ) (flares : List (ℝ × ℝ × Fl)) : Fl :=
  let n := oversample + (1 - oversample % 2)
  (((Np.linspace (-texp / 2) (texp / 2) n).map fun dt => multiFlareModel (dt + time) flares).sum)
    / .fin n

end Xoflares

/-- Stefan-Boltzmann constant `const.sigma_sb` (5.670374419e-8 W m⁻² K⁻⁴, flares.py:84) in
erg day⁻¹ km⁻² K⁻⁴. -/
def sigmaSB : ℝ := 5.670374419e-8 * 1e7 * 86400 * 1e6

/-- `StellarFlare` (flares.py:66-72). -/
structure StellarFlare where
  fwhm : ℝ
  energy : Fl
  lat : ℝ
  lon : ℝ
  teff : ℝ
  tpeak : ℝ

namespace StellarFlare

/-- `StellarFlare.calc_peak_area` (flares.py:84-88). -/
def peakArea (f : StellarFlare) : Fl :=
  let timeArea := f.energy / .fin sigmaSB / .fin (f.teff ^ 4)
  let timeAreaStd := .fin (Xoflares.flareIntegral f.fwhm 1)
  timeArea / timeAreaStd * .fin 1

/-- `StellarFlare.areacurve` at one time (flares.py:105-114). -/
def areaAt (f : StellarFlare) (t : ℝ) : Fl := Xoflares.lightCurve t [(f.tpeak, f.fwhm, f.peakArea)]

/-- `StellarFlare.get_timearea` (flares.py:130-132), in km² day. -/
def timearea (f : StellarFlare) (time : List ℝ) : Fl :=
  Np.trapz (time.map f.areaAt) (time.map .fin)

end StellarFlare

/-- `FlareGenerator` attributes (flares.py:229-237) except `rng`. -/
structure FlareGenerator where
  teffMean : ℝ
  teffSigma : ℝ
  fwhmMean : ℝ
  fwhmLogsigma : ℝ
  alpha : ℝ
  beta : ℝ
  minEnergy : Fl
  clusterSize : Fl

/-- Random numbers consumed by `generate_flare_series` for `n` flares: uniforms for the energies
(flares.py:501), Poisson draws for the cluster sizes (:382), unit exponentials for the waiting times
(:397-400), normals for the widths and temperatures (:421, :444) and uniforms for the coordinates
(:476-477). -/
structure FlareDraws (n : ℕ) where
  uE : Fin n → Set.Ico (0 : ℝ) 1
  clusters : Fin n → ℕ
  expo : ℕ → Set.Ici (0 : ℝ)
  zF : Fin n → ℝ
  zT : Fin n → ℝ
  uLon : Fin n → Set.Ico (0 : ℝ) 1
  uLat : Fin n → Set.Ico (0 : ℝ) 1

namespace FlareGenerator

/-- `FlareGenerator.off` (flares.py:251-261).  (Its `dist_fwhm_mean` carries the wrong unit, `0*u.erg`; it
is never used because nothing is ever generated.) -/
def off : FlareGenerator :=
  { teffMean := 0, teffSigma := 0, fwhmMean := 0, fwhmLogsigma := 0, alpha := -0.829, beta := 26.87
    minEnergy := .pinf, clusterSize := .fin 2 }

/-- `FlareGenerator.frequency_greater_than` (flares.py:277), per day. -/
def frequencyGreaterThan (s : FlareGenerator) (energy : Fl) : Fl :=
  .fin ((10 : ℝ) ^ s.beta) * Fl.rpow energy s.alpha

/-- `FlareGenerator.get_nexp_greater_than` (flares.py:296). -/
def nexpGreaterThan (s : FlareGenerator) (energy : Fl) (time : ℝ) : Fl :=
  s.frequencyGreaterThan energy * .fin time

/-- `FlareGenerator.get_ntotal` (flares.py:312). -/
def nTotal (s : FlareGenerator) (time : ℝ) : Fl := s.nexpGreaterThan s.minEnergy time

/-- The number computed by `FlareGenerator.pdf` before the unit conversion (flares.py:328). -/
def pdfValue (s : FlareGenerator) (energy : Fl) : Fl :=
  .fin (-s.alpha) * Fl.rpow energy (s.alpha - 1) / Fl.rpow s.minEnergy s.alpha

open Classical in
/-- `FlareGenerator.pdf` (flares.py:328).  `energy**(alpha-1)/min_energy**alpha` has unit
`erg^((alpha-1)-alpha)`; `.to_value(dimensionless_unscaled)` raises `UnitConversionError` unless that
exponent is zero. -/
def pdf (s : FlareGenerator) (energy : Fl) : Py Fl :=
  let unitExponent := (s.alpha - 1) - s.alpha
  if unitExponent = 0 then .ok (s.pdfValue energy)
  else .error .unitConversion

/-- `FlareGenerator.cdf` (flares.py:344). -/
def cdf (s : FlareGenerator) (energy : Fl) : Fl := .fin 1 - Fl.rpow (energy / s.minEnergy) s.alpha

/-- `FlareGenerator.quantile_func` (flares.py:363-366) on a list of samples. -/
def quantile (s : FlareGenerator) (X : List ℝ) : Py (List Fl) :=
  open Classical in
  if ¬ ((∀ x ∈ X, 0 ≤ x) ∧ ∀ x ∈ X, x < 1) then .error .valueError
  else if s.alpha = 0 then .error .zeroDivision
  else .ok (X.map fun x => s.minEnergy * Fl.rpow (.fin (1 - x)) (1 / s.alpha))

/-- Cluster sizes chosen by `get_peaks` (flares.py:382-386): drop empty clusters, keep the ones whose
running total stays below `n`, fill up with clusters of one. -/
def clusterSizes (n : ℕ) (raw : List ℕ) : List ℕ :=
  let c₁ := raw.filter (0 < ·)
  let c₂ := Np.maskSelect c₁ ((Np.cumsum c₁).map (decide <| · < n))
  c₂ ++ List.replicate (n - c₂.sum) 1

/-- Waiting times of one cluster (flares.py:397-400): scale `1/nClusters` for the first flare, half of
`1/nClusters/size` for the others; `e` are the unit exponentials not yet used. -/
def clusterTimes (timescale : ℝ) (size : ℕ) (e : ℕ → Set.Ici (0 : ℝ)) : List ℝ :=
  (List.range (1 + (size - 1))).map fun i =>
    if i = 0 then timescale * (e 0 : ℝ) else timescale / size / 2 * (e i : ℝ)

/-- Waiting times of all clusters (flares.py:395-400). -/
def waitingTimes (timescale : ℝ) : List ℕ → (ℕ → Set.Ici (0 : ℝ)) → List ℝ
  | [], _ => []
  | size :: rest, e =>
      clusterTimes timescale size e ++ waitingTimes timescale rest (fun i => e (i + (1 + (size - 1))))

/-- `FlareGenerator.get_peaks` (flares.py:382-403), in units of the observation time.  (For `n = 0` numpy
looks at the cluster size first; a negative one is then a `ValueError`.) -/
def getPeaks (s : FlareGenerator) (n : ℕ) (raw : Fin n → ℕ) (e : ℕ → Set.Ici (0 : ℝ)) : Py (List ℝ) := do
  let draws ← (List.ofFn raw).mapM fun k => Np.poisson s.clusterSize k
  let sizes := clusterSizes n draws
  if sizes.sum ≠ n then .error .valueError
  else if sizes.length = 0 then .error .zeroDivision
  else
    let timescale : ℝ := 1 / sizes.length
    .ok (Np.cumsum (waitingTimes timescale sizes e))

/-- `FlareGenerator.gen_fwhm` (flares.py:419-427); `rng.normal` rejects a negative scale.  Faithful for a
positive mean width. -/
def genFwhm (s : FlareGenerator) {n : ℕ} (z : Fin n → ℝ) : Py (List ℝ) :=
  if s.fwhmLogsigma < 0 then .error .valueError
  else .ok (List.ofFn fun i => (10 : ℝ) ^ (Real.logb 10 s.fwhmMean + s.fwhmLogsigma * z i))

/-- `FlareGenerator.gen_teffs` (flares.py:444-449). -/
def genTeffs (s : FlareGenerator) {n : ℕ} (z : Fin n → ℝ) : Py (List ℝ) :=
  if s.teffSigma < 0 then .error .valueError
  else .ok (List.ofFn fun i => s.teffMean + s.teffSigma * z i)

/-- `FlareGenerator.gen_coords`, latitude (flares.py:477-478), radians. -/
def drawLat (u : Set.Ico (0 : ℝ) 1) : ℝ := Grid.deg (Real.arcsin (2 * (u : ℝ) - 1) / π * 180)

/-- `FlareGenerator.gen_coords`, longitude (flares.py:476), radians. -/
def drawLon (u : Set.Ico (0 : ℝ) 1) : ℝ := Grid.deg ((u : ℝ) * 360)

/-- The zip building the flares (flares.py:507-516); `zip` stops at the shortest sequence. -/
def zipFlares : List ℝ → List Fl → List ℝ → List ℝ → List ℝ → List ℝ → List StellarFlare
  | f :: fs, e :: es, la :: las, lo :: los, te :: tes, t :: ts =>
      ⟨f, e, la, lo, te, t⟩ :: zipFlares fs es las los tes ts
  | _, _, _, _, _, _ => []

/-- `FlareGenerator.generate_flare_series` (flares.py:496-517): `k` is the raw Poisson draw. -/
def series (s : FlareGenerator) (time : ℝ) (k : ℕ) (d : (n : ℕ) → FlareDraws n) :
    Py (List StellarFlare) := do
  let n ← Np.poisson (s.nTotal time) k
  if n = 0 then return []
  let energies ← s.quantile (List.ofFn fun i => ((d n).uE i : ℝ))
  let peaks ← s.getPeaks n (d n).clusters (d n).expo
  let fwhms ← s.genFwhm (d n).zF
  let teffs ← s.genTeffs (d n).zT
  return zipFlares fwhms energies (List.ofFn fun i => drawLat ((d n).uLat i))
    (List.ofFn fun i => drawLon ((d n).uLon i)) teffs (peaks.map (· * time))

end FlareGenerator

/-- `FlareCollection` (flares.py:540-545) with the arrays cached by `index` (flares.py:556-565). -/
structure FlareCollection where
  flares : List StellarFlare
  peaks : List ℝ
  fwhms : List ℝ

namespace FlareCollection

/-- `FlareCollection.__init__` (flares.py:540-545). -/
def new (flares : List StellarFlare) : FlareCollection :=
  { flares, peaks := flares.map (·.tpeak), fwhms := flares.map (·.fwhm) }

/-- `FlareCollection.mask` (flares.py:584-589). -/
def mask (c : FlareCollection) (tstart tfinish : ℝ) : List Bool :=
  (c.peaks.zip c.fwhms).map fun pf =>
    decide (tstart < pf.1 + 20 * pf.2) && decide (pf.1 - 10 * pf.2 < tfinish)

/-- `FlareCollection.get_flares_in_timeperiod` (flares.py:609-613). -/
def inPeriod (c : FlareCollection) (tstart tfinish : ℝ) : List StellarFlare :=
  Np.maskSelect c.flares (c.mask tstart tfinish)

/-- `FlareCollection.get_visible_flares_in_timeperiod` (flares.py:641-649). -/
def visible (c : FlareCollection) (tstart tfinish lat0 lon0 : ℝ) : List StellarFlare :=
  (c.inPeriod tstart tfinish).filter fun f =>
    decide (0 < sin lat0 * sin f.lat + cos lat0 * cos f.lat * cos (lon0 - f.lon))

/-- Python's `int(x)`: truncation toward zero (flares.py:682). -/
def pyInt (x : ℝ) : ℤ := if 0 ≤ x then ⌊x⌋ else ⌈x⌉

/-- Time samples used by `get_flare_integral_in_timeperiod` (flares.py:681-683): one every ten minutes
(1/144 day); a negative number of samples is a `ValueError`. -/
def times (tstart tfinish : ℝ) : Py (List ℝ) :=
  let n := pyInt ((tfinish - tstart) / (1 / 144))
  if n < 0 then .error .valueError else .ok (Np.linspace tstart tfinish n.toNat)

/-- `FlareCollection.get_flare_integral_in_timeperiod` (flares.py:676-687): list of `(Teff, timearea)`. -/
def integrals (c : FlareCollection) (tstart tfinish lat0 lon0 : ℝ) : Py (List (ℝ × Fl)) :=
  (times tstart tfinish).map fun time =>
    (c.visible tstart tfinish lat0 lon0).map fun f => (f.teff, f.timearea time)

end FlareCollection
end Vsm
