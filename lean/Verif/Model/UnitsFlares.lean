import Verif.Model.Units
import Verif.Model.Flares

/-!
# Units of flares

What the flare code does with astropy quantities, like `Model/Units.lean` for spots and faculae.  Simplifications: times,
temperatures and angles that are not finite numbers are not modelled (pseudo-exception `overflow`); astropy's
`UnitTypeError` for the sine of something that is not an angle is reported as `unitConversion`.
-/

noncomputable section

namespace Vsm

open Real

/-- energy -/
def Dim.energy : Dim
  | .mass => 1
  | .len => 2
  | .time => -2
  | _ => 0

namespace Qty

/-- `a.to_value(unit)` where a finite number is needed. -/
def toReal (a : Qty) (s : ℝ) (d : Dim) : Py ℝ :=
  (a.toValue s d).bind fun v => match v with
    | .fin x => .ok x
    | _ => .error .overflow

/-- `x*u.hr` -/
def hours (x : Fl) : Qty := ⟨x, 1 / 24, .time⟩
/-- `x*u.erg`. The unit of mass is chosen such that the erg has scale 1. -/
def erg (x : Fl) : Qty := ⟨x, 1, .energy⟩
/-- `x*u.km**2` -/
def km2 (x : Fl) : Qty := ⟨x, 1, .area⟩
/-- `x*u.K` -/
def kelvin (x : Fl) : Qty := ⟨x, 1, .temp⟩
/-- `x*u.deg` -/
def degrees (x : Fl) : Qty := ⟨x, π / 180, .angle⟩
/-- `const.sigma_sb`: 5.670374419e-8 in W m⁻² K⁻⁴ (flares.py:84). -/
def sigma : Qty := ⟨.fin 5.670374419e-8, 1e7 * 86400 * 1e6, .energy - .time - .area - (.temp + .temp + .temp + .temp)⟩

end Qty

/-- A `Quantity` that is an array of finite numbers. -/
structure ArrQ where
  vals : List ℝ
  scale : ℝ
  dim : Dim

/-- Entry of an array. -/
def ArrQ.entry (a : ArrQ) (x : ℝ) : Qty := ⟨.fin x, a.scale, a.dim⟩

/-- `StellarFlare` (flares.py:66-72). -/
structure FlareQ where
  fwhm : Qty
  energy : Qty
  lat : Qty
  lon : Qty
  teff : Qty
  tpeak : Qty

namespace FlareQ

/-- `_flareintegralnp` (xoflares.py:28-50) for quantities. -/
def integral (fwhm ampl : Qty) : Qty :=
  ((Qty.num (.fin (Xoflares.intBefore 0 - Xoflares.intBefore (-1) + (Xoflares.intAfter 20 - Xoflares.intAfter 0)))).mul ampl).mul fwhm

/-- `StellarFlare.calc_peak_area` (flares.py:84-88). -/
def peakArea (f : FlareQ) : Py Qty :=
  let timeArea := (f.energy.div .sigma).div (((f.teff.mul f.teff).mul f.teff).mul f.teff)
  ((timeArea.div (integral f.fwhm (.km2 (.fin 1)))).mul (.km2 (.fin 1))).into 1 .area

/-- `StellarFlare.areacurve` (flares.py:105-114): the numbers in km². -/
def areacurve (f : FlareQ) (time : ArrQ) : Py (List Fl) :=
  f.peakArea.bind fun peak =>
  (time.vals.mapM fun x => (time.entry x).toReal 1 .time).bind fun ts =>
  (f.tpeak.toReal 1 .time).bind fun tpeak =>
  (f.fwhm.toReal 1 .time).bind fun fwhm =>
  (peak.toValue 1 .area).map fun area => ts.map fun t => Xoflares.lightCurve t [(tpeak, fwhm, area)]

/-- `StellarFlare.get_timearea` (flares.py:130-132). -/
def timearea (f : FlareQ) (time : ArrQ) : Py Qty :=
  (f.areacurve time).bind fun areas =>
    (Qty.mk (Np.trapz areas (time.vals.map .fin)) (1 * time.scale) (.area + time.dim)).into (1 / 24) (.time + .area)

end FlareQ

/-- `FlareGenerator` attributes (flares.py:229-237) except `rng`. -/
structure FlareGeneratorQ where
  teffMean : Qty
  teffSigma : Qty
  fwhmMean : Qty
  fwhmLogsigma : ℝ
  alpha : ℝ
  beta : ℝ
  minEnergy : Qty
  clusterSize : Fl

namespace FlareGeneratorQ

/-- `FlareGenerator.off` (flares.py:251-261): the mean width is given in erg. -/
def off : FlareGeneratorQ :=
  { teffMean := .kelvin (.fin 0), teffSigma := .kelvin (.fin 0), fwhmMean := .erg (.fin 0), fwhmLogsigma := 0, alpha := -0.829
    beta := 26.87, minEnergy := .erg .pinf, clusterSize := .fin 2 }

/-- `FlareGenerator.frequency_greater_than` (flares.py:277). -/
def frequencyGreaterThan (s : FlareGeneratorQ) (energy : Qty) : Py Qty :=
  (energy.toValue 1 .energy).map fun e => (Qty.num (.fin ((10 : ℝ) ^ s.beta) * Fl.rpow e s.alpha)).div (.days (.fin 1))

/-- `FlareGenerator.get_nexp_greater_than` (flares.py:296). -/
def nexpGreaterThan (s : FlareGeneratorQ) (energy time : Qty) : Py Fl :=
  (s.frequencyGreaterThan energy).bind fun f => (f.mul time).toValue 1 0

/-- `FlareGenerator.get_ntotal` (flares.py:312). -/
def nTotal (s : FlareGeneratorQ) (time : Qty) : Py Fl := s.nexpGreaterThan s.minEnergy time

/-- `FlareGenerator.cdf` (flares.py:344). -/
def cdf (s : FlareGeneratorQ) (energy : Qty) : Py Fl :=
  ((energy.div s.minEnergy).toValue 1 0).map fun x => .fin 1 - Fl.rpow x s.alpha

/-- `FlareGenerator.quantile_func` (flares.py:363-366) on a list of samples. -/
def quantile (s : FlareGeneratorQ) (X : List ℝ) : Py (List Qty) :=
  open Classical in
  if ¬ ((∀ x ∈ X, 0 ≤ x) ∧ ∀ x ∈ X, x < 1) then .error .valueError
  else if s.alpha = 0 then .error .zeroDivision
  else .ok (X.map fun x => s.minEnergy.mul (.num (Fl.rpow (.fin (1 - x)) (1 / s.alpha))))

/-- `FlareGenerator.get_peaks` (flares.py:382-403) does not involve units. -/
def getPeaks (s : FlareGeneratorQ) (n : ℕ) (raw : Fin n → ℕ) (e : ℕ → Set.Ici (0 : ℝ)) : Py (List ℝ) :=
  FlareGenerator.getPeaks { FlareGenerator.off with clusterSize := s.clusterSize } n raw e

/-- `FlareGenerator.gen_fwhm` (flares.py:419-427); faithful for a positive mean width. -/
def genFwhm (s : FlareGeneratorQ) {n : ℕ} (z : Fin n → ℝ) : Py (List Qty) :=
  (s.fwhmMean.toReal 1 .time).bind fun mean =>
    if s.fwhmLogsigma < 0 then .error .valueError
    else .ok (List.ofFn fun i => Qty.days (.fin ((10 : ℝ) ^ (Real.logb 10 mean + s.fwhmLogsigma * z i))))

/-- `FlareGenerator.gen_teffs` (flares.py:444-449). -/
def genTeffs (s : FlareGeneratorQ) {n : ℕ} (z : Fin n → ℝ) : Py (List Qty) :=
  (s.teffMean.toReal 1 .temp).bind fun mean =>
  (s.teffSigma.toReal 1 .temp).bind fun sigma =>
    if sigma < 0 then .error .valueError
    else .ok (List.ofFn fun i => Qty.kelvin (.fin (mean + sigma * z i)))

/-- The zip building the flares (flares.py:507-516). -/
def zipFlares : List Qty → List Qty → List Qty → List Qty → List Qty → List Qty → List FlareQ
  | f :: fs, e :: es, la :: las, lo :: los, te :: tes, t :: ts =>
      ⟨f, e, la, lo, te, t⟩ :: zipFlares fs es las los tes ts
  | _, _, _, _, _, _ => []

/-- `FlareGenerator.generate_flare_series` (flares.py:496-517): `k` is the raw Poisson draw; the coordinates
(flares.py:476-478) are given in degrees. -/
def series (s : FlareGeneratorQ) (time : Qty) (k : ℕ) (d : (n : ℕ) → FlareDraws n) : Py (List FlareQ) :=
  (s.nTotal time).bind fun nexp =>
  (Np.poisson nexp k).bind fun n =>
  if n = 0 then .ok []
  else
    (s.quantile (List.ofFn fun i => ((d n).uE i : ℝ))).bind fun energies =>
    (s.getPeaks n (d n).clusters (d n).expo).bind fun peaks =>
    (s.genFwhm (d n).zF).bind fun fwhms =>
    (s.genTeffs (d n).zT).map fun teffs =>
      zipFlares fwhms energies
        (List.ofFn fun i => Qty.degrees (.fin (Real.arcsin (2 * ((d n).uLat i : ℝ) - 1) / π * 180)))
        (List.ofFn fun i => Qty.degrees (.fin (((d n).uLon i : ℝ) * 360)))
        teffs (peaks.map fun p => (Qty.num (.fin p)).mul time)

end FlareGeneratorQ

/-- `FlareCollection` (flares.py:540-545) with the numbers in hours cached by `index` (flares.py:556-565). -/
structure FlareCollectionQ where
  flares : List FlareQ
  peaks : List ℝ
  fwhms : List ℝ

namespace FlareCollectionQ

/-- `FlareCollection.__init__` (flares.py:540-545, 556-565). -/
def new (flares : List FlareQ) : Py FlareCollectionQ :=
  (flares.mapM fun f : FlareQ => (f.tpeak.toReal (1 / 24) .time).bind fun p => (f.fwhm.toReal (1 / 24) .time).map fun w => (p, w)).map
    fun l => { flares, peaks := l.map (·.1), fwhms := l.map (·.2) }

/-- `FlareCollection.mask` (flares.py:584-589). -/
def mask (c : FlareCollectionQ) (tstart tfinish : Qty) : Py (List Bool) :=
  (c.peaks.zip c.fwhms).mapM fun pf =>
    ((Qty.hours (.fin (pf.1 + 20 * pf.2))).gt tstart).bind fun a =>
    (tfinish.gt (.hours (.fin (pf.1 - 10 * pf.2)))).map fun b => a && b

/-- `FlareCollection.get_flares_in_timeperiod` (flares.py:609-613). -/
def inPeriod (c : FlareCollectionQ) (tstart tfinish : Qty) : Py (List FlareQ) :=
  (c.mask tstart tfinish).map fun m => Np.maskSelect c.flares m

open Classical in
/-- `FlareCollection.get_visible_flares_in_timeperiod` (flares.py:641-649). -/
def visible (c : FlareCollectionQ) (tstart tfinish lat0 lon0 : Qty) : Py (List FlareQ) :=
  (c.inPeriod tstart tfinish).bind fun l => keepM l fun f : FlareQ =>
    (lat0.toReal 1 .angle).bind fun la0 => (f.lat.toReal 1 .angle).bind fun la =>
    (lon0.sub f.lon).bind fun dl => (dl.toReal 1 .angle).map fun d =>
      decide (0 < sin la0 * sin la + cos la0 * cos la * cos d)

/-- Time samples used by `get_flare_integral_in_timeperiod` (flares.py:681-683), in the unit of `tstart`. -/
def times (tstart tfinish : Qty) : Py ArrQ :=
  (tfinish.sub tstart).bind fun dt =>
  ((dt.div ⟨.fin 10, 1 / 1440, .time⟩).toReal 1 0).bind fun x =>
  (tstart.toReal tstart.scale tstart.dim).bind fun a =>
  (tfinish.toReal tstart.scale tstart.dim).bind fun b =>
    if FlareCollection.pyInt x < 0 then .error .valueError
    else .ok ⟨Np.linspace a b (FlareCollection.pyInt x).toNat, tstart.scale, tstart.dim⟩

/-- `FlareCollection.get_flare_integral_in_timeperiod` (flares.py:676-687). -/
def integrals (c : FlareCollectionQ) (tstart tfinish lat0 lon0 : Qty) : Py (List (Qty × Qty)) :=
  (c.visible tstart tfinish lat0 lon0).bind fun l =>
  (times tstart tfinish).bind fun time =>
    l.mapM fun f : FlareQ => (f.timearea time).map fun a => (f.teff, a)

end FlareCollectionQ
end Vsm
