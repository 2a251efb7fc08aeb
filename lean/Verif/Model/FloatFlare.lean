import Verif.Model.FloatAge
import Verif.Model.Float
import Verif.Model.Flares

/-!
# Flares in double precision

Every operation is rounded to 53 binary digits; exponential and powers are those of a mathematical library.  Overflow and underflow are not
represented.  Times are given in days, areas in km², energies in erg and temperatures in K; astropy multiplies by something other than 1
only in the last step of the peak area.
-/

noncomputable section

namespace Vsm

/-- `np.exp` and `np.power` with a natural exponent as computed.  (`x**2.0` is `x*x` in numpy.) -/
structure ExpPow where
  exp : ℝ → ℝ
  pow : ℝ → ℕ → ℝ

/-- The functions correctly rounded. -/
def ExpPow.rounded : ExpPow where
  exp x := dbl (Real.exp x)
  pow x n := dbl (x ^ n)

namespace ExpPow

variable (E : ExpPow)

/-- `get_int_before(-1)` (xoflares.py:32-40): the powers of -1 are exact; at 0 the function is 0. -/
def intBefore : ℝ :=
  dbl (dbl (dbl (dbl (dbl (1 * -1) + dbl (dbl (dbl 1.94053 * 1) / 2)) + dbl (dbl (dbl (-0.175084) * -1) / 3)) + dbl (dbl (dbl (-2.24588) * 1) / 4))
    + dbl (dbl (dbl (-1.12498) * -1) / 5))

/-- `get_int_after` (xoflares.py:42-46). -/
def intAfter (x : ℝ) : ℝ :=
  dbl (dbl (dbl (dbl 0.689008 / dbl (-1.60053)) * E.exp (dbl (dbl (-1.60053) * x)))
    + dbl (dbl (dbl 0.302963 / dbl (-0.278318)) * E.exp (dbl (dbl (-0.278318) * x))))

/-- `_flareintegralnp` (xoflares.py:28-50). -/
def flareIntegral (fwhm ampl : ℝ) : ℝ :=
  dbl (dbl (dbl (dbl (0 - intBefore) + dbl (E.intAfter 20 - E.intAfter 0)) * ampl) * fwhm)

/-- Rise polynomial of `_flaremodelnp` (xoflares.py:59-65). -/
def rise (x : ℝ) : ℝ :=
  dbl (dbl (dbl (dbl (1 + dbl (dbl 1.94053 * x)) + dbl (dbl (-0.175084) * dbl (x * x))) + dbl (dbl (-2.24588) * E.pow x 3))
    + dbl (dbl (-1.12498) * E.pow x 4))

/-- Decay profile of `_flaremodelnp` (xoflares.py:71-74). -/
def decay (x : ℝ) : ℝ :=
  dbl (dbl (dbl 0.689008 * E.exp (dbl (x * dbl (-1.60053)))) + dbl (dbl 0.302963 * E.exp (dbl (x * dbl (-0.278318)))))

open Classical in
/-- `get_light_curvenp` of one flare at one time (xoflares.py:52-91, 118-145). -/
def lightCurve (time tpeak fwhm ampl : ℝ) : ℝ :=
  let x := dbl (dbl (time - tpeak) / fwhm)
  if tpeak < time ∧ x < 20 then dbl (E.decay x * ampl) else if time ≤ tpeak ∧ -1 < x then dbl (E.rise x * ampl) else 0

/-- `StellarFlare.calc_peak_area` (flares.py:84-88).  `toKm2` is the factor with which astropy turns erg/(W m⁻² K⁻⁴)/K⁴/(km² day)·km² into km². -/
def peakArea (toKm2 energy teff fwhm : ℝ) : ℝ :=
  let timeArea := dbl (dbl (energy / dbl 5.670374419e-8) / E.pow teff 4)
  dbl (dbl (dbl (timeArea / E.flareIntegral fwhm 1) * 1) * toKm2)

/-- `StellarFlare.areacurve` at one time (flares.py:105-114). -/
def areaAt (toKm2 energy teff fwhm tpeak time : ℝ) : ℝ := E.lightCurve time tpeak fwhm (E.peakArea toKm2 energy teff fwhm)

end ExpPow

/-- `StellarFlare.get_timearea` (flares.py:130-132) for times given in days, in km² h: `np.trapz` multiplies the widths of the intervals by the sums of
neighbouring areas, halves and adds up, in the order `T`; the conversion from days to hours multiplies by 24. -/
def ExpPow.timearea (E : ExpPow) (toKm2 energy teff fwhm tpeak : ℝ) (t : ℕ → ℝ) (T : SumTree ℕ) : ℝ :=
  let y := fun i => E.areaAt toKm2 energy teff fwhm tpeak (t i)
  dbl (24 * T.sum fun i => dbl (dbl (dbl (t (i + 1) - t i) * dbl (y (i + 1) + y i)) / 2))

end Vsm
