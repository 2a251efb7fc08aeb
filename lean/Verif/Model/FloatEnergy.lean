import Verif.Model.FloatFlare

/-!
# Random draws of flares in double precision

Every operation is rounded to 53 binary digits; powers with a real exponent are those of a mathematical library.  Overflow and underflow
are not represented: with the exponents considered the energies stay below `min_energy·2^531`.  Energies are given in erg, times in
days, angles in degrees.
-/

noncomputable section

namespace Vsm

/-- The number that `Generator.random` returns for the integer `k` drawn below `2^53`. -/
def randomDouble (k : ℕ) : ℝ := k / 2 ^ 53

/-- `x**y` for a positive `x` as computed. -/
structure RealPow where
  pow : ℝ → ℝ → ℝ

/-- The power correctly rounded. -/
def RealPow.rounded : RealPow where
  pow x y := dbl (x ^ y)

namespace RealPow

variable (L : RealPow)

/-- `FlareGenerator.quantile_func` of one number (flares.py:366). -/
def quantile (minEnergy alpha x : ℝ) : ℝ := dbl (minEnergy * L.pow (dbl (1 - x)) (dbl (1 / alpha)))

/-- `FlareGenerator.frequency_greater_than` per day (flares.py:277). -/
def frequency (alpha beta energy : ℝ) : ℝ := dbl (L.pow 10 beta * L.pow energy alpha)

/-- `FlareGenerator.get_nexp_greater_than` (flares.py:296). -/
def nexp (alpha beta energy time : ℝ) : ℝ := dbl (L.frequency alpha beta energy * time)

end RealPow

/-- Latitude of a flare (flares.py:477-478), facula (faculae.py:676-677) or isotropically placed spot (spots.py:708-709), degrees. -/
def Libm.randomLat (M : Libm) (x : ℝ) : ℝ := dbl (dbl (M.arcsin (dbl (dbl (2 * x) - 1)) / dbl Real.pi) * 180)

/-- Longitude of a flare (flares.py:476), facula (faculae.py:678) or spot (spots.py:704, 706), degrees. -/
def Libm.randomLon (x : ℝ) : ℝ := dbl (x * 360)

end Vsm
