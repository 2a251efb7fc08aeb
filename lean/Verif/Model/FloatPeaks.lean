import Verif.Model.FloatEnergy
import Verif.Model.Flares

/-!
# Times, widths and temperatures of generated flares in double precision

As in `Verif.Model.FloatEnergy` every operation is rounded to 53 binary digits and overflow and underflow are not represented.  Sizes
and numbers of clusters are integers below `2^53`, hence exact.
-/

noncomputable section

namespace Vsm

namespace FlareGenerator

/-- Waiting times of one cluster as computed (flares.py:397-400); `rng.exponential(scale)` multiplies a unit exponential by `scale`. -/
def clusterTimesD (timescale : ℝ) (size : ℕ) (e : ℕ → Set.Ici (0 : ℝ)) : List ℝ :=
  (List.range (1 + (size - 1))).map fun i =>
    if i = 0 then dbl (timescale * (e 0 : ℝ)) else dbl (dbl (dbl (timescale / size) / 2) * (e i : ℝ))

/-- Waiting times of all clusters as computed (flares.py:395-400). -/
def waitingTimesD (timescale : ℝ) : List ℕ → (ℕ → Set.Ici (0 : ℝ)) → List ℝ
  | [], _ => []
  | size :: rest, e =>
      clusterTimesD timescale size e ++ waitingTimesD timescale rest (fun i => e (i + (1 + (size - 1))))

/-- `np.cumsum` of floats (flares.py:402): one addition after the other. -/
def cumsumD : ℝ → List ℝ → List ℝ
  | _, [] => []
  | acc, x :: xs => dbl (acc + x) :: cumsumD (dbl (acc + x)) xs

/-- `FlareGenerator.get_peaks` as computed (flares.py:382-403). -/
def getPeaksD (s : FlareGenerator) (n : ℕ) (raw : Fin n → ℕ) (e : ℕ → Set.Ici (0 : ℝ)) : Py (List ℝ) := do
  let draws ← (List.ofFn raw).mapM fun k => Np.poisson s.clusterSize k
  let sizes := clusterSizes n draws
  if sizes.sum ≠ n then .error .valueError
  else if sizes.length = 0 then .error .zeroDivision
  else .ok (cumsumD 0 (waitingTimesD (dbl (1 / sizes.length)) sizes e))

/-- The peak times of `generate_flare_series` as computed (flares.py:502). -/
def peakTimesD (peaks : List ℝ) (time : ℝ) : List ℝ := peaks.map fun p => dbl (p * time)

end FlareGenerator

/-- One temperature of `FlareGenerator.gen_teffs` as computed (flares.py:444-448); `rng.normal(loc, scale)` is `loc + scale*z` with a
standard normal `z`. -/
def normalD (loc scale z : ℝ) : ℝ := dbl (loc + dbl (scale * z))

/-- One width of `FlareGenerator.gen_fwhm` as computed (flares.py:419-426); `lg` is the value of `np.log10` of the mean width. -/
def RealPow.fwhm (L : RealPow) (lg sigma z : ℝ) : ℝ := L.pow 10 (normalD lg sigma z)

end Vsm
