import Verif.Np

/-!
# Model of `vspec_vsm/granules.py`

Time in hours here (`time_unit`, granules.py:13).
-/

noncomputable section

namespace Vsm

open Real

/-- `Granulation` attributes (granules.py:116-122) except the seed. -/
structure Granulation where
  mean : ℝ
  scale : ℝ
  period : ℝ
  dteff : ℝ

namespace Granulation

/-- `Granulation.off` (granules.py:136-142). -/
def off : Granulation := ⟨0, 0, 0, 0⟩

/-- `GranulationKernel.evaluate` (granules.py:37-47) for scalar `scale` and `period`.  Real arithmetic:
faithful for `period ≠ 0`. -/
def kernel (scale period x1 x2 : ℝ) : ℝ :=
  let freq := 1 / period
  let tau := |x1 - x2|
  scale * freq * Real.exp (-freq * tau / √2) * Real.cos (freq * tau / √2 - π / 4)

/-- Covariance matrix of the Gaussian process built by `build_gp` (granules.py:62-68, `diag=0`). -/
def cov (g : Granulation) {n : ℕ} (t : Fin n → ℝ) (i j : Fin n) : ℝ := kernel g.scale g.period (t i) (t j)

/-- `save_cast_coverage` on one entry (granules.py:80-82); NaN is left alone. -/
def saveCast (c : Fl) : Fl :=
  let c₁ := if c < .fin 0 then .fin 0 else c
  if .fin 1 < c₁ then .fin 1 else c₁

/-- `Granulation.get_coverage` (granules.py:161-164).  The Gaussian process sample (jax / tinygp) is the
argument `sample`. -/
def getCoverage (_g : Granulation) {n : ℕ} (sample : Fin n → Fl) : Fin n → Fl := fun i => saveCast (sample i)

end Granulation
end Vsm
