import Mathlib.Data.Matrix.Basic
import Verif.Model.Star

/-!
# Where the granulation samples come from

`Granulation.get_coverage` (granules.py:161-164) makes a key from the seed of the granulation and asks tinygp for one sample.  tinygp
draws as many standard normal numbers as there are times, from the key alone, multiplies them by the lower Cholesky factor of the
covariance matrix and adds the mean.  The draws and the factorisation are arguments here.
-/

noncomputable section

namespace Vsm

/-- The libraries behind `gp.sample(key)`: the draws made from a seed for a number of times, and the Cholesky factorisation. -/
structure Sampler where
  normal : (seed n : ℕ) → Fin n → ℝ
  chol : (n : ℕ) → Matrix (Fin n) (Fin n) ℝ → Matrix (Fin n) (Fin n) ℝ

namespace Granulation

/-- The seed of `Granulation(…, seed)` (granules.py:114): the default value is drawn once, when the module is imported. -/
def seedOf (atImport : ℕ) (seed : Option ℕ) : ℕ := seed.getD atImport

/-- `gp.sample(key)` (granules.py:161-163) at the times `t` (in hours). -/
def sample (S : Sampler) (g : Granulation) (seed : ℕ) {n : ℕ} (t : Fin n → ℝ) (i : Fin n) : Fl :=
  .fin (g.mean + ∑ j, S.chol n (Matrix.of (g.cov t)) i j * S.normal seed n j)

end Granulation

namespace Star

/-- `Star.get_granulation_coverage(time)` (star.py:776-785) for a star whose granulation has the given seed. -/
def granulationAt (S : Sampler) (s : Star) (seed : ℕ) {n : ℕ} (t : Fin n → ℝ) : Py (Fin n → Fl) :=
  match s.granulation with
  | none => s.granulationCoverage (fun _ => .fin 0)
  | some g => s.granulationCoverage (g.sample S seed t)

end Star
end Vsm
