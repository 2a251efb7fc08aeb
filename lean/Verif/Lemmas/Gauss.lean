import Verif.Lemmas.Trapz
import Mathlib.MeasureTheory.Integral.IntervalIntegral.TrapezoidalRule
import Mathlib.Analysis.SpecialFunctions.Gaussian.GaussianIntegral
import Mathlib.Analysis.Complex.ExponentialBounds

/-!
# The trapezoid rule applied to a Gaussian never exceeds the full integral

Used for the transit mask: the overlap of a pixel with the planet is at most 1.
-/

noncomputable section

namespace Vsm

open Real MeasureTheory Set intervalIntegral

/-- The unnormalised standard Gaussian. -/
def phi (u : ℝ) : ℝ := exp (-(1 / 2) * u ^ 2)

theorem phi_pos (u : ℝ) : 0 < phi u := exp_pos _

theorem phi_contDiff : ContDiff ℝ 2 phi := by unfold phi; fun_prop

theorem phi_continuous : Continuous phi := phi_contDiff.continuous

theorem phi_hasDerivAt (u : ℝ) : HasDerivAt phi (-u * phi u) u := by
  have h : HasDerivAt (fun u : ℝ => -(1 / 2) * u ^ 2) (-(1 / 2) * (2 * u)) u := by
    simpa using ((hasDerivAt_id u).pow 2).const_mul (-(1 / 2 : ℝ))
  refine h.exp.congr_deriv ?_
  unfold phi; ring

theorem phi_hasDerivAt2 (u : ℝ) : HasDerivAt (fun u => -u * phi u) ((u ^ 2 - 1) * phi u) u := by
  refine ((hasDerivAt_id u).neg.mul (phi_hasDerivAt u)).congr_deriv ?_
  simp only [Pi.neg_apply, id_eq]
  ring

theorem phi_second (u : ℝ) : iteratedDeriv 2 phi u = (u ^ 2 - 1) * phi u := by
  rw [iteratedDeriv_succ, iteratedDeriv_one]
  have : deriv phi = fun u => -u * phi u := funext fun u => (phi_hasDerivAt u).deriv
  rw [this]
  exact (phi_hasDerivAt2 u).deriv

theorem phi_second_le (u : ℝ) : |(u ^ 2 - 1) * phi u| ≤ 1 := by
  rw [abs_mul, abs_of_pos (phi_pos u)]
  have h : |u ^ 2 - 1| ≤ exp (u ^ 2 / 2) := by
    have h1 : 0 ≤ u ^ 2 / 2 := by positivity
    have h2 := quadratic_le_exp_of_nonneg h1
    rw [abs_le]
    constructor
    · nlinarith
    · nlinarith [sq_nonneg (u ^ 2 / 2 - 1)]
  have e : phi u * exp (u ^ 2 / 2) = 1 := by
    unfold phi; rw [← exp_add]; simp; ring
  calc |u ^ 2 - 1| * phi u ≤ exp (u ^ 2 / 2) * phi u := mul_le_mul_of_nonneg_right h (phi_pos u).le
    _ = 1 := by rw [mul_comm]; exact e

theorem phi_error (c : ℝ) (h0 : 0 < c) (h1 : c ≤ 1) :
    trapezoidal_integral phi 99 (-(3 * c)) (3 * c) ≤ (∫ x in (-(3 * c))..(3 * c), phi x) + 1 / 500 := by
  have hne : -(3 * c) ≠ 3 * c := by intro h; linarith
  have hs : UniqueDiffOn ℝ (Set.uIcc (-(3 * c)) (3 * c)) := by
    rw [uIcc_of_le (by linarith)]; exact uniqueDiffOn_Icc (by linarith)
  have hb : ∀ x, |iteratedDerivWithin 2 phi (Set.uIcc (-(3 * c)) (3 * c)) x| ≤ 1 := by
    intro x
    by_cases hx : x ∈ (Set.uIcc (-(3 * c)) (3 * c))
    · rw [iteratedDerivWithin_eq_iteratedDeriv hs phi_contDiff.contDiffAt hx, phi_second]
      exact phi_second_le x
    · rw [iteratedDerivWithin_succ, derivWithin_zero_of_notMem_closure (by
        rw [show closure (Set.uIcc (-(3 * c)) (3 * c)) = Set.uIcc (-(3 * c)) (3 * c) from isClosed_Icc.closure_eq]
        exact hx)]
      simp
  have := trapezoidal_error_le_of_c2 phi_contDiff.contDiffOn hb (N := 99) (by norm_num)
  have h2 := (abs_le.mp this).2
  unfold trapezoidal_error at h2
  rw [show 3 * c - -(3 * c) = 6 * c by ring, abs_of_pos (by linarith)] at h2
  have h3 : c ^ 3 ≤ 1 := pow_le_one₀ h0.le h1
  have : (6 * c) ^ 3 * 1 / (12 * ((99 : ℕ) : ℝ) ^ 2) ≤ 1 / 500 := by
    rw [mul_pow]; norm_num; linarith
  linarith

theorem phi_integrable : Integrable phi := by
  have := integrable_exp_neg_mul_sq (b := 1 / 2) (by norm_num)
  exact this

theorem phi_integral : ∫ x, phi x = √(2 * π) := by
  have := integral_gaussian (1 / 2)
  rw [show π / (1 / 2) = 2 * π by ring] at this
  exact this

theorem phi_anti {u v : ℝ} (h : u ^ 2 ≤ v ^ 2) : phi v ≤ phi u := by
  unfold phi; rw [exp_le_exp]; linarith

theorem phi_tail : 1 / 500 ≤ phi (7 / 2) := by
  unfold phi
  have h1 : exp 1 < 2.7182818286 := exp_one_lt_d9
  have h2 : exp 6 < 410 := by
    have : exp 6 = exp 1 ^ 6 := by rw [← exp_nat_mul]; norm_num
    rw [this]
    calc exp 1 ^ 6 < 2.7182818286 ^ 6 := pow_lt_pow_left₀ h1 (exp_pos _).le (by norm_num)
      _ < 410 := by norm_num
  have h3 : 7 / 8 ≤ exp (-(1 / 8)) := by
    have := add_one_le_exp (-(1 / 8) : ℝ); linarith
  have h4 : 1 / 410 ≤ exp (-6) := by
    rw [exp_neg, one_div]; exact inv_anti₀ (exp_pos _) h2.le
  have e : exp (-(1 / 2) * (7 / 2) ^ 2) = exp (-6) * exp (-(1 / 8)) := by
    rw [← exp_add]; norm_num
  rw [e]
  calc (1 : ℝ) / 500 ≤ 1 / 410 * (7 / 8) := by norm_num
    _ ≤ exp (-6) * exp (-(1 / 8)) := mul_le_mul h4 h3 (by norm_num) (exp_pos _).le

theorem phi_central (c : ℝ) (h0 : 0 < c) (h1 : c ≤ 1) :
    (∫ x in (-(3 * c))..(3 * c), phi x) + 1 / 500 ≤ √(2 * π) := by
  have ii : ∀ a b : ℝ, IntervalIntegrable phi volume a b := fun a b => phi_continuous.intervalIntegrable a b
  have e : ∫ x in (-(7 / 2) : ℝ)..(7 / 2), phi x =
      (∫ x in (-(7 / 2) : ℝ)..(-(3 * c)), phi x) + (∫ x in (-(3 * c))..(3 * c), phi x) + ∫ x in (3 * c)..(7 / 2), phi x := by
    rw [integral_add_adjacent_intervals (ii _ _) (ii _ _), integral_add_adjacent_intervals (ii _ _) (ii _ _)]
  have b1 : (7 / 2 - 3 * c) * phi (7 / 2) ≤ ∫ x in (3 * c)..(7 / 2), phi x := by
    have := integral_mono_on (a := 3 * c) (b := 7 / 2) (by linarith) (f := fun _ => phi (7 / 2)) (g := phi)
      (by simp) (ii _ _) (fun x hx => phi_anti (by nlinarith [hx.1, hx.2]))
    simpa using this
  have b2 : (7 / 2 - 3 * c) * phi (7 / 2) ≤ ∫ x in (-(7 / 2) : ℝ)..(-(3 * c)), phi x := by
    have := integral_mono_on (a := -(7 / 2)) (b := -(3 * c)) (by linarith) (f := fun _ => phi (7 / 2)) (g := phi)
      (by simp) (ii _ _) (fun x hx => phi_anti (by nlinarith [hx.1, hx.2]))
    rw [intervalIntegral.integral_const, smul_eq_mul] at this
    linarith
  have tot : ∫ x in (-(7 / 2) : ℝ)..(7 / 2), phi x ≤ √(2 * π) := by
    rw [← phi_integral, integral_of_le (by norm_num)]
    exact setIntegral_le_integral phi_integrable (Filter.Eventually.of_forall fun x => (phi_pos x).le)
  have := phi_tail
  nlinarith

/-- The 99-interval trapezoid rule for the Gaussian over `[-3c, 3c]`, `0 < c ≤ 1`, is at most `√(2π)`. -/
theorem phi_trapezoid_le (c : ℝ) (h0 : 0 < c) (h1 : c ≤ 1) :
    trapezoidal_integral phi 99 (-(3 * c)) (3 * c) ≤ √(2 * π) :=
  (phi_error c h0 h1).trans (phi_central c h0 h1)

/-! ## Trapezoid sums over `range` -/

theorem trapzR_range (f x : ℕ → ℝ) (k n : ℕ) :
    trapzR ((List.range' k (n + 1)).map f) ((List.range' k (n + 1)).map x) =
      ∑ i ∈ Finset.range n, (x (k + i + 1) - x (k + i)) * (f (k + i) + f (k + i + 1)) / 2 := by
  induction n generalizing k with
  | zero => simp [trapzR, List.range']
  | succ n ih =>
    rw [Finset.sum_range_succ']
    have := ih (k + 1)
    rw [List.range'_succ, List.map_cons, List.map_cons] at this
    rw [List.range'_succ, List.range'_succ, List.map_cons, List.map_cons, List.map_cons, List.map_cons, trapzR,
      this, add_comm]
    congr 1
    refine Finset.sum_congr rfl fun i _ => ?_
    rw [show k + 1 + i + 1 = k + (i + 1) + 1 by ring, show k + 1 + i = k + (i + 1) by ring]

theorem trapzR_range' (f x : ℕ → ℝ) (n : ℕ) :
    trapzR ((List.range (n + 1)).map f) ((List.range (n + 1)).map x) =
      ∑ i ∈ Finset.range n, (x (i + 1) - x i) * (f i + f (i + 1)) / 2 := by
  rw [List.range_eq_range', trapzR_range]; simp

theorem trapzR_mono (f g x : ℕ → ℝ) (n : ℕ) (hx : ∀ i, x i ≤ x (i + 1)) (h : ∀ i, f i ≤ g i) :
    trapzR ((List.range (n + 1)).map f) ((List.range (n + 1)).map x) ≤
      trapzR ((List.range (n + 1)).map g) ((List.range (n + 1)).map x) := by
  rw [trapzR_range', trapzR_range']
  refine Finset.sum_le_sum fun i _ => ?_
  have h1 := h i
  have h2 := h (i + 1)
  have h3 := hx i
  have : (x (i + 1) - x i) * (f i + f (i + 1)) ≤ (x (i + 1) - x i) * (g i + g (i + 1)) :=
    mul_le_mul_of_nonneg_left (by linarith) (by linarith)
  linarith

theorem trapzR_nonneg' (f x : ℕ → ℝ) (n : ℕ) (hx : ∀ i, x i ≤ x (i + 1)) (h : ∀ i, 0 ≤ f i) :
    0 ≤ trapzR ((List.range (n + 1)).map f) ((List.range (n + 1)).map x) := by
  rw [trapzR_range']
  refine Finset.sum_nonneg fun i _ => ?_
  have h1 := h i
  have h2 := h (i + 1)
  have h3 := hx i
  have : 0 ≤ (x (i + 1) - x i) * (f i + f (i + 1)) := mul_nonneg (by linarith) (by linarith)
  linarith

theorem trapzR_smul (f x : ℕ → ℝ) (n : ℕ) (k : ℝ) :
    trapzR ((List.range (n + 1)).map fun i => k * f i) ((List.range (n + 1)).map x) =
      k * trapzR ((List.range (n + 1)).map f) ((List.range (n + 1)).map x) := by
  rw [trapzR_range', trapzR_range', Finset.mul_sum]
  refine Finset.sum_congr rfl fun i _ => ?_
  ring

/-- Sampled at `x i = -3a + i·6a/99` with scale `b ≥ a`, the Gaussian has trapezoid sum at most `b √(2π)`. -/
theorem gauss_trapz_le (a b : ℝ) (ha : 0 < a) (hab : a ≤ b) :
    trapzR ((List.range 100).map fun i : ℕ => phi ((-(3 * a) + i * (6 * a / 99)) / b))
      ((List.range 100).map fun i : ℕ => -(3 * a) + i * (6 * a / 99)) ≤ b * √(2 * π) := by
  have hb : 0 < b := ha.trans_le hab
  have hc0 : 0 < a / b := div_pos ha hb
  have hc1 : a / b ≤ 1 := (div_le_one hb).mpr hab
  have e := sum_trapezoidal_integral_adjacent_intervals (f := phi) (N := 99) (a := -(3 * (a / b)))
    (h := 6 * (a / b) / 99) (by norm_num)
  rw [show -(3 * (a / b)) + ((99 : ℕ) : ℝ) * (6 * (a / b) / 99) = 3 * (a / b) by push_cast; ring] at e
  have h := phi_trapezoid_le (a / b) hc0 hc1
  rw [← e] at h
  refine le_trans (le_of_eq ?_) (mul_le_mul_of_nonneg_left h hb.le)
  rw [trapzR_range' (fun i : ℕ => phi ((-(3 * a) + i * (6 * a / 99)) / b)) (fun i : ℕ => -(3 * a) + i * (6 * a / 99)) 99,
    Finset.mul_sum]
  refine Finset.sum_congr rfl fun i _ => ?_
  rw [trapezoidal_integral_one]
  have p1 : (-(3 * a) + (i : ℝ) * (6 * a / 99)) / b = -(3 * (a / b)) + i * (6 * (a / b) / 99) := by ring
  have p2 : (-(3 * a) + ((i + 1 : ℕ) : ℝ) * (6 * a / 99)) / b = -(3 * (a / b)) + (i + 1) * (6 * (a / b) / 99) := by
    push_cast; ring
  rw [p1, p2]
  push_cast
  field_simp

end Vsm
