import Verif.Model.Star
import Mathlib.MeasureTheory.Integral.IntegralEqImproper
import Mathlib.MeasureTheory.Integral.ExpDecay
import Mathlib.Analysis.SpecialFunctions.Trigonometric.Bounds
import Mathlib.Analysis.SpecialFunctions.ImproperIntegrals

/-!
# C54 – C56: granulation
-/

noncomputable section

namespace Vsm

open Real MeasureTheory Filter Topology

/-! ## C54 -/

theorem saveCast_spec (c : Fl) : c = .nan ∧ Granulation.saveCast c = .nan ∨
    ∃ x, Granulation.saveCast c = .fin x ∧ 0 ≤ x ∧ x ≤ 1 ∧ (∀ y, c = .fin y → x = max 0 (min y 1)) := by
  unfold Granulation.saveCast
  cases c with
  | nan => left; simp
  | ninf => right; exact ⟨0, by simp⟩
  | pinf => right; exact ⟨1, by simp⟩
  | fin y =>
    right
    simp only [Fl.fin_lt]
    by_cases h0 : y < 0
    · rw [if_pos h0]
      refine ⟨0, by simp, le_rfl, by norm_num, ?_⟩
      rintro z hz
      rw [Fl.fin_inj] at hz
      subst hz
      rw [max_eq_left]
      exact (min_le_left _ _).trans h0.le
    · rw [if_neg h0]
      push Not at h0
      simp only [Fl.fin_lt]
      by_cases h1 : 1 < y
      · rw [if_pos h1]
        refine ⟨1, rfl, by norm_num, le_rfl, ?_⟩
        rintro z hz
        rw [Fl.fin_inj] at hz
        subst hz
        rw [min_eq_right h1.le]; norm_num
      · rw [if_neg h1]
        push Not at h1
        refine ⟨y, rfl, h0, h1, ?_⟩
        rintro z hz
        rw [Fl.fin_inj] at hz
        subst hz
        rw [min_eq_left h1, max_eq_right h0]

/-- **C54** Whatever the Gaussian process returns – finite, infinite or NaN – `get_granulation_coverage`
returns one number in `[0,1]` per time; a finite sample is clipped to `[0,1]` and NaN becomes `0`.  It returns
whenever the mean coverage is not zero. -/
theorem C54_coverage_fraction (s : Star) (n : ℕ) (sample : Fin n → Fl) :
    (∀ v, s.granulationCoverage sample = .ok v → ∀ i, ∃ x, v i = .fin x ∧ 0 ≤ x ∧ x ≤ 1) ∧
    (∀ g, s.granulation = some g → g.dteff ≠ 0 → g.mean ≠ 0 → ∃ v, s.granulationCoverage sample = .ok v ∧
      ∀ i, (∀ y, sample i = .fin y → v i = .fin (max 0 (min y 1))) ∧ (sample i = .nan → v i = .fin 0)) := by
  constructor
  · intro v h i
    unfold Star.granulationCoverage at h
    cases hg : s.granulation with
    | none =>
      rw [hg] at h
      simp only [Except.ok.injEq] at h
      subst h
      exact ⟨0, rfl, le_rfl, by norm_num⟩
    | some g =>
      rw [hg] at h
      simp only at h
      by_cases h1 : g.dteff = 0
      · rw [if_pos h1] at h
        simp only [Except.ok.injEq] at h
        subst h
        exact ⟨0, rfl, le_rfl, by norm_num⟩
      rw [if_neg h1] at h
      by_cases h2 : g.mean = 0
      · rw [if_pos h2] at h; cases h
      rw [if_neg h2] at h
      simp only [Except.ok.injEq] at h
      subst h
      unfold Granulation.getCoverage
      rcases saveCast_spec (sample i) with ⟨-, h⟩ | ⟨x, h, h0, h1, -⟩
      · exact ⟨0, by simp [h], le_rfl, by norm_num⟩
      · exact ⟨x, by simp [h], h0, h1⟩
  · intro g hg h1 h2
    unfold Star.granulationCoverage
    rw [hg]
    simp only
    rw [if_neg h1, if_neg h2]
    refine ⟨_, rfl, fun i => ⟨fun y hy => ?_, fun hy => ?_⟩⟩
    · unfold Granulation.getCoverage
      rcases saveCast_spec (sample i) with ⟨h, -⟩ | ⟨x, h, -, -, hx⟩
      · rw [hy] at h; cases h
      · simp [h, hx y hy]
    · unfold Granulation.getCoverage
      rcases saveCast_spec (sample i) with ⟨-, h⟩ | ⟨x, h, -⟩
      · simp [h]
      · rw [hy] at h; simp [Granulation.saveCast] at h

/-- Non-trivial instance of C54: samples `-0.3`, `0.4`, NaN and `+∞`. -/
example (s : Star) (h : s.granulation = some ⟨0.2, 0.1, 5, 200⟩) :
    ∃ v : Fin 4 → Fl, s.granulationCoverage ![.fin (-0.3), .fin 0.4, .nan, .pinf] = .ok v ∧
      v 0 = .fin 0 ∧ v 1 = .fin 0.4 ∧ v 2 = .fin 0 := by
  obtain ⟨v, h1, h2⟩ := (C54_coverage_fraction s 4 ![.fin (-0.3), .fin 0.4, .nan, .pinf]).2 _ h (by norm_num) (by norm_num)
  refine ⟨v, h1, ?_, ?_, (h2 2).2 rfl⟩
  · rw [(h2 0).1 (-0.3) rfl]; norm_num
  · rw [(h2 1).1 0.4 rfl]; norm_num

/-! ## C56 -/

/-- **C56** (partial) `get_granulation_coverage` returns zeros when `dteff` is zero, for every sample, in
particular for a star without granulation.  Missing: the same when mean and amplitude are zero – refuted by
`C56_counterexample`. -/
theorem C56_switched_off_partial (s : Star) (g : Granulation) (hg : s.granulation = some g) (n : ℕ)
    (sample : Fin n → Fl) (h : g.dteff = 0) : s.granulationCoverage sample = .ok fun _ => .fin 0 := by
  unfold Star.granulationCoverage
  rw [hg]
  simp only
  rw [if_pos h]

/-- The full statement of C56 is false of the code: with zero mean and zero amplitude but `dteff ≠ 0` the code
looks up the parameter `amp`, which does not exist, and raises `KeyError`; the same for any amplitude. -/
theorem C56_counterexample (s : Star) (scale period dteff : ℝ) (hd : dteff ≠ 0)
    (hg : s.granulation = some ⟨0, scale, period, dteff⟩) (n : ℕ) (sample : Fin n → Fl) :
    s.granulationCoverage sample = .error .keyError := by
  unfold Star.granulationCoverage
  rw [hg]
  simp [hd]

/-- Non-trivial instance of C56. -/
example (s : Star) (h : s.granulation = some ⟨0.2, 0.1, 5, 0⟩) :
    s.granulationCoverage ![.fin 0.4, .nan] = .ok fun _ => .fin 0 :=
  C56_switched_off_partial s _ h 2 _ rfl

/-! ## C55 -/

/-- The shape of the kernel (spec): `e^{-x} (cos x + sin x)` for the scaled lag `x ≥ 0`. -/
theorem kernel_eq (scale period x y : ℝ) : Granulation.kernel scale period x y =
    scale * (1 / period) / √2 * (exp (-(1 / period / √2 * |x - y|)) *
      (cos (1 / period / √2 * |x - y|) + sin (1 / period / √2 * |x - y|))) := by
  unfold Granulation.kernel
  simp only
  have e1 : 1 / period * |x - y| / √2 = 1 / period / √2 * |x - y| := by ring
  have e2 : -(1 / period) * |x - y| / √2 = -(1 / period / √2 * |x - y|) := by ring
  have e3 : √2 / 2 = 1 / √2 := by
    have : √2 ≠ 0 := by positivity
    have h2 : √2 * √2 = 2 := mul_self_sqrt (by norm_num)
    field_simp
    nlinarith
  rw [e1, e2, cos_sub, cos_pi_div_four, sin_pi_div_four, e3]
  ring

theorem abs_shape_le {x : ℝ} (hx : 0 ≤ x) : |exp (-x) * (cos x + sin x)| ≤ 1 := by
  have h1 : |cos x + sin x| ≤ 1 + x := by
    rw [abs_le]
    have hs : |sin x| ≤ x := by simpa [abs_of_nonneg hx] using abs_sin_le_abs (x := x)
    rw [abs_le] at hs
    constructor
    · linarith [neg_one_le_cos x, hs.1]
    · linarith [cos_le_one x, hs.2]
  have h2 : 1 + x ≤ exp x := by linarith [add_one_le_exp x]
  rw [abs_mul, abs_of_pos (exp_pos _), exp_neg, inv_mul_le_iff₀ (exp_pos x), mul_one]
  exact h1.trans h2

/-- Causal square root of the kernel. -/
def half (a t s : ℝ) : ℝ := (Set.Ioi t).indicator (fun s => exp (-(a * (s - t))) * sin (a * (s - t))) s

/-- Antiderivative of the product of two shifted square roots. -/
def prim (a t t' s : ℝ) : ℝ := exp (-(a * (s - t) + a * (s - t'))) *
  ((cos (a * (s - t) + a * (s - t')) - sin (a * (s - t) + a * (s - t'))) / (8 * a) -
    cos (a * (s - t) - a * (s - t')) / (4 * a))

theorem hasDerivAt_prim {a : ℝ} (ha : 0 < a) (t t' s : ℝ) : HasDerivAt (prim a t t')
    (exp (-(a * (s - t))) * sin (a * (s - t)) * (exp (-(a * (s - t'))) * sin (a * (s - t')))) s := by
  unfold prim
  have hu (t : ℝ) : HasDerivAt (fun s => a * (s - t)) a s := by
    simpa using ((hasDerivAt_id s).sub_const t).const_mul a
  have hp := (hu t).add (hu t')
  have hm := (hu t).sub (hu t')
  have h := (hp.neg.exp).mul (((hp.cos.sub hp.sin).div_const (8 * a)).sub (hm.cos.div_const (4 * a)))
  refine h.congr_deriv ?_
  simp only [Pi.add_apply, Pi.neg_apply, Pi.sub_apply]
  generalize a * (s - t) = x
  generalize a * (s - t') = y
  rw [neg_add, exp_add, cos_add, sin_add, cos_sub]
  field_simp
  ring

theorem half_mul {a t t' : ℝ} (h : t' ≤ t) (s : ℝ) : half a t s * half a t' s =
    (Set.Ioi t).indicator (fun s => exp (-(a * (s - t))) * sin (a * (s - t)) *
      (exp (-(a * (s - t'))) * sin (a * (s - t')))) s := by
  unfold half
  by_cases hs : s ∈ Set.Ioi t
  · rw [Set.indicator_of_mem hs, Set.indicator_of_mem hs,
      Set.indicator_of_mem (show s ∈ Set.Ioi t' from h.trans_lt hs)]
  · rw [Set.indicator_of_notMem hs, Set.indicator_of_notMem hs, zero_mul]

theorem integrableOn_prod {a : ℝ} (ha : 0 < a) {t t' : ℝ} (h : t' ≤ t) :
    IntegrableOn (fun s => exp (-(a * (s - t))) * sin (a * (s - t)) *
      (exp (-(a * (s - t'))) * sin (a * (s - t')))) (Set.Ioi t) := by
  have hI : IntegrableOn (fun s => exp (a * t) * exp (-a * s)) (Set.Ioi t) :=
    (exp_neg_integrableOn_Ioi t ha).const_mul _
  refine hI.mono' (by fun_prop) ?_
  rw [ae_restrict_iff' measurableSet_Ioi]
  filter_upwards with s hs
  have hs : t < s := hs
  rw [norm_mul, norm_mul, norm_mul, norm_of_nonneg (exp_pos _).le, norm_of_nonneg (exp_pos _).le, ← exp_add]
  have e : a * t + -a * s = -(a * (s - t)) := by ring
  rw [e]
  have h1 : ‖sin (a * (s - t))‖ ≤ 1 := abs_sin_le_one _
  have h2 : ‖sin (a * (s - t'))‖ ≤ 1 := abs_sin_le_one _
  have h3 : exp (-(a * (s - t'))) ≤ 1 := exp_le_one_iff.mpr (by nlinarith)
  have h4 := exp_pos (-(a * (s - t)))
  have h5 := exp_pos (-(a * (s - t')))
  calc _ ≤ exp (-(a * (s - t))) * 1 * (1 * 1) := by gcongr
    _ = _ := by ring

theorem integrable_half_mul {a : ℝ} (ha : 0 < a) (t t' : ℝ) : Integrable (fun s => half a t s * half a t' s) := by
  rcases le_total t' t with h | h
  · simp only [half_mul h]
    exact (integrable_indicator_iff measurableSet_Ioi).mpr (integrableOn_prod ha h)
  · simp only [mul_comm (half a t _), half_mul h]
    exact (integrable_indicator_iff measurableSet_Ioi).mpr (integrableOn_prod ha h)

theorem tendsto_prim {a : ℝ} (ha : 0 < a) (t t' : ℝ) : Tendsto (prim a t t') atTop (𝓝 0) := by
  have h1 : Tendsto (fun s => exp (-(a * (s - t) + a * (s - t')))) atTop (𝓝 0) := by
    apply tendsto_exp_atBot.comp
    have : (fun s => -(a * (s - t) + a * (s - t'))) = fun s => -(2 * a) * s + (a * t + a * t') := by
      funext s; ring
    rw [this]
    exact tendsto_atBot_add_const_right _ _ ((tendsto_id).const_mul_atTop_of_neg (by linarith))
  unfold prim
  apply squeeze_zero_norm (a := fun s => exp (-(a * (s - t) + a * (s - t'))) * (2 / (8 * a) + 1 / (4 * a)))
  · intro s
    rw [norm_mul, norm_of_nonneg (exp_pos _).le]
    gcongr
    generalize a * (s - t) = x
    generalize a * (s - t') = y
    rw [Real.norm_eq_abs]
    refine (abs_sub _ _).trans ?_
    rw [abs_div, abs_div, abs_of_pos (by positivity : 0 < 8 * a), abs_of_pos (by positivity : 0 < 4 * a)]
    gcongr
    · refine (abs_sub _ _).trans ?_
      linarith [abs_cos_le_one (x + y), abs_sin_le_one (x + y)]
    · exact abs_cos_le_one _
  · simpa using h1.mul_const (2 / (8 * a) + 1 / (4 * a))

theorem integral_half_mul {a : ℝ} (ha : 0 < a) (t t' : ℝ) : ∫ s, half a t s * half a t' s =
    exp (-(a * |t - t'|)) * (cos (a * |t - t'|) + sin (a * |t - t'|)) / (8 * a) := by
  have key : ∀ t t' : ℝ, t' ≤ t → ∫ s, half a t s * half a t' s =
      exp (-(a * (t - t'))) * (cos (a * (t - t')) + sin (a * (t - t'))) / (8 * a) := by
    intro t t' h
    simp only [half_mul h]
    rw [integral_indicator measurableSet_Ioi,
      integral_Ioi_of_hasDerivAt_of_tendsto' (fun s _ => hasDerivAt_prim ha t t' s) (integrableOn_prod ha h)
        (tendsto_prim ha t t')]
    unfold prim
    simp only [sub_self, mul_zero, zero_add, zero_sub, cos_neg]
    field_simp
    ring
  rcases le_total t' t with h | h
  · rw [key t t' h, abs_of_nonneg (by linarith)]
  · have : ∀ s, half a t s * half a t' s = half a t' s * half a t s := fun s => mul_comm _ _
    simp only [this]
    rw [key t' t h, abs_sub_comm, abs_of_nonneg (by linarith)]

/-- **C55** The granulation kernel is a covariance function: symmetric, stationary (it depends on the lag
only), maximal in absolute value at zero lag, and positive semi-definite for every finite set of times. -/
theorem C55_kernel (scale period : ℝ) (hs : 0 ≤ scale) (hp : 0 < period) :
    (∀ x y, Granulation.kernel scale period x y = Granulation.kernel scale period y x) ∧
    (∀ x y t, Granulation.kernel scale period (x + t) (y + t) = Granulation.kernel scale period x y) ∧
    (∀ x y, |Granulation.kernel scale period x y| ≤ Granulation.kernel scale period x x) ∧
    (∀ (n : ℕ) (t w : Fin n → ℝ), 0 ≤ ∑ i, ∑ j, w i * w j * Granulation.kernel scale period (t i) (t j)) := by
  refine ⟨?_, ?_, ?_, ?_⟩
  · intro x y; simp only [kernel_eq, abs_sub_comm x y]
  · intro x y t; simp only [kernel_eq, add_sub_add_right_eq_sub]
  · intro x y
    rw [kernel_eq, kernel_eq, abs_mul, abs_of_nonneg (by positivity), sub_self, abs_zero, mul_zero, neg_zero,
      exp_zero, cos_zero, sin_zero, add_zero, one_mul]
    apply mul_le_mul_of_nonneg_left _ (by positivity)
    exact abs_shape_le (by positivity)
  · intro n t w
    set a := 1 / period / √2 with ha
    have ha0 : 0 < a := by positivity
    have h1 : ∀ i j, w i * w j * Granulation.kernel scale period (t i) (t j) =
        scale * (1 / period) / √2 * (8 * a) * ∫ s, (w i * half a (t i) s) * (w j * half a (t j) s) := by
      intro i j
      have : ∀ s, (w i * half a (t i) s) * (w j * half a (t j) s) =
          w i * w j * (half a (t i) s * half a (t j) s) := fun s => by ring
      simp only [this]
      rw [integral_const_mul, integral_half_mul ha0, kernel_eq, ← ha]
      field_simp
    have hint : ∀ i j, Integrable (fun s => (w i * half a (t i) s) * (w j * half a (t j) s)) := by
      intro i j
      have : ∀ s, (w i * half a (t i) s) * (w j * half a (t j) s) =
          w i * w j * (half a (t i) s * half a (t j) s) := fun s => by ring
      simp only [this]
      exact (integrable_half_mul ha0 _ _).const_mul _
    simp only [h1, ← Finset.mul_sum]
    apply mul_nonneg (by positivity)
    have h2 : ∑ i, ∑ j, ∫ s, (w i * half a (t i) s) * (w j * half a (t j) s) =
        ∫ s, (∑ i, w i * half a (t i) s) * (∑ j, w j * half a (t j) s) := by
      simp only [Finset.sum_mul_sum]
      rw [integral_finsetSum _ (fun i _ => integrable_finsetSum _ fun j _ => hint i j)]
      refine Finset.sum_congr rfl fun i _ => ?_
      rw [integral_finsetSum _ (fun j _ => hint i j)]
    rw [h2]
    exact integral_nonneg fun s => mul_self_nonneg _

/-- Non-trivial instance of C55: two times with opposite weights. -/
example (d : ℝ) : Granulation.kernel 2 5 0 d ≤ Granulation.kernel 2 5 0 0 :=
  (le_abs_self _).trans ((C55_kernel 2 5 (by norm_num) (by norm_num)).2.2.1 0 d)

end Vsm
