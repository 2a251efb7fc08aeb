import Verif.Props.Granulation
import Mathlib.Probability.Distributions.Gaussian.Real
import Mathlib.Analysis.Real.Pi.Bounds

/-!
# C118, C119: mean, size, memory and period of the granulation coverage
-/

noncomputable section

namespace Vsm

open Real MeasureTheory ProbabilityTheory

/-- Cutting off at 0 and 1. -/
def Spec.clip (x : ℝ) : ℝ := max 0 (min x 1)

open Spec

theorem clip_lipschitz (x y : ℝ) : |clip x - clip y| ≤ |x - y| := by
  unfold clip
  refine (abs_max_sub_max_le_abs _ _ 0 |>.trans_eq' ?_).trans (abs_min_sub_min_le_max x 1 y 1 |>.trans_eq ?_)
  · rw [max_comm 0, max_comm 0]
  · simp

theorem clip_continuous : Continuous clip := by unfold clip; fun_prop

theorem clip_mem (x : ℝ) : 0 ≤ clip x ∧ clip x ≤ 1 :=
  ⟨le_max_left _ _, max_le zero_le_one (min_le_right _ _)⟩

theorem clip_self {x : ℝ} (h0 : 0 ≤ x) (h1 : x ≤ 1) : clip x = x := by
  unfold clip; rw [min_eq_left h1, max_eq_right h0]

/-- What is cut off on one side below a half is not less than on the other. -/
theorem clip_pair {m : ℝ} (hm : m ≤ 1 / 2) (x : ℝ) : 2 * m ≤ clip x + clip (2 * m - x) := by
  unfold clip
  rcases le_total x 1 with a | a <;> rcases le_total 0 x with b | b <;> rcases le_total (2 * m - x) 1 with c | c <;>
    rcases le_total 0 (2 * m - x) with d | d <;>
    simp only [min_eq_left a, min_eq_right a, min_eq_left c, min_eq_right c, max_eq_left b, max_eq_right b, max_eq_left d,
      max_eq_right d, max_eq_right zero_le_one] <;> linarith

theorem clip_one_sub (x : ℝ) : clip (1 - x) = 1 - clip x := by
  unfold clip
  rcases le_total x 1 with a | a <;> rcases le_total 0 x with b | b
  · rw [min_eq_left a, max_eq_right b, min_eq_left (by linarith), max_eq_right (by linarith)]
  · rw [min_eq_left a, max_eq_left b, min_eq_right (by linarith), max_eq_right zero_le_one]; ring
  · rw [min_eq_right a, max_eq_right zero_le_one, min_eq_left (by linarith), max_eq_left (by linarith)]; ring
  · linarith

variable {v : NNReal}

theorem clip_integrable (m : ℝ) (f : ℝ → ℝ) (hf : Continuous f) : Integrable (fun x => clip (f x)) (gaussianReal m v) := by
  refine Integrable.of_bound (C := 1) (clip_continuous.comp hf).aestronglyMeasurable (Filter.Eventually.of_forall fun x => ?_)
  rw [norm_eq_abs, abs_of_nonneg (clip_mem _).1]
  exact (clip_mem _).2

theorem clip_mean_reflect (m : ℝ) : ∫ x, clip (2 * m - x) ∂gaussianReal m v = ∫ x, clip x ∂gaussianReal m v := by
  have h := gaussianReal_map_const_sub (μ := m) (v := v) (2 * m)
  rw [show 2 * m - m = m by ring] at h
  conv_rhs => rw [← h]
  rw [integral_map (by fun_prop) clip_continuous.aestronglyMeasurable]

theorem clip_mean_gt {m : ℝ} (hv : v ≠ 0) (hm : m < 1 / 2) : m < ∫ x, clip x ∂gaussianReal m v := by
  have i1 : Integrable (fun x => clip x) (gaussianReal m v) := clip_integrable m _ continuous_id
  have i2 : Integrable (fun x => clip (2 * m - x)) (gaussianReal m v) := clip_integrable m _ (by fun_prop)
  have hi : Integrable (fun x => clip x + clip (2 * m - x)) (gaussianReal m v) := i1.add i2
  have h1 : 0 < ∫ x, (clip x + clip (2 * m - x) - 2 * m) ∂gaussianReal m v := by
    rw [integral_pos_iff_support_of_nonneg (fun x => sub_nonneg.mpr (clip_pair hm.le x))]
    · refine lt_of_lt_of_le ?_ (measure_mono (s := Set.Ioi (1 + 2 * |m|)) fun x hx => ?_)
      · rw [pos_iff_ne_zero]
        intro h
        have := gaussianReal_absolutelyContinuous' m hv h
        simp at this
      · have hx : 1 + 2 * |m| < x := hx
        have ha := le_abs_self m
        have hb := abs_nonneg m
        have e1 : clip x = 1 := by unfold clip; rw [min_eq_right (by linarith), max_eq_right zero_le_one]
        have e2 : clip (2 * m - x) = 0 := by unfold clip; rw [min_eq_left (by linarith), max_eq_left (by linarith)]
        rw [Function.mem_support, e1, e2]
        intro h
        linarith
    · exact hi.sub (integrable_const _)
  rw [integral_sub hi (integrable_const _), integral_add i1 i2, clip_mean_reflect] at h1
  simp only [integral_const, probReal_univ, smul_eq_mul, one_mul] at h1
  linarith

theorem clip_mean_flip (m : ℝ) : ∫ x, clip x ∂gaussianReal (1 - m) v = 1 - ∫ x, clip x ∂gaussianReal m v := by
  rw [← gaussianReal_map_const_sub (μ := m) (v := v) 1, integral_map (by fun_prop) clip_continuous.aestronglyMeasurable]
  simp only [clip_one_sub]
  have i1 : Integrable (fun x => clip x) (gaussianReal m v) := clip_integrable m _ continuous_id
  rw [integral_sub (integrable_const _) i1]
  simp

theorem getCoverage_clip (g : Granulation) {n : ℕ} (X : Fin n → ℝ) (i : Fin n) :
    g.getCoverage (fun i => .fin (X i)) i = .fin (clip (X i)) := by
  unfold Granulation.getCoverage
  rcases saveCast_spec (.fin (X i)) with ⟨h, -⟩ | ⟨x, h, -, -, h2⟩
  · simp at h
  · rw [h, h2 _ rfl]; rfl

theorem kernel_zero_lag (scale period x : ℝ) : Granulation.kernel scale period x x = scale / (√2 * period) := by
  rw [kernel_eq]
  simp
  ring

/-- **C118** (partial) If the sample at a time is normal with the mean and the variance that the Gaussian process has there, then
`get_coverage` has on average a value within `σ` of `mean_coverage`, and the root mean square deviation from `mean_coverage` is at most
`σ`, where `σ² = amplitude/(√2 period)`; for `mean_coverage = 1/2` the average is exact.  For any other `mean_coverage` and positive
amplitude it is not: below a half the average is larger, above it is smaller.
Missing: that the average is `mean_coverage` – refuted here – and that the deviation is given by `amplitude` alone – refuted by
`C118_counterexample`. -/
theorem C118_mean_coverage_partial (g : Granulation) (hs : 0 ≤ g.scale) (hp : 0 < g.period) {Ω : Type*} [MeasurableSpace Ω]
    (P : Measure Ω) {n : ℕ} (t : Fin n → ℝ) (X : Ω → Fin n → ℝ) (i : Fin n) (hX : Measurable fun ω => X ω i)
    (hl : P.map (fun ω => X ω i) = gaussianReal g.mean (g.cov t i i).toNNReal) :
    ∃ c : Ω → ℝ, (∀ ω, g.getCoverage (fun i => .fin (X ω i)) i = .fin (c ω)) ∧
      (0 ≤ g.mean → g.mean ≤ 1 → |∫ ω, c ω ∂P - g.mean| ≤ √(g.scale / (√2 * g.period)) ∧
        √(∫ ω, (c ω - g.mean) ^ 2 ∂P) ≤ √(g.scale / (√2 * g.period))) ∧
      (g.mean = 1 / 2 → ∫ ω, c ω ∂P = 1 / 2) ∧
      (0 < g.scale → (g.mean < 1 / 2 → g.mean < ∫ ω, c ω ∂P) ∧ (1 / 2 < g.mean → ∫ ω, c ω ∂P < g.mean)) := by
  have hv : g.cov t i i = g.scale / (√2 * g.period) := kernel_zero_lag _ _ _
  have hσ : 0 ≤ g.scale / (√2 * g.period) := by positivity
  rw [hv] at hl
  set v : NNReal := (g.scale / (√2 * g.period)).toNNReal with hvd
  have hvr : (v : ℝ) = g.scale / (√2 * g.period) := Real.coe_toNNReal _ hσ
  have hint (f : ℝ → ℝ) (hf : Continuous f) : ∫ ω, f (X ω i) ∂P = ∫ x, f x ∂gaussianReal g.mean v := by
    rw [← hl, integral_map hX.aemeasurable hf.aestronglyMeasurable]
  refine ⟨fun ω => clip (X ω i), fun ω => getCoverage_clip g _ _, fun h0 h1 => ?_, fun h => ?_, fun h => ?_⟩
  · rw [hint clip clip_continuous]
    have e : ∫ ω, (clip (X ω i) - g.mean) ^ 2 ∂P = ∫ x, (clip x - g.mean) ^ 2 ∂gaussianReal g.mean v :=
      hint (fun x => (clip x - g.mean) ^ 2) (by have := clip_continuous; fun_prop)
    rw [e]
    have hi2 : Integrable (fun x => (x - g.mean) ^ 2) (gaussianReal g.mean v) := by
      have h2 : MemLp (fun x : ℝ => x - g.mean) 2 (gaussianReal g.mean v) := (memLp_id_gaussianReal' 2 (by simp)).sub (memLp_const _)
      exact h2.integrable_sq
    have hvar : ∫ x, (x - g.mean) ^ 2 ∂gaussianReal g.mean v = v := by
      have := variance_fun_id_gaussianReal (μ := g.mean) (v := v)
      rw [variance_eq_integral (by fun_prop), integral_id_gaussianReal] at this
      exact this
    have hpt (x : ℝ) : (clip x - g.mean) ^ 2 ≤ (x - g.mean) ^ 2 := by
      have := clip_lipschitz x g.mean
      rw [clip_self h0 h1] at this
      exact sq_le_sq.mpr this
    have hi3 : Integrable (fun x => (clip x - g.mean) ^ 2) (gaussianReal g.mean v) :=
      hi2.mono' (by have := clip_continuous; fun_prop) (Filter.Eventually.of_forall fun x => by
        rw [norm_eq_abs, abs_of_nonneg (sq_nonneg _)]; exact hpt x)
    have hle : ∫ x, (clip x - g.mean) ^ 2 ∂gaussianReal g.mean v ≤ v := by
      rw [← hvar]; exact integral_mono hi3 hi2 hpt
    rw [hvr] at hle
    refine ⟨?_, sqrt_le_sqrt hle⟩
    have hi1 : Integrable (fun x => clip x) (gaussianReal g.mean v) := clip_integrable _ _ continuous_id
    set I := ∫ x, clip x ∂gaussianReal g.mean v with hI
    have hexp : ∫ x, (clip x - g.mean) ^ 2 ∂gaussianReal g.mean v = ∫ x, (clip x - I) ^ 2 ∂gaussianReal g.mean v + (I - g.mean) ^ 2 := by
      have hc : Integrable (fun x => (clip x - I) ^ 2) (gaussianReal g.mean v) := by
        have : (fun x => (clip x - I) ^ 2) = fun x => (clip x - g.mean) ^ 2 + (2 * (g.mean - I) * clip x + (I ^ 2 - g.mean ^ 2)) := by
          funext x; ring
        rw [this]
        exact hi3.add ((hi1.const_mul _).add (integrable_const _))
      have : (fun x => (clip x - g.mean) ^ 2) = fun x => (clip x - I) ^ 2 + (2 * (I - g.mean) * clip x + (g.mean ^ 2 - I ^ 2)) := by
        funext x; ring
      have hd : Integrable (fun x => 2 * (I - g.mean) * clip x + (g.mean ^ 2 - I ^ 2)) (gaussianReal g.mean v) :=
        (hi1.const_mul _).add (integrable_const _)
      rw [this, integral_add hc hd, integral_add (hi1.const_mul _) (integrable_const _),
        integral_const_mul, ← hI]
      simp
      ring
    have hnn : 0 ≤ ∫ x, (clip x - I) ^ 2 ∂gaussianReal g.mean v := integral_nonneg fun x => sq_nonneg _
    apply abs_le_sqrt
    linarith
  · show ∫ ω, clip (X ω i) ∂P = _
    rw [hint clip clip_continuous, h]
    have := clip_mean_flip (v := v) (1 / 2)
    rw [show (1 : ℝ) - 1 / 2 = 1 / 2 by norm_num] at this
    linarith
  · have hv0 : v ≠ 0 := by
      rw [← NNReal.coe_ne_zero, hvr]; positivity
    refine ⟨fun hm => ?_, fun hm => ?_⟩
    · show _ < ∫ ω, clip (X ω i) ∂P
      rw [hint clip clip_continuous]
      exact clip_mean_gt hv0 hm
    · show ∫ ω, clip (X ω i) ∂P < _
      rw [hint clip clip_continuous]
      have h1 := clip_mean_flip (v := v) g.mean
      have h2 := clip_mean_gt (m := 1 - g.mean) hv0 (by linarith)
      linarith

/-- The full statement of C118 is false of the code: the average of the coverage is `mean_coverage` only for `mean_coverage = 1/2`,
and the same amplitude makes the variance of the process four times smaller when the period is four times longer. -/
theorem C118_counterexample :
    (∀ (g : Granulation), 0 < g.scale → 0 < g.period → g.mean ≠ 1 / 2 → ∀ {n : ℕ} (t : Fin n → ℝ) (i : Fin n),
      ∫ x, (clip x) ∂gaussianReal g.mean (g.cov t i i).toNNReal ≠ g.mean) ∧
    ∀ (m s d : ℝ) {n : ℕ} (t : Fin n → ℝ) (i : Fin n),
      (⟨m, s, 4, d⟩ : Granulation).cov t i i = (⟨m, s, 1, d⟩ : Granulation).cov t i i / 4 := by
  refine ⟨fun g hs hp hm n t i => ?_, fun m s d n t i => ?_⟩
  · obtain ⟨c, h1, -, -, h2⟩ := C118_mean_coverage_partial g hs.le hp (gaussianReal g.mean (g.cov t i i).toNNReal) t
      (fun x _ => x) i measurable_id Measure.map_id
    have hc : c = clip := by
      funext x
      have := h1 x
      rw [getCoverage_clip, Fl.fin_inj] at this
      exact this.symm
    rw [hc] at h2
    rcases lt_or_gt_of_ne hm with h | h
    · exact ((h2 hs).1 h).ne'
    · exact ((h2 hs).2 h).ne
  · unfold Granulation.cov
    simp only [kernel_zero_lag]
    ring

/-- Non-trivial instance of C118: 20 % coverage of amplitude 0.01 and period 5 h. -/
example (P : Measure ℝ) (hP : P = gaussianReal 0.2 (0.01 / (√2 * 5)).toNNReal) :
    0.2 < ∫ x, clip x ∂P ∧ ∫ x, clip x ∂P ≤ 0.24 := by
  have hv : (⟨0.2, 0.01, 5, 300⟩ : Granulation).cov (n := 1) (fun _ => 0) 0 0 = 0.01 / (√2 * 5) := kernel_zero_lag _ _ _
  obtain ⟨c, h1, h2, -, h3⟩ := C118_mean_coverage_partial ⟨0.2, 0.01, 5, 300⟩ (by norm_num) (by norm_num) P (n := 1) (fun _ => 0)
    (fun x _ => x) 0 measurable_id (by rw [hv, hP]; exact Measure.map_id)
  have hc : c = clip := by
    funext x
    have := h1 x
    rw [getCoverage_clip, Fl.fin_inj] at this
    exact this.symm
  rw [hc] at h2 h3
  refine ⟨(h3 (by norm_num)).1 (by norm_num), ?_⟩
  have h4 := (h2 (by norm_num) (by norm_num)).1
  have h5 : √((0.01 : ℝ) / (√2 * 5)) ≤ 0.04 := by
    rw [sqrt_le_left (by norm_num), div_le_iff₀ (by positivity)]
    have : (1.4 : ℝ) ≤ √2 := by apply le_sqrt_of_sq_le; norm_num
    linarith
  have h6 := (abs_le.mp (h4.trans h5)).2
  norm_num at h6 ⊢
  linarith

/-- **C119** (partial) The covariance of the coverage at two times forgets: it is at most `√2` times the variance, times
`exp(-τ/(√2 period))` for the lag `τ`; it vanishes exactly at the lags `√2 π period (k + 3/4)`, so it changes sign twice in
`2√2 π` periods.
Missing: that it does so twice per period – refuted by `C119_counterexample`. -/
theorem C119_memory_partial (scale period : ℝ) (hs : 0 < scale) (hp : 0 < period) :
    (∀ x y, |Granulation.kernel scale period x y| ≤
      √2 * Granulation.kernel scale period x x * exp (-(|x - y| / (√2 * period)))) ∧
    ∀ x τ, 0 ≤ τ → (Granulation.kernel scale period x (x + τ) = 0 ↔ ∃ k : ℕ, τ = √2 * π * period * (k + 3 / 4)) := by
  have h2 : (0 : ℝ) < √2 := by positivity
  have hs2 : √2 * √2 = (2 : ℝ) := mul_self_sqrt (by norm_num)
  refine ⟨fun x y => ?_, fun x τ hτ => ?_⟩
  · rw [kernel_zero_lag]
    unfold Granulation.kernel
    simp only
    rw [abs_mul, abs_of_nonneg (by positivity), show √2 * (scale / (√2 * period)) = scale * (1 / period) by field_simp,
      show -(1 / period) * |x - y| / √2 = -(|x - y| / (√2 * period)) by field_simp]
    exact mul_le_of_le_one_right (by positivity) (abs_cos_le_one _)
  · unfold Granulation.kernel
    simp only
    rw [show |x - (x + τ)| = τ by rw [sub_add_cancel_left, abs_neg, abs_of_nonneg hτ]]
    have hpos : scale * (1 / period) * exp (-(1 / period) * τ / √2) ≠ 0 := by positivity
    rw [mul_eq_zero, or_iff_right hpos, cos_eq_zero_iff]
    have hp0 := pi_pos
    constructor
    · rintro ⟨k, hk⟩
      have e : τ = √2 * period * ((2 * k + 1) * π / 2 + π / 4) := by
        have : 1 / period * τ / √2 = (2 * k + 1) * π / 2 + π / 4 := by linarith
        rw [← this]; field_simp
      have hk0 : 0 ≤ k := by
        by_contra hc
        have : (k : ℝ) ≤ -1 := by exact_mod_cast (by omega : k ≤ -1)
        have : (2 * k + 1) * π / 2 + π / 4 < 0 := by nlinarith
        have : τ < 0 := by rw [e]; exact mul_neg_of_pos_of_neg (by positivity) this
        linarith
      refine ⟨k.toNat, ?_⟩
      rw [e, show ((k.toNat : ℕ) : ℝ) = (k : ℝ) by exact_mod_cast Int.toNat_of_nonneg hk0]
      ring
    · rintro ⟨k, rfl⟩
      refine ⟨k, ?_⟩
      push_cast
      field_simp
      ring

/-- The full statement of C119 is false of the code: within three whole periods the covariance does not change sign. -/
theorem C119_counterexample (scale period : ℝ) (hs : 0 < scale) (hp : 0 < period) (x τ : ℝ) (h0 : 0 ≤ τ) (h1 : τ ≤ 3 * period) :
    0 < Granulation.kernel scale period x (x + τ) := by
  unfold Granulation.kernel
  simp only
  rw [show |x - (x + τ)| = τ by rw [sub_add_cancel_left, abs_neg, abs_of_nonneg h0]]
  have hp0 := pi_gt_three
  have h2 : 1 / period * τ / √2 ≤ 9 / 4 := by
    have h3 : (4 / 3 : ℝ) ≤ √2 := by apply le_sqrt_of_sq_le; norm_num
    rw [div_le_iff₀ (by positivity), one_div_mul_eq_div, div_le_iff₀ hp]
    nlinarith
  have h3 : 0 ≤ 1 / period * τ / √2 := by positivity
  have : 0 < cos (1 / period * τ / √2 - π / 4) := cos_pos_of_mem_Ioo ⟨by linarith, by linarith⟩
  positivity

/-- Non-trivial instance of C119. -/
example : Granulation.kernel 1 5 0 (√2 * π * 5 * (3 / 4)) = 0 := by
  have := ((C119_memory_partial 1 5 one_pos (by norm_num)).2 0 (√2 * π * 5 * (3 / 4)) (by positivity)).mpr ⟨0, by norm_num⟩
  rwa [zero_add] at this

end Vsm
