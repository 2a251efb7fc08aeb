import Mathlib.Analysis.SpecialFunctions.PolarCoord
import Mathlib.Analysis.SpecialFunctions.Integrals.Basic
import Mathlib.Analysis.Complex.Isometry
import Mathlib.MeasureTheory.Measure.Haar.InnerProductSpace

/-!
# Solid angle in latitude–longitude coordinates

Spherical coordinates from two applications of Mathlib's polar coordinates, and the solid angle of a spherical cap with
any centre.
-/

noncomputable section

namespace Vsm

open Real MeasureTheory Set ENNReal

/-- Polar coordinates as an iterated integral, angle outside. -/
theorem lintegral_polar (f : ℝ × ℝ → ℝ≥0∞) (hf : Measurable f) :
    ∫⁻ p, f p = ∫⁻ φ in Ioo (-π) π, ∫⁻ s in Ioi (0 : ℝ), ENNReal.ofReal s * f (s * cos φ, s * sin φ) := by
  rw [← lintegral_comp_polarCoord_symm]
  have ht : polarCoord.target = Ioi (0 : ℝ) ×ˢ Ioo (-π) π := rfl
  rw [ht, Measure.volume_eq_prod, ← Measure.prod_restrict, lintegral_prod_symm']
  · rfl
  · simp only [polarCoord_symm_apply, smul_eq_mul]
    fun_prop

/-- Spherical coordinates (longitude `l`, distance `s`, latitude `φ`). -/
theorem lintegral_spherical (g : ℝ → ℝ → ℝ → ℝ≥0∞) (hg : Measurable fun p : ℝ × ℝ × ℝ => g p.1 p.2.1 p.2.2) :
    ∫⁻ z, ∫⁻ p : ℝ × ℝ, g p.1 p.2 z =
      ∫⁻ l in Ioo (-π) π, ∫⁻ φ in Ioo (-(π / 2)) (π / 2), ∫⁻ s in Ioi (0 : ℝ),
        ENNReal.ofReal s * (ENNReal.ofReal (s * cos φ) * g (s * cos φ * cos l) (s * cos φ * sin l) (s * sin φ)) := by
  have hp := pi_pos
  have h1 : ∀ z, ∫⁻ p : ℝ × ℝ, g p.1 p.2 z =
      ∫⁻ l in Ioo (-π) π, ∫⁻ r in Ioi (0 : ℝ), ENNReal.ofReal r * g (r * cos l) (r * sin l) z := by
    intro z
    exact lintegral_polar (fun p => g p.1 p.2 z) (hg.comp (by fun_prop : Measurable fun p : ℝ × ℝ => (p.1, p.2, z)))
  simp only [h1]
  have hm3 : Measurable fun q : (ℝ × ℝ) × ℝ => ENNReal.ofReal q.2 * g (q.2 * cos q.1.2) (q.2 * sin q.1.2) q.1.1 := by
    refine Measurable.mul (by fun_prop) ?_
    exact hg.comp (by fun_prop : Measurable fun q : (ℝ × ℝ) × ℝ => (q.2 * cos q.1.2, q.2 * sin q.1.2, q.1.1))
  rw [lintegral_lintegral_swap (by
    exact (Measurable.lintegral_prod_right' (ν := volume.restrict (Ioi (0 : ℝ))) hm3).aemeasurable)]
  refine lintegral_congr fun l => ?_
  -- for fixed longitude: the half plane
  set F : ℝ × ℝ → ℝ≥0∞ := (Ioi (0 : ℝ) ×ˢ univ).indicator
    fun q => ENNReal.ofReal q.1 * g (q.1 * cos l) (q.1 * sin l) q.2 with hF
  have hFm : Measurable F := by
    refine Measurable.indicator ?_ (measurableSet_Ioi.prod MeasurableSet.univ)
    refine Measurable.mul (by fun_prop) ?_
    exact hg.comp (by fun_prop : Measurable fun q : ℝ × ℝ => (q.1 * cos l, q.1 * sin l, q.2))
  have h2 : ∫⁻ z, ∫⁻ r in Ioi (0 : ℝ), ENNReal.ofReal r * g (r * cos l) (r * sin l) z = ∫⁻ q, F q := by
    rw [Measure.volume_eq_prod, lintegral_prod_symm' _ hFm]
    refine lintegral_congr fun z => ?_
    rw [← lintegral_indicator measurableSet_Ioi]
    refine lintegral_congr fun r => ?_
    by_cases hr : 0 < r
    · rw [hF, indicator_of_mem (by exact hr), indicator_of_mem (by exact ⟨hr, mem_univ _⟩)]
    · rw [hF, indicator_of_notMem (by exact hr), indicator_of_notMem (fun h => hr h.1)]
  rw [h2, lintegral_polar F hFm]
  -- restrict the angle
  rw [← lintegral_indicator measurableSet_Ioo, ← lintegral_indicator measurableSet_Ioo]
  refine lintegral_congr_ae ?_
  have hne : ∀ a : ℝ, ∀ᵐ φ : ℝ, φ ≠ a := fun a => by
    simp [ae_iff]
  filter_upwards [hne (π / 2), hne (-(π / 2))] with φ n1 n2
  by_cases h : φ ∈ Ioo (-(π / 2)) (π / 2)
  · rw [indicator_of_mem h, indicator_of_mem (show φ ∈ Ioo (-π) π from ⟨by linarith [h.1], by linarith [h.2]⟩)]
    refine setLIntegral_congr_fun measurableSet_Ioi fun s hs => ?_
    have hc : 0 < cos φ := cos_pos_of_mem_Ioo h
    rw [hF, indicator_of_mem (show (s * cos φ, s * sin φ) ∈ Ioi (0 : ℝ) ×ˢ univ from ⟨mul_pos hs hc, mem_univ _⟩)]
  · rw [indicator_of_notMem h]
    by_cases h' : φ ∈ Ioo (-π) π
    · rw [indicator_of_mem h']
      refine (setLIntegral_congr_fun measurableSet_Ioi fun s hs => ?_).trans (lintegral_zero)
      have hc : cos φ ≤ 0 := by
        simp only [mem_Ioo, not_and_or, not_lt] at h
        rcases h with h | h
        · rw [← cos_neg]; exact cos_nonpos_of_pi_div_two_le_of_le (by linarith) (by linarith [h'.1])
        · exact cos_nonpos_of_pi_div_two_le_of_le h (by linarith [h'.2])
      rw [hF, indicator_of_notMem, mul_zero]
      rintro ⟨h1, -⟩
      have : 0 < s * cos φ := h1
      have hs' : 0 < s := hs
      nlinarith
    · rw [indicator_of_notMem h']

/-- Rotations of the plane preserve integrals. -/
theorem lintegral_rotate (f : ℝ × ℝ → ℝ≥0∞) (hf : Measurable f) (a : ℝ) :
    ∫⁻ p : ℝ × ℝ, f (p.1 * cos a - p.2 * sin a, p.1 * sin a + p.2 * cos a) = ∫⁻ p, f p := by
  have hme : MeasurePreserving Complex.measurableEquivRealProd := Complex.volume_preserving_equiv_real_prod
  have hr := (rotation (Circle.exp a)).measurePreserving
  have h1 := hme.lintegral_comp (f := fun p => f (p.1 * cos a - p.2 * sin a, p.1 * sin a + p.2 * cos a))
    (hf.comp (by fun_prop : Measurable fun p : ℝ × ℝ => (p.1 * cos a - p.2 * sin a, p.1 * sin a + p.2 * cos a)))
  have h2 := hme.lintegral_comp hf
  have h3 := hr.lintegral_comp (f := fun z => f (Complex.measurableEquivRealProd z)) (hf.comp hme.measurable)
  rw [← h1, ← h2, ← h3]
  refine lintegral_congr fun z => ?_
  simp only [Complex.measurableEquivRealProd_apply]
  congr 2
  · simp [rotation_apply, Circle.coe_exp, Complex.exp_re, Complex.exp_im, mul_comm]
  · simp [rotation_apply, Circle.coe_exp, Complex.exp_re, Complex.exp_im, mul_comm]

/-- The integral over the sphere, in latitude and longitude, of a function of the cosine of the angular distance from
the point at latitude `φ0` and longitude 0 does not depend on `φ0`. -/
theorem zonal_lintegral (h : ℝ → ℝ≥0∞) (hm : Measurable h) (φ0 : ℝ) :
    ∫⁻ l in Ioo (-π) π, ∫⁻ φ in Ioo (-(π / 2)) (π / 2),
        ENNReal.ofReal (cos φ) * h (sin φ * sin φ0 + cos φ * cos φ0 * cos l) =
      ENNReal.ofReal (2 * π) * ∫⁻ φ in Ioo (-(π / 2)) (π / 2), ENNReal.ofReal (cos φ) * h (sin φ) := by
  have hp := pi_pos
  -- the integrand in space: the open unit ball, weighted with `h` of the direction
  set g : ℝ → ℝ → ℝ → ℝ → ℝ≥0∞ := fun α x y z =>
    if x ^ 2 + y ^ 2 + z ^ 2 < 1 then h ((z * sin α + x * cos α) / √(x ^ 2 + y ^ 2 + z ^ 2)) else 0 with hg
  set c : ℝ≥0∞ := ∫⁻ s in Ioi (0 : ℝ), ENNReal.ofReal s * ENNReal.ofReal s * (if s ^ 2 < 1 then 1 else 0) with hc
  set T : ℝ → ℝ≥0∞ := fun α => ∫⁻ l in Ioo (-π) π, ∫⁻ φ in Ioo (-(π / 2)) (π / 2),
        ENNReal.ofReal (cos φ) * h (sin φ * sin α + cos φ * cos α * cos l) with hT
  have hgm : ∀ α, Measurable fun p : ℝ × ℝ × ℝ => g α p.1 p.2.1 p.2.2 := by
    intro α
    simp only [hg]
    refine Measurable.ite ?_ (hm.comp (by fun_prop)) measurable_const
    exact measurableSet_lt (by fun_prop) measurable_const
  have hcm : Measurable fun s : ℝ => ENNReal.ofReal s * ENNReal.ofReal s * (if s ^ 2 < 1 then (1 : ℝ≥0∞) else 0) := by
    refine Measurable.mul (by fun_prop) (Measurable.ite ?_ measurable_const measurable_const)
    exact measurableSet_lt (by fun_prop) measurable_const
  have hc0 : c ≠ 0 := by
    intro h0
    rw [hc, lintegral_eq_zero_iff hcm] at h0
    have h1 : ∀ᵐ s ∂(volume.restrict (Ioo (0 : ℝ) 1)), False := by
      have := ae_mono (Measure.restrict_mono (Ioo_subset_Ioi_self : Ioo (0 : ℝ) 1 ⊆ Ioi 0) le_rfl) h0
      filter_upwards [this, ae_restrict_mem measurableSet_Ioo] with s h2 h3
      have h4 : s ^ 2 < 1 := by nlinarith [h3.1, h3.2]
      have h5 : ENNReal.ofReal s ≠ 0 := by simpa using h3.1
      simp only [Pi.zero_apply, if_pos h4, mul_one] at h2
      exact (mul_ne_zero h5 h5) h2
    rw [Filter.eventually_false_iff_eq_bot, ae_eq_bot, Measure.restrict_eq_zero] at h1
    simp at h1
  have hct : c ≠ ⊤ := by
    have : c ≤ ∫⁻ s in Ioo (0 : ℝ) 1, 1 := by
      rw [hc, ← lintegral_indicator measurableSet_Ioi, ← lintegral_indicator measurableSet_Ioo]
      refine lintegral_mono fun s => ?_
      by_cases h0 : 0 < s
      · rw [indicator_of_mem (by exact h0)]
        by_cases h1 : s < 1
        · rw [indicator_of_mem (by exact ⟨h0, h1⟩), if_pos (by nlinarith), mul_one]
          have : ENNReal.ofReal s ≤ 1 := by rw [← ENNReal.ofReal_one]; exact ENNReal.ofReal_le_ofReal h1.le
          exact mul_le_one' this this
        · rw [if_neg (by nlinarith), mul_zero]; exact bot_le
      · rw [indicator_of_notMem (by exact h0)]; exact bot_le
    refine ne_top_of_le_ne_top ?_ this
    simp
  have key : ∀ α, ∫⁻ z, ∫⁻ p : ℝ × ℝ, g α p.1 p.2 z = c * T α := by
    intro α
    rw [lintegral_spherical (g α) (hgm α), hT]
    beta_reduce
    rw [← lintegral_const_mul' _ _ hct]
    refine lintegral_congr fun l => ?_
    rw [← lintegral_const_mul' _ _ hct]
    refine setLIntegral_congr_fun measurableSet_Ioo fun φ hφ => ?_
    have hcos : 0 ≤ cos φ := (cos_pos_of_mem_Ioo hφ).le
    rw [hc, ← lintegral_mul_const _ hcm]
    refine setLIntegral_congr_fun measurableSet_Ioi fun s hs => ?_
    have hs : 0 < s := hs
    have e1 : (s * cos φ * cos l) ^ 2 + (s * cos φ * sin l) ^ 2 + (s * sin φ) ^ 2 = s ^ 2 := by
      have h1 := sin_sq_add_cos_sq φ
      have h2 := sin_sq_add_cos_sq l
      have : (s * cos φ * cos l) ^ 2 + (s * cos φ * sin l) ^ 2 + (s * sin φ) ^ 2 =
        s ^ 2 * (cos φ ^ 2 * (sin l ^ 2 + cos l ^ 2) + sin φ ^ 2) := by ring
      rw [this, h2, mul_one, add_comm, h1, mul_one]
    simp only [hg, e1, sqrt_sq hs.le]
    rw [ENNReal.ofReal_mul hs.le]
    have e2 : (s * sin φ * sin α + s * cos φ * cos l * cos α) / s = sin φ * sin α + cos φ * cos α * cos l := by
      field_simp
      try ring
    rw [e2]
    split_ifs
    · ring
    · simp
  have hrot : ∀ α, ∫⁻ z, ∫⁻ p : ℝ × ℝ, g α p.1 p.2 z = ∫⁻ z, ∫⁻ p : ℝ × ℝ, g 0 p.1 p.2 z := by
    intro α
    have hsw : ∀ β, ∫⁻ z, ∫⁻ p : ℝ × ℝ, g β p.1 p.2 z = ∫⁻ y, ∫⁻ q : ℝ × ℝ, g β q.1 y q.2 := by
      intro β
      have m1 : Measurable fun q : (ℝ × ℝ) × ℝ => g β q.1.1 q.1.2 q.2 :=
        (hgm β).comp (by fun_prop : Measurable fun q : (ℝ × ℝ) × ℝ => (q.1.1, q.1.2, q.2))
      have a1 : ∫⁻ z, ∫⁻ p : ℝ × ℝ, g β p.1 p.2 z = ∫⁻ z, ∫⁻ y, ∫⁻ x, g β x y z := by
        refine lintegral_congr fun z => ?_
        rw [Measure.volume_eq_prod, lintegral_prod_symm']
        exact m1.comp (by fun_prop : Measurable fun p : ℝ × ℝ => (p, z))
      have a2 : ∫⁻ y, ∫⁻ q : ℝ × ℝ, g β q.1 y q.2 = ∫⁻ y, ∫⁻ z, ∫⁻ x, g β x y z := by
        refine lintegral_congr fun y => ?_
        rw [Measure.volume_eq_prod, lintegral_prod_symm']
        exact m1.comp (by fun_prop : Measurable fun p : ℝ × ℝ => ((p.1, y), p.2))
      rw [a1, a2, lintegral_lintegral_swap]
      have m2 : Measurable fun q : (ℝ × ℝ) × ℝ => g β q.2 q.1.2 q.1.1 :=
        (hgm β).comp (by fun_prop : Measurable fun q : (ℝ × ℝ) × ℝ => (q.2, q.1.2, q.1.1))
      exact (Measurable.lintegral_prod_right' (ν := volume) m2).aemeasurable
    rw [hsw α, hsw 0]
    refine lintegral_congr fun y => ?_
    rw [← lintegral_rotate (fun q => g 0 q.1 y q.2)
      ((hgm 0).comp (by fun_prop : Measurable fun q : ℝ × ℝ => (q.1, y, q.2))) (-α)]
    refine lintegral_congr fun q => ?_
    have e1 : (q.1 * cos (-α) - q.2 * sin (-α)) ^ 2 + y ^ 2 + (q.1 * sin (-α) + q.2 * cos (-α)) ^ 2 =
        q.1 ^ 2 + y ^ 2 + q.2 ^ 2 := by
      rw [cos_neg, sin_neg]
      have h1 := sin_sq_add_cos_sq α
      linear_combination (q.1 ^ 2 + q.2 ^ 2) * h1
    have e2 : (q.1 * sin (-α) + q.2 * cos (-α)) * sin 0 + (q.1 * cos (-α) - q.2 * sin (-α)) * cos 0 =
        q.2 * sin α + q.1 * cos α := by
      rw [cos_neg, sin_neg, sin_zero, cos_zero]; ring
    simp only [hg, e1, e2]
  have hTT : ∀ α, T α = T 0 := by
    intro α
    have := hrot α
    rw [key, key] at this
    exact (ENNReal.mul_right_inj hc0 hct).mp this
  change T φ0 = _
  rw [hTT φ0, ← hTT (π / 2)]
  simp only [hT, sin_pi_div_two, cos_pi_div_two, mul_one, mul_zero, zero_mul, add_zero, lintegral_const,
    Measure.restrict_apply MeasurableSet.univ, univ_inter, Real.volume_Ioo]
  rw [mul_comm]
  congr 2
  ring

end Vsm
