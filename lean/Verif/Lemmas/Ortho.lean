import Verif.Lemmas.Quadrature
import Verif.Props.Projection
import Mathlib.MeasureTheory.Function.Jacobian
import Mathlib.MeasureTheory.Measure.Lebesgue.VolumeOfBalls

/-!
# The orthographic projection of the sphere

Integrals over the sphere are invariant under rotations; the projected area of a region of the near side is its area in
the projection.
-/

noncomputable section

namespace Vsm

open Real MeasureTheory Set ENNReal

/-- Integral over the unit sphere of a function of the point. -/
def sphereL (H : ℝ → ℝ → ℝ → ℝ≥0∞) : ℝ≥0∞ :=
  ∫⁻ l in Ioo (-π) π, ∫⁻ φ in Ioo (-(π / 2)) (π / 2), ENNReal.ofReal (cos φ) * H (cos φ * cos l) (cos φ * sin l) (sin φ)

/-- Rotations about the second axis preserve integrals over the sphere. -/
theorem sphereL_rotate (H : ℝ → ℝ → ℝ → ℝ≥0∞) (hH : Measurable fun p : ℝ × ℝ × ℝ => H p.1 p.2.1 p.2.2) (α : ℝ) :
    sphereL (fun x y z => H (x * cos α - z * sin α) y (x * sin α + z * cos α)) = sphereL H := by
  have hp := pi_pos
  set ball : (ℝ → ℝ → ℝ → ℝ≥0∞) → ℝ → ℝ → ℝ → ℝ≥0∞ := fun K x y z =>
    if x ^ 2 + y ^ 2 + z ^ 2 < 1 then K (x / √(x ^ 2 + y ^ 2 + z ^ 2)) (y / √(x ^ 2 + y ^ 2 + z ^ 2))
      (z / √(x ^ 2 + y ^ 2 + z ^ 2)) else 0 with hball
  set c : ℝ≥0∞ := ∫⁻ s in Ioi (0 : ℝ), ENNReal.ofReal s * ENNReal.ofReal s * (if s ^ 2 < 1 then 1 else 0) with hc
  have hgm : ∀ K : ℝ → ℝ → ℝ → ℝ≥0∞, (Measurable fun p : ℝ × ℝ × ℝ => K p.1 p.2.1 p.2.2) →
      Measurable fun p : ℝ × ℝ × ℝ => ball K p.1 p.2.1 p.2.2 := by
    intro K hK
    simp only [hball]
    refine Measurable.ite ?_ ?_ measurable_const
    · exact measurableSet_lt (by fun_prop) measurable_const
    · exact hK.comp (by fun_prop : Measurable fun p : ℝ × ℝ × ℝ => (p.1 / √(p.1 ^ 2 + p.2.1 ^ 2 + p.2.2 ^ 2),
        p.2.1 / √(p.1 ^ 2 + p.2.1 ^ 2 + p.2.2 ^ 2), p.2.2 / √(p.1 ^ 2 + p.2.1 ^ 2 + p.2.2 ^ 2)))
  have hcm : Measurable fun s : ℝ => ENNReal.ofReal s * ENNReal.ofReal s * (if s ^ 2 < 1 then (1 : ℝ≥0∞) else 0) := by
    refine Measurable.mul (by fun_prop) (Measurable.ite ?_ measurable_const measurable_const)
    exact measurableSet_lt (by fun_prop) measurable_const
  have hc0 : c ≠ 0 := by
    intro h0
    rw [hc, lintegral_eq_zero_iff hcm] at h0
    have h1 : ∀ᵐ s ∂(volume.restrict (Ioo (0 : ℝ) 1)), False := by
      have := ae_mono (Measure.restrict_mono (Ioo_subset_Ioi_self : Ioo (0 : ℝ) 1 ⊆ Ioi 0) le_rfl) h0
      filter_upwards [this, ae_restrict_mem measurableSet_Ioo] with s h2 h3
      have h4 : s ^ 2 < 1 := by nlinarith [h3.1, h3.2]
      have h5 : ENNReal.ofReal s ≠ 0 := by simpa using h3.1
      simp only [Pi.zero_apply, if_pos h4, mul_one] at h2
      exact (mul_ne_zero h5 h5) h2
    rw [Filter.eventually_false_iff_eq_bot, ae_eq_bot, Measure.restrict_eq_zero] at h1
    simp at h1
  have hct : c ≠ ⊤ := by
    have : c ≤ ∫⁻ s in Ioo (0 : ℝ) 1, 1 := by
      rw [hc, ← lintegral_indicator measurableSet_Ioi, ← lintegral_indicator measurableSet_Ioo]
      refine lintegral_mono fun s => ?_
      by_cases h0 : 0 < s
      · rw [indicator_of_mem (by exact h0)]
        by_cases h1 : s < 1
        · rw [indicator_of_mem (by exact ⟨h0, h1⟩), if_pos (by nlinarith), mul_one]
          have : ENNReal.ofReal s ≤ 1 := by rw [← ENNReal.ofReal_one]; exact ENNReal.ofReal_le_ofReal h1.le
          exact mul_le_one' this this
        · rw [if_neg (by nlinarith), mul_zero]; exact bot_le
      · rw [indicator_of_notMem (by exact h0)]; exact bot_le
    refine ne_top_of_le_ne_top ?_ this
    simp
  have key : ∀ K : ℝ → ℝ → ℝ → ℝ≥0∞, (Measurable fun p : ℝ × ℝ × ℝ => K p.1 p.2.1 p.2.2) →
      ∫⁻ z, ∫⁻ p : ℝ × ℝ, ball K p.1 p.2 z = c * sphereL K := by
    intro K hK
    rw [lintegral_spherical (ball K) (hgm K hK), sphereL]
    rw [← lintegral_const_mul' _ _ hct]
    refine lintegral_congr fun l => ?_
    rw [← lintegral_const_mul' _ _ hct]
    refine setLIntegral_congr_fun measurableSet_Ioo fun φ hφ => ?_
    have hcos : 0 ≤ cos φ := (cos_pos_of_mem_Ioo hφ).le
    rw [hc, ← lintegral_mul_const _ hcm]
    refine setLIntegral_congr_fun measurableSet_Ioi fun s hs => ?_
    have hs : 0 < s := hs
    have e1 : (s * cos φ * cos l) ^ 2 + (s * cos φ * sin l) ^ 2 + (s * sin φ) ^ 2 = s ^ 2 := by
      have h1 := sin_sq_add_cos_sq φ
      have h2 := sin_sq_add_cos_sq l
      have : (s * cos φ * cos l) ^ 2 + (s * cos φ * sin l) ^ 2 + (s * sin φ) ^ 2 =
        s ^ 2 * (cos φ ^ 2 * (sin l ^ 2 + cos l ^ 2) + sin φ ^ 2) := by ring
      rw [this, h2, mul_one, add_comm, h1, mul_one]
    simp only [hball, e1, sqrt_sq hs.le]
    rw [ENNReal.ofReal_mul hs.le]
    rw [show s * cos φ * cos l / s = cos φ * cos l by field_simp, show s * cos φ * sin l / s = cos φ * sin l by field_simp,
      show s * sin φ / s = sin φ by field_simp]
    split_ifs
    · ring
    · simp
  set K : ℝ → ℝ → ℝ → ℝ≥0∞ := fun x y z => H (x * cos α - z * sin α) y (x * sin α + z * cos α) with hK
  have hKm : Measurable fun p : ℝ × ℝ × ℝ => K p.1 p.2.1 p.2.2 :=
    hH.comp (by fun_prop : Measurable fun p : ℝ × ℝ × ℝ => (p.1 * cos α - p.2.2 * sin α, p.2.1, p.1 * sin α + p.2.2 * cos α))
  have hrot : ∫⁻ z, ∫⁻ p : ℝ × ℝ, ball K p.1 p.2 z = ∫⁻ z, ∫⁻ p : ℝ × ℝ, ball H p.1 p.2 z := by
    have hsw : ∀ L : ℝ → ℝ → ℝ → ℝ≥0∞, (Measurable fun p : ℝ × ℝ × ℝ => L p.1 p.2.1 p.2.2) →
        ∫⁻ z, ∫⁻ p : ℝ × ℝ, ball L p.1 p.2 z = ∫⁻ y, ∫⁻ q : ℝ × ℝ, ball L q.1 y q.2 := by
      intro L hL
      have m1 : Measurable fun q : (ℝ × ℝ) × ℝ => ball L q.1.1 q.1.2 q.2 :=
        (hgm L hL).comp (by fun_prop : Measurable fun q : (ℝ × ℝ) × ℝ => (q.1.1, q.1.2, q.2))
      have a1 : ∫⁻ z, ∫⁻ p : ℝ × ℝ, ball L p.1 p.2 z = ∫⁻ z, ∫⁻ y, ∫⁻ x, ball L x y z := by
        refine lintegral_congr fun z => ?_
        rw [Measure.volume_eq_prod, lintegral_prod_symm']
        exact m1.comp (by fun_prop : Measurable fun p : ℝ × ℝ => (p, z))
      have a2 : ∫⁻ y, ∫⁻ q : ℝ × ℝ, ball L q.1 y q.2 = ∫⁻ y, ∫⁻ z, ∫⁻ x, ball L x y z := by
        refine lintegral_congr fun y => ?_
        rw [Measure.volume_eq_prod, lintegral_prod_symm']
        exact m1.comp (by fun_prop : Measurable fun p : ℝ × ℝ => ((p.1, y), p.2))
      rw [a1, a2, lintegral_lintegral_swap]
      have m2 : Measurable fun q : (ℝ × ℝ) × ℝ => ball L q.2 q.1.2 q.1.1 :=
        (hgm L hL).comp (by fun_prop : Measurable fun q : (ℝ × ℝ) × ℝ => (q.2, q.1.2, q.1.1))
      exact (Measurable.lintegral_prod_right' (ν := volume) m2).aemeasurable
    rw [hsw K hKm, hsw H hH]
    refine lintegral_congr fun y => ?_
    rw [← lintegral_rotate (fun q => ball H q.1 y q.2)
      ((hgm H hH).comp (by fun_prop : Measurable fun q : ℝ × ℝ => (q.1, y, q.2))) α]
    refine lintegral_congr fun q => ?_
    have e1 : (q.1 * cos α - q.2 * sin α) ^ 2 + y ^ 2 + (q.1 * sin α + q.2 * cos α) ^ 2 =
        q.1 ^ 2 + y ^ 2 + q.2 ^ 2 := by
      have h1 := sin_sq_add_cos_sq α
      linear_combination (q.1 ^ 2 + q.2 ^ 2) * h1
    simp only [hball, hK, e1]
    congr 2 <;> ring
  rw [key K hKm, key H hH] at hrot
  exact (ENNReal.mul_right_inj hc0 hct).mp hrot

/-- Seen from above the north pole: the projected area. -/
theorem sphereL_pole (f : ℝ × ℝ → ℝ≥0∞) (hf : Measurable f) :
    sphereL (fun x y z => ENNReal.ofReal z * f (x, y)) = ∫⁻ p in {p : ℝ × ℝ | p.1 ^ 2 + p.2 ^ 2 < 1}, f p := by
  have hp := pi_pos
  have hS : MeasurableSet {p : ℝ × ℝ | p.1 ^ 2 + p.2 ^ 2 < 1} := measurableSet_lt (by fun_prop) measurable_const
  rw [← lintegral_indicator hS, lintegral_polar _ (hf.indicator hS), sphereL]
  refine lintegral_congr fun l => ?_
  have himg : cos '' Ioo 0 (π / 2) = Ioo 0 1 := by
    ext x
    constructor
    · rintro ⟨φ, ⟨h1, h2⟩, rfl⟩
      refine ⟨cos_pos_of_mem_Ioo ⟨by linarith, h2⟩, ?_⟩
      rw [← cos_zero]
      exact cos_lt_cos_of_nonneg_of_le_pi le_rfl (by linarith) h1
    · rintro ⟨h1, h2⟩
      refine ⟨arccos x, ⟨arccos_pos.mpr h2, arccos_lt_pi_div_two.mpr h1⟩, cos_arccos (by linarith) h2.le⟩
  have hsub := lintegral_image_eq_lintegral_abs_deriv_mul (s := Ioo 0 (π / 2)) (f := cos) (f' := fun φ => -sin φ)
    measurableSet_Ioo (fun φ _ => (hasDerivAt_cos φ).hasDerivWithinAt)
    (injOn_cos.mono (Ioo_subset_Icc_self.trans (Icc_subset_Icc_right (by linarith))))
    (fun s => ENNReal.ofReal s * f (s * cos l, s * sin l))
  rw [himg] at hsub
  have hR : ∫⁻ s in Ioi (0 : ℝ), ENNReal.ofReal s * ({p : ℝ × ℝ | p.1 ^ 2 + p.2 ^ 2 < 1}.indicator f) (s * cos l, s * sin l) =
      ∫⁻ s in Ioo (0 : ℝ) 1, ENNReal.ofReal s * f (s * cos l, s * sin l) := by
    rw [← lintegral_indicator measurableSet_Ioi, ← lintegral_indicator measurableSet_Ioo]
    refine lintegral_congr fun s => ?_
    have e : (s * cos l) ^ 2 + (s * sin l) ^ 2 = s ^ 2 := by
      have := sin_sq_add_cos_sq l; linear_combination s ^ 2 * this
    by_cases h0 : 0 < s
    · rw [indicator_of_mem (by exact h0)]
      by_cases h1 : s < 1
      · rw [indicator_of_mem (show s ∈ Ioo (0 : ℝ) 1 from ⟨h0, h1⟩), indicator_of_mem]
        simp only [mem_ofPred_eq, e]; nlinarith
      · rw [indicator_of_notMem (show s ∉ Ioo (0 : ℝ) 1 from fun h => h1 h.2), indicator_of_notMem, mul_zero]
        simp only [mem_ofPred_eq, e]; nlinarith
    · rw [indicator_of_notMem (by exact h0), indicator_of_notMem (fun h => h0 h.1)]
  rw [hR, hsub, ← lintegral_indicator measurableSet_Ioo, ← lintegral_indicator measurableSet_Ioo]
  refine lintegral_congr fun φ => ?_
  by_cases h : φ ∈ Ioo 0 (π / 2)
  · rw [indicator_of_mem h, indicator_of_mem (show φ ∈ Ioo (-(π / 2)) (π / 2) from ⟨by linarith [h.1], h.2⟩)]
    have hs : 0 ≤ sin φ := sin_nonneg_of_nonneg_of_le_pi h.1.le (by linarith [h.2])
    rw [abs_neg, abs_of_nonneg hs]
    ring
  · rw [indicator_of_notMem h]
    by_cases h' : φ ∈ Ioo (-(π / 2)) (π / 2)
    · rw [indicator_of_mem h', ENNReal.ofReal_of_nonpos (p := sin φ), zero_mul, mul_zero]
      have h0 : φ ≤ 0 := by by_contra hc; push Not at hc; exact h ⟨hc, h'.2⟩
      exact sin_nonpos_of_nonpos_of_neg_pi_le h0 (by linarith [h'.1])
    · rw [indicator_of_notMem h']

theorem sphereInt_shift (G : ℝ → ℝ → ℝ) (hper : ∀ φ l, G φ (l + 2 * π) = G φ l) (l0 : ℝ) :
    Spec.sphereInt (fun φ l => G φ (l - l0)) = Spec.sphereInt G := by
  have hper : Function.Periodic (fun l => ∫ φ in (-(π / 2))..(π / 2), G φ l * cos φ) (2 * π) := by
    intro l; simp only [hper]
  rw [Spec.sphereInt, Spec.sphereInt]
  rw [intervalIntegral.integral_comp_sub_right (fun l => ∫ φ in (-(π / 2))..(π / 2), G φ l * cos φ) l0]
  have := hper.intervalIntegral_add_eq (-π - l0) (-π)
  rw [show -π - l0 + 2 * π = π - l0 by ring, show -π + 2 * π = π by ring] at this
  exact this

theorem sphereInt_lintegral (G : ℝ → ℝ → ℝ) (hGm : Measurable fun x : ℝ × ℝ => G x.2 x.1) (M : ℝ) (h0 : ∀ φ l, 0 ≤ G φ l)
    (hM : ∀ φ l, G φ l ≤ M) (hper : ∀ φ l, G φ (l + 2 * π) = G φ l) : Spec.sphereInt G =
      (∫⁻ l in Ioo (-π) π, ∫⁻ φ in Ioo (-(π / 2)) (π / 2), ENNReal.ofReal (cos φ) * ENNReal.ofReal (G φ l)).toReal := by
  have hp := pi_pos
  have hGi := sphM_integrable (-π) _ hGm M (fun x => by rw [abs_of_nonneg (h0 _ _)]; exact hM _ _)
  rw [← sphM_sphereInt (-π) G hGi hper]
  rw [integral_eq_lintegral_of_nonneg_ae (Filter.Eventually.of_forall fun x => h0 _ _) hGm.aestronglyMeasurable, sphM,
    lintegral_prod _ hGm.ennreal_ofReal.aemeasurable]
  have inner : ∀ F : ℝ → ℝ, Measurable F → ∫⁻ φ, ENNReal.ofReal (F φ) ∂rowM =
      ∫⁻ φ in Ioo (-(π / 2)) (π / 2), ENNReal.ofReal (cos φ) * ENNReal.ofReal (F φ) := by
    intro F hF
    rw [rowM, lintegral_withDensity_eq_lintegral_mul _ (by fun_prop) (by fun_prop), setLIntegral_congr Ioo_ae_eq_Ioc]
    rfl
  have e2 : ∀ l : ℝ, ∫⁻ φ, ENNReal.ofReal (G φ l) ∂rowM = ∫⁻ φ in Ioo (-(π / 2)) (π / 2),
      ENNReal.ofReal (cos φ) * ENNReal.ofReal (G φ l) :=
    fun l => inner (fun φ => G φ l) (hGm.comp (by fun_prop : Measurable fun φ : ℝ => (l, φ)))
  simp only [e2]
  rw [show -π + 2 * π = π by ring, ← setLIntegral_congr (Ioo_ae_eq_Ioc (a := -π) (b := π))]

/-- Integrals in latitude and longitude, the longitude counted from `l0`, as integrals over the sphere. -/
theorem sphereInt_eq_sphereL (H : ℝ → ℝ → ℝ → ℝ) (hH : Measurable fun p : ℝ × ℝ × ℝ => H p.1 p.2.1 p.2.2) (M : ℝ)
    (h0 : ∀ x y z, 0 ≤ H x y z) (hM : ∀ x y z, H x y z ≤ M) (l0 : ℝ) :
    Spec.sphereInt (fun φ l => H (cos φ * cos (l - l0)) (cos φ * sin (l - l0)) (sin φ)) =
      (sphereL fun x y z => ENNReal.ofReal (H x y z)).toReal := by
  have hper : ∀ φ l : ℝ, H (cos φ * cos (l + 2 * π)) (cos φ * sin (l + 2 * π)) (sin φ) =
      H (cos φ * cos l) (cos φ * sin l) (sin φ) := by
    intro φ l; rw [cos_add_two_pi, sin_add_two_pi]
  rw [sphereInt_shift (fun φ l => H (cos φ * cos l) (cos φ * sin l) (sin φ)) hper l0,
    sphereInt_lintegral (fun φ l => H (cos φ * cos l) (cos φ * sin l) (sin φ))
    (hH.comp (by fun_prop : Measurable fun x : ℝ × ℝ => (cos x.2 * cos x.1, cos x.2 * sin x.1, sin x.2))) M
    (fun φ l => h0 _ _ _) (fun φ l => hM _ _ _) hper, sphereL]

open Classical Spec in
/-- The projected area of a region of the near side is the area of its picture in the orthographic projection. -/
theorem ortho_area (lat0 lon0 : ℝ) (A : Set (ℝ × ℝ)) (hA : MeasurableSet A) :
    sphereInt (fun φ l => if (orthoX lat0 lon0 φ l, orthoY lat0 lon0 φ l) ∈ A then max (cosDist lat0 lon0 φ l) 0 else 0) =
      volume.real (A ∩ {p | p.1 ^ 2 + p.2 ^ 2 < 1}) := by
  set H : ℝ → ℝ → ℝ → ℝ := fun x y z => if (y, cos lat0 * z - sin lat0 * x) ∈ A then
    min (max (sin lat0 * z + cos lat0 * x) 0) 1 else 0 with hH
  have hHm : Measurable fun p : ℝ × ℝ × ℝ => H p.1 p.2.1 p.2.2 := by
    refine Measurable.ite ?_ (by fun_prop) measurable_const
    exact hA.preimage (by fun_prop : Measurable fun p : ℝ × ℝ × ℝ => (p.2.1, cos lat0 * p.2.2 - sin lat0 * p.1))
  have h0 : ∀ x y z, 0 ≤ H x y z := by intro x y z; simp only [hH]; split_ifs <;> positivity
  have h1 : ∀ x y z, H x y z ≤ 1 := by
    intro x y z; simp only [hH]; split_ifs
    · exact min_le_right _ _
    · exact zero_le_one
  have e : sphereInt (fun φ l => if (orthoX lat0 lon0 φ l, orthoY lat0 lon0 φ l) ∈ A then max (cosDist lat0 lon0 φ l) 0 else 0) =
      sphereInt (fun φ l => H (cos φ * cos (l - lon0)) (cos φ * sin (l - lon0)) (sin φ)) := by
    congr 1
    funext φ l
    have hc : cosDist lat0 lon0 φ l = sin lat0 * sin φ + cos lat0 * (cos φ * cos (l - lon0)) := by
      rw [cosDist, inner_unitVec, ← cos_neg (lon0 - l), neg_sub]; ring
    have hle : max (cosDist lat0 lon0 φ l) 0 ≤ 1 := by
      have := (cosExpr_mem lat0 lon0 φ l).2
      rw [cosDist, inner_unitVec]
      exact max_le this zero_le_one
    simp only [hH, ← hc, min_eq_left hle, orthoX, orthoY, mul_assoc]
  rw [e, sphereInt_eq_sphereL H hHm 1 h0 h1 lon0]
  set K : ℝ → ℝ → ℝ → ℝ≥0∞ := fun x y z => ENNReal.ofReal (min z 1) * A.indicator (fun _ => 1) (y, -x) with hK
  have hKm : Measurable fun p : ℝ × ℝ × ℝ => K p.1 p.2.1 p.2.2 := by
    refine Measurable.mul (by fun_prop) ?_
    exact (measurable_const.indicator hA).comp (by fun_prop : Measurable fun p : ℝ × ℝ × ℝ => (p.2.1, -p.1))
  have hrot := sphereL_rotate K hKm (π / 2 - lat0)
  have e2 : (fun x y z => K (x * cos (π / 2 - lat0) - z * sin (π / 2 - lat0)) y
      (x * sin (π / 2 - lat0) + z * cos (π / 2 - lat0))) = fun x y z => ENNReal.ofReal (H x y z) := by
    funext x y z
    simp only [hK, hH, cos_pi_div_two_sub, sin_pi_div_two_sub]
    rw [show -(x * sin lat0 - z * cos lat0) = cos lat0 * z - sin lat0 * x by ring,
      show x * cos lat0 + z * sin lat0 = sin lat0 * z + cos lat0 * x by ring]
    by_cases hm : (y, cos lat0 * z - sin lat0 * x) ∈ A
    · rw [indicator_of_mem hm, if_pos hm, mul_one]
      rcases le_total 0 (sin lat0 * z + cos lat0 * x) with h | h
      · rw [max_eq_left h]
      · rw [max_eq_right h, ENNReal.ofReal_of_nonpos ((min_le_left _ _).trans h)]; simp
    · rw [indicator_of_notMem hm, if_neg hm, mul_zero, ENNReal.ofReal_zero]
  rw [e2] at hrot
  have e3 : sphereL K = sphereL fun x y z => ENNReal.ofReal z * (fun p : ℝ × ℝ => A.indicator (fun _ => 1) (p.2, -p.1)) (x, y) := by
    simp only [sphereL, hK, min_eq_left (sin_le_one _)]
  have hfm : Measurable fun p : ℝ × ℝ => A.indicator (fun _ => (1 : ℝ≥0∞)) (p.2, -p.1) :=
    (measurable_const.indicator hA).comp (by fun_prop : Measurable fun p : ℝ × ℝ => (p.2, -p.1))
  rw [hrot, e3, sphereL_pole _ hfm]
  have hS : MeasurableSet {p : ℝ × ℝ | p.1 ^ 2 + p.2 ^ 2 < 1} := measurableSet_lt (by fun_prop) measurable_const
  rw [← lintegral_indicator hS]
  have e4 := lintegral_rotate ((A ∩ {p | p.1 ^ 2 + p.2 ^ 2 < 1}).indicator fun _ => 1)
    (measurable_const.indicator (hA.inter hS)) (-(π / 2))
  rw [lintegral_indicator (hA.inter hS), setLIntegral_const, one_mul] at e4
  rw [measureReal_def, ← e4]
  congr 1
  refine lintegral_congr fun p => ?_
  have e5 : (p.1 * cos (-(π / 2)) - p.2 * sin (-(π / 2)), p.1 * sin (-(π / 2)) + p.2 * cos (-(π / 2))) = (p.2, -p.1) := by
    rw [cos_neg, sin_neg, cos_pi_div_two, sin_pi_div_two]; simp
  rw [e5]
  by_cases hp : p.1 ^ 2 + p.2 ^ 2 < 1
  · rw [indicator_of_mem (by exact hp)]
    by_cases hm : (p.2, -p.1) ∈ A
    · rw [indicator_of_mem hm, indicator_of_mem]
      refine ⟨hm, ?_⟩
      simp only [mem_ofPred_eq]; linarith
    · rw [indicator_of_notMem hm, indicator_of_notMem (fun h => hm h.1)]
  · rw [indicator_of_notMem (by exact hp), indicator_of_notMem]
    rintro ⟨-, h⟩
    simp only [mem_ofPred_eq] at h
    exact hp (by linarith)

open Spec in
/-- Integrals over the near side, weighted with the projection, are integrals over the orthographic picture. -/
theorem ortho_integral (lat0 lon0 : ℝ) (F : ℝ × ℝ → ℝ) (hF : Measurable F) (hF0 : ∀ p, 0 ≤ F p) (hF1 : ∀ p, F p ≤ 1) :
    sphereInt (fun φ l => max (cosDist lat0 lon0 φ l) 0 * F (orthoX lat0 lon0 φ l, orthoY lat0 lon0 φ l)) =
      ∫ p in {p : ℝ × ℝ | p.1 ^ 2 + p.2 ^ 2 < 1}, F p := by
  set H : ℝ → ℝ → ℝ → ℝ := fun x y z =>
    min (max (sin lat0 * z + cos lat0 * x) 0) 1 * F (y, cos lat0 * z - sin lat0 * x) with hH
  have hHm : Measurable fun p : ℝ × ℝ × ℝ => H p.1 p.2.1 p.2.2 := by
    refine Measurable.mul (by fun_prop) ?_
    exact hF.comp (by fun_prop : Measurable fun p : ℝ × ℝ × ℝ => (p.2.1, cos lat0 * p.2.2 - sin lat0 * p.1))
  have h0 : ∀ x y z, 0 ≤ H x y z := fun x y z => mul_nonneg (by positivity) (hF0 _)
  have h1 : ∀ x y z, H x y z ≤ 1 := fun x y z => mul_le_one₀ (min_le_right _ _) (hF0 _) (hF1 _)
  have e : sphereInt (fun φ l => max (cosDist lat0 lon0 φ l) 0 * F (orthoX lat0 lon0 φ l, orthoY lat0 lon0 φ l)) =
      sphereInt (fun φ l => H (cos φ * cos (l - lon0)) (cos φ * sin (l - lon0)) (sin φ)) := by
    congr 1
    funext φ l
    have hc : cosDist lat0 lon0 φ l = sin lat0 * sin φ + cos lat0 * (cos φ * cos (l - lon0)) := by
      rw [cosDist, inner_unitVec, ← cos_neg (lon0 - l), neg_sub]; ring
    have hle : max (cosDist lat0 lon0 φ l) 0 ≤ 1 := by
      have := (cosExpr_mem lat0 lon0 φ l).2
      rw [cosDist, inner_unitVec]
      exact max_le this zero_le_one
    simp only [hH, ← hc, min_eq_left hle, orthoX, orthoY, mul_assoc]
  rw [e, sphereInt_eq_sphereL H hHm 1 h0 h1 lon0]
  set K : ℝ → ℝ → ℝ → ℝ≥0∞ := fun x y z => ENNReal.ofReal (min z 1) * ENNReal.ofReal (F (y, -x)) with hK
  have hfm : Measurable fun p : ℝ × ℝ => ENNReal.ofReal (F (p.2, -p.1)) :=
    (hF.comp (by fun_prop : Measurable fun p : ℝ × ℝ => (p.2, -p.1))).ennreal_ofReal
  have hKm : Measurable fun p : ℝ × ℝ × ℝ => K p.1 p.2.1 p.2.2 := by
    have k1 : Measurable fun p : ℝ × ℝ × ℝ => ENNReal.ofReal (min p.2.2 1) := by fun_prop
    exact k1.mul <| hfm.comp (by fun_prop : Measurable fun p : ℝ × ℝ × ℝ => (p.1, p.2.1))
  have hrot := sphereL_rotate K hKm (π / 2 - lat0)
  have e2 : (fun x y z => K (x * cos (π / 2 - lat0) - z * sin (π / 2 - lat0)) y
      (x * sin (π / 2 - lat0) + z * cos (π / 2 - lat0))) = fun x y z => ENNReal.ofReal (H x y z) := by
    funext x y z
    simp only [hK, hH, cos_pi_div_two_sub, sin_pi_div_two_sub]
    rw [show -(x * sin lat0 - z * cos lat0) = cos lat0 * z - sin lat0 * x by ring,
      show x * cos lat0 + z * sin lat0 = sin lat0 * z + cos lat0 * x by ring, ENNReal.ofReal_mul (by positivity)]
    congr 1
    rcases le_total 0 (sin lat0 * z + cos lat0 * x) with h | h
    · rw [max_eq_left h]
    · rw [max_eq_right h, ENNReal.ofReal_of_nonpos ((min_le_left _ _).trans h)]; simp
  rw [e2] at hrot
  have e3 : sphereL K = sphereL fun x y z => ENNReal.ofReal z * (fun p : ℝ × ℝ => ENNReal.ofReal (F (p.2, -p.1))) (x, y) := by
    simp only [sphereL, hK, min_eq_left (sin_le_one _)]
  rw [hrot, e3, sphereL_pole _ hfm]
  have hS : MeasurableSet {p : ℝ × ℝ | p.1 ^ 2 + p.2 ^ 2 < 1} := measurableSet_lt (by fun_prop) measurable_const
  rw [integral_eq_lintegral_of_nonneg_ae (Filter.Eventually.of_forall hF0) hF.aestronglyMeasurable]
  rw [← lintegral_indicator hS, ← lintegral_indicator hS]
  rw [← lintegral_rotate ({p : ℝ × ℝ | p.1 ^ 2 + p.2 ^ 2 < 1}.indicator fun p => ENNReal.ofReal (F p))
    (hF.ennreal_ofReal.indicator hS) (-(π / 2))]
  congr 1
  refine lintegral_congr fun p => ?_
  have e5 : (p.1 * cos (-(π / 2)) - p.2 * sin (-(π / 2)), p.1 * sin (-(π / 2)) + p.2 * cos (-(π / 2))) = (p.2, -p.1) := by
    rw [cos_neg, sin_neg, cos_pi_div_two, sin_pi_div_two]; simp
  rw [e5]
  by_cases hp : p.1 ^ 2 + p.2 ^ 2 < 1
  · rw [indicator_of_mem (by exact hp), indicator_of_mem]
    simp only [mem_ofPred_eq]; linarith
  · rw [indicator_of_notMem (by exact hp), indicator_of_notMem]
    intro h
    simp only [mem_ofPred_eq] at h
    exact hp (by linarith)

end Vsm
