import Verif.Lemmas.SolidAngle
import Verif.Lemmas.Sphere
import Mathlib.MeasureTheory.Integral.Prod
import Mathlib.MeasureTheory.Integral.IntervalIntegral.Periodic
import Mathlib.MeasureTheory.Function.L1Space.Integrable

/-!
# Integration over the sphere and sums over cells
-/

noncomputable section

namespace Vsm

open Real MeasureTheory Set

/-- Integral over the unit sphere in latitude `φ` and longitude `l`. -/
def Spec.sphereInt (g : ℝ → ℝ → ℝ) : ℝ := ∫ l in (-π)..π, ∫ φ in (-(π / 2))..(π / 2), g φ l * cos φ

/-- Sums over cells approximate integrals. -/
theorem cell_sum {X ι : Type} [MeasurableSpace X] [Fintype ι] (σ : Measure X) [IsFiniteMeasure σ] (C : ι → Set X)
    (hC : ∀ p, MeasurableSet (C p)) (hd : Pairwise fun p q => Disjoint (C p) (C q)) (g e : X → ℝ) (hg : Integrable g σ)
    (he : Integrable e σ) (he0 : ∀ x, 0 ≤ e x) (v : ι → ℝ) (hv : ∀ p, ∀ x ∈ C p, |v p - g x| ≤ e x) (M : ℝ)
    (hM : ∀ x, |g x| ≤ M) :
    |∑ p, σ.real (C p) * v p - ∫ x, g x ∂σ| ≤ ∫ x, e x ∂σ + M * (σ.real univ - ∑ p, σ.real (C p)) := by
  classical
  set U : Set X := ⋃ p, C p with hU
  have hUm : MeasurableSet U := MeasurableSet.iUnion hC
  have h1 : ∫ x, g x ∂σ = ∑ p, ∫ x in C p, g x ∂σ + ∫ x in Uᶜ, g x ∂σ := by
    rw [← integral_add_compl hUm hg, hU, integral_iUnion_fintype hC hd (fun p => hg.integrableOn)]
  have h2 : ∫ x, e x ∂σ = ∑ p, ∫ x in C p, e x ∂σ + ∫ x in Uᶜ, e x ∂σ := by
    rw [← integral_add_compl hUm he, hU, integral_iUnion_fintype hC hd (fun p => he.integrableOn)]
  have h3 : σ.real Uᶜ = σ.real univ - ∑ p, σ.real (C p) := by
    rw [measureReal_compl hUm, hU]
    congr 1
    exact measureReal_iUnion_fintype hd hC
  have h4 : |∫ x in Uᶜ, g x ∂σ| ≤ M * σ.real Uᶜ := by
    have := norm_setIntegral_le_of_norm_le_const (μ := σ) (s := Uᶜ) (f := g) (C := M) (measure_lt_top _ _)
      (fun x _ => hM x)
    simpa [Real.norm_eq_abs] using this
  have h5 : 0 ≤ ∫ x in Uᶜ, e x ∂σ := integral_nonneg fun x => he0 x
  have h6 : ∀ p, |σ.real (C p) * v p - ∫ x in C p, g x ∂σ| ≤ ∫ x in C p, e x ∂σ := by
    intro p
    have : σ.real (C p) * v p - ∫ x in C p, g x ∂σ = ∫ x in C p, (v p - g x) ∂σ := by
      rw [integral_sub (integrable_const _) hg.integrableOn, setIntegral_const, smul_eq_mul]
    rw [this, ← Real.norm_eq_abs]
    refine norm_integral_le_of_norm_le he.integrableOn ?_
    filter_upwards [ae_restrict_mem (hC p)] with x hx
    rw [Real.norm_eq_abs]; exact hv p x hx
  have h7 : |∑ p, (σ.real (C p) * v p - ∫ x in C p, g x ∂σ)| ≤ ∑ p, ∫ x in C p, e x ∂σ :=
    (Finset.abs_sum_le_sum_abs _ _).trans (Finset.sum_le_sum fun p _ => h6 p)
  rw [Finset.sum_sub_distrib] at h7
  rw [h1, h2, ← h3]
  rw [abs_le] at *
  constructor <;> linarith [h7.1, h7.2, h4.1, h4.2]

/-! ### The sphere as a measure space of coordinates -/

/-- Latitudes weighted with `cos`. -/
def rowM : Measure ℝ := (volume.restrict (Ioc (-(π / 2)) (π / 2))).withDensity fun φ => ENNReal.ofReal (cos φ)

/-- Longitude and latitude, longitudes counted from `a`. -/
def sphM (a : ℝ) : Measure (ℝ × ℝ) := (volume.restrict (Ioc a (a + 2 * π))).prod rowM

theorem rowM_apply {s : Set ℝ} (hs : MeasurableSet s) :
    rowM s = ENNReal.ofReal (∫ φ in s ∩ Ioc (-(π / 2)) (π / 2), cos φ) := by
  rw [rowM, withDensity_apply _ hs, Measure.restrict_restrict hs, ofReal_integral_eq_lintegral_ofReal]
  · exact (continuous_cos.integrableOn_Icc (a := -(π / 2)) (b := π / 2)).mono_set
      (inter_subset_right.trans Ioc_subset_Icc_self)
  · filter_upwards [ae_restrict_mem (hs.inter measurableSet_Ioc)] with φ hφ
    exact cos_nonneg_of_mem_Icc (Ioc_subset_Icc_self hφ.2)

theorem rowM_univ : rowM univ = ENNReal.ofReal 2 := by
  have hp := pi_pos
  rw [rowM_apply MeasurableSet.univ, univ_inter, ← intervalIntegral.integral_of_le (by linarith), integral_cos]
  simp; norm_num

instance : IsFiniteMeasure rowM := ⟨by rw [rowM_univ]; exact ENNReal.ofReal_lt_top⟩

instance (a : ℝ) : IsFiniteMeasure (sphM a) := by
  unfold sphM
  have : IsFiniteMeasure (volume.restrict (Ioc a (a + 2 * π))) := by
    constructor; rw [Measure.restrict_apply_univ]; exact measure_Ioc_lt_top
  infer_instance

theorem sphM_real_univ (a : ℝ) : (sphM a).real univ = 4 * π := by
  have hp := pi_pos
  rw [measureReal_def, ← univ_prod_univ, sphM, Measure.prod_prod, rowM_univ, Measure.restrict_apply_univ, Real.volume_Ioc,
    ENNReal.toReal_mul, ENNReal.toReal_ofReal (by linarith), ENNReal.toReal_ofReal (by norm_num)]
  ring

theorem rowM_integral (f : ℝ → ℝ) : ∫ φ, f φ ∂rowM = ∫ φ in (-(π / 2))..(π / 2), f φ * cos φ := by
  have hp := pi_pos
  rw [rowM, integral_withDensity_eq_integral_toReal_smul (by fun_prop) (by simp),
    intervalIntegral.integral_of_le (by linarith)]
  refine setIntegral_congr_fun measurableSet_Ioc fun φ hφ => ?_
  simp only [smul_eq_mul]
  rw [ENNReal.toReal_ofReal (cos_nonneg_of_mem_Icc (Ioc_subset_Icc_self hφ)), mul_comm]

theorem sphM_integral (a : ℝ) (g : ℝ × ℝ → ℝ) (hg : Integrable g (sphM a)) :
    ∫ x, g x ∂sphM a = ∫ l in a..(a + 2 * π), ∫ φ in (-(π / 2))..(π / 2), g (l, φ) * cos φ := by
  have hp := pi_pos
  rw [sphM, integral_prod _ hg, intervalIntegral.integral_of_le (by linarith)]
  simp only [rowM_integral]

/-- Integrals of functions of the point do not depend on where longitudes are counted from. -/
theorem sphM_sphereInt (a : ℝ) (g : ℝ → ℝ → ℝ) (hg : Integrable (fun x : ℝ × ℝ => g x.2 x.1) (sphM a))
    (hper : ∀ φ l, g φ (l + 2 * π) = g φ l) : ∫ x, g x.2 x.1 ∂sphM a = Spec.sphereInt g := by
  rw [sphM_integral a _ hg, Spec.sphereInt]
  have : Function.Periodic (fun l => ∫ φ in (-(π / 2))..(π / 2), g φ l * cos φ) (2 * π) := by
    intro l; simp only [hper]
  have h := this.intervalIntegral_add_eq a (-π)
  rw [h]; congr 1; ring

theorem sphM_integrable (a : ℝ) (g : ℝ × ℝ → ℝ) (hm : Measurable g) (M : ℝ) (hM : ∀ x, |g x| ≤ M) :
    Integrable g (sphM a) :=
  Integrable.of_bound hm.aestronglyMeasurable M (Filter.Eventually.of_forall hM)

/-- Functions of the distance from a point. -/
theorem zonal_integral (h : ℝ → ℝ) (hm : Measurable h) (M : ℝ) (h0 : ∀ x, 0 ≤ h x) (hM : ∀ x, h x ≤ M) (φ0 l0 : ℝ) :
    Spec.sphereInt (fun φ l => h (sin φ0 * sin φ + cos φ0 * cos φ * cos (l0 - l))) =
      2 * π * ∫ φ in (-(π / 2))..(π / 2), h (sin φ) * cos φ := by
  have hp := pi_pos
  have habs : ∀ x, |h x| ≤ M := fun x => by rw [abs_of_nonneg (h0 x)]; exact hM x
  set G : ℝ → ℝ → ℝ := fun φ l => h (sin φ * sin φ0 + cos φ * cos φ0 * cos l) with hG
  have hGm : Measurable fun x : ℝ × ℝ => G x.2 x.1 := hm.comp (by fun_prop)
  have hGi := sphM_integrable (-π) _ hGm M (fun x => habs _)
  have e1 : Spec.sphereInt (fun φ l => h (sin φ0 * sin φ + cos φ0 * cos φ * cos (l0 - l))) = Spec.sphereInt G := by
    have hG' : ∀ φ l, h (sin φ0 * sin φ + cos φ0 * cos φ * cos (l0 - l)) = G φ (l - l0) := by
      intro φ l
      rw [hG, ← cos_neg (l0 - l), neg_sub]
      simp only; congr 1; ring
    have hper : Function.Periodic (fun l => ∫ φ in (-(π / 2))..(π / 2), G φ l * cos φ) (2 * π) := by
      intro l; simp only [hG, cos_add_two_pi]
    rw [Spec.sphereInt, Spec.sphereInt]
    simp only [hG']
    rw [intervalIntegral.integral_comp_sub_right (fun l => ∫ φ in (-(π / 2))..(π / 2), G φ l * cos φ) l0]
    have := hper.intervalIntegral_add_eq (-π - l0) (-π)
    rw [show -π - l0 + 2 * π = π - l0 by ring, show -π + 2 * π = π by ring] at this
    exact this
  rw [e1, ← sphM_sphereInt (-π) G hGi (fun φ l => by simp only [hG, cos_add_two_pi])]
  rw [integral_eq_lintegral_of_nonneg_ae (Filter.Eventually.of_forall fun x => h0 _) hGm.aestronglyMeasurable, sphM,
    lintegral_prod _ (by fun_prop)]
  have inner : ∀ F : ℝ → ℝ, Measurable F → ∫⁻ φ, ENNReal.ofReal (F φ) ∂rowM =
      ∫⁻ φ in Ioo (-(π / 2)) (π / 2), ENNReal.ofReal (cos φ) * ENNReal.ofReal (F φ) := by
    intro F hF
    rw [rowM, lintegral_withDensity_eq_lintegral_mul _ (by fun_prop) (by fun_prop), setLIntegral_congr Ioo_ae_eq_Ioc]
    rfl
  have e2 : ∀ l : ℝ, ∫⁻ φ, ENNReal.ofReal (h (sin φ * sin φ0 + cos φ * cos φ0 * cos l)) ∂rowM = ∫⁻ φ in Ioo (-(π / 2)) (π / 2),
      ENNReal.ofReal (cos φ) * ENNReal.ofReal (h (sin φ * sin φ0 + cos φ * cos φ0 * cos l)) :=
    fun l => inner _ (hm.comp (by fun_prop))
  simp only [e2]
  have hz := zonal_lintegral (fun x => ENNReal.ofReal (h x)) (by fun_prop) φ0
  rw [show -π + 2 * π = π by ring, ← setLIntegral_congr (Ioo_ae_eq_Ioc (a := -π) (b := π)), hz, ENNReal.toReal_mul,
    ENNReal.toReal_ofReal (by linarith), ← inner (fun φ => h (sin φ)) (hm.comp measurable_sin),
    ← integral_eq_lintegral_of_nonneg_ae (Filter.Eventually.of_forall fun x => h0 _)
      (hm.comp measurable_sin).aestronglyMeasurable, rowM_integral]

end Vsm
