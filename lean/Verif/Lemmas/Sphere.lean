import Verif.Spec
import Verif.Model.Helpers

/-!
# Spherical trigonometry used by several properties
-/

noncomputable section

namespace Vsm

open Real Spec

/-- The expression `mu` of the code is an inner product. -/
theorem inner_unitVec (a b c d : ℝ) :
    inner ℝ (unitVec a b) (unitVec c d) = sin a * sin c + cos a * cos c * cos (b - d) := by
  simp only [unitVec, PiLp.inner_apply, Fin.sum_univ_three]
  simp [cos_sub]
  ring

theorem norm_unitVec (a b : ℝ) : ‖unitVec a b‖ = 1 := by
  have h : inner ℝ (unitVec a b) (unitVec a b) = (1 : ℝ) := by
    rw [inner_unitVec]
    have := sin_sq_add_cos_sq a
    simp
    nlinarith
  rw [real_inner_self_eq_norm_sq] at h
  nlinarith [norm_nonneg (unitVec a b)]

theorem cosExpr_mem (a b c d : ℝ) :
    -1 ≤ sin a * sin c + cos a * cos c * cos (b - d) ∧
      sin a * sin c + cos a * cos c * cos (b - d) ≤ 1 := by
  have h := abs_real_inner_le_norm (unitVec a b) (unitVec c d)
  rw [norm_unitVec, norm_unitVec, inner_unitVec, one_mul] at h
  exact abs_le.mp h

theorem cosExpr_eq_one_iff (a b c d : ℝ) :
    sin a * sin c + cos a * cos c * cos (b - d) = 1 ↔ unitVec a b = unitVec c d := by
  rw [← inner_unitVec]
  exact inner_eq_one_iff_of_norm_eq_one (norm_unitVec a b) (norm_unitVec c d)

theorem greatCircle_eq (a b c d : ℝ) :
    greatCircle a b c d = arccos (sin a * sin c + cos a * cos c * cos (b - d)) := by
  rw [greatCircle, InnerProductGeometry.angle, norm_unitVec, norm_unitVec, inner_unitVec]
  simp

theorem angleBetween_eq (a b c d : ℝ) : Helpers.angleBetween a b c d = .fin (greatCircle a b c d) := by
  rw [Helpers.angleBetween, Fl.arccos_fin (cosExpr_mem a b c d).1 (cosExpr_mem a b c d).2, greatCircle_eq]

theorem greatCircle_eq_zero_iff (a b c d : ℝ) :
    greatCircle a b c d = 0 ↔ unitVec a b = unitVec c d := by
  rw [greatCircle_eq, arccos_eq_zero, ← cosExpr_eq_one_iff]
  constructor
  · intro h; exact le_antisymm (cosExpr_mem a b c d).2 h
  · intro h; exact h.ge

/-- Haversine identity. -/
theorem haversine_arg (lat0 lon0 lat lon : ℝ) :
    sin (0.5 * (lat0 - lat)) ^ 2 + cos lat * cos lat0 * sin (0.5 * (lon0 - lon)) ^ 2
      = (1 - (sin lat0 * sin lat + cos lat0 * cos lat * cos (lon0 - lon))) / 2 := by
  have h1 : cos (lat0 - lat) = 1 - 2 * sin (0.5 * (lat0 - lat)) ^ 2 := by
    have := cos_two_mul (0.5 * (lat0 - lat))
    have h2 := sin_sq_add_cos_sq (0.5 * (lat0 - lat))
    rw [show 2 * (0.5 * (lat0 - lat)) = lat0 - lat by ring] at this
    rw [this]; linarith
  have h3 : cos (lon0 - lon) = 1 - 2 * sin (0.5 * (lon0 - lon)) ^ 2 := by
    have := cos_two_mul (0.5 * (lon0 - lon))
    have h2 := sin_sq_add_cos_sq (0.5 * (lon0 - lon))
    rw [show 2 * (0.5 * (lon0 - lon)) = lon0 - lon by ring] at this
    rw [this]; linarith
  rw [h3]
  rw [cos_sub] at h1
  linear_combination (1 / 2) * h1

/-- `2 arcsin √((1-x)/2) = arccos x` on `[-1,1]`. -/
theorem two_arcsin_sqrt {x : ℝ} (h1 : -1 ≤ x) (h2 : x ≤ 1) :
    2 * arcsin (√((1 - x) / 2)) = arccos x := by
  have hnn : 0 ≤ (1 - x) / 2 := by linarith
  have h0 : 0 ≤ arcsin (√((1 - x) / 2)) := arcsin_nonneg.mpr (sqrt_nonneg _)
  have hpi : arcsin (√((1 - x) / 2)) ≤ π / 2 := arcsin_le_pi_div_two _
  have hc : cos (2 * arcsin (√((1 - x) / 2))) = x := by
    rw [cos_two_mul, cos_arcsin, sq_sqrt, sq_sqrt hnn]
    · ring
    · rw [sq_sqrt hnn]; linarith
  rw [← hc, arccos_cos (by linarith) (by linarith), hc]

theorem haversine_eq (lat0 lon0 lat lon : ℝ) :
    Helpers.haversine lat0 lon0 lat lon = greatCircle lat0 lon0 lat lon := by
  rw [Helpers.haversine, haversine_arg, greatCircle_eq]
  exact two_arcsin_sqrt (cosExpr_mem _ _ _ _).1 (cosExpr_mem _ _ _ _).2

/-- Two coordinate pairs with latitudes strictly between the poles name the same point iff the latitudes
agree and the longitudes agree modulo a full turn. -/
theorem unitVec_eq_iff {a b c d : ℝ} (ha : a ∈ Set.Ioo (-(π / 2)) (π / 2)) (hc : c ∈ Set.Icc (-(π / 2)) (π / 2)) :
    unitVec a b = unitVec c d ↔ a = c ∧ ∃ k : ℤ, b = d + k * (2 * π) := by
  constructor
  · intro h
    have h2 : sin a = sin c := by simpa [unitVec] using congrArg (fun v : E3 => v 2) h
    have hac : a = c := injOn_sin ⟨ha.1.le, ha.2.le⟩ hc h2
    subst hac
    have hcos : 0 < cos a := cos_pos_of_mem_Ioo ha
    have h0 : cos a * cos b = cos a * cos d := by simpa [unitVec] using congrArg (fun v : E3 => v 0) h
    have h1 : cos a * sin b = cos a * sin d := by simpa [unitVec] using congrArg (fun v : E3 => v 1) h
    refine ⟨rfl, ?_⟩
    have hb := mul_left_cancel₀ hcos.ne' h0
    have hs := mul_left_cancel₀ hcos.ne' h1
    have : (b : Real.Angle) = (d : Real.Angle) := Real.Angle.cos_sin_inj hb hs
    obtain ⟨k, hk⟩ := Real.Angle.angle_eq_iff_two_pi_dvd_sub.mp this
    exact ⟨k, by linarith⟩
  · rintro ⟨rfl, k, rfl⟩
    simp [unitVec, cos_add_int_mul_two_pi, sin_add_int_mul_two_pi]

end Vsm
