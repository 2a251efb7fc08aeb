import Verif.Props.SpotGeom
import Mathlib.Analysis.Convex.SpecificFunctions.Deriv
import Mathlib.Analysis.SpecialFunctions.Trigonometric.Bounds
import Mathlib.Analysis.Real.Pi.Bounds

/-!
# C116, C117: flat radius and umbra of a spot
-/

noncomputable section

namespace Vsm

open Real Spec

theorem capArea_sin (R θ : ℝ) : capArea R θ = π * (2 * R * sin (θ / 2)) ^ 2 := by
  have h : cos θ = 1 - 2 * sin (θ / 2) ^ 2 := by
    have := cos_two_mul (θ / 2)
    rw [show 2 * (θ / 2) = θ by ring] at this
    have h2 := sin_sq_add_cos_sq (θ / 2)
    linarith
  rw [capArea, h]
  ring

/-- **C116** `radius` of a spot is the radius of the flat disk with the area of the spot, NaN for negative areas; on a star of
radius `R` it is the straight distance `2R sin(θ/2)` from the centre of the spot to its edge, `θ` the angular radius. -/
theorem C116_flat_radius (s : StarSpot) (a : ℝ) (ha : s.area = .fin a) :
    (0 ≤ a → ∃ r, s.radius = .fin r ∧ 0 ≤ r ∧ π * r ^ 2 = a) ∧ (a < 0 → s.radius = .nan) ∧
    ∀ R θ, 0 < R → s.angularRadius R = .fin θ → s.radius = .fin (2 * R * sin (θ / 2)) := by
  have hp := pi_pos
  have hr : s.radius = Fl.sqrt (.fin (a / π)) := by rw [StarSpot.radius, ha, Fl.fin_div hp.ne']
  have h1 : 0 ≤ a → s.radius = .fin (√(a / π)) := fun h => by rw [hr, Fl.sqrt_fin (by positivity)]
  refine ⟨fun h => ⟨_, h1 h, sqrt_nonneg _, by rw [sq_sqrt (by positivity)]; field_simp⟩, fun h => ?_, fun R θ hR hθ => ?_⟩
  · rw [hr, Fl.sqrt]
    have : ¬ (0 : ℝ) ≤ a / π := not_le.mpr (div_neg_of_neg_of_pos h hp)
    simp [this]
  · have hne : s.angularRadius R ≠ .nan := by rw [hθ]; simp
    have h2 := (not_congr (C17_angular_radius s R hR).2).mp hne
    rw [not_not] at h2
    obtain ⟨a', e, b0, b1⟩ := h2
    rw [ha, Fl.fin_inj] at e
    subst e
    obtain ⟨θ', e1, e2, e3, -⟩ := (C17_angular_radius s R hR).1 a ha b0 b1
    rw [hθ, Fl.fin_inj] at e1
    subst e1
    rw [h1 b0, Fl.fin_inj, ← e3, capArea_sin, mul_div_cancel_left₀ _ hp.ne']
    exact sqrt_sq (mul_nonneg (by positivity) (sin_nonneg_of_nonneg_of_le_pi (by linarith [e2.1]) (by linarith [e2.2, hp])))

/-- Non-trivial instance of C116: a spot of area `4π`. -/
example (s : StarSpot) (h : s.area = .fin (4 * π)) : s.radius = .fin 2 := by
  obtain ⟨r, h1, h2, h3⟩ := (C116_flat_radius s _ h).1 (by positivity)
  rw [h1, Fl.fin_inj]
  have : r ^ 2 = 4 := mul_left_cancel₀ pi_pos.ne' (by linarith)
  nlinarith

theorem sin_div_ge {x k : ℝ} (h0 : 0 ≤ x) (h1 : x ≤ π) (hk : 1 ≤ k) : sin x / k ≤ sin (x / k) := by
  have hk0 : 0 < k := by linarith
  have hm : x ∈ Set.Icc 0 π := ⟨h0, h1⟩
  have hz : (0 : ℝ) ∈ Set.Icc 0 π := ⟨le_rfl, pi_pos.le⟩
  have ha : 0 ≤ 1 / k := by positivity
  have hb : 0 ≤ 1 - 1 / k := by rw [sub_nonneg, div_le_one hk0]; exact hk
  have := strictConcaveOn_sin_Icc.concaveOn.2 hm hz ha hb (by ring)
  simp only [smul_eq_mul, sin_zero, mul_zero, add_zero] at this
  rw [one_div_mul_eq_div, one_div_mul_eq_div] at this
  exact this

/-- **C117** (partial) The umbra of a spot has at least the share `1/total_area_over_umbra_area` of its area, and at most that
times `1/(1 - θ²/24)²`, `θ` the angular radius of the spot; this factor is near one for small spots and never above 3.
Missing: that the share is exact – refuted by `C117_counterexample`. -/
theorem C117_umbra_share_partial (s : StarSpot) (R a q θ : ℝ) (hR : 0 < R) (ha : s.area = .fin a) (hq : s.ratio = .fin q)
    (hq1 : 1 ≤ q) (hθ : s.angularRadius R = .fin θ) :
    ∃ u, s.umbraRadius R = .fin u ∧ a / q ≤ capArea R u ∧ capArea R u ≤ a / q * (1 / (1 - θ ^ 2 / 24) ^ 2) ∧
      1 / (1 - θ ^ 2 / 24) ^ 2 ≤ 3 := by
  have hp := pi_pos
  have hne : s.angularRadius R ≠ .nan := by rw [hθ]; simp
  have h2 := (not_congr (C17_angular_radius s R hR).2).mp hne
  rw [not_not] at h2
  obtain ⟨a', e, b0, b1⟩ := h2
  rw [ha, Fl.fin_inj] at e
  subst e
  obtain ⟨θ', e1, e2, e3, -⟩ := (C17_angular_radius s R hR).1 a ha b0 b1
  rw [hθ, Fl.fin_inj] at e1
  subst e1
  have hk : 1 ≤ √q := by rw [one_le_sqrt]; exact hq1
  have hk0 : 0 < √q := by linarith
  have hq0 : 0 < q := by linarith
  have hx0 : 0 ≤ θ / 2 := by linarith [e2.1]
  have hx1 : θ / 2 ≤ π := by linarith [e2.2]
  have hsin0 : 0 ≤ sin (θ / 2) := sin_nonneg_of_nonneg_of_le_pi hx0 hx1
  have hpi : θ ^ 2 ≤ 10 := by
    have h3 := pi_lt_d2
    have := e2.1; have := e2.2
    nlinarith
  have hden : 14 / 24 ≤ 1 - θ ^ 2 / 24 := by linarith
  refine ⟨θ / √q, by rw [StarSpot.umbraRadius, hθ, hq, Fl.sqrt_fin hq0.le, Fl.fin_div hk0.ne'], ?_, ?_, ?_⟩
  · rw [← e3, capArea_sin, capArea_sin]
    have h3 := sin_div_ge hx0 hx1 hk
    have h4 : (sin (θ / 2) / √q) ^ 2 ≤ sin (θ / √q / 2) ^ 2 := by
      rw [show θ / √q / 2 = θ / 2 / √q by ring]
      exact pow_le_pow_left₀ (by positivity) h3 2
    rw [div_pow, sq_sqrt hq0.le] at h4
    calc π * (2 * R * sin (θ / 2)) ^ 2 / q = π * (2 * R) ^ 2 * (sin (θ / 2) ^ 2 / q) := by ring
      _ ≤ π * (2 * R) ^ 2 * sin (θ / √q / 2) ^ 2 := mul_le_mul_of_nonneg_left h4 (by positivity)
      _ = _ := by ring
  · rw [← e3, capArea_sin, capArea_sin]
    have h3 : θ / 2 * (1 - θ ^ 2 / 24) ≤ sin (θ / 2) := by
      have h5 := sin_ge_sub_cube hx0
      nlinarith
    have h4 : sin (θ / √q / 2) ≤ θ / √q / 2 := sin_le (by have := e2.1; positivity)
    have h5 : 0 ≤ sin (θ / √q / 2) := sin_nonneg_of_nonneg_of_le_pi (by have := e2.1; positivity) (by
      have : θ / √q ≤ θ := div_le_self e2.1 hk
      linarith [e2.2])
    have h6 : sin (θ / √q / 2) ^ 2 ≤ (θ / 2) ^ 2 / q := by
      have := pow_le_pow_left₀ h5 h4 2
      rw [show θ / √q / 2 = θ / 2 / √q by ring, div_pow, sq_sqrt hq0.le] at this
      rwa [show θ / √q / 2 = θ / 2 / √q by ring]
    have h7 : (θ / 2) ^ 2 ≤ sin (θ / 2) ^ 2 * (1 / (1 - θ ^ 2 / 24) ^ 2) := by
      rw [mul_one_div, le_div_iff₀ (by positivity)]
      have := pow_le_pow_left₀ (mul_nonneg hx0 (by linarith)) h3 2
      rwa [mul_pow] at this
    calc π * (2 * R * sin (θ / √q / 2)) ^ 2 = π * (2 * R) ^ 2 * sin (θ / √q / 2) ^ 2 := by ring
      _ ≤ π * (2 * R) ^ 2 * ((θ / 2) ^ 2 / q) := mul_le_mul_of_nonneg_left h6 (by positivity)
      _ ≤ π * (2 * R) ^ 2 * (sin (θ / 2) ^ 2 * (1 / (1 - θ ^ 2 / 24) ^ 2) / q) := by gcongr
      _ = _ := by ring
  · rw [div_le_iff₀ (by positivity)]
    nlinarith

/-- The full statement of C117 is false of the code: a spot covering half of the star with the ratio 4. -/
theorem C117_counterexample (s : StarSpot) (ha : s.area = .fin (2 * π)) (hq : s.ratio = .fin 4) :
    ∃ u, s.umbraRadius 1 = .fin u ∧ 2 * π / 4 < capArea 1 u := by
  have hp := pi_pos
  obtain ⟨θ, h1, -, -, h2⟩ := (C17_angular_radius s 1 one_pos).1 _ ha (by positivity) (by linarith)
  have h3 : s.angularRadius 1 = .fin (π / 2) := by
    rw [h1, h2 (π / 2) ⟨by linarith, by linarith⟩ (by simp [capArea])]
  have h4 : √(4 : ℝ) = 2 := by rw [show (4 : ℝ) = 2 ^ 2 by norm_num]; exact sqrt_sq (by norm_num)
  refine ⟨π / 4, ?_, ?_⟩
  · rw [StarSpot.umbraRadius, h3, hq, Fl.sqrt_fin (by norm_num), h4, Fl.fin_div (by norm_num), Fl.fin_inj]
    ring
  · rw [capArea, cos_pi_div_four]
    have h5 : √(2 : ℝ) < 3 / 2 := by rw [sqrt_lt' (by norm_num)]; norm_num
    nlinarith

/-- Non-trivial instance of C117: a spot of area 1 and ratio 5 on a star of radius 1. -/
example (s : StarSpot) (ha : s.area = .fin 1) (hq : s.ratio = .fin 5) :
    ∃ u, s.umbraRadius 1 = .fin u ∧ 1 / 5 ≤ capArea 1 u ∧ capArea 1 u ≤ 3 / 5 := by
  obtain ⟨θ, h1, -⟩ := (C17_angular_radius s 1 one_pos).1 _ ha zero_le_one (by nlinarith [pi_gt_three])
  obtain ⟨u, e1, e2, e3, e4⟩ := C117_umbra_share_partial s 1 1 5 θ one_pos ha hq (by norm_num) h1
  exact ⟨u, e1, e2, by linarith⟩

end Vsm
