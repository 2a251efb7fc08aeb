import Verif.Model.Helpers
import Verif.Lemmas.CircleArea

/-!
# C13, C14: fraction of a circle inside the unit circle
-/

noncomputable section

namespace Vsm

open Real Spec MeasureTheory

theorem volume_ball_toReal (z : ℂ) {r : ℝ} (hr : 0 ≤ r) : (volume (Metric.ball z r)).toReal = π * r ^ 2 := by
  rw [Complex.volume_ball]
  simp [ENNReal.toReal_ofReal hr]
  ring

theorem overlap_le (z : ℂ) {r : ℝ} (hr : 0 ≤ r) : overlap z r ≤ π * r ^ 2 := by
  rw [← volume_ball_toReal z hr]
  apply ENNReal.toReal_mono _ (measure_mono Set.inter_subset_right)
  exact measure_ball_lt_top.ne

theorem overlap_nonneg (z : ℂ) (r : ℝ) : 0 ≤ overlap z r := ENNReal.toReal_nonneg

theorem overlap_disjoint {z : ℂ} {r : ℝ} (h : 1 + r ≤ ‖z‖) : overlap z r = 0 := by
  have : Disjoint (Metric.ball (0 : ℂ) 1) (Metric.ball z r) := by
    apply Metric.ball_disjoint_ball
    rw [dist_zero_left]; exact h
  rw [overlap, this.inter_eq]; simp

theorem overlap_inside {z : ℂ} {r : ℝ} (hr : 0 ≤ r) (h : ‖z‖ ≤ 1 - r) : overlap z r = π * r ^ 2 := by
  have : Metric.ball z r ⊆ Metric.ball (0 : ℂ) 1 := by
    apply Metric.ball_subset_ball'
    rw [dist_zero_right]; linarith
  rw [overlap, Set.inter_eq_right.mpr this, volume_ball_toReal z hr]

theorem overlap_antitone {z w : ℂ} {r : ℝ} (hr : 0 ≤ r) (h : ‖z‖ ≤ ‖w‖) : overlap w r ≤ overlap z r := by
  unfold overlap
  rw [overlap_norm z, overlap_norm w, volume_overlap_real hr, volume_overlap_real hr]
  apply ENNReal.toReal_mono
  · rw [← volume_overlap_real hr]
    exact (measure_mono Set.inter_subset_left).trans_lt measure_ball_lt_top |>.ne
  · exact volume_lens_antitone (norm_nonneg z) h

theorem norm_mk (x y : ℝ) : ‖(⟨x, y⟩ : ℂ)‖ = √(x ^ 2 + y ^ 2) := by
  rw [Complex.norm_def, Complex.normSq_mk, sq, sq]

theorem seg_nonneg {u R : ℝ} (hR : 0 < R) (h1 : -R ≤ u) (h2 : u ≤ R) :
    0 ≤ R ^ 2 * arccos (u / R) - u * √(R ^ 2 - u ^ 2) := by
  rw [← integral_segment hR h1 h2]
  exact intervalIntegral.integral_nonneg h2 fun x _ => by positivity

/-- What the code computes for `0 < r ≤ 1` is the overlap divided by the area of the small disk. -/
theorem circFraction_eq (x y r : ℝ) (hr : 0 < r) (hr1 : r ≤ 1) :
    Helpers.circFraction (.fin x) (.fin y) (.fin r) = .ok (.fin (overlap ⟨x, y⟩ r / (π * r ^ 2))) := by
  have hn := norm_mk x y
  set d := √(x ^ 2 + y ^ 2) with hd
  have hd0 : 0 ≤ d := sqrt_nonneg _
  have hA : 0 < π * r ^ 2 := by positivity
  have hds : Fl.sqrt (.fin x * .fin x + .fin y * .fin y) = .fin d := by
    rw [Fl.fin_mul, Fl.fin_mul, Fl.fin_add, Fl.sqrt_fin (add_nonneg (mul_self_nonneg _) (mul_self_nonneg _)), hd, sq, sq]
  simp only [Helpers.circFraction, hds, Fl.fin_lt, Fl.fin_add, Fl.fin_sub, Fl.fin_le, not_lt.mpr hr1, if_false]
  by_cases h1 : 1 + r < d
  · rw [if_pos h1, overlap_disjoint (by rw [hn]; exact h1.le), zero_div]
  · rw [if_neg h1]
    by_cases h2 : d ≤ 1 - r
    · rw [if_pos h2, overlap_inside hr.le (by rw [hn]; exact h2), div_self hA.ne']
    · push Not at h1 h2
      have hdp : 0 < d := by linarith
      rw [if_neg (not_le.mpr h2), if_neg (by rw [Fl.fin_inj]; intro h; exact hdp.ne' h.1)]
      have hov : overlap ⟨x, y⟩ r = (volume (lens d r)).toReal := by
        rw [overlap, overlap_norm, hn, volume_overlap_real hr.le]
      have hl := volume_lens hr hdp h2.le (by linarith) h1
      have a1 : (d ^ 2 - r ^ 2 + 1) / (2 * d) ≤ 1 := by rw [div_le_one (by linarith)]; nlinarith
      have a2 : -1 ≤ (d ^ 2 - r ^ 2 + 1) / (2 * d) := by rw [le_div_iff₀ (by linarith)]; nlinarith
      have a3 : (d ^ 2 + r ^ 2 - 1) / (2 * d) ≤ r := by rw [div_le_iff₀ (by linarith)]; nlinarith
      have a4 : -r ≤ (d ^ 2 + r ^ 2 - 1) / (2 * d) := by rw [le_div_iff₀ (by linarith)]; nlinarith
      have hne : 2 * d ≠ 0 := by positivity
      have e1 : (Fl.fin d * Fl.fin d - Fl.fin r * Fl.fin r + Fl.fin 1 * Fl.fin 1) / (Fl.fin 2 * Fl.fin d)
          = .fin ((d ^ 2 - r ^ 2 + 1) / (2 * d)) := by
        simp only [Fl.fin_mul, Fl.fin_sub, Fl.fin_add]
        rw [Fl.fin_div hne]; congr 2; ring
      have e2 : (Fl.fin d * Fl.fin d + Fl.fin r * Fl.fin r - Fl.fin 1 * Fl.fin 1) / (Fl.fin 2 * Fl.fin d)
          = .fin ((d ^ 2 + r ^ 2 - 1) / (2 * d)) := by
        simp only [Fl.fin_mul, Fl.fin_sub, Fl.fin_add]
        rw [Fl.fin_div hne]; congr 2; ring
      rw [e1, e2]
      set d1 := (d ^ 2 - r ^ 2 + 1) / (2 * d) with hd1
      set d2 := (d ^ 2 + r ^ 2 - 1) / (2 * d) with hd2
      have s1 : Helpers.segArea (.fin 1) (.fin d1) = .fin (arccos d1 - d1 * √(1 - d1 ^ 2)) := by
        simp only [Helpers.segArea, Fl.fin_mul, Fl.fin_sub, Fl.fin_div one_ne_zero, div_one]
        rw [Fl.arccos_fin a2 a1, Fl.sqrt_fin (by nlinarith)]
        simp only [Fl.fin_mul, Fl.fin_sub, Fl.fin_inj]
        rw [one_mul, one_mul, sq]
      have s2 : Helpers.segArea (.fin r) (.fin d2) = .fin (r ^ 2 * arccos (d2 / r) - d2 * √(r ^ 2 - d2 ^ 2)) := by
        simp only [Helpers.segArea, Fl.fin_mul, Fl.fin_sub, Fl.fin_div hr.ne']
        rw [Fl.arccos_fin (by rw [le_div_iff₀ hr]; linarith) (by rw [div_le_one hr]; linarith),
          Fl.sqrt_fin (by nlinarith)]
        simp only [Fl.fin_mul, Fl.fin_sub, Fl.fin_inj]
        rw [sq, sq]
      rw [s1, s2, Fl.fin_mul, Fl.fin_mul, Fl.fin_add, Fl.fin_div (by positivity)]
      congr 2
      rw [hov, hl, ENNReal.toReal_ofReal, ← sq]
      have t1 := seg_nonneg one_pos a2 a1
      have t2 := seg_nonneg hr a4 a3
      simp only [one_pow, one_mul, div_one] at t1
      linarith

/-- **C13** `calc_circ_fraction_inside_unit_circle(x, y, r)` raises `ValueError` exactly for `r > 1`;
otherwise it returns a finite number in `[0,1]`, which is 0 whenever the disks do not meet and, for
`r ≥ 0`, 1 whenever the small disk lies inside the unit disk. -/
theorem C13_circ_fraction_total (x y r : ℝ) :
    (1 < r → Helpers.circFraction (.fin x) (.fin y) (.fin r) = .error .valueError) ∧
    (r ≤ 1 → ∃ v : ℝ, Helpers.circFraction (.fin x) (.fin y) (.fin r) = .ok (.fin v) ∧ 0 ≤ v ∧ v ≤ 1 ∧
      (1 + r < √(x ^ 2 + y ^ 2) → v = 0) ∧ (0 < r → 1 + r ≤ √(x ^ 2 + y ^ 2) → v = 0) ∧
      (0 ≤ r → √(x ^ 2 + y ^ 2) + r ≤ 1 → v = 1)) := by
  refine ⟨fun h => by simp [Helpers.circFraction, h], fun h => ?_⟩
  rcases lt_or_ge 0 r with hr | hr
  · have hA : 0 < π * r ^ 2 := by positivity
    refine ⟨_, circFraction_eq x y r hr h, div_nonneg (overlap_nonneg _ _) hA.le,
      (div_le_one hA).mpr (overlap_le _ hr.le), fun h' => ?_, fun _ h' => ?_, fun _ h' => ?_⟩
    · rw [overlap_disjoint (by rw [norm_mk]; exact h'.le), zero_div]
    · rw [overlap_disjoint (by rw [norm_mk]; exact h'), zero_div]
    · rw [overlap_inside hr.le (by rw [norm_mk]; linarith), div_self hA.ne']
  · have hds : Fl.sqrt (.fin x * .fin x + .fin y * .fin y) = .fin (√(x ^ 2 + y ^ 2)) := by
      rw [Fl.fin_mul, Fl.fin_mul, Fl.fin_add, Fl.sqrt_fin (add_nonneg (mul_self_nonneg _) (mul_self_nonneg _)), sq, sq]
    simp only [Helpers.circFraction, hds, Fl.fin_lt, Fl.fin_add, Fl.fin_sub, Fl.fin_le, not_lt.mpr h, if_false]
    by_cases h1 : 1 + r < √(x ^ 2 + y ^ 2)
    · refine ⟨0, by rw [if_pos h1], le_rfl, zero_le_one, fun _ => rfl, fun _ _ => rfl, fun h2 h3 => ?_⟩
      exfalso; linarith
    · refine ⟨1, ?_, zero_le_one, le_rfl, fun h' => absurd h' h1, fun h' => absurd h' (not_lt.mpr hr), fun _ _ => rfl⟩
      rw [if_neg h1, if_pos (by linarith)]

/-- **C14** For `0 < r ≤ 1` the returned number is the area (Lebesgue measure in the plane) of the
intersection of the unit disk with the disk of radius `r` around `(x, y)`, divided by the area of the
latter disk. -/
theorem C14_circ_fraction_area (x y r : ℝ) (hr : 0 < r) (hr1 : r ≤ 1) :
    Helpers.circFraction (.fin x) (.fin y) (.fin r) =
      .ok (.fin ((volume (Metric.ball (0 : ℂ) 1 ∩ Metric.ball (⟨x, y⟩ : ℂ) r)).toReal /
        (volume (Metric.ball (⟨x, y⟩ : ℂ) r)).toReal)) := by
  rw [circFraction_eq x y r hr hr1, volume_ball_toReal _ hr.le]
  rfl

/-- **C14** The fraction never increases as the centre moves outward. -/
theorem C14_circ_fraction_antitone (x y x' y' r v v' : ℝ) (hr : 0 < r)
    (h : x ^ 2 + y ^ 2 ≤ x' ^ 2 + y' ^ 2)
    (hv : Helpers.circFraction (.fin x) (.fin y) (.fin r) = .ok (.fin v))
    (hv' : Helpers.circFraction (.fin x') (.fin y') (.fin r) = .ok (.fin v')) : v' ≤ v := by
  have hr1 : r ≤ 1 := by
    by_contra hc
    rw [(C13_circ_fraction_total x y r).1 (not_le.mp hc)] at hv
    cases hv
  rw [circFraction_eq _ _ r hr hr1] at hv hv'
  simp only [Except.ok.injEq, Fl.fin_inj] at hv hv'
  rw [← hv, ← hv']
  apply div_le_div_of_nonneg_right _ (by positivity)
  apply overlap_antitone hr.le
  rw [norm_mk, norm_mk]
  exact sqrt_le_sqrt h

/-- Non-trivial instance: a half covered planet has a fraction strictly computed by the lens formula. -/
example : ∃ v : ℝ, Helpers.circFraction (.fin 1) (.fin 0) (.fin (1 / 2)) = .ok (.fin v) ∧ 0 ≤ v ∧ v ≤ 1 := by
  obtain ⟨v, hv, h0, h1, -⟩ := (C13_circ_fraction_total 1 0 (1 / 2)).2 (by norm_num)
  exact ⟨v, hv, h0, h1⟩

end Vsm
