import Verif.Props.FloatCircleGen
import Verif.Props.Transit

/-!
# C166: the visible fraction of the planet in double precision
-/

noncomputable section

namespace Vsm

open Real Spec

/-- Moving the small disk changes the overlap by at most the area of a ring. -/
theorem overlap_move {z w : ℂ} {r δ : ℝ} (hr : 0 ≤ r) (h : ‖z - w‖ ≤ δ) : overlap z r ≤ overlap w r + π * (2 * r * δ + δ ^ 2) := by
  have hδ : 0 ≤ δ := (norm_nonneg _).trans h
  have h1 : Metric.ball (0 : ℂ) 1 ∩ Metric.ball z r ⊆ (Metric.ball (0 : ℂ) 1 ∩ Metric.ball w r) ∪ (Metric.ball w (r + δ) \ Metric.ball w r) := by
    intro p hp
    by_cases hw : p ∈ Metric.ball w r
    · exact Or.inl ⟨hp.1, hw⟩
    · refine Or.inr ⟨?_, hw⟩
      have h2 := hp.2
      rw [Metric.mem_ball, dist_eq_norm] at h2 ⊢
      have : p - w = (p - z) + (z - w) := by ring
      rw [this]
      exact lt_of_le_of_lt (norm_add_le _ _) (by linarith)
  have fin1 : ∀ s : ℝ, MeasureTheory.volume (Metric.ball w s) ≠ ⊤ := fun s => MeasureTheory.measure_ball_lt_top.ne
  have hsub : Metric.ball w r ⊆ Metric.ball w (r + δ) := Metric.ball_subset_ball (by linarith)
  have h3 : (MeasureTheory.volume (Metric.ball w (r + δ) \ Metric.ball w r)).toReal = π * (2 * r * δ + δ ^ 2) := by
    rw [MeasureTheory.measure_sdiff hsub Metric.isOpen_ball.measurableSet.nullMeasurableSet (fin1 r), ENNReal.toReal_sub_of_le (MeasureTheory.measure_mono hsub) (fin1 _),
      volume_ball_toReal w (by linarith), volume_ball_toReal w hr]
    ring
  rw [← h3]
  unfold overlap
  have f1 : MeasureTheory.volume (Metric.ball (0 : ℂ) 1 ∩ Metric.ball w r) ≠ ⊤ := ne_top_of_le_ne_top (fin1 r) (MeasureTheory.measure_mono Set.inter_subset_right)
  have f2 : MeasureTheory.volume (Metric.ball w (r + δ) \ Metric.ball w r) ≠ ⊤ := ne_top_of_le_ne_top (fin1 _) (MeasureTheory.measure_mono Set.sdiff_subset)
  rw [← ENNReal.toReal_add f1 f2]
  exact ENNReal.toReal_mono (ENNReal.add_ne_top.mpr ⟨f1, f2⟩) ((MeasureTheory.measure_mono h1).trans (MeasureTheory.measure_union_le _ _))

theorem overlap_moved {z w : ℂ} {r δ : ℝ} (hr : 0 ≤ r) (h : ‖z - w‖ ≤ δ) : |overlap z r - overlap w r| ≤ π * (2 * r * δ + δ ^ 2) := by
  have h1 := overlap_move hr h
  have h2 := overlap_move (z := w) (w := z) (δ := δ) hr (norm_sub_rev w z ▸ h)
  exact abs_le.mpr ⟨by linarith, by linarith⟩

theorem overlap_mono_radius {z : ℂ} {r s : ℝ} (h : r ≤ s) : overlap z r ≤ overlap z s := by
  unfold overlap
  refine ENNReal.toReal_mono (ne_top_of_le_ne_top (MeasureTheory.measure_ball_lt_top (x := z) (r := s)).ne (MeasureTheory.measure_mono Set.inter_subset_right)) ?_
  exact MeasureTheory.measure_mono (Set.inter_subset_inter_right _ (Metric.ball_subset_ball h))

theorem overlap_grow {z : ℂ} {r s : ℝ} (hr : 0 ≤ r) (h : r ≤ s) : overlap z s - overlap z r ≤ π * (s ^ 2 - r ^ 2) := by
  have h1 : Metric.ball (0 : ℂ) 1 ∩ Metric.ball z s ⊆ (Metric.ball (0 : ℂ) 1 ∩ Metric.ball z r) ∪ (Metric.ball z s \ Metric.ball z r) := by
    intro p hp
    by_cases hw : p ∈ Metric.ball z r
    · exact Or.inl ⟨hp.1, hw⟩
    · exact Or.inr ⟨hp.2, hw⟩
  have fin1 : ∀ s : ℝ, MeasureTheory.volume (Metric.ball z s) ≠ ⊤ := fun s => MeasureTheory.measure_ball_lt_top.ne
  have hsub : Metric.ball z r ⊆ Metric.ball z s := Metric.ball_subset_ball h
  have h3 : (MeasureTheory.volume (Metric.ball z s \ Metric.ball z r)).toReal = π * (s ^ 2 - r ^ 2) := by
    rw [MeasureTheory.measure_sdiff hsub Metric.isOpen_ball.measurableSet.nullMeasurableSet (fin1 r), ENNReal.toReal_sub_of_le (MeasureTheory.measure_mono hsub) (fin1 _),
      volume_ball_toReal z (by linarith), volume_ball_toReal z hr]
    ring
  rw [← h3, sub_le_iff_le_add']
  unfold overlap
  have f1 : MeasureTheory.volume (Metric.ball (0 : ℂ) 1 ∩ Metric.ball z r) ≠ ⊤ := ne_top_of_le_ne_top (fin1 r) (MeasureTheory.measure_mono Set.inter_subset_right)
  have f2 : MeasureTheory.volume (Metric.ball z s \ Metric.ball z r) ≠ ⊤ := ne_top_of_le_ne_top (fin1 _) (MeasureTheory.measure_mono Set.sdiff_subset)
  rw [← ENNReal.toReal_add f1 f2]
  exact ENNReal.toReal_mono (ENNReal.add_ne_top.mpr ⟨f1, f2⟩) ((MeasureTheory.measure_mono h1).trans (MeasureTheory.measure_union_le _ _))

/-- Share of the disk of radius `r` around `z` that is inside the unit disk. -/
def diskShare (z : ℂ) (r : ℝ) : ℝ := overlap z r / (π * r ^ 2)

theorem diskShare_mem {z : ℂ} {r : ℝ} (hr : 0 < r) : 0 ≤ diskShare z r ∧ diskShare z r ≤ 1 := by
  unfold diskShare
  exact ⟨div_nonneg (overlap_nonneg z r) (by positivity), (div_le_one (by positivity)).mpr (overlap_le z hr.le)⟩

theorem share_close {z w : ℂ} {r s δ : ℝ} (hr : 0 < r) (hrs : |s - r| ≤ ulp * r) (h : ‖z - w‖ ≤ δ) (hδ : δ ≤ r) :
    |diskShare z s - diskShare w r| ≤ 3 * δ / r + 10 * ulp := by
  have hu := ulp_pos
  have hs := ulp_small
  have hδ0 : 0 ≤ δ := (norm_nonneg _).trans h
  have b := abs_le.mp hrs
  have hur : ulp * r ≤ 1 / 10 ^ 15 * r := by gcongr
  have hs0 : 0 < s := by linarith
  have hP : 0 < π * r ^ 2 := by positivity
  have hm := diskShare_mem (z := z) hs0
  -- the radius
  have h1 : |overlap z s - overlap z r| ≤ π * (3 * ulp * r ^ 2) := by
    have huu : ulp * ulp ≤ 1 / 10 ^ 15 * ulp := by gcongr
    have e1 : |s ^ 2 - r ^ 2| ≤ 3 * ulp * r ^ 2 := by
      have : s ^ 2 - r ^ 2 = (s - r) * (s + r) := by ring
      rw [this, abs_mul, abs_of_pos (by linarith : 0 < s + r)]
      calc _ ≤ ulp * r * (3 * r) := by gcongr; linarith
        _ = _ := by ring
    have e2 := abs_le.mp e1
    rcases le_total r s with hl | hl
    · rw [abs_of_nonneg (sub_nonneg.mpr (overlap_mono_radius hl))]
      exact (overlap_grow hr.le hl).trans (by gcongr; exact e2.2)
    · rw [abs_sub_comm, abs_of_nonneg (sub_nonneg.mpr (overlap_mono_radius hl))]
      exact (overlap_grow hs0.le hl).trans (by gcongr; linarith [e2.1])
  have h2 := overlap_moved hr.le h
  have h3 : |overlap z s - overlap w r| ≤ π * (3 * r * δ + 3 * ulp * r ^ 2) := by
    refine (abs_sub_le _ (overlap z r) _).trans ((add_le_add h1 h2).trans ?_)
    rw [← mul_add]
    have : δ ^ 2 ≤ r * δ := by rw [sq]; gcongr
    exact mul_le_mul_of_nonneg_left (by linarith) pi_pos.le
  -- the quotient
  have e1 : |s ^ 2 - r ^ 2| ≤ 3 * ulp * r ^ 2 := by
    have : s ^ 2 - r ^ 2 = (s - r) * (s + r) := by ring
    rw [this, abs_mul, abs_of_pos (by linarith : 0 < s + r)]
    calc _ ≤ ulp * r * (3 * r) := by gcongr; linarith
      _ = _ := by ring
  have e2 : diskShare z s - diskShare w r = ((overlap z s - overlap w r) - diskShare z s * (π * (s ^ 2 - r ^ 2))) / (π * r ^ 2) := by
    unfold diskShare
    field_simp
    ring
  rw [e2, abs_div, abs_of_pos hP, div_le_iff₀ hP]
  have e3 : |diskShare z s * (π * (s ^ 2 - r ^ 2))| ≤ 1 * (π * (3 * ulp * r ^ 2)) := by
    rw [abs_mul, abs_of_nonneg hm.1, abs_mul, abs_of_pos pi_pos]
    gcongr
    exact hm.2
  refine (abs_sub _ _).trans ((add_le_add h3 e3).trans ?_)
  have : (3 * δ / r + 10 * ulp) * (π * r ^ 2) = π * (3 * r * δ + 10 * ulp * r ^ 2) := by field_simp
  rw [this, one_mul, ← mul_add]
  have : 0 < ulp * r ^ 2 := by positivity
  exact mul_le_mul_of_nonneg_left (by linarith) pi_pos.le

/-- The computed position of the planet. -/
theorem planet_pos {M : Libm} (hM : Accurate M) {κ phase incl : ℝ} (hκ : 0 < κ) (hp : |phase| ≤ 1000) (hi : |incl| ≤ 1000) :
    ‖(⟨dbl (dbl κ * M.sin (Libm.toRad (dbl (phase - 180)))), dbl (dbl (dbl κ * M.cos (Libm.toRad (dbl (phase - 180)))) * M.cos (Libm.toRad incl))⟩ : ℂ) -
      ⟨κ * sin (phase * (π / 180) - π), κ * cos (phase * (π / 180) - π) * cos (incl * (π / 180))⟩‖ ≤ 430 * ulp * κ := by
  have hu := ulp_pos
  have hs := ulp_small
  have ha0 : |phase - 180| ≤ 1180 := by
    have := abs_le.mp hp
    exact abs_le.mpr ⟨by linarith, by linarith⟩
  have ha1 : |dbl (phase - 180) - (phase - 180)| ≤ 1180 * ulp := (dbl_err _).trans (by gcongr)
  have ha := toRad_abs ha1 ha0 (by linarith)
  have hb := toRad_abs (x := incl) (y := incl) (e := 0) (by simp) hi (by norm_num)
  have e0 : (phase - 180) * (π / 180) = phase * (π / 180) - π := by ring
  rw [e0] at ha
  set a := Libm.toRad (dbl (phase - 180))
  set a' := phase * (π / 180) - π
  set b := Libm.toRad incl
  set b' := incl * (π / 180)
  have s1 : |M.sin a - sin a'| ≤ 145 * ulp := by
    have h1 := hM.1 a
    rw [two_ulp] at h1
    have h2 := abs_sin_sub_sin_le a a'
    have h3 := abs_sin_le_one a
    refine (abs_sub_le _ (sin a) _).trans ?_
    nlinarith
  have c1 : |M.cos a - cos a'| ≤ 145 * ulp := by
    have h1 := hM.2.1 a
    rw [two_ulp] at h1
    have h2 := abs_cos_sub_cos_le a a'
    have h3 := abs_cos_le_one a
    refine (abs_sub_le _ (cos a) _).trans ?_
    nlinarith
  have c2 : |M.cos b - cos b'| ≤ 103 * ulp := by
    have h1 := hM.2.1 b
    rw [two_ulp] at h1
    have h2 := abs_cos_sub_cos_le b b'
    have h3 := abs_cos_le_one b
    refine (abs_sub_le _ (cos b) _).trans ?_
    nlinarith
  have k1 : |dbl κ - κ| ≤ ulp * κ := by
    have := dbl_err κ
    rw [abs_of_pos hκ] at this
    linarith
  have huκ : ulp * κ ≤ 1 / 10 ^ 15 * κ := by gcongr
  have huκ0 : 0 < ulp * κ := by positivity
  have key : ∀ S S' : ℝ, |S - S'| ≤ 145 * ulp → |S'| ≤ 1 → |dbl (dbl κ * S) - κ * S'| ≤ 149 * ulp * κ ∧ |dbl (dbl κ * S)| ≤ 1.01 * κ := by
    intro S S' h h'
    have bS := abs_le.mp h
    have hS : |S| ≤ 1.001 := by
      have := abs_le.mp h'
      exact abs_le.mpr ⟨by linarith [this.1, bS.1], by linarith [this.2, bS.2]⟩
    have x1 : |dbl κ * S - κ * S'| ≤ 147 * ulp * κ := by
      have : dbl κ * S - κ * S' = (dbl κ - κ) * S + κ * (S - S') := by ring
      rw [this]
      have y1 : |(dbl κ - κ) * S| ≤ ulp * κ * 1.001 := by rw [abs_mul]; gcongr
      have y2 : |κ * (S - S')| ≤ κ * (145 * ulp) := by rw [abs_mul, abs_of_pos hκ]; gcongr
      refine (abs_add_le _ _).trans ?_
      linarith
    have x2 : |κ * S'| ≤ κ * 1 := by rw [abs_mul, abs_of_pos hκ]; gcongr
    have bx1 := abs_le.mp x1
    have bx2 := abs_le.mp x2
    have x3 : |dbl κ * S| ≤ 1.001 * κ := abs_le.mpr ⟨by linarith [bx1.1, bx2.1], by linarith [bx1.2, bx2.2]⟩
    have x4 := dbl_near x1 x3
    refine ⟨x4.trans (by linarith), ?_⟩
    have := abs_le.mp x4
    exact abs_le.mpr ⟨by linarith [this.1, bx2.1], by linarith [this.2, bx2.2]⟩
  have kx := key _ _ s1 (abs_sin_le_one a')
  have ky := key _ _ c1 (abs_cos_le_one a')
  set x := dbl (dbl κ * M.sin a)
  set y₀ := dbl (dbl κ * M.cos a)
  have hy : |dbl (y₀ * M.cos b) - κ * cos a' * cos b'| ≤ 256 * ulp * κ := by
    have bS := abs_le.mp c2
    have hc := abs_cos_le_one b'
    have bc := abs_le.mp hc
    have x1 : |y₀ * M.cos b - κ * cos a' * cos b'| ≤ 254 * ulp * κ := by
      have : y₀ * M.cos b - κ * cos a' * cos b' = y₀ * (M.cos b - cos b') + (y₀ - κ * cos a') * cos b' := by ring
      rw [this]
      have y1 : |y₀ * (M.cos b - cos b')| ≤ 1.01 * κ * (103 * ulp) := by rw [abs_mul]; gcongr; exact ky.2
      have y2 : |(y₀ - κ * cos a') * cos b'| ≤ 149 * ulp * κ * 1 := by rw [abs_mul]; gcongr; exact ky.1
      refine (abs_add_le _ _).trans ?_
      linarith
    have x3 : |y₀ * M.cos b| ≤ 1.02 * κ := by
      rw [abs_mul]
      have : |M.cos b| ≤ 1.001 := abs_le.mpr ⟨by linarith [bS.1], by linarith [bS.2]⟩
      calc _ ≤ 1.01 * κ * 1.001 := by gcongr; exact ky.2
        _ ≤ _ := by linarith
    exact (dbl_near x1 x3).trans (by linarith)
  have h := Complex.norm_le_abs_re_add_abs_im ((⟨x, dbl (y₀ * M.cos b)⟩ : ℂ) - ⟨κ * sin a', κ * cos a' * cos b'⟩)
  simp only [Complex.sub_re, Complex.sub_im] at h
  refine h.trans ?_
  linarith [kx.1]

/-- What is needed of the intermediate numbers. -/
theorem planet_steps {M : Libm} (hM : Accurate M) {κ ρ phase incl : ℝ} (hκ : 0 < κ) (hρ : 0 ≤ ρ) (hp : |phase| ≤ 1000) (hi : |incl| ≤ 1000) :
    ∃ x y, x = dbl (dbl κ * M.sin (Libm.toRad (dbl (phase - 180)))) ∧ y = dbl (dbl (dbl κ * M.cos (Libm.toRad (dbl (phase - 180)))) * M.cos (Libm.toRad incl)) ∧
      ‖(⟨x, y⟩ : ℂ) - ⟨(planetPos 1 κ (phase * (π / 180)) (incl * (π / 180))).1, (planetPos 1 κ (phase * (π / 180)) (incl * (π / 180))).2⟩‖ ≤ 430 * ulp * κ ∧
      |√(x ^ 2 + y ^ 2) - √((planetPos 1 κ (phase * (π / 180)) (incl * (π / 180))).1 ^ 2 + (planetPos 1 κ (phase * (π / 180)) (incl * (π / 180))).2 ^ 2)| ≤ 430 * ulp * κ ∧
      |dbl √(dbl (dbl (x * x) + dbl (y * y))) - √((planetPos 1 κ (phase * (π / 180)) (incl * (π / 180))).1 ^ 2 +
        (planetPos 1 κ (phase * (π / 180)) (incl * (π / 180))).2 ^ 2)| ≤ 450 * ulp * κ ∧
      |dbl (1 + dbl (2 * dbl ρ)) - (1 + 2 * ρ)| ≤ (8 * ρ + 1) * ulp ∧ |M.cos (Libm.toRad phase) - cos (phase * (π / 180))| ≤ 103 * ulp := by
  have hu := ulp_pos
  have hs := ulp_small
  have hpos := planet_pos hM hκ hp hi
  refine ⟨_, _, rfl, rfl, ?_⟩
  set x := dbl (dbl κ * M.sin (Libm.toRad (dbl (phase - 180))))
  set y := dbl (dbl (dbl κ * M.cos (Libm.toRad (dbl (phase - 180)))) * M.cos (Libm.toRad incl))
  have eX : (planetPos 1 κ (phase * (π / 180)) (incl * (π / 180))).1 = κ * sin (phase * (π / 180) - π) := by simp only [planetPos, div_one]
  have eY : (planetPos 1 κ (phase * (π / 180)) (incl * (π / 180))).2 = κ * cos (phase * (π / 180) - π) * cos (incl * (π / 180)) := by simp only [planetPos, div_one]
  rw [eX, eY]
  set X := κ * sin (phase * (π / 180) - π) with hX
  set Y := κ * cos (phase * (π / 180) - π) * cos (incl * (π / 180)) with hY
  have huκ : ulp * κ ≤ 1 / 10 ^ 15 * κ := by gcongr
  have huκ0 : 0 < ulp * κ := by positivity
  have huρ : ulp * ρ ≤ 1 / 10 ^ 15 * ρ := by gcongr
  have huρ0 : 0 ≤ ulp * ρ := by positivity
  have hn : ∀ a b : ℝ, ‖(⟨a, b⟩ : ℂ)‖ = √(a ^ 2 + b ^ 2) := by
    intro a b
    rw [Complex.norm_eq_sqrt_sq_add_sq]
  have h2 : |√(x ^ 2 + y ^ 2) - √(X ^ 2 + Y ^ 2)| ≤ 430 * ulp * κ := by
    rw [← hn, ← hn]
    exact (abs_norm_sub_norm_le _ _).trans hpos
  have hD : √(X ^ 2 + Y ^ 2) ≤ κ := by
    rw [sqrt_le_left hκ.le, hX, hY]
    have h1 := sin_sq_add_cos_sq (phase * (π / 180) - π)
    have h2 := cos_sq_le_one (incl * (π / 180))
    have h3 : cos (phase * (π / 180) - π) ^ 2 * cos (incl * (π / 180)) ^ 2 ≤ cos (phase * (π / 180) - π) ^ 2 * 1 := by gcongr
    calc _ = κ ^ 2 * (sin (phase * (π / 180) - π) ^ 2 + cos (phase * (π / 180) - π) ^ 2 * cos (incl * (π / 180)) ^ 2) := by ring
      _ ≤ κ ^ 2 * 1 := by gcongr; linarith
      _ = _ := mul_one _
  have b2 := abs_le.mp h2
  refine ⟨hpos, h2, ?_, ?_, ?_⟩
  · have h3 := (norm_rel x y).err (A := 1.01 * κ) (by rw [abs_of_nonneg (sqrt_nonneg _)]; linarith) (by norm_num)
    refine (abs_sub_le _ (√(x ^ 2 + y ^ 2)) _).trans ?_
    linarith
  · have e1 := abs_le.mp (dbl_err ρ)
    rw [abs_of_nonneg hρ] at e1
    have hr0 : 0 ≤ dbl ρ := dbl_nonneg hρ
    have e2 := abs_le.mp (dbl_err (2 * dbl ρ))
    rw [abs_of_nonneg (by linarith)] at e2
    have e3 : 2 * dbl ρ * ulp ≤ 2 * (1.01 * ρ) * ulp := by gcongr; linarith
    have e4 : |1 + dbl (2 * dbl ρ) - (1 + 2 * ρ)| ≤ 5 * ρ * ulp := abs_le.mpr ⟨by linarith, by linarith⟩
    have e5 : |1 + dbl (2 * dbl ρ)| ≤ 1 + 3 * ρ := abs_le.mpr ⟨by linarith, by linarith⟩
    exact (dbl_near e4 e5).trans (le_of_eq (by ring))
  · have hb := toRad_abs (x := phase) (y := phase) (e := 0) (by simp) hp (by norm_num)
    have h1 := hM.2.1 (Libm.toRad phase)
    rw [two_ulp] at h1
    have h2 := abs_cos_sub_cos_le (Libm.toRad phase) (phase * (π / 180))
    have h3 := abs_cos_le_one (Libm.toRad phase)
    refine (abs_sub_le _ (cos (Libm.toRad phase)) _).trans ?_
    nlinarith

theorem planetPos_scale (R o phase incl : ℝ) : planetPos R o phase incl = planetPos 1 (o / R) phase incl := by
  simp only [planetPos, div_one]

/-- **C166.**  The fraction of the planet that `get_transit_mask` reports, in double precision.  `R` is the radius of the star, `o` that of the orbit and
`p` that of the planet, the angles are in degrees, `D` is the distance of the two centres on the sky in radii of the star, and `m` a margin for rounding:
* while the planet is on the near half of its orbit the answer is exactly 1, whatever the sizes;
* a planet no larger than the star that is off the disk by more than the margin is reported as exactly 1;
* behind the star and inside the disk by more than the margin, it is reported as exactly 0;
* behind the star and crossing the limb, the number is close to one minus the share of the planet's disk that the star's disk hides, however many times the
  planet has gone round;
* for a planet larger than the star the same call raises `ValueError` as soon as the planet is behind the star and less than its own diameter off the limb, and
  answers 1 beyond that. -/
theorem C166_planet_fraction_rounding (M : Libm) (hM : Accurate M) (R o p phase incl : ℝ) (hR : 0 < R) (ho : 0 < o) (ho' : o ≤ 10 ^ 6 * R) (hp0 : 0 ≤ p)
    (hp : |phase| ≤ 1000) (hi : |incl| ≤ 1000) (X Y D m : ℝ) (hXY : (X, Y) = planetPos R o (phase * (π / 180)) (incl * (π / 180))) (hD : D = √(X ^ 2 + Y ^ 2))
    (hm : m = (o / R + p / R + 1) / 10 ^ 13) :
    (cos (phase * (π / 180)) ≤ -(1 / 10 ^ 12) → M.planetFraction R o p phase incl = .ok (.fin 1)) ∧
    (p ≤ R → 1 + p / R + m ≤ D → M.planetFraction R o p phase incl = .ok (.fin 1)) ∧
    (1 / 10 ^ 12 ≤ cos (phase * (π / 180)) → p ≤ R → D ≤ 1 - p / R - m → M.planetFraction R o p phase incl = .ok (.fin 0)) ∧
    (1 / 10 ^ 12 ≤ cos (phase * (π / 180)) → R / 900 ≤ p → p ≤ R → 1 - p / R + p / R / 500 ≤ D → D ≤ 1 + p / R - p / R / 500 →
      ∃ v, M.planetFraction R o p phase incl = .ok (.fin v) ∧
        |v - (1 - (MeasureTheory.volume (Metric.ball (0 : ℂ) 1 ∩ Metric.ball (⟨X, Y⟩ : ℂ) (p / R))).toReal / (π * (p / R) ^ 2))| ≤
          1.1 / 10 ^ 11 / (p / R) ^ 3 + 2 / 10 ^ 13 * (o / p)) ∧
    (1 / 10 ^ 12 ≤ cos (phase * (π / 180)) → (1 + 1 / 10 ^ 14) * R ≤ p → D ≤ 1 + 2 * (p / R) - m → M.planetFraction R o p phase incl = .error .valueError) ∧
    (1 + 2 * (p / R) + m ≤ D → M.planetFraction R o p phase incl = .ok (.fin 1)) := by
  have hu := ulp_pos
  have hs := ulp_small
  have uu : ulp ≤ 1.2 / 10 ^ 16 := by unfold ulp; norm_num
  have hop : o / p = o / R / (p / R) := by rw [div_div_div_cancel_right₀ hR.ne']
  have hpR : p ≤ R ↔ p / R ≤ 1 := (div_le_one hR).symm
  have hpR2 : R / 900 ≤ p ↔ 1 / 900 ≤ p / R := by rw [le_div_iff₀ hR]; constructor <;> intro h <;> linarith
  have hpR3 : (1 + 1 / 10 ^ 14) * R ≤ p ↔ 1 + 1 / 10 ^ 14 ≤ p / R := (le_div_iff₀ hR).symm
  rw [hop, hpR, hpR2, hpR3]
  have hκ : 0 < o / R := by positivity
  have hκ2 : o / R ≤ 10 ^ 6 := (div_le_iff₀ hR).mpr ho'
  have hρ : 0 ≤ p / R := by positivity
  rw [planetPos_scale] at hXY
  unfold Libm.planetFraction
  simp only
  set κ := o / R
  set ρ := p / R
  obtain ⟨x, y, hx, hy, q1, q2, q3, q4, q5⟩ := planet_steps hM hκ hρ hp hi
  rw [← hx, ← hy]
  have hX1 : (planetPos 1 κ (phase * (π / 180)) (incl * (π / 180))).1 = X := by rw [← hXY]
  have hY1 : (planetPos 1 κ (phase * (π / 180)) (incl * (π / 180))).2 = Y := by rw [← hXY]
  rw [hX1, hY1] at q1 q2 q3
  rw [← hD] at q2 q3
  clear hx hy hX1 hY1 hXY hpR hpR2 hpR3 hop
  set r := dbl ρ with hr
  set T := dbl (1 + dbl (2 * r))
  set d := dbl √(dbl (dbl (x * x) + dbl (y * y)))
  set c := M.cos (Libm.toRad phase)
  have hr0 : 0 ≤ r := dbl_nonneg hρ
  have er : |r - ρ| ≤ ulp * ρ := by
    have := dbl_err ρ
    rw [abs_of_nonneg hρ] at this
    linarith
  have huκ : ulp * κ ≤ 1.2 / 10 ^ 16 * κ := by gcongr
  have huκ0 : 0 < ulp * κ := by positivity
  have huρ : ulp * ρ ≤ 1.2 / 10 ^ 16 * ρ := by gcongr
  have huρ0 : 0 ≤ ulp * ρ := by positivity
  have b2 := abs_le.mp q2
  have b3 := abs_le.mp q3
  have b4 := abs_le.mp q4
  have b5 := abs_le.mp q5
  have br := abs_le.mp er
  have d0 : 0 ≤ D := hD ▸ sqrt_nonneg _
  refine ⟨fun hc => ?_, fun hp1 hf => ?_, fun hc hp1 hf => ?_, fun hc hp9 hp1 hl hh => ?_, fun hc hp1 hf => ?_, fun hf => ?_⟩
  · by_cases h : T < d
    · rw [if_pos h]
    · rw [if_neg h, if_neg (by linarith [b5.2])]
  · by_cases h : T < d
    · rw [if_pos h]
    rw [if_neg h]
    by_cases h' : 0 < c
    · rw [if_pos h', circle_far hr0 (dbl_le_one hp1) (by linarith)]
      simp only [Libm.oneMinus, sub_zero, dbl_one]
    · rw [if_neg h']
  · rw [if_neg (by linarith), if_pos (by linarith [b5.1]), circle_in hr0 (dbl_le_one hp1) (by linarith)]
    simp only [Libm.oneMinus, sub_self, dbl_zero]
  · have hρ0 : 0 < ρ := by linarith
    obtain ⟨v, hv, hv'⟩ := circle_gen hM (x := x) (y := y) (r := r) (by linarith) (dbl_le_one hp1) (by linarith) (by linarith)
    rw [if_neg (by linarith), if_pos (by linarith [b5.1]), hv]
    refine ⟨_, rfl, ?_⟩
    change |dbl (1 - v) - (1 - diskShare ⟨X, Y⟩ ρ)| ≤ _
    change |v - diskShare ⟨x, y⟩ r| ≤ _ at hv'
    have hsc := share_close hρ0 er q1 (by linarith)
    have hw := diskShare_mem (z := ⟨x, y⟩) (r := r) (by linarith)
    have hrp : 0.99 * ρ ^ 3 ≤ r ^ 3 := by
      have : (0.999 * ρ) ^ 3 ≤ r ^ 3 := by gcongr; linarith
      have h3 : 0 < ρ ^ 3 := by positivity
      have h4 : (0.999 * ρ) ^ 3 = 0.997002999 * ρ ^ 3 := by ring
      linarith
    have hρ3 : 0 < ρ ^ 3 := by positivity
    have e1 : 1 / 10 ^ 11 / r ^ 3 ≤ 1.02 / 10 ^ 11 / ρ ^ 3 := by
      rw [div_le_div_iff₀ (by linarith) hρ3]
      linarith
    have hbig : 1 ≤ 1 / ρ ^ 3 := by
      rw [le_div_iff₀ hρ3, one_mul]
      exact pow_le_one₀ hρ hp1
    have e1' : 1.02 / 10 ^ 11 / ρ ^ 3 = 1.02 / 10 ^ 11 * (1 / ρ ^ 3) := by ring
    have e2' : 1.1 / 10 ^ 11 / ρ ^ 3 = 1.1 / 10 ^ 11 * (1 / ρ ^ 3) := by ring
    have hsm : 1 / ρ ^ 3 ≤ 900 ^ 3 := by
      rw [div_le_iff₀ hρ3]
      have : (1 / 900 : ℝ) ^ 3 ≤ ρ ^ 3 := by gcongr
      linarith
    have bv := abs_le.mp (hv'.trans e1)
    have bs := abs_le.mp hsc
    have e3 : 3 * (430 * ulp * κ) / ρ ≤ 2 / 10 ^ 13 * (κ / ρ) := by
      have : 2 / 10 ^ 13 * (κ / ρ) = 2 / 10 ^ 13 * κ / ρ := by ring
      rw [this]
      exact div_le_div_of_nonneg_right (by linarith) hρ
    have f1 : |(1 - v) - (1 - diskShare ⟨X, Y⟩ ρ)| ≤ 1.02 / 10 ^ 11 / ρ ^ 3 + (2 / 10 ^ 13 * (κ / ρ) + 10 * ulp) := abs_le.mpr ⟨by linarith, by linarith⟩
    have f2 : |1 - v| ≤ 2 := abs_le.mpr ⟨by linarith, by linarith⟩
    exact (dbl_near f1 f2).trans (by linarith)
  · rw [if_neg (by linarith), if_pos (by linarith [b5.1])]
    have : 1 < r := by linarith
    unfold Libm.circFraction
    simp only
    rw [if_pos this]
    rfl
  · rw [if_pos (by linarith)]

/-- A planet of a tenth of the star's radius, on an orbit of ten, with a correctly rounded library: behind the middle of the star none of it is visible, in front
of it all of it, and when its centre is on the limb the answer is within 2·10⁻⁸ of the true share. -/
example : Libm.rounded.planetFraction 1 10 0.1 0 90 = .ok (.fin 0) ∧ Libm.rounded.planetFraction 1 10 0.1 180 90 = .ok (.fin 1) ∧
    ∃ v, Libm.rounded.planetFraction 1 10 0.1 (arcsin 0.1 * (180 / π)) 90 = .ok (.fin v) ∧
      |v - (1 - (MeasureTheory.volume (Metric.ball (0 : ℂ) 1 ∩ Metric.ball (⟨-1, 0⟩ : ℂ) 0.1)).toReal / (π * 0.1 ^ 2))| ≤ 2 / 10 ^ 8 := by
  have hpi := pi_pos
  have h90 : cos (90 * (π / 180)) = 0 := by rw [show 90 * (π / 180) = π / 2 by ring, cos_pi_div_two]
  have P : ∀ phase : ℝ, |phase| ≤ 1000 → _ := fun phase h =>
    C166_planet_fraction_rounding Libm.rounded rounded_accurate 1 10 0.1 phase 90 (by norm_num) (by norm_num) (by norm_num) (by norm_num) h (by norm_num [abs_of_pos]) (10 * sin (phase * (π / 180) - π)) 0
      √((10 * sin (phase * (π / 180) - π)) ^ 2 + 0 ^ 2) _ (by simp [planetPos, h90]) rfl rfl
  refine ⟨?_, ?_, ?_⟩
  · refine (P 0 (by norm_num)).2.2.1 (by simp; norm_num) (by norm_num) ?_
    simp
    norm_num
  · refine (P 180 (by norm_num [abs_of_pos])).1 ?_
    rw [show 180 * (π / 180) = π by ring, cos_pi]
    norm_num
  · have e : arcsin 0.1 * (180 / π) * (π / 180) = arcsin 0.1 := by field_simp
    have hX : 10 * sin (arcsin 0.1 * (180 / π) * (π / 180) - π) = -1 := by
      rw [e, sin_sub_pi, sin_arcsin (by norm_num) (by norm_num)]
      norm_num
    have ha : |arcsin 0.1| ≤ π / 2 := abs_le.mpr ⟨neg_pi_div_two_le_arcsin _, arcsin_le_pi_div_two _⟩
    have hb : |arcsin 0.1 * (180 / π)| ≤ 1000 := by
      rw [abs_mul, abs_of_pos (by positivity : 0 < 180 / π)]
      calc _ ≤ π / 2 * (180 / π) := by gcongr
        _ = 90 := by field_simp; norm_num
        _ ≤ _ := by norm_num
    have h := (P _ hb).2.2.2.1
    rw [hX, e, cos_arcsin] at h
    obtain ⟨v, h1, h2⟩ := h (by
      rw [le_sqrt' (by norm_num)]
      norm_num) (by norm_num) (by norm_num) (by norm_num) (by norm_num)
    refine ⟨v, h1, ?_⟩
    rw [div_one] at h2
    exact h2.trans (by norm_num)

end Vsm
