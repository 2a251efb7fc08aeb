import Verif.Props.DiskAccuracy2
import Verif.Props.SurfaceMap
import Verif.Props.Transit
import Verif.Lemmas.Ortho

/-!
# C100: accuracy of the covered fractions during a transit
-/

noncomputable section

namespace Vsm

open Real Spec MeasureTheory Np

/-! ### Geometry of the projection -/

theorem planetDist_eq_norm (X Y x y : ℝ) : planetDist X Y x y = ‖(⟨x, y⟩ : ℂ) - ⟨X, Y⟩‖ := by
  rw [planetDist, Complex.norm_def, Complex.normSq_apply]
  simp [sq]

theorem planetDist_nonneg (X Y x y : ℝ) : 0 ≤ planetDist X Y x y := sqrt_nonneg _

theorem abs_planetDist_sub (X Y x y x' y' : ℝ) :
    |planetDist X Y x y - planetDist X Y x' y'| ≤ √((x - x') ^ 2 + (y - y') ^ 2) := by
  have h := abs_norm_sub_norm_le ((⟨x, y⟩ : ℂ) - ⟨X, Y⟩) ((⟨x', y'⟩ : ℂ) - ⟨X, Y⟩)
  rw [planetDist_eq_norm, planetDist_eq_norm]
  refine h.trans (le_of_eq ?_)
  rw [sub_sub_sub_cancel_right, Complex.norm_def, Complex.normSq_apply]
  simp [sq]

/-- The orthographic projection does not increase distances. -/
theorem ortho_lip (lat0 lon0 φ l φ' l' : ℝ) :
    √((orthoX lat0 lon0 φ l - orthoX lat0 lon0 φ' l') ^ 2 + (orthoY lat0 lon0 φ l - orthoY lat0 lon0 φ' l') ^ 2) ≤
      greatCircle φ l φ' l' := by
  have h1 := ortho_sq lat0 lon0 φ l
  have h2 := ortho_sq lat0 lon0 φ' l'
  have hg : cos (greatCircle φ l φ' l') = sin φ * sin φ' + cos φ * cos φ' * cos (l - l') := by
    rw [greatCircle_eq, cos_arccos (cosExpr_mem _ _ _ _).1 (cosExpr_mem _ _ _ _).2]
  have h3 : orthoX lat0 lon0 φ l * orthoX lat0 lon0 φ' l' + orthoY lat0 lon0 φ l * orthoY lat0 lon0 φ' l' +
      cosDist lat0 lon0 φ l * cosDist lat0 lon0 φ' l' = cos (greatCircle φ l φ' l') := by
    rw [hg, cosDist, cosDist, inner_unitVec, inner_unitVec, orthoX, orthoX, orthoY, orthoY, ← cos_neg (lon0 - l), neg_sub,
      ← cos_neg (lon0 - l'), neg_sub, show l - l' = (l - lon0) - (l' - lon0) by ring, cos_sub (l - lon0)]
    have h := sin_sq_add_cos_sq lat0
    generalize sin lat0 = a at *
    generalize cos lat0 = b at *
    generalize sin φ = c at *
    generalize cos φ = d at *
    generalize sin φ' = c' at *
    generalize cos φ' = d' at *
    generalize sin (l - lon0) = e at *
    generalize cos (l - lon0) = f at *
    generalize sin (l' - lon0) = e' at *
    generalize cos (l' - lon0) = f' at *
    linear_combination (c * c' + d * f * d' * f') * h
  have h4 := one_sub_sq_div_two_le_cos (x := greatCircle φ l φ' l')
  refine sqrt_le_iff.mpr ⟨greatCircle_nonneg _ _ _ _, ?_⟩
  nlinarith [sq_nonneg (cosDist lat0 lon0 φ l - cosDist lat0 lon0 φ' l')]

/-- Points of the projection within `η` of the outline of the planet. -/
def annulus (X Y r η : ℝ) : Set (ℝ × ℝ) := {p | |planetDist X Y p.1 p.2 - r| ≤ η}

theorem annulus_measurable (X Y r η : ℝ) : MeasurableSet (annulus X Y r η) := by
  unfold annulus planetDist
  exact measurableSet_le (by fun_prop) measurable_const

theorem annulus_area (X Y r η : ℝ) (hη : 0 ≤ η) (S : Set (ℝ × ℝ)) : volume.real (annulus X Y r η ∩ S) ≤ 4 * π * η * max r η := by
  have hp := pi_pos
  have e1 : volume (annulus X Y r η) = volume {z : ℂ | |‖z - ⟨X, Y⟩‖ - r| ≤ η} := by
    rw [← (Complex.volume_preserving_equiv_real_prod).measure_preimage_equiv (annulus X Y r η)]
    congr 1
    ext z
    simp only [annulus, Set.mem_preimage, Set.mem_ofPred_eq, planetDist_eq_norm, Complex.measurableEquivRealProd_apply]
  have hsub : {z : ℂ | |‖z - ⟨X, Y⟩‖ - r| ≤ η} ⊆ Metric.closedBall ⟨X, Y⟩ (r + η) \ Metric.ball ⟨X, Y⟩ (r - η) := by
    intro z hz
    simp only [Set.mem_ofPred_eq, abs_le] at hz
    refine ⟨?_, ?_⟩
    · rw [mem_closedBall_iff_norm]; linarith [hz.2]
    · rw [mem_ball_iff_norm, not_lt]; linarith [hz.1]
  have hfin : ∀ x : ℝ, volume (Metric.closedBall (⟨X, Y⟩ : ℂ) x) ≠ ⊤ := fun x => measure_closedBall_lt_top.ne
  have hle : volume.real (annulus X Y r η ∩ S) ≤
      volume.real (Metric.closedBall (⟨X, Y⟩ : ℂ) (r + η) \ Metric.ball ⟨X, Y⟩ (r - η)) := by
    rw [measureReal_def, measureReal_def]
    refine ENNReal.toReal_mono (ne_top_of_le_ne_top (hfin (r + η)) (measure_mono Set.sdiff_subset)) ?_
    exact (measure_mono Set.inter_subset_left).trans (e1.le.trans (measure_mono hsub))
  refine hle.trans ?_
  rcases lt_or_ge (r + η) 0 with hneg | hpos
  · rw [Metric.closedBall_eq_empty.mpr hneg]
    have : 0 ≤ max r η := hη.trans (le_max_right _ _)
    simp; positivity
  have hcb : volume.real (Metric.closedBall (⟨X, Y⟩ : ℂ) (r + η)) = π * (r + η) ^ 2 := by
    rw [measureReal_def, Complex.volume_closedBall, ENNReal.toReal_mul, ENNReal.toReal_pow, ENNReal.toReal_ofReal hpos]
    simp [mul_comm]
  have hb : volume.real (Metric.ball (⟨X, Y⟩ : ℂ) (r - η)) = π * (max (r - η) 0) ^ 2 := by
    rw [measureReal_def, Complex.volume_ball, ENNReal.toReal_mul, ENNReal.toReal_pow]
    simp [mul_comm, ENNReal.toReal_ofReal']
  rw [measureReal_sdiff (Metric.ball_subset_closedBall.trans (Metric.closedBall_subset_closedBall (by linarith)))
    measurableSet_ball (hfin _), hcb, hb]
  rcases le_total r η with h | h
  · rw [max_eq_right (by linarith : r - η ≤ 0), max_eq_right h]
    have : (r + η) ^ 2 ≤ 4 * η ^ 2 := by nlinarith
    nlinarith
  · rw [max_eq_left (by linarith : 0 ≤ r - η), max_eq_left h]
    nlinarith

/-! ### Sums of arbitrary pixel values -/

/-- Pixel values against the integral of a function: the error is the integral of a bound of the pointwise error. -/
theorem pixel_sum (nlat nlon : ℕ) (hlat : 3 ≤ nlat) (hlon : 1 ≤ nlon) (a : (Grid.rect nlat nlon).Pix → ℝ)
    (ha : ∀ p, (Grid.rect nlat nlon).area p = .fin (a p)) (g : ℝ → ℝ → ℝ) (hg : Measurable fun x : ℝ × ℝ => g x.2 x.1)
    (hper : ∀ φ l, g φ (l + 2 * π) = g φ l) (M : ℝ) (hM : ∀ φ l, |g φ l| ≤ M) (e : ℝ × ℝ → ℝ)
    (he : Integrable e (sphM (-(π / nlon)))) (he0 : ∀ x, 0 ≤ e x) (v : (Grid.rect nlat nlon).Pix → ℝ)
    (hv : ∀ p, ∀ x : ℝ × ℝ, greatCircle x.2 x.1 ((Grid.rect nlat nlon).lat p) ((Grid.rect nlat nlon).lon p) ≤
      π / (nlat - 1) / 2 + π / nlon → |v p - g x.2 x.1| ≤ e x) :
    |4 * π * cos (π / (nlat - 1) / 2) * ∑ p, a p * v p - sphereInt g| ≤ ∫ x, e x ∂sphM (-(π / nlon)) +
      4 * π * M * (1 - cos (π / (nlat - 1) / 2)) := by
  classical
  have hgi := sphM_integrable (-(π / nlon)) _ hg M (fun x => hM _ _)
  have key := cell_sum (sphM (-(π / nlon))) (cell nlat nlon) (cell_measurable nlat nlon) (cell_disjoint nlat nlon hlat hlon)
    (fun x => g x.2 x.1) e hgi he he0 v (fun p x hx => hv p x (cell_near nlat nlon hlat hlon p x hx)) M (fun x => hM _ _)
  rw [sphM_sphereInt _ g hgi hper, sphM_real_univ] at key
  simp only [cell_area nlat nlon hlat hlon a ha] at key
  rw [← Finset.mul_sum] at key
  obtain ⟨a', ha', -, hone, -⟩ := C02_area_partition (.rect nlat nlon) ⟨hlat, hlon⟩
  have haa : a' = a := by funext p; have := ha p; rw [ha' p, Fl.fin_inj] at this; exact this
  subst haa
  rw [hone] at key
  simp only [mul_assoc] at key ⊢
  rw [← Finset.mul_sum, ← Finset.mul_sum, ← Finset.mul_sum] at key
  refine key.trans (le_of_eq ?_)
  ring

/-- Total area of the neighbourhoods of the outlines of caps. -/
theorem rings_integral (b ρ : ℝ) (hρ : 0 ≤ ρ) (cs : List (ℝ × ℝ × ℝ)) :
    Integrable (fun x : ℝ × ℝ => (cs.map fun k => nearRing k.1 k.2.1 k.2.2 ρ x.2 x.1).sum) (sphM b) ∧
      ∫ x, (cs.map fun k => nearRing k.1 k.2.1 k.2.2 ρ x.2 x.1).sum ∂sphM b ≤ cs.length * (4 * π * ρ) := by
  have hri : ∀ k : ℝ × ℝ × ℝ, Integrable (fun x : ℝ × ℝ => nearRing k.1 k.2.1 k.2.2 ρ x.2 x.1) (sphM b) := fun k =>
    sphM_integrable _ _ (nearRing_measurable _ _ _ _) 1 fun x => by
      rw [abs_of_nonneg (nearRing_nonneg _ _ _ _ _ _)]; exact nearRing_le_one _ _ _ _ _ _
  induction cs with
  | nil => simp
  | cons k cs ih =>
    simp only [List.map_cons, List.sum_cons]
    refine ⟨(hri k).add ih.1, ?_⟩
    rw [integral_add (hri k) ih.1]
    have h1 : ∫ x, nearRing k.1 k.2.1 k.2.2 ρ x.2 x.1 ∂sphM b ≤ 4 * π * ρ := by
      rw [sphM_sphereInt _ (nearRing k.1 k.2.1 k.2.2 ρ) (hri k)
        (fun φ l => by unfold nearRing; rw [greatCircle_periodic])]
      exact nearRing_area _ _ _ _ hρ
    have := ih.2
    push_cast [List.length_cons]
    linarith

theorem cosDist_eq (lat0 lon0 φ l : ℝ) : cosDist lat0 lon0 φ l = cos (greatCircle lat0 lon0 φ l) := by
  rw [greatCircle_eq, cos_arccos (cosExpr_mem _ _ _ _).1 (cosExpr_mem _ _ _ _).2, cosDist, inner_unitVec]

theorem orthoX_periodic (lat0 lon0 φ l : ℝ) : orthoX lat0 lon0 φ (l + 2 * π) = orthoX lat0 lon0 φ l := by
  rw [orthoX, orthoX, show l + 2 * π - lon0 = l - lon0 + 2 * π by ring, sin_add_two_pi]

theorem orthoY_periodic (lat0 lon0 φ l : ℝ) : orthoY lat0 lon0 φ (l + 2 * π) = orthoY lat0 lon0 φ l := by
  rw [orthoY, orthoY, show l + 2 * π - lon0 = l - lon0 + 2 * π by ring, cos_add_two_pi]

open Classical in
/-- Projected area of the neighbourhood of the outline of the planet. -/
def planetRing (lat0 lon0 X Y rp η φ l : ℝ) : ℝ :=
  if (orthoX lat0 lon0 φ l, orthoY lat0 lon0 φ l) ∈ annulus X Y rp η then max (cosDist lat0 lon0 φ l) 0 else 0

theorem planetRing_nonneg (lat0 lon0 X Y rp η φ l : ℝ) : 0 ≤ planetRing lat0 lon0 X Y rp η φ l := by
  unfold planetRing; split_ifs <;> positivity

theorem planetRing_le_one (lat0 lon0 X Y rp η φ l : ℝ) : planetRing lat0 lon0 X Y rp η φ l ≤ 1 := by
  unfold planetRing; split_ifs
  · rw [cosDist_eq]; exact max_le (cos_le_one _) zero_le_one
  · exact zero_le_one

theorem ortho_measurable (lat0 lon0 : ℝ) :
    Measurable fun x : ℝ × ℝ => (orthoX lat0 lon0 x.2 x.1, orthoY lat0 lon0 x.2 x.1) := by
  unfold orthoX orthoY; fun_prop

theorem planetRing_integral (b lat0 lon0 X Y rp η : ℝ) (hη : 0 ≤ η) :
    Integrable (fun x : ℝ × ℝ => planetRing lat0 lon0 X Y rp η x.2 x.1) (sphM b) ∧
      ∫ x, planetRing lat0 lon0 X Y rp η x.2 x.1 ∂sphM b ≤ 4 * π * η * max rp η := by
  have hm : Measurable fun x : ℝ × ℝ => planetRing lat0 lon0 X Y rp η x.2 x.1 := by
    unfold planetRing
    refine Measurable.ite ((annulus_measurable X Y rp η).preimage (ortho_measurable lat0 lon0)) ?_ measurable_const
    simp only [cosDist, inner_unitVec]
    fun_prop
  have hi := sphM_integrable b _ hm 1 (fun x => by
    rw [abs_of_nonneg (planetRing_nonneg _ _ _ _ _ _ _ _)]; exact planetRing_le_one _ _ _ _ _ _ _ _)
  refine ⟨hi, ?_⟩
  rw [sphM_sphereInt b (planetRing lat0 lon0 X Y rp η) hi (fun φ l => by
    unfold planetRing; rw [orthoX_periodic, orthoY_periodic, cosDist_eq, cosDist_eq, greatCircle_periodic])]
  have := ortho_area lat0 lon0 (annulus X Y rp η) (annulus_measurable X Y rp η)
  unfold planetRing
  rw [this]
  exact annulus_area X Y rp η hη _

/-! ### What the planet truly hides -/

/-- The planet stands in front of the point: it is on the near side of the star and its disk covers the orthographic
picture of the point. -/
def Spec.behindPlanet (R orbit r phase incl lat0 lon0 φ l : ℝ) : Prop :=
  cos phase ≤ 0 ∧ planetDist (planetPos R orbit phase incl).1 (planetPos R orbit phase incl).2
    (orthoX lat0 lon0 φ l) (orthoY lat0 lon0 φ l) < r / R

open Classical in
/-- Share of the light of the disk that comes from points of temperature `T` and is blocked by the planet. -/
def Spec.trueCovered (spots : List StarSpot) (R teff u1 u2 lat0 lon0 orbit r phase incl T : ℝ) : ℝ :=
  sphereInt (fun φ l => if trueTemp spots R teff φ l = T ∧ behindPlanet R orbit r phase incl lat0 lon0 φ l
    then intensity u1 u2 lat0 lon0 φ l else 0) / sphereInt (intensity u1 u2 lat0 lon0)

/-- The bound on the error of the covered shares: that of the shares and, for the outline of the planet, its length
times a width `η` made of one and a half grid spacings and of the rounding in the projection. -/
def Spec.coverError (n nlat nlon : ℕ) (u1 u2 rp : ℝ) : ℝ :=
  let η := 3 / 2 * (π / (nlat - 1) + 2 * π / nlon) + 0.0101
  shareError n nlat nlon u1 u2 + 4 * η * max rp η / (1 - u1 / 3 - u2 / 6)

theorem light_le_mu {u1 u2 x : ℝ} (h : PhysicalLD u1 u2) (hx : x ≤ 1) : lightAt u1 u2 x ≤ max x 0 := by
  unfold lightAt
  rcases le_total x 0 with hx0 | hx0
  · rw [max_eq_right hx0, mul_zero]
  · rw [max_eq_left hx0]
    have := (ld_range h hx0 hx).2
    nlinarith

theorem intensity_lip {u1 u2 : ℝ} (hld : PhysicalLD u1 u2) (lat0 lon0 φ l φ' l' ρ : ℝ) (hd : greatCircle φ l φ' l' ≤ ρ) :
    |intensity u1 u2 lat0 lon0 φ' l' - intensity u1 u2 lat0 lon0 φ l| ≤ 3 * ρ := by
  rw [intensity_eq, intensity_eq]
  refine (lightAt_lip hld (cos_le_one _) (cos_le_one _)).trans ?_
  have := abs_mu_sub lat0 lon0 φ' l' φ l
  rw [greatCircle_comm φ' l' φ l] at this
  linarith

/-- A pixel whose cover `c` is right away from the outline of the planet reports, for a point within `ρ`, a hidden light
that is off by at most `3ρ`, unless the point is near that outline. -/
theorem cover_pointwise {u1 u2 : ℝ} (hld : PhysicalLD u1 u2) (lat0 lon0 X Y rp ρ : ℝ) (hρ0 : 0 ≤ ρ) (φ l φ' l' c : ℝ)
    (hd : greatCircle φ l φ' l' ≤ ρ) (hc01 : 0 ≤ c ∧ c ≤ 1)
    (hc : 0 ≤ cosDist lat0 lon0 φ' l' →
      (rp + 2 * ρ + 0.0101 < planetDist X Y (orthoX lat0 lon0 φ' l') (orthoY lat0 lon0 φ' l') → c = 0) ∧
      (planetDist X Y (orthoX lat0 lon0 φ' l') (orthoY lat0 lon0 φ' l') + 2 * ρ + 0.0101 < rp → c = 1)) :
    |intensity u1 u2 lat0 lon0 φ' l' * c - (if planetDist X Y (orthoX lat0 lon0 φ l) (orthoY lat0 lon0 φ l) < rp
      then intensity u1 u2 lat0 lon0 φ l else 0)| ≤ 3 * ρ + planetRing lat0 lon0 X Y rp (3 * ρ + 0.0101) φ l := by
  have hl := abs_le.mp (intensity_lip hld lat0 lon0 φ l φ' l' ρ hd)
  have hrange : ∀ φ l, 0 ≤ intensity u1 u2 lat0 lon0 φ l ∧ intensity u1 u2 lat0 lon0 φ l ≤ 1 :=
    fun φ l => lightAt_range hld (cos_le_one _)
  have hpr := planetRing_nonneg lat0 lon0 X Y rp (3 * ρ + 0.0101) φ l
  obtain ⟨i0, i1⟩ := hrange φ' l'
  obtain ⟨j0, j1⟩ := hrange φ l
  obtain ⟨c0, c1⟩ := hc01
  by_cases hring : |planetDist X Y (orthoX lat0 lon0 φ l) (orthoY lat0 lon0 φ l) - rp| ≤ 3 * ρ + 0.0101
  · have hval : intensity u1 u2 lat0 lon0 φ l ≤ planetRing lat0 lon0 X Y rp (3 * ρ + 0.0101) φ l := by
      unfold planetRing
      rw [if_pos (show _ ∈ annulus X Y rp _ from hring), intensity_eq, cosDist_eq]
      exact light_le_mu hld (cos_le_one _)
    have h1 : intensity u1 u2 lat0 lon0 φ' l' * c ≤ intensity u1 u2 lat0 lon0 φ' l' := mul_le_of_le_one_right i0 c1
    have h2 : 0 ≤ intensity u1 u2 lat0 lon0 φ' l' * c := mul_nonneg i0 c0
    rw [abs_le]
    split_ifs <;> constructor <;> linarith [hl.1, hl.2]
  · rw [not_le] at hring
    have hinv : ∀ φ' l', cosDist lat0 lon0 φ' l' ≤ 0 → intensity u1 u2 lat0 lon0 φ' l' = 0 := by
      intro φ' l' h
      rw [intensity_eq, ← cosDist_eq, lightAt, max_eq_right h, mul_zero]
    refine le_trans ?_ (le_add_of_nonneg_right hpr)
    by_cases hvis : cosDist lat0 lon0 φ' l' ≤ 0
    · rw [hinv _ _ hvis] at hl ⊢
      rw [zero_mul, zero_sub, abs_neg]
      split_ifs
      · rw [abs_of_nonneg j0]; linarith [hl.1]
      · rw [abs_zero]; positivity
    by_cases hvis' : cosDist lat0 lon0 φ l ≤ 0
    · rw [hinv _ _ hvis'] at hl ⊢
      rw [ite_self, sub_zero, abs_of_nonneg (mul_nonneg i0 c0)]
      have h1 : intensity u1 u2 lat0 lon0 φ' l' * c ≤ intensity u1 u2 lat0 lon0 φ' l' := mul_le_of_le_one_right i0 c1
      linarith [hl.2]
    rw [not_le] at hvis
    obtain ⟨k1, k2⟩ := hc hvis.le
    have hdd := abs_le.mp ((abs_planetDist_sub X Y (orthoX lat0 lon0 φ l) (orthoY lat0 lon0 φ l)
      (orthoX lat0 lon0 φ' l') (orthoY lat0 lon0 φ' l')).trans ((ortho_lip lat0 lon0 φ l φ' l').trans hd))
    rcases lt_abs.mp hring with h | h
    · rw [k1 (by linarith [hdd.2]), if_neg (by linarith), mul_zero, sub_zero, abs_zero]
      positivity
    · rw [k2 (by linarith [hdd.1]), if_pos (by linarith), mul_one]
      exact abs_le.mpr hl

theorem cover_num {E ρ η M c : ℝ} {n : ℕ} (h : E ≤ 4 * π * (3 * ρ) + (2 * n : ℕ) * (4 * π * ρ) + 4 * π * η * M) (hc : 1 - c ≤ ρ / 2) :
    E + 4 * π * 1 * (1 - c) + (4 * π * (3 * ρ) + 4 * π * 1 * (1 - c)) ≤ ((14 + 4 * (n : ℝ)) * (2 * ρ) + 4 * η * M) * π := by
  push_cast at h
  have := mul_le_mul_of_nonneg_left hc pi_pos.le
  linarith

open Classical in
theorem covered_accuracy (nlat nlon : ℕ) (hlat : 3 ≤ nlat) (hlon : 1 ≤ nlon) (a : (Grid.rect nlat nlon).Pix → ℝ)
    (ha : ∀ p, (Grid.rect nlat nlon).area p = .fin (a p)) (spots : List StarSpot) (R T u1 u2 lat0 lon0 : ℝ) (hR : 0 < R)
    (hld : PhysicalLD u1 u2) (hs : ∀ s ∈ spots, GoodSpot s R) (m : (Grid.rect nlat nlon).Pix → ℝ)
    (hm : ∀ p, IsLeast (tempsAt spots (.rect nlat nlon) R T p) (m p)) (w : (Grid.rect nlat nlon).Pix → ℝ)
    (hw : ∀ p, w p = a p * intensity u1 u2 lat0 lon0 ((Grid.rect nlat nlon).lat p) ((Grid.rect nlat nlon).lon p))
    (hW : 0 < ∑ p, w p) (X Y rp : ℝ) (c : (Grid.rect nlat nlon).Pix → ℝ) (hc01 : ∀ p, 0 ≤ c p ∧ c p ≤ 1)
    (hc : ∀ p, 0 ≤ cosDist lat0 lon0 ((Grid.rect nlat nlon).lat p) ((Grid.rect nlat nlon).lon p) →
      (rp + (π / (nlat - 1) + 2 * π / nlon) + 0.0101 < planetDist X Y (orthoX lat0 lon0 ((Grid.rect nlat nlon).lat p)
        ((Grid.rect nlat nlon).lon p)) (orthoY lat0 lon0 ((Grid.rect nlat nlon).lat p) ((Grid.rect nlat nlon).lon p)) → c p = 0) ∧
      (planetDist X Y (orthoX lat0 lon0 ((Grid.rect nlat nlon).lat p) ((Grid.rect nlat nlon).lon p)) (orthoY lat0 lon0
        ((Grid.rect nlat nlon).lat p) ((Grid.rect nlat nlon).lon p)) + (π / (nlat - 1) + 2 * π / nlon) + 0.0101 < rp → c p = 1))
    (t : ℝ) :
    |share w m c t - sphereInt (fun φ l => if trueTemp spots R T φ l = t ∧
        planetDist X Y (orthoX lat0 lon0 φ l) (orthoY lat0 lon0 φ l) < rp then intensity u1 u2 lat0 lon0 φ l else 0) /
      sphereInt (intensity u1 u2 lat0 lon0)| ≤ coverError spots.length nlat nlon u1 u2 rp := by
  have hp := pi_pos
  obtain ⟨hδ0, hδ2, hδ, hcc, harea⟩ := rect_area_sin nlat nlon hlat hlon
  have hn : (0 : ℝ) < nlon := by exact_mod_cast hlon
  set δ : ℝ := π / (nlat - 1) with hδdef
  set ρ : ℝ := δ / 2 + π / nlon with hρ
  have hρ2 : δ + 2 * π / nlon = 2 * ρ := by rw [hρ]; ring
  have hρ0 : 0 ≤ ρ := by positivity
  rw [hρ2] at hc
  set η : ℝ := 3 * ρ + 0.0101 with hη
  have hη0 : 0 ≤ η := by positivity
  set I := intensity u1 u2 lat0 lon0 with hI
  have hrange : ∀ φ l, 0 ≤ I φ l ∧ I φ l ≤ 1 := fun φ l => lightAt_range hld (cos_le_one _)
  have hIm : Measurable fun x : ℝ × ℝ => I x.2 x.1 := by
    have := greatCircle_measurable lat0 lon0
    rw [hI]; unfold intensity quadraticLaw; fun_prop
  have hlip : ∀ φ l φ' l' ρ, greatCircle φ l φ' l' ≤ ρ → |I φ' l' - I φ l| ≤ 3 * ρ := intensity_lip hld lat0 lon0
  set D : ℝ → ℝ → ℝ := fun φ l => planetDist X Y (orthoX lat0 lon0 φ l) (orthoY lat0 lon0 φ l) with hD
  have hDm : Measurable fun x : ℝ × ℝ => D x.2 x.1 := by
    rw [hD]; unfold planetDist orthoX orthoY; fun_prop
  set G : ℝ → ℝ → ℝ := fun φ l => if trueTemp spots R T φ l = t ∧ D φ l < rp then I φ l else 0 with hG
  have hGr : ∀ φ l, 0 ≤ G φ l ∧ G φ l ≤ 1 := by
    intro φ l; simp only [hG]; split_ifs
    · exact hrange φ l
    · exact ⟨le_rfl, zero_le_one⟩
  have hGm : Measurable fun x : ℝ × ℝ => G x.2 x.1 :=
    Measurable.ite (((trueTemp_measurable spots R T hR hs) (measurableSet_singleton t)).inter
      (measurableSet_lt hDm measurable_const)) hIm measurable_const
  have hIp : ∀ φ l, I φ (l + 2 * π) = I φ l := by
    intro φ l; simp only [hI, intensity, greatCircle_periodic]
  have hGp : ∀ φ l, G φ (l + 2 * π) = G φ l := by
    intro φ l; simp only [hG, hD, trueTemp_periodic, hIp, orthoX_periodic, orthoY_periodic]
  set lat := (Grid.rect nlat nlon).lat
  set lon := (Grid.rect nlat nlon).lon
  have hmT : ∀ p, trueTemp spots R T (lat p) (lon p) = m p := fun p =>
    trueTemp_pixel spots (.rect nlat nlon) R T hR hs p (m p) (hm p)
  -- numerator
  set v : (Grid.rect nlat nlon).Pix → ℝ := fun p => if m p = t then I (lat p) (lon p) * c p else 0 with hv
  have hv01 : ∀ p, 0 ≤ v p ∧ v p ≤ 1 := by
    intro p; simp only [hv]
    split_ifs
    · obtain ⟨i0, i1⟩ := hrange (lat p) (lon p)
      obtain ⟨c0, c1⟩ := hc01 p
      exact ⟨mul_nonneg i0 c0, by nlinarith⟩
    · exact ⟨le_rfl, zero_le_one⟩
  obtain ⟨ri1, ri2⟩ := rings_integral (-(π / nlon)) ρ hρ0 (outlines spots R)
  obtain ⟨pi1, pi2⟩ := planetRing_integral (-(π / nlon)) lat0 lon0 X Y rp η hη0
  set e : ℝ × ℝ → ℝ := fun x => 3 * ρ + ((outlines spots R).map fun k => nearRing k.1 k.2.1 k.2.2 ρ x.2 x.1).sum +
    planetRing lat0 lon0 X Y rp η x.2 x.1 with he
  have hei : Integrable e (sphM (-(π / nlon))) := ((integrable_const _).add ri1).add pi1
  have hnn : ∀ φ l, ∀ y ∈ (outlines spots R).map fun k => nearRing k.1 k.2.1 k.2.2 ρ φ l, 0 ≤ y := by
    intro φ l y hy
    obtain ⟨k, -, rfl⟩ := List.mem_map.mp hy
    exact nearRing_nonneg _ _ _ _ _ _
  have he0 : ∀ x, 0 ≤ e x := fun x => by
    have h1 := List.sum_nonneg (hnn x.2 x.1)
    have h2 := planetRing_nonneg lat0 lon0 X Y rp η x.2 x.1
    simp only [he]; positivity
  have hpt : ∀ p, ∀ x : ℝ × ℝ, greatCircle x.2 x.1 (lat p) (lon p) ≤ ρ → |v p - G x.2 x.1| ≤ e x := by
    rintro p ⟨l, φ⟩ hd
    simp only at hd ⊢
    have hsum := List.sum_nonneg (hnn φ l)
    have hpr := planetRing_nonneg lat0 lon0 X Y rp η φ l
    simp only [he]
    by_cases hno : ∀ k ∈ outlines spots R, ρ < |greatCircle k.1 k.2.1 φ l - k.2.2|
    · have ht : trueTemp spots R T (lat p) (lon p) = trueTemp spots R T φ l :=
        trueTemp_const spots R T hR hs φ l (lat p) (lon p) ρ hd hno
      suffices hmain : |v p - G φ l| ≤ 3 * ρ + planetRing lat0 lon0 X Y rp η φ l by linarith
      rw [hmT] at ht
      simp only [hv, hG, ← ht]
      by_cases hmt : m p = t
      swap
      · simp only [hmt, false_and, if_false, sub_zero, abs_zero]; linarith
      simp only [hmt, true_and, if_true]
      exact cover_pointwise hld lat0 lon0 X Y rp ρ hρ0 φ l (lat p) (lon p) (c p) hd (hc01 p) (hc p)
    · push Not at hno
      obtain ⟨k, hk, hk'⟩ := hno
      have h1 : 1 ≤ ((outlines spots R).map fun k => nearRing k.1 k.2.1 k.2.2 ρ φ l).sum := by
        have h2 : (1 : ℝ) ∈ (outlines spots R).map fun k => nearRing k.1 k.2.1 k.2.2 ρ φ l :=
          List.mem_map.mpr ⟨k, hk, by unfold nearRing; rw [if_pos hk']⟩
        exact List.single_le_sum (hnn φ l) _ h2
      have : |v p - G φ l| ≤ 1 :=
        abs_le.mpr ⟨by linarith [(hv01 p).1, (hGr φ l).2], by linarith [(hv01 p).2, (hGr φ l).1]⟩
      linarith
  have kn := pixel_sum nlat nlon hlat hlon a ha G hGm hGp 1
    (fun φ l => abs_le.mpr ⟨by linarith [(hGr φ l).1], (hGr φ l).2⟩) e hei he0 v hpt
  have heI : ∫ x, e x ∂sphM (-(π / nlon)) ≤ 4 * π * (3 * ρ) + (2 * spots.length : ℕ) * (4 * π * ρ) + 4 * π * η * max rp η := by
    simp only [he]
    have ci : Integrable (fun x : ℝ × ℝ => 3 * ρ + ((outlines spots R).map fun k => nearRing k.1 k.2.1 k.2.2 ρ x.2 x.1).sum)
        (sphM (-(π / nlon))) := (integrable_const _).add ri1
    rw [integral_add ci pi1, integral_add (integrable_const _) ri1, integral_const,
      sphM_real_univ, smul_eq_mul]
    rw [outlines_length] at ri2
    linarith
  -- denominator
  have kd := pixel_sum nlat nlon hlat hlon a ha I hIm hIp 1
    (fun φ l => abs_le.mpr ⟨by linarith [(hrange φ l).1], (hrange φ l).2⟩) (fun _ => 3 * ρ) (integrable_const _)
    (fun _ => by positivity) (fun p => I (lat p) (lon p)) (fun p x hd => hlip _ _ _ _ _ hd)
  rw [integral_const, sphM_real_univ, smul_eq_mul] at kd
  obtain ⟨hd1, hd2⟩ := intensity_total hld lat0 lon0
  rw [← hδdef] at kn kd
  have hcpos : 0 < 4 * π * cos (δ / 2) := by positivity
  have hsumG : ∑ p, a p * v p = ∑ p, if m p = t then w p * c p else 0 := by
    refine Finset.sum_congr rfl fun p _ => ?_
    simp only [hv, hw p]
    split_ifs
    · ring
    · ring
  have hsumI : ∑ p, a p * I (lat p) (lon p) = ∑ p, w p := Finset.sum_congr rfl fun p _ => (hw p).symm
  rw [hsumG] at kn
  rw [hsumI] at kd
  obtain ⟨a', ha', hann, -, -⟩ := C02_area_partition (.rect nlat nlon) ⟨hlat, hlon⟩
  have haa : a' = a := by funext p; have := ha p; rw [ha' p, Fl.fin_inj] at this; exact this
  subst haa
  have hw0 : ∀ p, 0 ≤ w p := fun p => by rw [hw p]; exact mul_nonneg (hann p) (hrange _ _).1
  set N := ∑ p, (if m p = t then w p * c p else 0) with hN
  have hN0 : 0 ≤ N := Finset.sum_nonneg fun p _ => by
    split_ifs; exacts [mul_nonneg (hw0 p) (hc01 p).1, le_rfl]
  have hND : N ≤ ∑ p, w p := Finset.sum_le_sum fun p _ => by
    split_ifs; exacts [mul_le_of_le_one_right (hw0 p) (hc01 p).2, hw0 p]
  have key := ratio_error (mul_pos hcpos hW) (by linarith : 0 < sphereInt I)
    (mul_nonneg hcpos.le hN0) (mul_le_mul_of_nonneg_left hND hcpos.le) kn kd
  have hshare : 4 * π * cos (δ / 2) * N / (4 * π * cos (δ / 2) * ∑ p, w p) = share w m c t := by
    rw [mul_div_mul_left _ _ hcpos.ne', share]
  rw [hshare] at key
  refine key.trans ?_
  rw [hd1]
  simp only [coverError, shareError]
  rw [← hδdef, hρ2, show 3 / 2 * (2 * ρ) + 0.0101 = η by rw [hη]; ring]
  have hcos := one_sub_sq_div_two_le_cos (x := δ / 2)
  have hnp : 0 < π / nlon := by positivity
  have hone : 1 - cos (δ / 2) ≤ ρ / 2 := by
    have : δ ^ 2 / 8 ≤ δ / 4 := by nlinarith [pi_le_four]
    have h3 : δ / 2 ≤ ρ := by rw [hρ]; linarith
    linarith
  have hden : 0 < 1 - u1 / 3 - u2 / 6 := by
    obtain ⟨x, y, z⟩ := hld; linarith
  rw [← add_div, div_le_div_iff₀ (by positivity) hden]
  have hnum : ∫ x, e x ∂sphM (-(π / nlon)) + 4 * π * 1 * (1 - cos (δ / 2)) + (4 * π * (3 * ρ) + 4 * π * 1 * (1 - cos (δ / 2))) ≤
      ((14 + 4 * (spots.length : ℝ)) * (2 * ρ) + 4 * η * max rp η) * π := by
    exact cover_num heI hone
  calc _ ≤ ((14 + 4 * (spots.length : ℝ)) * (2 * ρ) + 4 * η * max rp η) * π * (1 - u1 / 3 - u2 / 6) :=
        mul_le_mul_of_nonneg_right hnum hden.le
    _ = _ := by ring

end Vsm
