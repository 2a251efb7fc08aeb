import Verif.Props.TransitAccuracy2
import Verif.Props.Circle

/-!
# C101: transit depth

The covered fractions of `calc_coverage` add up to the depth of the transit: the integral of the limb-darkening law over
the part of the stellar disk behind the planet, divided by the integral over the whole disk.
-/

open Real MeasureTheory Vsm.Np Vsm.Spec

noncomputable section

namespace Vsm

open Classical in
/-- Depth of the transit of a planet of radius `rp` at `(X, Y)` (in stellar radii) for the quadratic limb-darkening law. -/
def Spec.transitDepth (u1 u2 X Y rp : ℝ) : ℝ :=
  (∫ p in {p : ℝ × ℝ | p.1 ^ 2 + p.2 ^ 2 < 1}, if planetDist X Y p.1 p.2 < rp
    then quadraticLaw u1 u2 √(1 - p.1 ^ 2 - p.2 ^ 2) else 0) / (π * (1 - u1 / 3 - u2 / 6))

theorem depth_eq {u1 u2 : ℝ} (hld : PhysicalLD u1 u2) (lat0 lon0 X Y rp : ℝ) :
    sphereInt (fun φ l => open Classical in if planetDist X Y (orthoX lat0 lon0 φ l) (orthoY lat0 lon0 φ l) < rp
      then intensity u1 u2 lat0 lon0 φ l else 0) / sphereInt (intensity u1 u2 lat0 lon0) = transitDepth u1 u2 X Y rp := by
  classical
  rw [(intensity_total hld lat0 lon0).1, transitDepth]
  congr 1
  have hs : ∀ p : ℝ × ℝ, 0 ≤ √(1 - p.1 ^ 2 - p.2 ^ 2) ∧ √(1 - p.1 ^ 2 - p.2 ^ 2) ≤ 1 := fun p =>
    ⟨sqrt_nonneg _, by rw [sqrt_le_left zero_le_one]; nlinarith [sq_nonneg p.1, sq_nonneg p.2]⟩
  rw [← ortho_integral lat0 lon0]
  · congr 1
    funext φ l
    simp only
    split_ifs
    · rw [intensity_eq, ← cosDist_eq, lightAt, mul_comm]
      rcases le_total (cosDist lat0 lon0 φ l) 0 with h | h
      · rw [max_eq_right h, zero_mul, zero_mul]
      · congr 2
        have := ortho_sq lat0 lon0 φ l
        rw [show 1 - orthoX lat0 lon0 φ l ^ 2 - orthoY lat0 lon0 φ l ^ 2 = cosDist lat0 lon0 φ l ^ 2 by linarith, sqrt_sq h]
    · rw [mul_zero]
  · refine Measurable.ite (measurableSet_lt ?_ measurable_const) ?_ measurable_const
    · unfold planetDist; fun_prop
    · unfold quadraticLaw; fun_prop
  · intro p
    split_ifs
    · exact (ld_range hld (hs p).1 (hs p).2).1
    · exact le_rfl
  · intro p
    split_ifs
    · exact (ld_range hld (hs p).1 (hs p).2).2
    · exact zero_le_one

/-- **C101** For every star on a rectangular grid – with any spots and faculae – the covered fractions reported by
`calc_coverage` add up to the depth of the transit for the quadratic limb-darkening law, up to the error of grid and
projection; when the planet is on the far side they add up to zero. -/
theorem C101_transit_depth (s : Star) (nlat nlon : ℕ) (hgrid : s.grid = .rect nlat nlon) (hlat : 4 ≤ nlat) (hlon : 3 ≤ nlon)
    (hR : 0 < s.radius) (hld : PhysicalLD s.u1 s.u2) (lat0 lon0 : ℝ)
    (h0 : lat0 ∈ Set.Icc (-(π / 2)) (π / 2)) (hpole : lat0 ∈ Set.Ioo (-(π / 2)) (π / 2) ∨ ∃ k : ℤ, lon0 = k * (2 * π))
    (g orbit r phase incl : ℝ) (total cov : Dict ℤ Fl) (plf : Fl)
    (h : s.calcCoverage lat0 lon0 g orbit r phase incl = .ok (total, cov, plf)) (m : s.grid.Pix → ℝ)
    (hm : s.addFaculaeToMap lat0 lon0 = .ok m) (gr : Granulation) (hgr : s.granulation = some gr)
    (hsep : ∀ T ∈ Set.range m ∪ {s.teff, s.teff - gr.dteff}, ∀ T' ∈ Set.range m ∪ {s.teff, s.teff - gr.dteff}, T ≠ T' → 1 / 100 < |T - T'|)
    (X Y : ℝ) (hXY : (X, Y) = planetPos s.radius orbit phase incl) :
    ∃ S : ℝ, (Dict.values cov).sum = .fin S ∧ (0 < cos phase → S = 0) ∧
      (cos phase ≤ 0 → |S - transitDepth s.u1 s.u2 X Y (r / s.radius)| ≤ coverError 0 nlat nlon s.u1 s.u2 (r / s.radius)) := by
  classical
  have hg : goodGrid s.grid := by rw [hgrid]; exact ⟨by omega, by omega⟩
  obtain ⟨a, ha, -⟩ := C02_area_partition s.grid hg
  obtain ⟨-, hW⟩ := visible_pos s hg hld ha (visible_rect s hgrid hlat hlon lat0 lon0)
  have hw : ∀ p, s.weight lat0 lon0 p = .fin (pixelWeight s a lat0 lon0 p) := weight_eq s a ha lat0 lon0
  obtain ⟨m', mask, gr', hm', ht, hgr', h1, h2⟩ := calcCoverage_ok.mp h
  rw [hm, Except.ok.injEq] at hm'
  subst hm'
  rw [hgr, Option.some.injEq] at hgr'
  subst hgr'
  obtain ⟨c, rfl, -⟩ := mask_real hg hR.ne' h0 ht
  have hinj : ∀ T T', (T ∈ Set.range m ∨ T = s.teff ∨ T = s.teff - gr.dteff) →
      (T' ∈ Set.range m ∨ T' = s.teff ∨ T' = s.teff - gr.dteff) → Star.key T = Star.key T' → T = T' := by
    intro T T' hT hT' hk
    by_contra hne
    have := hsep T hT T' hT' hne
    have e1 := abs_le.mp (key_near T)
    have e2 := abs_le.mp (key_near T')
    rw [hk] at e1
    have : |T - T'| ≤ 1 / 100 := abs_le.mpr ⟨by linarith [e1.1, e2.2], by linarith [e1.2, e2.1]⟩
    linarith
  obtain ⟨hsum, -⟩ := entries_of_sep hw hW.ne' h2 hinj
  refine ⟨_, hsum, fun hph => ?_, fun hph => ?_⟩
  · have hc : ∀ p, c p = 0 := by
      intro p
      obtain ⟨v, hv, -, -, -, h3, -⟩ := C63_transit_mask s hg hR.ne' a ha lat0 lon0 orbit r phase incl h0 _ plf ht _ _ _ rfl rfl p
      rw [Fl.fin_inj] at hv
      rw [hv]; exact h3 hph
    simp [hc]
  · have key := mask_accuracy { s with spots := { s.spots with spots := [] } } nlat nlon hgrid hlat hlon hR hld (by simp) lat0 lon0 h0
      hpole orbit r phase incl a ha (fun _ => s.teff) (by
        intro p
        refine ⟨Or.inl rfl, ?_⟩
        rintro t (rfl | ⟨sp, hsp, -⟩)
        · exact le_rfl
        · simp at hsp) c plf ht s.teff
    have e1 : share (pixelWeight s a lat0 lon0) (fun _ => s.teff) c s.teff =
        (∑ p, pixelWeight s a lat0 lon0 p * c p) / ∑ p, pixelWeight s a lat0 lon0 p := by simp [share]
    have e2 : trueCovered [] s.radius s.teff s.u1 s.u2 lat0 lon0 orbit r phase incl s.teff = transitDepth s.u1 s.u2 X Y (r / s.radius) := by
      rw [← depth_eq hld lat0 lon0]
      unfold trueCovered behindPlanet
      rw [← hXY]
      have ht : ∀ φ l, trueTemp [] s.radius s.teff φ l = s.teff := by intro φ l; simp [trueTemp]
      simp only [ht, hph, true_and]
    rw [← e1, ← e2]
    exact key

/-- **C101** Without limb darkening the depth is the area of the part of the stellar disk behind the planet, over π: the
visible fraction of the planet's disk computed by `circ_fraction`, times the squared ratio of the radii. -/
theorem C101_uniform_depth (X Y rp : ℝ) :
    transitDepth 0 0 X Y rp = overlap ⟨X, Y⟩ rp / π ∧
    (0 < rp → rp ≤ 1 → ∃ f, Helpers.circFraction (.fin X) (.fin Y) (.fin rp) = .ok (.fin f) ∧ transitDepth 0 0 X Y rp = f * rp ^ 2) := by
  classical
  have hp := pi_pos
  have h1 : transitDepth 0 0 X Y rp = overlap ⟨X, Y⟩ rp / π := by
    unfold transitDepth overlap
    congr 1
    · have hS : MeasurableSet {p : ℝ × ℝ | p.1 ^ 2 + p.2 ^ 2 < 1} := measurableSet_lt (by fun_prop) measurable_const
      have hB : MeasurableSet {p : ℝ × ℝ | planetDist X Y p.1 p.2 < rp} :=
        measurableSet_lt (by unfold planetDist; fun_prop) measurable_const
      have e : ∀ p : ℝ × ℝ, (if planetDist X Y p.1 p.2 < rp then quadraticLaw 0 0 √(1 - p.1 ^ 2 - p.2 ^ 2) else 0) =
          {p : ℝ × ℝ | planetDist X Y p.1 p.2 < rp}.indicator (fun _ => (1 : ℝ)) p := by
        intro p
        by_cases h : planetDist X Y p.1 p.2 < rp
        · rw [if_pos h, Set.indicator_of_mem (by exact h)]; simp [quadraticLaw]
        · rw [if_neg h, Set.indicator_of_notMem (by exact h)]
      simp only [e]
      rw [setIntegral_indicator hB, setIntegral_const, smul_eq_mul, mul_one, measureReal_def]
      congr 1
      rw [← Complex.volume_preserving_equiv_real_prod.measure_preimage (hS.inter hB).nullMeasurableSet]
      congr 1
      ext z
      simp only [Set.mem_preimage, Set.mem_inter_iff, Set.mem_ofPred_eq, Metric.mem_ball, Complex.measurableEquivRealProd_apply]
      rw [dist_zero_right, dist_eq_norm, planetDist_eq_norm]
      have e2 : ‖z‖ < 1 ↔ z.re ^ 2 + z.im ^ 2 < 1 := by
        rw [← sq_lt_one_iff₀ (norm_nonneg z), ← Complex.normSq_eq_norm_sq, Complex.normSq_apply]
        constructor <;> intro h <;> nlinarith
      rw [e2]
    · norm_num
  refine ⟨h1, fun h0 h2 => ⟨_, C14_circ_fraction_area X Y rp h0 h2, ?_⟩⟩
  rw [h1, volume_ball_toReal _ h0.le]
  unfold overlap
  field_simp

/-- Non-trivial instance: a planet of a tenth of the radius of a uniform star hides a hundredth of its light wherever it
stands well inside the disk. -/
example : transitDepth 0 0 0.3 0.2 0.1 = 0.01 := by
  obtain ⟨f, hf, he⟩ := (C101_uniform_depth 0.3 0.2 0.1).2 (by norm_num) (by norm_num)
  obtain ⟨v, hv, -, -, -, -, h1⟩ := (C13_circ_fraction_total 0.3 0.2 0.1).2 (by norm_num)
  rw [hf] at hv
  simp only [Except.ok.injEq, Fl.fin_inj] at hv
  rw [he, hv, h1 (by norm_num) (by
    have : √((0.3 : ℝ) ^ 2 + 0.2 ^ 2) ≤ 0.9 := by rw [sqrt_le_left (by norm_num)]; norm_num
    linarith)]
  norm_num

/-- Non-trivial instance: a planet of half the radius of the star in front of the middle of the disk of a spotted star with
granules.  The covered fractions add up to a quarter, within 0.026. -/
example : ∃ total cov plf, (granStar (.rect 20001 40000) [sampleSpot (.rect 20001 40000)] 100).calcCoverage 0 1 0.2 10 (1 / 2) π (π / 2) =
      .ok (total, cov, plf) ∧ ∃ S : ℝ, (Dict.values cov).sum = .fin S ∧ |S - 1 / 4| ≤ 0.026 := by
  set gd : Grid := .rect 20001 40000 with hgd
  set s := granStar gd [sampleSpot gd] 100 with hs
  have hp := pi_pos
  have h0 : (0 : ℝ) ∈ Set.Icc (-(π / 2)) (π / 2) := ⟨by linarith, by linarith⟩
  have hg : goodGrid s.grid := ⟨by omega, by omega⟩
  have hv : Visible s 0 1 := visible_rect s rfl (by omega) (by omega) 0 1
  obtain ⟨a, ha, -⟩ := C02_area_partition s.grid hg
  obtain ⟨-, hW⟩ := visible_pos s hg (granStar_phys _ _ _) ha hv
  have hw : ∀ p, s.weight 0 1 p = .fin (pixelWeight s a 0 1 p) := weight_eq s a ha 0 1
  have hpos : planetPos s.radius 10 π (π / 2) = ((planetPos s.radius 10 π (π / 2)).1, (planetPos s.radius 10 π (π / 2)).2) := rfl
  have hsp : s.spots.spots = [sampleSpot gd] := rfl
  have hR1 : s.radius = 1 := rfl
  obtain ⟨total, cov, plf, h, -⟩ := C59_answers_partial s hg one_pos 0 1 _ (by simp only [hw, Fl.sum_fin]) hW.ne' h0
    ⟨0.2, 1, 1, 100⟩ rfl rfl (measured_new _ _) (by simp [hs, granStar, sampleStar])
    (Or.inr ⟨(⟨0, by omega⟩, ⟨0, by omega⟩), by
      intro sp hsp'
      rw [hsp, List.mem_singleton] at hsp'
      rw [hsp']
      have := inSpot_cos (sampleSpot gd) gd 1 1 5 one_pos rfl zero_le_one (by nlinarith [pi_gt_three]) rfl (by norm_num)
        (⟨0, by omega⟩, ⟨0, by omega⟩)
      rw [← not_or]
      intro hin
      have hin := this.mp hin
      obtain ⟨l1, -⟩ := (C01_rect_layout 20001 40000 (by omega)).2.2 ⟨0, by omega⟩ ⟨0, by omega⟩
      rw [show gd.lat (⟨0, by omega⟩, ⟨0, by omega⟩) = _ from l1] at hin
      simp [sampleSpot, StarSpot.new] at hin
      have h7 : (π⁻¹ * 2⁻¹ : ℝ) < 1 := by
        have : π⁻¹ ≤ 1 := inv_le_one_of_one_le₀ (by linarith [pi_gt_three])
        linarith
      linarith,
      by simp [hs, granStar, sampleStar]⟩) 0.2 10 (1 / 2) π (π / 2) (by norm_num) _ _ hpos.symm (by simp)
  refine ⟨total, cov, _, h, ?_⟩
  have hgood : ∀ sp ∈ s.spots.spots, GoodSpot sp s.radius := by
    intro sp hsp'
    rw [hsp, List.mem_singleton] at hsp'
    subst hsp'
    exact ⟨⟨1, rfl, zero_le_one, by rw [hR1]; nlinarith [pi_gt_three]⟩, ⟨5, rfl, by norm_num⟩, by norm_num [sampleSpot, StarSpot.new]⟩
  obtain ⟨m₀, hm₀, hleast, -⟩ := C19_coolest_partial s.spots (measured_new _ _) s.radius s.teff (fun sp hsp => (hgood sp hsp).2.2)
  have hm := noFac_map (s := s) rfl (show s.map = .ok m₀ from hm₀) rfl 0 1
  have hr : ∀ T ∈ Set.range m₀ ∪ {s.teff, s.teff - 100}, T = 3000 ∨ T = 2900 ∨ T = 2700 ∨ T = 2500 := by
    have e1 : s.teff = 3000 := rfl
    have e2 : s.teff - 100 = 2900 := by norm_num [e1]
    rintro T (⟨p, rfl⟩ | h1 | h1)
    · rcases (hleast p).1 with h1 | ⟨sp, h1, h2⟩
      · exact Or.inl h1
      · rw [hsp, List.mem_singleton] at h1
        subst h1
        rcases h2 with h2 | h2
        · exact Or.inr (Or.inr (Or.inl h2.1))
        · exact Or.inr (Or.inr (Or.inr h2.1))
    · exact Or.inl h1
    · exact Or.inr (Or.inl (by rw [h1, e2]))
  obtain ⟨S, h1, -, h2⟩ := C101_transit_depth s 20001 40000 rfl (by omega) (by omega) one_pos (granStar_phys _ _ _) 0 1 h0
    (Or.inl ⟨by linarith, by linarith⟩) 0.2 10 (1 / 2) π (π / 2) total cov _ h m₀ hm ⟨0.2, 1, 1, 100⟩ rfl (by
      intro T h1 T' h2 hne
      rcases hr T h1 with rfl | rfl | rfl | rfl <;> rcases hr T' h2 with rfl | rfl | rfl | rfl <;>
        first | exact absurd rfl hne | norm_num) 0 0 (by simp [planetPos])
  refine ⟨S, h1, ?_⟩
  have h2 := h2 (by simp)
  have hd : transitDepth s.u1 s.u2 0 0 (1 / 2 / s.radius) = 1 / 4 := by
    have e4 : s.u1 = 0 := rfl
    have e5 : s.u2 = 0 := rfl
    rw [e4, e5, hR1, div_one]
    obtain ⟨f, hf, he⟩ := (C101_uniform_depth 0 0 (1 / 2)).2 (by norm_num) (by norm_num)
    obtain ⟨v, hv, -, -, -, -, h1⟩ := (C13_circ_fraction_total 0 0 (1 / 2)).2 (by norm_num)
    rw [hf] at hv
    simp only [Except.ok.injEq, Fl.fin_inj] at hv
    rw [he, hv, h1 (by norm_num) (by norm_num)]
    norm_num
  rw [hd] at h2
  refine h2.trans ?_
  simp only [coverError, shareError, hR1]
  have e4 : s.u1 = 0 := rfl
  have e5 : s.u2 = 0 := rfl
  have := pi_lt_d2
  rw [e4, e5]
  push_cast
  rw [max_eq_left (by norm_num; linarith)]
  norm_num
  linarith

end Vsm
