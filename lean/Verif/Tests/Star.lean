import Verif.Props.QuietAgain
import Verif.Props.StarShares
import Verif.Props.CoverageAccuracy
import Verif.Props.FlareGen
import Verif.Model.Random
import Mathlib.Analysis.Real.Pi.Bounds

/-!
# The tests of `star.py`, `granules.py` and `flares.py` as statements about the model

Mirrors test/test_star.py, test/test_granules.py and test/test_flares.py; see DESIGN.md, section 5, for what is left out.
-/

noncomputable section
namespace Vsm
namespace Tests
open Real Np Spec

/-- `R_sun` times 0.15 in km. -/
def starRadius : ℝ := 0.15 * 695700

/-- The fixture `star` (test_star.py:15-23) with the limb darkening coefficient of `test_calc_coverage`. -/
def quietStar (u1 : ℝ) : Py Star :=
  Star.new 3000 starRadius 10 (SpotCollection.new [] (.rect 500 1000)) (FaculaCollection.new [] (.rect 500 1000)) (.tuple [.int 500, .int 1000])
    none none none none u1 0

/-- The object built by the fixture. -/
def quiet (u1 : ℝ) : Star :=
  { teff := 3000, radius := starRadius, period := 10, spots := ⟨[], .rect 500 1000⟩, faculae := ⟨[], .rect 500 1000⟩, grid := .rect 500 1000
    flareGen := FlareGenerator.off, spotGen := SpotGenerator.off (.rect 500 1000), facGen := FaculaGenerator.off (.rect 500 1000)
    granulation := some Granulation.off, u1 := u1, u2 := 0, flares := none }

/-- `test_star_initialization` (test_star.py:71-86). -/
theorem quietStar_ok (u1 : ℝ) : quietStar u1 = .ok (quiet u1) := rfl

/-- `test_get_pixelmap` (test_star.py:89-94): every pixel has the temperature of the star. -/
example : (quiet 0).map = .ok (fun _ => 3000) ∧ (quiet 0).spots.grid.shape = [1000, 500] := ⟨rfl, rfl⟩

/-- `test_star_with_granulation`, `test_star_with_custom_gridmaker` (test_star.py:96-120). -/
example (sp : SpotCollection) (fa : FaculaCollection) : ∃ s s' : Star,
    Star.new 5000 695700 10 sp fa (.tuple [.int 500, .int 1000]) none none none (some ⟨0.2, 0.01, 5, 200⟩) 0 0 = .ok s ∧ s.granulation = some ⟨0.2, 0.01, 5, 200⟩ ∧
    Star.new 5000 695700 10 sp fa (.int 1000) none none none none 0 0 = .ok s' ∧ s'.grid = .spiral 1000 :=
  ⟨_, _, rfl, rfl, rfl, rfl⟩

/-- `test_age_method_with_zero_time` (test_star.py:141-154): the spots of the fixture are newly born, so they grow and are below their maximum area. -/
theorem zero_time (s : Star) (hs : ∀ sp ∈ s.spots.spots, sp.isGrowing = true ∧ 0 < sp.growthRate ∧ ∃ a, sp.area = .fin a ∧ 0 < a ∧ a < sp.areaMax)
    (hf : s.faculae.faculae = []) : (s.age 0).spots = s.spots ∧ (s.age 0).faculae.faculae.length = s.faculae.faculae.length := by
  have key : ∀ sp ∈ s.spots.spots, sp.age 0 = sp := by
    intro sp hsp
    obtain ⟨hg, hr, a, ha, h0, h1⟩ := hs sp hsp
    have hl : 0 < log (sp.growthRate + 1) := log_pos (by linarith)
    have hq : 0 < log (sp.areaMax / a) := log_pos ((one_lt_div h0).mpr h1)
    have e1 : Fl.log (.fin (sp.growthRate + 1)) = .fin (log (sp.growthRate + 1)) := Fl.log_fin (by linarith)
    have e2 : Fl.log (.fin sp.areaMax / .fin a) = .fin (log (sp.areaMax / a)) := by
      rw [Fl.fin_div h0.ne', Fl.log_fin (div_pos (by linarith) h0)]
    have hq' : 0 < log (sp.areaMax / a) / log (sp.growthRate + 1) := div_pos hq hl
    unfold StarSpot.age StarSpot.ageFl
    rw [if_pos hg, e1, ha, e2]
    dsimp only
    rw [if_neg (show Fl.fin (log (sp.growthRate + 1)) ≠ Fl.fin 0 from fun h => hl.ne' (Fl.fin_inj.mp h)), Fl.fin_div hl.ne', if_pos (by simpa using hq')]
    cases sp
    simp_all
  have hmap : s.spots.spots.map (·.age 0) = s.spots.spots := by
    conv_rhs => rw [← List.map_id s.spots.spots]
    exact List.map_congr_left fun sp hsp => key sp hsp
  constructor
  · show SpotCollection.clean { s.spots with spots := s.spots.spots.map (·.age 0) } = s.spots
    rw [hmap]
    show SpotCollection.clean s.spots = s.spots
    have : s.spots.spots.filter (fun s => !(decide (s.area ≤ .fin 0) && !s.isGrowing)) = s.spots.spots :=
      List.filter_eq_self.mpr fun sp hsp => by rw [(hs sp hsp).1]; simp
    unfold SpotCollection.clean
    rw [this]
  · show (FaculaCollection.clean { s.faculae with faculae := s.faculae.faculae.map (·.age 0) }).faculae.length = _
    rw [hf]; rfl

theorem central : let p : (Grid.rect 500 1000).Pix := (⟨0, by norm_num⟩, ⟨249, by norm_num⟩); (Grid.rect 500 1000).lat p = -(π / 998) ∧ (Grid.rect 500 1000).lon p = 0 := by
  constructor
  · show Grid.deg (Np.linspaceAt (-90) 90 500 249) = _
    rw [Np.linspaceAt, if_neg (by norm_num), Grid.deg]; push_cast; ring
  · show Grid.deg (Np.linspaceOpenAt 0 360 1000 0) = _
    rw [Np.linspaceOpenAt, Grid.deg]; norm_num

theorem quiet_visible (u1 : ℝ) : Visible (quiet u1) (Grid.deg 0) (Grid.deg 0) := by
  have hp := pi_pos
  obtain ⟨h1, h2⟩ := central
  obtain ⟨d0, d1, -, d3, ha⟩ := rect_area_sin 500 1000 (by norm_num) (by norm_num)
  have hc : 0 < cos (π / 998) := cos_pos_of_mem_Ioo ⟨by linarith [show 0 < π / 998 by positivity], by linarith⟩
  refine ⟨((⟨0, by norm_num⟩, ⟨249, by norm_num⟩) : Fin 1000 × Fin 500), ?_, ?_⟩
  · show (Grid.rect 500 1000).area _ ≠ _
    rw [ha]
    have hs : 0 < sin (π / ((500 : ℕ) - 1) / 2) := sin_pos_of_pos_of_lt_pi (by positivity) (by linarith)
    have e : -(π / 2) + ((249 : ℕ) : ℝ) * (π / ((500 : ℕ) - 1)) = -(π / 998) := by push_cast; ring
    simp only [ne_eq, Fl.fin_inj]
    show ¬ 2 * sin (π / ((500 : ℕ) - 1) / 2) * cos (-(π / 2) + ((249 : ℕ) : ℝ) * (π / ((500 : ℕ) - 1))) / ((1000 : ℕ) * (2 * cos (π / ((500 : ℕ) - 1) / 2))) = 0
    rw [e, cos_neg]
    positivity
  · show 0 < Grid.cosAngle (Grid.deg 0) (Grid.deg 0) ((Grid.rect 500 1000).lat _) ((Grid.rect 500 1000).lon _)
    rw [h1, h2]
    simp [Grid.cosAngle, Grid.deg, hc]

theorem label_3000 {label : ℝ → ℤ} (h : ∀ T, |(label T : ℝ) - 100 * T| ≤ 1 / 2) : label 3000 = 300000 := by
  have := abs_le.mp (h 3000)
  have h1 : ((label 3000 : ℤ) : ℝ) < 300001 := by linarith
  have h2 : (299999 : ℝ) < ((label 3000 : ℤ) : ℝ) := by linarith
  have h1' : label 3000 < 300001 := by exact_mod_cast h1
  have h2' : 299999 < label 3000 := by exact_mod_cast h2
  omega

/-- What `test_calc_coverage` asserts (test_star.py:231-276) for every orbit: all the light comes from the photosphere, whose key is
`'3000.00 K'`; nothing is covered without a transit, and during a transit the whole planet is in view. -/
theorem quiet_coverage {orbit r phase incl : ℝ} (hr : 0 < r) (hr' : r ≤ starRadius) : ∃ total cov plf,
    (quiet 0.1).calcCoverage (Grid.deg 0) (Grid.deg 0) 0 orbit r phase incl = .ok (total, cov, plf) ∧ Dict.get? total 300000 = some (.fin 1) ∧
    (1 + 2 * (r / starRadius) < |orbit / starRadius * sin (phase - π)| → Dict.get? cov 300000 = some (.fin 0) ∧ plf = .fin 1) ∧ (cos phase ≤ 0 → plf = .fin 1) := by
  have hp := pi_pos
  have hR : 0 < (quiet 0.1).radius := by show (0 : ℝ) < 0.15 * 695700; norm_num
  have hg : goodGrid (quiet 0.1).grid := by show (3 ≤ 500 ∧ 1 ≤ 1000); norm_num
  have hld : PhysicalLD (quiet 0.1).u1 (quiet 0.1).u2 := by show PhysicalLD 0.1 0; unfold PhysicalLD; norm_num
  have h0 : Grid.deg 0 ∈ Set.Icc (-(π / 2)) (π / 2) := by unfold Grid.deg; constructor <;> linarith
  obtain ⟨total, cov, plf, h, label, hl, hk, ht⟩ := C131_report (quiet 0.1) hg hR hld rfl rfl rfl Granulation.off rfl (fun h => absurd rfl h)
    (Grid.deg 0) (Grid.deg 0) h0 (quiet_visible _) 0 orbit r phase incl hr hr'
  have e3 := label_3000 hl
  have h1 : Dict.get? total 300000 = some (.fin 1) := by
    have := ht 3000 (Or.inl rfl)
    rw [e3] at this
    rw [this]
    simp [quietReport, quiet, Granulation.off]
  obtain ⟨c1, c2, -⟩ := C86_no_transit (quiet 0.1) hg hR hld (Grid.deg 0) (Grid.deg 0) (quiet_visible _) h0 0 orbit r phase incl total cov plf h _ _ rfl
  refine ⟨total, cov, plf, h, h1, fun hx => ?_, fun hc => c2 (Or.inl hc)⟩
  have hX : 1 + 2 * (r / starRadius) < √((orbit / starRadius * sin (phase - π)) ^ 2 + (orbit / starRadius * cos (phase - π) * cos incl) ^ 2) := by
    refine hx.trans_le ?_
    apply le_sqrt_of_sq_le
    rw [sq_abs]
    linarith [sq_nonneg (orbit / starRadius * cos (phase - π) * cos incl)]
  have hmem : (300000 : ℤ) ∈ Dict.keys total := by
    by_contra hn
    rw [Dict.get?_eq_none.mpr hn] at h1
    cases h1
  exact ⟨c1 (Or.inr hX) _ hmem, c2 (Or.inr hX)⟩

/-- `test_calc_coverage` (test_star.py:231-276): the default orbit (1 au, phase 90°), a transit of a planet a tenth of the size at 180° and at
180.3°. -/
example : ∃ t1 c1 p1 t2 c2 p2 t3 c3 p3,
    (quiet 0.1).calcCoverage (Grid.deg 0) (Grid.deg 0) 0 Star.defaultOrbit Star.defaultPlanetRadius (Grid.deg 90) 0 = .ok (t1, c1, p1) ∧
    Dict.get? t1 300000 = some (.fin 1) ∧ Dict.get? c1 300000 = some (.fin 0) ∧ p1 = .fin 1 ∧
    (quiet 0.1).calcCoverage (Grid.deg 0) (Grid.deg 0) 0 (0.05 * 149597870.7) (starRadius / 10) (Grid.deg 180) (Grid.deg 90) = .ok (t2, c2, p2) ∧
    Dict.get? t2 300000 = some (.fin 1) ∧ p2 = .fin 1 ∧
    (quiet 0.1).calcCoverage (Grid.deg 0) (Grid.deg 0) 0 (0.05 * 149597870.7) (starRadius / 10) (Grid.deg 180 + Grid.deg 0.3) (Grid.deg 90) = .ok (t3, c3, p3) ∧
    Dict.get? t3 300000 = some (.fin 1) ∧ p3 = .fin 1 := by
  have hp := pi_pos
  have hR : (0 : ℝ) < starRadius := by unfold starRadius; norm_num
  obtain ⟨t1, c1, p1, h1, a1, b1, -⟩ := quiet_coverage (orbit := Star.defaultOrbit) (r := Star.defaultPlanetRadius) (phase := Grid.deg 90) (incl := 0)
    (by unfold Star.defaultPlanetRadius; norm_num) (by unfold Star.defaultPlanetRadius starRadius; norm_num)
  obtain ⟨t2, c2, p2, h2, a2, -, b2⟩ := quiet_coverage (orbit := 0.05 * 149597870.7) (r := starRadius / 10) (phase := Grid.deg 180) (incl := Grid.deg 90)
    (by positivity) (by linarith)
  obtain ⟨t3, c3, p3, h3, a3, -, b3⟩ := quiet_coverage (orbit := 0.05 * 149597870.7) (r := starRadius / 10) (phase := Grid.deg 180 + Grid.deg 0.3) (incl := Grid.deg 90)
    (by positivity) (by linarith)
  have e : Grid.deg 90 - π = -(π / 2) := by unfold Grid.deg; ring
  obtain ⟨b1, b1'⟩ := b1 (by
    rw [e, sin_neg, sin_pi_div_two]
    unfold Star.defaultPlanetRadius starRadius Star.defaultOrbit
    rw [abs_of_neg (by norm_num)]; norm_num)
  refine ⟨t1, c1, p1, t2, c2, p2, t3, c3, p3, h1, a1, b1, b1', h2, a2, b2 ?_, h3, a3, b3 ?_⟩
  · rw [show Grid.deg 180 = π by unfold Grid.deg; ring, cos_pi]; norm_num
  · rw [show Grid.deg 180 = π by unfold Grid.deg; ring, add_comm, cos_add_pi]
    have := cos_nonneg_of_mem_Icc (x := Grid.deg 0.3) (by unfold Grid.deg; constructor <;> linarith)
    linarith

/-- `test_transit_mask` (test_star.py:157-179): the planet is in view, some pixel is not covered and the largest value is 1.  (That some value is
strictly between is not shown here.) -/
example : ∃ mask plf, (quiet 0).transitMask (Grid.deg 0) (Grid.deg 0) (0.05 * 149597870.7) 6378.1 (Grid.deg 180) (Grid.deg 90) = .ok (mask, plf) ∧ plf = .fin 1 ∧
    (∃ p, mask p = .fin 0) ∧ (∃ p, mask p = .fin 1) ∧ ∀ p, ∃ v : ℝ, mask p = .fin v ∧ v ≤ 1 := by
  have hp := pi_pos
  have h3 := pi_gt_d6
  have h4 := pi_lt_d6
  have hR : 0 < (quiet 0).radius := by show (0 : ℝ) < 0.15 * 695700; norm_num
  have hg : goodGrid (quiet 0).grid := by show (3 ≤ 500 ∧ 1 ≤ 1000); norm_num
  have h0 : Grid.deg 0 ∈ Set.Icc (-(π / 2)) (π / 2) := by unfold Grid.deg; constructor <;> linarith
  have e180 : Grid.deg 180 = π := by unfold Grid.deg; ring
  have e90 : Grid.deg 90 = π / 2 := by unfold Grid.deg; ring
  have hpos : planetPos starRadius (0.05 * 149597870.7) (Grid.deg 180) (Grid.deg 90) = (0, 0) := by
    unfold planetPos; rw [e180, e90]; simp
  obtain ⟨herr, hok⟩ := C64_planet_fraction (quiet 0) hg hR (Grid.deg 0) (Grid.deg 0) (0.05 * 149597870.7) 6378.1 (Grid.deg 180) (Grid.deg 90) (by norm_num) h0 _ _ _ rfl rfl
  have hc : cos (Grid.deg 180) ≤ 0 := by rw [e180, cos_pi]; norm_num
  rcases hm : (quiet 0).transitMask (Grid.deg 0) (Grid.deg 0) (0.05 * 149597870.7) 6378.1 (Grid.deg 180) (Grid.deg 90) with err | ⟨mask, plf⟩
  · have := ((herr err).mp hm).2.1
    linarith
  · obtain ⟨v, hv, -, -, hv1, -⟩ := hok mask plf hm
    obtain ⟨d0, d1, -, d3, ha⟩ := rect_area_sin 500 1000 (by norm_num) (by norm_num)
    have key := fun p => C63_transit_mask (quiet 0) hg hR.ne' (fun q => 2 * sin (π / ((500 : ℕ) - 1) / 2) * cos (-(π / 2) + (q.2 : ℕ) * (π / ((500 : ℕ) - 1))) / ((1000 : ℕ) * (2 * cos (π / ((500 : ℕ) - 1) / 2))))
      (fun q => ha q.1 q.2) (Grid.deg 0) (Grid.deg 0) (0.05 * 149597870.7) 6378.1 (Grid.deg 180) (Grid.deg 90) h0 mask plf hm 0 0 _ hpos.symm rfl p
    refine ⟨mask, plf, rfl, by rw [hv, hv1 hc], ⟨((⟨500, by norm_num⟩, ⟨249, by norm_num⟩) : Fin 1000 × Fin 500), ?_⟩,
      ⟨((⟨0, by norm_num⟩, ⟨249, by norm_num⟩) : Fin 1000 × Fin 500), ?_⟩, fun p => ?_⟩
    · obtain ⟨w, hw, -, -, hz, -⟩ := key ((⟨500, by norm_num⟩, ⟨249, by norm_num⟩) : Fin 1000 × Fin 500)
      rw [hw, hz]
      show Grid.cosAngle (Grid.deg 0) (Grid.deg 0) (Grid.deg (Np.linspaceAt (-90) 90 500 249)) (Grid.deg (Np.linspaceOpenAt 0 360 1000 500)) < 0
      have e1 : Grid.deg (Np.linspaceAt (-90) 90 500 249) = -(π / 998) := by
        rw [Np.linspaceAt, if_neg (by norm_num), Grid.deg]; push_cast; ring
      have e2 : Grid.deg (Np.linspaceOpenAt 0 360 1000 500) = π := by
        rw [Np.linspaceOpenAt, Grid.deg]; push_cast; ring
      rw [e1, e2]
      have hc : 0 < cos (π / 998) := cos_pos_of_mem_Ioo ⟨by linarith [show 0 < π / 998 by positivity], by linarith⟩
      simp [Grid.cosAngle, Grid.deg, hc]
    · obtain ⟨w, hw, -, -, -, -, -, hz⟩ := key ((⟨0, by norm_num⟩, ⟨249, by norm_num⟩) : Fin 1000 × Fin 500)
      obtain ⟨l1, l2⟩ := central
      have e1 : (quiet 0).grid.mu (Grid.deg 0) (Grid.deg 0) ((⟨0, by norm_num⟩, ⟨249, by norm_num⟩) : Fin 1000 × Fin 500) = cos (π / 998) := by
        show Grid.cosAngle (Grid.deg 0) (Grid.deg 0) ((Grid.rect 500 1000).lat _) ((Grid.rect 500 1000).lon _) = _
        rw [l1, l2]
        simp [Grid.cosAngle, Grid.deg]
      have hs0 : 0 < π / 998 := by positivity
      have hgc : greatCircle (Grid.deg 0) (Grid.deg 0) (-(π / 998)) 0 = π / 998 := by
        rw [greatCircle_eq]
        simp only [Grid.deg, zero_mul, sin_zero, cos_zero, cos_neg, sub_zero, zero_add, one_mul, mul_one]
        exact arccos_cos hs0.le (by linarith)
      obtain ⟨px, py, hpr, hxy, -⟩ := (C11_ortho_radius (Grid.deg 0) (Grid.deg 0) (-(π / 998)) 0 h0 ⟨by linarith, by linarith⟩).2 (by rw [hgc]; linarith)
      rw [hgc] at hxy
      have hs1 : sin (π / 998) ≤ 1 / 100 := (sin_le hs0.le).trans (by linarith)
      have hs2 : 0 ≤ sin (π / 998) := sin_nonneg_of_nonneg_of_le_pi hs0.le (by linarith)
      have hcc : 9 / 10 ≤ cos (π / 998) := by have := one_sub_sq_div_two_le_cos (x := π / 998); nlinarith
      have hd : planetDist 0 0 px py ≤ 1 / 100 := by
        unfold planetDist
        rw [show (px - 0) ^ 2 + (py - 0) ^ 2 = sin (π / 998) ^ 2 by rw [← hxy]; ring, sqrt_sq hs2]
        exact hs1
      have hrp : (6 / 100 : ℝ) ≤ 6378.1 / (quiet 0).radius := by show (6 / 100 : ℝ) ≤ 6378.1 / (0.15 * 695700); norm_num
      have hone : planetDist 0 0 0 0 ≤ 1 + 2 * (6378.1 / (quiet 0).radius) := by
        have : planetDist 0 0 0 0 = 0 := by unfold planetDist; simp
        rw [this]; linarith
      have hv : w = 1 := by
        refine (hz px py ?_).2 hc hone ?_
        · rw [← hpr, ← l1, ← l2]; rfl
        · rw [e1]
          have harg : 2 * sin (π / ((500 : ℕ) - 1) / 2) * cos (-(π / 2) + ((249 : ℕ) : ℝ) * (π / ((500 : ℕ) - 1))) / ((1000 : ℕ) * (2 * cos (π / ((500 : ℕ) - 1) / 2))) ≤ (1 / 100) ^ 2 := by
            have ee : π / ((500 : ℕ) - 1) / 2 = π / 998 := by push_cast; ring
            have ef : -(π / 2) + ((249 : ℕ) : ℝ) * (π / ((500 : ℕ) - 1)) = -(π / 998) := by push_cast; ring
            rw [ee, ef, cos_neg, div_le_iff₀ (by positivity)]
            push_cast
            nlinarith [cos_le_one (π / 998)]
          have hsq := sqrt_le_sqrt harg
          rw [sqrt_sq (by norm_num)] at hsq
          show planetDist 0 0 px py + 2 * (2 * √(2 * sin (π / ((500 : ℕ) - 1) / 2) * cos (-(π / 2) + ((249 : ℕ) : ℝ) * (π / ((500 : ℕ) - 1))) / ((1000 : ℕ) * (2 * cos (π / ((500 : ℕ) - 1) / 2)))) * cos (π / 998)) < 6378.1 / (quiet 0).radius
          have hm := mul_le_mul hsq (cos_le_one (π / 998)) (by linarith) (by norm_num)
          linarith
      rw [hw, hv]
    · obtain ⟨w, hw, -, hw1, -⟩ := key p
      exact ⟨w, hw, hw1⟩

/-! ## Granules and flares -/

/-- `test_safe_cast_coverage` (test_granules.py:31-42). -/
example : (∀ i ∈ Np.linspace 0 1 5, Granulation.saveCast (.fin i) = .fin i) ∧ Granulation.saveCast (.fin (0 + 1.1)) = .fin 1 ∧ Granulation.saveCast (.fin (0 - 0.1)) = .fin 0 := by
  refine ⟨?_, ?_, ?_⟩
  · intro x hx
    simp only [Np.linspace, List.mem_map, List.mem_range] at hx
    obtain ⟨i, hi, rfl⟩ := hx
    rw [Np.linspaceAt, if_neg (by norm_num)]
    have h1 : (i : ℝ) ≤ 4 := by exact_mod_cast Nat.le_of_lt_succ hi
    have h0 : (0 : ℝ) ≤ i := Nat.cast_nonneg i
    have a : ¬ (0 + (i : ℝ) * ((1 - 0) / ((5 : ℕ) - 1)) < 0) := by push_cast; linarith
    have b : ¬ (1 < 0 + (i : ℝ) * ((1 - 0) / ((5 : ℕ) - 1))) := by push_cast; linarith
    simp only [Granulation.saveCast, Fl.fin_lt, a, if_false, b]
  · norm_num [Granulation.saveCast, Fl.fin_lt]
  · norm_num [Granulation.saveCast, Fl.fin_lt]

/-- `test_granulation_get_coverage` (test_granules.py:57-62), whatever the Gaussian process returns. -/
example (g : Granulation) (sample : Fin 51 → Fl) (i : Fin 51) : ¬ (.fin 1 < g.getCoverage sample i) ∧ ¬ (g.getCoverage sample i < .fin 0) := by
  unfold Granulation.getCoverage Granulation.saveCast
  by_cases h1 : sample i < .fin 0
  · norm_num [h1]
  · by_cases h2 : .fin 1 < sample i
    · norm_num [h1, h2]
    · simp [h1, h2]

/-- The generator of test_flares.py:11-21 (widths in days). -/
def testFlares : FlareGenerator :=
  { FlareGenerator.off with teffMean := 1000, teffSigma := 100, fwhmMean := 3 / 24, fwhmLogsigma := 0.2, alpha := -0.829, beta := 26.87, minEnergy := .fin 1e33, clusterSize := .fin 2 }

/-- `test_gen_fwhm`, `test_get_peaks`, `test_gen_teffs` (test_flares.py:44-69) for all random draws. -/
example (z : Fin 10 → ℝ) (raw : Fin 10 → ℕ) (e : ℕ → Set.Ici (0 : ℝ)) : ∃ f p t, testFlares.genFwhm z = .ok f ∧ f.length = 10 ∧
    testFlares.getPeaks 10 raw e = .ok p ∧ p.length = 10 ∧ testFlares.genTeffs z = .ok t ∧ t.length = 10 := by
  obtain ⟨p, h, hl, -⟩ := C46_peaks testFlares 2 rfl (by norm_num) 10 (by norm_num) raw e
  exact ⟨_, p, _, if_neg (by simp only [testFlares]; norm_num), List.length_ofFn, h, hl, if_neg (by simp only [testFlares]; norm_num), List.length_ofFn⟩

end Tests
end Vsm
