import Verif.Props.TransitAccuracy

/-!
# C100: accuracy of the covered fractions during a transit

The fraction of light of each temperature that `calc_coverage` reports as covered by the planet, compared with the
integral over the part of the sphere that lies behind the planet.
-/

open Real MeasureTheory Vsm.Np Vsm.Spec

noncomputable section

namespace Vsm

/-- The projection used for the transit puts a visible point within 0.0101 of its orthographic picture. -/
theorem projOrtho_dist (lat0 lon0 lat lon : ℝ) (h0 : lat0 ∈ Set.Icc (-(π / 2)) (π / 2))
    (hpole : lat0 ∈ Set.Ioo (-(π / 2)) (π / 2) ∨ ∃ k : ℤ, lon0 = k * (2 * π))
    (hl : lat ∈ Set.Icc (-(π / 2)) (π / 2)) (hvis : 0 ≤ cosDist lat0 lon0 lat lon) :
    ∃ x y : ℝ, Helpers.projOrtho lat0 lon0 lat lon = (.fin x, .fin y) ∧ ∀ X Y,
      |planetDist X Y x y - planetDist X Y (orthoX lat0 lon0 lat lon) (orthoY lat0 lon0 lat lon)| ≤ 0.0101 := by
  have hg0 : 0 ≤ greatCircle lat0 lon0 lat lon := InnerProductGeometry.angle_nonneg _ _
  have hgp : greatCircle lat0 lon0 lat lon ≤ π := InnerProductGeometry.angle_le_pi _ _
  rw [cosDist_eq] at hvis
  have hv : greatCircle lat0 lon0 lat lon ≤ π / 2 := by
    by_contra hn
    rw [not_le] at hn
    linarith [cos_neg_of_pi_div_two_lt_of_lt hn (by linarith)]
  obtain ⟨x, y, h, hy, hxs, hx⟩ := C12_ortho_accuracy_partial lat0 lon0 lat lon h0 hpole hl hv
  refine ⟨x, y, h, fun X Y => (abs_planetDist_sub X Y x y _ _).trans ?_⟩
  have e1 : orthoX lat0 lon0 lat lon = cos lat * sin (lon - lon0) := rfl
  have e2 : orthoY lat0 lon0 lat lon = cos lat0 * sin lat - sin lat0 * cos lat * cos (lon - lon0) := rfl
  rw [e1, e2]
  set x' := cos lat * sin (lon - lon0)
  have hxx : (x - x') ^ 2 ≤ 1e-4 := by
    refine le_trans ?_ hx
    have : |x - x'| ≤ |x + x'| := by
      rw [← sq_le_sq]; nlinarith
    calc (x - x') ^ 2 = |x - x'| * |x - x'| := by rw [abs_mul_abs_self]; ring
      _ ≤ |x - x'| * |x + x'| := mul_le_mul_of_nonneg_left this (abs_nonneg _)
      _ = |x ^ 2 - x' ^ 2| := by rw [← abs_mul]; congr 1; ring
  have hyy := sq_le_sq' (abs_le.mp hy).1 (abs_le.mp hy).2
  rw [sqrt_le_left (by norm_num)]
  norm_num at hxx hyy ⊢
  linarith

theorem pixel_radius_le (nlat nlon : ℕ) (hlat : 3 ≤ nlat) (hlon : 1 ≤ nlon) (a : (Grid.rect nlat nlon).Pix → ℝ)
    (ha : ∀ p, (Grid.rect nlat nlon).area p = .fin (a p)) (p : (Grid.rect nlat nlon).Pix) :
    4 * √(a p) ≤ π / (nlat - 1) + 2 * π / nlon := by
  obtain ⟨hδ0, hδ2, hδ, hcc, harea⟩ := rect_area_sin nlat nlon hlat hlon
  have hn : (0 : ℝ) < nlon := by exact_mod_cast hlon
  have hp := pi_pos
  set δ : ℝ := π / (nlat - 1)
  have h1 := harea p.1 p.2
  rw [show ((p.1, p.2) : (Grid.rect nlat nlon).Pix) = p from rfl, ha, Fl.fin_inj] at h1
  have hsin : 0 ≤ sin (δ / 2) := sin_nonneg_of_nonneg_of_le_pi (by linarith) (by linarith)
  have hsin' : sin (δ / 2) ≤ δ / 2 := sin_le (by linarith)
  have hcos : 1 / 2 ≤ cos (δ / 2) := by
    have := one_sub_sq_div_two_le_cos (x := δ / 2)
    nlinarith [pi_lt_d2]
  have ha' : a p ≤ δ / nlon := by
    rw [h1, div_le_div_iff₀ (by positivity) hn]
    have h2 : 2 * sin (δ / 2) * cos (-(π / 2) + p.2 * δ) ≤ 2 * sin (δ / 2) :=
      mul_le_of_le_one_right (by positivity) (cos_le_one _)
    have h3 : nlon * δ * 1 ≤ nlon * δ * (2 * cos (δ / 2)) := mul_le_mul_of_nonneg_left (by linarith) (by positivity)
    calc _ ≤ 2 * sin (δ / 2) * nlon := mul_le_mul_of_nonneg_right h2 hn.le
      _ ≤ δ * nlon := mul_le_mul_of_nonneg_right (by linarith) hn.le
      _ ≤ δ * (nlon * (2 * cos (δ / 2))) := by linarith
  have hb : √(a p) ≤ √(δ / nlon) := sqrt_le_sqrt ha'
  refine (mul_le_mul_of_nonneg_left hb (by norm_num)).trans ?_
  refine le_of_sq_le_sq ?_ (by positivity)
  rw [mul_pow, sq_sqrt (by positivity)]
  have : 4 * (δ * (2 * π / nlon)) ≤ (δ + 2 * π / nlon) ^ 2 := by nlinarith [sq_nonneg (δ - 2 * π / nlon)]
  refine le_trans ?_ this
  have e : 4 * (δ * (2 * π / nlon)) = 8 * π * (δ / nlon) := by field_simp; ring
  rw [e]
  have : 0 ≤ δ / nlon := by positivity
  nlinarith [pi_gt_three]

/-- The mask of a transit is right for visible pixels farther from the outline of the planet than the spacing of the grid
and the error of the projection. -/
theorem mask_right (s : Star) (nlat nlon : ℕ) (hgrid : s.grid = .rect nlat nlon) (hlat : 3 ≤ nlat) (hlon : 1 ≤ nlon)
    (hR : s.radius ≠ 0) (lat0 lon0 : ℝ) (h0 : lat0 ∈ Set.Icc (-(π / 2)) (π / 2))
    (hpole : lat0 ∈ Set.Ioo (-(π / 2)) (π / 2) ∨ ∃ k : ℤ, lon0 = k * (2 * π)) (orbit r phase incl : ℝ)
    (c : s.grid.Pix → ℝ) (plf : Fl) (h : s.transitMask lat0 lon0 orbit r phase incl = .ok (fun p => .fin (c p), plf))
    (X Y : ℝ) (hXY : (X, Y) = planetPos s.radius orbit phase incl) (hph : cos phase ≤ 0)
    (hnear : planetDist X Y 0 0 ≤ 1 + 2 * (r / s.radius)) (p : s.grid.Pix)
    (hvis : 0 ≤ cosDist lat0 lon0 (s.grid.lat p) (s.grid.lon p)) :
    (r / s.radius + (π / (nlat - 1) + 2 * π / nlon) + 0.0101 < planetDist X Y (orthoX lat0 lon0 (s.grid.lat p) (s.grid.lon p))
      (orthoY lat0 lon0 (s.grid.lat p) (s.grid.lon p)) → c p = 0) ∧
    (planetDist X Y (orthoX lat0 lon0 (s.grid.lat p) (s.grid.lon p)) (orthoY lat0 lon0 (s.grid.lat p) (s.grid.lon p)) +
      (π / (nlat - 1) + 2 * π / nlon) + 0.0101 < r / s.radius → c p = 1) := by
  have hg : goodGrid s.grid := by rw [hgrid]; exact ⟨hlat, hlon⟩
  obtain ⟨a, ha, -⟩ := C02_area_partition s.grid hg
  obtain ⟨v, hv, -, -, -, -, -, hv'⟩ := C63_transit_mask s hg hR a ha lat0 lon0 orbit r phase incl h0 _ plf h X Y _ hXY rfl p
  rw [Fl.fin_inj] at hv
  rw [hv]
  obtain ⟨px, py, hproj, hd⟩ := projOrtho_dist lat0 lon0 (s.grid.lat p) (s.grid.lon p) h0 hpole
    (grid_lat_mem s.grid hg p) hvis
  have hd := abs_le.mp (hd X Y)
  obtain ⟨k1, k2⟩ := hv' px py hproj
  have hrad : 4 * √(a p) ≤ π / (nlat - 1) + 2 * π / nlon := by
    obtain ⟨teff, radius, period, sp, faculae, grid', fg, sg, fcg, gr', u1, u2, fl⟩ := s
    simp only at hgrid; subst hgrid
    exact pixel_radius_le nlat nlon hlat hlon a ha p
  have hmu : s.grid.mu lat0 lon0 p ≤ 1 := by
    rw [(C03_mu_inner _ lat0 lon0 p).2.2.2]; exact cos_le_one _
  have h5 : 2 * (2 * √(a p) * s.grid.mu lat0 lon0 p) ≤ π / (nlat - 1) + 2 * π / nlon := by
    have := mul_le_mul_of_nonneg_left hmu (sqrt_nonneg (a p))
    linarith
  exact ⟨fun h => k1 (by linarith [hd.1]), fun h => k2 hph hnear (by linarith [hd.2])⟩

/-- What `calc_coverage` should report as covered for temperature `T`, with the fraction `g` of the photosphere moved to
the granulation temperature. -/
def Spec.trueCoveredReport (spots : List StarSpot) (R teff G g u1 u2 lat0 lon0 orbit r phase incl T : ℝ) : ℝ :=
  let sh := trueCovered spots R teff u1 u2 lat0 lon0 orbit r phase incl
  sh T + (open Classical in if T = G then g * sh teff else 0) - (open Classical in if T = teff then g * sh teff else 0)

/-- No point is behind a planet that is on the far side of the star or away from its disk. -/
theorem not_behind (R orbit r phase incl lat0 lon0 φ l : ℝ)
    (h : 0 < cos phase ∨ 1 + 2 * (r / R) < planetDist (planetPos R orbit phase incl).1 (planetPos R orbit phase incl).2 0 0) :
    ¬ behindPlanet R orbit r phase incl lat0 lon0 φ l := by
  rintro ⟨h1, h2⟩
  rcases h with h | h
  · linarith
  set X := (planetPos R orbit phase incl).1
  set Y := (planetPos R orbit phase incl).2
  have hd := abs_le.mp (abs_planetDist_sub X Y 0 0 (orthoX lat0 lon0 φ l) (orthoY lat0 lon0 φ l))
  have h3 : √((0 - orthoX lat0 lon0 φ l) ^ 2 + (0 - orthoY lat0 lon0 φ l) ^ 2) ≤ 1 := by
    rw [sqrt_le_left zero_le_one]
    have := ortho_sq lat0 lon0 φ l
    nlinarith [sq_nonneg (cosDist lat0 lon0 φ l)]
  have h4 := planetDist_nonneg X Y (orthoX lat0 lon0 φ l) (orthoY lat0 lon0 φ l)
  linarith [hd.2]

theorem coverError_nonneg (n nlat nlon : ℕ) (hlat : 3 ≤ nlat) {u1 u2 : ℝ} (hld : PhysicalLD u1 u2) (rp : ℝ) :
    0 ≤ coverError n nlat nlon u1 u2 rp := by
  have hden : 0 < 1 - u1 / 3 - u2 / 6 := by obtain ⟨x, y, z⟩ := hld; linarith
  have h1 : (0 : ℝ) ≤ nlat - 1 := by
    have : (3 : ℝ) ≤ nlat := by exact_mod_cast hlat
    linarith
  have hp := pi_pos
  unfold coverError shareError
  simp only
  have h2 : 0 ≤ π / ((nlat : ℝ) - 1) + 2 * π / nlon := by positivity
  have h3 : 0 ≤ max rp (3 / 2 * (π / ((nlat : ℝ) - 1) + 2 * π / nlon) + 0.0101) := le_max_of_le_right (by positivity)
  positivity

/-- The shares of light covered in the transit mask, compared with the truth. -/
theorem mask_accuracy (s : Star) (nlat nlon : ℕ) (hgrid : s.grid = .rect nlat nlon) (hlat : 4 ≤ nlat) (hlon : 3 ≤ nlon)
    (hR : 0 < s.radius) (hld : PhysicalLD s.u1 s.u2) (hs : ∀ sp ∈ s.spots.spots, GoodSpot sp s.radius) (lat0 lon0 : ℝ)
    (h0 : lat0 ∈ Set.Icc (-(π / 2)) (π / 2)) (hpole : lat0 ∈ Set.Ioo (-(π / 2)) (π / 2) ∨ ∃ k : ℤ, lon0 = k * (2 * π))
    (orbit r phase incl : ℝ) (a : s.grid.Pix → ℝ) (ha : ∀ p, s.grid.area p = .fin (a p)) (m : s.grid.Pix → ℝ)
    (hm : ∀ p, IsLeast (tempsAt s.spots.spots s.grid s.radius s.teff p) (m p)) (c : s.grid.Pix → ℝ) (plf : Fl)
    (h : s.transitMask lat0 lon0 orbit r phase incl = .ok (fun p => .fin (c p), plf)) (T : ℝ) :
    |share (pixelWeight s a lat0 lon0) m c T -
      trueCovered s.spots.spots s.radius s.teff s.u1 s.u2 lat0 lon0 orbit r phase incl T| ≤
      coverError s.spots.spots.length nlat nlon s.u1 s.u2 (r / s.radius) := by
  classical
  have hg : goodGrid s.grid := by rw [hgrid]; exact ⟨by omega, by omega⟩
  obtain ⟨-, hW⟩ := visible_pos s hg hld ha (visible_rect s hgrid hlat hlon lat0 lon0)
  have hE := coverError_nonneg s.spots.spots.length nlat nlon (by omega) hld (r / s.radius)
  have hmask := C63_transit_mask s hg hR.ne' a ha lat0 lon0 orbit r phase incl h0 _ plf h _ _ _ rfl rfl
  by_cases hno : 0 < cos phase ∨ 1 + 2 * (r / s.radius) <
      planetDist (planetPos s.radius orbit phase incl).1 (planetPos s.radius orbit phase incl).2 0 0
  · have hc : ∀ p, c p = 0 := by
      intro p
      obtain ⟨v, hv, -, -, -, h1, h2, -⟩ := hmask p
      rw [Fl.fin_inj] at hv
      rw [hv]
      exact hno.elim h1 h2
    have h1 : share (pixelWeight s a lat0 lon0) m c T = 0 := by simp [share, hc]
    have h2 : trueCovered s.spots.spots s.radius s.teff s.u1 s.u2 lat0 lon0 orbit r phase incl T = 0 := by
      unfold trueCovered
      simp only [not_behind s.radius orbit r phase incl lat0 lon0 _ _ hno, and_false, if_false]
      simp [sphereInt]
    rw [h1, h2, sub_zero, abs_zero]
    exact hE
  · rw [not_or, not_lt, not_lt] at hno
    have hright := mask_right s nlat nlon hgrid (by omega) (by omega) hR.ne' lat0 lon0 h0 hpole orbit r phase incl c plf h _ _ rfl
      hno.1 hno.2
    have h01 : ∀ p, 0 ≤ c p ∧ c p ≤ 1 := by
      intro p
      obtain ⟨v, hv, h1, h2, -⟩ := hmask p
      rw [Fl.fin_inj] at hv
      rw [hv]; exact ⟨h1, h2⟩
    have ht : trueCovered s.spots.spots s.radius s.teff s.u1 s.u2 lat0 lon0 orbit r phase incl T =
        sphereInt (fun φ l => if trueTemp s.spots.spots s.radius s.teff φ l = T ∧
          planetDist (planetPos s.radius orbit phase incl).1 (planetPos s.radius orbit phase incl).2
            (orthoX lat0 lon0 φ l) (orthoY lat0 lon0 φ l) < r / s.radius then intensity s.u1 s.u2 lat0 lon0 φ l else 0) /
          sphereInt (intensity s.u1 s.u2 lat0 lon0) := by
      unfold trueCovered behindPlanet
      simp only [hno.1, true_and]
    rw [ht]
    clear hmask h ht hno hg hE
    obtain ⟨teff, radius, period, ⟨spots, grid⟩, faculae, grid', fg, sg, fcg, gr', u1, u2, fl⟩ := s
    simp only at hgrid
    subst hgrid
    exact covered_accuracy nlat nlon (by omega) (by omega) a ha spots radius teff u1 u2 lat0 lon0 hR hld hs m hm
      (pixelWeight _ a lat0 lon0) (fun p => by
        unfold pixelWeight intensity
        rw [(C03_mu_inner _ lat0 lon0 p).2.2.2]
        ring) hW _ _ _ c h01 hright T

/-- **C100** For a star without faculae on a rectangular grid, seen from anywhere (from a pole: at longitude zero): the
covered fraction of every temperature reported by `calc_coverage` (zero if the temperature is not reported) differs
from the true share of the light that comes from points of that temperature behind the planet – on the near side, and
with their orthographic picture in the disk of the planet – by at most a constant times the grid spacing, plus the
outline of the planet times the width `η = 1.5 (δ + 2π/nlon) + 0.0101`. -/
theorem C100_transit_accuracy (s : Star) (nlat nlon : ℕ) (hgrid : s.grid = .rect nlat nlon) (hlat : 4 ≤ nlat) (hlon : 3 ≤ nlon)
    (hsg : s.spots.grid = s.grid) (hms : Measured s.spots) (hf : s.faculae.faculae = []) (hR : 0 < s.radius)
    (hld : PhysicalLD s.u1 s.u2) (hs : ∀ sp ∈ s.spots.spots, GoodSpot sp s.radius) (lat0 lon0 : ℝ)
    (h0 : lat0 ∈ Set.Icc (-(π / 2)) (π / 2)) (hpole : lat0 ∈ Set.Ioo (-(π / 2)) (π / 2) ∨ ∃ k : ℤ, lon0 = k * (2 * π))
    (g orbit r phase incl : ℝ) (hg0 : 0 ≤ g) (total cov : Dict ℤ Fl)
    (plf : Fl) (h : s.calcCoverage lat0 lon0 g orbit r phase incl = .ok (total, cov, plf)) (gr : Granulation)
    (hgr : s.granulation = some gr)
    (hsep : ∀ T ∈ reportTemps s.spots.spots s.teff (s.teff - gr.dteff), ∀ T' ∈ reportTemps s.spots.spots s.teff (s.teff - gr.dteff),
      T ≠ T' → 1 / 100 < |T - T'|) :
    ∃ label : ℝ → ℤ, (∀ T, |(label T : ℝ) - 100 * T| ≤ 1 / 2) ∧
      ∀ T ∈ reportTemps s.spots.spots s.teff (s.teff - gr.dteff), ∃ v : ℝ,
        (Dict.get? cov (label T)).getD (.fin 0) = .fin v ∧
        |v - trueCoveredReport s.spots.spots s.radius s.teff (s.teff - gr.dteff) g s.u1 s.u2 lat0 lon0 orbit r phase incl T| ≤
          (1 + g) * coverError s.spots.spots.length nlat nlon s.u1 s.u2 (r / s.radius) := by
  classical
  have hg : goodGrid s.grid := by rw [hgrid]; exact ⟨by omega, by omega⟩
  have hv : Visible s lat0 lon0 := visible_rect s hgrid hlat hlon lat0 lon0
  obtain ⟨a, ha, -⟩ := C02_area_partition s.grid hg
  obtain ⟨-, hW⟩ := visible_pos s hg hld ha hv
  obtain ⟨m₀, hm₀, hleast, -⟩ := C19_coolest_partial s.spots hms s.radius s.teff (fun sp hsp => (hs sp hsp).2.2)
  have hm := noFac_map hsg (show s.map = .ok m₀ from hm₀) hf lat0 lon0
  have hacc : ∃ m : s.grid.Pix → ℝ, s.addFaculaeToMap lat0 lon0 = .ok m ∧
      ∀ p, IsLeast (tempsAt s.spots.spots s.grid s.radius s.teff p) (m p) := by
    refine ⟨_, hm, ?_⟩
    clear h hm hm₀ hsep
    obtain ⟨teff, radius, period, ⟨spots, grid⟩, faculae, grid', fg, sg, fcg, gr', u1, u2, fl⟩ := s
    simp only at hgrid hsg
    subst hsg
    exact hleast
  obtain ⟨m, hm', hl'⟩ := hacc
  have hmem : ∀ p, m p ∈ reportTemps s.spots.spots s.teff (s.teff - gr.dteff) := by
    intro p
    rcases (hl' p).1 with h1 | ⟨sp, h1, h2⟩
    · exact Or.inl (Or.inl h1)
    · exact Or.inr ⟨sp, h1, h2.imp And.left And.left⟩
  have hsub : ∀ T ∈ Set.range m ∪ {s.teff, s.teff - gr.dteff}, T ∈ reportTemps s.spots.spots s.teff (s.teff - gr.dteff) := by
    rintro T (⟨p, rfl⟩ | h)
    · exact hmem p
    · exact Or.inl h
  obtain ⟨-, label, hl, hkeys, mask, hmk, hent⟩ := C57_shares_partial s hg hR.ne' a ha lat0 lon0 h0 hW.ne' g orbit r phase incl
    total cov plf h m hm' (s.teff - gr.dteff) ⟨gr, hgr, rfl⟩ (fun T h1 T' h2 => hsep T (hsub T h1) T' (hsub T' h2))
  have hsh := mask_accuracy s nlat nlon hgrid hlat hlon hR hld hs lat0 lon0 h0 hpole orbit r phase incl a ha m hl' mask plf hmk
  have hkeys' : ∀ k ∈ Dict.keys cov, ∃ T ∈ Set.range m ∪ {s.teff, s.teff - gr.dteff}, k = label T := by
    obtain ⟨m', gr', e1, e2, k1, k2⟩ := C95_keys s lat0 lon0 g orbit r phase incl total cov plf h
    exact fun k hk => hkeys k ((k1 k).mpr ((k2 k).mp hk))
  refine ⟨label, hl, fun T hT => ?_⟩
  set E := coverError s.spots.spots.length nlat nlon s.u1 s.u2 (r / s.radius) with hE
  by_cases hin : T ∈ Set.range m ∪ {s.teff, s.teff - gr.dteff}
  · refine ⟨_, by rw [hent cov _ (Or.inr ⟨rfl, rfl⟩) T hin]; rfl, ?_⟩
    have h1 := abs_le.mp (hsh T)
    have h2 := abs_le.mp (hsh s.teff)
    have hE0 : 0 ≤ E := (abs_nonneg _).trans (hsh T)
    unfold trueCoveredReport
    simp only
    set A := share (pixelWeight s a lat0 lon0) m mask T
    set B := share (pixelWeight s a lat0 lon0) m mask s.teff
    set A' := trueCovered s.spots.spots s.radius s.teff s.u1 s.u2 lat0 lon0 orbit r phase incl T
    set B' := trueCovered s.spots.spots s.radius s.teff s.u1 s.u2 lat0 lon0 orbit r phase incl s.teff
    have h3 : g * (B - B') ≤ g * E := mul_le_mul_of_nonneg_left h2.2 hg0
    have h4 : g * (-E) ≤ g * (B - B') := mul_le_mul_of_nonneg_left h2.1 hg0
    have h5 := mul_nonneg hg0 hE0
    rw [abs_le]
    split_ifs <;> constructor <;> linarith [h1.1, h1.2]
  · have hnone : Dict.get? cov (label T) = none := by
      rw [Dict.get?_eq_none]
      intro hk
      obtain ⟨T', hT', he⟩ := hkeys' _ hk
      have hne : T ≠ T' := fun e => hin (e ▸ hT')
      have hs' := hsep T hT T' (hsub T' hT') hne
      have e1 := abs_le.mp (hl T)
      have e2 := abs_le.mp (hl T')
      rw [he] at e1
      have : |T - T'| ≤ 1 / 100 := abs_le.mpr ⟨by linarith [e1.1, e2.2], by linarith [e1.2, e2.1]⟩
      linarith
    refine ⟨0, by rw [hnone]; rfl, ?_⟩
    simp only [Set.mem_union, Set.mem_insert_iff, Set.mem_singleton_iff, not_or] at hin
    have hz : share (pixelWeight s a lat0 lon0) m mask T = 0 :=
      share_of_notMem fun p hp => hin.1 ⟨p, hp⟩
    have h1 := hsh T
    rw [hz] at h1
    unfold trueCoveredReport
    simp only
    rw [if_neg hin.2.2, if_neg hin.2.1, add_zero, sub_zero]
    have hE0 : 0 ≤ E := (abs_nonneg _).trans (hsh T)
    nlinarith [mul_nonneg hg0 hE0]

/-- **C100** As the grid is refined, the bound goes to the part that stems from the rounding of the angles to three decimals
in the projection: `0.0404 max(r, 0.0101)`, over the mean brightness of the disk. -/
theorem C100_convergence (n : ℕ) (u1 u2 rp : ℝ) (hld : PhysicalLD u1 u2) (ε : ℝ) (hε : 0 < ε) :
    ∃ N : ℕ, ∀ nlat nlon : ℕ, N ≤ nlat → N ≤ nlon →
      coverError n nlat nlon u1 u2 rp ≤ 4 * 0.0101 * max rp 0.0101 / (1 - u1 / 3 - u2 / 6) + ε := by
  set τ : ℝ := 0.0101 with hτ
  have hτ0 : 0 < τ := by norm_num [hτ]
  have hτ1 : τ ≤ 1 := by norm_num [hτ]
  set M := max rp τ with hM
  have hM0 : 0 ≤ M := le_max_of_le_right hτ0.le
  have hM1 : rp ≤ M := le_max_left _ _
  have hM2 : τ ≤ M := le_max_right _ _
  clear_value M τ
  obtain ⟨k, hk⟩ := exists_nat_gt (6 * (M + 3))
  obtain ⟨N, hN⟩ := C99_convergence (n + k) u1 u2 0 hld le_rfl (min ε 1) (by positivity)
  refine ⟨max N 2, fun nlat nlon h1 h2 => ?_⟩
  have h3 := hN nlat nlon ((le_max_left _ _).trans h1) ((le_max_left _ _).trans h2)
  have hn : (2 : ℝ) ≤ nlat := by exact_mod_cast (le_max_right _ _).trans h1
  have hden : 0 < 1 - u1 / 3 - u2 / 6 := by obtain ⟨x, y, z⟩ := hld; linarith
  have hden1 : 1 - u1 / 3 - u2 / 6 ≤ 1 := by obtain ⟨x, y, z⟩ := hld; linarith
  have hp := pi_pos
  unfold coverError
  simp only [shareError] at h3 ⊢
  set D := 1 - u1 / 3 - u2 / 6
  have hh0 : 0 ≤ π / ((nlat : ℝ) - 1) + 2 * π / nlon := by
    have : 0 < (nlat : ℝ) - 1 := by linarith
    positivity
  set h := π / ((nlat : ℝ) - 1) + 2 * π / nlon
  rw [add_zero, one_mul, div_le_iff₀ hden] at h3
  push_cast at h3
  have hε' : min ε 1 * D ≤ ε * D := mul_le_mul_of_nonneg_right (min_le_left _ _) hden.le
  have h1' : min ε 1 * D ≤ 1 := mul_le_one₀ (min_le_right _ _) hden.le hden1
  have hh1 : h ≤ 1 := by
    have : 0 ≤ (13 + 4 * ((n : ℝ) + k)) * h := by positivity
    linarith
  rw [← add_div, div_add' _ _ _ hden.ne', div_le_div_iff_of_pos_right hden]
  have hmax : max rp (3 / 2 * h + τ) ≤ M + 3 / 2 * h :=
    max_le (by linarith) (by linarith)
  have h4 : 4 * (3 / 2 * h + τ) * max rp (3 / 2 * h + τ) ≤ 4 * (3 / 2 * h + τ) * (M + 3 / 2 * h) :=
    mul_le_mul_of_nonneg_left hmax (by positivity)
  have h5 : 4 * (3 / 2 * h + τ) * (M + 3 / 2 * h) ≤ 4 * τ * M + 6 * (M + 3) * h := by nlinarith
  have h6 : 6 * (M + 3) * h ≤ 4 * k * h := mul_le_mul_of_nonneg_right (by linarith [Nat.cast_nonneg (α := ℝ) k]) hh0
  rw [← hτ]
  linarith

/-- Non-trivial instance: a star with a spot and with granules 100 K cooler than the photosphere; a planet of half the radius of
the star stands in the middle of the disk.  All covered fractions are within 0.033 of the truth. -/
example : ∃ total cov plf, (granStar (.rect 20001 40000) [sampleSpot (.rect 20001 40000)] 100).calcCoverage 0 1 0.2 10 (1 / 2) π (π / 2) =
      .ok (total, cov, plf) ∧ ∃ label : ℝ → ℤ, (∀ T, |(label T : ℝ) - 100 * T| ≤ 1 / 2) ∧
      ∀ T ∈ ({3000, 2900, 2700, 2500} : Set ℝ), ∃ v : ℝ, (Dict.get? cov (label T)).getD (.fin 0) = .fin v ∧
        |v - trueCoveredReport [sampleSpot (.rect 20001 40000)] 1 3000 2900 0.2 0 0 0 1 10 (1 / 2) π (π / 2) T| ≤ 0.033 := by
  set gd : Grid := .rect 20001 40000 with hgd
  set s := granStar gd [sampleSpot gd] 100 with hs
  have hp := pi_pos
  have h0 : (0 : ℝ) ∈ Set.Icc (-(π / 2)) (π / 2) := ⟨by linarith, by linarith⟩
  have hg : goodGrid s.grid := ⟨by omega, by omega⟩
  have hv : Visible s 0 1 := visible_rect s rfl (by omega) (by omega) 0 1
  obtain ⟨a, ha, -⟩ := C02_area_partition s.grid hg
  obtain ⟨-, hW⟩ := visible_pos s hg (granStar_phys _ _ _) ha hv
  have hw : ∀ p, s.weight 0 1 p = .fin (pixelWeight s a 0 1 p) := weight_eq s a ha 0 1
  have hpos : planetPos s.radius 10 π (π / 2) = ((planetPos s.radius 10 π (π / 2)).1, (planetPos s.radius 10 π (π / 2)).2) := rfl
  have hsp : s.spots.spots = [sampleSpot gd] := rfl
  have hR1 : s.radius = 1 := rfl
  obtain ⟨total, cov, plf, h, -⟩ := C59_answers_partial s hg one_pos 0 1 _ (by simp only [hw, Fl.sum_fin]) hW.ne' h0
    ⟨0.2, 1, 1, 100⟩ rfl rfl (measured_new _ _) (by simp [hs, granStar, sampleStar])
    (Or.inr ⟨(⟨0, by omega⟩, ⟨0, by omega⟩), by
      intro sp hsp'
      rw [hsp, List.mem_singleton] at hsp'
      rw [hsp']
      have := inSpot_cos (sampleSpot gd) gd 1 1 5 one_pos rfl zero_le_one (by nlinarith [pi_gt_three]) rfl (by norm_num)
        (⟨0, by omega⟩, ⟨0, by omega⟩)
      rw [← not_or]
      intro hin
      have hin := this.mp hin
      obtain ⟨l1, -⟩ := (C01_rect_layout 20001 40000 (by omega)).2.2 ⟨0, by omega⟩ ⟨0, by omega⟩
      rw [show gd.lat (⟨0, by omega⟩, ⟨0, by omega⟩) = _ from l1] at hin
      simp [sampleSpot, StarSpot.new] at hin
      have h7 : (π⁻¹ * 2⁻¹ : ℝ) < 1 := by
        have : π⁻¹ ≤ 1 := inv_le_one_of_one_le₀ (by linarith [pi_gt_three])
        linarith
      linarith,
      by simp [hs, granStar, sampleStar]⟩) 0.2 10 (1 / 2) π (π / 2) (by norm_num) _ _ hpos.symm (by simp)
  refine ⟨total, cov, _, h, ?_⟩
  have hset : reportTemps s.spots.spots s.teff (s.teff - 100) = {3000, 2900, 2700, 2500} := by
    rw [hsp]
    ext t
    simp only [reportTemps, Set.mem_union, Set.mem_insert_iff, Set.mem_singleton_iff, Set.mem_ofPred_eq, List.mem_singleton,
      exists_eq_left, sampleSpot, StarSpot.new, hs, granStar, sampleStar]
    norm_num
    tauto
  obtain ⟨label, hl, hent⟩ := C100_transit_accuracy s 20001 40000 rfl (by omega) (by omega) rfl (measured_new _ _) rfl one_pos
    (granStar_phys _ _ _) (by
      intro sp hsp'
      rw [hsp, List.mem_singleton] at hsp'
      subst hsp'
      exact ⟨⟨1, rfl, zero_le_one, by rw [hR1]; nlinarith [pi_gt_three]⟩, ⟨5, rfl, by norm_num⟩, by norm_num [sampleSpot, StarSpot.new]⟩)
    0 1 h0 (Or.inl ⟨by linarith, by linarith⟩) 0.2 10 (1 / 2) π (π / 2) (by norm_num) total cov _ h ⟨0.2, 1, 1, 100⟩ rfl (by
      intro T h1 T' h2 hne
      rw [hset] at h1 h2
      simp only [Set.mem_insert_iff, Set.mem_singleton_iff] at h1 h2
      rcases h1 with rfl | rfl | rfl | rfl <;> rcases h2 with rfl | rfl | rfl | rfl <;> first | exact absurd rfl hne | norm_num)
  refine ⟨label, hl, fun T hT => ?_⟩
  obtain ⟨v, hv1, hv2⟩ := hent T (by rw [hset]; exact hT)
  refine ⟨v, hv1, ?_⟩
  have e2 : s.teff - 100 = 2900 := by norm_num [hs, granStar, sampleStar]
  have e3 : s.teff = 3000 := rfl
  have e4 : s.u1 = 0 := rfl
  have e5 : s.u2 = 0 := rfl
  rw [e2, e3, e4, e5, hsp, hR1] at hv2
  refine hv2.trans ?_
  simp only [coverError, shareError, List.length_singleton]
  have := pi_lt_d2
  push_cast
  rw [max_eq_left (by norm_num; linarith)]
  norm_num
  linarith

end Vsm
