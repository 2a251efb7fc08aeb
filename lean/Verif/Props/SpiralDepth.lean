import Verif.Props.SpiralAccuracy
import Verif.Props.TransitDepth
import Verif.Props.QuietAgain
import Mathlib.Analysis.Real.Pi.Bounds

/-!
# C162: transit depth on spiral grids
-/

open Real MeasureTheory Vsm.Np Vsm.Spec

noncomputable section

namespace Vsm

/-- The sum of the covered fractions for any grid with quadrature parameters `ρ` and `ε`. -/
theorem depth_accuracy (s : Star) {κ ρ ε b : ℝ} (hQd : Quad s.grid κ ρ ε b) (hR : 0 < s.radius) (hld : PhysicalLD s.u1 s.u2) (lat0 lon0 : ℝ)
    (hv : Visible s lat0 lon0)
    (h0 : lat0 ∈ Set.Icc (-(π / 2)) (π / 2)) (hpole : lat0 ∈ Set.Ioo (-(π / 2)) (π / 2) ∨ ∃ k : ℤ, lon0 = k * (2 * π))
    (g orbit r phase incl : ℝ) (total cov : Dict ℤ Fl) (plf : Fl)
    (h : s.calcCoverage lat0 lon0 g orbit r phase incl = .ok (total, cov, plf)) (m : s.grid.Pix → ℝ)
    (hm : s.addFaculaeToMap lat0 lon0 = .ok m) (gr : Granulation) (hgr : s.granulation = some gr)
    (hsep : ∀ T ∈ Set.range m ∪ {s.teff, s.teff - gr.dteff}, ∀ T' ∈ Set.range m ∪ {s.teff, s.teff - gr.dteff}, T ≠ T' → 1 / 100 < |T - T'|)
    (X Y : ℝ) (hXY : (X, Y) = planetPos s.radius orbit phase incl) :
    ∃ S : ℝ, (Dict.values cov).sum = .fin S ∧ (0 < cos phase → S = 0) ∧
      (cos phase ≤ 0 → |S - transitDepth s.u1 s.u2 X Y (r / s.radius)| ≤
        gridError 0 0 ρ ε s.u1 s.u2 + ringError ρ s.u1 s.u2 (r / s.radius)) := by
  classical
  have hp := pi_pos
  have hg : goodGrid s.grid := hQd.good
  obtain ⟨a, ha, -⟩ := C02_area_partition s.grid hg
  obtain ⟨-, hW⟩ := visible_pos s hg hld ha hv
  have hw : ∀ p, s.weight lat0 lon0 p = .fin (pixelWeight s a lat0 lon0 p) := weight_eq s a ha lat0 lon0
  obtain ⟨m', mask, gr', hm', ht, hgr', h1, h2⟩ := calcCoverage_ok.mp h
  rw [hm, Except.ok.injEq] at hm'
  subst hm'
  rw [hgr, Option.some.injEq] at hgr'
  subst hgr'
  obtain ⟨c, rfl, -⟩ := mask_real hg hR.ne' h0 ht
  have hinj : ∀ T T', (T ∈ Set.range m ∨ T = s.teff ∨ T = s.teff - gr.dteff) →
      (T' ∈ Set.range m ∨ T' = s.teff ∨ T' = s.teff - gr.dteff) → Star.key T = Star.key T' → T = T' := by
    intro T T' hT hT' hk
    by_contra hne
    have := hsep T hT T' hT' hne
    have e1 := abs_le.mp (key_near T)
    have e2 := abs_le.mp (key_near T')
    rw [hk] at e1
    have : |T - T'| ≤ 1 / 100 := abs_le.mpr ⟨by linarith [e1.1, e2.2], by linarith [e1.2, e2.1]⟩
    linarith
  obtain ⟨hsum, -⟩ := entries_of_sep hw hW.ne' h2 hinj
  refine ⟨_, hsum, fun hph => ?_, fun hph => ?_⟩
  · have hc : ∀ p, c p = 0 := by
      intro p
      obtain ⟨v, hv, -, -, -, h3, -⟩ := C63_transit_mask s hg hR.ne' a ha lat0 lon0 orbit r phase incl h0 _ plf ht _ _ _ rfl rfl p
      rw [Fl.fin_inj] at hv
      rw [hv]; exact h3 hph
    simp [hc]
  · obtain ⟨h01, hpt⟩ := mask_pointwise s hQd hR hld lat0 lon0 h0 hpole orbit r phase incl c plf ht
    have hρ0 := hQd.near
    obtain ⟨pi1, pi2⟩ := planetRing_integral b lat0 lon0 (planetPos s.radius orbit phase incl).1
      (planetPos s.radius orbit phase incl).2 (r / s.radius) (3 * ρ + 0.0101) (by positivity)
    have key := (facula_shares s.grid hQd a ha s.u1 s.u2 lat0 lon0 hld (pixelWeight s a lat0 lon0) (fun p => by
        unfold pixelWeight intensity
        rw [(C03_mu_inner _ lat0 lon0 p).2.2.2]
        ring) hW [] [] s.radius s.teff hR (by simp) (fun _ => 0) (by simp) (fun _ => s.teff) (fun _ => s.teff) (fun p => by
        refine ⟨Or.inl rfl, ?_⟩
        rintro t (rfl | ⟨sp, hsp, -⟩)
        · exact le_rfl
        · simp at hsp) (fun _ _ => rfl) _ (behind_measurable s.radius orbit r phase incl lat0 lon0)
      (fun φ l => by unfold behindPlanet; rw [orthoX_periodic, orthoY_periodic]) _ pi1
      (fun φ l => planetRing_nonneg _ _ _ _ _ _ φ l) _ pi2 c h01 hpt).1 s.teff (by simp)
    have e : 4 * π * (3 * ρ + 0.0101) * max (r / s.radius) (3 * ρ + 0.0101) / π / (1 - s.u1 / 3 - s.u2 / 6) =
        ringError ρ s.u1 s.u2 (r / s.radius) := by
      unfold ringError
      congr 1
      rw [div_eq_iff hp.ne']; ring
    rw [e] at key
    have e1 : share (pixelWeight s a lat0 lon0) (fun _ => s.teff) c s.teff =
        (∑ p, pixelWeight s a lat0 lon0 p * c p) / ∑ p, pixelWeight s a lat0 lon0 p := by simp [share]
    have e2 : lightShare s.u1 s.u2 lat0 lon0 (fun φ l => bare [] [] s.radius s.teff s.teff φ l ∧ behindPlanet s.radius orbit r phase incl lat0 lon0 φ l) =
        transitDepth s.u1 s.u2 X Y (r / s.radius) := by
      rw [← depth_eq hld lat0 lon0]
      unfold lightShare behindPlanet
      rw [← hXY]
      have ht : ∀ φ l, bare [] [] s.radius s.teff s.teff φ l := fun φ l => by simp [bare, trueTemp, inAnyFacula]
      simp only [ht, hph, true_and]
    rw [← e1, ← e2]
    exact key

/-- **C162** For every star on a spiral grid of `n ≥ 5` points – with any spots and faculae – the covered fractions reported by `calc_coverage`
add up to the depth of the transit for the quadratic limb-darkening law, up to the error of grid and projection, which is explicit for every
block length `fib (j+1)`; when the planet is on the far side they add up to zero. -/
theorem C162_spiral_depth (s : Star) (n : ℕ) (hgrid : s.grid = .spiral n) (hn : 5 ≤ n)
    (hR : 0 < s.radius) (hld : PhysicalLD s.u1 s.u2) (lat0 lon0 : ℝ)
    (h0 : lat0 ∈ Set.Icc (-(π / 2)) (π / 2)) (hpole : lat0 ∈ Set.Ioo (-(π / 2)) (π / 2) ∨ ∃ k : ℤ, lon0 = k * (2 * π))
    (g orbit r phase incl : ℝ) (total cov : Dict ℤ Fl) (plf : Fl)
    (h : s.calcCoverage lat0 lon0 g orbit r phase incl = .ok (total, cov, plf)) (m : s.grid.Pix → ℝ)
    (hm : s.addFaculaeToMap lat0 lon0 = .ok m) (gr : Granulation) (hgr : s.granulation = some gr)
    (hsep : ∀ T ∈ Set.range m ∪ {s.teff, s.teff - gr.dteff}, ∀ T' ∈ Set.range m ∪ {s.teff, s.teff - gr.dteff}, T ≠ T' → 1 / 100 < |T - T'|)
    (X Y : ℝ) (hXY : (X, Y) = planetPos s.radius orbit phase incl) (j : ℕ) :
    ∃ S : ℝ, (Dict.values cov).sum = .fin S ∧ (0 < cos phase → S = 0) ∧
      (cos phase ≤ 0 → |S - transitDepth s.u1 s.u2 X Y (r / s.radius)| ≤
        (24 * spiralReach n j + 16 * Nat.fib (j + 1) / n) / (1 - s.u1 / 3 - s.u2 / 6) + ringError (spiralReach n j) s.u1 s.u2 (r / s.radius)) := by
  have hq := quad_spiral n j (by omega)
  obtain ⟨S, h1, h2, h3⟩ := depth_accuracy s (by rw [hgrid]; exact hq) hR hld lat0 lon0
    (C71_spiral_disk s n hgrid hn hld lat0 lon0).2.1 h0 hpole g orbit r phase incl total cov plf h m hm gr hgr hsep X Y hXY
  refine ⟨S, h1, h2, fun hc => (h3 hc).trans (le_of_eq ?_)⟩
  unfold gridError
  congr 2
  push_cast
  ring

/-- **C162** For given limb darkening, relative size of the planet and tolerance, spiral grids of enough points give the depth within the tolerance
beyond the inaccuracy of the projection, for all stars, observers and orbits. -/
theorem C162_spiral_depth_converges (u1 u2 rp η : ℝ) (hld : PhysicalLD u1 u2) (hη : 0 < η) : ∃ N : ℕ, ∀ n ≥ N, ∀ s : Star, s.grid = .spiral n →
    s.u1 = u1 → s.u2 = u2 → 0 < s.radius → ∀ lat0 lon0 : ℝ,
    lat0 ∈ Set.Icc (-(π / 2)) (π / 2) → (lat0 ∈ Set.Ioo (-(π / 2)) (π / 2) ∨ ∃ k : ℤ, lon0 = k * (2 * π)) →
    ∀ (g orbit r phase incl : ℝ), r / s.radius = rp → cos phase ≤ 0 → ∀ (total cov : Dict ℤ Fl) (plf : Fl),
    s.calcCoverage lat0 lon0 g orbit r phase incl = .ok (total, cov, plf) → ∀ m : s.grid.Pix → ℝ,
    s.addFaculaeToMap lat0 lon0 = .ok m → ∀ gr : Granulation, s.granulation = some gr →
    (∀ T ∈ Set.range m ∪ {s.teff, s.teff - gr.dteff}, ∀ T' ∈ Set.range m ∪ {s.teff, s.teff - gr.dteff}, T ≠ T' → 1 / 100 < |T - T'|) →
    ∀ X Y, (X, Y) = planetPos s.radius orbit phase incl →
    ∃ S : ℝ, (Dict.values cov).sum = .fin S ∧ |S - transitDepth u1 u2 X Y rp| ≤ 4 * 0.0101 * max rp 0.0101 / (1 - u1 / 3 - u2 / 6) + η := by
  obtain ⟨δ, hδ, hsm⟩ := errors_small 0 0 u1 u2 rp (η / 2) (by positivity)
  obtain ⟨j, N, hN⟩ := spiral_fine δ hδ
  refine ⟨max N 5, fun n hn s hgrid hu1 hu2 hR lat0 lon0 h0 hpole g orbit r phase incl hrp hc total cov plf h m hm gr hgr hsep X Y hXY => ?_⟩
  obtain ⟨d1, d2⟩ := hN n ((le_max_left _ _).trans hn)
  have hn5 : 5 ≤ n := (le_max_right _ _).trans hn
  have hn0 : (0 : ℝ) < n := by exact_mod_cast (by omega : 0 < n)
  obtain ⟨k1, k2⟩ := hsm (spiralReach n j) (2 * Nat.fib (j + 1) / n) (by unfold spiralReach; positivity) d1 (by positivity) d2
  subst hu1 hu2 hrp
  obtain ⟨S, h1, -, h3⟩ := C162_spiral_depth s n hgrid hn5 hR hld lat0 lon0 h0 hpole g orbit r phase incl total cov plf h m hm gr hgr hsep X Y hXY j
  refine ⟨S, h1, (h3 hc).trans ?_⟩
  have e : (24 * spiralReach n j + 16 * Nat.fib (j + 1) / n) / (1 - s.u1 / 3 - s.u2 / 6) = gridError 0 0 (spiralReach n j) (2 * Nat.fib (j + 1) / n) s.u1 s.u2 := by
    unfold gridError; congr 1; push_cast; ring
  have e' : ringError 0 s.u1 s.u2 (r / s.radius) = 4 * 0.0101 * max (r / s.radius) 0.0101 / (1 - s.u1 / 3 - s.u2 / 6) := by
    unfold ringError; norm_num
  rw [e, ← e']
  linarith

/-- Non-trivial instance: a planet of half the radius of a uniform quiet star in front of the middle of its disk, on a spiral grid of 10¹⁶ points.  The
covered fractions add up to a quarter, within 0.04. -/
example : let s : Star := { teff := 3000, radius := 1, period := 10, spots := ⟨[], .spiral (10 ^ 16)⟩, faculae := ⟨[], .spiral (10 ^ 16)⟩, grid := .spiral (10 ^ 16), flareGen := FlareGenerator.off, spotGen := SpotGenerator.off (.spiral (10 ^ 16)), facGen := FaculaGenerator.off (.spiral (10 ^ 16)), granulation := some Granulation.off, u1 := 0, u2 := 0, flares := none };
    ∃ total cov plf, s.calcCoverage 0 1 0 10 (1 / 2) π (π / 2) = .ok (total, cov, plf) ∧ ∃ S : ℝ, (Dict.values cov).sum = .fin S ∧ |S - 1 / 4| ≤ 0.04 := by
  intro s
  have hp := pi_pos
  have h3 := pi_gt_d6
  have h4 := pi_lt_d6
  have hR : 0 < s.radius := one_pos
  have hld : PhysicalLD s.u1 s.u2 := by show PhysicalLD 0 0; unfold PhysicalLD; norm_num
  have h0 : (0 : ℝ) ∈ Set.Icc (-(π / 2)) (π / 2) := ⟨by linarith, by linarith⟩
  have hv := (C71_spiral_disk s (10 ^ 16) rfl (by norm_num) hld 0 1).2.1
  have hg : goodGrid s.grid := by show 1 ≤ 10 ^ 16; norm_num
  obtain ⟨total, cov, plf, h, -⟩ := C131_report s hg hR hld rfl rfl rfl Granulation.off rfl (fun h => absurd rfl h) 0 1 h0 hv 0 10 (1 / 2) π (π / 2)
    (by norm_num) (by show (1 / 2 : ℝ) ≤ 1; norm_num)
  refine ⟨total, cov, plf, h, ?_⟩
  obtain ⟨S, h1, -, h2⟩ := C162_spiral_depth s (10 ^ 16) rfl (by norm_num) hR hld 0 1 h0 (Or.inl ⟨by linarith, by linarith⟩) 0 10 (1 / 2) π (π / 2) total cov plf h
    (fun _ => 3000) rfl Granulation.off rfl (by
      intro T hT T' hT' hne
      have e : ∀ T, T ∈ Set.range (fun _ : s.grid.Pix => (3000 : ℝ)) ∪ {s.teff, s.teff - Granulation.off.dteff} → T = 3000 := by
        rintro T (⟨p, rfl⟩ | rfl | rfl)
        · rfl
        · rfl
        · show (3000 : ℝ) - 0 = 3000; norm_num
      exact absurd ((e T hT).trans (e T' hT').symm) hne) 0 0 (by simp [planetPos]) 40
  refine ⟨S, h1, ?_⟩
  have h2 := h2 (by rw [cos_pi]; norm_num)
  have hd : transitDepth 0 0 0 0 (1 / 2) = 1 / 4 := by
    obtain ⟨f, hf, he⟩ := (C101_uniform_depth 0 0 (1 / 2)).2 (by norm_num) (by norm_num)
    obtain ⟨v, hv, -, -, -, -, h1⟩ := (C13_circ_fraction_total 0 0 (1 / 2)).2 (by norm_num)
    rw [hf] at hv
    simp only [Except.ok.injEq, Fl.fin_inj] at hv
    rw [he, hv, h1 (by norm_num) (by norm_num)]
    norm_num
  have hu : s.u1 = 0 ∧ s.u2 = 0 ∧ s.radius = 1 := ⟨rfl, rfl, rfl⟩
  rw [hu.1, hu.2.1, hu.2.2, div_one, hd] at h2
  have hF : Nat.fib 41 = 165580141 := by norm_num
  have hr : spiralReach (10 ^ 16) 40 ≤ 0.00041 := by
    unfold spiralReach
    rw [hF]
    have : √(((165580141 : ℕ) : ℝ) / ((10 ^ 16 : ℕ) : ℝ)) ≤ 0.00013 := by rw [sqrt_le_left (by norm_num)]; norm_num
    push_cast at this ⊢
    nlinarith
  have hr0 : 0 ≤ spiralReach (10 ^ 16) 40 := by unfold spiralReach; positivity
  have hring : ringError (spiralReach (10 ^ 16) 40) 0 0 (1 / 2) ≤ 0.0227 := by
    unfold ringError
    rw [max_eq_left (by linarith)]
    norm_num
    linarith
  refine h2.trans ?_
  rw [hF]
  norm_num at hr hring ⊢
  linarith

end Vsm
