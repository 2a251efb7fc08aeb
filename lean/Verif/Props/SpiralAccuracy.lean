import Verif.Props.FaculaAccuracy2
import Verif.Props.SpiralDisk

/-!
# C103: accuracy of the reported fractions on spiral grids
-/

open Real MeasureTheory Vsm.Np Vsm.Spec

noncomputable section

namespace Vsm

/-- The error bounds vanish with the size of the cells. -/
theorem errors_small (k j : ℕ) (u1 u2 rp η : ℝ) (hη : 0 < η) : ∃ δ > 0, ∀ ρ ε : ℝ, 0 ≤ ρ → ρ < δ → 0 ≤ ε → ε < δ →
    gridError k j ρ ε u1 u2 ≤ η ∧ ringError ρ u1 u2 rp ≤ ringError 0 u1 u2 rp + η := by
  have c1 : Continuous fun x : ℝ × ℝ => gridError k j x.1 x.2 u1 u2 := by unfold gridError; fun_prop
  have c2 : Continuous fun x : ℝ => ringError x u1 u2 rp := by unfold ringError; fun_prop
  have z : gridError k j 0 0 u1 u2 = 0 := by simp [gridError]
  obtain ⟨δ₁, h1, k1⟩ := Metric.continuous_iff.mp c1 (0, 0) η hη
  obtain ⟨δ₂, h2, k2⟩ := Metric.continuous_iff.mp c2 0 η hη
  refine ⟨min δ₁ δ₂, lt_min h1 h2, fun ρ ε hρ hρ' hε hε' => ?_⟩
  have a1 := k1 (ρ, ε) (by
    rw [Prod.dist_eq, max_lt_iff, Real.dist_eq, Real.dist_eq, sub_zero, sub_zero, abs_of_nonneg hρ, abs_of_nonneg hε]
    exact ⟨hρ'.trans_le (min_le_left _ _), hε'.trans_le (min_le_left _ _)⟩)
  have a2 := k2 ρ (by rw [Real.dist_eq, sub_zero, abs_of_nonneg hρ]; exact hρ'.trans_le (min_le_right _ _))
  simp only [Real.dist_eq] at a1 a2
  rw [z, sub_zero] at a1
  constructor
  · exact ((le_abs_self _).trans_lt a1).le
  · linarith [(abs_lt.mp a2).2]

/-- A block length and a number of points for which the cells of a spiral grid are small. -/
theorem spiral_fine (δ : ℝ) (hδ : 0 < δ) : ∃ m N : ℕ, ∀ n ≥ N, spiralReach n m < δ ∧ 2 * (Nat.fib (m + 1) : ℝ) / n < δ := by
  have hp := pi_pos
  obtain ⟨m, hm⟩ := exists_nat_gt (8 * π / δ)
  have hm0 : (0 : ℝ) < m := (by positivity : 0 < 8 * π / δ).trans hm
  have hF : (m : ℝ) ≤ Nat.fib (m + 1) := by
    have := Nat.le_fib_add_one (m + 1)
    exact_mod_cast (by omega : m ≤ Nat.fib (m + 1))
  set F : ℝ := ((Nat.fib (m + 1) : ℕ) : ℝ) with hFd
  have hF0 : 0 < F := hm0.trans_le hF
  obtain ⟨N, hN⟩ := exists_nat_gt (max (2 * F / δ) (F * (2 * π / δ) ^ 2))
  refine ⟨m, N, fun n hn => ?_⟩
  have hn' : (N : ℝ) ≤ n := by exact_mod_cast hn
  have h1 : 2 * F / δ < n := ((le_max_left _ _).trans_lt hN).trans_le hn'
  have h2 : F * (2 * π / δ) ^ 2 < n := ((le_max_right _ _).trans_lt hN).trans_le hn'
  have hn0 : (0 : ℝ) < n := (by positivity : 0 < 2 * F / δ).trans h1
  constructor
  · unfold spiralReach
    rw [← hFd]
    have h3 : 4 * π / F < δ / 2 := by
      rw [div_lt_iff₀ hF0]
      rw [div_lt_iff₀ hδ] at hm
      nlinarith
    have h4 : √(F / n) < δ / (2 * π) := by
      rw [sqrt_lt' (by positivity), div_lt_iff₀ hn0]
      have e : (2 * π / δ) ^ 2 * (δ / (2 * π)) ^ 2 = 1 := by field_simp
      have := mul_lt_mul_of_pos_right h2 (by positivity : 0 < (δ / (2 * π)) ^ 2)
      rw [mul_assoc, e, mul_one] at this
      linarith
    have h5 : π * √(F / n) < δ / 2 := by
      have := mul_lt_mul_of_pos_left h4 hp
      rw [show π * (δ / (2 * π)) = δ / 2 by field_simp] at this
      exact this
    linarith
  · rw [div_lt_iff₀ hn0]
    rw [div_lt_iff₀ hδ] at h1
    linarith

/-- **C103** For a star with spots and faculae on a spiral grid of `n ≥ 5` points, as in C102: both the total fractions reported
by `calc_coverage` and the covered fractions are close to the truth, with an explicit bound for every block length `fib (j+1)`. -/
theorem C103_spiral_accuracy (s : Star) (n : ℕ) (hgrid : s.grid = .spiral n) (hn : 5 ≤ n)
    (hpl : Placed s) (hR : 0 < s.radius) (hld : PhysicalLD s.u1 s.u2) (hs : ∀ sp ∈ s.spots.spots, GoodSpot sp s.radius)
    (hrad : ∀ f ∈ s.faculae.faculae, ∃ r, f.radius = .fin r) (lat0 lon0 : ℝ)
    (h0 : lat0 ∈ Set.Icc (-(π / 2)) (π / 2)) (hpole : lat0 ∈ Set.Ioo (-(π / 2)) (π / 2) ∨ ∃ k : ℤ, lon0 = k * (2 * π))
    (g orbit r phase incl : ℝ) (hg0 : 0 ≤ g) (total cov : Dict ℤ Fl)
    (plf : Fl) (h : s.calcCoverage lat0 lon0 g orbit r phase incl = .ok (total, cov, plf)) (gr : Granulation)
    (hgr : s.granulation = some gr) (m : s.grid.Pix → ℝ) (hm : s.addFaculaeToMap lat0 lon0 = .ok m)
    (hfac : ∀ p, inAnyFacula s.faculae.faculae s.radius (s.grid.lat p) (s.grid.lon p) →
      m p ∉ reportTemps s.spots.spots s.teff (s.teff - gr.dteff))
    (hsep : ∀ T ∈ Set.range m ∪ reportTemps s.spots.spots s.teff (s.teff - gr.dteff),
      ∀ T' ∈ Set.range m ∪ reportTemps s.spots.spots s.teff (s.teff - gr.dteff), T ≠ T' → 1 / 100 < |T - T'|) (j : ℕ) :
    ∃ label : ℝ → ℤ, (∀ T, |(label T : ℝ) - 100 * T| ≤ 1 / 2) ∧
      ∀ (d : Dict ℤ Fl) (P : ℝ → ℝ → Prop) (E : ℝ),
        (d = total ∧ P = (fun _ _ => True) ∧
          E = gridError s.spots.spots.length s.faculae.faculae.length (spiralReach n j) (2 * Nat.fib (j + 1) / n) s.u1 s.u2) ∨
        (d = cov ∧ P = behindPlanet s.radius orbit r phase incl lat0 lon0 ∧
          E = gridError s.spots.spots.length s.faculae.faculae.length (spiralReach n j) (2 * Nat.fib (j + 1) / n) s.u1 s.u2 +
            ringError (spiralReach n j) s.u1 s.u2 (r / s.radius)) →
        (∀ T ∈ reportTemps s.spots.spots s.teff (s.teff - gr.dteff), ∃ v : ℝ,
          (Dict.get? d (label T)).getD (.fin 0) = .fin v ∧
          |v - granMoved (fun T => lightShare s.u1 s.u2 lat0 lon0 (fun φ l =>
            bare s.spots.spots s.faculae.faculae s.radius s.teff T φ l ∧ P φ l)) s.teff (s.teff - gr.dteff) g T| ≤ (1 + g) * E) ∧
        ∀ 𝒯 : Finset ℝ, (∀ T, T ∈ 𝒯 ↔ ∃ p, inAnyFacula s.faculae.faculae s.radius (s.grid.lat p) (s.grid.lon p) ∧ m p = T) →
          ∃ v : ℝ → ℝ, (∀ T ∈ 𝒯, Dict.get? d (label T) = some (.fin (v T))) ∧
            |∑ T ∈ 𝒯, v T - lightShare s.u1 s.u2 lat0 lon0 (fun φ l => inAnyFacula s.faculae.faculae s.radius φ l ∧ P φ l)| ≤ E := by
  have hq := quad_spiral n j (by omega)
  exact feature_accuracy s (by rw [hgrid]; exact hq) hpl hR hld hs hrad lat0 lon0
    (C71_spiral_disk s n hgrid hn hld lat0 lon0).2.1 h0 hpole g orbit r phase incl hg0 total cov plf h gr hgr m hm hfac hsep

/-- **C103** The reported fractions converge to the truth: given the numbers of spots and faculae, the limb darkening, the relative radius of
the planet and a tolerance `η`, spiral grids of enough points report every total fraction to within `η`, and every covered fraction
to within `η` beyond the inaccuracy of the projection, for all stars, directions and planets. -/
theorem C103_spiral_converges (ns nf : ℕ) (u1 u2 rp η : ℝ) (hld : PhysicalLD u1 u2) (hη : 0 < η) : ∃ N : ℕ, ∀ n ≥ N,
    ∀ s : Star, s.grid = .spiral n → s.spots.spots.length = ns → s.faculae.faculae.length = nf → s.u1 = u1 → s.u2 = u2 →
    Placed s → 0 < s.radius → (∀ sp ∈ s.spots.spots, GoodSpot sp s.radius) →
    (∀ f ∈ s.faculae.faculae, ∃ r, f.radius = .fin r) → ∀ lat0 lon0 : ℝ,
    lat0 ∈ Set.Icc (-(π / 2)) (π / 2) → (lat0 ∈ Set.Ioo (-(π / 2)) (π / 2) ∨ ∃ k : ℤ, lon0 = k * (2 * π)) →
    ∀ (g orbit r phase incl : ℝ), 0 ≤ g → r / s.radius = rp → ∀ (total cov : Dict ℤ Fl)
    (plf : Fl), s.calcCoverage lat0 lon0 g orbit r phase incl = .ok (total, cov, plf) → ∀ gr : Granulation,
    s.granulation = some gr → ∀ m : s.grid.Pix → ℝ, s.addFaculaeToMap lat0 lon0 = .ok m →
    (∀ p, inAnyFacula s.faculae.faculae s.radius (s.grid.lat p) (s.grid.lon p) →
      m p ∉ reportTemps s.spots.spots s.teff (s.teff - gr.dteff)) →
    (∀ T ∈ Set.range m ∪ reportTemps s.spots.spots s.teff (s.teff - gr.dteff),
      ∀ T' ∈ Set.range m ∪ reportTemps s.spots.spots s.teff (s.teff - gr.dteff), T ≠ T' → 1 / 100 < |T - T'|) →
    ∃ label : ℝ → ℤ, (∀ T, |(label T : ℝ) - 100 * T| ≤ 1 / 2) ∧
      ∀ (d : Dict ℤ Fl) (P : ℝ → ℝ → Prop) (E : ℝ),
        (d = total ∧ P = (fun _ _ => True) ∧ E = η) ∨
        (d = cov ∧ P = behindPlanet s.radius orbit r phase incl lat0 lon0 ∧
          E = η + 4 * 0.0101 * max rp 0.0101 / (1 - u1 / 3 - u2 / 6)) →
        (∀ T ∈ reportTemps s.spots.spots s.teff (s.teff - gr.dteff), ∃ v : ℝ,
          (Dict.get? d (label T)).getD (.fin 0) = .fin v ∧
          |v - granMoved (fun T => lightShare u1 u2 lat0 lon0 (fun φ l =>
            bare s.spots.spots s.faculae.faculae s.radius s.teff T φ l ∧ P φ l)) s.teff (s.teff - gr.dteff) g T| ≤ (1 + g) * E) ∧
        ∀ 𝒯 : Finset ℝ, (∀ T, T ∈ 𝒯 ↔ ∃ p, inAnyFacula s.faculae.faculae s.radius (s.grid.lat p) (s.grid.lon p) ∧ m p = T) →
          ∃ v : ℝ → ℝ, (∀ T ∈ 𝒯, Dict.get? d (label T) = some (.fin (v T))) ∧
            |∑ T ∈ 𝒯, v T - lightShare u1 u2 lat0 lon0 (fun φ l => inAnyFacula s.faculae.faculae s.radius φ l ∧ P φ l)| ≤ E := by
  obtain ⟨δ, hδ, hsmall⟩ := errors_small ns nf u1 u2 rp (η / 2) (by positivity)
  obtain ⟨j, N, hfine⟩ := spiral_fine δ hδ
  have hp := pi_pos
  refine ⟨max N 5, ?_⟩
  rintro n hn s hgrid rfl rfl rfl rfl hpl hR hs hrad lat0 lon0 h0 hpole g orbit r phase incl hg0 rfl total cov plf h gr hgr m hm hfac hsep
  obtain ⟨f1, f2⟩ := hfine n ((le_max_left _ _).trans hn)
  obtain ⟨e1, e2⟩ := hsmall (spiralReach n j) (2 * Nat.fib (j + 1) / n) (by unfold spiralReach; positivity) f1 (by positivity) f2
  obtain ⟨label, hl, key⟩ := C103_spiral_accuracy s n hgrid ((le_max_right _ _).trans hn) hpl hR hld hs hrad lat0 lon0 h0 hpole
    g orbit r phase incl hg0 total cov plf h gr hgr m hm hfac hsep j
  refine ⟨label, hl, ?_⟩
  have z : ringError 0 s.u1 s.u2 (r / s.radius) = 4 * 0.0101 * max (r / s.radius) 0.0101 / (1 - s.u1 / 3 - s.u2 / 6) := by
    unfold ringError; rw [mul_zero, zero_add]
  rw [z] at e2
  have weaken : ∀ (d : Dict ℤ Fl) (P : ℝ → ℝ → Prop) (E E' : ℝ), E ≤ E' → 
      ((∀ T ∈ reportTemps s.spots.spots s.teff (s.teff - gr.dteff), ∃ v : ℝ,
          (Dict.get? d (label T)).getD (.fin 0) = .fin v ∧
          |v - granMoved (fun T => lightShare s.u1 s.u2 lat0 lon0 (fun φ l =>
            bare s.spots.spots s.faculae.faculae s.radius s.teff T φ l ∧ P φ l)) s.teff (s.teff - gr.dteff) g T| ≤ (1 + g) * E) ∧
        ∀ 𝒯 : Finset ℝ, (∀ T, T ∈ 𝒯 ↔ ∃ p, inAnyFacula s.faculae.faculae s.radius (s.grid.lat p) (s.grid.lon p) ∧ m p = T) →
          ∃ v : ℝ → ℝ, (∀ T ∈ 𝒯, Dict.get? d (label T) = some (.fin (v T))) ∧
            |∑ T ∈ 𝒯, v T - lightShare s.u1 s.u2 lat0 lon0 (fun φ l => inAnyFacula s.faculae.faculae s.radius φ l ∧ P φ l)| ≤ E) →
      ((∀ T ∈ reportTemps s.spots.spots s.teff (s.teff - gr.dteff), ∃ v : ℝ,
          (Dict.get? d (label T)).getD (.fin 0) = .fin v ∧
          |v - granMoved (fun T => lightShare s.u1 s.u2 lat0 lon0 (fun φ l =>
            bare s.spots.spots s.faculae.faculae s.radius s.teff T φ l ∧ P φ l)) s.teff (s.teff - gr.dteff) g T| ≤ (1 + g) * E') ∧
        ∀ 𝒯 : Finset ℝ, (∀ T, T ∈ 𝒯 ↔ ∃ p, inAnyFacula s.faculae.faculae s.radius (s.grid.lat p) (s.grid.lon p) ∧ m p = T) →
          ∃ v : ℝ → ℝ, (∀ T ∈ 𝒯, Dict.get? d (label T) = some (.fin (v T))) ∧
            |∑ T ∈ 𝒯, v T - lightShare s.u1 s.u2 lat0 lon0 (fun φ l => inAnyFacula s.faculae.faculae s.radius φ l ∧ P φ l)| ≤ E') := by
    rintro d P E E' hE ⟨k1, k2⟩
    refine ⟨fun T hT => ?_, fun 𝒯 h𝒯 => ?_⟩
    · obtain ⟨v, e, hv⟩ := k1 T hT
      exact ⟨v, e, hv.trans (mul_le_mul_of_nonneg_left hE (by linarith))⟩
    · obtain ⟨v, e, hv⟩ := k2 𝒯 h𝒯
      exact ⟨v, e, hv.trans hE⟩
  rintro d P E (⟨rfl, rfl, rfl⟩ | ⟨rfl, rfl, rfl⟩)
  · exact weaken _ _ _ _ (by linarith) (key _ _ _ (Or.inl ⟨rfl, rfl, rfl⟩))
  · exact weaken _ _ _ _ (by linarith) (key _ _ _ (Or.inr ⟨rfl, rfl, rfl⟩))

/-- `calc_coverage` answers for the sample star on any grid with a point far from the equator. -/
theorem faculaStar_answers (gd : Grid) (hg : goodGrid gd) (hv : Visible (faculaStar gd) 0 1) (p : gd.Pix) (hp0 : |cos (gd.lat p)| < 1 / 2) :
    ∃ total cov plf, (faculaStar gd).calcCoverage 0 1 0.2 10 (1 / 2) π (π / 2) = .ok (total, cov, plf) := by
  set s := faculaStar gd with hs
  have hp := pi_pos
  have hp3 := pi_gt_three
  have h0 : (0 : ℝ) ∈ Set.Icc (-(π / 2)) (π / 2) := ⟨by linarith, by linarith⟩
  obtain ⟨a, ha, -⟩ := C02_area_partition s.grid hg
  have hld : PhysicalLD s.u1 s.u2 := by simp [PhysicalLD, hs, faculaStar, sampleStar]
  obtain ⟨-, hW⟩ := visible_pos s hg hld ha hv
  have hw : ∀ p, s.weight 0 1 p = .fin (pixelWeight s a 0 1 p) := weight_eq s a ha 0 1
  have hpos : planetPos s.radius 10 π (π / 2) = ((planetPos s.radius 10 π (π / 2)).1, (planetPos s.radius 10 π (π / 2)).2) := rfl
  have hsp : s.spots.spots = [sampleSpot gd] := rfl
  have hff : s.faculae.faculae = [sampleFacula gd] := rfl
  have hcc : cos (gd.lat p) * cos (gd.lon p) < 1 / 2 := by
    have h1 := abs_cos_le_one (gd.lon p)
    have h2 := abs_nonneg (cos (gd.lat p))
    have h3 := le_abs_self (cos (gd.lat p) * cos (gd.lon p))
    rw [abs_mul] at h3
    have h4 : |cos (gd.lat p)| * |cos (gd.lon p)| ≤ |cos (gd.lat p)| * 1 := mul_le_mul_of_nonneg_left h1 h2
    linarith
  obtain ⟨total, cov, plf, h, -⟩ := C59_answers_partial s hg one_pos 0 1 _ (by simp only [hw, Fl.sum_fin]) hW.ne' h0
    ⟨0.2, 1, 1, 50⟩ rfl rfl (measured_new _ _) (by
      intro f hf
      rw [hff, List.mem_singleton] at hf
      subst hf
      refine ⟨rfl, ?_, 1, rfl, one_pos, by rw [(sampleFacula_keyvals gd).1, (sampleFacula_keyvals gd).2]; norm_num⟩
      unfold cosDist
      rw [inner_unitVec]
      simp [sampleFacula]
      exact (cos_pos_of_mem_Ioo ⟨by linarith, by linarith⟩).ne')
    (Or.inr ⟨p, by
      intro sp hsp'
      rw [hsp, List.mem_singleton] at hsp'
      rw [hsp']
      have := inSpot_cos (sampleSpot gd) gd 1 1 5 one_pos rfl zero_le_one (by nlinarith) rfl (by norm_num) p
      rw [← not_or]
      intro hin
      have hin := this.mp hin
      simp [sampleSpot, StarSpot.new] at hin
      have h7 : (π⁻¹ * 2⁻¹ : ℝ) < 1 / 2 := by
        have : π⁻¹ < 1 := inv_lt_one_of_one_lt₀ (by linarith)
        linarith
      linarith,
      by
        intro f hf
        rw [hff, List.mem_singleton] at hf
        subst hf
        intro hin
        have hin' := (inFacula_pixel (r := 1) rfl one_ne_zero gd p).mp hin
        rw [greatCircle_eq] at hin'
        simp [sampleFacula] at hin'
        have h8 := one_sub_sq_div_two_le_cos (x := (1 : ℝ))
        have h9 : cos 1 ≤ cos (arccos (cos (gd.lat p) * cos (gd.lon p))) :=
          cos_le_cos_of_nonneg_of_le_pi (arccos_nonneg _) (by linarith) hin'
        rw [cos_arccos] at h9
        · norm_num at h8; linarith
        · have := abs_le.mp (abs_cos_le_one (gd.lat p))
          have := abs_le.mp (abs_cos_le_one (gd.lon p))
          nlinarith
        · linarith⟩) 0.2 10 (1 / 2) π (π / 2) (by norm_num) _ _ hpos.symm (by simp)
  exact ⟨total, cov, _, h⟩

theorem faculaStar_separate (gd : Grid) (lat0 lon0 : ℝ) (m : gd.Pix → ℝ)
    (hm : (faculaStar gd).addFaculaeToMap lat0 lon0 = .ok m) :
    (∀ p, inAnyFacula (faculaStar gd).faculae.faculae (faculaStar gd).radius (gd.lat p) (gd.lon p) →
      m p ∉ reportTemps (faculaStar gd).spots.spots (faculaStar gd).teff ((faculaStar gd).teff - 50)) ∧
    ∀ T ∈ Set.range m ∪ reportTemps (faculaStar gd).spots.spots (faculaStar gd).teff ((faculaStar gd).teff - 50),
      ∀ T' ∈ Set.range m ∪ reportTemps (faculaStar gd).spots.spots (faculaStar gd).teff ((faculaStar gd).teff - 50),
      T ≠ T' → 1 / 100 < |T - T'| := by
  have htemps := faculaStar_temps gd lat0 lon0 m hm
  have hrt := reportTemps_faculaStar gd
  have hff : (faculaStar gd).faculae.faculae = [sampleFacula gd] := rfl
  have hR1 : (faculaStar gd).radius = 1 := rfl
  have hrad : ∀ f ∈ (faculaStar gd).faculae.faculae, f.radius = .fin ((fun _ => 1 : Facula → ℝ) f) := by
    intro f hf
    rw [hff, List.mem_singleton] at hf
    subst hf; rfl
  constructor
  · intro p hp' hmem
    rw [hrt] at hmem
    simp only [Set.mem_insert_iff, Set.mem_singleton_iff] at hmem
    obtain ⟨f, hf, hin⟩ := (inAnyFacula_pixel hrad (by rw [hR1]; exact one_ne_zero) gd p).mp hp'
    rw [hff, List.mem_singleton] at hf
    subst hf
    rcases htemps p with ⟨-, h1⟩ | ⟨h1, -⟩
    · rcases h1 with h1 | h1 <;> rw [h1] at hmem <;> norm_num at hmem
    · exact h1 hin
  · have hall : ∀ T ∈ Set.range m ∪ reportTemps (faculaStar gd).spots.spots (faculaStar gd).teff ((faculaStar gd).teff - 50),
        T = 3100 ∨ T = 2900 ∨ T = 3000 ∨ T = 2950 ∨ T = 2700 ∨ T = 2500 := by
      rintro T (⟨p, rfl⟩ | hT)
      · rcases htemps p with ⟨-, h1 | h1⟩ | ⟨-, h1 | h1 | h1⟩ <;> simp only [h1, true_or, or_true]
      · rw [hrt] at hT
        simp only [Set.mem_insert_iff, Set.mem_singleton_iff] at hT
        rcases hT with h1 | h1 | h1 | h1 <;> simp only [h1, true_or, or_true]
    intro T h1 T' h2 hne
    rcases hall T h1 with rfl | rfl | rfl | rfl | rfl | rfl <;> rcases hall T' h2 with rfl | rfl | rfl | rfl | rfl | rfl <;>
      first | exact absurd rfl hne | norm_num

theorem faculaStar_goodSpot (gd : Grid) : ∀ sp ∈ (faculaStar gd).spots.spots, GoodSpot sp (faculaStar gd).radius := by
  have hsp : (faculaStar gd).spots.spots = [sampleSpot gd] := rfl
  have hR1 : (faculaStar gd).radius = 1 := rfl
  intro sp hsp'
  rw [hsp, List.mem_singleton] at hsp'
  subst hsp'
  exact ⟨⟨1, rfl, zero_le_one, by rw [hR1]; nlinarith [pi_gt_three]⟩, ⟨5, rfl, by norm_num⟩, by norm_num [sampleSpot, StarSpot.new]⟩

/-- Non-trivial instance: the star with a spot, a facula and granules.  Spiral grids of enough points report the share of the facula
to within any tolerance. -/
example (η : ℝ) (hη : 0 < η) : ∃ N : ℕ, ∀ n ≥ N, ∃ total cov plf m,
      (faculaStar (.spiral n)).calcCoverage 0 1 0.2 10 (1 / 2) π (π / 2) = .ok (total, cov, plf) ∧
      (faculaStar (.spiral n)).addFaculaeToMap 0 1 = .ok m ∧
      ∃ label : ℝ → ℤ, (∀ T, |(label T : ℝ) - 100 * T| ≤ 1 / 2) ∧
      ∀ 𝒯 : Finset ℝ, (∀ T, T ∈ 𝒯 ↔ ∃ p : (Grid.spiral n).Pix, inAnyFacula [sampleFacula (.spiral n)] 1
          ((Grid.spiral n).lat p) ((Grid.spiral n).lon p) ∧ m p = T) → ∃ v : ℝ → ℝ,
        (∀ T ∈ 𝒯, Dict.get? total (label T) = some (.fin (v T))) ∧
        |∑ T ∈ 𝒯, v T - lightShare 0 0 0 1 (fun φ l => inAnyFacula [sampleFacula (.spiral n)] 1 φ l)| ≤ η := by
  have hp := pi_pos
  have hld : PhysicalLD 0 0 := by simp [PhysicalLD]
  obtain ⟨N, hN⟩ := C103_spiral_converges 1 1 0 0 (1 / 2) η hld hη
  refine ⟨max N 100, fun n hn => ?_⟩
  have hn1 : N ≤ n := (le_max_left _ _).trans hn
  have hn2 : 100 ≤ n := (le_max_right _ _).trans hn
  set gd : Grid := .spiral n with hgd
  have hn3 : (100 : ℝ) ≤ n := by exact_mod_cast hn2
  have hcos : |cos ((Grid.spiral n).lat ⟨0, by omega⟩)| < 1 / 2 := by
    have h1 := sin_sq_add_cos_sq ((Grid.spiral n).lat ⟨0, by omega⟩)
    rw [sin_spiral_lat] at h1
    have h2 : 2 * (((⟨0, by omega⟩ : Fin n) : ℕ) + 0.5 : ℝ) / n ≤ 1 / 100 := by
      rw [div_le_iff₀ (by linarith)]; norm_num; linarith
    have h3 : 0 ≤ 2 * (((⟨0, by omega⟩ : Fin n) : ℕ) + 0.5 : ℝ) / n := by positivity
    rw [abs_lt]
    constructor <;> nlinarith
  obtain ⟨total, cov, plf, h⟩ := faculaStar_answers gd (Nat.le_trans (by norm_num) hn2)
    (C71_spiral_disk (faculaStar gd) n rfl (by omega) hld 0 1).2.1 (⟨0, by omega⟩ : Fin n) hcos
  obtain ⟨m, gr', hm, -⟩ := C95_keys _ 0 1 0.2 10 (1 / 2) π (π / 2) total cov _ h
  obtain ⟨s1, s2⟩ := faculaStar_separate gd 0 1 m hm
  obtain ⟨label, hl, key⟩ := hN n hn1 (faculaStar gd) rfl rfl rfl rfl rfl
    ⟨rfl, measured_new _ _, by simp [faculaStar, sampleStar, sampleFacula]⟩ one_pos (faculaStar_goodSpot gd)
    (by
      intro f hf
      have hff : (faculaStar gd).faculae.faculae = [sampleFacula gd] := rfl
      rw [hff, List.mem_singleton] at hf
      subst hf; exact ⟨1, rfl⟩)
    0 1 ⟨by linarith, by linarith⟩ (Or.inl ⟨by linarith, by linarith⟩) 0.2 10 (1 / 2) π (π / 2) (by norm_num)
    (by simp [faculaStar, sampleStar]) total cov _ h ⟨0.2, 1, 1, 50⟩ rfl m hm s1 s2
  refine ⟨total, cov, _, m, h, hm, label, hl, fun 𝒯 h𝒯 => ?_⟩
  obtain ⟨v, hv1, hv2⟩ := (key total _ _ (Or.inl ⟨rfl, rfl, rfl⟩)).2 𝒯 h𝒯
  simp only [and_true] at hv2
  exact ⟨v, hv1, hv2⟩

end Vsm
