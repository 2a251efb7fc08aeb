import Verif.Props.Grid
import Verif.Model.Star
import Mathlib.RingTheory.RootsOfUnity.Complex
import Mathlib.RingTheory.RootsOfUnity.PrimitiveRoots
import Mathlib.Analysis.SpecialFunctions.Trigonometric.Basic

/-!
# The visible disk: limb darkening and total projected area (C61, C62)
-/

namespace Vsm

open Real Spec

/-- Physically admissible quadratic limb-darkening coefficients: the intensity
`1 - u1 (1-mu) - u2 (1-mu)^2` is non-negative and does not decrease towards the disk centre. -/
def Spec.PhysicalLD (u1 u2 : ℝ) : Prop := 0 ≤ u1 ∧ 0 ≤ u1 + 2 * u2 ∧ u1 + u2 ≤ 1

/-- Quadratic limb darkening law, relative to the disk centre. -/
def Spec.quadraticLaw (u1 u2 mu : ℝ) : ℝ := 1 - u1 * (1 - mu) - u2 * (1 - mu) ^ 2

/-- A physical law is positive everywhere on the visible side except possibly on the limb itself. -/
theorem quadraticLaw_pos {u1 u2 mu : ℝ} (h : PhysicalLD u1 u2) (h0 : 0 < mu) (h1 : mu ≤ 1) :
    0 < quadraticLaw u1 u2 mu := by
  obtain ⟨a, b, c⟩ := h
  unfold quadraticLaw
  rcases le_or_gt 0 u2 with hu | hu
  · nlinarith [mul_nonneg hu (mul_nonneg h0.le (sub_nonneg.mpr h1)), mul_nonneg (sub_nonneg.mpr h1) (sub_nonneg.mpr c)]
  · have h2 : -1 ≤ u2 := by linarith
    have h3 : 0 < 1 + u2 * (1 - mu) := by nlinarith
    nlinarith [mul_nonneg (sub_nonneg.mpr h1) (sub_nonneg.mpr c), mul_pos h0 h3]

/-- **C62** With physical coefficients the plotting mask is between 0 and 1 for every `mu` in `[-1,1]`,
equals 1 at the disk centre, does not decrease with `mu`, vanishes behind the star and follows the
quadratic law in front; `ld_mask` is smaller by exactly `1 - mu` on the visible side and 0 behind. -/
theorem C62_limb_darkening (s : Star) (h : PhysicalLD s.u1 s.u2) :
    (∀ mu ∈ Set.Icc (-1 : ℝ) 1, s.ldMaskForPlotting mu ∈ Set.Icc (0 : ℝ) 1) ∧
    s.ldMaskForPlotting 1 = 1 ∧
    (∀ mu mu', mu ≤ mu' → mu' ≤ 1 → s.ldMaskForPlotting mu ≤ s.ldMaskForPlotting mu') ∧
    (∀ mu < 0, s.ldMaskForPlotting mu = 0 ∧ s.ldMask mu = 0) ∧
    (∀ mu, 0 ≤ mu → s.ldMaskForPlotting mu = quadraticLaw s.u1 s.u2 mu ∧
      s.ldMask mu = s.ldMaskForPlotting mu - (1 - mu)) := by
  obtain ⟨a, b, c⟩ := h
  have nn : ∀ mu, 0 ≤ mu → mu ≤ 1 → 0 ≤ 1 - s.u1 * (1 - mu) - s.u2 * (1 - mu) ^ 2 := by
    intro mu h0 h1
    rcases eq_or_lt_of_le h0 with h | h
    · subst h; linarith
    · exact (quadraticLaw_pos ⟨a, b, c⟩ h h1).le
  refine ⟨?_, by simp [Star.ldMaskForPlotting], ?_, ?_, ?_⟩
  · rintro mu ⟨h0, h1⟩
    unfold Star.ldMaskForPlotting
    split_ifs with hm
    · exact ⟨le_rfl, zero_le_one⟩
    · refine ⟨nn mu (not_lt.mp hm) h1, ?_⟩
      have h2 := not_lt.mp hm
      have : 0 ≤ (1 - mu) * (s.u1 + s.u2 * (1 - mu)) := by
        refine mul_nonneg (by linarith) ?_
        nlinarith
      nlinarith
  · intro mu mu' hle h1
    unfold Star.ldMaskForPlotting
    split_ifs with hm hm' hm'
    · exact le_rfl
    · exact nn mu' (not_lt.mp hm') h1
    · exact absurd (hle.trans_lt hm') hm
    · have h2 := not_lt.mp hm
      have : 0 ≤ (mu' - mu) * (s.u1 + s.u2 * ((1 - mu) + (1 - mu'))) := by
        refine mul_nonneg (by linarith) ?_
        have e : s.u1 + s.u2 * ((1 - mu) + (1 - mu')) =
          s.u1 * ((mu + mu') / 2) + (s.u1 + 2 * s.u2) * ((1 - mu + (1 - mu')) / 2) := by ring
        rw [e]
        exact add_nonneg (mul_nonneg a (by linarith)) (mul_nonneg b (by linarith))
      nlinarith
  · intro mu hm
    simp [Star.ldMaskForPlotting, Star.ldMask, hm]
  · intro mu hm
    refine ⟨by simp [Star.ldMaskForPlotting, quadraticLaw, not_lt.mpr hm], ?_⟩
    simp only [Star.ldMaskForPlotting, Star.ldMask, not_lt.mpr hm, if_false]
    ring

/-- Non-trivial instances: the solar-like pair (0.3, 0.1) is physical, a pair with negative `u2` as well;
(1, 1) is not. -/
example : PhysicalLD 0.3 0.1 ∧ PhysicalLD 1 (-0.5) ∧ ¬ PhysicalLD 1 1 := by
  unfold PhysicalLD; norm_num

example (s : Star) (h1 : s.u1 = 0.3) (h2 : s.u2 = 0.1) :
    s.ldMaskForPlotting 0.5 = 0.825 ∧ s.ldMask 0.5 = 0.325 := by
  unfold Star.ldMaskForPlotting Star.ldMask
  rw [h1, h2]; norm_num

/-! ## C61 -/

/-- Cosines at equally spaced longitudes cancel. -/
theorem sum_cos_lon (n : ℕ) (hn : 1 < n) (θ : ℝ) :
    ∑ i : Fin n, cos (θ - (i : ℕ) * (2 * π / n)) = 0 := by
  have hz := (Complex.isPrimitiveRoot_exp n (by omega)).geom_sum_eq_zero hn
  have h2 : ∑ i ∈ Finset.range n, Complex.exp (((i * (2 * π / n) - θ : ℝ) : ℂ) * Complex.I) = 0 := by
    have e : ∀ i ∈ Finset.range n, Complex.exp (((i * (2 * π / n) - θ : ℝ) : ℂ) * Complex.I) =
        Complex.exp (2 * π * Complex.I / n) ^ i * Complex.exp (-(θ : ℂ) * Complex.I) := by
      intro i _
      rw [← Complex.exp_nat_mul, ← Complex.exp_add]
      congr 1
      push_cast
      ring
    rw [Finset.sum_congr rfl e, ← Finset.sum_mul, hz, zero_mul]
  have h3 := congrArg Complex.re h2
  rw [Complex.re_sum, Complex.zero_re] at h3
  rw [Fin.sum_univ_eq_sum_range (fun i => cos (θ - i * (2 * π / n))), ← h3]
  refine Finset.sum_congr rfl fun i _ => ?_
  rw [Complex.exp_ofReal_mul_I_re, ← cos_neg]
  congr 1
  ring

/-- From every direction some pixel that is not at a pole lies on the near side. -/
theorem exists_visible (nlat nlon : ℕ) (hlat : 4 ≤ nlat) (hlon : 3 ≤ nlon) (lat0 lon0 : ℝ) :
    ∃ p : (Grid.rect nlat nlon).Pix, 0 < cos ((Grid.rect nlat nlon).lat p) ∧
      0 < (Grid.rect nlat nlon).mu lat0 lon0 p := by
  by_contra hno
  push Not at hno
  have hl : ∀ (i : Fin nlon) (j : Fin nlat), _ := (C01_rect_layout nlat nlon (by omega)).2.2
  have hn : (3 : ℝ) ≤ nlon := by exact_mod_cast hlon
  have hm : (4 : ℝ) ≤ nlat := by exact_mod_cast hlat
  -- the rows next to the poles
  let j1 : Fin nlat := ⟨1, by omega⟩
  let j2 : Fin nlat := ⟨nlat - 2, by omega⟩
  set δ : ℝ := π / (nlat - 1) with hδ
  have hδ0 : 0 < δ := div_pos pi_pos (by linarith)
  have hδ1 : δ < π / 2 := by
    rw [hδ]; exact div_lt_div_of_pos_left pi_pos (by norm_num) (by linarith)
  have e1 : ∀ i, (Grid.rect nlat nlon).lat (i, j1) = -(π / 2 - δ) := by
    intro i; rw [(hl i j1).1]; simp [j1]; ring
  have e2 : ∀ i, (Grid.rect nlat nlon).lat (i, j2) = π / 2 - δ := by
    intro i; rw [(hl i j2).1]
    simp only [j2]
    rw [Nat.cast_sub (by omega)]
    have : ((nlat : ℝ) - 1) ≠ 0 := by linarith
    rw [hδ]; field_simp; push_cast; ring
  have hc : 0 < cos (π / 2 - δ) := cos_pos_of_mem_Ioo ⟨by linarith, by linarith⟩
  have hs : 0 < sin (π / 2 - δ) := sin_pos_of_pos_of_lt_pi (by linarith) (by linarith)
  have elon : ∀ i j, (Grid.rect nlat nlon).lon (i, j) = (i : ℕ) * (2 * π / nlon) := fun i j => (hl i j).2.1
  have m1 : ∀ i, (Grid.rect nlat nlon).mu lat0 lon0 (i, j1) ≤ 0 := fun i => hno _ (by rw [e1, cos_neg]; exact hc)
  have m2 : ∀ i, (Grid.rect nlat nlon).mu lat0 lon0 (i, j2) ≤ 0 := fun i => hno _ (by rw [e2]; exact hc)
  have f1 : ∀ i, (Grid.rect nlat nlon).mu lat0 lon0 (i, j1) = -(sin lat0 * sin (π / 2 - δ)) +
      cos lat0 * cos (π / 2 - δ) * cos (lon0 - (i : ℕ) * (2 * π / nlon)) := by
    intro i; rw [Grid.mu, Grid.cosAngle, e1, elon, sin_neg, cos_neg]; ring
  have f2 : ∀ i, (Grid.rect nlat nlon).mu lat0 lon0 (i, j2) = sin lat0 * sin (π / 2 - δ) +
      cos lat0 * cos (π / 2 - δ) * cos (lon0 - (i : ℕ) * (2 * π / nlon)) := by
    intro i; rw [Grid.mu, Grid.cosAngle, e2, elon]
  have s1 : ∑ i : Fin nlon, (Grid.rect nlat nlon).mu lat0 lon0 (i, j1) = -(nlon * (sin lat0 * sin (π / 2 - δ))) := by
    simp only [f1, Finset.sum_add_distrib, ← Finset.mul_sum, sum_cos_lon nlon (by omega)]
    simp
  have s2 : ∑ i : Fin nlon, (Grid.rect nlat nlon).mu lat0 lon0 (i, j2) = nlon * (sin lat0 * sin (π / 2 - δ)) := by
    simp only [f2, Finset.sum_add_distrib, ← Finset.mul_sum, sum_cos_lon nlon (by omega)]
    simp
    ring
  have t1 : ∑ i : Fin nlon, (Grid.rect nlat nlon).mu lat0 lon0 (i, j1) ≤ 0 := Finset.sum_nonpos fun i _ => m1 i
  have t2 : ∑ i : Fin nlon, (Grid.rect nlat nlon).mu lat0 lon0 (i, j2) ≤ 0 := Finset.sum_nonpos fun i _ => m2 i
  have hz : sin lat0 * sin (π / 2 - δ) = 0 := by
    rw [s1] at t1; rw [s2] at t2
    have hn' : (0 : ℝ) < nlon := by linarith
    have h1 : (nlon : ℝ) * (sin lat0 * sin (π / 2 - δ)) = 0 := by linarith
    exact (mul_eq_zero.mp h1).resolve_left hn'.ne'
  have hs0 : sin lat0 = 0 := (mul_eq_zero.mp hz).resolve_right hs.ne'
  have hc0 : cos lat0 ≠ 0 := by
    intro h; have := sin_sq_add_cos_sq lat0; rw [hs0, h] at this; norm_num at this
  have hall : ∀ i : Fin nlon, cos (lon0 - (i : ℕ) * (2 * π / nlon)) = 0 := by
    have h0 : ∑ i : Fin nlon, (Grid.rect nlat nlon).mu lat0 lon0 (i, j2) = 0 := by rw [s2, hz, mul_zero]
    intro i
    have := (Finset.sum_eq_zero_iff_of_nonpos (fun i _ => m2 i)).mp h0 i (Finset.mem_univ _)
    rw [f2, hz, zero_add] at this
    exact (mul_eq_zero.mp this).resolve_left (mul_ne_zero hc0 hc.ne')
  have h0 := hall ⟨0, by omega⟩
  have h1 := hall ⟨1, by omega⟩
  simp only [Nat.cast_zero, zero_mul, sub_zero, Nat.cast_one, one_mul] at h0 h1
  rw [cos_sub, h0, zero_mul, zero_add] at h1
  have hsl : sin lon0 ≠ 0 := by
    intro h; have := sin_sq_add_cos_sq lon0; rw [h0, h] at this; norm_num at this
  have hsin := (mul_eq_zero.mp h1).resolve_left hsl
  have : 0 < sin (2 * π / nlon) := by
    refine sin_pos_of_pos_of_lt_pi (by positivity) ?_
    rw [div_lt_iff₀ (by linarith)]
    nlinarith [pi_pos]
  exact this.ne' hsin

/-- The limb darkened projected area of a pixel, as a real number. -/
theorem weight_eq (s : Star) (a : s.grid.Pix → ℝ) (ha : ∀ p, s.grid.area p = .fin (a p)) (lat0 lon0 : ℝ)
    (p : s.grid.Pix) : s.weight lat0 lon0 p =
      .fin (quadraticLaw s.u1 s.u2 (s.grid.mu lat0 lon0 p) * (a p * max (s.grid.mu lat0 lon0 p) 0)) := by
  unfold Star.weight Star.mu Star.areaProjection Star.ldMaskForPlotting
  rw [ha, Fl.fin_mul, Fl.fin_mul, Fl.fin_inj]
  rcases lt_trichotomy (s.grid.mu lat0 lon0 p) 0 with h | h | h
  · simp [h, not_lt.mpr h.le, max_eq_right h.le]
  · simp [h]
  · simp [h, not_lt.mpr h.le, max_eq_left h.le, quadraticLaw]

/-- With physical limb darkening the weights are non-negative, and positive on near-side pixels of
positive area. -/
theorem weight_nonneg (s : Star) (h : PhysicalLD s.u1 s.u2) (a : s.grid.Pix → ℝ) (ha0 : ∀ p, 0 ≤ a p) (lat0 lon0 : ℝ)
    (p : s.grid.Pix) :
    0 ≤ quadraticLaw s.u1 s.u2 (s.grid.mu lat0 lon0 p) * (a p * max (s.grid.mu lat0 lon0 p) 0) := by
  obtain ⟨-, hmem, -⟩ := C03_mu_inner s.grid lat0 lon0 p
  rcases le_or_gt (s.grid.mu lat0 lon0 p) 0 with hm | hm
  · rw [max_eq_right hm]; simp
  · exact mul_nonneg (quadraticLaw_pos h hm hmem.2).le (mul_nonneg (ha0 p) (le_max_right _ _))

/-- **C61** For every rectangular grid with at least 4 latitudes and 3 longitudes, physical limb darkening
and every sub-observer point, the limb-darkened projected area of the disk – the divisor of all coverage
fractions – is a positive real number: the sum over the near side of law × area × mu. -/
theorem C61_visible (s : Star) (nlat nlon : ℕ) (hg : s.grid = .rect nlat nlon) (hlat : 4 ≤ nlat) (hlon : 3 ≤ nlon)
    (hld : PhysicalLD s.u1 s.u2) (lat0 lon0 : ℝ) :
    ∃ (a : s.grid.Pix → ℝ) (W : ℝ), (∀ p, s.grid.area p = .fin (a p)) ∧
      ∑ p, s.weight lat0 lon0 p = .fin W ∧ 0 < W ∧
      W = ∑ p, quadraticLaw s.u1 s.u2 (s.grid.mu lat0 lon0 p) * (a p * max (s.grid.mu lat0 lon0 p) 0) := by
  have hgood : goodGrid s.grid := by rw [hg]; exact ⟨by omega, by omega⟩
  obtain ⟨a, ha, ha0, -⟩ := C02_area_partition s.grid hgood
  refine ⟨a, _, ha, by simp only [weight_eq s a ha]; exact Fl.sum_fin _ _, ?_, rfl⟩
  have hex : ∃ p : s.grid.Pix, 0 < a p ∧ 0 < s.grid.mu lat0 lon0 p := by
    obtain ⟨teff, radius, period, spots, faculae, grid, fg, sg, fcg, gr, u1, u2, fl⟩ := s
    simp only at hg a ha ⊢
    subst hg
    obtain ⟨p, h1, h2⟩ := exists_visible nlat nlon hlat hlon lat0 lon0
    refine ⟨p, ?_, h2⟩
    have := ha p
    rw [rect_area_eq nlat nlon (by omega) (by omega), Fl.fin_inj] at this
    rw [← this]
    exact div_pos h1 (rect_cos_sum_pos nlat nlon (by omega) (by omega))
  obtain ⟨p, h1, h2⟩ := hex
  refine Finset.sum_pos' (fun q _ => weight_nonneg s hld a ha0 lat0 lon0 q) ⟨p, Finset.mem_univ _, ?_⟩
  rw [max_eq_left h2.le]
  exact mul_pos (quadraticLaw_pos hld h2 (C03_mu_inner s.grid lat0 lon0 p).2.1.2) (mul_pos h1 h2)

/-- The bounds of C61 are sharp in `nlon`: seen edge-on between its two meridians a 4 × 2 grid has no
visible pixel. -/
theorem C61_two_meridians (p : (Grid.rect 4 2).Pix) : (Grid.rect 4 2).mu 0 (π / 2) p = 0 := by
  obtain ⟨i, j⟩ := p
  rw [Grid.mu, Grid.cosAngle, ((C01_rect_layout 4 2 (by norm_num)).2.2 i j).2.1]
  have : (π / 2 - (i : ℕ) * (2 * π / (2 : ℕ)) : ℝ) = π / 2 - (i : ℕ) * π := by push_cast; ring
  rw [this, cos_pi_div_two_sub, sin_nat_mul_pi]
  simp

end Vsm
