import Verif.Props.DiskAccuracy

/-!
# C99: accuracy of the fractions reported by `calc_coverage`
-/

noncomputable section

namespace Vsm

open Real Spec Np

/-- Temperatures that can occur in a report: photosphere, granulation, umbrae and penumbrae. -/
def Spec.reportTemps (spots : List StarSpot) (teff G : ℝ) : Set ℝ :=
  {teff, G} ∪ {t | ∃ s ∈ spots, t = s.teffPenumbra ∨ t = s.teffUmbra}

/-- What `calc_coverage` should report for temperature `T`: the true share of the light, with the fraction `g` of the
photosphere moved to the granulation temperature. -/
def Spec.trueReport (spots : List StarSpot) (R teff G g u1 u2 lat0 lon0 T : ℝ) : ℝ :=
  trueShare spots R teff u1 u2 lat0 lon0 T + (open Classical in if T = G then g * trueShare spots R teff u1 u2 lat0 lon0 teff else 0) -
    (open Classical in if T = teff then g * trueShare spots R teff u1 u2 lat0 lon0 teff else 0)

/-- **C99** For a star without faculae on a rectangular grid: the fraction of every temperature reported by
`calc_coverage` (zero if the temperature is not reported) differs from the true share of the light of the disk – the
integral over the sphere of limb darkening times projection over the points of that temperature – by at most a constant
times the grid spacing. -/
theorem C99_disk_accuracy (s : Star) (nlat nlon : ℕ) (hgrid : s.grid = .rect nlat nlon) (hlat : 4 ≤ nlat) (hlon : 3 ≤ nlon)
    (hsg : s.spots.grid = s.grid) (hms : Measured s.spots) (hf : s.faculae.faculae = []) (hR : 0 < s.radius)
    (hld : PhysicalLD s.u1 s.u2) (hs : ∀ sp ∈ s.spots.spots, GoodSpot sp s.radius) (lat0 lon0 : ℝ)
    (h0 : lat0 ∈ Set.Icc (-(π / 2)) (π / 2)) (g orbit r phase incl : ℝ) (hg0 : 0 ≤ g) (total cov : Dict ℤ Fl)
    (plf : Fl) (h : s.calcCoverage lat0 lon0 g orbit r phase incl = .ok (total, cov, plf)) (gr : Granulation)
    (hgr : s.granulation = some gr)
    (hsep : ∀ T ∈ reportTemps s.spots.spots s.teff (s.teff - gr.dteff), ∀ T' ∈ reportTemps s.spots.spots s.teff (s.teff - gr.dteff),
      T ≠ T' → 1 / 100 < |T - T'|) :
    ∃ label : ℝ → ℤ, (∀ T, |(label T : ℝ) - 100 * T| ≤ 1 / 2) ∧
      ∀ T ∈ reportTemps s.spots.spots s.teff (s.teff - gr.dteff), ∃ v : ℝ,
        (Dict.get? total (label T)).getD (.fin 0) = .fin v ∧
        |v - trueReport s.spots.spots s.radius s.teff (s.teff - gr.dteff) g s.u1 s.u2 lat0 lon0 T| ≤
          (1 + g) * shareError s.spots.spots.length nlat nlon s.u1 s.u2 := by
  classical
  have hg : goodGrid s.grid := by rw [hgrid]; exact ⟨by omega, by omega⟩
  have hv : Visible s lat0 lon0 := visible_rect s hgrid hlat hlon lat0 lon0
  obtain ⟨a, ha, -⟩ := C02_area_partition s.grid hg
  obtain ⟨-, hW⟩ := visible_pos s hg hld ha hv
  obtain ⟨m₀, hm₀, hleast, -⟩ := C19_coolest_partial s.spots hms s.radius s.teff (fun sp hsp => (hs sp hsp).2.2)
  have hm := noFac_map hsg (show s.map = .ok m₀ from hm₀) hf lat0 lon0
  have hacc : ∃ m : s.grid.Pix → ℝ, s.addFaculaeToMap lat0 lon0 = .ok m ∧
      (∀ p, m p ∈ reportTemps s.spots.spots s.teff (s.teff - gr.dteff)) ∧
      ∀ T, |share (pixelWeight s a lat0 lon0) m (fun _ => 1) T - trueShare s.spots.spots s.radius s.teff s.u1 s.u2 lat0 lon0 T| ≤
        shareError s.spots.spots.length nlat nlon s.u1 s.u2 := by
    refine ⟨_, hm, ?_, ?_⟩
    · intro p
      rcases (hleast (hsg ▸ p)).1 with h1 | ⟨sp, h1, h2⟩
      · exact Or.inl (Or.inl h1)
      · exact Or.inr ⟨sp, h1, h2.imp And.left And.left⟩
    · clear h hm hm₀ hsep
      obtain ⟨teff, radius, period, ⟨spots, grid⟩, faculae, grid', fg, sg, fcg, gr', u1, u2, fl⟩ := s
      simp only at hgrid hsg
      subst hsg
      subst hgrid
      intro T
      exact share_accuracy nlat nlon (by omega) (by omega) a ha spots radius teff u1 u2 lat0 lon0 hR hld hs m₀ hleast
        (pixelWeight _ a lat0 lon0) (fun p => by
          unfold pixelWeight intensity
          rw [(C03_mu_inner _ lat0 lon0 p).2.2.2]
          ring) hW T
  obtain ⟨m, hm', hmem, hsh⟩ := hacc
  have hsub : ∀ T ∈ Set.range m ∪ {s.teff, s.teff - gr.dteff}, T ∈ reportTemps s.spots.spots s.teff (s.teff - gr.dteff) := by
    rintro T (⟨p, rfl⟩ | h)
    · exact hmem p
    · exact Or.inl h
  obtain ⟨-, label, hl, hkeys, mask, -, hent⟩ := C57_shares_partial s hg hR.ne' a ha lat0 lon0 h0 hW.ne' g orbit r phase incl
    total cov plf h m hm' (s.teff - gr.dteff) ⟨gr, hgr, rfl⟩ (fun T h1 T' h2 => hsep T (hsub T h1) T' (hsub T' h2))
  refine ⟨label, hl, fun T hT => ?_⟩
  set E := shareError s.spots.spots.length nlat nlon s.u1 s.u2 with hE
  by_cases hin : T ∈ Set.range m ∪ {s.teff, s.teff - gr.dteff}
  · refine ⟨_, by rw [hent total _ (Or.inl ⟨rfl, rfl⟩) T hin]; rfl, ?_⟩
    have h1 := abs_le.mp (hsh T)
    have h2 := abs_le.mp (hsh s.teff)
    have hE0 : 0 ≤ E := (abs_nonneg _).trans (hsh T)
    set A := share (pixelWeight s a lat0 lon0) m (fun _ => 1) T
    set B := share (pixelWeight s a lat0 lon0) m (fun _ => 1) s.teff
    unfold trueReport
    set A' := trueShare s.spots.spots s.radius s.teff s.u1 s.u2 lat0 lon0 T
    set B' := trueShare s.spots.spots s.radius s.teff s.u1 s.u2 lat0 lon0 s.teff
    have h3 : g * (B - B') ≤ g * E := mul_le_mul_of_nonneg_left h2.2 hg0
    have h4 : g * (-E) ≤ g * (B - B') := mul_le_mul_of_nonneg_left h2.1 hg0
    have h5 := mul_nonneg hg0 hE0
    rw [abs_le]
    split_ifs <;> constructor <;> linarith [h1.1, h1.2]
  · have hnone : Dict.get? total (label T) = none := by
      rw [Dict.get?_eq_none]
      intro hk
      obtain ⟨T', hT', he⟩ := hkeys _ hk
      have hne : T ≠ T' := fun e => hin (e ▸ hT')
      have hs' := hsep T hT T' (hsub T' hT') hne
      have e1 := abs_le.mp (hl T)
      have e2 := abs_le.mp (hl T')
      rw [he] at e1
      have : |T - T'| ≤ 1 / 100 := abs_le.mpr ⟨by linarith [e1.1, e2.2], by linarith [e1.2, e2.1]⟩
      linarith
    refine ⟨0, by rw [hnone]; rfl, ?_⟩
    simp only [Set.mem_union, Set.mem_insert_iff, Set.mem_singleton_iff, not_or] at hin
    have hz : share (pixelWeight s a lat0 lon0) m (fun _ => 1) T = 0 :=
      share_of_notMem fun p hp => hin.1 ⟨p, hp⟩
    have h1 := hsh T
    rw [hz] at h1
    unfold trueReport
    rw [if_neg hin.2.2, if_neg hin.2.1, add_zero, sub_zero]
    have hE0 : 0 ≤ E := (abs_nonneg _).trans (hsh T)
    nlinarith [mul_nonneg hg0 hE0]

/-- **C99** The error bound goes to zero as the grid is refined. -/
theorem C99_convergence (n : ℕ) (u1 u2 g : ℝ) (hld : PhysicalLD u1 u2) (hg0 : 0 ≤ g) (ε : ℝ) (hε : 0 < ε) :
    ∃ N : ℕ, ∀ nlat nlon : ℕ, N ≤ nlat → N ≤ nlon → (1 + g) * shareError n nlat nlon u1 u2 ≤ ε := by
  have hden : 0 < 1 - u1 / 3 - u2 / 6 := by obtain ⟨x, y, z⟩ := hld; linarith
  have hp := pi_pos
  set K := (1 + g) * (14 + 4 * n) / (1 - u1 / 3 - u2 / 6) with hK
  have hK0 : 0 < K := by positivity
  obtain ⟨N, hN⟩ := exists_nat_gt (3 * π * K / ε + 1)
  refine ⟨N, fun nlat nlon h1 h2 => ?_⟩
  have h1' : (N : ℝ) ≤ nlat := by exact_mod_cast h1
  have h2' : (N : ℝ) ≤ nlon := by exact_mod_cast h2
  have hq : 0 < 3 * π * K / ε := by positivity
  have e : (1 + g) * shareError n nlat nlon u1 u2 = K * (π / (nlat - 1) + 2 * π / nlon) := by
    rw [shareError, hK]; field_simp
  rw [e]
  have b1 : π / ((nlat : ℝ) - 1) ≤ π / (3 * π * K / ε) := div_le_div_of_nonneg_left hp.le hq (by linarith)
  have b2 : 2 * π / (nlon : ℝ) ≤ 2 * π / (3 * π * K / ε) := div_le_div_of_nonneg_left (by positivity) hq (by linarith)
  calc K * (π / (nlat - 1) + 2 * π / nlon) ≤ K * (π / (3 * π * K / ε) + 2 * π / (3 * π * K / ε)) := by gcongr
    _ = ε := by field_simp; ring

/-- Non-trivial instance: a star with a spot and with granules 100 K cooler than the photosphere, seen from above
longitude one radian, on a fine grid.  All reported fractions are within 0.007 of the truth. -/
example : ∃ total cov plf, (granStar (.rect 20001 40000) [sampleSpot (.rect 20001 40000)] 100).calcCoverage 0 1 0.2 10 (1 / 2) (π / 2) 0 =
      .ok (total, cov, plf) ∧ ∃ label : ℝ → ℤ, (∀ T, |(label T : ℝ) - 100 * T| ≤ 1 / 2) ∧
      ∀ T ∈ ({3000, 2900, 2700, 2500} : Set ℝ), ∃ v : ℝ, (Dict.get? total (label T)).getD (.fin 0) = .fin v ∧
        |v - trueReport [sampleSpot (.rect 20001 40000)] 1 3000 2900 0.2 0 0 0 1 T| ≤ 0.007 := by
  set gd : Grid := .rect 20001 40000 with hgd
  set s := granStar gd [sampleSpot gd] 100 with hs
  have hp := pi_pos
  have h0 : (0 : ℝ) ∈ Set.Icc (-(π / 2)) (π / 2) := ⟨by linarith, by linarith⟩
  have hg : goodGrid s.grid := ⟨by omega, by omega⟩
  have hv : Visible s 0 1 := visible_rect s rfl (by omega) (by omega) 0 1
  obtain ⟨a, ha, -⟩ := C02_area_partition s.grid hg
  obtain ⟨-, hW⟩ := visible_pos s hg (granStar_phys _ _ _) ha hv
  have hw : ∀ p, s.weight 0 1 p = .fin (pixelWeight s a 0 1 p) := weight_eq s a ha 0 1
  have hpos : planetPos s.radius 10 (π / 2) 0 = ((planetPos s.radius 10 (π / 2) 0).1, (planetPos s.radius 10 (π / 2) 0).2) := rfl
  have hsp : s.spots.spots = [sampleSpot gd] := rfl
  have hR1 : s.radius = 1 := rfl
  obtain ⟨total, cov, plf, h, -⟩ := C59_answers_partial s hg one_pos 0 1 _ (by simp only [hw, Fl.sum_fin]) hW.ne' h0
    ⟨0.2, 1, 1, 100⟩ rfl rfl (measured_new _ _) (by simp [hs, granStar, sampleStar])
    (Or.inr ⟨(⟨0, by omega⟩, ⟨0, by omega⟩), by
      intro sp hsp'
      rw [hsp, List.mem_singleton] at hsp'
      rw [hsp']
      have := inSpot_cos (sampleSpot gd) gd 1 1 5 one_pos rfl zero_le_one (by nlinarith [pi_gt_three]) rfl (by norm_num)
        (⟨0, by omega⟩, ⟨0, by omega⟩)
      rw [← not_or]
      intro hin
      have hin := this.mp hin
      obtain ⟨l1, -⟩ := (C01_rect_layout 20001 40000 (by omega)).2.2 ⟨0, by omega⟩ ⟨0, by omega⟩
      rw [show gd.lat (⟨0, by omega⟩, ⟨0, by omega⟩) = _ from l1] at hin
      simp [sampleSpot, StarSpot.new] at hin
      have h7 : (π⁻¹ * 2⁻¹ : ℝ) < 1 := by
        have : π⁻¹ ≤ 1 := inv_le_one_of_one_le₀ (by linarith [pi_gt_three])
        linarith
      linarith,
      by simp [hs, granStar, sampleStar]⟩) 0.2 10 (1 / 2) (π / 2) 0 (by norm_num) _ _ hpos.symm (by simp)
  refine ⟨total, cov, _, h, ?_⟩
  have hset : reportTemps s.spots.spots s.teff (s.teff - 100) = {3000, 2900, 2700, 2500} := by
    rw [hsp]
    ext t
    simp only [reportTemps, Set.mem_union, Set.mem_insert_iff, Set.mem_singleton_iff, Set.mem_ofPred_eq, List.mem_singleton,
      exists_eq_left, sampleSpot, StarSpot.new, hs, granStar, sampleStar]
    norm_num
    tauto
  obtain ⟨label, hl, hent⟩ := C99_disk_accuracy s 20001 40000 rfl (by omega) (by omega) rfl (measured_new _ _) rfl one_pos
    (granStar_phys _ _ _) (by
      intro sp hsp'
      rw [hsp, List.mem_singleton] at hsp'
      subst hsp'
      exact ⟨⟨1, rfl, zero_le_one, by rw [hR1]; nlinarith [pi_gt_three]⟩, ⟨5, rfl, by norm_num⟩, by norm_num [sampleSpot, StarSpot.new]⟩)
    0 1 h0 0.2 10 (1 / 2) (π / 2) 0 (by norm_num) total cov _ h ⟨0.2, 1, 1, 100⟩ rfl (by
      intro T h1 T' h2 hne
      rw [hset] at h1 h2
      simp only [Set.mem_insert_iff, Set.mem_singleton_iff] at h1 h2
      rcases h1 with rfl | rfl | rfl | rfl <;> rcases h2 with rfl | rfl | rfl | rfl <;> first | exact absurd rfl hne | norm_num)
  refine ⟨label, hl, fun T hT => ?_⟩
  obtain ⟨v, hv1, hv2⟩ := hent T (by rw [hset]; exact hT)
  refine ⟨v, hv1, ?_⟩
  have e2 : s.teff - 100 = 2900 := by norm_num [hs, granStar, sampleStar]
  have e3 : s.teff = 3000 := rfl
  have e4 : s.u1 = 0 := rfl
  have e5 : s.u2 = 0 := rfl
  rw [e2, e3, e4, e5, hsp, hR1] at hv2
  refine hv2.trans ?_
  simp only [shareError, List.length_singleton]
  have := pi_lt_d2
  push_cast
  norm_num
  linarith

end Vsm
