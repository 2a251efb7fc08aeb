import Verif.Props.FarSide
import Verif.Props.Observers

/-!
# C150: the report changes gradually as the observer moves
-/

noncomputable section
namespace Vsm
open Real Np Spec

/-- Two weighted means of numbers between 0 and 1 differ little if the weights do. -/
theorem mean_lip {ι : Type} [Fintype ι] {w w' a c : ι → ℝ} {B : ℝ} (hW : 0 < ∑ p, w p) (hw' : ∀ p, 0 ≤ w' p) (hW' : 0 < ∑ p, w' p)
    (ha : ∑ p, a p = 1) (hB : ∀ p, |w p - w' p| ≤ a p * B) (hc : ∀ p, 0 ≤ c p ∧ c p ≤ 1) :
    |(∑ p, w p * c p) / ∑ p, w p - (∑ p, w' p * c p) / ∑ p, w' p| ≤ B / ∑ p, w p := by
  set E := (∑ p, w' p * c p) / ∑ p, w' p with hE
  have hEW : E * ∑ p, w' p = ∑ p, w' p * c p := by rw [hE]; field_simp
  have hE0 : 0 ≤ E := div_nonneg (Finset.sum_nonneg fun p _ => mul_nonneg (hw' p) (hc p).1) hW'.le
  have hE1 : E ≤ 1 := by
    rw [hE, div_le_one hW']
    exact Finset.sum_le_sum fun p _ => by nlinarith [hw' p, (hc p).2]
  have h1 : (∑ p, w p * c p) / ∑ p, w p - E = (∑ p, (w p - w' p) * (c p - E)) / ∑ p, w p := by
    have : ∑ p, (w p - w' p) * (c p - E) = (∑ p, w p * c p) - E * (∑ p, w p) := by
      simp only [sub_mul, mul_sub, Finset.sum_sub_distrib]
      rw [← Finset.sum_mul, ← Finset.sum_mul, ← hEW]
      ring
    rw [this]
    field_simp
  rw [h1, abs_div, abs_of_pos hW]
  refine div_le_div_of_nonneg_right ?_ hW.le
  calc |∑ p, (w p - w' p) * (c p - E)| ≤ ∑ p, |(w p - w' p) * (c p - E)| := Finset.abs_sum_le_sum_abs _ _
    _ ≤ ∑ p, a p * B := Finset.sum_le_sum fun p _ => by
        rw [abs_mul]
        have h2 : |c p - E| ≤ 1 := abs_le.mpr ⟨by linarith [(hc p).1], by linarith [(hc p).2]⟩
        calc |w p - w' p| * |c p - E| ≤ |w p - w' p| * 1 := mul_le_mul_of_nonneg_left h2 (abs_nonneg _)
          _ ≤ a p * B := by rw [mul_one]; exact hB p
    _ = B := by rw [← Finset.sum_mul, ha, one_mul]

/-- Part of a pixel labelled `l` that the entries in `K` report. -/
theorem moved_mean {ι : Type} [Fintype ι] (w m : ι → ℝ) (kt kG : ℤ) (g : ℝ) (K : Finset ℤ) :
    ∑ k ∈ K, (labelShare w m (fun _ => 1) k + (if k = kG then g * labelShare w m (fun _ => 1) kt else 0) -
      (if k = kt then g * labelShare w m (fun _ => 1) kt else 0)) =
    (∑ p, w p * ((if Star.key (m p) ∈ K then 1 else 0) + (if Star.key (m p) = kt then
      g * ((if kG ∈ K then 1 else 0) - (if kt ∈ K then 1 else 0)) else 0))) / ∑ p, w p := by
  classical
  rw [Finset.sum_sub_distrib, Finset.sum_add_distrib, Finset.sum_ite_eq', Finset.sum_ite_eq']
  unfold labelShare
  rw [← Finset.sum_div, Finset.sum_comm]
  have e1 : ∀ p, ∑ k ∈ K, (if Star.key (m p) = k then w p * 1 else 0) = w p * (if Star.key (m p) ∈ K then 1 else 0) := by
    intro p
    rw [Finset.sum_ite_eq]
    split_ifs <;> simp
  simp only [e1, mul_add, Finset.sum_add_distrib, add_div]
  have e2 : ∑ p, w p * (if Star.key (m p) = kt then g * ((if kG ∈ K then 1 else 0) - (if kt ∈ K then 1 else 0)) else 0) =
      (∑ p, if Star.key (m p) = kt then w p * 1 else 0) * (g * ((if kG ∈ K then 1 else 0) - (if kt ∈ K then 1 else 0))) := by
    rw [Finset.sum_mul]
    refine Finset.sum_congr rfl fun p _ => ?_
    split_ifs <;> ring
  rw [e2]
  split_ifs <;> ring

theorem moved_range {kt kG : ℤ} {g : ℝ} (hg : 0 ≤ g ∧ g ≤ 1) (K : Finset ℤ) (l : ℤ) :
    0 ≤ (if l ∈ K then (1 : ℝ) else 0) + (if l = kt then g * ((if kG ∈ K then 1 else 0) - (if kt ∈ K then 1 else 0)) else 0) ∧
    (if l ∈ K then (1 : ℝ) else 0) + (if l = kt then g * ((if kG ∈ K then 1 else 0) - (if kt ∈ K then 1 else 0)) else 0) ≤ 1 := by
  by_cases h : l = kt
  · subst h
    rw [if_pos rfl]
    split_ifs <;> constructor <;> linarith [hg.1, hg.2]
  · rw [if_neg h]
    split_ifs <;> constructor <;> norm_num

/-- The light of a pixel changes by at most three times its area times the angle between the observers. -/
theorem pixelWeight_lip (s : Star) (a : s.grid.Pix → ℝ) (ha : ∀ p, 0 ≤ a p) (hld : PhysicalLD s.u1 s.u2) (lat0 lon0 lat1 lon1 : ℝ) (p : s.grid.Pix) :
    |pixelWeight s a lat0 lon0 p - pixelWeight s a lat1 lon1 p| ≤ a p * (3 * greatCircle lat0 lon0 lat1 lon1) := by
  have e : ∀ x y, pixelWeight s a x y p = a p * lightAt s.u1 s.u2 (cos (greatCircle x y (s.grid.lat p) (s.grid.lon p))) := by
    intro x y
    unfold pixelWeight lightAt
    rw [(C03_mu_inner _ x y p).2.2.2]
    ring
  rw [e, e, ← mul_sub, abs_mul, abs_of_nonneg (ha p)]
  refine mul_le_mul_of_nonneg_left ?_ (ha p)
  refine (lightAt_lip hld (cos_le_one _) (cos_le_one _)).trans ?_
  have := abs_mu_sub (s.grid.lat p) (s.grid.lon p) lat0 lon0 lat1 lon1
  rw [greatCircle_comm (s.grid.lat p), greatCircle_comm (s.grid.lat p)] at this
  linarith

/-- Two reports, as numbers by label, such that the fractions of any set of labels together differ by at most `e`. -/
def Spec.ReportsWithin (d d' : Dict ℤ Fl) (e : ℝ) : Prop :=
  ∃ x x' : ℤ → ℝ, (∀ k, entry d k = .fin (x k)) ∧ (∀ k, entry d' k = .fin (x' k)) ∧ ∀ K : Finset ℤ, |∑ k ∈ K, x k - ∑ k ∈ K, x' k| ≤ e

/-- **C150** Let two observers look at a star without faculae from directions that are an angle `θ` apart (the planet may be anywhere).  If both
get an answer, limb darkening is physical, the granulation coverage is between 0 and 1 and different temperatures are more than 0.01 K apart, then the
fractions that they report for any set of temperatures differ by at most `3 θ` divided by the light (area times projection times limb darkening) that the
first observer receives. -/
theorem C150_gradual (s : Star) (hg : goodGrid s.grid) (hsg : s.spots.grid = s.grid) (hf : s.faculae.faculae = []) (hld : PhysicalLD s.u1 s.u2)
    (a : s.grid.Pix → ℝ) (ha : ∀ p, s.grid.area p = .fin (a p)) (lat0 lon0 lat1 lon1 : ℝ)
    (hW : 0 < ∑ p, pixelWeight s a lat0 lon0 p) (hW' : 0 < ∑ p, pixelWeight s a lat1 lon1 p)
    (g orbit r phase incl orbit' r' phase' incl' : ℝ) (hg01 : 0 ≤ g ∧ g ≤ 1)
    (total cov total' cov' : Dict ℤ Fl) (plf plf' : Fl) (h : s.calcCoverage lat0 lon0 g orbit r phase incl = .ok (total, cov, plf))
    (h' : s.calcCoverage lat1 lon1 g orbit' r' phase' incl' = .ok (total', cov', plf'))
    (hsep : ∀ m gr, s.addFaculaeToMap lat0 lon0 = .ok m → s.granulation = some gr → Apart (Set.range m ∪ {s.teff, s.teff - gr.dteff})) :
    ReportsWithin total total' (3 * greatCircle lat0 lon0 lat1 lon1 / ∑ p, pixelWeight s a lat0 lon0 p) := by
  obtain ⟨m, mask, gr, e1, ht, hgr, h1, h2⟩ := calcCoverage_ok.mp h
  obtain ⟨m', mask', gr', e2, ht', hgr', h1', h2'⟩ := calcCoverage_ok.mp h'
  rw [hgr, Option.some.injEq] at hgr'
  subst hgr'
  have hmm : m = m' := by
    cases hm : s.map with
    | error e => rw [Star.addFaculaeToMap, hm] at e1; cases e1
    | ok m₀ =>
      have k1 := noFac_map hsg hm hf lat0 lon0
      have k2 := noFac_map hsg hm hf lat1 lon1
      rw [k1, Except.ok.injEq] at e1
      rw [k2, Except.ok.injEq] at e2
      exact e1.symm.trans e2
  subst hmm
  have hsep := hsep m gr e1 hgr
  obtain ⟨a', ha', hann, hsum, -⟩ := C02_area_partition s.grid hg
  have haa : a' = a := by funext p; have := ha p; rw [ha' p, Fl.fin_inj] at this; exact this
  subst haa
  have hnn : ∀ p, 0 ≤ pixelWeight s a' lat1 lon1 p := by
    intro p
    have : pixelWeight s a' lat1 lon1 p = a' p * lightAt s.u1 s.u2 (s.grid.mu lat1 lon1 p) := by unfold pixelWeight lightAt; ring
    rw [this]
    refine mul_nonneg (hann p) (lightAt_range hld ?_).1
    rw [(C03_mu_inner _ lat1 lon1 p).2.2.2]
    exact cos_le_one _
  refine ⟨_, _, fun k => entry_of_apart (c := fun _ => 1) (weight_eq s a' ha lat0 lon0) hW.ne' h1 hsep k,
    fun k => entry_of_apart (c := fun _ => 1) (weight_eq s a' ha lat1 lon1) hW'.ne' h1' hsep k, fun K => ?_⟩
  have k1 := moved_mean (pixelWeight s a' lat0 lon0) m (Star.key s.teff) (Star.key (s.teff - gr.dteff)) g K
  have k2 := moved_mean (pixelWeight s a' lat1 lon1) m (Star.key s.teff) (Star.key (s.teff - gr.dteff)) g K
  have k3 := mean_lip (w := pixelWeight s a' lat0 lon0) hW hnn hW' hsum (pixelWeight_lip s a' hann hld lat0 lon0 lat1 lon1)
    (c := fun p => (if Star.key (m p) ∈ K then 1 else 0) + (if Star.key (m p) = Star.key s.teff then
      g * ((if Star.key (s.teff - gr.dteff) ∈ K then 1 else 0) - (if Star.key s.teff ∈ K then 1 else 0)) else 0))
    (fun p => moved_range hg01 K _)
  rw [← k1, ← k2] at k3
  exact k3

/-- On a grid at least as fine as the default one the observer receives at least a tenth of the light of a disk four times as large as the star's. -/
theorem fine_light (s : Star) {nlat nlon : ℕ} (hgrid : s.grid = .rect nlat nlon) (hlat : 500 ≤ nlat) (hlon : 1000 ≤ nlon) (hld : PhysicalLD s.u1 s.u2)
    (a : s.grid.Pix → ℝ) (ha : ∀ p, s.grid.area p = .fin (a p)) (lat0 lon0 : ℝ) : 1 / 10 ≤ ∑ p, pixelWeight s a lat0 lon0 p := by
  obtain ⟨teff, radius, period, spots, faculae, grid', fg, sg, fcg, gr', u1, u2, fl⟩ := s
  simp only at hgrid hld
  subst hgrid
  have hp := pi_pos
  have hp3 := pi_lt_d2
  have hIm : Measurable fun x : ℝ × ℝ => intensity u1 u2 lat0 lon0 x.2 x.1 := by
    have := greatCircle_measurable lat0 lon0
    unfold intensity quadraticLaw; fun_prop
  have hrange : ∀ φ l, 0 ≤ intensity u1 u2 lat0 lon0 φ l ∧ intensity u1 u2 lat0 lon0 φ l ≤ 1 :=
    fun φ l => lightAt_range hld (cos_le_one _)
  have kd := disk_sum nlat nlon (by omega) (by omega) a ha (intensity u1 u2 lat0 lon0) hIm
    (fun φ l => by simp only [intensity, greatCircle_periodic]) 1 3 (by norm_num)
    (fun φ l => abs_le.mpr ⟨by linarith [(hrange φ l).1], (hrange φ l).2⟩) [] (by
      intro φ l φ' l' ρ hd
      have : |intensity u1 u2 lat0 lon0 φ' l' - intensity u1 u2 lat0 lon0 φ l| ≤ 3 * ρ := by
        rw [intensity_eq, intensity_eq]
        refine (lightAt_lip hld (cos_le_one _) (cos_le_one _)).trans ?_
        have := abs_mu_sub lat0 lon0 φ' l' φ l
        rw [greatCircle_comm φ' l' φ l] at this
        linarith
      simpa using this)
  obtain ⟨-, hd2⟩ := intensity_total hld lat0 lon0
  have hW : ∑ p, a p * intensity u1 u2 lat0 lon0 ((Grid.rect nlat nlon).lat p) ((Grid.rect nlat nlon).lon p) =
      ∑ p, pixelWeight ⟨teff, radius, period, spots, faculae, .rect nlat nlon, fg, sg, fcg, gr', u1, u2, fl⟩ a lat0 lon0 p := by
    refine Finset.sum_congr rfl fun p _ => ?_
    unfold pixelWeight intensity
    rw [(C03_mu_inner _ lat0 lon0 p).2.2.2]
    ring
  rw [hW] at kd
  set W := ∑ p, pixelWeight ⟨teff, radius, period, spots, faculae, .rect nlat nlon, fg, sg, fcg, gr', u1, u2, fl⟩ a lat0 lon0 p with hWdef
  obtain ⟨-, -, -, hc, -⟩ := rect_area_sin nlat nlon (by omega) (by omega)
  have hn : (1000 : ℝ) ≤ nlon := by exact_mod_cast hlon
  have hn' : (499 : ℝ) ≤ (nlat : ℝ) - 1 := by
    have : (500 : ℝ) ≤ nlat := by exact_mod_cast hlat
    linarith
  have h1 : π / (nlat - 1) / 2 ≤ 0.0032 := by
    rw [div_div, div_le_iff₀ (by linarith)]
    nlinarith
  have h0 : 0 ≤ π / (nlat - 1) / 2 := by
    have : (0 : ℝ) < nlat - 1 := by linarith
    positivity
  have h2 : π / nlon ≤ 0.0032 := by
    rw [div_le_iff₀ (by linarith)]
    nlinarith
  have h3 : 1 - cos (π / (nlat - 1) / 2) ≤ 0.0001 := by
    have := one_sub_sq_div_two_le_cos (x := π / (nlat - 1) / 2)
    nlinarith
  have hcos := cos_le_one (π / (nlat - 1) / 2)
  have hW0 : 0 ≤ W := by
    rw [← hW]
    obtain ⟨a', ha', hann, -, -⟩ := C02_area_partition (.rect nlat nlon) ⟨by omega, by omega⟩
    have haa : a' = a := by funext p; have := ha p; rw [ha' p, Fl.fin_inj] at this; exact this
    subst haa
    exact Finset.sum_nonneg fun p _ => mul_nonneg (hann p) (hrange _ _).1
  have h4 := (abs_le.mp kd).1
  simp only [List.length_nil, Nat.cast_zero, mul_zero, add_zero, one_mul] at h4
  have h5 : cos (π / (nlat - 1) / 2) * W ≤ W := by nlinarith
  have h6 : (3 : ℝ) * (π / (nlat - 1) / 2 + π / nlon) + (1 - cos (π / (nlat - 1) / 2)) ≤ 0.02 := by linarith
  have h7 : π * (1 / 2 - 4 * 0.02) ≤ π * (4 * W) := by nlinarith
  have h8 := le_of_mul_le_mul_left h7 hp
  linarith

/-- **C150** On a rectangular grid at least as fine as the default one (500 × 1000), the fractions reported for any set of temperatures change by at most
30 times the angle (in radians) by which the observer moves. -/
theorem C150_fine (s : Star) (nlat nlon : ℕ) (hgrid : s.grid = .rect nlat nlon) (hlat : 500 ≤ nlat) (hlon : 1000 ≤ nlon) (hsg : s.spots.grid = s.grid)
    (hf : s.faculae.faculae = []) (hld : PhysicalLD s.u1 s.u2) (lat0 lon0 lat1 lon1 : ℝ)
    (g orbit r phase incl orbit' r' phase' incl' : ℝ) (hg01 : 0 ≤ g ∧ g ≤ 1)
    (total cov total' cov' : Dict ℤ Fl) (plf plf' : Fl) (h : s.calcCoverage lat0 lon0 g orbit r phase incl = .ok (total, cov, plf))
    (h' : s.calcCoverage lat1 lon1 g orbit' r' phase' incl' = .ok (total', cov', plf'))
    (hsep : ∀ m gr, s.addFaculaeToMap lat0 lon0 = .ok m → s.granulation = some gr → Apart (Set.range m ∪ {s.teff, s.teff - gr.dteff})) :
    ReportsWithin total total' (30 * greatCircle lat0 lon0 lat1 lon1) := by
  have hg : goodGrid s.grid := by rw [hgrid]; exact ⟨by omega, by omega⟩
  obtain ⟨a, ha, -⟩ := C02_area_partition s.grid hg
  have k1 := fine_light s hgrid hlat hlon hld a ha lat0 lon0
  have k2 := fine_light s hgrid hlat hlon hld a ha lat1 lon1
  obtain ⟨x, x', e1, e2, e3⟩ := C150_gradual s hg hsg hf hld a ha lat0 lon0 lat1 lon1 (by linarith) (by linarith) g orbit r phase incl
    orbit' r' phase' incl' hg01 total cov total' cov' plf plf' h h' hsep
  refine ⟨x, x', e1, e2, fun K => (e3 K).trans ?_⟩
  rw [div_le_iff₀ (by linarith)]
  have := greatCircle_nonneg lat0 lon0 lat1 lon1
  nlinarith

/-- **C150** In particular, when the star turns by an angle `d`, the fractions reported on such a grid change by at most `30 d`. -/
theorem C150_turning (s : Star) (nlat nlon : ℕ) (hgrid : s.grid = .rect nlat nlon) (hlat : 500 ≤ nlat) (hlon : 1000 ≤ nlon) (hsg : s.spots.grid = s.grid)
    (hf : s.faculae.faculae = []) (hld : PhysicalLD s.u1 s.u2) (lat0 lon0 d : ℝ) (hd : |d| ≤ π)
    (g orbit r phase incl orbit' r' phase' incl' : ℝ) (hg01 : 0 ≤ g ∧ g ≤ 1)
    (total cov total' cov' : Dict ℤ Fl) (plf plf' : Fl) (h : s.calcCoverage lat0 lon0 g orbit r phase incl = .ok (total, cov, plf))
    (h' : s.calcCoverage lat0 (lon0 + d) g orbit' r' phase' incl' = .ok (total', cov', plf'))
    (hsep : ∀ m gr, s.addFaculaeToMap lat0 lon0 = .ok m → s.granulation = some gr → Apart (Set.range m ∪ {s.teff, s.teff - gr.dteff})) :
    ReportsWithin total total' (30 * |d|) := by
  obtain ⟨x, x', e1, e2, e3⟩ := C150_fine s nlat nlon hgrid hlat hlon hsg hf hld lat0 lon0 lat0 (lon0 + d) g orbit r phase incl
    orbit' r' phase' incl' hg01 total cov total' cov' plf plf' h h' hsep
  refine ⟨x, x', e1, e2, fun K => (e3 K).trans ?_⟩
  have := greatCircle_le_add lat0 lon0 lat0 (lon0 + d) (by simp [pi_pos.le]) (by simpa using hd)
  simp only [sub_self, abs_zero, sub_add_cancel_left, abs_neg, zero_add] at this
  linarith

/-! ## A star of which half is covered, on the default grid -/

theorem halfOn_answers (nlat nlon : ℕ) (hlat : 4 ≤ nlat) (hlon : 3 ≤ nlon) (lon0 : ℝ) :
    ∃ total cov plf, (granStar (.rect nlat nlon) [halfSpot (.rect nlat nlon) 0 2700] 100).calcCoverage 0 lon0 0.2 10 (1 / 2) (π / 2) 0 =
      .ok (total, cov, plf) := by
  set s := granStar (.rect nlat nlon) [halfSpot (.rect nlat nlon) 0 2700] 100 with hs
  have hg : goodGrid s.grid := ⟨by omega, by omega⟩
  have h0 : (0 : ℝ) ∈ Set.Icc (-(π / 2)) (π / 2) := ⟨by linarith [pi_pos], by linarith [pi_pos]⟩
  have hv : Visible s 0 lon0 := visible_rect s rfl (by omega) (by omega) 0 lon0
  obtain ⟨a, ha, -⟩ := C02_area_partition s.grid hg
  obtain ⟨-, hW⟩ := visible_pos s hg (granStar_phys _ _ _) ha hv
  have hw : ∀ p, s.weight 0 lon0 p = .fin (pixelWeight s a 0 lon0 p) := weight_eq s a ha 0 lon0
  have hpos : planetPos s.radius 10 (π / 2) 0 = ((planetPos s.radius 10 (π / 2) 0).1, (planetPos s.radius 10 (π / 2) 0).2) := rfl
  set p : (Grid.rect nlat nlon).Pix := (⟨0, by omega⟩, ⟨0, by omega⟩) with hpdef
  have hp : (Grid.rect nlat nlon).mu 0 0 p = 0 := by
    obtain ⟨h1, -⟩ := (C01_rect_layout nlat nlon (by omega)).2.2 ⟨0, by omega⟩ ⟨0, by omega⟩
    simp only [Grid.mu, Grid.cosAngle]
    rw [hpdef, h1]
    simp
  obtain ⟨total, cov, plf, h, -⟩ := C59_answers_partial s hg one_pos 0 lon0 _ (by simp only [hw, Fl.sum_fin]) hW.ne' h0
    ⟨0.2, 1, 1, 100⟩ rfl rfl (measured_new _ _) (by simp [hs, granStar, sampleStar])
    (Or.inr ⟨p, by
      intro sp hsp
      have hsp : sp ∈ [halfSpot (.rect nlat nlon) 0 2700].map (·.setGridmaker (.rect nlat nlon)) := hsp
      rw [List.mem_map] at hsp
      obtain ⟨sp', h1, rfl⟩ := hsp
      rw [List.mem_singleton] at h1
      subst h1
      obtain ⟨h3, h4⟩ := halfSpot_in (.rect nlat nlon) 0 2700 p
      exact ⟨fun h => by linarith [h3.mp h], fun h => by linarith [h4.mp h]⟩,
      by simp [hs, granStar, sampleStar]⟩) 0.2 10 (1 / 2) (π / 2) 0 (by norm_num) _ _ hpos.symm (by simp)
  exact ⟨total, cov, _, h⟩

theorem halfOn_apart (nlat nlon : ℕ) (lon0 : ℝ) : ∀ m gr, (granStar (.rect nlat nlon) [halfSpot (.rect nlat nlon) 0 2700] 100).addFaculaeToMap 0 lon0 = .ok m →
    (granStar (.rect nlat nlon) [halfSpot (.rect nlat nlon) 0 2700] 100).granulation = some gr →
    Apart (Set.range m ∪ {(granStar (.rect nlat nlon) [halfSpot (.rect nlat nlon) 0 2700] 100).teff,
      (granStar (.rect nlat nlon) [halfSpot (.rect nlat nlon) 0 2700] 100).teff - gr.dteff}) := by
  classical
  intro m gr hm hgr
  have hgr : some (⟨0.2, 1, 1, 100⟩ : Granulation) = some gr := hgr
  rw [Option.some.injEq] at hgr
  subst hgr
  have hpl : Placed (granStar (.rect nlat nlon) [halfSpot (.rect nlat nlon) 0 2700] 100) := ⟨rfl, measured_new _ _, by simp [granStar, sampleStar]⟩
  have e := (addFaculaeToMap_eq _ hpl 0 lon0).symm.trans hm
  have e : (fun p => SpotCollection.overlay id 2700 2700 (inUmbra (halfSpot (.rect nlat nlon) 0 2700) (.rect nlat nlon) 1 p)
    (inSpot (halfSpot (.rect nlat nlon) 0 2700) (.rect nlat nlon) 1 p) 3000) = m := Except.ok.inj e
  change Apart (Set.range m ∪ {3000, 3000 - 100})
  have : ∀ T ∈ Set.range m ∪ {(3000 : ℝ), 3000 - 100}, T = 2700 ∨ T = 3000 ∨ T = 2900 := by
    rintro T (⟨p, rfl⟩ | h)
    · rw [← e]
      simp only [SpotCollection.overlay]
      split_ifs <;> simp
    · rcases h with h | h
      · exact Or.inr (Or.inl h)
      · rw [Set.mem_singleton_iff] at h
        exact Or.inr (Or.inr (by rw [h]; norm_num))
  intro T h T' h' hne
  rcases this T h with rfl | rfl | rfl <;> rcases this T' h' with rfl | rfl | rfl <;> first | exact absurd rfl hne | norm_num

/-- Non-trivial instance of C150: half of a star on the default grid is covered by a spot, and the star turns by 0.001 radians.  The reports differ by at
most 0.03, for every set of temperatures. -/
example : ∃ total cov plf total' cov' plf',
    (granStar (.rect 500 1000) [halfSpot (.rect 500 1000) 0 2700] 100).calcCoverage 0 0 0.2 10 (1 / 2) (π / 2) 0 = .ok (total, cov, plf) ∧
    (granStar (.rect 500 1000) [halfSpot (.rect 500 1000) 0 2700] 100).calcCoverage 0 (0 + 0.001) 0.2 10 (1 / 2) (π / 2) 0 = .ok (total', cov', plf') ∧
    ReportsWithin total total' 0.03 := by
  obtain ⟨total, cov, plf, h⟩ := halfOn_answers 500 1000 (by norm_num) (by norm_num) 0
  obtain ⟨total', cov', plf', h'⟩ := halfOn_answers 500 1000 (by norm_num) (by norm_num) (0 + 0.001)
  refine ⟨total, cov, plf, total', cov', plf', h, h', ?_⟩
  have := C150_turning (granStar (.rect 500 1000) [halfSpot (.rect 500 1000) 0 2700] 100) 500 1000 rfl le_rfl le_rfl rfl rfl
    (granStar_phys _ _ _) 0 0 0.001 (by rw [abs_of_pos (by norm_num)]; linarith [pi_gt_three]) _ _ _ _ _ _ _ _ _ (by norm_num) total cov total' cov' plf plf' h h' (halfOn_apart _ _ _)
  rw [abs_of_pos (by norm_num)] at this
  obtain ⟨x, x', e1, e2, e3⟩ := this
  exact ⟨x, x', e1, e2, fun K => (e3 K).trans (by norm_num)⟩

end Vsm
