import Verif.Props.CoverageAccuracy
import Verif.Props.StarCoverage2
import Verif.Lemmas.Quadrature

/-!
# C99: how accurate are the fractions reported by `calc_coverage`
-/

noncomputable section

namespace Vsm

open Real Spec MeasureTheory

/-! ### Distances -/

theorem greatCircle_triangle (a b c d e f : ℝ) : greatCircle a b e f ≤ greatCircle a b c d + greatCircle c d e f :=
  InnerProductGeometry.angle_le_angle_add_angle _ _ _

theorem greatCircle_comm (a b c d : ℝ) : greatCircle a b c d = greatCircle c d a b :=
  InnerProductGeometry.angle_comm _ _

/-- Moving by `Δφ` in latitude and `Δl` in longitude moves by at most `|Δφ| + |Δl|` on the sphere. -/
theorem greatCircle_le_add (φ l φ' l' : ℝ) (h1 : |φ - φ'| ≤ π) (h2 : |l - l'| ≤ π) :
    greatCircle φ l φ' l' ≤ |φ - φ'| + |l - l'| := by
  have e1 : greatCircle φ l φ l' ≤ |l - l'| := by
    rw [greatCircle_eq, ← cos_abs (l - l')]
    calc arccos (sin φ * sin φ + cos φ * cos φ * cos |l - l'|) ≤ arccos (cos |l - l'|) := by
          apply arccos_le_arccos
          have := cos_le_one |l - l'|
          nlinarith [sin_sq_add_cos_sq φ, sq_nonneg (sin φ)]
      _ = |l - l'| := arccos_cos (abs_nonneg _) h2
  have e2 : greatCircle φ l' φ' l' = |φ - φ'| := by
    rw [greatCircle_eq, sub_self, cos_zero, mul_one, ← cos_sub_eq φ φ', ← cos_abs, arccos_cos (abs_nonneg _) h1]
  have := greatCircle_triangle φ l φ l' φ' l'
  linarith
where
  cos_sub_eq (a b : ℝ) : cos (a - b) = sin a * sin b + cos a * cos b := by rw [cos_sub]; ring

theorem abs_greatCircle_sub (a b c d e f : ℝ) : |greatCircle a b c d - greatCircle a b e f| ≤ greatCircle c d e f := by
  rw [abs_le]
  constructor
  · linarith [greatCircle_triangle a b c d e f]
  · linarith [greatCircle_triangle a b e f c d, greatCircle_comm c d e f]

theorem abs_mu_sub (a b c d e f : ℝ) :
    |cos (greatCircle a b c d) - cos (greatCircle a b e f)| ≤ greatCircle c d e f :=
  (abs_cos_sub_cos_le _ _).trans (abs_greatCircle_sub _ _ _ _ _ _)
where
  abs_cos_sub_cos_le (x y : ℝ) : |cos x - cos y| ≤ |x - y| := by
    rw [cos_sub_cos, abs_mul, abs_mul]
    have h1 := abs_sin_le_one ((x + y) / 2)
    have h2 : |sin ((x - y) / 2)| ≤ |(x - y) / 2| := abs_sin_le_abs
    rw [abs_div, abs_two] at h2
    have : |(-2 : ℝ)| = 2 := by norm_num
    rw [this]
    nlinarith [abs_nonneg (sin ((x - y) / 2)), abs_nonneg (sin ((x + y) / 2))]

/-! ### Rings around an outline -/

theorem greatCircle_measurable (a b : ℝ) : Measurable fun x : ℝ × ℝ => greatCircle a b x.2 x.1 := by
  simp only [greatCircle_eq]; fun_prop

theorem greatCircle_periodic (a b φ l : ℝ) : greatCircle a b φ (l + 2 * π) = greatCircle a b φ l := by
  rw [greatCircle_eq, greatCircle_eq, ← sub_sub, cos_sub_two_pi]

theorem greatCircle_nonneg (a b c d : ℝ) : 0 ≤ greatCircle a b c d := InnerProductGeometry.angle_nonneg _ _

open Classical in
/-- One on the ring of half-width `ρ` around the circle of radius `θ` about `(a, b)`. -/
def nearRing (a b θ ρ φ l : ℝ) : ℝ := if |greatCircle a b φ l - θ| ≤ ρ then 1 else 0

theorem nearRing_measurable (a b θ ρ : ℝ) : Measurable fun x : ℝ × ℝ => nearRing a b θ ρ x.2 x.1 := by
  classical
  unfold nearRing
  have h := greatCircle_measurable a b
  exact Measurable.ite (measurableSet_le (by fun_prop) measurable_const) measurable_const measurable_const

theorem nearRing_nonneg (a b θ ρ φ l : ℝ) : 0 ≤ nearRing a b θ ρ φ l := by unfold nearRing; split_ifs <;> norm_num
theorem nearRing_le_one (a b θ ρ φ l : ℝ) : nearRing a b θ ρ φ l ≤ 1 := by unfold nearRing; split_ifs <;> norm_num

/-- The area of a ring. -/
theorem nearRing_area (a b θ ρ : ℝ) (hρ : 0 ≤ ρ) : sphereInt (nearRing a b θ ρ) ≤ 4 * π * ρ := by
  classical
  have hp := pi_pos
  set h : ℝ → ℝ := fun x => if |arccos x - θ| ≤ ρ then 1 else 0 with hh
  have hm : Measurable h := Measurable.ite (measurableSet_le (by fun_prop) measurable_const) measurable_const measurable_const
  have h0 : ∀ x, 0 ≤ h x := fun x => by rw [hh]; simp only; split_ifs <;> norm_num
  have h1 : ∀ x, h x ≤ 1 := fun x => by rw [hh]; simp only; split_ifs <;> norm_num
  have e : nearRing a b θ ρ = fun φ l => h (sin a * sin φ + cos a * cos φ * cos (b - l)) := by
    funext φ l; unfold nearRing; rw [greatCircle_eq]
  rw [e, zonal_integral h hm 1 h0 h1]
  have key : ∫ φ in (-(π / 2))..(π / 2), h (sin φ) * cos φ ≤ 2 * ρ := by
    have hle : ∫ φ in (-(π / 2))..(π / 2), h (sin φ) * cos φ ≤
        ∫ φ in Set.Ioc (-(π / 2)) (π / 2), (Set.Icc (π / 2 - θ - ρ) (π / 2 - θ + ρ)).indicator (fun _ => (1 : ℝ)) φ := by
      rw [intervalIntegral.integral_of_le (by linarith)]
      refine setIntegral_mono_on ?_ ?_ measurableSet_Ioc ?_
      · refine Integrable.of_bound (C := 1) (by
          exact ((hm.comp measurable_sin).mul measurable_cos).aestronglyMeasurable) (Filter.Eventually.of_forall fun φ => ?_)
        rw [Real.norm_eq_abs, abs_mul, abs_of_nonneg (h0 _)]
        have := abs_cos_le_one φ
        nlinarith [h0 (sin φ), h1 (sin φ), abs_nonneg (cos φ)]
      · exact (integrable_const (1 : ℝ)).indicator measurableSet_Icc
      · intro φ hφ
        have hφ' := Set.Ioc_subset_Icc_self hφ
        have harc : arccos (sin φ) = π / 2 - φ := by
          rw [← cos_pi_div_two_sub, arccos_cos (by linarith [hφ'.2]) (by linarith [hφ'.1])]
        simp only [hh, harc]
        by_cases hc : |π / 2 - φ - θ| ≤ ρ
        · rw [if_pos hc, one_mul, Set.indicator_of_mem]
          · exact cos_le_one φ
          · rw [abs_le] at hc; exact ⟨by linarith [hc.2], by linarith [hc.1]⟩
        · rw [if_neg hc, zero_mul]; exact Set.indicator_nonneg (fun _ _ => zero_le_one) _
    refine hle.trans ?_
    rw [integral_indicator measurableSet_Icc, Measure.restrict_restrict measurableSet_Icc]
    rw [setIntegral_const, smul_eq_mul, mul_one]
    calc volume.real (Set.Icc (π / 2 - θ - ρ) (π / 2 - θ + ρ) ∩ Set.Ioc (-(π / 2)) (π / 2))
        ≤ volume.real (Set.Icc (π / 2 - θ - ρ) (π / 2 - θ + ρ)) := measureReal_mono Set.inter_subset_left measure_Icc_lt_top.ne
      _ = 2 * ρ := by rw [Real.volume_real_Icc_of_le (by linarith)]; ring_nf
  nlinarith

/-! ### Sums over the cells of a rectangular grid -/

/-- The cell of a pixel (longitude × latitude); the polar rows have no area and no cell. -/
def cell (nlat nlon : ℕ) (p : (Grid.rect nlat nlon).Pix) : Set (ℝ × ℝ) :=
  Set.Ioc ((Grid.rect nlat nlon).lon p - π / nlon) ((Grid.rect nlat nlon).lon p + π / nlon) ×ˢ
    {φ | cos ((Grid.rect nlat nlon).lat p) ≠ 0 ∧ φ ∈ Set.Ioc ((Grid.rect nlat nlon).lat p - π / (nlat - 1) / 2)
      ((Grid.rect nlat nlon).lat p + π / (nlat - 1) / 2)}

theorem cell_measurable (nlat nlon : ℕ) (p : (Grid.rect nlat nlon).Pix) : MeasurableSet (cell nlat nlon p) :=
  measurableSet_Ioc.prod ((MeasurableSet.const _).inter measurableSet_Ioc)

theorem Ioc_steps_disjoint (a h : ℝ) {i j : ℕ} (hij : i < j) (hh : 0 < h) :
    Disjoint (Set.Ioc (a + i * h - h / 2) (a + i * h + h / 2)) (Set.Ioc (a + j * h - h / 2) (a + j * h + h / 2)) := by
  rw [Set.disjoint_left]
  intro x h1 h2
  have : (i : ℝ) + 1 ≤ j := by exact_mod_cast hij
  have := h1.2
  have := h2.1
  nlinarith

theorem cell_disjoint (nlat nlon : ℕ) (hlat : 3 ≤ nlat) (hlon : 1 ≤ nlon) :
    Pairwise fun p q : (Grid.rect nlat nlon).Pix => Disjoint (cell nlat nlon p) (cell nlat nlon q) := by
  rintro ⟨i, j⟩ ⟨i', j'⟩ hne
  have hp := pi_pos
  obtain ⟨hδ0, -, -, -, -⟩ := rect_area_sin nlat nlon hlat hlon
  obtain ⟨-, -, hlay⟩ := C01_rect_layout nlat nlon (by omega)
  have hm : (0 : ℝ) < nlon := by exact_mod_cast hlon
  have hh : 0 < 2 * π / nlon := by positivity
  obtain ⟨l1, l2, -⟩ := hlay i j
  obtain ⟨l1', l2', -⟩ := hlay i' j'
  have hhalf : π / (nlon : ℝ) = 2 * π / nlon / 2 := by ring
  by_cases hi : i = i'
  · subst hi
    have hj : j ≠ j' := fun h => hne (by rw [h])
    refine Set.disjoint_prod.mpr (Or.inr ?_)
    have : Disjoint (Set.Ioc ((Grid.rect nlat nlon).lat (i, j) - π / (nlat - 1) / 2) ((Grid.rect nlat nlon).lat (i, j) + π / (nlat - 1) / 2))
        (Set.Ioc ((Grid.rect nlat nlon).lat (i, j') - π / (nlat - 1) / 2) ((Grid.rect nlat nlon).lat (i, j') + π / (nlat - 1) / 2)) := by
      rw [l1, l1']
      rcases lt_or_gt_of_ne (fun h => hj (Fin.ext h) : (j : ℕ) ≠ j') with h | h
      · exact Ioc_steps_disjoint _ _ h hδ0
      · exact (Ioc_steps_disjoint _ _ h hδ0).symm
    exact this.mono (fun φ h => h.2) (fun φ h => h.2)
  · refine Set.disjoint_prod.mpr (Or.inl ?_)
    rw [l2, l2', hhalf]
    rcases lt_or_gt_of_ne (fun h => hi (Fin.ext h) : (i : ℕ) ≠ i') with h | h
    · simpa using Ioc_steps_disjoint 0 _ h hh
    · simpa using (Ioc_steps_disjoint 0 _ h hh).symm

/-- The area of a cell is (up to a common factor) the area the grid gives to the pixel. -/
theorem cell_area (nlat nlon : ℕ) (hlat : 3 ≤ nlat) (hlon : 1 ≤ nlon) (a : (Grid.rect nlat nlon).Pix → ℝ)
    (ha : ∀ p, (Grid.rect nlat nlon).area p = .fin (a p)) (p : (Grid.rect nlat nlon).Pix) :
    (sphM (-(π / nlon))).real (cell nlat nlon p) = 4 * π * cos (π / (nlat - 1) / 2) * a p := by
  have hp := pi_pos
  obtain ⟨hδ0, hδ2, hδ, hc, harea⟩ := rect_area_sin nlat nlon hlat hlon
  obtain ⟨-, -, hlay⟩ := C01_rect_layout nlat nlon (by omega)
  obtain ⟨i, j⟩ := p
  obtain ⟨l1, l2, l3, -⟩ := hlay i j
  have hm : (0 : ℝ) < nlon := by exact_mod_cast hlon
  have hak := ha (i, j)
  rw [harea i j, Fl.fin_inj, ← l1] at hak
  rw [← hak, cell, measureReal_def, sphM, Measure.prod_prod, ENNReal.toReal_mul]
  have hi : ((i : ℕ) : ℝ) + 1 ≤ nlon := by exact_mod_cast i.2
  have e1 : (volume.restrict (Set.Ioc (-(π / nlon)) (-(π / nlon) + 2 * π)) (Set.Ioc ((Grid.rect nlat nlon).lon (i, j) - π / nlon)
      ((Grid.rect nlat nlon).lon (i, j) + π / nlon))).toReal = 2 * π / nlon := by
    rw [Measure.restrict_apply measurableSet_Ioc, Set.inter_eq_left.mpr, Real.volume_Ioc, ENNReal.toReal_ofReal]
    · ring
    · have : 0 < π / nlon := by positivity
      linarith
    · rw [l2]
      refine Set.Ioc_subset_Ioc ?_ ?_
      · have : 0 ≤ ((i : ℕ) : ℝ) * (2 * π / nlon) := by positivity
        linarith
      · have h2 : 2 * π = nlon * (2 * π / nlon) := by field_simp
        have h3 : π / nlon = (2 * π / nlon) / 2 := by ring
        have h4 : 0 < 2 * π / nlon := by positivity
        have := mul_le_mul_of_nonneg_right hi h4.le
        linarith
  rw [e1]
  set φ0 := (Grid.rect nlat nlon).lat (i, j) with hφ0
  set δ : ℝ := π / (nlat - 1) with hδdef
  by_cases hcos : cos φ0 = 0
  · have : {φ | cos φ0 ≠ 0 ∧ φ ∈ Set.Ioc (φ0 - δ / 2) (φ0 + δ / 2)} = ∅ := by
      ext φ; simp [hcos]
    rw [this]
    simp [hcos]
  · have hset : {φ | cos φ0 ≠ 0 ∧ φ ∈ Set.Ioc (φ0 - δ / 2) (φ0 + δ / 2)} = Set.Ioc (φ0 - δ / 2) (φ0 + δ / 2) := by
      ext φ; simp [hcos]
    have hj0 : 1 ≤ (j : ℕ) := by
      by_contra h
      have : (j : ℕ) = 0 := by omega
      rw [this] at l1
      apply hcos; rw [l1]; simp
    have hj1 : (j : ℕ) + 2 ≤ nlat := by
      by_contra h
      have : (j : ℕ) + 1 = nlat := by have := j.2; omega
      have h' : ((j : ℕ) : ℝ) = nlat - 1 := by
        have h2 : ((j : ℕ) : ℝ) + 1 = nlat := by exact_mod_cast this
        linarith
      apply hcos; rw [l1, h', hδ]
      rw [show -(π / 2) + π = π / 2 by ring, cos_pi_div_two]
    have hj0' : (1 : ℝ) ≤ (j : ℕ) := by exact_mod_cast hj0
    have hj1' : ((j : ℕ) : ℝ) + 2 ≤ nlat := by exact_mod_cast hj1
    have hsub : Set.Ioc (φ0 - δ / 2) (φ0 + δ / 2) ⊆ Set.Ioc (-(π / 2)) (π / 2) := by
      rw [l1]
      refine Set.Ioc_subset_Ioc ?_ ?_ <;> nlinarith
    rw [hset, rowM_apply measurableSet_Ioc, Set.inter_eq_left.mpr hsub,
      ← intervalIntegral.integral_of_le (by linarith), integral_cos, ← row_weight, ENNReal.toReal_ofReal]
    · field_simp
      ring
    · have h1 := cos_nonneg_of_mem_Icc l3
      have h2 : 0 ≤ sin (δ / 2) := sin_nonneg_of_nonneg_of_le_pi (by linarith) (by linarith)
      positivity

/-- Points of a cell are near the grid point. -/
theorem cell_near (nlat nlon : ℕ) (hlat : 3 ≤ nlat) (hlon : 1 ≤ nlon) (p : (Grid.rect nlat nlon).Pix) (x : ℝ × ℝ)
    (hx : x ∈ cell nlat nlon p) : greatCircle x.2 x.1 ((Grid.rect nlat nlon).lat p) ((Grid.rect nlat nlon).lon p) ≤
      π / (nlat - 1) / 2 + π / nlon := by
  have hp := pi_pos
  obtain ⟨hδ0, hδ2, hδ, hc, harea⟩ := rect_area_sin nlat nlon hlat hlon
  have hm : (1 : ℝ) ≤ nlon := by exact_mod_cast hlon
  obtain ⟨⟨h1, h2⟩, -, h3, h4⟩ := hx
  have hd : |x.2 - (Grid.rect nlat nlon).lat p| ≤ π / (nlat - 1) / 2 := abs_le.mpr ⟨by linarith, by linarith⟩
  have hl : |x.1 - (Grid.rect nlat nlon).lon p| ≤ π / nlon := abs_le.mpr ⟨by linarith, by linarith⟩
  have := greatCircle_le_add x.2 x.1 ((Grid.rect nlat nlon).lat p) ((Grid.rect nlat nlon).lon p)
    (by linarith) (hl.trans (div_le_self hp.le hm))
  linarith

/-- Sum over the pixels of a rectangular grid against the integral over the sphere, for a function that varies slowly
except across the outlines of a list of caps `(lat, lon, radius)`. -/
theorem disk_sum (nlat nlon : ℕ) (hlat : 3 ≤ nlat) (hlon : 1 ≤ nlon) (a : (Grid.rect nlat nlon).Pix → ℝ)
    (ha : ∀ p, (Grid.rect nlat nlon).area p = .fin (a p)) (g : ℝ → ℝ → ℝ) (hg : Measurable fun x : ℝ × ℝ => g x.2 x.1)
    (hper : ∀ φ l, g φ (l + 2 * π) = g φ l) (M L : ℝ) (hL : 0 ≤ L) (hM : ∀ φ l, |g φ l| ≤ M) (caps : List (ℝ × ℝ × ℝ))
    (hvar : ∀ φ l φ' l' ρ, greatCircle φ l φ' l' ≤ ρ →
      |g φ' l' - g φ l| ≤ L * ρ + M * (caps.map fun k => nearRing k.1 k.2.1 k.2.2 ρ φ l).sum) :
    |4 * π * cos (π / (nlat - 1) / 2) * ∑ p, a p * g ((Grid.rect nlat nlon).lat p) ((Grid.rect nlat nlon).lon p) -
      sphereInt g| ≤ 4 * π * ((L + M * caps.length) * (π / (nlat - 1) / 2 + π / nlon) +
        M * (1 - cos (π / (nlat - 1) / 2))) := by
  classical
  have hp := pi_pos
  obtain ⟨hδ0, hδ2, hδ, hc, harea⟩ := rect_area_sin nlat nlon hlat hlon
  have hm : (0 : ℝ) < nlon := by exact_mod_cast hlon
  set δ : ℝ := π / (nlat - 1) with hδdef
  set ρ : ℝ := δ / 2 + π / nlon with hρ
  have hρ0 : 0 ≤ ρ := by positivity
  have hM0 : 0 ≤ M := (abs_nonneg _).trans (hM 0 0)
  set σ := sphM (-(π / nlon)) with hσ
  set e : ℝ × ℝ → ℝ := fun x => L * ρ + M * (caps.map fun k => nearRing k.1 k.2.1 k.2.2 ρ x.2 x.1).sum with he
  have hri : ∀ k : ℝ × ℝ × ℝ, Integrable (fun x : ℝ × ℝ => nearRing k.1 k.2.1 k.2.2 ρ x.2 x.1) σ := fun k =>
    sphM_integrable _ _ (nearRing_measurable _ _ _ _) 1 fun x => by
      rw [abs_of_nonneg (nearRing_nonneg _ _ _ _ _ _)]; exact nearRing_le_one _ _ _ _ _ _
  have hint : ∀ cs : List (ℝ × ℝ × ℝ), Integrable (fun x : ℝ × ℝ => (cs.map fun k => nearRing k.1 k.2.1 k.2.2 ρ x.2 x.1).sum) σ ∧
      ∫ x, (cs.map fun k => nearRing k.1 k.2.1 k.2.2 ρ x.2 x.1).sum ∂σ ≤ cs.length * (4 * π * ρ) := by
    intro cs
    induction cs with
    | nil => simp
    | cons k cs ih =>
      simp only [List.map_cons, List.sum_cons]
      refine ⟨(hri k).add ih.1, ?_⟩
      rw [integral_add (hri k) ih.1]
      have h1 : ∫ x, nearRing k.1 k.2.1 k.2.2 ρ x.2 x.1 ∂σ ≤ 4 * π * ρ := by
        rw [hσ, sphM_sphereInt _ (nearRing k.1 k.2.1 k.2.2 ρ) (hri k)
          (fun φ l => by unfold nearRing; rw [greatCircle_periodic])]
        exact nearRing_area _ _ _ _ hρ0
      have := ih.2
      push_cast [List.length_cons]
      linarith
  have hei : Integrable e σ := (integrable_const _).add ((hint caps).1.const_mul _)
  have he0 : ∀ x, 0 ≤ e x := fun x => by
    have : 0 ≤ (caps.map fun k => nearRing k.1 k.2.1 k.2.2 ρ x.2 x.1).sum := List.sum_nonneg fun y hy => by
      obtain ⟨k, -, rfl⟩ := List.mem_map.mp hy
      exact nearRing_nonneg _ _ _ _ _ _
    simp only [he]; positivity
  have heI : ∫ x, e x ∂σ ≤ 4 * π * ((L + M * caps.length) * ρ) := by
    simp only [he]
    rw [integral_add (integrable_const _) ((hint caps).1.const_mul _), integral_const, integral_const_mul,
      sphM_real_univ, smul_eq_mul]
    have := mul_le_mul_of_nonneg_left (hint caps).2 hM0
    linarith
  have hgi := sphM_integrable (-(π / nlon)) _ hg M (fun x => hM _ _)
  have key := cell_sum σ (cell nlat nlon) (cell_measurable nlat nlon) (cell_disjoint nlat nlon hlat hlon)
    (fun x => g x.2 x.1) e hgi hei he0 (fun p => g ((Grid.rect nlat nlon).lat p) ((Grid.rect nlat nlon).lon p))
    (fun p x hx => hvar _ _ _ _ _ (cell_near nlat nlon hlat hlon p x hx)) M (fun x => hM _ _)
  rw [hσ, sphM_sphereInt _ g hgi hper, sphM_real_univ, ← hσ] at key
  simp only [hσ, cell_area nlat nlon hlat hlon a ha] at key
  rw [← hσ, ← Finset.mul_sum] at key
  obtain ⟨a', ha', -, hone, -⟩ := C02_area_partition (.rect nlat nlon) ⟨hlat, hlon⟩
  have haa : a' = a := by funext p; have := ha p; rw [ha' p, Fl.fin_inj] at this; exact this
  subst haa
  rw [hone] at key
  simp only [mul_assoc] at key heI ⊢
  rw [← Finset.mul_sum, ← Finset.mul_sum, ← Finset.mul_sum] at key
  refine key.trans ?_
  nlinarith

/-! ### What an observer truly sees -/

/-- A point of the star lies inside the outline of the spot: nearer to its centre than the radius of the cap that has
the area of the spot. -/
def Spec.insideSpot (s : StarSpot) (R φ l : ℝ) : Prop :=
  ∃ a θ, s.area = .fin a ∧ θ ∈ Set.Icc 0 π ∧ capArea R θ = a ∧ greatCircle s.lat s.lon φ l < θ

/-- A point of the star lies in the umbra: within the radius of the spot divided by the root of the area ratio. -/
def Spec.insideUmbra (s : StarSpot) (R φ l : ℝ) : Prop :=
  ∃ a q θ, s.area = .fin a ∧ s.ratio = .fin q ∧ θ ∈ Set.Icc 0 π ∧ capArea R θ = a ∧ greatCircle s.lat s.lon φ l < θ / √q

/-- Temperature of a point of the star: the coolest of everything covering it. -/
def Spec.trueTemp (spots : List StarSpot) (R T φ l : ℝ) : ℝ :=
  sInf ({T} ∪ {t | ∃ s ∈ spots, (t = s.teffPenumbra ∧ insideSpot s R φ l) ∨ (t = s.teffUmbra ∧ insideUmbra s R φ l)})

/-- Light received from a point of the star by an observer above `(lat0, lon0)`: limb darkening times projection. -/
def Spec.intensity (u1 u2 lat0 lon0 φ l : ℝ) : ℝ :=
  quadraticLaw u1 u2 (cos (greatCircle lat0 lon0 φ l)) * max (cos (greatCircle lat0 lon0 φ l)) 0

open Classical in
/-- Share of the light of the disk that comes from points of temperature `T`. -/
def Spec.trueShare (spots : List StarSpot) (R teff u1 u2 lat0 lon0 T : ℝ) : ℝ :=
  sphereInt (fun φ l => if trueTemp spots R teff φ l = T then intensity u1 u2 lat0 lon0 φ l else 0) /
    sphereInt (intensity u1 u2 lat0 lon0)

/-- A spot that fits on the star, with an umbra that is part of it and not hotter. -/
def Spec.GoodSpot (s : StarSpot) (R : ℝ) : Prop :=
  (∃ a, s.area = .fin a ∧ 0 ≤ a ∧ a ≤ 4 * π * R ^ 2) ∧ (∃ q, s.ratio = .fin q ∧ 1 ≤ q) ∧ s.teffUmbra ≤ s.teffPenumbra

/-- The numerical value of the spot radius. -/
def spotRadius (s : StarSpot) (R : ℝ) : ℝ := match s.area with
  | .fin a => arccos (1 - a / (2 * π * R ^ 2))
  | _ => 0

/-- The numerical value of the umbra radius. -/
def umbraRadius (s : StarSpot) (R : ℝ) : ℝ := match s.ratio with
  | .fin q => spotRadius s R / √q
  | _ => 0

theorem insideSpot_iff {s : StarSpot} {R : ℝ} (hR : 0 < R) (hs : GoodSpot s R) (φ l : ℝ) :
    insideSpot s R φ l ↔ greatCircle s.lat s.lon φ l < spotRadius s R := by
  obtain ⟨⟨a, ha, h0, h1⟩, -, -⟩ := hs
  obtain ⟨θ, e1, e2, e3, e4⟩ := (C17_angular_radius s R hR).1 a ha h0 h1
  have hmem := (capArg_mem (a := a) hR).mpr ⟨h0, h1⟩
  have hr : spotRadius s R = θ := by
    rw [angularRadius_fin s hR ha, Fl.arccos_fin hmem.1 hmem.2, Fl.fin_inj] at e1
    unfold spotRadius; rw [ha]; exact e1
  rw [hr]
  constructor
  · rintro ⟨a', θ', h2, h3, h4, h5⟩
    rw [ha, Fl.fin_inj] at h2
    rw [← e4 θ' h3 (h4.trans h2.symm)]; exact h5
  · intro h; exact ⟨a, θ, ha, e2, e3, h⟩

theorem insideUmbra_iff {s : StarSpot} {R : ℝ} (hR : 0 < R) (hs : GoodSpot s R) (φ l : ℝ) :
    insideUmbra s R φ l ↔ greatCircle s.lat s.lon φ l < umbraRadius s R := by
  obtain ⟨⟨a, ha, h0, h1⟩, ⟨q, hq, -⟩, -⟩ := hs
  obtain ⟨θ, e1, e2, e3, e4⟩ := (C17_angular_radius s R hR).1 a ha h0 h1
  have hmem := (capArg_mem (a := a) hR).mpr ⟨h0, h1⟩
  have hr : umbraRadius s R = θ / √q := by
    rw [angularRadius_fin s hR ha, Fl.arccos_fin hmem.1 hmem.2, Fl.fin_inj] at e1
    unfold umbraRadius spotRadius; rw [ha, hq]; simp only; rw [e1]
  rw [hr]
  constructor
  · rintro ⟨a', q', θ', h2, hq', h3, h4, h5⟩
    rw [ha, Fl.fin_inj] at h2
    rw [hq, Fl.fin_inj] at hq'
    rw [← e4 θ' h3 (h4.trans h2.symm), hq']; exact h5
  · intro h; exact ⟨a, q, θ, ha, hq, e2, e3, h⟩

theorem trueTemp_measurable (spots : List StarSpot) (R T : ℝ) (hR : 0 < R) (hs : ∀ s ∈ spots, GoodSpot s R) :
    Measurable fun x : ℝ × ℝ => trueTemp spots R T x.2 x.1 := by
  classical
  set vec : ℝ × ℝ → Fin spots.length → Bool × Bool := fun x i =>
    (decide (insideSpot (spots.get i) R x.2 x.1), decide (insideUmbra (spots.get i) R x.2 x.1)) with hvec
  set F : (Fin spots.length → Bool × Bool) → ℝ := fun v =>
    sInf ({T} ∪ {t | ∃ i, (t = (spots.get i).teffPenumbra ∧ (v i).1 = true) ∨ (t = (spots.get i).teffUmbra ∧ (v i).2 = true)}) with hF
  have hv : Measurable vec := by
    refine measurable_pi_lambda _ fun i => Measurable.prodMk ?_ ?_
    · refine measurable_to_bool ?_
      have : (fun x : ℝ × ℝ => decide (insideSpot (spots.get i) R x.2 x.1)) ⁻¹' {true} =
          {x | greatCircle (spots.get i).lat (spots.get i).lon x.2 x.1 < spotRadius (spots.get i) R} := by
        ext x
        simp only [Set.mem_preimage, Set.mem_singleton_iff, decide_eq_true_eq, Set.mem_ofPred_eq]
        exact insideSpot_iff hR (hs _ (List.get_mem _ _)) _ _
      rw [this]
      exact measurableSet_lt (greatCircle_measurable _ _) measurable_const
    · refine measurable_to_bool ?_
      have : (fun x : ℝ × ℝ => decide (insideUmbra (spots.get i) R x.2 x.1)) ⁻¹' {true} =
          {x | greatCircle (spots.get i).lat (spots.get i).lon x.2 x.1 < umbraRadius (spots.get i) R} := by
        ext x
        simp only [Set.mem_preimage, Set.mem_singleton_iff, decide_eq_true_eq, Set.mem_ofPred_eq]
        exact insideUmbra_iff hR (hs _ (List.get_mem _ _)) _ _
      rw [this]
      exact measurableSet_lt (greatCircle_measurable _ _) measurable_const
  have : (fun x : ℝ × ℝ => trueTemp spots R T x.2 x.1) = F ∘ vec := by
    funext x
    simp only [trueTemp, hF, hvec, Function.comp, decide_eq_true_eq]
    congr 2
    ext t
    simp only [Set.mem_ofPred_eq]
    constructor
    · rintro ⟨s, h1, h2⟩
      obtain ⟨i, rfl⟩ := List.get_of_mem h1
      exact ⟨i, h2⟩
    · rintro ⟨i, h⟩; exact ⟨_, List.get_mem _ _, h⟩
  rw [this]
  exact (Measurable.of_discrete (f := F)).comp hv

theorem trueTemp_periodic (spots : List StarSpot) (R T φ l : ℝ) :
    trueTemp spots R T φ (l + 2 * π) = trueTemp spots R T φ l := by
  simp only [trueTemp, insideSpot, insideUmbra, greatCircle_periodic]

/-- The outlines of the spots. -/
def outlines (spots : List StarSpot) (R : ℝ) : List (ℝ × ℝ × ℝ) :=
  spots.flatMap fun s => [(s.lat, s.lon, spotRadius s R), (s.lat, s.lon, umbraRadius s R)]

theorem outlines_length (spots : List StarSpot) (R : ℝ) : (outlines spots R).length = 2 * spots.length := by
  induction spots with
  | nil => rfl
  | cons s l ih => rw [outlines, List.flatMap_cons, List.length_append, ← outlines, ih]; simp; ring

/-- Away from all outlines the temperature is locally constant. -/
theorem trueTemp_const (spots : List StarSpot) (R T : ℝ) (hR : 0 < R) (hs : ∀ s ∈ spots, GoodSpot s R)
    (φ l φ' l' ρ : ℝ) (hd : greatCircle φ l φ' l' ≤ ρ)
    (hno : ∀ k ∈ outlines spots R, ρ < |greatCircle k.1 k.2.1 φ l - k.2.2|) :
    trueTemp spots R T φ' l' = trueTemp spots R T φ l := by
  have side : ∀ k ∈ outlines spots R, (greatCircle k.1 k.2.1 φ' l' < k.2.2 ↔ greatCircle k.1 k.2.1 φ l < k.2.2) := by
    intro k hk
    have h1 := abs_le.mp ((abs_greatCircle_sub k.1 k.2.1 φ l φ' l').trans hd)
    rcases lt_abs.mp (hno k hk) with h2 | h2
    · constructor <;> intro h <;> linarith [h1.1, h1.2]
    · constructor <;> intro h <;> linarith [h1.1, h1.2]
  unfold trueTemp
  congr 2
  ext t
  simp only [Set.mem_ofPred_eq]
  have hS : ∀ s ∈ spots, (insideSpot s R φ' l' ↔ insideSpot s R φ l) ∧ (insideUmbra s R φ' l' ↔ insideUmbra s R φ l) := by
    intro s h
    rw [insideSpot_iff hR (hs s h), insideSpot_iff hR (hs s h), insideUmbra_iff hR (hs s h), insideUmbra_iff hR (hs s h)]
    exact ⟨side (s.lat, s.lon, spotRadius s R) (List.mem_flatMap.mpr ⟨s, h, by simp⟩),
      side (s.lat, s.lon, umbraRadius s R) (List.mem_flatMap.mpr ⟨s, h, by simp⟩)⟩
  constructor
  · rintro ⟨s, h1, h2⟩; rw [(hS s h1).1, (hS s h1).2] at h2; exact ⟨s, h1, h2⟩
  · rintro ⟨s, h1, h2⟩; rw [← (hS s h1).1, ← (hS s h1).2] at h2; exact ⟨s, h1, h2⟩

/-! ### Intensity -/

theorem ld_range {u1 u2 x : ℝ} (h : PhysicalLD u1 u2) (h0 : 0 ≤ x) (h1 : x ≤ 1) :
    0 ≤ quadraticLaw u1 u2 x ∧ quadraticLaw u1 u2 x ≤ 1 := by
  obtain ⟨a, b, c⟩ := h
  unfold quadraticLaw
  have h2 : 0 ≤ 1 - x := by linarith
  have h3 : 0 ≤ (1 - x) * x := mul_nonneg h2 h0
  constructor
  · nlinarith [mul_nonneg h2 h2, mul_nonneg h0 h0, mul_nonneg b h3, mul_nonneg a h3]
  · nlinarith [mul_nonneg h2 h2, mul_nonneg a h2, mul_nonneg b (mul_nonneg h2 h2), mul_nonneg a h3]

/-- Light per surface area as a function of `μ`. -/
def lightAt (u1 u2 x : ℝ) : ℝ := quadraticLaw u1 u2 x * max x 0

theorem lightAt_lip_pos {u1 u2 x y : ℝ} (h : PhysicalLD u1 u2) (hy : 0 ≤ y) (hyx : y ≤ x) (hx : x ≤ 1) :
    0 ≤ lightAt u1 u2 x - lightAt u1 u2 y ∧ lightAt u1 u2 x - lightAt u1 u2 y ≤ 3 * (x - y) := by
  have hx0 := hy.trans hyx
  have r := ld_range h hx0 hx
  obtain ⟨a, b, c⟩ := h
  unfold lightAt
  rw [max_eq_left hx0, max_eq_left hy]
  have e : quadraticLaw u1 u2 x * x - quadraticLaw u1 u2 y * y =
      (x - y) * (quadraticLaw u1 u2 x + y * (u1 + u2 * (2 - x - y))) := by unfold quadraticLaw; ring
  rw [e]
  have hxy : 0 ≤ x - y := by linarith
  have ht0 : 0 ≤ 2 - x - y := by linarith
  have hs : 0 ≤ x + y := by linarith
  have k1 : 0 ≤ u1 + u2 * (2 - x - y) := by nlinarith [mul_nonneg a hs, mul_nonneg b ht0]
  have k2 : u1 + u2 * (2 - x - y) ≤ 2 := by nlinarith [mul_nonneg a ht0, mul_nonneg b hs, mul_nonneg (sub_nonneg.mpr c) ht0, mul_nonneg (sub_nonneg.mpr c) hs]
  constructor
  · exact mul_nonneg hxy (add_nonneg r.1 (mul_nonneg hy k1))
  · have : quadraticLaw u1 u2 x + y * (u1 + u2 * (2 - x - y)) ≤ 3 := by nlinarith [mul_nonneg hy k1, r.2]
    nlinarith

theorem lightAt_lip {u1 u2 x y : ℝ} (h : PhysicalLD u1 u2) (hx : x ≤ 1) (hy : y ≤ 1) :
    |lightAt u1 u2 x - lightAt u1 u2 y| ≤ 3 * |x - y| := by
  have hcl : ∀ z, lightAt u1 u2 z = lightAt u1 u2 (max z 0) := by
    intro z
    unfold lightAt
    rcases le_total z 0 with hz | hz
    · rw [max_eq_right hz]; simp
    · rw [max_eq_left hz, max_eq_left hz]
  have hmax : |max x 0 - max y 0| ≤ |x - y| := abs_max_sub_max_le_abs x y 0
  rw [hcl x, hcl y]
  refine le_trans ?_ (mul_le_mul_of_nonneg_left hmax (by norm_num))
  have hx' : max x 0 ≤ 1 := max_le hx zero_le_one
  have hy' : max y 0 ≤ 1 := max_le hy zero_le_one
  rcases le_total (max x 0) (max y 0) with hle | hle
  · obtain ⟨k1, k2⟩ := lightAt_lip_pos h (le_max_right x 0) hle hy'
    rw [abs_sub_comm, abs_of_nonneg k1, abs_sub_comm (max x 0), abs_of_nonneg (sub_nonneg.mpr hle)]; exact k2
  · obtain ⟨k1, k2⟩ := lightAt_lip_pos h (le_max_right y 0) hle hx'
    rw [abs_of_nonneg k1, abs_of_nonneg (sub_nonneg.mpr hle)]; exact k2

theorem lightAt_range {u1 u2 x : ℝ} (h : PhysicalLD u1 u2) (hx : x ≤ 1) : 0 ≤ lightAt u1 u2 x ∧ lightAt u1 u2 x ≤ 1 := by
  unfold lightAt
  rcases le_total x 0 with hz | hz
  · rw [max_eq_right hz]; simp
  · rw [max_eq_left hz]
    obtain ⟨k1, k2⟩ := ld_range h hz hx
    exact ⟨mul_nonneg k1 hz, by nlinarith⟩

theorem intensity_eq (u1 u2 lat0 lon0 φ l : ℝ) :
    intensity u1 u2 lat0 lon0 φ l = lightAt u1 u2 (cos (greatCircle lat0 lon0 φ l)) := rfl

/-- The light of the whole disk. -/
theorem intensity_total {u1 u2 : ℝ} (h : PhysicalLD u1 u2) (lat0 lon0 : ℝ) :
    sphereInt (intensity u1 u2 lat0 lon0) = π * (1 - u1 / 3 - u2 / 6) ∧ π / 2 ≤ sphereInt (intensity u1 u2 lat0 lon0) := by
  have hp := pi_pos
  set H : ℝ → ℝ := fun x => lightAt u1 u2 (min x 1) with hH
  have hc : Continuous H := by unfold H lightAt quadraticLaw; fun_prop
  have e : intensity u1 u2 lat0 lon0 = fun φ l => H (sin lat0 * sin φ + cos lat0 * cos φ * cos (lon0 - l)) := by
    funext φ l
    have hx := cosExpr_mem lat0 lon0 φ l
    rw [intensity_eq, greatCircle_eq, cos_arccos hx.1 hx.2, hH]
    simp only
    rw [min_eq_left hx.2]
  have hz := zonal_integral H hc.measurable 1 (fun x => (lightAt_range h (min_le_right _ _)).1)
    (fun x => (lightAt_range h (min_le_right _ _)).2) lat0 lon0
  have hval : ∫ φ in (-(π / 2))..(π / 2), H (sin φ) * cos φ = 1 / 2 - u1 / 6 - u2 / 12 := by
    have hsub := intervalIntegral.integral_comp_mul_deriv (a := -(π / 2)) (b := π / 2) (f := sin) (f' := cos) (g := H)
      (fun x _ => hasDerivAt_sin x) continuous_cos.continuousOn hc
    simp only [Function.comp] at hsub
    rw [hsub, sin_neg, sin_pi_div_two, ← intervalIntegral.integral_add_adjacent_intervals (b := 0)
      (hc.intervalIntegrable _ _) (hc.intervalIntegrable _ _)]
    have z : ∫ x in (-1 : ℝ)..0, H x = 0 := by
      rw [intervalIntegral.integral_congr (g := fun _ => 0)]
      · simp
      · intro x hx
        rw [Set.uIcc_of_le (by norm_num)] at hx
        have hx2 : x ≤ 0 := hx.2
        simp only [hH, lightAt]
        rw [min_eq_left (by linarith), max_eq_right hx2, mul_zero]
    have w : ∫ x in (0 : ℝ)..1, H x = ∫ x in (0 : ℝ)..1, ((1 - u1 - u2) * x + (u1 + 2 * u2) * x ^ 2 - u2 * x ^ 3) := by
      refine intervalIntegral.integral_congr fun x hx => ?_
      rw [Set.uIcc_of_le (by norm_num)] at hx
      simp only [hH, lightAt, quadraticLaw]
      rw [min_eq_left hx.2, max_eq_left hx.1]; ring
    rw [z, w, zero_add]
    rw [intervalIntegral.integral_sub (by apply Continuous.intervalIntegrable; fun_prop) (by apply Continuous.intervalIntegrable; fun_prop),
      intervalIntegral.integral_add (by apply Continuous.intervalIntegrable; fun_prop) (by apply Continuous.intervalIntegrable; fun_prop),
      intervalIntegral.integral_const_mul, intervalIntegral.integral_const_mul, intervalIntegral.integral_const_mul, integral_id,
      integral_pow, integral_pow]
    norm_num; ring
  rw [e, hz, hval]
  obtain ⟨a, b, c⟩ := h
  constructor
  · ring
  · nlinarith

/-! ### Shares -/

/-- The bound on the error of the reported shares: proportional to the grid spacings and to the number of spots. -/
def Spec.shareError (n nlat nlon : ℕ) (u1 u2 : ℝ) : ℝ :=
  (14 + 4 * n) * (π / (nlat - 1) + 2 * π / nlon) / (1 - u1 / 3 - u2 / 6)

theorem ratio_error {N D n d EN ED : ℝ} (hD : 0 < D) (hd : 0 < d) (hN : 0 ≤ N) (hND : N ≤ D) (h1 : |N - n| ≤ EN)
    (h2 : |D - d| ≤ ED) : |N / D - n / d| ≤ (EN + ED) / d := by
  have e : N / D - n / d = ((N - n) - N / D * (D - d)) / d := by field_simp; ring
  rw [e, abs_div, abs_of_pos hd]
  have hr0 : 0 ≤ N / D := div_nonneg hN hD.le
  have hr1 : N / D ≤ 1 := (div_le_one hD).mpr hND
  have : |(N - n) - N / D * (D - d)| ≤ EN + ED := by
    refine (abs_sub _ _).trans (add_le_add h1 ?_)
    rw [abs_mul, abs_of_nonneg hr0]
    nlinarith [abs_nonneg (D - d)]
  gcongr

theorem trueTemp_pixel (spots : List StarSpot) (g : Grid) (R T : ℝ) (hR : 0 < R) (hs : ∀ s ∈ spots, GoodSpot s R)
    (p : g.Pix) (t : ℝ) (h : IsLeast (tempsAt spots g R T p) t) : trueTemp spots R T (g.lat p) (g.lon p) = t := by
  have hset : ({T} ∪ {t | ∃ s ∈ spots, (t = s.teffPenumbra ∧ insideSpot s R (g.lat p) (g.lon p)) ∨
      (t = s.teffUmbra ∧ insideUmbra s R (g.lat p) (g.lon p))}) = tempsAt spots g R T p := by
    unfold tempsAt
    congr 1
    ext t
    simp only [Set.mem_ofPred_eq]
    have key : ∀ s ∈ spots, ((t = s.teffPenumbra ∧ insideSpot s R (g.lat p) (g.lon p)) ∨
        (t = s.teffUmbra ∧ insideUmbra s R (g.lat p) (g.lon p))) ↔
        ((t = s.teffPenumbra ∧ inSpot s g R p) ∨ (t = s.teffUmbra ∧ inUmbra s g R p)) := by
      intro s hsm
      obtain ⟨⟨a, ha, h0, h1⟩, ⟨q, hq, hq1⟩, -⟩ := hs s hsm
      obtain ⟨m1, m2, m3, m4⟩ := C18_membership s g R a q hR ha hq (by linarith) p
      have i1 : insideSpot s R (g.lat p) (g.lon p) ↔ inSpot s g R p := by
        rw [inSpot, m1, insideSpot]
        constructor
        · rintro ⟨a', θ, e, h⟩; rw [ha, Fl.fin_inj] at e; subst e; exact ⟨θ, h⟩
        · rintro ⟨θ, h⟩; exact ⟨a, θ, ha, h⟩
      have i2 : s.teffUmbra ≠ s.teffPenumbra → (insideUmbra s R (g.lat p) (g.lon p) ↔ inUmbra s g R p) := by
        intro hne
        rw [inUmbra, m2 hne, insideUmbra]
        constructor
        · rintro ⟨a', q', θ, e, e', h⟩
          rw [ha, Fl.fin_inj] at e; rw [hq, Fl.fin_inj] at e'; subst e; subst e'; exact ⟨θ, h⟩
        · rintro ⟨θ, h⟩; exact ⟨a, q, θ, ha, hq, h⟩
      by_cases hne : s.teffUmbra = s.teffPenumbra
      · have i3 : insideUmbra s R (g.lat p) (g.lon p) → insideSpot s R (g.lat p) (g.lon p) := by
          rintro ⟨a', q', θ, e, e', h1, h2, h3⟩
          refine ⟨a', θ, e, h1, h2, h3.trans_le ?_⟩
          rw [hq, Fl.fin_inj] at e'; subst e'
          exact div_le_self h1.1 (Real.one_le_sqrt.mpr hq1)
        have i4 : inUmbra s g R p ↔ inSpot s g R p := m3 hne
        rw [hne, i4, ← i1]
        exact ⟨fun h => h.elim Or.inl fun h => Or.inl ⟨h.1, i3 h.2⟩, fun h => h.elim Or.inl Or.inl⟩
      · rw [i1, i2 hne]
    constructor
    · rintro ⟨s, h1, h2⟩; exact ⟨s, h1, (key s h1).mp h2⟩
    · rintro ⟨s, h1, h2⟩; exact ⟨s, h1, (key s h1).mpr h2⟩
  rw [trueTemp, hset]
  exact h.csInf_eq

open Classical in
/-- Error of the share of a temperature, on a rectangular grid. -/
theorem share_accuracy (nlat nlon : ℕ) (hlat : 3 ≤ nlat) (hlon : 1 ≤ nlon) (a : (Grid.rect nlat nlon).Pix → ℝ)
    (ha : ∀ p, (Grid.rect nlat nlon).area p = .fin (a p)) (spots : List StarSpot) (R T u1 u2 lat0 lon0 : ℝ) (hR : 0 < R)
    (hld : PhysicalLD u1 u2) (hs : ∀ s ∈ spots, GoodSpot s R) (m : (Grid.rect nlat nlon).Pix → ℝ)
    (hm : ∀ p, IsLeast (tempsAt spots (.rect nlat nlon) R T p) (m p)) (w : (Grid.rect nlat nlon).Pix → ℝ)
    (hw : ∀ p, w p = a p * intensity u1 u2 lat0 lon0 ((Grid.rect nlat nlon).lat p) ((Grid.rect nlat nlon).lon p))
    (hW : 0 < ∑ p, w p) (t : ℝ) :
    |share w m (fun _ => 1) t - trueShare spots R T u1 u2 lat0 lon0 t| ≤ shareError spots.length nlat nlon u1 u2 := by
  have hp := pi_pos
  obtain ⟨hδ0, hδ2, hδ, hc, harea⟩ := rect_area_sin nlat nlon hlat hlon
  have hn : (0 : ℝ) < nlon := by exact_mod_cast hlon
  set δ : ℝ := π / (nlat - 1) with hδdef
  have hrange : ∀ φ l, 0 ≤ intensity u1 u2 lat0 lon0 φ l ∧ intensity u1 u2 lat0 lon0 φ l ≤ 1 :=
    fun φ l => lightAt_range hld (cos_le_one _)
  have hIm : Measurable fun x : ℝ × ℝ => intensity u1 u2 lat0 lon0 x.2 x.1 := by
    have := greatCircle_measurable lat0 lon0
    unfold intensity quadraticLaw; fun_prop
  have hlip : ∀ φ l φ' l' ρ, greatCircle φ l φ' l' ≤ ρ →
      |intensity u1 u2 lat0 lon0 φ' l' - intensity u1 u2 lat0 lon0 φ l| ≤ 3 * ρ := by
    intro φ l φ' l' ρ hd
    rw [intensity_eq, intensity_eq]
    refine (lightAt_lip hld (cos_le_one _) (cos_le_one _)).trans ?_
    have := abs_mu_sub lat0 lon0 φ' l' φ l
    rw [greatCircle_comm φ' l' φ l] at this
    linarith
  set G : ℝ → ℝ → ℝ := fun φ l => if trueTemp spots R T φ l = t then intensity u1 u2 lat0 lon0 φ l else 0 with hG
  have hGr : ∀ φ l, 0 ≤ G φ l ∧ G φ l ≤ 1 := by
    intro φ l; simp only [hG]; split_ifs
    · exact hrange φ l
    · exact ⟨le_rfl, zero_le_one⟩
  have hGm : Measurable fun x : ℝ × ℝ => G x.2 x.1 :=
    Measurable.ite ((trueTemp_measurable spots R T hR hs) (measurableSet_singleton t)) hIm measurable_const
  have hGp : ∀ φ l, G φ (l + 2 * π) = G φ l := by
    intro φ l; simp only [hG, trueTemp_periodic, intensity, greatCircle_periodic]
  -- numerator
  have kn := disk_sum nlat nlon hlat hlon a ha G hGm hGp 1 3 (by norm_num)
    (fun φ l => abs_le.mpr ⟨by linarith [(hGr φ l).1], (hGr φ l).2⟩) (outlines spots R) (by
      intro φ l φ' l' ρ hd
      have hρ : 0 ≤ ρ := (greatCircle_nonneg _ _ _ _).trans hd
      have hnn : ∀ y ∈ (outlines spots R).map fun k => nearRing k.1 k.2.1 k.2.2 ρ φ l, 0 ≤ y := by
        intro y hy
        obtain ⟨k, -, rfl⟩ := List.mem_map.mp hy
        exact nearRing_nonneg _ _ _ _ _ _
      by_cases hno : ∀ k ∈ outlines spots R, ρ < |greatCircle k.1 k.2.1 φ l - k.2.2|
      · have ht := trueTemp_const spots R T hR hs φ l φ' l' ρ hd hno
        have hsum := List.sum_nonneg hnn
        have : |G φ' l' - G φ l| ≤ 3 * ρ := by
          simp only [hG, ht]
          split_ifs
          · exact hlip _ _ _ _ _ hd
          · simpa using hρ
        linarith
      · push Not at hno
        obtain ⟨k, hk, hk'⟩ := hno
        have h1 : 1 ≤ ((outlines spots R).map fun k => nearRing k.1 k.2.1 k.2.2 ρ φ l).sum := by
          have h2 : (1 : ℝ) ∈ (outlines spots R).map fun k => nearRing k.1 k.2.1 k.2.2 ρ φ l :=
            List.mem_map.mpr ⟨k, hk, by unfold nearRing; rw [if_pos hk']⟩
          exact List.single_le_sum hnn _ h2
        have : |G φ' l' - G φ l| ≤ 1 :=
          abs_le.mpr ⟨by linarith [(hGr φ' l').1, (hGr φ l).2], by linarith [(hGr φ' l').2, (hGr φ l).1]⟩
        linarith)
  -- denominator
  have kd := disk_sum nlat nlon hlat hlon a ha (intensity u1 u2 lat0 lon0) hIm
    (fun φ l => by simp only [intensity, greatCircle_periodic]) 1 3 (by norm_num)
    (fun φ l => abs_le.mpr ⟨by linarith [(hrange φ l).1], (hrange φ l).2⟩) [] (by
      intro φ l φ' l' ρ hd
      simpa using hlip φ l φ' l' ρ hd)
  obtain ⟨hd1, hd2⟩ := intensity_total hld lat0 lon0
  have hcpos : 0 < 4 * π * cos (δ / 2) := by positivity
  have hsumG : ∑ p, a p * G ((Grid.rect nlat nlon).lat p) ((Grid.rect nlat nlon).lon p) =
      ∑ p, if m p = t then w p * 1 else 0 := by
    refine Finset.sum_congr rfl fun p _ => ?_
    simp only [hG, trueTemp_pixel spots (.rect nlat nlon) R T hR hs p (m p) (hm p), hw p]
    split_ifs <;> simp
  have hsumI : ∑ p, a p * intensity u1 u2 lat0 lon0 ((Grid.rect nlat nlon).lat p) ((Grid.rect nlat nlon).lon p) = ∑ p, w p :=
    Finset.sum_congr rfl fun p _ => (hw p).symm
  rw [hsumG] at kn
  rw [hsumI] at kd
  obtain ⟨a', ha', hann, -, -⟩ := C02_area_partition (.rect nlat nlon) ⟨hlat, hlon⟩
  have haa : a' = a := by funext p; have := ha p; rw [ha' p, Fl.fin_inj] at this; exact this
  subst haa
  have hw0 : ∀ p, 0 ≤ w p := fun p => by rw [hw p]; exact mul_nonneg (hann p) (hrange _ _).1
  set N := ∑ p, (if m p = t then w p * 1 else 0) with hN
  have hN0 : 0 ≤ N := Finset.sum_nonneg fun p _ => by split_ifs; exacts [by linarith [hw0 p], le_rfl]
  have hND : N ≤ ∑ p, w p := Finset.sum_le_sum fun p _ => by split_ifs; exacts [by linarith, hw0 p]
  have key := ratio_error (mul_pos hcpos hW) (by linarith : 0 < sphereInt (intensity u1 u2 lat0 lon0))
    (mul_nonneg hcpos.le hN0) (mul_le_mul_of_nonneg_left hND hcpos.le) kn kd
  have hshare : 4 * π * cos (δ / 2) * N / (4 * π * cos (δ / 2) * ∑ p, w p) = share w m (fun _ => 1) t := by
    rw [mul_div_mul_left _ _ hcpos.ne', share]
  rw [hshare] at key
  refine key.trans ?_
  rw [outlines_length, hd1, shareError]
  have hcos := one_sub_sq_div_two_le_cos (x := δ / 2)
  set ρ : ℝ := δ / 2 + π / nlon with hρ
  have hρ2 : δ + 2 * π / nlon = 2 * ρ := by rw [hρ]; ring
  have hnp : 0 < π / nlon := by positivity
  have hone : 1 - cos (δ / 2) ≤ ρ / 2 := by
    have : δ ^ 2 / 8 ≤ δ / 4 := by nlinarith [pi_le_four]
    have h3 : δ / 2 ≤ ρ := by rw [hρ]; linarith
    linarith
  have hden : 0 < 1 - u1 / 3 - u2 / 6 := by
    obtain ⟨x, y, z⟩ := hld; linarith
  rw [hρ2, div_le_div_iff₀ (by positivity) hden]
  have hnum : 4 * π * ((3 + 1 * ((2 * spots.length : ℕ) : ℝ)) * ρ + 1 * (1 - cos (δ / 2))) +
      4 * π * ((3 + 1 * (([] : List (ℝ × ℝ × ℝ)).length : ℝ)) * ρ + 1 * (1 - cos (δ / 2))) ≤
      (14 + 4 * (spots.length : ℝ)) * (2 * ρ) * π := by
    push_cast
    simp only [List.length_nil, Nat.cast_zero]
    nlinarith
  calc _ ≤ (14 + 4 * (spots.length : ℝ)) * (2 * ρ) * π * (1 - u1 / 3 - u2 / 6) := mul_le_mul_of_nonneg_right hnum hden.le
    _ = _ := by ring

end Vsm
