import Verif.Props.SpiralAccuracy

/-!
# C104: accuracy of `get_coverage` for overlapping spots and on spiral grids
-/

open Real MeasureTheory Vsm.Np Vsm.Spec

noncomputable section

namespace Vsm

/-- A point of a star of radius `R` lies in a spot: its distance from the centre is less than the radius of the cap of the area of the
spot. -/
def Spec.spotted (spots : List StarSpot) (R φ l : ℝ) : Prop :=
  ∃ s ∈ spots, ∃ a : ℝ, s.area = .fin a ∧ greatCircle s.lat s.lon φ l < arccos (1 - a / (2 * π * R ^ 2))

open Classical in
/-- The fraction of the surface that lies in spots. -/
def Spec.spottedShare (spots : List StarSpot) (R : ℝ) : ℝ :=
  sphereInt (fun φ l => if spotted spots R φ l then 1 else 0) / (4 * π)

/-- The outlines of the spots. -/
def capOutlines (area : StarSpot → ℝ) (spots : List StarSpot) (R : ℝ) : List (ℝ × ℝ × ℝ) :=
  spots.map fun s => (s.lat, s.lon, arccos (1 - area s / (2 * π * R ^ 2)))

theorem spotted_iff {spots : List StarSpot} {area : StarSpot → ℝ} (ha : ∀ s ∈ spots, s.area = .fin (area s)) (R φ l : ℝ) :
    spotted spots R φ l ↔ ∃ s ∈ spots, greatCircle s.lat s.lon φ l < arccos (1 - area s / (2 * π * R ^ 2)) := by
  constructor
  · rintro ⟨s, hs, a, h1, h2⟩
    rw [ha s hs, Fl.fin_inj] at h1
    exact ⟨s, hs, h1 ▸ h2⟩
  · rintro ⟨s, hs, h⟩
    exact ⟨s, hs, _, ha s hs, h⟩

theorem spotted_const {spots : List StarSpot} {area : StarSpot → ℝ} (ha : ∀ s ∈ spots, s.area = .fin (area s)) (R ρ φ l φ' l' : ℝ)
    (hd : greatCircle φ l φ' l' ≤ ρ) (hno : ∀ k ∈ capOutlines area spots R, ρ < |greatCircle k.1 k.2.1 φ l - k.2.2|) :
    spotted spots R φ' l' ↔ spotted spots R φ l := by
  rw [spotted_iff ha, spotted_iff ha]
  have side : ∀ s ∈ spots, (greatCircle s.lat s.lon φ' l' < arccos (1 - area s / (2 * π * R ^ 2)) ↔
      greatCircle s.lat s.lon φ l < arccos (1 - area s / (2 * π * R ^ 2))) := by
    intro s hs
    have h1 := abs_le.mp ((abs_greatCircle_sub s.lat s.lon φ l φ' l').trans hd)
    have h2 := hno _ (List.mem_map.mpr ⟨s, hs, rfl⟩)
    simp only at h2
    rcases lt_abs.mp h2 with h | h
    · constructor <;> intro h3 <;> exfalso <;> linarith [h1.1, h1.2, (abs_nonneg (greatCircle s.lat s.lon φ l -
        arccos (1 - area s / (2 * π * R ^ 2))))]
    · constructor <;> intro h3 <;> linarith [h1.1, h1.2]
  constructor <;> rintro ⟨s, hs, h⟩
  · exact ⟨s, hs, (side s hs).mp h⟩
  · exact ⟨s, hs, (side s hs).mpr h⟩

theorem spotted_measurable {spots : List StarSpot} {area : StarSpot → ℝ} (ha : ∀ s ∈ spots, s.area = .fin (area s)) (R : ℝ) :
    MeasurableSet {x : ℝ × ℝ | spotted spots R x.2 x.1} := by
  simp only [spotted_iff ha]
  have e : {x : ℝ × ℝ | ∃ s ∈ spots, greatCircle s.lat s.lon x.2 x.1 < arccos (1 - area s / (2 * π * R ^ 2))} =
      ⋃ i : Fin spots.length, {x : ℝ × ℝ | greatCircle (spots.get i).lat (spots.get i).lon x.2 x.1 <
        arccos (1 - area (spots.get i) / (2 * π * R ^ 2))} := by
    ext x
    simp only [Set.mem_ofPred_eq, Set.mem_iUnion]
    constructor
    · rintro ⟨f, hf, h⟩
      obtain ⟨i, rfl⟩ := List.get_of_mem hf
      exact ⟨i, h⟩
    · rintro ⟨i, h⟩
      exact ⟨_, List.get_mem _ _, h⟩
  rw [e]
  exact MeasurableSet.iUnion fun i => measurableSet_lt (greatCircle_measurable _ _) measurable_const

/-- The spots that `get_coverage` can measure: they fit on the star and contain their umbrae. -/
def Spec.FittingSpot (s : StarSpot) (R : ℝ) : Prop :=
  (∃ a : ℝ, s.area = .fin a ∧ 0 ≤ a ∧ a ≤ 4 * π * R ^ 2) ∧ ∃ q : ℝ, s.ratio = .fin q ∧ 1 ≤ q

open Classical in
/-- The coverage on any grid with a quadrature rule. -/
theorem quad_coverage (gd : Grid) {κ ρ ε b : ℝ} (hQd : Quad gd κ ρ ε b) (hκ : |1 - κ| ≤ ε) (spots : List StarSpot) (R : ℝ) (hR : 0 < R)
    (hs : ∀ s ∈ spots, FittingSpot s R) :
    ∃ v : ℝ, (SpotCollection.new spots gd).coverage R = .ok (.fin v) ∧
      |v - spottedShare spots R| ≤ spots.length * ρ + 2 * ε := by
  have hp := pi_pos
  obtain ⟨a, ha, ha0, hone, -⟩ := C02_area_partition gd hQd.good
  refine ⟨_, C24_coverage (SpotCollection.new spots gd) (measured_new _ _) hQd.good R a ha, ?_⟩
  have hs1 : ∀ s ∈ spots, ∃ a : ℝ, s.area = .fin a := fun s h => by obtain ⟨⟨a, h1, -⟩, -⟩ := hs s h; exact ⟨a, h1⟩
  choose! area harea using hs1
  have hcov : coveredArea (SpotCollection.new spots gd).spots gd R a = ∑ p, a p * (if spotted spots R (gd.lat p) (gd.lon p) then 1 else 0) := by
    unfold coveredArea
    refine Finset.sum_congr rfl fun p _ => ?_
    have e : (∃ t ∈ (SpotCollection.new spots gd).spots, inSpot t gd R p ∨ inUmbra t gd R p) ↔
        spotted spots R (gd.lat p) (gd.lon p) := by
      rw [spotted_iff harea]
      simp only [SpotCollection.new, SpotCollection.setGridmaker, List.mem_map, exists_exists_and_eq_and]
      refine exists_congr fun t => and_congr_right fun ht => ?_
      obtain ⟨⟨b, h1, h2, h3⟩, q, h4, h5⟩ := hs t ht
      have hb : b = area t := by have := harea t ht; rw [h1, Fl.fin_inj] at this; exact this
      subst hb
      have hmem := (capArg_mem (a := area t) hR).mpr ⟨h2, h3⟩
      have key := inSpot_cos t gd R (area t) q hR h1 h2 h3 h4 h5 p
      change (inSpot t gd R p ∨ inUmbra t gd R p) ↔ _
      rw [key, greatCircle_eq]
      constructor
      · exact fun h => arccos_lt_arccos hmem.1 h (cosExpr_mem _ _ _ _).2
      · intro h
        by_contra hc
        rw [not_lt] at hc
        exact absurd h (not_lt.mpr (arccos_le_arccos hc))
    split_ifs with g1 g2 g2
    · rw [mul_one]
    · exact absurd (e.mp g1) g2
    · exact absurd (e.mpr g2) g1
    · rw [mul_zero]
  change |coveredArea (SpotCollection.new spots gd).spots gd R a - _| ≤ _
  rw [hcov]
  set G : ℝ → ℝ → ℝ := fun φ l => if spotted spots R φ l then 1 else 0 with hG
  have hGr : ∀ φ l, 0 ≤ G φ l ∧ G φ l ≤ 1 := fun φ l => by simp only [hG]; split_ifs <;> norm_num
  have hGm : Measurable fun x : ℝ × ℝ => G x.2 x.1 :=
    Measurable.ite (spotted_measurable harea R) measurable_const measurable_const
  set K := capOutlines area spots R with hK
  obtain ⟨ri1, ri2⟩ := rings_integral b ρ hQd.near K
  have hlen : K.length = spots.length := by rw [hK, capOutlines, List.length_map]
  have hnn : ∀ x : ℝ × ℝ, ∀ y ∈ K.map fun k => nearRing k.1 k.2.1 k.2.2 ρ x.2 x.1, 0 ≤ y := by
    intro x y hy
    obtain ⟨k, -, rfl⟩ := List.mem_map.mp hy
    exact nearRing_nonneg _ _ _ _ _ _
  have kn := hQd.sum a ha G hGm (fun φ l => by
      have : spotted spots R φ (l + 2 * π) ↔ spotted spots R φ l := by simp only [spotted, greatCircle_periodic]
      simp only [hG, this]) 1
    (fun φ l => abs_le.mpr ⟨by linarith [(hGr φ l).1], (hGr φ l).2⟩) _ ri1 (fun x => List.sum_nonneg (hnn x))
    (fun p => G (gd.lat p) (gd.lon p)) (fun p => abs_le.mpr ⟨by linarith [(hGr (gd.lat p) (gd.lon p)).1], (hGr _ _).2⟩)
    (fun p x hd => by
      by_cases hno : ∀ k ∈ K, ρ < |greatCircle k.1 k.2.1 x.2 x.1 - k.2.2|
      · have := spotted_const harea R ρ x.2 x.1 (gd.lat p) (gd.lon p) hd hno
        simp only [hG, this, sub_self, abs_zero]
        exact List.sum_nonneg (hnn x)
      · push Not at hno
        obtain ⟨k, hk, hk'⟩ := hno
        have h2 : (1 : ℝ) ∈ K.map fun k => nearRing k.1 k.2.1 k.2.2 ρ x.2 x.1 :=
          List.mem_map.mpr ⟨k, hk, by unfold nearRing; rw [if_pos hk']⟩
        refine le_trans ?_ (List.single_le_sum (hnn x) _ h2)
        have h3 := hGr (gd.lat p) (gd.lon p)
        have h4 := hGr x.2 x.1
        rw [abs_le]; constructor <;> linarith)
  set S := ∑ p, a p * G (gd.lat p) (gd.lon p) with hS
  have hS0 : 0 ≤ S := Finset.sum_nonneg fun p _ => mul_nonneg (ha0 p) (hGr _ _).1
  have hS1 : S ≤ 1 := by
    rw [← hone]
    exact Finset.sum_le_sum fun p _ => mul_le_of_le_one_right (ha0 p) (hGr _ _).2
  change |S - sphereInt G / (4 * π)| ≤ _
  have e1 : S - sphereInt G / (4 * π) = (4 * π * κ * S - sphereInt G) / (4 * π) + (1 - κ) * S := by field_simp; ring
  rw [e1]
  refine (abs_add_le _ _).trans ?_
  rw [abs_div, abs_of_pos (by positivity : 0 < 4 * π), abs_mul (1 - κ), abs_of_nonneg hS0]
  have h1 : |4 * π * κ * S - sphereInt G| / (4 * π) ≤ spots.length * ρ + ε := by
    rw [div_le_iff₀ (by positivity)]
    rw [hlen] at ri2
    linarith
  have h2 : |1 - κ| * S ≤ ε := (mul_le_of_le_one_right (abs_nonneg _) hS1).trans hκ
  linarith

open Classical in
/-- The surface fraction of one spot. -/
theorem spottedShare_one (s : StarSpot) (R a : ℝ) (hR : 0 < R) (ha : s.area = .fin a) (h0 : 0 ≤ a) (h1 : a ≤ 4 * π * R ^ 2) :
    spottedShare [s] R = a / (4 * π * R ^ 2) := by
  have hp := pi_pos
  have hmem := (capArg_mem (a := a) hR).mpr ⟨h0, h1⟩
  set z := 1 - a / (2 * π * R ^ 2) with hz
  set h : ℝ → ℝ := fun x => if z < x then 1 else 0 with hh
  have hm : Measurable h := Measurable.ite (measurableSet_lt measurable_const measurable_id) measurable_const measurable_const
  have hb0 : ∀ x, 0 ≤ h x := fun x => by rw [hh]; simp only; split_ifs <;> norm_num
  have hb1 : ∀ x, h x ≤ 1 := fun x => by rw [hh]; simp only; split_ifs <;> norm_num
  have e : (fun φ l => if spotted [s] R φ l then (1 : ℝ) else 0) =
      fun φ l => h (sin s.lat * sin φ + cos s.lat * cos φ * cos (s.lon - l)) := by
    funext φ l
    have : spotted [s] R φ l ↔ z < sin s.lat * sin φ + cos s.lat * cos φ * cos (s.lon - l) := by
      unfold spotted
      simp only [List.mem_singleton, exists_eq_left, ha, Fl.fin_inj, exists_eq_left']
      rw [← hz, greatCircle_eq]
      constructor
      · intro h
        by_contra hc
        rw [not_lt] at hc
        exact absurd h (not_lt.mpr (arccos_le_arccos hc))
      · exact fun h => arccos_lt_arccos hmem.1 h (cosExpr_mem _ _ _ _).2
    simp only [hh, this]
  have hle : -(π / 2) ≤ arcsin z := neg_pi_div_two_le_arcsin z
  have hle' : arcsin z ≤ π / 2 := arcsin_le_pi_div_two z
  have hint : ∫ φ in (-(π / 2))..(π / 2), h (sin φ) * cos φ = 1 - z := by
    have e2 : ∫ φ in (-(π / 2))..(π / 2), h (sin φ) * cos φ = ∫ φ in (-(π / 2))..(π / 2), (Set.Ioc (arcsin z) (π / 2)).indicator cos φ := by
      refine intervalIntegral.integral_congr_ae (Filter.Eventually.of_forall fun φ hφ => ?_)
      rw [Set.uIoc_of_le (by linarith)] at hφ
      have hφ' : φ ∈ Set.Icc (-(π / 2)) (π / 2) := ⟨hφ.1.le, hφ.2⟩
      have h3 : z < sin φ ↔ arcsin z < φ := by rw [← arcsin_lt_iff_lt_sin hmem hφ']
      by_cases h4 : z < sin φ
      · simp only [hh, if_pos h4, one_mul]
        rw [Set.indicator_of_mem (show φ ∈ Set.Ioc (arcsin z) (π / 2) from ⟨h3.mp h4, hφ.2⟩)]
      · simp only [hh, if_neg h4, zero_mul]
        rw [Set.indicator_of_notMem (show φ ∉ Set.Ioc (arcsin z) (π / 2) from fun h5 => h4 (h3.mpr h5.1))]
    rw [e2, intervalIntegral.integral_of_le (by linarith), setIntegral_indicator measurableSet_Ioc,
      Set.inter_eq_right.mpr (Set.Ioc_subset_Ioc_left hle), ← intervalIntegral.integral_of_le hle', integral_cos,
      sin_pi_div_two, sin_arcsin hmem.1 hmem.2]
  unfold spottedShare
  rw [e, zonal_integral h hm 1 hb0 hb1, hint, hz]
  field_simp
  ring

/-- **C104** Whatever spots there are – overlapping or not – the coverage that `get_coverage` reports differs from the fraction of the
surface that lies in at least one spot by at most the stated bound: on rectangular grids `k(δ/2 + π/nlon) + 2(1 - cos(δ/2))` with
`δ = π/(nlat-1)` and `k` the number of spots; on spiral grids `k ρ + 4F/n` for every Fibonacci number `F`, where `ρ = π√(F/n) + 4π/F`.
For a single spot the true fraction is `area/(4πR²)`. -/
theorem C104_union_coverage (spots : List StarSpot) (R : ℝ) (hR : 0 < R) (hs : ∀ s ∈ spots, FittingSpot s R) :
    (∀ nlat nlon : ℕ, 3 ≤ nlat → 1 ≤ nlon → ∃ v : ℝ, (SpotCollection.new spots (.rect nlat nlon)).coverage R = .ok (.fin v) ∧
      |v - spottedShare spots R| ≤ spots.length * (π / (nlat - 1) / 2 + π / nlon) + 2 * (1 - cos (π / (nlat - 1) / 2))) ∧
    (∀ n j : ℕ, 1 ≤ n → ∃ v : ℝ, (SpotCollection.new spots (.spiral n)).coverage R = .ok (.fin v) ∧
      |v - spottedShare spots R| ≤ spots.length * (π * √(Nat.fib (j + 1) / n) + 4 * π / Nat.fib (j + 1)) +
        4 * Nat.fib (j + 1) / n) ∧
    (∀ s a, spots = [s] → s.area = .fin a → spottedShare spots R = a / (4 * π * R ^ 2)) := by
  refine ⟨fun nlat nlon h1 h2 => ?_, fun n j h1 => ?_, ?_⟩
  · refine quad_coverage _ (quad_rect nlat nlon h1 h2) ?_ spots R hR hs
    rw [abs_of_nonneg (by linarith [cos_le_one (π / ((nlat : ℝ) - 1) / 2)])]
  · obtain ⟨v, e, hv⟩ := quad_coverage _ (quad_spiral n j h1) (by rw [sub_self, abs_zero]; positivity) spots R hR hs
    refine ⟨v, e, hv.trans (le_of_eq ?_)⟩
    unfold spiralReach
    ring
  · rintro s a rfl ha
    obtain ⟨⟨a', h1, h2, h3⟩, -⟩ := hs s (List.mem_singleton.mpr rfl)
    rw [ha, Fl.fin_inj] at h1
    subst h1
    exact spottedShare_one s R a hR ha h2 h3

/-- **C104** The coverage measured on finer and finer spiral grids tends to the true one. -/
theorem C104_spiral_coverage_converges (spots : List StarSpot) (R : ℝ) (hR : 0 < R) (hs : ∀ s ∈ spots, FittingSpot s R) (v : ℕ → ℝ)
    (hv : ∀ n, (SpotCollection.new spots (.spiral (n + 1))).coverage R = .ok (.fin (v n))) :
    Filter.Tendsto v Filter.atTop (nhds (spottedShare spots R)) := by
  rw [Metric.tendsto_atTop]
  intro η hη
  obtain ⟨j, N, hN⟩ := spiral_fine (η / (spots.length + 2)) (by positivity)
  refine ⟨N, fun n hn => ?_⟩
  obtain ⟨f1, f2⟩ := hN (n + 1) (by omega)
  obtain ⟨w, e, hw⟩ := quad_coverage _ (quad_spiral (n + 1) j (by omega)) (by rw [sub_self, abs_zero]; positivity) spots R hR hs
  have hwv : w = v n := Fl.fin.inj (Except.ok.inj (e.symm.trans (hv n)))
  subst hwv
  rw [Real.dist_eq]
  refine hw.trans_lt ?_
  have hk : (0 : ℝ) ≤ spots.length := by positivity
  have h1 : (spots.length : ℝ) * spiralReach (n + 1) j ≤ spots.length * (η / (spots.length + 2)) :=
    mul_le_mul_of_nonneg_left f1.le hk
  have h2 : spots.length * (η / (spots.length + 2)) + 2 * (η / ((spots.length : ℝ) + 2)) = η := by field_simp
  linarith

/-- Non-trivial instance: two concentric spots of areas 1 and 1 on a star of radius 1 – fully overlapping – on spiral grids. -/
example (v : ℕ → ℝ) (hv : ∀ n, (SpotCollection.new [sampleSpot (.spiral 1), sampleSpot (.spiral 2)] (.spiral (n + 1))).coverage 1 = .ok (.fin (v n))) :
    Filter.Tendsto v Filter.atTop (nhds (1 / (4 * π))) := by
  have hf : ∀ g, FittingSpot (sampleSpot g) 1 := fun g =>
    ⟨⟨1, rfl, zero_le_one, by nlinarith [pi_gt_three]⟩, ⟨5, rfl, by norm_num⟩⟩
  have h1 := C104_spiral_coverage_converges [sampleSpot (.spiral 1), sampleSpot (.spiral 2)] 1 one_pos (by
    intro s hs
    rcases List.mem_cons.mp hs with rfl | hs
    · exact hf _
    · rw [List.mem_singleton] at hs; subst hs; exact hf _) v hv
  have h2 := (C104_union_coverage [sampleSpot (.spiral 1)] 1 one_pos (by
    intro s hs; rw [List.mem_singleton] at hs; subst hs; exact hf _)).2.2 _ 1 rfl rfl
  have e : spottedShare [sampleSpot (.spiral 1), sampleSpot (.spiral 2)] 1 = spottedShare [sampleSpot (.spiral 1)] 1 := by
    unfold spottedShare spotted
    congr 2
    funext φ l
    simp [sampleSpot, StarSpot.new]
  rw [e, h2] at h1
  simpa using h1

end Vsm
