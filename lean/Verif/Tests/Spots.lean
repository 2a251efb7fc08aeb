import Verif.Props.SpotGeom
import Verif.Props.SpotAge
import Verif.Props.SpotFraction
import Verif.Props.SurfaceMap
import Verif.Props.Grid
import Verif.Model.Random
import Mathlib.Analysis.Real.Pi.Bounds

/-!
# The project's own tests as statements about the model

Mirrors test/test_spots.py; see DESIGN.md, section 5, for what is left out.
-/

noncomputable section
namespace Vsm
namespace Tests
open Real Np Spec

/-- `init_test_spot()` (test_spots.py:15-47). -/
def initTestSpot : StarSpot :=
  StarSpot.new (Grid.deg 0) (Grid.deg 0) (500 * MSH) (.fin (400 * MSH)) 2700 2500 (.fin 5) true 0 0 (.spiral 1000)

theorem MSH_pos : 0 < MSH := by unfold MSH; positivity

theorem cos_one_degree : cos (Grid.deg 1) ≤ 0.99986 := by
  have h1 := pi_gt_d6
  have h2 := pi_lt_d6
  have hx : |Grid.deg 1| ≤ 1 := by unfold Grid.deg; rw [abs_of_pos (by positivity)]; linarith
  have h := (abs_le.mp (cos_bound hx)).2
  have e : |Grid.deg 1| = π / 180 := by unfold Grid.deg; rw [abs_of_pos (by positivity)]; ring
  have e' : Grid.deg 1 = π / 180 := by unfold Grid.deg; ring
  rw [e, e'] at h
  rw [e']
  have h3 : (3.14 / 180) ^ 2 ≤ (π / 180) ^ 2 := pow_le_pow_left₀ (by norm_num) (by linarith) 2
  have h4 : (π / 180) ^ 4 ≤ (3.15 / 180) ^ 4 := pow_le_pow_left₀ (by positivity) (by linarith) 4
  norm_num at h3 h4 ⊢
  linarith

theorem near_antipode {φ l : ℝ} (h : cos φ * cos l ≤ -0.99986) : Grid.deg 179 ≤ Helpers.haversine (Grid.deg 0) (Grid.deg 0) φ l := by
  have hp := pi_pos
  rw [haversine_eq, greatCircle_eq]
  have e : Grid.deg 179 = arccos (-(cos (Grid.deg 1))) := by
    rw [arccos_neg, arccos_cos (by unfold Grid.deg; positivity) (by unfold Grid.deg; linarith)]
    unfold Grid.deg; ring
  rw [e]
  apply arccos_le_arccos
  simp only [Grid.deg, zero_mul, sin_zero, cos_zero, one_mul, zero_add, zero_sub, cos_neg]
  have := cos_one_degree
  unfold Grid.deg at this
  rw [one_mul] at this
  linarith

/-- Distances from `(0°,0°)` to points off the equator are strictly between 0° and 180°. -/
theorem off_equator {φ l : ℝ} (h1 : -(π / 2) ≤ φ) (h2 : φ ≤ π / 2) (h : φ ≠ 0) :
    0 < Helpers.haversine (Grid.deg 0) (Grid.deg 0) φ l ∧ Helpers.haversine (Grid.deg 0) (Grid.deg 0) φ l < Grid.deg 180 := by
  have hp := pi_pos
  have c0 : 0 ≤ cos φ := cos_nonneg_of_mem_Icc ⟨h1, h2⟩
  have c1 : cos φ < 1 := lt_of_le_of_ne (cos_le_one _) fun e => h ((cos_eq_one_iff_of_lt_of_lt (by linarith) (by linarith)).mp e)
  have u := cos_le_one l
  have v := neg_one_le_cos l
  have a : cos φ * cos l < 1 := lt_of_le_of_lt (mul_le_of_le_one_right c0 u) c1
  have b : -1 < cos φ * cos l := lt_of_lt_of_le (neg_lt_neg c1) (by nlinarith)
  rw [haversine_eq, greatCircle_eq]
  simp only [Grid.deg, zero_mul, sin_zero, cos_zero, one_mul, zero_add, zero_sub, cos_neg]
  refine ⟨arccos_pos.mpr a, ?_⟩
  have e : (180 : ℝ) * (π / 180) = π := by ring
  rw [e]
  refine lt_of_le_of_ne (arccos_le_pi _) fun e => ?_
  rw [arccos_eq_pi] at e
  linarith

theorem cos_mod2pi (x : ℝ) : cos (Grid.mod2pi x) = cos x := by
  unfold Grid.mod2pi
  rw [show x - 2 * π * ⌊x / (2 * π)⌋ = x - ⌊x / (2 * π)⌋ * (2 * π) by ring, cos_sub_int_mul_two_pi]

theorem spiral_even_dist (k : ℕ) (p : (Grid.spiral (2 * k)).Pix) : 0 < Helpers.haversine (Grid.deg 0) (Grid.deg 0) ((Grid.spiral (2 * k)).lat p) ((Grid.spiral (2 * k)).lon p) ∧
    Helpers.haversine (Grid.deg 0) (Grid.deg 0) ((Grid.spiral (2 * k)).lat p) ((Grid.spiral (2 * k)).lon p) < Grid.deg 180 := by
  refine off_equator ?_ ?_ fun e => ?_
  · rw [spiral_lat_eq]; exact neg_pi_div_two_le_arcsin _
  · rw [spiral_lat_eq]; exact arcsin_le_pi_div_two _
  · have h := sin_spiral_lat (n := 2 * k) p
    rw [e, sin_zero] at h
    have hk : (0 : ℝ) < (2 * k : ℕ) := by exact_mod_cast Fin.pos p
    have h' : (2 * (p : ℕ) + 1 : ℝ) = (2 * k : ℕ) := by
      have h2 : 2 * ((p : ℕ) + 0.5) / ((2 * k : ℕ) : ℝ) = 1 := by linarith
      rw [div_eq_one_iff_eq hk.ne'] at h2; linarith
    have h'' : 2 * (p : ℕ) + 1 = 2 * k := by exact_mod_cast h'
    omega

/-- `test_spot_init` (test_spots.py:50-63): the three assertions on the distances, with the tolerance of 1°, and the comparison of the
grids. -/
example : let spot := initTestSpot.setGridmaker (.spiral 20000); let other := initTestSpot.setGridmaker (.rect (500 + 1) 1000);
    (∀ p, 0 < spot.r.2 p ∧ spot.r.2 p < Grid.deg 180) ∧ (∃ p, Grid.deg 179 ≤ spot.r.2 p) ∧ Grid.ne spot.grid other.grid = .ok true := by
  refine ⟨fun p => ?_, ⟨(⟨10031, by norm_num⟩ : Fin 20000), ?_⟩, rfl⟩
  · exact spiral_even_dist 10000 p
  · refine near_antipode ?_
    have hs := sin_spiral_lat (n := 20000) ⟨10031, by norm_num⟩
    have hl : Grid.lat (.spiral 20000) (⟨10031, by norm_num⟩ : Fin 20000) = arcsin _ := spiral_lat_eq (n := 20000) ⟨10031, by norm_num⟩
    set φ := Grid.lat (.spiral 20000) (⟨10031, by norm_num⟩ : Fin 20000) with hφ
    have c0 : 0 ≤ cos φ := by rw [hl]; exact cos_arcsin_nonneg _
    have hcos : 0.99999 ≤ cos φ := by
      have := sin_sq_add_cos_sq φ
      rw [hs] at this
      norm_num at this
      by_contra hc
      push Not at hc
      nlinarith
    have h5 : (2.2360679 : ℝ) < √5 := by rw [lt_sqrt (by norm_num)]; norm_num
    have h6 : √5 < (2.2360680 : ℝ) := by rw [sqrt_lt' (by norm_num)]; norm_num
    have hp := pi_lt_d2
    have hp0 := pi_pos
    have e5 : 1 / (0.5 * (1 + √5)) = (√5 - 1) / 2 := by
      rw [div_eq_div_iff (by positivity) (by norm_num)]
      nlinarith [mul_self_sqrt (show (0 : ℝ) ≤ 5 by norm_num)]
    have hlon : cos (Grid.lon (.spiral 20000) (⟨10031, by norm_num⟩ : Fin 20000)) = -cos (2 * π * (10031 * ((√5 - 1) / 2) - 6199.5)) := by
      show cos (Grid.mod2pi (2 * π * ((10031 : ℕ) : ℝ) / (0.5 * (1 + √5)))) = _
      rw [cos_mod2pi, div_eq_mul_one_div, e5, ← cos_add_pi]
      rw [show 2 * π * (10031 * ((√5 - 1) / 2) - 6199.5) + π = 2 * π * ((10031 : ℕ) : ℝ) * ((√5 - 1) / 2) - (6199 : ℕ) * (2 * π) by push_cast; ring,
        cos_sub_nat_mul_two_pi]
    have hδ : |2 * π * (10031 * ((√5 - 1) / 2) - 6199.5)| ≤ 0.01 := by
      have d1 : -0.0015 ≤ 10031 * ((√5 - 1) / 2) - 6199.5 := by linarith
      have d2 : 10031 * ((√5 - 1) / 2) - 6199.5 ≤ 0 := by linarith
      rw [abs_le]
      constructor <;> nlinarith
    have hc := one_sub_sq_div_two_le_cos (x := 2 * π * (10031 * ((√5 - 1) / 2) - 6199.5))
    have hsq := sq_le_sq' (abs_le.mp hδ).1 (abs_le.mp hδ).2
    show cos φ * cos (Grid.lon (.spiral 20000) (⟨10031, by norm_num⟩ : Fin 20000)) ≤ _
    rw [hlon]
    set y := cos (2 * π * (10031 * ((√5 - 1) / 2) - 6199.5))
    have : 0.99995 ≤ y := by norm_num at hsq ⊢; linarith
    have := mul_le_mul hcos this (by norm_num) c0
    norm_num at this ⊢
    linarith

/-- `test_spot_radius` (test_spots.py:75-86). -/
example : initTestSpot.radius = .fin √(400 * MSH / π) := by
  have := MSH_pos
  show Fl.sqrt (.fin (400 * MSH) / .fin π) = _
  rw [Fl.fin_div pi_ne_zero, Fl.sqrt_fin (by positivity)]

/-- `test_spot_angular_radius` (test_spots.py:89-108). -/
example : StarSpot.angularRadius { initTestSpot with area := .fin (4 * π * 1000 ^ 2) } 1000 = .fin (Grid.deg 180) ∧
    StarSpot.angularRadius { initTestSpot with area := .fin (0.5 * (4 * π * 1000 ^ 2)) } 1000 = .fin (Grid.deg 90) := by
  have hp := pi_pos
  constructor
  · rw [angularRadius_fin _ (by norm_num) rfl, show 1 - 4 * π * 1000 ^ 2 / (2 * π * 1000 ^ 2) = -1 by field_simp; norm_num,
      Fl.arccos_fin (by norm_num) (by norm_num), arccos_neg_one]
    unfold Grid.deg; congr 1; ring
  · rw [angularRadius_fin _ (by norm_num) rfl, show 1 - 0.5 * (4 * π * 1000 ^ 2) / (2 * π * 1000 ^ 2) = 0 by field_simp; norm_num,
      Fl.arccos_fin (by norm_num) (by norm_num), arccos_zero]
    unfold Grid.deg; congr 1; ring

theorem full_radius : StarSpot.angularRadius { initTestSpot with area := .fin (4 * π * 1000 ^ 2) } 1000 = .fin (Grid.deg 180) := by
  have hp := pi_pos
  rw [angularRadius_fin _ (by norm_num) rfl, show 1 - 4 * π * 1000 ^ 2 / (2 * π * 1000 ^ 2) = -1 by field_simp; norm_num,
    Fl.arccos_fin (by norm_num) (by norm_num), arccos_neg_one]
  unfold Grid.deg; congr 1; ring

/-- `test_spot_map_pixels` (test_spots.py:111-131), the cases without penumbra and without umbra.  The last two assertions, on sums over
all the pixels, are not evaluated here. -/
example : (∀ p, StarSpot.umbraMask { initTestSpot with area := .fin (4 * π * 1000 ^ 2), ratio := .fin 1 } 1000 p) ∧
    (∀ p, StarSpot.penumbraMask { initTestSpot with area := .fin (4 * π * 1000 ^ 2), ratio := .pinf } 1000 p ∧
      ¬ StarSpot.umbraMask { initTestSpot with area := .fin (4 * π * 1000 ^ 2), ratio := .pinf } 1000 p) := by
  have hr : ∀ p : (Grid.spiral 1000).Pix, 0 < initTestSpot.r.2 p ∧ initTestSpot.r.2 p < Grid.deg 180 := fun p => spiral_even_dist 500 p
  have hne : ¬ (2700 : ℝ) = 2500 := by norm_num
  refine ⟨fun p => ?_, fun p => ⟨?_, ?_⟩⟩
  · show (if (2700 : ℝ) = 2500 then _ else Fl.fin (initTestSpot.r.2 p) < _ / Fl.sqrt (.fin 1))
    rw [if_neg hne, show StarSpot.angularRadius { initTestSpot with area := .fin (4 * π * 1000 ^ 2), ratio := .fin 1 } 1000 = .fin (Grid.deg 180) from full_radius, Fl.sqrt_fin (by norm_num), sqrt_one, Fl.fin_div one_ne_zero, div_one, Fl.fin_lt]
    exact (hr p).2
  · show Fl.fin (initTestSpot.r.2 p) < _
    rw [show StarSpot.angularRadius { initTestSpot with area := .fin (4 * π * 1000 ^ 2), ratio := .pinf } 1000 = .fin (Grid.deg 180) from full_radius, Fl.fin_lt]
    exact (hr p).2
  · show ¬ (if (2700 : ℝ) = 2500 then _ else Fl.fin (initTestSpot.r.2 p) < _ / Fl.sqrt .pinf)
    rw [if_neg hne, show StarSpot.angularRadius { initTestSpot with area := .fin (4 * π * 1000 ^ 2), ratio := .pinf } 1000 = .fin (Grid.deg 180) from full_radius]
    show ¬ Fl.fin (initTestSpot.r.2 p) < .fin 0
    rw [Fl.fin_lt]; exact not_lt.mpr (hr p).1.le

/-- `test_spot_surface_fraction` (test_spots.py:156-169).  At the disk centre the test wants `0.02` within 1 %; proved here is only an upper
bound of that size.  On the far side the result is 0. -/
example : (∃ v, StarSpot.surfaceFraction { initTestSpot with area := .fin (0.01 * (4 * π * 1000 ^ 2)) } (Grid.deg 0) (Grid.deg 0) 1000 1001 = .fin v ∧
      v ≤ 0.0204) ∧
    StarSpot.surfaceFraction { initTestSpot with area := .fin (0.01 * (4 * π * 1000 ^ 2)) } (Grid.deg 0) (Grid.deg 180) 1000 1001 = .fin 0 := by
  have hp := pi_pos
  have hp3 := pi_gt_three
  have hθ : StarSpot.angularRadius { initTestSpot with area := .fin (0.01 * (4 * π * 1000 ^ 2)) } 1000 = .fin (arccos 0.98) := by
    rw [angularRadius_fin _ (by norm_num) rfl, show 1 - 0.01 * (4 * π * 1000 ^ 2) / (2 * π * 1000 ^ 2) = 0.98 by field_simp; norm_num,
      Fl.arccos_fin (by norm_num) (by norm_num)]
  have h0 := arccos_nonneg 0.98
  have h1 : arccos 0.98 ≤ 0.2007 := by
    rw [← arccos_cos (x := 0.2007) (by norm_num) (by linarith)]
    apply arccos_le_arccos
    have := (abs_le.mp (cos_bound (x := 0.2007) (by norm_num [abs_le]))).2
    rw [abs_of_pos (by norm_num)] at this
    norm_num at this ⊢
    linarith
  constructor
  · obtain ⟨v, hv, -, h⟩ := C96_surface_fraction_partial _ (Grid.deg 0) (Grid.deg 0) 1000 (arccos 0.98) 1001 hθ h0 (by norm_num)
    refine ⟨v, hv, h.trans ?_⟩
    have := pow_le_pow_left₀ h0 h1 2
    norm_num at this ⊢
    linarith
  · rw [surfaceFraction_eq _ _ _ _ _ _ hθ]
    have e : greatCircle (Grid.deg 0) (Grid.deg 180) (Grid.deg 0) (Grid.deg 0) = π := by
      rw [greatCircle_eq]
      simp only [Grid.deg, zero_mul, sin_zero, cos_zero, one_mul, zero_add, sub_zero, mul_zero]
      rw [show (180 : ℝ) * (π / 180) = π by ring, cos_pi, arccos_neg_one]
    show Fl.fin (trapzR ((Np.linspace (-(π / 2)) (π / 2) 1001).map fun c => chord (arccos 0.98) (greatCircle (Grid.deg 0) (Grid.deg 180) (Grid.deg 0) (Grid.deg 0)) c * 2) _ / _) = _
    rw [e, Np.linspace, List.map_map, trapzR_range']
    rw [Finset.sum_eq_zero, zero_div]
    have hz : ∀ i : ℕ, i ≤ 1000 → chord (arccos 0.98) π (Np.linspaceAt (-(π / 2)) (π / 2) 1001 i) = 0 := by
      intro i hi
      have hi' : (i : ℝ) ≤ 1000 := by exact_mod_cast hi
      have hle : Np.linspaceAt (-(π / 2)) (π / 2) 1001 i ≤ π / 2 := by
        rw [Np.linspaceAt, if_neg (by norm_num)]
        push_cast
        nlinarith
      set c := Np.linspaceAt (-(π / 2)) (π / 2) 1001 i
      unfold chord
      rw [max_eq_left, sqrt_zero, mul_zero]
      nlinarith
    intro i hi
    rw [Finset.mem_range] at hi
    simp only [Function.comp, hz i (by omega), hz (i + 1) (by omega)]
    ring

theorem live_msh {a m g d : ℝ} (b : Bool) (ha : 0 < a) (hm : 0 < m) (h : b = false → a ≤ m) (hg : 0 ≤ g) (hd : 0 ≤ d) :
    Live { initTestSpot with area := .fin (a * MSH), areaMax := m * MSH, growthRate := g, decayRate := d * MSH, isGrowing := b } (a * MSH) :=
  ⟨rfl, mul_pos ha MSH_pos, mul_pos hm MSH_pos, fun h' => mul_le_mul_of_nonneg_right (h h') MSH_pos.le, hg, mul_nonneg hd MSH_pos.le⟩

/-- The spot of `test_spot_age` with current area `a` MSH. -/
def ageSpot (a : ℝ) (growing : Bool) : StarSpot :=
  { initTestSpot with area := .fin (a * MSH), areaMax := 100 * MSH, growthRate := 1, decayRate := 10 * MSH, isGrowing := growing }

theorem time_to_max (a : ℝ) : timeToMax (100 * MSH) (a * MSH) 1 = Real.log (100 / a) / Real.log 2 := by
  have := MSH_pos
  unfold timeToMax
  rw [mul_div_mul_right _ _ this.ne']; norm_num

theorem doubles (a : ℝ) (ha : 0 < a) (h : a < 50) : (ageSpot a true).age 1 = ageSpot (2 * a) true := by
  have hl : 0 < Real.log 2 := log_pos (by norm_num)
  rw [age_grow (s := ageSpot a true) (live_msh true ha (by norm_num) (by simp) (by norm_num) (by norm_num)) rfl (by simp [ageSpot])]
  rw [if_pos]
  · simp only [ageSpot, mul_one]
    rw [show (1 : ℝ) + 1 = 2 by norm_num, exp_log (by norm_num)]
    congr 2; ring
  · show (1 : ℝ) < timeToMax (100 * MSH) (a * MSH) 1
    rw [time_to_max a, lt_div_iff₀ hl, one_mul]
    apply log_lt_log (by norm_num)
    rw [lt_div_iff₀ ha]; linarith

theorem dies (a t : ℝ) (ha : 6.25 < a) (ht : 14 ≤ t) : (ageSpot a true).age t = ageSpot 0 false := by
  have hM := MSH_pos
  have hl : 0 < Real.log 2 := log_pos (by norm_num)
  have h4 : timeToMax (100 * MSH) (a * MSH) 1 ≤ 4 := by
    rw [time_to_max a, div_le_iff₀ hl, show (4 : ℝ) * Real.log 2 = Real.log (2 ^ 4) by rw [log_pow]; norm_num]
    have : 0 < a := by linarith
    refine log_le_log (by positivity) ?_
    rw [div_le_iff₀ this]; norm_num; linarith
  rw [age_grow (s := ageSpot a true) (live_msh true (by linarith) (by norm_num) (by simp) (by norm_num) (by norm_num)) rfl (by simp [ageSpot]), if_neg]
  · have e : max 0 ((ageSpot a true).areaMax - (t - timeToMax (ageSpot a true).areaMax (a * MSH) (ageSpot a true).growthRate) * (ageSpot a true).decayRate) = 0 * MSH := by
      rw [zero_mul, max_eq_left]
      show 100 * MSH - (t - timeToMax (100 * MSH) (a * MSH) 1) * (10 * MSH) ≤ 0
      nlinarith
    rw [e]; rfl
  · show ¬ t < timeToMax (100 * MSH) (a * MSH) 1
    linarith

theorem age_setGridmaker (s : StarSpot) (g : Grid) (t : ℝ) : (s.setGridmaker g).age t = (s.age t).setGridmaker g := by
  simp only [StarSpot.age_eq, StarSpot.setGridmaker]
  split_ifs <;> rfl

/-- `test_spot_age` (test_spots.py:172-211). -/
example : (ageSpot 10 true).age 1 = ageSpot 20 true ∧ (ageSpot 20 true).age 1 = ageSpot 40 true ∧ (ageSpot 40 true).age 1 = ageSpot 80 true ∧
    ((ageSpot 80 true).age 1).isGrowing = false ∧
    (ageSpot 100 false).age 1 = ageSpot 90 false ∧ (ageSpot 90 false).age (9 * 1) = ageSpot 0 false ∧
    (ageSpot 10 true).age (20 * 1) = ageSpot 0 false := by
  have hM := MSH_pos
  have hl : 0 < Real.log 2 := log_pos (by norm_num)
  refine ⟨?_, ?_, ?_, ?_, ?_, ?_, ?_⟩
  · rw [doubles 10 (by norm_num) (by norm_num)]; norm_num
  · rw [doubles 20 (by norm_num) (by norm_num)]; norm_num
  · rw [doubles 40 (by norm_num) (by norm_num)]; norm_num
  · rw [age_grow (s := ageSpot 80 true) (live_msh true (by norm_num) (by norm_num) (by simp) (by norm_num) (by norm_num)) rfl (by simp [ageSpot]), if_neg]
    show ¬ (1 : ℝ) < timeToMax (100 * MSH) (80 * MSH) 1
    rw [time_to_max 80, not_lt, div_le_one hl]
    exact log_le_log (by norm_num) (by norm_num)
  · rw [age_decay (s := ageSpot 100 false) (a := 100 * MSH) rfl rfl, if_neg (by simp only [ageSpot]; nlinarith)]
    simp only [ageSpot]; congr 2; ring
  · rw [age_decay (s := ageSpot 90 false) (a := 90 * MSH) rfl rfl, if_neg (by simp only [ageSpot]; nlinarith)]
    simp only [ageSpot]; congr 2; ring
  · exact dies 10 (20 * 1) (by norm_num) (by norm_num)

/-- `test_init_spot_collection`, `test_spot_collection_add_spot` (test_spots.py:214-248). -/
example : let c := SpotCollection.new (List.replicate 4 initTestSpot) (.rect 300 600); let c1 := c.addSpot [initTestSpot];
    let c2 := c1.addSpot (List.replicate 4 initTestSpot); Grid.eq c.grid (.rect 300 600) = .ok true ∧ (∀ s ∈ c.spots, Grid.eq s.grid c.grid = .ok true) ∧
    c.spots.length = 4 ∧ c1.spots.length = 4 + 1 ∧ c2.spots.length = 2 * 4 + 1 ∧ ∀ s ∈ c2.spots, Grid.eq s.grid c2.grid = .ok true := by
  refine ⟨rfl, ?_, rfl, rfl, rfl, ?_⟩
  · intro s hs
    simp only [SpotCollection.new, SpotCollection.setGridmaker, List.mem_map] at hs
    obtain ⟨x, -, rfl⟩ := hs
    rfl
  · intro s hs
    simp only [SpotCollection.addSpot, SpotCollection.new, SpotCollection.setGridmaker, List.mem_append, List.mem_map] at hs
    rcases hs with (⟨x, -, rfl⟩ | ⟨x, -, rfl⟩) | ⟨x, -, rfl⟩ <;> rfl

/-- `test_spot_collection_clean_spotlist` (test_spots.py:251-267). -/
example : let bad (growing : Bool) : StarSpot := { initTestSpot with area := .fin (0 * MSH), isGrowing := growing };
    (SpotCollection.new (List.replicate 4 initTestSpot ++ [bad true]) (.rect 300 600)).clean.spots.length = 4 + 1 ∧
    (SpotCollection.new (List.replicate 4 initTestSpot ++ [bad false]) (.rect 300 600)).clean.spots.length = 4 := by
  simp [SpotCollection.new, SpotCollection.clean, SpotCollection.setGridmaker, initTestSpot, StarSpot.new, StarSpot.setGridmaker, List.replicate, List.filter]

/-- The test spot with one temperature for umbra and penumbra. -/
def flatSpot (t : ℝ) : StarSpot := { initTestSpot with teffUmbra := t, teffPenumbra := t }

/-- `test_spot_collection_map_pixels` (test_spots.py:270-291). -/
example : (∃ m : (Grid.rect 300 600).Pix → ℝ, SpotCollection.mapPixels id (SpotCollection.new [flatSpot 2500, flatSpot 2700] (.rect 300 600)) (0.15 * 695700) 3300 = .ok m ∧
      ∀ p, m p ≠ 2700) ∧
    SpotCollection.mapPixels id (SpotCollection.new [flatSpot 3500, flatSpot 3700] (.rect 300 600)) (0.15 * 695700) 3300 = .ok fun _ => 3300 := by
  have key : ∀ a b : ℝ, ∃ M : (Grid.rect 300 600).Pix → Prop, SpotCollection.mapPixels id (SpotCollection.new [flatSpot a, flatSpot b] (.rect 300 600)) (0.15 * 695700) 3300 =
      .ok fun p => SpotCollection.overlay id b b (M p) (M p) (SpotCollection.overlay id a a (M p) (M p) 3300) := by
    intro a b
    refine ⟨fun p => ((flatSpot a).setGridmaker (.rect 300 600)).penumbraMask (0.15 * 695700) p, ?_⟩
    have hu : ∀ t p, ((flatSpot t).setGridmaker (.rect 300 600)).umbraMask (0.15 * 695700) p =
        ((flatSpot a).setGridmaker (.rect 300 600)).penumbraMask (0.15 * 695700) p := by
      intro t p
      show (if t = t then _ else _) = _
      rw [if_pos rfl]; rfl
    have st : ∀ t cur, SpotCollection.mapStep id (0.15 * 695700) (.rect 300 600) ((flatSpot t).setGridmaker (.rect 300 600)) cur =
        .ok fun p => SpotCollection.overlay id t t (((flatSpot a).setGridmaker (.rect 300 600)).penumbraMask (0.15 * 695700) p)
          (((flatSpot a).setGridmaker (.rect 300 600)).penumbraMask (0.15 * 695700) p) (cur p) := by
      intro t cur
      refine (dif_pos (show ((flatSpot t).setGridmaker (.rect 300 600)).r.1 = Grid.rect 300 600 from rfl)).trans ?_
      congr 1
      funext p
      show SpotCollection.overlay id t t (((flatSpot t).setGridmaker (.rect 300 600)).umbraMask (0.15 * 695700) p) _ _ = _
      rw [hu t p]; rfl
    show ((SpotCollection.mapStep id (0.15 * 695700) (.rect 300 600) ((flatSpot a).setGridmaker (.rect 300 600)) (fun _ => 3300)).bind fun c =>
      (SpotCollection.mapStep id (0.15 * 695700) (.rect 300 600) ((flatSpot b).setGridmaker (.rect 300 600)) c).bind fun c => .ok c) = _
    rw [st a]
    show ((SpotCollection.mapStep id (0.15 * 695700) (.rect 300 600) ((flatSpot b).setGridmaker (.rect 300 600)) _).bind fun c => .ok c) = _
    rw [st b]
    rfl
  constructor
  · obtain ⟨M, h⟩ := key 2500 2700
    refine ⟨_, h, fun p => ?_⟩
    unfold SpotCollection.overlay
    by_cases hM : M p <;> norm_num [hM]
  · obtain ⟨M, h⟩ := key 3500 3700
    rw [h]
    congr 1
    funext p
    unfold SpotCollection.overlay
    by_cases hM : M p <;> norm_num [hM]

/-- `test_spot_collection_age` (test_spots.py:294-307). -/
example : let c := SpotCollection.new [ageSpot 10 true] (.rect 300 600); (c.spots.map (·.area)) = [.fin (10 * MSH)] ∧
    ((c.age 1).spots.map (·.area)) = [.fin (20 * MSH)] ∧ ((c.age 1).age (1 * 20)).spots = [] := by
  have hM := MSH_pos
  have e1 : ((ageSpot 10 true).setGridmaker (.rect 300 600)).age 1 = (ageSpot 20 true).setGridmaker (.rect 300 600) := by
    rw [age_setGridmaker, doubles 10 (by norm_num) (by norm_num)]; norm_num
  have k1 : ∀ a, 0 < a → ¬ (Fl.fin (a * MSH) ≤ .fin 0) := fun a ha => by rw [Fl.fin_le, not_le]; positivity
  have hc1 : (SpotCollection.new [ageSpot 10 true] (.rect 300 600)).age 1 = SpotCollection.new [ageSpot 20 true] (.rect 300 600) := by
    simp only [SpotCollection.new, SpotCollection.setGridmaker, SpotCollection.age, SpotCollection.clean, List.map_cons, List.map_nil, e1]
    rw [List.filter_cons_of_pos]
    · rfl
    · simp [ageSpot, StarSpot.setGridmaker]
  refine ⟨rfl, by rw [hc1]; rfl, ?_⟩
  rw [hc1]
  have e2 : ((ageSpot 20 true).setGridmaker (.rect 300 600)).age (1 * 20) = (ageSpot 0 false).setGridmaker (.rect 300 600) := by
    rw [age_setGridmaker, one_mul, dies 20 20 (by norm_num) (by norm_num)]
  simp only [SpotCollection.new, SpotCollection.setGridmaker, SpotCollection.age, SpotCollection.clean, List.map_cons, List.map_nil, e2]
  rw [List.filter_cons_of_neg]
  · rfl
  · simp [ageSpot, StarSpot.setGridmaker]

/-- `init_spot_generator()` (test_spots.py:310-327). -/
def initSpotGenerator : SpotGenerator :=
  { distAreaMean := 100 * MSH, distAreaLogsigma := 0.1, umbraTeff := 2500, penumbraTeff := 2700, growthRate := 0, decayRate := 0 * MSH
    initArea := 10 * MSH, distribution := .iso, coverage := 0, grid := .rect 300 600 }

/-- `test_spot_generator_init`, `_is_static` (test_spots.py:330-345). -/
example : Grid.eq initSpotGenerator.grid (.rect 300 600) = .ok true ∧ initSpotGenerator.isStatic ∧
    ¬ SpotGenerator.isStatic { initSpotGenerator with decayRate := 10 * MSH } := by
  have := MSH_pos
  refine ⟨rfl, zero_mul _, ?_⟩
  show ¬ 10 * MSH = 0
  positivity

/-- `test_spot_generator_mean_lifetime` (test_spots.py:348-357). -/
example : SpotGenerator.meanLifetime { initSpotGenerator with growthRate := 0.5, decayRate := 10 * MSH } =
    .fin (100 * MSH / (10 * MSH) - Real.log (10 * MSH / (100 * MSH)) / 0.5) := by
  have := MSH_pos
  have h : ¬ SpotGenerator.isStatic { initSpotGenerator with growthRate := 0.5, decayRate := 10 * MSH } := by
    show ¬ 10 * MSH = 0
    positivity
  rw [SpotGenerator.meanLifetime, if_neg h]
  show Fl.fin (100 * MSH) / Fl.fin (10 * MSH) - Fl.log (Fl.fin (10 * MSH) / .fin (100 * MSH)) / Fl.fin 0.5 = _
  rw [Fl.fin_div (by positivity), Fl.fin_div (by positivity), Fl.log_fin (by positivity), Fl.fin_div (by norm_num), Fl.fin_sub]

/-- `test_spot_generator_N_spots_to_birth` (test_spots.py:360-371). -/
example : SpotGenerator.nExpected { initSpotGenerator with decayRate := 10 * MSH, growthRate := 0.5 } 10 695700 = .fin 0 := by
  have hM := MSH_pos
  have h : ¬ SpotGenerator.isStatic { initSpotGenerator with decayRate := 10 * MSH, growthRate := 0.5 } := by
    show ¬ 10 * MSH = 0
    positivity
  have hl : Real.log (10 * MSH / (100 * MSH)) < 0 := by
    rw [mul_div_mul_right _ _ hM.ne']; exact log_neg (by norm_num) (by norm_num)
  have hL : SpotGenerator.meanLifetime { initSpotGenerator with decayRate := 10 * MSH, growthRate := 0.5 } =
      .fin (100 * MSH / (10 * MSH) - Real.log (10 * MSH / (100 * MSH)) / 0.5) := by
    rw [SpotGenerator.meanLifetime, if_neg h]
    show Fl.fin (100 * MSH) / Fl.fin (10 * MSH) - Fl.log (Fl.fin (10 * MSH) / .fin (100 * MSH)) / Fl.fin 0.5 = _
    rw [Fl.fin_div (by positivity), Fl.fin_div (by positivity), Fl.log_fin (by positivity), Fl.fin_div (by norm_num), Fl.fin_sub]
  have hL0 : 0 < 100 * MSH / (10 * MSH) - Real.log (10 * MSH / (100 * MSH)) / 0.5 := by
    have : 0 < 100 * MSH / (10 * MSH) := by positivity
    have : Real.log (10 * MSH / (100 * MSH)) / 0.5 < 0 := div_neg_of_neg_of_pos hl (by norm_num)
    linarith
  rw [SpotGenerator.nExpected, SpotGenerator.meanArea, if_neg h, hL]
  set L := 100 * MSH / (10 * MSH) - Real.log (10 * MSH / (100 * MSH)) / 0.5
  show Fl.fin (0 * 4 * π * 695700 ^ 2) / ((Fl.fin (100 * MSH) / Fl.fin 0.5 + Fl.fin (10 * MSH) / Fl.fin 0.5 + Fl.fin ((100 * MSH) ^ 2 / 2) / Fl.fin (10 * MSH)) / Fl.fin L) * Fl.fin 10 / Fl.fin L = _
  rw [Fl.fin_div (by norm_num), Fl.fin_div (by norm_num), Fl.fin_div (by positivity), Fl.fin_add, Fl.fin_add, Fl.fin_div hL0.ne', Fl.fin_div (by positivity),
    Fl.fin_mul, Fl.fin_div hL0.ne']
  simp

/-- `test_spot_generator_get_coordinates` (test_spots.py:374-388) for the unknown distribution, `test_spot_generator_generate_spots`
(:391-400), whatever the random numbers are. -/
example (d : SpotDraws 3) (k : ℕ) (h : ∀ i, 0 < d.ratios k i) :
    SpotGenerator.generate { initSpotGenerator with distribution := .other } 3 d = .error .valueError ∧
    ∃ l, initSpotGenerator.generate 3 d = .ok l ∧ l.length = 3 ∧ ∀ s ∈ l, s.area = .fin (10 * MSH) := by
  have hs : ¬ (0.1 : ℝ) < 0 := by norm_num
  have ha : ∃ f, SpotGenerator.acceptRatios d = some f := by
    classical
    unfold SpotGenerator.acceptRatios
    rw [dif_pos ⟨k, h⟩]; exact ⟨_, rfl⟩
  obtain ⟨f, hf⟩ := ha
  constructor
  · simp [SpotGenerator.generate, initSpotGenerator, hf, hs]
  · refine ⟨_, by simp only [SpotGenerator.generate, initSpotGenerator, hf, hs, if_false]; rfl, by simp, ?_⟩
    intro s hs
    simp only [List.mem_ofFn] at hs
    obtain ⟨i, rfl⟩ := hs
    rfl

/-- `test_spot_generator_generate_mature_spots` (test_spots.py:403-430), the refused fractions. -/
example (s : SpotGenerator) (draws : ℕ → SpotDraws 1 × Set.Ico (0 : ℝ) 1) : s.generateMature (-0.1) (0.15 * 695700) draws = .error .valueError ∧
    s.generateMature 1.1 (0.15 * 695700) draws = .error .valueError := by
  constructor <;> rw [SpotGenerator.generateMature, if_pos (by norm_num)]

end Tests
end Vsm
