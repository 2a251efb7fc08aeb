import Verif.Props.Projection
import Verif.Props.Circle
import Verif.Props.Grid
import Mathlib.Analysis.Real.Pi.Bounds

/-!
# The project's own tests as statements about the model

Mirrors test/test_coordinategrid.py and test/test_helpers.py; see DESIGN.md, section 5, for what is left out.
-/

noncomputable section
namespace Vsm
namespace Tests
open Real Np Helpers

/-- `test_rectangulargrid`, `test_coodinategrid_typeerror` (test_coordinategrid.py:11-27). -/
example : Grid.Obj.mkRect (.int 100) (.int 200) = .ok (.rect 100 200) ∧ Grid.Obj.mkRect (.int 100) .other = .error .typeError ∧
    Grid.Obj.mkRect .other (.int 200) = .error .typeError := ⟨rfl, rfl, rfl⟩

/-- `test_rectangulargrid_oned`, `_grid`, `_zeros` (test_coordinategrid.py:30-58). -/
example : (Grid.latAxis 100).length = 100 ∧ (Grid.lonAxis 200).length = 200 ∧ (Grid.rect 100 200).shape = [200, 100] ∧
    ∀ p, (Grid.rect 100 200).zeros p = 0 := by
  refine ⟨?_, ?_, rfl, fun _ => rfl⟩ <;> simp [Grid.latAxis, Grid.lonAxis]

/-- `test_rectangulargrid_eq`, `test_spiralgrid_eq` (test_coordinategrid.py:61-77, 132-141), without the operand `1`. -/
example : Grid.eq (.rect 100 200) (.rect 100 200) = .ok true ∧ Grid.ne (.rect 100 200) (.rect 101 200) = .ok true ∧
    Grid.ne (.rect 100 200) (.rect 200 100) = .ok true ∧ Grid.eq (.spiral 1000) (.spiral 1000) = .ok true := ⟨rfl, rfl, rfl, rfl⟩

/-- `test_rectangulargrid_display` (test_coordinategrid.py:79-97), for every array of this shape. -/
example (data : Fin 200 → Fin 100 → ℝ) : ∃ d, Grid.display (.rect 100 200) 100 200 (.two 200 100 data) = .ok d ∧ d.lats.length = 100 ∧
    d.lons.length = 200 ∧ d.n = 200 ∧ d.m = 100 := by
  refine ⟨⟨Grid.latAxis 100, Grid.lonAxis 200, 200, 100, data⟩, ?_, ?_, ?_, rfl, rfl⟩
  · simp [Grid.display, Grid.displayRect]
  all_goals simp [Grid.latAxis, Grid.lonAxis]

/-- `test_spiralgrid_grid`, `_zeros` (test_coordinategrid.py:108-130). -/
example : (Grid.spiral 1000).shape = [1000] ∧ (∀ p, (Grid.spiral 1000).zeros p = 0) ∧ ∀ p, (Grid.spiral 1000).lon p < 2 * π ∧
    0 ≤ (Grid.spiral 1000).lon p ∧ (Grid.spiral 1000).lat p ≤ 0.5 * π ∧ -0.5 * π ≤ (Grid.spiral 1000).lat p := by
  refine ⟨rfl, fun _ => rfl, fun p => ?_⟩
  have hp : 0 < 2 * π := by positivity
  have h1 := Int.floor_le ((2 * π * (p : ℕ) / (0.5 * (1 + √5))) / (2 * π))
  have h2 := Int.lt_floor_add_one ((2 * π * (p : ℕ) / (0.5 * (1 + √5))) / (2 * π))
  rw [le_div_iff₀ hp] at h1
  rw [div_lt_iff₀ hp] at h2
  have h3 := arccos_nonneg (1 - 2 * ((p : ℕ) + 0.5) / (1000 : ℕ))
  have h4 := arccos_le_pi (1 - 2 * ((p : ℕ) + 0.5) / (1000 : ℕ))
  simp only [Grid.lon, Grid.lat, Grid.mod2pi]
  refine ⟨by nlinarith, by nlinarith, by linarith, by linarith⟩

/-- `test_spiralgrid_display` (test_coordinategrid.py:143-160), for every array of this shape. -/
example (data : Fin 1000 → ℝ) : ∃ d, Grid.display (.spiral 1000) 100 200 (.one 1000 data) = .ok d ∧ d.lats.length = 100 ∧
    d.lons.length = 200 ∧ d.n = 200 ∧ d.m = 100 := by
  have h : ∃ f, Grid.display (.spiral 1000) 100 200 (.one 1000 data) = .ok ⟨Grid.latAxis 100, Grid.lonAxis 200, 200, 100, f⟩ :=
    ⟨_, by simp only [Grid.display, Grid.displaySpiral]; rw [dif_pos trivial]⟩
  obtain ⟨f, h⟩ := h
  refine ⟨_, h, ?_, ?_, rfl, rfl⟩
  all_goals simp [Grid.latAxis, Grid.lonAxis]

/-- `test_round_teff` (test_helpers.py:10-15). -/
example : roundTeff (.fin 100.3) = .ok 100 := by
  rw [roundTeff]
  congr 1
  have : ⌊(100.3 : ℝ)⌋ = 100 := by rw [Int.floor_eq_iff]; norm_num
  unfold Np.roundHalfEven
  simp only [this]
  norm_num

theorem angle_is {a b c d x : ℝ} (h : sin (Grid.deg a) * sin (Grid.deg c) + cos (Grid.deg a) * cos (Grid.deg c) * cos (Grid.deg b - Grid.deg d) =
    cos (Grid.deg x)) (h0 : 0 ≤ x) (h1 : x ≤ 180) : angleBetween (Grid.deg a) (Grid.deg b) (Grid.deg c) (Grid.deg d) = .fin (Grid.deg x) := by
  have hp := pi_pos
  rw [angleBetween, h, Fl.arccos_fin (neg_one_le_cos _) (cos_le_one _), arccos_cos]
  · unfold Grid.deg; positivity
  · unfold Grid.deg; nlinarith

/-- `test_get_angle_between` (test_helpers.py:17-28); here without tolerance. -/
example : let d := Grid.deg
    angleBetween (d 0) (d 0) (d 0) (d 0) = .fin (d 0) ∧ angleBetween (d 0) (d 0) (d 90) (d 0) = .fin (d 90) ∧
    angleBetween (d 0) (d 0) (d 40) (d 0) = .fin (d 40) ∧ angleBetween (d 0) (d 0) (d 0) (d 120) = .fin (d 120) ∧
    angleBetween (d 0) (d 0) (d 0) (d (-120)) = .fin (d 120) ∧ angleBetween (d 90) (d 0) (d (-90)) (d 0) = .fin (d 180) := by
  intro d
  have h0 : Grid.deg 0 = 0 := by simp [Grid.deg]
  have h90 : Grid.deg 90 = π / 2 := by unfold Grid.deg; ring
  have h180 : Grid.deg 180 = π := by unfold Grid.deg; ring
  have hn : ∀ x, Grid.deg (-x) = -Grid.deg x := fun x => by unfold Grid.deg; ring
  refine ⟨angle_is ?_ ?_ ?_, angle_is ?_ ?_ ?_, angle_is ?_ ?_ ?_, angle_is ?_ ?_ ?_, angle_is ?_ ?_ ?_, angle_is ?_ ?_ ?_⟩ <;>
    first | norm_num; done | simp [h0, h90, h180, hn]

/-- `test_circle_intersection` (test_helpers.py:69-83). -/
example : circFraction (.fin 0) (.fin 0) (.fin 1) = .ok (.fin 1) ∧ circFraction (.fin 0) (.fin 0) (.fin 0.5) = .ok (.fin 1) ∧
    circFraction (.fin 0) (.fin 0.5) (.fin 0.5) = .ok (.fin 1) ∧ circFraction (.fin 2) (.fin 0) (.fin 0.5) = .ok (.fin 0) ∧
    (∃ v, circFraction (.fin 1) (.fin 0) (.fin 1) = .ok (.fin v) ∧ v < 0.5) ∧
    (∃ v, circFraction (.fin 0.6) (.fin 0) (.fin 0.5) = .ok (.fin v) ∧ 0.5 < v) := by
  have hs : √((0.5 : ℝ) ^ 2) = 0.5 := sqrt_sq (by norm_num)
  have hs2 : √((2 : ℝ) ^ 2) = 2 := sqrt_sq (by norm_num)
  refine ⟨?_, ?_, ?_, ?_, ?_, ?_⟩
  · obtain ⟨v, h, -, -, -, -, h1⟩ := (C13_circ_fraction_total 0 0 1).2 (by norm_num)
    rw [h, h1 (by norm_num) (by norm_num)]
  · obtain ⟨v, h, -, -, -, -, h1⟩ := (C13_circ_fraction_total 0 0 0.5).2 (by norm_num)
    rw [h, h1 (by norm_num) (by norm_num)]
  · obtain ⟨v, h, -, -, -, -, h1⟩ := (C13_circ_fraction_total 0 0.5 0.5).2 (by norm_num)
    rw [h, h1 (by norm_num) (by rw [zero_pow two_ne_zero, zero_add, hs]; norm_num)]
  · obtain ⟨v, h, -, -, h1, -, -⟩ := (C13_circ_fraction_total 2 0 0.5).2 (by norm_num)
    rw [h, h1 (by rw [zero_pow two_ne_zero, add_zero, hs2]; norm_num)]
  · have hd : Fl.sqrt (.fin 1 * .fin 1 + .fin 0 * .fin 0) = .fin 1 := by
      rw [Fl.fin_mul, Fl.fin_mul, Fl.fin_add, Fl.sqrt_fin (by norm_num)]; norm_num
    have e : circFraction (.fin 1) (.fin 0) (.fin 1) = .ok (.fin ((2 * (arccos (1 / 2) - 1 / 2 * √(3 / 4))) / π)) := by
      unfold circFraction segArea
      simp only [hd, Fl.fin_lt, Fl.fin_add, Fl.fin_sub, Fl.fin_le, Fl.fin_inj]
      rw [if_neg (by norm_num), if_neg (by norm_num), if_neg (by norm_num), if_neg (by norm_num)]
      norm_num [Fl.fin_mul, Fl.fin_sub, Fl.fin_add, Fl.fin_div, pi_ne_zero, Fl.arccos_fin, Fl.sqrt_fin]
      ring
    refine ⟨_, e, ?_⟩
    rw [show (1 / 2 : ℝ) = cos (π / 3) by rw [cos_pi_div_three], arccos_cos (by positivity) (by linarith [pi_pos]), cos_pi_div_three,
      div_lt_iff₀ pi_pos]
    have h1 : 0.86 < √(3 / 4 : ℝ) := by rw [lt_sqrt (by norm_num)]; norm_num
    have h2 := pi_lt_d2
    linarith
  · have hd : Fl.sqrt (.fin 0.6 * .fin 0.6 + .fin 0 * .fin 0) = .fin 0.6 := by
      rw [Fl.fin_mul, Fl.fin_mul, Fl.fin_add, Fl.sqrt_fin (by norm_num), zero_mul, add_zero, sqrt_mul_self (by norm_num)]
    have e : circFraction (.fin 0.6) (.fin 0) (.fin 0.5) = .ok (.fin (((arccos 0.925 - 0.925 * √(1 - 0.925 * 0.925)) +
        (0.25 * arccos (-0.65) + 0.325 * √(0.25 - 0.325 * 0.325))) / (π * 0.25))) := by
      unfold circFraction segArea
      simp only [hd, Fl.fin_lt, Fl.fin_add, Fl.fin_sub, Fl.fin_le, Fl.fin_inj]
      rw [if_neg (by norm_num), if_neg (by norm_num), if_neg (by norm_num), if_neg (by norm_num)]
      norm_num [Fl.fin_mul, Fl.fin_sub, Fl.fin_add, Fl.fin_div, pi_ne_zero, Fl.arccos_fin, Fl.sqrt_fin]
    refine ⟨_, e, ?_⟩
    rw [lt_div_iff₀ (by positivity)]
    have h1 : π / 2 ≤ arccos (-0.65) := by rw [← arccos_zero]; exact arccos_le_arccos (by norm_num)
    have h2 : 0 < √(0.25 - 0.325 * 0.325 : ℝ) := by rw [sqrt_pos]; norm_num
    have h3 : 0.925 * √(1 - 0.925 * 0.925) ≤ arccos 0.925 := by
      have h4 : √(1 - 0.925 * 0.925) = sin (arccos 0.925) := by rw [sin_arccos, sq]
      have h5 := sin_le (arccos_nonneg 0.925)
      have h6 := sqrt_nonneg (1 - 0.925 * 0.925 : ℝ)
      rw [h4] at h6 ⊢
      linarith
    linarith

/-- `test_clip_teff` (test_helpers.py:85-99). -/
example : clipTeff 2000 = 2300 ∧ clipTeff 6500 = 3900 ∧ clipTeff 3000 = 3000 := by
  refine ⟨?_, ?_, ?_⟩ <;> norm_num [clipTeff, teffLow, teffHigh]

theorem prod_in {a b c d x y : ℝ} (ha : 0 ≤ a) (hc : 0 ≤ c) (h1 : a ≤ x) (h2 : x ≤ b) (h3 : c ≤ y) (h4 : y ≤ d) : a * c ≤ x * y ∧ x * y ≤ b * d :=
  ⟨mul_le_mul h1 h3 hc (ha.trans h1), mul_le_mul h2 h4 (hc.trans h3) (ha.trans (h1.trans h2))⟩

theorem trig5 : 0.99618 ≤ cos (π / 36) ∧ cos (π / 36) ≤ 0.99621 ∧ 0.08715 ≤ sin (π / 36) ∧ sin (π / 36) ≤ 0.08716 := by
  have h1 := pi_gt_d6
  have h2 := pi_lt_d6
  have hx1 : 0.087266 ≤ π / 36 := by linarith
  have hx2 : π / 36 ≤ 0.087267 := by linarith
  have hx : |π / 36| ≤ 1 := by rw [abs_of_nonneg (by positivity)]; linarith
  have hc := abs_le.mp (cos_bound hx)
  have hs := abs_le.mp (sin_bound hx)
  rw [abs_of_nonneg (show 0 ≤ π / 36 by positivity)] at hc hs
  have p2 : (π / 36) ^ 2 ≤ 0.087267 ^ 2 := pow_le_pow_left₀ (by positivity) hx2 2
  have q2 : 0.087266 ^ 2 ≤ (π / 36) ^ 2 := pow_le_pow_left₀ (by norm_num) hx1 2
  have p3 : (π / 36) ^ 3 ≤ 0.087267 ^ 3 := pow_le_pow_left₀ (by positivity) hx2 3
  have q3 : 0.087266 ^ 3 ≤ (π / 36) ^ 3 := pow_le_pow_left₀ (by norm_num) hx1 3
  have p4 : (π / 36) ^ 4 ≤ 0.087267 ^ 4 := pow_le_pow_left₀ (by positivity) hx2 4
  have p5 : (π / 36) ^ 5 ≤ 0.087267 ^ 5 := pow_le_pow_left₀ (by positivity) hx2 5
  norm_num at p2 q2 p3 q3 p4 p5
  refine ⟨?_, ?_, ?_, ?_⟩ <;> linarith

theorem trig_more : (0.7659 ≤ cos (Grid.deg 40) ∧ cos (Grid.deg 40) ≤ 0.7662) ∧ (0.6426 ≤ sin (Grid.deg 40) ∧ sin (Grid.deg 40) ≤ 0.6430) ∧
    (0.2587 ≤ sin (Grid.deg 15) ∧ sin (Grid.deg 15) ≤ 0.2590) ∧ (0.9658 ≤ cos (Grid.deg 15) ∧ cos (Grid.deg 15) ≤ 0.9660) ∧
    (0.4224 ≤ sin (Grid.deg 25) ∧ sin (Grid.deg 25) ≤ 0.4228) ∧ (0.9062 ≤ cos (Grid.deg 25) ∧ cos (Grid.deg 25) ≤ 0.9064) ∧
    (0.5733 ≤ sin (Grid.deg 35) ∧ sin (Grid.deg 35) ≤ 0.5738) ∧ (0.8190 ≤ cos (Grid.deg 35) ∧ cos (Grid.deg 35) ≤ 0.8193) := by
  obtain ⟨c1, c2, s1, s2⟩ := trig5
  have e5 : Grid.deg 5 = π / 36 := by unfold Grid.deg; ring
  have d10 : Grid.deg 10 = 2 * (π / 36) := by unfold Grid.deg; ring
  have d20 : Grid.deg 20 = 2 * Grid.deg 10 := by unfold Grid.deg; ring
  have d40 : Grid.deg 40 = 2 * Grid.deg 20 := by unfold Grid.deg; ring
  have d15 : Grid.deg 15 = Grid.deg 10 + π / 36 := by unfold Grid.deg; ring
  have d25 : Grid.deg 25 = Grid.deg 20 + π / 36 := by unfold Grid.deg; ring
  have d35 : Grid.deg 35 = Grid.deg 40 - π / 36 := by unfold Grid.deg; ring
  set c := cos (π / 36)
  set s := sin (π / 36)
  have hs10 : sin (Grid.deg 10) = 2 * s * c := by rw [d10, sin_two_mul]
  have hc10 : cos (Grid.deg 10) = 1 - 2 * s ^ 2 := by rw [d10, cos_two_mul, cos_sq']; ring
  have m1 : 0.173634 ≤ s * c * 2 ∧ s * c * 2 ≤ 0.173661 := by
    have := prod_in (by norm_num) (by norm_num) s1 s2 c1 c2
    constructor <;> linarith
  have m2 : 0.984806 ≤ 1 - 2 * s ^ 2 ∧ 1 - 2 * s ^ 2 ≤ 0.98481 := by
    have := prod_in (by norm_num) (by norm_num) s1 s2 s1 s2
    rw [sq]; constructor <;> linarith
  rw [show s * c * 2 = sin (Grid.deg 10) by rw [hs10]; ring] at m1
  rw [← hc10] at m2
  set s10 := sin (Grid.deg 10)
  set c10 := cos (Grid.deg 10)
  have hs20 : sin (Grid.deg 20) = 2 * s10 * c10 := by rw [d20, sin_two_mul]
  have hc20 : cos (Grid.deg 20) = 1 - 2 * s10 ^ 2 := by rw [d20, cos_two_mul, cos_sq']; ring
  have m3 : 0.34199 ≤ s10 * c10 * 2 ∧ s10 * c10 * 2 ≤ 0.34205 := by
    have := prod_in (by norm_num) (by norm_num) m1.1 m1.2 m2.1 m2.2
    constructor <;> linarith
  have m4 : 0.93968 ≤ 1 - 2 * s10 ^ 2 ∧ 1 - 2 * s10 ^ 2 ≤ 0.93971 := by
    have := prod_in (by norm_num) (by norm_num) m1.1 m1.2 m1.1 m1.2
    rw [sq]; constructor <;> linarith
  rw [show s10 * c10 * 2 = sin (Grid.deg 20) by rw [hs20]; ring] at m3
  rw [← hc20] at m4
  set s20 := sin (Grid.deg 20)
  set c20 := cos (Grid.deg 20)
  have hs40 : sin (Grid.deg 40) = 2 * s20 * c20 := by rw [d40, sin_two_mul]
  have hc40 : cos (Grid.deg 40) = 1 - 2 * s20 ^ 2 := by rw [d40, cos_two_mul, cos_sq']; ring
  have m5 : 0.6427 ≤ s20 * c20 * 2 ∧ s20 * c20 * 2 ≤ 0.6429 := by
    have := prod_in (by norm_num) (by norm_num) m3.1 m3.2 m4.1 m4.2
    constructor <;> linarith
  have m6 : 0.766 ≤ 1 - 2 * s20 ^ 2 ∧ 1 - 2 * s20 ^ 2 ≤ 0.7661 := by
    have := prod_in (by norm_num) (by norm_num) m3.1 m3.2 m3.1 m3.2
    rw [sq]; constructor <;> linarith
  rw [show s20 * c20 * 2 = sin (Grid.deg 40) by rw [hs40]; ring] at m5
  rw [← hc40] at m6
  set s40 := sin (Grid.deg 40)
  set c40 := cos (Grid.deg 40)
  refine ⟨⟨by linarith, by linarith⟩, ⟨by linarith, by linarith⟩, ?_, ?_, ?_, ?_, ?_, ?_⟩
  · rw [d15, sin_add]
    have h1 := prod_in (by norm_num) (by norm_num) m1.1 m1.2 c1 c2
    have h2 := prod_in (by norm_num) (by norm_num) m2.1 m2.2 s1 s2
    constructor <;> linarith
  · rw [d15, cos_add]
    have h1 := prod_in (by norm_num) (by norm_num) m2.1 m2.2 c1 c2
    have h2 := prod_in (by norm_num) (by norm_num) m1.1 m1.2 s1 s2
    constructor <;> linarith
  · rw [d25, sin_add]
    have h1 := prod_in (by norm_num) (by norm_num) m3.1 m3.2 c1 c2
    have h2 := prod_in (by norm_num) (by norm_num) m4.1 m4.2 s1 s2
    constructor <;> linarith
  · rw [d25, cos_add]
    have h1 := prod_in (by norm_num) (by norm_num) m4.1 m4.2 c1 c2
    have h2 := prod_in (by norm_num) (by norm_num) m3.1 m3.2 s1 s2
    constructor <;> linarith
  · rw [d35, sin_sub]
    have h1 := prod_in (by norm_num) (by norm_num) m5.1 m5.2 c1 c2
    have h2 := prod_in (by norm_num) (by norm_num) m6.1 m6.2 s1 s2
    constructor <;> linarith
  · rw [d35, cos_sub]
    have h1 := prod_in (by norm_num) (by norm_num) m6.1 m6.2 c1 c2
    have h2 := prod_in (by norm_num) (by norm_num) m5.1 m5.2 s1 s2
    constructor <;> linarith

theorem equator_proj {lon0 lon : ℝ} (h0 : lon ≠ lon0) (h1 : 0 ≤ cos (lon0 - lon)) (h2 : cos (lon0 - lon) < 1) (h3 : 0 ≤ sin (lon - lon0)) :
    projOrtho 0 lon0 0 lon = (.fin (√(1 - cos (lon0 - lon) ^ 2)), .fin 0) := by
  have hb : π / 2 ≠ 0 := by have := pi_pos; intro h; linarith
  have hb' : π / 2 ≠ π := by have := pi_pos; intro h; linarith
  have hmu : sin 0 * sin 0 + cos 0 * cos 0 * cos (lon0 - lon) = cos (lon0 - lon) := by simp
  have hS : 0 < √(1 - cos (lon0 - lon) ^ 2) := by rw [sqrt_pos]; nlinarith
  have hr : round4 (.fin 0) = .fin 0 := by simp [round4, Np.roundHalfEven]
  have ha : Fl.arccos (.fin 0) = .fin (π / 2) := by rw [Fl.arccos_fin (by norm_num) (by norm_num), arccos_zero]
  simp only [projOrtho, hb, hb', if_false, hmu, Fl.arccos_fin (neg_one_le_cos _) (cos_le_one _), Fl.cos_fin, Fl.sin_fin,
    cos_arccos (neg_one_le_cos _) (cos_le_one _), sin_arccos, h1, h2, h0, not_lt.mpr h3, if_true, Fl.fin_mul, Fl.fin_sub, sub_zero, cos_pi_div_two,
    sin_pi_div_two, mul_zero, mul_one, Fl.fin_inj, hS.ne', Fl.fin_div hS.ne', zero_div, hr, ha, false_and, one_mul, zero_mul]

/-- `test_proj_ortho` (test_helpers.py:30-67). -/
example : let d := Grid.deg
    (∃ x y, projOrtho (d 30) (d 45) (d 40) (d 60) = (.fin x, .fin y) ∧ |x - 0.19825408| ≤ 0.01 * 0.19825408 ∧ |y - 0.18671294| ≤ 0.01 * 0.18671294) ∧
    (∃ x y, projOrtho (d 30) (d 45) (d 50) (d 70) = (.fin x, .fin y) ∧ |x - 0.27164737| ≤ 0.01 * 0.27164737 ∧ |y - 0.37213692| ≤ 0.01 * 0.37213692) ∧
    (∃ x y, projOrtho (d 30) (d 45) (d 60) (d 80) = (.fin x, .fin y) ∧ |x - 0.28682206| ≤ 0.01 * 0.28682206 ∧ |y - 0.54519419| ≤ 0.01 * 0.54519419) ∧
    projOrtho (d 0) (d 10) (d 0) (d 100) = (.fin 1, .fin 0) ∧ (∃ x, projOrtho (d 0) (d 10) (d 0) (d 40) = (.fin x, .fin 0) ∧ x = 0.5) ∧
    projOrtho (d 0) (d 10) (d 0) (d 10) = (.fin 0, .fin 0) := by
  intro d
  have hp := pi_pos
  obtain ⟨c40, s40, s15, c15, s25, c25, s35, c35⟩ := trig_more
  have h30 : d 30 = π / 6 := by simp only [d]; unfold Grid.deg; ring
  have h60 : d 60 = π / 3 := by simp only [d]; unfold Grid.deg; ring
  have e50 : d 50 = π / 2 - Grid.deg 40 := by simp only [d]; unfold Grid.deg; ring
  have s3 : 1.73205 ≤ √(3 : ℝ) ∧ √(3 : ℝ) ≤ 1.73206 := ⟨le_sqrt_of_sq_le (by norm_num), sqrt_le_iff.mpr ⟨by norm_num, by norm_num⟩⟩
  have one : ∀ (lat lon δ X Y : ℝ), 0 ≤ lat → lat ≤ 90 → Grid.deg lon - Grid.deg 45 = Grid.deg δ → 0 ≤ cos (Grid.deg δ) →
      cos (Grid.deg lat) * sin (Grid.deg δ) = X → √3 / 2 * sin (Grid.deg lat) - 1 / 2 * cos (Grid.deg lat) * cos (Grid.deg δ) = Y →
      ∃ x y, projOrtho (d 30) (d 45) (d lat) (d lon) = (.fin x, .fin y) ∧ |y - Y| ≤ 5e-5 ∧ 0 ≤ x * X ∧ |x ^ 2 - X ^ 2| ≤ 1e-4 := by
    intro lat lon δ X Y l0 l1 hδ hc hX hY
    have hl0 : 0 ≤ Grid.deg lat := by unfold Grid.deg; positivity
    have hl1 : Grid.deg lat ≤ π / 2 := by unfold Grid.deg; nlinarith
    have hcl : 0 ≤ cos (Grid.deg lat) := cos_nonneg_of_mem_Icc ⟨by linarith, hl1⟩
    have hsl : 0 ≤ sin (Grid.deg lat) := sin_nonneg_of_nonneg_of_le_pi hl0 (by linarith)
    obtain ⟨x, y, k1, k2, k3, k4⟩ := C12_ortho_accuracy_partial (d 30) (d 45) (d lat) (d lon) (by rw [h30]; constructor <;> linarith)
      (Or.inl (by rw [h30]; constructor <;> linarith)) ⟨by simp only [d]; linarith, hl1⟩ (by
        rw [greatCircle_eq, ← arccos_zero]
        refine arccos_le_arccos ?_
        rw [h30, sin_pi_div_six, cos_pi_div_six, show d 45 - d lon = -Grid.deg δ by simp only [d]; linarith, cos_neg]
        positivity)
    refine ⟨x, y, k1, ?_, ?_, ?_⟩
    · rw [h30, sin_pi_div_six, cos_pi_div_six, hδ] at k2
      rw [← hY]; exact k2
    · rw [hδ] at k3; rw [← hX]; exact k3
    · rw [hδ] at k4; rw [← hX]; exact k4
  have fin : ∀ (X x lo hi : ℝ), 0 < X → 0 ≤ x * X → |x ^ 2 - X ^ 2| ≤ 1e-4 → 0 ≤ lo → 0 ≤ hi → lo ^ 2 + 1e-4 ≤ X ^ 2 → X ^ 2 + 1e-4 ≤ hi ^ 2 →
      lo ≤ x ∧ x ≤ hi := by
    intro X x lo hi h0 h1 h2 h3 h3' h4 h5
    have hx : 0 ≤ x := nonneg_of_mul_nonneg_left h1 h0
    rw [abs_le] at h2
    exact ⟨pow_le_pow_iff_left₀ h3 hx two_ne_zero |>.mp (by linarith), pow_le_pow_iff_left₀ hx h3' two_ne_zero |>.mp (by linarith)⟩
  refine ⟨?_, ?_, ?_, ?_, ?_, ?_⟩
  · obtain ⟨x, y, k1, k2, k3, k4⟩ := one 40 60 15 _ _ (by norm_num) (by norm_num) (by unfold Grid.deg; ring) (by linarith) rfl rfl
    have hX := prod_in (by norm_num) (by norm_num) c40.1 c40.2 s15.1 s15.2
    have hY1 := prod_in (by norm_num) (by norm_num) s3.1 s3.2 s40.1 s40.2
    have hY2 := prod_in (by norm_num) (by norm_num) c40.1 c40.2 c15.1 c15.2
    have hX2 := prod_in (by norm_num) (by norm_num) hX.1 hX.2 hX.1 hX.2
    have hx := fin _ x 0.1963 0.2002 (by linarith) k3 k4 (by norm_num) (by norm_num) (by rw [sq (cos _ * _)]; linarith) (by rw [sq (cos _ * _)]; linarith)
    rw [abs_le] at k2
    refine ⟨x, y, k1, ?_, ?_⟩ <;> rw [abs_le] <;> constructor <;> linarith
  · obtain ⟨x, y, k1, k2, k3, k4⟩ := one 50 70 25 _ _ (by norm_num) (by norm_num) (by unfold Grid.deg; ring) (by linarith) rfl rfl
    rw [show Grid.deg 50 = π / 2 - Grid.deg 40 from e50, cos_pi_div_two_sub] at k3 k4
    rw [show Grid.deg 50 = π / 2 - Grid.deg 40 from e50, cos_pi_div_two_sub, sin_pi_div_two_sub] at k2
    have hX := prod_in (by norm_num) (by norm_num) s40.1 s40.2 s25.1 s25.2
    have hY1 := prod_in (by norm_num) (by norm_num) s3.1 s3.2 c40.1 c40.2
    have hY2 := prod_in (by norm_num) (by norm_num) s40.1 s40.2 c25.1 c25.2
    have hX2 := prod_in (by norm_num) (by norm_num) hX.1 hX.2 hX.1 hX.2
    have hx := fin _ x 0.269 0.2743 (by linarith) k3 k4 (by norm_num) (by norm_num) (by rw [sq (sin _ * _)]; linarith) (by rw [sq (sin _ * _)]; linarith)
    rw [abs_le] at k2
    refine ⟨x, y, k1, ?_, ?_⟩ <;> rw [abs_le] <;> constructor <;> linarith
  · obtain ⟨x, y, k1, k2, k3, k4⟩ := one 60 80 35 _ _ (by norm_num) (by norm_num) (by unfold Grid.deg; ring) (by linarith) rfl rfl
    rw [show Grid.deg 60 = π / 3 from h60, cos_pi_div_three] at k3 k4
    rw [show Grid.deg 60 = π / 3 from h60, cos_pi_div_three, sin_pi_div_three] at k2
    have h3 : √3 / 2 * (√3 / 2) = 3 / 4 := by
      have := mul_self_sqrt (show (0 : ℝ) ≤ 3 by norm_num)
      linarith
    rw [h3] at k2
    have hX : 1 / 2 * 0.5733 ≤ 1 / 2 * sin (Grid.deg 35) ∧ 1 / 2 * sin (Grid.deg 35) ≤ 1 / 2 * 0.5738 := ⟨by linarith, by linarith⟩
    have hX2 := prod_in (by norm_num) (by norm_num) hX.1 hX.2 hX.1 hX.2
    have hx := fin _ x 0.284 0.2896 (by linarith) k3 k4 (by norm_num) (by norm_num) (by rw [sq (1 / 2 * _)]; linarith) (by rw [sq (1 / 2 * _)]; linarith)
    rw [abs_le] at k2
    refine ⟨x, y, k1, ?_, ?_⟩ <;> rw [abs_le] <;> constructor <;> linarith
  · have h1 : d 10 - d 100 = -(π / 2) := by simp only [d]; unfold Grid.deg; ring
    have h2 : d 100 - d 10 = π / 2 := by linarith
    rw [show d 0 = 0 by simp [d, Grid.deg], equator_proj (by intro h; linarith) (by rw [h1]; simp) (by rw [h1]; simp) (by rw [h2]; simp), h1]
    simp
  · have h1 : d 10 - d 40 = -(π / 6) := by simp only [d]; unfold Grid.deg; ring
    have h2 : d 40 - d 10 = π / 6 := by linarith
    have h3 : cos (π / 6) < 1 := by rw [cos_pi_div_six]; linarith
    have h4 : 0 ≤ cos (π / 6) := by rw [cos_pi_div_six]; positivity
    refine ⟨√(1 - cos (π / 6) ^ 2), ?_, ?_⟩
    · rw [show d 0 = 0 by simp [d, Grid.deg], equator_proj (by intro h; linarith) (by rw [h1, cos_neg]; exact h4) (by rw [h1, cos_neg]; exact h3)
        (by rw [h2, sin_pi_div_six]; norm_num), h1, cos_neg]
    · rw [← sin_eq_sqrt_one_sub_cos_sq (by positivity) (by linarith), sin_pi_div_six]
      norm_num
  · have ha : Fl.arccos (.fin 1) = .fin 0 := by rw [Fl.arccos_fin (by norm_num) (by norm_num), arccos_one]
    rw [show d 0 = 0 by simp [d, Grid.deg]]
    simp [projOrtho, pi_ne_zero, ha, Fl.sin_fin, Fl.cos_fin, Fl.fin_mul]
    intro h
    linarith

end Tests
end Vsm
