import Verif.Props.FloatReport
import Verif.Props.FloatFlare
import Verif.Props.Circle
import Verif.Model.FloatCircle

/-!
# Towards C164: the overlap of two circles in double precision

Two circles that touch, and circles of radius one.
-/

noncomputable section

namespace Vsm

open Real Spec

/-! ## A circle that touches the unit circle -/

theorem lit_11 : dbl 1.1 = (4953959590107546 : ℤ) * 2 ^ (-52 : ℤ) := dbl_eq (by norm_num) (by norm_num) (by rw [abs_lt]; norm_num)
theorem lit_01 : dbl 0.1 = (7205759403792794 : ℤ) * 2 ^ (-56 : ℤ) := dbl_eq (by norm_num) (by norm_num) (by rw [abs_lt]; norm_num)

/-- `calc_circ_fraction_inside_unit_circle(1.1, 0, 0.1)` is NaN: the argument of the second arccosine is computed as 1 + 3·2⁻⁵². -/
theorem touching_nan (M : Libm) : M.circFraction (dbl 1.1) 0 (dbl 0.1) = .ok .nan := by
  have a1 : dbl (dbl 1.1 * dbl 1.1) = (5449355549118301 : ℤ) * 2 ^ (-52 : ℤ) := by
    rw [lit_11]; exact dbl_eq (by norm_num) (by norm_num) (by rw [abs_lt]; norm_num)
  have a1' : dbl ((5449355549118301 : ℤ) * 2 ^ (-52 : ℤ)) = (5449355549118301 : ℤ) * 2 ^ (-52 : ℤ) :=
    dbl_eq (by norm_num) (by norm_num) (by rw [abs_lt]; norm_num)
  have a2 : dbl √((5449355549118301 : ℤ) * 2 ^ (-52 : ℤ)) = dbl 1.1 := by
    rw [lit_11]
    have hs := sq_sqrt (show (0 : ℝ) ≤ (5449355549118301 : ℤ) * 2 ^ (-52 : ℤ) by positivity)
    have h0 := sqrt_nonneg ((5449355549118301 : ℤ) * (2 : ℝ) ^ (-52 : ℤ))
    set z := √((5449355549118301 : ℤ) * (2 : ℝ) ^ (-52 : ℤ))
    have l : ((4953959590107546 : ℝ) - 1 / 4) * 2 ^ (-52 : ℤ) ≤ z := by
      refine (abs_le_of_sq_le_sq' ?_ h0).2
      rw [hs]; norm_num
    have u : z ≤ ((4953959590107546 : ℝ) + 1 / 4) * 2 ^ (-52 : ℤ) := by
      refine (abs_le_of_sq_le_sq' ?_ (by norm_num)).2
      rw [hs]; norm_num
    have e : (2 : ℝ) ^ (-52 : ℤ) = 1 / 4503599627370496 := by norm_num
    rw [e] at l u
    refine dbl_eq ?_ ?_ ?_
    · norm_num; linarith
    · norm_num; linarith
    · rw [e, abs_lt]
      push_cast
      constructor <;> linarith
  have a3 : dbl (1 + dbl 0.1) = dbl 1.1 := by
    rw [lit_01, lit_11]; exact dbl_eq (by norm_num) (by norm_num) (by rw [abs_lt]; norm_num)
  have a4 : dbl (1 - dbl 0.1) = (8106479329266893 : ℤ) * 2 ^ (-53 : ℤ) := by
    rw [lit_01]; exact dbl_eq (by norm_num) (by norm_num) (by rw [abs_lt]; norm_num)
  have a5 : dbl (dbl 0.1 * dbl 0.1) = (5764607523034236 : ℤ) * 2 ^ (-59 : ℤ) := by
    rw [lit_01]; exact dbl_eq (by norm_num) (by norm_num) (by rw [abs_lt]; norm_num)
  have a6 : dbl (dbl (dbl 1.1 * dbl 1.1) + dbl (dbl 0.1 * dbl 0.1)) = (5494391545392006 : ℤ) * 2 ^ (-52 : ℤ) := by
    rw [a1, a5]; exact dbl_eq (by norm_num) (by norm_num) (by rw [abs_lt]; norm_num)
  have a7 : dbl ((5494391545392006 : ℤ) * 2 ^ (-52 : ℤ) - 1) = (7926335344172080 : ℤ) * 2 ^ (-55 : ℤ) :=
    dbl_eq (by norm_num) (by norm_num) (by rw [abs_lt]; norm_num)
  have a8 : dbl (2 * dbl 1.1) = (4953959590107546 : ℤ) * 2 ^ (-51 : ℤ) := by
    rw [lit_11]; exact dbl_eq (by norm_num) (by norm_num) (by rw [abs_lt]; norm_num)
  have a9 : dbl ((7926335344172080 : ℤ) * 2 ^ (-55 : ℤ) / ((4953959590107546 : ℤ) * 2 ^ (-51 : ℤ))) = (7205759403792799 : ℤ) * 2 ^ (-56 : ℤ) :=
    dbl_eq (by norm_num) (by norm_num) (by rw [abs_lt]; norm_num)
  have a10 : dbl ((7205759403792799 : ℤ) * 2 ^ (-56 : ℤ) / dbl 0.1) = (4503599627370499 : ℤ) * 2 ^ (-52 : ℤ) := by
    rw [lit_01]; exact dbl_eq (by norm_num) (by norm_num) (by rw [abs_lt]; norm_num)
  have seg : M.segArea (dbl 0.1) ((7205759403792799 : ℤ) * 2 ^ (-56 : ℤ)) = .nan := by
    unfold Libm.segArea
    simp only
    rw [if_neg]
    rintro ⟨h, -⟩
    rw [a10] at h
    norm_num [abs_of_pos] at h
  unfold Libm.circFraction
  simp only
  rw [mul_zero, dbl_zero, add_zero, a1, a1', a2, if_neg (by rw [lit_01]; norm_num), a3, if_neg (lt_irrefl _), a4,
    if_neg (by rw [lit_11]; norm_num), if_neg (by rw [lit_11]; norm_num), a6, a7, a8, a9, seg]
  split
  · rename_i h; cases h
  · rfl


/-! ## Rounding -/

theorem dbl_idem (x : ℝ) : dbl (dbl x) = dbl x := by
  rcases le_total 0 x with h | h
  · exact dbl_twice h
  · have := dbl_twice (x := -x) (by linarith)
    rw [dbl_neg, dbl_neg] at this
    linarith

theorem dbl_double {x : ℝ} (hx : 0 < x) : dbl (2 * x) = 2 * dbl x := by
  unfold dbl roundBits
  simp only
  have e : Int.log 2 |2 * x| = Int.log 2 |x| + 1 := by
    rw [abs_of_pos hx, abs_of_pos (by positivity)]
    have h1 := Int.zpow_log_le_self (b := 2) (by norm_num) hx
    have h2 := Int.lt_zpow_succ_log_self (b := 2) (by norm_num) x
    push_cast at h1 h2
    apply le_antisymm
    · have : Int.log 2 (2 * x) < Int.log 2 x + 1 + 1 := by
        refine (Int.lt_zpow_iff_log_lt (by norm_num) (by positivity)).mp ?_
        push_cast
        rw [zpow_add₀ (by norm_num) _ 1]
        linarith
      omega
    · refine (Int.zpow_le_iff_le_log (by norm_num) (by positivity)).mp ?_
      push_cast
      rw [zpow_add₀ (by norm_num) _ 1]
      linarith
  rw [e]
  have e2 : (2 : ℝ) ^ (Int.log 2 |x| + 1 - (((53 : ℕ) : ℤ) - 1)) = 2 * 2 ^ (Int.log 2 |x| - (((53 : ℕ) : ℤ) - 1)) := by
    rw [show Int.log 2 |x| + 1 - (((53 : ℕ) : ℤ) - 1) = Int.log 2 |x| - (((53 : ℕ) : ℤ) - 1) + 1 by ring, zpow_add₀ (by norm_num) _ 1]
    ring
  rw [e2, mul_div_mul_left _ _ (by norm_num)]
  ring

theorem dbl_le_one {x : ℝ} (h : x ≤ 1) : dbl x ≤ 1 := by
  rcases le_or_gt x (1 / 2) with hx | hx
  · have h1 := (abs_le.mp (dbl_err x)).2
    have hs := ulp_small
    have hu := ulp_pos
    rcases le_total 0 x with h0 | h0
    · rw [abs_of_nonneg h0] at h1; nlinarith
    · rw [abs_of_nonpos h0] at h1; nlinarith
  rcases h.eq_or_lt with rfl | h
  · rw [dbl_one]
  have hl : Int.log 2 |x| = -1 := by
    rw [abs_of_pos (by linarith)]
    apply le_antisymm
    · have : Int.log 2 x < 0 := (Int.lt_zpow_iff_log_lt (by norm_num) (by linarith)).mp (by push_cast; simpa using h)
      omega
    · exact (Int.zpow_le_iff_le_log (by norm_num) (by linarith)).mp (by push_cast; norm_num; linarith)
  unfold dbl roundBits
  simp only
  rw [hl, show (-1 : ℤ) - (((53 : ℕ) : ℤ) - 1) = -53 by norm_num]
  have h3 : x / (2 : ℝ) ^ (-53 : ℤ) ≤ ((2 ^ 53 : ℤ) : ℝ) := by
    rw [div_le_iff₀ (by positivity)]; norm_num; linarith
  have h4 := Np.roundHalfEven_mono h3
  rw [Np.roundHalfEven_int] at h4
  have h5 : (Np.roundHalfEven (x / (2 : ℝ) ^ (-53 : ℤ)) : ℝ) ≤ ((2 ^ 53 : ℤ) : ℝ) := by exact_mod_cast h4
  calc _ ≤ ((2 ^ 53 : ℤ) : ℝ) * (2 : ℝ) ^ (-53 : ℤ) := by gcongr
    _ = 1 := by norm_num

/-- Doubles between 1 and 4 are multiples of `2^-52`. -/
theorem dbl_grid {y : ℝ} (h1 : 1 ≤ y) (h2 : y < 4) : ∃ k : ℤ, dbl y = k * 2 ^ (-52 : ℤ) := by
  have hy : 0 < y := by linarith
  have a : 0 ≤ Int.log 2 |y| := by
    rw [abs_of_pos hy]
    exact (Int.zpow_le_iff_le_log (by norm_num) hy).mp (by push_cast; simpa using h1)
  have b : Int.log 2 |y| < 2 := by
    rw [abs_of_pos hy]
    exact (Int.lt_zpow_iff_log_lt (by norm_num) hy).mp (by push_cast; norm_num; linarith)
  unfold dbl roundBits
  simp only
  have : Int.log 2 |y| = 0 ∨ Int.log 2 |y| = 1 := by omega
  rcases this with h | h
  · rw [h]; exact ⟨_, by norm_num; rfl⟩
  · rw [h]
    refine ⟨Np.roundHalfEven (y / 2 ^ ((1 : ℤ) - (((53 : ℕ) : ℤ) - 1))) * 2, ?_⟩
    push_cast
    rw [mul_assoc]
    norm_num

/-! ## Segments of the unit disk -/

/-- Area between a chord at distance `t` from the centre and the circle. -/
def seg (t : ℝ) : ℝ := arccos t - t * √(1 - t ^ 2)

theorem seg_clamp (t : ℝ) : seg t = seg (max (-1) (min t 1)) := by
  unfold seg
  rcases le_total t 1 with h | h
  · rw [min_eq_left h]
    rcases le_total (-1) t with h' | h'
    · rw [max_eq_right h']
    · rw [max_eq_left h', arccos_of_le_neg_one h', arccos_neg_one, sqrt_eq_zero'.mpr (show 1 - t ^ 2 ≤ 0 by nlinarith)]
      norm_num
  · rw [min_eq_right h, max_eq_right (by norm_num), arccos_of_one_le h, arccos_one, sqrt_eq_zero'.mpr (show 1 - t ^ 2 ≤ 0 by nlinarith)]
    norm_num

theorem seg_lipschitz (a b : ℝ) : |seg a - seg b| ≤ 2 * |a - b| := by
  have main {a b : ℝ} (ha : -1 ≤ a) (ha' : a ≤ 1) (hb : -1 ≤ b) (hb' : b ≤ 1) : |seg a - seg b| ≤ 2 * |a - b| := by
    have i1 := integral_segment one_pos ha ha'
    have i2 := integral_segment one_pos hb hb'
    simp only [one_pow, one_mul, div_one] at i1 i2
    unfold seg
    have hi (u v : ℝ) : IntervalIntegrable (fun x => 2 * √(1 - x ^ 2)) MeasureTheory.volume u v := Continuous.intervalIntegrable (by fun_prop) _ _
    have e := intervalIntegral.integral_add_adjacent_intervals (hi a b) (hi b 1)
    rw [← i1, ← i2, ← e, add_sub_cancel_right]
    · have := intervalIntegral.norm_integral_le_of_norm_le_const (a := a) (b := b) (f := fun x => 2 * √(1 - x ^ 2)) (C := 2) (fun x _ => by
        rw [norm_of_nonneg (by positivity)]
        have : √(1 - x ^ 2) ≤ 1 := sqrt_le_one.mpr (by nlinarith [sq_nonneg x])
        linarith)
      rw [abs_sub_comm a b]
      exact this
  rw [seg_clamp a, seg_clamp b]
  refine (main (le_max_left _ _) (max_le (by norm_num) (min_le_right _ _)) (le_max_left _ _) (max_le (by norm_num) (min_le_right _ _))).trans ?_
  have h1 := abs_max_sub_max_le_max (-1) (min a 1) (-1) (min b 1)
  have h2 := abs_min_sub_min_le_max a 1 b 1
  simp only [sub_self, abs_zero] at h1 h2
  rw [max_eq_right (a := (0 : ℝ)) (abs_nonneg _)] at h1
  rw [max_eq_left (b := (0 : ℝ)) (abs_nonneg _)] at h2
  linarith

theorem overlap_one (x y : ℝ) : overlap ⟨x, y⟩ 1 = 2 * seg (√(x ^ 2 + y ^ 2) / 2) := by
  have hn := norm_mk x y
  set d := √(x ^ 2 + y ^ 2) with hd
  have hd0 : 0 ≤ d := sqrt_nonneg _
  rcases hd0.eq_or_lt with h | hdp
  · rw [overlap_inside zero_le_one (by rw [hn, ← h]; norm_num), ← h]
    unfold seg; norm_num; ring
  rcases lt_or_ge 2 d with h1 | h1
  · rw [overlap_disjoint (by rw [hn]; linarith), seg_clamp, min_eq_right (by linarith), max_eq_right (by norm_num)]
    unfold seg; norm_num
  · have hov : overlap ⟨x, y⟩ 1 = (MeasureTheory.volume (lens d 1)).toReal := by
      rw [overlap, overlap_norm, hn, volume_overlap_real zero_le_one]
    have hl := volume_lens one_pos hdp (by linarith) (by linarith) (by linarith)
    rw [hov, hl, ENNReal.toReal_ofReal]
    · have e1 : (d ^ 2 - 1 ^ 2 + 1) / (2 * d) = d / 2 := by field_simp; ring
      have e2 : (d ^ 2 + 1 ^ 2 - 1) / (2 * d) = d / 2 := by field_simp; ring
      rw [e1, e2]
      unfold seg
      norm_num
      ring
    · have a1 : -1 ≤ d / 2 := by linarith
      have a2 : d / 2 ≤ 1 := by linarith
      have t1 := seg_nonneg one_pos a1 a2
      have e1 : (d ^ 2 - 1 ^ 2 + 1) / (2 * d) = d / 2 := by field_simp; ring
      have e2 : (d ^ 2 + 1 ^ 2 - 1) / (2 * d) = d / 2 := by field_simp; ring
      rw [e1, e2]
      simp only [one_pow, one_mul, div_one] at t1 ⊢
      linarith


/-! ## The circle of radius one -/

theorem dbl_near {x y e B : ℝ} (h : |x - y| ≤ e) (hB : |x| ≤ B) : |dbl x - y| ≤ e + B * ulp := by
  have hu := ulp_pos
  calc _ ≤ |dbl x - x| + |x - y| := abs_sub_le _ _ _
    _ ≤ B * ulp + e := add_le_add ((dbl_err x).trans (by gcongr)) h
    _ = _ := by ring

/-- The numerators of `d1` and `d2` for `r = 1`. -/
def num1 (d : ℝ) : ℝ := dbl (dbl (dbl (d * d) - 1) + 1)
def num2 (d : ℝ) : ℝ := dbl (dbl (dbl (d * d) + 1) - 1)

theorem num_tiny {d : ℝ} (h : dbl (d * d) ≤ ulp / 4) : num1 d = 0 ∧ num2 d = 0 := by
  have hu := ulp_pos
  have h0 : 0 ≤ dbl (d * d) := dbl_nonneg (mul_self_nonneg d)
  have u : ulp = 2 ^ (-53 : ℤ) := by unfold ulp; norm_num
  set D := dbl (d * d)
  have e1 : dbl (1 - D) = 1 := by
    rcases h0.eq_or_lt with h | h'
    · rw [← h, sub_zero, dbl_one]
    · have : dbl (1 - D) = ((2 ^ 53 : ℤ) : ℝ) * 2 ^ (-53 : ℤ) := by
        refine dbl_eq ?_ ?_ ?_
        · have := ulp_small; norm_num; linarith
        · norm_num; linarith
        · rw [← u, abs_lt]
          have : (1 - D) / ulp = 2 ^ 53 - D / ulp := by rw [sub_div]; congr 1; unfold ulp; norm_num
          have hD : D / ulp ≤ 1 / 4 := by rw [div_le_iff₀ hu]; linarith
          have hD' : 0 ≤ D / ulp := by positivity
          rw [this]; push_cast
          constructor <;> linarith
      rw [this]; norm_num
  have e2 : dbl (1 + D) = 1 := by
    have : dbl (1 + D) = ((2 ^ 52 : ℤ) : ℝ) * 2 ^ (-52 : ℤ) := by
      refine dbl_eq ?_ ?_ ?_
      · norm_num; linarith
      · have := ulp_small; norm_num; linarith
      · have : (1 + D) / 2 ^ (-52 : ℤ) = 2 ^ 52 + D / ulp / 2 := by unfold ulp; norm_num; ring
        have hD : D / ulp ≤ 1 / 4 := by rw [div_le_iff₀ hu]; linarith
        have hD' : 0 ≤ D / ulp := by positivity
        rw [this, abs_lt]; push_cast
        constructor <;> linarith
    rw [this]; norm_num
  constructor
  · unfold num1
    rw [show dbl (d * d) - 1 = -(1 - D) by ring, dbl_neg, e1]; norm_num [dbl_zero]
  · unfold num2
    rw [show dbl (d * d) + 1 = 1 + D by ring, e2]; norm_num [dbl_zero]

theorem num_close {d B : ℝ} (hB : d ^ 2 ≤ B) (hB1 : 1 ≤ B) (hB4 : B ≤ 4) :
    |num1 d - d ^ 2| ≤ (3 * B + 1.1) * ulp ∧ |num2 d - d ^ 2| ≤ (3 * B + 1.2) * ulp := by
  have hu := ulp_pos
  have hs := ulp_small
  have hd2 := sq_nonneg d
  have a1 : |dbl (d * d) - d ^ 2| ≤ B * ulp := by
    have := dbl_err (d * d)
    rw [← sq, abs_of_nonneg hd2] at this
    rw [← sq]
    exact this.trans (by gcongr)
  have b1 := abs_le.mp a1
  have bu : B * ulp ≤ 1 / 10 ^ 14 := by nlinarith
  have hD0 : 0 ≤ dbl (d * d) := dbl_nonneg (mul_self_nonneg d)
  have c1 := dbl_near (x := dbl (d * d) - 1) (y := d ^ 2 - 1) (e := B * ulp) (B := B) (by rw [sub_sub_sub_cancel_right]; exact a1) (abs_le.mpr ⟨by linarith, by linarith⟩)
  have c2 := dbl_near (x := dbl (d * d) + 1) (y := d ^ 2 + 1) (e := B * ulp) (B := B + 1.01) (by rw [add_sub_add_right_eq_sub]; exact a1) (abs_le.mpr ⟨by linarith, by linarith⟩)
  have b2 := abs_le.mp c1
  have b3 := abs_le.mp c2
  have f1 := dbl_near (x := dbl (dbl (d * d) - 1) + 1) (y := d ^ 2) (e := B * ulp + B * ulp) (B := B + 0.01) (by rw [show ∀ z : ℝ, z + 1 - d ^ 2 = z - (d ^ 2 - 1) by intro z; ring]; exact c1) (abs_le.mpr ⟨by linarith, by linarith⟩)
  have f2 := dbl_near (x := dbl (dbl (d * d) + 1) - 1) (y := d ^ 2) (e := B * ulp + (B + 1.01) * ulp) (B := B + 0.01) (by rw [show ∀ z : ℝ, z - 1 - d ^ 2 = z - (d ^ 2 + 1) by intro z; ring]; exact c2) (abs_le.mpr ⟨by linarith, by linarith⟩)
  exact ⟨f1.trans (by linarith), f2.trans (by linarith)⟩

theorem num_edge {d : ℝ} {j : ℕ} (hj : j ≤ 3) (hd : d = 2 - j * 2 ^ (-52 : ℤ)) : num1 d = 4 - j * 2 ^ (-50 : ℤ) ∧ num2 d = 4 - j * 2 ^ (-50 : ℤ) := by
  have e4 : dbl 4 = 4 := by
    have : dbl (((2 ^ 52 : ℤ) : ℝ) * 2 ^ (-50 : ℤ)) = ((2 ^ 52 : ℤ) : ℝ) * 2 ^ (-50 : ℤ) := dbl_eq (by norm_num) (by norm_num) (by norm_num)
    norm_num at this; exact this
  have D : dbl (d * d) = 4 - j * 2 ^ (-50 : ℤ) := by
    rw [hd]
    interval_cases j
    · norm_num; exact e4
    · rw [show (4 : ℝ) - ((1 : ℕ) : ℝ) * 2 ^ (-50 : ℤ) = ((2 ^ 53 - 2 : ℤ) : ℝ) * 2 ^ (-51 : ℤ) by norm_num]
      exact dbl_eq (by norm_num) (by norm_num) (by rw [abs_lt]; norm_num)
    · rw [show (4 : ℝ) - ((2 : ℕ) : ℝ) * 2 ^ (-50 : ℤ) = ((2 ^ 53 - 4 : ℤ) : ℝ) * 2 ^ (-51 : ℤ) by norm_num]
      exact dbl_eq (by norm_num) (by norm_num) (by rw [abs_lt]; norm_num)
    · rw [show (4 : ℝ) - ((3 : ℕ) : ℝ) * 2 ^ (-50 : ℤ) = ((2 ^ 53 - 6 : ℤ) : ℝ) * 2 ^ (-51 : ℤ) by norm_num]
      exact dbl_eq (by norm_num) (by norm_num) (by rw [abs_lt]; norm_num)
  have D' : dbl (4 - j * 2 ^ (-50 : ℤ)) = 4 - j * 2 ^ (-50 : ℤ) := by rw [← D, dbl_idem]
  have m : dbl (4 - j * 2 ^ (-50 : ℤ) - 1) = 4 - j * 2 ^ (-50 : ℤ) - 1 := by
    rw [show (4 : ℝ) - j * 2 ^ (-50 : ℤ) - 1 = ((3 * 2 ^ 51 - 2 * j : ℤ) : ℝ) * 2 ^ (-51 : ℤ) by push_cast; norm_num; ring]
    interval_cases j <;> exact dbl_eq (by norm_num) (by norm_num) (by norm_num)
  have q : dbl (4 - j * 2 ^ (-50 : ℤ) + 1) = 4 - j * 2 ^ (-50 : ℤ) + 1 := by
    rw [show (4 : ℝ) - j * 2 ^ (-50 : ℤ) + 1 = ((5 * 2 ^ 50 - j : ℤ) : ℝ) * 2 ^ (-50 : ℤ) by push_cast; norm_num; ring]
    interval_cases j <;> exact dbl_eq (by norm_num) (by norm_num) (by norm_num)
  constructor
  · unfold num1; rw [D, m, sub_add_cancel, D']
  · unfold num2; rw [D, q, add_sub_cancel_right, D']

/-- Half the distance as computed. -/
theorem half_close {y d : ℝ} (hd : d = dbl y) (h0 : 0 < d) (h2 : d ≤ 2) {N : ℝ} (hN : N = num1 d ∨ N = num2 d) :
    |dbl (N / dbl (2 * d))| ≤ 1 ∧ |dbl (N / dbl (2 * d)) - d / 2| ≤ 5 / 10 ^ 8 := by
  have hu := ulp_pos
  have hs := ulp_small
  have uu : ulp = 1 / 2 ^ 53 := rfl
  have e2 : dbl (2 * d) = 2 * d := by rw [dbl_double h0, hd, dbl_idem]
  rw [e2]
  rcases le_or_gt (dbl (d * d)) (ulp / 4) with hD | hD
  · have : N = 0 := by rcases hN with rfl | rfl; exacts [(num_tiny hD).1, (num_tiny hD).2]
    rw [this, zero_div, dbl_zero, abs_zero, zero_sub, abs_neg, abs_of_pos (by positivity)]
    refine ⟨zero_le_one, ?_⟩
    have h1 := (abs_le.mp (dbl_err (d * d))).1
    rw [abs_of_pos (by positivity)] at h1
    by_contra hn
    have hn := not_le.mp hn
    nlinarith
  · have hlow : 5 / 10 ^ 9 ≤ d := by
      have h1 := (abs_le.mp (dbl_err (d * d))).2
      rw [abs_of_pos (by positivity)] at h1
      by_contra hn
      have hn := not_le.mp hn
      have : d * d ≤ 25 / 10 ^ 18 := by nlinarith
      have : ulp / 4 < 25 / 10 ^ 18 * (1 + ulp) := by nlinarith
      rw [uu] at this
      norm_num at this
    have key : ∀ c, |N - d ^ 2| ≤ c * ulp → |N / (2 * d) - d / 2| ≤ c * ulp / (2 * d) := by
      intro c hc
      have : N / (2 * d) - d / 2 = (N - d ^ 2) / (2 * d) := by field_simp
      rw [this, abs_div, abs_of_pos (show 0 < 2 * d by positivity)]
      gcongr
    rcases le_or_gt d 1 with h1 | h1
    · have hc : |N - d ^ 2| ≤ 4.2 * ulp := by
        have := num_close (d := d) (B := 1) (by nlinarith) le_rfl (by norm_num)
        rcases hN with rfl | rfl
        · exact this.1.trans (by nlinarith)
        · exact this.2.trans (by nlinarith)
      have k := key _ hc
      have k2 : 4.2 * ulp / (2 * d) ≤ 4.9 / 10 ^ 8 := by
        rw [div_le_iff₀ (by positivity)]
        rw [uu]
        nlinarith
      have k3 := abs_le.mp (k.trans k2)
      have k4 := dbl_near (B := 1) (k.trans k2) (abs_le.mpr ⟨by linarith, by linarith⟩)
      have k5 : |dbl (N / (2 * d)) - d / 2| ≤ 5 / 10 ^ 8 := k4.trans (by linarith)
      have k6 := abs_le.mp k5
      exact ⟨abs_le.mpr ⟨by linarith, by linarith⟩, k5⟩
    · have hc : |N - d ^ 2| ≤ 13.2 * ulp := by
        have := num_close (d := d) (B := 4) (by nlinarith) (by norm_num) (by norm_num)
        rcases hN with rfl | rfl
        · exact this.1.trans (by nlinarith)
        · exact this.2.trans (by nlinarith)
      have k := key _ hc
      have k2 : 13.2 * ulp / (2 * d) ≤ 1 / 10 ^ 8 := by
        rw [div_le_iff₀ (by positivity)]
        nlinarith
      have k3 := abs_le.mp (k.trans k2)
      have k4 := dbl_near (B := 2) (k.trans k2) (abs_le.mpr ⟨by linarith, by linarith⟩)
      have k5 : |dbl (N / (2 * d)) - d / 2| ≤ 5 / 10 ^ 8 := k4.trans (by linarith)
      have k6 := abs_le.mp k5
      refine ⟨abs_le.mpr ⟨by linarith, dbl_le_one ?_⟩, k5⟩
      rw [div_le_one (by positivity)]
      rcases le_or_gt d (2 - 8 * ulp) with hf | hf
      · have hm := (abs_le.mp hc).2
        rcases le_or_gt d 1.9 with h19 | h19
        · nlinarith
        · nlinarith
      · have hy1 : 1 ≤ y := by
          by_contra hn
          have := dbl_le_one (not_le.mp hn).le
          linarith
        have hy4 : y < 4 := by
          have := (abs_le.mp (dbl_err y)).1
          rw [abs_of_pos (by linarith), ← hd] at this
          nlinarith
        obtain ⟨k, hk⟩ := dbl_grid hy1 hy4
        rw [← hd] at hk
        have u52 : (2 : ℝ) ^ (-52 : ℤ) = 2 * ulp := by unfold ulp; norm_num
        have hk1 : ((2 ^ 53 - 4 : ℤ) : ℝ) < k := by
          rw [hk, u52] at hf
          have : (2 - 8 * ulp) = ((2 ^ 53 - 4 : ℤ) : ℝ) * (2 * ulp) := by unfold ulp; norm_num
          rw [this] at hf
          exact lt_of_mul_lt_mul_right hf (by positivity)
        have hk2 : (k : ℝ) ≤ ((2 ^ 53 : ℤ) : ℝ) := by
          rw [hk, u52] at h2
          have : (2 : ℝ) = ((2 ^ 53 : ℤ) : ℝ) * (2 * ulp) := by unfold ulp; norm_num
          rw [this] at h2
          have h2 : (k : ℝ) * (2 * ulp) ≤ ((2 ^ 53 : ℤ) : ℝ) * (2 * ulp) := by
            rw [← this] at h2 ⊢; exact h2
          exact le_of_mul_le_mul_right h2 (by positivity)
        have hk1' : 2 ^ 53 - 4 < k := by exact_mod_cast hk1
        have hk2' : k ≤ 2 ^ 53 := by exact_mod_cast hk2
        obtain ⟨j, hj, hkj⟩ : ∃ j : ℕ, j ≤ 3 ∧ k = 2 ^ 53 - j := ⟨(2 ^ 53 - k).toNat, by omega, by omega⟩
        have hdj : d = 2 - j * 2 ^ (-52 : ℤ) := by
          rw [hk, hkj]; push_cast; rw [sub_mul]; congr 1; norm_num
        have hNj : N = 4 - j * 2 ^ (-50 : ℤ) := by rcases hN with rfl | rfl; exacts [(num_edge hj hdj).1, (num_edge hj hdj).2]
        rw [hNj, hdj]
        have : (0 : ℝ) ≤ j := Nat.cast_nonneg j
        norm_num
        linarith


theorem sqrt_hoelder {a b : ℝ} (ha : 0 ≤ a) (hb : 0 ≤ b) : |√a - √b| ≤ √|a - b| := by
  have key {a b : ℝ} (hb : 0 ≤ b) (h : b ≤ a) : |√a - √b| ≤ √|a - b| := by
    rw [abs_of_nonneg (sub_nonneg.mpr (sqrt_le_sqrt h)), abs_of_nonneg (sub_nonneg.mpr h)]
    have h1 : √a ≤ √b + √(a - b) := by
      rw [sqrt_le_left (by positivity)]
      have h2 := sq_sqrt hb
      have h3 := sq_sqrt (sub_nonneg.mpr h)
      have : 0 ≤ √b * √(a - b) := by positivity
      nlinarith
    linarith
  rcases le_total b a with h | h
  · exact key hb h
  · rw [abs_sub_comm, abs_sub_comm a]; exact key ha h

theorem arccos_rounded {M : Libm} (hM : Accurate M) {t : ℝ} (ht : |t| ≤ 1) : |M.arccos t - arccos t| ≤ 7 * ulp := by
  have h := arccos_rel hM ht
  have hu := ulp_pos
  have hp := pi_lt_d2
  unfold Rel at h
  rw [abs_of_nonneg (arccos_nonneg t)] at h
  have := arccos_le_pi t
  nlinarith

theorem segment_one {M : Libm} (hM : Accurate M) {t : ℝ} (ht : dbl t = t) (h1 : |t| ≤ 1) :
    ∃ v, M.segArea 1 t = .fin v ∧ |v - seg t| ≤ 2.3 / 10 ^ 8 := by
  have hu := ulp_pos
  have hs := ulp_small
  have uu : ulp = 1 / 2 ^ 53 := rfl
  have htt : t ^ 2 ≤ 1 := by rw [← sq_abs]; exact pow_le_one₀ (abs_nonneg t) h1
  have ht0 := sq_nonneg t
  have hq : dbl (t / 1) = t := by rw [div_one, ht]
  have hT : dbl (t * t) ≤ 1 := dbl_le_one (by rw [← sq]; exact htt)
  have hT0 : 0 ≤ dbl (t * t) := dbl_nonneg (mul_self_nonneg t)
  have hs0 : 0 ≤ dbl (1 - dbl (t * t)) := dbl_nonneg (by linarith)
  unfold Libm.segArea
  simp only
  rw [hq, one_mul, dbl_one, if_pos ⟨h1, hs0⟩]
  refine ⟨_, rfl, ?_⟩
  have a1 : |dbl (t * t) - t ^ 2| ≤ 1 * ulp := by
    have := dbl_err (t * t)
    rw [← sq, abs_of_nonneg ht0] at this
    rw [← sq]; exact this.trans (by gcongr)
  have a2 := dbl_near (x := 1 - dbl (t * t)) (y := 1 - t ^ 2) (e := 1 * ulp) (B := 1) (by rw [sub_sub_sub_cancel_left, abs_sub_comm]; exact a1)
    (abs_le.mpr ⟨by linarith, by linarith⟩)
  have a3 := sqrt_hoelder hs0 (show 0 ≤ 1 - t ^ 2 by linarith)
  have a4 : √|dbl (1 - dbl (t * t)) - (1 - t ^ 2)| ≤ 2 / 10 ^ 8 := by
    rw [sqrt_le_left (by norm_num)]
    refine a2.trans ?_
    rw [uu]; norm_num
  have a5 := a3.trans a4
  have hr1 : √(1 - t ^ 2) ≤ 1 := sqrt_le_one.mpr (by linarith)
  have hr0 := sqrt_nonneg (1 - t ^ 2)
  have b5 := abs_le.mp a5
  have a6 := dbl_near (B := 2) a5 (abs_le.mpr ⟨by linarith, by linarith⟩)
  have b6 := abs_le.mp a6
  set w := dbl √(dbl (1 - dbl (t * t)))
  have a7 : |t * w - t * √(1 - t ^ 2)| ≤ 2.1 / 10 ^ 8 := by
    rw [← mul_sub, abs_mul]
    calc _ ≤ 1 * (2 / 10 ^ 8 + 2 * ulp) := by gcongr
      _ ≤ _ := by linarith
  have hw : |t * w| ≤ 2 := by
    rw [abs_mul]
    have : |w| ≤ 2 := abs_le.mpr ⟨by linarith, by linarith⟩
    calc _ ≤ 1 * (2 : ℝ) := by gcongr
      _ = _ := by norm_num
  have a8 := dbl_near a7 hw
  have hp := pi_lt_d2
  have c1 := arccos_rounded hM h1
  have d0 := arccos_nonneg t
  have d1 := arccos_le_pi t
  have b7 := abs_le.mp c1
  have c2 := dbl_near (x := M.arccos t) (B := 4) c1 (abs_le.mpr ⟨by linarith, by linarith⟩)
  have b8 := abs_le.mp c2
  have b9 := abs_le.mp a8
  have b10 : |t * √(1 - t ^ 2)| ≤ 1 := by
    rw [abs_mul, abs_of_nonneg hr0]
    calc _ ≤ (1 : ℝ) * 1 := by gcongr
      _ = _ := by norm_num
  have b11 := abs_le.mp b10
  have f : |dbl (M.arccos t) - dbl (t * w) - seg t| ≤ (7 * ulp + 4 * ulp) + (2.1 / 10 ^ 8 + 2 * ulp) := by
    unfold seg
    rw [sub_sub_sub_comm]
    exact (abs_sub _ _).trans (add_le_add c2 a8)
  have g := dbl_near (B := 6) f (abs_le.mpr ⟨by linarith, by linarith⟩)
  rw [one_mul]
  exact g.trans (by linarith)

theorem Rel.sqrt {k a b : ℝ} (h : Rel k a b) (ha : 0 ≤ a) (hb : 0 ≤ b) : Rel k (√a) (√b) := by
  have hu := ulp_pos
  rcases hb.eq_or_lt with rfl | hb
  · unfold Rel at h ⊢
    simp only [sub_zero, abs_zero, mul_zero] at h
    have : a = 0 := abs_eq_zero.mp (le_antisymm h (abs_nonneg a))
    simp [this]
  · unfold Rel at *
    have h1 : 0 < √b := sqrt_pos.mpr hb
    have h2 := sqrt_nonneg a
    rw [abs_of_pos h1]
    rw [abs_of_pos hb] at h
    have e : a - b = (√a - √b) * (√a + √b) := by
      have := sq_sqrt ha
      have := sq_sqrt hb.le
      nlinarith
    rw [e, abs_mul, abs_of_pos (show 0 < √a + √b by linarith)] at h
    have h3 : |√a - √b| * √b ≤ k * ulp * √b * √b := by
      calc _ ≤ |√a - √b| * (√a + √b) := by gcongr; linarith
        _ ≤ k * ulp * b := h
        _ = _ := by rw [mul_assoc (k * ulp), ← sq, sq_sqrt hb.le]
    exact le_of_mul_le_mul_right h3 h1

/-- The distance from the origin as computed. -/
theorem norm_rel (x y : ℝ) : Rel 6 (dbl √(dbl (dbl (x * x) + dbl (y * y)))) √(x ^ 2 + y ^ 2) := by
  have hu := ulp_pos
  have h1 := rel_dbl (x * x)
  have h2 := rel_dbl (y * y)
  have hx := mul_self_nonneg x
  have hy := mul_self_nonneg y
  have h3 : Rel 2 (dbl (x * x) + dbl (y * y)) (x ^ 2 + y ^ 2) := by
    unfold Rel at *
    rw [abs_of_nonneg hx] at h1
    rw [abs_of_nonneg hy] at h2
    rw [abs_of_nonneg (show 0 ≤ x ^ 2 + y ^ 2 by positivity), sq, sq, add_sub_add_comm]
    calc |dbl (x * x) - x * x + (dbl (y * y) - y * y)| ≤ _ := abs_add_le _ _
      _ ≤ 2 * ulp * (x * x) + 2 * ulp * (y * y) := add_le_add h1 h2
      _ = _ := by ring
  have h4 := (h3.dbl (by norm_num)).sqrt (dbl_nonneg (add_nonneg (dbl_nonneg hx) (dbl_nonneg hy))) (by positivity)
  exact (h4.dbl (by norm_num)).mono (by norm_num)

theorem dbl_two : dbl 2 = 2 := by
  have := dbl_double one_pos
  rw [dbl_one, mul_one] at this
  exact this

/-- The share of the unit disk around `(x, y)` inside the unit disk, computed. -/
theorem circle_one {M : Libm} (hM : Accurate M) (x y : ℝ) : ∃ v, M.circFraction x y 1 = .ok (.fin v) ∧ |v - overlap ⟨x, y⟩ 1 / π| ≤ 9 / 10 ^ 8 := by
  have hu := ulp_pos
  have hs := ulp_small
  have hp := pi_gt_d2
  have hp' := pi_lt_d2
  rw [overlap_one]
  have hr := norm_rel x y
  have hd' := sqrt_nonneg (x ^ 2 + y ^ 2)
  have hd0 : 0 ≤ dbl √(dbl (dbl (x * x) + dbl (y * y))) := dbl_nonneg (sqrt_nonneg _)
  unfold Libm.circFraction
  simp only
  rw [if_neg (lt_irrefl _), one_mul, dbl_one, sub_self, dbl_zero, show (1 : ℝ) + 1 = 2 by norm_num, dbl_two]
  set yy := √(dbl (dbl (x * x) + dbl (y * y)))
  set d := dbl yy with hd
  set d' := √(x ^ 2 + y ^ 2)
  have seg2 : ∀ z : ℝ, 2 ≤ z → seg (z / 2) = 0 := by
    intro z hz
    rw [seg_clamp, min_eq_right (by linarith), max_eq_right (by norm_num)]
    unfold seg; norm_num
  have hl : |seg (d / 2) - seg (d' / 2)| ≤ 18 * ulp := by
    unfold Rel at hr
    rw [abs_of_nonneg hd'] at hr
    rcases le_or_gt d' 3 with h | h
    · have := seg_lipschitz (d / 2) (d' / 2)
      rw [← sub_div, abs_div, abs_two] at this
      nlinarith
    · have := abs_le.mp hr
      rw [seg2 d (by nlinarith), seg2 d' (by linarith)]
      simp; linarith
  have fin : ∀ v, |v - 2 * seg (d / 2) / π| ≤ 8.9 / 10 ^ 8 → |v - 2 * seg (d' / 2) / π| ≤ 9 / 10 ^ 8 := by
    intro v hv
    have : |2 * seg (d / 2) / π - 2 * seg (d' / 2) / π| ≤ 18 * ulp := by
      rw [← sub_div, ← mul_sub, abs_div, abs_mul, abs_two, abs_of_pos pi_pos, div_le_iff₀ pi_pos]
      nlinarith
    exact (abs_sub_le _ _ _).trans ((add_le_add hv this).trans (by linarith))
  by_cases c1 : 2 < d
  · rw [if_pos c1]
    refine ⟨0, rfl, fin 0 ?_⟩
    rw [seg2 d c1.le]; norm_num
  rw [if_neg c1]
  have c1 := not_lt.mp c1
  by_cases c2 : d ≤ 0
  · rw [if_pos c2]
    refine ⟨1, rfl, fin 1 ?_⟩
    have : d = 0 := le_antisymm c2 hd0
    rw [this]; unfold seg
    have : 2 * (arccos (0 / 2) - 0 / 2 * √(1 - (0 / 2) ^ 2)) / π = 1 := by
      rw [zero_div, arccos_zero, zero_mul, sub_zero]; field_simp
    rw [this]; norm_num
  rw [if_neg c2]
  have c2 := not_le.mp c2
  rw [if_neg (fun h => c2.ne' h.1)]
  obtain ⟨h1, h1'⟩ := half_close hd c2 c1 (N := num1 d) (Or.inl rfl)
  obtain ⟨h2, h2'⟩ := half_close hd c2 c1 (N := num2 d) (Or.inr rfl)
  unfold num1 at h1 h1'
  unfold num2 at h2 h2'
  set t1 := dbl (dbl (dbl (dbl (d * d) - 1) + 1) / dbl (2 * d)) with ht1
  set t2 := dbl (dbl (dbl (dbl (d * d) + 1) - 1) / dbl (2 * d)) with ht2
  obtain ⟨a, ha, ha'⟩ := segment_one hM (by rw [ht1, dbl_idem]) h1
  obtain ⟨b, hb, hb'⟩ := segment_one hM (by rw [ht2, dbl_idem]) h2
  rw [ha, hb]
  refine ⟨_, rfl, fin _ ?_⟩
  have l1 := seg_lipschitz t1 (d / 2)
  have l2 := seg_lipschitz t2 (d / 2)
  have s1 : |a - seg (d / 2)| ≤ 12.3 / 10 ^ 8 := (abs_sub_le _ _ _).trans ((add_le_add ha' l1).trans (by linarith))
  have s2 : |b - seg (d / 2)| ≤ 12.3 / 10 ^ 8 := (abs_sub_le _ _ _).trans ((add_le_add hb' l2).trans (by linarith))
  have g0 : 0 ≤ seg (d / 2) ∧ seg (d / 2) ≤ 2 := by
    have hh : √(1 - (d / 2) ^ 2) ≤ 1 := sqrt_le_one.mpr (by nlinarith [sq_nonneg (d / 2)])
    have n := seg_nonneg one_pos (u := d / 2) (by linarith) (by linarith)
    simp only [one_pow, one_mul, div_one] at n
    have n : 0 ≤ seg (d / 2) := n
    refine ⟨n, ?_⟩
    have := seg_lipschitz 1 (d / 2)
    have e : seg 1 = 0 := by unfold seg; norm_num
    rw [e, zero_sub, abs_neg, abs_of_nonneg n, abs_of_nonneg (by linarith)] at this
    linarith
  have s3 : |a + b - 2 * seg (d / 2)| ≤ 24.6 / 10 ^ 8 := by
    rw [two_mul, add_sub_add_comm]
    exact (abs_add_le _ _).trans ((add_le_add s1 s2).trans (by norm_num))
  have b3 := abs_le.mp s3
  have s4 := dbl_near (B := 5) s3 (abs_le.mpr ⟨by linarith [g0.1, g0.2], by linarith [g0.1, g0.2]⟩)
  have b4 := abs_le.mp s4
  set S := dbl (a + b)
  have r : Rel 4 (dbl (dbl π * 1)) π := by rw [mul_one]; exact ((rel_dbl π).dbl (by norm_num)).mono (by norm_num)
  have r' := ((Rel.refl S).div r (by norm_num) (by norm_num) (by norm_num) (by norm_num) pi_ne_zero).dbl (by norm_num)
  have hS : |S / π| ≤ 2 := by
    rw [abs_div, abs_of_pos pi_pos, div_le_iff₀ pi_pos, abs_le]
    constructor <;> linarith [g0.1, g0.2]
  have s5 := r'.err hS (by norm_num)
  have s6 : |S / π - 2 * seg (d / 2) / π| ≤ 8.2 / 10 ^ 8 := by
    rw [← sub_div, abs_div, abs_of_pos pi_pos, div_le_iff₀ pi_pos]
    refine s4.trans ?_
    nlinarith
  exact (abs_sub_le _ _ _).trans ((add_le_add s5 s6).trans (by linarith))


theorem seg_rel {k d d' : ℝ} (h : Rel k d d') (hk0 : 0 ≤ k) (hk : k ≤ 100) (hd' : 0 ≤ d') : |seg (d / 2) - seg (d' / 2)| ≤ 3 * k * ulp := by
  have hu := ulp_pos
  have hs := ulp_small
  have seg2 : ∀ z : ℝ, 2 ≤ z → seg (z / 2) = 0 := by
    intro z hz
    rw [seg_clamp, min_eq_right (by linarith), max_eq_right (by norm_num)]
    unfold seg; norm_num
  unfold Rel at h
  rw [abs_of_nonneg hd'] at h
  have hku : k * ulp ≤ 1 / 10 ^ 13 := by nlinarith
  have hku0 : 0 ≤ k * ulp := by positivity
  rcases le_or_gt d' 3 with h3 | h3
  · have := seg_lipschitz (d / 2) (d' / 2)
    rw [← sub_div, abs_div, abs_two] at this
    nlinarith
  · have := abs_le.mp h
    rw [seg2 d (by nlinarith), seg2 d' (by linarith)]
    simp; linarith

/-- The share of the wall for the offset `z` of the two circles. -/
def shareAt (z : ℝ) : ℝ := 1 - overlap ⟨z, 0⟩ 1 / π

theorem shareAt_mem (z : ℝ) : 0 ≤ shareAt z ∧ shareAt z ≤ 1 := by
  unfold shareAt
  have h1 := overlap_le ⟨z, 0⟩ zero_le_one
  have h2 := overlap_nonneg ⟨z, 0⟩ 1
  have h3 : overlap ⟨z, 0⟩ 1 / π ≤ 1 := by rw [div_le_one pi_pos]; linarith
  have h4 : 0 ≤ overlap ⟨z, 0⟩ 1 / π := div_nonneg h2 pi_pos.le
  constructor <;> linarith

theorem wall_one {M : Libm} (hM : Accurate M) {depth radius T T' : ℝ} (hT : Rel 2 T T') :
    ∃ v, M.wallFraction depth radius T = .ok (.fin v) ∧ |v - shareAt (depth / radius * T')| ≤ 9.1 / 10 ^ 8 := by
  have hu := ulp_pos
  have hs := ulp_small
  obtain ⟨f, hf, hf'⟩ := circle_one hM (dbl (dbl (depth / radius) * T)) 0
  unfold Libm.wallFraction
  rw [hf]
  refine ⟨_, rfl, ?_⟩
  have r : Rel 7 (dbl (dbl (depth / radius) * T)) (depth / radius * T') :=
    (((rel_dbl (depth / radius)).mul hT (by norm_num) (by norm_num)).dbl (by norm_num)).mono (by norm_num)
  set z := dbl (dbl (depth / radius) * T)
  set z' := depth / radius * T'
  have hz : |shareAt z - shareAt z'| ≤ 15 * ulp := by
    have r' : Rel 7 |z| |z'| := by
      unfold Rel at *
      rw [abs_abs]
      exact (abs_abs_sub_abs_le z z').trans r
    have := seg_rel r' (by norm_num) (by norm_num) (abs_nonneg z')
    unfold shareAt
    rw [overlap_one, overlap_one, show (0 : ℝ) ^ 2 = 0 by norm_num, add_zero, add_zero, sqrt_sq_eq_abs, sqrt_sq_eq_abs, sub_sub_sub_cancel_left, ← sub_div,
      ← mul_sub, abs_div, abs_mul, abs_two, abs_of_pos pi_pos, div_le_iff₀ pi_pos, abs_sub_comm]
    have := pi_gt_d2
    nlinarith
  have h1 : |1 - f - shareAt z| ≤ 9 / 10 ^ 8 := by
    unfold shareAt
    rw [sub_sub_sub_cancel_left, abs_sub_comm]; exact hf'
  have hm := shareAt_mem z
  have b1 := abs_le.mp h1
  have h2 := dbl_near (B := 2) h1 (abs_le.mpr ⟨by linarith, by linarith⟩)
  exact (abs_sub_le _ _ _).trans ((add_le_add h2 hz).trans (by linarith))

theorem areas_one {M : Libm} (hM : Accurate M) {depth radius angle T : ℝ} (hT : |T - tan angle| ≤ |tan angle| * (1 / 2 ^ 52)) :
    ∃ a b, M.wallFloor depth radius angle T = .ok (.fin a, .fin b) ∧
      |a - shareAt (depth / radius * tan angle) * (π * radius ^ 2 * cos angle)| ≤ 9.3 / 10 ^ 8 * |π * radius ^ 2 * cos angle| ∧
      |b - (1 - shareAt (depth / radius * tan angle)) * (π * radius ^ 2 * cos angle)| ≤ 9.3 / 10 ^ 8 * |π * radius ^ 2 * cos angle| ∧
      |dbl (dbl (0 + a) + b) - π * radius ^ 2 * cos angle| ≤ 1 / 10 ^ 12 * |π * radius ^ 2 * cos angle| := by
  have hu := ulp_pos
  have hs := ulp_small
  have rT : Rel 2 T (tan angle) := by
    unfold Rel
    rw [two_ulp] at hT
    linarith
  obtain ⟨w, hw, hw'⟩ := wall_one hM (depth := depth) (radius := radius) rT
  have rP : Rel 15 (dbl (dbl (dbl π * dbl (radius * radius)) * M.cos angle)) (π * radius ^ 2 * cos angle) := by
    have hc : Rel 2 (M.cos angle) (cos angle) := by
      have := hM.2.1 angle
      unfold Rel; rw [two_ulp] at this; linarith
    rw [sq]
    exact ((((((rel_dbl π).mul (rel_dbl (radius * radius)) (by norm_num) (by norm_num)).dbl (by norm_num)).mul hc (by norm_num) (by norm_num)).dbl (by norm_num))).mono (by norm_num)
  unfold Libm.wallFloor
  simp only [hw]
  refine ⟨_, _, rfl, ?_⟩
  set P := dbl (dbl (dbl π * dbl (radius * radius)) * M.cos angle)
  set P' := π * radius ^ 2 * cos angle
  set W := shareAt (depth / radius * tan angle)
  have hm := shareAt_mem (depth / radius * tan angle)
  change 0 ≤ W ∧ W ≤ 1 at hm
  have bw := abs_le.mp hw'
  have hA := abs_nonneg P'
  have ew : |w| ≤ 1.1 := abs_le.mpr ⟨by linarith, by linarith⟩
  have v0 : |(1 - w) - (1 - W)| ≤ 9.1 / 10 ^ 8 := by rw [sub_sub_sub_cancel_left, abs_sub_comm]; exact hw'
  have rv : Rel 2 (dbl (1 - w)) (1 - w) := rel_dbl _
  have ew' : |1 - w| ≤ 1.1 := abs_le.mpr ⟨by linarith, by linarith⟩
  have ra : Rel 18 (dbl (w * P)) (w * P') := (((Rel.refl w).mul rP (by norm_num) (by norm_num)).dbl (by norm_num)).mono (by norm_num)
  have rb : Rel 20 (dbl (dbl (1 - w) * P)) ((1 - w) * P') := ((rv.mul rP (by norm_num) (by norm_num)).dbl (by norm_num)).mono (by norm_num)
  have ea := ra.err (A := 1.1 * |P'|) (by rw [abs_mul]; gcongr) (by norm_num)
  have eb := rb.err (A := 1.1 * |P'|) (by rw [abs_mul]; gcongr) (by norm_num)
  have hup : ulp * |P'| ≤ 1 / 10 ^ 15 * |P'| := by gcongr
  set a := dbl (w * P)
  set b := dbl (dbl (1 - w) * P)
  refine ⟨?_, ?_, ?_⟩
  · refine (abs_sub_le _ (w * P') _).trans ?_
    rw [← sub_mul, abs_mul]
    have : |w - W| * |P'| ≤ 9.1 / 10 ^ 8 * |P'| := by gcongr
    linarith
  · refine (abs_sub_le _ ((1 - w) * P') _).trans ?_
    rw [← sub_mul, abs_mul]
    have : |1 - w - (1 - W)| * |P'| ≤ 9.1 / 10 ^ 8 * |P'| := by gcongr
    linarith
  · have e1 : dbl (0 + a) = a := by rw [zero_add]; exact dbl_idem _
    rw [e1]
    have hup0 : 0 ≤ ulp * |P'| := by positivity
    have e2 : |a + b - P'| ≤ 42 * ulp * |P'| := by
      have : a + b - P' = (a - w * P') + (b - (1 - w) * P') := by ring
      rw [this]
      refine (abs_add_le _ _).trans ?_
      linarith
    have e3 : |a + b| ≤ 2 * |P'| := by
      have := abs_sub_le (a + b) P' 0
      rw [sub_zero, sub_zero] at this
      linarith
    have := dbl_near e2 e3
    refine this.trans ?_
    linarith

theorem shares_one {M : Libm} (hM : Accurate M) {depth radius angle T : ℝ} (hr : radius ≠ 0) (hT : |T - tan angle| ≤ |tan angle| * (1 / 2 ^ 52))
    (hc : cos angle ≠ 0) :
    ∃ a b, M.wallFloorShares depth radius angle T = .ok (.fin a, .fin b) ∧
      |a - shareAt (depth / radius * tan angle)| ≤ 1 / 10 ^ 7 ∧ |b - (1 - shareAt (depth / radius * tan angle))| ≤ 1 / 10 ^ 7 := by
  have hu := ulp_pos
  have hs := ulp_small
  obtain ⟨a, b, h, ha, hb, ht⟩ := areas_one hM (depth := depth) (radius := radius) hT
  unfold Libm.wallFloorShares
  rw [h]
  simp only
  set t := dbl (dbl (0 + a) + b)
  set P := π * radius ^ 2 * cos angle with hP
  have hm := shareAt_mem (depth / radius * tan angle)
  set W := shareAt (depth / radius * tan angle)
  have hP0 : P ≠ 0 := by positivity
  have hA : 0 < |P| := abs_pos.mpr hP0
  have ht1 : (1 - 1 / 10 ^ 12) * |P| ≤ |t| := by
    have := abs_sub_abs_le_abs_sub P t
    rw [abs_sub_comm] at this
    linarith
  have ht0 : 0 < |t| := lt_of_lt_of_le (by positivity) ht1
  rw [if_neg (abs_pos.mp ht0)]
  have key : ∀ c V : ℝ, 0 ≤ V → V ≤ 1 → |c - V * P| ≤ 9.3 / 10 ^ 8 * |P| → |dbl (c / t) - V| ≤ 1 / 10 ^ 7 := by
    intro c V h0 h1 h
    have e1 : |c / t - V| ≤ 9.4 / 10 ^ 8 := by
      have : c / t - V = (c - V * t) / t := by field_simp [abs_pos.mp ht0]
      rw [this, abs_div, div_le_iff₀ ht0]
      have e2 : |c - V * t| ≤ |c - V * P| + |V * P - V * t| := abs_sub_le _ _ _
      have e3 : |V * P - V * t| ≤ 1 * (1 / 10 ^ 12 * |P|) := by
        rw [← mul_sub, abs_mul, abs_of_nonneg h0, abs_sub_comm]
        gcongr
      linarith
    have := abs_le.mp e1
    exact (dbl_near (B := 2) e1 (abs_le.mpr ⟨by linarith, by linarith⟩)).trans (by linarith)
  exact ⟨_, _, rfl, key a W hm.1 hm.2 ha, key b (1 - W) (by linarith) (by linarith) hb⟩


end Vsm
