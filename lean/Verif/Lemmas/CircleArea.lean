import Mathlib.MeasureTheory.Measure.Lebesgue.VolumeOfBalls
import Mathlib.MeasureTheory.Integral.IntervalIntegral.FundThmCalculus
import Mathlib.Analysis.SpecialFunctions.Trigonometric.InverseDeriv
import Mathlib.Analysis.SpecialFunctions.Sqrt
import Mathlib.Analysis.Complex.Isometry
import Mathlib.MeasureTheory.Measure.Lebesgue.Basic
import Mathlib.MeasureTheory.Measure.Lebesgue.Complex

/-!
# Area of the intersection of two disks
-/

noncomputable section

namespace Vsm

open Real MeasureTheory Set

/-- Area of the intersection of the unit disk with the disk of radius `r` centred at `z` (spec). -/
def Spec.overlap (z : ℂ) (r : ℝ) : ℝ := (volume (Metric.ball (0 : ℂ) 1 ∩ Metric.ball z r)).toReal

/-- Integral giving the area of a circular segment. -/
theorem integral_segment {R c : ℝ} (hR : 0 < R) (h1 : -R ≤ c) (h2 : c ≤ R) :
    ∫ x in c..R, 2 * √(R ^ 2 - x ^ 2) = R ^ 2 * arccos (c / R) - c * √(R ^ 2 - c ^ 2) := by
  let F : ℝ → ℝ := fun x => x * √(R ^ 2 - x ^ 2) - R ^ 2 * arccos (x / R)
  have hcont : Continuous F := by
    unfold F
    have := continuous_arccos
    fun_prop
  have hd : ∀ x ∈ Ioo c R, HasDerivAt F (2 * √(R ^ 2 - x ^ 2)) x := by
    intro x hx
    have hlo : -R < x := by linarith [hx.1]
    have hhi : x < R := hx.2
    have hpos : 0 < R ^ 2 - x ^ 2 := by nlinarith
    have hs : √(R ^ 2 - x ^ 2) ≠ 0 := (sqrt_pos.mpr hpos).ne'
    have e1 : HasDerivAt (fun x : ℝ => R ^ 2 - x ^ 2) (-(2 * x)) x := by
      simpa using ((hasDerivAt_pow 2 x).const_sub (R ^ 2))
    have e2 := e1.sqrt hpos.ne'
    have e3 := (hasDerivAt_id x).mul e2
    have hx1 : x / R ≠ -1 := by
      intro h; rw [div_eq_iff hR.ne'] at h; linarith
    have hx2 : x / R ≠ 1 := by
      intro h; rw [div_eq_iff hR.ne'] at h; linarith
    have e4 := (Real.hasDerivAt_arccos hx1 hx2).comp x ((hasDerivAt_id x).div_const R)
    have e5 := e3.sub (e4.const_mul (R ^ 2))
    have hsq : √(1 - (x / R) ^ 2) = √(R ^ 2 - x ^ 2) / R := by
      rw [show 1 - (x / R) ^ 2 = (R ^ 2 - x ^ 2) / R ^ 2 by field_simp, sqrt_div hpos.le,
        sqrt_sq hR.le]
    have hss : √(R ^ 2 - x ^ 2) ^ 2 = R ^ 2 - x ^ 2 := sq_sqrt hpos.le
    have e6 : HasDerivAt F (1 * √(R ^ 2 - x ^ 2) + id x * (-(2 * x) / (2 * √(R ^ 2 - x ^ 2))) -
        R ^ 2 * (-(1 / √(1 - (x / R) ^ 2)) * (1 / R))) x := e5
    refine e6.congr_deriv ?_
    rw [hsq]
    simp only [id]
    field_simp
    rw [hss]
    ring
  have := intervalIntegral.integral_eq_sub_of_hasDerivAt_of_le h2 hcont.continuousOn hd
    (Continuous.intervalIntegrable (by fun_prop) _ _)
  rw [this]
  simp only [F]
  rw [div_self hR.ne', arccos_one]
  simp

theorem abs_lt_sqrt_iff (y t : ℝ) : |y| < √t ↔ y ^ 2 < t := by
  rw [Real.lt_sqrt (abs_nonneg y), sq_abs]

/-- The lens in real coordinates. -/
def lens (d r : ℝ) : Set (ℝ × ℝ) := {p | p.1 ^ 2 + p.2 ^ 2 < 1 ∧ (p.1 - d) ^ 2 + p.2 ^ 2 < r ^ 2}

theorem mem_ball_complex {z c : ℂ} {r : ℝ} (hr : 0 ≤ r) :
    z ∈ Metric.ball c r ↔ (z.re - c.re) ^ 2 + (z.im - c.im) ^ 2 < r ^ 2 := by
  rw [mem_ball_iff_norm, ← abs_of_nonneg hr, ← abs_norm (z - c), ← sq_lt_sq, Complex.sq_norm,
    Complex.normSq_apply, sq_abs]
  simp [sq]

theorem volume_overlap_real {r : ℝ} (hr : 0 ≤ r) (d : ℝ) :
    volume (Metric.ball (0 : ℂ) 1 ∩ Metric.ball (d : ℂ) r) = volume (lens d r) := by
  rw [← (Complex.volume_preserving_equiv_real_prod).measure_preimage_equiv (lens d r)]
  congr 1
  ext z
  simp only [mem_inter_iff, mem_ball_complex zero_le_one, mem_ball_complex hr, lens, mem_preimage, mem_ofPred_eq]
  simp

theorem overlap_norm (z : ℂ) (r : ℝ) :
    volume (Metric.ball (0 : ℂ) 1 ∩ Metric.ball z r) =
      volume (Metric.ball (0 : ℂ) 1 ∩ Metric.ball ((‖z‖ : ℝ) : ℂ) r) := by
  obtain ⟨c, hc⟩ : ∃ c : Circle, (c : ℂ) * (‖z‖ : ℝ) = z := by
    refine ⟨Circle.exp z.arg, ?_⟩
    rw [Circle.coe_exp, mul_comm]
    exact Complex.norm_mul_exp_arg_mul_I z
  have hmp := (rotation c).measurePreserving
  have hp : (rotation c) ⁻¹' (Metric.ball (0 : ℂ) 1 ∩ Metric.ball z r) =
      Metric.ball (0 : ℂ) 1 ∩ Metric.ball ((‖z‖ : ℝ) : ℂ) r := by
    rw [preimage_inter]
    congr 1
    · rw [LinearIsometryEquiv.preimage_ball]; congr 1; exact map_zero _
    · rw [LinearIsometryEquiv.preimage_ball]
      congr 1
      rw [LinearIsometryEquiv.symm_apply_eq, rotation_apply, hc]
  rw [← hp, hmp.measure_preimage]
  exact (Metric.isOpen_ball.inter Metric.isOpen_ball).measurableSet.nullMeasurableSet

theorem lens_eq_region (d r : ℝ) :
    lens d r = regionBetween (fun x => -min (√(1 - x ^ 2)) (√(r ^ 2 - (x - d) ^ 2)))
      (fun x => min (√(1 - x ^ 2)) (√(r ^ 2 - (x - d) ^ 2))) univ := by
  ext ⟨x, y⟩
  simp only [lens, regionBetween, mem_ofPred_eq, mem_univ, true_and, mem_Ioo]
  rw [← abs_lt, lt_min_iff, abs_lt_sqrt_iff, abs_lt_sqrt_iff]
  constructor <;> rintro ⟨h1, h2⟩ <;> constructor <;> linarith

theorem lens_eq_region' {d r : ℝ} (hr : 0 ≤ r) :
    lens d r = regionBetween (fun x => -min (√(1 - x ^ 2)) (√(r ^ 2 - (x - d) ^ 2)))
      (fun x => min (√(1 - x ^ 2)) (√(r ^ 2 - (x - d) ^ 2))) (Ioc (d - r) 1) := by
  ext ⟨x, y⟩
  simp only [lens, regionBetween, mem_ofPred_eq, mem_Ioc, mem_Ioo]
  rw [← abs_lt, lt_min_iff, abs_lt_sqrt_iff, abs_lt_sqrt_iff]
  constructor
  · rintro ⟨h1, h2⟩
    refine ⟨⟨?_, ?_⟩, ?_, ?_⟩
    · have := abs_lt_of_sq_lt_sq (show (x - d) ^ 2 < r ^ 2 by nlinarith [sq_nonneg y]) hr
      linarith [(abs_lt.mp this).1]
    · have := abs_lt_of_sq_lt_sq (show x ^ 2 < 1 ^ 2 by nlinarith [sq_nonneg y]) zero_le_one
      linarith [(abs_lt.mp this).2]
    · linarith
    · linarith
  · rintro ⟨-, h1, h2⟩; constructor <;> linarith

/-- Area of the lens of two intersecting circles. -/
theorem volume_lens {d r : ℝ} (hr : 0 < r) (hd : 0 < d) (h1 : 1 - r ≤ d) (h1' : r - 1 ≤ d) (h2 : d ≤ 1 + r) :
    volume (lens d r) = ENNReal.ofReal
      (arccos ((d ^ 2 - r ^ 2 + 1) / (2 * d)) -
          (d ^ 2 - r ^ 2 + 1) / (2 * d) * √(1 - ((d ^ 2 - r ^ 2 + 1) / (2 * d)) ^ 2) +
        (r ^ 2 * arccos ((d ^ 2 + r ^ 2 - 1) / (2 * d) / r) -
          (d ^ 2 + r ^ 2 - 1) / (2 * d) * √(r ^ 2 - ((d ^ 2 + r ^ 2 - 1) / (2 * d)) ^ 2))) := by
  set d1 := (d ^ 2 - r ^ 2 + 1) / (2 * d) with hd1
  set d2 := (d ^ 2 + r ^ 2 - 1) / (2 * d) with hd2
  have hsum : d - d1 = d2 := by rw [hd1, hd2]; field_simp; ring
  have hm : 2 * d * d1 = d ^ 2 - r ^ 2 + 1 := by rw [hd1]; field_simp
  have hm2 : 2 * d * d2 = d ^ 2 + r ^ 2 - 1 := by rw [hd2]; field_simp
  have a1 : d1 ≤ 1 := by rw [hd1, div_le_one (by linarith)]; nlinarith
  have a2 : -1 ≤ d1 := by rw [hd1, le_div_iff₀ (by linarith)]; nlinarith
  have a3 : d2 ≤ r := by rw [hd2, div_le_iff₀ (by linarith)]; nlinarith
  have a4 : -r ≤ d2 := by rw [hd2, le_div_iff₀ (by linarith)]; nlinarith
  have hcont : Continuous (fun x : ℝ => min (√(1 - x ^ 2)) (√(r ^ 2 - (x - d) ^ 2))) := by fun_prop
  rw [lens_eq_region' hr.le, Measure.volume_eq_prod, volume_regionBetween_eq_integral (f := fun x => -min (√(1 - x ^ 2)) (√(r ^ 2 - (x - d) ^ 2)))
    (hcont.neg.integrableOn_Ioc)
    hcont.integrableOn_Ioc measurableSet_Ioc]
  swap
  · intro x _
    have : 0 ≤ min (√(1 - x ^ 2)) (√(r ^ 2 - (x - d) ^ 2)) := le_min (sqrt_nonneg _) (sqrt_nonneg _)
    linarith
  congr 1
  rw [← intervalIntegral.integral_of_le (by linarith)]
  simp only [Pi.sub_apply, sub_neg_eq_add]
  have hint : ∀ a b : ℝ, IntervalIntegrable (fun x : ℝ => min (√(1 - x ^ 2)) (√(r ^ 2 - (x - d) ^ 2)) +
      min (√(1 - x ^ 2)) (√(r ^ 2 - (x - d) ^ 2))) volume a b :=
    fun a b => (hcont.add hcont).intervalIntegrable a b
  rw [← intervalIntegral.integral_add_adjacent_intervals (hint (d - r) d1) (hint d1 1), add_comm]
  congr 1
  · have := integral_segment (R := 1) (c := d1) one_pos (by linarith) a1
    simp only [one_pow, one_mul, div_one] at this
    rw [← this]
    apply intervalIntegral.integral_congr
    intro x hx
    rw [uIcc_of_le a1] at hx
    have : √(1 - x ^ 2) ≤ √(r ^ 2 - (x - d) ^ 2) := by
      apply sqrt_le_sqrt
      have := mul_le_mul_of_nonneg_left hx.1 (by linarith : (0 : ℝ) ≤ 2 * d)
      nlinarith
    simp only [min_eq_left this]
    ring
  · rw [← integral_segment hr a4 a3, ← hsum]
    have e := intervalIntegral.integral_comp_sub_left (a := d - r) (b := d1)
      (fun x => 2 * √(r ^ 2 - x ^ 2)) d
    rw [sub_sub_cancel] at e
    rw [← e]
    apply intervalIntegral.integral_congr
    intro x hx
    rw [uIcc_of_le (by linarith)] at hx
    have : √(r ^ 2 - (x - d) ^ 2) ≤ √(1 - x ^ 2) := by
      apply sqrt_le_sqrt
      have := mul_le_mul_of_nonneg_left hx.2 (by linarith : (0 : ℝ) ≤ 2 * d)
      nlinarith
    simp only [min_eq_right this]
    rw [show (d - x) ^ 2 = (x - d) ^ 2 by ring]
    ring

theorem measurableSet_lens (d r : ℝ) : MeasurableSet (lens d r) := by
  apply IsOpen.measurableSet
  have h1 : IsOpen {p : ℝ × ℝ | p.1 ^ 2 + p.2 ^ 2 < 1} := isOpen_lt (by fun_prop) (by fun_prop)
  have h2 : IsOpen {p : ℝ × ℝ | (p.1 - d) ^ 2 + p.2 ^ 2 < r ^ 2} := isOpen_lt (by fun_prop) (by fun_prop)
  exact h1.inter h2

/-- The overlap never grows when the disks move apart. -/
theorem volume_lens_antitone {d d' r : ℝ} (hd : 0 ≤ d) (hdd : d ≤ d') :
    volume (lens d' r) ≤ volume (lens d r) := by
  rw [Measure.volume_eq_prod, Measure.prod_apply_symm (measurableSet_lens _ _),
    Measure.prod_apply_symm (measurableSet_lens _ _)]
  apply lintegral_mono
  intro y
  have key : ∀ e : ℝ, (fun x => (x, y)) ⁻¹' lens e r =
      Ioo (max (-√(1 - y ^ 2)) (e - √(r ^ 2 - y ^ 2))) (min (√(1 - y ^ 2)) (e + √(r ^ 2 - y ^ 2))) := by
    intro e
    ext x
    simp only [lens, mem_preimage, mem_ofPred_eq, mem_Ioo, max_lt_iff, lt_min_iff]
    have h1 := abs_lt_sqrt_iff x (1 - y ^ 2)
    have h2 := abs_lt_sqrt_iff (x - e) (r ^ 2 - y ^ 2)
    rw [abs_lt] at h1 h2
    constructor
    · rintro ⟨ha, hb⟩
      have h3 := h1.mpr (by linarith)
      have h4 := h2.mpr (by linarith)
      refine ⟨⟨h3.1, by linarith⟩, h3.2, by linarith⟩
    · rintro ⟨⟨ha, hb⟩, hc, hd⟩
      have h3 := h1.mp ⟨ha, hc⟩
      have h4 := h2.mp ⟨by linarith, by linarith⟩
      constructor <;> linarith
  simp only [key, Real.volume_Ioo]
  apply ENNReal.ofReal_le_ofReal
  have ha : 0 ≤ √(1 - y ^ 2) := sqrt_nonneg _
  have hb : 0 ≤ √(r ^ 2 - y ^ 2) := sqrt_nonneg _
  generalize √(1 - y ^ 2) = a at *
  generalize √(r ^ 2 - y ^ 2) = b at *
  rcases le_total a (d' + b) with p1 | p1 <;> rcases le_total a (d + b) with p2 | p2 <;>
  rcases le_total (-a) (d' - b) with p3 | p3 <;> rcases le_total (-a) (d - b) with p4 | p4 <;>
  simp only [min_eq_left, min_eq_right, max_eq_left, max_eq_right, p1, p2, p3, p4] <;> linarith

end Vsm
