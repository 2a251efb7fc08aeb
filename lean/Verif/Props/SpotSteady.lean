import Verif.Props.Steady

/-!
# C121: the settled population of spots
-/

noncomputable section

namespace Vsm

open Real MeasureTheory ProbabilityTheory Set
open scoped ENNReal

/-! ### The life of a spot -/

/-- Age at which a spot of initial area `a`, maximal area `p`, growth rate `g` and decay rate `w` is gone (spec). -/
def Spec.spotLife (a p g w : ℝ) : ℝ := Real.log (p / a) / Real.log (1 + g) + p / w

/-- Area at age `t` of a spot of initial area `a`, maximal area `p`, growth rate `g` and decay rate `w` (spec): growth by the factor
`1+g` per day up to the time `T` of the maximum, then decay by `w` per day until nothing is left. -/
def Spec.spotAreaAt (a p g w t : ℝ) : ℝ :=
  if t < Real.log (p / a) / Real.log (1 + g) then a * (1 + g) ^ t
  else if t < Spec.spotLife a p g w then w * (Spec.spotLife a p g w - t) else 0

/-- Area times time of a spot over its life (spec). -/
def Spec.spotTimeArea (a p g w : ℝ) : ℝ :=
  if a ≤ p then (p - a) / Real.log (1 + g) + p ^ 2 / (2 * w) else w * max 0 (Spec.spotLife a p g w) ^ 2 / 2

open Spec

section Curve

variable {a p g w : ℝ}

/-- The rising part of the area curve. -/
def riseOf (a p g t : ℝ) : ℝ := p * exp (Real.log (1 + g) * min (t - Real.log (p / a) / Real.log (1 + g)) 0)

/-- The falling part of the area curve. -/
def fallOf (a p g w t : ℝ) : ℝ := min p (w * max (t - Real.log (p / a) / Real.log (1 + g)) 0)

theorem spotArea_eq (ha : 0 < a) (hp : 0 < p) (hg : 0 < g) (hw : 0 < w) (t : ℝ) :
    spotAreaAt a p g w t = riseOf a p g t - fallOf a p g w t := by
  have hL : 0 < Real.log (1 + g) := log_pos (by linarith)
  unfold spotAreaAt riseOf fallOf spotLife
  set T := Real.log (p / a) / Real.log (1 + g) with hT
  split_ifs with h1 h2
  · rw [min_eq_left (by linarith), max_eq_right (by linarith), mul_zero, min_eq_right hp.le, sub_zero, rpow_def_of_pos (by linarith), mul_sub,
      exp_sub, hT, mul_div_cancel₀ _ hL.ne', exp_log (by positivity)]
    field_simp
  · push Not at h1
    rw [min_eq_right (by linarith), max_eq_left (by linarith), mul_zero, exp_zero, mul_one, min_eq_right]
    · field_simp; ring
    · have : t - T < p / w := by linarith
      rw [lt_div_iff₀ hw] at this
      linarith
  · push Not at h1 h2
    rw [min_eq_right (by linarith), max_eq_left (by linarith), mul_zero, exp_zero, mul_one, min_eq_left, sub_self]
    have : p / w ≤ t - T := by linarith
    rw [div_le_iff₀ hw] at this
    linarith

theorem riseOf_mono (hp : 0 < p) (hg : 0 < g) : Monotone (riseOf a p g) := by
  have hL : 0 < Real.log (1 + g) := log_pos (by linarith)
  intro x y hxy
  unfold riseOf
  gcongr

theorem fallOf_mono (hw : 0 < w) : Monotone (fallOf a p g w) := by
  intro x y hxy
  unfold fallOf
  gcongr

theorem riseOf_mem (hp : 0 < p) (hg : 0 < g) (t : ℝ) : 0 ≤ riseOf a p g t ∧ riseOf a p g t ≤ p := by
  have hL : 0 < Real.log (1 + g) := log_pos (by linarith)
  unfold riseOf
  refine ⟨by positivity, mul_le_of_le_one_right hp.le ?_⟩
  rw [exp_le_one_iff]
  exact mul_nonpos_of_nonneg_of_nonpos hL.le (min_le_right _ _)

theorem fallOf_mem (hp : 0 < p) (hw : 0 < w) (t : ℝ) : 0 ≤ fallOf a p g w t ∧ fallOf a p g w t ≤ p :=
  ⟨le_min hp.le (mul_nonneg hw.le (le_max_right _ _)), min_le_left _ _⟩

theorem spotArea_continuous (ha : 0 < a) (hp : 0 < p) (hg : 0 < g) (hw : 0 < w) : Continuous (spotAreaAt a p g w) := by
  rw [show spotAreaAt a p g w = fun t => riseOf a p g t - fallOf a p g w t from funext (spotArea_eq ha hp hg hw)]
  unfold riseOf fallOf
  fun_prop

theorem spotArea_mem (ha : 0 < a) (hp : 0 < p) (hg : 0 < g) (hw : 0 < w) (t : ℝ) : 0 ≤ spotAreaAt a p g w t ∧ spotAreaAt a p g w t ≤ p := by
  constructor
  · unfold spotAreaAt
    split_ifs with h1 h2
    · positivity
    · exact mul_nonneg hw.le (by linarith)
    · exact le_rfl
  · rw [spotArea_eq ha hp hg hw]
    linarith [(riseOf_mem (a := a) hp hg t).2, (fallOf_mem (a := a) (g := g) hp hw t).1]

theorem spotArea_late (hp : 0 < p) (hw : 0 < w) {t : ℝ} (h : spotLife a p g w ≤ t) : spotAreaAt a p g w t = 0 := by
  unfold spotAreaAt
  have : 0 < p / w := by positivity
  rw [if_neg, if_neg (not_lt.mpr h)]
  unfold spotLife at h
  linarith

/-- Area times time. -/
theorem spotArea_integral (ha : 0 < a) (hp : 0 < p) (hg : 0 < g) (hw : 0 < w) :
    ∫ t in (0 : ℝ)..(max 0 (spotLife a p g w)), spotAreaAt a p g w t = spotTimeArea a p g w := by
  have hL : 0 < Real.log (1 + g) := log_pos (by linarith)
  have hpw : 0 < p / w := by positivity
  have hc := spotArea_continuous ha hp hg hw
  have hlin : ∀ b c : ℝ, ∫ t in b..c, w * (c - t) = w * (c - b) ^ 2 / 2 := by
    intro b c
    rw [intervalIntegral.integral_const_mul, intervalIntegral.integral_sub intervalIntegrable_const
      intervalIntegral.intervalIntegrable_id, integral_id, intervalIntegral.integral_const, smul_eq_mul]
    ring
  unfold spotTimeArea
  set Λ := spotLife a p g w with hΛ
  set T := Real.log (p / a) / Real.log (1 + g) with hT
  have hΛT : Λ = T + p / w := rfl
  split_ifs with h
  · have hT0 : 0 ≤ T := div_nonneg (log_nonneg ((one_le_div ha).mpr h)) hL.le
    rw [max_eq_right (by linarith), ← intervalIntegral.integral_add_adjacent_intervals (hc.intervalIntegrable 0 T) (hc.intervalIntegrable T Λ)]
    have e1 : ∫ t in (0 : ℝ)..T, spotAreaAt a p g w t = ∫ t in (0 : ℝ)..T, a * exp (Real.log (1 + g) * t) := by
      refine intervalIntegral.integral_congr_ae ?_
      have hne : ∀ᵐ t : ℝ, t ≠ T := by rw [ae_iff]; simp
      filter_upwards [hne] with t ht hm
      rw [uIoc_of_le hT0] at hm
      rw [spotAreaAt, if_pos (lt_of_le_of_ne hm.2 ht), rpow_def_of_pos (by linarith)]
    have e2 : ∫ t in T..Λ, spotAreaAt a p g w t = ∫ t in T..Λ, w * (Λ - t) := by
      refine intervalIntegral.integral_congr fun t ht => ?_
      rw [uIcc_of_le (by linarith)] at ht
      unfold spotAreaAt
      rw [if_neg (not_lt.mpr ht.1)]
      split_ifs with h2
      · rfl
      · have : t = Λ := le_antisymm ht.2 (not_lt.mp h2)
        rw [this, sub_self, mul_zero]
    rw [e1, e2, hlin, intervalIntegral.integral_const_mul, intervalIntegral.integral_comp_mul_left _ hL.ne', integral_exp, mul_zero, exp_zero,
      smul_eq_mul, hT, mul_div_cancel₀ _ hL.ne', exp_log (by positivity), ← hT, hΛT, add_sub_cancel_left]
    field_simp
  · have hT0 : T ≤ 0 := div_nonpos_of_nonpos_of_nonneg (log_nonpos (by positivity) ((div_le_one ha).mpr (not_le.mp h).le)) hL.le
    have e2 : ∫ t in (0 : ℝ)..max 0 Λ, spotAreaAt a p g w t = ∫ t in (0 : ℝ)..max 0 Λ, w * (max 0 Λ - t) := by
      refine intervalIntegral.integral_congr fun t ht => ?_
      rw [uIcc_of_le (le_max_left _ _)] at ht
      unfold spotAreaAt
      rw [if_neg (not_lt.mpr (hT0.trans ht.1))]
      split_ifs with h2
      · rw [max_eq_right (ht.1.trans h2.le)]
      · rcases le_total 0 Λ with h0 | h0
        · rw [max_eq_right h0] at ht ⊢
          have : t = Λ := le_antisymm ht.2 (not_lt.mp h2)
          rw [this, sub_self, mul_zero]
        · rw [max_eq_left h0] at ht ⊢
          have : t = 0 := le_antisymm ht.2 ht.1
          rw [this]; simp
    rw [e2, hlin, sub_zero]

/-- Sums over the steps against area times time. -/
theorem spotArea_sum (ha : 0 < a) (hp : 0 < p) (hg : 0 < g) (hw : 0 < w) {dt : ℝ} (hd : 0 < dt) {N : ℕ} (hN : 0 < N) :
    |dt * ∑ k ∈ Finset.range N, spotAreaAt a p g w ((k + 1 : ℕ) * dt) - spotTimeArea a p g w| ≤
      p * dt + p * max 0 (spotLife a p g w) ^ 2 / 4 / (N * dt) := by
  have hτ : (0 : ℝ) < N * dt := by positivity
  have hc := spotArea_continuous ha hp hg hw
  have h1 := hill_riemann (spotAreaAt a p g w) (riseOf a p g) (fallOf a p g w) p ((riseOf_mono hp hg).monotoneOn _) ((fallOf_mono hw).monotoneOn _)
    (fun t _ => spotArea_eq ha hp hg hw t) (fun t _ => riseOf_mem hp hg t) (fun t _ => fallOf_mem hp hw t) dt hd N
  set τ := (N : ℝ) * dt with hτd
  set Λ := max 0 (spotLife a p g w) with hΛ
  have h2 : |(∫ t in (0 : ℝ)..τ, spotAreaAt a p g w t) - spotTimeArea a p g w| ≤ p * Λ ^ 2 / 4 / τ := by
    rw [← spotArea_integral ha hp hg hw, ← hΛ, intervalIntegral.integral_interval_sub_left (hc.intervalIntegrable _ _) (hc.intervalIntegrable _ _)]
    rcases le_total Λ τ with h | h
    · have : ∫ t in Λ..τ, spotAreaAt a p g w t = ∫ t in Λ..τ, (0 : ℝ) := by
        refine intervalIntegral.integral_congr fun t ht => ?_
        rw [uIcc_of_le h] at ht
        exact spotArea_late hp hw ((le_max_right _ _).trans ht.1)
      rw [this]
      simp only [intervalIntegral.integral_zero, abs_zero]
      positivity
    · have hb := intervalIntegral.norm_integral_le_of_norm_le_const (a := Λ) (b := τ) (C := p) (f := spotAreaAt a p g w) fun t _ => by
        rw [norm_eq_abs, abs_of_nonneg (spotArea_mem ha hp hg hw t).1]
        exact (spotArea_mem ha hp hg hw t).2
      rw [norm_eq_abs] at hb
      refine hb.trans ?_
      rw [abs_sub_comm, abs_of_nonneg (by linarith), div_div, le_div_iff₀ (by positivity)]
      have : (Λ - τ) * (4 * τ) ≤ Λ ^ 2 := by nlinarith [sq_nonneg (Λ - 2 * τ)]
      calc p * (Λ - τ) * (4 * τ) = p * ((Λ - τ) * (4 * τ)) := by ring
        _ ≤ p * Λ ^ 2 := mul_le_mul_of_nonneg_left this hp.le
  calc _ = |(dt * ∑ k ∈ Finset.range N, spotAreaAt a p g w ((k + 1 : ℕ) * dt) - ∫ t in (0 : ℝ)..τ, spotAreaAt a p g w t) +
        ((∫ t in (0 : ℝ)..τ, spotAreaAt a p g w t) - spotTimeArea a p g w)| := by congr 1; ring
    _ ≤ _ := (abs_add_le _ _).trans (add_le_add h1 h2)

theorem spotTimeArea_bounds (ha : 0 < a) (hp : 0 < p) (hg : 0 < g) (hw : 0 < w) :
    (p - a) / Real.log (1 + g) + p ^ 2 / (2 * w) ≤ spotTimeArea a p g w ∧
    spotTimeArea a p g w ≤ (p - a) / Real.log (1 + g) + p ^ 2 / (2 * w) + max 0 (a - p) / Real.log (1 + g) := by
  have hL : 0 < Real.log (1 + g) := log_pos (by linarith)
  unfold spotTimeArea
  split_ifs with h
  · exact ⟨le_rfl, by linarith [div_nonneg (le_max_left 0 (a - p)) hL.le]⟩
  · push Not at h
    set τ := -(Real.log (p / a) / Real.log (1 + g)) with hτ
    have hlog : Real.log (p / a) ≤ p / a - 1 := by
      have := Real.log_le_sub_one_of_pos (show 0 < p / a by positivity)
      exact this
    have hlog2 : -Real.log (p / a) ≤ a / p - 1 := by
      rw [← log_inv, inv_div]
      exact Real.log_le_sub_one_of_pos (by positivity)
    have hτ0 : 0 ≤ τ := by
      rw [hτ, neg_nonneg]
      exact div_nonpos_of_nonpos_of_nonneg (log_nonpos (by positivity) ((div_le_one ha).mpr h.le)) hL.le
    have hlife : spotLife a p g w = p / w - τ := by unfold spotLife; rw [hτ]; ring
    have hpw : 0 < p / w := by positivity
    have e1 : w * (p / w) ^ 2 / 2 = p ^ 2 / (2 * w) := by field_simp
    have hpt : p * τ ≤ (a - p) / Real.log (1 + g) := by
      rw [hτ, ← neg_div, mul_div_assoc', div_le_div_iff_of_pos_right hL]
      calc p * -Real.log (p / a) ≤ p * (a / p - 1) := mul_le_mul_of_nonneg_left hlog2 hp.le
        _ = a - p := by field_simp
    have e2 : (p - a) / Real.log (1 + g) = -((a - p) / Real.log (1 + g)) := by rw [← neg_div, neg_sub]
    rw [hlife, e2, max_eq_right (by linarith : 0 ≤ a - p)]
    constructor
    · rcases le_total τ (p / w) with h1 | h1
      · rw [max_eq_right (by linarith)]
        have : w * (p / w - τ) ^ 2 / 2 = w * (p / w) ^ 2 / 2 - p * τ + w * τ ^ 2 / 2 := by field_simp; ring
        have h3 : 0 ≤ w * τ ^ 2 / 2 := by positivity
        linarith
      · rw [max_eq_left (by linarith)]
        have h4 : p * (p / w) ≤ p * τ := mul_le_mul_of_nonneg_left h1 hp.le
        have h5 : p * (p / w) = 2 * (p ^ 2 / (2 * w)) := by field_simp
        have h6 : 0 < p ^ 2 / (2 * w) := by positivity
        simp only [ne_eq, OfNat.ofNat_ne_zero, not_false_eq_true, zero_pow, mul_zero, zero_div]
        linarith
    · have : max 0 (p / w - τ) ≤ p / w := max_le hpw.le (by linarith)
      have h7 : w * max 0 (p / w - τ) ^ 2 / 2 ≤ w * (p / w) ^ 2 / 2 := by
        have := pow_le_pow_left₀ (le_max_left 0 (p / w - τ)) this 2
        have := mul_le_mul_of_nonneg_left this hw.le
        linarith
      linarith

end Curve

/-! ### Means over the normal draw -/

theorem normal_sq_le (z : ℝ) : z ^ 2 ≤ 2 * (exp z + exp (-z)) := by
  have h1 := exp_pos z
  have h2 := exp_pos (-z)
  rcases le_total 0 z with h | h
  · nlinarith [quadratic_le_exp_of_nonneg h]
  · nlinarith [quadratic_le_exp_of_nonneg (neg_nonneg.mpr h)]

theorem normal_id_integrable : Integrable (fun z : ℝ => z) (gaussianReal 0 1) ∧ ∫ z : ℝ, z ∂gaussianReal 0 1 = 0 :=
  ⟨(memLp_id_gaussianReal' 1 (by simp)).integrable le_rfl, integral_id_gaussianReal⟩

theorem normal_sq_integrable : Integrable (fun z : ℝ => z ^ 2) (gaussianReal 0 1) ∧ ∫ z : ℝ, z ^ 2 ∂gaussianReal 0 1 = 1 := by
  constructor
  · refine Integrable.mono' (((normal_exp_integrable 1).add (normal_exp_integrable (-1))).const_mul 2) (by fun_prop)
      (Filter.Eventually.of_forall fun z => ?_)
    rw [norm_eq_abs, abs_of_nonneg (sq_nonneg z)]
    simpa using normal_sq_le z
  · have := (normal_moments (gaussianReal 0 1) id measurable_id Measure.map_id 0 1).2
    simpa using this

theorem neg_part_le (z : ℝ) : max 0 (-z) ≤ (1 + z ^ 2) / 4 - z / 2 := by
  rcases le_total 0 z with h | h
  · rw [max_eq_left (by linarith)]; nlinarith [sq_nonneg (z - 1)]
  · rw [max_eq_right (by linarith)]; nlinarith [sq_nonneg (z + 1)]

theorem neg_part_mean : Integrable (fun z : ℝ => max 0 (-z)) (gaussianReal 0 1) ∧ ∫ z : ℝ, max 0 (-z) ∂gaussianReal 0 1 ≤ 1 / 2 := by
  obtain ⟨i1, e1⟩ := normal_id_integrable
  obtain ⟨i2, e2⟩ := normal_sq_integrable
  have i0 : Integrable (fun z : ℝ => max 0 (-z)) (gaussianReal 0 1) :=
    i1.norm.mono' (by fun_prop) (Filter.Eventually.of_forall fun z => by
      rw [norm_eq_abs, norm_eq_abs, abs_of_nonneg (le_max_left _ _)]
      exact max_le (abs_nonneg z) (neg_le_abs z))
  refine ⟨i0, ?_⟩
  have i3 : Integrable (fun z : ℝ => (1 + z ^ 2) / 4) (gaussianReal 0 1) := ((integrable_const 1).add i2).div_const 4
  have i4 : Integrable (fun z : ℝ => z / 2) (gaussianReal 0 1) := i1.div_const 2
  calc ∫ z : ℝ, max 0 (-z) ∂gaussianReal 0 1 ≤ ∫ z : ℝ, ((1 + z ^ 2) / 4 - z / 2) ∂gaussianReal 0 1 :=
        integral_mono i0 (i3.sub i4) neg_part_le
    _ = 1 / 2 := by
      rw [integral_sub i3 i4, integral_div, integral_div, integral_add (integrable_const 1) i2, e1, e2]
      simp
      norm_num

section Means

variable {a m σ g w : ℝ}

/-- Maximal area for the normal draw `z` (spec). -/
def Spec.peakOf (m σ z : ℝ) : ℝ := m * exp (σ * z)

theorem peak_pos (hm : 0 < m) (z : ℝ) : 0 < peakOf m σ z := by unfold peakOf; positivity

theorem peak_measurable : Measurable (peakOf m σ) := by unfold peakOf; fun_prop

theorem peak_pow (k : ℕ) : Integrable (fun z => peakOf m σ z ^ k) (gaussianReal 0 1) ∧
    ∫ z, peakOf m σ z ^ k ∂gaussianReal 0 1 = m ^ k * exp ((k * σ) ^ 2 / 2) := by
  have e : (fun z => peakOf m σ z ^ k) = fun z => m ^ k * exp (k * σ * z) := by
    funext z
    rw [peakOf, mul_pow, ← exp_nat_mul, mul_assoc]
  rw [e]
  exact ⟨(normal_exp_integrable _).const_mul _, by rw [integral_const_mul, normal_exp_integral]⟩

theorem life_eq (ha : 0 < a) (hm : 0 < m) (z : ℝ) : spotLife a (peakOf m σ z) g w =
    Real.log (m / a) / Real.log (1 + g) + σ / Real.log (1 + g) * z + peakOf m σ z / w := by
  unfold spotLife
  congr 1
  rw [peakOf, mul_div_right_comm, log_mul (by positivity) (exp_pos _).ne', log_exp]
  ring

theorem life_measurable (ha : 0 < a) (hm : 0 < m) : Measurable fun z => spotLife a (peakOf m σ z) g w := by
  simp only [life_eq ha hm]
  have := peak_measurable (m := m) (σ := σ)
  fun_prop

/-- The mean lifetime. -/
theorem life_mean (ha : 0 < a) (ham : a ≤ m) (hσ : 0 ≤ σ) (hg : 0 < g) (hw : 0 < w) :
    Integrable (fun z => max 0 (spotLife a (peakOf m σ z) g w)) (gaussianReal 0 1) ∧
    Real.log (m / a) / Real.log (1 + g) + m * exp (σ ^ 2 / 2) / w ≤ ∫ z, max 0 (spotLife a (peakOf m σ z) g w) ∂gaussianReal 0 1 ∧
    ∫ z, max 0 (spotLife a (peakOf m σ z) g w) ∂gaussianReal 0 1 ≤
      Real.log (m / a) / Real.log (1 + g) + m * exp (σ ^ 2 / 2) / w + σ / (2 * Real.log (1 + g)) := by
  have hm : 0 < m := ha.trans_le ham
  have hL : 0 < Real.log (1 + g) := log_pos (by linarith)
  obtain ⟨i1, e1⟩ := normal_id_integrable
  obtain ⟨i2, e2⟩ := neg_part_mean
  obtain ⟨i3, e3⟩ := peak_pow (m := m) (σ := σ) 1
  simp only [pow_one, Nat.cast_one, one_mul] at i3 e3
  set α := Real.log (m / a) / Real.log (1 + g) with hα
  have hα0 : 0 ≤ α := div_nonneg (log_nonneg ((one_le_div ha).mpr ham)) hL.le
  have j1 : Integrable (fun z => α + σ / Real.log (1 + g) * z) (gaussianReal 0 1) := (integrable_const α).add (i1.const_mul _)
  have j2 : Integrable (fun z => peakOf m σ z / w) (gaussianReal 0 1) := i3.div_const w
  have hle : ∀ z, spotLife a (peakOf m σ z) g w = α + σ / Real.log (1 + g) * z + peakOf m σ z / w := life_eq ha hm
  have jl : Integrable (fun z => spotLife a (peakOf m σ z) g w) (gaussianReal 0 1) := by
    simp only [hle]
    exact j1.add j2
  have el : ∫ z, spotLife a (peakOf m σ z) g w ∂gaussianReal 0 1 = α + m * exp (σ ^ 2 / 2) / w := by
    simp only [hle]
    rw [integral_add j1 j2, integral_add (integrable_const α) (i1.const_mul _), integral_const_mul, e1, integral_div w (fun z => peakOf m σ z), e3]
    simp
  have jm : Integrable (fun z => max 0 (spotLife a (peakOf m σ z) g w)) (gaussianReal 0 1) := by
    refine jl.norm.mono' ?_ (Filter.Eventually.of_forall fun z => ?_)
    · exact (measurable_const.max (life_measurable ha hm)).aestronglyMeasurable
    · rw [norm_eq_abs, norm_eq_abs, abs_of_nonneg (le_max_left _ _)]
      exact max_le (abs_nonneg _) (le_abs_self _)
  refine ⟨jm, ?_, ?_⟩
  · rw [← el]
    exact integral_mono jl jm fun z => le_max_right _ _
  · have hup : ∀ z, max 0 (spotLife a (peakOf m σ z) g w) ≤ spotLife a (peakOf m σ z) g w + σ / Real.log (1 + g) * max 0 (-z) := by
      intro z
      have hs : 0 ≤ σ / Real.log (1 + g) := by positivity
      have hn : 0 ≤ σ / Real.log (1 + g) * max 0 (-z) := mul_nonneg hs (le_max_left _ _)
      have hp := peak_pos (σ := σ) hm z
      have hpw : 0 < peakOf m σ z / w := by positivity
      refine max_le ?_ (by linarith)
      rw [hle]
      have : 0 ≤ σ / Real.log (1 + g) * z + σ / Real.log (1 + g) * max 0 (-z) := by
        rw [← mul_add]
        exact mul_nonneg hs (by linarith [le_max_right 0 (-z)])
      linarith
    calc ∫ z, max 0 (spotLife a (peakOf m σ z) g w) ∂gaussianReal 0 1 ≤
        ∫ z, (spotLife a (peakOf m σ z) g w + σ / Real.log (1 + g) * max 0 (-z)) ∂gaussianReal 0 1 :=
          integral_mono jm (jl.add (i2.const_mul _)) hup
      _ = α + m * exp (σ ^ 2 / 2) / w + σ / Real.log (1 + g) * ∫ z, max 0 (-z) ∂gaussianReal 0 1 := by
          rw [integral_add jl (i2.const_mul _), el, integral_const_mul]
      _ ≤ _ := by
          have : σ / Real.log (1 + g) * ∫ z, max 0 (-z) ∂gaussianReal 0 1 ≤ σ / Real.log (1 + g) * (1 / 2) :=
            mul_le_mul_of_nonneg_left e2 (by positivity)
          rw [show σ / (2 * Real.log (1 + g)) = σ / Real.log (1 + g) * (1 / 2) by field_simp]
          linarith

theorem timeArea_measurable (ha : 0 < a) (hm : 0 < m) : Measurable fun z => spotTimeArea a (peakOf m σ z) g w := by
  have h1 := peak_measurable (m := m) (σ := σ)
  have h2 := life_measurable (a := a) (m := m) (σ := σ) (g := g) (w := w) ha hm
  unfold spotTimeArea
  refine Measurable.ite (measurableSet_le measurable_const h1) (by fun_prop) ?_
  exact (((measurable_const.max h2).pow_const 2).const_mul w).div_const 2

/-- The mean of area times time. -/
theorem timeArea_mean (ha : 0 < a) (ham : a ≤ m) (hσ : 0 ≤ σ) (hg : 0 < g) (hw : 0 < w) :
    Integrable (fun z => spotTimeArea a (peakOf m σ z) g w) (gaussianReal 0 1) ∧
    (m * exp (σ ^ 2 / 2) - a) / Real.log (1 + g) + m ^ 2 * exp (2 * σ ^ 2) / (2 * w) ≤ ∫ z, spotTimeArea a (peakOf m σ z) g w ∂gaussianReal 0 1 ∧
    ∫ z, spotTimeArea a (peakOf m σ z) g w ∂gaussianReal 0 1 ≤
      (m * exp (σ ^ 2 / 2) - a) / Real.log (1 + g) + m ^ 2 * exp (2 * σ ^ 2) / (2 * w) + m * σ / (2 * Real.log (1 + g)) := by
  have hm : 0 < m := ha.trans_le ham
  have hL : 0 < Real.log (1 + g) := log_pos (by linarith)
  obtain ⟨i2, e2⟩ := neg_part_mean
  obtain ⟨i3, e3⟩ := peak_pow (m := m) (σ := σ) 1
  obtain ⟨i4, e4⟩ := peak_pow (m := m) (σ := σ) 2
  simp only [pow_one, Nat.cast_one, one_mul] at i3 e3
  have j1 : Integrable (fun z => (peakOf m σ z - a) / Real.log (1 + g)) (gaussianReal 0 1) := (i3.sub (integrable_const a)).div_const _
  have j2 : Integrable (fun z => peakOf m σ z ^ 2 / (2 * w)) (gaussianReal 0 1) := i4.div_const _
  have jJ : Integrable (fun z => (peakOf m σ z - a) / Real.log (1 + g) + peakOf m σ z ^ 2 / (2 * w)) (gaussianReal 0 1) := j1.add j2
  have eJ : ∫ z, ((peakOf m σ z - a) / Real.log (1 + g) + peakOf m σ z ^ 2 / (2 * w)) ∂gaussianReal 0 1 =
      (m * exp (σ ^ 2 / 2) - a) / Real.log (1 + g) + m ^ 2 * exp (2 * σ ^ 2) / (2 * w) := by
    rw [integral_add j1 j2, integral_div, integral_div, integral_sub i3 (integrable_const a), e3, e4]
    simp
    ring_nf
  have hlow : ∀ z, (peakOf m σ z - a) / Real.log (1 + g) + peakOf m σ z ^ 2 / (2 * w) ≤ spotTimeArea a (peakOf m σ z) g w := fun z =>
    (spotTimeArea_bounds ha (peak_pos hm z) hg hw).1
  have hup : ∀ z, spotTimeArea a (peakOf m σ z) g w ≤ ((peakOf m σ z - a) / Real.log (1 + g) + peakOf m σ z ^ 2 / (2 * w)) +
      m * σ / Real.log (1 + g) * max 0 (-z) := by
    intro z
    refine (spotTimeArea_bounds ha (peak_pos hm z) hg hw).2.trans ?_
    rw [add_le_add_iff_left, div_mul_eq_mul_div, div_le_div_iff_of_pos_right hL]
    refine max_le (mul_nonneg (by positivity) (le_max_left _ _)) ?_
    have h1 := add_one_le_exp (σ * z)
    have h2 : m * (1 - exp (σ * z)) ≤ m * (-(σ * z)) := mul_le_mul_of_nonneg_left (by linarith) hm.le
    have h3 : m * σ * -z ≤ m * σ * max 0 (-z) := mul_le_mul_of_nonneg_left (le_max_right _ _) (by positivity)
    unfold peakOf
    linarith
  have jI : Integrable (fun z => spotTimeArea a (peakOf m σ z) g w) (gaussianReal 0 1) := by
    have hb : Integrable (fun z => ((peakOf m σ z - a) / Real.log (1 + g) + peakOf m σ z ^ 2 / (2 * w)) +
      m * σ / Real.log (1 + g) * max 0 (-z)) (gaussianReal 0 1) := jJ.add (i2.const_mul _)
    refine Integrable.mono' hb (timeArea_measurable ha hm).aestronglyMeasurable
      (Filter.Eventually.of_forall fun z => ?_)
    rw [norm_eq_abs, abs_of_nonneg]
    · exact hup z
    · rw [← spotArea_integral ha (peak_pos hm z) hg hw]
      exact intervalIntegral.integral_nonneg (le_max_left _ _) fun t _ => (spotArea_mem ha (peak_pos hm z) hg hw t).1
  refine ⟨jI, ?_, ?_⟩
  · rw [← eJ]
    exact integral_mono jJ jI hlow
  · calc ∫ z, spotTimeArea a (peakOf m σ z) g w ∂gaussianReal 0 1 ≤
        ∫ z, (((peakOf m σ z - a) / Real.log (1 + g) + peakOf m σ z ^ 2 / (2 * w)) + m * σ / Real.log (1 + g) * max 0 (-z)) ∂gaussianReal 0 1 :=
          integral_mono jI (jJ.add (i2.const_mul _)) hup
      _ = (m * exp (σ ^ 2 / 2) - a) / Real.log (1 + g) + m ^ 2 * exp (2 * σ ^ 2) / (2 * w) +
          m * σ / Real.log (1 + g) * ∫ z, max 0 (-z) ∂gaussianReal 0 1 := by
          rw [integral_add jJ (i2.const_mul _), eJ, integral_const_mul]
      _ ≤ _ := by
          have : m * σ / Real.log (1 + g) * ∫ z, max 0 (-z) ∂gaussianReal 0 1 ≤ m * σ / Real.log (1 + g) * (1 / 2) :=
            mul_le_mul_of_nonneg_left e2 (by positivity)
          rw [show m * σ / (2 * Real.log (1 + g)) = m * σ / Real.log (1 + g) * (1 / 2) by field_simp]
          linarith

/-- The error terms have a mean. -/
theorem life_sq_integrable (ha : 0 < a) (hm : 0 < m) (k : ℕ) :
    Integrable (fun z => peakOf m σ z ^ k * max 0 (spotLife a (peakOf m σ z) g w) ^ 2) (gaussianReal 0 1) := by
  set α := Real.log (m / a) / Real.log (1 + g) with hα
  set β := σ / Real.log (1 + g) with hβ
  have hb : Integrable (fun z => 3 * α ^ 2 * peakOf m σ z ^ k + 6 * β ^ 2 * (m ^ k * exp ((k * σ + 1) * z)) +
      6 * β ^ 2 * (m ^ k * exp ((k * σ - 1) * z)) + 3 / w ^ 2 * peakOf m σ z ^ (k + 2)) (gaussianReal 0 1) :=
    ((((peak_pow k).1.const_mul _).add (((normal_exp_integrable _).const_mul _).const_mul _)).add
      (((normal_exp_integrable _).const_mul _).const_mul _)).add ((peak_pow (k + 2)).1.const_mul _)
  have h1 := peak_measurable (m := m) (σ := σ)
  have h2 := life_measurable (a := a) (m := m) (σ := σ) (g := g) (w := w) ha hm
  refine Integrable.mono' hb ((h1.pow_const k).mul ((measurable_const.max h2).pow_const 2)).aestronglyMeasurable
    (Filter.Eventually.of_forall fun z => ?_)
  have hp := peak_pos (σ := σ) hm z
  have hpk : 0 < peakOf m σ z ^ k := by positivity
  rw [norm_eq_abs, abs_of_nonneg (by positivity)]
  have hsq : max 0 (spotLife a (peakOf m σ z) g w) ^ 2 ≤ spotLife a (peakOf m σ z) g w ^ 2 := by
    rcases le_total 0 (spotLife a (peakOf m σ z) g w) with h | h
    · rw [max_eq_right h]
    · rw [max_eq_left h]; simp only [ne_eq, OfNat.ofNat_ne_zero, not_false_eq_true, zero_pow]; positivity
  have h3 : spotLife a (peakOf m σ z) g w ^ 2 ≤ 3 * (α ^ 2 + β ^ 2 * z ^ 2 + (peakOf m σ z / w) ^ 2) := by
    rw [life_eq ha hm, ← hα, ← hβ]
    nlinarith [sq_nonneg (α - β * z), sq_nonneg (α - peakOf m σ z / w), sq_nonneg (β * z - peakOf m σ z / w)]
  have h4 : β ^ 2 * z ^ 2 ≤ β ^ 2 * (2 * (exp z + exp (-z))) := mul_le_mul_of_nonneg_left (normal_sq_le z) (sq_nonneg _)
  have e1 : m ^ k * exp ((k * σ + 1) * z) = peakOf m σ z ^ k * exp z := by
    rw [peakOf, mul_pow, ← exp_nat_mul, mul_assoc, ← exp_add]; ring_nf
  have e2 : m ^ k * exp ((k * σ - 1) * z) = peakOf m σ z ^ k * exp (-z) := by
    rw [peakOf, mul_pow, ← exp_nat_mul, mul_assoc, ← exp_add]; ring_nf
  rw [e1, e2]
  calc peakOf m σ z ^ k * max 0 (spotLife a (peakOf m σ z) g w) ^ 2 ≤
      peakOf m σ z ^ k * (3 * (α ^ 2 + β ^ 2 * (2 * (exp z + exp (-z))) + (peakOf m σ z / w) ^ 2)) :=
        mul_le_mul_of_nonneg_left (by linarith) hpk.le
    _ = _ := by rw [div_pow]; ring

end Means

/-! ### A run of the star -/

/-- One step of a run: spots are born, then the star ages. -/
def Spec.spotStep (dt : ℝ) (k : ℕ) (d : (n : ℕ) → SpotDraws n) : List Op := [.birthSpots dt k d, .age dt]

theorem spotStep_ok (s : Star) (dt x : ℝ) (hx : s.spotGen.nExpected dt s.radius = .fin x) (k : ℕ)
    (d : (n : ℕ) → SpotDraws n) (hp : Np.poisson (.fin x) k = .ok k) (hok : ∃ l, s.spotGen.generate k (d k) = .ok l) :
    ∃ s', (spotStep dt k d).foldlM runOp s = .ok s' ∧ s'.spotGen = s.spotGen ∧ s'.radius = s.radius := by
  obtain ⟨l, hl⟩ := hok
  have hb : s.spotGen.birth dt s.radius k d = .ok l := by
    unfold SpotGenerator.birth
    rw [hx, hp]; exact hl
  obtain ⟨s₁, h1⟩ : ∃ s₁, runOp s (.birthSpots dt k d) = .ok s₁ := by
    simp only [runOp, Star.birthSpots, hb, Except.map]
    exact ⟨_, rfl⟩
  obtain ⟨s₂, h2⟩ : ∃ s₂, runOp s₁ (.age dt) = .ok s₂ := ⟨_, rfl⟩
  have f1 := (step_frame h1).1
  have f2 := (step_frame h2).1
  refine ⟨s₂, ?_, by rw [f2.spotGen, f1.spotGen], by rw [f2.radius, f1.radius]⟩
  simp only [spotStep, List.foldlM_cons, List.foldlM_nil, h1, h2, bind, Except.bind, pure, Except.pure]

theorem spotRun_ok (dt x : ℝ) (k : ℕ → ℕ) (d : ℕ → (n : ℕ) → SpotDraws n) (js : List ℕ) (s : Star)
    (hx : s.spotGen.nExpected dt s.radius = .fin x)
    (hp : ∀ j ∈ js, Np.poisson (.fin x) (k j) = .ok (k j)) (hok : ∀ j n, ∃ l, s.spotGen.generate n (d j n) = .ok l) :
    ∃ s', (js.flatMap fun j => spotStep dt (k j) (d j)).foldlM runOp s = .ok s' := by
  induction js generalizing s with
  | nil => exact ⟨s, rfl⟩
  | cons j js ih =>
    obtain ⟨s₁, h1, e1, e2⟩ := spotStep_ok s dt x hx (k j) (d j) (hp j (by simp)) (hok j _)
    obtain ⟨s₂, h2⟩ := ih s₁ (by rw [e1, e2]; exact hx) (fun j' hj' => hp j' (by simp [hj'])) (by rw [e1]; exact hok)
    refine ⟨s₂, ?_⟩
    rw [List.flatMap_cons, List.foldlM_append, h1]
    exact h2

theorem ages_spotRun (dt : ℝ) (k : ℕ → ℕ) (d : ℕ → (n : ℕ) → SpotDraws n) (js : List ℕ) :
    ages (js.flatMap fun j => spotStep dt (k j) (d j)) = List.replicate js.length dt := by
  induction js with
  | nil => rfl
  | cons j js ih =>
    rw [List.flatMap_cons]
    simp only [spotStep, List.cons_append, List.nil_append, ages, List.length_cons, List.replicate_succ]
    exact congrArg _ ih

theorem spotPopulation_sum (s : Star) (dt x : ℝ) (hx : s.spotGen.nExpected dt s.radius = .fin x) (k : ℕ → ℕ)
    (d : ℕ → (n : ℕ) → SpotDraws n) (g : Grid) (φ : StarSpot → ℝ≥0∞) (Φ : ℝ → ℝ → ℝ≥0∞)
    (hΦ : ∀ (n : ℕ) (e : SpotDraws n) (l : List StarSpot), s.spotGen.generate n e = .ok l → ∀ (i : ℕ) (hi : i < l.length) (hn : i < n) (t : ℝ),
      (spotLater t { l[i] with grid := g }).elim 0 φ = Φ t (e.z ⟨i, hn⟩))
    (js : List ℕ) (hp : ∀ j ∈ js, Np.poisson (.fin x) (k j) = .ok (k j)) (news : List (List StarSpot))
    (h : List.Forall₂ (spotsOf s) (js.flatMap fun j => spotStep dt (k j) (d j)) news) :
    ((population spotLater (js.flatMap fun j => spotStep dt (k j) (d j)) (news.map (spotsOn g))).map φ).sum =
      facSum Φ dt k (fun j n i => (d j n).z i) js := by
  induction js generalizing news with
  | nil => cases h; rfl
  | cons j js ih =>
    have hages := ages_spotRun dt k d js
    rw [List.flatMap_cons] at h ⊢
    rw [show spotStep dt (k j) (d j) = [.birthSpots dt (k j) (d j), .age dt] from rfl] at h ⊢
    simp only [List.cons_append, List.nil_append] at h ⊢
    obtain ⟨new, l', h1, h2, rfl⟩ := List.forall₂_cons_left_iff.mp h
    obtain ⟨new2, rest, h3, h4, rfl⟩ := List.forall₂_cons_left_iff.mp h2
    have hn2 : new2 = [] := h3
    have hn : s.spotGen.generate (k j) (d j (k j)) = .ok new := by
      have : s.spotGen.birth dt s.radius (k j) (d j) = .ok new := h1
      unfold SpotGenerator.birth at this
      rw [hx, hp j (by simp)] at this
      exact this
    subst hn2
    have hlen : new.length = k j := ((C27_generate _ _ _).2.2 new hn).1
    have ih' := ih (fun j' hj' => hp j' (by simp [hj'])) rest h4
    have hage : ages (Op.age dt :: List.flatMap (fun j => spotStep dt (k j) (d j)) js) = dt :: List.replicate js.length dt :=
      congrArg (dt :: ·) hages
    have hsum : (dt :: List.replicate js.length dt).sum = ((js.length + 1 : ℕ) : ℝ) * dt := by
      simp
      ring
    simp only [List.map_cons, population, spotsOn, List.map_nil, later_nil, List.nil_append]
    rw [List.map_append, List.sum_append, facSum]
    congr 1
    unfold later
    rw [hage, if_neg (by simp), hsum, sum_filterMap, List.map_map]
    rw [show (fun i : Fin (k j) => Φ ((js.length + 1 : ℕ) * dt) ((d j (k j)).z i)) = _ from
      funext fun i => (hΦ _ _ new hn i (by rw [hlen]; exact i.2) i.2 _).symm]
    rw [← List.sum_ofFn]
    congr 1
    apply List.ext_getElem
    · simp [hlen]
    · intro n h1 h2
      simp

/-! ### The spots of a run -/

/-- Present area of a spot (spec). -/
def Spec.spotAreaNow (s : StarSpot) : ℝ := match s.area with | .fin a => a | _ => 0

theorem spot_later (G : SpotGenerator) (h2 : 0 < G.distAreaMean) (hg : 0 < G.growthRate) (hw : 0 < G.decayRate)
    (g : Grid) (n : ℕ) (e : SpotDraws n) (l : List StarSpot) (hl : G.generate n e = .ok l) (i : ℕ) (hi : i < l.length) (hn : i < n) (t : ℝ) :
    let p := peakOf G.distAreaMean G.distAreaLogsigma (e.z ⟨i, hn⟩)
    (spotLater t { l[i] with grid := g }).elim 0 (fun _ => (1 : ℝ≥0∞)) = ENNReal.ofReal (aliveAt (spotLife G.initArea p G.growthRate G.decayRate) t) ∧
    (spotLater t { l[i] with grid := g }).elim 0 (fun s => ENNReal.ofReal (spotAreaNow s)) =
      ENNReal.ofReal (spotAreaAt G.initArea p G.growthRate G.decayRate t) := by
  intro p
  obtain ⟨k1, k2, k3⟩ := (C27_generate G n e).2.2 l hl
  have hb := k2 l[i] (List.getElem_mem hi)
  have hm : l[i].areaMax = p := k3 h2 i hi hn
  have hp : 0 < p := peak_pos h2 _
  have hpw : 0 < p / G.decayRate := by positivity
  set T := Real.log (p / G.initArea) / Real.log (1 + G.growthRate) with hT
  have hlife : spotLife G.initArea p G.growthRate G.decayRate = T + p / G.decayRate := rfl
  have hiff : (t - T) * G.decayRate < p ↔ t < T + p / G.decayRate := by
    rw [← lt_div_iff₀ hw]; constructor <;> intro <;> linarith
  unfold spotLater aliveAt spotAreaAt
  rw [hlife, ← hT]
  simp only [hb.area, hb.growing, hm, hb.growth, hb.decay, if_true, if_neg hg.ne', ← hT]
  by_cases c1 : t < T
  · simp only [c1, if_true, Option.elim_some, spotAreaNow]
    rw [if_pos (by linarith)]
    simp
  · by_cases c2 : t < T + p / G.decayRate
    · simp only [c1, if_false, c2, if_true, hiff.mpr c2, Option.elim_some, spotAreaNow]
      refine ⟨by simp, ?_⟩
      congr 1
      field_simp
      ring
    · have c3 : ¬ (t - T) * G.decayRate < p := fun h => c2 (hiff.mp h)
      simp only [c1, if_false, c2, c3, Option.elim_none]
      simp

theorem alive_max (Λ : ℝ) {t : ℝ} (ht : 0 ≤ t) : aliveAt Λ t = aliveAt (max 0 Λ) t := by
  unfold aliveAt
  have : t < Λ ↔ t < max 0 Λ := by
    rw [lt_max_iff]
    constructor
    · exact Or.inr
    · rintro (h | h)
      · exact absurd h (not_lt.mpr ht)
      · exact h
  by_cases h : t < Λ
  · rw [if_pos h, if_pos (this.mp h)]
  · rw [if_neg h, if_neg fun h' => h (this.mpr h')]

section MeanSums

variable {a m σ g w : ℝ}

theorem spot_mean_alive (ha : 0 < a) (ham : a ≤ m) (hσ : 0 ≤ σ) (hg : 0 < g) (hw : 0 < w) {dt : ℝ} (hd : 0 < dt) {N : ℕ} (hN : 0 < N) :
    ∃ I : ℝ, ∑ k ∈ Finset.range N, ∫⁻ z, ENNReal.ofReal (aliveAt (spotLife a (peakOf m σ z) g w) ((k + 1 : ℕ) * dt)) ∂gaussianReal 0 1 =
        ENNReal.ofReal I ∧ 0 ≤ I ∧ dt * I ≤ ∫ z, max 0 (spotLife a (peakOf m σ z) g w) ∂gaussianReal 0 1 ∧
      (∫ z, max 0 (spotLife a (peakOf m σ z) g w) ∂gaussianReal 0 1) -
        (∫ z, max 0 (spotLife a (peakOf m σ z) g w) ^ 2 ∂gaussianReal 0 1) / 4 / (N * dt) - dt ≤ dt * I := by
  have hm : 0 < m := ha.trans_le ham
  have hLm := life_measurable (a := a) (m := m) (σ := σ) (g := g) (w := w) ha hm
  have i1 := (life_mean ha ham hσ hg hw).1
  have i2 : Integrable (fun z => max 0 (spotLife a (peakOf m σ z) g w) ^ 2) (gaussianReal 0 1) := by
    have := life_sq_integrable (a := a) (m := m) (σ := σ) (g := g) (w := w) ha hm 0
    simpa only [pow_zero, one_mul] using this
  set ψ : ℕ → ℝ → ℝ := fun k z => aliveAt (spotLife a (peakOf m σ z) g w) ((k + 1 : ℕ) * dt) with hψ
  have hmeas : ∀ k, Measurable (ψ k) := by
    intro k
    simp only [hψ, aliveAt]
    exact Measurable.ite (measurableSet_lt measurable_const hLm) measurable_const measurable_const
  have hsum : ∀ z, max 0 (spotLife a (peakOf m σ z) g w) - max 0 (spotLife a (peakOf m σ z) g w) ^ 2 / 4 / (N * dt) - dt ≤
      dt * ∑ k ∈ Finset.range N, ψ k z ∧ dt * ∑ k ∈ Finset.range N, ψ k z ≤ max 0 (spotLife a (peakOf m σ z) g w) := by
    intro z
    have := alive_sum (Λ := max 0 (spotLife a (peakOf m σ z) g w)) (le_max_left _ _) hd hN
    rw [← div_div] at this
    have e : ∀ k ∈ Finset.range N, ψ k z = aliveAt (max 0 (spotLife a (peakOf m σ z) g w)) ((k + 1 : ℕ) * dt) := fun k _ =>
      alive_max _ (by positivity)
    rw [Finset.sum_congr rfl e]
    exact this
  have hi : Integrable (fun z => ∑ k ∈ Finset.range N, ψ k z) (gaussianReal 0 1) := by
    refine Integrable.of_bound (C := N) (Finset.measurable_sum _ fun k _ => hmeas k).aestronglyMeasurable (Filter.Eventually.of_forall fun z => ?_)
    rw [norm_eq_abs, abs_of_nonneg (Finset.sum_nonneg fun k _ => (aliveAt_mem _ _).1)]
    calc ∑ k ∈ Finset.range N, ψ k z ≤ ∑ k ∈ Finset.range N, (1 : ℝ) := Finset.sum_le_sum fun k _ => (aliveAt_mem _ _).2
      _ = N := by simp
  refine ⟨∫ z, ∑ k ∈ Finset.range N, ψ k z ∂gaussianReal 0 1, sum_lintegral_ofReal ψ hmeas (fun k z => (aliveAt_mem _ _).1) _ hi,
    integral_nonneg fun z => Finset.sum_nonneg fun k _ => (aliveAt_mem _ _).1, ?_, ?_⟩
  · rw [← integral_const_mul]
    exact integral_mono (hi.const_mul _) i1 fun z => (hsum z).2
  · have j2 : Integrable (fun z => max 0 (spotLife a (peakOf m σ z) g w) ^ 2 / 4 / (N * dt)) (gaussianReal 0 1) := (i2.div_const 4).div_const _
    have j3 : Integrable (fun z => max 0 (spotLife a (peakOf m σ z) g w) - max 0 (spotLife a (peakOf m σ z) g w) ^ 2 / 4 / (N * dt))
      (gaussianReal 0 1) := i1.sub j2
    have e3 : (∫ z, max 0 (spotLife a (peakOf m σ z) g w) ∂gaussianReal 0 1) -
        (∫ z, max 0 (spotLife a (peakOf m σ z) g w) ^ 2 ∂gaussianReal 0 1) / 4 / (N * dt) - dt =
        ∫ z, (max 0 (spotLife a (peakOf m σ z) g w) - max 0 (spotLife a (peakOf m σ z) g w) ^ 2 / 4 / (N * dt) - dt) ∂gaussianReal 0 1 := by
      rw [integral_sub j3 (integrable_const _), integral_sub i1 j2, integral_div, integral_div]
      simp only [integral_const, probReal_univ, smul_eq_mul, one_mul]
    rw [e3, ← integral_const_mul]
    exact integral_mono (j3.sub (integrable_const _)) (hi.const_mul _) fun z => (hsum z).1

theorem spotAreaAt_measurable (ha : 0 < a) (hm : 0 < m) (t : ℝ) : Measurable fun z => spotAreaAt a (peakOf m σ z) g w t := by
  have hLm := life_measurable (a := a) (m := m) (σ := σ) (g := g) (w := w) ha hm
  have h1 := peak_measurable (m := m) (σ := σ)
  unfold spotAreaAt
  refine Measurable.ite (measurableSet_lt measurable_const ?_) measurable_const
    (Measurable.ite (measurableSet_lt measurable_const hLm) ((hLm.sub_const t).const_mul w) measurable_const)
  fun_prop

theorem spot_mean_area (ha : 0 < a) (ham : a ≤ m) (hσ : 0 ≤ σ) (hg : 0 < g) (hw : 0 < w) {dt : ℝ} (hd : 0 < dt) {N : ℕ} (hN : 0 < N) :
    ∃ I : ℝ, ∑ k ∈ Finset.range N, ∫⁻ z, ENNReal.ofReal (spotAreaAt a (peakOf m σ z) g w ((k + 1 : ℕ) * dt)) ∂gaussianReal 0 1 =
        ENNReal.ofReal I ∧ 0 ≤ I ∧ |dt * I - ∫ z, spotTimeArea a (peakOf m σ z) g w ∂gaussianReal 0 1| ≤
        m * exp (σ ^ 2 / 2) * dt + (∫ z, peakOf m σ z * max 0 (spotLife a (peakOf m σ z) g w) ^ 2 ∂gaussianReal 0 1) / 4 / (N * dt) := by
  have hm : 0 < m := ha.trans_le ham
  have i1 := (timeArea_mean ha ham hσ hg hw).1
  obtain ⟨i2, e2⟩ := peak_pow (m := m) (σ := σ) 1
  simp only [pow_one, Nat.cast_one, one_mul] at i2 e2
  have i3 : Integrable (fun z => peakOf m σ z * max 0 (spotLife a (peakOf m σ z) g w) ^ 2) (gaussianReal 0 1) := by
    have := life_sq_integrable (a := a) (m := m) (σ := σ) (g := g) (w := w) ha hm 1
    simpa only [pow_one] using this
  set ψ : ℕ → ℝ → ℝ := fun k z => spotAreaAt a (peakOf m σ z) g w ((k + 1 : ℕ) * dt) with hψ
  have hmeas : ∀ k, Measurable (ψ k) := fun k => spotAreaAt_measurable ha hm _
  have hmem : ∀ k z, 0 ≤ ψ k z ∧ ψ k z ≤ peakOf m σ z := fun k z => spotArea_mem ha (peak_pos hm z) hg hw _
  have hi : Integrable (fun z => ∑ k ∈ Finset.range N, ψ k z) (gaussianReal 0 1) := by
    refine integrable_finsetSum _ fun k _ => i2.mono' (hmeas k).aestronglyMeasurable (Filter.Eventually.of_forall fun z => ?_)
    rw [norm_eq_abs, abs_of_nonneg (hmem k z).1]
    exact (hmem k z).2
  refine ⟨∫ z, ∑ k ∈ Finset.range N, ψ k z ∂gaussianReal 0 1, sum_lintegral_ofReal ψ hmeas (fun k z => (hmem k z).1) _ hi,
    integral_nonneg fun z => Finset.sum_nonneg fun k _ => (hmem k z).1, ?_⟩
  have j2 : Integrable (fun z => peakOf m σ z * dt) (gaussianReal 0 1) := i2.mul_const dt
  have j3 : Integrable (fun z => peakOf m σ z * max 0 (spotLife a (peakOf m σ z) g w) ^ 2 / 4 / (N * dt)) (gaussianReal 0 1) :=
    (i3.div_const 4).div_const _
  have e3 : m * exp (σ ^ 2 / 2) * dt + (∫ z, peakOf m σ z * max 0 (spotLife a (peakOf m σ z) g w) ^ 2 ∂gaussianReal 0 1) / 4 / (N * dt) =
      ∫ z, (peakOf m σ z * dt + peakOf m σ z * max 0 (spotLife a (peakOf m σ z) g w) ^ 2 / 4 / (N * dt)) ∂gaussianReal 0 1 := by
    rw [integral_add j2 j3, integral_mul_const, integral_div, integral_div, e2]
  rw [e3, ← integral_const_mul, ← integral_sub (hi.const_mul _) i1]
  refine (abs_integral_le_integral_abs).trans ?_
  exact integral_mono ((hi.const_mul _).sub i1).abs (j2.add j3) fun z => spotArea_sum ha (peak_pos hm z) hg hw hd hN

end MeanSums

/-- **C121** The settled population of spots.  A star without spots goes through `N` steps of length `dt`, in each of which spots are
born for the time `dt` and the star ages by `dt`.  The run succeeds almost surely.  If `r` is the expected number of births per day,
the mean number of spots at the end is `r·L` up to the births of one step and a term that goes to zero with `1/(N dt)`, where `L` is the
mean lifetime of the spots, and the mean of their total area is `r·I` up to similar terms, where `I` is the mean of area times
time.  Here `r·((m+A₀)/g + m²/(2w)) = coverage·4πR²`, while `I` is
`(m e^{σ²/2} − A₀)/ln(1+g) + m² e^{2σ²}/(2w)` up to `mσ/(2 ln(1+g))`; so the coverage of the star settles to a different value
from the one asked for. -/
theorem C121_settled_spots {Ω : Type*} [MeasurableSpace Ω] (P : Measure Ω) (s₀ : Star) (hg : GoodGens s₀) (h₀ : SoundStar s₀)
    (hs : s₀.spots.spots = []) (hmean : s₀.spotGen.initArea ≤ s₀.spotGen.distAreaMean) (hgr : 0 < s₀.spotGen.growthRate)
    (hdec : 0 < s₀.spotGen.decayRate) (hσ : 0 ≤ s₀.spotGen.distAreaLogsigma) (hdist : s₀.spotGen.distribution ≠ .other)
    (hc : 0 ≤ s₀.spotGen.coverage) :
    let G := s₀.spotGen
    ∃ r L I C₁ C₂ : ℝ, r * ((G.distAreaMean + G.initArea) / G.growthRate + G.distAreaMean ^ 2 / (2 * G.decayRate)) =
        G.coverage * (4 * π * s₀.radius ^ 2) ∧
      (let l₀ := Real.log (G.distAreaMean / G.initArea) / Real.log (1 + G.growthRate) +
          G.distAreaMean * exp (G.distAreaLogsigma ^ 2 / 2) / G.decayRate; l₀ ≤ L ∧ L ≤ l₀ + G.distAreaLogsigma / (2 * Real.log (1 + G.growthRate))) ∧
      (let i₀ := (G.distAreaMean * exp (G.distAreaLogsigma ^ 2 / 2) - G.initArea) / Real.log (1 + G.growthRate) +
          G.distAreaMean ^ 2 * exp (2 * G.distAreaLogsigma ^ 2) / (2 * G.decayRate); i₀ ≤ I ∧ I ≤ i₀ + G.distAreaMean * G.distAreaLogsigma / (2 * Real.log (1 + G.growthRate))) ∧
      ∀ (dt : ℝ) (N : ℕ), 0 < dt → 0 < N → G.nExpected dt s₀.radius = .fin (r * dt) ∧
      ∀ (K : ℕ → Ω → ℕ) (D : ℕ → Ω → (n : ℕ) → SpotDraws n),
      (∀ j, FairLives P (r * dt) (K j) fun ω n i => (D j ω n).z i) → (∀ᵐ ω ∂P, ∀ j n, ∃ k, ∀ i, 0 < (D j ω n).ratios k i) →
      ∃ (S : Ω → Star) (M A : ℝ),
        (∀ᵐ ω ∂P, ((List.range N).flatMap fun j => [Op.birthSpots dt (K j ω) (D j ω), Op.age dt]).foldlM runOp s₀ = .ok (S ω)) ∧
        ∫⁻ ω, ((S ω).spots.spots.length : ℝ≥0∞) ∂P = ENNReal.ofReal M ∧
        ∫⁻ ω, (((S ω).spots.spots.map fun s => ENNReal.ofReal (spotAreaNow s)).sum) ∂P = ENNReal.ofReal A ∧ 0 ≤ M ∧ 0 ≤ A ∧
        M ≤ r * L ∧ r * L - r * dt - r * C₁ / (N * dt) ≤ M ∧
        |A - r * I| ≤ r * dt * (G.distAreaMean * exp (G.distAreaLogsigma ^ 2 / 2)) + r * C₂ / (N * dt) := by
  intro G
  have h1 : 0 < G.initArea := hg.init
  have h2 : 0 < G.distAreaMean := hg.mean
  obtain ⟨L', A', n, b1, b2, b3, b4, b5, b6⟩ := C26_births_balance G h1 hmean hgr hdec hc s₀.radius
  obtain ⟨L'', A'', c1, c2, c3, c4, -, -, -, c5, -⟩ := C25_generator_statistics_partial G h1 hmean hgr hdec 0 0 0 0 (.fin 5)
  obtain rfl : L' = L'' := by rw [b1] at c1; exact Fl.fin_inj.mp c1
  obtain rfl : A' = A'' := by rw [b2] at c2; exact Fl.fin_inj.mp c2
  have hne : L' * A' ≠ 0 := (mul_pos c3 c4).ne'
  have hlin : ∀ t, n t = n 1 * t := by
    intro t
    have e1 := b4 t
    have e2 := b4 1
    rw [mul_assoc] at e1 e2
    apply mul_right_cancel₀ hne
    rw [e1, mul_right_comm (n 1), e2]
    ring
  have hr0 : 0 ≤ n 1 := b5 1 zero_le_one
  obtain ⟨-, l1, l2⟩ := life_mean (a := G.initArea) (m := G.distAreaMean) (σ := G.distAreaLogsigma) (g := G.growthRate) (w := G.decayRate)
    h1 hmean hσ hgr hdec
  obtain ⟨-, t1, t2⟩ := timeArea_mean (a := G.initArea) (m := G.distAreaMean) (σ := G.distAreaLogsigma) (g := G.growthRate) (w := G.decayRate)
    h1 hmean hσ hgr hdec
  refine ⟨n 1, _, _, (∫ z, max 0 (spotLife G.initArea (peakOf G.distAreaMean G.distAreaLogsigma z) G.growthRate G.decayRate) ^ 2 ∂gaussianReal 0 1) / 4,
    (∫ z, peakOf G.distAreaMean G.distAreaLogsigma z *
      max 0 (spotLife G.initArea (peakOf G.distAreaMean G.distAreaLogsigma z) G.growthRate G.decayRate) ^ 2 ∂gaussianReal 0 1) / 4,
    ?_, ⟨l1, l2⟩, ⟨t1, t2⟩, fun dt N hd hN => ⟨by rw [b3, hlin], fun K D hF hacc => ?_⟩⟩
  · rw [← c5, mul_comm A', ← mul_assoc, b4, mul_one]
  set x := n 1 * dt with hx
  have hx0 : 0 ≤ x := by positivity
  have hxe : s₀.spotGen.nExpected dt s₀.radius = .fin x := by rw [hx, ← hlin]; exact b3 dt
  have hpo : ∀ᵐ ω ∂P, (∀ j, Np.poisson (.fin x) (K j ω) = .ok (K j ω)) ∧ ∀ j n, ∃ k, ∀ i, 0 < (D j ω n).ratios k i := by
    refine Filter.Eventually.and ?_ hacc
    rw [ae_all_iff]
    exact fun j => poisson_ok P x hx0 (K j) (hF j).count_measurable (hF j).count
  have hrun : ∀ ω, ∃ S, ((∀ j, Np.poisson (.fin x) (K j ω) = .ok (K j ω)) ∧ ∀ j n, ∃ k, ∀ i, 0 < (D j ω n).ratios k i) →
      ((List.range N).flatMap fun j => spotStep dt (K j ω) (D j ω)).foldlM runOp s₀ = .ok S := by
    intro ω
    by_cases h : (∀ j, Np.poisson (.fin x) (K j ω) = .ok (K j ω)) ∧ ∀ j n, ∃ k, ∀ i, 0 < (D j ω n).ratios k i
    · obtain ⟨S, hS⟩ := spotRun_ok dt x (fun j => K j ω) (fun j => D j ω) (List.range N) s₀ hxe (fun j _ => h.1 j)
        (fun j n => (C27_generate s₀.spotGen n (D j ω n)).1 hσ hdist (h.2 j n))
      exact ⟨S, fun _ => hS⟩
    · exact ⟨s₀, fun h' => absurd h' h⟩
  choose S hS using hrun
  have hsum : ∀ (φ : StarSpot → ℝ≥0∞) (Φ : ℝ → ℝ → ℝ≥0∞), (∀ t, Measurable (Φ t)) →
      (∀ (n : ℕ) (e : SpotDraws n) (l : List StarSpot), s₀.spotGen.generate n e = .ok l → ∀ (i : ℕ) (hi : i < l.length) (hn : i < n) (t : ℝ),
        (spotLater t { l[i] with grid := s₀.spots.grid }).elim 0 φ = Φ t (e.z ⟨i, hn⟩)) →
      ∫⁻ ω, (((S ω).spots.spots.map φ).sum) ∂P =
        ENNReal.ofReal x * ∑ k ∈ Finset.range N, ∫⁻ y, Φ ((k + 1 : ℕ) * dt) y ∂gaussianReal 0 1 := by
    intro φ Φ hm hΦ
    have h1 := (facSum_mean P x dt K (fun j ω n i => (D j ω n).z i) hF Φ hm (List.range N)).2
    rw [List.length_range] at h1
    rw [← h1]
    refine lintegral_congr_ae ?_
    filter_upwards [hpo] with ω hω
    have hop : ∀ op ∈ ((List.range N).flatMap fun j => spotStep dt (K j ω) (D j ω)), Sane op := by
      intro op hop
      obtain ⟨j, -, hj⟩ := List.mem_flatMap.mp hop
      simp only [spotStep, List.mem_cons, List.not_mem_nil, or_false] at hj
      rcases hj with rfl | rfl
      · trivial
      · exact hd.le
    obtain ⟨⟨news, k1, k2⟩, -⟩ := C105_population s₀ (S ω) _ hg h₀ hop (hS ω hω)
    rw [k2, hs, later_nil, List.nil_append]
    exact spotPopulation_sum s₀ dt x hxe (fun j => K j ω) (fun j => D j ω) s₀.spots.grid φ Φ hΦ (List.range N) (fun j _ => hω.1 j) news k1
  obtain ⟨I, m1, m2, m3, m4⟩ := spot_mean_alive (a := G.initArea) (m := G.distAreaMean) (σ := G.distAreaLogsigma) (g := G.growthRate) (w := G.decayRate)
    h1 hmean hσ hgr hdec hd hN
  obtain ⟨J, a1, a2, a3⟩ := spot_mean_area (a := G.initArea) (m := G.distAreaMean) (σ := G.distAreaLogsigma) (g := G.growthRate) (w := G.decayRate)
    h1 hmean hσ hgr hdec hd hN
  have hLm := life_measurable (a := G.initArea) (m := G.distAreaMean) (σ := G.distAreaLogsigma) (g := G.growthRate) (w := G.decayRate) h1 h2
  have hcount : ∫⁻ ω, ((S ω).spots.spots.length : ℝ≥0∞) ∂P = ENNReal.ofReal (x * I) := by
    have := hsum (fun _ => 1)
      (fun t z => ENNReal.ofReal (aliveAt (spotLife G.initArea (peakOf G.distAreaMean G.distAreaLogsigma z) G.growthRate G.decayRate) t))
      (fun t => by
        refine Measurable.ennreal_ofReal ?_
        unfold aliveAt
        exact Measurable.ite (measurableSet_lt measurable_const hLm) measurable_const measurable_const)
      (fun n e l hl i hi hn t => (spot_later G h2 hgr hdec s₀.spots.grid n e l hl i hi hn t).1)
    rw [m1, ← ENNReal.ofReal_mul hx0] at this
    rw [← this]
    refine lintegral_congr fun ω => ?_
    simp
  have harea : ∫⁻ ω, (((S ω).spots.spots.map fun s => ENNReal.ofReal (spotAreaNow s)).sum) ∂P = ENNReal.ofReal (x * J) := by
    have := hsum (fun s => ENNReal.ofReal (spotAreaNow s))
      (fun t z => ENNReal.ofReal (spotAreaAt G.initArea (peakOf G.distAreaMean G.distAreaLogsigma z) G.growthRate G.decayRate t))
      (fun t => (spotAreaAt_measurable h1 h2 t).ennreal_ofReal)
      (fun n e l hl i hi hn t => (spot_later G h2 hgr hdec s₀.spots.grid n e l hl i hi hn t).2)
    rw [a1, ← ENNReal.ofReal_mul hx0] at this
    exact this
  refine ⟨S, x * I, x * J, ?_, hcount, harea, by positivity, by positivity, ?_, ?_, ?_⟩
  · filter_upwards [hpo] with ω hω
    exact hS ω hω
  · have := mul_le_mul_of_nonneg_left m3 hr0
    rw [hx, mul_assoc]
    exact this
  · have := mul_le_mul_of_nonneg_left m4 hr0
    rw [hx, mul_assoc (n 1) dt I]
    refine le_trans (le_of_eq ?_) this
    ring
  · have := mul_le_mul_of_nonneg_left a3 hr0
    rw [← abs_of_nonneg hr0, ← abs_mul, abs_of_nonneg hr0, mul_sub, ← mul_assoc, ← hx] at this
    refine this.trans (le_of_eq ?_)
    rw [hx]
    ring

/-! ### Example -/

/-- A star of radius 1000 km on which spots of 1000 km² that decay within a day are to cover a tenth of the surface. -/
def spotsStar : Star :=
  { busyStar with radius := 1000, faculae := ⟨[], .rect 3 4⟩, spots := .new [] (.rect 3 4), facGen := FaculaGenerator.off (.rect 3 4), spotGen := { SpotGenerator.off (.rect 3 4) with coverage := 0.1, distAreaMean := 1000, initArea := 1000, distAreaLogsigma := 0, growthRate := 1, decayRate := 1000 } }

/-- Non-trivial instance of C121: in the long run the spots of this star cover on average between 19 and 21 per cent of the area asked
for. -/
example : ∃ (N : ℕ) (P : Measure (ℕ × ℝ)) (K : ℕ → ℕ × ℝ → ℕ) (D : ℕ → ℕ × ℝ → (n : ℕ) → SpotDraws n) (S : ℕ × ℝ → Star) (A : ℝ),
    0 < N ∧ IsProbabilityMeasure P ∧
    (∀ᵐ ω ∂P, ((List.range N).flatMap fun j => [Op.birthSpots (1 / 1000) (K j ω) (D j ω), Op.age (1 / 1000)]).foldlM runOp spotsStar = .ok (S ω)) ∧
    ∫⁻ ω, (((S ω).spots.spots.map fun s => ENNReal.ofReal (spotAreaNow s)).sum) ∂P = ENNReal.ofReal A ∧
    0.19 * (0.1 * (4 * π * 1000 ^ 2)) ≤ A ∧ A ≤ 0.21 * (0.1 * (4 * π * 1000 ^ 2)) := by
  have hp := pi_pos
  have hgood : GoodGens spotsStar := by
    refine ⟨?_, ?_, ?_, ?_, ?_, ?_, ?_⟩ <;> norm_num [spotsStar, busyStar, sampleStar, FaculaGenerator.off]
  have hstar : SoundStar spotsStar := by
    refine ⟨?_, ?_⟩ <;> simp [spotsStar, SpotCollection.new, SpotCollection.setGridmaker]
  obtain ⟨r, L, I, C₁, C₂, h1, -, ⟨h2, h3⟩, h4⟩ := C121_settled_spots (livesSpace (160 * π * (1 / 1000))) spotsStar hgood hstar rfl
    (by norm_num [spotsStar]) (by norm_num [spotsStar]) (by norm_num [spotsStar]) (by norm_num [spotsStar])
    (by simp [spotsStar, SpotGenerator.off]) (by norm_num [spotsStar])
  have e1 : spotsStar.spotGen.distAreaMean = 1000 := rfl
  have e2 : spotsStar.spotGen.initArea = 1000 := rfl
  have e3 : spotsStar.spotGen.distAreaLogsigma = 0 := rfl
  have e4 : spotsStar.spotGen.growthRate = 1 := rfl
  have e5 : spotsStar.spotGen.decayRate = 1000 := rfl
  have e6 : spotsStar.spotGen.coverage = 0.1 := rfl
  have e7 : spotsStar.radius = 1000 := rfl
  rw [e1, e2, e4, e5, e6, e7] at h1
  rw [e1, e2, e3, e4, e5] at h2 h3
  norm_num at h1 h2 h3
  have hr : r = 160 * π := by linarith
  have hI : I = 500 := le_antisymm h3 h2
  subst hr hI
  obtain ⟨N, hN⟩ := exists_nat_gt (max 0 (C₂ * 1000))
  have hN0 : (0 : ℝ) < N := (le_max_left _ _).trans_lt hN
  have hN1 : C₂ * 1000 < N := (le_max_right _ _).trans_lt hN
  obtain ⟨-, h5⟩ := h4 (1 / 1000) N (by norm_num) (by exact_mod_cast hN0)
  obtain ⟨S, M, A, k1, -, k3, -, -, -, -, k4⟩ := h5 (fun _ => Prod.fst)
    (fun _ ω n => ⟨fun _ => ω.2, fun _ _ => 0, fun _ => true, fun _ => 0, fun _ => unitDraw 0, fun _ => unitDraw 0⟩)
    (fun j => livesSpace_fair _) (Filter.Eventually.of_forall fun ω j n => ⟨0, fun i => by norm_num [SpotDraws.ratios]⟩)
  rw [e1, e3] at k4
  have hC : 160 * π * C₂ / (N * (1 / 1000)) ≤ 160 * π := by
    rw [div_le_iff₀ (by positivity)]
    have : C₂ ≤ N * (1 / 1000) := by linarith
    exact mul_le_mul_of_nonneg_left this (by positivity)
  norm_num at k4
  rw [abs_le] at k4
  norm_num at hC
  refine ⟨N, _, _, _, S, A, by exact_mod_cast hN0, by unfold livesSpace; infer_instance, k1, k3, ?_, ?_⟩
  · linarith [k4.1]
  · linarith [k4.2]

end Vsm
