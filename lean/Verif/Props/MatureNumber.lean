import Verif.Props.Reject
import Verif.Props.SpotSteady
import Verif.Props.MatureSpots
import Verif.Props.StarState

/-!
# C129 and C130: how many mature spots are made, and which ones by default
-/

noncomputable section

namespace Vsm

open Real MeasureTheory ProbabilityTheory Set
open scoped ENNReal

/-! ### Sums of independent draws up to a target -/

section Wald

variable {Ω α : Type*} [MeasurableSpace Ω] [MeasurableSpace α] (P : Measure Ω) (X : ℕ → Ω → α)
  (hX : ∀ k, Measurable (X k)) (μ : Measure α) (hl : ∀ k, P.map (X k) = μ) (hi : iIndepFun X P)
  (F : α → ℝ≥0∞) (hF : Measurable F) (t : ℝ≥0∞)

/-- The sum of the first `k` draws is still below the target. -/
def below (k : ℕ) : Set Ω := {ω | ∑ i ∈ Finset.range k, F (X i ω) < t}

include hX hF in
theorem below_measurable (k : ℕ) : MeasurableSet (below X F t k) :=
  measurableSet_lt (Finset.measurable_fun_sum _ fun i _ => hF.comp (hX i)) measurable_const

include hX hl hi hF in
/-- What is summed over the draws up to the target has as mean the mean of one times the mean number of draws. -/
theorem wald (h : α → ℝ≥0∞) (hh : Measurable h) :
    ∫⁻ ω, ∑' k, (below X F t k).indicator (fun ω => h (X k ω)) ω ∂P = (∑' k, P (below X F t k)) * ∫⁻ x, h x ∂μ := by
  have hm := below_measurable X hX F hF t
  have hhX : ∀ k, Measurable fun ω => h (X k ω) := fun k => hh.comp (hX k)
  rw [lintegral_tsum fun k => ((hhX k).indicator (hm k)).aemeasurable, ← ENNReal.tsum_mul_right]
  refine tsum_congr fun k => ?_
  have hind : IndepFun (fun ω (i : Finset.range k) => X i ω) (fun ω (i : ({k} : Finset ℕ)) => X i ω) P :=
    hi.indepFun_finset (Finset.range k) {k} (by simp) hX
  have hφ : Measurable fun v : (Finset.range k → α) => {v : Finset.range k → α | ∑ i, F (v i) < t}.indicator (1 : (Finset.range k → α) → ℝ≥0∞) v :=
    measurable_one.indicator (measurableSet_lt (Finset.measurable_fun_sum _ fun i _ => hF.comp (measurable_pi_apply i)) measurable_const)
  have hψ : Measurable fun v : (({k} : Finset ℕ) → α) => h (v ⟨k, by simp⟩) := hh.comp (measurable_pi_apply _)
  have h2 := hind.comp hφ hψ
  have e1 : ∀ ω, (below X F t k).indicator (1 : Ω → ℝ≥0∞) ω =
      {v : Finset.range k → α | ∑ i, F (v i) < t}.indicator (1 : (Finset.range k → α) → ℝ≥0∞) (fun i => X i ω) := by
    intro ω
    have hiff : (fun i : Finset.range k => X i ω) ∈ {v : Finset.range k → α | ∑ i, F (v i) < t} ↔ ω ∈ below X F t k := by
      simp only [below, mem_ofPred_eq]
      rw [Finset.sum_coe_sort (Finset.range k) fun i => F (X i ω)]
    by_cases hω : ω ∈ below X F t k
    · rw [indicator_of_mem hω, indicator_of_mem (hiff.mpr hω)]; rfl
    · rw [indicator_of_notMem hω, indicator_of_notMem (fun h => hω (hiff.mp h))]
  have h3 := lintegral_mul_eq_lintegral_mul_lintegral_of_indepFun (hφ.comp (measurable_pi_lambda _ fun i => hX i))
    (hψ.comp (measurable_pi_lambda _ fun i => hX i)) h2
  calc ∫⁻ ω, (below X F t k).indicator (fun ω => h (X k ω)) ω ∂P
      = ∫⁻ ω, (below X F t k).indicator (1 : Ω → ℝ≥0∞) ω * h (X k ω) ∂P := by
        refine lintegral_congr fun ω => ?_
        by_cases hω : ω ∈ below X F t k
        · rw [indicator_of_mem hω, indicator_of_mem hω]; simp
        · rw [indicator_of_notMem hω, indicator_of_notMem hω, zero_mul]
    _ = (∫⁻ ω, (below X F t k).indicator (1 : Ω → ℝ≥0∞) ω ∂P) * ∫⁻ ω, h (X k ω) ∂P := by
        simp only [e1]
        exact h3
    _ = P (below X F t k) * ∫⁻ x, h x ∂μ := by
        rw [lintegral_indicator_one (hm k), ← hl k, lintegral_map hh (hX k)]

omit [MeasurableSpace Ω] [MeasurableSpace α] in
theorem overshoot (M : ℝ≥0∞) (ω : Ω) : ∑' k, (below X F t k).indicator (fun ω => min (F (X k ω)) M) ω ≤ t + M := by
  refine ENNReal.tsum_le_of_sum_range_le fun n => ?_
  have key : ∑ k ∈ Finset.range n, (below X F t k).indicator (fun ω => min (F (X k ω)) M) ω ≤ ∑ k ∈ Finset.range n, F (X k ω) ∧
      ∑ k ∈ Finset.range n, (below X F t k).indicator (fun ω => min (F (X k ω)) M) ω ≤ t + M := by
    induction n with
    | zero => simp
    | succ n ih =>
      rw [Finset.sum_range_succ, Finset.sum_range_succ]
      by_cases hω : ω ∈ below X F t n
      · rw [indicator_of_mem hω]
        exact ⟨add_le_add ih.1 (min_le_left _ _), add_le_add (ih.1.trans (le_of_lt hω)) (min_le_right _ _)⟩
      · rw [indicator_of_notMem hω, add_zero]
        exact ⟨ih.1.trans le_self_add, ih.2⟩
  exact key.2

omit [MeasurableSpace Ω] [MeasurableSpace α] in
theorem below_anti {k n : ℕ} (h : k ≤ n) {ω : Ω} (hω : ω ∈ below X F t n) : ω ∈ below X F t k :=
  lt_of_le_of_lt (b := ∑ i ∈ Finset.range n, F (X i ω)) (Finset.sum_le_sum_of_subset (Finset.range_mono h)) hω

omit [MeasurableSpace Ω] [MeasurableSpace α] in
/-- Once the target is reached after `n` draws, what is summed is the sum over those draws. -/
theorem upto (n : ℕ) (ω : Ω) (h1 : ∀ k < n, ω ∈ below X F t k) (h2 : ω ∉ below X F t n) (h : α → ℝ≥0∞) :
    ∑' k, (below X F t k).indicator (fun ω => h (X k ω)) ω = ∑ k ∈ Finset.range n, h (X k ω) := by
  rw [tsum_eq_sum (s := Finset.range n)]
  · exact Finset.sum_congr rfl fun k hk => indicator_of_mem (h1 k (Finset.mem_range.mp hk)) _
  · intro k hk
    rw [Finset.mem_range, not_lt] at hk
    exact indicator_of_notMem (fun hω => h2 (below_anti X F t hk hω)) _

omit [MeasurableSpace Ω] [MeasurableSpace α] in
theorem first_not_below (ω : Ω) (h : ∃ n, ω ∉ below X F t n) : ∃ n, (∀ k < n, ω ∈ below X F t k) ∧ ω ∉ below X F t n := by
  classical
  exact ⟨Nat.find h, fun k hk => not_not.mp (Nat.find_min h hk), Nat.find_spec h⟩

include hX hl hi hF in
/-- Wald's identity for draws up to a target: the target is reached, and the mean number of draws `E` is bounded by the means of a draw
and of a draw cut off at `M`. -/
theorem wald_bounds (ht : t ≠ ∞) (h0 : ∫⁻ x, min (F x) 1 ∂μ ≠ 0) :
    (∀ᵐ ω ∂P, ∃ n, ω ∉ below X F t n) ∧ (∑' k, P (below X F t k)) ≠ ∞ ∧
    t * P univ ≤ (∑' k, P (below X F t k)) * ∫⁻ x, F x ∂μ ∧
    ∀ M, (∑' k, P (below X F t k)) * ∫⁻ x, min (F x) M ∂μ ≤ (t + M) * P univ := by
  have hup : ∀ M, (∑' k, P (below X F t k)) * ∫⁻ x, min (F x) M ∂μ ≤ (t + M) * P univ := by
    intro M
    rw [← wald P X hX μ hl hi F hF t _ (hF.min measurable_const), ← lintegral_const]
    exact lintegral_mono fun ω => overshoot X F t M ω
  have := hi.isProbabilityMeasure
  have hfin : (∑' k, P (below X F t k)) ≠ ∞ := by
    intro h
    have := hup 1
    rw [h, ENNReal.top_mul h0, measure_univ, mul_one, top_le_iff] at this
    exact ENNReal.add_ne_top.mpr ⟨ht, ENNReal.one_ne_top⟩ this
  have hN : ∫⁻ ω, ∑' k, (below X F t k).indicator (fun _ => (1 : ℝ≥0∞)) ω ∂P = ∑' k, P (below X F t k) := by
    rw [lintegral_tsum fun k => (measurable_const.indicator (below_measurable X hX F hF t k)).aemeasurable]
    refine tsum_congr fun k => ?_
    rw [lintegral_indicator_const (below_measurable X hX F hF t k), one_mul]
  have hae : ∀ᵐ ω ∂P, ∃ n, ω ∉ below X F t n := by
    have hm : Measurable fun ω => ∑' k, (below X F t k).indicator (fun _ => (1 : ℝ≥0∞)) ω :=
      Measurable.tsum fun k => measurable_const.indicator (below_measurable X hX F hF t k)
    filter_upwards [ae_lt_top hm (by rw [hN]; exact hfin)] with ω hω
    by_contra hc
    push Not at hc
    rw [tsum_congr (fun k => indicator_of_mem (hc k) _), ENNReal.tsum_const_eq_top_of_ne_zero one_ne_zero] at hω
    exact lt_irrefl _ hω
  refine ⟨hae, hfin, ?_, hup⟩
  rw [← wald P X hX μ hl hi F hF t F hF, ← lintegral_const]
  refine lintegral_mono_ae ?_
  filter_upwards [hae] with ω hω
  obtain ⟨n, h1, h2⟩ := first_not_below X F t ω hω
  rw [upto X F t n ω h1 h2 F]
  exact not_lt.mp h2

end Wald

/-! ### Mature spots -/

/-- Area of the mature spot made from the normal draw `z` and the uniform draw `x` (spec): for spots that do not decay a point between
the initial and the maximal area, otherwise the area at a random age below the lifetime. -/
def Spec.matureArea (G : SpotGenerator) (z x : ℝ) : ℝ :=
  if G.decayRate = 0 then G.initArea + x * (peakOf G.distAreaMean G.distAreaLogsigma z - G.initArea)
  else spotAreaAt G.initArea (peakOf G.distAreaMean G.distAreaLogsigma z) G.growthRate G.decayRate
    (x * (G.distAreaMean / G.decayRate + Real.log (G.distAreaMean / G.initArea) / G.growthRate))

/-- Solid angle that the loop counts for a spot of area `a` (spec): `π θ²`, and `π³` for a spot larger than the star. -/
def Spec.countedOf (R a : ℝ) : ℝ := π * arccos (1 - a / (2 * π * R ^ 2)) ^ 2

/-- The law of a normal draw and an independent uniform draw. -/
def Spec.matureLaw : Measure (ℝ × ℝ) := (gaussianReal 0 1).prod (volume.restrict (Ico 0 1))

/-- The draws of `generate_mature_spots` as far as they matter here: for each spot a normal and a uniform draw, all independent, and
batches of area ratios of which one is accepted (which happens with probability one, C124). -/
structure Spec.FairMature {Ω : Type*} [MeasurableSpace Ω] (P : Measure Ω) (D : Ω → ℕ → SpotDraws 1 × Set.Ico (0 : ℝ) 1) : Prop where
  measurable : ∀ k, Measurable fun ω => ((D ω k).1.z 0, ((D ω k).2 : ℝ))
  law : ∀ k, P.map (fun ω => ((D ω k).1.z 0, ((D ω k).2 : ℝ))) = Spec.matureLaw
  indep : iIndepFun (fun k ω => ((D ω k).1.z 0, ((D ω k).2 : ℝ))) P
  ratios : ∀ k, ∀ᵐ ω ∂P, ∃ j, ∀ i, 0 < (D ω k).1.ratios j i

/-- The summed area of a list of spots. -/
def Spec.areaSum (l : List StarSpot) : ℝ := (l.map fun s => match s.area with | .fin a => a | _ => 0).sum

open Spec

instance : IsProbabilityMeasure (volume.restrict (Ico (0 : ℝ) 1)) := ⟨by simp⟩

instance : IsProbabilityMeasure matureLaw := by unfold matureLaw; infer_instance

section Area

variable {G : SpotGenerator} (hA : 0 < G.initArea) (hAm : G.initArea ≤ G.distAreaMean)
  (hr : G.decayRate = 0 ∨ 0 < G.growthRate ∧ 0 < G.decayRate)

include hA hAm hr

/-- The spot that is made. -/
theorem mature_made (hσ : 0 ≤ G.distAreaLogsigma) (hd : G.distribution ≠ .other) (d : SpotDraws 1) (hq : ∃ j, ∀ i, 0 < d.ratios j i)
    (x : Set.Ico (0 : ℝ) 1) : ∃ s, G.matureStep d x = .ok s ∧ s.area = .fin (matureArea G (d.z 0) x) := by
  have hm : 0 < G.distAreaMean := hA.trans_le hAm
  obtain ⟨e1, -, e3⟩ := C27_generate G 1 d
  obtain ⟨l, hl⟩ := e1 hσ hd hq
  obtain ⟨hlen, hnb, hamax⟩ := e3 l hl
  match l, hlen, hl, hnb, hamax with
  | [sp], _, hl, hnb, hamax =>
    have nb := hnb sp (by simp)
    have am : sp.areaMax = peakOf G.distAreaMean G.distAreaLogsigma (d.z 0) := hamax hm 0 (by simp) (by simp)
    by_cases h0 : G.decayRate = 0
    · refine ⟨{ sp with area := .fin ((x : ℝ) * (sp.areaMax - G.initArea) + G.initArea) }, ?_, ?_⟩
      · have hst : G.isStatic := h0
        simp only [SpotGenerator.matureStep, hl, Except.bind, hst, if_true]
      · simp only [matureArea, if_pos h0, am, Fl.fin_inj]; ring
    · obtain ⟨hg, hw⟩ := hr.resolve_left h0
      obtain ⟨L, A, hL, -, -, -, eL, -⟩ := C25_generator_statistics_partial G hA hAm hg hw 0 0 0 0 (.fin 1)
      have hst : ¬ G.isStatic := h0
      refine ⟨sp.age (x * L), ?_, ?_⟩
      · simp only [SpotGenerator.matureStep, hl, Except.bind, hst, if_false, hL, Fl.fin_mul]
        rfl
      · have hp : 0 < peakOf G.distAreaMean G.distAreaLogsigma (d.z 0) := peak_pos hm _
        have hlive : Live sp G.initArea :=
          ⟨nb.area, hA, by rw [am]; exact hp, fun h => absurd (nb.growing.symm.trans h) (by simp), nb.growth ▸ hg.le, nb.decay ▸ hw.le⟩
        rw [age_grow hlive nb.growing (by rw [nb.growth]; exact hg), matureArea, if_neg h0, ← eL, am, nb.growth, nb.decay, timeToMax,
          spotAreaAt, spotLife]
        set T := Real.log (peakOf G.distAreaMean G.distAreaLogsigma (d.z 0) / G.initArea) / Real.log (1 + G.growthRate) with hT
        set p := peakOf G.distAreaMean G.distAreaLogsigma (d.z 0) with hpd
        by_cases c1 : x * L < T
        · rw [if_pos c1, if_pos c1]
          simp only [Fl.fin_inj]
          rw [rpow_def_of_pos (by linarith)]
        · rw [if_neg c1, if_neg c1]
          simp only [Fl.fin_inj]
          have e : p - (x * L - T) * G.decayRate = G.decayRate * (T + p / G.decayRate - x * L) := by field_simp; ring
          rw [e]
          split_ifs with c2
          · exact max_eq_right (mul_nonneg hw.le (by linarith))
          · exact max_eq_left (mul_nonpos_of_nonneg_of_nonpos hw.le (by linarith))

omit hr in
theorem matureArea_measurable : Measurable fun q : ℝ × ℝ => matureArea G q.1 q.2 := by
  have hm : 0 < G.distAreaMean := hA.trans_le hAm
  have hp : Measurable fun q : ℝ × ℝ => peakOf G.distAreaMean G.distAreaLogsigma q.1 := peak_measurable.comp measurable_fst
  unfold matureArea
  by_cases h0 : G.decayRate = 0
  · simp only [if_pos h0]; fun_prop
  · simp only [if_neg h0]
    have hLm : Measurable fun q : ℝ × ℝ => spotLife G.initArea (peakOf G.distAreaMean G.distAreaLogsigma q.1) G.growthRate G.decayRate :=
      (life_measurable hA hm).comp measurable_fst
    unfold spotAreaAt
    refine Measurable.ite (measurableSet_lt (by fun_prop) ?_) ?_ (Measurable.ite (measurableSet_lt (by fun_prop) hLm) ?_ measurable_const)
    · fun_prop
    · fun_prop
    · fun_prop

theorem matureArea_mem (z : ℝ) {x : ℝ} (hx : x ∈ Ico (0 : ℝ) 1) :
    0 ≤ matureArea G z x ∧ matureArea G z x ≤ G.initArea + peakOf G.distAreaMean G.distAreaLogsigma z := by
  have hm : 0 < G.distAreaMean := hA.trans_le hAm
  have hp : 0 < peakOf G.distAreaMean G.distAreaLogsigma z := peak_pos hm _
  unfold matureArea
  by_cases h0 : G.decayRate = 0
  · rw [if_pos h0]
    constructor <;> nlinarith [hx.1, hx.2]
  · obtain ⟨hg, hw⟩ := hr.resolve_left h0
    rw [if_neg h0]
    have := spotArea_mem hA hp hg hw (x * (G.distAreaMean / G.decayRate + Real.log (G.distAreaMean / G.initArea) / G.growthRate))
    exact ⟨this.1, by linarith⟩

theorem matureArea_pos (hσ : 0 ≤ G.distAreaLogsigma) {z : ℝ} (hz : 0 ≤ z) {x : ℝ} (hx : x ∈ Ico (0 : ℝ) 1) : 0 < matureArea G z x := by
  have hm : 0 < G.distAreaMean := hA.trans_le hAm
  have hp : 0 < peakOf G.distAreaMean G.distAreaLogsigma z := peak_pos hm _
  have hpm : G.distAreaMean ≤ peakOf G.distAreaMean G.distAreaLogsigma z := by
    unfold peakOf
    have := one_le_exp (mul_nonneg hσ hz)
    nlinarith
  unfold matureArea
  by_cases h0 : G.decayRate = 0
  · rw [if_pos h0]; nlinarith [hx.1, hx.2]
  · obtain ⟨hg, hw⟩ := hr.resolve_left h0
    rw [if_neg h0]
    set p := peakOf G.distAreaMean G.distAreaLogsigma z with hpd
    have hL : 0 < Real.log (1 + G.growthRate) := log_pos (by linarith)
    have hLg : Real.log (1 + G.growthRate) ≤ G.growthRate := by have := log_le_sub_one_of_pos (show 0 < 1 + G.growthRate by linarith); linarith
    have h1 : 0 ≤ Real.log (G.distAreaMean / G.initArea) := log_nonneg ((one_le_div hA).mpr hAm)
    have h2 : Real.log (G.distAreaMean / G.initArea) ≤ Real.log (p / G.initArea) :=
      log_le_log (by positivity) (div_le_div_of_nonneg_right hpm hA.le)
    have h3 : Real.log (G.distAreaMean / G.initArea) / G.growthRate ≤ Real.log (p / G.initArea) / Real.log (1 + G.growthRate) :=
      div_le_div₀ (h1.trans h2) h2 hL hLg
    have h4 : G.distAreaMean / G.decayRate ≤ p / G.decayRate := div_le_div_of_nonneg_right hpm hw.le
    have h5 : 0 < G.distAreaMean / G.decayRate := by positivity
    have h6 : 0 ≤ Real.log (G.distAreaMean / G.initArea) / G.growthRate := by positivity
    have h7 : x * (G.distAreaMean / G.decayRate + Real.log (G.distAreaMean / G.initArea) / G.growthRate) <
        spotLife G.initArea p G.growthRate G.decayRate := by
      unfold spotLife
      nlinarith [hx.1, hx.2]
    unfold spotAreaAt
    split_ifs with c1
    · positivity
    · exact mul_pos hw (by linarith)

end Area

theorem counted_nonneg (R a : ℝ) : 0 ≤ countedOf R a := by unfold countedOf; have := pi_pos; positivity

theorem counted_le (R a : ℝ) : countedOf R a ≤ π ^ 3 := by
  unfold countedOf
  have := pi_pos
  have h1 := arccos_nonneg (1 - a / (2 * π * R ^ 2))
  have h2 := arccos_le_pi (1 - a / (2 * π * R ^ 2))
  have : arccos (1 - a / (2 * π * R ^ 2)) ^ 2 ≤ π ^ 2 := by nlinarith
  nlinarith

theorem counted_pos {R a : ℝ} (hR : 0 < R) (ha : 0 < a) : 0 < countedOf R a := by
  unfold countedOf
  have hp := pi_pos
  have : 0 < arccos (1 - a / (2 * π * R ^ 2)) := by
    rw [arccos_pos]
    have : 0 < a / (2 * π * R ^ 2) := by positivity
    linarith
  positivity

theorem counted_measurable (R : ℝ) : Measurable (countedOf R) := by
  unfold countedOf
  have := continuous_arccos.measurable
  fun_prop

theorem solid_counted {s : StarSpot} {R a : ℝ} (hR : 0 < R) (hs : s.area = .fin a) (ha : 0 ≤ a) :
    SpotGenerator.solidAngle s R = if a ≤ 4 * π * R ^ 2 then .fin (countedOf R a) else .nan := by
  unfold SpotGenerator.solidAngle
  rw [angularRadius_fin s hR hs]
  split_ifs with h
  · obtain ⟨h1, h2⟩ := (capArg_mem hR).mpr ⟨ha, h⟩
    rw [Fl.arccos_fin h1 h2, Fl.fin_mul, Fl.fin_mul, countedOf]
    congr 1; ring
  · rw [Fl.arccos_fin_nan fun h' => h ((capArg_mem hR).mp h').2]
    simp

theorem counted_big {R a : ℝ} (hR : 0 < R) (h : ¬ a ≤ 4 * π * R ^ 2) : countedOf R a = π ^ 3 := by
  unfold countedOf
  have hp := pi_pos
  rw [arccos_of_le_neg_one]
  · ring
  · have : 2 ≤ a / (2 * π * R ^ 2) := by rw [le_div_iff₀ (by positivity)]; linarith
    linarith

/-- The loop goes on exactly as long as the sum of the counted angles is below the target. -/
theorem counted_iff {R : ℝ} (hR : 0 < R) (sp : ℕ → StarSpot) (a : ℕ → ℝ) (hs : ∀ i, (sp i).area = .fin (a i)) (ha : ∀ i, 0 ≤ a i) {T : ℝ}
    (hT : T ≤ π ^ 3) (n : ℕ) :
    countedAngle ((List.range n).map sp) R < .fin T ↔ ∑ i ∈ Finset.range n, ENNReal.ofReal (countedOf R (a i)) < ENNReal.ofReal T := by
  have key : (countedAngle ((List.range n).map sp) R = .fin (∑ i ∈ Finset.range n, countedOf R (a i))) ∨
      (countedAngle ((List.range n).map sp) R = .nan ∧ ∃ i < n, π ^ 3 = countedOf R (a i)) := by
    induction n with
    | zero => left; rfl
    | succ n ih =>
      rw [List.range_succ, List.map_append, List.map_cons, List.map_nil, countedAngle_append, solid_counted hR (hs n) (ha n)]
      by_cases hf : a n ≤ 4 * π * R ^ 2
      · rw [if_pos hf]
        rcases ih with h | ⟨h, i, hi, e⟩
        · left; rw [h, Fl.fin_add, Finset.sum_range_succ]
        · right; rw [h]; exact ⟨by simp, i, by omega, e⟩
      · rw [if_neg hf]
        right
        exact ⟨by simp, n, by omega, (counted_big hR hf).symm⟩
  rw [← ENNReal.ofReal_sum_of_nonneg fun i _ => counted_nonneg R (a i)]
  rcases key with h | ⟨h, i, hi, e⟩
  · rw [h, Fl.fin_lt]
    by_cases h0 : 0 < T
    · rw [ENNReal.ofReal_lt_ofReal_iff h0]
    · have : 0 ≤ ∑ i ∈ Finset.range n, countedOf R (a i) := Finset.sum_nonneg fun i _ => counted_nonneg R _
      rw [ENNReal.ofReal_of_nonpos (not_lt.mp h0)]
      constructor
      · intro h; linarith
      · intro h; simp at h
  · rw [h]
    simp only [Fl.nan_lt, false_iff, not_lt]
    refine ENNReal.ofReal_le_ofReal (hT.trans ?_)
    rw [e]
    exact Finset.single_le_sum (f := fun i => countedOf R (a i)) (fun i _ => counted_nonneg R _) (Finset.mem_range.mpr hi)

theorem mature_ae : ∀ᵐ q ∂matureLaw, q.2 ∈ Ico (0 : ℝ) 1 := by
  have h : ∀ᵐ x ∂volume.restrict (Ico (0 : ℝ) 1), x ∈ Ico (0 : ℝ) 1 := ae_restrict_mem measurableSet_Ico
  exact Measure.quasiMeasurePreserving_snd.ae h

theorem mature_half_pos : 0 < matureLaw (Ici 0 ×ˢ Ico 0 1) := by
  unfold matureLaw
  rw [Measure.prod_prod]
  have h1 : gaussianReal 0 1 (Ici 0) ≠ 0 := by
    intro h
    have := gaussianReal_absolutelyContinuous' 0 (v := 1) one_ne_zero h
    simp at this
  have h2 : volume.restrict (Ico (0 : ℝ) 1) (Ico 0 1) = 1 := by rw [Measure.restrict_apply_self]; simp
  rw [h2, mul_one]
  exact pos_iff_ne_zero.mpr h1

section Means

variable {G : SpotGenerator} (hA : 0 < G.initArea) (hAm : G.initArea ≤ G.distAreaMean)
  (hr : G.decayRate = 0 ∨ 0 < G.growthRate ∧ 0 < G.decayRate)

include hA hAm

theorem counted_integrable (R M : ℝ) (hM : 0 ≤ M) : Integrable (fun q : ℝ × ℝ => min (countedOf R (matureArea G q.1 q.2)) M) matureLaw := by
  have hm : Measurable fun q : ℝ × ℝ => min (countedOf R (matureArea G q.1 q.2)) M :=
    ((counted_measurable R).comp (matureArea_measurable hA hAm)).min measurable_const
  refine (integrable_const M).mono' hm.aestronglyMeasurable (Filter.Eventually.of_forall fun q => ?_)
  rw [norm_eq_abs, abs_of_nonneg (le_min (counted_nonneg _ _) hM)]
  exact min_le_right _ _

include hr

theorem counted_mean_pos (hσ : 0 ≤ G.distAreaLogsigma) {R M : ℝ} (hR : 0 < R) (hM : 0 < M) :
    0 < ∫ q, min (countedOf R (matureArea G q.1 q.2)) M ∂matureLaw := by
  rw [integral_pos_iff_support_of_nonneg (fun q => le_min (counted_nonneg _ _) hM.le) (counted_integrable hA hAm R M hM.le)]
  refine mature_half_pos.trans_le (measure_mono ?_)
  rintro ⟨z, x⟩ ⟨hz, hx⟩
  exact (lt_min (counted_pos hR (matureArea_pos hA hAm hr hσ hz hx)) hM).ne'

theorem area_integrable : Integrable (fun q : ℝ × ℝ => matureArea G q.1 q.2) matureLaw := by
  have h1 : Integrable (fun q : ℝ × ℝ => G.initArea + peakOf G.distAreaMean G.distAreaLogsigma q.1) matureLaw := by
    have := (peak_pow (m := G.distAreaMean) (σ := G.distAreaLogsigma) 1).1
    simp only [pow_one] at this
    exact (integrable_const _).add (this.comp_fst _)
  refine h1.mono' (matureArea_measurable hA hAm).aestronglyMeasurable ?_
  filter_upwards [mature_ae] with q hq
  obtain ⟨h2, h3⟩ := matureArea_mem hA hAm hr q.1 hq
  rw [norm_eq_abs, abs_of_nonneg h2]
  exact h3

omit hA hAm hr in
/-- The mean area of a mature spot that does not decay. -/
theorem static_mean (h0 : G.decayRate = 0) :
    ∫ q, matureArea G q.1 q.2 ∂matureLaw = (G.initArea + G.distAreaMean * exp (G.distAreaLogsigma ^ 2 / 2)) / 2 := by
  obtain ⟨i1, e1⟩ := peak_pow (m := G.distAreaMean) (σ := G.distAreaLogsigma) 1
  simp only [pow_one, Nat.cast_one, one_mul] at i1 e1
  have i2 : Integrable (fun x : ℝ => x) (volume.restrict (Ico (0 : ℝ) 1)) := by
    have : IntegrableOn (fun x : ℝ => x) (Icc 0 1) := continuous_id.integrableOn_Icc
    exact this.mono_set Ico_subset_Icc_self
  have e2 : ∫ x, x ∂volume.restrict (Ico (0 : ℝ) 1) = 1 / 2 := by
    rw [integral_Ico_eq_integral_Ioc, ← intervalIntegral.integral_of_le zero_le_one, integral_id]; norm_num
  have i3 : Integrable (fun z => peakOf G.distAreaMean G.distAreaLogsigma z - G.initArea) (gaussianReal 0 1) := i1.sub (integrable_const _)
  have e : ∀ q : ℝ × ℝ, matureArea G q.1 q.2 = G.initArea + (peakOf G.distAreaMean G.distAreaLogsigma q.1 - G.initArea) * q.2 := by
    intro q; rw [matureArea, if_pos h0]; ring
  simp only [e]
  unfold matureLaw
  rw [integral_add (integrable_const _) (i3.mul_prod i2),
    integral_prod_mul (fun z => peakOf G.distAreaMean G.distAreaLogsigma z - G.initArea) (fun x : ℝ => x), e2,
    integral_sub i1 (integrable_const _), e1]
  simp
  ring

end Means

/-- **C129** With fair draws `generate_mature_spots` returns with probability one, whether the spots decay or not.  The mean number `n`
of spots that it returns is finite; `n` times the mean counted angle of a spot is at least the target `4π·coverage`, and `n` times the
mean of the angle cut off at `M` is at most the target plus `M`, for every `M > 0`.  The mean of the summed area of the spots is `n`
times the mean area of one spot, which for spots that do not decay is `(init_area + mean·exp(σ²/2))/2`. -/
theorem C129_mature_number {Ω : Type*} [MeasurableSpace Ω] (P : Measure Ω) (G : SpotGenerator) (hA : 0 < G.initArea)
    (hAm : G.initArea ≤ G.distAreaMean) (hσ : 0 ≤ G.distAreaLogsigma) (hd : G.distribution ≠ .other)
    (hr : G.decayRate = 0 ∨ 0 < G.growthRate ∧ 0 < G.decayRate) (c R : ℝ) (h0 : 0 ≤ c) (h1 : c ≤ 1) (hR : 0 < R)
    (D : Ω → ℕ → SpotDraws 1 × Set.Ico (0 : ℝ) 1) (hD : FairMature P D) :
    ∃ L : Ω → List StarSpot, (∀ᵐ ω ∂P, G.generateMature c R (D ω) = .ok (L ω)) ∧
      Integrable (fun ω => ((L ω).length : ℝ)) P ∧ Integrable (fun ω => areaSum (L ω)) P ∧
      4 * π * c ≤ (∫ ω, ((L ω).length : ℝ) ∂P) * ∫ q, countedOf R (matureArea G q.1 q.2) ∂matureLaw ∧
      (∀ M, 0 < M → 0 < ∫ q, min (countedOf R (matureArea G q.1 q.2)) M ∂matureLaw ∧
        (∫ ω, ((L ω).length : ℝ) ∂P) * (∫ q, min (countedOf R (matureArea G q.1 q.2)) M ∂matureLaw) ≤ 4 * π * c + M) ∧
      ∫ ω, areaSum (L ω) ∂P = (∫ ω, ((L ω).length : ℝ) ∂P) * ∫ q, matureArea G q.1 q.2 ∂matureLaw ∧
      (G.decayRate = 0 →
        ∫ q, matureArea G q.1 q.2 ∂matureLaw = (G.initArea + G.distAreaMean * exp (G.distAreaLogsigma ^ 2 / 2)) / 2) := by
  classical
  have hpi := pi_pos
  have hpi3 := pi_gt_three
  set X : ℕ → Ω → ℝ × ℝ := fun k ω => ((D ω k).1.z 0, ((D ω k).2 : ℝ)) with hXd
  set F : ℝ × ℝ → ℝ≥0∞ := fun q => ENNReal.ofReal (countedOf R (matureArea G q.1 q.2)) with hFd
  set H : ℝ × ℝ → ℝ≥0∞ := fun q => ENNReal.ofReal (matureArea G q.1 q.2) with hHd
  set T : ℝ≥0∞ := ENNReal.ofReal (4 * π * c) with hTd
  have hX : ∀ k, Measurable (X k) := hD.measurable
  have hF : Measurable F := ((counted_measurable R).comp (matureArea_measurable hA hAm)).ennreal_ofReal
  have hH : Measurable H := (matureArea_measurable hA hAm).ennreal_ofReal
  have hP : IsProbabilityMeasure P := hD.indep.isProbabilityMeasure
  have hmin : ∀ M, 0 < M → ∫⁻ q, min (F q) (ENNReal.ofReal M) ∂matureLaw =
      ENNReal.ofReal (∫ q, min (countedOf R (matureArea G q.1 q.2)) M ∂matureLaw) := by
    intro M hM
    rw [ofReal_integral_eq_lintegral_ofReal (counted_integrable hA hAm R M hM.le)
      (Filter.Eventually.of_forall fun q => le_min (counted_nonneg _ _) hM.le)]
    refine lintegral_congr fun q => ?_
    rw [ENNReal.ofReal_min]
  have hpos := fun M hM => counted_mean_pos hA hAm hr hσ (R := R) (M := M) hR hM
  obtain ⟨w1, w2, w3, w4⟩ := wald_bounds P X hX matureLaw hD.law hD.indep F hF T ENNReal.ofReal_ne_top (by
    have := hmin 1 one_pos
    rw [ENNReal.ofReal_one] at this
    rw [this]
    exact (ENNReal.ofReal_pos.mpr (hpos 1 one_pos)).ne')
  rw [measure_univ, mul_one] at w3
  simp only [measure_univ, mul_one] at w4
  set E := ∑' k, P (below X F T k) with hE
  set S : (ℝ × ℝ → ℝ≥0∞) → Ω → ℝ≥0∞ := fun h ω => ∑' k, (below X F T k).indicator (fun ω => h (X k ω)) ω with hS
  have hSm : ∀ h, Measurable h → Measurable (S h) := fun h hh =>
    Measurable.tsum fun k => (hh.comp (hX k)).indicator (below_measurable X hX F hF T k)
  have hSi : ∀ h, Measurable h → ∫⁻ ω, S h ω ∂P = E * ∫⁻ q, h q ∂matureLaw := fun h hh => wald P X hX matureLaw hD.law hD.indep F hF T h hh
  have hSi1 : ∫⁻ ω, S (fun _ => 1) ω ∂P = E := by rw [hSi _ measurable_const]; simp
  -- the list that is returned
  have hae : ∀ᵐ ω ∂P, ∃ l, G.generateMature c R (D ω) = .ok l ∧ (l.length : ℝ≥0∞) = S (fun _ => 1) ω ∧ ENNReal.ofReal (areaSum l) = S H ω ∧
      0 ≤ areaSum l := by
    filter_upwards [w1, ae_all_iff.mpr hD.ratios] with ω hω hq
    choose sp hsp har using fun k => mature_made hA hAm hr hσ hd (D ω k).1 (hq k) (D ω k).2
    have hnn : ∀ k, 0 ≤ matureArea G ((D ω k).1.z 0) ((D ω k).2 : ℝ) := fun k => (matureArea_mem hA hAm hr _ (D ω k).2.2).1
    have hiff : ∀ n, countedAngle ((List.range n).map sp) R < .fin (4 * π * c) ↔ ω ∈ below X F T n :=
      counted_iff hR sp _ har hnn (by nlinarith [mul_pos hpi hpi])
    obtain ⟨n, b1, b2⟩ := first_not_below X F T ω hω
    refine ⟨(List.range n).map sp, (C89_mature_list G c R (D ω) _).mpr ⟨⟨h0, h1⟩, fun i hi => ?_, fun h => b2 ((hiff n).mp h), ?_⟩, ?_, ?_, ?_⟩
    · rw [hsp]; simp
    · intro m hm
      have hm : m < n := by simpa using hm
      rw [← List.map_take, List.take_range, min_eq_left hm.le]
      exact (hiff m).mpr (b1 m hm)
    · simp only [hS]
      rw [upto X F T n ω b1 b2 fun _ => 1]
      simp
    · simp only [hS]
      rw [upto X F T n ω b1 b2 H]
      have : areaSum ((List.range n).map sp) = ∑ k ∈ Finset.range n, matureArea G ((D ω k).1.z 0) ((D ω k).2 : ℝ) := by
        rw [areaSum, List.map_map, ← List.sum_toFinset _ List.nodup_range, List.toFinset_range]
        exact Finset.sum_congr rfl fun k _ => by simp [har]
      rw [this, ENNReal.ofReal_sum_of_nonneg fun k _ => hnn k]
    · refine List.sum_nonneg fun x hx => ?_
      simp only [List.map_map, List.mem_map, Function.comp_apply] at hx
      obtain ⟨k, -, rfl⟩ := hx
      rw [har]
      exact hnn k
  set L : Ω → List StarSpot := fun ω => if h : ∃ l, G.generateMature c R (D ω) = .ok l ∧ (l.length : ℝ≥0∞) = S (fun _ => 1) ω ∧
      ENNReal.ofReal (areaSum l) = S H ω ∧ 0 ≤ areaSum l then h.choose else [] with hLd
  have hL : ∀ᵐ ω ∂P, G.generateMature c R (D ω) = .ok (L ω) ∧ ((L ω).length : ℝ≥0∞) = S (fun _ => 1) ω ∧
      ENNReal.ofReal (areaSum (L ω)) = S H ω ∧ 0 ≤ areaSum (L ω) := by
    filter_upwards [hae] with ω hω
    simp only [hLd, dif_pos hω]
    exact hω.choose_spec
  have e1 : (fun ω => ((L ω).length : ℝ)) =ᵐ[P] fun ω => (S (fun _ => 1) ω).toReal := by
    filter_upwards [hL] with ω hω
    rw [← hω.2.1]; simp
  have e2 : (fun ω => areaSum (L ω)) =ᵐ[P] fun ω => (S H ω).toReal := by
    filter_upwards [hL] with ω hω
    rw [← hω.2.2.1, ENNReal.toReal_ofReal hω.2.2.2]
  have hHi : ∫⁻ q, H q ∂matureLaw = ENNReal.ofReal (∫ q, matureArea G q.1 q.2 ∂matureLaw) := by
    rw [ofReal_integral_eq_lintegral_ofReal (area_integrable hA hAm hr)]
    filter_upwards [mature_ae] with q hq
    exact (matureArea_mem hA hAm hr q.1 hq).1
  have hHi0 : 0 ≤ ∫ q, matureArea G q.1 q.2 ∂matureLaw := by
    refine integral_nonneg_of_ae ?_
    filter_upwards [mature_ae] with q hq
    exact (matureArea_mem hA hAm hr q.1 hq).1
  have f1 : ∫⁻ ω, S (fun _ => 1) ω ∂P ≠ ∞ := by rw [hSi1]; exact w2
  have f2 : ∫⁻ ω, S H ω ∂P ≠ ∞ := by rw [hSi H hH, hHi]; exact ENNReal.mul_ne_top w2 ENNReal.ofReal_ne_top
  have m1 := hSm (fun _ => 1) measurable_const
  have m2 := hSm H hH
  have hn : ∫ ω, ((L ω).length : ℝ) ∂P = E.toReal := by
    rw [integral_congr_ae e1, integral_toReal m1.aemeasurable (ae_lt_top m1 f1), hSi1]
  have hEr : E = ENNReal.ofReal E.toReal := (ENNReal.ofReal_toReal w2).symm
  have hE0 : 0 ≤ E.toReal := ENNReal.toReal_nonneg
  refine ⟨L, hL.mono fun ω hω => hω.1, (integrable_toReal_of_lintegral_ne_top m1.aemeasurable f1).congr e1.symm,
    (integrable_toReal_of_lintegral_ne_top m2.aemeasurable f2).congr e2.symm, ?_, fun M hM => ⟨hpos M hM, ?_⟩, ?_, static_mean⟩
  · have hcut : ∀ q : ℝ × ℝ, countedOf R (matureArea G q.1 q.2) = min (countedOf R (matureArea G q.1 q.2)) (π ^ 3) := fun q =>
      (min_eq_left (counted_le _ _)).symm
    have hFi : ∫⁻ q, F q ∂matureLaw = ENNReal.ofReal (∫ q, countedOf R (matureArea G q.1 q.2) ∂matureLaw) := by
      have i := counted_integrable hA hAm R (π ^ 3) (by positivity)
      simp only [← hcut] at i
      rw [ofReal_integral_eq_lintegral_ofReal i (Filter.Eventually.of_forall fun q => counted_nonneg _ _)]
    rw [hn]
    rw [hFi, hEr, ← ENNReal.ofReal_mul hE0, hTd, ENNReal.ofReal_le_ofReal_iff] at w3
    · exact w3
    · exact mul_nonneg hE0 (integral_nonneg fun q => counted_nonneg _ _)
  · have := w4 (ENNReal.ofReal M)
    rw [hmin M hM, hEr, ← ENNReal.ofReal_mul hE0, hTd, ← ENNReal.ofReal_add (by positivity) hM.le, ENNReal.ofReal_le_ofReal_iff (by positivity)] at this
    rw [hn]
    exact this
  · rw [hn, integral_congr_ae e2, integral_toReal m2.aemeasurable (ae_lt_top m2 f2), hSi H hH, hHi, ENNReal.toReal_mul, ENNReal.toReal_ofReal hHi0]

/-- Reduction of the uniform draw to `[0, 1)`. -/
def foldMature (q : ℝ × ℝ) : ℝ × ℝ := (q.1, Int.fract q.2)

theorem foldMature_law : MeasurePreserving foldMature matureLaw matureLaw := by
  have hm : Measurable foldMature := by unfold foldMature; fun_prop
  refine ⟨hm, ?_⟩
  have h : foldMature =ᵐ[matureLaw] id := by
    filter_upwards [mature_ae] with q hq
    simp only [foldMature, Int.fract_eq_self.mpr hq, id]
  rw [Measure.map_congr h, Measure.map_id]

/-- A probability space for the draws of `generate_mature_spots`. -/
def matureSpace : Measure (ℕ → ℝ × ℝ) := Measure.infinitePi fun _ => matureLaw

/-- Draws on that space. -/
def matureDraws (ω : ℕ → ℝ × ℝ) (k : ℕ) : SpotDraws 1 × Set.Ico (0 : ℝ) 1 :=
  (⟨fun _ => (ω k).1, fun _ _ => 0, fun _ => true, fun _ => 0, fun _ => unitDraw 0, fun _ => unitDraw 0⟩, unitDraw (ω k).2)

theorem matureSpace_fair : FairMature matureSpace matureDraws := by
  have e : ∀ k, (fun ω : ℕ → ℝ × ℝ => ((matureDraws ω k).1.z 0, ((matureDraws ω k).2 : ℝ))) = fun ω => foldMature (ω k) := fun k => rfl
  have hm := foldMature_law.measurable
  refine ⟨fun k => ?_, fun k => ?_, ?_, fun k => ?_⟩
  · rw [e]; exact hm.comp (measurable_pi_apply k)
  · rw [e]
    change matureSpace.map (foldMature ∘ fun ω => ω k) = _
    rw [← Measure.map_map hm (measurable_pi_apply k)]
    unfold matureSpace
    rw [Measure.infinitePi_map_eval]
    exact foldMature_law.map_eq
  · exact iIndepFun_infinitePi (P := fun _ : ℕ => matureLaw) (X := fun _ => foldMature) fun _ => hm
  · exact Filter.Eventually.of_forall fun ω => ⟨0, fun i => by norm_num [matureDraws, SpotDraws.ratios]⟩

instance : IsProbabilityMeasure matureSpace := by unfold matureSpace; infer_instance

/-- Non-trivial instance of C129: the default generator asked to cover a tenth of a star like the Sun.  The number of spots has a finite
mean `n > 0` and the spots together have on average `n` times the area `5 (1 + √e)` MSH. -/
example : ∃ L : (ℕ → ℝ × ℝ) → List StarSpot,
    (∀ᵐ ω ∂matureSpace, (SpotGenerator.off (.rect 3 4)).generateMature 0.1 695700 (matureDraws ω) = .ok (L ω)) ∧
    0 < ∫ ω, ((L ω).length : ℝ) ∂matureSpace ∧
    ∫ ω, areaSum (L ω) ∂matureSpace = (∫ ω, ((L ω).length : ℝ) ∂matureSpace) * (1e-5 * π * 695700 ^ 2 * (1 + exp (1 / 2))) := by
  have hp := pi_pos
  have hMSH : 10 * MSH = 2e-5 * π * 695700 ^ 2 := by unfold MSH; ring
  obtain ⟨L, h1, h2, -, h3, -, h4, h5⟩ := C129_mature_number matureSpace (SpotGenerator.off (.rect 3 4))
    (by simp only [SpotGenerator.off]; rw [hMSH]; positivity) le_rfl (by norm_num [SpotGenerator.off]) (by simp [SpotGenerator.off]) (Or.inl rfl)
    0.1 695700 (by norm_num) (by norm_num) (by norm_num) matureDraws matureSpace_fair
  refine ⟨L, h1, ?_, ?_⟩
  · have h6 : 0 ≤ ∫ ω, ((L ω).length : ℝ) ∂matureSpace := integral_nonneg fun ω => Nat.cast_nonneg _
    refine h6.lt_of_ne fun h => ?_
    rw [← h, zero_mul] at h3
    linarith
  · rw [h4, h5 rfl]
    simp only [SpotGenerator.off]
    rw [hMSH, one_pow]
    ring

/-! ## C130 -/

/-- **C130** A star made without a spot generator makes dark spots when asked for mature ones: each spot has 0 K in umbra and penumbra,
neither grows nor decays, has as largest area 10 millionths of the Sun's visible hemisphere times `e^z` and as area a point between 10 such
millionths and its largest area; the surface map has 0 K inside the spots and the temperature of the star elsewhere. -/
theorem C130_default_spots (teff radius period : ℝ) (hT : 0 < teff) (grid0 : Grid) (faculae : FaculaCollection)
    (gp : Grid.PyVal) (flareGen : Option FlareGenerator) (facGen : Option FaculaGenerator) (gran : Option Granulation) (u1 u2 : ℝ)
    (s : Star) (hs : Star.new teff radius period (.new [] grid0) faculae gp flareGen none facGen gran u1 u2 = .ok s)
    (c : ℝ) (D : ℕ → SpotDraws 1 × Set.Ico (0 : ℝ) 1) (s' : Star) (h : s.generateMatureSpots c D = .ok s') :
    (∀ i (hi : i < s'.spots.spots.length), s'.spots.spots[i].teffUmbra = 0 ∧ s'.spots.spots[i].teffPenumbra = 0 ∧
      s'.spots.spots[i].decayRate = 0 ∧ s'.spots.spots[i].growthRate = 0 ∧
      s'.spots.spots[i].areaMax = 2e-5 * π * 695700 ^ 2 * exp ((D i).1.z 0) ∧
      s'.spots.spots[i].area = .fin (2e-5 * π * 695700 ^ 2 * (1 + (D i).2 * (exp ((D i).1.z 0) - 1)))) ∧
    ∃ m : s'.spots.grid.Pix → ℝ, s'.map = .ok m ∧ ∀ p, m p = 0 ∧ (∃ sp ∈ s'.spots.spots, inSpot sp s'.spots.grid radius p) ∨
      m p = teff ∧ ∀ sp ∈ s'.spots.spots, ¬ inSpot sp s'.spots.grid radius p := by
  obtain ⟨obj, g, ho, hg⟩ := (C66_unified teff radius period (.new [] grid0) faculae gp flareGen none facGen gran u1 u2).2 s hs
  obtain ⟨s1, e1, hU, hsp, -, eT, eR, -⟩ := (C66_unified teff radius period (.new [] grid0) faculae gp flareGen none facGen gran u1 u2).1 obj g ho hg
  rw [hs] at e1
  obtain rfl := Except.ok.inj e1
  have hG : s.spotGen = SpotGenerator.off g := by
    unfold Star.new at hs
    rw [ho] at hs
    simp only [bind, Except.bind] at hs
    rw [hg] at hs
    simp only [pure, Except.pure] at hs
    cases facGen with
    | none => simp only [Except.ok.injEq] at hs; rw [← hs]; rfl
    | some fg =>
      cases hu : Star.unify fg.grid g with
      | error e => simp only [hu, Except.map] at hs; cases hs
      | ok g' => simp only [hu, Except.map, Except.ok.injEq] at hs; rw [← hs]; rfl
  unfold Star.generateMatureSpots at h
  cases hm : s.spotGen.generateMature c s.radius D with
  | error e => rw [hm] at h; cases h
  | ok l =>
  rw [hm] at h
  obtain rfl := Except.ok.inj h
  have hsp0 : s.spots.spots = [] := hsp
  have hsg : s.spots.grid = g := hU.spots
  have hM : (s.addSpot l).spots.spots = l.map fun t => { t with grid := g } := by
    change s.spots.spots ++ _ = _
    rw [hsp0, hsg]; rfl
  obtain ⟨-, hstep, -⟩ := (C89_mature_list _ c s.radius D l).mp hm
  rw [hG] at hstep
  have hpi := pi_pos
  have hMSH : 10 * MSH = 2e-5 * π * 695700 ^ 2 := by unfold MSH; ring
  have each : ∀ i (hi : i < l.length), l[i].teffUmbra = 0 ∧ l[i].teffPenumbra = 0 ∧ l[i].decayRate = 0 ∧ l[i].growthRate = 0 ∧
      l[i].areaMax = 2e-5 * π * 695700 ^ 2 * exp ((D i).1.z 0) ∧
      l[i].area = .fin (2e-5 * π * 695700 ^ 2 * (1 + (D i).2 * (exp ((D i).1.z 0) - 1))) ∧
      l[i].r = StarSpot.distances l[i].lat l[i].lon g := by
    intro i hi
    have h1 := hstep i hi
    unfold SpotGenerator.matureStep at h1
    cases hgen : (SpotGenerator.off g).generate 1 (D i).1 with
    | error e => rw [hgen] at h1; cases h1
    | ok k =>
      rw [hgen] at h1
      obtain ⟨hlen, hnb, hamax⟩ := (C27_generate _ 1 (D i).1).2.2 k hgen
      match k, hlen, hnb, hamax, h1 with
      | [t], _, hnb, hamax, h1 =>
        have nb := hnb t (by simp)
        have am := hamax (by simp only [SpotGenerator.off, MSH]; positivity) 0 (by simp) (by simp)
        have hst : (SpotGenerator.off g).isStatic := rfl
        simp only [Except.bind, hst, if_true, Except.ok.injEq] at h1
        rw [← h1]
        have am' : t.areaMax = 2e-5 * π * 695700 ^ 2 * exp ((D i).1.z 0) := by
          rw [← hMSH]
          simpa [SpotGenerator.off] using am
        refine ⟨nb.tu, nb.tp, nb.decay, nb.growth, am', ?_, nb.dist⟩
        simp only [am', Fl.fin_inj, SpotGenerator.off, hMSH]
        ring
  constructor
  · intro i hi
    simp only [hM, List.getElem_map]
    have hi' : i < l.length := by simpa [hM] using hi
    obtain ⟨a1, a2, a3, a3', a4, a5, -⟩ := each i hi'
    exact ⟨a1, a2, a3, a3', a4, a5⟩
  · have hall : ∀ sp ∈ (s.addSpot l).spots.spots, sp.teffUmbra = 0 ∧ sp.teffPenumbra = 0 ∧ sp.setGridmaker g = sp := by
      intro sp hsp
      rw [hM, List.mem_map] at hsp
      obtain ⟨t, ht, rfl⟩ := hsp
      obtain ⟨i, hi, rfl⟩ := List.getElem_of_mem ht
      obtain ⟨a1, a2, -, -, -, -, a6⟩ := each i hi
      refine ⟨a1, a2, ?_⟩
      simp only [StarSpot.setGridmaker, a6]
    have hgr : (s.addSpot l).spots.grid = g := hsg
    have hmeas : Measured (s.addSpot l).spots := fun sp hsp => by rw [hgr]; exact (hall sp hsp).2.2
    obtain ⟨m, hm1, hm2, -⟩ := C19_coolest_partial (s.addSpot l).spots hmeas s.radius s.teff
      (fun sp hsp => by rw [(hall sp hsp).1, (hall sp hsp).2.1])
    refine ⟨m, hm1, fun p => ?_⟩
    have hl := hm2 p
    rw [eT, eR] at hl
    by_cases hin : ∃ sp ∈ (s.addSpot l).spots.spots, inSpot sp (s.addSpot l).spots.grid radius p
    · left
      refine ⟨?_, hin⟩
      obtain ⟨sp, hsp, hi⟩ := hin
      have h1 := hl.2 (Or.inr ⟨sp, hsp, Or.inl ⟨rfl, hi⟩⟩)
      rw [(hall sp hsp).2.1] at h1
      refine le_antisymm h1 ?_
      rcases hl.1 with h2 | ⟨t, ht, h2 | h2⟩
      · rw [h2]; exact hT.le
      · rw [h2.1, (hall t ht).2.1]
      · rw [h2.1, (hall t ht).1]
    · right
      push Not at hin
      refine ⟨?_, hin⟩
      rcases hl.1 with h2 | ⟨t, ht, h2 | h2⟩
      · exact h2
      · exact absurd h2.2 (hin t ht)
      · exact absurd (by have h3 := h2.2; unfold inUmbra StarSpot.umbraMask at h3; rw [if_pos (by change t.teffUmbra = t.teffPenumbra; rw [(hall t ht).1, (hall t ht).2.1])] at h3; exact h3) (hin t ht)

/-- Non-trivial instance of C130: a default star with 3000 K asked to be covered by a tenth gets at least one spot, and all its spots have
0 K. -/
example : ∃ s D s' m, Star.new 3000 1000 1 (.new [] (.spiral 10)) ⟨[], .spiral 7⟩ (.int 100) none none none none 0 0 = .ok s ∧
    s.generateMatureSpots 0.1 D = .ok s' ∧ s'.spots.spots ≠ [] ∧ (∀ sp ∈ s'.spots.spots, sp.teffUmbra = 0) ∧ s'.map = .ok m ∧
    ∀ p, m p = 0 ∨ m p = 3000 := by
  have hp := pi_pos
  have hMSH : 10 * MSH = 2e-5 * π * 695700 ^ 2 := by unfold MSH; ring
  obtain ⟨L, h1, -⟩ := C129_mature_number matureSpace (SpotGenerator.off (.spiral 100))
    (by simp only [SpotGenerator.off]; rw [hMSH]; positivity) le_rfl (by norm_num [SpotGenerator.off]) (by simp [SpotGenerator.off]) (Or.inl rfl)
    0.1 1000 (by norm_num) (by norm_num) (by norm_num) matureDraws matureSpace_fair
  obtain ⟨ω, hω⟩ := h1.exists
  have hne : L ω ≠ [] := by
    intro h
    have := ((C89_mature_list _ _ _ _ _).mp hω).2.2.1
    rw [h] at this
    apply this
    change Fl.fin 0 < Fl.fin (4 * π * 0.1)
    rw [Fl.fin_lt]
    positivity
  have hs : ∃ s, Star.new 3000 1000 1 (.new [] (.spiral 10)) ⟨[], .spiral 7⟩ (.int 100) none none none none 0 0 = .ok s ∧
      s.spotGen = SpotGenerator.off (.spiral 100) ∧ s.radius = 1000 ∧ s.spots.spots = [] := ⟨_, rfl, rfl, rfl, rfl⟩
  obtain ⟨s, hs1, hs2, hs3, hs4⟩ := hs
  have hgen : s.generateMatureSpots 0.1 (matureDraws ω) = .ok (s.addSpot (L ω)) := by
    unfold Star.generateMatureSpots
    rw [hs2, hs3, hω]; rfl
  obtain ⟨h2, m, h3, h4⟩ := C130_default_spots 3000 1000 1 (by norm_num) (.spiral 10) ⟨[], .spiral 7⟩ (.int 100) none none none 0 0 s hs1 0.1 _ _ hgen
  refine ⟨s, matureDraws ω, s.addSpot (L ω), m, hs1, hgen, ?_, fun sp hsp => ?_, h3, fun p => ?_⟩
  · change s.spots.spots ++ _ ≠ []
    rw [hs4]
    simpa using hne
  · obtain ⟨i, hi, rfl⟩ := List.getElem_of_mem hsp
    exact (h2 i hi).1
  · rcases h4 p with h | h
    · exact Or.inl h.1
    · exact Or.inr h.1

end Vsm
