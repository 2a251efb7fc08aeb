import Verif.Props.Steady
import Mathlib.Analysis.SpecialFunctions.Integrals.Basic

/-!
# C132: the energy set free by flares on average
-/

noncomputable section

namespace Vsm

open Real MeasureTheory ProbabilityTheory Set
open scoped ENNReal

/-- Mean of a sum of a Poisson number of terms that are independent of the number, draws of any type. -/
theorem randomSum_mean_any {Ω β : Type*} [MeasurableSpace Ω] [MeasurableSpace β] (P : Measure Ω) (r : NNReal) (K : Ω → ℕ)
    (hK : Measurable K) (hl : P.map K = poissonMeasure r) (Y : (n : ℕ) → Fin n → Ω → β) (hY : ∀ n i, Measurable (Y n i))
    (μ : Measure β) (hYl : ∀ n i, P.map (Y n i) = μ) (hind : ∀ n i, IndepFun (Y n i) K P) (φ : β → ℝ≥0∞)
    (hφ : Measurable φ) : ∫⁻ ω, ∑ i : Fin (K ω), φ (Y (K ω) i ω) ∂P = r * ∫⁻ z, φ z ∂μ := by
  have hKn : ∀ n, MeasurableSet (K ⁻¹' {n}) := fun n => hK (measurableSet_singleton n)
  have hm : ∀ n i, Measurable fun ω => φ (Y n i ω) := fun n i => hφ.comp (hY n i)
  have e : ∀ ω, ∑ i : Fin (K ω), φ (Y (K ω) i ω) = ∑' n, (K ⁻¹' {n}).indicator (fun ω => ∑ i : Fin n, φ (Y n i ω)) ω :=
    fun ω => randomSum_eq K (fun n i ω => φ (Y n i ω)) ω
  simp only [e]
  rw [lintegral_tsum fun n => ((Finset.measurable_sum _ fun i _ => hm n i).indicator (hKn n)).aemeasurable]
  have h2 : ∀ n : ℕ, ∫⁻ ω, (K ⁻¹' {n}).indicator (fun ω => ∑ i : Fin n, φ (Y n i ω)) ω ∂P =
      (n : ℝ≥0∞) * poissonMeasure r {n} * ∫⁻ z, φ z ∂μ := by
    intro n
    rw [lintegral_indicator (hKn n), lintegral_finsetSum _ fun i _ => hm n i]
    have h3 : ∀ i : Fin n, ∫⁻ ω in K ⁻¹' {n}, φ (Y n i ω) ∂P = poissonMeasure r {n} * ∫⁻ z, φ z ∂μ := by
      intro i
      rw [← lintegral_indicator (hKn n)]
      have h4 : (fun ω => (K ⁻¹' {n}).indicator (fun ω => φ (Y n i ω)) ω) =
          (fun ω => φ (Y n i ω)) * fun ω => ({n} : Set ℕ).indicator (fun _ => (1 : ℝ≥0∞)) (K ω) := by
        funext ω
        by_cases h : K ω = n <;> simp [indicator, h]
      have h5 : Measurable (({n} : Set ℕ).indicator fun _ => (1 : ℝ≥0∞)) := measurable_const.indicator (measurableSet_singleton n)
      have h7 := lintegral_mul_eq_lintegral_mul_lintegral_of_indepFun (hm n i) (h5.comp hK) ((hind n i).comp hφ h5)
      rw [h4]
      refine h7.trans ?_
      rw [← hYl n i, lintegral_map hφ (hY n i), mul_comm]
      congr 1
      have h6 : (fun ω => ({n} : Set ℕ).indicator (fun _ => (1 : ℝ≥0∞)) (K ω)) = (K ⁻¹' {n}).indicator 1 := by
        funext ω; simp [indicator]
      show ∫⁻ ω, ({n} : Set ℕ).indicator (fun _ => (1 : ℝ≥0∞)) (K ω) ∂P = _
      rw [h6, lintegral_indicator_one (hKn n), ← hl, Measure.map_apply hK (measurableSet_singleton n)]
    simp only [h3]
    rw [Finset.sum_const, Finset.card_univ, Fintype.card_fin, nsmul_eq_mul, mul_assoc]
  simp only [h2]
  rw [ENNReal.tsum_mul_right, poisson_mean]

namespace Spec

/-- A finite energy as an extended non-negative number; anything else counts as infinite (spec). -/
def energyOf : Fl → ℝ≥0∞
  | .fin x => ENNReal.ofReal x
  | _ => ∞

/-- The mean energy of a flare whose energy has the distribution function `1 - (E/m)^α` above `m`: `m·α/(α+1)`, infinite unless
`α < -1` (spec). -/
def paretoMean (m α : ℝ) : ℝ≥0∞ := if α < -1 then ENNReal.ofReal (m * α / (α + 1)) else ∞

/-- The energy of the flares of a list within a region (spec). -/
def energyIn (A : Set (ℝ × ℝ)) (l : List StellarFlare) : ℝ≥0∞ :=
  (l.map fun f => A.indicator (fun _ => energyOf f.energy) (f.lat, f.lon)).sum

end Spec

theorem pareto_mean {m α : ℝ} (hm : 0 < m) (hα : α < 0) :
    ∫⁻ x in Ico (0 : ℝ) 1, ENNReal.ofReal (m * (1 - x) ^ (1 / α)) = Spec.paretoMean m α := by
  have h1 : ∫⁻ x in Ico (0 : ℝ) 1, ENNReal.ofReal (m * (1 - x) ^ (1 / α)) =
      ∫⁻ x in Ioc (0 : ℝ) 1, ENNReal.ofReal (m * x ^ (1 / α)) := by
    rw [← lintegral_indicator measurableSet_Ico, ← lintegral_indicator measurableSet_Ioc,
      ← lintegral_sub_left_eq_self ((Ioc (0 : ℝ) 1).indicator fun x => ENNReal.ofReal (m * x ^ (1 / α))) (1 : ℝ)]
    congr 1
    funext x
    by_cases h : x ∈ Ico (0 : ℝ) 1
    · rw [indicator_of_mem h, indicator_of_mem (show 1 - x ∈ Ioc (0 : ℝ) 1 from ⟨by linarith [h.2], by linarith [h.1]⟩)]
    · rw [indicator_of_notMem h, indicator_of_notMem fun h' => h ⟨by linarith [h'.2], by linarith [h'.1]⟩]
  have hnn : 0 ≤ᵐ[volume.restrict (Ioc (0 : ℝ) 1)] fun x => m * x ^ (1 / α) := by
    filter_upwards [ae_restrict_mem measurableSet_Ioc] with x hx
    have := hx.1
    exact mul_nonneg hm.le (rpow_nonneg this.le _)
  have hmeas : AEStronglyMeasurable (fun x : ℝ => m * x ^ (1 / α)) (volume.restrict (Ioc 0 1)) := by
    have : Measurable fun x : ℝ => m * x ^ (1 / α) := by fun_prop
    exact this.aestronglyMeasurable
  rw [h1]
  unfold Spec.paretoMean
  by_cases h : α < -1
  · rw [if_pos h]
    have hs : -1 < 1 / α := by
      rw [lt_div_iff_of_neg hα]; linarith
    have hi : IntervalIntegrable (fun x : ℝ => m * x ^ (1 / α)) volume 0 1 :=
      (intervalIntegral.intervalIntegrable_rpow' hs).const_mul m
    rw [intervalIntegrable_iff_integrableOn_Ioc_of_le zero_le_one] at hi
    rw [← ofReal_integral_eq_lintegral_ofReal hi hnn, ← intervalIntegral.integral_of_le zero_le_one,
      intervalIntegral.integral_const_mul, integral_rpow (Or.inl hs), one_rpow, zero_rpow (by linarith)]
    congr 1
    have : α + 1 ≠ 0 := by linarith
    have h0 : α ≠ 0 := hα.ne
    have h2 : 1 + α ≠ 0 := by linarith
    field_simp
    ring
  · rw [if_neg h]
    by_contra hne
    have hi : Integrable (fun x : ℝ => m * x ^ (1 / α)) (volume.restrict (Ioc 0 1)) :=
      ⟨hmeas, (hasFiniteIntegral_iff_ofReal hnn).mpr (lt_top_iff_ne_top.mpr hne)⟩
    have hi2 : IntegrableOn (fun x : ℝ => x ^ (1 / α)) (Ioo 0 1) := by
      have := hi.const_mul m⁻¹
      have e : (fun x : ℝ => m⁻¹ * (m * x ^ (1 / α))) = fun x => x ^ (1 / α) := by
        funext x; field_simp
      rw [e] at this
      exact IntegrableOn.mono_set (t := Ioc 0 1) this Ioo_subset_Ioc_self
    have := (intervalIntegral.integrableOn_Ioo_rpow_iff one_pos).mp hi2
    rw [lt_div_iff_of_neg hα] at this
    linarith

open Classical in
/-- **C132** The energy that the flares of `generate_flare_series(time)` set free in a region of the star is on average the
expected number of flares times `min_energy·alpha/(alpha + 1)` times the share of the sphere taken by that region if
`alpha < -1`; it is infinite, for every region of positive area, if `-1 ≤ alpha < 0`. -/
theorem C132_flare_energy {Ω : Type*} [MeasurableSpace Ω] (P : Measure Ω) (G : FlareGenerator) (m c t : ℝ)
    (K : Ω → ℕ) (D : Ω → (n : ℕ) → FlareDraws n) (A : Set (ℝ × ℝ)) (hA : MeasurableSet A)
    (hm : G.minEnergy = .fin m) (hm0 : 0 < m) (ha : G.alpha < 0) (hc : G.clusterSize = .fin c) (hc0 : 0 ≤ c)
    (hw : 0 < G.fwhmMean) (hsw : 0 ≤ G.fwhmLogsigma) (hst : 0 ≤ G.teffSigma) (ht : 0 < t) :
    ∃ total : ℝ, G.nTotal t = .fin total ∧ 0 < total ∧
      (Spec.FairFlares P total K D → ∃ l : Ω → List StellarFlare, (∀ ω, G.series t (K ω) (D ω) = .ok (l ω)) ∧
        ∫⁻ ω, Spec.energyIn A (l ω) ∂P = ENNReal.ofReal total * Spec.paretoMean m G.alpha * Spec.sphereShare A ∧
        (-1 ≤ G.alpha → 0 < Spec.sphereShare A → ∫⁻ ω, Spec.energyIn A (l ω) ∂P = ∞)) := by
  refine ⟨10 ^ G.beta * m ^ G.alpha * t, ?_, by positivity, ?_⟩
  · unfold FlareGenerator.nTotal
    rw [hm, nexp_fin G hm0]
  intro hF
  choose l hl1 hl2 using fun ω => series_fields G m c t (K ω) (D ω) hm hm0 ha hc hc0 hw hsw hst ht
  set φ : ℝ × ℝ × ℝ → ℝ≥0∞ := fun x => ENNReal.ofReal (m * (1 - x.1) ^ (1 / G.alpha)) *
    A.indicator (fun _ => (1 : ℝ≥0∞)) (arcsin (2 * x.2.1 - 1), 2 * π * x.2.2) with hφ
  have hq : Measurable fun x : ℝ × ℝ => A.indicator (fun _ => (1 : ℝ≥0∞)) (arcsin (2 * x.1 - 1), 2 * π * x.2) :=
    (measurable_const.indicator hA).comp (by fun_prop : Measurable fun x : ℝ × ℝ => (arcsin (2 * x.1 - 1), 2 * π * x.2))
  have hg : Measurable fun x : ℝ => ENNReal.ofReal (m * (1 - x) ^ (1 / G.alpha)) := by fun_prop
  have hφm : Measurable φ := (hg.comp measurable_fst).mul (hq.comp measurable_snd)
  have h1 : ∀ ω, Spec.energyIn A (l ω) = ∑ i : Fin (K ω), φ (((D ω (K ω)).uE i : ℝ), ((D ω (K ω)).uLat i : ℝ),
      ((D ω (K ω)).uLon i : ℝ)) := by
    intro ω
    have e : Spec.energyIn A (l ω) = (((l ω).map fun f => (f.energy, f.lat, f.lon)).map fun x =>
        A.indicator (fun _ => Spec.energyOf x.1) x.2).sum := by
      rw [List.map_map]; rfl
    rw [e, hl2, List.map_ofFn, List.sum_ofFn]
    refine Finset.sum_congr rfl fun i _ => ?_
    simp only [Function.comp, hφ, Spec.energyOf]
    by_cases h : (arcsin (2 * ((D ω (K ω)).uLat i : ℝ) - 1), 2 * π * ((D ω (K ω)).uLon i : ℝ)) ∈ A
    · rw [indicator_of_mem h, indicator_of_mem h, mul_one]
    · rw [indicator_of_notMem h, indicator_of_notMem h, mul_zero]
  have hmain : ∫⁻ ω, Spec.energyIn A (l ω) ∂P = ENNReal.ofReal (10 ^ G.beta * m ^ G.alpha * t) *
      Spec.paretoMean m G.alpha * Spec.sphereShare A := by
    simp only [h1]
    rw [randomSum_mean_any P (10 ^ G.beta * m ^ G.alpha * t).toNNReal K hF.count_measurable hF.count
      (fun n i ω => (((D ω n).uE i : ℝ), ((D ω n).uLat i : ℝ), ((D ω n).uLon i : ℝ))) hF.measurable _ hF.uniform hF.indep φ
      hφm, mul_assoc (ENNReal.ofReal _)]
    congr 1
    rw [Measure.volume_eq_prod, ← Measure.prod_restrict, hφ, lintegral_prod_mul hg.aemeasurable hq.aemeasurable,
      pareto_mean hm0 ha]
    congr 1
    have hB := place_measurable A hA
    have e : (fun x : ℝ × ℝ => A.indicator (fun _ => (1 : ℝ≥0∞)) (arcsin (2 * x.1 - 1), 2 * π * x.2)) =
        {x : ℝ × ℝ | (arcsin (2 * x.1 - 1), 2 * π * x.2) ∈ A}.indicator 1 := by
      funext x
      by_cases h : (arcsin (2 * x.1 - 1), 2 * π * x.2) ∈ A
      · rw [indicator_of_mem h, indicator_of_mem (show x ∈ {x : ℝ × ℝ | (arcsin (2 * x.1 - 1), 2 * π * x.2) ∈ A} from h)]; rfl
      · rw [indicator_of_notMem h, indicator_of_notMem (show x ∉ {x : ℝ × ℝ | (arcsin (2 * x.1 - 1), 2 * π * x.2) ∈ A} from h)]
    rw [e, lintegral_indicator_one hB, Measure.restrict_apply hB, ← square_sphere A hA]
    congr 1
    ext x
    simp only [Spec.square, mem_inter_iff, mem_ofPred_eq, and_comm]
  refine ⟨l, hl1, hmain, fun h3 h4 => ?_⟩
  rw [hmain, Spec.paretoMean, if_neg (by linarith), ENNReal.mul_top (by simpa using by positivity), ENNReal.top_mul h4.ne']

open Classical Spec in
/-- Non-trivial instance of C132: with one flare a day expected above 10, and slope `-2`, the flares of a day set free 20 on
average, half of it on the near side; with the slope that is the default of `FlareGenerator.off` the mean is infinite. -/
example (lat0 lon0 : ℝ) : ∃ (P : Measure (ℕ × ℝ × ℝ × ℝ)) (K : ℕ × ℝ × ℝ × ℝ → ℕ)
    (D : ℕ × ℝ × ℝ × ℝ → (n : ℕ) → FlareDraws n) (l l' : ℕ × ℝ × ℝ × ℝ → List StellarFlare), IsProbabilityMeasure P ∧
    (∀ ω, { sampleFlareGen with alpha := -2 }.series 1 (K ω) (D ω) = .ok (l ω)) ∧
    ∫⁻ ω, energyIn {p : ℝ × ℝ | 0 < cosDist lat0 lon0 p.1 p.2} (l ω) ∂P = ENNReal.ofReal 10 ∧
    (∀ ω, { sampleFlareGen with alpha := FlareGenerator.off.alpha, beta := 0.829 }.series 1 (K ω) (D ω) = .ok (l' ω)) ∧
    ∫⁻ ω, energyIn {p : ℝ × ℝ | 0 < cosDist lat0 lon0 p.1 p.2} (l' ω) ∂P = ∞ := by
  have hA : MeasurableSet {p : ℝ × ℝ | 0 < cosDist lat0 lon0 p.1 p.2} := by
    refine measurableSet_lt measurable_const ?_
    simp only [cosDist, inner_unitVec]; fun_prop
  have hs := cap_share lat0 lon0 0 (by norm_num) (by norm_num)
  obtain ⟨total, h1, -, h3⟩ := C132_flare_energy (fairSpace 1) { sampleFlareGen with alpha := -2 } 10 2 1 (fun ω => ω.1)
    (fun ω n => fairFlareDraws ω n) _ hA rfl (by norm_num) (by norm_num) rfl (by norm_num)
    (by norm_num [sampleFlareGen]) (by norm_num [sampleFlareGen]) (by norm_num [sampleFlareGen]) one_pos
  have e1 : total = 1 := by
    unfold FlareGenerator.nTotal at h1
    rw [show sampleFlareGen.minEnergy = .fin 10 from rfl, nexp_fin _ (by norm_num), Fl.fin_inj] at h1
    rw [← h1]
    norm_num [sampleFlareGen]
  obtain ⟨total', h1', -, h3'⟩ := C132_flare_energy (fairSpace 1)
    { sampleFlareGen with alpha := FlareGenerator.off.alpha, beta := 0.829 } 10 2 1 (fun ω => ω.1)
    (fun ω n => fairFlareDraws ω n) _ hA rfl (by norm_num) (by norm_num [FlareGenerator.off]) rfl (by norm_num)
    (by norm_num [sampleFlareGen]) (by norm_num [sampleFlareGen]) (by norm_num [sampleFlareGen]) one_pos
  have e1' : total' = 1 := by
    unfold FlareGenerator.nTotal at h1'
    rw [show sampleFlareGen.minEnergy = .fin 10 from rfl, nexp_fin _ (by norm_num), Fl.fin_inj] at h1'
    rw [← h1']
    simp only [FlareGenerator.off, mul_one]
    rw [← rpow_add (by norm_num)]
    norm_num
  subst e1 e1'
  obtain ⟨l, h4, h5, -⟩ := h3 (fairSpace_flares 1)
  obtain ⟨l', h4', -, h6⟩ := h3' (fairSpace_flares 1)
  have := fair_cube
  refine ⟨fairSpace 1, _, _, l, l', by unfold fairSpace; infer_instance, h4, ?_, h4', ?_⟩
  · rw [h5, hs, paretoMean, if_pos (by norm_num), ← ENNReal.ofReal_mul (by norm_num), ← ENNReal.ofReal_mul (by norm_num)]
    norm_num
  · refine h6 (by norm_num [FlareGenerator.off]) ?_
    rw [hs]
    norm_num

end Vsm
