import Verif.Props.FlareUse
import Verif.Props.FaculaAge
import Mathlib.Probability.Distributions.Gaussian.Real

/-!
# C111 – C113: averages over the random draws

What the generators produce on average: the area-time of faculae, the temperatures and widths of flares, the time of the
last flare.
-/

noncomputable section

namespace Vsm

open Real MeasureTheory ProbabilityTheory

/-! ## C111 -/

/-- Area-time of a facula: the time integral of its area over its life. -/
def Spec.lifeArea (f : Facula) : ℝ := ∫ t in (0 : ℝ)..(2 * f.lifetime), Spec.faculaArea f t

theorem normal_exp_mean {Ω : Type*} [MeasurableSpace Ω] (P : Measure Ω) (X : Ω → ℝ) (h : P.map X = gaussianReal 0 1)
    (c : ℝ) : ∫ ω, exp (c * X ω) ∂P = exp (c ^ 2 / 2) := by
  have := mgf_gaussianReal h c
  rw [mgf] at this
  rw [this]
  simp

theorem ten_rpow (x : ℝ) : (10 : ℝ) ^ x = exp (Real.log 10 * x) := rpow_def_of_pos (by norm_num) x

open Spec in
theorem facula_lifeArea (G : FaculaGenerator) (hr : 0 < G.distRPeak) (hl : 0 < G.distLifePeak) (n : ℕ)
    (d : FaculaDraws n) (i : Fin n) : ∃ f, (G.generate n d)[(i : ℕ)]? = some f ∧
      lifeArea f = G.distLifePeak * (π * G.distRPeak ^ 2 / 2 * (1 - exp (-4))) *
        exp (Real.log 10 * (2 * G.distRLogsigma + G.distLifeLogsigma) * d.mu i) := by
  have hlen : (G.generate n d).length = n := by simp [FaculaGenerator.generate]
  have hi : (i : ℕ) < (G.generate n d).length := by rw [hlen]; exact i.2
  refine ⟨(G.generate n d)[(i : ℕ)], List.getElem?_eq_getElem hi, ?_⟩
  obtain ⟨hp, hg, -, -⟩ := generated_facula G hr hl n d _ (List.getElem_mem hi)
  rw [lifeArea, integral_faculaArea _ hp hg]
  have e1 : (G.generate n d)[(i : ℕ)].lifetime = G.distLifePeak * (10 : ℝ) ^ (d.mu i * G.distLifeLogsigma) := by
    simp [FaculaGenerator.generate]
  have e2 : (G.generate n d)[(i : ℕ)].rMax = G.distRPeak * (10 : ℝ) ^ (d.mu i * G.distRLogsigma) := by
    simp [FaculaGenerator.generate]
  rw [e1, e2, ten_rpow, ten_rpow, mul_pow, ← exp_nat_mul,
    show Real.log 10 * (2 * G.distRLogsigma + G.distLifeLogsigma) * d.mu i =
      Real.log 10 * (d.mu i * G.distLifeLogsigma) + (2 : ℕ) * (Real.log 10 * (d.mu i * G.distRLogsigma)) by push_cast; ring,
    exp_add]
  ring

open Spec in
/-- **C111** (partial) Births per time times the mean area-time of a facula: the faculae of the steady state cover the
requested fraction of the star times `(1+e⁻²)/2 · exp((ln10·(2σ_r+σ_l))²/2)`.  Missing: that this factor is one – refuted
by `C111_counterexample`. -/
theorem C111_steady_faculae_partial {Ω : Type*} [MeasurableSpace Ω] (P : Measure Ω) (G : FaculaGenerator)
    (hr : 0 < G.distRPeak) (hl : 0 < G.distLifePeak) (hc : 0 ≤ G.coverage) (R : ℝ) (n : ℕ) (i : Fin n)
    (D : Ω → FaculaDraws n) (hD : P.map (fun ω => (D ω).mu i) = gaussianReal 0 1) :
    ∃ (rate : ℝ → ℝ) (f : Ω → Facula), (∀ t, G.nExpected t R = .fin (rate t)) ∧
      (∀ ω, (G.generate n (D ω))[(i : ℕ)]? = some (f ω)) ∧
      ∀ t, rate t * ∫ ω, lifeArea (f ω) ∂P = G.coverage * (4 * π * R ^ 2) * t *
        ((1 + exp (-2)) / 2 * exp ((Real.log 10 * (2 * G.distRLogsigma + G.distLifeLogsigma)) ^ 2 / 2)) := by
  obtain ⟨⟨rate, h1, h2, -⟩, -⟩ := C38_births_balance G hr hl hc R
  choose f hf1 hf2 using fun ω => facula_lifeArea G hr hl n (D ω) i
  refine ⟨rate, f, h1, hf1, fun t => ?_⟩
  simp only [hf2]
  rw [integral_const_mul, normal_exp_mean P _ hD, ← h2 t]
  have e1 : Real.exp 1 ^ (-2 : ℤ) = exp (-2) := by rw [zpow_neg, exp_neg, zpow_ofNat, ← exp_nat_mul]; norm_num
  have e2 : exp (-4) = exp (-2) * exp (-2) := by rw [← exp_add]; norm_num
  unfold FaculaGenerator.meanArea
  rw [e1, e2]
  ring

open Spec in
/-- The full statement of C111 is false of the code: without scatter in radius and lifetime the steady state covers less than
the requested fraction. -/
theorem C111_counterexample {Ω : Type*} [MeasurableSpace Ω] (P : Measure Ω) (G : FaculaGenerator)
    (hr : 0 < G.distRPeak) (hl : 0 < G.distLifePeak) (hc : 0 < G.coverage) (h1 : G.distRLogsigma = 0)
    (h2 : G.distLifeLogsigma = 0) (R : ℝ) (hR : 0 < R) (n : ℕ) (i : Fin n)
    (D : Ω → FaculaDraws n) (hD : P.map (fun ω => (D ω).mu i) = gaussianReal 0 1) (t : ℝ) (ht : 0 < t) :
    ∃ (rate : ℝ) (f : Ω → Facula), G.nExpected t R = .fin rate ∧
      (∀ ω, (G.generate n (D ω))[(i : ℕ)]? = some (f ω)) ∧
      rate * ∫ ω, lifeArea (f ω) ∂P < G.coverage * (4 * π * R ^ 2) * t := by
  obtain ⟨rate, f, a, b, c⟩ := C111_steady_faculae_partial P G hr hl hc.le R n i D hD
  refine ⟨rate t, f, a t, b, ?_⟩
  rw [c t, h1, h2]
  have h3 : exp (-2) < 1 := exp_lt_one_of (by norm_num)
  have h4 : 0 < G.coverage * (4 * π * R ^ 2) * t := by have := pi_pos; positivity
  simp only [mul_zero, add_zero, ne_eq, OfNat.ofNat_ne_zero, not_false_eq_true, zero_pow, zero_div, exp_zero, mul_one]
  nlinarith

/-- Non-trivial instance of C111: such draws exist. -/
example (g : Grid) : ∃ D : ℝ → FaculaDraws 2, (gaussianReal 0 1).map (fun ω => (D ω).mu 1) = gaussianReal 0 1 ∧
    ({ FaculaGenerator.off g with coverage := 0.1 }.generate 2 (D 0)).length = 2 :=
  ⟨fun ω => ⟨fun _ => ω, fun _ => ⟨0, by simp⟩, fun _ => ⟨0, by simp⟩⟩, Measure.map_id, by simp [FaculaGenerator.generate]⟩

/-! ## C112 -/

theorem normal_neg_half {Ω : Type*} [MeasurableSpace Ω] (P : Measure Ω) (X : Ω → ℝ) (hX : Measurable X)
    (h : P.map X = gaussianReal 0 1) : P {ω | X ω ≤ 0} = 1 / 2 := by
  have hs : MeasurableSet (Set.Iic (0 : ℝ)) := measurableSet_Iic
  have h1 : P {ω | X ω ≤ 0} = gaussianReal 0 1 (Set.Iic 0) := by
    rw [← h, Measure.map_apply hX hs]; rfl
  have hn : gaussianReal 0 1 (Set.Iic (0 : ℝ)) = gaussianReal 0 1 (Set.Ici (0 : ℝ)) := by
    have := gaussianReal_map_neg (μ := 0) (v := 1)
    rw [neg_zero] at this
    conv_lhs => rw [← this, Measure.map_apply measurable_neg hs]
    congr 1
    ext x; simp
  have := nullSingletonClass_gaussianReal (μ := 0) (v := 1) one_ne_zero
  have hs2 : gaussianReal 0 1 (Set.Ici (0 : ℝ)) = gaussianReal 0 1 (Set.Ioi (0 : ℝ)) :=
    (measure_congr Ioi_ae_eq_Ici).symm
  have hsum := measure_add_measure_compl (μ := gaussianReal 0 1) hs
  rw [Set.compl_Iic, ← hs2, ← hn, measure_univ, ← two_mul] at hsum
  rw [h1, ENNReal.eq_div_iff (by norm_num) (by norm_num), hsum]

theorem getElem?_of_map {α β : Type*} {n : ℕ} {l : List α} {f : α → β} {g : Fin n → β} (h : l.map f = List.ofFn g)
    (i : Fin n) : ∃ x, l[(i : ℕ)]? = some x ∧ f x = g i := by
  have h1 := congrArg (fun x => x[(i : ℕ)]?) h
  simp only [List.getElem?_map, List.getElem?_ofFn, i.2, dite_true, Fin.eta] at h1
  rwa [Option.map_eq_some_iff] at h1

theorem normal_moments {Ω : Type*} [MeasurableSpace Ω] (P : Measure Ω) (X : Ω → ℝ) (hX : Measurable X)
    (h : P.map X = gaussianReal 0 1) (a b : ℝ) :
    ∫ ω, (a + b * X ω) ∂P = a ∧ ∫ ω, (a + b * X ω - a) ^ 2 ∂P = b ^ 2 := by
  have hP : IsProbabilityMeasure P := by
    constructor
    have : P.map X Set.univ = 1 := by rw [h]; exact measure_univ
    rwa [Measure.map_apply hX MeasurableSet.univ, Set.preimage_univ] at this
  have hi : Integrable (fun x : ℝ => x) (gaussianReal 0 1) := (memLp_id_gaussianReal' 1 (by simp)).integrable le_rfl
  have hiX : Integrable X P := by
    rw [← h, integrable_map_measure (by fun_prop) hX.aemeasurable] at hi
    exact hi
  have hm : ∫ ω, X ω ∂P = 0 := by
    have := integral_map (μ := P) hX.aemeasurable (f := fun x : ℝ => x) (by fun_prop)
    rw [h, integral_id_gaussianReal] at this
    exact this.symm
  constructor
  · rw [integral_add (integrable_const a) (hiX.const_mul b), integral_const_mul, hm]
    simp
  · have hv := variance_fun_id_gaussianReal (μ := 0) (v := 1)
    rw [variance_eq_integral (by fun_prop), integral_id_gaussianReal] at hv
    have h2 := integral_map (μ := P) hX.aemeasurable (f := fun x : ℝ => x ^ 2) (by fun_prop)
    rw [h] at h2
    simp only [sub_zero, NNReal.coe_one] at hv
    rw [hv] at h2
    simp only [add_sub_cancel_left, mul_pow]
    rw [integral_const_mul, ← h2, mul_one]

/-- **C112** (partial) The temperatures of the flares of a series have the mean `dist_teff_mean` and the standard deviation
`dist_teff_sigma`; half of the widths are at most `dist_fwhm_mean`, and their mean is `dist_fwhm_mean·exp((ln10·σ)²/2)`.
Missing: that the mean of the widths is `dist_fwhm_mean` – refuted by `C112_counterexample`. -/
theorem C112_flare_averages_partial {Ω : Type*} [MeasurableSpace Ω] (P : Measure Ω) (G : FlareGenerator) (m c t : ℝ)
    (k : ℕ) (i : Fin k) (D : Ω → (n : ℕ) → FlareDraws n) (hT : Measurable fun ω => (D ω k).zT i)
    (hF : Measurable fun ω => (D ω k).zF i) (hTl : P.map (fun ω => (D ω k).zT i) = gaussianReal 0 1)
    (hFl : P.map (fun ω => (D ω k).zF i) = gaussianReal 0 1)
    (hm : G.minEnergy = .fin m) (hm0 : 0 < m) (ha : G.alpha < 0) (hc : G.clusterSize = .fin c) (hc0 : 0 ≤ c)
    (hw : 0 < G.fwhmMean) (hsw : 0 ≤ G.fwhmLogsigma) (hst : 0 ≤ G.teffSigma) (ht : 0 < t) :
    ∃ (l : Ω → List StellarFlare) (f : Ω → StellarFlare), (∀ ω, G.series t k (D ω) = .ok (l ω)) ∧
      (∀ ω, (l ω)[(i : ℕ)]? = some (f ω)) ∧
      ∫ ω, (f ω).teff ∂P = G.teffMean ∧ ∫ ω, ((f ω).teff - G.teffMean) ^ 2 ∂P = G.teffSigma ^ 2 ∧
      (0 < G.fwhmLogsigma → P {ω | (f ω).fwhm ≤ G.fwhmMean} = 1 / 2) ∧
      ∫ ω, (f ω).fwhm ∂P = G.fwhmMean * exp ((Real.log 10 * G.fwhmLogsigma) ^ 2 / 2) := by
  choose l h1 h2 h3 h4 h5 using fun ω => C73_series_order G m c t t k (D ω) hm hm0 ha hc hc0 hw hsw hst ht ht
  choose f f1 f2 using fun ω => getElem?_of_map (h3 ω) i
  have f3 : ∀ ω, (f ω).fwhm = G.fwhmMean * (10 : ℝ) ^ (G.fwhmLogsigma * (D ω k).zF i) := by
    intro ω
    obtain ⟨x, x1, x2⟩ := getElem?_of_map (h4 ω) i
    rw [f1 ω, Option.some.injEq] at x1
    rw [x1, x2]
  obtain ⟨n1, n2⟩ := normal_moments P _ hT hTl G.teffMean G.teffSigma
  refine ⟨l, f, h1, f1, ?_, ?_, ?_, ?_⟩
  · simp only [f2]; exact n1
  · simp only [f2]; exact n2
  · intro hs
    rw [← normal_neg_half P _ hF hFl]
    congr 1
    ext ω
    simp only [Set.mem_ofPred_eq, f3]
    rw [mul_le_iff_le_one_right hw, rpow_le_one_iff_of_pos (by norm_num)]
    constructor
    · rintro (⟨-, h⟩ | ⟨h, -⟩)
      · by_contra hc
        push Not at hc
        nlinarith [mul_pos hs hc]
      · norm_num at h
    · intro h
      exact Or.inl ⟨by norm_num, mul_nonpos_of_nonneg_of_nonpos hs.le h⟩
  · simp only [f3, ten_rpow]
    rw [integral_const_mul, ← normal_exp_mean P _ hFl]
    congr 2
    funext ω
    congr 1
    ring

/-- The full statement of C112 is false of the code: with any scatter the mean width exceeds `dist_fwhm_mean`. -/
theorem C112_counterexample {Ω : Type*} [MeasurableSpace Ω] (P : Measure Ω) (k : ℕ) (i : Fin k)
    (D : Ω → (n : ℕ) → FlareDraws n) (hT : Measurable fun ω => (D ω k).zT i)
    (hF : Measurable fun ω => (D ω k).zF i) (hTl : P.map (fun ω => (D ω k).zT i) = gaussianReal 0 1)
    (hFl : P.map (fun ω => (D ω k).zF i) = gaussianReal 0 1) :
    ∃ (l : Ω → List StellarFlare) (f : Ω → StellarFlare), (∀ ω, Spec.sampleFlareGen.series 1 k (D ω) = .ok (l ω)) ∧
      (∀ ω, (l ω)[(i : ℕ)]? = some (f ω)) ∧ Spec.sampleFlareGen.fwhmMean < ∫ ω, (f ω).fwhm ∂P := by
  obtain ⟨l, f, h1, h2, -, -, -, h3⟩ := C112_flare_averages_partial P Spec.sampleFlareGen 10 2 1 k i D hT hF hTl hFl rfl
    (by norm_num) (by norm_num [Spec.sampleFlareGen]) rfl (by norm_num) (by norm_num [Spec.sampleFlareGen])
    (by norm_num [Spec.sampleFlareGen]) (by norm_num [Spec.sampleFlareGen]) one_pos
  refine ⟨l, f, h1, h2, ?_⟩
  rw [h3]
  have hl : 0 < Real.log 10 := log_pos (by norm_num)
  have h4 : 1 < exp ((Real.log 10 * Spec.sampleFlareGen.fwhmLogsigma) ^ 2 / 2) := by
    rw [one_lt_exp_iff]
    have : 0 < Spec.sampleFlareGen.fwhmLogsigma := by norm_num [Spec.sampleFlareGen]
    positivity
  have h5 : 0 < Spec.sampleFlareGen.fwhmMean := by norm_num [Spec.sampleFlareGen]
  nlinarith

/-- Non-trivial instance of C112: such draws exist. -/
example : ∃ D : ℝ → (n : ℕ) → FlareDraws n, (gaussianReal 0 1).map (fun ω => (D ω 3).zT 1) = gaussianReal 0 1 ∧
    (gaussianReal 0 1).map (fun ω => (D ω 3).zF 1) = gaussianReal 0 1 :=
  ⟨fun ω _ => ⟨fun _ => ⟨0, by simp⟩, fun _ => 1, fun _ => ⟨1, by simp⟩, fun _ => ω, fun _ => ω, fun _ => ⟨0, by simp⟩,
    fun _ => ⟨0, by simp⟩⟩, Measure.map_id, Measure.map_id⟩

/-! ## C113 -/

theorem cumsumFrom_last (l : List ℝ) (hl : l ≠ []) (acc : ℝ) : (Np.cumsumFrom acc l).getLast? = some (acc + l.sum) := by
  induction l generalizing acc with
  | nil => exact absurd rfl hl
  | cons x l ih =>
    rw [Np.cumsumFrom]
    by_cases h : l = []
    · subst h; simp [Np.cumsumFrom]
    · rw [List.getLast?_cons, ih h (acc + x), List.sum_cons]
      simp [add_assoc]

theorem waitingTimes_mean {Ω : Type*} [MeasurableSpace Ω] (P : Measure Ω) (ts : ℝ) (sizes : List ℕ)
    (e : Ω → ℕ → Set.Ici (0 : ℝ)) (hi : ∀ j, Integrable (fun ω => (e ω j : ℝ)) P) (h1 : ∀ j, ∫ ω, (e ω j : ℝ) ∂P = 1) :
    Integrable (fun ω => (FlareGenerator.waitingTimes ts sizes (e ω)).sum) P ∧
    ∫ ω, (FlareGenerator.waitingTimes ts sizes (e ω)).sum ∂P =
      (FlareGenerator.waitingTimes ts sizes (fun _ => ⟨1, by simp⟩)).sum := by
  have hc : ∀ (L : List ℕ) (a : ℕ → ℝ) (e : Ω → ℕ → Set.Ici (0 : ℝ)), (∀ j, Integrable (fun ω => (e ω j : ℝ)) P) →
      (∀ j, ∫ ω, (e ω j : ℝ) ∂P = 1) → Integrable (fun ω => (L.map fun i => a i * (e ω i : ℝ)).sum) P ∧
      ∫ ω, (L.map fun i => a i * (e ω i : ℝ)).sum ∂P = (L.map a).sum := by
    intro L a e hi h1
    induction L with
    | nil => simp
    | cons x L ih =>
      simp only [List.map_cons, List.sum_cons]
      refine ⟨((hi x).const_mul _).add ih.1, ?_⟩
      rw [integral_add ((hi x).const_mul _) ih.1, integral_const_mul, h1, ih.2, mul_one]
  induction sizes generalizing e with
  | nil => simp [FlareGenerator.waitingTimes]
  | cons c l ih =>
    obtain ⟨a1, a2⟩ := ih (fun ω i => e ω (i + (1 + (c - 1)))) (fun j => hi _) (fun j => h1 _)
    have hcl : ∀ e' : ℕ → Set.Ici (0 : ℝ), (FlareGenerator.clusterTimes ts c e').sum =
        ((List.range (1 + (c - 1))).map fun i => (if i = 0 then ts else ts / c / 2) * (e' i : ℝ)).sum := by
      intro e'
      unfold FlareGenerator.clusterTimes
      congr 1
      refine List.map_congr_left fun i _ => ?_
      by_cases h : i = 0
      · subst h; simp
      · simp [h]
    obtain ⟨b1, b2⟩ := hc (List.range (1 + (c - 1))) (fun i => if i = 0 then ts else ts / c / 2) e hi h1
    simp only [FlareGenerator.waitingTimes, List.sum_append, hcl, mul_one]
    refine ⟨b1.add a1, ?_⟩
    rw [integral_add b1 a1, b2, a2]

/-- **C113** With unit exponential draws of mean one, the last of the flares of a series peaks on average not before the end
of the observation, and not later than one and a half observation times after its start – whatever the cluster sizes. -/
theorem C113_last_flare {Ω : Type*} [MeasurableSpace Ω] (P : Measure Ω) (G : FlareGenerator) (m c t : ℝ)
    (k : ℕ) (hk : 0 < k) (D : Ω → (n : ℕ) → FlareDraws n) (raw : Fin k → ℕ) (hraw : ∀ ω, (D ω k).clusters = raw)
    (hi : ∀ j, Integrable (fun ω => ((D ω k).expo j : ℝ)) P) (h1 : ∀ j, ∫ ω, ((D ω k).expo j : ℝ) ∂P = 1)
    (hm : G.minEnergy = .fin m) (hm0 : 0 < m) (ha : G.alpha < 0) (hc : G.clusterSize = .fin c) (hc0 : 0 ≤ c)
    (hsw : 0 ≤ G.fwhmLogsigma) (hst : 0 ≤ G.teffSigma) (ht : 0 < t) :
    ∃ (l : Ω → List StellarFlare) (f : Ω → StellarFlare), (∀ ω, G.series t k (D ω) = .ok (l ω)) ∧
      (∀ ω, (l ω).getLast? = some (f ω)) ∧ t ≤ ∫ ω, (f ω).tpeak ∂P ∧ ∫ ω, (f ω).tpeak ∂P ≤ 3 / 2 * t := by
  obtain ⟨draws, hd⟩ := mapM_poisson hc0 (List.ofFn raw)
  obtain ⟨z1, z2, z3⟩ := clusterSizes_spec hk draws
  set sizes := FlareGenerator.clusterSizes k draws with hsz
  have hlen : (0 : ℝ) < sizes.length := by exact_mod_cast z3
  have hts : (0 : ℝ) ≤ 1 / (sizes.length : ℝ) := by positivity
  have hpk : ∀ ω, G.getPeaks k (D ω k).clusters (D ω k).expo =
      .ok (Np.cumsum (FlareGenerator.waitingTimes (1 / (sizes.length : ℝ)) sizes (D ω k).expo)) := by
    intro ω
    unfold FlareGenerator.getPeaks
    rw [hraw ω, hc, hd]
    simp only [bind, Except.bind]
    rw [if_neg (not_not.mpr z1), if_neg z3.ne']
  have hmain : ∀ ω, ∃ l f, G.series t k (D ω) = .ok l ∧ l.getLast? = some f ∧
      f.tpeak = (FlareGenerator.waitingTimes (1 / (sizes.length : ℝ)) sizes (D ω k).expo).sum * t := by
    intro ω
    obtain ⟨pk, hp, hl, -, e⟩ := series_eq G m c t k hk.ne' (D ω) hm hm0 ha hc hc0 hsw hst ht
    rw [hpk ω, Except.ok.injEq] at hp
    obtain ⟨-, -, -, -, -, m6⟩ := zipFlares_maps k
      (List.ofFn fun i => (10 : ℝ) ^ (logb 10 G.fwhmMean + G.fwhmLogsigma * (D ω k).zF i))
      (List.ofFn fun i => .fin (m * (1 - ((D ω k).uE i : ℝ)) ^ (1 / G.alpha)))
      (List.ofFn fun i => FlareGenerator.drawLat ((D ω k).uLat i))
      (List.ofFn fun i => FlareGenerator.drawLon ((D ω k).uLon i))
      (List.ofFn fun i => G.teffMean + G.teffSigma * (D ω k).zT i) (pk.map (· * t))
      (by simp) (by simp) (by simp) (by simp) (by simp) (by simp [hl])
    have hlast := congrArg List.getLast? m6
    have hne : FlareGenerator.waitingTimes (1 / (sizes.length : ℝ)) sizes (D ω k).expo ≠ [] := by
      intro h
      have w1 := (waitingTimes_spec hts sizes z2 (D ω k).expo).1
      rw [h, z1] at w1
      simp at w1
      omega
    rw [List.getLast?_map, List.getLast?_map, ← hp, Np.cumsum, cumsumFrom_last _ hne, zero_add, Option.map_some,
      Option.map_eq_some_iff] at hlast
    obtain ⟨f, f1, f2⟩ := hlast
    rw [← hp] at e
    exact ⟨_, f, e, f1, f2⟩
  choose l f a1 a2 a3 using hmain
  obtain ⟨-, b2⟩ := waitingTimes_mean P (1 / (sizes.length : ℝ)) sizes (fun ω => (D ω k).expo) hi h1
  obtain ⟨s1, s2⟩ := waitingTimes_sum (lo := 1) (hi := 1) hts sizes z2 (fun _ => ⟨1, by simp⟩) (fun _ => le_rfl)
    (fun _ => le_rfl)
  have hone : 1 / (sizes.length : ℝ) * sizes.length = 1 := by field_simp
  rw [hone, one_mul] at s1 s2
  refine ⟨l, f, a1, a2, ?_⟩
  simp only [a3]
  rw [integral_mul_const, b2]
  constructor <;> nlinarith

/-- Non-trivial instance of C113: with three flares and draws that are 0 or 2 with equal chances. -/
example : ∃ (P : Measure Bool) (D : Bool → (n : ℕ) → FlareDraws n), IsProbabilityMeasure P ∧
    (∀ j, ∫ ω, ((D ω 3).expo j : ℝ) ∂P = 1) ∧ (D true 3).expo ≠ (D false 3).expo ∧
    ∃ (l : Bool → List StellarFlare) (f : Bool → StellarFlare),
      (∀ ω, Spec.sampleFlareGen.series 5 3 (D ω) = .ok (l ω)) ∧ (∀ ω, (l ω).getLast? = some (f ω)) ∧
      5 ≤ ∫ ω, (f ω).tpeak ∂P ∧ ∫ ω, (f ω).tpeak ∂P ≤ 3 / 2 * 5 := by
  let P : Measure Bool := (2 : ENNReal)⁻¹ • Measure.count
  let D : Bool → (n : ℕ) → FlareDraws n := fun ω _ => ⟨fun _ => ⟨0, by simp⟩, fun _ => 2,
    fun _ => ⟨if ω then 2 else 0, by cases ω <;> simp⟩, fun _ => 0, fun _ => 0, fun _ => ⟨0, by simp⟩, fun _ => ⟨0, by simp⟩⟩
  have hP : IsProbabilityMeasure P := by
    constructor
    simp only [P, Measure.smul_apply, smul_eq_mul]
    rw [← Finset.coe_univ, Measure.count_apply_finset]
    simp [ENNReal.inv_mul_cancel]
  have h1 : ∀ j, ∫ ω, ((D ω 3).expo j : ℝ) ∂P = 1 := by
    intro j
    simp only [P, D]
    rw [integral_smul_measure, integral_count]
    simp
  refine ⟨P, D, hP, h1, ?_, ?_⟩
  · intro h
    have := congrArg (fun g => (g 0 : ℝ)) h
    simp [D] at this
  · exact C113_last_flare P Spec.sampleFlareGen 10 2 5 3 (by norm_num) D (fun _ => 2) (fun _ => rfl)
      (fun j => Integrable.of_finite) h1 rfl (by norm_num) (by norm_num [Spec.sampleFlareGen]) rfl (by norm_num)
      (by norm_num [Spec.sampleFlareGen]) (by norm_num [Spec.sampleFlareGen]) (by norm_num)

end Vsm
