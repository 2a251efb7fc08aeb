import Verif.Props.MeanFacula
import Mathlib.Probability.Distributions.Poisson.Basic
import Mathlib.MeasureTheory.Integral.Pi
import Mathlib.Probability.Independence.Integration
/-!
# The numbers of spots and of faculae (C168)

C120 and C121 give the mean numbers of features of a star that went through many steps of births and aging.  Here is their distribution: it
is a Poisson distribution, although the features die at different ages.  Each step contributes a Poisson number of births, of which
each is still there at the end with the same chance and independently; such a thinned Poisson number is again a Poisson number
(`thin_law`, by its characteristic function), and a sum of independent Poisson numbers too.
-/
set_option autoImplicit false

namespace Vsm
open Real MeasureTheory ProbabilityTheory Set Np Spec
open scoped ENNReal NNReal

section
variable {Ω Y : Type*} [MeasurableSpace Ω] [MeasurableSpace Y]

/-! ### Thinned Poisson numbers -/

/-- The mean of a product over a Poisson number of independent draws. -/
theorem phase_batch (P : Measure Ω) [IsProbabilityMeasure P] (x : ℝ≥0) (K : Ω → ℕ) (hK : Measurable K) (hKl : P.map K = poissonMeasure x)
    (μ : Measure Y) [IsProbabilityMeasure μ] (y : (n : ℕ) → Ω → Fin n → Y) (hm : ∀ n, Measurable (y n))
    (hl : ∀ n, P.map (y n) = Measure.pi fun _ => μ) (hi : ∀ n, IndepFun (y n) K P) (f : Y → ℂ) (hf : Measurable f) (hf1 : ∀ v, ‖f v‖ ≤ 1) :
    ∫ ω, ∏ i : Fin (K ω), f (y (K ω) ω i) ∂P = Complex.exp (x * ((∫ v, f v ∂μ) - 1)) := by
  set φ := ∫ v, f v ∂μ with hφ
  have hpm : ∀ n, Measurable fun ω => ∏ i : Fin n, f (y n ω i) := fun n =>
    Finset.measurable_prod _ fun i _ => hf.comp ((measurable_pi_apply i).comp (hm n))
  have hFm : Measurable fun ω => ∏ i : Fin (K ω), f (y (K ω) ω i) := by
    have : (fun ω => ∏ i : Fin (K ω), f (y (K ω) ω i)) = fun ω => (fun n ω => ∏ i : Fin n, f (y n ω i)) (K ω) ω := rfl
    rw [this]
    have hc : Measurable (Function.uncurry fun (n : ℕ) (ω : Ω) => ∏ i : Fin n, f (y n ω i)) := measurable_from_prod_countable_right hpm
    exact hc.comp (hK.prodMk measurable_id)
  have hb : ∀ ω, ‖∏ i : Fin (K ω), f (y (K ω) ω i)‖ ≤ 1 := by
    intro ω
    rw [norm_prod]
    exact Finset.prod_le_one (fun _ _ => norm_nonneg _) fun _ _ => hf1 _
  have hint : Integrable (fun ω => ∏ i : Fin (K ω), f (y (K ω) ω i)) P :=
    (integrable_const (1 : ℝ)).mono' hFm.aestronglyMeasurable (Filter.Eventually.of_forall hb)
  have hU : (⋃ n, K ⁻¹' {n}) = univ := by ext ω; simp
  have hs := integral_iUnion (μ := P) (f := fun ω => ∏ i : Fin (K ω), f (y (K ω) ω i)) (s := fun n => K ⁻¹' {n})
    (fun n => hK (measurableSet_singleton n)) (by
      intro n m hnm
      rw [Function.onFun, Set.disjoint_left]
      rintro ω h2 h3
      exact hnm (h2.symm.trans h3)) hint.integrableOn
  rw [hU, Measure.restrict_univ] at hs
  rw [hs]
  have hn : ∀ n, ∫ ω in K ⁻¹' {n}, ∏ i : Fin (K ω), f (y (K ω) ω i) ∂P = (P.map K).real {n} • φ ^ n := by
    intro n
    have e1 : ∫ ω in K ⁻¹' {n}, ∏ i : Fin (K ω), f (y (K ω) ω i) ∂P = ∫ ω in K ⁻¹' {n}, ∏ i : Fin n, f (y n ω i) ∂P := by
      refine setIntegral_congr_fun (hK (measurableSet_singleton n)) fun ω hω => ?_
      obtain rfl : K ω = n := hω
      rfl
    have e2 : ∫ ω in K ⁻¹' {n}, ∏ i : Fin n, f (y n ω i) ∂P =
        ∫ ω, (fun v : Fin n → Y => ∏ i, f (v i)) (y n ω) * (({n} : Set ℕ).indicator (fun _ => (1 : ℂ))) (K ω) ∂P := by
      rw [← integral_indicator (hK (measurableSet_singleton n))]
      congr 1
      funext ω
      by_cases h : K ω = n
      · rw [indicator_of_mem (show ω ∈ K ⁻¹' {n} from h), indicator_of_mem (show K ω ∈ ({n} : Set ℕ) from h), mul_one]
      · rw [indicator_of_notMem (show ω ∉ K ⁻¹' {n} from h), indicator_of_notMem (show K ω ∉ ({n} : Set ℕ) from h), mul_zero]
    have hpv : Measurable fun v : Fin n → Y => ∏ i, f (v i) := Finset.measurable_prod _ fun i _ => hf.comp (measurable_pi_apply i)
    rw [e1, e2, (hi n).integral_fun_comp_mul_comp (hm n).aemeasurable hK.aemeasurable hpv.aestronglyMeasurable
      Measurable.of_discrete.aestronglyMeasurable]
    rw [← integral_map (hm n).aemeasurable (f := fun v : Fin n → Y => ∏ i, f (v i)) hpv.aestronglyMeasurable, hl n,
      integral_fintype_prod_eq_prod (fun _ => f)]
    rw [← integral_map hK.aemeasurable (f := (({n} : Set ℕ).indicator (fun _ => (1 : ℂ)))) Measurable.of_discrete.aestronglyMeasurable,
      integral_indicator (measurableSet_singleton n)]
    simp [φ, mul_comm]
    exact Or.inl rfl
  simp only [hn, hKl]
  have hp : ∀ n : ℕ, (poissonMeasure x).real {n} • φ ^ n = (rexp (-x) * x ^ n / n.factorial : ℝ) • φ ^ n := by
    intro n
    rw [poissonMeasure_real_singleton]
  simp only [hp]
  rw [show (Complex.exp (x * (φ - 1)) : ℂ) = (rexp (-x) : ℝ) * Complex.exp (x * φ) by
    rw [Complex.ofReal_exp, ← Complex.exp_add]; push_cast; ring_nf]
  rw [Complex.exp_eq_exp_ℂ, ← (NormedSpace.expSeries_div_hasSum_exp ((x : ℂ) * φ)).tsum_eq, ← tsum_mul_left]
  congr 1
  funext n
  rw [Complex.real_smul, mul_pow]
  push_cast
  ring

open Classical in
/-- The number of features of one batch that have a property. -/
noncomputable def tally {n : ℕ} (B : Set Y) (v : Fin n → Y) : ℕ := ∑ i, if v i ∈ B then 1 else 0

theorem tally_measurable {n : ℕ} {B : Set Y} (hB : MeasurableSet B) : Measurable fun v : Fin n → Y => tally B v := by
  unfold tally
  exact Finset.measurable_sum _ fun i _ => Measurable.ite (measurable_pi_apply i hB) measurable_const measurable_const

theorem tally_batch_measurable (K : Ω → ℕ) (hK : Measurable K) (y : (n : ℕ) → Ω → Fin n → Y) (hm : ∀ n, Measurable (y n)) {B : Set Y}
    (hB : MeasurableSet B) : Measurable fun ω => tally B (y (K ω) ω) := by
  have hc : Measurable (Function.uncurry fun (n : ℕ) (ω : Ω) => tally B (y n ω)) :=
    measurable_from_prod_countable_right fun n => (tally_measurable hB).comp (hm n)
  exact hc.comp (hK.prodMk measurable_id)

/-- Of a Poisson number of independent draws, the number with a property is a Poisson number. -/
theorem thin_law (P : Measure Ω) [IsProbabilityMeasure P] (x : ℝ≥0) (K : Ω → ℕ) (hK : Measurable K) (hKl : P.map K = poissonMeasure x)
    (μ : Measure Y) [IsProbabilityMeasure μ] (y : (n : ℕ) → Ω → Fin n → Y) (hm : ∀ n, Measurable (y n))
    (hl : ∀ n, P.map (y n) = Measure.pi fun _ => μ) (hi : ∀ n, IndepFun (y n) K P) (B : Set Y) (hB : MeasurableSet B) :
    P.map (fun ω => tally B (y (K ω) ω)) = poissonMeasure (x * (μ B).toNNReal) := by
  classical
  have htm := tally_batch_measurable K hK y hm hB
  apply (MeasurableEmbedding.natCast (α := ℝ)).map_injective
  have : IsProbabilityMeasure (P.map fun ω => tally B (y (K ω) ω)) := Measure.isProbabilityMeasure_map htm.aemeasurable
  have : IsProbabilityMeasure (Measure.map (Nat.cast : ℕ → ℝ) (P.map fun ω => tally B (y (K ω) ω))) :=
    Measure.isProbabilityMeasure_map Measurable.of_discrete.aemeasurable
  apply Measure.ext_of_charFun
  funext t
  rw [charFun_map_cast_poissonMeasure, charFun_apply, integral_map Measurable.of_discrete.aemeasurable (by fun_prop),
    integral_map htm.aemeasurable Measurable.of_discrete.aestronglyMeasurable]
  set f : Y → ℂ := fun v => if v ∈ B then Complex.exp (t * Complex.I) else 1 with hf
  have hfm : Measurable f := Measurable.ite hB measurable_const measurable_const
  have h1 : ∀ ω, Complex.exp ((inner ℝ ((tally B (y (K ω) ω) : ℕ) : ℝ) t : ℝ) * Complex.I) = ∏ i : Fin (K ω), f (y (K ω) ω i) := by
    intro ω
    rw [Real.inner_apply, tally]
    push_cast
    rw [Finset.sum_mul, Finset.sum_mul, Complex.exp_sum]
    refine Finset.prod_congr rfl fun i _ => ?_
    rw [hf]
    by_cases h : y (K ω) ω i ∈ B <;> simp [h]
  simp only [h1]
  rw [phase_batch P x K hK hKl μ y hm hl hi f hfm (by
    intro v
    rw [hf]
    by_cases h : v ∈ B
    · simp only [h, if_true]; rw [Complex.norm_exp_ofReal_mul_I]
    · simp [h])]
  congr 1
  have h2 : ∫ v, f v ∂μ = 1 + (μ B).toReal * (Complex.exp (t * Complex.I) - 1) := by
    have : f = fun v => 1 + B.indicator (fun _ => Complex.exp (t * Complex.I) - 1) v := by
      funext v
      by_cases h : v ∈ B <;> simp [hf, h]
    rw [this, integral_add (integrable_const _) ((integrable_const _).indicator hB), integral_indicator hB]
    simp [Measure.real]
  rw [h2]
  rw [NNReal.coe_mul, ENNReal.coe_toNNReal_eq_toReal]
  push_cast
  ring

end

/-! ### The features of a run -/

theorem run_tally {Ω : Type*} [MeasurableSpace Ω] (P : Measure Ω) [IsProbabilityMeasure P] (x : ℝ) (K : ℕ → Ω → ℕ)
    (y : ℕ → (n : ℕ) → Ω → Fin n → (ℝ × ℝ) × ℝ) (hF : FairSpots P x K y) (B : ℕ → Set ((ℝ × ℝ) × ℝ)) (hB : ∀ j, MeasurableSet (B j)) (N : ℕ) :
    HasLaw (fun ω => ∑ j ∈ Finset.range N, tally (B j) (y j (K j ω) ω))
      (poissonMeasure (∑ j ∈ Finset.range N, x.toNNReal * (drawLaw (B j)).toNNReal)) P := by
  have hm : ∀ j, Measurable fun ω => tally (B j) (y j (K j ω) ω) := fun j =>
    tally_batch_measurable (K j) (hF.count_measurable j) (y j) (hF.measurable j) (hB j)
  have hlaw : ∀ j, HasLaw (fun ω => tally (B j) (y j (K j ω) ω)) (poissonMeasure (x.toNNReal * (drawLaw (B j)).toNNReal)) P := fun j =>
    ⟨(hm j).aemeasurable, thin_law P x.toNNReal (K j) (hF.count_measurable j) (hF.count j) drawLaw (y j) (hF.measurable j) (hF.law j) (hF.indep j) (B j) (hB j)⟩
  have hind : iIndepFun (fun j ω => tally (B j) (y j (K j ω) ω)) P := by
    refine hF.steps.comp (fun j (w : ℕ × ((n : ℕ) → Fin n → (ℝ × ℝ) × ℝ)) => tally (B j) (w.2 w.1)) fun j => ?_
    exact tally_batch_measurable (fun w : ℕ × ((n : ℕ) → Fin n → (ℝ × ℝ) × ℝ) => w.1) measurable_fst (fun n w => w.2 n)
      (fun n => (measurable_pi_apply n).comp measurable_snd) (hB j)
  induction N with
  | zero =>
    simp only [Finset.range_zero, Finset.sum_empty]
    refine ⟨aemeasurable_const, ?_⟩
    rw [Measure.map_const, measure_univ, one_smul]
    refine Measure.ext_of_singleton fun n => ?_
    rw [poissonMeasure_singleton, Measure.dirac_apply' _ (measurableSet_singleton n)]
    cases n with
    | zero => simp
    | succ n => simp
  | succ N ih =>
    simp only [Finset.sum_range_succ]
    have h := (hind.indepFun_finsetSum_of_notMem (fun j => hm j) (s := Finset.range N) (i := N) (by simp))
    have := IndepFun.hasLaw_add_poissonMeasure (X := fun ω => ∑ j ∈ Finset.range N, tally (B j) (y j (K j ω) ω)) (by
      convert h using 1
      funext ω
      rw [Finset.sum_apply]) ih (hlaw N)
    exact this

theorem facSum_eq (Φ : ℝ → ℝ → ℝ≥0∞) (dt : ℝ) (k : ℕ → ℕ) (mu : ℕ → (n : ℕ) → Fin n → ℝ) (js : List ℕ) :
    facSum Φ dt k mu js = ∑ m : Fin js.length, ∑ i : Fin (k js[m]), Φ ((js.length - m : ℕ) * dt) (mu js[m] (k js[m]) i) := by
  induction js with
  | nil => simp [facSum]
  | cons j js ih =>
    rw [facSum, ih]
    simp only [List.length_cons]
    rw [Fin.sum_univ_succ]
    congr 1
    refine Finset.sum_congr rfl fun m _ => ?_
    simp

theorem facSum_tally (L : ℝ → ℝ) (dt : ℝ) (k : ℕ → ℕ) (y : ℕ → (n : ℕ) → Fin n → (ℝ × ℝ) × ℝ) (N : ℕ) :
    facSum (fun t z => ENNReal.ofReal (aliveAt (L z) t)) dt k (fun j n i => (y j n i).2) (List.range N) =
      (((∑ j ∈ Finset.range N, tally {v : (ℝ × ℝ) × ℝ | ((N - j : ℕ) : ℝ) * dt < L v.2} (y j (k j))) : ℕ) : ℝ≥0∞) := by
  rw [facSum_eq]
  have h : ∀ m : Fin (List.range N).length, (∑ i : Fin (k (List.range N)[m]), (fun t z => ENNReal.ofReal (aliveAt (L z) t))
      ((((List.range N).length - m : ℕ) : ℝ) * dt) ((fun j n i => (y j n i).2) (List.range N)[m] (k (List.range N)[m]) i)) =
      ((tally {v : (ℝ × ℝ) × ℝ | ((N - (m : ℕ) : ℕ) : ℝ) * dt < L v.2} (y m (k m)) : ℕ) : ℝ≥0∞) := by
    intro m
    have e : (List.range N)[m] = (m : ℕ) := List.getElem_range _
    rw [e, tally]
    push_cast
    refine Finset.sum_congr rfl fun i _ => ?_
    have el : ((((List.range N).length - (m : ℕ) : ℕ)) : ℝ) = ((N - (m : ℕ) : ℕ) : ℝ) := by simp
    simp only [el]
    unfold aliveAt
    by_cases h : (((N - (m : ℕ) : ℕ)) : ℝ) * dt < L (y m (k m) i).2
    · rw [if_pos h]; simp [h]
    · rw [if_neg h]; simp [h]
  rw [Finset.sum_congr rfl fun m _ => h m]
  push_cast
  rw [← Fin.sum_univ_eq_sum_range (fun j => ((tally {v : (ℝ × ℝ) × ℝ | ((N - j : ℕ) : ℝ) * dt < L v.2} (y j (k j)) : ℕ) : ℝ≥0∞)) N]
  refine Fintype.sum_equiv (finCongr List.length_range) _ _ fun m => ?_
  rfl

theorem poisson_law_mean {Ω : Type*} [MeasurableSpace Ω] (P : Measure Ω) (X : Ω → ℕ) (r : ℝ≥0) (h : HasLaw X (poissonMeasure r) P) :
    ∫⁻ ω, (X ω : ℝ≥0∞) ∂P = r := by
  rw [← poisson_mean r, ← lintegral_map' (f := fun n : ℕ => (n : ℝ≥0∞)) Measurable.of_discrete.aemeasurable h.aemeasurable, h.map_eq, lintegral_countable']

/-- The distribution of the number of features at the end of a run of births and aging. -/
theorem number_law {Ω : Type*} [MeasurableSpace Ω] (P : Measure Ω) [IsProbabilityMeasure P] (x : ℝ) (K : ℕ → Ω → ℕ)
    (y : ℕ → (n : ℕ) → Ω → Fin n → (ℝ × ℝ) × ℝ) (hF : FairSpots P x K y) (L : ℝ → ℝ) (hL : Measurable L) (dt : ℝ) (N : ℕ) (X : Ω → ℕ)
    (hX : ∀ᵐ ω ∂P, (X ω : ℝ≥0∞) = facSum (fun t z => ENNReal.ofReal (aliveAt (L z) t)) dt (fun j => K j ω) (fun j n i => (y j n ω i).2) (List.range N))
    (M : ℝ) (hM : ∫⁻ ω, (X ω : ℝ≥0∞) ∂P = ENNReal.ofReal M) : HasLaw X (poissonMeasure M.toNNReal) P := by
  have hB : ∀ j : ℕ, MeasurableSet {v : (ℝ × ℝ) × ℝ | ((N - j : ℕ) : ℝ) * dt < L v.2} := fun j =>
    measurableSet_lt measurable_const (hL.comp measurable_snd)
  have h := run_tally P x K y hF (fun j => {v : (ℝ × ℝ) × ℝ | ((N - j : ℕ) : ℝ) * dt < L v.2}) hB N
  have h2 : HasLaw X (poissonMeasure (∑ j ∈ Finset.range N, x.toNNReal * (drawLaw {v : (ℝ × ℝ) × ℝ | ((N - j : ℕ) : ℝ) * dt < L v.2}).toNNReal)) P := by
    refine h.congr ?_
    filter_upwards [hX] with ω hω
    rw [facSum_tally L dt (fun j => K j ω) (fun j n => y j n ω) N] at hω
    exact_mod_cast hω
  have h3 := poisson_law_mean P X _ h2
  rw [hM, ENNReal.ofReal] at h3
  rw [ENNReal.coe_injective h3]
  exact h2

theorem none_chance {Ω α : Type*} [MeasurableSpace Ω] (P : Measure Ω) (M : ℝ) (hM : 0 ≤ M) (l : Ω → List α)
    (h : HasLaw (fun ω => (l ω).length) (poissonMeasure M.toNNReal) P) : P {ω | l ω = []} = ENNReal.ofReal (exp (-M)) := by
  have h1 : P {ω | l ω = []} = P.map (fun ω => (l ω).length) {0} := by
    rw [Measure.map_apply_of_aemeasurable h.aemeasurable (measurableSet_singleton 0)]
    congr 1
    ext ω
    simp
  rw [h1, h.map_eq, poissonMeasure_singleton]
  simp [hM]

/-- **C168** The number of spots.  A star without spots goes through `N` steps of length `dt`, in each of which spots are born for the time
`dt` and the star ages by `dt`.  The number of spots at the end has a Poisson distribution, so that the star is without spots with
probability `e^{−M}`.  Its mean `M` is the expected number of births per day times the mean lifetime of the spots, up to the births of one
step and a term that goes to zero with `1/(N dt)`. -/
theorem C168_spot_number {Ω : Type*} [MeasurableSpace Ω] (P : Measure Ω) [IsProbabilityMeasure P] (s₀ : Star) (hg : GoodGens s₀) (h₀ : SoundStar s₀)
    (hs : s₀.spots.spots = []) (hmean : s₀.spotGen.initArea ≤ s₀.spotGen.distAreaMean) (hgr : 0 < s₀.spotGen.growthRate)
    (hdec : 0 < s₀.spotGen.decayRate) (hσ : 0 ≤ s₀.spotGen.distAreaLogsigma) (hdist : s₀.spotGen.distribution ≠ .other)
    (hc : 0 ≤ s₀.spotGen.coverage) :
    let G := s₀.spotGen
    ∃ r L C : ℝ, r * ((G.distAreaMean + G.initArea) / G.growthRate + G.distAreaMean ^ 2 / (2 * G.decayRate)) =
        G.coverage * (4 * π * s₀.radius ^ 2) ∧
      (let l₀ := Real.log (G.distAreaMean / G.initArea) / Real.log (1 + G.growthRate) +
          G.distAreaMean * exp (G.distAreaLogsigma ^ 2 / 2) / G.decayRate; l₀ ≤ L ∧ L ≤ l₀ + G.distAreaLogsigma / (2 * Real.log (1 + G.growthRate))) ∧
      ∀ (dt : ℝ) (N : ℕ), 0 < dt → 0 < N → G.nExpected dt s₀.radius = .fin (r * dt) ∧
      ∀ (K : ℕ → Ω → ℕ) (D : ℕ → Ω → (n : ℕ) → SpotDraws n),
      FairSpots P (r * dt) K (fun j n ω i => ((((D j ω n).uLat i : ℝ), ((D j ω n).uLon i : ℝ)), (D j ω n).z i)) →
      (∀ᵐ ω ∂P, ∀ j n, ∃ k, ∀ i, 0 < (D j ω n).ratios k i) →
      ∃ (S : Ω → Star) (M : ℝ),
        (∀ᵐ ω ∂P, ((List.range N).flatMap fun j => [Op.birthSpots dt (K j ω) (D j ω), Op.age dt]).foldlM runOp s₀ = .ok (S ω)) ∧
        HasLaw (fun ω => (S ω).spots.spots.length) (poissonMeasure M.toNNReal) P ∧ P {ω | (S ω).spots.spots = []} = ENNReal.ofReal (exp (-M)) ∧
        0 ≤ M ∧ M ≤ r * L ∧ r * L - r * dt - r * C / (N * dt) ≤ M := by
  intro G
  have h1 : 0 < G.initArea := hg.init
  have h2 : 0 < G.distAreaMean := hg.mean
  obtain ⟨r, L, I, C₁, C₂, e1, e2, -, e3⟩ := C121_settled_spots P s₀ hg h₀ hs hmean hgr hdec hσ hdist hc
  refine ⟨r, L, C₁, e1, e2, fun dt N hd hN => ⟨(e3 dt N hd hN).1, fun K D hF hacc => ?_⟩⟩
  obtain ⟨hxe, e4⟩ := e3 dt N hd hN
  obtain ⟨S, M, A, hrun, hM, -, hM0, -, m1, m2, -⟩ := e4 K D (fun j => fairSpots_lives hF j) hacc
  have hr0 : 0 ≤ r := by
    obtain ⟨L', A', n, b1, b2, b3, b4, b5, b6⟩ := C26_births_balance G h1 hmean hgr hdec hc s₀.radius
    have h := b5 dt hd.le
    have : n dt = r * dt := Fl.fin_inj.mp ((b3 dt).symm.trans hxe)
    rw [this] at h
    exact nonneg_of_mul_nonneg_left h hd
  have hx0 : 0 ≤ r * dt := by positivity
  have hLm := life_measurable (a := G.initArea) (m := G.distAreaMean) (σ := G.distAreaLogsigma) (g := G.growthRate) (w := G.decayRate) h1 h2
  have hpo : ∀ᵐ ω ∂P, ∀ j, Np.poisson (.fin (r * dt)) (K j ω) = .ok (K j ω) := by
    rw [ae_all_iff]
    exact fun j => poisson_ok P (r * dt) hx0 (K j) (hF.count_measurable j) (hF.count j)
  have hlaw : HasLaw (fun ω => (S ω).spots.spots.length) (poissonMeasure M.toNNReal) P := by
    refine number_law P (r * dt) K _ hF
      (fun z => spotLife G.initArea (peakOf G.distAreaMean G.distAreaLogsigma z) G.growthRate G.decayRate) hLm dt N _ ?_ M hM
    filter_upwards [hpo, hrun] with ω hω hS
    have hop : ∀ op ∈ ((List.range N).flatMap fun j => spotStep dt (K j ω) (D j ω)), Sane op := by
      intro op hop
      obtain ⟨j, -, hj⟩ := List.mem_flatMap.mp hop
      simp only [spotStep, List.mem_cons, List.not_mem_nil, or_false] at hj
      rcases hj with rfl | rfl
      · trivial
      · exact hd.le
    obtain ⟨⟨news, k1, k2⟩, -⟩ := C105_population s₀ (S ω) _ hg h₀ hop hS
    have := spotPopulation_sum s₀ dt (r * dt) hxe (fun j => K j ω) (fun j => D j ω) s₀.spots.grid (fun _ => 1)
      (fun t z => ENNReal.ofReal (aliveAt (spotLife G.initArea (peakOf G.distAreaMean G.distAreaLogsigma z) G.growthRate G.decayRate) t))
      (fun n e l hl i hi hn t => (spot_later G h2 hgr hdec s₀.spots.grid n e l hl i hi hn t).1) (List.range N) (fun j _ => hω j) news k1
    rw [← this, k2, hs, later_nil, List.nil_append]
    simp
  exact ⟨S, M, hrun, hlaw, none_chance P M hM0 _ hlaw, hM0, m1, m2⟩

/-- **C168** The number of faculae.  The same for a star that started without faculae, with the mean number of C120. -/
theorem C168_facula_number {Ω : Type*} [MeasurableSpace Ω] (P : Measure Ω) [IsProbabilityMeasure P] (s₀ : Star) (hg : GoodGens s₀) (h₀ : SoundStar s₀)
    (hf : s₀.faculae.faculae = []) (hcmp : comparable s₀.facGen.grid s₀.faculae.grid) (hc : 0 ≤ s₀.facGen.coverage)
    (dt : ℝ) (hd : 0 < dt) (N : ℕ) (hN : 0 < N) :
    ∃ x n : ℝ, s₀.facGen.nExpected dt s₀.radius = .fin x ∧ n * s₀.facGen.meanArea = s₀.facGen.coverage * (4 * π * s₀.radius ^ 2) ∧
      ∀ (K : ℕ → Ω → ℕ) (D : ℕ → Ω → (n : ℕ) → FaculaDraws n),
      FairSpots P x K (fun j n ω i => ((((D j ω n).uLat i : ℝ), ((D j ω n).uLon i : ℝ)), (D j ω n).mu i)) →
      ∃ (S : Ω → Star) (M : ℝ),
        (∀ᵐ ω ∂P, ((List.range N).flatMap fun j => [Op.birthFaculae dt (K j ω) (D j ω), Op.age dt]).foldlM runOp s₀ = .ok (S ω)) ∧
        HasLaw (fun ω => (S ω).faculae.faculae.length) (poissonMeasure M.toNNReal) P ∧
        P {ω | (S ω).faculae.faculae = []} = ENNReal.ofReal (exp (-M)) ∧ 0 ≤ M ∧
        M ≤ n * exp ((Real.log 10 * s₀.facGen.distLifeLogsigma) ^ 2 / 2) ∧
        n * exp ((Real.log 10 * s₀.facGen.distLifeLogsigma) ^ 2 / 2) -
          (n * (s₀.facGen.distLifePeak / (2 * (N * dt))) * exp (2 * (Real.log 10 * s₀.facGen.distLifeLogsigma) ^ 2) + x) ≤ M := by
  set G := s₀.facGen with hG
  have hr : 0 < G.distRPeak := hg.rpeak
  have hl : 0 < G.distLifePeak := hg.life
  obtain ⟨x, n, hxe, hn, hC120⟩ := C120_settled_faculae P s₀ hg h₀ hf hcmp hc dt hd N hN
  refine ⟨x, n, hxe, hn, fun K D hF => ?_⟩
  obtain ⟨S, M, A, hrun, hM, -, hM0, -, m1, m2, -⟩ := hC120 K D fun j => fairFaculae_lives hF j
  obtain ⟨⟨rate, b1, -, b3, -⟩, -⟩ := C38_births_balance G hr hl hc s₀.radius
  have hx0 : 0 ≤ x := by
    have : rate dt = x := by have := (b1 dt).symm.trans hxe; simpa using this
    rw [← this]; exact b3 dt hd.le
  have hpo : ∀ᵐ ω ∂P, ∀ j, Np.poisson (.fin x) (K j ω) = .ok (K j ω) := by
    rw [ae_all_iff]
    exact fun j => poisson_ok P x hx0 (K j) (hF.count_measurable j) (hF.count j)
  have hLm : Measurable (lifeOf G) := by unfold lifeOf; fun_prop
  have hlaw : HasLaw (fun ω => (S ω).faculae.faculae.length) (poissonMeasure M.toNNReal) P := by
    refine number_law P x K _ hF (fun z => 2 * lifeOf G z) (hLm.const_mul 2) dt N _ ?_ M hM
    filter_upwards [hpo, hrun] with ω hω hS
    have hop : ∀ op ∈ ((List.range N).flatMap fun j => facStep dt (K j ω) (D j ω)), Sane op := by
      intro op hop
      obtain ⟨j, -, hj⟩ := List.mem_flatMap.mp hop
      simp only [facStep, List.mem_cons, List.not_mem_nil, or_false] at hj
      rcases hj with rfl | rfl
      · trivial
      · exact hd.le
    obtain ⟨-, newf, k1, k2⟩ := C105_population s₀ (S ω) _ hg h₀ hop hS
    have := population_sum s₀ dt x hxe (fun j => K j ω) (fun j => D j ω) s₀.faculae.grid (fun _ => 1)
      (fun t z => ENNReal.ofReal (aliveAt (2 * lifeOf G z) t)) (fun n e i t => by
        obtain ⟨c1, c2, -, c4⟩ := generated_on G hr hl s₀.faculae.grid n e i _ rfl
        rw [later_alive _ c1 c2, c4]) (List.range N) (fun j _ => hω j) newf k1
    rw [← this, k2, hf, later_nil, List.nil_append]
    simp
  exact ⟨S, M, hrun, hlaw, none_chance P M hM0 _ hlaw, hM0, m1, m2⟩

/-! ### Example -/

/-- Non-trivial instance of C168: after enough steps of a thousandth of a day the number of spots of the star of the example of C121 has a
Poisson distribution with a mean between 500 and 503, and the star is without spots with a probability of at most `e^{−500}`. -/
example : ∃ (N : ℕ) (S : (ℕ → ℕ × ((n : ℕ) → Fin n → (ℝ × ℝ) × ℝ)) → Star) (M : ℝ), 0 < N ∧
    (∀ᵐ ω ∂spotSpace (160 * π * (1 / 1000)), ((List.range N).flatMap fun j => [Op.birthSpots (1 / 1000) (ω j).1 (spaceDraws (ω j).2),
      Op.age (1 / 1000)]).foldlM runOp spotsStar = .ok (S ω)) ∧
    HasLaw (fun ω => (S ω).spots.spots.length) (poissonMeasure M.toNNReal) (spotSpace (160 * π * (1 / 1000))) ∧ 500 ≤ M ∧ M ≤ 503 ∧
    spotSpace (160 * π * (1 / 1000)) {ω | (S ω).spots.spots = []} ≤ ENNReal.ofReal (exp (-500)) := by
  have hp := pi_pos
  have hp1 := pi_gt_d4
  have hp2 := pi_lt_d4
  have hgood : GoodGens spotsStar := by
    refine ⟨?_, ?_, ?_, ?_, ?_, ?_, ?_⟩ <;> norm_num [spotsStar, busyStar, sampleStar, FaculaGenerator.off]
  have hstar : SoundStar spotsStar := by
    refine ⟨?_, ?_⟩ <;> simp [spotsStar, SpotCollection.new, SpotCollection.setGridmaker]
  obtain ⟨r, L, C, h1, ⟨h2, h3⟩, h4⟩ := C168_spot_number (spotSpace (160 * π * (1 / 1000))) spotsStar hgood hstar rfl
    (by norm_num [spotsStar]) (by norm_num [spotsStar]) (by norm_num [spotsStar]) (by norm_num [spotsStar])
    (by simp [spotsStar, SpotGenerator.off]) (by norm_num [spotsStar])
  have e1 : spotsStar.spotGen.distAreaMean = 1000 := rfl
  have e2 : spotsStar.spotGen.initArea = 1000 := rfl
  have e3 : spotsStar.spotGen.distAreaLogsigma = 0 := rfl
  have e4 : spotsStar.spotGen.growthRate = 1 := rfl
  have e5 : spotsStar.spotGen.decayRate = 1000 := rfl
  have e6 : spotsStar.spotGen.coverage = 0.1 := rfl
  have e7 : spotsStar.radius = 1000 := rfl
  rw [e1, e2, e4, e5, e6, e7] at h1
  rw [e1, e2, e3, e4, e5] at h2 h3
  norm_num at h1 h2 h3
  have hr : r = 160 * π := by linarith
  have hL : L = 1 := le_antisymm h3 h2
  subst hr hL
  obtain ⟨N, hN⟩ := exists_nat_gt (max 0 (C * 1000 * 1000))
  have hN0 : (0 : ℝ) < N := (le_max_left _ _).trans_lt hN
  have hNC : C * 1000 * 1000 < N := (le_max_right _ _).trans_lt hN
  have hNp : 0 < N := by exact_mod_cast hN0
  obtain ⟨S, M, k1, k2, k3, k4, k5, k6⟩ := (h4 (1 / 1000) N (by norm_num) hNp).2 (fun j ω => (ω j).1) (fun j ω => spaceDraws (ω j).2)
    (spotSpace_fair _) (Filter.Eventually.of_forall fun ω j n => ⟨0, fun i => by norm_num [SpotDraws.ratios, spaceDraws]⟩)
  have hC : 160 * π * C / (N * (1 / 1000)) ≤ 160 * π / 1000 := by
    rw [div_le_div_iff₀ (by positivity) (by norm_num)]
    nlinarith
  have hM : 500 ≤ M := by linarith
  refine ⟨N, S, M, hNp, k1, k2, hM, by linarith, ?_⟩
  rw [k3]
  exact ENNReal.ofReal_le_ofReal (exp_le_exp.mpr (by linarith))

end Vsm
