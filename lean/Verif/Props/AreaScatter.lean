import Verif.Props.Numbers
/-!
# The scatter of the total areas of spots and of faculae (C169)

C120 and C121 give the means of the total areas of the features of a star that went through many steps of births and aging.  Here is their
scatter: the variance of the total area is the mean of the sum of the squares of the areas (Campbell's theorem for the Poisson
process of births), and the same for every function of the areas.
-/
set_option autoImplicit false

namespace Vsm
open Real MeasureTheory ProbabilityTheory Set Np Spec
open scoped ENNReal NNReal

theorem poisson_pairs (r : NNReal) : ∑' n : ℕ, ((n * (n - 1) : ℕ) : ℝ≥0∞) * poissonMeasure r {n} = r ^ 2 := by
  rw [tsum_eq_zero_add' ENNReal.summable]
  have h : ∀ n : ℕ, (((n + 1) * (n + 1 - 1) : ℕ) : ℝ≥0∞) * poissonMeasure r {n + 1} = r * ((n : ℝ≥0∞) * poissonMeasure r {n}) := by
    intro n
    rw [poissonMeasure_singleton, poissonMeasure_singleton, ← ENNReal.ofReal_natCast, ← ENNReal.ofReal_coe_nnreal, ← ENNReal.ofReal_natCast,
      ← ENNReal.ofReal_mul (by positivity), ← ENNReal.ofReal_mul (by positivity), ← ENNReal.ofReal_mul (by positivity)]
    congr 1
    rw [Nat.factorial_succ, Nat.add_sub_cancel]
    push_cast
    have : (n.factorial : ℝ) ≠ 0 := by positivity
    have : (n : ℝ) + 1 ≠ 0 := by positivity
    field_simp
    try ring
  simp only [h]
  rw [ENNReal.tsum_mul_left, poisson_mean]
  simp [sq]

section
variable {Ω Y : Type*} [MeasurableSpace Ω] [MeasurableSpace Y]

/-- The second moment of a sum over a fixed number of independent draws. -/
theorem fixed_second (μ : Measure Y) [IsProbabilityMeasure μ] (φ : Y → ℝ≥0∞) (hφ : Measurable φ) (n : ℕ) :
    ∫⁻ v : Fin n → Y, (∑ i, φ (v i)) ^ 2 ∂Measure.pi (fun _ => μ) = n * ∫⁻ v, φ v ^ 2 ∂μ + ((n * (n - 1) : ℕ) : ℝ≥0∞) * (∫⁻ v, φ v ∂μ) ^ 2 := by
  have hm : ∀ i : Fin n, Measurable fun v : Fin n → Y => φ (v i) := fun i => hφ.comp (measurable_pi_apply i)
  have h1 : ∀ (ψ : Y → ℝ≥0∞), Measurable ψ → ∀ i : Fin n, ∫⁻ v : Fin n → Y, ψ (v i) ∂Measure.pi (fun _ => μ) = ∫⁻ v, ψ v ∂μ := by
    intro ψ hψ i
    have := (measurePreserving_eval (fun _ : Fin n => μ) i).lintegral_comp hψ
    exact this
  have hind : iIndepFun (fun (i : Fin n) (v : Fin n → Y) => φ (v i)) (Measure.pi fun _ => μ) :=
    iIndepFun_pi (X := fun _ : Fin n => φ) fun i => hφ.aemeasurable
  have h2 : ∀ i j : Fin n, ∫⁻ v : Fin n → Y, φ (v i) * φ (v j) ∂Measure.pi (fun _ => μ) =
      if i = j then ∫⁻ v, φ v ^ 2 ∂μ else (∫⁻ v, φ v ∂μ) ^ 2 := by
    intro i j
    by_cases h : i = j
    · subst h
      rw [if_pos rfl]
      simp only [← sq]
      exact h1 (fun v => φ v ^ 2) (hφ.pow_const 2) i
    · rw [if_neg h, lintegral_mul_eq_lintegral_mul_lintegral_of_indepFun'' (hm i).aemeasurable (hm j).aemeasurable (hind.indepFun h), h1 φ hφ, h1 φ hφ, sq]
  have hm2 : ∀ i j : Fin n, Measurable fun v : Fin n → Y => φ (v i) * φ (v j) := fun i j => (hm i).mul (hm j)
  have hm3 : ∀ i : Fin n, Measurable fun v : Fin n → Y => ∑ j, φ (v i) * φ (v j) := fun i => Finset.measurable_sum _ fun j _ => hm2 i j
  simp only [sq (∑ i, φ _), Finset.sum_mul_sum]
  rw [lintegral_finsetSum _ fun i _ => hm3 i]
  have h3 : ∀ i : Fin n, ∫⁻ v : Fin n → Y, ∑ j, φ (v i) * φ (v j) ∂Measure.pi (fun _ => μ) =
      ∫⁻ v, φ v ^ 2 ∂μ + ((n - 1 : ℕ) : ℝ≥0∞) * (∫⁻ v, φ v ∂μ) ^ 2 := by
    intro i
    rw [lintegral_finsetSum _ fun j _ => hm2 i j]
    simp only [h2]
    rw [← Finset.add_sum_erase _ _ (Finset.mem_univ i), if_pos rfl]
    congr 1
    rw [Finset.sum_congr rfl fun j hj => if_neg (Finset.ne_of_mem_erase hj).symm, Finset.sum_const, Finset.card_erase_of_mem (Finset.mem_univ i)]
    simp
  simp only [h3]
  rw [Finset.sum_const, Finset.card_univ, Fintype.card_fin, nsmul_eq_mul, mul_add]
  push_cast
  ring

/-- The second moment of a sum over a Poisson number of independent draws. -/
theorem batch_square (P : Measure Ω) (x : ℝ≥0) (K : Ω → ℕ) (hK : Measurable K) (hKl : P.map K = poissonMeasure x)
    (μ : Measure Y) [IsProbabilityMeasure μ] (y : (n : ℕ) → Ω → Fin n → Y) (hm : ∀ n, Measurable (y n))
    (hl : ∀ n, P.map (y n) = Measure.pi fun _ => μ) (hi : ∀ n, IndepFun (y n) K P) (φ : Y → ℝ≥0∞) (hφ : Measurable φ) :
    ∫⁻ ω, (∑ i : Fin (K ω), φ (y (K ω) ω i)) ^ 2 ∂P = x * ∫⁻ v, φ v ^ 2 ∂μ + (x * ∫⁻ v, φ v ∂μ) ^ 2 := by
  have hKn : ∀ n, MeasurableSet (K ⁻¹' {n}) := fun n => hK (measurableSet_singleton n)
  have hs : ∀ n, Measurable fun v : Fin n → Y => (∑ i, φ (v i)) ^ 2 := fun n =>
    (Finset.measurable_sum _ fun i _ => hφ.comp (measurable_pi_apply i)).pow_const 2
  have h1 : ∀ ω, (∑ i : Fin (K ω), φ (y (K ω) ω i)) ^ 2 =
      ∑' n, (∑ i : Fin n, φ (y n ω i)) ^ 2 * ({n} : Set ℕ).indicator 1 (K ω) := by
    intro ω
    rw [tsum_eq_single (K ω)]
    · simp
    · intro n hn
      rw [indicator_of_notMem (by simpa using hn.symm), mul_zero]
  simp only [h1]
  have hmi : ∀ n, Measurable fun ω => (({n} : Set ℕ).indicator 1 (K ω) : ℝ≥0∞) := fun n =>
    (measurable_one.indicator (measurableSet_singleton n)).comp hK
  have hmp : ∀ n, Measurable fun ω => (∑ i : Fin n, φ (y n ω i)) ^ 2 * ({n} : Set ℕ).indicator 1 (K ω) := fun n => ((hs n).comp (hm n)).mul (hmi n)
  rw [lintegral_tsum fun n => (hmp n).aemeasurable]
  have h2 : ∀ n : ℕ, ∫⁻ ω, (∑ i : Fin n, φ (y n ω i)) ^ 2 * ({n} : Set ℕ).indicator 1 (K ω) ∂P =
      (n : ℝ≥0∞) * poissonMeasure x {n} * (∫⁻ v, φ v ^ 2 ∂μ) + ((n * (n - 1) : ℕ) : ℝ≥0∞) * poissonMeasure x {n} * (∫⁻ v, φ v ∂μ) ^ 2 := by
    intro n
    have hind : IndepFun (fun ω => (∑ i : Fin n, φ (y n ω i)) ^ 2) (fun ω => (({n} : Set ℕ).indicator 1 (K ω) : ℝ≥0∞)) P :=
      (hi n).comp (hs n) (ψ := ({n} : Set ℕ).indicator 1) Measurable.of_discrete
    have hsn : Measurable fun ω => (∑ i : Fin n, φ (y n ω i)) ^ 2 := (hs n).comp (hm n)
    rw [lintegral_mul_eq_lintegral_mul_lintegral_of_indepFun'' hsn.aemeasurable (hmi n).aemeasurable hind]
    have e1 : ∫⁻ ω, (∑ i : Fin n, φ (y n ω i)) ^ 2 ∂P = ∫⁻ v, (∑ i : Fin n, φ (v i)) ^ 2 ∂Measure.pi fun _ : Fin n => μ := by
      rw [← hl n, lintegral_map (hs n) (hm n)]
    have e2 : ∫⁻ ω, ({n} : Set ℕ).indicator 1 (K ω) ∂P = poissonMeasure x {n} := by
      rw [← lintegral_map (f := ({n} : Set ℕ).indicator 1) Measurable.of_discrete hK, hKl, lintegral_indicator_one (measurableSet_singleton n)]
    rw [e1, e2, fixed_second μ φ hφ n]
    ring
  simp only [h2]
  rw [ENNReal.tsum_add, ENNReal.tsum_mul_right, ENNReal.tsum_mul_right, poisson_mean, poisson_pairs]
  ring

theorem squares_sum (P : Measure Ω) (T : ℕ → Ω → ℝ≥0∞) (hT : ∀ j, Measurable (T j)) (hind : iIndepFun T P) (q : ℕ → ℝ≥0∞)
    (hq : ∀ j, ∫⁻ ω, T j ω ^ 2 ∂P = q j + (∫⁻ ω, T j ω ∂P) ^ 2) (N : ℕ) :
    ∫⁻ ω, (∑ j ∈ Finset.range N, T j ω) ^ 2 ∂P = ∑ j ∈ Finset.range N, q j + (∫⁻ ω, ∑ j ∈ Finset.range N, T j ω ∂P) ^ 2 := by
  induction N with
  | zero => simp
  | succ N ih =>
    have hS : Measurable fun ω => ∑ j ∈ Finset.range N, T j ω := Finset.measurable_sum _ fun j _ => hT j
    have h := hind.indepFun_finsetSum_of_notMem hT (s := Finset.range N) (i := N) (by simp)
    have h' : IndepFun (fun ω => ∑ j ∈ Finset.range N, T j ω) (T N) P := by
      convert h using 1
      funext ω
      rw [Finset.sum_apply]
    simp only [Finset.sum_range_succ]
    have e : ∀ ω, (∑ j ∈ Finset.range N, T j ω + T N ω) ^ 2 =
        (∑ j ∈ Finset.range N, T j ω) ^ 2 + (2 * ((∑ j ∈ Finset.range N, T j ω) * T N ω) + T N ω ^ 2) := fun ω => by ring
    have hST : Measurable fun ω => (∑ j ∈ Finset.range N, T j ω) * T N ω := hS.mul (hT N)
    simp only [e]
    rw [lintegral_add_left (hS.pow_const 2), lintegral_add_left (hST.const_mul 2), lintegral_const_mul 2 hST,
      lintegral_mul_eq_lintegral_mul_lintegral_of_indepFun'' hS.aemeasurable (hT N).aemeasurable h', ih, hq, lintegral_add_left hS]
    ring

end

theorem facSum_range (Φ : ℝ → ℝ → ℝ≥0∞) (dt : ℝ) (k : ℕ → ℕ) (mu : ℕ → (n : ℕ) → Fin n → ℝ) (N : ℕ) :
    facSum Φ dt k mu (List.range N) = ∑ j ∈ Finset.range N, ∑ i : Fin (k j), Φ ((N - j : ℕ) * dt) (mu j (k j) i) := by
  rw [facSum_eq]
  have h : ∀ m : Fin (List.range N).length, (∑ i : Fin (k (List.range N)[m]), Φ ((((List.range N).length - m : ℕ) : ℝ) * dt)
      (mu (List.range N)[m] (k (List.range N)[m]) i)) = ∑ i : Fin (k m), Φ ((N - (m : ℕ) : ℕ) * dt) (mu m (k m) i) := by
    intro m
    have e : (List.range N)[m] = (m : ℕ) := List.getElem_range _
    have el : ((((List.range N).length - (m : ℕ) : ℕ)) : ℝ) = ((N - (m : ℕ) : ℕ) : ℝ) := by simp
    rw [e, el]
  rw [Finset.sum_congr rfl fun m _ => h m, ← Fin.sum_univ_eq_sum_range (fun j => ∑ i : Fin (k j), Φ ((N - j : ℕ) * dt) (mu j (k j) i)) N]
  refine Fintype.sum_equiv (finCongr List.length_range) _ _ fun m => ?_
  rfl

theorem facSum_square {Ω : Type*} [MeasurableSpace Ω] (P : Measure Ω) (x dt : ℝ) (K : ℕ → Ω → ℕ)
    (y : ℕ → (n : ℕ) → Ω → Fin n → (ℝ × ℝ) × ℝ) (hF : FairSpots P x K y) (Φ : ℝ → ℝ → ℝ≥0∞) (hΦ : ∀ t, Measurable (Φ t)) (N : ℕ) :
    ∫⁻ ω, facSum Φ dt (fun j => K j ω) (fun j n i => (y j n ω i).2) (List.range N) ^ 2 ∂P =
      ∫⁻ ω, facSum (fun t z => Φ t z ^ 2) dt (fun j => K j ω) (fun j n i => (y j n ω i).2) (List.range N) ∂P +
        (∫⁻ ω, facSum Φ dt (fun j => K j ω) (fun j n i => (y j n ω i).2) (List.range N) ∂P) ^ 2 := by
  simp only [facSum_range]
  have hfun : ∀ (ψ : ℝ → ℝ≥0∞), Measurable ψ → Measurable fun v : (ℝ × ℝ) × ℝ => ψ v.2 := fun ψ hψ => hψ.comp measurable_snd
  have hwm : ∀ (ψ : ℝ → ℝ≥0∞), Measurable ψ →
      Measurable fun w : ℕ × ((n : ℕ) → Fin n → (ℝ × ℝ) × ℝ) => ∑ i : Fin w.1, ψ (w.2 w.1 i).2 := by
    intro ψ hψ
    exact randomSum_measurable (Prod.fst) measurable_fst (fun n i (w : ℕ × ((n : ℕ) → Fin n → (ℝ × ℝ) × ℝ)) => ψ (w.2 n i).2) fun n i =>
      (hfun ψ hψ).comp ((measurable_pi_apply i).comp ((measurable_pi_apply n).comp measurable_snd))
  have hym : ∀ j, Measurable fun ω => (K j ω, fun n => y j n ω) := fun j =>
    (hF.count_measurable j).prodMk (measurable_pi_lambda _ fun n => hF.measurable j n)
  have hT : ∀ j (ψ : ℝ → ℝ≥0∞), Measurable ψ → Measurable fun ω => ∑ i : Fin (K j ω), ψ (y j (K j ω) ω i).2 := fun j ψ hψ =>
    (hwm ψ hψ).comp (hym j)
  have hmean : ∀ j (ψ : ℝ → ℝ≥0∞), Measurable ψ → ∫⁻ ω, ∑ i : Fin (K j ω), ψ (y j (K j ω) ω i).2 ∂P =
      x.toNNReal * ∫⁻ v : (ℝ × ℝ) × ℝ, ψ v.2 ∂drawLaw := by
    intro j ψ hψ
    have hl := fairSpots_lives hF j
    have h1 := randomSum_mean P x.toNNReal (K j) (hF.count_measurable j) (hF.count j) (fun n i ω => (y j n ω i).2) hl.measurable
      (gaussianReal 0 1) hl.normal hl.indep ψ hψ
    rw [h1]
    congr 1
    have : drawLaw.map Prod.snd = gaussianReal 0 1 := by rw [drawLaw]; exact Measure.snd_prod
    rw [← this, lintegral_map hψ measurable_snd]
  have hind : iIndepFun (fun j ω => ∑ i : Fin (K j ω), Φ ((N - j : ℕ) * dt) (y j (K j ω) ω i).2) P :=
    hF.steps.comp (fun j (w : ℕ × ((n : ℕ) → Fin n → (ℝ × ℝ) × ℝ)) => ∑ i : Fin w.1, Φ ((N - j : ℕ) * dt) (w.2 w.1 i).2) fun j => hwm _ (hΦ _)
  rw [squares_sum P (fun j ω => ∑ i : Fin (K j ω), Φ ((N - j : ℕ) * dt) (y j (K j ω) ω i).2) (fun j => hT j _ (hΦ _)) hind
    (fun j => ∫⁻ ω, ∑ i : Fin (K j ω), Φ ((N - j : ℕ) * dt) (y j (K j ω) ω i).2 ^ 2 ∂P)]
  · congr 1
    rw [lintegral_finsetSum _ fun j _ => hT j (fun z => Φ ((N - j : ℕ) * dt) z ^ 2) ((hΦ _).pow_const 2)]
  · intro j
    rw [hmean j (fun z => Φ ((N - j : ℕ) * dt) z ^ 2) ((hΦ _).pow_const 2), hmean j _ (hΦ _)]
    exact batch_square P x.toNNReal (K j) (hF.count_measurable j) (hF.count j) drawLaw (y j) (hF.measurable j) (hF.law j) (hF.indep j)
      (fun v => Φ ((N - j : ℕ) * dt) v.2) (hfun _ (hΦ _))

/-- **C169** The scatter of spots.  A star without spots goes through `N` steps of length `dt`, in each of which spots are born for the time
`dt` and the star ages by `dt`.  For every function `f` of the areas that vanishes at 0, the mean of the square of the sum of `f` over the spots at
the end exceeds the square of the mean of this sum exactly by the mean of the sum of `f²`: the variance of the total area (`f` the
identity) is the mean of the sum of the squares of the areas. -/
theorem C169_spot_scatter {Ω : Type*} [MeasurableSpace Ω] (P : Measure Ω) (s₀ : Star) (hg : GoodGens s₀) (h₀ : SoundStar s₀)
    (hs : s₀.spots.spots = []) (hmean : s₀.spotGen.initArea ≤ s₀.spotGen.distAreaMean) (hgr : 0 < s₀.spotGen.growthRate)
    (hdec : 0 < s₀.spotGen.decayRate) (hc : 0 ≤ s₀.spotGen.coverage) (dt : ℝ) (N : ℕ) (hd : 0 < dt) (x : ℝ)
    (hx : s₀.spotGen.nExpected dt s₀.radius = .fin x) (K : ℕ → Ω → ℕ) (D : ℕ → Ω → (n : ℕ) → SpotDraws n)
    (hF : FairSpots P x K (fun j n ω i => ((((D j ω n).uLat i : ℝ), ((D j ω n).uLon i : ℝ)), (D j ω n).z i))) (S : Ω → Star)
    (hrun : ∀ᵐ ω ∂P, ((List.range N).flatMap fun j => [Op.birthSpots dt (K j ω) (D j ω), Op.age dt]).foldlM runOp s₀ = .ok (S ω))
    (f : ℝ → ℝ≥0∞) (hf : Measurable f) (hf0 : f 0 = 0) :
    ∫⁻ ω, ((S ω).spots.spots.map fun s => f (spotAreaNow s)).sum ^ 2 ∂P =
      ∫⁻ ω, ((S ω).spots.spots.map fun s => f (spotAreaNow s) ^ 2).sum ∂P +
        (∫⁻ ω, ((S ω).spots.spots.map fun s => f (spotAreaNow s)).sum ∂P) ^ 2 := by
  set G := s₀.spotGen with hG
  have h1 : 0 < G.initArea := hg.init
  have h2 : 0 < G.distAreaMean := hg.mean
  have hx0 : 0 ≤ x := by
    obtain ⟨L', A', n, b1, b2, b3, b4, b5, b6⟩ := C26_births_balance G h1 hmean hgr hdec hc s₀.radius
    have : n dt = x := Fl.fin_inj.mp ((b3 dt).symm.trans hx)
    rw [← this]
    exact b5 dt hd.le
  have hpo : ∀ᵐ ω ∂P, ∀ j, Np.poisson (.fin x) (K j ω) = .ok (K j ω) := by
    rw [ae_all_iff]
    exact fun j => poisson_ok P x hx0 (K j) (hF.count_measurable j) (hF.count j)
  set A : ℝ → ℝ → ℝ := fun t z => spotAreaAt G.initArea (peakOf G.distAreaMean G.distAreaLogsigma z) G.growthRate G.decayRate t with hA
  have hAm : ∀ t, Measurable (A t) := fun t => spotAreaAt_measurable h1 h2 t
  have hsum : ∀ φ : ℝ → ℝ≥0∞, φ 0 = 0 → ∀ᵐ ω ∂P, ((S ω).spots.spots.map fun s => φ (spotAreaNow s)).sum =
      facSum (fun t z => φ (A t z)) dt (fun j => K j ω) (fun j n i => (D j ω n).z i) (List.range N) := by
    intro φ hφ0
    filter_upwards [hpo, hrun] with ω hω hS
    have hop : ∀ op ∈ ((List.range N).flatMap fun j => spotStep dt (K j ω) (D j ω)), Sane op := by
      intro op hop
      obtain ⟨j, -, hj⟩ := List.mem_flatMap.mp hop
      simp only [spotStep, List.mem_cons, List.not_mem_nil, or_false] at hj
      rcases hj with rfl | rfl
      · trivial
      · exact hd.le
    obtain ⟨⟨news, k1, k2⟩, -⟩ := C105_population s₀ (S ω) _ hg h₀ hop hS
    rw [k2, hs, later_nil, List.nil_append]
    exact spotPopulation_sum s₀ dt x hx (fun j => K j ω) (fun j => D j ω) s₀.spots.grid _ (fun t z => φ (A t z))
      (fun n e l hl i hi hn t => spot_later_fun G h2 hgr hdec φ hφ0 s₀.spots.grid n e l hl i hi hn t) (List.range N) (fun j _ => hω j) news k1
  have e1 := hsum f hf0
  have e2 := hsum (fun a => f a ^ 2) (by simp [hf0])
  rw [lintegral_congr_ae (e1.mono fun ω h => congrArg (· ^ 2) h), lintegral_congr_ae e1, lintegral_congr_ae e2]
  exact facSum_square P x dt K _ hF (fun t z => f (A t z)) (fun t => hf.comp (hAm t)) N

/-- **C169** The scatter of faculae.  The variance of the total area of the faculae is the mean of the sum of the squares of their areas. -/
theorem C169_facula_scatter {Ω : Type*} [MeasurableSpace Ω] (P : Measure Ω) (s₀ : Star) (hg : GoodGens s₀) (h₀ : SoundStar s₀)
    (hf : s₀.faculae.faculae = []) (hc : 0 ≤ s₀.facGen.coverage) (dt : ℝ) (hd : 0 < dt) (N : ℕ) (x : ℝ)
    (hx : s₀.facGen.nExpected dt s₀.radius = .fin x) (K : ℕ → Ω → ℕ) (D : ℕ → Ω → (n : ℕ) → FaculaDraws n)
    (hF : FairSpots P x K (fun j n ω i => ((((D j ω n).uLat i : ℝ), ((D j ω n).uLon i : ℝ)), (D j ω n).mu i))) (S : Ω → Star)
    (hrun : ∀ᵐ ω ∂P, ((List.range N).flatMap fun j => [Op.birthFaculae dt (K j ω) (D j ω), Op.age dt]).foldlM runOp s₀ = .ok (S ω)) :
    ∫⁻ ω, ((S ω).faculae.faculae.map fun f => ENNReal.ofReal (areaNow f)).sum ^ 2 ∂P =
      ∫⁻ ω, ((S ω).faculae.faculae.map fun f => ENNReal.ofReal (areaNow f) ^ 2).sum ∂P +
        (∫⁻ ω, ((S ω).faculae.faculae.map fun f => ENNReal.ofReal (areaNow f)).sum ∂P) ^ 2 := by
  set G := s₀.facGen with hG
  have hr : 0 < G.distRPeak := hg.rpeak
  have hl : 0 < G.distLifePeak := hg.life
  obtain ⟨⟨rate, b1, -, b3, -⟩, -⟩ := C38_births_balance G hr hl hc s₀.radius
  have hx0 : 0 ≤ x := by
    have : rate dt = x := by have := (b1 dt).symm.trans hx; simpa using this
    rw [← this]; exact b3 dt hd.le
  have hpo : ∀ᵐ ω ∂P, ∀ j, Np.poisson (.fin x) (K j ω) = .ok (K j ω) := by
    rw [ae_all_iff]
    exact fun j => poisson_ok P x hx0 (K j) (hF.count_measurable j) (hF.count j)
  have hLm : Measurable (lifeOf G) := by unfold lifeOf; fun_prop
  have hRm : Measurable (radiusOf G) := by unfold radiusOf; fun_prop
  have hAm : ∀ t, Measurable fun z => ENNReal.ofReal (faculaAreaAt (radiusOf G z) (lifeOf G z) t) := by
    intro t
    refine Measurable.ennreal_ofReal ?_
    unfold faculaAreaAt
    refine Measurable.ite (measurableSet_lt measurable_const (hLm.const_mul 2)) ?_ measurable_const
    fun_prop
  have hsum : ∀ (φ : Facula → ℝ≥0∞) (Φ : ℝ → ℝ → ℝ≥0∞),
      (∀ (n : ℕ) (e : FaculaDraws n) (i : Fin n) (t : ℝ),
        (faculaLater t { (G.generate n e)[(i : ℕ)]'(by simp [FaculaGenerator.generate]) with grid := s₀.faculae.grid }).elim 0 φ = Φ t (e.mu i)) →
      ∀ᵐ ω ∂P, ((S ω).faculae.faculae.map φ).sum = facSum Φ dt (fun j => K j ω) (fun j n i => (D j ω n).mu i) (List.range N) := by
    intro φ Φ hΦ
    filter_upwards [hpo, hrun] with ω hω hS
    have hop : ∀ op ∈ ((List.range N).flatMap fun j => facStep dt (K j ω) (D j ω)), Sane op := by
      intro op hop
      obtain ⟨j, -, hj⟩ := List.mem_flatMap.mp hop
      simp only [facStep, List.mem_cons, List.not_mem_nil, or_false] at hj
      rcases hj with rfl | rfl
      · trivial
      · exact hd.le
    obtain ⟨-, newf, k1, k2⟩ := C105_population s₀ (S ω) _ hg h₀ hop hS
    rw [k2, hf, later_nil, List.nil_append]
    exact population_sum s₀ dt x hx (fun j => K j ω) (fun j => D j ω) s₀.faculae.grid φ Φ hΦ (List.range N) (fun j _ => hω j) newf k1
  have ha : ∀ (n : ℕ) (e : FaculaDraws n) (i : Fin n) (t : ℝ),
      (faculaLater t { (G.generate n e)[(i : ℕ)]'(by simp [FaculaGenerator.generate]) with grid := s₀.faculae.grid }).elim 0
        (fun f => ENNReal.ofReal (areaNow f)) = ENNReal.ofReal (faculaAreaAt (radiusOf G (e.mu i)) (lifeOf G (e.mu i)) t) := by
    intro n e i t
    obtain ⟨c1, c2, c3, c4⟩ := generated_on G hr hl s₀.faculae.grid n e i _ rfl
    rw [later_area _ c1 c2, c3, c4]
  have e1 := hsum (fun f => ENNReal.ofReal (areaNow f)) (fun t z => ENNReal.ofReal (faculaAreaAt (radiusOf G z) (lifeOf G z) t)) ha
  have e2 := hsum (fun f => ENNReal.ofReal (areaNow f) ^ 2) (fun t z => ENNReal.ofReal (faculaAreaAt (radiusOf G z) (lifeOf G z) t) ^ 2) (by
    intro n e i t
    rw [← ha n e i t]
    cases faculaLater t { (G.generate n e)[(i : ℕ)]'(by simp [FaculaGenerator.generate]) with grid := s₀.faculae.grid } <;> simp)
  rw [lintegral_congr_ae (e1.mono fun ω h => congrArg (· ^ 2) h), lintegral_congr_ae e1, lintegral_congr_ae e2]
  exact facSum_square P x dt K _ hF _ hAm N

/-! ### Example -/

/-- Non-trivial instance of C169: the total area of the spots of the star of the example of C121 has after `N` steps of a thousandth of a day the
variance given by the sum of the squares of the areas. -/
example (N : ℕ) (hN : 0 < N) : ∃ S : (ℕ → ℕ × ((n : ℕ) → Fin n → (ℝ × ℝ) × ℝ)) → Star,
    (∀ᵐ ω ∂spotSpace (160 * π * (1 / 1000)), ((List.range N).flatMap fun j => [Op.birthSpots (1 / 1000) (ω j).1 (spaceDraws (ω j).2),
      Op.age (1 / 1000)]).foldlM runOp spotsStar = .ok (S ω)) ∧
    ∫⁻ ω, ((S ω).spots.spots.map fun s => ENNReal.ofReal (spotAreaNow s)).sum ^ 2 ∂spotSpace (160 * π * (1 / 1000)) =
      ∫⁻ ω, ((S ω).spots.spots.map fun s => ENNReal.ofReal (spotAreaNow s) ^ 2).sum ∂spotSpace (160 * π * (1 / 1000)) +
        (∫⁻ ω, ((S ω).spots.spots.map fun s => ENNReal.ofReal (spotAreaNow s)).sum ∂spotSpace (160 * π * (1 / 1000))) ^ 2 := by
  have hgood : GoodGens spotsStar := by
    refine ⟨?_, ?_, ?_, ?_, ?_, ?_, ?_⟩ <;> norm_num [spotsStar, busyStar, sampleStar, FaculaGenerator.off]
  have hstar : SoundStar spotsStar := by
    refine ⟨?_, ?_⟩ <;> simp [spotsStar, SpotCollection.new, SpotCollection.setGridmaker]
  obtain ⟨r, L, C, h1, -, h4⟩ := C168_spot_number (spotSpace (160 * π * (1 / 1000))) spotsStar hgood hstar rfl
    (by norm_num [spotsStar]) (by norm_num [spotsStar]) (by norm_num [spotsStar]) (by norm_num [spotsStar])
    (by simp [spotsStar, SpotGenerator.off]) (by norm_num [spotsStar])
  have e1 : spotsStar.spotGen.distAreaMean = 1000 := rfl
  have e2 : spotsStar.spotGen.initArea = 1000 := rfl
  have e4 : spotsStar.spotGen.growthRate = 1 := rfl
  have e5 : spotsStar.spotGen.decayRate = 1000 := rfl
  have e6 : spotsStar.spotGen.coverage = 0.1 := rfl
  have e7 : spotsStar.radius = 1000 := rfl
  rw [e1, e2, e4, e5, e6, e7] at h1
  norm_num at h1
  have hr : r = 160 * π := by linarith
  subst hr
  obtain ⟨hx, h5⟩ := h4 (1 / 1000) N (by norm_num) hN
  obtain ⟨S, M, k1, -⟩ := h5 (fun j ω => (ω j).1) (fun j ω => spaceDraws (ω j).2)
    (spotSpace_fair _) (Filter.Eventually.of_forall fun ω j n => ⟨0, fun i => by norm_num [SpotDraws.ratios, spaceDraws]⟩)
  exact ⟨S, k1, C169_spot_scatter _ spotsStar hgood hstar rfl (by norm_num [spotsStar]) (by norm_num [spotsStar]) (by norm_num [spotsStar])
    (by norm_num [spotsStar]) (1 / 1000) N (by norm_num) _ hx _ _ (spotSpace_fair _) S k1 _ ENNReal.measurable_ofReal (by simp)⟩

end Vsm
