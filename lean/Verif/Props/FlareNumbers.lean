import Verif.Props.Regions

/-!
# The numbers of flares (C174)

The distribution of the number of flares of a series above an energy and in a region.
-/
set_option autoImplicit false

namespace Vsm
open Real MeasureTheory ProbabilityTheory Set Np Spec
open scoped ENNReal NNReal

/-- A Poisson number of flares with the given mean; for each possible number the uniform draws for energy, latitude and longitude of the
flares are independent of each other and of the number of flares (spec of the numpy generator as far as it matters here). -/
structure Spec.FairSeries {Ω : Type*} [MeasurableSpace Ω] (P : Measure Ω) (mean : ℝ) (K : Ω → ℕ) (D : Ω → (n : ℕ) → FlareDraws n) : Prop where
  count_measurable : Measurable K
  count : P.map K = poissonMeasure mean.toNNReal
  measurable : ∀ n, Measurable fun ω (i : Fin n) => (((D ω n).uE i : ℝ), ((D ω n).uLat i : ℝ), ((D ω n).uLon i : ℝ))
  law : ∀ n, P.map (fun ω (i : Fin n) => (((D ω n).uE i : ℝ), ((D ω n).uLat i : ℝ), ((D ω n).uLon i : ℝ))) =
    Measure.pi fun _ => volume.restrict (Ico 0 1 ×ˢ Ico 0 1 ×ˢ Ico 0 1)
  indep : ∀ n, IndepFun (fun ω (i : Fin n) => (((D ω n).uE i : ℝ), ((D ω n).uLat i : ℝ), ((D ω n).uLon i : ℝ))) K P

/-- Of a Poisson number of independent draws, the numbers with two properties that exclude each other are independent. -/
theorem thin_indep {Ω Y : Type*} [MeasurableSpace Ω] [MeasurableSpace Y] (P : Measure Ω) [IsProbabilityMeasure P] (x : ℝ≥0) (K : Ω → ℕ)
    (hK : Measurable K) (hKl : P.map K = poissonMeasure x) (μ : Measure Y) [IsProbabilityMeasure μ] (y : (n : ℕ) → Ω → Fin n → Y)
    (hm : ∀ n, Measurable (y n)) (hl : ∀ n, P.map (y n) = Measure.pi fun _ => μ) (hi : ∀ n, IndepFun (y n) K P) (A B : Set Y)
    (hA : MeasurableSet A) (hB : MeasurableSet B) (hAB : Disjoint A B) :
    IndepFun (fun ω => tally A (y (K ω) ω)) (fun ω => tally B (y (K ω) ω)) P := by
  classical
  have hcast : Measurable (Nat.cast : ℕ → ℝ) := Measurable.of_discrete
  have hmr : ∀ B : Set Y, MeasurableSet B → Measurable fun ω => (tally B (y (K ω) ω) : ℝ) := fun B hB => hcast.comp (tally_batch_measurable K hK y hm hB)
  have phase : ∀ (A B : Set Y), MeasurableSet A → MeasurableSet B → Disjoint A B → ∀ a b : ℝ,
      ∫ ω, Complex.exp ((a * (tally A (y (K ω) ω) : ℕ) + b * (tally B (y (K ω) ω) : ℕ) : ℝ) * Complex.I) ∂P =
        Complex.exp (x * ((μ A).toReal * (Complex.exp (a * Complex.I) - 1) + (μ B).toReal * (Complex.exp (b * Complex.I) - 1))) := by
    intro A B hA hB hAB a b
    simp only [tally_phase]
    rw [phase_batch P x K hK hKl μ y hm hl hi (fun v => Complex.exp (((if v ∈ A then a else 0) + (if v ∈ B then b else 0) : ℝ) * Complex.I)) (by
        have m1 : Measurable fun v : Y => ((if v ∈ A then a else 0) + (if v ∈ B then b else 0) : ℝ) :=
          (Measurable.ite hA measurable_const measurable_const).add (Measurable.ite hB measurable_const measurable_const)
        exact Complex.measurable_exp.comp ((Complex.measurable_ofReal.comp m1).mul_const _))
      (fun v => by rw [Complex.norm_exp_ofReal_mul_I]), phase_mean μ hA hB hAB]
    congr 1
    ring
  have key : IndepFun (fun ω => (tally A (y (K ω) ω) : ℝ)) (fun ω => (tally B (y (K ω) ω) : ℝ)) P := by
    rw [indepFun_iff_charFunDual_prod (hmr A hA).aemeasurable (hmr B hB).aemeasurable]
    intro L
    rw [charFunDual_apply, charFunDual_apply, charFunDual_apply, integral_map ((hmr A hA).prodMk (hmr B hB)).aemeasurable (by fun_prop),
      integral_map (hmr A hA).aemeasurable (by fun_prop), integral_map (hmr B hB).aemeasurable (by fun_prop)]
    set a := L (1, 0)
    set b := L (0, 1)
    have hL : ∀ u v : ℝ, L (u, v) = a * u + b * v := by
      intro u v
      have : (u, v) = u • ((1, 0) : ℝ × ℝ) + v • ((0, 1) : ℝ × ℝ) := by simp
      rw [this, map_add, map_smul, map_smul, smul_eq_mul, smul_eq_mul]
      ring
    have e := phase A B hA hB hAB a b
    have eA := phase A ∅ hA MeasurableSet.empty (Set.disjoint_empty _) a 0
    have eB := phase ∅ B MeasurableSet.empty hB (Set.empty_disjoint _) 0 b
    simp only [ContinuousLinearMap.comp_apply, ContinuousLinearMap.inl_apply, ContinuousLinearMap.inr_apply, hL]
    simp only [zero_mul, add_zero, zero_add, mul_zero, measure_empty, ENNReal.toReal_zero, Complex.ofReal_zero] at eA eB ⊢
    rw [e, eA, eB, ← Complex.exp_add]
    ring_nf
  have := key.comp (φ := fun r : ℝ => ⌊r⌋₊) (ψ := fun r : ℝ => ⌊r⌋₊) Nat.measurable_floor Nat.measurable_floor
  convert this using 1 <;>
  · funext ω
    rw [Function.comp_apply, Nat.floor_natCast]

open Classical in
/-- **C174** The numbers of flares.  With fair draws the number of flares of a series above an energy in a region of the star has a Poisson
distribution with mean `get_nexp_greater_than(E, time)` times the share of the region; so its variance equals its mean.  The numbers of flares
in two sets of energies and places that exclude each other are independent. -/
theorem C174_flare_numbers {Ω : Type*} [MeasurableSpace Ω] (P : Measure Ω) [IsProbabilityMeasure P] (G : FlareGenerator) (m c t : ℝ)
    (K : Ω → ℕ) (D : Ω → (n : ℕ) → FlareDraws n) (hm : G.minEnergy = .fin m) (hm0 : 0 < m) (ha : G.alpha < 0) (hc : G.clusterSize = .fin c)
    (hc0 : 0 ≤ c) (hw : 0 < G.fwhmMean) (hsw : 0 ≤ G.fwhmLogsigma) (hst : 0 ≤ G.teffSigma) (ht : 0 < t) :
    ∃ total : ℝ, G.nTotal t = .fin total ∧ (FairSeries P total K D → ∃ l : Ω → List StellarFlare, (∀ ω, G.series t (K ω) (D ω) = .ok (l ω)) ∧
      (∀ (E : ℝ) (A : Set (ℝ × ℝ)), m ≤ E → MeasurableSet A → ∃ above : ℝ, G.nexpGreaterThan (.fin E) t = .fin above ∧
        HasLaw (fun ω => (l ω).countP fun f => decide (Fl.fin E < f.energy ∧ (f.lat, f.lon) ∈ A))
          (poissonMeasure (above * (sphereShare A).toReal).toNNReal) P) ∧
      ∀ Q Q' : Set (ℝ × ℝ × ℝ), MeasurableSet Q → MeasurableSet Q' → Disjoint Q Q' →
        IndepFun (fun ω => (l ω).countP fun f => decide (∃ e : ℝ, f.energy = .fin e ∧ (e, f.lat, f.lon) ∈ Q))
          (fun ω => (l ω).countP fun f => decide (∃ e : ℝ, f.energy = .fin e ∧ (e, f.lat, f.lon) ∈ Q')) P) := by
  refine ⟨10 ^ G.beta * m ^ G.alpha * t, ?_, ?_⟩
  · unfold FlareGenerator.nTotal
    rw [hm, nexp_fin G hm0]
  intro hF
  have hcube := fair_cube
  choose l hl1 hl2 using fun ω => series_fields G m c t (K ω) (D ω) hm hm0 ha hc hc0 hw hsw hst ht
  set T : ℝ × ℝ × ℝ → ℝ × ℝ × ℝ := fun x => (m * (1 - x.1) ^ (1 / G.alpha), arcsin (2 * x.2.1 - 1), 2 * π * x.2.2) with hT
  have hTm : Measurable T := by rw [hT]; fun_prop
  have hcount : ∀ (Q : Set (ℝ × ℝ × ℝ)) (ω : Ω), ((l ω).countP fun f => decide (∃ e : ℝ, f.energy = .fin e ∧ (e, f.lat, f.lon) ∈ Q)) =
      tally (T ⁻¹' Q) (fun i : Fin (K ω) => (((D ω (K ω)).uE i : ℝ), ((D ω (K ω)).uLat i : ℝ), ((D ω (K ω)).uLon i : ℝ))) := by
    intro Q ω
    have : (l ω).countP (fun f => decide (∃ e : ℝ, f.energy = .fin e ∧ (e, f.lat, f.lon) ∈ Q)) =
        ((l ω).map fun f => (f.energy, f.lat, f.lon)).countP (fun x => decide (∃ e : ℝ, x.1 = .fin e ∧ (e, x.2) ∈ Q)) := by
      rw [List.countP_map]; rfl
    rw [this, hl2, countP_ofFn, tally, Finset.card_filter]
    refine Finset.sum_congr rfl fun i _ => ?_
    simp [hT]
  refine ⟨l, hl1, ?_, ?_⟩
  · intro E A hE hA
    have hE0 : 0 < E := lt_of_lt_of_le hm0 hE
    refine ⟨10 ^ G.beta * E ^ G.alpha * t, nexp_fin G hE0 t, ?_⟩
    set Q : Set (ℝ × ℝ × ℝ) := Ioi E ×ˢ A with hQ
    have hQm : MeasurableSet Q := measurableSet_Ioi.prod hA
    have hconv : (fun ω => (l ω).countP fun f => decide (Fl.fin E < f.energy ∧ (f.lat, f.lon) ∈ A)) =
        fun ω => tally (T ⁻¹' Q) (fun i : Fin (K ω) => (((D ω (K ω)).uE i : ℝ), ((D ω (K ω)).uLat i : ℝ), ((D ω (K ω)).uLon i : ℝ))) := by
      funext ω
      rw [← hcount]
      refine List.countP_congr fun f hf => ?_
      have hfin : ∃ e : ℝ, f.energy = .fin e := by
        have := List.mem_map_of_mem (f := fun f : StellarFlare => (f.energy, f.lat, f.lon)) hf
        rw [hl2, List.mem_ofFn] at this
        obtain ⟨i, hi⟩ := this
        exact ⟨_, (congrArg Prod.fst hi).symm⟩
      obtain ⟨e, he⟩ := hfin
      simp [he, hQ]
    rw [hconv]
    refine ⟨(tally_batch_measurable K hF.count_measurable (fun n ω i => (((D ω n).uE i : ℝ), ((D ω n).uLat i : ℝ), ((D ω n).uLon i : ℝ)))
      hF.measurable (hTm hQm)).aemeasurable, ?_⟩
    rw [thin_law P _ K hF.count_measurable hF.count _ (fun n ω i => (((D ω n).uE i : ℝ), ((D ω n).uLat i : ℝ), ((D ω n).uLon i : ℝ)))
      hF.measurable hF.law hF.indep _ (hTm hQm)]
    have hvol : (volume.restrict (Ico (0 : ℝ) 1 ×ˢ Ico (0 : ℝ) 1 ×ˢ Ico (0 : ℝ) 1)) (T ⁻¹' Q) = ENNReal.ofReal ((E / m) ^ G.alpha) * sphereShare A := by
      rw [Measure.restrict_apply (hTm hQm), ← energy_volume hm0 ha hE, ← square_sphere A hA, ← Measure.prod_prod, ← Measure.volume_eq_prod]
      congr 1
      ext x
      simp only [hT, hQ, Spec.square, mem_inter_iff, mem_prod, mem_ofPred_eq, mem_preimage, mem_Ioi]
      tauto
    rw [hvol]
    congr 1
    rw [← NNReal.coe_inj, NNReal.coe_mul, ENNReal.coe_toNNReal_eq_toReal, ENNReal.toReal_mul, ENNReal.toReal_ofReal (by positivity),
      Real.coe_toNNReal _ (by positivity), Real.coe_toNNReal _ (by positivity), div_rpow hE0.le hm0.le]
    have : m ^ G.alpha ≠ 0 := (rpow_pos_of_pos hm0 _).ne'
    field_simp
  · intro Q Q' hQ hQ' hd
    simp only [hcount]
    exact thin_indep P _ K hF.count_measurable hF.count _ (fun n ω i => (((D ω n).uE i : ℝ), ((D ω n).uLat i : ℝ), ((D ω n).uLon i : ℝ)))
      hF.measurable hF.law hF.indep _ _ (hTm hQ) (hTm hQ') (hd.preimage T)

open Classical in
/-- **C174** The strongest flare.  The probability that no flare of a series exceeds the energy `E` is
`exp(-get_nexp_greater_than(E, time))`. -/
theorem C174_strongest {Ω : Type*} [MeasurableSpace Ω] (P : Measure Ω) [IsProbabilityMeasure P] (G : FlareGenerator) (m c t : ℝ)
    (K : Ω → ℕ) (D : Ω → (n : ℕ) → FlareDraws n) (hm : G.minEnergy = .fin m) (hm0 : 0 < m) (ha : G.alpha < 0) (hc : G.clusterSize = .fin c)
    (hc0 : 0 ≤ c) (hw : 0 < G.fwhmMean) (hsw : 0 ≤ G.fwhmLogsigma) (hst : 0 ≤ G.teffSigma) (ht : 0 < t) :
    ∃ total : ℝ, G.nTotal t = .fin total ∧ (FairSeries P total K D → ∃ l : Ω → List StellarFlare, (∀ ω, G.series t (K ω) (D ω) = .ok (l ω)) ∧
      ∀ E : ℝ, m ≤ E → ∃ above : ℝ, G.nexpGreaterThan (.fin E) t = .fin above ∧
        P {ω | ∀ f ∈ l ω, f.energy ≤ .fin E} = ENNReal.ofReal (exp (-above))) := by
  obtain ⟨total, h1, h2⟩ := C174_flare_numbers P G m c t K D hm hm0 ha hc hc0 hw hsw hst ht
  refine ⟨total, h1, fun hF => ?_⟩
  obtain ⟨l, k1, k2, -⟩ := h2 hF
  refine ⟨l, k1, fun E hE => ?_⟩
  obtain ⟨above, k3, k4⟩ := k2 E univ hE MeasurableSet.univ
  refine ⟨above, k3, ?_⟩
  have hs : (sphereShare univ).toReal = 1 := by
    have := (C108_uniform_positions P univ MeasurableSet.univ 1 0).2.2.2
    rw [this]; simp
  have hab : 0 ≤ above := by
    have hE0 : 0 < E := hm0.trans_le hE
    rw [nexp_fin _ hE0, Fl.fin_inj] at k3
    rw [← k3]; positivity
  rw [hs, mul_one] at k4
  have k6 := congrArg (fun μ : Measure ℕ => μ {0}) k4.map_eq
  rw [Measure.map_apply_of_aemeasurable k4.aemeasurable (measurableSet_singleton 0), poissonMeasure_singleton] at k6
  have hfin : ∀ ω, ∀ f ∈ l ω, ∃ e : ℝ, f.energy = .fin e := by
    intro ω f hf
    obtain ⟨l', g1, g2⟩ := series_fields G m c t (K ω) (D ω) hm hm0 ha hc hc0 hw hsw hst ht
    have : l' = l ω := by rw [k1 ω] at g1; exact (Except.ok.inj g1).symm
    subst this
    have := List.mem_map_of_mem (f := fun f : StellarFlare => (f.energy, f.lat, f.lon)) hf
    rw [g2, List.mem_ofFn] at this
    obtain ⟨i, hi⟩ := this
    exact ⟨_, (congrArg Prod.fst hi).symm⟩
  refine (congrArg P ?_).trans (k6.trans ?_)
  · ext ω
    simp only [mem_ofPred_eq, mem_preimage, mem_singleton_iff, List.countP_eq_zero, mem_univ, and_true, decide_eq_true_eq]
    refine forall_congr' fun f => forall_congr' fun hf => ?_
    obtain ⟨e, he⟩ := hfin ω f hf
    simp [he]
  · congr 1
    rw [Real.coe_toNNReal _ hab]
    simp

/-! ### The hypotheses can be met -/

/-- A probability space with fair draws for a series of flares. -/
noncomputable def seriesSpace (mean : ℝ) : Measure (ℕ × ((n : ℕ) → Fin n → ℝ × ℝ × ℝ)) :=
  (poissonMeasure mean.toNNReal).prod (Measure.infinitePi fun n => Measure.pi fun _ : Fin n => volume.restrict (Ico 0 1 ×ˢ Ico 0 1 ×ˢ Ico 0 1))

/-- The draws for the flares. -/
noncomputable def seriesDraws (w : (n : ℕ) → Fin n → ℝ × ℝ × ℝ) (n : ℕ) : FlareDraws n :=
  { uE := fun i => unitDraw (w n i).1, clusters := fun _ => 1, expo := fun _ => ⟨1, by simp⟩, zF := fun _ => 0, zT := fun _ => 0, uLat := fun i => unitDraw (w n i).2.1, uLon := fun i => unitDraw (w n i).2.2 }

theorem seriesSpace_prob (mean : ℝ) : IsProbabilityMeasure (seriesSpace mean) := by
  have := fair_cube
  unfold seriesSpace
  infer_instance

theorem seriesSpace_fair (mean : ℝ) : FairSeries (seriesSpace mean) mean (fun ω => ω.1) (fun ω n => seriesDraws ω.2 n) := by
  have := fair_cube
  set cube : Measure (ℝ × ℝ × ℝ) := volume.restrict (Ico (0 : ℝ) 1 ×ˢ Ico (0 : ℝ) 1 ×ˢ Ico (0 : ℝ) 1) with hcube
  set fr : ℝ × ℝ × ℝ → ℝ × ℝ × ℝ := fun x => (Int.fract x.1, Int.fract x.2.1, Int.fract x.2.2) with hfr
  have hm : Measurable fr := (measurable_fract.comp measurable_fst).prodMk ((measurable_fract.comp (measurable_fst.comp measurable_snd)).prodMk
      (measurable_fract.comp (measurable_snd.comp measurable_snd)))
  have hlaw : MeasurePreserving fr cube cube := by
    refine ⟨hm, (Measure.map_congr ?_).trans Measure.map_id⟩
    filter_upwards [ae_restrict_mem (measurableSet_Ico.prod (measurableSet_Ico.prod measurableSet_Ico))] with x hx
    simp only [mem_prod, mem_Ico] at hx
    obtain ⟨h1, h2, h3⟩ := hx
    simp only [hfr, id, Int.fract_eq_self.mpr h1, Int.fract_eq_self.mpr h2, Int.fract_eq_self.mpr h3]
  have hg : ∀ n : ℕ, Measurable fun (w : (n : ℕ) → Fin n → ℝ × ℝ × ℝ) (i : Fin n) => fr (w n i) := fun n =>
    measurable_pi_lambda _ fun i => hm.comp ((measurable_pi_apply i).comp (measurable_pi_apply n))
  have hgl : ∀ n : ℕ, (Measure.infinitePi fun n => Measure.pi fun _ : Fin n => cube).map (fun w (i : Fin n) => fr (w n i)) = Measure.pi fun _ => cube := by
    intro n
    have h1 := (measurePreserving_pi (fun _ : Fin n => cube) (fun _ : Fin n => cube) (fun _ => hlaw)).map_eq
    have h2 := Measure.infinitePi_map_eval (fun n => Measure.pi fun _ : Fin n => cube) n
    have hf : Measurable fun (v : Fin n → ℝ × ℝ × ℝ) (i : Fin n) => fr (v i) := measurable_pi_lambda _ fun i => hm.comp (measurable_pi_apply i)
    have h3 := Measure.map_map (μ := Measure.infinitePi fun n => Measure.pi fun _ : Fin n => cube) hf (measurable_pi_apply n)
    rw [h2, h1] at h3
    exact h3.symm
  refine ⟨measurable_fst, Measure.fst_prod, fun n => (hg n).comp measurable_snd, fun n => ?_, fun n => ?_⟩
  · have h2 := Measure.map_map (μ := seriesSpace mean) (hg n) measurable_snd
    rw [show (seriesSpace mean).map Prod.snd = _ from Measure.snd_prod, hgl] at h2
    exact h2.symm
  · exact (indepFun_prod (μ := poissonMeasure mean.toNNReal) (ν := Measure.infinitePi fun n => Measure.pi fun _ : Fin n => cube)
        (X := fun k : ℕ => k) (Y := fun w (i : Fin n) => fr (w n i)) measurable_id (hg n)).symm

open Classical in
/-- Non-trivial instance of C174: of the flares above twice the minimum energy, of which 5 are expected per day, the number on the near side has
a Poisson distribution with mean 5/2, and none of them is there with probability exp(-5/2). -/
example (lat0 lon0 : ℝ) : ∃ l : ℕ × ((n : ℕ) → Fin n → ℝ × ℝ × ℝ) → List StellarFlare,
    (∀ ω, sampleFlareGen.series 1 ω.1 (fun n => seriesDraws ω.2 n) = .ok (l ω)) ∧
    seriesSpace 10 {ω | (l ω).countP (fun f => decide (Fl.fin 20 < f.energy ∧ (f.lat, f.lon) ∈ {p : ℝ × ℝ | 0 < cosDist lat0 lon0 p.1 p.2})) = 0} =
      ENNReal.ofReal (exp (-(5 / 2))) := by
  have := seriesSpace_prob 10
  have hA : MeasurableSet {p : ℝ × ℝ | 0 < cosDist lat0 lon0 p.1 p.2} := by
    refine measurableSet_lt measurable_const ?_
    simp only [cosDist, inner_unitVec]; fun_prop
  obtain ⟨total, h1, h2⟩ := C174_flare_numbers (seriesSpace 10) sampleFlareGen 10 2 1 (fun ω => ω.1)
    (fun ω n => seriesDraws ω.2 n) rfl (by norm_num) (by norm_num [sampleFlareGen]) rfl (by norm_num)
    (by norm_num [sampleFlareGen]) (by norm_num [sampleFlareGen]) (by norm_num [sampleFlareGen]) one_pos
  have e1 : total = 10 := by
    unfold FlareGenerator.nTotal at h1
    rw [show sampleFlareGen.minEnergy = .fin 10 from rfl, nexp_fin _ (by norm_num), Fl.fin_inj] at h1
    rw [← h1]
    norm_num [sampleFlareGen, Real.rpow_neg_one]
  subst e1
  obtain ⟨l, k1, k2, -⟩ := h2 (seriesSpace_fair 10)
  obtain ⟨above, k3, k4⟩ := k2 20 _ (by norm_num) hA
  have e2 : above = 5 := by
    rw [nexp_fin _ (by norm_num), Fl.fin_inj] at k3
    rw [← k3]
    norm_num [sampleFlareGen, Real.rpow_neg_one]
  subst e2
  refine ⟨l, k1, ?_⟩
  have hs : (sphereShare {p : ℝ × ℝ | 0 < cosDist lat0 lon0 p.1 p.2}).toReal = 1 / 2 := by
    rw [cap_share lat0 lon0 0 (by norm_num) (by norm_num), ENNReal.toReal_ofReal (by norm_num)]
    norm_num
  rw [hs] at k4
  have k5 : (seriesSpace 10).map (fun ω => (l ω).countP fun f => decide (Fl.fin 20 < f.energy ∧ (f.lat, f.lon) ∈ {p : ℝ × ℝ | 0 < cosDist lat0 lon0 p.1 p.2})) {0} =
      poissonMeasure ((5 * (1 / 2) : ℝ)).toNNReal {0} := by rw [k4.map_eq]
  rw [Measure.map_apply_of_aemeasurable k4.aemeasurable (measurableSet_singleton 0), poissonMeasure_singleton] at k5
  refine k5.trans ?_
  congr 1
  norm_num

end Vsm
