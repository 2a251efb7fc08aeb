import Verif.Props.Steady

/-!
# C133: births do not depend on how the time is split up
-/

noncomputable section

namespace Vsm

open Real MeasureTheory ProbabilityTheory Set
open scoped ENNReal

theorem Fl.rate_add {A L : Fl} {t₁ t₂ x₁ x₂ : ℝ} (h₁ : A * .fin t₁ / L = .fin x₁) (h₂ : A * .fin t₂ / L = .fin x₂) :
    A * .fin (t₁ + t₂) / L = .fin (x₁ + x₂) := by
  have hi : ∀ (x y : ℝ) (B : Fl), Fl.infTimes x / B ≠ .fin y := by
    intro x y B h
    unfold Fl.infTimes at h
    split_ifs at h <;> cases B <;>
      simp only [HDiv.hDiv, Div.div, Fl.div, reduceCtorEq] at h <;> (split_ifs at h)
  cases A with
  | nan => cases L <;> cases h₁
  | ninf => exact absurd h₁ (hi _ _ _)
  | pinf => exact absurd h₁ (hi _ _ _)
  | fin a =>
    rw [Fl.fin_mul] at h₁ h₂ ⊢
    cases L with
    | nan => cases h₁
    | ninf =>
      change Fl.fin 0 = _ at h₁ h₂
      change Fl.fin 0 = _
      rw [Fl.fin_inj] at h₁ h₂ ⊢
      rw [← h₁, ← h₂, add_zero]
    | pinf =>
      change Fl.fin 0 = _ at h₁ h₂
      change Fl.fin 0 = _
      rw [Fl.fin_inj] at h₁ h₂ ⊢
      rw [← h₁, ← h₂, add_zero]
    | fin l =>
      by_cases hl : l = 0
      · subst hl
        rw [Fl.fin_div_zero] at h₁
        unfold Fl.infTimes at h₁
        split_ifs at h₁
      · rw [Fl.fin_div hl, Fl.fin_inj] at h₁ h₂ ⊢
        rw [← h₁, ← h₂]
        ring

theorem poisson_zero {Ω : Type*} [MeasurableSpace Ω] {P : Measure Ω} {K : Ω → ℕ} (h : HasLaw K (poissonMeasure 0) P) :
    ∀ᵐ ω ∂P, K ω = 0 := by
  have h0 : P.map K {0}ᶜ = 0 := by
    rw [h.map_eq, measure_compl (measurableSet_singleton _) (by simp), poissonMeasure_singleton]
    simp
  rw [Measure.map_apply_of_aemeasurable h.aemeasurable (measurableSet_singleton _).compl] at h0
  rw [ae_iff]
  exact h0

theorem poisson_raw {x : ℝ} (hx : 0 ≤ x) {k n : ℕ} (h : Np.poisson (.fin x) k = .ok n) (h0 : x = 0 → k = 0) : n = k := by
  unfold Np.poisson at h
  simp only [if_neg (not_lt.mpr hx)] at h
  by_cases hz : x = 0
  · rw [if_pos hz] at h; rw [h0 hz]; cases h; rfl
  · rw [if_neg hz] at h; cases h; rfl

theorem poisson_number_eq {Ω : Type*} [MeasurableSpace Ω] {P : Measure Ω} {K N : Ω → ℕ} {x : ℝ} (hx : 0 ≤ x)
    (h : HasLaw K (poissonMeasure x.toNNReal) P) (hN : ∀ᵐ ω ∂P, Np.poisson (.fin x) (K ω) = .ok (N ω)) :
    N =ᵐ[P] K := by
  by_cases hz : x = 0
  · subst hz
    rw [Real.toNNReal_zero] at h
    filter_upwards [hN, poisson_zero h] with ω h1 h2
    exact poisson_raw hx h1 fun _ => h2
  · filter_upwards [hN] with ω h1
    exact poisson_raw hx h1 fun h2 => absurd h2 hz

theorem poisson_split {Ω Ω' : Type*} [MeasurableSpace Ω] [MeasurableSpace Ω'] {P : Measure Ω} {P' : Measure Ω'}
    {K₁ K₂ N₁ N₂ : Ω → ℕ} {K N : Ω' → ℕ} {x₁ x₂ : ℝ}
    (hx₁ : 0 ≤ x₁) (hx₂ : 0 ≤ x₂) (hind : IndepFun K₁ K₂ P)
    (h₁ : HasLaw K₁ (poissonMeasure x₁.toNNReal) P) (h₂ : HasLaw K₂ (poissonMeasure x₂.toNNReal) P)
    (h : HasLaw K (poissonMeasure (x₁ + x₂).toNNReal) P')
    (hN₁ : ∀ᵐ ω ∂P, Np.poisson (.fin x₁) (K₁ ω) = .ok (N₁ ω)) (hN₂ : ∀ᵐ ω ∂P, Np.poisson (.fin x₂) (K₂ ω) = .ok (N₂ ω))
    (hN : ∀ᵐ ω ∂P', Np.poisson (.fin (x₁ + x₂)) (K ω) = .ok (N ω)) :
    P.map (fun ω => N₁ ω + N₂ ω) = P'.map N ∧ P'.map N = poissonMeasure (x₁ + x₂).toNNReal := by
  have c := h.congr (poisson_number_eq (add_nonneg hx₁ hx₂) h hN)
  have hsum := IndepFun.hasLaw_add_poissonMeasure hind h₁ h₂
  have e₁ : N₁ =ᵐ[P] K₁ := poisson_number_eq hx₁ h₁ hN₁
  have e₂ : N₂ =ᵐ[P] K₂ := poisson_number_eq hx₂ h₂ hN₂
  have hs : HasLaw (fun ω => N₁ ω + N₂ ω) (poissonMeasure (x₁.toNNReal + x₂.toNNReal)) P := by
    refine hsum.congr ?_
    filter_upwards [e₁, e₂] with ω p q
    rw [p, q, Pi.add_apply]
  exact ⟨by rw [hs.map_eq, c.map_eq, Real.toNNReal_add hx₁ hx₂], c.map_eq⟩

theorem spot_number {G : SpotGenerator} {t R : ℝ} {k : ℕ} {d : (n : ℕ) → SpotDraws n} {l : List StarSpot}
    (h : G.birth t R k d = .ok l) : Np.poisson (G.nExpected t R) k = .ok l.length := by
  unfold SpotGenerator.birth at h
  cases hp : Np.poisson (G.nExpected t R) k with
  | error e => rw [hp] at h; cases h
  | ok n =>
    rw [hp] at h
    change G.generate n (d n) = .ok l at h
    unfold SpotGenerator.generate at h
    by_cases h1 : G.distAreaLogsigma < 0
    · rw [if_pos h1] at h; cases h
    rw [if_neg h1] at h
    cases ha : SpotGenerator.acceptRatios (d n) with
    | none => rw [ha] at h; cases h
    | some q =>
      rw [ha] at h
      simp only at h
      split_ifs at h with h2
      cases h
      rw [List.length_ofFn]

theorem facula_number {G : FaculaGenerator} {t R : ℝ} {k : ℕ} {d : (n : ℕ) → FaculaDraws n} {l : List Facula}
    (h : G.birth t R k d = .ok l) : Np.poisson (G.nExpected t R) k = .ok l.length := by
  unfold FaculaGenerator.birth at h
  cases hp : Np.poisson (G.nExpected t R) k with
  | error e => rw [hp] at h; cases h
  | ok n =>
    rw [hp] at h
    cases h
    unfold FaculaGenerator.generate
    rw [List.length_ofFn]

/-- **C133** (spots) The number of spots born does not depend on how the time is split up: the births of two successive
intervals are together distributed as the births of one interval of the same total length,
which have a Poisson distribution with the mean `get_n_spots_to_birth`. -/
theorem C133_spots {Ω Ω' : Type*} [MeasurableSpace Ω] [MeasurableSpace Ω'] (P : Measure Ω) (P' : Measure Ω')
    (G : SpotGenerator) (t₁ t₂ R x₁ x₂ : ℝ) (h₁ : G.nExpected t₁ R = .fin x₁) (h₂ : G.nExpected t₂ R = .fin x₂)
    (hx₁ : 0 ≤ x₁) (hx₂ : 0 ≤ x₂) : ∃ x, G.nExpected (t₁ + t₂) R = .fin x ∧
    ∀ (K₁ K₂ : Ω → ℕ) (K : Ω' → ℕ) (D₁ D₂ : Ω → (n : ℕ) → SpotDraws n) (D : Ω' → (n : ℕ) → SpotDraws n)
      (l₁ l₂ : Ω → List StarSpot) (l : Ω' → List StarSpot), IndepFun K₁ K₂ P → HasLaw K₁ (poissonMeasure x₁.toNNReal) P →
      HasLaw K₂ (poissonMeasure x₂.toNNReal) P → HasLaw K (poissonMeasure x.toNNReal) P' →
      (∀ᵐ ω ∂P, G.birth t₁ R (K₁ ω) (D₁ ω) = .ok (l₁ ω)) → (∀ᵐ ω ∂P, G.birth t₂ R (K₂ ω) (D₂ ω) = .ok (l₂ ω)) →
      (∀ᵐ ω ∂P', G.birth (t₁ + t₂) R (K ω) (D ω) = .ok (l ω)) →
      P.map (fun ω => (l₁ ω).length + (l₂ ω).length) = P'.map (fun ω => (l ω).length) ∧
        P'.map (fun ω => (l ω).length) = poissonMeasure x.toNNReal := by
  have hx : G.nExpected (t₁ + t₂) R = .fin (x₁ + x₂) := Fl.rate_add h₁ h₂
  refine ⟨x₁ + x₂, hx, fun K₁ K₂ K D₁ D₂ D l₁ l₂ l hi p₁ p₂ p b₁ b₂ b => ?_⟩
  refine poisson_split hx₁ hx₂ hi p₁ p₂ p ?_ ?_ ?_
  · filter_upwards [b₁] with ω q
    rw [← h₁]; exact spot_number q
  · filter_upwards [b₂] with ω q
    rw [← h₂]; exact spot_number q
  · filter_upwards [b] with ω q
    rw [← hx]; exact spot_number q

/-- **C133** (faculae) The same for the births of faculae. -/
theorem C133_faculae {Ω Ω' : Type*} [MeasurableSpace Ω] [MeasurableSpace Ω'] (P : Measure Ω) (P' : Measure Ω')
    (G : FaculaGenerator) (t₁ t₂ R x₁ x₂ : ℝ) (h₁ : G.nExpected t₁ R = .fin x₁) (h₂ : G.nExpected t₂ R = .fin x₂)
    (hx₁ : 0 ≤ x₁) (hx₂ : 0 ≤ x₂) : ∃ x, G.nExpected (t₁ + t₂) R = .fin x ∧
    ∀ (K₁ K₂ : Ω → ℕ) (K : Ω' → ℕ) (D₁ D₂ : Ω → (n : ℕ) → FaculaDraws n) (D : Ω' → (n : ℕ) → FaculaDraws n)
      (l₁ l₂ : Ω → List Facula) (l : Ω' → List Facula), IndepFun K₁ K₂ P → HasLaw K₁ (poissonMeasure x₁.toNNReal) P →
      HasLaw K₂ (poissonMeasure x₂.toNNReal) P → HasLaw K (poissonMeasure x.toNNReal) P' →
      (∀ᵐ ω ∂P, G.birth t₁ R (K₁ ω) (D₁ ω) = .ok (l₁ ω)) → (∀ᵐ ω ∂P, G.birth t₂ R (K₂ ω) (D₂ ω) = .ok (l₂ ω)) →
      (∀ᵐ ω ∂P', G.birth (t₁ + t₂) R (K ω) (D ω) = .ok (l ω)) →
      P.map (fun ω => (l₁ ω).length + (l₂ ω).length) = P'.map (fun ω => (l ω).length) ∧
        P'.map (fun ω => (l ω).length) = poissonMeasure x.toNNReal := by
  have hx : G.nExpected (t₁ + t₂) R = .fin (x₁ + x₂) := Fl.rate_add h₁ h₂
  refine ⟨x₁ + x₂, hx, fun K₁ K₂ K D₁ D₂ D l₁ l₂ l hi p₁ p₂ p b₁ b₂ b => ?_⟩
  refine poisson_split hx₁ hx₂ hi p₁ p₂ p ?_ ?_ ?_
  · filter_upwards [b₁] with ω q
    rw [← h₁]; exact facula_number q
  · filter_upwards [b₂] with ω q
    rw [← h₂]; exact facula_number q
  · filter_upwards [b] with ω q
    rw [← hx]; exact facula_number q

theorem flare_number {G : FlareGenerator} {m c t : ℝ} {k : ℕ} {d : (n : ℕ) → FlareDraws n} {l : List StellarFlare}
    (hm : G.minEnergy = .fin m) (hm0 : 0 < m) (ha : G.alpha < 0) (hc : G.clusterSize = .fin c) (hc0 : 0 ≤ c)
    (hw : 0 < G.fwhmMean) (hsw : 0 ≤ G.fwhmLogsigma) (hst : 0 ≤ G.teffSigma) (ht : 0 ≤ t)
    (h : G.series t k d = .ok l) : Np.poisson (G.nTotal t) k = .ok l.length := by
  have hC := C51_series.2 G m c t k d hm hm0 ha hc hc0 hw hsw hst
  have hn : G.nTotal t = .fin (10 ^ G.beta * m ^ G.alpha * t) := by
    unfold FlareGenerator.nTotal
    rw [hm, nexp_fin G hm0]
  rw [hn]
  unfold Np.poisson
  rcases ht.eq_or_lt with h0 | h0
  · rw [hC.1 h0.symm] at h
    cases h
    simp [← h0]
  · obtain ⟨l', e, e2, -⟩ := hC.2.2 h0
    rw [e] at h
    cases h
    have : 0 < (10 : ℝ) ^ G.beta * m ^ G.alpha * t := by positivity
    simp only [if_neg (not_lt.mpr this.le), if_neg this.ne', e2]

/-- **C133** (flares) The same for the number of flares made by `generate_flare_series`. -/
theorem C133_flares {Ω Ω' : Type*} [MeasurableSpace Ω] [MeasurableSpace Ω'] (P : Measure Ω) (P' : Measure Ω')
    (G : FlareGenerator) (m c t₁ t₂ : ℝ) (hm : G.minEnergy = .fin m) (hm0 : 0 < m) (ha : G.alpha < 0)
    (hc : G.clusterSize = .fin c) (hc0 : 0 ≤ c) (hw : 0 < G.fwhmMean) (hsw : 0 ≤ G.fwhmLogsigma) (hst : 0 ≤ G.teffSigma)
    (h₁ : 0 ≤ t₁) (h₂ : 0 ≤ t₂) : ∃ x₁ x₂ x, G.nTotal t₁ = .fin x₁ ∧ G.nTotal t₂ = .fin x₂ ∧ G.nTotal (t₁ + t₂) = .fin x ∧
    ∀ (K₁ K₂ : Ω → ℕ) (K : Ω' → ℕ) (D₁ D₂ : Ω → (n : ℕ) → FlareDraws n) (D : Ω' → (n : ℕ) → FlareDraws n),
      IndepFun K₁ K₂ P → HasLaw K₁ (poissonMeasure x₁.toNNReal) P →
      HasLaw K₂ (poissonMeasure x₂.toNNReal) P → HasLaw K (poissonMeasure x.toNNReal) P' →
      ∃ (l₁ l₂ : Ω → List StellarFlare) (l : Ω' → List StellarFlare), (∀ ω, G.series t₁ (K₁ ω) (D₁ ω) = .ok (l₁ ω)) ∧
        (∀ ω, G.series t₂ (K₂ ω) (D₂ ω) = .ok (l₂ ω)) ∧ (∀ ω, G.series (t₁ + t₂) (K ω) (D ω) = .ok (l ω)) ∧
        P.map (fun ω => (l₁ ω).length + (l₂ ω).length) = P'.map (fun ω => (l ω).length) ∧
        P'.map (fun ω => (l ω).length) = poissonMeasure x.toNNReal := by
  have hn : ∀ t, G.nTotal t = .fin (10 ^ G.beta * m ^ G.alpha * t) := by
    intro t
    unfold FlareGenerator.nTotal
    rw [hm, nexp_fin G hm0]
  have hok : ∀ t, 0 ≤ t → ∀ k d, ∃ l, G.series t k d = .ok l := by
    intro t ht k d
    rcases ht.eq_or_lt with h0 | h0
    · exact ⟨_, (C51_series.2 G m c t k d hm hm0 ha hc hc0 hw hsw hst).1 h0.symm⟩
    · obtain ⟨l, e, -⟩ := (C51_series.2 G m c t k d hm hm0 ha hc hc0 hw hsw hst).2.2 h0
      exact ⟨l, e⟩
  refine ⟨_, _, _, hn t₁, hn t₂, hn (t₁ + t₂), fun K₁ K₂ K D₁ D₂ D hi p₁ p₂ p => ?_⟩
  choose l₁ e₁ using fun ω => hok t₁ h₁ (K₁ ω) (D₁ ω)
  choose l₂ e₂ using fun ω => hok t₂ h₂ (K₂ ω) (D₂ ω)
  choose l e using fun ω => hok (t₁ + t₂) (add_nonneg h₁ h₂) (K ω) (D ω)
  refine ⟨l₁, l₂, l, e₁, e₂, e, ?_⟩
  have q₁ : ∀ ω, Np.poisson (.fin (10 ^ G.beta * m ^ G.alpha * t₁)) (K₁ ω) = .ok (l₁ ω).length := fun ω => by
    rw [← hn]; exact flare_number hm hm0 ha hc hc0 hw hsw hst h₁ (e₁ ω)
  have q₂ : ∀ ω, Np.poisson (.fin (10 ^ G.beta * m ^ G.alpha * t₂)) (K₂ ω) = .ok (l₂ ω).length := fun ω => by
    rw [← hn]; exact flare_number hm hm0 ha hc hc0 hw hsw hst h₂ (e₂ ω)
  have q : ∀ ω, Np.poisson (.fin (10 ^ G.beta * m ^ G.alpha * t₁ + 10 ^ G.beta * m ^ G.alpha * t₂)) (K ω) =
      .ok (l ω).length := fun ω => by
    rw [← mul_add, ← hn]; exact flare_number hm hm0 ha hc hc0 hw hsw hst (add_nonneg h₁ h₂) (e ω)
  rw [mul_add]
  refine poisson_split (by positivity) (by positivity) hi p₁ p₂ ?_ (.of_forall q₁) (.of_forall q₂) (.of_forall q)
  rw [← mul_add]
  exact p

/-- Non-trivial instance of C133: the flares of two successive half days number 10 on average, with a Poisson distribution. -/
example : ∃ (P : Measure ((ℕ × ℝ × ℝ × ℝ) × (ℕ × ℝ × ℝ × ℝ))) (K₁ K₂ : (ℕ × ℝ × ℝ × ℝ) × (ℕ × ℝ × ℝ × ℝ) → ℕ)
    (D₁ D₂ : (ℕ × ℝ × ℝ × ℝ) × (ℕ × ℝ × ℝ × ℝ) → (n : ℕ) → FlareDraws n)
    (l₁ l₂ : (ℕ × ℝ × ℝ × ℝ) × (ℕ × ℝ × ℝ × ℝ) → List StellarFlare), IsProbabilityMeasure P ∧
    (∀ ω, Spec.sampleFlareGen.series 0.5 (K₁ ω) (D₁ ω) = .ok (l₁ ω)) ∧
    (∀ ω, Spec.sampleFlareGen.series 0.5 (K₂ ω) (D₂ ω) = .ok (l₂ ω)) ∧
    P.map (fun ω => (l₁ ω).length + (l₂ ω).length) = poissonMeasure 10 := by
  have := fair_cube
  have i5 : IsProbabilityMeasure (fairSpace 5) := by unfold fairSpace; infer_instance
  have i10 : IsProbabilityMeasure (fairSpace 10) := by unfold fairSpace; infer_instance
  obtain ⟨x₁, x₂, x, e₁, e₂, e, h⟩ := C133_flares ((fairSpace 5).prod (fairSpace 5)) (fairSpace 10) Spec.sampleFlareGen 10 2
    0.5 0.5 rfl (by norm_num) (by norm_num [Spec.sampleFlareGen]) rfl (by norm_num) (by norm_num [Spec.sampleFlareGen])
    (by norm_num [Spec.sampleFlareGen]) (by norm_num [Spec.sampleFlareGen]) (by norm_num) (by norm_num)
  have hn : ∀ t y, Spec.sampleFlareGen.nTotal t = .fin y → y = 10 * t := by
    intro t y h1
    unfold FlareGenerator.nTotal at h1
    rw [show Spec.sampleFlareGen.minEnergy = .fin 10 from rfl, nexp_fin _ (by norm_num), Fl.fin_inj] at h1
    rw [← h1]
    norm_num [Spec.sampleFlareGen, Real.rpow_neg_one]
  have a₁ : x₁ = 5 := by rw [hn _ _ e₁]; norm_num
  have a₂ : x₂ = 5 := by rw [hn _ _ e₂]; norm_num
  have a : x = 10 := by rw [hn _ _ e]; norm_num
  subst a₁ a₂ a
  have hlaw : ∀ y, IsProbabilityMeasure (fairSpace y) → HasLaw (fun ω : ℕ × ℝ × ℝ × ℝ => ω.1) (poissonMeasure y.toNNReal) (fairSpace y) :=
    fun y _ => ⟨measurable_fst.aemeasurable, (fairSpace_flares y).count⟩
  have k₁ : HasLaw (fun ω : (ℕ × ℝ × ℝ × ℝ) × (ℕ × ℝ × ℝ × ℝ) => ω.1.1) (poissonMeasure (5 : ℝ).toNNReal) ((fairSpace 5).prod (fairSpace 5)) :=
    (hlaw 5 i5).comp measurePreserving_fst.hasLaw
  have k₂ : HasLaw (fun ω : (ℕ × ℝ × ℝ × ℝ) × (ℕ × ℝ × ℝ × ℝ) => ω.2.1) (poissonMeasure (5 : ℝ).toNNReal) ((fairSpace 5).prod (fairSpace 5)) :=
    (hlaw 5 i5).comp measurePreserving_snd.hasLaw
  obtain ⟨l₁, l₂, l, b₁, b₂, -, b, b'⟩ := h (fun ω => ω.1.1) (fun ω => ω.2.1) (fun ω => ω.1) (fun ω n => fairFlareDraws ω.1 n)
    (fun ω n => fairFlareDraws ω.2 n) (fun ω n => fairFlareDraws ω n) (indepFun_prod measurable_fst measurable_fst) k₁ k₂ (hlaw 10 i10)
  refine ⟨(fairSpace 5).prod (fairSpace 5), _, _, _, _, l₁, l₂, inferInstance, b₁, b₂, ?_⟩
  rw [b, b', show (10 : ℝ).toNNReal = 10 by simp]

end Vsm
