import Verif.Props.MeanLight

/-!
# C176: the coverage measured on a grid is on average exact
-/

noncomputable section

namespace Vsm

open Real MeasureTheory ProbabilityTheory Set Np Spec
open scoped ENNReal

/-! ### Specification -/

/-- Every spot of the list has an umbra that is part of it: the ratio of its areas is at least 1. -/
def Spec.Nested (spots : List StarSpot) : Prop := ∀ s ∈ spots, ∃ q, s.ratio = .fin q ∧ 1 ≤ q

/-- What `get_coverage` returns for the random list of spots `l`, measured on the grid `g`, is a number with the mean `m` if all umbrae are
parts of their spots, and a number with a mean of at least `m` in any case. -/
def Spec.MeanCoverage {Ω : Type*} [MeasurableSpace Ω] (P : Measure Ω) (l : Ω → List StarSpot) (g : Grid) (R m : ℝ) : Prop :=
  ∃ v : Ω → ℝ, (∀ᵐ ω ∂P, (SpotCollection.new (l ω) g).coverage R = .ok (.fin (v ω)) ∧ 0 ≤ v ω ∧ v ω ≤ 1) ∧
    ENNReal.ofReal m ≤ ∫⁻ ω, ENNReal.ofReal (v ω) ∂P ∧ ((∀ᵐ ω ∂P, Nested (l ω)) → ∫ ω, v ω ∂P = m)

/-! ### Pixels and points -/

theorem pixel_inside (s : StarSpot) (g : Grid) {R a : ℝ} (hR : 0 < R) (ha : s.area = .fin a) (p : g.Pix) :
    inSpot s g R p ↔ insideSpot s R (g.lat p) (g.lon p) := by
  have h := (C18_membership { s with ratio := .fin 1 } g R a 1 hR ha rfl one_pos p).1
  have e : inSpot s g R p ↔ ∃ θ ∈ Set.Icc 0 π, capArea R θ = a ∧ greatCircle s.lat s.lon (g.lat p) (g.lon p) < θ := h
  rw [e]
  unfold insideSpot
  constructor
  · rintro ⟨θ, h1, h2, h3⟩; exact ⟨a, θ, ha, h1, h2, h3⟩
  · rintro ⟨a', θ, h0, h1, h2, h3⟩
    rw [ha, Fl.fin_inj] at h0
    exact ⟨θ, h1, h2.trans h0.symm, h3⟩

open Classical in
/-- The share of the pixels whose centres are covered. -/
def pixelShare (A : ℝ → ℝ → Prop) (g : Grid) (a : g.Pix → ℝ) : ℝ := ∑ p, if A (g.lat p) (g.lon p) then 0 else a p

theorem grid_coverage (spots : List StarSpot) (g : Grid) (hg : goodGrid g) {R : ℝ} (hR : 0 < R) (hs : ∀ s ∈ spots, ∃ b, s.area = .fin b)
    (a : g.Pix → ℝ) (ha : ∀ p, g.area p = .fin (a p)) (h0 : ∀ p, 0 ≤ a p) (h1 : ∑ p, a p = 1) :
    ∃ v : ℝ, (SpotCollection.new spots g).coverage R = .ok (.fin v) ∧ (0 ≤ v ∧ v ≤ 1) ∧ pixelShare (uncovered spots R) g a ≤ v ∧
      (Nested spots → v = pixelShare (uncovered spots R) g a) := by
  classical
  refine ⟨_, C24_coverage (SpotCollection.new spots g) (measured_new _ _) hg R a ha, ⟨?_, ?_⟩, ?_, fun hn => ?_⟩
  · exact Finset.sum_nonneg fun p _ => by split_ifs <;> [exact h0 p; exact le_rfl]
  · rw [← h1]
    exact Finset.sum_le_sum fun p _ => by split_ifs <;> [exact le_rfl; exact h0 p]
  · refine Finset.sum_le_sum fun p _ => ?_
    by_cases hu : uncovered spots R (g.lat p) (g.lon p)
    · rw [if_pos hu]; split_ifs <;> [exact h0 p; exact le_rfl]
    · rw [if_neg hu, if_pos]
      simp only [uncovered, not_forall, not_not] at hu
      obtain ⟨s, h2, h3⟩ := hu
      obtain ⟨b, hb⟩ := hs s h2
      exact ⟨s.setGridmaker g, List.mem_map_of_mem h2, Or.inl ((pixel_inside s g hR hb p).mpr h3)⟩
  · refine Finset.sum_congr rfl fun p _ => ?_
    by_cases hu : uncovered spots R (g.lat p) (g.lon p)
    · rw [if_pos hu, if_neg]
      rintro ⟨t, ht, h2⟩
      obtain ⟨s, h3, rfl⟩ := List.mem_map.mp ht
      obtain ⟨b, hb⟩ := hs s h3
      obtain ⟨q, hq, hq1⟩ := hn s h3
      have h4 : inSpot s g R p := by
        rcases h2 with h2 | h2
        · exact h2
        · exact (C18_membership s g R b q hR hb hq (by linarith) p).2.2.2 hq1 h2
      exact hu s h3 ((pixel_inside s g hR hb p).mp h4)
    · rw [if_neg hu, if_pos]
      simp only [uncovered, not_forall, not_not] at hu
      obtain ⟨s, h2, h3⟩ := hu
      obtain ⟨b, hb⟩ := hs s h2
      exact ⟨s.setGridmaker g, List.mem_map_of_mem h2, Or.inl ((pixel_inside s g hR hb p).mpr h3)⟩

/-- The mean share of the pixels covered by a random set. -/
theorem pixelShare_mean {Ω : Type*} [MeasurableSpace Ω] (P : Measure Ω) [IsProbabilityMeasure P] (g : Grid) (a : g.Pix → ℝ)
    (h1 : ∑ p, a p = 1) (A : Ω → ℝ → ℝ → Prop) (hA : ∀ φ l, MeasurableSet {ω | A ω φ l}) (q : ℝ) (hq : 0 ≤ q)
    (hP : ∀ φ l, P {ω | A ω φ l} = ENNReal.ofReal q) :
    Integrable (fun ω => pixelShare (A ω) g a) P ∧ ∫ ω, pixelShare (A ω) g a ∂P = 1 - q := by
  classical
  have hi : ∀ p : g.Pix, Integrable (fun ω => if A ω (g.lat p) (g.lon p) then 0 else a p) P := fun p =>
    Integrable.of_bound (Measurable.ite (hA _ _) measurable_const measurable_const).aestronglyMeasurable |a p|
      (Filter.Eventually.of_forall fun ω => by split_ifs <;> simp)
  have hI : ∀ p : g.Pix, ∫ ω, (if A ω (g.lat p) (g.lon p) then 0 else a p) ∂P = a p * (1 - q) := by
    intro p
    have e : (fun ω => if A ω (g.lat p) (g.lon p) then 0 else a p) = {ω | A ω (g.lat p) (g.lon p)}ᶜ.indicator fun _ => a p := by
      funext ω
      by_cases h : A ω (g.lat p) (g.lon p) <;> simp [h]
    rw [e, integral_indicator_const _ (hA _ _).compl, probReal_compl_eq_one_sub (hA _ _), measureReal_def, hP, ENNReal.toReal_ofReal hq,
      smul_eq_mul, mul_comm]
  unfold pixelShare
  refine ⟨integrable_finsetSum _ fun p _ => hi p, ?_⟩
  rw [integral_finsetSum _ fun p _ => hi p]
  simp only [hI]
  rw [← Finset.sum_mul, h1, one_mul]

theorem mean_coverage {Ω : Type*} [MeasurableSpace Ω] (P : Measure Ω) [IsProbabilityMeasure P] (l : Ω → List StarSpot) (g : Grid) (hg : goodGrid g)
    {R : ℝ} (hR : 0 < R) (hs : ∀ᵐ ω ∂P, ∀ s ∈ l ω, ∃ b, s.area = .fin b) (A : Ω → ℝ → ℝ → Prop) (hAl : ∀ᵐ ω ∂P, uncovered (l ω) R = A ω)
    (hA : ∀ φ l, MeasurableSet {ω | A ω φ l}) (q : ℝ) (hq : 0 ≤ q) (hP : ∀ φ l, P {ω | A ω φ l} = ENNReal.ofReal q) :
    MeanCoverage P l g R (1 - q) := by
  classical
  obtain ⟨a, ha, h0, h1, -⟩ := C02_area_partition g hg
  have hex : ∀ ω, ∃ v : ℝ, (∀ s ∈ l ω, ∃ b, s.area = .fin b) → (SpotCollection.new (l ω) g).coverage R = .ok (.fin v) ∧ (0 ≤ v ∧ v ≤ 1) ∧
      pixelShare (uncovered (l ω) R) g a ≤ v ∧ (Nested (l ω) → v = pixelShare (uncovered (l ω) R) g a) := by
    intro ω
    by_cases h : ∀ s ∈ l ω, ∃ b, s.area = .fin b
    · obtain ⟨v, hv⟩ := grid_coverage (l ω) g hg hR h a ha h0 h1
      exact ⟨v, fun _ => hv⟩
    · exact ⟨0, fun h' => absurd h' h⟩
  choose v hv using hex
  obtain ⟨m1, m2⟩ := pixelShare_mean P g a h1 A hA q hq hP
  refine ⟨v, ?_, ?_, fun hn => ?_⟩
  · filter_upwards [hs] with ω hω
    exact ⟨(hv ω hω).1, (hv ω hω).2.1⟩
  · have hnn : 0 ≤ᵐ[P] fun ω => pixelShare (A ω) g a := Filter.Eventually.of_forall fun ω => Finset.sum_nonneg fun p _ => by
      split_ifs <;> [exact le_rfl; exact h0 p]
    rw [← m2, ofReal_integral_eq_lintegral_ofReal m1 hnn]
    refine lintegral_mono_ae ?_
    filter_upwards [hs, hAl] with ω hω hω'
    rw [← hω']
    exact ENNReal.ofReal_le_ofReal (hv ω hω).2.2.1
  · rw [← m2]
    refine integral_congr_ae ?_
    filter_upwards [hs, hAl, hn] with ω hω hω' hωn
    rw [(hv ω hω).2.2.2 hωn, hω']

theorem batch_coverage {Ω : Type*} [MeasurableSpace Ω] (P : Measure Ω) [IsProbabilityMeasure P] (l : Ω → List StarSpot) (g : Grid) (hg : goodGrid g)
    {R : ℝ} (hR : 0 < R) (hs : ∀ᵐ ω ∂P, ∀ s ∈ l ω, ∃ b, s.area = .fin b) (n : ℕ) (y : Ω → Fin n → (ℝ × ℝ) × ℝ) (hm : Measurable y)
    (hl : P.map y = Measure.pi fun _ => drawLaw) (α : ℝ → ℝ) (hα : Measurable α) (hα0 : ∀ z, 0 ≤ α z)
    (hu : ∀ᵐ ω ∂P, uncovered (l ω) R = fun φ ψ => ∀ i, spares R α (y ω i) φ ψ) :
    MeanCoverage P l g R (1 - (1 - ∫ z, capShare R (α z) ∂gaussianReal 0 1) ^ n) := by
  have hc := capShare_mean hR α hα
  have hB : ∀ φ ψ, MeasurableSet {y : (ℝ × ℝ) × ℝ | spares R α y φ ψ} := fun φ ψ => (inCap_measurable R φ ψ α hα).compl
  refine mean_coverage P l g hg hR hs _ hu (fun φ ψ => ?_) _ (pow_nonneg (by linarith) n) fun φ ψ => ?_
  · have : {ω | ∀ i, spares R α (y ω i) φ ψ} = ⋂ i, (fun ω => y ω i) ⁻¹' {y | spares R α y φ ψ} := by ext ω; simp
    rw [this]
    exact MeasurableSet.iInter fun i => ((measurable_pi_apply i).comp hm) (hB φ ψ)
  · rw [show {ω | ∀ i, spares R α (y ω i) φ ψ} = {ω | ∀ i, y ω i ∈ {y | spares R α y φ ψ}} from rfl, all_chance P n y hm hl _ (hB φ ψ),
      ENNReal.ofReal_pow (by linarith), ← spare_chance hR φ ψ α hα hα0]
    rfl

theorem run_coverage {Ω : Type*} [MeasurableSpace Ω] (P : Measure Ω) [IsProbabilityMeasure P] (l : Ω → List StarSpot) (g : Grid) (hg : goodGrid g)
    {R : ℝ} (hR : 0 < R) (hs : ∀ᵐ ω ∂P, ∀ s ∈ l ω, ∃ b, s.area = .fin b) (x : ℝ) (hx : 0 ≤ x) (K : ℕ → Ω → ℕ)
    (y : ℕ → (n : ℕ) → Ω → Fin n → (ℝ × ℝ) × ℝ) (hF : FairSpots P x K y) (N : ℕ) (α : ℕ → ℝ → ℝ) (hα : ∀ j, Measurable (α j)) (hα0 : ∀ j z, 0 ≤ α j z)
    (hu : ∀ᵐ ω ∂P, uncovered (l ω) R = fun φ ψ => ∀ j < N, ∀ i, spares R (α j) (y j (K j ω) ω i) φ ψ) :
    MeanCoverage P l g R (1 - exp (-(x * ∑ j ∈ Finset.range N, ∫ z, capShare R (α j z) ∂gaussianReal 0 1))) := by
  have hB : ∀ j φ ψ, MeasurableSet {y : (ℝ × ℝ) × ℝ | spares R (α j) y φ ψ} := fun j φ ψ => (inCap_measurable R φ ψ (α j) (hα j)).compl
  refine mean_coverage P l g hg hR hs _ hu (fun φ ψ => ?_) _ (exp_pos _).le fun φ ψ => ?_
  · have : {ω | ∀ j < N, ∀ i, spares R (α j) (y j (K j ω) ω i) φ ψ} =
        ⋂ j, ⋂ (_ : j < N), ⋃ n, ({ω | K j ω = n} ∩ ⋂ i, (fun ω => y j n ω i) ⁻¹' {y | spares R (α j) y φ ψ}) := by
      ext w
      simp only [mem_ofPred_eq, mem_iUnion, mem_inter_iff, mem_iInter, mem_preimage]
      constructor
      · intro h j hj; exact ⟨_, rfl, h j hj⟩
      · intro h j hj
        obtain ⟨n, rfl, h'⟩ := h j hj
        exact h'
    rw [this]
    refine MeasurableSet.iInter fun j => MeasurableSet.iInter fun _ => MeasurableSet.iUnion fun n => MeasurableSet.inter ?_ ?_
    · exact hF.count_measurable j (measurableSet_singleton n)
    · exact MeasurableSet.iInter fun i => ((measurable_pi_apply i).comp (hF.measurable j n)) (hB j φ ψ)
  · exact run_chance P x hx K y hF N (fun j => {y | ¬ inCap R (α j y.2) (arcsin (2 * y.1.1 - 1)) (2 * π * y.1.2) φ ψ})
      (fun j => (inCap_measurable R φ ψ (α j) (hα j)).compl) _ (fun j => (capShare_mean hR (α j) (hα j)).2)
      (fun j => spare_chance hR φ ψ (α j) (hα j) (hα0 j))

/-- **C176** The coverage that `get_coverage` measures is on average exact, however coarse the grid.  When `n` spots of the initial area `A₀` are
generated at independent places, uniformly distributed over the sphere, and all umbrae are parts of their spots, then on every grid the mean of
the measured coverage is exactly `1 − (1 − A₀/(4πR²))^n`, the mean share of the surface that the spots cover; for the spots born in a time with
the expected number `x` of births it is `1 − exp(−x·A₀/(4πR²))`.  If some umbra is larger than its spot, the mean is at least that. -/
theorem C176_newborn {Ω : Type*} [MeasurableSpace Ω] (P : Measure Ω) [IsProbabilityMeasure P] (G : SpotGenerator)
    (hiso : G.distribution = .iso) (R : ℝ) (hR : 0 < R) (h0 : 0 ≤ G.initArea) (h1 : G.initArea ≤ 4 * π * R ^ 2) (g : Grid) (hg : goodGrid g) :
    (∀ (n : ℕ) (D : Ω → SpotDraws n) (l : Ω → List StarSpot),
      Measurable (fun ω i => ((((D ω).uLat i : ℝ), ((D ω).uLon i : ℝ)), (D ω).z i)) →
      P.map (fun ω i => ((((D ω).uLat i : ℝ), ((D ω).uLon i : ℝ)), (D ω).z i)) = Measure.pi (fun _ => drawLaw) →
      (∀ᵐ ω ∂P, G.generate n (D ω) = .ok (l ω)) →
      MeanCoverage P l g R (1 - (1 - G.initArea / (4 * π * R ^ 2)) ^ n)) ∧
    (∀ (t x : ℝ) (K : ℕ → Ω → ℕ) (D : ℕ → Ω → (n : ℕ) → SpotDraws n) (l : Ω → List StarSpot), 0 ≤ x → G.nExpected t R = .fin x →
      FairSpots P x K (fun j n ω i => ((((D j ω n).uLat i : ℝ), ((D j ω n).uLon i : ℝ)), (D j ω n).z i)) →
      (∀ᵐ ω ∂P, G.birth t R (K 0 ω) (D 0 ω) = .ok (l ω)) →
      MeanCoverage P l g R (1 - exp (-(x * (G.initArea / (4 * π * R ^ 2)))))) := by
  have hshare : ∫ _, capShare R G.initArea ∂gaussianReal 0 1 = G.initArea / (4 * π * R ^ 2) := by
    rw [integral_const, probReal_univ, one_smul]; exact if_pos ⟨h0, h1⟩
  refine ⟨fun n D l hm hlaw hl => ?_, fun t x K D l hx hn hF hl => ?_⟩
  · rw [← hshare]
    refine batch_coverage P l g hg hR ?_ n _ hm hlaw (fun _ => G.initArea) measurable_const (fun _ => h0) ?_
    · filter_upwards [hl] with ω hω s hs
      exact ⟨_, (((C27_generate G n _).2.2 _ hω).2.1 s hs).area⟩
    · filter_upwards [hl] with ω hω
      exact generated_uncovered G hiso hR n (D ω) (l ω) hω
  · have hpo := poisson_ok P x hx (K 0) (hF.count_measurable 0) (hF.count 0)
    have hl' : ∀ᵐ ω ∂P, G.generate (K 0 ω) (D 0 ω (K 0 ω)) = .ok (l ω) := by
      filter_upwards [hl, hpo] with ω hω hpω
      unfold SpotGenerator.birth at hω
      rw [hn, hpω] at hω
      exact hω
    have h := run_coverage P l g hg hR (by
      filter_upwards [hl'] with ω hω s hs
      exact ⟨_, (((C27_generate G _ _).2.2 _ hω).2.1 s hs).area⟩) x hx K _ hF 1 (fun _ _ => G.initArea) (fun _ => measurable_const) (fun _ _ => h0) (by
      filter_upwards [hl'] with ω hω
      rw [generated_uncovered G hiso hR _ (D 0 ω (K 0 ω)) (l ω) hω]
      funext φ ψ
      refine propext ⟨fun h j hj => ?_, fun h => h 0 (by norm_num)⟩
      obtain rfl : j = 0 := by omega
      exact h)
    rw [Finset.sum_range_one, hshare] at h
    exact h

/-- **C176** (settled star) A star without spots goes through `N` steps of length `dt`, in each of which spots are born for the time `dt`, at
independent places uniformly distributed over the sphere, and the star ages by `dt`.  On every grid the mean of the coverage that `get_coverage`
then measures is exactly `1 − exp(−c)` if all umbrae are parts of their spots, and at least that in any case, where `c` is the mean of the summed
shares of the surface that the spots cover.  With umbrae inside their spots it is thus at most `A/(4πR²)`, where `A` is the mean total area. -/
theorem C176_settled {Ω : Type*} [MeasurableSpace Ω] (P : Measure Ω) [IsProbabilityMeasure P] (s₀ : Star) (hg : GoodGens s₀) (h₀ : SoundStar s₀)
    (hs : s₀.spots.spots = []) (hmean : s₀.spotGen.initArea ≤ s₀.spotGen.distAreaMean) (hgr : 0 < s₀.spotGen.growthRate)
    (hdec : 0 < s₀.spotGen.decayRate) (hσ : 0 ≤ s₀.spotGen.distAreaLogsigma) (hdist : s₀.spotGen.distribution = .iso)
    (hc : 0 ≤ s₀.spotGen.coverage) (hR : 0 < s₀.radius) (dt : ℝ) (hd : 0 < dt) (N : ℕ) :
    ∃ x : ℝ, s₀.spotGen.nExpected dt s₀.radius = .fin x ∧
      ∀ (K : ℕ → Ω → ℕ) (D : ℕ → Ω → (n : ℕ) → SpotDraws n),
      FairSpots P x K (fun j n ω i => ((((D j ω n).uLat i : ℝ), ((D j ω n).uLon i : ℝ)), (D j ω n).z i)) →
      (∀ᵐ ω ∂P, ∀ j n, ∃ k, ∀ i, 0 < (D j ω n).ratios k i) →
      ∃ (S : Ω → Star) (c : ℝ), 0 ≤ c ∧
        (∀ᵐ ω ∂P, ((List.range N).flatMap fun j => [Op.birthSpots dt (K j ω) (D j ω), Op.age dt]).foldlM runOp s₀ = .ok (S ω)) ∧
        ∫⁻ ω, (((S ω).spots.spots.map fun s => ENNReal.ofReal (capShare s₀.radius (spotAreaNow s))).sum) ∂P = ENNReal.ofReal c ∧
        (∀ g : Grid, goodGrid g → MeanCoverage P (fun ω => (S ω).spots.spots) g s₀.radius (1 - exp (-c))) ∧
        ∀ A : ℝ, 0 ≤ A → ∫⁻ ω, (((S ω).spots.spots.map fun s => ENNReal.ofReal (spotAreaNow s)).sum) ∂P = ENNReal.ofReal A →
          1 - exp (-c) ≤ A / (4 * π * s₀.radius ^ 2) := by
  obtain ⟨x', b3', hrun'⟩ := C123_settled_light P s₀ hg h₀ hs hmean hgr hdec hσ hdist hc hR dt hd N
  obtain ⟨x, b3, hx0, hrun⟩ := settled_run P s₀ hg h₀ hs hmean hgr hdec hσ hdist hc hR dt hd N
  obtain rfl : x = x' := by rw [b3] at b3'; exact Fl.fin_inj.mp b3'
  refine ⟨x, b3, fun K D hF hacc => ?_⟩
  obtain ⟨S', c, hc0, hS', hshare, hlight, hA⟩ := hrun' K D hF hacc
  obtain ⟨S, hS, hsum, hunc⟩ := hrun K D hF hacc
  have hSS : ∀ᵐ ω ∂P, S' ω = S ω := by
    filter_upwards [hS, hS'] with ω w1 w2
    rw [w1] at w2; exact (Except.ok.inj w2).symm
  have h1 : 0 < s₀.spotGen.initArea := hg.init
  have h2 : 0 < s₀.spotGen.distAreaMean := hg.mean
  refine ⟨S', c, hc0, hS', hshare, fun g hgd => ?_, fun A h3 h4 => ?_⟩
  · have hareas : ∀ᵐ ω ∂P, ∀ s ∈ (S' ω).spots.spots, ∃ b, s.area = .fin b := by
      filter_upwards [hS'] with ω hω s hsp
      have hop : ∀ op ∈ ((List.range N).flatMap fun j => [Op.birthSpots dt (K j ω) (D j ω), Op.age dt]), Sane op := by
        intro op hop
        obtain ⟨j, -, hj⟩ := List.mem_flatMap.mp hop
        simp only [List.mem_cons, List.not_mem_nil, or_false] at hj
        rcases hj with rfl | rfl
        · trivial
        · exact hd.le
      obtain ⟨b, hb, -⟩ := (C78_sound s₀ (S' ω) _ hg h₀ hop hω).1.1 s hsp
      exact ⟨b, hb⟩
    have key := run_coverage P (fun ω => (S' ω).spots.spots) g hgd hR hareas x hx0 K _ hF N
      (fun j z => spotAreaAt s₀.spotGen.initArea (peakOf s₀.spotGen.distAreaMean s₀.spotGen.distAreaLogsigma z) s₀.spotGen.growthRate
        s₀.spotGen.decayRate ((N - j : ℕ) * dt))
      (fun j => spotAreaAt_measurable h1 h2 _) (fun j z => (spotArea_mem h1 (peak_pos h2 z) hgr hdec _).1) (by
        filter_upwards [hunc, hSS] with ω hω hω'
        rw [hω', hω])
    have hl := run_light P (u1 := 0) (u2 := 0) ⟨by norm_num, by norm_num, by norm_num⟩ 0 0 hR x hx0 K _ hF N
      (fun j z => spotAreaAt s₀.spotGen.initArea (peakOf s₀.spotGen.distAreaMean s₀.spotGen.distAreaLogsigma z) s₀.spotGen.growthRate
        s₀.spotGen.decayRate ((N - j : ℕ) * dt))
      (fun j => spotAreaAt_measurable h1 h2 _) (fun j z => (spotArea_mem h1 (peak_pos h2 z) hgr hdec _).1)
    have hl2 := hlight 0 0 0 0 ⟨by norm_num, by norm_num, by norm_num⟩
    have e := (integral_congr_ae (μ := P) (by
      filter_upwards [hunc, hSS] with ω hω hω'
      rw [hω', hω])).symm.trans hl2
    rw [← e, hl]
    exact key
  · have := hA A h3 h4
    have h5 := add_one_le_exp (-c)
    linarith

/-! ### Example -/

theorem generated_nested (G : SpotGenerator) (n : ℕ) (d : SpotDraws n) (l : List StarSpot) (h : G.generate n d = .ok l)
    (hd : ∀ k i, 1 ≤ d.ratios k i) : Nested l := by
  unfold SpotGenerator.generate at h
  by_cases h1 : G.distAreaLogsigma < 0
  · rw [if_pos h1] at h; cases h
  rw [if_neg h1] at h
  cases ha : SpotGenerator.acceptRatios d with
  | none => rw [ha] at h; cases h
  | some q =>
    rw [ha] at h
    simp only at h
    split_ifs at h with h2
    simp only [Except.ok.injEq] at h
    subst h
    have hq : ∀ i, 1 ≤ q i := by
      unfold SpotGenerator.acceptRatios at ha
      split_ifs at ha with he
      rw [Option.some_inj] at ha
      intro i
      rw [← ha]
      exact hd _ i
    intro s hs
    obtain ⟨i, rfl⟩ := (List.mem_ofFn' _ _).mp hs
    exact ⟨q i, rfl, hq i⟩

/-- Non-trivial instance of C176: a hundred spots that cover a thousandth of the star each.  On a grid of only twelve pixels the mean of the
measured coverage is exactly `1 − 0.999^100`. -/
example : ∃ (l : (ℕ → ℕ × ((n : ℕ) → Fin n → (ℝ × ℝ) × ℝ)) → List StarSpot) (v : (ℕ → ℕ × ((n : ℕ) → Fin n → (ℝ × ℝ) × ℝ)) → ℝ),
    (∀ ω, (l ω).length = 100) ∧ (∀ᵐ ω ∂spotSpace 1, (SpotCollection.new (l ω) (.rect 3 4)).coverage 1000 = .ok (.fin (v ω))) ∧
    ∫ ω, v ω ∂spotSpace 1 = 1 - 0.999 ^ 100 := by
  have hp := pi_pos
  have hok : ∀ ω : ℕ → ℕ × ((n : ℕ) → Fin n → (ℝ × ℝ) × ℝ), ∃ l, lightGen.generate 100 (spaceDraws (ω 0).2 100) = .ok l := fun ω =>
    (C27_generate lightGen 100 _).1 (by norm_num [lightGen]) (by simp [lightGen, SpotGenerator.off]) ⟨0, fun i => by norm_num [SpotDraws.ratios, spaceDraws]⟩
  choose l hl using hok
  have hF := spotSpace_fair 1
  obtain ⟨v, h1, -, h3⟩ := (C176_newborn (spotSpace 1) lightGen rfl 1000 (by norm_num) (by simp only [lightGen]; positivity)
    (by simp only [lightGen]; nlinarith) (.rect 3 4) ⟨by norm_num, by norm_num⟩).1 100 (fun ω => spaceDraws (ω 0).2 100) l (hF.measurable 0 100)
    (hF.law 0 100) (Filter.Eventually.of_forall hl)
  refine ⟨l, v, fun ω => ((C27_generate lightGen 100 _).2.2 _ (hl ω)).1, h1.mono fun ω h => h.1, ?_⟩
  rw [h3 (Filter.Eventually.of_forall fun ω => generated_nested _ _ _ _ (hl ω) fun k i => by norm_num [SpotDraws.ratios, spaceDraws])]
  simp only [lightGen]
  have : 1 - 4000 * π / (4 * π * 1000 ^ 2) = 0.999 := by field_simp; norm_num
  rw [this]

end Vsm
