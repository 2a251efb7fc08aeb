import Verif.Props.SpotSteady
import Verif.Props.FaculaAccuracy2
import Mathlib.MeasureTheory.Constructions.Pi
import Mathlib.Probability.Independence.InfinitePi

/-!
# C122, C123: the light that randomly placed spots leave
-/

noncomputable section

namespace Vsm

open Real MeasureTheory ProbabilityTheory Set Np
open scoped ENNReal

/-! ### Specification -/

/-- No spot of the list covers the point. -/
def Spec.uncovered (spots : List StarSpot) (R φ l : ℝ) : Prop := ∀ s ∈ spots, ¬ Spec.insideSpot s R φ l

/-- Share of the surface of a star of radius `R` that a cap of area `a` covers; areas that fit on no star cover nothing. -/
def Spec.capShare (R a : ℝ) : ℝ := if 0 ≤ a ∧ a ≤ 4 * π * R ^ 2 then a / (4 * π * R ^ 2) else 0

open Spec

theorem capShare_mem {R a : ℝ} (hR : 0 < R) : 0 ≤ capShare R a ∧ capShare R a ≤ 1 := by
  have hp := pi_pos
  unfold capShare
  split_ifs with h
  · exact ⟨div_nonneg h.1 (by positivity), (div_le_one (by positivity)).mpr h.2⟩
  · norm_num

theorem capShare_measurable (R : ℝ) : Measurable (capShare R) := by
  unfold capShare
  exact Measurable.ite ((measurableSet_le measurable_const measurable_id).inter (measurableSet_le measurable_id measurable_const))
    (by fun_prop) measurable_const

/-! ### The mean of the light from a random set -/

theorem mean_light {Ω : Type*} [MeasurableSpace Ω] (P : Measure Ω) [IsProbabilityMeasure P] {u1 u2 : ℝ} (hld : PhysicalLD u1 u2) (lat0 lon0 : ℝ)
    (A : Ω → ℝ → ℝ → Prop) (hA : MeasurableSet {y : Ω × ℝ × ℝ | A y.1 y.2.2 y.2.1}) (hper : ∀ ω φ l, A ω φ (l + 2 * π) ↔ A ω φ l)
    (q : ℝ) (hq : 0 ≤ q) (hP : ∀ φ l, P {ω | A ω φ l} = ENNReal.ofReal q) :
    ∫ ω, lightShare u1 u2 lat0 lon0 (A ω) ∂P = q := by
  classical
  have hp := pi_pos
  have hIm : Measurable fun x : ℝ × ℝ => intensity u1 u2 lat0 lon0 x.2 x.1 := by
    have hg := greatCircle_measurable lat0 lon0
    unfold intensity quadraticLaw
    fun_prop
  have hI0 : ∀ φ l, 0 ≤ intensity u1 u2 lat0 lon0 φ l ∧ intensity u1 u2 lat0 lon0 φ l ≤ 1 := fun φ l => by
    rw [intensity_eq]; exact lightAt_range hld (cos_le_one _)
  have hIper : ∀ φ l, intensity u1 u2 lat0 lon0 φ (l + 2 * π) = intensity u1 u2 lat0 lon0 φ l := fun φ l => by
    unfold intensity; rw [greatCircle_periodic]
  set F : Ω → ℝ × ℝ → ℝ := fun ω x => if A ω x.2 x.1 then intensity u1 u2 lat0 lon0 x.2 x.1 else 0 with hF
  have hFm : Measurable (Function.uncurry F) := by
    refine Measurable.ite hA ?_ measurable_const
    exact hIm.comp measurable_snd
  have hFb : ∀ ω x, |F ω x| ≤ 1 := by
    intro ω x
    simp only [hF]
    split_ifs
    · rw [abs_of_nonneg (hI0 _ _).1]; exact (hI0 _ _).2
    · simp
  have hFi : ∀ ω, Integrable (F ω) (sphM 0) := fun ω =>
    sphM_integrable 0 _ (hFm.comp measurable_prodMk_left) 1 (hFb ω)
  have h1 : ∀ ω, lightShare u1 u2 lat0 lon0 (A ω) = (∫ x, F ω x ∂sphM 0) / sphereInt (intensity u1 u2 lat0 lon0) := by
    intro ω
    unfold lightShare
    rw [← sphM_sphereInt 0 (fun φ l => if A ω φ l then intensity u1 u2 lat0 lon0 φ l else 0) (hFi ω)]
    intro φ l
    simp only [hper, hIper]
  have hT := (intensity_total hld lat0 lon0).2
  have hT0 : sphereInt (intensity u1 u2 lat0 lon0) ≠ 0 := by
    have : 0 < π / 2 := by positivity
    linarith
  simp only [h1]
  rw [integral_div, integral_integral_swap]
  · have h2 : ∀ x : ℝ × ℝ, ∫ ω, F ω x ∂P = q * intensity u1 u2 lat0 lon0 x.2 x.1 := by
      intro x
      have hS : MeasurableSet {ω | A ω x.2 x.1} := measurable_prodMk_right (y := x) hA
      have : (fun ω => F ω x) = {ω | A ω x.2 x.1}.indicator fun _ => intensity u1 u2 lat0 lon0 x.2 x.1 := by
        funext ω
        simp only [hF, indicator, mem_ofPred_eq]
      rw [this, integral_indicator_const _ hS, measureReal_def, hP, ENNReal.toReal_ofReal hq, smul_eq_mul]
    simp only [h2]
    rw [integral_const_mul, sphM_sphereInt 0 (intensity u1 u2 lat0 lon0) (sphM_integrable 0 _ hIm 1 fun x => by
      rw [abs_of_nonneg (hI0 _ _).1]; exact (hI0 _ _).2) hIper]
    field_simp
  · exact Integrable.of_bound hFm.aestronglyMeasurable 1 (Filter.Eventually.of_forall fun y => hFb y.1 y.2)

/-! ### One spot at a random place -/

/-- The law of the draws for one spot: the place, and the normal draw for its size. -/
def Spec.drawLaw : Measure ((ℝ × ℝ) × ℝ) := (volume.restrict (Ico 0 1 ×ˢ Ico 0 1)).prod (gaussianReal 0 1)

instance : IsProbabilityMeasure (volume.restrict (Ico (0 : ℝ) 1 ×ˢ Ico (0 : ℝ) 1)) := by
  refine ⟨?_⟩
  rw [Measure.restrict_apply_univ, Measure.volume_eq_prod, Measure.prod_prod]
  simp

instance : IsProbabilityMeasure drawLaw := by unfold drawLaw; infer_instance

theorem cosDist_symm (a b c d : ℝ) : cosDist a b c d = cosDist c d a b := real_inner_comm _ _

theorem cosDist_mem (a b c d : ℝ) : -1 ≤ cosDist a b c d ∧ cosDist a b c d ≤ 1 := by
  rw [← cos_greatCircle]; exact ⟨neg_one_le_cos _, cos_le_one _⟩

/-- A cap of area `a` around `(φ₀, l₀)` contains `(φ, l)`. -/
def inCap (R a φ₀ l₀ φ l : ℝ) : Prop := a ≤ 4 * π * R ^ 2 ∧ 1 - a / (2 * π * R ^ 2) < cosDist φ₀ l₀ φ l

theorem insideSpot_cap {s : StarSpot} {R : ℝ} (hR : 0 < R) (φ l : ℝ) :
    insideSpot s R φ l ↔ ∃ a, s.area = .fin a ∧ inCap R a s.lat s.lon φ l := by
  have hp := pi_pos
  have hR2 : 0 < 2 * π * R ^ 2 := by positivity
  unfold insideSpot inCap
  constructor
  · rintro ⟨a, θ, h1, h2, h3, h4⟩
    have hc : 1 - a / (2 * π * R ^ 2) = cos θ := by rw [← h3, capArea]; field_simp; ring
    refine ⟨a, h1, ?_, ?_⟩
    · rw [← h3, capArea]; nlinarith [neg_one_le_cos θ]
    · rw [hc, ← cos_greatCircle]
      exact cos_lt_cos_of_nonneg_of_le_pi (greatCircle_nonneg _ _ _ _) h2.2 h4
  · rintro ⟨a, h1, h2, h3⟩
    have h4 := (cosDist_mem s.lat s.lon φ l).2
    have ha0 : 0 < a / (2 * π * R ^ 2) := by linarith
    have ha1 : a / (2 * π * R ^ 2) ≤ 2 := by rw [div_le_iff₀ hR2]; linarith
    refine ⟨a, arccos (1 - a / (2 * π * R ^ 2)), h1, ⟨arccos_nonneg _, arccos_le_pi _⟩, ?_, ?_⟩
    · rw [capArea, cos_arccos (by linarith) (by linarith)]; field_simp; ring
    · by_contra hlt
      push Not at hlt
      have := cos_le_cos_of_nonneg_of_le_pi (arccos_nonneg _) (InnerProductGeometry.angle_le_pi _ _) hlt
      rw [cos_arccos (by linarith) (by linarith), ← greatCircle, cos_greatCircle] at this
      linarith

theorem inCap_measurable (R φ l : ℝ) (α : ℝ → ℝ) (hα : Measurable α) :
    MeasurableSet {y : (ℝ × ℝ) × ℝ | inCap R (α y.2) (arcsin (2 * y.1.1 - 1)) (2 * π * y.1.2) φ l} := by
  have hcm : Measurable fun y : (ℝ × ℝ) × ℝ => cosDist (arcsin (2 * y.1.1 - 1)) (2 * π * y.1.2) φ l := by
    simp only [cosDist, inner_unitVec]; fun_prop
  exact (measurableSet_le (hα.comp measurable_snd) measurable_const).inter (measurableSet_lt (by fun_prop) hcm)

/-- The probability that a spot at a random place covers a given point is the mean of the share of the surface it covers. -/
theorem cover_chance {R : ℝ} (hR : 0 < R) (φ l : ℝ) (α : ℝ → ℝ) (hα : Measurable α) (hα0 : ∀ z, 0 ≤ α z) :
    drawLaw {y | inCap R (α y.2) (arcsin (2 * y.1.1 - 1)) (2 * π * y.1.2) φ l} =
      ENNReal.ofReal (∫ z, capShare R (α z) ∂gaussianReal 0 1) := by
  have hp := pi_pos
  have hR2 : 0 < 2 * π * R ^ 2 := by positivity
  rw [drawLaw, Measure.prod_apply_symm (inCap_measurable R φ l α hα), ofReal_integral_eq_lintegral_ofReal]
  · refine lintegral_congr fun z => ?_
    have hA : MeasurableSet {p : ℝ × ℝ | 1 - α z / (2 * π * R ^ 2) < cosDist φ l p.1 p.2} := by
      have : Measurable fun p : ℝ × ℝ => cosDist φ l p.1 p.2 := by simp only [cosDist, inner_unitVec]; fun_prop
      exact measurableSet_lt measurable_const this
    have hpre : (fun x : ℝ × ℝ => (x, z)) ⁻¹' {y : (ℝ × ℝ) × ℝ | inCap R (α y.2) (arcsin (2 * y.1.1 - 1)) (2 * π * y.1.2) φ l} =
        {x | inCap R (α z) (arcsin (2 * x.1 - 1)) (2 * π * x.2) φ l} := rfl
    rw [hpre]
    by_cases ha : α z ≤ 4 * π * R ^ 2
    · have e : {x : ℝ × ℝ | inCap R (α z) (arcsin (2 * x.1 - 1)) (2 * π * x.2) φ l} =
          {x | (arcsin (2 * x.1 - 1), 2 * π * x.2) ∈ {p : ℝ × ℝ | 1 - α z / (2 * π * R ^ 2) < cosDist φ l p.1 p.2}} := by
        ext x
        simp only [inCap, mem_ofPred_eq, ha, true_and]
        rw [cosDist_symm]
      rw [e, Measure.restrict_apply (place_measurable _ hA)]
      have h2 := square_sphere _ hA
      have h3 : 0 ≤ α z / (2 * π * R ^ 2) := div_nonneg (hα0 z) hR2.le
      have h4 : α z / (2 * π * R ^ 2) ≤ 2 := by rw [div_le_iff₀ hR2]; linarith
      rw [cap_share φ l _ (by linarith) (by linarith)] at h2
      rw [capShare, if_pos ⟨hα0 z, ha⟩]
      refine Eq.trans ?_ (h2.trans ?_)
      · congr 1
        ext x
        simp only [Spec.square, mem_inter_iff, mem_ofPred_eq, and_comm]
      · congr 1
        field_simp
        ring
    · have e : {x : ℝ × ℝ | inCap R (α z) (arcsin (2 * x.1 - 1)) (2 * π * x.2) φ l} = ∅ := by
        ext x
        simp [inCap, ha]
      rw [e, measure_empty, capShare, if_neg fun h => ha h.2, ENNReal.ofReal_zero]
  · exact Integrable.of_bound ((capShare_measurable R).comp hα).aestronglyMeasurable 1
      (Filter.Eventually.of_forall fun z => by
        rw [norm_eq_abs]
        rw [abs_of_nonneg (capShare_mem hR).1]; exact (capShare_mem hR).2)
  · exact Filter.Eventually.of_forall fun z => (capShare_mem hR).1

theorem capShare_mean {R : ℝ} (hR : 0 < R) (α : ℝ → ℝ) (hα : Measurable α) :
    0 ≤ ∫ z, capShare R (α z) ∂gaussianReal 0 1 ∧ ∫ z, capShare R (α z) ∂gaussianReal 0 1 ≤ 1 := by
  refine ⟨integral_nonneg fun z => (capShare_mem hR).1, ?_⟩
  have hi : Integrable (fun z => capShare R (α z)) (gaussianReal 0 1) :=
    Integrable.of_bound ((capShare_measurable R).comp hα).aestronglyMeasurable 1
      (Filter.Eventually.of_forall fun z => by
        rw [norm_eq_abs]
        rw [abs_of_nonneg (capShare_mem hR).1]; exact (capShare_mem hR).2)
  refine (integral_mono hi (integrable_const 1) fun z => (capShare_mem hR).2).trans ?_
  simp

theorem spare_chance {R : ℝ} (hR : 0 < R) (φ l : ℝ) (α : ℝ → ℝ) (hα : Measurable α) (hα0 : ∀ z, 0 ≤ α z) :
    drawLaw {y | ¬ inCap R (α y.2) (arcsin (2 * y.1.1 - 1)) (2 * π * y.1.2) φ l} =
      ENNReal.ofReal (1 - ∫ z, capShare R (α z) ∂gaussianReal 0 1) := by
  have h := prob_compl_eq_one_sub (μ := drawLaw) (inCap_measurable R φ l α hα)
  rw [cover_chance hR φ l α hα hα0] at h
  rw [ENNReal.ofReal_sub _ (capShare_mean hR α hα).1, ENNReal.ofReal_one]
  exact h

/-! ### A batch of spots -/

/-- All of `n` independent draws fall into a set. -/
theorem all_chance {Ω : Type*} [MeasurableSpace Ω] (P : Measure Ω) (n : ℕ) (y : Ω → Fin n → (ℝ × ℝ) × ℝ) (hm : Measurable y)
    (hl : P.map y = Measure.pi fun _ => drawLaw) (B : Set ((ℝ × ℝ) × ℝ)) (hB : MeasurableSet B) :
    P {ω | ∀ i, y ω i ∈ B} = drawLaw B ^ n := by
  have h := Measure.map_apply (μ := P) hm (MeasurableSet.univ_pi fun _ : Fin n => hB)
  rw [hl, Measure.pi_pi, Finset.prod_const, Finset.card_univ, Fintype.card_fin] at h
  rw [h]
  congr 1
  ext ω
  simp

theorem poisson_thin (x c : ℝ) (hx : 0 ≤ x) (hc1 : c ≤ 1) :
    ∑' n : ℕ, poissonMeasure x.toNNReal {n} * ENNReal.ofReal (1 - c) ^ n = ENNReal.ofReal (exp (-(x * c))) := by
  have h1 : ∀ n : ℕ, poissonMeasure x.toNNReal {n} * ENNReal.ofReal (1 - c) ^ n =
      ENNReal.ofReal (exp (-x) * ((x * (1 - c)) ^ n / (n.factorial : ℝ))) := by
    intro n
    rw [poissonMeasure_singleton, Real.coe_toNNReal x hx, ← ENNReal.ofReal_pow (by linarith), ← ENNReal.ofReal_mul (by positivity)]
    congr 1
    rw [mul_pow]
    ring
  have hs : Summable fun n : ℕ => (x * (1 - c)) ^ n / (n.factorial : ℝ) := Real.summable_pow_div_factorial _
  have h2 : ∑' n : ℕ, (x * (1 - c)) ^ n / (n.factorial : ℝ) = exp (x * (1 - c)) := by
    rw [Real.exp_eq_exp_ℝ, NormedSpace.exp_eq_tsum_div]
  simp only [h1]
  rw [← ENNReal.ofReal_tsum_of_nonneg _ (hs.mul_left _), tsum_mul_left, h2, ← exp_add]
  · congr 2; ring
  · intro n
    have : 0 ≤ 1 - c := by linarith
    positivity

/-- All of a Poisson number of independent draws fall into a set. -/
theorem batch_chance {Ω : Type*} [MeasurableSpace Ω] (P : Measure Ω) (x c : ℝ) (hx : 0 ≤ x) (hc1 : c ≤ 1) (K : Ω → ℕ)
    (hK : Measurable K) (hKl : P.map K = poissonMeasure x.toNNReal) (y : (n : ℕ) → Ω → Fin n → (ℝ × ℝ) × ℝ) (hm : ∀ n, Measurable (y n))
    (hl : ∀ n, P.map (y n) = Measure.pi fun _ => drawLaw) (hi : ∀ n, IndepFun (y n) K P) (B : Set ((ℝ × ℝ) × ℝ)) (hB : MeasurableSet B)
    (hBc : drawLaw B = ENNReal.ofReal (1 - c)) : P {ω | ∀ i, y (K ω) ω i ∈ B} = ENNReal.ofReal (exp (-(x * c))) := by
  have hBn : ∀ n : ℕ, MeasurableSet {v : Fin n → (ℝ × ℝ) × ℝ | ∀ i, v i ∈ B} := fun n => by
    have : {v : Fin n → (ℝ × ℝ) × ℝ | ∀ i, v i ∈ B} = univ.pi fun _ => B := by ext v; simp
    rw [this]; exact MeasurableSet.univ_pi fun _ => hB
  have h1 : {ω | ∀ i, y (K ω) ω i ∈ B} = ⋃ n, (y n ⁻¹' {v | ∀ i, v i ∈ B} ∩ K ⁻¹' {n}) := by
    ext ω
    simp only [mem_ofPred_eq, mem_iUnion, mem_inter_iff, mem_preimage, mem_singleton_iff]
    constructor
    · intro h; exact ⟨_, h, rfl⟩
    · rintro ⟨n, h, rfl⟩; exact h
  rw [h1, measure_iUnion]
  · rw [← poisson_thin x c hx hc1]
    refine tsum_congr fun n => ?_
    rw [(hi n).measure_inter_preimage_eq_mul _ _ (hBn n) (measurableSet_singleton n), mul_comm]
    congr 1
    · rw [← hKl, Measure.map_apply hK (measurableSet_singleton n)]
    · rw [← hBc, ← all_chance P n (y n) (hm n) (hl n) B hB]
      rfl
  · intro n m hnm
    refine Disjoint.mono inter_subset_right inter_subset_right ?_
    rw [Set.disjoint_left]
    rintro ω h2 h3
    exact hnm (h2.symm.trans h3)
  · exact fun n => (hm n (hBn n)).inter (hK (measurableSet_singleton n))

/-! ### Fair draws for a whole run -/

/-- The draws for the spots of a run (spec of the numpy generator as far as it matters here): in every step a Poisson number of births;
whatever that number, the draws for place and size are independent of each other and of that number, uniform and normal; and
different steps are independent. -/
structure Spec.FairSpots {Ω : Type*} [MeasurableSpace Ω] (P : Measure Ω) (mean : ℝ) (K : ℕ → Ω → ℕ)
    (y : ℕ → (n : ℕ) → Ω → Fin n → (ℝ × ℝ) × ℝ) : Prop where
  count_measurable : ∀ j, Measurable (K j)
  count : ∀ j, P.map (K j) = poissonMeasure mean.toNNReal
  measurable : ∀ j n, Measurable (y j n)
  law : ∀ j n, P.map (y j n) = Measure.pi fun _ => drawLaw
  indep : ∀ j n, IndepFun (y j n) (K j) P
  steps : iIndepFun (fun j ω => (K j ω, fun n => y j n ω)) P

theorem run_chance {Ω : Type*} [MeasurableSpace Ω] (P : Measure Ω) (x : ℝ) (hx : 0 ≤ x) (K : ℕ → Ω → ℕ)
    (y : ℕ → (n : ℕ) → Ω → Fin n → (ℝ × ℝ) × ℝ) (hF : FairSpots P x K y) (N : ℕ) (B : ℕ → Set ((ℝ × ℝ) × ℝ)) (hB : ∀ j, MeasurableSet (B j))
    (c : ℕ → ℝ) (hc1 : ∀ j, c j ≤ 1) (hBc : ∀ j, drawLaw (B j) = ENNReal.ofReal (1 - c j)) :
    P {ω | ∀ j < N, ∀ i, y j (K j ω) ω i ∈ B j} = ENNReal.ofReal (exp (-(x * ∑ j ∈ Finset.range N, c j))) := by
  have hset : ∀ j, MeasurableSet {w : ℕ × ((n : ℕ) → Fin n → (ℝ × ℝ) × ℝ) | ∀ i, w.2 w.1 i ∈ B j} := by
    intro j
    have : {w : ℕ × ((n : ℕ) → Fin n → (ℝ × ℝ) × ℝ) | ∀ i, w.2 w.1 i ∈ B j} =
        ⋃ n, ({w | w.1 = n} ∩ ⋂ i : Fin n, {w | w.2 n i ∈ B j}) := by
      ext w
      simp only [mem_ofPred_eq, mem_iUnion, mem_inter_iff, mem_iInter]
      constructor
      · intro h; exact ⟨w.1, rfl, h⟩
      · rintro ⟨n, rfl, h⟩; exact h
    rw [this]
    refine MeasurableSet.iUnion fun n => (measurable_fst (measurableSet_singleton n)).inter (MeasurableSet.iInter fun i => ?_)
    have : Measurable fun w : ℕ × ((n : ℕ) → Fin n → (ℝ × ℝ) × ℝ) => w.2 n i :=
      (measurable_pi_apply i).comp ((measurable_pi_apply n).comp measurable_snd)
    exact this (hB j)
  have h := hF.steps.measure_inter_preimage_eq_mul (Finset.range N)
    (sets := fun j => {w | ∀ i, w.2 w.1 i ∈ B j}) (fun j _ => hset j)
  have h1 : {ω | ∀ j < N, ∀ i, y j (K j ω) ω i ∈ B j} =
      ⋂ j ∈ Finset.range N, (fun ω => (K j ω, fun n => y j n ω)) ⁻¹' {w | ∀ i, w.2 w.1 i ∈ B j} := by
    ext ω
    simp only [mem_ofPred_eq, mem_iInter, Finset.mem_range, mem_preimage]
  rw [h1, h, Finset.mul_sum, ← Finset.sum_neg_distrib, exp_sum, ENNReal.ofReal_prod_of_nonneg fun j _ => (exp_pos _).le]
  refine Finset.prod_congr rfl fun j _ => ?_
  rw [← batch_chance P x (c j) hx (hc1 j) (K j) (hF.count_measurable j) (hF.count j) (y j) (hF.measurable j) (hF.law j) (hF.indep j)
    (B j) (hB j) (hBc j)]
  rfl

/-! ### The spots of a run -/

theorem spotPopulation_all (s : Star) (dt x : ℝ) (hx : s.spotGen.nExpected dt s.radius = .fin x) (k : ℕ → ℕ)
    (d : ℕ → (n : ℕ) → SpotDraws n) (g : Grid) (Q : StarSpot → Prop) (Ψ : ℝ → (ℝ × ℝ) × ℝ → Prop)
    (hΨ : ∀ (n : ℕ) (e : SpotDraws n) (l : List StarSpot), s.spotGen.generate n e = .ok l → ∀ (i : ℕ) (hi : i < l.length) (hn : i < n) (t : ℝ),
      (∀ s', spotLater t { l[i] with grid := g } = some s' → Q s') ↔ Ψ t ((e.uLat ⟨i, hn⟩, e.uLon ⟨i, hn⟩), e.z ⟨i, hn⟩))
    (js : List ℕ) (hp : ∀ j ∈ js, Np.poisson (.fin x) (k j) = .ok (k j)) (news : List (List StarSpot))
    (h : List.Forall₂ (spotsOf s) (js.flatMap fun j => spotStep dt (k j) (d j)) news) :
    (∀ s' ∈ population spotLater (js.flatMap fun j => spotStep dt (k j) (d j)) (news.map (spotsOn g)), Q s') ↔
      ∀ (m : ℕ) (hm : m < js.length) (i : Fin (k js[m])),
        Ψ ((js.length - m : ℕ) * dt) (((d js[m] _).uLat i, (d js[m] _).uLon i), (d js[m] _).z i) := by
  induction js generalizing news with
  | nil =>
    cases h
    simp [population]
  | cons j js ih =>
    have hages := ages_spotRun dt k d js
    rw [List.flatMap_cons] at h ⊢
    rw [show spotStep dt (k j) (d j) = [.birthSpots dt (k j) (d j), .age dt] from rfl] at h ⊢
    simp only [List.cons_append, List.nil_append] at h ⊢
    obtain ⟨new, l', h1, h2, rfl⟩ := List.forall₂_cons_left_iff.mp h
    obtain ⟨new2, rest, h3, h4, rfl⟩ := List.forall₂_cons_left_iff.mp h2
    have hn2 : new2 = [] := h3
    have hn : s.spotGen.generate (k j) (d j (k j)) = .ok new := by
      have : s.spotGen.birth dt s.radius (k j) (d j) = .ok new := h1
      unfold SpotGenerator.birth at this
      rw [hx, hp j (by simp)] at this
      exact this
    subst hn2
    have hlen : new.length = k j := ((C27_generate _ _ _).2.2 new hn).1
    have ih' := ih (fun j' hj' => hp j' (by simp [hj'])) rest h4
    have hage : ages (Op.age dt :: List.flatMap (fun j => spotStep dt (k j) (d j)) js) = dt :: List.replicate js.length dt :=
      congrArg (dt :: ·) hages
    have hsum : (dt :: List.replicate js.length dt).sum = ((js.length + 1 : ℕ) : ℝ) * dt := by
      simp
      ring
    simp only [List.map_cons, population, spotsOn, List.map_nil, later_nil, List.nil_append, List.mem_append]
    have hnew : (∀ s' ∈ later spotLater (ages (Op.age dt :: List.flatMap (fun j => spotStep dt (k j) (d j)) js))
          (new.map fun s => { s with grid := g }), Q s') ↔
        ∀ i : Fin (k j), Ψ ((js.length + 1 : ℕ) * dt) (((d j _).uLat i, (d j _).uLon i), (d j _).z i) := by
      unfold later
      rw [hage, if_neg (by simp), hsum]
      simp only [List.mem_filterMap, List.mem_map]
      constructor
      · intro h i
        rw [← hΨ _ _ new hn i (by rw [hlen]; exact i.2) i.2]
        intro s' hs'
        exact h s' ⟨_, ⟨_, List.getElem_mem _, rfl⟩, hs'⟩
      · rintro h s' ⟨_, ⟨s₁, hs₁, rfl⟩, hs'⟩
        obtain ⟨i, hi, rfl⟩ := List.getElem_of_mem hs₁
        exact (hΨ _ _ new hn i hi (by rw [← hlen]; exact hi) _).mpr (h ⟨i, by rw [← hlen]; exact hi⟩) s' hs'
    constructor
    · intro h m hm
      cases m with
      | zero => exact hnew.mp fun s' hs' => h s' (Or.inl hs')
      | succ m =>
        have := ih'.mp (fun s' hs' => h s' (Or.inr hs')) m (by simpa using hm)
        simpa using this
    · intro h s' hs'
      rcases hs' with hs' | hs'
      · exact hnew.mpr (h 0 (by simp)) s' hs'
      · refine ih'.mpr (fun m hm => ?_) s' hs'
        have := h (m + 1) (by simpa using hm)
        simpa using this

theorem spot_later_cover (G : SpotGenerator) (h2 : 0 < G.distAreaMean) (hg : 0 < G.growthRate) (hw : 0 < G.decayRate)
    (hiso : G.distribution = .iso) (g : Grid) {R : ℝ} (hR : 0 < R) (φ ψ : ℝ)
    (n : ℕ) (e : SpotDraws n) (l : List StarSpot) (hl : G.generate n e = .ok l) (i : ℕ) (hi : i < l.length) (hn : i < n) (t : ℝ) :
    (∀ s', spotLater t { l[i] with grid := g } = some s' → ¬ insideSpot s' R φ ψ) ↔
      ¬ inCap R (spotAreaAt G.initArea (peakOf G.distAreaMean G.distAreaLogsigma (e.z ⟨i, hn⟩)) G.growthRate G.decayRate t)
        (arcsin (2 * (e.uLat ⟨i, hn⟩ : ℝ) - 1)) (2 * π * (e.uLon ⟨i, hn⟩ : ℝ)) φ ψ := by
  set p := peakOf G.distAreaMean G.distAreaLogsigma (e.z ⟨i, hn⟩) with hpdef
  obtain ⟨k1, k2, k3⟩ := (C27_generate G n e).2.2 l hl
  have hb := k2 l[i] (List.getElem_mem hi)
  have hm : l[i].areaMax = p := k3 h2 i hi hn
  have hp : 0 < p := peak_pos h2 _
  have hpos : (l[i].lat, l[i].lon) = (arcsin (2 * (e.uLat ⟨i, hn⟩ : ℝ) - 1), 2 * π * (e.uLon ⟨i, hn⟩ : ℝ)) := by
    have := congrArg (fun l => l[i]?) (spot_fields G n e l hiso hl)
    simpa [hi, hn] using this
  obtain ⟨hlat, hlon⟩ := Prod.mk.inj hpos
  rw [← hlat, ← hlon]
  set T := Real.log (p / G.initArea) / Real.log (1 + G.growthRate) with hT
  have hlife : spotLife G.initArea p G.growthRate G.decayRate = T + p / G.decayRate := rfl
  have hiff : (t - T) * G.decayRate < p ↔ t < T + p / G.decayRate := by
    rw [← lt_div_iff₀ hw]; constructor <;> intro <;> linarith
  have hpi := pi_pos
  unfold spotLater spotAreaAt
  rw [hlife, ← hT]
  simp only [hb.area, hb.growing, hm, hb.growth, hb.decay, if_true, if_neg hg.ne', ← hT]
  by_cases c1 : t < T
  · simp only [c1, if_true, Option.some.injEq, forall_eq']
    rw [insideSpot_cap hR]
    simp only [Fl.fin_inj, exists_eq_left']
  · by_cases c2 : t < T + p / G.decayRate
    · simp only [c1, if_false, c2, if_true, hiff.mpr c2, Option.some.injEq, forall_eq']
      rw [insideSpot_cap hR]
      simp only [Fl.fin_inj, exists_eq_left']
      have : p - (t - T) * G.decayRate = G.decayRate * (T + p / G.decayRate - t) := by field_simp; ring
      rw [this]
    · have c3 : ¬ (t - T) * G.decayRate < p := fun h => c2 (hiff.mp h)
      simp only [c1, if_false, c2, c3]
      have := (cosDist_mem l[i].lat l[i].lon φ ψ).2
      simp [inCap, this]

/-! ### From light to the report -/

theorem trueTemp_photosphere (spots : List StarSpot) {R T : ℝ} (hs : ∀ s ∈ spots, GoodSpot s R)
    (hcool : ∀ s ∈ spots, s.teffPenumbra < T) (φ l : ℝ) : trueTemp spots R T φ l = T ↔ uncovered spots R φ l := by
  have hfin : Set.Finite {t | ∃ s ∈ spots, (t = s.teffPenumbra ∧ insideSpot s R φ l) ∨ (t = s.teffUmbra ∧ insideUmbra s R φ l)} := by
    refine Set.Finite.subset (((spots.map (·.teffPenumbra)).toFinset ∪ (spots.map (·.teffUmbra)).toFinset).finite_toSet) ?_
    rintro t ⟨s, h1, h2⟩
    simp only [Finset.coe_union, Set.mem_union, Finset.mem_coe, List.mem_toFinset, List.mem_map]
    rcases h2 with ⟨rfl, -⟩ | ⟨rfl, -⟩
    · exact Or.inl ⟨s, h1, rfl⟩
    · exact Or.inr ⟨s, h1, rfl⟩
  constructor
  · intro h s h1 h2
    have := csInf_le ((Set.finite_singleton T).union hfin).bddBelow (Or.inr ⟨s, h1, Or.inl ⟨rfl, h2⟩⟩ :
      s.teffPenumbra ∈ {T} ∪ {t | ∃ s ∈ spots, (t = s.teffPenumbra ∧ insideSpot s R φ l) ∨ (t = s.teffUmbra ∧ insideUmbra s R φ l)})
    unfold trueTemp at h
    rw [h] at this
    exact absurd (hcool s h1) (not_lt.mpr this)
  · intro h
    have he : {t | ∃ s ∈ spots, (t = s.teffPenumbra ∧ insideSpot s R φ l) ∨ (t = s.teffUmbra ∧ insideUmbra s R φ l)} = ∅ := by
      rw [Set.eq_empty_iff_forall_notMem]
      rintro t ⟨s, h1, h2⟩
      rcases h2 with ⟨-, h2⟩ | ⟨-, a, q, θ, k1, k2, k3, k4, k5⟩
      · exact h s h1 h2
      · refine h s h1 ⟨a, θ, k1, k3, k4, k5.trans_le ?_⟩
        obtain ⟨-, ⟨q', hq', hq1⟩, -⟩ := hs s h1
        rw [k2, Fl.fin_inj] at hq'
        subst hq'
        exact div_le_self k3.1 (Real.one_le_sqrt.mpr hq1)
    unfold trueTemp
    rw [he, Set.union_empty, csInf_singleton]

theorem trueShare_photosphere (spots : List StarSpot) {R T : ℝ} (hs : ∀ s ∈ spots, GoodSpot s R)
    (hcool : ∀ s ∈ spots, s.teffPenumbra < T) (u1 u2 lat0 lon0 : ℝ) :
    trueShare spots R T u1 u2 lat0 lon0 T = lightShare u1 u2 lat0 lon0 (uncovered spots R) := by
  have h : (fun φ l => trueTemp spots R T φ l = T) = uncovered spots R :=
    funext fun φ => funext fun l => propext (trueTemp_photosphere spots hs hcool φ l)
  unfold trueShare lightShare
  rw [← h]

theorem uncovered_periodic (spots : List StarSpot) (R φ l : ℝ) : uncovered spots R φ (l + 2 * π) ↔ uncovered spots R φ l := by
  unfold uncovered insideSpot
  simp only [greatCircle_periodic]

/-- A spot of size `α` and place `y` leaves the point uncovered. -/
def spares (R : ℝ) (α : ℝ → ℝ) (y : (ℝ × ℝ) × ℝ) (φ l : ℝ) : Prop := ¬ inCap R (α y.2) (arcsin (2 * y.1.1 - 1)) (2 * π * y.1.2) φ l

theorem spares_periodic (R : ℝ) (α : ℝ → ℝ) (y : (ℝ × ℝ) × ℝ) (φ l : ℝ) : spares R α y φ (l + 2 * π) ↔ spares R α y φ l := by
  simp only [spares, inCap, ← cos_greatCircle, greatCircle_periodic]

theorem spares_measurable {Ω : Type*} [MeasurableSpace Ω] (R : ℝ) (α : ℝ → ℝ) (hα : Measurable α) (y : Ω → (ℝ × ℝ) × ℝ) (hy : Measurable y) :
    MeasurableSet {w : Ω × ℝ × ℝ | spares R α (y w.1) w.2.2 w.2.1} := by
  have h1 : Measurable fun w : Ω × ℝ × ℝ => (y w.1).1.1 := (measurable_fst.comp measurable_fst).comp (hy.comp measurable_fst)
  have h2 : Measurable fun w : Ω × ℝ × ℝ => (y w.1).1.2 := (measurable_snd.comp measurable_fst).comp (hy.comp measurable_fst)
  have h3 : Measurable fun w : Ω × ℝ × ℝ => α (y w.1).2 := hα.comp (measurable_snd.comp (hy.comp measurable_fst))
  have hcm : Measurable fun w : Ω × ℝ × ℝ => cosDist (arcsin (2 * (y w.1).1.1 - 1)) (2 * π * (y w.1).1.2) w.2.2 w.2.1 := by
    simp only [cosDist, inner_unitVec]; fun_prop
  exact ((measurableSet_le h3 measurable_const).inter (measurableSet_lt (by fun_prop) hcm)).compl

/-- The mean light that `n` spots leave. -/
theorem batch_light {Ω : Type*} [MeasurableSpace Ω] (P : Measure Ω) [IsProbabilityMeasure P] {u1 u2 : ℝ} (hld : PhysicalLD u1 u2) (lat0 lon0 : ℝ)
    {R : ℝ} (hR : 0 < R) (n : ℕ) (y : Ω → Fin n → (ℝ × ℝ) × ℝ) (hm : Measurable y) (hl : P.map y = Measure.pi fun _ => drawLaw)
    (α : ℝ → ℝ) (hα : Measurable α) (hα0 : ∀ z, 0 ≤ α z) :
    ∫ ω, lightShare u1 u2 lat0 lon0 (fun φ l => ∀ i, spares R α (y ω i) φ l) ∂P = (1 - ∫ z, capShare R (α z) ∂gaussianReal 0 1) ^ n := by
  have hc := capShare_mean hR α hα
  refine mean_light P hld lat0 lon0 _ ?_ (fun ω φ l => by simp only [spares_periodic]) _ (pow_nonneg (by linarith) n) fun φ l => ?_
  · have : {w : Ω × ℝ × ℝ | ∀ i, spares R α (y w.1 i) w.2.2 w.2.1} = ⋂ i, {w : Ω × ℝ × ℝ | spares R α (y w.1 i) w.2.2 w.2.1} := by ext w; simp
    rw [this]
    exact MeasurableSet.iInter fun i => spares_measurable R α hα _ ((measurable_pi_apply i).comp hm)
  · have := all_chance P n y hm hl _ (inCap_measurable R φ l α hα).compl
    rw [show {ω | ∀ i, spares R α (y ω i) φ l} = {ω | ∀ i, y ω i ∈ {y : (ℝ × ℝ) × ℝ | inCap R (α y.2) (arcsin (2 * y.1.1 - 1)) (2 * π * y.1.2) φ l}ᶜ} from rfl,
      this, ENNReal.ofReal_pow (by linarith), ← spare_chance hR φ l α hα hα0]
    rfl

/-- The mean light that the spots of `N` steps leave. -/
theorem run_light {Ω : Type*} [MeasurableSpace Ω] (P : Measure Ω) [IsProbabilityMeasure P] {u1 u2 : ℝ} (hld : PhysicalLD u1 u2) (lat0 lon0 : ℝ)
    {R : ℝ} (hR : 0 < R) (x : ℝ) (hx : 0 ≤ x) (K : ℕ → Ω → ℕ) (y : ℕ → (n : ℕ) → Ω → Fin n → (ℝ × ℝ) × ℝ) (hF : FairSpots P x K y) (N : ℕ)
    (α : ℕ → ℝ → ℝ) (hα : ∀ j, Measurable (α j)) (hα0 : ∀ j z, 0 ≤ α j z) :
    ∫ ω, lightShare u1 u2 lat0 lon0 (fun φ l => ∀ j < N, ∀ i, spares R (α j) (y j (K j ω) ω i) φ l) ∂P =
      exp (-(x * ∑ j ∈ Finset.range N, ∫ z, capShare R (α j z) ∂gaussianReal 0 1)) := by
  refine mean_light P hld lat0 lon0 _ ?_ (fun ω φ l => by simp only [spares_periodic]) _ (exp_pos _).le fun φ l => ?_
  · have : {w : Ω × ℝ × ℝ | ∀ j < N, ∀ i, spares R (α j) (y j (K j w.1) w.1 i) w.2.2 w.2.1} =
        ⋂ j, ⋂ (_ : j < N), ⋃ n, ({w : Ω × ℝ × ℝ | K j w.1 = n} ∩ ⋂ i, {w : Ω × ℝ × ℝ | spares R (α j) (y j n w.1 i) w.2.2 w.2.1}) := by
      ext w
      simp only [mem_ofPred_eq, mem_iUnion, mem_inter_iff, mem_iInter]
      constructor
      · intro h j hj; exact ⟨_, rfl, h j hj⟩
      · intro h j hj
        obtain ⟨n, rfl, h'⟩ := h j hj
        exact h'
    rw [this]
    refine MeasurableSet.iInter fun j => MeasurableSet.iInter fun _ => MeasurableSet.iUnion fun n => MeasurableSet.inter ?_ ?_
    · exact ((hF.count_measurable j).comp measurable_fst) (measurableSet_singleton n)
    · exact MeasurableSet.iInter fun i => spares_measurable R (α j) (hα j) _ ((measurable_pi_apply i).comp (hF.measurable j n))
  · exact run_chance P x hx K y hF N (fun j => {y | ¬ inCap R (α j y.2) (arcsin (2 * y.1.1 - 1)) (2 * π * y.1.2) φ l})
      (fun j => (inCap_measurable R φ l (α j) (hα j)).compl) _ (fun j => (capShare_mean hR (α j) (hα j)).2)
      (fun j => spare_chance hR φ l (α j) (hα j) (hα0 j))

theorem generated_uncovered (G : SpotGenerator) (hiso : G.distribution = .iso) {R : ℝ} (hR : 0 < R) (n : ℕ) (d : SpotDraws n) (l : List StarSpot)
    (hl : G.generate n d = .ok l) : uncovered l R = fun φ ψ => ∀ i, spares R (fun _ => G.initArea) (((d.uLat i : ℝ), (d.uLon i : ℝ)), d.z i) φ ψ := by
  obtain ⟨k1, k2, -⟩ := (C27_generate G n d).2.2 l hl
  have hpos := spot_fields G n d l hiso hl
  funext φ ψ
  have hget : ∀ (i : ℕ) (hi : i < l.length) (hn : i < n), insideSpot l[i] R φ ψ ↔
      inCap R G.initArea (arcsin (2 * (d.uLat ⟨i, hn⟩ : ℝ) - 1)) (2 * π * (d.uLon ⟨i, hn⟩ : ℝ)) φ ψ := by
    intro i hi hn
    have e : (l[i].lat, l[i].lon) = (arcsin (2 * (d.uLat ⟨i, hn⟩ : ℝ) - 1), 2 * π * (d.uLon ⟨i, hn⟩ : ℝ)) := by
      have := congrArg (fun l => l[i]?) hpos
      simpa [hi, hn] using this
    obtain ⟨e1, e2⟩ := Prod.mk.inj e
    rw [insideSpot_cap hR, (k2 _ (List.getElem_mem hi)).area, e1, e2]
    simp only [Fl.fin_inj, exists_eq_left']
  refine propext ⟨fun h i hin => ?_, fun h s hs => ?_⟩
  · have hi : (i : ℕ) < l.length := by rw [k1]; exact i.2
    exact h _ (List.getElem_mem hi) ((hget i hi i.2).mpr hin)
  · obtain ⟨i, hi, rfl⟩ := List.getElem_of_mem hs
    rw [hget i hi (by rw [← k1]; exact hi)]
    exact h ⟨i, by rw [← k1]; exact hi⟩

theorem photosphere_report (s : Star) (nlat nlon : ℕ) (hgrid : s.grid = .rect nlat nlon) (hlat : 4 ≤ nlat) (hlon : 3 ≤ nlon)
    (hsg : s.spots.grid = s.grid) (hms : Measured s.spots) (hf : s.faculae.faculae = []) (hR : 0 < s.radius)
    (hld : PhysicalLD s.u1 s.u2) (hs : ∀ sp ∈ s.spots.spots, GoodSpot sp s.radius) (hcool : ∀ sp ∈ s.spots.spots, sp.teffPenumbra < s.teff)
    (lat0 lon0 : ℝ) (h0 : lat0 ∈ Set.Icc (-(π / 2)) (π / 2)) (g orbit r phase incl : ℝ) (hg0 : 0 ≤ g) (total cov : Dict ℤ Fl)
    (plf : Fl) (h : s.calcCoverage lat0 lon0 g orbit r phase incl = .ok (total, cov, plf)) (gr : Granulation)
    (hgr : s.granulation = some gr) (hd : gr.dteff ≠ 0)
    (hsep : ∀ T ∈ reportTemps s.spots.spots s.teff (s.teff - gr.dteff), ∀ T' ∈ reportTemps s.spots.spots s.teff (s.teff - gr.dteff),
      T ≠ T' → 1 / 100 < |T - T'|) :
    ∃ (key : ℤ) (v : ℝ), |(key : ℝ) - 100 * s.teff| ≤ 1 / 2 ∧ (Dict.get? total key).getD (.fin 0) = .fin v ∧
      |v - (1 - g) * lightShare s.u1 s.u2 lat0 lon0 (uncovered s.spots.spots s.radius)| ≤
        (1 + g) * shareError s.spots.spots.length nlat nlon s.u1 s.u2 := by
  obtain ⟨label, hlab, hrep⟩ := C99_disk_accuracy s nlat nlon hgrid hlat hlon hsg hms hf hR hld hs lat0 lon0 h0 g orbit r phase incl hg0
    total cov plf h gr hgr hsep
  obtain ⟨v, hv, hacc⟩ := hrep s.teff (Or.inl (Or.inl rfl))
  refine ⟨label s.teff, v, hlab _, hv, ?_⟩
  rw [← trueShare_photosphere s.spots.spots hs hcool]
  refine le_trans (le_of_eq ?_) hacc
  congr 1
  unfold trueReport
  rw [if_neg (by intro h; exact hd (by linarith)), if_pos rfl]
  ring

/-- **C122** The light that no spot covers.  When `n` spots are generated at independent places, uniformly distributed over the sphere,
then the share of the light of the disk that comes from outside all spots is on average exactly `(1 − A₀/(4πR²))^n`, whatever the limb
darkening and wherever the observer; for the spots born in a time with the expected number `x` of births it is `exp(−x·A₀/(4πR²))`.
And the fraction of the photosphere that `calc_coverage` reports differs from that share, reduced by the fraction `g` of the
granulation, by no more than a constant times the grid spacing. -/
theorem C122_uncovered_light {Ω : Type*} [MeasurableSpace Ω] (P : Measure Ω) [IsProbabilityMeasure P] (G : SpotGenerator)
    (hiso : G.distribution = .iso) (R : ℝ) (hR : 0 < R) (h0 : 0 ≤ G.initArea) (h1 : G.initArea ≤ 4 * π * R ^ 2)
    (u1 u2 : ℝ) (hld : PhysicalLD u1 u2) (lat0 lon0 : ℝ) :
    (∀ (n : ℕ) (D : Ω → SpotDraws n) (l : Ω → List StarSpot),
      Measurable (fun ω i => ((((D ω).uLat i : ℝ), ((D ω).uLon i : ℝ)), (D ω).z i)) →
      P.map (fun ω i => ((((D ω).uLat i : ℝ), ((D ω).uLon i : ℝ)), (D ω).z i)) = Measure.pi (fun _ => drawLaw) →
      (∀ᵐ ω ∂P, G.generate n (D ω) = .ok (l ω)) →
      ∫ ω, lightShare u1 u2 lat0 lon0 (uncovered (l ω) R) ∂P = (1 - G.initArea / (4 * π * R ^ 2)) ^ n) ∧
    (∀ (t x : ℝ) (K : ℕ → Ω → ℕ) (D : ℕ → Ω → (n : ℕ) → SpotDraws n) (l : Ω → List StarSpot), 0 ≤ x → G.nExpected t R = .fin x →
      FairSpots P x K (fun j n ω i => ((((D j ω n).uLat i : ℝ), ((D j ω n).uLon i : ℝ)), (D j ω n).z i)) →
      (∀ᵐ ω ∂P, G.birth t R (K 0 ω) (D 0 ω) = .ok (l ω)) →
      ∫ ω, lightShare u1 u2 lat0 lon0 (uncovered (l ω) R) ∂P = exp (-(x * (G.initArea / (4 * π * R ^ 2))))) ∧
    (∀ (s : Star) (nlat nlon : ℕ), s.grid = .rect nlat nlon → 4 ≤ nlat → 3 ≤ nlon → s.spots.grid = s.grid → Measured s.spots →
      s.faculae.faculae = [] → s.radius = R → s.u1 = u1 → s.u2 = u2 → (∀ sp ∈ s.spots.spots, GoodSpot sp R) →
      (∀ sp ∈ s.spots.spots, sp.teffPenumbra < s.teff) → lat0 ∈ Set.Icc (-(π / 2)) (π / 2) →
      ∀ (g orbit r phase incl : ℝ) (total cov : Dict ℤ Fl) (plf : Fl) (gr : Granulation), 0 ≤ g →
      s.calcCoverage lat0 lon0 g orbit r phase incl = .ok (total, cov, plf) → s.granulation = some gr → gr.dteff ≠ 0 →
      (∀ T ∈ reportTemps s.spots.spots s.teff (s.teff - gr.dteff), ∀ T' ∈ reportTemps s.spots.spots s.teff (s.teff - gr.dteff),
        T ≠ T' → 1 / 100 < |T - T'|) →
      ∃ (key : ℤ) (v : ℝ), |(key : ℝ) - 100 * s.teff| ≤ 1 / 2 ∧ (Dict.get? total key).getD (.fin 0) = .fin v ∧
        |v - (1 - g) * lightShare u1 u2 lat0 lon0 (uncovered s.spots.spots R)| ≤ (1 + g) * shareError s.spots.spots.length nlat nlon u1 u2) := by
  have hshare : ∫ _, capShare R G.initArea ∂gaussianReal 0 1 = G.initArea / (4 * π * R ^ 2) := by
    rw [integral_const, probReal_univ, one_smul]; exact if_pos ⟨h0, h1⟩
  refine ⟨fun n D l hm hlaw hl => ?_, fun t x K D l hx hn hF hl => ?_, ?_⟩
  · rw [← hshare, ← batch_light P hld lat0 lon0 hR n _ hm hlaw (fun _ => G.initArea) measurable_const (fun _ => h0)]
    refine integral_congr_ae ?_
    filter_upwards [hl] with ω hω
    rw [generated_uncovered G hiso hR n (D ω) (l ω) hω]
  · have h := run_light P hld lat0 lon0 hR x hx K _ hF 1 (fun _ _ => G.initArea) (fun _ => measurable_const) (fun _ _ => h0)
    rw [Finset.sum_range_one, hshare] at h
    rw [← h]
    refine integral_congr_ae ?_
    have hpo := poisson_ok P x hx (K 0) (hF.count_measurable 0) (hF.count 0)
    filter_upwards [hl, hpo] with ω hω hpω
    unfold SpotGenerator.birth at hω
    rw [hn, hpω] at hω
    rw [generated_uncovered G hiso hR _ (D 0 ω (K 0 ω)) (l ω) hω]
    congr 1
    funext φ ψ
    refine propext ⟨fun h j hj => ?_, fun h => h 0 (by norm_num)⟩
    obtain rfl : j = 0 := by omega
    exact h
  · intro s nlat nlon hgrid hlat hlon hsg hms hf hRs hu1 hu2 hs hcool hl0 g orbit r phase incl total cov plf gr hg0 h hgr hd hsep
    subst hRs hu1 hu2
    exact photosphere_report s nlat nlon hgrid hlat hlon hsg hms hf hR hld hs hcool lat0 lon0 hl0 g orbit r phase incl hg0 total cov plf h gr
      hgr hd hsep

/-! ### The light of a settled star -/

theorem spot_later_fun (G : SpotGenerator) (h2 : 0 < G.distAreaMean) (hg : 0 < G.growthRate) (hw : 0 < G.decayRate) (f : ℝ → ℝ≥0∞) (hf : f 0 = 0)
    (g : Grid) (n : ℕ) (e : SpotDraws n) (l : List StarSpot) (hl : G.generate n e = .ok l) (i : ℕ) (hi : i < l.length) (hn : i < n) (t : ℝ) :
    (spotLater t { l[i] with grid := g }).elim 0 (fun s => f (spotAreaNow s)) =
      f (spotAreaAt G.initArea (peakOf G.distAreaMean G.distAreaLogsigma (e.z ⟨i, hn⟩)) G.growthRate G.decayRate t) := by
  set p := peakOf G.distAreaMean G.distAreaLogsigma (e.z ⟨i, hn⟩) with hpdef
  obtain ⟨k1, k2, k3⟩ := (C27_generate G n e).2.2 l hl
  have hb := k2 l[i] (List.getElem_mem hi)
  have hm : l[i].areaMax = p := k3 h2 i hi hn
  have hp : 0 < p := peak_pos h2 _
  set T := Real.log (p / G.initArea) / Real.log (1 + G.growthRate) with hT
  have hlife : spotLife G.initArea p G.growthRate G.decayRate = T + p / G.decayRate := rfl
  have hiff : (t - T) * G.decayRate < p ↔ t < T + p / G.decayRate := by
    rw [← lt_div_iff₀ hw]; constructor <;> intro <;> linarith
  unfold spotLater spotAreaAt
  rw [hlife, ← hT]
  simp only [hb.area, hb.growing, hm, hb.growth, hb.decay, if_true, if_neg hg.ne', ← hT]
  by_cases c1 : t < T
  · simp only [c1, if_true, Option.elim_some, spotAreaNow]
  · by_cases c2 : t < T + p / G.decayRate
    · simp only [c1, if_false, c2, if_true, hiff.mpr c2, Option.elim_some, spotAreaNow]
      congr 1
      field_simp
      ring
    · have c3 : ¬ (t - T) * G.decayRate < p := fun h => c2 (hiff.mp h)
      simp only [c1, if_false, c2, c3, Option.elim_none, hf]

theorem fairSpots_lives {Ω : Type*} [MeasurableSpace Ω] {P : Measure Ω} {x : ℝ} {K : ℕ → Ω → ℕ} {y : ℕ → (n : ℕ) → Ω → Fin n → (ℝ × ℝ) × ℝ}
    (hF : FairSpots P x K y) (j : ℕ) : FairLives P x (K j) fun ω n i => (y j n ω i).2 := by
  have hm : ∀ n (i : Fin n), Measurable fun v : Fin n → (ℝ × ℝ) × ℝ => (v i).2 := fun n i => measurable_snd.comp (measurable_pi_apply i)
  refine ⟨hF.count_measurable j, hF.count j, fun n i => (hm n i).comp (hF.measurable j n), fun n i => ?_, fun n i => ?_⟩
  · have h1 : P.map (fun ω => (y j n ω i).2) = (P.map (y j n)).map fun v => (v i).2 := (Measure.map_map (hm n i) (hF.measurable j n)).symm
    rw [h1, hF.law, ← Function.comp_def Prod.snd (fun v : Fin n → (ℝ × ℝ) × ℝ => v i), ← Measure.map_map measurable_snd (measurable_pi_apply i),
      (measurePreserving_eval (fun _ : Fin n => drawLaw) i).map_eq, drawLaw]
    exact Measure.snd_prod
  · exact (hF.indep j n).comp (hm n i) measurable_id

/-- What is left of the spots of a run: sums over the spots at its end, and the points they leave uncovered. -/
theorem settled_run {Ω : Type*} [MeasurableSpace Ω] (P : Measure Ω) [IsProbabilityMeasure P] (s₀ : Star) (hg : GoodGens s₀) (h₀ : SoundStar s₀)
    (hs : s₀.spots.spots = []) (hmean : s₀.spotGen.initArea ≤ s₀.spotGen.distAreaMean) (hgr : 0 < s₀.spotGen.growthRate)
    (hdec : 0 < s₀.spotGen.decayRate) (hσ : 0 ≤ s₀.spotGen.distAreaLogsigma) (hdist : s₀.spotGen.distribution = .iso)
    (hc : 0 ≤ s₀.spotGen.coverage) (hR : 0 < s₀.radius) (dt : ℝ) (hd : 0 < dt) (N : ℕ) :
    ∃ x : ℝ, s₀.spotGen.nExpected dt s₀.radius = .fin x ∧ 0 ≤ x ∧
      ∀ (K : ℕ → Ω → ℕ) (D : ℕ → Ω → (n : ℕ) → SpotDraws n),
      FairSpots P x K (fun j n ω i => ((((D j ω n).uLat i : ℝ), ((D j ω n).uLon i : ℝ)), (D j ω n).z i)) →
      (∀ᵐ ω ∂P, ∀ j n, ∃ k, ∀ i, 0 < (D j ω n).ratios k i) →
      ∃ S : Ω → Star,
        (∀ᵐ ω ∂P, ((List.range N).flatMap fun j => [Op.birthSpots dt (K j ω) (D j ω), Op.age dt]).foldlM runOp s₀ = .ok (S ω)) ∧
        (∀ f : ℝ → ℝ≥0∞, Measurable f → f 0 = 0 →
          ∫⁻ ω, (((S ω).spots.spots.map fun s => f (spotAreaNow s)).sum) ∂P =
            ENNReal.ofReal x * ∑ k ∈ Finset.range N, ∫⁻ z, f (spotAreaAt s₀.spotGen.initArea (peakOf s₀.spotGen.distAreaMean s₀.spotGen.distAreaLogsigma z)
              s₀.spotGen.growthRate s₀.spotGen.decayRate ((k + 1 : ℕ) * dt)) ∂gaussianReal 0 1) ∧
        ∀ᵐ ω ∂P, uncovered (S ω).spots.spots s₀.radius = fun φ l => ∀ j < N, ∀ i, spares s₀.radius
          (fun z => spotAreaAt s₀.spotGen.initArea (peakOf s₀.spotGen.distAreaMean s₀.spotGen.distAreaLogsigma z) s₀.spotGen.growthRate s₀.spotGen.decayRate
            ((N - j : ℕ) * dt)) ((((D j ω (K j ω)).uLat i : ℝ), ((D j ω (K j ω)).uLon i : ℝ)), (D j ω (K j ω)).z i) φ l := by
  have hp := pi_pos
  set G := s₀.spotGen with hG
  set R := s₀.radius with hRdef
  have h1 : 0 < G.initArea := hg.init
  have h2 : 0 < G.distAreaMean := hg.mean
  obtain ⟨L', A', n, b1, b2, b3, b4, b5, b6⟩ := C26_births_balance G h1 hmean hgr hdec hc R
  set x := n dt with hx
  have hx0 : 0 ≤ x := b5 dt hd.le
  refine ⟨x, b3 dt, hx0, fun K D hF hacc => ?_⟩
  have hpo : ∀ᵐ ω ∂P, (∀ j, Np.poisson (.fin x) (K j ω) = .ok (K j ω)) ∧ ∀ j n, ∃ k, ∀ i, 0 < (D j ω n).ratios k i := by
    refine Filter.Eventually.and ?_ hacc
    rw [ae_all_iff]
    exact fun j => poisson_ok P x hx0 (K j) (hF.count_measurable j) (hF.count j)
  have hrun : ∀ ω, ∃ S, ((∀ j, Np.poisson (.fin x) (K j ω) = .ok (K j ω)) ∧ ∀ j n, ∃ k, ∀ i, 0 < (D j ω n).ratios k i) →
      ((List.range N).flatMap fun j => spotStep dt (K j ω) (D j ω)).foldlM runOp s₀ = .ok S := by
    intro ω
    by_cases h : (∀ j, Np.poisson (.fin x) (K j ω) = .ok (K j ω)) ∧ ∀ j n, ∃ k, ∀ i, 0 < (D j ω n).ratios k i
    · obtain ⟨S, hS⟩ := spotRun_ok dt x (fun j => K j ω) (fun j => D j ω) (List.range N) s₀ (b3 dt) (fun j _ => h.1 j)
        (fun j n => (C27_generate s₀.spotGen n (D j ω n)).1 hσ (by rw [← hG, hdist]; simp) (h.2 j n))
      exact ⟨S, fun _ => hS⟩
    · exact ⟨s₀, fun h' => absurd h' h⟩
  choose S hS using hrun
  have hnews : ∀ ω, ((∀ j, Np.poisson (.fin x) (K j ω) = .ok (K j ω)) ∧ ∀ j n, ∃ k, ∀ i, 0 < (D j ω n).ratios k i) →
      ∃ news, List.Forall₂ (spotsOf s₀) ((List.range N).flatMap fun j => spotStep dt (K j ω) (D j ω)) news ∧
        (S ω).spots.spots = population spotLater ((List.range N).flatMap fun j => spotStep dt (K j ω) (D j ω)) (news.map (spotsOn s₀.spots.grid)) := by
    intro ω hω
    have hop : ∀ op ∈ ((List.range N).flatMap fun j => spotStep dt (K j ω) (D j ω)), Sane op := by
      intro op hop
      obtain ⟨j, -, hj⟩ := List.mem_flatMap.mp hop
      simp only [spotStep, List.mem_cons, List.not_mem_nil, or_false] at hj
      rcases hj with rfl | rfl
      · trivial
      · exact hd.le
    obtain ⟨⟨news, k1, k2⟩, -⟩ := C105_population s₀ (S ω) _ hg h₀ hop (hS ω hω)
    refine ⟨news, k1, ?_⟩
    rw [k2, hs, later_nil, List.nil_append]
  have hLives := fun j => fairSpots_lives hF j
  have hsum : ∀ f : ℝ → ℝ≥0∞, Measurable f → f 0 = 0 →
      ∫⁻ ω, (((S ω).spots.spots.map fun s => f (spotAreaNow s)).sum) ∂P =
        ENNReal.ofReal x * ∑ k ∈ Finset.range N, ∫⁻ z, f (spotAreaAt G.initArea (peakOf G.distAreaMean G.distAreaLogsigma z) G.growthRate
          G.decayRate ((k + 1 : ℕ) * dt)) ∂gaussianReal 0 1 := by
    intro f hf hf0
    have hm : ∀ t, Measurable fun z => f (spotAreaAt G.initArea (peakOf G.distAreaMean G.distAreaLogsigma z) G.growthRate G.decayRate t) :=
      fun t => hf.comp (spotAreaAt_measurable h1 h2 t)
    have e1 := (facSum_mean P x dt K (fun j ω n i => (D j ω n).z i) hLives
      (fun t z => f (spotAreaAt G.initArea (peakOf G.distAreaMean G.distAreaLogsigma z) G.growthRate G.decayRate t)) hm (List.range N)).2
    rw [List.length_range] at e1
    rw [← e1]
    refine lintegral_congr_ae ?_
    filter_upwards [hpo] with ω hω
    obtain ⟨news, k1, k2⟩ := hnews ω hω
    rw [k2]
    exact spotPopulation_sum s₀ dt x (b3 dt) (fun j => K j ω) (fun j => D j ω) s₀.spots.grid _ _
      (fun n e l hl i hi hn t => spot_later_fun G h2 hgr hdec f hf0 s₀.spots.grid n e l hl i hi hn t) (List.range N) (fun j _ => hω.1 j) news k1
  refine ⟨S, ?_, hsum, ?_⟩
  · filter_upwards [hpo] with ω hω
    exact hS ω hω
  · filter_upwards [hpo] with ω hω
    obtain ⟨news, k1, k2⟩ := hnews ω hω
    funext φ ψ
    have := spotPopulation_all s₀ dt x (b3 dt) (fun j => K j ω) (fun j => D j ω) s₀.spots.grid (fun s => ¬ insideSpot s R φ ψ)
      (fun t y => spares R (fun z => spotAreaAt G.initArea (peakOf G.distAreaMean G.distAreaLogsigma z) G.growthRate G.decayRate t) y φ ψ)
      (fun n e l hl i hi hn t => spot_later_cover G h2 hgr hdec hdist s₀.spots.grid hR φ ψ n e l hl i hi hn t) (List.range N) (fun j _ => hω.1 j) news k1
    rw [← k2] at this
    refine propext (this.trans ?_)
    simp only [List.length_range]
    refine forall₂_congr fun m hm => ?_
    have e : (List.range N)[m]'(by simpa using hm) = m := List.getElem_range _
    generalize (List.range N)[m]'(by simpa using hm) = j at e
    subst e
    rfl

/-- **C123** The light of a settled star.  A star without spots goes through `N` steps of length `dt`, in each of which spots are born for
the time `dt`, at independent places uniformly distributed over the sphere, and the star ages by `dt`.  Then, almost surely, the run
succeeds; and at its end the share of the light of the disk that comes from outside all spots is on average exactly `exp(−c)`, whatever
the limb darkening and wherever the observer, where `c` is the mean of the summed shares of the surface that the spots cover.  In
particular it is at least `exp(−A/(4πR²))`, where `A` is the mean total area of the spots (C121). -/
theorem C123_settled_light {Ω : Type*} [MeasurableSpace Ω] (P : Measure Ω) [IsProbabilityMeasure P] (s₀ : Star) (hg : GoodGens s₀) (h₀ : SoundStar s₀)
    (hs : s₀.spots.spots = []) (hmean : s₀.spotGen.initArea ≤ s₀.spotGen.distAreaMean) (hgr : 0 < s₀.spotGen.growthRate)
    (hdec : 0 < s₀.spotGen.decayRate) (hσ : 0 ≤ s₀.spotGen.distAreaLogsigma) (hdist : s₀.spotGen.distribution = .iso)
    (hc : 0 ≤ s₀.spotGen.coverage) (hR : 0 < s₀.radius) (dt : ℝ) (hd : 0 < dt) (N : ℕ) :
    ∃ x : ℝ, s₀.spotGen.nExpected dt s₀.radius = .fin x ∧
      ∀ (K : ℕ → Ω → ℕ) (D : ℕ → Ω → (n : ℕ) → SpotDraws n),
      FairSpots P x K (fun j n ω i => ((((D j ω n).uLat i : ℝ), ((D j ω n).uLon i : ℝ)), (D j ω n).z i)) →
      (∀ᵐ ω ∂P, ∀ j n, ∃ k, ∀ i, 0 < (D j ω n).ratios k i) →
      ∃ (S : Ω → Star) (c : ℝ), 0 ≤ c ∧
        (∀ᵐ ω ∂P, ((List.range N).flatMap fun j => [Op.birthSpots dt (K j ω) (D j ω), Op.age dt]).foldlM runOp s₀ = .ok (S ω)) ∧
        ∫⁻ ω, (((S ω).spots.spots.map fun s => ENNReal.ofReal (capShare s₀.radius (spotAreaNow s))).sum) ∂P = ENNReal.ofReal c ∧
        (∀ u1 u2 lat0 lon0 : ℝ, PhysicalLD u1 u2 →
          ∫ ω, lightShare u1 u2 lat0 lon0 (uncovered (S ω).spots.spots s₀.radius) ∂P = exp (-c)) ∧
        ∀ A : ℝ, 0 ≤ A → ∫⁻ ω, (((S ω).spots.spots.map fun s => ENNReal.ofReal (spotAreaNow s)).sum) ∂P = ENNReal.ofReal A →
          c ≤ A / (4 * π * s₀.radius ^ 2) := by
  have hp := pi_pos
  obtain ⟨x, b3, hx0, hrun⟩ := settled_run P s₀ hg h₀ hs hmean hgr hdec hσ hdist hc hR dt hd N
  refine ⟨x, b3, fun K D hF hacc => ?_⟩
  obtain ⟨S, hS, hsum, hunc⟩ := hrun K D hF hacc
  have h1 : 0 < s₀.spotGen.initArea := hg.init
  have h2 : 0 < s₀.spotGen.distAreaMean := hg.mean
  set G := s₀.spotGen with hG
  set R := s₀.radius with hRdef
  set σ : ℕ → ℝ := fun m => ∫ z, capShare R (spotAreaAt G.initArea (peakOf G.distAreaMean G.distAreaLogsigma z) G.growthRate G.decayRate (m * dt))
    ∂gaussianReal 0 1 with hσdef
  have hσ0 : ∀ m, 0 ≤ σ m := fun m => integral_nonneg fun z => (capShare_mem hR).1
  have hcm : Measurable (capShare R) := capShare_measurable R
  have hcap0 : ENNReal.ofReal (capShare R 0) = 0 := by
    unfold capShare; split_ifs <;> simp
  have hci : ∀ m : ℕ, Integrable (fun z => capShare R (spotAreaAt G.initArea (peakOf G.distAreaMean G.distAreaLogsigma z) G.growthRate G.decayRate (m * dt)))
      (gaussianReal 0 1) := fun m => Integrable.of_bound (hcm.comp (spotAreaAt_measurable h1 h2 _)).aestronglyMeasurable 1
      (Filter.Eventually.of_forall fun z => by
        rw [norm_eq_abs, abs_of_nonneg (capShare_mem hR).1]; exact (capShare_mem hR).2)
  have hshare : ∫⁻ ω, (((S ω).spots.spots.map fun s => ENNReal.ofReal (capShare R (spotAreaNow s))).sum) ∂P =
      ENNReal.ofReal (x * ∑ k ∈ Finset.range N, σ (k + 1)) := by
    rw [hsum (fun a => ENNReal.ofReal (capShare R a)) hcm.ennreal_ofReal hcap0, ENNReal.ofReal_mul hx0,
      ENNReal.ofReal_sum_of_nonneg fun k _ => hσ0 _]
    congr 1
    refine Finset.sum_congr rfl fun k _ => ?_
    rw [hσdef]
    simp only
    rw [ofReal_integral_eq_lintegral_ofReal (hci (k + 1)) (Filter.Eventually.of_forall fun z => (capShare_mem hR).1)]
  refine ⟨S, x * ∑ k ∈ Finset.range N, σ (k + 1), mul_nonneg hx0 (Finset.sum_nonneg fun k _ => hσ0 _), ?_, hshare, ?_, ?_⟩
  · exact hS
  · intro u1 u2 lat0 lon0 hld
    have h := run_light P hld lat0 lon0 hR x hx0 K _ hF N
      (fun j z => spotAreaAt G.initArea (peakOf G.distAreaMean G.distAreaLogsigma z) G.growthRate G.decayRate ((N - j : ℕ) * dt))
      (fun j => spotAreaAt_measurable h1 h2 _) (fun j z => (spotArea_mem h1 (peak_pos h2 z) hgr hdec _).1)
    have e : ∑ j ∈ Finset.range N, σ (N - j) = ∑ k ∈ Finset.range N, σ (k + 1) := by
      rw [← Finset.sum_range_reflect (fun k => σ (k + 1))]
      refine Finset.sum_congr rfl fun j hj => ?_
      rw [Finset.mem_range] at hj
      congr 1
      omega
    rw [← e, ← h]
    refine integral_congr_ae ?_
    filter_upwards [hunc] with ω hω
    rw [hω]
  · intro A hA0 hA
    have hR2 : 0 < 4 * π * R ^ 2 := by positivity
    rw [le_div_iff₀ hR2, ← ENNReal.ofReal_le_ofReal_iff hA0, ← hA, ENNReal.ofReal_mul (mul_nonneg hx0 (Finset.sum_nonneg fun k _ => hσ0 _)),
      ← hshare, hsum (fun a => ENNReal.ofReal (capShare R a)) hcm.ennreal_ofReal hcap0, hsum ENNReal.ofReal ENNReal.measurable_ofReal ENNReal.ofReal_zero,
      mul_assoc, Finset.sum_mul]
    refine mul_le_mul_right (Finset.sum_le_sum fun k _ => ?_) _
    rw [← lintegral_mul_const (ENNReal.ofReal (4 * π * R ^ 2)) (f := fun z => ENNReal.ofReal (capShare R (spotAreaAt G.initArea
      (peakOf G.distAreaMean G.distAreaLogsigma z) G.growthRate G.decayRate ((k + 1 : ℕ) * dt))))
      (hcm.comp (spotAreaAt_measurable h1 h2 _)).ennreal_ofReal]
    refine lintegral_mono fun z => ?_
    rw [← ENNReal.ofReal_mul (capShare_mem hR).1]
    refine ENNReal.ofReal_le_ofReal ?_
    have ha := (spotArea_mem h1 (peak_pos (σ := G.distAreaLogsigma) h2 z) hgr hdec ((k + 1 : ℕ) * dt)).1
    unfold capShare
    split_ifs with hif
    · rw [div_mul_cancel₀ _ hR2.ne']
    · simpa using ha

/-! ### Examples -/

/-- Everything drawn in one step: a count, and places and sizes for every possible count. -/
def stepLaw (mean : ℝ) : Measure (ℕ × ((n : ℕ) → Fin n → (ℝ × ℝ) × ℝ)) :=
  (poissonMeasure mean.toNNReal).prod (Measure.infinitePi fun n => Measure.pi fun _ : Fin n => drawLaw)

instance (mean : ℝ) : IsProbabilityMeasure (stepLaw mean) := by unfold stepLaw; infer_instance

/-- A probability space with fair draws for all steps. -/
def spotSpace (mean : ℝ) : Measure (ℕ → ℕ × ((n : ℕ) → Fin n → (ℝ × ℝ) × ℝ)) := Measure.infinitePi fun _ => stepLaw mean

instance (mean : ℝ) : IsProbabilityMeasure (spotSpace mean) := by unfold spotSpace; infer_instance

/-- The draws for the spots of one step. -/
def spaceDraws (ω : (n : ℕ) → Fin n → (ℝ × ℝ) × ℝ) (n : ℕ) : SpotDraws n :=
  ⟨fun i => (ω n i).2, fun _ _ => 0, fun _ => true, fun _ => 0, fun i => unitDraw (ω n i).1.2, fun i => unitDraw (ω n i).1.1⟩

/-- Places reduced to the unit square. -/
def fold (y : (ℝ × ℝ) × ℝ) : (ℝ × ℝ) × ℝ := ((Int.fract y.1.1, Int.fract y.1.2), y.2)

theorem fold_law : MeasurePreserving fold drawLaw drawLaw := by
  have hm : Measurable fold := by unfold fold; fun_prop
  refine ⟨hm, ?_⟩
  have h : fold =ᵐ[drawLaw] id := by
    have h1 : ∀ᵐ p ∂(volume.restrict (Ico (0 : ℝ) 1 ×ˢ Ico (0 : ℝ) 1)), p ∈ Ico (0 : ℝ) 1 ×ˢ Ico (0 : ℝ) 1 :=
      ae_restrict_mem (measurableSet_Ico.prod measurableSet_Ico)
    have h2 := Measure.quasiMeasurePreserving_fst (μ := volume.restrict (Ico (0 : ℝ) 1 ×ˢ Ico (0 : ℝ) 1)) (ν := gaussianReal 0 1) |>.ae h1
    filter_upwards [h2] with y hy
    have e1 := Int.fract_eq_self.mpr hy.1
    have e2 := Int.fract_eq_self.mpr hy.2
    simp only [fold, e1, e2, id]
  rw [Measure.map_congr h, Measure.map_id]

theorem spotSpace_fair (mean : ℝ) : FairSpots (spotSpace mean) mean (fun j ω => (ω j).1)
    (fun j n ω i => ((((spaceDraws (ω j).2 n).uLat i : ℝ), ((spaceDraws (ω j).2 n).uLon i : ℝ)), (spaceDraws (ω j).2 n).z i)) := by
  have hfm : Measurable fold := fold_law.measurable
  have hg : ∀ n : ℕ, Measurable fun (w : (n : ℕ) → Fin n → (ℝ × ℝ) × ℝ) (i : Fin n) => fold (w n i) := fun n =>
    measurable_pi_lambda _ fun i => hfm.comp ((measurable_pi_apply i).comp (measurable_pi_apply n))
  have he : ∀ j : ℕ, (spotSpace mean).map (fun ω => ω j) = stepLaw mean := fun j => Measure.infinitePi_map_eval _ j
  have hgl : ∀ n : ℕ, (Measure.infinitePi fun n => Measure.pi fun _ : Fin n => drawLaw).map (fun w (i : Fin n) => fold (w n i)) =
      Measure.pi fun _ => drawLaw := by
    intro n
    have h1 := (measurePreserving_pi (fun _ : Fin n => drawLaw) (fun _ : Fin n => drawLaw) (fun _ => fold_law)).map_eq
    have h2 := Measure.infinitePi_map_eval (fun n => Measure.pi fun _ : Fin n => drawLaw) n
    have hf : Measurable fun (v : Fin n → (ℝ × ℝ) × ℝ) (i : Fin n) => fold (v i) := measurable_pi_lambda _ fun i => hfm.comp (measurable_pi_apply i)
    have h3 := Measure.map_map (μ := Measure.infinitePi fun n => Measure.pi fun _ : Fin n => drawLaw) hf (measurable_pi_apply n)
    rw [h2, h1] at h3
    exact h3.symm
  refine ⟨fun j => measurable_fst.comp (measurable_pi_apply j), fun j => ?_, fun j n => (hg n).comp (measurable_snd.comp (measurable_pi_apply j)),
    fun j n => ?_, fun j n => ?_, ?_⟩
  · have := Measure.map_map (μ := spotSpace mean) measurable_fst (measurable_pi_apply j)
    rw [he] at this
    exact this.symm.trans Measure.fst_prod
  · have h1 := Measure.map_map (μ := spotSpace mean) ((hg n).comp measurable_snd) (measurable_pi_apply j)
    have h2 := Measure.map_map (μ := stepLaw mean) (hg n) measurable_snd
    rw [he, ← h2, show (stepLaw mean).map Prod.snd = _ from Measure.snd_prod, hgl] at h1
    exact h1.symm
  · have hi : IndepFun (fun w : ℕ × ((n : ℕ) → Fin n → (ℝ × ℝ) × ℝ) => fun i : Fin n => fold (w.2 n i)) (fun w => w.1) (stepLaw mean) :=
      (indepFun_prod (μ := poissonMeasure mean.toNNReal) (ν := Measure.infinitePi fun n => Measure.pi fun _ : Fin n => drawLaw)
        (X := fun k : ℕ => k) (Y := fun w (i : Fin n) => fold (w n i)) measurable_id (hg n)).symm
    have hm1 : Measurable fun w : ℕ × ((n : ℕ) → Fin n → (ℝ × ℝ) × ℝ) => fun i : Fin n => fold (w.2 n i) := (hg n).comp measurable_snd
    rw [indepFun_iff_measure_inter_preimage_eq_mul] at hi ⊢
    intro s t hs ht
    have := hi s t hs ht
    rw [← he j, Measure.map_apply (measurable_pi_apply j) ((hm1 hs).inter (measurable_fst ht)), Measure.map_apply (measurable_pi_apply j) (hm1 hs),
      Measure.map_apply (measurable_pi_apply j) (measurable_fst ht)] at this
    exact this
  · refine iIndepFun_infinitePi (P := fun _ : ℕ => stepLaw mean)
      (X := fun _ (w : ℕ × ((n : ℕ) → Fin n → (ℝ × ℝ) × ℝ)) => (w.1, fun n (i : Fin n) => fold (w.2 n i))) fun _ => ?_
    exact measurable_fst.prodMk (measurable_pi_lambda _ fun n => (hg n).comp measurable_snd)

/-- A generator of spots that cover a thousandth of a star of radius 1000 km each. -/
def lightGen : SpotGenerator := { SpotGenerator.off (.rect 3 4) with distAreaMean := 4000 * π, initArea := 4000 * π, distAreaLogsigma := 0 }

/-- Non-trivial instance of C122: a hundred such spots leave on average more than nine tenths of the light of a disk without limb
darkening. -/
example : ∃ l : (ℕ → ℕ × ((n : ℕ) → Fin n → (ℝ × ℝ) × ℝ)) → List StarSpot, (∀ ω, (l ω).length = 100) ∧
    ∫ ω, lightShare 0 0 0 0 (uncovered (l ω) 1000) ∂spotSpace 1 = 0.999 ^ 100 := by
  have hp := pi_pos
  have hok : ∀ ω : ℕ → ℕ × ((n : ℕ) → Fin n → (ℝ × ℝ) × ℝ), ∃ l, lightGen.generate 100 (spaceDraws (ω 0).2 100) = .ok l := fun ω =>
    (C27_generate lightGen 100 _).1 (by norm_num [lightGen]) (by simp [lightGen, SpotGenerator.off]) ⟨0, fun i => by norm_num [SpotDraws.ratios, spaceDraws]⟩
  choose l hl using hok
  refine ⟨l, fun ω => ((C27_generate lightGen 100 _).2.2 _ (hl ω)).1, ?_⟩
  have hF := spotSpace_fair 1
  have h := (C122_uncovered_light (spotSpace 1) lightGen rfl 1000 (by norm_num) (by simp only [lightGen]; positivity)
    (by simp only [lightGen]; nlinarith) 0 0 ⟨by norm_num, by norm_num, by norm_num⟩ 0 0).1 100 (fun ω => spaceDraws (ω 0).2 100) l (hF.measurable 0 100)
    (hF.law 0 100) (Filter.Eventually.of_forall hl)
  rw [h]
  simp only [lightGen]
  have : 1 - 4000 * π / (4 * π * 1000 ^ 2) = 0.999 := by field_simp; norm_num
  rw [this]

/-- Non-trivial instance of C123: on a star asked to be covered by a tenth with spots, on average at least 97.9 per cent of the light
comes from outside the spots in the long run. -/
example : ∃ (N : ℕ) (mean : ℝ) (S : (ℕ → ℕ × ((n : ℕ) → Fin n → (ℝ × ℝ) × ℝ)) → Star), 0 < N ∧
    (∀ᵐ ω ∂spotSpace mean, ((List.range N).flatMap fun j => [Op.birthSpots (1 / 1000) (ω j).1 (spaceDraws (ω j).2), Op.age (1 / 1000)]).foldlM
      runOp spotsStar = .ok (S ω)) ∧
    0.979 ≤ ∫ ω, lightShare 0.3 0.1 0 0 (uncovered (S ω).spots.spots 1000) ∂spotSpace mean := by
  have hp := pi_pos
  have hgood : GoodGens spotsStar := by
    refine ⟨?_, ?_, ?_, ?_, ?_, ?_, ?_⟩ <;> norm_num [spotsStar, busyStar, sampleStar, FaculaGenerator.off]
  have hstar : SoundStar spotsStar := by
    refine ⟨?_, ?_⟩ <;> simp [spotsStar, SpotCollection.new, SpotCollection.setGridmaker]
  obtain ⟨r, L, I, C₁, C₂, h1, -, ⟨h2, h3⟩, h4⟩ := C121_settled_spots (spotSpace (160 * π * (1 / 1000))) spotsStar hgood hstar rfl
    (by norm_num [spotsStar]) (by norm_num [spotsStar]) (by norm_num [spotsStar]) (by norm_num [spotsStar])
    (by simp [spotsStar, SpotGenerator.off]) (by norm_num [spotsStar])
  have e1 : spotsStar.spotGen.distAreaMean = 1000 := rfl
  have e2 : spotsStar.spotGen.initArea = 1000 := rfl
  have e3 : spotsStar.spotGen.distAreaLogsigma = 0 := rfl
  have e4 : spotsStar.spotGen.growthRate = 1 := rfl
  have e5 : spotsStar.spotGen.decayRate = 1000 := rfl
  have e6 : spotsStar.spotGen.coverage = 0.1 := rfl
  have e7 : spotsStar.radius = 1000 := rfl
  rw [e1, e2, e4, e5, e6, e7] at h1
  rw [e1, e2, e3, e4, e5] at h2 h3
  norm_num at h1 h2 h3
  have hr : r = 160 * π := by linarith
  have hI : I = 500 := le_antisymm h3 h2
  subst hr hI
  obtain ⟨N, hN⟩ := exists_nat_gt (max 0 (C₂ * 1000))
  have hN0 : (0 : ℝ) < N := (le_max_left _ _).trans_lt hN
  have hN1 : C₂ * 1000 < N := (le_max_right _ _).trans_lt hN
  have hN0' : 0 < N := by exact_mod_cast hN0
  obtain ⟨hx, h5⟩ := h4 (1 / 1000) N (by norm_num) hN0'
  have hF := spotSpace_fair (160 * π * (1 / 1000))
  have hacc : ∀ᵐ ω ∂spotSpace (160 * π * (1 / 1000)), ∀ j n, ∃ k, ∀ i, 0 < (spaceDraws (ω j).2 n).ratios k i :=
    Filter.Eventually.of_forall fun ω j n => ⟨0, fun i => by norm_num [SpotDraws.ratios, spaceDraws]⟩
  obtain ⟨S', M, A, k1, -, k3, -, hA0, -, -, k4⟩ := h5 (fun j ω => (ω j).1) (fun j ω => spaceDraws (ω j).2) (fun j => fairSpots_lives hF j) hacc
  obtain ⟨x, hx', h6⟩ := C123_settled_light (spotSpace (160 * π * (1 / 1000))) spotsStar hgood hstar rfl
    (by norm_num [spotsStar]) (by norm_num [spotsStar]) (by norm_num [spotsStar]) (by norm_num [spotsStar])
    (by simp [spotsStar, SpotGenerator.off]) (by norm_num [spotsStar]) (by norm_num [spotsStar]) (1 / 1000) (by norm_num) N
  obtain rfl : 160 * π * (1 / 1000) = x := by rw [hx] at hx'; exact Fl.fin_inj.mp hx'
  obtain ⟨S, c, hc0, m1, -, m3, m4⟩ := h6 (fun j ω => (ω j).1) (fun j ω => spaceDraws (ω j).2) hF hacc
  have hA : c ≤ A / (4 * π * 1000 ^ 2) := by
    refine m4 A hA0 (Eq.trans (lintegral_congr_ae ?_) k3)
    filter_upwards [k1, m1] with ω w1 w2
    have : S' ω = S ω := by rw [w1] at w2; exact Except.ok.inj w2
    rw [this]
  rw [e1, e3] at k4
  have hC : 160 * π * C₂ / (N * (1 / 1000)) ≤ 160 * π := by
    rw [div_le_iff₀ (by positivity)]
    have : C₂ ≤ N * (1 / 1000) := by linarith
    exact mul_le_mul_of_nonneg_left this (by positivity)
  norm_num at k4
  rw [abs_le] at k4
  norm_num at hC
  refine ⟨N, _, S, hN0', m1, ?_⟩
  have hl := m3 0.3 0.1 0 0 ⟨by norm_num, by norm_num, by norm_num⟩
  rw [e7] at hl
  rw [hl]
  have hc : c ≤ 0.021 := by
    refine hA.trans ?_
    rw [div_le_iff₀ (by positivity)]
    linarith [k4.2]
  have := add_one_le_exp (-c)
  linarith

end Vsm
