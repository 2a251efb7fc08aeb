import Verif.Props.MeanLight

/-!
# C167: the scatter of the light that randomly placed spots leave
-/

noncomputable section

namespace Vsm

open Real MeasureTheory ProbabilityTheory Set Np Spec
open scoped ENNReal

/-! ### The light of the disk as a probability measure -/

/-- The light of the disk, normalised. -/
def lightM (u1 u2 lat0 lon0 : ℝ) : Measure (ℝ × ℝ) :=
  (sphM 0).withDensity fun x => ENNReal.ofReal (intensity u1 u2 lat0 lon0 x.2 x.1 / sphereInt (intensity u1 u2 lat0 lon0))

theorem intensity_facts {u1 u2 : ℝ} (hld : PhysicalLD u1 u2) (lat0 lon0 : ℝ) :
    (Measurable fun x : ℝ × ℝ => intensity u1 u2 lat0 lon0 x.2 x.1) ∧ (∀ φ l, 0 ≤ intensity u1 u2 lat0 lon0 φ l ∧ intensity u1 u2 lat0 lon0 φ l ≤ 1) ∧
    (∀ φ l, intensity u1 u2 lat0 lon0 φ (l + 2 * π) = intensity u1 u2 lat0 lon0 φ l) ∧ 0 < sphereInt (intensity u1 u2 lat0 lon0) := by
  refine ⟨?_, fun φ l => ?_, fun φ l => ?_, ?_⟩
  · have hg := greatCircle_measurable lat0 lon0
    unfold intensity quadraticLaw
    fun_prop
  · rw [intensity_eq]; exact lightAt_range hld (cos_le_one _)
  · unfold intensity; rw [greatCircle_periodic]
  · have := (intensity_total hld lat0 lon0).2
    have : 0 < π / 2 := by positivity
    linarith

theorem lightM_apply {u1 u2 : ℝ} (hld : PhysicalLD u1 u2) (lat0 lon0 : ℝ) (A : ℝ → ℝ → Prop) (hA : MeasurableSet {x : ℝ × ℝ | A x.2 x.1})
    (hper : ∀ φ l, A φ (l + 2 * π) ↔ A φ l) :
    lightM u1 u2 lat0 lon0 {x | A x.2 x.1} = ENNReal.ofReal (lightShare u1 u2 lat0 lon0 A) ∧ 0 ≤ lightShare u1 u2 lat0 lon0 A := by
  classical
  obtain ⟨hm, h01, hp, hT⟩ := intensity_facts hld lat0 lon0
  have hFm : Measurable fun x : ℝ × ℝ => if A x.2 x.1 then intensity u1 u2 lat0 lon0 x.2 x.1 else 0 := Measurable.ite hA hm measurable_const
  have hF0 : ∀ x : ℝ × ℝ, 0 ≤ if A x.2 x.1 then intensity u1 u2 lat0 lon0 x.2 x.1 else 0 := fun x => by
    split_ifs
    · exact (h01 _ _).1
    · exact le_rfl
  have hFi : Integrable (fun x : ℝ × ℝ => if A x.2 x.1 then intensity u1 u2 lat0 lon0 x.2 x.1 else 0) (sphM 0) := by
    refine sphM_integrable 0 _ hFm 1 fun x => ?_
    split_ifs
    · rw [abs_of_nonneg (h01 _ _).1]; exact (h01 _ _).2
    · simp
  have e : lightShare u1 u2 lat0 lon0 A = ∫ x, (if A x.2 x.1 then intensity u1 u2 lat0 lon0 x.2 x.1 else 0) / sphereInt (intensity u1 u2 lat0 lon0) ∂sphM 0 := by
    rw [integral_div]
    unfold lightShare
    rw [← sphM_sphereInt 0 (fun φ l => if A φ l then intensity u1 u2 lat0 lon0 φ l else 0) hFi]
    intro φ l
    simp only [hper, hp]
  refine ⟨?_, ?_⟩
  · rw [e, ofReal_integral_eq_lintegral_ofReal (hFi.div_const _) (Filter.Eventually.of_forall fun x => div_nonneg (hF0 x) hT.le), lightM, withDensity_apply _ hA,
      ← lintegral_indicator hA]
    refine lintegral_congr fun x => ?_
    by_cases h : A x.2 x.1
    · rw [indicator_of_mem (by exact h), if_pos h]
    · rw [indicator_of_notMem (by exact h), if_neg h]
      simp
  · rw [e]
    exact integral_nonneg fun x => div_nonneg (hF0 x) hT.le

theorem lightM_univ {u1 u2 : ℝ} (hld : PhysicalLD u1 u2) (lat0 lon0 : ℝ) : lightM u1 u2 lat0 lon0 univ = 1 := by
  have h := (lightM_apply hld lat0 lon0 (fun _ _ => True) MeasurableSet.univ (fun _ _ => Iff.rfl)).1
  have e : lightShare u1 u2 lat0 lon0 (fun _ _ => True) = 1 := by
    unfold lightShare
    simp only [if_true]
    exact div_self (intensity_facts hld lat0 lon0).2.2.2.ne'
  rw [e, ENNReal.ofReal_one] at h
  exact h

/-- The mean of the square of the size of a random set. -/
theorem second_moment {Ω X : Type*} [MeasurableSpace Ω] [MeasurableSpace X] (P : Measure Ω) [SFinite P] (μ : Measure X) [SFinite μ] (S : Set (Ω × X))
    (hS : MeasurableSet S) : ∫⁻ ω, μ {x | (ω, x) ∈ S} ^ 2 ∂P = ∫⁻ p, P {ω | (ω, p.1) ∈ S ∧ (ω, p.2) ∈ S} ∂(μ.prod μ) := by
  have hT : MeasurableSet {w : Ω × X × X | (w.1, w.2.1) ∈ S ∧ (w.1, w.2.2) ∈ S} :=
    ((by fun_prop : Measurable fun w : Ω × X × X => (w.1, w.2.1)) hS).inter ((by fun_prop : Measurable fun w : Ω × X × X => (w.1, w.2.2)) hS)
  have h1 := Measure.prod_apply (μ := P) (ν := μ.prod μ) hT
  have h2 := Measure.prod_apply_symm (μ := P) (ν := μ.prod μ) hT
  rw [h1] at h2
  have e : ∀ ω, (μ.prod μ) (Prod.mk ω ⁻¹' {w : Ω × X × X | (w.1, w.2.1) ∈ S ∧ (w.1, w.2.2) ∈ S}) = μ {x | (ω, x) ∈ S} ^ 2 := by
    intro ω
    rw [sq, ← Measure.prod_prod]
    rfl
  simp only [e] at h2
  exact h2

theorem section_measurable {Ω : Type*} [MeasurableSpace Ω] (μ : Measure (ℝ × ℝ)) [SFinite μ] (A : Ω → ℝ → ℝ → Prop)
    (hA : MeasurableSet {y : Ω × ℝ × ℝ | A y.1 y.2.2 y.2.1}) : Measurable fun ω => μ {x : ℝ × ℝ | A ω x.2 x.1} := by
  have h := measurable_measure_prodMk_left (ν := μ) hA
  exact h

/-- Variance of the light from a random set. -/
theorem scatter {Ω : Type*} [MeasurableSpace Ω] (P : Measure Ω) [IsProbabilityMeasure P] {u1 u2 : ℝ} (hld : PhysicalLD u1 u2) (lat0 lon0 : ℝ)
    (A : Ω → ℝ → ℝ → Prop) (hA : MeasurableSet {y : Ω × ℝ × ℝ | A y.1 y.2.2 y.2.1}) (hper : ∀ ω φ l, A ω φ (l + 2 * π) ↔ A ω φ l)
    (m : ℝ) (hm : 0 ≤ m) (hP : ∀ φ l, P {ω | A ω φ l} = ENNReal.ofReal m) (G : (ℝ × ℝ) × (ℝ × ℝ) → ℝ≥0∞)
    (hG : ∀ p : (ℝ × ℝ) × (ℝ × ℝ), P {ω | A ω p.1.2 p.1.1 ∧ A ω p.2.2 p.2.1} ≤ ENNReal.ofReal (m ^ 2) + G p) (v : ℝ) (hv : 0 ≤ v)
    (hGv : ∫⁻ p, G p ∂((lightM u1 u2 lat0 lon0).prod (lightM u1 u2 lat0 lon0)) ≤ ENNReal.ofReal v) :
    ∫ ω, (lightShare u1 u2 lat0 lon0 (A ω) - m) ^ 2 ∂P ≤ v ∧
    ∀ ε, 0 < ε → P {ω | ε ≤ |lightShare u1 u2 lat0 lon0 (A ω) - m|} ≤ ENNReal.ofReal (v / ε ^ 2) := by
  have hpr : IsProbabilityMeasure (lightM u1 u2 lat0 lon0) := ⟨lightM_univ hld lat0 lon0⟩
  generalize hμ : lightM u1 u2 lat0 lon0 = μ at hpr hGv
  set X := fun ω => lightShare u1 u2 lat0 lon0 (A ω) with hX
  have hsec : ∀ ω, MeasurableSet {x : ℝ × ℝ | A ω x.2 x.1} := fun ω => measurable_prodMk_left (x := ω) hA
  have hXe : ∀ ω, μ {x : ℝ × ℝ | A ω x.2 x.1} = ENNReal.ofReal (X ω) ∧ 0 ≤ X ω := fun ω =>
    hμ ▸ lightM_apply hld lat0 lon0 (A ω) (hsec ω) (hper ω)
  have hX1 : ∀ ω, X ω ≤ 1 := fun ω => by
    have h := prob_le_one (μ := μ) (s := {x : ℝ × ℝ | A ω x.2 x.1})
    rw [(hXe ω).1, ← ENNReal.ofReal_one] at h
    exact (ENNReal.ofReal_le_ofReal_iff zero_le_one).mp h
  have hXm : Measurable X := by
    have h : Measurable fun ω => μ {x : ℝ × ℝ | A ω x.2 x.1} := section_measurable μ A hA
    have e : X = fun ω => (μ {x : ℝ × ℝ | A ω x.2 x.1}).toReal := by
      funext ω
      rw [(hXe ω).1, ENNReal.toReal_ofReal (hXe ω).2]
    rw [e]
    exact h.ennreal_toReal
  have hb : ∀ k : ℕ, Integrable (fun ω => X ω ^ k) P := fun k =>
    Integrable.of_bound (hXm.pow_const k).aestronglyMeasurable 1 (Filter.Eventually.of_forall fun ω => by
      rw [norm_eq_abs, abs_of_nonneg (pow_nonneg (hXe ω).2 k)]
      exact pow_le_one₀ (hXe ω).2 (hX1 ω))
  have hE : ∫ ω, X ω ∂P = m := mean_light P hld lat0 lon0 A hA hper m hm hP
  have hE2 : ∫ ω, X ω ^ 2 ∂P ≤ m ^ 2 + v := by
    rw [← ENNReal.ofReal_le_ofReal_iff (by positivity), ofReal_integral_eq_lintegral_ofReal (hb 2) (Filter.Eventually.of_forall fun ω => by positivity)]
    have e : ∀ ω, ENNReal.ofReal (X ω ^ 2) = μ {x : ℝ × ℝ | (ω, x) ∈ {y : Ω × ℝ × ℝ | A y.1 y.2.2 y.2.1}} ^ 2 := fun ω => by
      rw [ENNReal.ofReal_pow (hXe ω).2]
      exact congrArg (· ^ 2) (hXe ω).1.symm
    simp only [e]
    rw [second_moment P μ _ hA]
    calc _ ≤ ∫⁻ p, (ENNReal.ofReal (m ^ 2) + G p) ∂(μ.prod μ) := lintegral_mono fun p => hG p
      _ = ENNReal.ofReal (m ^ 2) + ∫⁻ p, G p ∂(μ.prod μ) := by
        rw [lintegral_add_left measurable_const, lintegral_const, measure_univ, mul_one]
      _ ≤ ENNReal.ofReal (m ^ 2) + ENNReal.ofReal v := by gcongr
      _ = _ := (ENNReal.ofReal_add (by positivity) hv).symm
  have hvar : ∫ ω, (X ω - m) ^ 2 ∂P ≤ v := by
    have e : ∀ ω, (X ω - m) ^ 2 = X ω ^ 2 - (2 * m) * X ω + m ^ 2 := fun ω => by ring
    have h1 : Integrable X P := by simpa using hb 1
    have h2 : Integrable (fun ω => X ω ^ 2) P := hb 2
    have h3 : Integrable (fun ω => 2 * m * X ω) P := h1.const_mul _
    simp only [e]
    have h4 : Integrable (fun ω => X ω ^ 2 - 2 * m * X ω) P := h2.sub h3
    rw [integral_add h4 (integrable_const _), integral_sub h2 h3, integral_const_mul, hE, integral_const, probReal_univ, one_smul]
    linarith
  refine ⟨hvar, fun ε hε => ?_⟩
  have hint : Integrable (fun ω => (X ω - m) ^ 2) P := by
    refine Integrable.of_bound ((hXm.sub_const m).pow_const 2).aestronglyMeasurable ((1 + m) ^ 2) (Filter.Eventually.of_forall fun ω => ?_)
    rw [norm_eq_abs, abs_pow]
    have : |X ω - m| ≤ 1 + m := abs_le.mpr ⟨by linarith [(hXe ω).2], by linarith [hX1 ω]⟩
    gcongr
  have hmk := mul_meas_ge_le_lintegral (μ := P) (f := fun ω => ENNReal.ofReal ((X ω - m) ^ 2)) ((hXm.sub_const m).pow_const 2).ennreal_ofReal (ENNReal.ofReal (ε ^ 2))
  rw [← ofReal_integral_eq_lintegral_ofReal hint (Filter.Eventually.of_forall fun ω => by positivity)] at hmk
  have hset : {ω | ε ≤ |X ω - m|} ⊆ {ω | ENNReal.ofReal (ε ^ 2) ≤ ENNReal.ofReal ((X ω - m) ^ 2)} := by
    intro ω hω
    refine ENNReal.ofReal_le_ofReal ?_
    rw [← sq_abs (X ω - m)]
    exact pow_le_pow_left₀ hε.le hω 2
  refine (measure_mono hset).trans ?_
  rw [ENNReal.ofReal_div_of_pos (by positivity), ENNReal.le_div_iff_mul_le (Or.inl (by simpa using hε.ne')) (Or.inl ENNReal.ofReal_ne_top), mul_comm]
  exact hmk.trans (ENNReal.ofReal_le_ofReal hvar)

/-! ### How much light a spot can take -/

/-- Largest intensity over the mean intensity, times four. -/
def Spec.contrast (u1 u2 : ℝ) : ℝ := 4 / (1 - u1 / 3 - u2 / 6)

theorem contrast_pos {u1 u2 : ℝ} (hld : PhysicalLD u1 u2) : 0 < contrast u1 u2 := by
  have h := intensity_total hld 0 0
  rw [h.1] at h
  have hp := pi_pos
  have : 0 < 1 - u1 / 3 - u2 / 6 := by
    by_contra hc
    have : π * (1 - u1 / 3 - u2 / 6) ≤ 0 := mul_nonpos_of_nonneg_of_nonpos hp.le (by linarith)
    linarith [h.2]
  unfold contrast
  positivity

theorem cap_light {u1 u2 : ℝ} (hld : PhysicalLD u1 u2) (lat0 lon0 : ℝ) {R a : ℝ} (hR : 0 < R) (ha : 0 ≤ a) (φ₀ l₀ : ℝ) :
    lightM u1 u2 lat0 lon0 {x | inCap R a φ₀ l₀ x.2 x.1} ≤ ENNReal.ofReal (contrast u1 u2 * capShare R a) := by
  have hp := pi_pos
  have hR2 : 0 < 2 * π * R ^ 2 := by positivity
  obtain ⟨hm, h01, -, hT⟩ := intensity_facts hld lat0 lon0
  have hc := contrast_pos hld
  by_cases h : a ≤ 4 * π * R ^ 2
  · have hcm : Measurable fun p : ℝ × ℝ => cosDist φ₀ l₀ p.1 p.2 := by simp only [cosDist, inner_unitVec]; fun_prop
    have hA : MeasurableSet {p : ℝ × ℝ | 1 - a / (2 * π * R ^ 2) < cosDist φ₀ l₀ p.1 p.2} := measurableSet_lt measurable_const hcm
    have h3 : 0 ≤ a / (2 * π * R ^ 2) := div_nonneg ha hR2.le
    have h4 : a / (2 * π * R ^ 2) ≤ 2 := by rw [div_le_iff₀ hR2]; linarith
    have hs := cap_share φ₀ l₀ (1 - a / (2 * π * R ^ 2)) (by linarith) (by linarith)
    rw [sphereShare_eq _ hA] at hs
    have e : {x : ℝ × ℝ | inCap R a φ₀ l₀ x.2 x.1} = {x : ℝ × ℝ | (x.2, x.1) ∈ {p : ℝ × ℝ | 1 - a / (2 * π * R ^ 2) < cosDist φ₀ l₀ p.1 p.2}} := by
      ext x
      simp [inCap, h]
    have hA' : MeasurableSet {x : ℝ × ℝ | (x.2, x.1) ∈ {p : ℝ × ℝ | 1 - a / (2 * π * R ^ 2) < cosDist φ₀ l₀ p.1 p.2}} :=
      (by fun_prop : Measurable fun x : ℝ × ℝ => (x.2, x.1)) hA
    rw [e, lightM, withDensity_apply _ hA']
    have hle : ∀ x : ℝ × ℝ, ENNReal.ofReal (intensity u1 u2 lat0 lon0 x.2 x.1 / sphereInt (intensity u1 u2 lat0 lon0)) ≤
        ENNReal.ofReal (1 / sphereInt (intensity u1 u2 lat0 lon0)) := fun x => ENNReal.ofReal_le_ofReal (by gcongr; exact (h01 _ _).2)
    refine (lintegral_mono fun x => hle x).trans ?_
    rw [setLIntegral_const]
    have hs' : sphM 0 {x : ℝ × ℝ | (x.2, x.1) ∈ {p : ℝ × ℝ | 1 - a / (2 * π * R ^ 2) < cosDist φ₀ l₀ p.1 p.2}} =
        ENNReal.ofReal ((1 - (1 - a / (2 * π * R ^ 2))) / 2) * ENNReal.ofReal (4 * π) := by
      rw [← hs, ENNReal.div_mul_cancel]
      · simpa using hp
      · exact ENNReal.ofReal_ne_top
    rw [hs', ← ENNReal.ofReal_mul (by linarith), ← ENNReal.ofReal_mul (by positivity)]
    refine ENNReal.ofReal_le_ofReal (le_of_eq ?_)
    rw [(intensity_total hld lat0 lon0).1] at hT ⊢
    have hk : 0 < 1 - u1 / 3 - u2 / 6 := pos_of_mul_pos_right hT hp.le
    rw [capShare, if_pos ⟨ha, h⟩, contrast]
    field_simp
    ring
  · have e : {x : ℝ × ℝ | inCap R a φ₀ l₀ x.2 x.1} = ∅ := by ext x; simp [inCap, h]
    rw [e, measure_empty]
    exact bot_le


theorem capShare_sq_integrable {R : ℝ} (hR : 0 < R) (α : ℝ → ℝ) (hα : Measurable α) : Integrable (fun z => capShare R (α z) ^ 2) (gaussianReal 0 1) :=
  Integrable.of_bound (((capShare_measurable R).comp hα).pow_const 2).aestronglyMeasurable 1 (Filter.Eventually.of_forall fun z => by
    rw [norm_eq_abs, abs_of_nonneg (by positivity)]
    exact pow_le_one₀ (capShare_mem hR).1 (capShare_mem hR).2)

/-- The chance that one spot covers two points of the disk, on average over the light of the points. -/
theorem cover_pairs {u1 u2 : ℝ} (hld : PhysicalLD u1 u2) (lat0 lon0 : ℝ) {R : ℝ} (hR : 0 < R) (α : ℝ → ℝ) (hα : Measurable α) (hα0 : ∀ z, 0 ≤ α z) :
    ∫⁻ p, drawLaw {y | inCap R (α y.2) (arcsin (2 * y.1.1 - 1)) (2 * π * y.1.2) p.1.2 p.1.1 ∧ inCap R (α y.2) (arcsin (2 * y.1.1 - 1)) (2 * π * y.1.2) p.2.2 p.2.1}
      ∂((lightM u1 u2 lat0 lon0).prod (lightM u1 u2 lat0 lon0)) ≤ ENNReal.ofReal (contrast u1 u2 * ∫ z, capShare R (α z) ^ 2 ∂gaussianReal 0 1) := by
  have hpr : IsProbabilityMeasure (lightM u1 u2 lat0 lon0) := ⟨lightM_univ hld lat0 lon0⟩
  have hc := contrast_pos hld
  have hcap : ∀ y : (ℝ × ℝ) × ℝ, lightM u1 u2 lat0 lon0 {x | inCap R (α y.2) (arcsin (2 * y.1.1 - 1)) (2 * π * y.1.2) x.2 x.1} ≤
      ENNReal.ofReal (contrast u1 u2 * capShare R (α y.2)) := fun y => cap_light hld lat0 lon0 hR (hα0 _) _ _
  generalize lightM u1 u2 lat0 lon0 = μ at hpr hcap
  have hS : MeasurableSet {w : ((ℝ × ℝ) × ℝ) × ℝ × ℝ | inCap R (α w.1.2) (arcsin (2 * w.1.1.1 - 1)) (2 * π * w.1.1.2) w.2.2 w.2.1} := by
    have h := (spares_measurable R α hα (fun y : (ℝ × ℝ) × ℝ => y) measurable_id).compl
    have e : {w : ((ℝ × ℝ) × ℝ) × ℝ × ℝ | spares R α w.1 w.2.2 w.2.1}ᶜ =
        {w | inCap R (α w.1.2) (arcsin (2 * w.1.1.1 - 1)) (2 * π * w.1.1.2) w.2.2 w.2.1} := by
      ext w
      simp [spares]
    rwa [e] at h
  have h1 := second_moment drawLaw μ _ hS
  simp only [mem_ofPred_eq] at h1
  rw [← h1]
  have hsm : Measurable fun y : (ℝ × ℝ) × ℝ => μ {x | inCap R (α y.2) (arcsin (2 * y.1.1 - 1)) (2 * π * y.1.2) x.2 x.1} :=
    section_measurable μ (fun (y : (ℝ × ℝ) × ℝ) φ l => inCap R (α y.2) (arcsin (2 * y.1.1 - 1)) (2 * π * y.1.2) φ l) hS
  have hcm : Measurable fun z => ENNReal.ofReal (contrast u1 u2 * capShare R (α z)) := (((capShare_measurable R).comp hα).const_mul _).ennreal_ofReal
  have h2 : ∫⁻ y, μ {x | inCap R (α y.2) (arcsin (2 * y.1.1 - 1)) (2 * π * y.1.2) x.2 x.1} ^ 2 ∂drawLaw ≤
      ∫⁻ y, ENNReal.ofReal (contrast u1 u2 * capShare R (α y.2)) * μ {x | inCap R (α y.2) (arcsin (2 * y.1.1 - 1)) (2 * π * y.1.2) x.2 x.1} ∂drawLaw := by
    refine lintegral_mono fun y => ?_
    rw [sq]
    gcongr
    exact hcap y
  refine h2.trans (le_of_eq ?_)
  have hplace : ∀ z, ∫⁻ p, μ {x | inCap R (α z) (arcsin (2 * p.1 - 1)) (2 * π * p.2) x.2 x.1} ∂(volume.restrict (Ico (0 : ℝ) 1 ×ˢ Ico (0 : ℝ) 1)) =
      ENNReal.ofReal (capShare R (α z)) := by
    intro z
    have hS' : MeasurableSet {w : (ℝ × ℝ) × ℝ × ℝ | inCap R (α z) (arcsin (2 * w.1.1 - 1)) (2 * π * w.1.2) w.2.2 w.2.1} :=
      (by fun_prop : Measurable fun w : (ℝ × ℝ) × ℝ × ℝ => ((w.1, z), w.2)) hS
    have e1 := Measure.prod_apply (μ := volume.restrict (Ico (0 : ℝ) 1 ×ˢ Ico (0 : ℝ) 1)) (ν := μ) hS'
    rw [Measure.prod_apply_symm hS'] at e1
    refine Eq.trans e1.symm ?_
    have e2 : ∀ x : ℝ × ℝ, (volume.restrict (Ico (0 : ℝ) 1 ×ˢ Ico (0 : ℝ) 1))
        ((fun p => (p, x)) ⁻¹' {w : (ℝ × ℝ) × ℝ × ℝ | inCap R (α z) (arcsin (2 * w.1.1 - 1)) (2 * π * w.1.2) w.2.2 w.2.1}) = ENNReal.ofReal (capShare R (α z)) := by
      intro x
      have h := cover_chance hR x.2 x.1 (fun _ => α z) measurable_const (fun _ => hα0 z)
      rw [integral_const, probReal_univ, one_smul] at h
      rw [← h, drawLaw]
      have e3 : {y : (ℝ × ℝ) × ℝ | inCap R (α z) (arcsin (2 * y.1.1 - 1)) (2 * π * y.1.2) x.2 x.1} =
          {p : ℝ × ℝ | inCap R (α z) (arcsin (2 * p.1 - 1)) (2 * π * p.2) x.2 x.1} ×ˢ univ := by ext y; simp
      rw [e3, Measure.prod_prod, measure_univ, mul_one]
      rfl
    simp only [e2]
    rw [lintegral_const, measure_univ, mul_one]
  have hmeas : Measurable fun y : (ℝ × ℝ) × ℝ => ENNReal.ofReal (contrast u1 u2 * capShare R (α y.2)) *
      μ {x | inCap R (α y.2) (arcsin (2 * y.1.1 - 1)) (2 * π * y.1.2) x.2 x.1} := (hcm.comp measurable_snd).mul hsm
  rw [drawLaw, lintegral_prod_symm _ hmeas.aemeasurable]
  have h3 : ∀ z, ∫⁻ p, ENNReal.ofReal (contrast u1 u2 * capShare R (α z)) * μ {x | inCap R (α z) (arcsin (2 * p.1 - 1)) (2 * π * p.2) x.2 x.1}
      ∂(volume.restrict (Ico (0 : ℝ) 1 ×ˢ Ico (0 : ℝ) 1)) = ENNReal.ofReal (contrast u1 u2 * capShare R (α z) ^ 2) := by
    intro z
    rw [lintegral_const_mul' _ _ ENNReal.ofReal_ne_top, hplace z, ← ENNReal.ofReal_mul (mul_nonneg hc.le (capShare_mem hR).1)]
    congr 1
    ring
  simp only [h3]
  rw [← integral_const_mul, ofReal_integral_eq_lintegral_ofReal ((capShare_sq_integrable hR α hα).const_mul _)
    (Filter.Eventually.of_forall fun z => mul_nonneg hc.le (by positivity))]

theorem pairs_measurable (R : ℝ) (α : ℝ → ℝ) (hα : Measurable α) : Measurable fun p : (ℝ × ℝ) × (ℝ × ℝ) => drawLaw {y |
    inCap R (α y.2) (arcsin (2 * y.1.1 - 1)) (2 * π * y.1.2) p.1.2 p.1.1 ∧ inCap R (α y.2) (arcsin (2 * y.1.1 - 1)) (2 * π * y.1.2) p.2.2 p.2.1} := by
  have hS : MeasurableSet {w : ((ℝ × ℝ) × ℝ) × ℝ × ℝ | inCap R (α w.1.2) (arcsin (2 * w.1.1.1 - 1)) (2 * π * w.1.1.2) w.2.2 w.2.1} := by
    have h := (spares_measurable R α hα (fun y : (ℝ × ℝ) × ℝ => y) measurable_id).compl
    have e : {w : ((ℝ × ℝ) × ℝ) × ℝ × ℝ | spares R α w.1 w.2.2 w.2.1}ᶜ =
        {w | inCap R (α w.1.2) (arcsin (2 * w.1.1.1 - 1)) (2 * π * w.1.1.2) w.2.2 w.2.1} := by
      ext w
      simp [spares]
    rwa [e] at h
  have hT : MeasurableSet {w : ((ℝ × ℝ) × (ℝ × ℝ)) × ((ℝ × ℝ) × ℝ) | inCap R (α w.2.2) (arcsin (2 * w.2.1.1 - 1)) (2 * π * w.2.1.2) w.1.1.2 w.1.1.1 ∧
      inCap R (α w.2.2) (arcsin (2 * w.2.1.1 - 1)) (2 * π * w.2.1.2) w.1.2.2 w.1.2.1} :=
    ((by fun_prop : Measurable fun w : ((ℝ × ℝ) × (ℝ × ℝ)) × ((ℝ × ℝ) × ℝ) => (w.2, w.1.1)) hS).inter
      ((by fun_prop : Measurable fun w : ((ℝ × ℝ) × (ℝ × ℝ)) × ((ℝ × ℝ) × ℝ) => (w.2, w.1.2)) hS)
  have h := measurable_measure_prodMk_left (ν := drawLaw) hT
  exact h

/-- Chance that one spot leaves two points uncovered. -/
theorem spare_pair {R : ℝ} (hR : 0 < R) (α : ℝ → ℝ) (hα : Measurable α) (hα0 : ∀ z, 0 ≤ α z) (p : (ℝ × ℝ) × (ℝ × ℝ)) :
    ∃ s q : ℝ, q = ∫ z, capShare R (α z) ∂gaussianReal 0 1 ∧ 0 ≤ s ∧ s ≤ q ∧ 2 * q - s ≤ 1 ∧
      drawLaw {y | inCap R (α y.2) (arcsin (2 * y.1.1 - 1)) (2 * π * y.1.2) p.1.2 p.1.1 ∧
        inCap R (α y.2) (arcsin (2 * y.1.1 - 1)) (2 * π * y.1.2) p.2.2 p.2.1} = ENNReal.ofReal s ∧
      drawLaw ({y | ¬ inCap R (α y.2) (arcsin (2 * y.1.1 - 1)) (2 * π * y.1.2) p.1.2 p.1.1} ∩
        {y | ¬ inCap R (α y.2) (arcsin (2 * y.1.1 - 1)) (2 * π * y.1.2) p.2.2 p.2.1}) = ENNReal.ofReal (1 - (2 * q - s)) := by
  have hb := capShare_mean hR α hα
  set q := ∫ z, capShare R (α z) ∂gaussianReal 0 1
  set C := {y : (ℝ × ℝ) × ℝ | inCap R (α y.2) (arcsin (2 * y.1.1 - 1)) (2 * π * y.1.2) p.1.2 p.1.1} with hC
  set C' := {y : (ℝ × ℝ) × ℝ | inCap R (α y.2) (arcsin (2 * y.1.1 - 1)) (2 * π * y.1.2) p.2.2 p.2.1} with hC'
  have mC : MeasurableSet C := inCap_measurable R _ _ α hα
  have mC' : MeasurableSet C' := inCap_measurable R _ _ α hα
  have h1 : drawLaw.real C = q := by rw [measureReal_def, hC, cover_chance hR _ _ α hα hα0, ENNReal.toReal_ofReal hb.1]
  have h2 : drawLaw.real C' = q := by rw [measureReal_def, hC', cover_chance hR _ _ α hα hα0, ENNReal.toReal_ofReal hb.1]
  have h3 := measureReal_union_add_inter (μ := drawLaw) (s := C) mC'
  have h4 : drawLaw.real (C ∩ C') ≤ drawLaw.real C := measureReal_mono inter_subset_left
  have h5 : drawLaw.real (C ∪ C') ≤ 1 := measureReal_le_one
  have h6 := probReal_compl_eq_one_sub (μ := drawLaw) (mC.union mC')
  rw [h1, h2] at h3
  refine ⟨drawLaw.real (C ∩ C'), q, rfl, measureReal_nonneg, h1 ▸ h4, by linarith, (ofReal_measureReal (s := C ∩ C')).symm, ?_⟩
  have e : ({y | ¬ inCap R (α y.2) (arcsin (2 * y.1.1 - 1)) (2 * π * y.1.2) p.1.2 p.1.1} ∩
      {y | ¬ inCap R (α y.2) (arcsin (2 * y.1.1 - 1)) (2 * π * y.1.2) p.2.2 p.2.1} : Set ((ℝ × ℝ) × ℝ)) = (C ∪ C')ᶜ := by
    ext y
    simp [hC, hC']
  rw [e, ← ofReal_measureReal (s := (C ∪ C')ᶜ), h6]
  congr 1
  linarith

theorem pow_spread {a b c : ℝ} (ha : 0 ≤ a) (hb : 0 ≤ b) (hac : a ≤ c) (hbc : b ≤ c) {s : ℝ} (hs : 0 ≤ s) (hab : a - b ≤ s) (n : ℕ) :
    a ^ n ≤ b ^ n + n * c ^ (n - 1) * s := by
  have hc : 0 ≤ c := ha.trans hac
  rcases le_total a b with h | h
  · have : a ^ n ≤ b ^ n := by gcongr
    have : 0 ≤ n * c ^ (n - 1) * s := by positivity
    linarith
  · have h1 := (Commute.all a b).geom_sum₂_mul n
    have h2 : ∑ i ∈ Finset.range n, a ^ i * b ^ (n - 1 - i) ≤ n * c ^ (n - 1) := by
      calc _ ≤ ∑ i ∈ Finset.range n, c ^ (n - 1) := by
            refine Finset.sum_le_sum fun i hi => ?_
            rw [Finset.mem_range] at hi
            calc _ ≤ c ^ i * c ^ (n - 1 - i) := by gcongr
              _ = c ^ (n - 1) := by rw [← pow_add]; congr 1; omega
        _ = _ := by rw [Finset.sum_const, Finset.card_range, nsmul_eq_mul]
    have h3 : 0 ≤ a - b := by linarith
    have : (∑ i ∈ Finset.range n, a ^ i * b ^ (n - 1 - i)) * (a - b) ≤ n * c ^ (n - 1) * s := by gcongr
    linarith

/-- Scatter of the light that `n` spots leave. -/
theorem batch_scatter {Ω : Type*} [MeasurableSpace Ω] (P : Measure Ω) [IsProbabilityMeasure P] {u1 u2 : ℝ} (hld : PhysicalLD u1 u2) (lat0 lon0 : ℝ)
    {R : ℝ} (hR : 0 < R) (n : ℕ) (y : Ω → Fin n → (ℝ × ℝ) × ℝ) (hm : Measurable y) (hl : P.map y = Measure.pi fun _ => drawLaw)
    (α : ℝ → ℝ) (hα : Measurable α) (hα0 : ∀ z, 0 ≤ α z) (q v : ℝ) (hq : q = ∫ z, capShare R (α z) ∂gaussianReal 0 1)
    (hv : v = contrast u1 u2 * (n * (1 - q) ^ (n - 1) * ∫ z, capShare R (α z) ^ 2 ∂gaussianReal 0 1)) :
    ∫ ω, (lightShare u1 u2 lat0 lon0 (fun φ l => ∀ i, spares R α (y ω i) φ l) - (1 - q) ^ n) ^ 2 ∂P ≤ v ∧
    ∀ ε, 0 < ε → P {ω | ε ≤ |lightShare u1 u2 lat0 lon0 (fun φ l => ∀ i, spares R α (y ω i) φ l) - (1 - q) ^ n|} ≤ ENNReal.ofReal (v / ε ^ 2) := by
  have hc := capShare_mean hR α hα
  rw [← hq] at hc
  have hq1 : 0 ≤ 1 - q := by linarith
  have hk := contrast_pos hld
  have hI : 0 ≤ ∫ z, capShare R (α z) ^ 2 ∂gaussianReal 0 1 := integral_nonneg fun z => by positivity
  have hn0 : 0 ≤ n * (1 - q) ^ (n - 1) := by positivity
  refine scatter P hld lat0 lon0 _ ?_ (fun ω φ l => by simp only [spares_periodic]) _ (pow_nonneg hq1 n) (fun φ l => ?_)
    (fun p => ENNReal.ofReal (n * (1 - q) ^ (n - 1)) *
      drawLaw {y | inCap R (α y.2) (arcsin (2 * y.1.1 - 1)) (2 * π * y.1.2) p.1.2 p.1.1 ∧ inCap R (α y.2) (arcsin (2 * y.1.1 - 1)) (2 * π * y.1.2) p.2.2 p.2.1})
    (fun p => ?_) v ?_ ?_
  · have : {w : Ω × ℝ × ℝ | ∀ i, spares R α (y w.1 i) w.2.2 w.2.1} = ⋂ i, {w : Ω × ℝ × ℝ | spares R α (y w.1 i) w.2.2 w.2.1} := by ext w; simp
    rw [this]
    exact MeasurableSet.iInter fun i => spares_measurable R α hα _ ((measurable_pi_apply i).comp hm)
  · have := all_chance P n y hm hl _ (inCap_measurable R φ l α hα).compl
    rw [show {ω | ∀ i, spares R α (y ω i) φ l} = {ω | ∀ i, y ω i ∈ {y : (ℝ × ℝ) × ℝ | inCap R (α y.2) (arcsin (2 * y.1.1 - 1)) (2 * π * y.1.2) φ l}ᶜ} from rfl,
      this, ENNReal.ofReal_pow (by linarith), hq, ← spare_chance hR φ l α hα hα0]
    rfl
  · obtain ⟨s, q', e1, s0, s1, s2, e2, e3⟩ := spare_pair hR α hα hα0 p
    rw [← hq] at e1
    subst e1
    have hB := all_chance P n y hm hl _ ((inCap_measurable R p.1.2 p.1.1 α hα).compl.inter (inCap_measurable R p.2.2 p.2.1 α hα).compl)
    have e : {ω | (∀ i, spares R α (y ω i) p.1.2 p.1.1) ∧ ∀ i, spares R α (y ω i) p.2.2 p.2.1} =
        {ω | ∀ i, y ω i ∈ {y : (ℝ × ℝ) × ℝ | inCap R (α y.2) (arcsin (2 * y.1.1 - 1)) (2 * π * y.1.2) p.1.2 p.1.1}ᶜ ∩
          {y : (ℝ × ℝ) × ℝ | inCap R (α y.2) (arcsin (2 * y.1.1 - 1)) (2 * π * y.1.2) p.2.2 p.2.1}ᶜ} := by
      ext ω
      simp only [mem_ofPred_eq, mem_inter_iff, forall_and]
      rfl
    have hB' : P {ω | (∀ i, spares R α (y ω i) p.1.2 p.1.1) ∧ ∀ i, spares R α (y ω i) p.2.2 p.2.1} = ENNReal.ofReal (1 - (2 * q' - s)) ^ n := by
      rw [e, hB]
      exact congrArg (· ^ n) e3
    rw [hB', e2, ← ENNReal.ofReal_pow (by linarith), ← ENNReal.ofReal_mul hn0, ← ENNReal.ofReal_add (by positivity) (mul_nonneg hn0 s0)]
    refine ENNReal.ofReal_le_ofReal ?_
    have := pow_spread (a := 1 - (2 * q' - s)) (b := (1 - q') ^ 2) (c := 1 - q') (by linarith) (by positivity) (by linarith)
      (by rw [sq]; exact mul_le_of_le_one_right hq1 (by linarith)) s0 (by nlinarith) n
    rw [← pow_mul, mul_comm n 2, pow_mul]
    linarith
  · rw [hv]
    positivity
  · rw [lintegral_const_mul' _ _ ENNReal.ofReal_ne_top, hv, mul_comm (contrast u1 u2), mul_assoc, mul_comm (∫ z, capShare R (α z) ^ 2 ∂gaussianReal 0 1), ENNReal.ofReal_mul hn0]
    gcongr
    exact cover_pairs hld lat0 lon0 hR α hα hα0

theorem exp_spread {x Q S : ℝ} (hx : 0 ≤ x) (h0 : 0 ≤ S) (h1 : S ≤ Q) : exp (-(x * (2 * Q - S))) ≤ exp (-(x * Q)) ^ 2 + x * exp (-(x * Q)) * S := by
  have e1 : exp (-(x * (2 * Q - S))) = exp (-(x * Q)) ^ 2 * exp (x * S) := by
    rw [sq, ← exp_add, ← exp_add]; congr 1; ring
  have e2 : exp (-(x * Q)) * exp (x * S) ≤ 1 := by
    rw [← exp_add, exp_le_one_iff]
    have : x * S ≤ x * Q := by gcongr
    linarith
  have e3 := add_one_le_exp (-(x * S))
  have e4 : exp (-(x * S)) * exp (x * S) = 1 := by rw [← exp_add]; simp
  have e5 : exp (x * S) ≤ 1 + x * S * exp (x * S) := by
    have : (-(x * S) + 1) * exp (x * S) ≤ exp (-(x * S)) * exp (x * S) := by gcongr
    linarith
  have hm := exp_pos (-(x * Q))
  have hxS : 0 ≤ x * S := by positivity
  rw [e1]
  calc _ ≤ exp (-(x * Q)) ^ 2 * (1 + x * S * exp (x * S)) := by gcongr
    _ = exp (-(x * Q)) ^ 2 + x * S * exp (-(x * Q)) * (exp (-(x * Q)) * exp (x * S)) := by ring
    _ ≤ exp (-(x * Q)) ^ 2 + x * S * exp (-(x * Q)) * 1 := by gcongr
    _ = _ := by ring

/-- Scatter of the light that the spots of `N` steps leave. -/
theorem run_scatter {Ω : Type*} [MeasurableSpace Ω] (P : Measure Ω) [IsProbabilityMeasure P] {u1 u2 : ℝ} (hld : PhysicalLD u1 u2) (lat0 lon0 : ℝ)
    {R : ℝ} (hR : 0 < R) (x : ℝ) (hx : 0 ≤ x) (K : ℕ → Ω → ℕ) (y : ℕ → (n : ℕ) → Ω → Fin n → (ℝ × ℝ) × ℝ) (hF : FairSpots P x K y) (N : ℕ)
    (α : ℕ → ℝ → ℝ) (hα : ∀ j, Measurable (α j)) (hα0 : ∀ j z, 0 ≤ α j z) (m v : ℝ)
    (hm : m = exp (-(x * ∑ j ∈ Finset.range N, ∫ z, capShare R (α j z) ∂gaussianReal 0 1)))
    (hv : v = contrast u1 u2 * (x * m * ∑ j ∈ Finset.range N, ∫ z, capShare R (α j z) ^ 2 ∂gaussianReal 0 1)) :
    ∫ ω, (lightShare u1 u2 lat0 lon0 (fun φ l => ∀ j < N, ∀ i, spares R (α j) (y j (K j ω) ω i) φ l) - m) ^ 2 ∂P ≤ v ∧
    ∀ ε, 0 < ε → P {ω | ε ≤ |lightShare u1 u2 lat0 lon0 (fun φ l => ∀ j < N, ∀ i, spares R (α j) (y j (K j ω) ω i) φ l) - m|} ≤ ENNReal.ofReal (v / ε ^ 2) := by
  have hk := contrast_pos hld
  have hI : ∀ j, 0 ≤ ∫ z, capShare R (α j z) ^ 2 ∂gaussianReal 0 1 := fun j => integral_nonneg fun z => by positivity
  have hm0 : 0 < m := hm ▸ exp_pos _
  have hxm : 0 ≤ x * m := by positivity
  refine scatter P hld lat0 lon0 _ ?_ (fun ω φ l => by simp only [spares_periodic]) _ hm0.le (fun φ l => ?_)
    (fun p => ENNReal.ofReal (x * m) * ∑ j ∈ Finset.range N,
      drawLaw {y | inCap R (α j y.2) (arcsin (2 * y.1.1 - 1)) (2 * π * y.1.2) p.1.2 p.1.1 ∧ inCap R (α j y.2) (arcsin (2 * y.1.1 - 1)) (2 * π * y.1.2) p.2.2 p.2.1})
    (fun p => ?_) v ?_ ?_
  · have : {w : Ω × ℝ × ℝ | ∀ j < N, ∀ i, spares R (α j) (y j (K j w.1) w.1 i) w.2.2 w.2.1} =
        ⋂ j, ⋂ (_ : j < N), ⋃ n, ({w : Ω × ℝ × ℝ | K j w.1 = n} ∩ ⋂ i, {w : Ω × ℝ × ℝ | spares R (α j) (y j n w.1 i) w.2.2 w.2.1}) := by
      ext w
      simp only [mem_ofPred_eq, mem_iUnion, mem_inter_iff, mem_iInter]
      constructor
      · intro h j hj; exact ⟨_, rfl, h j hj⟩
      · intro h j hj
        obtain ⟨n, rfl, h'⟩ := h j hj
        exact h'
    rw [this]
    refine MeasurableSet.iInter fun j => MeasurableSet.iInter fun _ => MeasurableSet.iUnion fun n => MeasurableSet.inter ?_ ?_
    · exact ((hF.count_measurable j).comp measurable_fst) (measurableSet_singleton n)
    · exact MeasurableSet.iInter fun i => spares_measurable R (α j) (hα j) _ ((measurable_pi_apply i).comp (hF.measurable j n))
  · rw [hm]
    exact run_chance P x hx K y hF N (fun j => {y | ¬ inCap R (α j y.2) (arcsin (2 * y.1.1 - 1)) (2 * π * y.1.2) φ l})
      (fun j => (inCap_measurable R φ l (α j) (hα j)).compl) _ (fun j => (capShare_mean hR (α j) (hα j)).2)
      (fun j => spare_chance hR φ l (α j) (hα j) (hα0 j))
  · choose s q e1 s0 s1 s2 e2 e3 using fun j => spare_pair hR (α j) (hα j) (hα0 j) p
    have hB := run_chance P x hx K y hF N (fun j => {y | ¬ inCap R (α j y.2) (arcsin (2 * y.1.1 - 1)) (2 * π * y.1.2) p.1.2 p.1.1} ∩
        {y | ¬ inCap R (α j y.2) (arcsin (2 * y.1.1 - 1)) (2 * π * y.1.2) p.2.2 p.2.1})
      (fun j => (inCap_measurable R p.1.2 p.1.1 (α j) (hα j)).compl.inter (inCap_measurable R p.2.2 p.2.1 (α j) (hα j)).compl) (fun j => 2 * q j - s j) s2 e3
    have e : {ω | (∀ j < N, ∀ i, spares R (α j) (y j (K j ω) ω i) p.1.2 p.1.1) ∧ ∀ j < N, ∀ i, spares R (α j) (y j (K j ω) ω i) p.2.2 p.2.1} =
        {ω | ∀ j < N, ∀ i, y j (K j ω) ω i ∈ ({y | ¬ inCap R (α j y.2) (arcsin (2 * y.1.1 - 1)) (2 * π * y.1.2) p.1.2 p.1.1} ∩
          {y | ¬ inCap R (α j y.2) (arcsin (2 * y.1.1 - 1)) (2 * π * y.1.2) p.2.2 p.2.1} : Set ((ℝ × ℝ) × ℝ))} := by
      ext ω
      exact ⟨fun h j hj i => ⟨h.1 j hj i, h.2 j hj i⟩, fun h => ⟨fun j hj i => (h j hj i).1, fun j hj i => (h j hj i).2⟩⟩
    rw [e, hB]
    simp only [e2]
    rw [← ENNReal.ofReal_sum_of_nonneg fun j _ => s0 j, ← ENNReal.ofReal_mul hxm,
      ← ENNReal.ofReal_add (by positivity) (mul_nonneg hxm (Finset.sum_nonneg fun j _ => s0 j))]
    refine ENNReal.ofReal_le_ofReal ?_
    have h := exp_spread (x := x) (Q := ∑ j ∈ Finset.range N, q j) (S := ∑ j ∈ Finset.range N, s j) hx (Finset.sum_nonneg fun j _ => s0 j)
      (Finset.sum_le_sum fun j _ => s1 j)
    have hm' : exp (-(x * ∑ j ∈ Finset.range N, q j)) = m := by rw [hm]; simp only [e1]
    rw [hm'] at h
    refine le_trans (le_of_eq ?_) h
    rw [Finset.sum_sub_distrib, ← Finset.mul_sum]
  · rw [hv]
    exact mul_nonneg hk.le (mul_nonneg hxm (Finset.sum_nonneg fun j _ => hI j))
  · rw [lintegral_const_mul' _ _ ENNReal.ofReal_ne_top, lintegral_finsetSum _ fun j _ => pairs_measurable R (α j) (hα j), hv, mul_left_comm, ENNReal.ofReal_mul hxm,
      Finset.mul_sum (Finset.range N) (fun j => ∫ z, capShare R (α j z) ^ 2 ∂gaussianReal 0 1) (contrast u1 u2), ENNReal.ofReal_sum_of_nonneg fun j _ => mul_nonneg hk.le (hI j)]
    gcongr with j _
    exact cover_pairs hld lat0 lon0 hR (α j) (hα j) (hα0 j)

/-- **C167** The scatter of the light that randomly placed spots leave.  `κ = 4/(1 − u1/3 − u2/6)`, at most 8 for a physical limb darkening.
* `n` spots that `generate_spots` places independently and uniformly over the sphere, each covering the share `f` of it, leave a share of the light of the disk
  whose mean square deviation from its mean `(1 − f)^n` (C122) is at most `κ n f² (1 − f)^(n−1)`; so the light differs from its mean by `ε` or more with a
  probability of at most that number over `ε²`.
* For the spots born in a time with the expected number `x` of births it is at most `κ x f² exp(−x f)`.
* On a star without spots that goes through `N` steps of births and aging, it is at most `κ w exp(−c)` around the mean `exp(−c)` (C123), where `c` is the
  mean of the summed shares of the sphere that the spots cover at the end, and `w` that of the summed squares of the shares. -/
theorem C167_light_scatter {Ω : Type*} [MeasurableSpace Ω] (P : Measure Ω) [IsProbabilityMeasure P] (u1 u2 : ℝ) (hld : PhysicalLD u1 u2) (lat0 lon0 : ℝ) :
    (∀ (G : SpotGenerator) (R f : ℝ), G.distribution = .iso → 0 < R → 0 ≤ G.initArea → G.initArea ≤ 4 * π * R ^ 2 → f = G.initArea / (4 * π * R ^ 2) →
      (∀ (n : ℕ) (D : Ω → SpotDraws n) (l : Ω → List StarSpot),
        Measurable (fun ω i => ((((D ω).uLat i : ℝ), ((D ω).uLon i : ℝ)), (D ω).z i)) →
        P.map (fun ω i => ((((D ω).uLat i : ℝ), ((D ω).uLon i : ℝ)), (D ω).z i)) = Measure.pi (fun _ => drawLaw) →
        (∀ᵐ ω ∂P, G.generate n (D ω) = .ok (l ω)) →
        ∫ ω, (lightShare u1 u2 lat0 lon0 (uncovered (l ω) R) - (1 - f) ^ n) ^ 2 ∂P ≤ 4 / (1 - u1 / 3 - u2 / 6) * (n * f ^ 2 * (1 - f) ^ (n - 1)) ∧
        ∀ ε, 0 < ε → P {ω | ε ≤ |lightShare u1 u2 lat0 lon0 (uncovered (l ω) R) - (1 - f) ^ n|} ≤
          ENNReal.ofReal (4 / (1 - u1 / 3 - u2 / 6) * (n * f ^ 2 * (1 - f) ^ (n - 1)) / ε ^ 2)) ∧
      (∀ (t x : ℝ) (K : ℕ → Ω → ℕ) (D : ℕ → Ω → (n : ℕ) → SpotDraws n) (l : Ω → List StarSpot), 0 ≤ x → G.nExpected t R = .fin x →
        FairSpots P x K (fun j n ω i => ((((D j ω n).uLat i : ℝ), ((D j ω n).uLon i : ℝ)), (D j ω n).z i)) →
        (∀ᵐ ω ∂P, G.birth t R (K 0 ω) (D 0 ω) = .ok (l ω)) →
        ∫ ω, (lightShare u1 u2 lat0 lon0 (uncovered (l ω) R) - exp (-(x * f))) ^ 2 ∂P ≤ 4 / (1 - u1 / 3 - u2 / 6) * (x * f ^ 2 * exp (-(x * f))) ∧
        ∀ ε, 0 < ε → P {ω | ε ≤ |lightShare u1 u2 lat0 lon0 (uncovered (l ω) R) - exp (-(x * f))|} ≤
          ENNReal.ofReal (4 / (1 - u1 / 3 - u2 / 6) * (x * f ^ 2 * exp (-(x * f))) / ε ^ 2))) ∧
    ∀ (s₀ : Star), GoodGens s₀ → SoundStar s₀ → s₀.spots.spots = [] → s₀.spotGen.initArea ≤ s₀.spotGen.distAreaMean → 0 < s₀.spotGen.growthRate →
      0 < s₀.spotGen.decayRate → 0 ≤ s₀.spotGen.distAreaLogsigma → s₀.spotGen.distribution = .iso → 0 ≤ s₀.spotGen.coverage → 0 < s₀.radius →
      ∀ (dt : ℝ) (N : ℕ), 0 < dt → ∃ x : ℝ, s₀.spotGen.nExpected dt s₀.radius = .fin x ∧
      ∀ (K : ℕ → Ω → ℕ) (D : ℕ → Ω → (n : ℕ) → SpotDraws n) (S : Ω → Star) (c w : ℝ), 0 ≤ c → 0 ≤ w →
      FairSpots P x K (fun j n ω i => ((((D j ω n).uLat i : ℝ), ((D j ω n).uLon i : ℝ)), (D j ω n).z i)) →
      (∀ᵐ ω ∂P, ∀ j n, ∃ k, ∀ i, 0 < (D j ω n).ratios k i) →
      (∀ᵐ ω ∂P, ((List.range N).flatMap fun j => [Op.birthSpots dt (K j ω) (D j ω), Op.age dt]).foldlM runOp s₀ = .ok (S ω)) →
      ∫⁻ ω, (((S ω).spots.spots.map fun s => ENNReal.ofReal (capShare s₀.radius (spotAreaNow s))).sum) ∂P = ENNReal.ofReal c →
      ∫⁻ ω, (((S ω).spots.spots.map fun s => ENNReal.ofReal (capShare s₀.radius (spotAreaNow s) ^ 2)).sum) ∂P = ENNReal.ofReal w →
      ∫ ω, (lightShare u1 u2 lat0 lon0 (uncovered (S ω).spots.spots s₀.radius) - exp (-c)) ^ 2 ∂P ≤ 4 / (1 - u1 / 3 - u2 / 6) * (w * exp (-c)) ∧
      ∀ ε, 0 < ε → P {ω | ε ≤ |lightShare u1 u2 lat0 lon0 (uncovered (S ω).spots.spots s₀.radius) - exp (-c)|} ≤
        ENNReal.ofReal (4 / (1 - u1 / 3 - u2 / 6) * (w * exp (-c)) / ε ^ 2) := by
  have transfer : ∀ (X Y : Ω → ℝ) (m v v' : ℝ), (∀ᵐ ω ∂P, X ω = Y ω) → v = v' →
      (∫ ω, (Y ω - m) ^ 2 ∂P ≤ v ∧ ∀ ε, 0 < ε → P {ω | ε ≤ |Y ω - m|} ≤ ENNReal.ofReal (v / ε ^ 2)) →
      (∫ ω, (X ω - m) ^ 2 ∂P ≤ v' ∧ ∀ ε, 0 < ε → P {ω | ε ≤ |X ω - m|} ≤ ENNReal.ofReal (v' / ε ^ 2)) := by
    rintro X Y m v v' h rfl ⟨h1, h2⟩
    refine ⟨?_, fun ε hε => ?_⟩
    · rw [integral_congr_ae (g := fun ω => (Y ω - m) ^ 2)]
      · exact h1
      · filter_upwards [h] with ω hω
        rw [hω]
    · rw [measure_congr (t := {ω | ε ≤ |Y ω - m|})]
      · exact h2 ε hε
      · filter_upwards [h] with ω hω
        exact congrArg (fun r => ε ≤ |r - m|) hω
  refine ⟨fun G R f hiso hR h0 h1 hf => ⟨fun n D l hm hlaw hl => ?_, fun t x K D l hx hn hF hl => ?_⟩,
    fun s₀ hg h₀ hs hmean hgr hdec hσ hdist hc hR dt N hd => ?_⟩
  · have hcap : capShare R G.initArea = f := hf ▸ if_pos ⟨h0, h1⟩
    have h := batch_scatter P hld lat0 lon0 hR n _ hm hlaw (fun _ => G.initArea) measurable_const (fun _ => h0) f _ (by
      rw [integral_const, probReal_univ, one_smul, hcap]) rfl
    refine transfer _ _ _ _ _ ?_ ?_ h
    · filter_upwards [hl] with ω hω
      rw [generated_uncovered G hiso hR n (D ω) (l ω) hω]
    · rw [integral_const, probReal_univ, one_smul, hcap, contrast]
      ring
  · have hcap : capShare R G.initArea = f := hf ▸ if_pos ⟨h0, h1⟩
    have h := run_scatter P hld lat0 lon0 hR x hx K _ hF 1 (fun _ _ => G.initArea) (fun _ => measurable_const) (fun _ _ => h0) (exp (-(x * f))) _ (by
      rw [Finset.sum_range_one, integral_const, probReal_univ, one_smul, hcap]) rfl
    refine transfer _ _ _ _ _ ?_ ?_ h
    · have hpo := poisson_ok P x hx (K 0) (hF.count_measurable 0) (hF.count 0)
      filter_upwards [hl, hpo] with ω hω hpω
      unfold SpotGenerator.birth at hω
      rw [hn, hpω] at hω
      rw [generated_uncovered G hiso hR _ (D 0 ω (K 0 ω)) (l ω) hω]
      congr 1
      funext φ ψ
      refine propext ⟨fun h j hj => ?_, fun h => h 0 (by norm_num)⟩
      obtain rfl : j = 0 := by omega
      exact h
    · rw [Finset.sum_range_one, integral_const, probReal_univ, one_smul, hcap, contrast]
      ring
  · obtain ⟨x, b3, hx0, hrun⟩ := settled_run P s₀ hg h₀ hs hmean hgr hdec hσ hdist hc hR dt hd N
    refine ⟨x, b3, fun K D S c w hc0 hw0 hF hacc hS hcm hwm => ?_⟩
    obtain ⟨S', hS', hsum, hunc⟩ := hrun K D hF hacc
    have hSS : ∀ᵐ ω ∂P, S ω = S' ω := by
      filter_upwards [hS, hS'] with ω h1 h2
      rw [h1] at h2
      exact Except.ok.inj h2
    have h1 : 0 < s₀.spotGen.initArea := hg.init
    have h2 : 0 < s₀.spotGen.distAreaMean := hg.mean
    set G := s₀.spotGen with hG
    set R := s₀.radius with hRdef
    have hcapm : Measurable (capShare R) := capShare_measurable R
    have hcap0 : capShare R 0 = 0 := by
      unfold capShare; split_ifs <;> simp
    set A : ℕ → ℝ → ℝ := fun k z => spotAreaAt G.initArea (peakOf G.distAreaMean G.distAreaLogsigma z) G.growthRate G.decayRate (k * dt) with hA
    have hAm : ∀ k, Measurable (A k) := fun k => spotAreaAt_measurable h1 h2 _
    -- the two means
    have key : ∀ (F : ℝ → ℝ) (r : ℝ), Measurable F → F 0 = 0 → (∀ a, 0 ≤ F a) → (∀ k, Integrable (fun z => F (A k z)) (gaussianReal 0 1)) → 0 ≤ r →
        ∫⁻ ω, (((S ω).spots.spots.map fun s => ENNReal.ofReal (F (spotAreaNow s))).sum) ∂P = ENNReal.ofReal r →
        r = x * ∑ j ∈ Finset.range N, ∫ z, F (A (N - j) z) ∂gaussianReal 0 1 := by
      intro F r hFm hF0 hFn hFi hr h
      have e0 : ∫⁻ ω, (((S ω).spots.spots.map fun s => ENNReal.ofReal (F (spotAreaNow s))).sum) ∂P =
          ∫⁻ ω, (((S' ω).spots.spots.map fun s => ENNReal.ofReal (F (spotAreaNow s))).sum) ∂P := by
        refine lintegral_congr_ae ?_
        filter_upwards [hSS] with ω hω
        rw [hω]
      have h3 := hsum (fun a => ENNReal.ofReal (F a)) hFm.ennreal_ofReal (by rw [hF0, ENNReal.ofReal_zero])
      rw [← e0, h] at h3
      have e1 : ∀ k ∈ Finset.range N, ∫⁻ z, ENNReal.ofReal (F (spotAreaAt G.initArea (peakOf G.distAreaMean G.distAreaLogsigma z) G.growthRate G.decayRate
          ((k + 1 : ℕ) * dt))) ∂gaussianReal 0 1 = ENNReal.ofReal (∫ z, F (A (k + 1) z) ∂gaussianReal 0 1) := fun k _ =>
        (ofReal_integral_eq_lintegral_ofReal (hFi (k + 1)) (Filter.Eventually.of_forall fun z => hFn _)).symm
      have hs0 : ∀ k, 0 ≤ ∫ z, F (A k z) ∂gaussianReal 0 1 := fun k => integral_nonneg fun z => hFn _
      rw [Finset.sum_congr rfl e1, ← ENNReal.ofReal_sum_of_nonneg fun k _ => hs0 _, ← ENNReal.ofReal_mul hx0,
        ENNReal.ofReal_eq_ofReal_iff hr (mul_nonneg hx0 (Finset.sum_nonneg fun k _ => hs0 _))] at h3
      rw [h3, ← Finset.sum_range_reflect (fun k => ∫ z, F (A (k + 1) z) ∂gaussianReal 0 1)]
      congr 1
      refine Finset.sum_congr rfl fun j hj => ?_
      rw [Finset.mem_range] at hj
      rw [show N - 1 - j + 1 = N - j by omega]
    have hc' := key (capShare R) c hcapm hcap0 (fun a => (capShare_mem hR).1) (fun k => Integrable.of_bound (hcapm.comp (hAm k)).aestronglyMeasurable 1
      (Filter.Eventually.of_forall fun z => by rw [norm_eq_abs, abs_of_nonneg (capShare_mem hR).1]; exact (capShare_mem hR).2)) hc0 hcm
    have hw' := key (fun a => capShare R a ^ 2) w (hcapm.pow_const 2) (by simp only [hcap0]; norm_num) (fun a => by positivity)
      (fun k => capShare_sq_integrable hR (A k) (hAm k)) hw0 hwm
    have h := run_scatter P hld lat0 lon0 hR x hx0 K _ hF N (fun j => A (N - j)) (fun j => hAm _)
      (fun j z => (spotArea_mem h1 (peak_pos h2 z) hgr hdec _).1) (exp (-c)) _ (by rw [hc']) rfl
    refine transfer _ _ _ _ _ ?_ ?_ h
    · filter_upwards [hunc, hSS] with ω hω hω'
      rw [hω', hω]
    · rw [contrast, hw']
      ring

/-- Non-trivial instance of C167: a hundred spots of a thousandth of the sphere each leave a share of the light that differs by a tenth or more from
`0.999^100 ≈ 0.905` with a probability of at most four per cent. -/
example : ∃ l : (ℕ → ℕ × ((n : ℕ) → Fin n → (ℝ × ℝ) × ℝ)) → List StarSpot, (∀ ω, (l ω).length = 100) ∧
    spotSpace 1 {ω | 0.1 ≤ |lightShare 0 0 0 0 (uncovered (l ω) 1000) - 0.999 ^ 100|} ≤ ENNReal.ofReal 0.04 := by
  have hp := pi_pos
  have hok : ∀ ω : ℕ → ℕ × ((n : ℕ) → Fin n → (ℝ × ℝ) × ℝ), ∃ l, lightGen.generate 100 (spaceDraws (ω 0).2 100) = .ok l := fun ω =>
    (C27_generate lightGen 100 _).1 (by norm_num [lightGen]) (by simp [lightGen, SpotGenerator.off]) ⟨0, fun i => by norm_num [SpotDraws.ratios, spaceDraws]⟩
  choose l hl using hok
  refine ⟨l, fun ω => ((C27_generate lightGen 100 _).2.2 _ (hl ω)).1, ?_⟩
  have hF := spotSpace_fair 1
  have hf : (1 / 1000 : ℝ) = lightGen.initArea / (4 * π * 1000 ^ 2) := by
    simp only [lightGen]
    field_simp
    norm_num
  have h := (((C167_light_scatter (spotSpace 1) 0 0 ⟨by norm_num, by norm_num, by norm_num⟩ 0 0).1 lightGen 1000 (1 / 1000) rfl (by norm_num)
    (by simp only [lightGen]; positivity) (by simp only [lightGen]; nlinarith) hf).1 100 (fun ω => spaceDraws (ω 0).2 100) l (hF.measurable 0 100)
    (hF.law 0 100) (Filter.Eventually.of_forall hl)).2 0.1 (by norm_num)
  rw [show (1 - 1 / 1000 : ℝ) = 0.999 by norm_num] at h
  refine h.trans (ENNReal.ofReal_le_ofReal ?_)
  norm_num

end Vsm
