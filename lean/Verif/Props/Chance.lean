import Verif.Props.FlareUse
import Verif.Lemmas.Ortho
import Mathlib.Probability.Distributions.Poisson.Basic
import Mathlib.Probability.Independence.Basic
import Mathlib.MeasureTheory.Function.Floor

/-!
# C108 – C110: what the generators do on average

Spots, faculae and flares are spread evenly over the sphere, flares come at the rate of the flare frequency distribution,
and the expected numbers of new spots and faculae match the coverage that was asked for.
-/

noncomputable section

namespace Vsm

open Real MeasureTheory Set ENNReal ProbabilityTheory

/-- The unit square. -/
def Spec.square : Set (ℝ × ℝ) := Ico 0 1 ×ˢ Ico 0 1

/-- Share of the sphere taken by a region given in latitude and longitude (spec). -/
def Spec.sphereShare (A : Set (ℝ × ℝ)) : ℝ≥0∞ :=
  (∫⁻ l in Ico 0 (2 * π), ∫⁻ φ in Icc (-(π / 2)) (π / 2), ENNReal.ofReal (cos φ) * A.indicator 1 (φ, l)) /
    ENNReal.ofReal (4 * π)

theorem lintegral_arcsin (g : ℝ → ℝ≥0∞) :
    ∫⁻ x in Ico (0 : ℝ) 1, g (arcsin (2 * x - 1)) =
      ENNReal.ofReal (1 / 2) * ∫⁻ φ in Icc (-(π / 2)) (π / 2), ENNReal.ofReal (cos φ) * g φ := by
  have hp := pi_pos
  have himg : (fun φ => (1 + sin φ) / 2) '' Ioo (-(π / 2)) (π / 2) = Ioo 0 1 := by
    ext x
    constructor
    · rintro ⟨φ, h, rfl⟩
      have h1 := mapsTo_sin_Ioo h
      constructor <;> simp only <;> linarith [h1.1, h1.2]
    · rintro ⟨h1, h2⟩
      refine ⟨arcsin (2 * x - 1), ⟨neg_pi_div_two_lt_arcsin.mpr (by linarith), arcsin_lt_pi_div_two.mpr (by linarith)⟩, ?_⟩
      simp only
      rw [sin_arcsin (by linarith) (by linarith)]
      ring
  have hsub := lintegral_image_eq_lintegral_abs_deriv_mul (s := Ioo (-(π / 2)) (π / 2)) (f := fun φ => (1 + sin φ) / 2)
    (f' := fun φ => cos φ / 2) measurableSet_Ioo
    (fun φ _ => (((hasDerivAt_sin φ).const_add 1).div_const 2).hasDerivWithinAt)
    (fun a ha b hb h => injOn_sin (Ioo_subset_Icc_self ha) (Ioo_subset_Icc_self hb) (by simp only at h; linarith))
    (fun x => g (arcsin (2 * x - 1)))
  rw [himg] at hsub
  rw [← setLIntegral_congr Ioo_ae_eq_Ico, hsub, ← setLIntegral_congr Ioo_ae_eq_Icc,
    ← lintegral_const_mul' _ _ ENNReal.ofReal_ne_top]
  refine setLIntegral_congr_fun measurableSet_Ioo fun φ h => ?_
  have hc := cos_pos_of_mem_Ioo h
  rw [show 2 * ((1 + sin φ) / 2) - 1 = sin φ by ring, arcsin_sin h.1.le h.2.le, abs_of_pos (by linarith), ← mul_assoc,
    ← ENNReal.ofReal_mul (by norm_num)]
  congr 2
  ring

theorem lintegral_turn (h : ℝ → ℝ≥0∞) :
    ∫⁻ y in Ico (0 : ℝ) 1, h (2 * π * y) = ENNReal.ofReal (1 / (2 * π)) * ∫⁻ l in Ico 0 (2 * π), h l := by
  have hp := pi_pos
  have himg : (fun y => 2 * π * y) '' Ico 0 1 = Ico 0 (2 * π) := by
    rw [image_mul_left_Ico (by positivity)]; simp
  have hsub := lintegral_image_eq_lintegral_abs_deriv_mul (s := Ico (0 : ℝ) 1) (f := fun y => 2 * π * y)
    (f' := fun _ => 2 * π) measurableSet_Ico
    (fun y _ => by simpa using ((hasDerivAt_id y).const_mul (2 * π)).hasDerivWithinAt)
    (fun a _ b _ h => by simpa [hp.ne'] using h) h
  rw [himg] at hsub
  rw [hsub, abs_of_pos (by positivity), lintegral_const_mul' _ _ ENNReal.ofReal_ne_top, ← mul_assoc,
    ← ENNReal.ofReal_mul (by positivity), one_div_mul_cancel (by positivity), ENNReal.ofReal_one, one_mul]

/-- The uniform distribution on the unit square becomes the uniform distribution on the sphere. -/
theorem square_sphere (A : Set (ℝ × ℝ)) (hA : MeasurableSet A) :
    volume {p | p ∈ Spec.square ∧ (arcsin (2 * p.1 - 1), 2 * π * p.2) ∈ A} = Spec.sphereShare A := by
  have hp := pi_pos
  have hm : Measurable fun p : ℝ × ℝ => (arcsin (2 * p.1 - 1), 2 * π * p.2) := by fun_prop
  have hsq : MeasurableSet Spec.square := measurableSet_Ico.prod measurableSet_Ico
  have h1 : volume {p | p ∈ Spec.square ∧ (arcsin (2 * p.1 - 1), 2 * π * p.2) ∈ A} =
      ∫⁻ p in Spec.square, A.indicator 1 (arcsin (2 * p.1 - 1), 2 * π * p.2) := by
    rw [← lintegral_indicator hsq]
    refine (lintegral_indicator_one (hsq.inter (hm hA))).symm.trans (lintegral_congr fun p => ?_)
    by_cases a : p ∈ Spec.square <;> by_cases b : (arcsin (2 * p.1 - 1), 2 * π * p.2) ∈ A <;>
      simp [indicator, a, b]
  have hi : Measurable (A.indicator (1 : ℝ × ℝ → ℝ≥0∞)) := measurable_one.indicator hA
  rw [h1, Spec.square, Measure.volume_eq_prod, ← Measure.prod_restrict, lintegral_prod_symm (fun p => A.indicator 1 (arcsin (2 * p.1 - 1), 2 * π * p.2)) (hi.comp hm).aemeasurable]
  have h2 : ∀ y : ℝ, ∫⁻ x in Ico (0 : ℝ) 1, A.indicator 1 (arcsin (2 * x - 1), 2 * π * y) =
      ENNReal.ofReal (1 / 2) * ∫⁻ φ in Icc (-(π / 2)) (π / 2), ENNReal.ofReal (cos φ) * A.indicator 1 (φ, 2 * π * y) :=
    fun y => lintegral_arcsin fun φ => A.indicator 1 (φ, 2 * π * y)
  simp only [h2]
  rw [lintegral_const_mul' _ _ ENNReal.ofReal_ne_top,
    lintegral_turn fun l => ∫⁻ φ in Icc (-(π / 2)) (π / 2), ENNReal.ofReal (cos φ) * A.indicator 1 (φ, l),
    Spec.sphereShare, ENNReal.div_eq_inv_mul, ← ENNReal.ofReal_inv_of_pos (by positivity), ← mul_assoc,
    ← ENNReal.ofReal_mul (by norm_num)]
  congr 2
  field_simp
  norm_num

theorem sphereShare_eq (A : Set (ℝ × ℝ)) (hA : MeasurableSet A) :
    Spec.sphereShare A = sphM 0 {x | (x.2, x.1) ∈ A} / ENNReal.ofReal (4 * π) := by
  have hp := pi_pos
  have hm : Measurable fun x : ℝ × ℝ => (x.2, x.1) := by fun_prop
  have hi : Measurable (A.indicator (1 : ℝ × ℝ → ℝ≥0∞)) := measurable_one.indicator hA
  have h1 : sphM 0 {x | (x.2, x.1) ∈ A} = ∫⁻ x, A.indicator 1 (x.2, x.1) ∂sphM 0 := by
    refine (lintegral_indicator_one (hm hA)).symm.trans (lintegral_congr fun p => ?_)
    rfl
  rw [Spec.sphereShare, h1, sphM, lintegral_prod (fun x : ℝ × ℝ => A.indicator 1 (x.2, x.1)) (hi.comp hm).aemeasurable,
    zero_add, setLIntegral_congr (Ioc_ae_eq_Icc.trans Ico_ae_eq_Icc.symm)]
  congr 1
  refine lintegral_congr fun l => ?_
  have := lintegral_withDensity_eq_lintegral_mul (volume.restrict (Ioc (-(π / 2)) (π / 2)))
    (by fun_prop : Measurable fun φ : ℝ => ENNReal.ofReal (cos φ))
    (hi.comp (by fun_prop : Measurable fun φ : ℝ => (φ, l)))
  rw [setLIntegral_congr Ioc_ae_eq_Icc] at this
  exact this.symm

open Spec in
/-- Caps: the share of the sphere within a given angle of a point. -/
theorem cap_share (lat0 lon0 k : ℝ) (h0 : -1 ≤ k) (h1 : k ≤ 1) :
    sphereShare {p | k < cosDist lat0 lon0 p.1 p.2} = ENNReal.ofReal ((1 - k) / 2) := by
  classical
  have hp := pi_pos
  have hcm : Measurable fun p : ℝ × ℝ => cosDist lat0 lon0 p.1 p.2 := by
    simp only [cosDist, inner_unitVec]; fun_prop
  have hA : MeasurableSet {p : ℝ × ℝ | k < cosDist lat0 lon0 p.1 p.2} := measurableSet_lt measurable_const hcm
  rw [sphereShare_eq _ hA]
  have hA' : MeasurableSet {x : ℝ × ℝ | (x.2, x.1) ∈ {p : ℝ × ℝ | k < cosDist lat0 lon0 p.1 p.2}} :=
    (by fun_prop : Measurable fun x : ℝ × ℝ => (x.2, x.1)) hA
  set h : ℝ → ℝ := (Ioi k).indicator 1 with hh
  have hhm : Measurable h := measurable_one.indicator measurableSet_Ioi
  have hz := zonal_integral h hhm 1 (fun x => by simp only [hh, indicator]; split_ifs <;> simp)
    (fun x => by simp only [hh, indicator]; split_ifs <;> simp) lat0 lon0
  rw [← sphM_sphereInt 0 (fun φ l => h (sin lat0 * sin φ + cos lat0 * cos φ * cos (lon0 - l)))
    (sphM_integrable 0 _ (hhm.comp (by fun_prop)) 1 (fun x => by simp only [hh, indicator]; split_ifs <;> simp))
    (fun φ l => by rw [show lon0 - (l + 2 * π) = lon0 - l - 2 * π by ring, cos_sub_two_pi])] at hz
  have e1 : (fun x : ℝ × ℝ => h (sin lat0 * sin x.2 + cos lat0 * cos x.2 * cos (lon0 - x.1))) =
      {x : ℝ × ℝ | (x.2, x.1) ∈ {p : ℝ × ℝ | k < cosDist lat0 lon0 p.1 p.2}}.indicator 1 := by
    funext x
    simp only [hh, indicator, cosDist, inner_unitVec, mem_Ioi, mem_ofPred_eq, Pi.one_apply]
  rw [e1, integral_indicator_one hA'] at hz
  have e2 : ∫ φ in (-(π / 2))..(π / 2), h (sin φ) * cos φ = 1 - k := by
    have e3 : EqOn (fun φ => h (sin φ) * cos φ) ((Ioc (arcsin k) (π / 2)).indicator cos) (Ioc (-(π / 2)) (π / 2)) := by
      intro φ hφ
      have := arcsin_lt_iff_lt_sin' (x := k) (y := φ) (Ioc_subset_Ioc_left le_rfl hφ)
      by_cases hk : k < sin φ
      · simp only [hh]
        rw [indicator_of_mem (by exact hk), indicator_of_mem (show φ ∈ Ioc (arcsin k) (π / 2) from ⟨this.mpr hk, hφ.2⟩)]
        simp
      · simp only [hh]
        rw [indicator_of_notMem (by exact hk), indicator_of_notMem (fun h => hk (this.mp h.1)), zero_mul]
    rw [intervalIntegral.integral_of_le (by linarith), setIntegral_congr_fun measurableSet_Ioc e3,
      setIntegral_indicator measurableSet_Ioc, Ioc_inter_Ioc, max_eq_right (neg_pi_div_two_le_arcsin k), min_self,
      ← intervalIntegral.integral_of_le (arcsin_le_pi_div_two k), integral_cos, sin_pi_div_two, sin_arcsin h0 h1]
  rw [e2] at hz
  rw [← ENNReal.ofReal_toReal (measure_ne_top (sphM 0) _), ← measureReal_def, hz,
    ← ENNReal.ofReal_div_of_pos (by positivity)]
  congr 1
  field_simp
  ring

/-! ### Poisson numbers of draws -/

theorem poisson_mean (r : NNReal) : ∑' n : ℕ, (n : ℝ≥0∞) * poissonMeasure r {n} = r := by
  rw [tsum_eq_zero_add' ENNReal.summable]
  have h : ∀ n : ℕ, ((n + 1 : ℕ) : ℝ≥0∞) * poissonMeasure r {n + 1} = r * poissonMeasure r {n} := by
    intro n
    rw [poissonMeasure_singleton, poissonMeasure_singleton, ← ENNReal.ofReal_natCast, ← ENNReal.ofReal_coe_nnreal,
      ← ENNReal.ofReal_mul (by positivity), ← ENNReal.ofReal_mul (by positivity)]
    congr 1
    rw [Nat.factorial_succ]
    push_cast
    have : (n.factorial : ℝ) ≠ 0 := by positivity
    have : (n : ℝ) + 1 ≠ 0 := by positivity
    field_simp
    try ring
  simp only [h]
  rw [ENNReal.tsum_mul_left]
  have : ∑' n : ℕ, poissonMeasure r {n} = 1 := by
    have := lintegral_countable' (μ := poissonMeasure r) (fun _ : ℕ => 1)
    simpa using this.symm
  simp [this]

open Classical in
theorem mean_count {Ω : Type*} [MeasurableSpace Ω] (P : Measure Ω) (r : NNReal) (K : Ω → ℕ) (hK : Measurable K)
    (hl : P.map K = poissonMeasure r) (A : (n : ℕ) → Fin n → Set Ω) (hA : ∀ n i, MeasurableSet (A n i)) (p : ℝ≥0∞)
    (hp : ∀ n i, P (A n i ∩ K ⁻¹' {n}) = p * P (K ⁻¹' {n})) :
    ∫⁻ ω, ((Finset.univ.filter fun i : Fin (K ω) => ω ∈ A (K ω) i).card : ℝ≥0∞) ∂P = r * p := by
  have hKn : ∀ n, MeasurableSet (K ⁻¹' {n}) := fun n => hK (measurableSet_singleton n)
  have h1 : ∀ ω, ((Finset.univ.filter fun i : Fin (K ω) => ω ∈ A (K ω) i).card : ℝ≥0∞) =
      ∑' n, (K ⁻¹' {n}).indicator (fun ω => ∑ i : Fin n, (A n i).indicator 1 ω) ω := by
    intro ω
    rw [tsum_eq_single (K ω)]
    · rw [indicator_of_mem (by simp)]
      simp [indicator]
    · intro n hn
      rw [indicator_of_notMem (by simpa using hn.symm)]
  have hm : ∀ n, Measurable fun ω => ∑ i : Fin n, (A n i).indicator (1 : Ω → ℝ≥0∞) ω :=
    fun n => Finset.measurable_sum _ fun i _ => measurable_one.indicator (hA n i)
  simp only [h1]
  rw [lintegral_tsum fun n => ((hm n).indicator (hKn n)).aemeasurable]
  have h2 : ∀ n : ℕ, ∫⁻ ω, (K ⁻¹' {n}).indicator (fun ω => ∑ i : Fin n, (A n i).indicator 1 ω) ω ∂P =
      (n : ℝ≥0∞) * poissonMeasure r {n} * p := by
    intro n
    rw [lintegral_indicator (hKn n), lintegral_finsetSum _ fun i _ => measurable_one.indicator (hA n i)]
    have h3 : ∀ i : Fin n, ∫⁻ ω in K ⁻¹' {n}, (A n i).indicator (1 : Ω → ℝ≥0∞) ω ∂P = poissonMeasure r {n} * p := by
      intro i
      rw [lintegral_indicator_one (hA n i), Measure.restrict_apply (hA n i), hp n i, ← hl,
        Measure.map_apply hK (measurableSet_singleton n), mul_comm]
    simp only [h3]
    rw [Finset.sum_const, Finset.card_univ, Fintype.card_fin, nsmul_eq_mul, mul_assoc]
  simp only [h2]
  rw [ENNReal.tsum_mul_right, poisson_mean]

namespace Spec

/-- A Poisson number of flares with the given mean; the uniform draws for energy, latitude and longitude of each flare
are independent of each other and of the number of flares (spec of the numpy generator as far as it matters here). -/
structure FairFlares {Ω : Type*} [MeasurableSpace Ω] (P : Measure Ω) (mean : ℝ) (K : Ω → ℕ)
    (D : Ω → (n : ℕ) → FlareDraws n) : Prop where
  count_measurable : Measurable K
  count : P.map K = poissonMeasure mean.toNNReal
  measurable : ∀ n i, Measurable fun ω => (((D ω n).uE i : ℝ), ((D ω n).uLat i : ℝ), ((D ω n).uLon i : ℝ))
  uniform : ∀ n i, P.map (fun ω => (((D ω n).uE i : ℝ), ((D ω n).uLat i : ℝ), ((D ω n).uLon i : ℝ))) =
    volume.restrict (Ico 0 1 ×ˢ Ico 0 1 ×ˢ Ico 0 1)
  indep : ∀ n i, IndepFun (fun ω => (((D ω n).uE i : ℝ), ((D ω n).uLat i : ℝ), ((D ω n).uLon i : ℝ))) K P

end Spec

theorem countP_ofFn {α : Type*} {n : ℕ} (f : Fin n → α) (q : α → Bool) :
    (List.ofFn f).countP q = (Finset.univ.filter fun i => q (f i) = true).card := by
  induction n with
  | zero => simp
  | succ n ih =>
    rw [List.ofFn_succ, List.countP_cons, ih, Fin.card_filter_univ_succ]
    split_ifs <;> omega

/-- The draws that give an energy above `E`. -/
theorem energy_volume {m α E : ℝ} (hm : 0 < m) (hα : α < 0) (hE : m ≤ E) :
    volume {u : ℝ | u ∈ Ico (0 : ℝ) 1 ∧ E < m * (1 - u) ^ (1 / α)} = ENNReal.ofReal ((E / m) ^ α) := by
  have hE0 : 0 < E := lt_of_lt_of_le hm hE
  have h1 : 1 ≤ E / m := (one_le_div hm).mpr hE
  have h2 : (E / m) ^ α ≤ 1 := rpow_le_one_of_one_le_of_nonpos h1 hα.le
  have h3 : 0 < (E / m) ^ α := rpow_pos_of_pos (by positivity) _
  have hset : {u : ℝ | u ∈ Ico (0 : ℝ) 1 ∧ E < m * (1 - u) ^ (1 / α)} = Ioo (1 - (E / m) ^ α) 1 := by
    ext u
    have key : ∀ x : ℝ, 0 < x → (E < m * x ^ (1 / α) ↔ x < (E / m) ^ α) := by
      intro x hx
      rw [mul_comm, ← div_lt_iff₀ hm]
      constructor
      · intro h
        have := rpow_lt_rpow_of_neg (by positivity) h hα
        rwa [← rpow_mul hx.le, one_div_mul_cancel hα.ne, Real.rpow_one] at this
      · intro h
        have := rpow_lt_rpow_of_neg hx h (one_div_neg.mpr hα)
        rwa [← rpow_mul (by positivity), mul_one_div_cancel hα.ne, Real.rpow_one] at this
    constructor
    · rintro ⟨⟨a, b⟩, c⟩
      rw [key _ (by linarith)] at c
      exact ⟨by linarith, b⟩
    · rintro ⟨a, b⟩
      exact ⟨⟨by linarith, b⟩, (key _ (by linarith)).mpr (by linarith)⟩
  rw [hset, Real.volume_Ioo]
  congr 1
  ring

theorem series_fields (G : FlareGenerator) (m c t : ℝ) (k : ℕ) (d : (n : ℕ) → FlareDraws n)
    (hm : G.minEnergy = .fin m) (hm0 : 0 < m) (ha : G.alpha < 0) (hc : G.clusterSize = .fin c) (hc0 : 0 ≤ c)
    (hw : 0 < G.fwhmMean) (hsw : 0 ≤ G.fwhmLogsigma) (hst : 0 ≤ G.teffSigma) (ht : 0 < t) :
    ∃ l, G.series t k d = .ok l ∧ l.map (fun f => (f.energy, f.lat, f.lon)) = List.ofFn fun i : Fin k =>
      (Fl.fin (m * (1 - ((d k).uE i : ℝ)) ^ (1 / G.alpha)), arcsin (2 * ((d k).uLat i : ℝ) - 1),
        2 * π * ((d k).uLon i : ℝ)) := by
  by_cases hk : k = 0
  · subst hk
    obtain ⟨l, h1, h2, -⟩ := (C51_series.2 G m c t 0 d hm hm0 ha hc hc0 hw hsw hst).2.2 ht
    exact ⟨l, h1, by rw [List.length_eq_zero_iff.mp h2]; simp⟩
  obtain ⟨pk, -, hl, -, e⟩ := series_eq G m c t k hk d hm hm0 ha hc hc0 hsw hst ht
  obtain ⟨m1, m2, m3, m4, -, -⟩ := zipFlares_maps k
    (List.ofFn fun i => (10 : ℝ) ^ (logb 10 G.fwhmMean + G.fwhmLogsigma * (d k).zF i))
    (List.ofFn fun i => .fin (m * (1 - ((d k).uE i : ℝ)) ^ (1 / G.alpha)))
    (List.ofFn fun i => FlareGenerator.drawLat ((d k).uLat i)) (List.ofFn fun i => FlareGenerator.drawLon ((d k).uLon i))
    (List.ofFn fun i => G.teffMean + G.teffSigma * (d k).zT i) (pk.map (· * t))
    (by simp) (by simp) (by simp) (by simp) (by simp) (by simp [hl])
  refine ⟨_, e, ?_⟩
  generalize FlareGenerator.zipFlares _ _ _ _ _ _ = l at m1 m2 m3 m4
  have hlen : l.length = k := by simpa using congrArg List.length m1
  refine List.ext_getElem (by simp [hlen]) fun j h1 h2 => ?_
  have hj : j < l.length := by simpa using h1
  have a2 := congrArg (fun x => x[j]?) m2
  have a3 := congrArg (fun x => x[j]?) m3
  have a4 := congrArg (fun x => x[j]?) m4
  simp only [List.getElem?_map, List.getElem?_eq_getElem hj, Option.map_some, List.getElem?_ofFn, hlen ▸ hj, dite_true,
    Option.some.injEq] at a2 a3 a4
  simp only [List.getElem_map, List.getElem_ofFn, a2, a3, a4, FlareGenerator.drawLat, FlareGenerator.drawLon, isoLat_eq,
    isoLon_eq]

open Classical in
/-- **C109** The expected number of flares of `generate_flare_series(time)` with an energy above `E` in a region of the
star is `get_nexp_greater_than(E, time)` times the share of the sphere taken by that region. -/
theorem C109_flare_rate {Ω : Type*} [MeasurableSpace Ω] (P : Measure Ω) (G : FlareGenerator) (m c t E : ℝ)
    (K : Ω → ℕ) (D : Ω → (n : ℕ) → FlareDraws n) (A : Set (ℝ × ℝ)) (hA : MeasurableSet A)
    (hm : G.minEnergy = .fin m) (hm0 : 0 < m) (ha : G.alpha < 0) (hc : G.clusterSize = .fin c) (hc0 : 0 ≤ c)
    (hw : 0 < G.fwhmMean) (hsw : 0 ≤ G.fwhmLogsigma) (hst : 0 ≤ G.teffSigma) (ht : 0 < t) (hE : m ≤ E) :
    ∃ total above : ℝ, G.nTotal t = .fin total ∧ G.nexpGreaterThan (.fin E) t = .fin above ∧
      (Spec.FairFlares P total K D → ∃ l : Ω → List StellarFlare, (∀ ω, G.series t (K ω) (D ω) = .ok (l ω)) ∧
        ∫⁻ ω, ((l ω).countP fun f => decide (Fl.fin E < f.energy ∧ (f.lat, f.lon) ∈ A) : ℝ≥0∞) ∂P =
          ENNReal.ofReal above * Spec.sphereShare A) := by
  have hE0 : 0 < E := lt_of_lt_of_le hm0 hE
  refine ⟨10 ^ G.beta * m ^ G.alpha * t, 10 ^ G.beta * E ^ G.alpha * t, ?_, nexp_fin G hE0 t, ?_⟩
  · unfold FlareGenerator.nTotal
    rw [hm, nexp_fin G hm0]
  intro hF
  choose l hl1 hl2 using fun ω => series_fields G m c t (K ω) (D ω) hm hm0 ha hc hc0 hw hsw hst ht
  refine ⟨l, hl1, ?_⟩
  set B : Set (ℝ × ℝ × ℝ) := {x | E < m * (1 - x.1) ^ (1 / G.alpha) ∧ (arcsin (2 * x.2.1 - 1), 2 * π * x.2.2) ∈ A} with hB
  have hBm : MeasurableSet B := by
    refine MeasurableSet.inter (measurableSet_lt measurable_const
      (by fun_prop : Measurable fun x : ℝ × ℝ × ℝ => m * (1 - x.1) ^ (1 / G.alpha))) ?_
    exact (by fun_prop : Measurable fun x : ℝ × ℝ × ℝ => (arcsin (2 * x.2.1 - 1), 2 * π * x.2.2)) hA
  have h1 : ∀ ω, ((l ω).countP fun f => decide (Fl.fin E < f.energy ∧ (f.lat, f.lon) ∈ A)) =
      (Finset.univ.filter fun i : Fin (K ω) => ω ∈ (fun ω' => (((D ω' (K ω)).uE i : ℝ), ((D ω' (K ω)).uLat i : ℝ),
        ((D ω' (K ω)).uLon i : ℝ))) ⁻¹' B).card := by
    intro ω
    have : (l ω).countP (fun f => decide (Fl.fin E < f.energy ∧ (f.lat, f.lon) ∈ A)) =
        ((l ω).map fun f => (f.energy, f.lat, f.lon)).countP (fun x => decide (Fl.fin E < x.1 ∧ x.2 ∈ A)) := by
      rw [List.countP_map]; rfl
    rw [this, hl2, countP_ofFn]
    congr 1
    refine Finset.filter_congr fun i _ => ?_
    simp only [decide_eq_true_eq, Fl.fin_lt, hB, mem_preimage, mem_ofPred_eq]
  simp only [h1]
  have h2 := mean_count P (10 ^ G.beta * m ^ G.alpha * t).toNNReal K hF.count_measurable hF.count
    (fun n i => (fun ω' => (((D ω' n).uE i : ℝ), ((D ω' n).uLat i : ℝ), ((D ω' n).uLon i : ℝ))) ⁻¹' B)
    (fun n i => hF.measurable n i hBm) (ENNReal.ofReal ((E / m) ^ G.alpha) * Spec.sphereShare A) (fun n i => by
      rw [(hF.indep n i).measure_inter_preimage_eq_mul _ _ hBm (measurableSet_singleton n),
        ← Measure.map_apply (hF.measurable n i) hBm, hF.uniform n i, Measure.restrict_apply hBm]
      congr 1
      rw [← energy_volume hm0 ha hE, ← square_sphere A hA, ← Measure.prod_prod, ← Measure.volume_eq_prod]
      congr 1
      ext x
      simp only [hB, Spec.square, mem_inter_iff, mem_prod, mem_ofPred_eq]
      tauto)
  rw [h2, ← mul_assoc]
  congr 1
  rw [← ENNReal.ofReal_coe_nnreal, Real.coe_toNNReal _ (by positivity), ← ENNReal.ofReal_mul (by positivity),
    div_rpow hE0.le hm0.le]
  congr 1
  have : m ^ G.alpha ≠ 0 := (rpow_pos_of_pos hm0 _).ne'
  field_simp

/-! ### Spots and faculae -/

namespace Spec

/-- A pair of uniform draws in `[0,1)`, independent of each other (spec). -/
structure FairPair {Ω : Type*} [MeasurableSpace Ω] (P : Measure Ω) (u v : Ω → ℝ) : Prop where
  measurable : Measurable fun ω => (u ω, v ω)
  uniform : P.map (fun ω => (u ω, v ω)) = volume.restrict (Ico 0 1 ×ˢ Ico 0 1)

/-- A Poisson number of births with the given mean; the uniform draws for latitude and longitude are independent of each
other and of that number (spec of the numpy generator as far as it matters here). -/
structure FairBirths {Ω : Type*} [MeasurableSpace Ω] (P : Measure Ω) (mean : ℝ) (K : Ω → ℕ)
    (uLat uLon : Ω → (n : ℕ) → Fin n → ℝ) : Prop where
  count_measurable : Measurable K
  count : P.map K = poissonMeasure mean.toNNReal
  place : ∀ n i, FairPair P (fun ω => uLat ω n i) (fun ω => uLon ω n i)
  indep : ∀ n i, IndepFun (fun ω => (uLat ω n i, uLon ω n i)) K P

end Spec

theorem spot_fields (G : SpotGenerator) (n : ℕ) (d : SpotDraws n) (l : List StarSpot) (hiso : G.distribution = .iso)
    (h : G.generate n d = .ok l) : l.map (fun s => (s.lat, s.lon)) =
      List.ofFn fun i => (arcsin (2 * (d.uLat i : ℝ) - 1), 2 * π * (d.uLon i : ℝ)) := by
  unfold SpotGenerator.generate at h
  by_cases h1 : G.distAreaLogsigma < 0
  · rw [if_pos h1] at h; cases h
  rw [if_neg h1] at h
  cases ha : SpotGenerator.acceptRatios d with
  | none => rw [ha] at h; cases h
  | some q =>
    rw [ha] at h
    simp only at h
    split_ifs at h with h2
    simp only [Except.ok.injEq] at h
    subst h
    rw [List.map_ofFn]
    congr 1
    funext i
    simp only [Function.comp, StarSpot.new, SpotGenerator.drawLat, SpotGenerator.drawLon, hiso]
    rw [isoLat_eq, isoLon_eq]

theorem facula_fields (G : FaculaGenerator) (n : ℕ) (d : FaculaDraws n) :
    (G.generate n d).map (fun f => (f.lat, f.lon)) =
      List.ofFn fun i => (arcsin (2 * (d.uLat i : ℝ) - 1), 2 * π * (d.uLon i : ℝ)) := by
  unfold FaculaGenerator.generate
  rw [List.map_ofFn]
  congr 1
  funext i
  simp only [Function.comp, FaculaGenerator.drawLat, FaculaGenerator.drawLon]
  rw [isoLat_eq, isoLon_eq]

theorem place_measurable (A : Set (ℝ × ℝ)) (hA : MeasurableSet A) :
    MeasurableSet {x : ℝ × ℝ | (arcsin (2 * x.1 - 1), 2 * π * x.2) ∈ A} :=
  (by fun_prop : Measurable fun x : ℝ × ℝ => (arcsin (2 * x.1 - 1), 2 * π * x.2)) hA

theorem fair_place {Ω : Type*} [MeasurableSpace Ω] (P : Measure Ω) (u v : Ω → ℝ) (h : Spec.FairPair P u v)
    (A : Set (ℝ × ℝ)) (hA : MeasurableSet A) :
    P {ω | (arcsin (2 * u ω - 1), 2 * π * v ω) ∈ A} = Spec.sphereShare A := by
  have hB := place_measurable A hA
  have := Measure.map_apply (μ := P) h.measurable hB
  rw [h.uniform, Measure.restrict_apply hB] at this
  rw [← square_sphere A hA]
  refine Eq.trans ?_ (this.symm.trans ?_)
  · rfl
  · congr 1
    ext x
    simp only [Spec.square, mem_inter_iff, mem_ofPred_eq, and_comm]

open Spec in
/-- **C108** Isotropic spots and faculae are uniformly distributed over the sphere: each generated one falls into a region
with the probability that is the region's share of the sphere – for the surroundings of radius `r` of any point this is
`(1 - cos r)/2`. -/
theorem C108_uniform_positions {Ω : Type*} [MeasurableSpace Ω] (P : Measure Ω) (A : Set (ℝ × ℝ)) (hA : MeasurableSet A)
    (n : ℕ) (i : Fin n) :
    (∀ (G : SpotGenerator) (D : Ω → SpotDraws n) (l : Ω → List StarSpot), G.distribution = .iso →
      FairPair P (fun ω => (D ω).uLat i) (fun ω => (D ω).uLon i) → (∀ ω, G.generate n (D ω) = .ok (l ω)) →
      P {ω | ∃ s, (l ω)[(i : ℕ)]? = some s ∧ (s.lat, s.lon) ∈ A} = sphereShare A) ∧
    (∀ (G : FaculaGenerator) (D : Ω → FaculaDraws n), FairPair P (fun ω => (D ω).uLat i) (fun ω => (D ω).uLon i) →
      P {ω | ∃ f, (G.generate n (D ω))[(i : ℕ)]? = some f ∧ (f.lat, f.lon) ∈ A} = sphereShare A) ∧
    (∀ lat0 lon0 r, 0 ≤ r → r ≤ π →
      sphereShare {p | greatCircle lat0 lon0 p.1 p.2 < r} = ENNReal.ofReal ((1 - cos r) / 2)) ∧
    sphereShare univ = 1 := by
  have key : ∀ {β : Type} (l : List β) (f : β → ℝ × ℝ) (g : Fin n → ℝ × ℝ), l.map f = List.ofFn g →
      ((∃ s, l[(i : ℕ)]? = some s ∧ f s ∈ A) ↔ g i ∈ A) := by
    intro β l f g h
    have h1 := congrArg (fun x => x[(i : ℕ)]?) h
    simp only [List.getElem?_map, List.getElem?_ofFn, i.2, dite_true, Fin.eta] at h1
    rw [Option.map_eq_some_iff] at h1
    obtain ⟨s, h2, h3⟩ := h1
    rw [h2]
    constructor
    · rintro ⟨s', h4, h5⟩
      cases h4
      rwa [h3] at h5
    · intro h4
      exact ⟨s, rfl, by rwa [h3]⟩
  refine ⟨?_, ?_, ?_, ?_⟩
  · intro G D l hiso hf hl
    rw [← fair_place P _ _ hf A hA]
    congr 1
    ext ω
    exact key _ (fun s : StarSpot => (s.lat, s.lon)) _ (spot_fields G n (D ω) (l ω) hiso (hl ω))
  · intro G D hf
    rw [← fair_place P _ _ hf A hA]
    congr 1
    ext ω
    exact key _ (fun s : Facula => (s.lat, s.lon)) _ (facula_fields G n (D ω))
  · intro lat0 lon0 r h0 h1
    rw [← cap_share lat0 lon0 (cos r) (neg_one_le_cos r) (cos_le_one r)]
    congr 1
    ext p
    simp only [mem_ofPred_eq]
    rw [greatCircle_eq, cosDist, inner_unitVec]
    constructor
    · intro h
      have := cos_lt_cos_of_nonneg_of_le_pi (arccos_nonneg _) h1 h
      rwa [cos_arccos (cosExpr_mem _ _ _ _).1 (cosExpr_mem _ _ _ _).2] at this
    · intro h
      rw [← arccos_cos h0 h1]
      exact arccos_lt_arccos (neg_one_le_cos r) h (cosExpr_mem _ _ _ _).2
  · rw [← square_sphere univ MeasurableSet.univ]
    have : {p : ℝ × ℝ | p ∈ Spec.square ∧ (arcsin (2 * p.1 - 1), 2 * π * p.2) ∈ univ} = Ico 0 1 ×ˢ Ico 0 1 := by
      ext p; simp [Spec.square]
    rw [this, Measure.volume_eq_prod, Measure.prod_prod]
    simp

theorem births_mean {Ω : Type*} [MeasurableSpace Ω] (P : Measure Ω) (mean : ℝ) (hmean : 0 ≤ mean) (K : Ω → ℕ)
    (uLat uLon : Ω → (n : ℕ) → Fin n → ℝ) (hF : Spec.FairBirths P mean K uLat uLon) (A : Set (ℝ × ℝ))
    (hA : MeasurableSet A) (N : Ω → ℕ)
    (hN : ∀ᵐ ω ∂P, N ω = (open Classical in List.countP (fun x => decide (x ∈ A)) (List.ofFn fun i : Fin (K ω) =>
      (arcsin (2 * uLat ω (K ω) i - 1), 2 * π * uLon ω (K ω) i)))) :
    ∫⁻ ω, (N ω : ℝ≥0∞) ∂P = ENNReal.ofReal mean * Spec.sphereShare A := by
  classical
  have hB := place_measurable A hA
  have h1 : ∀ᵐ ω ∂P, (N ω : ℝ≥0∞) = ((Finset.univ.filter fun i : Fin (K ω) => ω ∈ (fun ω' => (uLat ω' (K ω) i, uLon ω' (K ω) i)) ⁻¹'
      {x : ℝ × ℝ | (arcsin (2 * x.1 - 1), 2 * π * x.2) ∈ A}).card : ℝ≥0∞) := by
    filter_upwards [hN] with ω h
    rw [h, countP_ofFn]
    congr 2
    refine Finset.filter_congr fun i _ => ?_
    simp only [decide_eq_true_eq, mem_preimage, mem_ofPred_eq]
  rw [lintegral_congr_ae h1]
  have := mean_count P mean.toNNReal K hF.count_measurable hF.count
    (fun n i => (fun ω' => (uLat ω' n i, uLon ω' n i)) ⁻¹' {x : ℝ × ℝ | (arcsin (2 * x.1 - 1), 2 * π * x.2) ∈ A})
    (fun n i => (hF.place n i).measurable hB) (Spec.sphereShare A) (fun n i => by
      rw [(hF.indep n i).measure_inter_preimage_eq_mul _ _ hB (measurableSet_singleton n)]
      congr 1
      exact fair_place P _ _ (hF.place n i) A hA)
  rw [this, ← ENNReal.ofReal_coe_nnreal, Real.coe_toNNReal _ hmean]

theorem poisson_ok {Ω : Type*} [MeasurableSpace Ω] (P : Measure Ω) (mean : ℝ) (hmean : 0 ≤ mean) (K : Ω → ℕ)
    (hK : Measurable K) (hl : P.map K = poissonMeasure mean.toNNReal) :
    ∀ᵐ ω ∂P, Np.poisson (.fin mean) (K ω) = .ok (K ω) := by
  unfold Np.poisson
  simp only [not_lt.mpr hmean, if_false]
  by_cases h : mean = 0
  · subst h
    have h0 : poissonMeasure (0 : ℝ).toNNReal {0}ᶜ = 0 := by
      rw [prob_compl_eq_zero_iff (measurableSet_singleton 0), poissonMeasure_singleton]
      simp
    rw [← hl, Measure.map_apply hK (measurableSet_singleton 0).compl] at h0
    have : ∀ᵐ ω ∂P, K ω = 0 := by
      rw [ae_iff]
      exact h0
    filter_upwards [this] with ω hω
    simp [hω]
  · simp [h]

open Classical Spec in
/-- **C110** On average `birth_spots` and `birth_faculae` make as many spots (faculae) as announced by
`get_n_spots_to_birth` (`get_n_faculae_expected`), and a region of the sphere gets its share of them. -/
theorem C110_births {Ω : Type*} [MeasurableSpace Ω] (P : Measure Ω) (A : Set (ℝ × ℝ)) (hA : MeasurableSet A) (t R x : ℝ)
    (hx : 0 ≤ x) (K : Ω → ℕ) :
    (∀ (G : SpotGenerator) (D : Ω → (n : ℕ) → SpotDraws n), G.distribution = .iso → 0 ≤ G.distAreaLogsigma →
      G.nExpected t R = .fin x → FairBirths P x K (fun ω n i => (D ω n).uLat i) (fun ω n i => (D ω n).uLon i) →
      (∀ᵐ ω ∂P, ∀ n, ∃ k, ∀ i, 0 < (D ω n).ratios k i) →
      ∃ l : Ω → List StarSpot, (∀ᵐ ω ∂P, G.birth t R (K ω) (D ω) = .ok (l ω)) ∧
        ∫⁻ ω, ((l ω).countP fun s => decide ((s.lat, s.lon) ∈ A) : ℝ≥0∞) ∂P = ENNReal.ofReal x * sphereShare A) ∧
    (∀ (G : FaculaGenerator) (D : Ω → (n : ℕ) → FaculaDraws n),
      G.nExpected t R = .fin x → FairBirths P x K (fun ω n i => (D ω n).uLat i) (fun ω n i => (D ω n).uLon i) →
      ∃ l : Ω → List Facula, (∀ᵐ ω ∂P, G.birth t R (K ω) (D ω) = .ok (l ω)) ∧
        ∫⁻ ω, ((l ω).countP fun f => decide ((f.lat, f.lon) ∈ A) : ℝ≥0∞) ∂P = ENNReal.ofReal x * sphereShare A) := by
  constructor
  · intro G D hiso hσ hn hF hacc
    have h1 : ∀ ω, ∃ l, (∀ n, ∃ k, ∀ i, 0 < (D ω n).ratios k i) → G.generate (K ω) (D ω (K ω)) = .ok l := by
      intro ω
      by_cases h : ∀ n, ∃ k, ∀ i, 0 < (D ω n).ratios k i
      · have ha : SpotGenerator.acceptRatios (D ω (K ω)) = some ((D ω (K ω)).ratios (Nat.find (h (K ω)))) := by
          unfold SpotGenerator.acceptRatios
          rw [dif_pos (h (K ω))]
        unfold SpotGenerator.generate
        rw [if_neg (not_lt.mpr hσ), ha]
        simp only
        rw [if_neg (by rw [hiso]; simp)]
        exact ⟨_, fun _ => rfl⟩
      · exact ⟨[], fun h' => absurd h' h⟩
    choose l hl using h1
    refine ⟨l, ?_, ?_⟩
    · filter_upwards [hacc, poisson_ok P x hx K hF.count_measurable hF.count] with ω h2 h3
      rw [SpotGenerator.birth, hn, h3]
      exact hl ω h2
    · refine births_mean P x hx K _ _ hF A hA _ ?_
      filter_upwards [hacc] with ω h2
      rw [← spot_fields G _ _ _ hiso (hl ω h2), List.countP_map]
      rfl
  · intro G D hn hF
    refine ⟨fun ω => G.generate (K ω) (D ω (K ω)), ?_, ?_⟩
    · filter_upwards [poisson_ok P x hx K hF.count_measurable hF.count] with ω h3
      rw [FaculaGenerator.birth, hn, h3]
      rfl
    · refine births_mean P x hx K _ _ hF A hA _ (Filter.Eventually.of_forall fun ω => ?_)
      rw [← facula_fields G, List.countP_map]
      rfl

/-! ### The hypotheses can be met -/

/-- A probability space for the draws. -/
def fairSpace (mean : ℝ) : Measure (ℕ × ℝ × ℝ × ℝ) :=
  (poissonMeasure mean.toNNReal).prod (volume.restrict (Ico 0 1 ×ˢ Ico 0 1 ×ˢ Ico 0 1))

/-- A number in `[0,1)`. -/
def unitDraw (x : ℝ) : Ico (0 : ℝ) 1 := ⟨Int.fract x, Int.fract_nonneg x, Int.fract_lt_one x⟩

/-- Draws of flares; all flares of a series get the same energy and place. -/
def fairFlareDraws (ω : ℕ × ℝ × ℝ × ℝ) (n : ℕ) : FlareDraws n :=
  { uE := fun _ => unitDraw ω.2.1, clusters := fun _ => 1, expo := fun _ => ⟨1, by simp⟩, zF := fun _ => 0,
    zT := fun _ => 0, uLat := fun _ => unitDraw ω.2.2.1, uLon := fun _ => unitDraw ω.2.2.2 }

theorem fair_cube : IsProbabilityMeasure (volume.restrict (Ico (0 : ℝ) 1 ×ˢ Ico (0 : ℝ) 1 ×ˢ Ico (0 : ℝ) 1)) := by
  constructor
  rw [Measure.restrict_apply_univ, Measure.volume_eq_prod, Measure.prod_prod, Measure.volume_eq_prod, Measure.prod_prod]
  simp

theorem fairSpace_flares (mean : ℝ) :
    Spec.FairFlares (fairSpace mean) mean (fun ω => ω.1) (fun ω n => fairFlareDraws ω n) := by
  have := fair_cube
  have hm : Measurable fun x : ℝ × ℝ × ℝ => (Int.fract x.1, Int.fract x.2.1, Int.fract x.2.2) :=
    (measurable_fract.comp measurable_fst).prodMk ((measurable_fract.comp (measurable_fst.comp measurable_snd)).prodMk
      (measurable_fract.comp (measurable_snd.comp measurable_snd)))
  have hlaw : (volume.restrict (Ico (0 : ℝ) 1 ×ˢ Ico (0 : ℝ) 1 ×ˢ Ico (0 : ℝ) 1)).map
      (fun x : ℝ × ℝ × ℝ => (Int.fract x.1, Int.fract x.2.1, Int.fract x.2.2)) =
      volume.restrict (Ico (0 : ℝ) 1 ×ˢ Ico (0 : ℝ) 1 ×ˢ Ico (0 : ℝ) 1) := by
    refine (Measure.map_congr ?_).trans Measure.map_id
    filter_upwards [ae_restrict_mem (measurableSet_Ico.prod (measurableSet_Ico.prod measurableSet_Ico))] with x hx
    simp only [mem_prod, mem_Ico] at hx
    obtain ⟨h1, h2, h3⟩ := hx
    simp only [id, Int.fract_eq_self.mpr h1, Int.fract_eq_self.mpr h2, Int.fract_eq_self.mpr h3]
  refine ⟨measurable_fst, ?_, fun n i => hm.comp measurable_snd, fun n i => ?_, fun n i => ?_⟩
  · exact Measure.fst_prod
  · change (fairSpace mean).map ((fun x : ℝ × ℝ × ℝ => (Int.fract x.1, Int.fract x.2.1, Int.fract x.2.2)) ∘ Prod.snd) = _
    rw [← Measure.map_map hm measurable_snd, fairSpace]
    change Measure.map _ (Measure.snd _) = _
    rw [Measure.snd_prod, hlaw]
  · exact (indepFun_prod (X := fun k : ℕ => k) (Y := fun x : ℝ × ℝ × ℝ => (Int.fract x.1, Int.fract x.2.1, Int.fract x.2.2))
      measurable_id hm).symm

open Classical Spec in
/-- Non-trivial instance of C109: of the 5 flares per day expected above twice the minimum energy, 5/2 are expected on the
near side, wherever the observer is. -/
example (lat0 lon0 : ℝ) : ∃ (P : Measure (ℕ × ℝ × ℝ × ℝ)) (K : ℕ × ℝ × ℝ × ℝ → ℕ)
    (D : ℕ × ℝ × ℝ × ℝ → (n : ℕ) → FlareDraws n) (l : ℕ × ℝ × ℝ × ℝ → List StellarFlare), IsProbabilityMeasure P ∧
    (∀ ω, sampleFlareGen.series 1 (K ω) (D ω) = .ok (l ω)) ∧
    ∫⁻ ω, ((l ω).countP fun f => decide (Fl.fin 20 < f.energy ∧
      (f.lat, f.lon) ∈ {p : ℝ × ℝ | 0 < cosDist lat0 lon0 p.1 p.2}) : ℝ≥0∞) ∂P = ENNReal.ofReal (5 / 2) := by
  have hA : MeasurableSet {p : ℝ × ℝ | 0 < cosDist lat0 lon0 p.1 p.2} := by
    refine measurableSet_lt measurable_const ?_
    simp only [cosDist, inner_unitVec]; fun_prop
  obtain ⟨total, above, h1, h2, h3⟩ := C109_flare_rate (fairSpace 10) sampleFlareGen 10 2 1 20 (fun ω => ω.1)
    (fun ω n => fairFlareDraws ω n) _ hA rfl (by norm_num) (by norm_num [sampleFlareGen]) rfl (by norm_num)
    (by norm_num [sampleFlareGen]) (by norm_num [sampleFlareGen]) (by norm_num [sampleFlareGen]) one_pos (by norm_num)
  have e1 : total = 10 := by
    unfold FlareGenerator.nTotal at h1
    rw [show sampleFlareGen.minEnergy = .fin 10 from rfl, nexp_fin _ (by norm_num), Fl.fin_inj] at h1
    rw [← h1]
    norm_num [sampleFlareGen, Real.rpow_neg_one]
  have e2 : above = 5 := by
    rw [nexp_fin _ (by norm_num), Fl.fin_inj] at h2
    rw [← h2]
    norm_num [sampleFlareGen, Real.rpow_neg_one]
  subst e1 e2
  obtain ⟨l, h4, h5⟩ := h3 (fairSpace_flares 10)
  have := fair_cube
  refine ⟨fairSpace 10, _, _, l, by unfold fairSpace; infer_instance, h4, ?_⟩
  rw [h5, cap_share lat0 lon0 0 (by norm_num) (by norm_num), ← ENNReal.ofReal_mul (by norm_num)]
  norm_num

theorem fairSpace_births (mean : ℝ) : Spec.FairBirths (fairSpace mean) mean (fun ω => ω.1)
    (fun ω _ _ => unitDraw ω.2.2.1) (fun ω _ _ => unitDraw ω.2.2.2) := by
  have hF := fairSpace_flares mean
  have hsnd : Measurable fun x : ℝ × ℝ × ℝ => x.2 := measurable_snd
  refine ⟨hF.count_measurable, hF.count, fun n i => ⟨hsnd.comp (hF.measurable n i), ?_⟩, fun n i => ?_⟩
  · change (fairSpace mean).map ((fun x : ℝ × ℝ × ℝ => x.2) ∘ fun ω => (((fairFlareDraws ω n).uE i : ℝ),
      ((fairFlareDraws ω n).uLat i : ℝ), ((fairFlareDraws ω n).uLon i : ℝ))) = _
    rw [← Measure.map_map hsnd (hF.measurable n i), hF.uniform n i, Measure.volume_eq_prod, ← Measure.prod_restrict]
    change Measure.snd _ = _
    have : IsProbabilityMeasure (volume.restrict (Ico (0 : ℝ) 1)) := ⟨by simp⟩
    rw [Measure.snd_prod]
  · exact (hF.indep n i).comp hsnd measurable_id

open Classical Spec in
/-- Non-trivial instance of C110: one facula in six hours is expected within 60° of any point if four are expected on the
whole star. -/
example (g : Grid) (R : ℝ) (lat0 lon0 t : ℝ)
    (h4 : { FaculaGenerator.off g with coverage := 0.1 }.nExpected t R = .fin 4) :
    ∃ (P : Measure (ℕ × ℝ × ℝ × ℝ)) (K : ℕ × ℝ × ℝ × ℝ → ℕ) (D : ℕ × ℝ × ℝ × ℝ → (n : ℕ) → FaculaDraws n)
      (l : ℕ × ℝ × ℝ × ℝ → List Facula), IsProbabilityMeasure P ∧
    (∀ᵐ ω ∂P, { FaculaGenerator.off g with coverage := 0.1 }.birth t R (K ω) (D ω) = .ok (l ω)) ∧
    ∫⁻ ω, ((l ω).countP fun f => decide ((f.lat, f.lon) ∈ {p : ℝ × ℝ | greatCircle lat0 lon0 p.1 p.2 < π / 3}) : ℝ≥0∞) ∂P =
      ENNReal.ofReal 1 := by
  have hA : MeasurableSet {p : ℝ × ℝ | greatCircle lat0 lon0 p.1 p.2 < π / 3} :=
    measurableSet_lt (by simp only [greatCircle_eq]; fun_prop) measurable_const
  obtain ⟨l, h1, h2⟩ := (C110_births (fairSpace 4) _ hA t R 4 (by norm_num) (fun ω => ω.1)).2
    { FaculaGenerator.off g with coverage := 0.1 }
    (fun ω n => ⟨fun _ => 0, fun _ => unitDraw ω.2.2.1, fun _ => unitDraw ω.2.2.2⟩) h4 (fairSpace_births 4)
  have := fair_cube
  refine ⟨fairSpace 4, _, _, l, by unfold fairSpace; infer_instance, h1, ?_⟩
  have hp := pi_pos
  rw [h2, (C108_uniform_positions (fairSpace 4) univ MeasurableSet.univ 1 0).2.2.1 lat0 lon0 (π / 3) (by positivity)
    (by linarith), cos_pi_div_three, ← ENNReal.ofReal_mul (by norm_num)]
  norm_num

/-- Non-trivial instance of C108: a quarter of the isotropic faculae lie within 60° of any given point. -/
example (G : FaculaGenerator) (lat0 lon0 : ℝ) : ∃ (P : Measure (ℕ × ℝ × ℝ × ℝ)) (D : ℕ × ℝ × ℝ × ℝ → FaculaDraws 3),
    IsProbabilityMeasure P ∧
    P {ω | ∃ f, (G.generate 3 (D ω))[1]? = some f ∧ Spec.greatCircle lat0 lon0 f.lat f.lon < π / 3} =
      ENNReal.ofReal (1 / 4) := by
  have hA : MeasurableSet {p : ℝ × ℝ | Spec.greatCircle lat0 lon0 p.1 p.2 < π / 3} :=
    measurableSet_lt (by simp only [greatCircle_eq]; fun_prop) measurable_const
  have h := C108_uniform_positions (fairSpace 4) _ hA 3 1
  have := fair_cube
  have hp := pi_pos
  refine ⟨fairSpace 4, fun ω => ⟨fun _ => 0, fun _ => unitDraw ω.2.2.1, fun _ => unitDraw ω.2.2.2⟩,
    by unfold fairSpace; infer_instance, ?_⟩
  have h1 := h.2.1 G (fun ω => ⟨fun _ => 0, fun _ => unitDraw ω.2.2.1, fun _ => unitDraw ω.2.2.2⟩)
    ((fairSpace_births 4).place 3 1)
  rw [h.2.2.1 lat0 lon0 (π / 3) (by positivity) (by linarith), cos_pi_div_three] at h1
  refine h1.trans ?_
  norm_num

end Vsm
