import Verif.Props.MeanLight

/-!
# C134: where spots of the `solar` distribution appear
-/

noncomputable section

namespace Vsm

open Real MeasureTheory ProbabilityTheory Set
open scoped ENNReal

namespace Spec

/-- The draws for the place of one spot: a fair coin, a standard normal number and a uniform number in `[0,1)`, independent of
each other (spec of `rng.choice([-1, 1])`, `rng.normal` and `rng.random` as far as it matters here). -/
structure FairSolar {Ω : Type*} [MeasurableSpace Ω] (P : Measure Ω) (north : Ω → Bool) (z u : Ω → ℝ) : Prop where
  coin_measurable : Measurable north
  measurable : Measurable z
  coin : P {ω | north ω = true} = 1 / 2
  law : P.map z = gaussianReal 0 1
  indep : IndepFun north z P
  lon_measurable : Measurable u
  lon : P.map u = volume.restrict (Ico 0 1)
  lon_indep : IndepFun (fun ω => (north ω, z ω)) u P

/-- The latitudes of the `solar` distribution, in degrees: normal with mean 15 or -15 and standard deviation 5, each half of the
time (spec). -/
def solarBand (B : Set ℝ) : ℝ≥0∞ := (gaussianReal 15 25 B + gaussianReal (-15) 25 B) / 2

/-- Latitude in degrees and longitude in turns of spot number `i` (spec). -/
def placeOf (i : ℕ) (l : List StarSpot) : ℝ × ℝ := (l[i]?).elim (0, 0) fun s => (s.lat * (180 / π), s.lon / (2 * π))

end Spec

theorem normal15 : (gaussianReal 0 1).map (fun x : ℝ => 15 + 5 * x) = gaussianReal 15 25 := by
  have e : (fun x : ℝ => 15 + 5 * x) = (fun x => 15 + x) ∘ fun x => 5 * x := rfl
  rw [e, ← Measure.map_map (by fun_prop) (by fun_prop), gaussianReal_map_const_mul, gaussianReal_map_const_add]
  congr 1
  · norm_num
  · ext; norm_num

theorem solar_law {Ω : Type*} [MeasurableSpace Ω] {P : Measure Ω} [IsProbabilityMeasure P] {north : Ω → Bool} {z u : Ω → ℝ}
    (h : Spec.FairSolar P north z u) :
    P.map (fun ω => (15 + 5 * z ω) * (if north ω then 1 else -1)) =
      (1 / 2 : ℝ≥0∞) • gaussianReal 15 25 + (1 / 2 : ℝ≥0∞) • gaussianReal (-15) 25 := by
  have hN : MeasurableSet {ω | north ω = true} := h.coin_measurable (measurableSet_singleton true)
  have hz15 : P.map (fun ω => 15 + 5 * z ω) = gaussianReal 15 25 := by
    rw [← normal15, ← h.law, Measure.map_map (by fun_prop) h.measurable]; rfl
  have hm : Measurable fun ω => (15 + 5 * z ω) * (if north ω then (1 : ℝ) else -1) :=
    ((measurable_const.add (h.measurable.const_mul 5))).mul (Measurable.ite hN measurable_const measurable_const)
  ext B hB
  have hind : IndepFun north (fun ω => 15 + 5 * z ω) P := h.indep.comp measurable_id (by fun_prop : Measurable fun x : ℝ => 15 + 5 * x)
  have hS : P {ω | north ω = false} = 1 / 2 := by
    have e : {ω | north ω = false} = {ω | north ω = true}ᶜ := by ext ω; simp
    rw [e, prob_compl_eq_one_sub hN, h.coin]
    simp
  rw [Measure.map_apply hm hB]
  have hsplit : (fun ω => (15 + 5 * z ω) * (if north ω then (1 : ℝ) else -1)) ⁻¹' B =
      (north ⁻¹' {true} ∩ (fun ω => 15 + 5 * z ω) ⁻¹' B) ∪ (north ⁻¹' {false} ∩ (fun ω => 15 + 5 * z ω) ⁻¹' ((fun x => -x) ⁻¹' B)) := by
    ext ω
    cases hc : north ω <;> simp [hc]
  have hneg : MeasurableSet ((fun x : ℝ => -x) ⁻¹' B) := measurable_neg hB
  have hmz : Measurable fun ω => 15 + 5 * z ω := measurable_const.add (h.measurable.const_mul 5)
  rw [hsplit, measure_union ?_ ((h.coin_measurable (measurableSet_singleton _)).inter (hmz hneg)),
    hind.measure_inter_preimage_eq_mul _ _ (measurableSet_singleton _) hB,
    hind.measure_inter_preimage_eq_mul _ _ (measurableSet_singleton _) hneg,
    ← Measure.map_apply hmz hB, ← Measure.map_apply hmz hneg, hz15]
  · have e1 : P (north ⁻¹' {true}) = 1 / 2 := h.coin
    have e2 : P (north ⁻¹' {false}) = 1 / 2 := hS
    have e3 : gaussianReal 15 25 ((fun x : ℝ => -x) ⁻¹' B) = gaussianReal (-15) 25 B := by
      rw [← Measure.map_apply measurable_neg hB, gaussianReal_map_neg]
    rw [e1, e2, e3]
    simp
  · rw [Set.disjoint_left]
    rintro ω ⟨a, -⟩ ⟨b, -⟩
    simp at a b
    rw [a] at b; cases b

theorem solar_place (G : SpotGenerator) (n : ℕ) (d : SpotDraws n) (l : List StarSpot) (hs : G.distribution = .solar)
    (h : G.generate n d = .ok l) (i : Fin n) :
    Spec.placeOf i l = ((15 + 5 * d.zLat i) * (if d.north i then 1 else -1), (d.uLon i : ℝ)) := by
  have hp := pi_pos
  unfold SpotGenerator.generate at h
  by_cases h1 : G.distAreaLogsigma < 0
  · rw [if_pos h1] at h; cases h
  rw [if_neg h1] at h
  cases ha : SpotGenerator.acceptRatios d with
  | none => rw [ha] at h; cases h
  | some q =>
    rw [ha] at h
    simp only at h
    rw [if_neg (by rw [hs]; simp)] at h
    obtain rfl := Except.ok.inj h
    unfold Spec.placeOf
    rw [List.getElem?_ofFn, dif_pos i.2]
    simp only [Option.elim_some, StarSpot.new, SpotGenerator.drawLat, SpotGenerator.drawLon, hs, SpotDraws.latDeg, Grid.deg]
    congr 1
    · field_simp
    · field_simp
      ring

theorem solar_tail : Spec.solarBand {x | 90 < |x|} ≤ ENNReal.ofReal (2 * exp (-(225 / 2))) ∧ 0 < Spec.solarBand {x | 90 < |x|} := by
  have hset : {x : ℝ | 90 < |x|} = Ioi 90 ∪ Iio (-90) := by
    ext x
    simp only [mem_ofPred_eq, mem_union, mem_Ioi, mem_Iio, lt_abs]
    constructor
    · rintro (h | h)
      · exact Or.inl h
      · exact Or.inr (by linarith)
    · rintro (h | h)
      · exact Or.inl h
      · exact Or.inr (by linarith)
  have up : ∀ (μ ε t : ℝ), 0 ≤ t → gaussianReal μ 25 (Ici ε) ≤ ENNReal.ofReal (exp (-t * ε + (μ * t + 25 * t ^ 2 / 2))) := by
    intro μ ε t ht
    have h := measure_ge_le_exp_mul_mgf (μ := gaussianReal μ 25) (X := id) ε ht (integrable_exp_mul_gaussianReal t)
    rw [mgf_gaussianReal (μ := μ) (v := 25) (by simp), ← exp_add] at h
    rw [← ENNReal.ofReal_toReal (measure_ne_top (gaussianReal μ 25) (Ici ε))]
    refine ENNReal.ofReal_le_ofReal (le_trans (le_of_eq rfl) (h.trans (le_of_eq ?_)))
    simp
  have hneg : ∀ μ : ℝ, gaussianReal μ 25 (Iio (-90)) ≤ gaussianReal (-μ) 25 (Ici 90) := by
    intro μ
    rw [← gaussianReal_map_neg, Measure.map_apply measurable_neg measurableSet_Ici]
    refine measure_mono fun x hx => ?_
    simp only [mem_Iio] at hx
    simp only [mem_preimage, mem_Ici]
    linarith
  have b1 : gaussianReal 15 25 (Ici 90) ≤ ENNReal.ofReal (exp (-(225 / 2))) :=
    (up 15 90 3 (by norm_num)).trans (ENNReal.ofReal_le_ofReal (exp_le_exp.mpr (by norm_num)))
  have b2 : gaussianReal (-15) 25 (Ici 90) ≤ ENNReal.ofReal (exp (-(225 / 2))) :=
    (up (-15) 90 3 (by norm_num)).trans (ENNReal.ofReal_le_ofReal (exp_le_exp.mpr (by norm_num)))
  have c1 : gaussianReal 15 25 {x | 90 < |x|} ≤ ENNReal.ofReal (2 * exp (-(225 / 2))) := by
    rw [hset, two_mul, ENNReal.ofReal_add (exp_pos _).le (exp_pos _).le]
    exact (measure_union_le _ _).trans (add_le_add ((measure_mono Ioi_subset_Ici_self).trans b1) ((hneg 15).trans b2))
  have c2 : gaussianReal (-15) 25 {x | 90 < |x|} ≤ ENNReal.ofReal (2 * exp (-(225 / 2))) := by
    rw [hset, two_mul, ENNReal.ofReal_add (exp_pos _).le (exp_pos _).le]
    refine (measure_union_le _ _).trans (add_le_add ((measure_mono Ioi_subset_Ici_self).trans b2) ((hneg (-15)).trans ?_))
    rw [neg_neg]
    exact b1
  constructor
  · unfold Spec.solarBand
    refine ENNReal.div_le_of_le_mul ?_
    rw [mul_two]
    exact add_le_add c1 c2
  · unfold Spec.solarBand
    refine ENNReal.div_pos ?_ (by simp)
    have : gaussianReal 15 25 {x : ℝ | 90 < |x|} ≠ 0 := by
      intro h0
      have h1 := gaussianReal_absolutelyContinuous' 15 (v := 25) (by norm_num) h0
      rw [hset] at h1
      have h2 := measure_mono_null (subset_union_left (s := Ioi (90 : ℝ)) (t := Iio (-90))) h1
      simp at h2
    intro h0
    exact this (add_eq_zero.mp h0).1

theorem normal_square (μ : ℝ) : Integrable (fun x : ℝ => x ^ 2) (gaussianReal μ 25) ∧ ∫ x, x ^ 2 ∂gaussianReal μ 25 = μ ^ 2 + 25 := by
  have hm : MemLp id 2 (gaussianReal μ 25) := memLp_id_gaussianReal 2
  refine ⟨hm.integrable_sq, ?_⟩
  have hv := variance_eq_sub hm
  rw [variance_id_gaussianReal] at hv
  simp only [Pi.pow_apply, id, integral_id_gaussianReal] at hv
  have : ((25 : NNReal) : ℝ) = 25 := rfl
  linarith

/-- **C134** Spots of the `solar` distribution: the latitude of each is normal around 15° north or south with standard deviation
5°, either with probability 1/2, and independent of the longitude, which is uniform.  The mean latitude is 0, its mean square is
`250 deg²`; with positive probability, at most `2·e^(-112.5)`, the latitude given to a spot exceeds 90°. -/
theorem C134_solar_places {Ω : Type*} [MeasurableSpace Ω] (P : Measure Ω) [IsProbabilityMeasure P] (G : SpotGenerator)
    (hs : G.distribution = .solar) (n : ℕ) (D : Ω → SpotDraws n) (i : Fin n)
    (hF : Spec.FairSolar P (fun ω => (D ω).north i) (fun ω => (D ω).zLat i) fun ω => (D ω).uLon i)
    (l : Ω → List StarSpot) (hl : ∀ᵐ ω ∂P, G.generate n (D ω) = .ok (l ω)) :
    (∀ B C : Set ℝ, MeasurableSet B → MeasurableSet C →
      P {ω | (Spec.placeOf i (l ω)).1 ∈ B ∧ (Spec.placeOf i (l ω)).2 ∈ C} = Spec.solarBand B * volume (C ∩ Ico 0 1)) ∧
    ∫ ω, (Spec.placeOf i (l ω)).1 ∂P = 0 ∧ ∫ ω, (Spec.placeOf i (l ω)).1 ^ 2 ∂P = 250 ∧
    0 < P {ω | 90 < |(Spec.placeOf i (l ω)).1|} ∧
    P {ω | 90 < |(Spec.placeOf i (l ω)).1|} ≤ ENNReal.ofReal (2 * exp (-(225 / 2))) := by
  have hlaw := solar_law hF
  have hN : MeasurableSet {ω | (D ω).north i = true} := hF.coin_measurable (measurableSet_singleton true)
  have hXm : Measurable fun ω => (15 + 5 * (D ω).zLat i) * (if (D ω).north i then (1 : ℝ) else -1) :=
    ((measurable_const.add (hF.measurable.const_mul 5))).mul (Measurable.ite hN measurable_const measurable_const)
  set X : Ω → ℝ := fun ω => (15 + 5 * (D ω).zLat i) * (if (D ω).north i then (1 : ℝ) else -1) with hX
  have hae : ∀ᵐ ω ∂P, Spec.placeOf i (l ω) = (X ω, ((D ω).uLon i : ℝ)) := by
    filter_upwards [hl] with ω hω
    exact solar_place G n (D ω) (l ω) hs hω i
  have hband : ∀ B, MeasurableSet B → P (X ⁻¹' B) = Spec.solarBand B := by
    intro B hB
    rw [← Measure.map_apply hXm hB, hlaw]
    simp only [Measure.add_apply, Measure.smul_apply, smul_eq_mul, Spec.solarBand, ENNReal.div_eq_inv_mul, mul_one]
    rw [mul_add]
  have hind : IndepFun X (fun ω => ((D ω).uLon i : ℝ)) P := by
    have hg : Measurable fun y : Bool × ℝ => (15 + 5 * y.2) * (if y.1 then (1 : ℝ) else -1) := by
      refine (measurable_const.add (measurable_snd.const_mul 5)).mul (Measurable.ite ?_ measurable_const measurable_const)
      exact measurable_fst (measurableSet_singleton true)
    exact hF.lon_indep.comp hg measurable_id
  have hall : ∀ B C : Set ℝ, MeasurableSet B → MeasurableSet C →
      P {ω | (Spec.placeOf i (l ω)).1 ∈ B ∧ (Spec.placeOf i (l ω)).2 ∈ C} = Spec.solarBand B * volume (C ∩ Ico 0 1) := by
    intro B C hB hC
    have e : P {ω | (Spec.placeOf i (l ω)).1 ∈ B ∧ (Spec.placeOf i (l ω)).2 ∈ C} =
        P (X ⁻¹' B ∩ (fun ω => ((D ω).uLon i : ℝ)) ⁻¹' C) := by
      refine measure_congr ?_
      filter_upwards [hae] with ω hω
      change ((Spec.placeOf i (l ω)).1 ∈ B ∧ (Spec.placeOf i (l ω)).2 ∈ C) = (X ω ∈ B ∧ ((D ω).uLon i : ℝ) ∈ C)
      rw [hω]
    rw [e, hind.measure_inter_preimage_eq_mul _ _ hB hC, hband B hB, ← Measure.map_apply hF.lon_measurable hC, hF.lon,
      Measure.restrict_apply hC]
  have htail : P {ω | 90 < |(Spec.placeOf i (l ω)).1|} = Spec.solarBand {x | 90 < |x|} := by
    have hB : MeasurableSet {x : ℝ | 90 < |x|} := measurableSet_lt measurable_const (by fun_prop)
    have := hall {x | 90 < |x|} univ hB MeasurableSet.univ
    rw [univ_inter, Real.volume_Ico] at this
    simpa using this
  have i1 : ∀ μ : ℝ, Integrable (fun x : ℝ => x) (gaussianReal μ 25) := fun μ =>
    (memLp_id_gaussianReal (μ := μ) (v := 25) 1).integrable le_rfl
  have hhalf : ((1 / 2 : ℝ≥0∞)).toReal = 1 / 2 := by simp
  refine ⟨hall, ?_, ?_, htail ▸ solar_tail.2, htail ▸ solar_tail.1⟩
  · have e : ∫ ω, (Spec.placeOf i (l ω)).1 ∂P = ∫ ω, X ω ∂P := by
      refine integral_congr_ae ?_
      filter_upwards [hae] with ω hω
      rw [hω]
    have e2 : ∫ ω, X ω ∂P = ∫ x, x ∂P.map X := (integral_map (f := fun x : ℝ => x) hXm.aemeasurable (by fun_prop)).symm
    rw [e, e2, hlaw, integral_add_measure ((i1 _).smul_measure (by simp)) ((i1 _).smul_measure (by simp)),
      integral_smul_measure, integral_smul_measure, integral_id_gaussianReal, integral_id_gaussianReal, hhalf]
    norm_num
  · have e : ∫ ω, (Spec.placeOf i (l ω)).1 ^ 2 ∂P = ∫ ω, X ω ^ 2 ∂P := by
      refine integral_congr_ae ?_
      filter_upwards [hae] with ω hω
      rw [hω]
    have e2 : ∫ ω, X ω ^ 2 ∂P = ∫ x, x ^ 2 ∂P.map X := (integral_map (f := fun x : ℝ => x ^ 2) hXm.aemeasurable (by fun_prop)).symm
    rw [e, e2, hlaw, integral_add_measure ((normal_square _).1.smul_measure (by simp)) ((normal_square _).1.smul_measure (by simp)),
      integral_smul_measure, integral_smul_measure, (normal_square _).2, (normal_square _).2, hhalf]
    norm_num

/-- A fair coin, a standard normal and a uniform draw. -/
def solarSpace : Measure ((Bool × ℝ) × ℝ) :=
  (((1 / 2 : ℝ≥0∞) • Measure.dirac true + (1 / 2 : ℝ≥0∞) • Measure.dirac false).prod (gaussianReal 0 1)).prod (volume.restrict (Ico 0 1))

/-- Non-trivial instance of C134: the second of two spots. -/
example : ∃ (P : Measure ((Bool × ℝ) × ℝ)) (D : (Bool × ℝ) × ℝ → SpotDraws 2) (l : (Bool × ℝ) × ℝ → List StarSpot),
    IsProbabilityMeasure P ∧ (∀ ω, { lightGen with distribution := .solar }.generate 2 (D ω) = .ok (l ω)) ∧
    P {ω | 90 < |(Spec.placeOf 1 (l ω)).1|} ≤ ENNReal.ofReal (2 * exp (-(225 / 2))) ∧
    ∫ ω, (Spec.placeOf 1 (l ω)).1 ^ 2 ∂P = 250 := by
  have ic : IsProbabilityMeasure ((1 / 2 : ℝ≥0∞) • Measure.dirac true + (1 / 2 : ℝ≥0∞) • Measure.dirac false) :=
    ⟨by simp [ENNReal.inv_two_add_inv_two]⟩
  have iu : IsProbabilityMeasure (volume.restrict (Ico (0 : ℝ) 1)) := ⟨by simp⟩
  have ip : IsProbabilityMeasure solarSpace := by unfold solarSpace; infer_instance
  set D : (Bool × ℝ) × ℝ → SpotDraws 2 := fun ω => ⟨fun _ => 0, fun _ _ => 0, fun _ => ω.1.1, fun _ => ω.1.2, fun _ => unitDraw ω.2, fun _ => unitDraw 0⟩ with hD
  have hok : ∀ ω, ∃ l, { lightGen with distribution := .solar }.generate 2 (D ω) = .ok l := fun ω =>
    (C27_generate _ 2 (D ω)).1 (by norm_num [lightGen]) (by simp) ⟨0, fun i => by norm_num [hD, SpotDraws.ratios]⟩
  choose l hl using hok
  have hF : Spec.FairSolar solarSpace (fun ω => (D ω).north 1) (fun ω => (D ω).zLat 1) fun ω => (D ω).uLon 1 := by
    refine ⟨measurable_fst.comp measurable_fst, measurable_snd.comp measurable_fst, ?_, ?_, ?_, ?_, ?_, ?_⟩
    · have e : {ω : (Bool × ℝ) × ℝ | (D ω).north 1 = true} = ({true} ×ˢ univ) ×ˢ univ := by ext ω; simp [hD]
      rw [e, solarSpace, Measure.prod_prod, Measure.prod_prod]
      simp
    · exact (measurePreserving_snd.comp measurePreserving_fst).map_eq
    · have hfst : solarSpace.map Prod.fst = _ := measurePreserving_fst.map_eq
      have h1 : solarSpace.map (fun ω => (D ω).north 1) = (1 / 2 : ℝ≥0∞) • Measure.dirac true + (1 / 2 : ℝ≥0∞) • Measure.dirac false :=
        (measurePreserving_fst.comp measurePreserving_fst).map_eq
      have h2 : solarSpace.map (fun ω => (D ω).zLat 1) = gaussianReal 0 1 := (measurePreserving_snd.comp measurePreserving_fst).map_eq
      refine (indepFun_iff_map_prod_eq_prod_map_map (measurable_fst.comp measurable_fst).aemeasurable
        (measurable_snd.comp measurable_fst).aemeasurable).mpr ?_
      refine hfst.trans ?_
      rw [← h1, ← h2]
      rfl
    · exact measurable_fract.comp measurable_snd
    · change solarSpace.map (Int.fract ∘ Prod.snd) = _
      have h3 : solarSpace.map Prod.snd = volume.restrict (Ico 0 1) := measurePreserving_snd.map_eq
      rw [← Measure.map_map measurable_fract measurable_snd, h3]
      refine (Measure.map_congr ?_).trans Measure.map_id
      filter_upwards [ae_restrict_mem measurableSet_Ico] with x hx
      exact Int.fract_eq_self.mpr hx
    · exact indepFun_prod (X := fun y : Bool × ℝ => y) measurable_id measurable_fract
  obtain ⟨-, -, h3, -, h5⟩ := C134_solar_places solarSpace { lightGen with distribution := .solar } rfl 2 D 1 hF l (.of_forall hl)
  exact ⟨solarSpace, D, l, ip, hl, h5, h3⟩

end Vsm
