import Verif.Props.MeanLight

/-!
# C124: the rejection loop for the area ratios
-/

noncomputable section

namespace Vsm

open Real MeasureTheory ProbabilityTheory Set
open scoped ENNReal

section First

variable {Ω α : Type*} [MeasurableSpace Ω] [MeasurableSpace α] (P : Measure Ω) (X : ℕ → Ω → α)
  (hX : ∀ k, Measurable (X k)) (μ : Measure α) [IsProbabilityMeasure μ] (hl : ∀ k, P.map (X k) = μ) (hi : iIndepFun X P)
  (A : Set α) (hA : MeasurableSet A)

include hX hl hi hA in
/-- The first `m` draws fail, and the next one falls into `B`. -/
theorem first_chance (m : ℕ) (B : Set α) (hB : MeasurableSet B) :
    P {ω | (∀ k < m, X k ω ∉ A) ∧ X m ω ∈ B} = (1 - μ A) ^ m * μ B := by
  have h := hi.measure_inter_preimage_eq_mul (Finset.range (m + 1)) (sets := fun k => if k < m then Aᶜ else B)
    (fun k _ => by split_ifs; exacts [hA.compl, hB])
  have e : {ω | (∀ k < m, X k ω ∉ A) ∧ X m ω ∈ B} = ⋂ k ∈ Finset.range (m + 1), X k ⁻¹' (if k < m then Aᶜ else B) := by
    ext ω
    simp only [mem_ofPred_eq, mem_iInter, Finset.mem_range, mem_preimage]
    constructor
    · rintro ⟨h1, h2⟩ k hk
      by_cases hkm : k < m
      · rw [if_pos hkm]; exact h1 k hkm
      · rw [if_neg hkm]
        obtain rfl : k = m := by omega
        exact h2
    · intro h
      refine ⟨fun k hk => ?_, ?_⟩
      · have := h k (by omega)
        rw [if_pos hk] at this
        exact this
      · have := h m (by omega)
        rw [if_neg (lt_irrefl m)] at this
        exact this
  have hm : ∀ k (S : Set α), MeasurableSet S → P (X k ⁻¹' S) = μ S := fun k S hS => by rw [← hl k, Measure.map_apply (hX k) hS]
  rw [e, h, Finset.prod_range_succ, if_neg (lt_irrefl m), hm m B hB]
  congr 1
  rw [Finset.prod_congr rfl (g := fun _ => 1 - μ A) fun k hk => ?_]
  · simp
  · rw [Finset.mem_range] at hk
    rw [if_pos hk, hm k _ hA.compl, prob_compl_eq_one_sub hA]

include hX hl hi hA in
theorem first_late (m : ℕ) : P {ω | ∀ k < m, X k ω ∉ A} = (1 - μ A) ^ m := by
  have := first_chance P X hX μ hl hi A hA m univ MeasurableSet.univ
  simpa using this

theorem geometric_sum : ∑' m : ℕ, (1 - μ A) ^ m = (μ A)⁻¹ := by
  rw [ENNReal.tsum_geometric, ENNReal.sub_sub_cancel ENNReal.one_ne_top prob_le_one]

include hX hl hi hA in
theorem first_ends (h0 : μ A ≠ 0) : ∀ᵐ ω ∂P, ∃ k, X k ω ∈ A := by
  rw [ae_iff]
  have hlt : 1 - μ A < 1 := ENNReal.sub_lt_self ENNReal.one_ne_top one_ne_zero h0
  have hle : ∀ m, P {ω | ¬ ∃ k, X k ω ∈ A} ≤ (1 - μ A) ^ m := by
    intro m
    rw [← first_late P X hX μ hl hi A hA m]
    refine measure_mono fun ω hω k _ hk => hω ⟨k, hk⟩
  have := ENNReal.tendsto_pow_atTop_nhds_zero_of_lt_one hlt
  exact le_antisymm (ge_of_tendsto' this hle) zero_le

include hX hl hi hA in
/-- The law of the first draw that falls into `A`: the law of the draws restricted to `A`. -/
theorem first_law (B : Set α) (hB : MeasurableSet B) :
    P {ω | (∃ k, X k ω ∈ A) ∧ X (sInf {k | X k ω ∈ A}) ω ∈ B} = μ (A ∩ B) / μ A := by
  have e : {ω | (∃ k, X k ω ∈ A) ∧ X (sInf {k | X k ω ∈ A}) ω ∈ B} = ⋃ m, {ω | (∀ k < m, X k ω ∉ A) ∧ X m ω ∈ A ∩ B} := by
    ext ω
    simp only [mem_ofPred_eq, mem_iUnion]
    constructor
    · rintro ⟨h, hB⟩
      exact ⟨_, fun k hk => Nat.notMem_of_lt_sInf hk, Nat.sInf_mem (s := {k | X k ω ∈ A}) h, hB⟩
    · rintro ⟨m, h1, h2, h3⟩
      have h : ∃ k, X k ω ∈ A := ⟨m, h2⟩
      have : sInf {k | X k ω ∈ A} = m := by
        refine le_antisymm (Nat.sInf_le h2) (not_lt.mp fun hlt => h1 _ hlt (Nat.sInf_mem (s := {k | X k ω ∈ A}) h))
      exact ⟨h, by rw [this]; exact h3⟩
  rw [e, measure_iUnion]
  · simp only [first_chance P X hX μ hl hi A hA _ (A ∩ B) (hA.inter hB)]
    rw [ENNReal.tsum_mul_right, geometric_sum μ A, ENNReal.div_eq_inv_mul]
  · intro m n hmn
    rw [Function.onFun_apply, Set.disjoint_left]
    rintro ω ⟨h1, h2, -⟩ ⟨h3, h4, -⟩
    rcases lt_or_gt_of_ne hmn with h | h
    · exact h3 m h h2
    · exact h1 n h h4
  · intro m
    have : {ω | (∀ k < m, X k ω ∉ A) ∧ X m ω ∈ A ∩ B} = (⋂ k, ⋂ (_ : k < m), X k ⁻¹' Aᶜ) ∩ X m ⁻¹' (A ∩ B) := by
      ext ω; simp
    rw [this]
    exact (MeasurableSet.iInter fun k => MeasurableSet.iInter fun _ => hX k hA.compl).inter (hX m (hA.inter hB))

open Classical in
include hX hl hi hA in
/-- The mean number of draws. -/
theorem first_mean (h0 : μ A ≠ 0) : ∫⁻ ω, ((sInf {k | X k ω ∈ A} + 1 : ℕ) : ℝ≥0∞) ∂P = (μ A)⁻¹ := by
  have h1 : ∀ᵐ ω ∂P, ((sInf {k | X k ω ∈ A} + 1 : ℕ) : ℝ≥0∞) = ∑' m : ℕ, {ω | ∀ k < m, X k ω ∉ A}.indicator 1 ω := by
    filter_upwards [first_ends P X hX μ hl hi A hA h0] with ω hω
    have : ∀ m : ℕ, {ω | ∀ k < m, X k ω ∉ A}.indicator (1 : Ω → ℝ≥0∞) ω = if m < sInf {k | X k ω ∈ A} + 1 then 1 else 0 := by
      intro m
      simp only [indicator, mem_ofPred_eq, Pi.one_apply]
      congr 1
      rw [Nat.lt_succ_iff, eq_iff_iff]
      constructor
      · intro h; exact not_lt.mp fun hlt => h _ hlt (Nat.sInf_mem (s := {k | X k ω ∈ A}) hω)
      · intro h k hk; exact Nat.notMem_of_lt_sInf (hk.trans_le h)
    simp only [this]
    rw [tsum_eq_sum (s := Finset.range (sInf {k | X k ω ∈ A} + 1)) (fun m hm => by rw [Finset.mem_range] at hm; rw [if_neg hm])]
    rw [Finset.sum_congr rfl (g := fun _ => (1 : ℝ≥0∞)) fun m hm => by rw [Finset.mem_range] at hm; rw [if_pos hm]]
    simp
  have hm : ∀ m : ℕ, MeasurableSet {ω | ∀ k < m, X k ω ∉ A} := by
    intro m
    have : {ω | ∀ k < m, X k ω ∉ A} = ⋂ k, ⋂ (_ : k < m), X k ⁻¹' Aᶜ := by ext ω; simp
    rw [this]
    exact MeasurableSet.iInter fun k => MeasurableSet.iInter fun _ => hX k hA.compl
  rw [lintegral_congr_ae h1, lintegral_tsum fun m => (measurable_one.indicator (hm m)).aemeasurable, ← geometric_sum μ A]
  refine tsum_congr fun m => ?_
  rw [lintegral_indicator_one (hm m), first_late P X hX μ hl hi A hA m]

end First

/-! ### Area ratios -/

/-- The batches of standard normal draws behind the area ratios (spec of the numpy generator as far as it matters here): independent. -/
structure Spec.FairNormals {Ω : Type*} [MeasurableSpace Ω] (P : Measure Ω) {n : ℕ} (z : ℕ → Ω → Fin n → ℝ) : Prop where
  measurable : ∀ k, Measurable (z k)
  law : ∀ k, P.map (z k) = Measure.pi fun _ => gaussianReal 0 1
  indep : iIndepFun z P

/-- Batches of independent numbers that are normal with mean 5 and standard deviation 1. -/
structure Spec.FairRatios {Ω : Type*} [MeasurableSpace Ω] (P : Measure Ω) {n : ℕ} (r : ℕ → Ω → Fin n → ℝ) : Prop where
  measurable : ∀ k, Measurable (r k)
  law : ∀ k, P.map (r k) = Measure.pi fun _ => gaussianReal 5 1
  indep : iIndepFun r P

theorem fair_ratios {Ω : Type*} [MeasurableSpace Ω] (P : Measure Ω) {n : ℕ} (D : Ω → SpotDraws n)
    (h : Spec.FairNormals P fun k ω => (D ω).zRatio k) : Spec.FairRatios P fun k ω => (D ω).ratios k := by
  have hg : Measurable fun (v : Fin n → ℝ) (i : Fin n) => 5 + 1 * v i :=
    measurable_pi_lambda _ fun i => measurable_const.add (measurable_const.mul (measurable_pi_apply i))
  have hf : Measurable fun x : ℝ => 5 + 1 * x := by fun_prop
  have e : (gaussianReal 0 1).map (fun x : ℝ => 5 + 1 * x) = gaussianReal 5 1 := by
    have : (fun x : ℝ => 5 + 1 * x) = fun x => 5 + x := by funext x; rw [one_mul]
    rw [this, gaussianReal_map_const_add, zero_add]
  refine ⟨fun k => hg.comp (h.measurable k), fun k => ?_, h.indep.comp (fun _ v i => 5 + 1 * v i) fun _ => hg⟩
  change P.map ((fun (v : Fin n → ℝ) (i : Fin n) => 5 + 1 * v i) ∘ fun ω => (D ω).zRatio k) = _
  have hpi := Measure.pi_map_pi (μ := fun _ : Fin n => gaussianReal 0 1) (f := fun _ x => 5 + 1 * x)
    (hμ := fun _ => by rw [e]; infer_instance) fun _ => hf.aemeasurable
  rw [← Measure.map_map hg (h.measurable k), h.law k, hpi]
  simp only [e]

/-- The chance that a ratio is accepted. -/
def Spec.acceptChance : ℝ≥0∞ := gaussianReal 5 1 (Ioi 0)

open Spec

theorem ratio_below (ε t : ℝ) (ht : t ≤ 0) : gaussianReal 5 1 (Iic ε) ≤ ENNReal.ofReal (exp (-t * ε + (5 * t + t ^ 2 / 2))) := by
  have h := measure_le_le_exp_mul_mgf (μ := gaussianReal 5 1) (X := id) ε ht (integrable_exp_mul_gaussianReal t)
  rw [mgf_gaussianReal (μ := 5) (v := 1) (by simp), ← exp_add] at h
  rw [← ENNReal.ofReal_toReal (measure_ne_top (gaussianReal 5 1) (Iic ε))]
  refine ENNReal.ofReal_le_ofReal (le_trans (le_of_eq rfl) (h.trans (le_of_eq ?_)))
  simp

theorem acceptChance_bounds : ENNReal.ofReal (1 - exp (-(25 / 2))) ≤ acceptChance ∧ acceptChance ≠ 0 := by
  have h1 : acceptChance = 1 - gaussianReal 5 1 (Iic 0) := by
    rw [acceptChance, ← compl_Iic, prob_compl_eq_one_sub measurableSet_Iic]
  have h2 := ratio_below 0 (-5) (by norm_num)
  norm_num at h2
  have h3 : ENNReal.ofReal (1 - exp (-(25 / 2))) ≤ acceptChance := by
    rw [h1, ENNReal.ofReal_sub _ (exp_pos _).le, ENNReal.ofReal_one]
    exact tsub_le_tsub_left h2 1
  refine ⟨h3, fun h0 => ?_⟩
  rw [h0, nonpos_iff_eq_zero, ENNReal.ofReal_eq_zero] at h3
  have : exp (-(25 / 2)) < 1 := by rw [Real.exp_lt_one_iff]; norm_num
  linarith

theorem accept_all (n : ℕ) : (Measure.pi fun _ : Fin n => gaussianReal 5 1) {v | ∀ i, v i ∈ Ioi (0 : ℝ)} = acceptChance ^ n := by
  have : {v : Fin n → ℝ | ∀ i, v i ∈ Ioi (0 : ℝ)} = univ.pi fun _ => Ioi (0 : ℝ) := by ext v; simp
  rw [this, Measure.pi_pi, Finset.prod_const, Finset.card_univ, Fintype.card_fin]
  rfl

theorem spot_ratios (G : SpotGenerator) (n : ℕ) (d : SpotDraws n) (l : List StarSpot) (h : G.generate n d = .ok l) :
    ∃ q, SpotGenerator.acceptRatios d = some q ∧ l.map (fun s => s.ratio) = List.ofFn fun i => Fl.fin (q i) := by
  unfold SpotGenerator.generate at h
  by_cases h1 : G.distAreaLogsigma < 0
  · rw [if_pos h1] at h; cases h
  rw [if_neg h1] at h
  cases ha : SpotGenerator.acceptRatios d with
  | none => rw [ha] at h; cases h
  | some q =>
    rw [ha] at h
    simp only at h
    by_cases h2 : G.distribution = .other
    · rw [if_pos h2] at h; cases h
    rw [if_neg h2] at h
    obtain rfl := Except.ok.inj h
    refine ⟨q, rfl, ?_⟩
    rw [List.map_ofFn]
    rfl

open Classical in
/-- **C124** The rejection loop for the area ratios.  If the normal draws are independent, then
`generate_spots` ends with probability one; on average it draws `p^(-n)` batches, where `p > 1 − e^(-12.5)` is the probability that a
single ratio is positive; and the ratios of the spots it returns are independent, each normal with mean 5 and standard
deviation 1 conditioned on being positive.  In
particular a spot gets an umbra larger than itself with positive probability, smaller than `e^(-8)/p`. -/
theorem C124_area_ratios {Ω : Type*} [MeasurableSpace Ω] (P : Measure Ω) [IsProbabilityMeasure P] (G : SpotGenerator)
    (hσ : 0 ≤ G.distAreaLogsigma) (hdist : G.distribution ≠ .other) (n : ℕ) (D : Ω → SpotDraws n)
    (hZ : FairNormals P fun k ω => (D ω).zRatio k) :
    (∀ᵐ ω ∂P, ∃ l, G.generate n (D ω) = .ok l) ∧
    ENNReal.ofReal (1 - exp (-(25 / 2))) ≤ gaussianReal 5 1 (Ioi 0) ∧
    ∫⁻ ω, ((sInf {k | ∀ i, 0 < (D ω).ratios k i} + 1 : ℕ) : ℝ≥0∞) ∂P = (gaussianReal 5 1 (Ioi 0) ^ n)⁻¹ ∧
    ∀ l : Ω → List StarSpot, (∀ᵐ ω ∂P, G.generate n (D ω) = .ok (l ω)) →
      (∀ A : Fin n → Set ℝ, (∀ i, MeasurableSet (A i)) →
        P {ω | ∀ i : Fin n, ∃ s q, (l ω)[(i : ℕ)]? = some s ∧ s.ratio = .fin q ∧ q ∈ A i} =
          ∏ i, gaussianReal 5 1 (Ioi 0 ∩ A i) / gaussianReal 5 1 (Ioi 0)) ∧
      ∀ i : Fin n, (let p := P {ω | ∃ s q, (l ω)[(i : ℕ)]? = some s ∧ s.ratio = .fin q ∧ q < 1}; 0 < p ∧ p ≤ ENNReal.ofReal (exp (-8)) / gaussianReal 5 1 (Ioi 0)) := by
  have hF := fair_ratios P D hZ
  obtain ⟨hb, hne⟩ := acceptChance_bounds
  have hpos : MeasurableSet {v : Fin n → ℝ | ∀ i, v i ∈ Ioi (0 : ℝ)} := by
    have : {v : Fin n → ℝ | ∀ i, v i ∈ Ioi (0 : ℝ)} = univ.pi fun _ => Ioi (0 : ℝ) := by ext v; simp
    rw [this]; exact MeasurableSet.univ_pi fun _ => measurableSet_Ioi
  have hnz : (Measure.pi fun _ : Fin n => gaussianReal 5 1) {v | ∀ i, v i ∈ Ioi (0 : ℝ)} ≠ 0 := by
    rw [accept_all]; exact pow_ne_zero n hne
  have hends := first_ends P _ hF.measurable _ hF.law hF.indep _ hpos hnz
  have hmean := first_mean P _ hF.measurable _ hF.law hF.indep _ hpos hnz
  rw [accept_all] at hmean
  refine ⟨?_, hb, ?_, fun l hl => ?_⟩
  · filter_upwards [hends] with ω hω
    exact (C27_generate G n (D ω)).1 hσ hdist hω
  · exact hmean
  have hjoint : ∀ A : Fin n → Set ℝ, (∀ i, MeasurableSet (A i)) →
      P {ω | ∀ i : Fin n, ∃ s q, (l ω)[(i : ℕ)]? = some s ∧ s.ratio = .fin q ∧ q ∈ A i} =
        ∏ i, gaussianReal 5 1 (Ioi 0 ∩ A i) / gaussianReal 5 1 (Ioi 0) := by
    intro A hA
    have hAm : MeasurableSet (univ.pi A) := MeasurableSet.univ_pi hA
    have hlaw := first_law P _ hF.measurable _ hF.law hF.indep _ hpos (univ.pi A) hAm
    have e1 : {v : Fin n → ℝ | ∀ i, v i ∈ Ioi (0 : ℝ)} ∩ univ.pi A = univ.pi fun i => Ioi (0 : ℝ) ∩ A i := by
      ext v
      simp only [mem_inter_iff, mem_ofPred_eq, mem_univ_pi]
      exact ⟨fun h i => ⟨h.1 i, h.2 i⟩, fun h => ⟨fun i => (h i).1, fun i => (h i).2⟩⟩
    rw [accept_all, e1, Measure.pi_pi] at hlaw
    have e2 : ∏ i : Fin n, gaussianReal 5 1 (Ioi 0 ∩ A i) / gaussianReal 5 1 (Ioi 0) =
        (∏ i : Fin n, gaussianReal 5 1 (Ioi 0 ∩ A i)) / acceptChance ^ n := by
      simp only [ENNReal.div_eq_inv_mul]
      rw [Finset.prod_mul_distrib, Finset.prod_const, Finset.card_univ, Fintype.card_fin, ENNReal.inv_pow]
      rfl
    rw [e2, ← hlaw]
    refine measure_congr ?_
    filter_upwards [hl, hends] with ω hω hk
    have hk' : ∃ k, ∀ i, 0 < (D ω).ratios k i := hk
    obtain ⟨q, hq, hr⟩ := spot_ratios G n (D ω) (l ω) hω
    unfold SpotGenerator.acceptRatios at hq
    rw [dif_pos hk', Option.some.injEq, (Nat.find_eq_iff hk').mpr ⟨Nat.sInf_mem (s := {k | ∀ i, 0 < (D ω).ratios k i}) hk',
      fun k hk => Nat.notMem_of_lt_sInf hk⟩] at hq
    have hget : ∀ i : Fin n, ∃ s, (l ω)[(i : ℕ)]? = some s ∧ s.ratio = .fin (q i) := by
      intro i
      have h1 := congrArg (fun x => x[(i : ℕ)]?) hr
      simp only [List.getElem?_map, List.getElem?_ofFn, i.2, dite_true, Fin.eta, Option.map_eq_some_iff] at h1
      exact h1
    refine propext ⟨fun h => ⟨hk, ?_⟩, fun h i => ?_⟩
    · rw [mem_univ_pi]
      intro i
      obtain ⟨s, q', h1, h2, h3⟩ := h i
      obtain ⟨s', k1, k2⟩ := hget i
      rw [k1, Option.some.injEq] at h1
      subst h1
      rw [k2, Fl.fin_inj] at h2
      subst h2
      rw [← hq] at h3
      exact h3
    · obtain ⟨h', hmem⟩ := h
      obtain ⟨s', k1, k2⟩ := hget i
      refine ⟨s', _, k1, k2, ?_⟩
      rw [mem_univ_pi] at hmem
      rw [← hq]
      exact hmem i
  refine ⟨hjoint, fun i => ?_⟩
  intro p
  have hp : p = gaussianReal 5 1 (Ioi 0 ∩ Iio 1) / gaussianReal 5 1 (Ioi 0) := by
    have h := hjoint (fun j => if j = i then Iio 1 else univ) (fun j => by split_ifs; exacts [measurableSet_Iio, MeasurableSet.univ])
    have e : {ω | ∃ s q, (l ω)[(i : ℕ)]? = some s ∧ s.ratio = .fin q ∧ q < 1} =ᵐ[P]
        {ω | ∀ j : Fin n, ∃ s q, (l ω)[(j : ℕ)]? = some s ∧ s.ratio = .fin q ∧ q ∈ if j = i then Iio (1 : ℝ) else univ} := by
      filter_upwards [hl] with ω hω
      obtain ⟨q, -, hr⟩ := spot_ratios G n (D ω) (l ω) hω
      refine propext ⟨fun h j => ?_, fun h => ?_⟩
      · by_cases hj : j = i
        · subst hj; rw [if_pos rfl]; exact h
        · rw [if_neg hj]
          have h1 := congrArg (fun x => x[(j : ℕ)]?) hr
          simp only [List.getElem?_map, List.getElem?_ofFn, j.2, dite_true, Fin.eta, Option.map_eq_some_iff] at h1
          obtain ⟨s, k1, k2⟩ := h1
          exact ⟨s, _, k1, k2, mem_univ _⟩
      · have := h i
        rw [if_pos rfl] at this
        exact this
    have hp' : p = _ := measure_congr e
    rw [hp', h, Finset.prod_eq_single i]
    · rw [if_pos rfl]
    · intro j _ hj
      rw [if_neg hj, inter_univ]
      exact ENNReal.div_self hne (measure_ne_top _ _)
    · intro h; exact absurd (Finset.mem_univ i) h
  rw [hp]
  constructor
  · refine ENNReal.div_pos ?_ (measure_ne_top _ _)
    intro h0
    have := gaussianReal_absolutelyContinuous' 5 (v := 1) one_ne_zero h0
    rw [Ioi_inter_Iio, Real.volume_Ioo] at this
    norm_num at this
  · refine ENNReal.div_le_div_right ?_ _
    have h2 := ratio_below 1 (-4) (by norm_num)
    norm_num at h2
    exact (measure_mono (inter_subset_right.trans Iio_subset_Iic_self)).trans h2

/-- A probability space with fair batches. -/
def ratioSpace (n : ℕ) : Measure (ℕ → Fin n → ℝ) := Measure.infinitePi fun _ => Measure.pi fun _ => gaussianReal 0 1

theorem ratioSpace_fair (n : ℕ) : FairNormals (ratioSpace n) fun k ω => ω k :=
  ⟨fun k => measurable_pi_apply k, fun k => Measure.infinitePi_map_eval _ k,
    iIndepFun_infinitePi (P := fun _ : ℕ => Measure.pi fun _ : Fin n => gaussianReal 0 1) (X := fun _ v => v) fun _ => measurable_id⟩

/-- Non-trivial instance of C124: three spots are generated with probability one, and on average fewer than 1.01 batches are drawn. -/
example : ∃ (P : Measure (ℕ → Fin 3 → ℝ)) (D : (ℕ → Fin 3 → ℝ) → SpotDraws 3), IsProbabilityMeasure P ∧
    (∀ᵐ ω ∂P, ∃ l, lightGen.generate 3 (D ω) = .ok l) ∧
    ∫⁻ ω, ((sInf {k | ∀ i, 0 < (D ω).ratios k i} + 1 : ℕ) : ℝ≥0∞) ∂P ≤ ENNReal.ofReal 1.01 := by
  have : IsProbabilityMeasure (ratioSpace 3) := by unfold ratioSpace; infer_instance
  obtain ⟨h1, h2, h3, -⟩ := C124_area_ratios (ratioSpace 3) lightGen (by norm_num [lightGen]) (by simp [lightGen, SpotGenerator.off]) 3
    (fun ω => ⟨fun _ => 0, ω, fun _ => true, fun _ => 0, fun _ => unitDraw 0, fun _ => unitDraw 0⟩) (ratioSpace_fair 3)
  refine ⟨ratioSpace 3, _, inferInstance, h1, ?_⟩
  rw [h3]
  have he : exp (-(25 / 2)) ≤ 0.001 := by
    have h4 : (9 / 4 : ℝ) ≤ exp (5 / 4) := by have := add_one_le_exp (5 / 4 : ℝ); linarith
    have h5 : (9 / 4 : ℝ) ^ 10 ≤ exp (5 / 4) ^ 10 := by gcongr
    rw [← exp_nat_mul] at h5
    norm_num at h5
    rw [exp_neg, inv_le_comm₀ (exp_pos _) (by norm_num)]
    norm_num
    linarith
  have h6 : ENNReal.ofReal 0.999 ≤ gaussianReal 5 1 (Ioi 0) := (ENNReal.ofReal_le_ofReal (by linarith)).trans h2
  calc (gaussianReal 5 1 (Ioi 0) ^ 3)⁻¹ ≤ (ENNReal.ofReal 0.999 ^ 3)⁻¹ := ENNReal.inv_le_inv.mpr (pow_le_pow_left' h6 3)
    _ = ENNReal.ofReal ((0.999 ^ 3)⁻¹) := by rw [← ENNReal.ofReal_pow (by norm_num), ENNReal.ofReal_inv_of_pos (by norm_num)]
    _ ≤ ENNReal.ofReal 1.01 := ENNReal.ofReal_le_ofReal (by norm_num)

end Vsm
