import Verif.Props.Numbers
import Mathlib.Probability.Independence.CharacteristicFunction
/-!
# The features in a region of the star (C170)

C168 gives the distribution of the number of spots and faculae of a star that went through many steps of births and aging.  As the features
are spread evenly over the sphere (C108) and independently of each other, the same holds for the number in any region, with the share
of the mean that is the region's share of the sphere, and the numbers in disjoint regions are independent.
-/
set_option autoImplicit false

namespace Vsm
open Real MeasureTheory ProbabilityTheory Set Np Spec
open scoped ENNReal NNReal

/-! ### Two tallies -/

theorem tally_phase {Y : Type*} {n : ℕ} (A B : Set Y) (a b : ℝ) (v : Fin n → Y) [DecidablePred (· ∈ A)] [DecidablePred (· ∈ B)] :
    Complex.exp ((a * (tally A v : ℕ) + b * (tally B v : ℕ) : ℝ) * Complex.I) =
      ∏ i, Complex.exp (((if v i ∈ A then a else 0) + (if v i ∈ B then b else 0) : ℝ) * Complex.I) := by
  rw [← Complex.exp_sum, ← Finset.sum_mul, ← Complex.ofReal_sum, Finset.sum_add_distrib]
  congr 3
  unfold tally
  push_cast
  rw [Finset.mul_sum, Finset.mul_sum]
  congr 2 <;>
  · funext i
    split_ifs <;> simp

theorem phase_mean {Y : Type*} [MeasurableSpace Y] (μ : Measure Y) [IsProbabilityMeasure μ] {A B : Set Y} (hA : MeasurableSet A) (hB : MeasurableSet B)
    (hAB : Disjoint A B) (a b : ℝ) [DecidablePred (· ∈ A)] [DecidablePred (· ∈ B)] :
    ∫ v, Complex.exp (((if v ∈ A then a else 0) + (if v ∈ B then b else 0) : ℝ) * Complex.I) ∂μ =
      1 + (μ A).toReal * (Complex.exp (a * Complex.I) - 1) + (μ B).toReal * (Complex.exp (b * Complex.I) - 1) := by
  have h : (fun v => Complex.exp (((if v ∈ A then a else 0) + (if v ∈ B then b else 0) : ℝ) * Complex.I)) = fun v =>
      1 + A.indicator (fun _ => Complex.exp (a * Complex.I) - 1) v + B.indicator (fun _ => Complex.exp (b * Complex.I) - 1) v := by
    funext v
    by_cases h1 : v ∈ A
    · have h2 : v ∉ B := Set.disjoint_left.mp hAB h1
      simp [h1, h2]
    · by_cases h2 : v ∈ B <;> simp [h1, h2]
  rw [h, integral_add ((integrable_const _).add ((integrable_const _).indicator hA)) ((integrable_const _).indicator hB),
    integral_add (integrable_const _) ((integrable_const _).indicator hA), integral_indicator hA, integral_indicator hB]
  simp [Measure.real]

theorem phase_run {Ω : Type*} [MeasurableSpace Ω] (P : Measure Ω) [IsProbabilityMeasure P] (x : ℝ) (K : ℕ → Ω → ℕ)
    (y : ℕ → (n : ℕ) → Ω → Fin n → (ℝ × ℝ) × ℝ) (hF : FairSpots P x K y) (A B : ℕ → Set ((ℝ × ℝ) × ℝ)) (hA : ∀ j, MeasurableSet (A j))
    (hB : ∀ j, MeasurableSet (B j)) (hAB : ∀ j, Disjoint (A j) (B j)) (N : ℕ) (a b : ℝ) :
    ∫ ω, Complex.exp ((a * ((∑ j ∈ Finset.range N, tally (A j) (y j (K j ω) ω) : ℕ) : ℝ) +
        b * ((∑ j ∈ Finset.range N, tally (B j) (y j (K j ω) ω) : ℕ) : ℝ) : ℝ) * Complex.I) ∂P =
      ∏ j : Fin N, Complex.exp (x.toNNReal * ((drawLaw (A j)).toReal * (Complex.exp (a * Complex.I) - 1) +
        (drawLaw (B j)).toReal * (Complex.exp (b * Complex.I) - 1))) := by
  classical
  have h1 : ∀ ω, Complex.exp ((a * ((∑ j ∈ Finset.range N, tally (A j) (y j (K j ω) ω) : ℕ) : ℝ) +
        b * ((∑ j ∈ Finset.range N, tally (B j) (y j (K j ω) ω) : ℕ) : ℝ) : ℝ) * Complex.I) =
      ∏ j : Fin N, (fun (j : Fin N) (w : ℕ × ((n : ℕ) → Fin n → (ℝ × ℝ) × ℝ)) => Complex.exp ((a * (tally (A j) (w.2 w.1) : ℕ) +
        b * (tally (B j) (w.2 w.1) : ℕ) : ℝ) * Complex.I)) j (K j ω, fun n => y j n ω) := by
    intro ω
    rw [← Complex.exp_sum, ← Finset.sum_mul, ← Complex.ofReal_sum, Finset.sum_add_distrib, ← Finset.mul_sum, ← Finset.mul_sum]
    rw [← Fin.sum_univ_eq_sum_range (fun j => tally (A j) (y j (K j ω) ω)), ← Fin.sum_univ_eq_sum_range (fun j => tally (B j) (y j (K j ω) ω))]
    push_cast
    rfl
  have hst : iIndepFun (fun (j : Fin N) ω => (K j ω, fun n => y j n ω)) P := hF.steps.precomp Fin.val_injective
  have hwm : ∀ (B : Set ((ℝ × ℝ) × ℝ)), MeasurableSet B → Measurable fun w : ℕ × ((n : ℕ) → Fin n → (ℝ × ℝ) × ℝ) => tally B (w.2 w.1) := by
    intro B hB
    exact tally_batch_measurable (fun w : ℕ × ((n : ℕ) → Fin n → (ℝ × ℝ) × ℝ) => w.1) measurable_fst (fun n w => w.2 n)
      (fun n => (measurable_pi_apply n).comp measurable_snd) hB
  have hcast : Measurable (Nat.cast : ℕ → ℝ) := Measurable.of_discrete
  refine (integral_congr_ae (Filter.Eventually.of_forall h1)).trans ((hst.integral_fun_prod_comp (𝕜 := ℂ) (f := fun (j : Fin N) (w : ℕ × ((n : ℕ) → Fin n → (ℝ × ℝ) × ℝ)) =>
    Complex.exp ((a * (tally (A j) (w.2 w.1) : ℕ) + b * (tally (B j) (w.2 w.1) : ℕ) : ℝ) * Complex.I)) (fun j => ((hF.count_measurable j).prodMk (measurable_pi_lambda _ fun n => hF.measurable j n)).aemeasurable)
    (fun j => by
      refine Measurable.aestronglyMeasurable ?_
      have m1 : Measurable fun w : ℕ × ((n : ℕ) → Fin n → (ℝ × ℝ) × ℝ) => (a * (tally (A j) (w.2 w.1) : ℕ) + b * (tally (B j) (w.2 w.1) : ℕ) : ℝ) :=
        ((hcast.comp (hwm _ (hA j))).const_mul a).add ((hcast.comp (hwm _ (hB j))).const_mul b)
      exact Complex.measurable_exp.comp ((Complex.measurable_ofReal.comp m1).mul_const _))).trans ?_)
  refine Finset.prod_congr rfl fun j _ => ?_
  simp only [tally_phase]
  rw [phase_batch P x.toNNReal (K j) (hF.count_measurable j) (hF.count j) drawLaw (y j) (hF.measurable j) (hF.law j) (hF.indep j)
    (fun v => Complex.exp (((if v ∈ A j then a else 0) + (if v ∈ B j then b else 0) : ℝ) * Complex.I)) (by
      have m1 : Measurable fun v : (ℝ × ℝ) × ℝ => ((if v ∈ A j then a else 0) + (if v ∈ B j then b else 0) : ℝ) :=
        (Measurable.ite (hA j) measurable_const measurable_const).add (Measurable.ite (hB j) measurable_const measurable_const)
      exact Complex.measurable_exp.comp ((Complex.measurable_ofReal.comp m1).mul_const _))
    (fun v => by rw [Complex.norm_exp_ofReal_mul_I]), phase_mean drawLaw (hA j) (hB j) (hAB j)]
  congr 1
  ring

theorem tallies_indep {Ω : Type*} [MeasurableSpace Ω] (P : Measure Ω) [IsProbabilityMeasure P] (x : ℝ) (K : ℕ → Ω → ℕ)
    (y : ℕ → (n : ℕ) → Ω → Fin n → (ℝ × ℝ) × ℝ) (hF : FairSpots P x K y) (A B : ℕ → Set ((ℝ × ℝ) × ℝ)) (hA : ∀ j, MeasurableSet (A j))
    (hB : ∀ j, MeasurableSet (B j)) (hAB : ∀ j, Disjoint (A j) (B j)) (N : ℕ) :
    IndepFun (fun ω => ∑ j ∈ Finset.range N, tally (A j) (y j (K j ω) ω)) (fun ω => ∑ j ∈ Finset.range N, tally (B j) (y j (K j ω) ω)) P := by
  have hm : ∀ (B : ℕ → Set ((ℝ × ℝ) × ℝ)), (∀ j, MeasurableSet (B j)) → Measurable fun ω => ∑ j ∈ Finset.range N, tally (B j) (y j (K j ω) ω) :=
    fun B hB => Finset.measurable_sum _ fun j _ => tally_batch_measurable (K j) (hF.count_measurable j) (y j) (hF.measurable j) (hB j)
  have hcast : Measurable (Nat.cast : ℕ → ℝ) := Measurable.of_discrete
  have hmr : ∀ (B : ℕ → Set ((ℝ × ℝ) × ℝ)), (∀ j, MeasurableSet (B j)) →
      Measurable fun ω => ((∑ j ∈ Finset.range N, tally (B j) (y j (K j ω) ω) : ℕ) : ℝ) := fun B hB => hcast.comp (hm B hB)
  have key : IndepFun (fun ω => ((∑ j ∈ Finset.range N, tally (A j) (y j (K j ω) ω) : ℕ) : ℝ))
      (fun ω => ((∑ j ∈ Finset.range N, tally (B j) (y j (K j ω) ω) : ℕ) : ℝ)) P := by
    rw [indepFun_iff_charFunDual_prod (hmr A hA).aemeasurable (hmr B hB).aemeasurable]
    intro L
    rw [charFunDual_apply, charFunDual_apply, charFunDual_apply, integral_map ((hmr A hA).prodMk (hmr B hB)).aemeasurable (by fun_prop),
      integral_map (hmr A hA).aemeasurable (by fun_prop), integral_map (hmr B hB).aemeasurable (by fun_prop)]
    set a := L (1, 0)
    set b := L (0, 1)
    have hL : ∀ u v : ℝ, L (u, v) = a * u + b * v := by
      intro u v
      have : (u, v) = u • ((1, 0) : ℝ × ℝ) + v • ((0, 1) : ℝ × ℝ) := by simp
      rw [this, map_add, map_smul, map_smul, smul_eq_mul, smul_eq_mul]
      ring
    have hd0 : ∀ j : ℕ, Disjoint (A j) (∅ : Set ((ℝ × ℝ) × ℝ)) := fun j => Set.disjoint_empty _
    have hd1 : ∀ j : ℕ, Disjoint (∅ : Set ((ℝ × ℝ) × ℝ)) (B j) := fun j => Set.empty_disjoint _
    have e := phase_run P x K y hF A B hA hB hAB N a b
    have eA := phase_run P x K y hF A (fun _ => ∅) hA (fun _ => MeasurableSet.empty) hd0 N a 0
    have eB := phase_run P x K y hF (fun _ => ∅) B (fun _ => MeasurableSet.empty) hB hd1 N 0 b
    simp only [ContinuousLinearMap.comp_apply, ContinuousLinearMap.inl_apply, ContinuousLinearMap.inr_apply, hL]
    simp only [zero_mul, add_zero, zero_add, mul_zero, measure_empty, ENNReal.toReal_zero, Complex.ofReal_zero] at eA eB ⊢
    rw [e, eA, eB, ← Finset.prod_mul_distrib]
    refine Finset.prod_congr rfl fun j _ => ?_
    rw [← Complex.exp_add]
    ring_nf
  have := key.comp (φ := fun r : ℝ => ⌊r⌋₊) (ψ := fun r : ℝ => ⌊r⌋₊) Nat.measurable_floor Nat.measurable_floor
  convert this using 1 <;>
  · funext ω
    rw [Function.comp_apply, Nat.floor_natCast]

/-! ### The features of a run with their places -/

/-- The sum over the features of a run, step by step, of a function of all their draws. -/
noncomputable def drawSum (Φ : ℝ → (ℝ × ℝ) × ℝ → ℝ≥0∞) (dt : ℝ) (k : ℕ → ℕ) (y : ℕ → (n : ℕ) → Fin n → (ℝ × ℝ) × ℝ) : List ℕ → ℝ≥0∞
  | [] => 0
  | j :: js => (∑ i : Fin (k j), Φ ((js.length + 1 : ℕ) * dt) (y j (k j) i)) + drawSum Φ dt k y js

theorem drawSum_eq (Φ : ℝ → (ℝ × ℝ) × ℝ → ℝ≥0∞) (dt : ℝ) (k : ℕ → ℕ) (y : ℕ → (n : ℕ) → Fin n → (ℝ × ℝ) × ℝ) (js : List ℕ) :
    drawSum Φ dt k y js = ∑ m : Fin js.length, ∑ i : Fin (k js[m]), Φ ((js.length - m : ℕ) * dt) (y js[m] (k js[m]) i) := by
  induction js with
  | nil => simp [drawSum]
  | cons j js ih =>
    rw [drawSum, ih]
    simp only [List.length_cons]
    rw [Fin.sum_univ_succ]
    congr 1
    refine Finset.sum_congr rfl fun m _ => ?_
    simp

theorem drawSum_range (Φ : ℝ → (ℝ × ℝ) × ℝ → ℝ≥0∞) (dt : ℝ) (k : ℕ → ℕ) (y : ℕ → (n : ℕ) → Fin n → (ℝ × ℝ) × ℝ) (N : ℕ) :
    drawSum Φ dt k y (List.range N) = ∑ j ∈ Finset.range N, ∑ i : Fin (k j), Φ ((N - j : ℕ) * dt) (y j (k j) i) := by
  rw [drawSum_eq]
  have h : ∀ m : Fin (List.range N).length, (∑ i : Fin (k (List.range N)[m]), Φ ((((List.range N).length - m : ℕ) : ℝ) * dt)
      (y (List.range N)[m] (k (List.range N)[m]) i)) = ∑ i : Fin (k m), Φ ((N - (m : ℕ) : ℕ) * dt) (y m (k m) i) := by
    intro m
    have e : (List.range N)[m] = (m : ℕ) := List.getElem_range _
    have el : ((((List.range N).length - (m : ℕ) : ℕ)) : ℝ) = ((N - (m : ℕ) : ℕ) : ℝ) := by simp
    rw [e, el]
  rw [Finset.sum_congr rfl fun m _ => h m, ← Fin.sum_univ_eq_sum_range (fun j => ∑ i : Fin (k j), Φ ((N - j : ℕ) * dt) (y j (k j) i)) N]
  refine Fintype.sum_equiv (finCongr List.length_range) _ _ fun m => ?_
  rfl

theorem spotPopulation_draws (s : Star) (dt x : ℝ) (hx : s.spotGen.nExpected dt s.radius = .fin x) (k : ℕ → ℕ)
    (d : ℕ → (n : ℕ) → SpotDraws n) (g : Grid) (φ : StarSpot → ℝ≥0∞) (Φ : ℝ → (ℝ × ℝ) × ℝ → ℝ≥0∞)
    (hΦ : ∀ (n : ℕ) (e : SpotDraws n) (l : List StarSpot), s.spotGen.generate n e = .ok l → ∀ (i : ℕ) (hi : i < l.length) (hn : i < n) (t : ℝ),
      (spotLater t { l[i] with grid := g }).elim 0 φ = Φ t ((e.uLat ⟨i, hn⟩, e.uLon ⟨i, hn⟩), e.z ⟨i, hn⟩))
    (js : List ℕ) (hp : ∀ j ∈ js, Np.poisson (.fin x) (k j) = .ok (k j)) (news : List (List StarSpot))
    (h : List.Forall₂ (spotsOf s) (js.flatMap fun j => spotStep dt (k j) (d j)) news) :
    ((population spotLater (js.flatMap fun j => spotStep dt (k j) (d j)) (news.map (spotsOn g))).map φ).sum =
      drawSum Φ dt k (fun j n i => (((d j n).uLat i, (d j n).uLon i), (d j n).z i)) js := by
  induction js generalizing news with
  | nil => cases h; rfl
  | cons j js ih =>
    have hages := ages_spotRun dt k d js
    rw [List.flatMap_cons] at h ⊢
    rw [show spotStep dt (k j) (d j) = [.birthSpots dt (k j) (d j), .age dt] from rfl] at h ⊢
    simp only [List.cons_append, List.nil_append] at h ⊢
    obtain ⟨new, l', h1, h2, rfl⟩ := List.forall₂_cons_left_iff.mp h
    obtain ⟨new2, rest, h3, h4, rfl⟩ := List.forall₂_cons_left_iff.mp h2
    have hn2 : new2 = [] := h3
    have hn : s.spotGen.generate (k j) (d j (k j)) = .ok new := by
      have : s.spotGen.birth dt s.radius (k j) (d j) = .ok new := h1
      unfold SpotGenerator.birth at this
      rw [hx, hp j (by simp)] at this
      exact this
    subst hn2
    have hlen : new.length = k j := ((C27_generate _ _ _).2.2 new hn).1
    have ih' := ih (fun j' hj' => hp j' (by simp [hj'])) rest h4
    have hage : ages (Op.age dt :: List.flatMap (fun j => spotStep dt (k j) (d j)) js) = dt :: List.replicate js.length dt :=
      congrArg (dt :: ·) hages
    have hsum : (dt :: List.replicate js.length dt).sum = ((js.length + 1 : ℕ) : ℝ) * dt := by
      simp
      ring
    simp only [List.map_cons, population, spotsOn, List.map_nil, later_nil, List.nil_append]
    rw [List.map_append, List.sum_append, drawSum]
    congr 1
    unfold later
    rw [hage, if_neg (by simp), hsum, sum_filterMap, List.map_map]
    rw [show (fun i : Fin (k j) => Φ ((js.length + 1 : ℕ) * dt) (((d j (k j)).uLat i, (d j (k j)).uLon i), (d j (k j)).z i)) = _ from
      funext fun i => (hΦ _ _ new hn i (by rw [hlen]; exact i.2) i.2 _).symm]
    rw [← List.sum_ofFn]
    congr 1
    apply List.ext_getElem
    · simp [hlen]
    · intro n h1 h2
      simp

theorem population_draws (s : Star) (dt x : ℝ) (hx : s.facGen.nExpected dt s.radius = .fin x) (k : ℕ → ℕ)
    (d : ℕ → (n : ℕ) → FaculaDraws n) (g : Grid) (φ : Facula → ℝ≥0∞) (Φ : ℝ → (ℝ × ℝ) × ℝ → ℝ≥0∞)
    (hΦ : ∀ (n : ℕ) (e : FaculaDraws n) (i : Fin n) (t : ℝ),
      (faculaLater t { (s.facGen.generate n e)[(i : ℕ)]'(by simp [FaculaGenerator.generate]) with grid := g }).elim 0 φ = Φ t ((e.uLat i, e.uLon i), e.mu i))
    (js : List ℕ) (hp : ∀ j ∈ js, Np.poisson (.fin x) (k j) = .ok (k j)) (newf : List (List Facula))
    (h : List.Forall₂ (faculaeOf s) (js.flatMap fun j => facStep dt (k j) (d j)) newf) :
    ((population faculaLater (js.flatMap fun j => facStep dt (k j) (d j)) (newf.map (faculaeOn g))).map φ).sum =
      drawSum Φ dt k (fun j n i => (((d j n).uLat i, (d j n).uLon i), (d j n).mu i)) js := by
  induction js generalizing newf with
  | nil => cases h; rfl
  | cons j js ih =>
    have hages := ages_run dt k d js
    rw [List.flatMap_cons] at h ⊢
    rw [show facStep dt (k j) (d j) = [.birthFaculae dt (k j) (d j), .age dt] from rfl] at h ⊢
    simp only [List.cons_append, List.nil_append] at h ⊢
    obtain ⟨new, l', h1, h2, rfl⟩ := List.forall₂_cons_left_iff.mp h
    obtain ⟨new2, rest, h3, h4, rfl⟩ := List.forall₂_cons_left_iff.mp h2
    have hn2 : new2 = [] := h3
    have hn : new = s.facGen.generate (k j) (d j (k j)) := by
      have : s.facGen.birth dt s.radius (k j) (d j) = .ok new := h1
      unfold FaculaGenerator.birth at this
      rw [hx, hp j (by simp)] at this
      simp only [Except.map, Except.ok.injEq] at this
      exact this.symm
    subst hn2 hn
    have ih' := ih (fun j' hj' => hp j' (by simp [hj'])) rest h4
    have hage : ages (Op.age dt :: List.flatMap (fun j => facStep dt (k j) (d j)) js) = dt :: List.replicate js.length dt :=
      congrArg (dt :: ·) hages
    have hsum : (dt :: List.replicate js.length dt).sum = ((js.length + 1 : ℕ) : ℝ) * dt := by
      simp
      ring
    simp only [List.map_cons, population, faculaeOn, List.map_nil, later_nil, List.nil_append]
    rw [List.map_append, List.sum_append, drawSum]
    congr 1
    unfold later
    rw [hage, if_neg (by simp), hsum, sum_filterMap, List.map_map]
    rw [show (fun i : Fin (k j) => Φ ((js.length + 1 : ℕ) * dt) (((d j (k j)).uLat i, (d j (k j)).uLon i), (d j (k j)).mu i)) = _ from
      funext fun i => (hΦ _ _ i _).symm]
    rw [← List.sum_ofFn]
    congr 1
    apply List.ext_getElem
    · simp [FaculaGenerator.generate]
    · intro n h1 h2
      simp

/-! ### Regions -/

/-- The draws of a feature in a region that lives longer than `t`. -/
def regionDraws (L : ℝ → ℝ) (t : ℝ) (A : Set (ℝ × ℝ)) : Set ((ℝ × ℝ) × ℝ) :=
  {v | (arcsin (2 * v.1.1 - 1), 2 * π * v.1.2) ∈ A ∧ t < L v.2}

theorem regionDraws_measurable (L : ℝ → ℝ) (hL : Measurable L) (t : ℝ) (A : Set (ℝ × ℝ)) (hA : MeasurableSet A) :
    MeasurableSet (regionDraws L t A) :=
  (measurable_fst (place_measurable A hA)).inter (measurableSet_lt measurable_const (hL.comp measurable_snd))

theorem regionDraws_chance (L : ℝ → ℝ) (t : ℝ) (A : Set (ℝ × ℝ)) (hA : MeasurableSet A) :
    drawLaw (regionDraws L t A) = sphereShare A * gaussianReal 0 1 {z | t < L z} := by
  have h : regionDraws L t A = {p : ℝ × ℝ | (arcsin (2 * p.1 - 1), 2 * π * p.2) ∈ A} ×ˢ {z | t < L z} := by
    ext v
    simp [regionDraws]
  rw [h, drawLaw, Measure.prod_prod, Measure.restrict_apply (place_measurable A hA), ← square_sphere A hA]
  congr 2
  ext p
  simp only [Spec.square, mem_inter_iff, mem_ofPred_eq, and_comm]

open Classical in
theorem region_sum (L : ℝ → ℝ) (dt : ℝ) (k : ℕ → ℕ) (y : ℕ → (n : ℕ) → Fin n → (ℝ × ℝ) × ℝ) (A : Set (ℝ × ℝ)) (N : ℕ) :
    drawSum (fun t v => if (arcsin (2 * v.1.1 - 1), 2 * π * v.1.2) ∈ A then ENNReal.ofReal (aliveAt (L v.2) t) else 0) dt k y (List.range N) =
      ((∑ j ∈ Finset.range N, tally (regionDraws L ((N - j : ℕ) * dt) A) (y j (k j)) : ℕ) : ℝ≥0∞) := by
  rw [drawSum_range]
  push_cast
  refine Finset.sum_congr rfl fun j _ => ?_
  rw [tally]
  push_cast
  refine Finset.sum_congr rfl fun i _ => ?_
  unfold aliveAt regionDraws
  by_cases h1 : (arcsin (2 * (y j (k j) i).1.1 - 1), 2 * π * (y j (k j) i).1.2) ∈ A
  · by_cases h2 : ((N - j : ℕ) : ℝ) * dt < L (y j (k j) i).2 <;> simp [h1, h2]
  · simp [h1]

open Classical in
theorem count_sum {α : Type*} (l : List α) (Q : α → Prop) : ((l.countP fun a => decide (Q a) : ℕ) : ℝ≥0∞) = (l.map fun a => if Q a then 1 else 0).sum := by
  induction l with
  | nil => simp
  | cons a l ih =>
    rw [List.countP_cons, List.map_cons, List.sum_cons, ← ih]
    by_cases h : Q a <;> simp [h, add_comm]

open Classical in
/-- The numbers in the regions, for features of any kind. -/
theorem regions_law {Ω α : Type*} [MeasurableSpace Ω] (P : Measure Ω) [IsProbabilityMeasure P] (x : ℝ) (hx : 0 ≤ x) (K : ℕ → Ω → ℕ)
    (y : ℕ → (n : ℕ) → Ω → Fin n → (ℝ × ℝ) × ℝ) (hF : FairSpots P x K y) (L : ℝ → ℝ) (hL : Measurable L) (dt : ℝ) (N : ℕ) (l : Ω → List α)
    (place : α → ℝ × ℝ)
    (hl : ∀ A : Set (ℝ × ℝ), ∀ᵐ ω ∂P, (((l ω).map fun s => if place s ∈ A then 1 else 0).sum : ℝ≥0∞) =
      drawSum (fun t v => if (arcsin (2 * v.1.1 - 1), 2 * π * v.1.2) ∈ A then ENNReal.ofReal (aliveAt (L v.2) t) else 0) dt (fun j => K j ω)
        (fun j n i => y j n ω i) (List.range N)) :
    ∃ M : ℝ, 0 ≤ M ∧ HasLaw (fun ω => (l ω).length) (poissonMeasure M.toNNReal) P ∧
      (∀ A, MeasurableSet A → HasLaw (fun ω => (l ω).countP fun s => decide (place s ∈ A)) (poissonMeasure (M * (sphereShare A).toReal).toNNReal) P) ∧
      ∀ A B, MeasurableSet A → MeasurableSet B → Disjoint A B →
        IndepFun (fun ω => (l ω).countP fun s => decide (place s ∈ A)) (fun ω => (l ω).countP fun s => decide (place s ∈ B)) P := by
  have hcount : ∀ A : Set (ℝ × ℝ), (fun ω => (l ω).countP fun s => decide (place s ∈ A)) =ᵐ[P]
      fun ω => ∑ j ∈ Finset.range N, tally (regionDraws L ((N - j : ℕ) * dt) A) (y j (K j ω) ω) := by
    intro A
    filter_upwards [hl A] with ω hω
    rw [← count_sum, region_sum L dt (fun j => K j ω) (fun j n => y j n ω) A N] at hω
    exact_mod_cast hω
  set M : ℝ := ∑ j ∈ Finset.range N, x * (gaussianReal 0 1 {z | ((N - j : ℕ) : ℝ) * dt < L z}).toReal with hM
  have hM0 : 0 ≤ M := Finset.sum_nonneg fun j _ => by positivity
  have hlaw : ∀ A, MeasurableSet A → HasLaw (fun ω => (l ω).countP fun s => decide (place s ∈ A)) (poissonMeasure (M * (sphereShare A).toReal).toNNReal) P := by
    intro A hA
    have h := run_tally P x K y hF (fun j => regionDraws L ((N - j : ℕ) * dt) A) (fun j => regionDraws_measurable L hL _ A hA) N
    have e : (∑ j ∈ Finset.range N, x.toNNReal * (drawLaw (regionDraws L ((N - j : ℕ) * dt) A)).toNNReal) = (M * (sphereShare A).toReal).toNNReal := by
      rw [← NNReal.coe_inj, Real.coe_toNNReal _ (by positivity), NNReal.coe_sum, hM, Finset.sum_mul]
      refine Finset.sum_congr rfl fun j _ => ?_
      rw [NNReal.coe_mul, Real.coe_toNNReal _ hx, ENNReal.coe_toNNReal_eq_toReal, regionDraws_chance L _ A hA, ENNReal.toReal_mul]
      ring
    rw [e] at h
    exact h.congr (hcount A)
  refine ⟨M, hM0, ?_, hlaw, ?_⟩
  · have h := hlaw univ MeasurableSet.univ
    have h1 : sphereShare univ = 1 := (C108_uniform_positions P univ MeasurableSet.univ 1 0).2.2.2
    rw [h1] at h
    simpa using h
  · intro A B hA hB hAB
    refine IndepFun.congr ?_ (hcount A).symm (hcount B).symm
    refine tallies_indep P x K y hF _ _ (fun j => regionDraws_measurable L hL _ A hA) (fun j => regionDraws_measurable L hL _ B hB) (fun j => ?_) N
    rw [Set.disjoint_left]
    rintro v ⟨h1, -⟩ ⟨h2, -⟩
    exact Set.disjoint_left.mp hAB h1 h2

theorem spotLater_place {t : ℝ} {s s' : StarSpot} (h : spotLater t s = some s') : s'.lat = s.lat ∧ s'.lon = s.lon := by
  unfold spotLater at h
  cases hs : s.area <;> rw [hs] at h <;> simp only at h <;> try cases h
  split_ifs at h <;> cases h <;> exact ⟨rfl, rfl⟩

theorem faculaLater_place {t : ℝ} {f f' : Facula} (h : faculaLater t f = some f') : f'.lat = f.lat ∧ f'.lon = f.lon := by
  unfold faculaLater at h
  cases hs : f.radius <;> rw [hs] at h <;> simp only at h <;> try cases h
  split_ifs at h <;> cases h <;> exact ⟨rfl, rfl⟩

open Classical in
/-- **C170** Spots in a region.  A star without spots goes through `N` steps of length `dt`, in each of which spots are born for the time `dt`, at
places spread evenly over the sphere, and the star ages by `dt`.  The number of spots at the end whose centre lies in a region has a
Poisson distribution, whose mean is the mean `M` of the number of all spots times the share of the sphere taken by the region; and the
numbers in two disjoint regions, say the visible and the hidden side, are independent. -/
theorem C170_spot_regions {Ω : Type*} [MeasurableSpace Ω] (P : Measure Ω) [IsProbabilityMeasure P] (s₀ : Star) (hg : GoodGens s₀) (h₀ : SoundStar s₀)
    (hs : s₀.spots.spots = []) (hmean : s₀.spotGen.initArea ≤ s₀.spotGen.distAreaMean) (hgr : 0 < s₀.spotGen.growthRate)
    (hdec : 0 < s₀.spotGen.decayRate) (hc : 0 ≤ s₀.spotGen.coverage) (hiso : s₀.spotGen.distribution = .iso) (dt : ℝ) (N : ℕ) (hd : 0 < dt) (x : ℝ)
    (hx : s₀.spotGen.nExpected dt s₀.radius = .fin x) (K : ℕ → Ω → ℕ) (D : ℕ → Ω → (n : ℕ) → SpotDraws n)
    (hF : FairSpots P x K (fun j n ω i => ((((D j ω n).uLat i : ℝ), ((D j ω n).uLon i : ℝ)), (D j ω n).z i))) (S : Ω → Star)
    (hrun : ∀ᵐ ω ∂P, ((List.range N).flatMap fun j => [Op.birthSpots dt (K j ω) (D j ω), Op.age dt]).foldlM runOp s₀ = .ok (S ω)) :
    ∃ M : ℝ, 0 ≤ M ∧ HasLaw (fun ω => (S ω).spots.spots.length) (poissonMeasure M.toNNReal) P ∧
      (∀ A : Set (ℝ × ℝ), MeasurableSet A → HasLaw (fun ω => (S ω).spots.spots.countP fun s => decide ((s.lat, s.lon) ∈ A))
        (poissonMeasure (M * (sphereShare A).toReal).toNNReal) P) ∧
      ∀ A B : Set (ℝ × ℝ), MeasurableSet A → MeasurableSet B → Disjoint A B →
        IndepFun (fun ω => (S ω).spots.spots.countP fun s => decide ((s.lat, s.lon) ∈ A))
          (fun ω => (S ω).spots.spots.countP fun s => decide ((s.lat, s.lon) ∈ B)) P := by
  set G := s₀.spotGen with hG
  have h1 : 0 < G.initArea := hg.init
  have h2 : 0 < G.distAreaMean := hg.mean
  have hx0 : 0 ≤ x := by
    obtain ⟨L', A', n, b1, b2, b3, b4, b5, b6⟩ := C26_births_balance G h1 hmean hgr hdec hc s₀.radius
    have : n dt = x := Fl.fin_inj.mp ((b3 dt).symm.trans hx)
    rw [← this]
    exact b5 dt hd.le
  have hpo : ∀ᵐ ω ∂P, ∀ j, Np.poisson (.fin x) (K j ω) = .ok (K j ω) := by
    rw [ae_all_iff]
    exact fun j => poisson_ok P x hx0 (K j) (hF.count_measurable j) (hF.count j)
  have hLm := life_measurable (a := G.initArea) (m := G.distAreaMean) (σ := G.distAreaLogsigma) (g := G.growthRate) (w := G.decayRate) h1 h2
  refine regions_law P x hx0 K _ hF (fun z => spotLife G.initArea (peakOf G.distAreaMean G.distAreaLogsigma z) G.growthRate G.decayRate) hLm dt N
    (fun ω => (S ω).spots.spots) (fun s => (s.lat, s.lon)) fun A => ?_
  filter_upwards [hpo, hrun] with ω hω hS
  have hop : ∀ op ∈ ((List.range N).flatMap fun j => spotStep dt (K j ω) (D j ω)), Sane op := by
    intro op hop
    obtain ⟨j, -, hj⟩ := List.mem_flatMap.mp hop
    simp only [spotStep, List.mem_cons, List.not_mem_nil, or_false] at hj
    rcases hj with rfl | rfl
    · trivial
    · exact hd.le
  obtain ⟨⟨news, k1, k2⟩, -⟩ := C105_population s₀ (S ω) _ hg h₀ hop hS
  rw [k2, hs, later_nil, List.nil_append]
  refine spotPopulation_draws s₀ dt x hx (fun j => K j ω) (fun j => D j ω) s₀.spots.grid (fun s => if (s.lat, s.lon) ∈ A then 1 else 0)
    (fun t v => if (arcsin (2 * v.1.1 - 1), 2 * π * v.1.2) ∈ A then
      ENNReal.ofReal (aliveAt (spotLife G.initArea (peakOf G.distAreaMean G.distAreaLogsigma v.2) G.growthRate G.decayRate) t) else 0) ?_
    (List.range N) (fun j _ => hω j) news k1
  intro n e l hl i hi hn t
  have hpos : (l[i].lat, l[i].lon) = (arcsin (2 * (e.uLat ⟨i, hn⟩ : ℝ) - 1), 2 * π * (e.uLon ⟨i, hn⟩ : ℝ)) := by
    have := congrArg (fun l => l[i]?) (spot_fields G n e l hiso hl)
    simpa [hi, hn] using this
  have hal := (spot_later G h2 hgr hdec s₀.spots.grid n e l hl i hi hn t).1
  simp only at hal ⊢
  rw [← hpos]
  cases hl' : spotLater t { l[i] with grid := s₀.spots.grid } with
  | none =>
    rw [hl'] at hal
    simp only [Option.elim_none] at hal ⊢
    rw [← hal, ite_self]
  | some s' =>
    obtain ⟨p1, p2⟩ := spotLater_place hl'
    rw [hl'] at hal
    simp only [Option.elim_some] at hal ⊢
    rw [← hal, p1, p2]

open Classical in
/-- **C170** Faculae in a region.  The same for a star that started without faculae. -/
theorem C170_facula_regions {Ω : Type*} [MeasurableSpace Ω] (P : Measure Ω) [IsProbabilityMeasure P] (s₀ : Star) (hg : GoodGens s₀) (h₀ : SoundStar s₀)
    (hf : s₀.faculae.faculae = []) (hc : 0 ≤ s₀.facGen.coverage) (dt : ℝ) (hd : 0 < dt) (N : ℕ) (x : ℝ)
    (hx : s₀.facGen.nExpected dt s₀.radius = .fin x) (K : ℕ → Ω → ℕ) (D : ℕ → Ω → (n : ℕ) → FaculaDraws n)
    (hF : FairSpots P x K (fun j n ω i => ((((D j ω n).uLat i : ℝ), ((D j ω n).uLon i : ℝ)), (D j ω n).mu i))) (S : Ω → Star)
    (hrun : ∀ᵐ ω ∂P, ((List.range N).flatMap fun j => [Op.birthFaculae dt (K j ω) (D j ω), Op.age dt]).foldlM runOp s₀ = .ok (S ω)) :
    ∃ M : ℝ, 0 ≤ M ∧ HasLaw (fun ω => (S ω).faculae.faculae.length) (poissonMeasure M.toNNReal) P ∧
      (∀ A : Set (ℝ × ℝ), MeasurableSet A → HasLaw (fun ω => (S ω).faculae.faculae.countP fun f => decide ((f.lat, f.lon) ∈ A))
        (poissonMeasure (M * (sphereShare A).toReal).toNNReal) P) ∧
      ∀ A B : Set (ℝ × ℝ), MeasurableSet A → MeasurableSet B → Disjoint A B →
        IndepFun (fun ω => (S ω).faculae.faculae.countP fun f => decide ((f.lat, f.lon) ∈ A))
          (fun ω => (S ω).faculae.faculae.countP fun f => decide ((f.lat, f.lon) ∈ B)) P := by
  set G := s₀.facGen with hG
  have hr : 0 < G.distRPeak := hg.rpeak
  have hl : 0 < G.distLifePeak := hg.life
  obtain ⟨⟨rate, b1, -, b3, -⟩, -⟩ := C38_births_balance G hr hl hc s₀.radius
  have hx0 : 0 ≤ x := by
    have : rate dt = x := by have := (b1 dt).symm.trans hx; simpa using this
    rw [← this]; exact b3 dt hd.le
  have hpo : ∀ᵐ ω ∂P, ∀ j, Np.poisson (.fin x) (K j ω) = .ok (K j ω) := by
    rw [ae_all_iff]
    exact fun j => poisson_ok P x hx0 (K j) (hF.count_measurable j) (hF.count j)
  have hLm : Measurable (lifeOf G) := by unfold lifeOf; fun_prop
  refine regions_law P x hx0 K _ hF (fun z => 2 * lifeOf G z) (hLm.const_mul 2) dt N
    (fun ω => (S ω).faculae.faculae) (fun f => (f.lat, f.lon)) fun A => ?_
  filter_upwards [hpo, hrun] with ω hω hS
  have hop : ∀ op ∈ ((List.range N).flatMap fun j => facStep dt (K j ω) (D j ω)), Sane op := by
    intro op hop
    obtain ⟨j, -, hj⟩ := List.mem_flatMap.mp hop
    simp only [facStep, List.mem_cons, List.not_mem_nil, or_false] at hj
    rcases hj with rfl | rfl
    · trivial
    · exact hd.le
  obtain ⟨-, newf, k1, k2⟩ := C105_population s₀ (S ω) _ hg h₀ hop hS
  rw [k2, hf, later_nil, List.nil_append]
  refine population_draws s₀ dt x hx (fun j => K j ω) (fun j => D j ω) s₀.faculae.grid (fun f => if (f.lat, f.lon) ∈ A then 1 else 0)
    (fun t v => if (arcsin (2 * v.1.1 - 1), 2 * π * v.1.2) ∈ A then ENNReal.ofReal (aliveAt (2 * lifeOf G v.2) t) else 0) ?_
    (List.range N) (fun j _ => hω j) newf k1
  intro n e i t
  obtain ⟨q1, q2⟩ := facula_place G n e i
  obtain ⟨c1, c2, -, c4⟩ := generated_on G hr hl s₀.faculae.grid n e i _ rfl
  have hal := later_alive _ c1 c2 t
  rw [c4] at hal
  simp only at hal ⊢
  rw [← q1, ← q2]
  cases hl' : faculaLater t { (G.generate n e)[(i : ℕ)]'(by simp [FaculaGenerator.generate]) with grid := s₀.faculae.grid } with
  | none =>
    rw [hl'] at hal
    simp only [Option.elim_none] at hal ⊢
    rw [← hal, ite_self]
  | some s' =>
    obtain ⟨p1, p2⟩ := faculaLater_place hl'
    rw [hl'] at hal
    simp only [Option.elim_some] at hal ⊢
    rw [← hal, p1, p2]

theorem poissonMeasure_injective {a b : ℝ} (ha : 0 ≤ a) (hb : 0 ≤ b) (h : poissonMeasure a.toNNReal = poissonMeasure b.toNNReal) : a = b := by
  have h1 := congrArg (fun μ : Measure ℕ => μ {0}) h
  simp only [poissonMeasure_singleton, Real.coe_toNNReal _ ha, Real.coe_toNNReal _ hb] at h1
  rw [ENNReal.ofReal_eq_ofReal_iff (by positivity) (by positivity)] at h1
  simpa using h1

open Classical in
/-- Non-trivial instance of C170: after enough steps of a thousandth of a day the number of spots on the visible half of the star of the
example of C121 has a Poisson distribution with a mean between 250 and 251.5, and is independent of the number on the other half. -/
example (lat0 lon0 : ℝ) : ∃ (N : ℕ) (S : (ℕ → ℕ × ((n : ℕ) → Fin n → (ℝ × ℝ) × ℝ)) → Star) (M : ℝ), 0 < N ∧
    (∀ᵐ ω ∂spotSpace (160 * π * (1 / 1000)), ((List.range N).flatMap fun j => [Op.birthSpots (1 / 1000) (ω j).1 (spaceDraws (ω j).2),
      Op.age (1 / 1000)]).foldlM runOp spotsStar = .ok (S ω)) ∧ 250 ≤ M ∧ M ≤ 251.5 ∧
    HasLaw (fun ω => (S ω).spots.spots.countP fun s => decide (greatCircle lat0 lon0 s.lat s.lon < π / 2)) (poissonMeasure M.toNNReal)
      (spotSpace (160 * π * (1 / 1000))) ∧
    IndepFun (fun ω => (S ω).spots.spots.countP fun s => decide (greatCircle lat0 lon0 s.lat s.lon < π / 2))
      (fun ω => (S ω).spots.spots.countP fun s => decide (π / 2 ≤ greatCircle lat0 lon0 s.lat s.lon)) (spotSpace (160 * π * (1 / 1000))) := by
  have hp := pi_pos
  have hp1 := pi_gt_d4
  have hp2 := pi_lt_d4
  have hgood : GoodGens spotsStar := by
    refine ⟨?_, ?_, ?_, ?_, ?_, ?_, ?_⟩ <;> norm_num [spotsStar, busyStar, sampleStar, FaculaGenerator.off]
  have hstar : SoundStar spotsStar := by
    refine ⟨?_, ?_⟩ <;> simp [spotsStar, SpotCollection.new, SpotCollection.setGridmaker]
  obtain ⟨r, L, C, h1, ⟨h2, h3⟩, h4⟩ := C168_spot_number (spotSpace (160 * π * (1 / 1000))) spotsStar hgood hstar rfl
    (by norm_num [spotsStar]) (by norm_num [spotsStar]) (by norm_num [spotsStar]) (by norm_num [spotsStar])
    (by simp [spotsStar, SpotGenerator.off]) (by norm_num [spotsStar])
  have e1 : spotsStar.spotGen.distAreaMean = 1000 := rfl
  have e2 : spotsStar.spotGen.initArea = 1000 := rfl
  have e3 : spotsStar.spotGen.distAreaLogsigma = 0 := rfl
  have e4 : spotsStar.spotGen.growthRate = 1 := rfl
  have e5 : spotsStar.spotGen.decayRate = 1000 := rfl
  have e6 : spotsStar.spotGen.coverage = 0.1 := rfl
  have e7 : spotsStar.radius = 1000 := rfl
  rw [e1, e2, e4, e5, e6, e7] at h1
  rw [e1, e2, e3, e4, e5] at h2 h3
  norm_num at h1 h2 h3
  have hr : r = 160 * π := by linarith
  have hL : L = 1 := le_antisymm h3 h2
  subst hr hL
  obtain ⟨N, hN⟩ := exists_nat_gt (max 0 (C * 1000 * 1000))
  have hN0 : (0 : ℝ) < N := (le_max_left _ _).trans_lt hN
  have hNC : C * 1000 * 1000 < N := (le_max_right _ _).trans_lt hN
  have hNp : 0 < N := by exact_mod_cast hN0
  obtain ⟨hx, h5⟩ := h4 (1 / 1000) N (by norm_num) hNp
  obtain ⟨S, M, k1, k2, k3, k4, k5, k6⟩ := h5 (fun j ω => (ω j).1) (fun j ω => spaceDraws (ω j).2)
    (spotSpace_fair _) (Filter.Eventually.of_forall fun ω j n => ⟨0, fun i => by norm_num [SpotDraws.ratios, spaceDraws]⟩)
  have hC : 160 * π * C / (N * (1 / 1000)) ≤ 160 * π / 1000 := by
    rw [div_le_div_iff₀ (by positivity) (by norm_num)]
    nlinarith
  have hM : 500 ≤ M := by linarith
  obtain ⟨M', m0, m1, m2, m3⟩ := C170_spot_regions (spotSpace (160 * π * (1 / 1000))) spotsStar hgood hstar rfl
    (by norm_num [spotsStar]) (by norm_num [spotsStar]) (by norm_num [spotsStar])
    (by norm_num [spotsStar]) (by simp [spotsStar, SpotGenerator.off]) (1 / 1000) N (by norm_num) _ hx (fun j ω => (ω j).1) (fun j ω => spaceDraws (ω j).2)
    (spotSpace_fair _) S k1
  have hMM : M' = M := poissonMeasure_injective m0 (by linarith) (m1.map_eq.symm.trans k2.map_eq)
  subst hMM
  have hA : MeasurableSet {p : ℝ × ℝ | greatCircle lat0 lon0 p.1 p.2 < π / 2} :=
    measurableSet_lt (by simp only [greatCircle_eq]; fun_prop) measurable_const
  have hsh : sphereShare {p : ℝ × ℝ | greatCircle lat0 lon0 p.1 p.2 < π / 2} = ENNReal.ofReal (1 / 2) := by
    rw [(C108_uniform_positions (spotSpace 0) univ MeasurableSet.univ 1 0).2.2.1 lat0 lon0 (π / 2) (by linarith) (by linarith), cos_pi_div_two, sub_zero]
  have hlaw := m2 _ hA
  rw [hsh, ENNReal.toReal_ofReal (by norm_num)] at hlaw
  have hB : MeasurableSet {p : ℝ × ℝ | π / 2 ≤ greatCircle lat0 lon0 p.1 p.2} :=
    measurableSet_le measurable_const (by simp only [greatCircle_eq]; fun_prop)
  refine ⟨N, S, M' * (1 / 2), hNp, k1, by linarith, by linarith, hlaw, m3 _ {p : ℝ × ℝ | π / 2 ≤ greatCircle lat0 lon0 p.1 p.2} hA hB ?_⟩
  rw [Set.disjoint_left]
  intro p h1 h2
  exact absurd (mem_ofPred_eq ▸ h1) (not_lt.mpr h2)

end Vsm
