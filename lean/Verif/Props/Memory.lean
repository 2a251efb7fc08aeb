import Verif.Props.Regions
import Verif.Props.AreaScatter
/-!
# The memory of the surface (C172)

How the numbers of spots or faculae of a star at two times depend on each other.
-/
set_option autoImplicit false

namespace Vsm
open Real MeasureTheory ProbabilityTheory Set Np Spec
open scoped ENNReal NNReal

/-! ### Products of tallies -/

theorem poisson_square {Ω : Type*} [MeasurableSpace Ω] (P : Measure Ω) (X : Ω → ℕ) (r : ℝ≥0) (h : HasLaw X (poissonMeasure r) P) :
    ∫⁻ ω, (X ω : ℝ≥0∞) * X ω ∂P = r + (r : ℝ≥0∞) * r := by
  rw [← lintegral_map' (f := fun n : ℕ => (n : ℝ≥0∞) * n) (g := X) Measurable.of_discrete.aemeasurable h.aemeasurable, h.map_eq, lintegral_countable']
  have e : ∀ n : ℕ, (n : ℝ≥0∞) * n * poissonMeasure r {n} = n * poissonMeasure r {n} + ((n * (n - 1) : ℕ) : ℝ≥0∞) * poissonMeasure r {n} := by
    intro n
    rw [← add_mul]
    congr 1
    cases n with
    | zero => simp
    | succ n =>
      push_cast [Nat.add_sub_cancel]
      ring
  simp only [e]
  rw [ENNReal.tsum_add, poisson_mean, poisson_pairs, sq]

theorem tally_split {Y : Type*} {n : ℕ} (A B : Set Y) (v : Fin n → Y) : tally A v = tally (A ∩ B) v + tally (A \ B) v := by
  classical
  unfold tally
  rw [← Finset.sum_add_distrib]
  refine Finset.sum_congr rfl fun i _ => ?_
  by_cases h1 : v i ∈ A <;> by_cases h2 : v i ∈ B <;> simp [h1, h2]

theorem tally_products {Ω : Type*} [MeasurableSpace Ω] (P : Measure Ω) [IsProbabilityMeasure P] (x : ℝ) (K : ℕ → Ω → ℕ)
    (y : ℕ → (n : ℕ) → Ω → Fin n → (ℝ × ℝ) × ℝ) (hF : FairSpots P x K y) (A B : ℕ → Set ((ℝ × ℝ) × ℝ)) (hA : ∀ j, MeasurableSet (A j))
    (hB : ∀ j, MeasurableSet (B j)) (N : ℕ) :
    ∫⁻ ω, ((∑ j ∈ Finset.range N, tally (A j) (y j (K j ω) ω) : ℕ) : ℝ≥0∞) * ((∑ j ∈ Finset.range N, tally (B j) (y j (K j ω) ω) : ℕ) : ℝ≥0∞) ∂P =
      ∫⁻ ω, ((∑ j ∈ Finset.range N, tally (A j ∩ B j) (y j (K j ω) ω) : ℕ) : ℝ≥0∞) ∂P +
        (∫⁻ ω, ((∑ j ∈ Finset.range N, tally (A j) (y j (K j ω) ω) : ℕ) : ℝ≥0∞) ∂P) *
          ∫⁻ ω, ((∑ j ∈ Finset.range N, tally (B j) (y j (K j ω) ω) : ℕ) : ℝ≥0∞) ∂P := by
  set T : (ℕ → Set ((ℝ × ℝ) × ℝ)) → Ω → ℕ := fun C ω => ∑ j ∈ Finset.range N, tally (C j) (y j (K j ω) ω) with hT
  have hTm : ∀ C : ℕ → Set ((ℝ × ℝ) × ℝ), (∀ j, MeasurableSet (C j)) → Measurable (T C) := fun C hC =>
    Finset.measurable_sum _ fun j _ => tally_batch_measurable (K j) (hF.count_measurable j) (y j) (hF.measurable j) (hC j)
  have hTe : ∀ C : ℕ → Set ((ℝ × ℝ) × ℝ), (∀ j, MeasurableSet (C j)) → Measurable fun ω => (T C ω : ℝ≥0∞) := fun C hC =>
    (Measurable.of_discrete : Measurable (Nat.cast : ℕ → ℝ≥0∞)).comp (hTm C hC)
  have hind : ∀ C D : ℕ → Set ((ℝ × ℝ) × ℝ), (∀ j, MeasurableSet (C j)) → (∀ j, MeasurableSet (D j)) → (∀ j, Disjoint (C j) (D j)) →
      ∫⁻ ω, (T C ω : ℝ≥0∞) * T D ω ∂P = (∫⁻ ω, (T C ω : ℝ≥0∞) ∂P) * ∫⁻ ω, (T D ω : ℝ≥0∞) ∂P := by
    intro C D hC hD hCD
    have hi := (tallies_indep P x K y hF C D hC hD hCD N).comp (φ := (Nat.cast : ℕ → ℝ≥0∞)) (ψ := (Nat.cast : ℕ → ℝ≥0∞)) Measurable.of_discrete
      Measurable.of_discrete
    exact lintegral_mul_eq_lintegral_mul_lintegral_of_indepFun'' (hTe C hC).aemeasurable (hTe D hD).aemeasurable hi
  have hAB : ∀ j, MeasurableSet (A j ∩ B j) := fun j => (hA j).inter (hB j)
  have hA' : ∀ j, MeasurableSet (A j \ B j) := fun j => (hA j).diff (hB j)
  have hB' : ∀ j, MeasurableSet (B j \ A j) := fun j => (hB j).diff (hA j)
  set U := fun ω => (T (fun j => A j ∩ B j) ω : ℝ≥0∞) with hU
  set V := fun ω => (T (fun j => A j \ B j) ω : ℝ≥0∞) with hV
  set W := fun ω => (T (fun j => B j \ A j) ω : ℝ≥0∞) with hW
  have eA : ∀ ω, ((T A ω : ℕ) : ℝ≥0∞) = U ω + V ω := by
    intro ω
    rw [hU, hV, ← Nat.cast_add]
    congr 1
    rw [hT, ← Finset.sum_add_distrib]
    exact Finset.sum_congr rfl fun j _ => tally_split _ _ _
  have eB : ∀ ω, ((T B ω : ℕ) : ℝ≥0∞) = U ω + W ω := by
    intro ω
    rw [hU, hW, ← Nat.cast_add]
    congr 1
    rw [hT, ← Finset.sum_add_distrib]
    refine Finset.sum_congr rfl fun j _ => ?_
    change _ = tally (A j ∩ B j) _ + tally (B j \ A j) _
    rw [inter_comm]
    exact tally_split _ _ _
  have hUm : Measurable U := hTe _ hAB
  have hVm : Measurable V := hTe _ hA'
  have hWm : Measurable W := hTe _ hB'
  have hUU : ∫⁻ ω, U ω * U ω ∂P = ∫⁻ ω, U ω ∂P + (∫⁻ ω, U ω ∂P) * ∫⁻ ω, U ω ∂P := by
    have hl := run_tally P x K y hF (fun j => A j ∩ B j) hAB N
    rw [poisson_law_mean P _ _ hl]
    exact poisson_square P _ _ hl
  have hUW := hind _ _ hAB hB' fun j => Set.disjoint_left.mpr fun v h1 h2 => h2.2 h1.1
  have hVU := hind _ _ hA' hAB fun j => Set.disjoint_left.mpr fun v h1 h2 => h1.2 h2.2
  have hVW := hind _ _ hA' hB' fun j => Set.disjoint_left.mpr fun v h1 h2 => h2.2 h1.1
  change ∫⁻ ω, (T A ω : ℝ≥0∞) * T B ω ∂P = ∫⁻ ω, U ω ∂P + (∫⁻ ω, (T A ω : ℝ≥0∞) ∂P) * ∫⁻ ω, (T B ω : ℝ≥0∞) ∂P
  simp only [eA, eB]
  have e : ∀ ω, (U ω + V ω) * (U ω + W ω) = U ω * U ω + (U ω * W ω + (V ω * U ω + V ω * W ω)) := fun ω => by ring
  simp only [e]
  have m1 : Measurable fun ω => U ω * U ω := hUm.mul hUm
  have m2 : Measurable fun ω => U ω * W ω := hUm.mul hWm
  have m3 : Measurable fun ω => V ω * U ω := hVm.mul hUm
  rw [lintegral_add_left m1, lintegral_add_left m2, lintegral_add_left m3, lintegral_add_left hUm, lintegral_add_left hUm,
    hUU, hUW, hVU, hVW]
  ring

/-! ### Runs that end with a rest -/

theorem ages_snoc (ops : List Op) (u : ℝ) : ages (ops ++ [.age u]) = ages ops ++ [u] := by
  induction ops with
  | nil => rfl
  | cons op ops ih => cases op <;> simp [ages, ih]

theorem spotPopulation_rest (s : Star) (dt x u : ℝ) (hx : s.spotGen.nExpected dt s.radius = .fin x) (k : ℕ → ℕ)
    (d : ℕ → (n : ℕ) → SpotDraws n) (g : Grid) (φ : StarSpot → ℝ≥0∞) (Φ : ℝ → (ℝ × ℝ) × ℝ → ℝ≥0∞)
    (hΦ : ∀ (n : ℕ) (e : SpotDraws n) (l : List StarSpot), s.spotGen.generate n e = .ok l → ∀ (i : ℕ) (hi : i < l.length) (hn : i < n) (t : ℝ),
      (spotLater t { l[i] with grid := g }).elim 0 φ = Φ t ((e.uLat ⟨i, hn⟩, e.uLon ⟨i, hn⟩), e.z ⟨i, hn⟩))
    (js : List ℕ) (hp : ∀ j ∈ js, Np.poisson (.fin x) (k j) = .ok (k j)) (news : List (List StarSpot))
    (h : List.Forall₂ (spotsOf s) ((js.flatMap fun j => spotStep dt (k j) (d j)) ++ [.age u]) news) :
    ((population spotLater ((js.flatMap fun j => spotStep dt (k j) (d j)) ++ [.age u]) (news.map (spotsOn g))).map φ).sum =
      drawSum (fun t => Φ (t + u)) dt k (fun j n i => (((d j n).uLat i, (d j n).uLon i), (d j n).z i)) js := by
  induction js generalizing news with
  | nil =>
    simp only [List.flatMap_nil, List.nil_append] at h ⊢
    obtain ⟨new2, rest, h3, h4, rfl⟩ := List.forall₂_cons_left_iff.mp h
    have hn2 : new2 = [] := h3
    subst hn2
    cases h4
    simp [population, spotsOn, later_nil, drawSum]
  | cons j js ih =>
    have hages := ages_spotRun dt k d js
    rw [List.flatMap_cons] at h ⊢
    rw [show spotStep dt (k j) (d j) = [.birthSpots dt (k j) (d j), .age dt] from rfl] at h ⊢
    simp only [List.cons_append, List.nil_append] at h ⊢
    obtain ⟨new, l', h1, h2, rfl⟩ := List.forall₂_cons_left_iff.mp h
    obtain ⟨new2, rest, h3, h4, rfl⟩ := List.forall₂_cons_left_iff.mp h2
    have hn2 : new2 = [] := h3
    have hn : s.spotGen.generate (k j) (d j (k j)) = .ok new := by
      have : s.spotGen.birth dt s.radius (k j) (d j) = .ok new := h1
      unfold SpotGenerator.birth at this
      rw [hx, hp j (by simp)] at this
      exact this
    subst hn2
    have hlen : new.length = k j := ((C27_generate _ _ _).2.2 new hn).1
    have ih' := ih (fun j' hj' => hp j' (by simp [hj'])) rest h4
    have hage : ages (Op.age dt :: (List.flatMap (fun j => spotStep dt (k j) (d j)) js ++ [.age u])) = dt :: (List.replicate js.length dt ++ [u]) := by
      rw [← hages, ← ages_snoc, ages]
    have hsum : (dt :: (List.replicate js.length dt ++ [u])).sum = ((js.length + 1 : ℕ) : ℝ) * dt + u := by
      simp
      ring
    simp only [List.map_cons, population, spotsOn, List.map_nil, later_nil, List.nil_append]
    rw [List.map_append, List.sum_append, drawSum]
    congr 1
    unfold later
    rw [hage, if_neg (by simp), hsum, sum_filterMap, List.map_map]
    rw [show (fun i : Fin (k j) => Φ ((js.length + 1 : ℕ) * dt + u) (((d j (k j)).uLat i, (d j (k j)).uLon i), (d j (k j)).z i)) = _ from
      funext fun i => (hΦ _ _ new hn i (by rw [hlen]; exact i.2) i.2 _).symm]
    rw [← List.sum_ofFn]
    congr 1
    apply List.ext_getElem
    · simp [hlen]
    · intro n h1 h2
      simp

theorem population_rest (s : Star) (dt x u : ℝ) (hx : s.facGen.nExpected dt s.radius = .fin x) (k : ℕ → ℕ)
    (d : ℕ → (n : ℕ) → FaculaDraws n) (g : Grid) (φ : Facula → ℝ≥0∞) (Φ : ℝ → (ℝ × ℝ) × ℝ → ℝ≥0∞)
    (hΦ : ∀ (n : ℕ) (e : FaculaDraws n) (i : Fin n) (t : ℝ),
      (faculaLater t { (s.facGen.generate n e)[(i : ℕ)]'(by simp [FaculaGenerator.generate]) with grid := g }).elim 0 φ = Φ t ((e.uLat i, e.uLon i), e.mu i))
    (js : List ℕ) (hp : ∀ j ∈ js, Np.poisson (.fin x) (k j) = .ok (k j)) (newf : List (List Facula))
    (h : List.Forall₂ (faculaeOf s) ((js.flatMap fun j => facStep dt (k j) (d j)) ++ [.age u]) newf) :
    ((population faculaLater ((js.flatMap fun j => facStep dt (k j) (d j)) ++ [.age u]) (newf.map (faculaeOn g))).map φ).sum =
      drawSum (fun t => Φ (t + u)) dt k (fun j n i => (((d j n).uLat i, (d j n).uLon i), (d j n).mu i)) js := by
  induction js generalizing newf with
  | nil =>
    simp only [List.flatMap_nil, List.nil_append] at h ⊢
    obtain ⟨new2, rest, h3, h4, rfl⟩ := List.forall₂_cons_left_iff.mp h
    have hn2 : new2 = [] := h3
    subst hn2
    cases h4
    simp [population, faculaeOn, later_nil, drawSum]
  | cons j js ih =>
    have hages := ages_run dt k d js
    rw [List.flatMap_cons] at h ⊢
    rw [show facStep dt (k j) (d j) = [.birthFaculae dt (k j) (d j), .age dt] from rfl] at h ⊢
    simp only [List.cons_append, List.nil_append] at h ⊢
    obtain ⟨new, l', h1, h2, rfl⟩ := List.forall₂_cons_left_iff.mp h
    obtain ⟨new2, rest, h3, h4, rfl⟩ := List.forall₂_cons_left_iff.mp h2
    have hn2 : new2 = [] := h3
    have hn : new = s.facGen.generate (k j) (d j (k j)) := by
      have : s.facGen.birth dt s.radius (k j) (d j) = .ok new := h1
      unfold FaculaGenerator.birth at this
      rw [hx, hp j (by simp)] at this
      simp only [Except.map, Except.ok.injEq] at this
      exact this.symm
    subst hn2 hn
    have ih' := ih (fun j' hj' => hp j' (by simp [hj'])) rest h4
    have hage : ages (Op.age dt :: (List.flatMap (fun j => facStep dt (k j) (d j)) js ++ [.age u])) = dt :: (List.replicate js.length dt ++ [u]) := by
      rw [← hages, ← ages_snoc, ages]
    have hsum : (dt :: (List.replicate js.length dt ++ [u])).sum = ((js.length + 1 : ℕ) : ℝ) * dt + u := by
      simp
      ring
    simp only [List.map_cons, population, faculaeOn, List.map_nil, later_nil, List.nil_append]
    rw [List.map_append, List.sum_append, drawSum]
    congr 1
    unfold later
    rw [hage, if_neg (by simp), hsum, sum_filterMap, List.map_map]
    rw [show (fun i : Fin (k j) => Φ ((js.length + 1 : ℕ) * dt + u) (((d j (k j)).uLat i, (d j (k j)).uLon i), (d j (k j)).mu i)) = _ from
      funext fun i => (hΦ _ _ i _).symm]
    rw [← List.sum_ofFn]
    congr 1
    apply List.ext_getElem
    · simp [FaculaGenerator.generate]
    · intro n h1 h2
      simp

/-! ### Two times -/

open Classical in
theorem region_sum_rest (L : ℝ → ℝ) (dt u : ℝ) (k : ℕ → ℕ) (y : ℕ → (n : ℕ) → Fin n → (ℝ × ℝ) × ℝ) (A : Set (ℝ × ℝ)) (N : ℕ) :
    drawSum (fun t v => if (arcsin (2 * v.1.1 - 1), 2 * π * v.1.2) ∈ A then ENNReal.ofReal (aliveAt (L v.2) (t + u)) else 0) dt k y (List.range N) =
      ((∑ j ∈ Finset.range N, tally (regionDraws L ((N - j : ℕ) * dt + u) A) (y j (k j)) : ℕ) : ℝ≥0∞) := by
  rw [drawSum_range]
  push_cast
  refine Finset.sum_congr rfl fun j _ => ?_
  rw [tally]
  push_cast
  refine Finset.sum_congr rfl fun i _ => ?_
  unfold aliveAt regionDraws
  by_cases h1 : (arcsin (2 * (y j (k j) i).1.1 - 1), 2 * π * (y j (k j) i).1.2) ∈ A
  · by_cases h2 : ((N - j : ℕ) : ℝ) * dt + u < L (y j (k j) i).2 <;> simp [h1, h2]
  · simp [h1]

theorem tally_empty {Y : Type*} {n : ℕ} (v : Fin n → Y) : tally ∅ v = 0 := by
  simp [tally]

/-- The covariance of the counts in two regions at two times, for features of any kind. -/
theorem memory_law {Ω : Type*} [MeasurableSpace Ω] (P : Measure Ω) [IsProbabilityMeasure P] (x : ℝ) (K : ℕ → Ω → ℕ)
    (y : ℕ → (n : ℕ) → Ω → Fin n → (ℝ × ℝ) × ℝ) (hF : FairSpots P x K y) (L : ℝ → ℝ) (hL : Measurable L) (dt : ℝ) (hd : 0 < dt) (N M : ℕ)
    (X Y Z : Ω → ℕ) (A B : Set (ℝ × ℝ)) (hA : MeasurableSet A) (hB : MeasurableSet B)
    (hX : ∀ᵐ ω ∂P, X ω = ∑ j ∈ Finset.range N, tally (regionDraws L ((N - j : ℕ) * dt) A) (y j (K j ω) ω))
    (hY : ∀ᵐ ω ∂P, Y ω = ∑ j ∈ Finset.range (N + M), tally (regionDraws L ((N + M - j : ℕ) * dt) B) (y j (K j ω) ω))
    (hZ : ∀ᵐ ω ∂P, Z ω = ∑ j ∈ Finset.range N, tally (regionDraws L ((N - j : ℕ) * dt + M * dt) (A ∩ B)) (y j (K j ω) ω)) :
    ∫⁻ ω, (X ω : ℝ≥0∞) * Y ω ∂P = ∫⁻ ω, (Z ω : ℝ≥0∞) ∂P + (∫⁻ ω, (X ω : ℝ≥0∞) ∂P) * ∫⁻ ω, (Y ω : ℝ≥0∞) ∂P := by
  set C : ℕ → Set ((ℝ × ℝ) × ℝ) := fun j => if j < N then regionDraws L ((N - j : ℕ) * dt) A else ∅ with hC
  set D : ℕ → Set ((ℝ × ℝ) × ℝ) := fun j => regionDraws L ((N + M - j : ℕ) * dt) B with hD
  have hCm : ∀ j, MeasurableSet (C j) := by
    intro j
    rw [hC]
    simp only
    split_ifs
    · exact regionDraws_measurable L hL _ A hA
    · exact MeasurableSet.empty
  have hDm : ∀ j, MeasurableSet (D j) := fun j => regionDraws_measurable L hL _ B hB
  have hsum : ∀ (E : ℕ → Set ((ℝ × ℝ) × ℝ)) (ω : Ω), (∀ j, N ≤ j → E j = ∅) →
      ∑ j ∈ Finset.range (N + M), tally (E j) (y j (K j ω) ω) = ∑ j ∈ Finset.range N, tally (E j) (y j (K j ω) ω) := by
    intro E ω hE
    symm
    refine Finset.sum_subset (Finset.range_subset_range.mpr (by omega)) fun j _ hj => ?_
    rw [hE j (by simpa using hj), tally_empty]
  have eX : ∀ᵐ ω ∂P, (X ω : ℝ≥0∞) = ((∑ j ∈ Finset.range (N + M), tally (C j) (y j (K j ω) ω) : ℕ) : ℝ≥0∞) := by
    filter_upwards [hX] with ω h
    rw [h, hsum C ω fun j hj => if_neg (by omega)]
    congr 1
    refine Finset.sum_congr rfl fun j hj => ?_
    rw [hC]
    simp only [if_pos (Finset.mem_range.mp hj)]
  have eY : ∀ᵐ ω ∂P, (Y ω : ℝ≥0∞) = ((∑ j ∈ Finset.range (N + M), tally (D j) (y j (K j ω) ω) : ℕ) : ℝ≥0∞) := by
    filter_upwards [hY] with ω h
    rw [h]
  have eZ : ∀ᵐ ω ∂P, (Z ω : ℝ≥0∞) = ((∑ j ∈ Finset.range (N + M), tally (C j ∩ D j) (y j (K j ω) ω) : ℕ) : ℝ≥0∞) := by
    filter_upwards [hZ] with ω h
    rw [h, hsum (fun j => C j ∩ D j) ω fun j hj => by rw [hC]; simp only [if_neg (show ¬ j < N by omega), empty_inter]]
    congr 1
    refine Finset.sum_congr rfl fun j hj => ?_
    have hj' := Finset.mem_range.mp hj
    rw [hC, hD]
    simp only [if_pos hj']
    congr 1
    ext v
    have e : ((N + M - j : ℕ) : ℝ) * dt = ((N - j : ℕ) : ℝ) * dt + M * dt := by
      rw [← add_mul, ← Nat.cast_add]
      congr 2
      omega
    have hM : (0 : ℝ) ≤ M * dt := by positivity
    simp only [regionDraws, mem_inter_iff, mem_ofPred_eq, e]
    constructor
    · rintro ⟨⟨h1, h2⟩, h3⟩
      exact ⟨⟨h1, by linarith⟩, h2, h3⟩
    · rintro ⟨⟨h1, _⟩, h2, h3⟩
      exact ⟨⟨h1, h2⟩, h3⟩
  have eXY : ∀ᵐ ω ∂P, (X ω : ℝ≥0∞) * Y ω = ((∑ j ∈ Finset.range (N + M), tally (C j) (y j (K j ω) ω) : ℕ) : ℝ≥0∞) *
      ((∑ j ∈ Finset.range (N + M), tally (D j) (y j (K j ω) ω) : ℕ) : ℝ≥0∞) := by
    filter_upwards [eX, eY] with ω h1 h2
    rw [h1, h2]
  rw [lintegral_congr_ae eX, lintegral_congr_ae eY, lintegral_congr_ae eZ, lintegral_congr_ae eXY]
  exact tally_products P x K y hF C D hCm hDm (N + M)

open Classical in
theorem count_sums {Ω α : Type*} [MeasurableSpace Ω] (P : Measure Ω) (K : ℕ → Ω → ℕ) (y : ℕ → (n : ℕ) → Ω → Fin n → (ℝ × ℝ) × ℝ)
    (L : ℝ → ℝ) (dt u : ℝ) (N : ℕ) (l : Ω → List α) (place : α → ℝ × ℝ) (A : Set (ℝ × ℝ))
    (h : ∀ᵐ ω ∂P, (((l ω).map fun s => if place s ∈ A then 1 else 0).sum : ℝ≥0∞) =
      drawSum (fun t v => if (arcsin (2 * v.1.1 - 1), 2 * π * v.1.2) ∈ A then ENNReal.ofReal (aliveAt (L v.2) (t + u)) else 0) dt (fun j => K j ω)
        (fun j n => y j n ω) (List.range N)) :
    ∀ᵐ ω ∂P, ((l ω).countP fun s => decide (place s ∈ A)) = ∑ j ∈ Finset.range N, tally (regionDraws L ((N - j : ℕ) * dt + u) A) (y j (K j ω) ω) := by
  filter_upwards [h] with ω hω
  rw [region_sum_rest, ← count_sum] at hω
  exact_mod_cast hω

open Classical in
/-- The numbers of spots in a region now, and of those that are left there later. -/
theorem spot_counts {Ω : Type*} [MeasurableSpace Ω] (P : Measure Ω) [IsProbabilityMeasure P] (s₀ : Star) (hg : GoodGens s₀) (h₀ : SoundStar s₀)
    (hs : s₀.spots.spots = []) (hmean : s₀.spotGen.initArea ≤ s₀.spotGen.distAreaMean) (hgr : 0 < s₀.spotGen.growthRate)
    (hdec : 0 < s₀.spotGen.decayRate) (hc : 0 ≤ s₀.spotGen.coverage) (hiso : s₀.spotGen.distribution = .iso) (dt : ℝ) (N : ℕ) (hd : 0 < dt) (x : ℝ)
    (hx : s₀.spotGen.nExpected dt s₀.radius = .fin x) (K : ℕ → Ω → ℕ) (D : ℕ → Ω → (n : ℕ) → SpotDraws n)
    (hF : FairSpots P x K (fun j n ω i => ((((D j ω n).uLat i : ℝ), ((D j ω n).uLon i : ℝ)), (D j ω n).z i))) (S : Ω → Star)
    (hrun : ∀ᵐ ω ∂P, ((List.range N).flatMap fun j => [Op.birthSpots dt (K j ω) (D j ω), Op.age dt]).foldlM runOp s₀ = .ok (S ω))
    (A : Set (ℝ × ℝ)) :
    (∀ᵐ ω ∂P, ((S ω).spots.spots.countP fun s => decide ((s.lat, s.lon) ∈ A)) = ∑ j ∈ Finset.range N,
      tally (regionDraws (fun z => spotLife s₀.spotGen.initArea (peakOf s₀.spotGen.distAreaMean s₀.spotGen.distAreaLogsigma z) s₀.spotGen.growthRate s₀.spotGen.decayRate)
        ((N - j : ℕ) * dt) A) (fun i => ((((D j ω (K j ω)).uLat i : ℝ), ((D j ω (K j ω)).uLon i : ℝ)), (D j ω (K j ω)).z i))) ∧
    ∀ u : ℝ, 0 ≤ u → ∀ᵐ ω ∂P, (((S ω).age u).spots.spots.countP fun s => decide ((s.lat, s.lon) ∈ A)) = ∑ j ∈ Finset.range N,
      tally (regionDraws (fun z => spotLife s₀.spotGen.initArea (peakOf s₀.spotGen.distAreaMean s₀.spotGen.distAreaLogsigma z) s₀.spotGen.growthRate s₀.spotGen.decayRate)
        ((N - j : ℕ) * dt + u) A) (fun i => ((((D j ω (K j ω)).uLat i : ℝ), ((D j ω (K j ω)).uLon i : ℝ)), (D j ω (K j ω)).z i)) := by
  set G := s₀.spotGen with hG
  have h1 : 0 < G.initArea := hg.init
  have h2 : 0 < G.distAreaMean := hg.mean
  have hx0 : 0 ≤ x := by
    obtain ⟨L', A', n, b1, b2, b3, b4, b5, b6⟩ := C26_births_balance G h1 hmean hgr hdec hc s₀.radius
    have : n dt = x := Fl.fin_inj.mp ((b3 dt).symm.trans hx)
    rw [← this]
    exact b5 dt hd.le
  have hpo : ∀ᵐ ω ∂P, ∀ j, Np.poisson (.fin x) (K j ω) = .ok (K j ω) := by
    rw [ae_all_iff]
    exact fun j => poisson_ok P x hx0 (K j) (hF.count_measurable j) (hF.count j)
  have hΦ : ∀ (n : ℕ) (e : SpotDraws n) (l : List StarSpot), G.generate n e = .ok l → ∀ (i : ℕ) (hi : i < l.length) (hn : i < n) (t : ℝ),
      (spotLater t { l[i] with grid := s₀.spots.grid }).elim 0 (fun s => if (s.lat, s.lon) ∈ A then (1 : ℝ≥0∞) else 0) =
        if (arcsin (2 * (e.uLat ⟨i, hn⟩ : ℝ) - 1), 2 * π * (e.uLon ⟨i, hn⟩ : ℝ)) ∈ A then
          ENNReal.ofReal (aliveAt (spotLife G.initArea (peakOf G.distAreaMean G.distAreaLogsigma (e.z ⟨i, hn⟩)) G.growthRate G.decayRate) t) else 0 := by
    intro n e l hl i hi hn t
    have hpos : (l[i].lat, l[i].lon) = (arcsin (2 * (e.uLat ⟨i, hn⟩ : ℝ) - 1), 2 * π * (e.uLon ⟨i, hn⟩ : ℝ)) := by
      have := congrArg (fun l => l[i]?) (spot_fields G n e l hiso hl)
      simpa [hi, hn] using this
    have hal := (spot_later G h2 hgr hdec s₀.spots.grid n e l hl i hi hn t).1
    simp only at hal ⊢
    rw [← hpos]
    cases hl' : spotLater t { l[i] with grid := s₀.spots.grid } with
    | none =>
      rw [hl'] at hal
      simp only [Option.elim_none] at hal ⊢
      rw [← hal, ite_self]
    | some s' =>
      obtain ⟨p1, p2⟩ := spotLater_place hl'
      rw [hl'] at hal
      simp only [Option.elim_some] at hal ⊢
      rw [← hal, p1, p2]
  have hop : ∀ ω, ∀ op ∈ ((List.range N).flatMap fun j => spotStep dt (K j ω) (D j ω)), Sane op := by
    intro ω op hop
    obtain ⟨j, -, hj⟩ := List.mem_flatMap.mp hop
    simp only [spotStep, List.mem_cons, List.not_mem_nil, or_false] at hj
    rcases hj with rfl | rfl
    · trivial
    · exact hd.le
  constructor
  · have := count_sums P K (fun j n ω i => ((((D j ω n).uLat i : ℝ), ((D j ω n).uLon i : ℝ)), (D j ω n).z i))
      (fun z => spotLife G.initArea (peakOf G.distAreaMean G.distAreaLogsigma z) G.growthRate G.decayRate) dt 0 N (fun ω => (S ω).spots.spots) (fun s => (s.lat, s.lon)) A ?_
    · simpa only [add_zero] using this
    · filter_upwards [hpo, hrun] with ω hω hS
      obtain ⟨⟨news, k1, k2⟩, -⟩ := C105_population s₀ (S ω) _ hg h₀ (hop ω) hS
      rw [k2, hs, later_nil, List.nil_append]
      simp only [add_zero]
      exact spotPopulation_draws s₀ dt x hx (fun j => K j ω) (fun j => D j ω) s₀.spots.grid (fun s => if (s.lat, s.lon) ∈ A then 1 else 0)
        (fun t v => if (arcsin (2 * v.1.1 - 1), 2 * π * v.1.2) ∈ A then
          ENNReal.ofReal (aliveAt (spotLife G.initArea (peakOf G.distAreaMean G.distAreaLogsigma v.2) G.growthRate G.decayRate) t) else 0) hΦ
        (List.range N) (fun j _ => hω j) news k1
  · intro u hu
    refine count_sums P K (fun j n ω i => ((((D j ω n).uLat i : ℝ), ((D j ω n).uLon i : ℝ)), (D j ω n).z i))
      (fun z => spotLife G.initArea (peakOf G.distAreaMean G.distAreaLogsigma z) G.growthRate G.decayRate) dt u N (fun ω => ((S ω).age u).spots.spots) (fun s => (s.lat, s.lon)) A ?_
    filter_upwards [hpo, hrun] with ω hω hS
    have hS' : (((List.range N).flatMap fun j => spotStep dt (K j ω) (D j ω)) ++ [Op.age u]).foldlM runOp s₀ = .ok ((S ω).age u) := by
      rw [List.foldlM_append]
      change (((List.range N).flatMap fun j => [Op.birthSpots dt (K j ω) (D j ω), Op.age dt]).foldlM runOp s₀ >>= _) = _
      rw [hS]
      rfl
    have hop' : ∀ op ∈ (((List.range N).flatMap fun j => spotStep dt (K j ω) (D j ω)) ++ [Op.age u]), Sane op := by
      intro op h
      rcases List.mem_append.mp h with h | h
      · exact hop ω op h
      · rw [List.mem_singleton.mp h]
        exact hu
    obtain ⟨⟨news, k1, k2⟩, -⟩ := C105_population s₀ _ _ hg h₀ hop' hS'
    rw [k2, hs, later_nil, List.nil_append]
    exact spotPopulation_rest s₀ dt x u hx (fun j => K j ω) (fun j => D j ω) s₀.spots.grid (fun s => if (s.lat, s.lon) ∈ A then 1 else 0)
      (fun t v => if (arcsin (2 * v.1.1 - 1), 2 * π * v.1.2) ∈ A then
        ENNReal.ofReal (aliveAt (spotLife G.initArea (peakOf G.distAreaMean G.distAreaLogsigma v.2) G.growthRate G.decayRate) t) else 0) hΦ
      (List.range N) (fun j _ => hω j) news k1

open Classical in
/-- **C172** The memory of the spots.  A star that started without spots goes through `N` steps of birth and aging, and then through `M` more.
For any two regions of the surface, the covariance of the number of spots in the first region before the `M` steps and of the number in the
second region after them is the mean number of the spots in both regions that the star would still have after aging for as long without
births. -/
theorem C172_spot_memory {Ω : Type*} [MeasurableSpace Ω] (P : Measure Ω) [IsProbabilityMeasure P] (s₀ : Star) (hg : GoodGens s₀) (h₀ : SoundStar s₀)
    (hs : s₀.spots.spots = []) (hmean : s₀.spotGen.initArea ≤ s₀.spotGen.distAreaMean) (hgr : 0 < s₀.spotGen.growthRate)
    (hdec : 0 < s₀.spotGen.decayRate) (hc : 0 ≤ s₀.spotGen.coverage) (hiso : s₀.spotGen.distribution = .iso) (dt : ℝ) (N M : ℕ) (hd : 0 < dt) (x : ℝ)
    (hx : s₀.spotGen.nExpected dt s₀.radius = .fin x) (K : ℕ → Ω → ℕ) (D : ℕ → Ω → (n : ℕ) → SpotDraws n)
    (hF : FairSpots P x K (fun j n ω i => ((((D j ω n).uLat i : ℝ), ((D j ω n).uLon i : ℝ)), (D j ω n).z i))) (S S' : Ω → Star)
    (hrun : ∀ᵐ ω ∂P, ((List.range N).flatMap fun j => [Op.birthSpots dt (K j ω) (D j ω), Op.age dt]).foldlM runOp s₀ = .ok (S ω))
    (hrun' : ∀ᵐ ω ∂P, ((List.range (N + M)).flatMap fun j => [Op.birthSpots dt (K j ω) (D j ω), Op.age dt]).foldlM runOp s₀ = .ok (S' ω))
    (A B : Set (ℝ × ℝ)) (hA : MeasurableSet A) (hB : MeasurableSet B) :
    ∫⁻ ω, ((S ω).spots.spots.countP fun s => decide ((s.lat, s.lon) ∈ A) : ℝ≥0∞) * ((S' ω).spots.spots.countP fun s => decide ((s.lat, s.lon) ∈ B)) ∂P =
      ∫⁻ ω, (((S ω).age (M * dt)).spots.spots.countP fun s => decide ((s.lat, s.lon) ∈ A ∩ B) : ℝ≥0∞) ∂P +
      (∫⁻ ω, ((S ω).spots.spots.countP fun s => decide ((s.lat, s.lon) ∈ A) : ℝ≥0∞) ∂P) *
        ∫⁻ ω, ((S' ω).spots.spots.countP fun s => decide ((s.lat, s.lon) ∈ B) : ℝ≥0∞) ∂P := by
  have hLm := life_measurable (a := s₀.spotGen.initArea) (m := s₀.spotGen.distAreaMean) (σ := s₀.spotGen.distAreaLogsigma) (g := s₀.spotGen.growthRate)
    (w := s₀.spotGen.decayRate) hg.init hg.mean
  obtain ⟨a1, -⟩ := spot_counts P s₀ hg h₀ hs hmean hgr hdec hc hiso dt N hd x hx K D hF S hrun A
  obtain ⟨b1, -⟩ := spot_counts P s₀ hg h₀ hs hmean hgr hdec hc hiso dt (N + M) hd x hx K D hF S' hrun' B
  obtain ⟨-, c1⟩ := spot_counts P s₀ hg h₀ hs hmean hgr hdec hc hiso dt N hd x hx K D hF S hrun (A ∩ B)
  exact memory_law P x K _ hF _ hLm dt hd N M _ _ _ A B hA hB a1 b1 (by convert c1 (M * dt) (by positivity))

open Classical in
/-- The numbers of faculae in a region now, and of those that are left there later. -/
theorem facula_counts {Ω : Type*} [MeasurableSpace Ω] (P : Measure Ω) [IsProbabilityMeasure P] (s₀ : Star) (hg : GoodGens s₀) (h₀ : SoundStar s₀)
    (hf : s₀.faculae.faculae = []) (hc : 0 ≤ s₀.facGen.coverage) (dt : ℝ) (hd : 0 < dt) (N : ℕ) (x : ℝ)
    (hx : s₀.facGen.nExpected dt s₀.radius = .fin x) (K : ℕ → Ω → ℕ) (D : ℕ → Ω → (n : ℕ) → FaculaDraws n)
    (hF : FairSpots P x K (fun j n ω i => ((((D j ω n).uLat i : ℝ), ((D j ω n).uLon i : ℝ)), (D j ω n).mu i))) (S : Ω → Star)
    (hrun : ∀ᵐ ω ∂P, ((List.range N).flatMap fun j => [Op.birthFaculae dt (K j ω) (D j ω), Op.age dt]).foldlM runOp s₀ = .ok (S ω))
    (A : Set (ℝ × ℝ)) :
    (∀ᵐ ω ∂P, ((S ω).faculae.faculae.countP fun f => decide ((f.lat, f.lon) ∈ A)) = ∑ j ∈ Finset.range N,
      tally (regionDraws (fun z => 2 * lifeOf s₀.facGen z)
        ((N - j : ℕ) * dt) A) (fun i => ((((D j ω (K j ω)).uLat i : ℝ), ((D j ω (K j ω)).uLon i : ℝ)), (D j ω (K j ω)).mu i))) ∧
    ∀ u : ℝ, 0 ≤ u → ∀ᵐ ω ∂P, (((S ω).age u).faculae.faculae.countP fun f => decide ((f.lat, f.lon) ∈ A)) = ∑ j ∈ Finset.range N,
      tally (regionDraws (fun z => 2 * lifeOf s₀.facGen z)
        ((N - j : ℕ) * dt + u) A) (fun i => ((((D j ω (K j ω)).uLat i : ℝ), ((D j ω (K j ω)).uLon i : ℝ)), (D j ω (K j ω)).mu i)) := by
  set G := s₀.facGen with hG
  have hr : 0 < G.distRPeak := hg.rpeak
  have hl : 0 < G.distLifePeak := hg.life
  obtain ⟨⟨rate, b1, -, b3, -⟩, -⟩ := C38_births_balance G hr hl hc s₀.radius
  have hx0 : 0 ≤ x := by
    have : rate dt = x := by have := (b1 dt).symm.trans hx; simpa using this
    rw [← this]; exact b3 dt hd.le
  have hpo : ∀ᵐ ω ∂P, ∀ j, Np.poisson (.fin x) (K j ω) = .ok (K j ω) := by
    rw [ae_all_iff]
    exact fun j => poisson_ok P x hx0 (K j) (hF.count_measurable j) (hF.count j)
  have hΦ : ∀ (n : ℕ) (e : FaculaDraws n) (i : Fin n) (t : ℝ),
      (faculaLater t { (G.generate n e)[(i : ℕ)]'(by simp [FaculaGenerator.generate]) with grid := s₀.faculae.grid }).elim 0
        (fun f => if (f.lat, f.lon) ∈ A then (1 : ℝ≥0∞) else 0) =
        if (arcsin (2 * (e.uLat i : ℝ) - 1), 2 * π * (e.uLon i : ℝ)) ∈ A then ENNReal.ofReal (aliveAt (2 * lifeOf G (e.mu i)) t) else 0 := by
    intro n e i t
    obtain ⟨q1, q2⟩ := facula_place G n e i
    obtain ⟨c1, c2, -, c4⟩ := generated_on G hr hl s₀.faculae.grid n e i _ rfl
    have hal := later_alive _ c1 c2 t
    rw [c4] at hal
    simp only at hal ⊢
    rw [← q1, ← q2]
    cases hl' : faculaLater t { (G.generate n e)[(i : ℕ)]'(by simp [FaculaGenerator.generate]) with grid := s₀.faculae.grid } with
    | none =>
      rw [hl'] at hal
      simp only [Option.elim_none] at hal ⊢
      rw [← hal, ite_self]
    | some s' =>
      obtain ⟨p1, p2⟩ := faculaLater_place hl'
      rw [hl'] at hal
      simp only [Option.elim_some] at hal ⊢
      rw [← hal, p1, p2]
  have hop : ∀ ω, ∀ op ∈ ((List.range N).flatMap fun j => facStep dt (K j ω) (D j ω)), Sane op := by
    intro ω op hop
    obtain ⟨j, -, hj⟩ := List.mem_flatMap.mp hop
    simp only [facStep, List.mem_cons, List.not_mem_nil, or_false] at hj
    rcases hj with rfl | rfl
    · trivial
    · exact hd.le
  constructor
  · have := count_sums P K (fun j n ω i => ((((D j ω n).uLat i : ℝ), ((D j ω n).uLon i : ℝ)), (D j ω n).mu i))
      (fun z => 2 * lifeOf G z) dt 0 N (fun ω => (S ω).faculae.faculae) (fun s => (s.lat, s.lon)) A ?_
    · simpa only [add_zero] using this
    · filter_upwards [hpo, hrun] with ω hω hS
      obtain ⟨-, newf, k1, k2⟩ := C105_population s₀ (S ω) _ hg h₀ (hop ω) hS
      rw [k2, hf, later_nil, List.nil_append]
      simp only [add_zero]
      exact population_draws s₀ dt x hx (fun j => K j ω) (fun j => D j ω) s₀.faculae.grid (fun f => if (f.lat, f.lon) ∈ A then 1 else 0)
        (fun t v => if (arcsin (2 * v.1.1 - 1), 2 * π * v.1.2) ∈ A then ENNReal.ofReal (aliveAt (2 * lifeOf G v.2) t) else 0) hΦ
        (List.range N) (fun j _ => hω j) newf k1
  · intro u hu
    refine count_sums P K (fun j n ω i => ((((D j ω n).uLat i : ℝ), ((D j ω n).uLon i : ℝ)), (D j ω n).mu i))
      (fun z => 2 * lifeOf G z) dt u N (fun ω => ((S ω).age u).faculae.faculae) (fun s => (s.lat, s.lon)) A ?_
    filter_upwards [hpo, hrun] with ω hω hS
    have hS' : (((List.range N).flatMap fun j => facStep dt (K j ω) (D j ω)) ++ [Op.age u]).foldlM runOp s₀ = .ok ((S ω).age u) := by
      rw [List.foldlM_append]
      change (((List.range N).flatMap fun j => [Op.birthFaculae dt (K j ω) (D j ω), Op.age dt]).foldlM runOp s₀ >>= _) = _
      rw [hS]
      rfl
    have hop' : ∀ op ∈ (((List.range N).flatMap fun j => facStep dt (K j ω) (D j ω)) ++ [Op.age u]), Sane op := by
      intro op h
      rcases List.mem_append.mp h with h | h
      · exact hop ω op h
      · rw [List.mem_singleton.mp h]
        exact hu
    obtain ⟨-, newf, k1, k2⟩ := C105_population s₀ _ _ hg h₀ hop' hS'
    rw [k2, hf, later_nil, List.nil_append]
    exact population_rest s₀ dt x u hx (fun j => K j ω) (fun j => D j ω) s₀.faculae.grid (fun f => if (f.lat, f.lon) ∈ A then 1 else 0)
      (fun t v => if (arcsin (2 * v.1.1 - 1), 2 * π * v.1.2) ∈ A then ENNReal.ofReal (aliveAt (2 * lifeOf G v.2) t) else 0) hΦ
      (List.range N) (fun j _ => hω j) newf k1

open Classical in
/-- **C172** The memory of the faculae.  The same for a star that started without faculae. -/
theorem C172_facula_memory {Ω : Type*} [MeasurableSpace Ω] (P : Measure Ω) [IsProbabilityMeasure P] (s₀ : Star) (hg : GoodGens s₀) (h₀ : SoundStar s₀)
    (hf : s₀.faculae.faculae = []) (hc : 0 ≤ s₀.facGen.coverage) (dt : ℝ) (hd : 0 < dt) (N M : ℕ) (x : ℝ)
    (hx : s₀.facGen.nExpected dt s₀.radius = .fin x) (K : ℕ → Ω → ℕ) (D : ℕ → Ω → (n : ℕ) → FaculaDraws n)
    (hF : FairSpots P x K (fun j n ω i => ((((D j ω n).uLat i : ℝ), ((D j ω n).uLon i : ℝ)), (D j ω n).mu i))) (S S' : Ω → Star)
    (hrun : ∀ᵐ ω ∂P, ((List.range N).flatMap fun j => [Op.birthFaculae dt (K j ω) (D j ω), Op.age dt]).foldlM runOp s₀ = .ok (S ω))
    (hrun' : ∀ᵐ ω ∂P, ((List.range (N + M)).flatMap fun j => [Op.birthFaculae dt (K j ω) (D j ω), Op.age dt]).foldlM runOp s₀ = .ok (S' ω))
    (A B : Set (ℝ × ℝ)) (hA : MeasurableSet A) (hB : MeasurableSet B) :
    ∫⁻ ω, ((S ω).faculae.faculae.countP fun f => decide ((f.lat, f.lon) ∈ A) : ℝ≥0∞) * ((S' ω).faculae.faculae.countP fun f => decide ((f.lat, f.lon) ∈ B)) ∂P =
      ∫⁻ ω, (((S ω).age (M * dt)).faculae.faculae.countP fun f => decide ((f.lat, f.lon) ∈ A ∩ B) : ℝ≥0∞) ∂P +
      (∫⁻ ω, ((S ω).faculae.faculae.countP fun f => decide ((f.lat, f.lon) ∈ A) : ℝ≥0∞) ∂P) *
        ∫⁻ ω, ((S' ω).faculae.faculae.countP fun f => decide ((f.lat, f.lon) ∈ B) : ℝ≥0∞) ∂P := by
  have hLm : Measurable (lifeOf s₀.facGen) := by unfold lifeOf; fun_prop
  obtain ⟨a1, -⟩ := facula_counts P s₀ hg h₀ hf hc dt hd N x hx K D hF S hrun A
  obtain ⟨b1, -⟩ := facula_counts P s₀ hg h₀ hf hc dt hd (N + M) x hx K D hF S' hrun' B
  obtain ⟨-, c1⟩ := facula_counts P s₀ hg h₀ hf hc dt hd N x hx K D hF S hrun (A ∩ B)
  exact memory_law P x K _ hF _ (hLm.const_mul 2) dt hd N M _ _ _ A B hA hB a1 b1 (by convert c1 (M * dt) (by positivity))

open Classical in
/-- Non-trivial instance of C172: the spots of the star of the example of C121 live for one day.  After one step of a quarter of a day and
after two, the mean of the product of the numbers of spots is `40π + 40π·80π`, more than the product of the means. -/
example : ∃ (S S' : (ℕ → ℕ × ((n : ℕ) → Fin n → (ℝ × ℝ) × ℝ)) → Star),
    (∀ᵐ ω ∂spotSpace (40 * π), ((List.range 1).flatMap fun j => [Op.birthSpots (1 / 4) (ω j).1 (spaceDraws (ω j).2), Op.age (1 / 4)]).foldlM runOp
      spotsStar = .ok (S ω)) ∧
    (∀ᵐ ω ∂spotSpace (40 * π), ((List.range 2).flatMap fun j => [Op.birthSpots (1 / 4) (ω j).1 (spaceDraws (ω j).2), Op.age (1 / 4)]).foldlM runOp
      spotsStar = .ok (S' ω)) ∧
    ∫⁻ ω, ((S ω).spots.spots.length : ℝ≥0∞) * (S' ω).spots.spots.length ∂spotSpace (40 * π) =
      ENNReal.ofReal (40 * π) + ENNReal.ofReal (40 * π) * ENNReal.ofReal (80 * π) := by
  have hgood : GoodGens spotsStar := by
    refine ⟨?_, ?_, ?_, ?_, ?_, ?_, ?_⟩ <;> norm_num [spotsStar, busyStar, sampleStar, FaculaGenerator.off]
  have hstar : SoundStar spotsStar := by
    refine ⟨?_, ?_⟩ <;> simp [spotsStar, SpotCollection.new, SpotCollection.setGridmaker]
  have hx : spotsStar.spotGen.nExpected (1 / 4) spotsStar.radius = .fin (40 * π) := by
    obtain ⟨r, L, C, h1, ⟨h2, h3⟩, h4⟩ := C168_spot_number (spotSpace (40 * π)) spotsStar hgood hstar rfl
      (by norm_num [spotsStar]) (by norm_num [spotsStar]) (by norm_num [spotsStar]) (by norm_num [spotsStar])
      (by simp [spotsStar, SpotGenerator.off]) (by norm_num [spotsStar])
    obtain ⟨hx, -⟩ := h4 (1 / 4) 1 (by norm_num) (by norm_num)
    have e1 : spotsStar.spotGen.distAreaMean = 1000 := rfl
    have e2 : spotsStar.spotGen.initArea = 1000 := rfl
    have e4 : spotsStar.spotGen.growthRate = 1 := rfl
    have e5 : spotsStar.spotGen.decayRate = 1000 := rfl
    have e6 : spotsStar.spotGen.coverage = 0.1 := rfl
    have e7 : spotsStar.radius = 1000 := rfl
    rw [e1, e2, e4, e5, e6, e7] at h1
    norm_num at h1
    have hr : r = 160 * π := by linarith
    rw [hx, hr]
    congr 1
    ring
  have hruns : ∀ N : ℕ, ∃ S : (ℕ → ℕ × ((n : ℕ) → Fin n → (ℝ × ℝ) × ℝ)) → Star,
      ∀ᵐ ω ∂spotSpace (40 * π), ((List.range N).flatMap fun j => [Op.birthSpots (1 / 4) (ω j).1 (spaceDraws (ω j).2), Op.age (1 / 4)]).foldlM runOp
        spotsStar = .ok (S ω) := by
    intro N
    obtain ⟨x, k1, -, k2⟩ := settled_run (spotSpace (40 * π)) spotsStar hgood hstar rfl
      (by norm_num [spotsStar]) (by norm_num [spotsStar]) (by norm_num [spotsStar]) (by norm_num [spotsStar])
      (by simp [spotsStar, SpotGenerator.off]) (by norm_num [spotsStar]) (by norm_num [spotsStar]) (1 / 4) (by norm_num) N
    have : x = 40 * π := by
      rw [hx] at k1
      exact (Fl.fin_inj.mp k1).symm
    subst this
    obtain ⟨S, h, -⟩ := k2 (fun j ω => (ω j).1) (fun j ω => spaceDraws (ω j).2) (spotSpace_fair _)
      (Filter.Eventually.of_forall fun ω j n => ⟨0, fun i => by norm_num [SpotDraws.ratios, spaceDraws]⟩)
    exact ⟨S, h⟩
  obtain ⟨S, hS⟩ := hruns 1
  obtain ⟨S', hS'⟩ := hruns 2
  refine ⟨S, S', hS, hS', ?_⟩
  have hF := spotSpace_fair (40 * π)
  have hcounts := fun N S h => spot_counts (spotSpace (40 * π)) spotsStar hgood hstar rfl
    (by norm_num [spotsStar]) (by norm_num [spotsStar]) (by norm_num [spotsStar])
    (by norm_num [spotsStar]) (by simp [spotsStar, SpotGenerator.off]) (1 / 4) N (by norm_num) _ hx (fun j ω => (ω j).1) (fun j ω => spaceDraws (ω j).2)
    hF S h univ
  have hlife : ∀ z, spotLife spotsStar.spotGen.initArea (peakOf spotsStar.spotGen.distAreaMean spotsStar.spotGen.distAreaLogsigma z)
      spotsStar.spotGen.growthRate spotsStar.spotGen.decayRate = 1 := by
    intro z
    have e1 : spotsStar.spotGen.distAreaMean = 1000 := rfl
    have e2 : spotsStar.spotGen.initArea = 1000 := rfl
    have e3 : spotsStar.spotGen.distAreaLogsigma = 0 := rfl
    have e4 : spotsStar.spotGen.growthRate = 1 := rfl
    have e5 : spotsStar.spotGen.decayRate = 1000 := rfl
    rw [e1, e2, e3, e4, e5]
    norm_num [spotLife, peakOf]
  have htally : ∀ (t : ℝ), t < 1 → ∀ (n : ℕ) (v : Fin n → (ℝ × ℝ) × ℝ), tally (regionDraws (fun z => spotLife spotsStar.spotGen.initArea
      (peakOf spotsStar.spotGen.distAreaMean spotsStar.spotGen.distAreaLogsigma z) spotsStar.spotGen.growthRate spotsStar.spotGen.decayRate) t univ) v = n := by
    intro t ht n v
    simp [tally, regionDraws, hlife, ht]
  have hmean : ∀ j, ∫⁻ ω, ((ω j).1 : ℝ≥0∞) ∂spotSpace (40 * π) = ENNReal.ofReal (40 * π) := by
    intro j
    exact poisson_law_mean (spotSpace (40 * π)) (fun ω => (ω j).1) (40 * π).toNNReal ⟨(hF.count_measurable j).aemeasurable, hF.count j⟩
  obtain ⟨a1, a2⟩ := hcounts 1 S hS
  obtain ⟨b1, -⟩ := hcounts 2 S' hS'
  have hmain := C172_spot_memory (spotSpace (40 * π)) spotsStar hgood hstar rfl
    (by norm_num [spotsStar]) (by norm_num [spotsStar]) (by norm_num [spotsStar])
    (by norm_num [spotsStar]) (by simp [spotsStar, SpotGenerator.off]) (1 / 4) 1 1 (by norm_num) _ hx (fun j ω => (ω j).1) (fun j ω => spaceDraws (ω j).2)
    hF S S' hS hS' univ univ MeasurableSet.univ MeasurableSet.univ
  simp only [inter_univ, mem_univ, decide_true, List.countP_true] at hmain a1 a2 b1
  have c1 : ∀ᵐ ω ∂spotSpace (40 * π), ((S ω).spots.spots.length : ℝ≥0∞) = (ω 0).1 := by
    filter_upwards [a1] with ω h
    rw [h]
    simp only [Finset.sum_range_one]
    rw [htally _ (by norm_num)]
  have c2 : ∀ᵐ ω ∂spotSpace (40 * π), (((S ω).age ((1 : ℕ) * (1 / 4))).spots.spots.length : ℝ≥0∞) = (ω 0).1 := by
    filter_upwards [a2 ((1 : ℕ) * (1 / 4)) (by norm_num)] with ω h
    rw [h]
    simp only [Finset.sum_range_one]
    rw [htally _ (by norm_num)]
  have c3 : ∀ᵐ ω ∂spotSpace (40 * π), ((S' ω).spots.spots.length : ℝ≥0∞) = (ω 0).1 + (ω 1).1 := by
    filter_upwards [b1] with ω h
    rw [h]
    simp only [Finset.sum_range_succ, Finset.sum_range_zero, zero_add]
    rw [htally _ (by norm_num), htally _ (by norm_num)]
    push_cast
    rfl
  have m0 : Measurable fun ω : ℕ → ℕ × ((n : ℕ) → Fin n → (ℝ × ℝ) × ℝ) => ((ω 0).1 : ℝ≥0∞) :=
    Measurable.of_discrete.comp (hF.count_measurable 0)
  rw [lintegral_congr_ae c1, lintegral_congr_ae c2, lintegral_congr_ae c3, lintegral_add_left m0, hmean, hmean,
    ← ENNReal.ofReal_add (by positivity) (by positivity), show 40 * π + 40 * π = 80 * π by ring] at hmain
  exact hmain

end Vsm
