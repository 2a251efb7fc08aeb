import Verif.Props.SpotAge
import Verif.Props.SpotGeom
import Mathlib.Analysis.SpecialFunctions.Trigonometric.Bounds
import Mathlib.Analysis.Real.Pi.Bounds

/-!
# C26 – C28: the spot generator
-/

noncomputable section

namespace Vsm

open Real Spec

/-- **C27** One `MSH` is a millionth of half the surface of the Sun, 3.041 million km². -/
theorem C27_unit : 2 * 10 ^ 6 * MSH = 4 * π * 695700 ^ 2 ∧ 3.04e6 < MSH ∧ MSH < 3.05e6 := by
  have h1 := pi_gt_d4
  have h2 := pi_lt_d4
  unfold MSH
  refine ⟨by ring, by linarith, by linarith⟩

theorem MSH_pos : 0 < MSH := by unfold MSH; positivity

/-! ## C26 -/

/-- **C26** For a non-static generator the expected number of births `n` in `time` balances the requested
coverage: `n · mean_lifetime · mean_area = coverage · 4πR² · time`; `n` is finite, non-negative and additive. -/
theorem C26_births_balance (G : SpotGenerator) (h1 : 0 < G.initArea) (h2 : G.initArea ≤ G.distAreaMean)
    (hg : 0 < G.growthRate) (hw : 0 < G.decayRate) (hc : 0 ≤ G.coverage) (R : ℝ) :
    ∃ (L A : ℝ) (n : ℝ → ℝ), G.meanLifetime = .fin L ∧ G.meanArea = .fin A ∧
      (∀ t, G.nExpected t R = .fin (n t)) ∧
      (∀ t, n t * L * A = G.coverage * (4 * π * R ^ 2) * t) ∧
      (∀ t, 0 ≤ t → 0 ≤ n t) ∧ (∀ t u, n (t + u) = n t + n u) := by
  obtain ⟨L, A, hL, hA, hLp, hAp, -⟩ := C25_generator_statistics_partial G h1 h2 hg hw 0 0 0 0 (.fin 5)
  refine ⟨L, A, fun t => G.coverage * 4 * π * R ^ 2 / A * t / L, hL, hA, fun t => ?_, fun t => ?_, fun t ht => ?_,
    fun t u => ?_⟩
  · simp only [SpotGenerator.nExpected, hL, hA]
    rw [Fl.fin_div hAp.ne', Fl.fin_mul, Fl.fin_div hLp.ne']
  · field_simp
  · positivity
  · simp only; ring

/-- **C26** static generators and the generator that is switched off never expect births. -/
theorem C26_no_births (t R : ℝ) :
    (∀ G : SpotGenerator, G.decayRate = 0 → G.distAreaMean ≠ 0 → G.nExpected t R = .fin 0) ∧
    (∀ g : Grid, (SpotGenerator.off g).nExpected t R = .fin 0) ∧
    (∀ (g : Grid) (k : ℕ) (d : (n : ℕ) → SpotDraws n), (SpotGenerator.off g).birth t R k d = .ok []) := by
  have key : ∀ G : SpotGenerator, G.decayRate = 0 → G.distAreaMean ≠ 0 → G.nExpected t R = .fin 0 := by
    intro G h0 hm
    have hs : G.isStatic := h0
    simp only [SpotGenerator.nExpected, SpotGenerator.meanArea, SpotGenerator.meanLifetime, hs, if_true]
    rw [Fl.fin_div hm, Fl.fin_mul, Fl.fin_div_pinf]
  have hoff : ∀ g : Grid, (SpotGenerator.off g).nExpected t R = .fin 0 := by
    intro g
    have := MSH_pos
    exact key _ rfl (by simp only [SpotGenerator.off]; positivity)
  refine ⟨key, hoff, fun g k d => ?_⟩
  simp only [SpotGenerator.birth, hoff, Np.poisson, lt_irrefl, if_false, if_true]
  change SpotGenerator.generate _ 0 (d 0) = _
  unfold SpotGenerator.generate
  have he : ∃ k, ∀ i, 0 < (d 0).ratios k i := ⟨0, fun i => i.elim0⟩
  have h : SpotGenerator.acceptRatios (d 0) = some ((d 0).ratios (Nat.find he)) := by
    unfold SpotGenerator.acceptRatios
    rw [dif_pos he]
  rw [h]
  simp [SpotGenerator.off]

/-- Non-trivial instance of C26. -/
example (g : Grid) : (SpotGenerator.mk 4 1 2500 2700 1 1 2 .iso 0.5 g).decayRate ≠ 0 ∧
    ∃ n, (SpotGenerator.mk 4 1 2500 2700 1 1 2 .iso 0.5 g).nExpected 3 1 = .fin n ∧ 0 ≤ n := by
  refine ⟨one_ne_zero, ?_⟩
  obtain ⟨-, -, n, -, -, h, -, h', -⟩ := C26_births_balance (SpotGenerator.mk 4 1 2500 2700 1 1 2 .iso 0.5 g)
    (by norm_num) (by norm_num) (by norm_num) (by norm_num) (by norm_num) 1
  exact ⟨n 3, h 3, h' 3 (by norm_num)⟩

/-! ## C27 -/

/-- What every spot made by generator `G` looks like (spec). -/
structure Spec.Newborn (G : SpotGenerator) (s : StarSpot) : Prop where
  growing : s.isGrowing = true
  tu : s.teffUmbra = G.umbraTeff
  tp : s.teffPenumbra = G.penumbraTeff
  growth : s.growthRate = G.growthRate
  decay : s.decayRate = G.decayRate
  area : s.area = .fin G.initArea
  grid : s.grid = G.grid
  dist : s.r = StarSpot.distances s.lat s.lon G.grid
  amax : 0 < s.areaMax
  ratio : ∃ q, s.ratio = .fin q ∧ 0 < q
  iso : G.distribution = .iso → (-(π / 2) ≤ s.lat ∧ s.lat ≤ π / 2) ∧ 0 ≤ s.lon ∧ s.lon < 2 * π

theorem iso_lat_mem (u : Set.Ico (0 : ℝ) 1) :
    -(π / 2) ≤ Grid.deg (Real.arcsin (2 * (u : ℝ) - 1) / π * 180) ∧
      Grid.deg (Real.arcsin (2 * (u : ℝ) - 1) / π * 180) ≤ π / 2 := by
  have h : Grid.deg (Real.arcsin (2 * (u : ℝ) - 1) / π * 180) = Real.arcsin (2 * (u : ℝ) - 1) := by
    unfold Grid.deg; field_simp
  rw [h]
  exact ⟨Real.neg_pi_div_two_le_arcsin _, Real.arcsin_le_pi_div_two _⟩

theorem lon_mem (u : Set.Ico (0 : ℝ) 1) :
    0 ≤ Grid.deg ((u : ℝ) * 360) ∧ Grid.deg ((u : ℝ) * 360) < 2 * π := by
  have h : Grid.deg ((u : ℝ) * 360) = u * (2 * π) := by unfold Grid.deg; ring
  rw [h]
  have := pi_pos
  have h1 := u.2.1
  have h2 := u.2.2
  constructor
  · positivity
  · nlinarith

theorem acceptRatios_pos {n : ℕ} {d : SpotDraws n} {q : Fin n → ℝ} (h : SpotGenerator.acceptRatios d = some q)
    (i : Fin n) : 0 < q i := by
  unfold SpotGenerator.acceptRatios at h
  split_ifs at h with he
  rw [Option.some_inj] at h
  rw [← h]
  exact Nat.find_spec he i

/-- **C27** Whatever the draws: for `σ ≥ 0`, a known distribution and a ratio loop that ends,
`generate_spots(n)` returns `n` well-formed spots, with peak areas `mean·exp(σ z)`; an unknown distribution
raises `ValueError`; every successful call is of this kind. -/
theorem C27_generate (G : SpotGenerator) (n : ℕ) (d : SpotDraws n) :
    (0 ≤ G.distAreaLogsigma → G.distribution ≠ .other → (∃ k, ∀ i, 0 < d.ratios k i) →
      ∃ l, G.generate n d = .ok l) ∧
    (0 ≤ G.distAreaLogsigma → G.distribution = .other → (∃ k, ∀ i, 0 < d.ratios k i) →
      G.generate n d = .error .valueError) ∧
    (∀ l, G.generate n d = .ok l → l.length = n ∧ (∀ s ∈ l, Newborn G s) ∧
      (0 < G.distAreaMean → ∀ i (hi : i < l.length) (hn : i < n),
        l[i].areaMax = G.distAreaMean * exp (G.distAreaLogsigma * d.z ⟨i, hn⟩))) := by
  refine ⟨?_, ?_, ?_⟩
  · intro h1 h2 h3
    unfold SpotGenerator.generate
    rw [if_neg (not_lt.mpr h1)]
    have : SpotGenerator.acceptRatios d = some (d.ratios (Nat.find h3)) := by
      unfold SpotGenerator.acceptRatios; rw [dif_pos h3]
    rw [this]
    simp only [h2, if_false]
    exact ⟨_, rfl⟩
  · intro h1 h2 h3
    unfold SpotGenerator.generate
    rw [if_neg (not_lt.mpr h1)]
    have : SpotGenerator.acceptRatios d = some (d.ratios (Nat.find h3)) := by
      unfold SpotGenerator.acceptRatios; rw [dif_pos h3]
    rw [this]
    simp [h2]
  · intro l hl
    unfold SpotGenerator.generate at hl
    by_cases h1 : G.distAreaLogsigma < 0
    · rw [if_pos h1] at hl; cases hl
    rw [if_neg h1] at hl
    cases ha : SpotGenerator.acceptRatios d with
    | none => rw [ha] at hl; cases hl
    | some q =>
      rw [ha] at hl
      simp only at hl
      split_ifs at hl with h2
      simp only [Except.ok.injEq] at hl
      subst hl
      refine ⟨List.length_ofFn, ?_, ?_⟩
      · intro s hs
        rw [List.mem_ofFn] at hs
        obtain ⟨i, rfl⟩ := hs
        refine ⟨rfl, rfl, rfl, rfl, rfl, rfl, rfl, rfl, ?_, ⟨q i, rfl, acceptRatios_pos ha i⟩, ?_⟩
        · exact mul_pos (exp_pos _) MSH_pos
        · intro hiso
          refine ⟨?_, lon_mem (d.uLon i)⟩
          simp only [StarSpot.new, SpotGenerator.drawLat, hiso]
          exact iso_lat_mem (d.uLat i)
      · intro hm i hi hn
        simp only [List.getElem_ofFn, StarSpot.new]
        rw [exp_add, exp_log (div_pos hm MSH_pos)]
        have := MSH_pos.ne'
        field_simp

/-- A set of draws used in the examples: all standard normals 0 (so ratios 5), all uniforms 0. -/
def Spec.plainDraws (n : ℕ) : SpotDraws n :=
  ⟨fun _ => 0, fun _ _ => 0, fun _ => true, fun _ => 0, fun _ => ⟨0, by simp⟩, fun _ => ⟨0, by simp⟩⟩

/-- Non-trivial instance of C27. -/
example (g : Grid) : ∃ l, (SpotGenerator.mk 4 1 2500 2700 1 1 2 .iso 0.5 g).generate 3 (plainDraws 3) = .ok l ∧
    l.length = 3 := by
  obtain ⟨h1, -, h3⟩ := C27_generate (SpotGenerator.mk 4 1 2500 2700 1 1 2 .iso 0.5 g) 3 (plainDraws 3)
  obtain ⟨l, hl⟩ := h1 (by norm_num) (by simp) ⟨0, fun i => by simp [plainDraws, SpotDraws.ratios]⟩
  exact ⟨l, hl, (h3 l hl).1⟩

/-! ## C28 -/

/-- The solid angle of a list of spots as `generate_mature_spots` counts it: `Σ π θ²`. -/
def Spec.countedAngle (l : List StarSpot) (R : ℝ) : Fl := (l.map fun s => SpotGenerator.solidAngle s R).sum

/-- The true solid angle of a list of spots: total area over `R²`. -/
def Spec.trueAngle (l : List StarSpot) (R : ℝ) : ℝ :=
  (l.map fun s => match s.area with | .fin a => a / R ^ 2 | _ => 0).sum

/-- Every spot has an area that fits on the star. -/
def Spec.Fits (l : List StarSpot) (R : ℝ) : Prop := ∀ s ∈ l, ∃ a, s.area = .fin a ∧ 0 ≤ a ∧ a ≤ 4 * π * R ^ 2

theorem countedAngle_append (l : List StarSpot) (s : StarSpot) (R : ℝ) :
    countedAngle (l ++ [s]) R = countedAngle l R + SpotGenerator.solidAngle s R := by
  simp [countedAngle]

theorem matureLoop_spec (G : SpotGenerator) (target R : ℝ) (draws : ℕ → SpotDraws 1 × Set.Ico (0 : ℝ) 1)
    (fuel k : ℕ) (acc l : List StarSpot)
    (h : G.matureLoop target R draws fuel k (countedAngle acc R) acc = some (.ok l)) :
    ¬ countedAngle l R < .fin target ∧ (l = acc ∨ countedAngle l.dropLast R < .fin target) ∧
      ∃ tl, l = acc ++ tl ∧ ∀ s ∈ tl, ∃ j, G.matureStep (draws j).1 (draws j).2 = .ok s := by
  induction fuel generalizing k acc with
  | zero =>
    simp only [SpotGenerator.matureLoop] at h
    split_ifs at h with h1
    simp only [Option.some_inj, Except.ok.injEq] at h
    subst h
    exact ⟨h1, Or.inl rfl, [], by simp, by simp⟩
  | succ fuel ih =>
    simp only [SpotGenerator.matureLoop] at h
    split_ifs at h with h1
    · cases hm : G.matureStep (draws k).1 (draws k).2 with
      | error e => rw [hm] at h; simp at h
      | ok sp =>
        rw [hm] at h
        simp only at h
        rw [← countedAngle_append] at h
        obtain ⟨h2, h3, tl, h4, h5⟩ := ih (k + 1) (acc ++ [sp]) h
        refine ⟨h2, Or.inr ?_, sp :: tl, by rw [h4]; simp, ?_⟩
        · rcases h3 with h3 | h3
          · rw [h3, List.dropLast_concat]; exact h1
          · exact h3
        · intro s hs
          rcases List.mem_cons.mp hs with rfl | hs
          · exact ⟨k, hm⟩
          · exact h5 s hs
    · simp only [Option.some_inj, Except.ok.injEq] at h
      subst h
      exact ⟨h1, Or.inl rfl, [], by simp, by simp⟩

theorem matureLoop_error (G : SpotGenerator) (target R : ℝ) (draws : ℕ → SpotDraws 1 × Set.Ico (0 : ℝ) 1)
    (fuel k : ℕ) (w : Fl) (acc : List StarSpot) (e : PyErr)
    (h : G.matureLoop target R draws fuel k w acc = some (.error e)) :
    ∃ j, G.matureStep (draws j).1 (draws j).2 = .error e := by
  induction fuel generalizing k w acc with
  | zero =>
    simp only [SpotGenerator.matureLoop] at h
    split_ifs at h
    simp at h
  | succ fuel ih =>
    simp only [SpotGenerator.matureLoop] at h
    split_ifs at h with h1
    · cases hm : G.matureStep (draws k).1 (draws k).2 with
      | error e' => rw [hm] at h; simp at h; exact ⟨k, by rw [hm, h]⟩
      | ok sp => rw [hm] at h; exact ih _ _ _ h
    · simp at h

theorem solidAngle_fits {s : StarSpot} {a R : ℝ} (hR : 0 < R) (h : s.area = .fin a) (h0 : 0 ≤ a)
    (h1 : a ≤ 4 * π * R ^ 2) :
    ∃ w, SpotGenerator.solidAngle s R = .fin w ∧ a / R ^ 2 ≤ w ∧ 4 / π ^ 2 * w ≤ a / R ^ 2 := by
  have hp := pi_pos
  have hd : (0 : ℝ) < 2 * π * R ^ 2 := by positivity
  set x := 1 - a / (2 * π * R ^ 2) with hx
  have hx1 : -1 ≤ x := by
    have : a / (2 * π * R ^ 2) ≤ 2 := by rw [div_le_iff₀ hd]; linarith
    linarith
  have hx2 : x ≤ 1 := by
    have : 0 ≤ a / (2 * π * R ^ 2) := by positivity
    linarith
  have hang : s.angularRadius R = .fin (arccos x) := by
    unfold StarSpot.angularRadius
    rw [h, Fl.fin_div hd.ne', Fl.fin_sub, Fl.arccos_fin hx1 hx2]
  refine ⟨arccos x * arccos x * π, ?_, ?_, ?_⟩
  · unfold SpotGenerator.solidAngle; rw [hang]; rfl
  · have h2 := one_sub_sq_div_two_le_cos (x := arccos x)
    rw [cos_arccos hx1 hx2] at h2
    have h3 : a / R ^ 2 = 2 * π * (1 - x) := by rw [hx]; field_simp; ring
    rw [h3]
    nlinarith
  · have h2 := cos_le_one_sub_mul_cos_sq (x := arccos x)
      (by rw [abs_of_nonneg (arccos_nonneg x)]; exact arccos_le_pi x)
    rw [cos_arccos hx1 hx2] at h2
    have h3 : a / R ^ 2 = 2 * π * (1 - x) := by rw [hx]; field_simp; ring
    rw [h3]
    have h4 : 4 / π ^ 2 * (arccos x * arccos x * π) = 2 * π * (2 / π ^ 2 * arccos x ^ 2) := by
      field_simp; ring
    rw [h4]
    apply mul_le_mul_of_nonneg_left _ (by positivity)
    linarith

theorem countedAngle_fits {l : List StarSpot} {R : ℝ} (hR : 0 < R) (h : Fits l R) :
    ∃ w, countedAngle l R = .fin w ∧ trueAngle l R ≤ w ∧ 4 / π ^ 2 * w ≤ trueAngle l R := by
  induction l with
  | nil => exact ⟨0, rfl, by simp [trueAngle], by simp [trueAngle]⟩
  | cons s l ih =>
    obtain ⟨w, h1, h2, h3⟩ := ih fun x hx => h x (by simp [hx])
    obtain ⟨a, ha, ha0, ha1⟩ := h s (by simp)
    obtain ⟨v, h4, h5, h6⟩ := solidAngle_fits hR ha ha0 ha1
    refine ⟨v + w, ?_, ?_, ?_⟩
    · unfold countedAngle at h1 ⊢
      rw [List.map_cons, List.sum_cons, h1, h4, Fl.fin_add]
    · unfold trueAngle at h2 ⊢
      rw [List.map_cons, List.sum_cons, ha]
      simp only; linarith
    · unfold trueAngle at h3 ⊢
      rw [List.map_cons, List.sum_cons, ha]
      simp only; linarith

theorem meanLifetime_fin {G : SpotGenerator} (h1 : 0 < G.initArea) (h2 : 0 < G.distAreaMean) (h3 : 0 < G.growthRate) (h4 : G.decayRate ≠ 0) :
    ∃ L, G.meanLifetime = .fin L := by
  unfold SpotGenerator.meanLifetime
  rw [if_neg (show ¬ G.isStatic from h4), Fl.fin_div h4, Fl.fin_div h2.ne', Fl.log_fin (div_pos h1 h2), Fl.fin_div h3.ne', Fl.fin_sub]
  exact ⟨_, rfl⟩

theorem matureStep_not_valueError (G : SpotGenerator) (hs : 0 ≤ G.distAreaLogsigma) (hd : G.distribution ≠ .other)
    (d : SpotDraws 1) (x : Set.Ico (0 : ℝ) 1) : G.matureStep d x ≠ .error .valueError := by
  unfold SpotGenerator.matureStep
  cases hg : G.generate 1 d with
  | error e =>
    intro hc
    simp only [Except.bind, Except.error.injEq] at hc
    subst hc
    unfold SpotGenerator.generate at hg
    rw [if_neg (not_lt.mpr hs)] at hg
    cases ha : SpotGenerator.acceptRatios d with
    | none => rw [ha] at hg; simp at hg
    | some q => rw [ha] at hg; simp [hd] at hg
  | ok l =>
    have hlen := ((C27_generate G 1 d).2.2 l hg).1
    match l, hlen with
    | [sp], _ =>
      simp only [Except.bind]
      split_ifs <;> simp

/-- **C28** (partial) `generate_mature_spots` raises `ValueError` for a coverage outside `[0,1]`, and for a
well-formed generator only then; `coverage = 0` gives no spots; when it returns a list, the solid angle *as
counted by the code* (`Σ π θ²`) is not below the target while without the last spot it is; if the spots fit on
the star, their true solid angle without the last one is below the target, and with it at least `4/π²` of
the target.  Missing: the true solid angle reaching the target – see `C28_counterexample`. -/
theorem C28_mature_partial (G : SpotGenerator) (c R : ℝ) (hR : 0 < R)
    (draws : ℕ → SpotDraws 1 × Set.Ico (0 : ℝ) 1) :
    (c < 0 ∨ 1 < c → G.generateMature c R draws = .error .valueError) ∧
    (0 ≤ c → c ≤ 1 → 0 ≤ G.distAreaLogsigma → G.distribution ≠ .other →
      G.generateMature c R draws ≠ .error .valueError) ∧
    (c = 0 → G.generateMature c R draws = .ok []) ∧
    (∀ l, G.generateMature c R draws = .ok l →
      ¬ countedAngle l R < .fin (4 * π * c) ∧
      (l ≠ [] → countedAngle l.dropLast R < .fin (4 * π * c)) ∧
      (Fits l R → 4 / π ^ 2 * (4 * π * c) ≤ trueAngle l R ∧ (l ≠ [] → trueAngle l.dropLast R < 4 * π * c)) ∧
      ∀ s ∈ l, ∃ j, G.matureStep (draws j).1 (draws j).2 = .ok s) := by
  refine ⟨?_, ?_, ?_, ?_⟩
  · intro h
    unfold SpotGenerator.generateMature
    rw [if_pos h.symm]
  · intro h0 h1 hs hd hc
    unfold SpotGenerator.generateMature at hc
    rw [if_neg (by rintro (h | h) <;> linarith)] at hc
    split_ifs at hc with h2
    · obtain ⟨r, hr⟩ := Option.isSome_iff_exists.mp (Nat.find_spec h2)
      rw [hr] at hc
      simp only [Option.getD_some] at hc
      subst hc
      obtain ⟨j, hj⟩ := matureLoop_error _ _ _ _ _ _ _ _ _ hr
      exact matureStep_not_valueError G hs hd _ _ hj
    · simp at hc
  · rintro rfl
    have h0 : G.matureLoop (4 * π * 0) R draws 0 0 (.fin 0) [] = some (.ok []) := by
      simp [SpotGenerator.matureLoop]
    have hex : ∃ fuel, (G.matureLoop (4 * π * 0) R draws fuel 0 (.fin 0) []).isSome := ⟨0, by rw [h0]; rfl⟩
    have hf : Nat.find hex = 0 := (Nat.find_eq_zero hex).mpr (by rw [h0]; rfl)
    unfold SpotGenerator.generateMature
    rw [if_neg (by norm_num), dif_pos hex, hf, h0]
    rfl
  · intro l hl
    unfold SpotGenerator.generateMature at hl
    split_ifs at hl with h1 h2
    obtain ⟨r, hr⟩ := Option.isSome_iff_exists.mp (Nat.find_spec h2)
    rw [hr] at hl
    simp only [Option.getD_some] at hl
    subst hl
    obtain ⟨h3, h4, tl, h5, h6⟩ := matureLoop_spec G (4 * π * c) R draws _ 0 [] l hr
    have h4' : l ≠ [] → countedAngle l.dropLast R < .fin (4 * π * c) := fun hne => h4.resolve_left hne
    refine ⟨h3, h4', ?_, ?_⟩
    · intro hfit
      constructor
      · obtain ⟨w, hw1, -, hw3⟩ := countedAngle_fits hR hfit
        rw [hw1, Fl.fin_lt, not_lt] at h3
        refine le_trans ?_ hw3
        exact mul_le_mul_of_nonneg_left h3 (by positivity)
      · intro hne
        obtain ⟨w, hw1, hw2, -⟩ := countedAngle_fits hR (l := l.dropLast)
          fun s hs => hfit s (List.mem_of_mem_dropLast hs)
        have := h4' hne
        rw [hw1, Fl.fin_lt] at this
        linarith
    · rw [List.nil_append] at h5
      subst h5
      exact h6

/-- The full statement of C28 is false of the code: asked to cover 60 % of a star of radius 1 with spots of
the size of a hemisphere it returns a single spot, which covers 50 %. -/
theorem C28_counterexample (g : Grid) : ∃ l,
    (SpotGenerator.mk (2 * π) 0 2500 2700 0 0 (2 * π) .iso 0 g).generateMature 0.6 1
      (fun _ => (plainDraws 1, ⟨0, by simp⟩)) = .ok l ∧ Fits l 1 ∧ trueAngle l 1 < 4 * π * 0.6 := by
  set G := SpotGenerator.mk (2 * π) 0 2500 2700 0 0 (2 * π) .iso 0 g with hG
  set draws : ℕ → SpotDraws 1 × Set.Ico (0 : ℝ) 1 := fun _ => (plainDraws 1, ⟨0, by simp⟩) with hdr
  have hp := pi_pos
  have hp3 := pi_gt_three
  obtain ⟨h1, -, h3⟩ := C27_generate G 1 (plainDraws 1)
  obtain ⟨l, hl⟩ := h1 (by simp [hG]) (by simp [hG]) ⟨0, fun i => by simp [plainDraws, SpotDraws.ratios]⟩
  obtain ⟨hlen, hnb, -⟩ := h3 l hl
  match l, hlen with
  | [sp], _ =>
    set sp' : StarSpot := { sp with area := .fin (2 * π) } with hsp
    have hstep : ∀ k, G.matureStep (draws k).1 (draws k).2 = .ok sp' := by
      intro k
      have hst : G.isStatic := rfl
      simp only [SpotGenerator.matureStep, hdr, hl, Except.bind, hst, if_true, hsp]
      simp [hG]
    have hfit1 : ∃ a, sp'.area = .fin a ∧ 0 ≤ a ∧ a ≤ 4 * π * (1 : ℝ) ^ 2 := ⟨2 * π, rfl, by positivity, by linarith⟩
    have hang : sp'.angularRadius 1 = .fin (π / 2) := by
      unfold StarSpot.angularRadius
      rw [hsp, Fl.fin_div (by positivity), Fl.fin_sub, Fl.arccos_fin]
      · rw [one_pow, mul_one, div_self (by positivity), sub_self, arccos_zero]
      all_goals (rw [one_pow, mul_one, div_self (by positivity)]; norm_num)
    have hsol : SpotGenerator.solidAngle sp' 1 = .fin (π / 2 * (π / 2) * π) := by
      unfold SpotGenerator.solidAngle; rw [hang]; rfl
    have hloop1 : G.matureLoop (4 * π * 0.6) 1 draws 1 0 (.fin 0) [] = some (.ok [sp']) := by
      have e0 : Fl.fin 0 < Fl.fin (4 * π * 0.6) := by rw [Fl.fin_lt]; positivity
      have e1 : ¬ (Fl.fin 0 + SpotGenerator.solidAngle sp' 1 < Fl.fin (4 * π * 0.6)) := by
        rw [hsol, Fl.fin_add, Fl.fin_lt, not_lt]
        have hpi : (3.14 : ℝ) < π := pi_gt_d2
        nlinarith [mul_pos hp hp]
      simp only [SpotGenerator.matureLoop, hstep, if_pos e0, if_neg e1]
      rfl
    have hloop0 : G.matureLoop (4 * π * 0.6) 1 draws 0 0 (.fin 0) [] = none := by
      have e0 : Fl.fin 0 < Fl.fin (4 * π * 0.6) := by rw [Fl.fin_lt]; positivity
      simp only [SpotGenerator.matureLoop, if_pos e0]
    have hex : ∃ fuel, (G.matureLoop (4 * π * 0.6) 1 draws fuel 0 (.fin 0) []).isSome := ⟨1, by rw [hloop1]; rfl⟩
    have hf : Nat.find hex = 1 := by
      rw [Nat.find_eq_iff]
      refine ⟨by rw [hloop1]; rfl, ?_⟩
      intro n hn
      interval_cases n
      rw [hloop0]; simp
    refine ⟨[sp'], ?_, ?_, ?_⟩
    · unfold SpotGenerator.generateMature
      rw [if_neg (by norm_num), dif_pos hex, hf, hloop1]
      rfl
    · intro s hs
      rw [List.mem_singleton] at hs
      subst hs
      exact hfit1
    · simp only [trueAngle, hsp, List.map_cons, List.map_nil, List.sum_cons, List.sum_nil]
      linarith

end Vsm
