import Verif.Props.FlareCurve
import Verif.Props.StarState
import Mathlib.Analysis.SpecialFunctions.Pow.Deriv
import Mathlib.MeasureTheory.Measure.Lebesgue.Basic

/-!
# C44 – C46, C51 – C53: flare generation and random coordinates
-/

noncomputable section

namespace Vsm

open Real Spec MeasureTheory

/-! ## C44 -/

theorem quantile_fin {G : FlareGenerator} {m : ℝ} (hm : G.minEnergy = .fin m) {x : ℝ} (h1 : x < 1) :
    G.minEnergy * Fl.rpow (.fin (1 - x)) (1 / G.alpha) = .fin (m * (1 - x) ^ (1 / G.alpha)) := by
  rw [hm, Fl.rpow_fin (by linarith), Fl.fin_mul]

/-- **C44** `quantile_func` is the inverse of `cdf`: it fails with `ValueError` exactly when some argument is
outside `[0,1)`; otherwise it returns one energy per argument, at least `min_energy`, whose `cdf` is the
argument, and it is strictly increasing. -/
theorem C44_quantile (G : FlareGenerator) (m : ℝ) (hm : G.minEnergy = .fin m) (hm0 : 0 < m) (ha : G.alpha < 0)
    (X : List ℝ) :
    ((∃ x ∈ X, x < 0 ∨ 1 ≤ x) → G.quantile X = .error .valueError) ∧
    ((∀ x ∈ X, 0 ≤ x ∧ x < 1) → ∃ E : List ℝ, G.quantile X = .ok (E.map .fin) ∧
      List.Forall₂ (fun x e => m ≤ e ∧ G.cdf (.fin e) = .fin x) X E) ∧
    (∀ x y e e', 0 ≤ x → x < y → y < 1 → G.quantile [x, y] = .ok [.fin e, .fin e'] → e < e') := by
  have key : ∀ x, 0 ≤ x → x < 1 → 0 < m * (1 - x) ^ (1 / G.alpha) := fun x _ h1 =>
    mul_pos hm0 (rpow_pos_of_pos (by linarith) _)
  refine ⟨?_, ?_, ?_⟩
  · rintro ⟨x, hx, h⟩
    unfold FlareGenerator.quantile
    rw [if_pos]
    rintro ⟨h1, h2⟩
    rcases h with h | h
    · exact absurd (h1 x hx) (not_le.mpr h)
    · exact absurd (h2 x hx) (not_lt.mpr h)
  · intro h
    refine ⟨X.map fun x => m * (1 - x) ^ (1 / G.alpha), ?_, ?_⟩
    · unfold FlareGenerator.quantile
      rw [if_neg (not_not.mpr ⟨fun x hx => (h x hx).1, fun x hx => (h x hx).2⟩), if_neg ha.ne, List.map_map]
      congr 1
      exact List.map_congr_left fun x hx => quantile_fin hm (h x hx).2
    · rw [List.forall₂_map_right_iff, List.forall₂_same]
      intro x hx
      obtain ⟨h0, h1⟩ := h x hx
      have hpos : 0 < 1 - x := by linarith
      constructor
      · have : 1 ≤ (1 - x) ^ (1 / G.alpha) :=
          one_le_rpow_of_pos_of_le_one_of_nonpos hpos (by linarith) (one_div_nonpos.mpr ha.le)
        nlinarith
      · unfold FlareGenerator.cdf
        rw [hm, Fl.fin_div hm0.ne', mul_div_cancel_left₀ _ hm0.ne', Fl.rpow_fin (rpow_pos_of_pos hpos _),
          ← rpow_mul hpos.le, one_div_mul_cancel ha.ne, rpow_one, Fl.fin_sub, Fl.fin_inj]
        ring
  · intro x y e e' h0 hxy h1 h
    unfold FlareGenerator.quantile at h
    rw [if_neg (not_not.mpr ⟨by simp; exact ⟨h0, by linarith⟩, by simp; exact ⟨by linarith, h1⟩⟩), if_neg ha.ne] at h
    simp only [List.map_cons, List.map_nil, quantile_fin hm (show x < 1 by linarith), quantile_fin hm h1,
      Except.ok.injEq, List.cons.injEq, Fl.fin_inj, and_true] at h
    obtain ⟨rfl, rfl⟩ := h
    apply mul_lt_mul_of_pos_left _ hm0
    exact rpow_lt_rpow_of_neg (by linarith) (by linarith) (one_div_neg.mpr ha)

/-- Generator used in the examples. -/
def Spec.sampleFlareGen : FlareGenerator :=
  { teffMean := 9000, teffSigma := 500, fwhmMean := 0.1, fwhmLogsigma := 0.3, alpha := -1, beta := 2
    minEnergy := .fin 10, clusterSize := .fin 2 }

/-- Non-trivial instance of C44: the median energy is twice the minimum for `alpha = -1`. -/
example : sampleFlareGen.quantile [0.5] = .ok [.fin 20] ∧ sampleFlareGen.quantile [1] = .error .valueError := by
  refine ⟨?_, (C44_quantile sampleFlareGen 10 rfl (by norm_num) (by norm_num [sampleFlareGen]) [1]).1
    ⟨1, by simp, by norm_num⟩⟩
  unfold FlareGenerator.quantile
  rw [if_neg (by norm_num), if_neg (by norm_num [sampleFlareGen])]
  simp only [List.map_cons, List.map_nil]
  rw [quantile_fin (m := 10) rfl (by norm_num)]
  have : (1 : ℝ) / sampleFlareGen.alpha = -1 := by norm_num [sampleFlareGen]
  rw [this, rpow_neg_one]
  norm_num

/-! ## C45 -/

theorem nexp_fin (G : FlareGenerator) {E : ℝ} (hE : 0 < E) (t : ℝ) :
    G.nexpGreaterThan (.fin E) t = .fin (10 ^ G.beta * E ^ G.alpha * t) := by
  unfold FlareGenerator.nexpGreaterThan FlareGenerator.frequencyGreaterThan
  rw [Fl.rpow_fin hE, Fl.fin_mul, Fl.fin_mul]

/-- **C45** The expected number of flares above `E` is the expected total times `1 - cdf(E)`, is additive in
the duration, does not increase with `E`, and the daily frequency satisfies `log10 ν = β + α log10 E`. -/
theorem C45_frequency (G : FlareGenerator) (m : ℝ) (hm : G.minEnergy = .fin m) (hm0 : 0 < m) (ha : G.alpha < 0)
    (E E' t u : ℝ) (hE : 0 < E) (hE' : 0 < E') :
    G.nexpGreaterThan (.fin E) t = G.nTotal t * (.fin 1 - G.cdf (.fin E)) ∧
    G.nexpGreaterThan (.fin E) (t + u) = G.nexpGreaterThan (.fin E) t + G.nexpGreaterThan (.fin E) u ∧
    (E ≤ E' → 0 ≤ t → G.nexpGreaterThan (.fin E') t ≤ G.nexpGreaterThan (.fin E) t) ∧
    (∃ ν, 0 < ν ∧ G.frequencyGreaterThan (.fin E) = .fin ν ∧ G.nexpGreaterThan (.fin E) t = .fin (ν * t) ∧
      logb 10 ν = G.beta + G.alpha * logb 10 E) := by
  have h10 : (0 : ℝ) < 10 ^ G.beta := rpow_pos_of_pos (by norm_num) _
  have hEa : 0 < E ^ G.alpha := rpow_pos_of_pos hE _
  refine ⟨?_, ?_, ?_, ?_⟩
  · unfold FlareGenerator.nTotal FlareGenerator.cdf
    rw [hm, nexp_fin G hE, nexp_fin G hm0, Fl.fin_div hm0.ne', Fl.rpow_fin (div_pos hE hm0), Fl.fin_sub, Fl.fin_sub,
      Fl.fin_mul, Fl.fin_inj, div_rpow hE.le hm0.le]
    have := (rpow_pos_of_pos hm0 G.alpha).ne'
    field_simp
    ring
  · rw [nexp_fin G hE, nexp_fin G hE, nexp_fin G hE, Fl.fin_add, Fl.fin_inj]; ring
  · intro h ht
    rw [nexp_fin G hE, nexp_fin G hE', Fl.fin_le]
    have := rpow_le_rpow_of_nonpos hE h ha.le
    gcongr
  · refine ⟨10 ^ G.beta * E ^ G.alpha, by positivity, ?_, nexp_fin G hE t, ?_⟩
    · unfold FlareGenerator.frequencyGreaterThan
      rw [Fl.rpow_fin hE, Fl.fin_mul]
    · rw [logb_mul h10.ne' hEa.ne', logb_rpow (by norm_num) (by norm_num), logb_rpow_eq_mul_logb_of_pos hE]

/-- Non-trivial instance of C45: `10² · 20⁻¹ = 5` flares per day above twice the minimum energy. -/
example : sampleFlareGen.nexpGreaterThan (.fin 20) 3 = .fin 15 ∧ sampleFlareGen.nTotal 3 = .fin 30 := by
  unfold FlareGenerator.nTotal
  have e1 : sampleFlareGen.alpha = -1 := rfl
  have e2 : sampleFlareGen.beta = 2 := rfl
  have e3 : sampleFlareGen.minEnergy = .fin 10 := rfl
  rw [e3, nexp_fin _ (by norm_num), nexp_fin _ (by norm_num), e1, e2, rpow_neg_one, rpow_neg_one]
  norm_num

/-! ## C46 -/

theorem cumsumFrom_length {α : Type} [Add α] (acc : α) (l : List α) : (Np.cumsumFrom acc l).length = l.length := by
  induction l generalizing acc with
  | nil => rfl
  | cons x l ih => simp [Np.cumsumFrom, ih]

theorem cumsumFrom_ge {acc : ℝ} {l : List ℝ} (h : ∀ x ∈ l, 0 ≤ x) :
    (∀ y ∈ Np.cumsumFrom acc l, acc ≤ y) ∧ (Np.cumsumFrom acc l).Pairwise (· ≤ ·) := by
  induction l generalizing acc with
  | nil => simp [Np.cumsumFrom]
  | cons x l ih =>
    have hx := h x (by simp)
    obtain ⟨h1, h2⟩ := @ih (acc + x) (fun y hy => h y (by simp [hy]))
    constructor
    · intro y hy
      rw [Np.cumsumFrom] at hy
      rcases List.mem_cons.mp hy with rfl | hy
      · linarith
      · linarith [h1 y hy]
    · rw [Np.cumsumFrom, List.pairwise_cons]
      exact ⟨h1, h2⟩

/-- Selecting the clusters whose running total stays below `n` gives a total below `n`. -/
theorem maskSelect_cumsum {n : ℕ} (l : List ℕ) (acc : ℕ) (hacc : acc < n) :
    acc + (Np.maskSelect l ((Np.cumsumFrom acc l).map (decide <| · < n))).sum < n := by
  induction l generalizing acc with
  | nil => simpa [Np.maskSelect, Np.cumsumFrom] using hacc
  | cons x l ih =>
    simp only [Np.cumsumFrom, List.map_cons, Np.maskSelect]
    by_cases h : acc + x < n
    · rw [if_pos (by simpa using h), List.sum_cons]
      have := ih (acc + x) h
      omega
    · rw [if_neg (by simpa using h)]
      have : Np.maskSelect l ((Np.cumsumFrom (acc + x) l).map (decide <| · < n)) = [] := by
        clear ih
        have hge : n ≤ acc + x := by omega
        generalize acc + x = b at hge
        induction l generalizing b with
        | nil => rfl
        | cons y l ih =>
          simp only [Np.cumsumFrom, List.map_cons, Np.maskSelect]
          rw [if_neg (by simp; omega)]
          exact ih _ (by omega)
      rw [this]
      simpa using hacc

theorem maskSelect_mem {α : Type} {x : α} : ∀ {l : List α} {m : List Bool}, x ∈ Np.maskSelect l m → x ∈ l
  | [], m, h => by cases m <;> simp [Np.maskSelect] at h
  | y :: l, [], h => by simp [Np.maskSelect] at h
  | y :: l, b :: m, h => by
    rw [Np.maskSelect] at h
    split_ifs at h
    · rcases List.mem_cons.mp h with h | h
      · simp [h]
      · simp [maskSelect_mem h]
    · simp [maskSelect_mem h]

theorem clusterSizes_spec {n : ℕ} (hn : 0 < n) (raw : List ℕ) :
    (FlareGenerator.clusterSizes n raw).sum = n ∧ (∀ c ∈ FlareGenerator.clusterSizes n raw, 0 < c) ∧
    0 < (FlareGenerator.clusterSizes n raw).length := by
  unfold FlareGenerator.clusterSizes Np.cumsum
  simp only
  set c₁ := raw.filter (0 < ·) with hc₁
  have h := maskSelect_cumsum c₁ 0 hn
  set c₂ := Np.maskSelect c₁ ((Np.cumsumFrom 0 c₁).map (decide <| · < n)) with hc₂
  refine ⟨?_, ?_, ?_⟩
  · simp only [List.sum_append, List.sum_replicate, smul_eq_mul, mul_one]; omega
  · intro c hc
    rcases List.mem_append.mp hc with hc | hc
    · have := maskSelect_mem (hc₂ ▸ hc)
      rw [hc₁, List.mem_filter] at this
      simpa using this.2
    · rw [List.mem_replicate] at hc; omega
  · simp only [List.length_append, List.length_replicate]; omega

theorem waitingTimes_spec {ts : ℝ} (hts : 0 ≤ ts) (sizes : List ℕ) (hpos : ∀ c ∈ sizes, 0 < c)
    (e : ℕ → Set.Ici (0 : ℝ)) :
    (FlareGenerator.waitingTimes ts sizes e).length = sizes.sum ∧
    ∀ w ∈ FlareGenerator.waitingTimes ts sizes e, 0 ≤ w := by
  induction sizes generalizing e with
  | nil => simp [FlareGenerator.waitingTimes]
  | cons c l ih =>
    obtain ⟨h1, h2⟩ := ih (fun x hx => hpos x (by simp [hx])) (fun i => e (i + (1 + (c - 1))))
    have hc := hpos c (by simp)
    constructor
    · rw [FlareGenerator.waitingTimes, List.length_append, h1]
      simp only [FlareGenerator.clusterTimes, List.length_map, List.length_range, List.sum_cons]
      omega
    · intro w hw
      rw [FlareGenerator.waitingTimes, List.mem_append] at hw
      rcases hw with hw | hw
      · simp only [FlareGenerator.clusterTimes, List.mem_map] at hw
        obtain ⟨i, -, rfl⟩ := hw
        split_ifs
        · exact mul_nonneg hts (e 0).2
        · exact mul_nonneg (by positivity) (e i).2
      · exact h2 w hw

theorem mapM_poisson {c : ℝ} (hc : 0 ≤ c) (l : List ℕ) : ∃ l', l.mapM (fun k => Np.poisson (.fin c) k) = .ok l' := by
  induction l with
  | nil => exact ⟨[], rfl⟩
  | cons k l ih =>
    obtain ⟨l', h⟩ := ih
    have : ∃ k', Np.poisson (.fin c) k = .ok k' := by
      unfold Np.poisson
      simp only
      rw [if_neg (not_lt.mpr hc)]
      split_ifs <;> exact ⟨_, rfl⟩
    obtain ⟨k', h'⟩ := this
    refine ⟨k' :: l', ?_⟩
    rw [List.mapM_cons, h', h]
    rfl

/-- **C46** `get_peaks(n)` for `n ≥ 1` never raises and returns exactly `n` non-negative, non-decreasing
times, for every mean cluster size and all random draws. -/
theorem C46_peaks (G : FlareGenerator) (c : ℝ) (hc : G.clusterSize = .fin c) (hc0 : 0 ≤ c) (n : ℕ) (hn : 1 ≤ n)
    (raw : Fin n → ℕ) (e : ℕ → Set.Ici (0 : ℝ)) :
    ∃ l, G.getPeaks n raw e = .ok l ∧ l.length = n ∧ (∀ t ∈ l, 0 ≤ t) ∧ l.Pairwise (· ≤ ·) := by
  unfold FlareGenerator.getPeaks
  rw [hc]
  obtain ⟨draws, hd⟩ := mapM_poisson hc0 (List.ofFn raw)
  rw [hd]
  obtain ⟨h1, h2, h3⟩ := clusterSizes_spec hn draws
  simp only [bind, Except.bind]
  rw [if_neg (not_not.mpr h1), if_neg h3.ne']
  obtain ⟨h4, h5⟩ := waitingTimes_spec (ts := 1 / ((FlareGenerator.clusterSizes n draws).length : ℝ)) (by positivity)
    (FlareGenerator.clusterSizes n draws) h2 e
  refine ⟨_, rfl, ?_, ?_, ?_⟩
  · unfold Np.cumsum
    rw [cumsumFrom_length, h4, h1]
  · exact (cumsumFrom_ge h5).1
  · exact (cumsumFrom_ge h5).2

/-- Non-trivial instance of C46: clusters of 0, 2 and 5 requested for 3 flares. -/
example : ∃ l, sampleFlareGen.getPeaks 3 ![0, 2, 5] (fun _ => ⟨1, by simp⟩) = .ok l ∧ l.length = 3 := by
  obtain ⟨l, h1, h2, -⟩ := C46_peaks sampleFlareGen 2 rfl (by norm_num) 3 (by norm_num) ![0, 2, 5]
    (fun _ => ⟨1, by simp⟩)
  exact ⟨l, h1, h2⟩

/-! ## C52 -/

/-- **C52** (partial) The number computed by `pdf` before the unit conversion is the derivative of `cdf`.
Missing: `pdf` returns it – refuted by `C52_counterexample`. -/
theorem C52_density_partial (G : FlareGenerator) (m : ℝ) (hm : G.minEnergy = .fin m) (hm0 : 0 < m) :
    ∃ F p : ℝ → ℝ, (∀ E, 0 < E → G.cdf (.fin E) = .fin (F E)) ∧ (∀ E, 0 < E → G.pdfValue (.fin E) = .fin (p E)) ∧
      ∀ E, 0 < E → HasDerivAt F (p E) E := by
  refine ⟨fun E => 1 - (E / m) ^ G.alpha, fun E => -G.alpha * E ^ (G.alpha - 1) / m ^ G.alpha, ?_, ?_, ?_⟩
  · intro E hE
    unfold FlareGenerator.cdf
    rw [hm, Fl.fin_div hm0.ne', Fl.rpow_fin (div_pos hE hm0), Fl.fin_sub]
  · intro E hE
    unfold FlareGenerator.pdfValue
    rw [hm, Fl.rpow_fin hE, Fl.rpow_fin hm0, Fl.fin_mul, Fl.fin_div (rpow_pos_of_pos hm0 _).ne']
  · intro E hE
    have h1 : HasDerivAt (fun E : ℝ => E / m) (1 / m) E := (hasDerivAt_id E).div_const m
    have h2 := (h1.rpow_const (p := G.alpha) (Or.inl (div_pos hE hm0).ne')).const_sub 1
    refine h2.congr_deriv ?_
    rw [div_rpow hE.le hm0.le, rpow_sub_one hm0.ne']
    have := (rpow_pos_of_pos hm0 G.alpha).ne'
    field_simp

/-- The full statement of C52 is false of the code: `pdf` raises `UnitConversionError` for every generator and
every energy. -/
theorem C52_counterexample (G : FlareGenerator) (E : Fl) : G.pdf E = .error .unitConversion := by
  unfold FlareGenerator.pdf
  rw [if_neg]
  ring_nf
  norm_num

/-- Non-trivial instance of C52: density at twice the minimum energy. -/
example : sampleFlareGen.pdfValue (.fin 20) = .fin (1 / 40) := by
  unfold FlareGenerator.pdfValue
  have e1 : sampleFlareGen.alpha = -1 := rfl
  have e3 : sampleFlareGen.minEnergy = .fin 10 := rfl
  rw [e1, e3, Fl.rpow_fin (by norm_num), Fl.rpow_fin (by norm_num), rpow_neg_one, Fl.fin_mul, Fl.fin_div (by norm_num),
    Fl.fin_inj]
  have : (20 : ℝ) ^ (-1 - 1 : ℝ) = 1 / 400 := by
    rw [show (-1 - 1 : ℝ) = ((-2 : ℤ) : ℝ) by norm_num, rpow_intCast]; norm_num
  rw [this]; norm_num

/-! ## C53 -/

/-- Latitude with uniformly distributed sine (spec). -/
theorem isoLat_eq (u : ℝ) : Grid.deg (arcsin (2 * u - 1) / π * 180) = arcsin (2 * u - 1) := by
  unfold Grid.deg
  have := pi_ne_zero
  field_simp

theorem isoLon_eq (u : ℝ) : Grid.deg (u * 360) = 2 * π * u := by
  unfold Grid.deg
  ring

theorem iso_bounds (u v : Set.Ico (0 : ℝ) 1) :
    -(π / 2) ≤ Grid.deg (arcsin (2 * (u : ℝ) - 1) / π * 180) ∧
    Grid.deg (arcsin (2 * (u : ℝ) - 1) / π * 180) ≤ π / 2 ∧
    0 ≤ Grid.deg ((v : ℝ) * 360) ∧ Grid.deg ((v : ℝ) * 360) < 2 * π := by
  rw [isoLat_eq, isoLon_eq]
  have h1 := v.2.1
  have h2 := v.2.2
  refine ⟨neg_pi_div_two_le_arcsin _, arcsin_le_pi_div_two _, by positivity, ?_⟩
  nlinarith [pi_pos]

/-- **C53** The isotropic coordinate generators of spots, faculae and flares turn the uniform draws into
latitude and longitude by the same two functions; the latitude is in `[-90°,90°]`, the longitude in
`[0°,360°)`, the set of draws that ends north of a latitude `φ` has exactly the measure of the part of the sphere
north of `φ`, and the set of draws that ends west of a longitude `lam` has the measure `lam/360°`. -/
theorem C53_isotropic :
    ∃ lat lon : ℝ → ℝ,
      (∀ (G : SpotGenerator) (n : ℕ) (d : SpotDraws n) (l : List StarSpot), G.distribution = .iso →
        G.generate n d = .ok l → l.map (fun s => (s.lat, s.lon)) = List.ofFn fun i => (lat (d.uLat i), lon (d.uLon i))) ∧
      (∀ (G : FaculaGenerator) (n : ℕ) (d : FaculaDraws n),
        (G.generate n d).map (fun f => (f.lat, f.lon)) = List.ofFn fun i => (lat (d.uLat i), lon (d.uLon i))) ∧
      (∀ u, FlareGenerator.drawLat u = lat u ∧ FlareGenerator.drawLon u = lon u) ∧
      (∀ u, 0 ≤ u → u < 1 → -(π / 2) ≤ lat u ∧ lat u ≤ π / 2 ∧ 0 ≤ lon u ∧ lon u < 2 * π) ∧
      (∀ φ, -(π / 2) ≤ φ → φ ≤ π / 2 → volume {u | 0 ≤ u ∧ u < 1 ∧ φ < lat u} = ENNReal.ofReal (fracNorth φ)) ∧
      (∀ lam, 0 ≤ lam → lam ≤ 2 * π →
        volume {u | 0 ≤ u ∧ u < 1 ∧ lon u < lam} = ENNReal.ofReal (lam / (2 * π))) := by
  refine ⟨fun u => arcsin (2 * u - 1), fun u => 2 * π * u, ?_, ?_, ?_, ?_, ?_, ?_⟩
  · intro G n d l hiso h
    unfold SpotGenerator.generate at h
    by_cases h1 : G.distAreaLogsigma < 0
    · rw [if_pos h1] at h; cases h
    rw [if_neg h1] at h
    cases ha : SpotGenerator.acceptRatios d with
    | none => rw [ha] at h; cases h
    | some q =>
      rw [ha] at h
      simp only at h
      split_ifs at h with h2
      simp only [Except.ok.injEq] at h
      subst h
      rw [List.map_ofFn]
      congr 1
      funext i
      simp only [Function.comp, StarSpot.new, SpotGenerator.drawLat, SpotGenerator.drawLon, hiso]
      rw [isoLat_eq, isoLon_eq]
  · intro G n d
    unfold FaculaGenerator.generate
    rw [List.map_ofFn]
    congr 1
    funext i
    simp only [Function.comp, FaculaGenerator.drawLat, FaculaGenerator.drawLon]
    rw [isoLat_eq, isoLon_eq]
  · intro u
    exact ⟨isoLat_eq u, isoLon_eq u⟩
  · intro u h0 h1
    refine ⟨neg_pi_div_two_le_arcsin _, arcsin_le_pi_div_two _, by positivity, ?_⟩
    nlinarith [pi_pos]
  · intro φ h1 h2
    have hs1 := neg_one_le_sin φ
    have hs2 := sin_le_one φ
    have : {u : ℝ | 0 ≤ u ∧ u < 1 ∧ φ < arcsin (2 * u - 1)} = Set.Ioo ((1 + sin φ) / 2) 1 := by
      ext u
      simp only [Set.mem_ofPred_eq, Set.mem_Ioo]
      constructor
      · rintro ⟨hu0, hu1, h⟩
        rw [lt_arcsin_iff_sin_lt ⟨h1, h2⟩ ⟨by linarith, by linarith⟩] at h
        exact ⟨by linarith, hu1⟩
      · rintro ⟨h, hu1⟩
        have hu0 : 0 ≤ u := by linarith
        refine ⟨hu0, hu1, ?_⟩
        rw [lt_arcsin_iff_sin_lt ⟨h1, h2⟩ ⟨by linarith, by linarith⟩]
        linarith
    rw [this, Real.volume_Ioo]
    congr 1
    unfold fracNorth
    ring
  · intro lam h1 h2
    have hpi := pi_pos
    have : {u : ℝ | 0 ≤ u ∧ u < 1 ∧ 2 * π * u < lam} = Set.Ico 0 (lam / (2 * π)) := by
      ext u
      simp only [Set.mem_ofPred_eq, Set.mem_Ico, lt_div_iff₀ (by positivity : 0 < 2 * π)]
      constructor
      · rintro ⟨hu0, hu1, h⟩
        exact ⟨hu0, by linarith⟩
      · rintro ⟨hu0, h⟩
        refine ⟨hu0, ?_, by linarith⟩
        by_contra h'
        nlinarith
    rw [this, Real.volume_Ico, sub_zero]

/-- The fraction used in C53 is the integral of `cos` over the latitudes north of `φ`, normalised. -/
theorem fracNorth_eq (φ : ℝ) : fracNorth φ =
    (∫ x in φ..(π / 2), cos x) / ∫ x in (-(π / 2))..(π / 2), cos x := by
  rw [integral_cos, integral_cos, sin_neg, sin_pi_div_two]
  unfold fracNorth
  norm_num

/-- Non-trivial instance of C53: half of the draws end north of the equator, one quarter north of 30°. -/
example : fracNorth 0 = 1 / 2 ∧ fracNorth (π / 6) = 1 / 4 := by
  unfold fracNorth
  rw [sin_zero, sin_pi_div_six]
  norm_num

/-! ## C51 -/

theorem zipFlares_spec : ∀ (n : ℕ) (fs : List ℝ) (es : List Fl) (las los tes ts : List ℝ), fs.length = n →
    es.length = n → las.length = n → los.length = n → tes.length = n → ts.length = n →
    (FlareGenerator.zipFlares fs es las los tes ts).length = n ∧
    ∀ f ∈ FlareGenerator.zipFlares fs es las los tes ts, f.fwhm ∈ fs ∧ f.energy ∈ es ∧ f.lat ∈ las ∧ f.lon ∈ los ∧
      f.teff ∈ tes ∧ f.tpeak ∈ ts := by
  intro n
  induction n with
  | zero =>
    intro fs es las los tes ts h1 h2 h3 h4 h5 h6
    rw [List.length_eq_zero_iff] at h1
    subst h1
    simp [FlareGenerator.zipFlares]
  | succ n ih =>
    intro fs es las los tes ts h1 h2 h3 h4 h5 h6
    obtain ⟨f, fs, rfl⟩ := List.exists_cons_of_length_eq_add_one h1
    obtain ⟨e, es, rfl⟩ := List.exists_cons_of_length_eq_add_one h2
    obtain ⟨la, las, rfl⟩ := List.exists_cons_of_length_eq_add_one h3
    obtain ⟨lo, los, rfl⟩ := List.exists_cons_of_length_eq_add_one h4
    obtain ⟨te, tes, rfl⟩ := List.exists_cons_of_length_eq_add_one h5
    obtain ⟨t, ts, rfl⟩ := List.exists_cons_of_length_eq_add_one h6
    simp only [List.length_cons, Nat.add_right_cancel_iff] at h1 h2 h3 h4 h5 h6
    obtain ⟨k1, k2⟩ := ih fs es las los tes ts h1 h2 h3 h4 h5 h6
    rw [FlareGenerator.zipFlares]
    refine ⟨by simp [k1], ?_⟩
    intro x hx
    rcases List.mem_cons.mp hx with rfl | hx
    · simp
    · obtain ⟨a1, a2, a3, a4, a5, a6⟩ := k2 x hx
      simp [a1, a2, a3, a4, a5, a6]

/-- **C51** The disabled generator produces no flare for any duration.  Every other generator (with
`alpha < 0` and positive minimum energy) produces, for a positive duration, exactly as many flares as the
Poisson draw says – none for duration zero – and each has at least the minimum energy, a positive width, a
non-negative peak time and coordinates on the sphere. -/
theorem C51_series :
    (∀ t k d, FlareGenerator.off.series t k d = .ok []) ∧
    (∀ (G : FlareGenerator) (m c t : ℝ) (k : ℕ) (d : (n : ℕ) → FlareDraws n), G.minEnergy = .fin m → 0 < m →
      G.alpha < 0 → G.clusterSize = .fin c → 0 ≤ c → 0 < G.fwhmMean → 0 ≤ G.fwhmLogsigma → 0 ≤ G.teffSigma →
      (t = 0 → G.series t k d = .ok []) ∧ (t < 0 → G.series t k d = .error .valueError) ∧
      (0 < t → ∃ l, G.series t k d = .ok l ∧ l.length = k ∧
        ∀ f ∈ l, (∃ e, f.energy = .fin e ∧ m ≤ e) ∧ 0 < f.fwhm ∧ 0 ≤ f.tpeak ∧
          -(π / 2) ≤ f.lat ∧ f.lat ≤ π / 2 ∧ 0 ≤ f.lon ∧ f.lon < 2 * π)) := by
  refine ⟨fun t k d => off_series t k d, ?_⟩
  intro G m c t k d hm hm0 ha hc hc0 hw hsw hst
  have hnt : G.nTotal t = .fin (10 ^ G.beta * m ^ G.alpha * t) := by
    unfold FlareGenerator.nTotal
    rw [hm, nexp_fin G hm0]
  have hpos : 0 < (10 : ℝ) ^ G.beta * m ^ G.alpha := by positivity
  refine ⟨?_, ?_, ?_⟩
  · intro ht
    unfold FlareGenerator.series
    rw [hnt, ht, mul_zero]
    simp [Np.poisson, bind, Except.bind, pure, Except.pure]
  · intro ht
    unfold FlareGenerator.series
    rw [hnt]
    unfold Np.poisson
    simp only
    rw [if_pos (by nlinarith)]
    rfl
  · intro ht
    have hp : Np.poisson (G.nTotal t) k = .ok k := by
      rw [hnt]
      unfold Np.poisson
      have : 0 < (10 : ℝ) ^ G.beta * m ^ G.alpha * t := by positivity
      simp only
      rw [if_neg (not_lt.mpr this.le), if_neg this.ne']
    unfold FlareGenerator.series
    rw [hp]
    simp only [bind, Except.bind, pure, Except.pure]
    by_cases hk : k = 0
    · subst hk
      exact ⟨[], by simp, rfl, by simp⟩
    rw [if_neg hk]
    obtain ⟨E, hE1, hE2⟩ := (C44_quantile G m hm hm0 ha (List.ofFn fun i => ((d k).uE i : ℝ))).2.1 (by
      intro x hx
      rw [List.mem_ofFn] at hx
      obtain ⟨i, rfl⟩ := hx
      exact ((d k).uE i).2)
    obtain ⟨pk, hp1, hp2, hp3, -⟩ := C46_peaks G c hc hc0 k (by omega) (d k).clusters (d k).expo
    simp only [hE1, hp1, FlareGenerator.genFwhm, FlareGenerator.genTeffs]
    rw [if_neg (not_lt.mpr hsw), if_neg (not_lt.mpr hst)]
    have hEl : E.length = k := by rw [← hE2.length_eq, List.length_ofFn]
    obtain ⟨z1, z2⟩ := zipFlares_spec k
      (List.ofFn fun i => (10 : ℝ) ^ (logb 10 G.fwhmMean + G.fwhmLogsigma * (d k).zF i)) (E.map .fin)
      (List.ofFn fun i => FlareGenerator.drawLat ((d k).uLat i)) (List.ofFn fun i => FlareGenerator.drawLon ((d k).uLon i))
      (List.ofFn fun i => G.teffMean + G.teffSigma * (d k).zT i) (pk.map (· * t))
      (by simp) (by simp [hEl]) (by simp) (by simp) (by simp) (by simp [hp2])
    refine ⟨_, rfl, z1, ?_⟩
    intro f hf
    obtain ⟨f1, f2, f3, f4, -, f6⟩ := z2 f hf
    refine ⟨?_, ?_, ?_, ?_⟩
    · rw [List.mem_map] at f2
      obtain ⟨e, he, he'⟩ := f2
      refine ⟨e, he'.symm, ?_⟩
      obtain ⟨i, hi, rfl⟩ := List.getElem_of_mem he
      exact (hE2.get (by rw [hE2.length_eq]; exact hi) hi).1
    · rw [List.mem_ofFn] at f1
      obtain ⟨i, hi⟩ := f1
      rw [← hi]
      positivity
    · rw [List.mem_map] at f6
      obtain ⟨x, hx, hx'⟩ := f6
      rw [← hx']
      exact mul_nonneg (hp3 x hx) ht.le
    · rw [List.mem_ofFn] at f3 f4
      obtain ⟨i, hi⟩ := f3
      obtain ⟨j, hj⟩ := f4
      rw [← hi, ← hj]
      exact iso_bounds _ _

/-- Non-trivial instance of C51: four flares drawn for three days. -/
example (d : (n : ℕ) → FlareDraws n) : ∃ l, sampleFlareGen.series 3 4 d = .ok l ∧ l.length = 4 := by
  obtain ⟨l, h1, h2, -⟩ := (C51_series.2 sampleFlareGen 10 2 3 4 d rfl (by norm_num) (by norm_num [sampleFlareGen]) rfl
    (by norm_num) (by norm_num [sampleFlareGen]) (by norm_num [sampleFlareGen]) (by norm_num [sampleFlareGen])).2.2
    (by norm_num)
  exact ⟨l, h1, h2⟩

end Vsm
