import Verif.Props.FlareGen
import Verif.Props.FlareCurve
import Verif.Props.StarState
import Verif.Lemmas.TrapzError

/-!
# Flare time-areas, flare series and exposures (C72 – C76)
-/

noncomputable section

namespace Vsm

open Real Spec MeasureTheory

/-! ## C72 -/

theorem rise_mono {x y : ℝ} (hx : -1 ≤ x) (hxy : x ≤ y) (hy : y ≤ 0) : rise x ≤ rise y := by
  have h : MonotoneOn rise (Set.Icc (-1) 0) := by
    refine monotoneOn_of_deriv_nonneg (convex_Icc _ _) continuous_rise.continuousOn ?_ ?_
    · intro z _
      have : Differentiable ℝ rise := by unfold rise; fun_prop
      exact (this z).differentiableWithinAt
    · intro z hz
      rw [interior_Icc] at hz
      have hd : HasDerivAt rise (1.94053 - 0.350168 * z - 6.73764 * z ^ 2 - 4.49992 * z ^ 3) z := by
        unfold rise
        have h1 := (hasDerivAt_id z).const_mul (1.94053 : ℝ)
        have h2 := (hasDerivAt_pow 2 z).const_mul (0.175084 : ℝ)
        have h3 := (hasDerivAt_pow 3 z).const_mul (2.24588 : ℝ)
        have h4 := (hasDerivAt_pow 4 z).const_mul (1.12498 : ℝ)
        refine (((((hasDerivAt_const z (1 : ℝ)).add h1).sub h2).sub h3).sub h4).congr_deriv ?_
        norm_num
        ring
      rw [hd.deriv]
      obtain ⟨u, rfl⟩ : ∃ u, z = -u := ⟨-z, by ring⟩
      have hu : 0 ≤ u := by linarith [hz.2]
      nlinarith [mul_nonneg hu (sq_nonneg (u - 0.9715)), sq_nonneg (u - 0.9715)]
  exact h ⟨hx, hxy.trans hy⟩ ⟨hx.trans hxy, hy⟩ hxy

theorem decay_anti {x y : ℝ} (hxy : x ≤ y) : decay y ≤ decay x := by
  unfold decay
  have h1 : exp (-1.60053 * y) ≤ exp (-1.60053 * x) := exp_le_exp.mpr (by linarith)
  have h2 : exp (-0.278318 * y) ≤ exp (-0.278318 * x) := exp_le_exp.mpr (by linarith)
  linarith

theorem template_rise {x : ℝ} (h1 : -1 < x) (h2 : x ≤ 0) : template x = rise x := by
  unfold template
  rw [Set.indicator_of_mem (show x ∈ Set.Ioc (-1 : ℝ) 0 from ⟨h1, h2⟩),
      Set.indicator_of_notMem (fun h' => absurd h'.1 (not_lt.mpr h2)), add_zero]

theorem template_decay {x : ℝ} (h1 : 0 < x) (h2 : x < 20) : template x = decay x := by
  unfold template
  rw [Set.indicator_of_notMem (fun h' => absurd h'.2 (not_le.mpr h1)),
      Set.indicator_of_mem (show x ∈ Set.Ioo (0 : ℝ) 20 from ⟨h1, h2⟩), zero_add]

/-- The flare template rises until the peak and falls afterwards. -/
theorem template_unimodal : MonotoneOn template (Set.Iic 0) ∧ AntitoneOn template (Set.Ici 0) := by
  constructor
  · intro x _ y hy hxy
    rcases le_or_gt x (-1) with h | h
    · rw [template_out (Or.inl h)]; exact (template_bounds y).1
    · rw [template_rise h (hxy.trans hy), template_rise (h.trans_le hxy) hy]
      exact rise_mono h.le hxy hy
  · intro x hx y _ hxy
    rcases le_or_gt 20 y with h | h
    · rw [template_out (Or.inr h)]; exact (template_bounds x).1
    · rcases eq_or_lt_of_le (Set.mem_Ici.mp hx) with hx | hx
      · rw [← hx, template_zero]; exact (template_bounds y).2
      · rw [template_decay hx (hxy.trans_lt h), template_decay (hx.trans_le hxy) h]
        exact decay_anti hxy

theorem areaAt_fin {f : StellarFlare} {A : ℝ} (hA : f.peakArea = .fin A) (hw : 0 < f.fwhm) (t : ℝ) :
    f.areaAt t = .fin (template ((t - f.tpeak) / f.fwhm) * A) := by
  unfold StellarFlare.areaAt
  rw [hA, lightCurve_single hw]

theorem visible_mem {c : FlareCollection} {a b lat0 lon0 : ℝ} {f : StellarFlare} (h : f ∈ c.visible a b lat0 lon0) :
    f ∈ c.flares :=
  maskSelect_mem (List.mem_filter.mp h).1

/-- **C72** For every window of at least twenty minutes the time-area reported for a visible flare is a real
number between zero and peak area × length of the window, and it differs from the exact time integral of the
flare's area over the window by at most peak area × sample spacing `h`, where `h` is the window divided by one less
than the number of whole ten-minute steps in it, always less than half an hour. -/
theorem C72_timearea_accuracy (c : FlareCollection) (a b lat0 lon0 : ℝ) (hab : 20 / (24 * 60) ≤ b - a)
    (hphys : ∀ f ∈ c.flares, (∃ e, f.energy = .fin e ∧ 0 ≤ e) ∧ 0 < f.fwhm ∧ f.teff ≠ 0) :
    ∃ l h, c.integrals a b lat0 lon0 = .ok l ∧ h * (⌊(b - a) / (10 / (24 * 60))⌋₊ - 1) = b - a ∧ 0 < h ∧
      h < 30 / (24 * 60) ∧
      List.Forall₂ (fun f entry => entry.1 = f.teff ∧ ∃ (A x : ℝ) (area : ℝ → ℝ), f.areaAt f.tpeak = .fin A ∧
        (∀ t, f.areaAt t = .fin (area t)) ∧ entry.2 = Fl.fin x ∧ 0 ≤ x ∧ x ≤ A * (b - a) ∧
        |x - ∫ t in a..b, area t| ≤ A * h)
        (c.visible a b lat0 lon0) l := by
  have e10 : (b - a) / (10 / (24 * 60)) = (b - a) * 144 := by ring
  rw [e10]
  norm_num at hab
  have hlt : a < b := by linarith
  have hn : 2 ≤ ⌊(b - a) * 144⌋₊ := by
    apply Nat.le_floor
    norm_num
    linarith
  have hn' : (2 : ℝ) ≤ ⌊(b - a) * 144⌋₊ := by exact_mod_cast hn
  have hfl : (b - a) * 144 < ⌊(b - a) * 144⌋₊ + 1 := Nat.lt_floor_add_one _
  set N : ℕ := ⌊(b - a) * 144⌋₊
  set h := (b - a) / ((N : ℝ) - 1) with hh
  have h0 : 0 < h := div_pos (by linarith) (by linarith)
  unfold FlareCollection.integrals
  rw [times_eq hlt.le]
  refine ⟨_, h, rfl, ?_, h0, ?_, ?_⟩
  · rw [hh]; exact div_mul_cancel₀ _ (by linarith)
  · rw [hh, div_lt_iff₀ (by linarith)]
    linarith
  rw [List.forall₂_map_right_iff, List.forall₂_same]
  intro f hf
  obtain ⟨⟨e, he, he0⟩, hw, hT⟩ := hphys f (visible_mem hf)
  obtain ⟨A, hA0, -, hA, hpk, -⟩ := C42_curve_shape.2 f e he he0 hw hT
  have hcurve := areaAt_fin hA hw
  refine ⟨rfl, A, _, _, hpk, hcurve, timearea_fin hcurve _, ?_, ?_, ?_⟩
  all_goals
    obtain ⟨l, hl, hlast⟩ := linspace_ends (a := a) (b := b) hn
    have hg := linspace_gaps hlt.le hn
    have hmono := linspace_pairwise_le hlt.le N
    change Gaps h _ at hg
    change _ = a :: l at hl
    simp only [N] at hl
    rw [hl] at hg hmono
    change Np.linspace a b N = _ at hl
    rw [hl]
  · refine trapzR_nonneg ?_ hmono
    intro y hy
    obtain ⟨t, -, rfl⟩ := List.mem_map.mp hy
    exact mul_nonneg (template_bounds _).1 hA0
  · have key : 0 ≤ trapzR ((a :: l).map fun t => A + template ((t - f.tpeak) / f.fwhm) * A * (-1) - 0) (a :: l) := by
      refine trapzR_nonneg ?_ hmono
      intro y hy
      obtain ⟨t, -, rfl⟩ := List.mem_map.mp hy
      have := (template_bounds ((t - f.tpeak) / f.fwhm)).2
      nlinarith
    rw [trapzR_add (fun _ => A) (fun t => template ((t - f.tpeak) / f.fwhm) * A * (-1)) 0, trapzR_const, trapzR_const,
      trapzR_mul, hlast] at key
    linarith
  · have hup : MonotoneOn (fun t => template ((t - f.tpeak) / f.fwhm) * A) (Set.Iic f.tpeak) := by
      intro x hx y hy hxy
      refine mul_le_mul_of_nonneg_right (template_unimodal.1 ?_ ?_ ?_) hA0
      · exact Set.mem_Iic.mpr (div_nonpos_of_nonpos_of_nonneg (by linarith [Set.mem_Iic.mp hx]) hw.le)
      · exact Set.mem_Iic.mpr (div_nonpos_of_nonpos_of_nonneg (by linarith [Set.mem_Iic.mp hy]) hw.le)
      · exact div_le_div_of_nonneg_right (by linarith) hw.le
    have hdown : AntitoneOn (fun t => template ((t - f.tpeak) / f.fwhm) * A) (Set.Ici f.tpeak) := by
      intro x hx y hy hxy
      refine mul_le_mul_of_nonneg_right (template_unimodal.2 ?_ ?_ ?_) hA0
      · exact Set.mem_Ici.mpr (div_nonneg (by linarith [Set.mem_Ici.mp hx]) hw.le)
      · exact Set.mem_Ici.mpr (div_nonneg (by linarith [Set.mem_Ici.mp hy]) hw.le)
      · exact div_le_div_of_nonneg_right (by linarith) hw.le
    have := trapz_unimodal hup hdown (fun t => mul_nonneg (template_bounds _).1 hA0) h0.le a l hg
    rw [hlast] at this
    simpa [template_zero, mul_comm] using this

/-- Non-trivial instance of C72: the sample flare over one day, sampled every 10.07 minutes. -/
example : ∃ x h : ℝ, (FlareCollection.new [sampleFlare]).integrals 0 1 0 0 = .ok [(9000, .fin x)] ∧ h * 143 = 1 := by
  obtain ⟨l, h, h1, h2, -, -, h3⟩ := C72_timearea_accuracy (FlareCollection.new [sampleFlare]) 0 1 0 0 (by norm_num) (by
    intro f hf
    simp only [FlareCollection.new, List.mem_singleton] at hf
    subst hf
    exact ⟨⟨1, rfl, by norm_num⟩, by norm_num [sampleFlare], by norm_num [sampleFlare]⟩)
  rw [sampleFlare_visible (by norm_num)] at h3
  obtain ⟨entry, l', ⟨e1, A, x, area, -, -, e2, -⟩, h4, rfl⟩ := List.forall₂_cons_left_iff.mp h3
  rw [List.forall₂_nil_left_iff] at h4
  subst h4
  refine ⟨x, h, ?_, ?_⟩
  · rw [h1]
    obtain ⟨p, q⟩ := entry
    simp only at e1 e2
    rw [e1, e2]
    rfl
  · have : (⌊(1 - 0 : ℝ) / (10 / (24 * 60))⌋₊ : ℝ) = 144 := by norm_num
    rw [this] at h2
    linarith

/-! ## C73 -/

theorem zipFlares_maps : ∀ (n : ℕ) (fs : List ℝ) (es : List Fl) (las los tes ts : List ℝ), fs.length = n →
    es.length = n → las.length = n → los.length = n → tes.length = n → ts.length = n →
    let l := FlareGenerator.zipFlares fs es las los tes ts
    l.map (·.fwhm) = fs ∧ l.map (·.energy) = es ∧ l.map (·.lat) = las ∧ l.map (·.lon) = los ∧ l.map (·.teff) = tes ∧
      l.map (·.tpeak) = ts := by
  intro n
  induction n with
  | zero =>
    intro fs es las los tes ts h1 h2 h3 h4 h5 h6
    rw [List.length_eq_zero_iff] at h1 h2 h3 h4 h5 h6
    subst h1 h2 h3 h4 h5 h6
    simp [FlareGenerator.zipFlares]
  | succ n ih =>
    intro fs es las los tes ts h1 h2 h3 h4 h5 h6
    obtain ⟨f, fs, rfl⟩ := List.exists_cons_of_length_eq_add_one h1
    obtain ⟨e, es, rfl⟩ := List.exists_cons_of_length_eq_add_one h2
    obtain ⟨la, las, rfl⟩ := List.exists_cons_of_length_eq_add_one h3
    obtain ⟨lo, los, rfl⟩ := List.exists_cons_of_length_eq_add_one h4
    obtain ⟨te, tes, rfl⟩ := List.exists_cons_of_length_eq_add_one h5
    obtain ⟨t, ts, rfl⟩ := List.exists_cons_of_length_eq_add_one h6
    simp only [List.length_cons, Nat.add_right_cancel_iff] at h1 h2 h3 h4 h5 h6
    obtain ⟨k1, k2, k3, k4, k5, k6⟩ := ih fs es las los tes ts h1 h2 h3 h4 h5 h6
    simp only [FlareGenerator.zipFlares, List.map_cons, k1, k2, k3, k4, k5, k6, and_self]

theorem zipFlares_scale (g : ℝ → ℝ) : ∀ (fs : List ℝ) (es : List Fl) (las los tes ts : List ℝ),
    FlareGenerator.zipFlares fs es las los tes (ts.map g) =
      (FlareGenerator.zipFlares fs es las los tes ts).map fun f => { f with tpeak := g f.tpeak } := by
  intro fs
  induction fs with
  | nil => intro es las los tes ts; simp [FlareGenerator.zipFlares]
  | cons f fs ih =>
    intro es las los tes ts
    cases es with
    | nil => simp [FlareGenerator.zipFlares]
    | cons e es =>
    cases las with
    | nil => simp [FlareGenerator.zipFlares]
    | cons la las =>
    cases los with
    | nil => simp [FlareGenerator.zipFlares]
    | cons lo los =>
    cases tes with
    | nil => simp [FlareGenerator.zipFlares]
    | cons te tes =>
    cases ts with
    | nil => simp [FlareGenerator.zipFlares]
    | cons t ts =>
      simp only [List.map_cons, FlareGenerator.zipFlares, ih]

/-- What `generate_flare_series` computes for a positive duration. -/
theorem series_eq (G : FlareGenerator) (m c t : ℝ) (k : ℕ) (hk : k ≠ 0) (d : (n : ℕ) → FlareDraws n)
    (hm : G.minEnergy = .fin m) (hm0 : 0 < m) (ha : G.alpha < 0) (hc : G.clusterSize = .fin c) (hc0 : 0 ≤ c)
    (hsw : 0 ≤ G.fwhmLogsigma) (hst : 0 ≤ G.teffSigma) (ht : 0 < t) :
    ∃ pk : List ℝ, G.getPeaks k (d k).clusters (d k).expo = .ok pk ∧ pk.length = k ∧ pk.Pairwise (· ≤ ·) ∧
      G.series t k d = .ok (FlareGenerator.zipFlares
        (List.ofFn fun i => (10 : ℝ) ^ (logb 10 G.fwhmMean + G.fwhmLogsigma * (d k).zF i))
        (List.ofFn fun i => .fin (m * (1 - ((d k).uE i : ℝ)) ^ (1 / G.alpha)))
        (List.ofFn fun i => FlareGenerator.drawLat ((d k).uLat i)) (List.ofFn fun i => FlareGenerator.drawLon ((d k).uLon i))
        (List.ofFn fun i => G.teffMean + G.teffSigma * (d k).zT i) (pk.map (· * t))) := by
  have hp : Np.poisson (G.nTotal t) k = .ok k := by
    have : 0 < (10 : ℝ) ^ G.beta * m ^ G.alpha * t := by positivity
    unfold FlareGenerator.nTotal
    rw [hm, nexp_fin G hm0]
    unfold Np.poisson
    simp only
    rw [if_neg (not_lt.mpr this.le), if_neg this.ne']
  obtain ⟨pk, hp1, hp2, -, hp4⟩ := C46_peaks G c hc hc0 k (by omega) (d k).clusters (d k).expo
  refine ⟨pk, hp1, hp2, hp4, ?_⟩
  have hq : G.quantile (List.ofFn fun i => ((d k).uE i : ℝ)) =
      .ok (List.ofFn fun i => .fin (m * (1 - ((d k).uE i : ℝ)) ^ (1 / G.alpha))) := by
    unfold FlareGenerator.quantile
    rw [if_neg, if_neg ha.ne, List.map_ofFn]
    · congr 1
      apply congrArg
      funext i
      exact quantile_fin hm ((d k).uE i).2.2
    · rw [not_not]
      constructor <;>
      · intro x hx
        rw [List.mem_ofFn] at hx
        obtain ⟨i, rfl⟩ := hx
        first | exact ((d k).uE i).2.1 | exact ((d k).uE i).2.2
  unfold FlareGenerator.series
  rw [hp]
  simp only [bind, Except.bind, pure, Except.pure]
  rw [if_neg hk, hq]
  simp only [hp1, FlareGenerator.genFwhm, FlareGenerator.genTeffs]
  rw [if_neg (not_lt.mpr hsw), if_neg (not_lt.mpr hst)]

/-- **C73** For a positive duration the flares come in order of their peak times, each with the temperature
`mean + sigma × draw` and the width `mean × 10^(logsigma × draw)`; with the same random draws another duration gives the
same flares with all peak times stretched by the ratio of the durations. -/
theorem C73_series_order (G : FlareGenerator) (m c t t' : ℝ) (k : ℕ) (d : (n : ℕ) → FlareDraws n)
    (hm : G.minEnergy = .fin m) (hm0 : 0 < m) (ha : G.alpha < 0) (hc : G.clusterSize = .fin c) (hc0 : 0 ≤ c)
    (hw : 0 < G.fwhmMean) (hsw : 0 ≤ G.fwhmLogsigma) (hst : 0 ≤ G.teffSigma) (ht : 0 < t) (ht' : 0 < t') :
    ∃ l, G.series t k d = .ok l ∧ l.Pairwise (fun f g => f.tpeak ≤ g.tpeak) ∧
      l.map (·.teff) = List.ofFn (fun i => G.teffMean + G.teffSigma * (d k).zT i) ∧
      l.map (·.fwhm) = List.ofFn (fun i => G.fwhmMean * (10 : ℝ) ^ (G.fwhmLogsigma * (d k).zF i)) ∧
      G.series t' k d = .ok (l.map fun f => { f with tpeak := f.tpeak * (t' / t) }) := by
  by_cases hk : k = 0
  · subst hk
    have h0 : ∀ u : ℝ, 0 < u → G.series u 0 d = .ok [] := by
      intro u hu
      obtain ⟨l, h1, h2, -⟩ := (C51_series.2 G m c u 0 d hm hm0 ha hc hc0 hw hsw hst).2.2 hu
      rw [h1, List.length_eq_zero_iff.mp h2]
    exact ⟨[], h0 t ht, by simp, by simp, by simp, by simpa using h0 t' ht'⟩
  obtain ⟨pk, hp, hl, hs, e⟩ := series_eq G m c t k hk d hm hm0 ha hc hc0 hsw hst ht
  obtain ⟨pk', hp', -, -, e'⟩ := series_eq G m c t' k hk d hm hm0 ha hc hc0 hsw hst ht'
  rw [hp, Except.ok.injEq] at hp'
  subst hp'
  obtain ⟨m1, -, -, -, m5, m6⟩ := zipFlares_maps k
    (List.ofFn fun i => (10 : ℝ) ^ (logb 10 G.fwhmMean + G.fwhmLogsigma * (d k).zF i))
    (List.ofFn fun i => .fin (m * (1 - ((d k).uE i : ℝ)) ^ (1 / G.alpha)))
    (List.ofFn fun i => FlareGenerator.drawLat ((d k).uLat i)) (List.ofFn fun i => FlareGenerator.drawLon ((d k).uLon i))
    (List.ofFn fun i => G.teffMean + G.teffSigma * (d k).zT i) (pk.map (· * t))
    (by simp) (by simp) (by simp) (by simp) (by simp) (by simp [hl])
  refine ⟨_, e, ?_, m5, ?_, ?_⟩
  · rw [← List.pairwise_map (f := fun f : StellarFlare => f.tpeak), m6, List.pairwise_map]
    exact hs.imp fun h => mul_le_mul_of_nonneg_right h ht.le
  · rw [m1]
    congr 1
    funext i
    rw [rpow_add (by norm_num), rpow_logb (by norm_num) (by norm_num) hw]
  · have hx : (pk.map (· * t)).map (fun x => x * (t' / t)) = pk.map (· * t') := by
      rw [List.map_map]
      apply List.map_congr_left
      intro x _
      simp only [Function.comp]
      field_simp
    rw [e', ← hx, zipFlares_scale (fun x => x * (t' / t))]

/-- Non-trivial instance of C73: with two flares the second one never peaks first. -/
example (d : (n : ℕ) → FlareDraws n) : ∃ f g, sampleFlareGen.series 3 2 d = .ok [f, g] ∧ f.tpeak ≤ g.tpeak := by
  obtain ⟨l, h1, h2, h3, -⟩ := C73_series_order sampleFlareGen 10 2 3 1 2 d rfl (by norm_num) (by norm_num [sampleFlareGen])
    rfl (by norm_num) (by norm_num [sampleFlareGen]) (by norm_num [sampleFlareGen]) (by norm_num [sampleFlareGen])
    (by norm_num) (by norm_num)
  have hl : l.length = 2 := by simpa using congrArg List.length h3
  obtain ⟨f, g, rfl⟩ := List.length_eq_two.mp hl
  exact ⟨f, g, h1, (List.pairwise_cons.mp h2).1 g (by simp)⟩

/-! ## C74 -/

theorem waitingTimes_sum {ts lo hi : ℝ} (hts : 0 ≤ ts) (sizes : List ℕ) (hpos : ∀ c ∈ sizes, 0 < c)
    (e : ℕ → Set.Ici (0 : ℝ)) (hlo : ∀ i, lo ≤ (e i : ℝ)) (hhi : ∀ i, (e i : ℝ) ≤ hi) :
    ts * sizes.length * lo ≤ (FlareGenerator.waitingTimes ts sizes e).sum ∧
    (FlareGenerator.waitingTimes ts sizes e).sum ≤ ts * sizes.length * (3 / 2 * hi) := by
  induction sizes generalizing e with
  | nil => simp [FlareGenerator.waitingTimes]
  | cons c l ih =>
    obtain ⟨h1, h2⟩ := ih (fun x hx => hpos x (by simp [hx])) (fun i => e (i + (1 + (c - 1)))) (fun i => hlo _)
      (fun i => hhi _)
    have hc := hpos c (by simp)
    have hc' : (1 : ℝ) ≤ c := by exact_mod_cast hc
    have hhi0 : 0 ≤ hi := le_trans (e 0).2 (hhi 0)
    have hcl : ts * lo ≤ (FlareGenerator.clusterTimes ts c e).sum ∧
        (FlareGenerator.clusterTimes ts c e).sum ≤ ts * (3 / 2 * hi) := by
      unfold FlareGenerator.clusterTimes
      rw [Nat.add_comm, List.range_succ_eq_map, List.map_cons, List.sum_cons, List.map_map]
      simp only [if_true]
      set r := ((List.range (c - 1)).map ((fun i => if i = 0 then ts * (e 0 : ℝ) else ts / c / 2 * (e i : ℝ)) ∘ Nat.succ))
      have r0 : 0 ≤ r.sum := by
        refine List.sum_nonneg fun x hx => ?_
        simp only [r, List.mem_map, Function.comp] at hx
        obtain ⟨i, -, rfl⟩ := hx
        rw [if_neg (Nat.succ_ne_zero i)]
        have := (e i.succ).2
        exact mul_nonneg (by positivity) this
      have r1 : r.sum ≤ r.length • (ts / c / 2 * hi) := by
        refine List.sum_le_card_nsmul _ _ fun x hx => ?_
        simp only [r, List.mem_map, Function.comp] at hx
        obtain ⟨i, -, rfl⟩ := hx
        rw [if_neg (Nat.succ_ne_zero i)]
        exact mul_le_mul_of_nonneg_left (hhi _) (by positivity)
      have rl : r.length = c - 1 := by simp [r]
      rw [rl, nsmul_eq_mul, Nat.cast_sub hc, Nat.cast_one] at r1
      have r2 : ((c : ℝ) - 1) * (ts / c / 2 * hi) ≤ ts * hi / 2 := by
        have : ((c : ℝ) - 1) * (ts / c / 2 * hi) = ts * hi / 2 * (((c : ℝ) - 1) / c) := by ring
        rw [this]
        have h3 : ((c : ℝ) - 1) / c ≤ 1 := by rw [div_le_one (by linarith)]; linarith
        exact mul_le_of_le_one_right (by positivity) h3
      have e1 := mul_le_mul_of_nonneg_left (hlo 0) hts
      have e2 := mul_le_mul_of_nonneg_left (hhi 0) hts
      constructor <;> linarith
    simp only [FlareGenerator.waitingTimes, List.sum_append, List.length_cons, Nat.cast_add, Nat.cast_one]
    constructor <;> nlinarith [hcl.1, hcl.2]

theorem cumsumFrom_le {acc : ℝ} {l : List ℝ} (h : ∀ x ∈ l, 0 ≤ x) :
    (∀ y ∈ Np.cumsumFrom acc l, y ≤ acc + l.sum) ∧ (l ≠ [] → acc + l.sum ∈ Np.cumsumFrom acc l) := by
  induction l generalizing acc with
  | nil => simp [Np.cumsumFrom]
  | cons x l ih =>
    obtain ⟨h1, h2⟩ := @ih (acc + x) (fun y hy => h y (by simp [hy]))
    have hs : 0 ≤ l.sum := List.sum_nonneg fun y hy => h y (by simp [hy])
    constructor
    · intro y hy
      rw [Np.cumsumFrom] at hy
      rw [List.sum_cons, ← add_assoc]
      rcases List.mem_cons.mp hy with rfl | hy
      · linarith
      · exact h1 y hy
    · intro _
      rw [Np.cumsumFrom, List.sum_cons, ← add_assoc]
      by_cases hl : l = []
      · subst hl; simp
      · exact List.mem_cons_of_mem _ (h2 hl)

/-- Range of the peak times in terms of the unit exponential draws. -/
theorem peaks_range (G : FlareGenerator) (c : ℝ) (hc : G.clusterSize = .fin c) (hc0 : 0 ≤ c) (n : ℕ) (hn : 1 ≤ n)
    (raw : Fin n → ℕ) (e : ℕ → Set.Ici (0 : ℝ)) (lo hi : ℝ) (hlo : ∀ i, lo ≤ (e i : ℝ)) (hhi : ∀ i, (e i : ℝ) ≤ hi) :
    ∃ l, G.getPeaks n raw e = .ok l ∧ (∀ t ∈ l, 0 ≤ t ∧ t ≤ 3 / 2 * hi) ∧ ∃ t ∈ l, lo ≤ t := by
  unfold FlareGenerator.getPeaks
  rw [hc]
  obtain ⟨draws, hd⟩ := mapM_poisson hc0 (List.ofFn raw)
  rw [hd]
  obtain ⟨h1, h2, h3⟩ := clusterSizes_spec hn draws
  simp only [bind, Except.bind]
  rw [if_neg (not_not.mpr h1), if_neg h3.ne']
  set sizes := FlareGenerator.clusterSizes n draws
  have hlen : (0 : ℝ) < sizes.length := by exact_mod_cast h3
  have hts : (0 : ℝ) ≤ 1 / (sizes.length : ℝ) := by positivity
  obtain ⟨w1, w2⟩ := waitingTimes_spec hts sizes h2 e
  obtain ⟨s1, s2⟩ := waitingTimes_sum hts sizes h2 e hlo hhi
  have hone : 1 / (sizes.length : ℝ) * sizes.length = 1 := by field_simp
  rw [hone, one_mul] at s1 s2
  obtain ⟨c1, c2⟩ := cumsumFrom_le (acc := 0) w2
  refine ⟨_, rfl, ?_, ?_⟩
  · intro t ht
    refine ⟨(cumsumFrom_ge w2).1 t ht, ?_⟩
    have := c1 t ht
    linarith
  · have hne : FlareGenerator.waitingTimes (1 / (sizes.length : ℝ)) sizes e ≠ [] := by
      intro h
      rw [h, h1] at w1
      simp at w1
      omega
    exact ⟨_, c2 hne, by linarith⟩

/-- **C74** (partial) The flares of a series peak between time zero and one and a half observation times the
largest unit exponential draw; so they all lie within the observation if no draw exceeds 2/3.  Missing: the
unconditional claim, refuted by `C74_counterexample`. -/
theorem C74_within_partial (G : FlareGenerator) (m c t hi : ℝ) (k : ℕ) (d : (n : ℕ) → FlareDraws n)
    (hm : G.minEnergy = .fin m) (hm0 : 0 < m) (ha : G.alpha < 0) (hc : G.clusterSize = .fin c) (hc0 : 0 ≤ c)
    (hw : 0 < G.fwhmMean) (hsw : 0 ≤ G.fwhmLogsigma) (hst : 0 ≤ G.teffSigma) (ht : 0 < t)
    (hhi : ∀ i, ((d k).expo i : ℝ) ≤ hi) :
    ∃ l, G.series t k d = .ok l ∧ (∀ f ∈ l, 0 ≤ f.tpeak ∧ f.tpeak ≤ 3 / 2 * hi * t) ∧
      (hi ≤ 2 / 3 → ∀ f ∈ l, f.tpeak ≤ t) := by
  have main : ∃ l, G.series t k d = .ok l ∧ (∀ f ∈ l, 0 ≤ f.tpeak ∧ f.tpeak ≤ 3 / 2 * hi * t) := by
    by_cases hk : k = 0
    · subst hk
      obtain ⟨l, h1, h2, -⟩ := (C51_series.2 G m c t 0 d hm hm0 ha hc hc0 hw hsw hst).2.2 ht
      rw [List.length_eq_zero_iff.mp h2] at h1
      exact ⟨[], h1, by simp⟩
    obtain ⟨pk, hp, hl, hs, e⟩ := series_eq G m c t k hk d hm hm0 ha hc hc0 hsw hst ht
    obtain ⟨pk', hp', h1, -⟩ := peaks_range G c hc hc0 k (by omega) (d k).clusters (d k).expo 0 hi (fun i => ((d k).expo i).2) hhi
    rw [hp, Except.ok.injEq] at hp'
    subst hp'
    refine ⟨_, e, fun f hf => ?_⟩
    have := (zipFlares_spec k _ _ _ _ _ _ (by simp) (by simp) (by simp) (by simp) (by simp) (by simp [hl])).2 f hf
    obtain ⟨x, hx, hx'⟩ := List.mem_map.mp this.2.2.2.2.2
    rw [← hx']
    exact ⟨mul_nonneg (h1 x hx).1 ht.le, mul_le_mul_of_nonneg_right (h1 x hx).2 ht.le⟩
  obtain ⟨l, h1, h2⟩ := main
  exact ⟨l, h1, h2, fun h f hf => (h2 f hf).2.trans (by nlinarith)⟩

/-- The full statement of C74 is false of the code for every generator, duration and number of flares: whenever all
unit exponential draws exceed their mean 1 some flare peaks after the end of the observation, and if all of them equal their
mean the last flare peaks no earlier than the end. -/
theorem C74_counterexample (G : FlareGenerator) (m c t : ℝ) (k : ℕ) (hk : k ≠ 0) (d : (n : ℕ) → FlareDraws n)
    (hm : G.minEnergy = .fin m) (hm0 : 0 < m) (ha : G.alpha < 0) (hc : G.clusterSize = .fin c) (hc0 : 0 ≤ c)
    (hsw : 0 ≤ G.fwhmLogsigma) (hst : 0 ≤ G.teffSigma) (ht : 0 < t) (r : ℝ) (hr : ∀ i, ((d k).expo i : ℝ) = r) :
    ∃ l, G.series t k d = .ok l ∧ (1 < r → ∃ f ∈ l, t < f.tpeak) ∧ (r = 1 → ∃ f ∈ l, t ≤ f.tpeak) := by
  obtain ⟨pk, hp, hl, hs, e⟩ := series_eq G m c t k hk d hm hm0 ha hc hc0 hsw hst ht
  obtain ⟨pk', hp', -, x, hx, hxr⟩ := peaks_range G c hc hc0 k (by omega) (d k).clusters (d k).expo r r
    (fun i => (hr i).ge) (fun i => (hr i).le)
  rw [hp, Except.ok.injEq] at hp'
  subst hp'
  obtain ⟨-, -, -, -, -, m6⟩ := zipFlares_maps k
    (List.ofFn fun i => (10 : ℝ) ^ (logb 10 G.fwhmMean + G.fwhmLogsigma * (d k).zF i))
    (List.ofFn fun i => .fin (m * (1 - ((d k).uE i : ℝ)) ^ (1 / G.alpha)))
    (List.ofFn fun i => FlareGenerator.drawLat ((d k).uLat i)) (List.ofFn fun i => FlareGenerator.drawLon ((d k).uLon i))
    (List.ofFn fun i => G.teffMean + G.teffSigma * (d k).zT i) (pk.map (· * t))
    (by simp) (by simp) (by simp) (by simp) (by simp) (by simp [hl])
  have hmem : x * t ∈ pk.map (· * t) := List.mem_map_of_mem hx
  rw [← m6, List.mem_map] at hmem
  obtain ⟨f, hf, hft⟩ := hmem
  refine ⟨_, e, fun h => ⟨f, hf, ?_⟩, fun h => ⟨f, hf, ?_⟩⟩
  · rw [hft]; nlinarith
  · rw [hft]; nlinarith

/-- Draws used in the example: all unit exponentials are 2. -/
def Spec.lateDraws (n : ℕ) : FlareDraws n :=
  { uE := fun _ => ⟨0, by norm_num⟩, clusters := fun _ => 1, expo := fun _ => ⟨2, by norm_num⟩, zF := fun _ => 0
    zT := fun _ => 0, uLon := fun _ => ⟨0, by norm_num⟩, uLat := fun _ => ⟨0, by norm_num⟩ }

/-- Non-trivial instance of C74: three flares drawn for one day, one of them after the day has ended. -/
example : ∃ l, sampleFlareGen.series 1 3 lateDraws = .ok l ∧ ∃ f ∈ l, 1 < f.tpeak := by
  obtain ⟨l, h1, h2, -⟩ := C74_counterexample sampleFlareGen 10 2 1 3 (by norm_num) lateDraws rfl (by norm_num)
    (by norm_num [sampleFlareGen]) rfl (by norm_num) (by norm_num [sampleFlareGen]) (by norm_num [sampleFlareGen])
    (by norm_num) 2 (fun _ => rfl)
  exact ⟨l, h1, h2 (by norm_num)⟩

/-! ## C75 -/

/-- The instantaneous light curve of flares with real amplitudes (spec): each flare contributes its amplitude times
the template shape of its scaled time. -/
def Spec.curve (flares : List (ℝ × ℝ × ℝ)) (t : ℝ) : ℝ :=
  (flares.map fun f => f.2.2 * template ((t - f.1) / f.2.1)).sum

/-- The code's flare list for real amplitudes. -/
def Spec.realFlares (flares : List (ℝ × ℝ × ℝ)) : List (ℝ × ℝ × Fl) := flares.map fun f => (f.1, f.2.1, .fin f.2.2)

theorem multi_curve (flares : List (ℝ × ℝ × ℝ)) (h : ∀ f ∈ flares, 0 < f.2.1) (t : ℝ) :
    Xoflares.multiFlareModel t (realFlares flares) = .fin (curve flares t) := by
  have := lightCurve_sum t (realFlares flares)
  unfold Xoflares.lightCurve at this
  rw [this, realFlares, List.map_map]
  have e : flares.map ((fun f : ℝ × ℝ × Fl => Xoflares.flareModel t f.1 f.2.1 f.2.2) ∘ fun f => (f.1, f.2.1, Fl.fin f.2.2)) =
      (flares.map fun f => f.2.2 * template ((t - f.1) / f.2.1)).map Fl.fin := by
    rw [List.map_map]
    apply List.map_congr_left
    intro f hf
    simp only [Function.comp]
    rw [flareModel_fin (h f hf), mul_comm]
  rw [e, Fl.list_sum_fin]
  rfl

theorem oversample_odd (k : ℕ) : ∃ j, k + (1 - k % 2) = 2 * j + 1 ∧ (2 ≤ k → 1 ≤ j) := by
  refine ⟨k / 2, ?_, ?_⟩ <;> omega

theorem exp_curve (flares : List (ℝ × ℝ × ℝ)) (h : ∀ f ∈ flares, 0 < f.2.1) (time texp : ℝ) (k : ℕ) :
    Xoflares.lightCurveExp time texp k (realFlares flares) =
      .fin (((Np.linspace (-texp / 2) (texp / 2) (k + (1 - k % 2))).map fun dt => curve flares (dt + time)).sum /
        ((k + (1 - k % 2) : ℕ) : ℝ)) := by
  obtain ⟨j, hj, -⟩ := oversample_odd k
  unfold Xoflares.lightCurveExp
  simp only [hj]
  have e : (Np.linspace (-texp / 2) (texp / 2) (2 * j + 1)).map
        (fun dt => Xoflares.multiFlareModel (dt + time) (realFlares flares)) =
      ((Np.linspace (-texp / 2) (texp / 2) (2 * j + 1)).map fun dt => curve flares (dt + time)).map Fl.fin := by
    rw [List.map_map]
    apply List.map_congr_left
    intro dt _
    simp only [Function.comp]
    exact multi_curve flares h _
  rw [e, Fl.list_sum_fin, Fl.fin_div (by positivity)]

theorem sum_range_symm (f : ℕ → ℝ) (j : ℕ) :
    ((List.range (2 * j + 1)).map f).sum = f j + ((List.range j).map fun i => f (j + (i + 1)) + f (j - (i + 1))).sum := by
  induction j generalizing f with
  | zero => simp
  | succ j ih =>
    have h := ih fun i => f (i + 1)
    have e : 2 * (j + 1) + 1 = (2 * j + 1 + 1) + 1 := by ring
    rw [e, List.range_succ_eq_map, List.map_cons, List.sum_cons, List.map_map, List.range_succ (n := 2 * j + 1),
      List.map_append, List.sum_append, List.range_succ (n := j), List.map_append, List.sum_append]
    simp only [Function.comp, Nat.succ_eq_add_one, List.map_cons, List.map_nil, List.sum_cons, List.sum_nil, add_zero]
    have e2 : ((List.range j).map fun i => f (j + 1 + (i + 1)) + f (j + 1 - (i + 1))).sum =
        ((List.range j).map fun i => f (j + (i + 1) + 1) + f (j - (i + 1) + 1)).sum := by
      congr 1
      apply List.map_congr_left
      intro i hi
      have := List.mem_range.mp hi
      rw [show j + 1 + (i + 1) = j + (i + 1) + 1 by ring, show j + 1 - (i + 1) = j - (i + 1) + 1 by omega]
    have h' : (List.map (f ∘ Nat.succ) (List.range (2 * j + 1))).sum = _ := h
    rw [e2, h', show j + 1 + (j + 1) = 2 * j + 1 + 1 by ring, Nat.sub_self]
    ring

/-- **C75** The exposure-averaged light curve of flares with real amplitudes and positive widths: it is a real number
between any bounds of the instantaneous curve over the exposure, equals the instantaneous curve for a zero exposure
time, is additive in the flares, and (for at least two requested sub-samples) is the mean over an odd number of
evenly spaced instants symmetric about the nominal time, which span exactly the exposure. -/
theorem C75_exposure (flares : List (ℝ × ℝ × ℝ)) (hw : ∀ f ∈ flares, 0 < f.2.1) (time texp : ℝ) (k : ℕ) (ht : 0 ≤ texp) :
    ∃ v : ℝ, Xoflares.lightCurveExp time texp k (realFlares flares) = .fin v ∧
      (∀ lo hi, (∀ t, time - texp / 2 ≤ t → t ≤ time + texp / 2 → lo ≤ curve flares t ∧ curve flares t ≤ hi) →
        lo ≤ v ∧ v ≤ hi) ∧
      (texp = 0 → v = curve flares time) ∧
      (∀ more, (∀ f ∈ more, 0 < f.2.1) → ∃ u, Xoflares.lightCurveExp time texp k (realFlares more) = .fin u ∧
        Xoflares.lightCurveExp time texp k (realFlares (flares ++ more)) = .fin (v + u)) ∧
      (2 ≤ k → ∃ j δ, 1 ≤ j ∧ (2 * j + 1 = k ∨ 2 * j + 1 = k + 1) ∧ j * δ = texp / 2 ∧
        v = (curve flares time + ((List.range j).map fun i =>
          curve flares (time + ((i + 1 : ℕ) : ℝ) * δ) + curve flares (time - ((i + 1 : ℕ) : ℝ) * δ)).sum) / ((2 * j + 1 : ℕ) : ℝ)) := by
  obtain ⟨j, hj, hj1⟩ := oversample_odd k
  have hn : (0 : ℝ) < ((2 * j + 1 : ℕ) : ℝ) := by positivity
  refine ⟨_, exp_curve flares hw time texp k, ?_, ?_, ?_, ?_⟩
  · intro lo hi hb
    rw [hj]
    have hmem : ∀ y ∈ (Np.linspace (-texp / 2) (texp / 2) (2 * j + 1)).map (fun dt => curve flares (dt + time)),
        lo ≤ y ∧ y ≤ hi := by
      intro y hy
      obtain ⟨dt, hdt, rfl⟩ := List.mem_map.mp hy
      obtain ⟨h1, h2⟩ := linspace_mem (by linarith) hdt
      exact hb _ (by linarith) (by linarith)
    have hl : ((Np.linspace (-texp / 2) (texp / 2) (2 * j + 1)).map (fun dt => curve flares (dt + time))).length = 2 * j + 1 := by
      rw [List.length_map, linspace_length]
    have h1 := List.card_nsmul_le_sum _ lo fun y hy => (hmem y hy).1
    have h2 := List.sum_le_card_nsmul _ hi fun y hy => (hmem y hy).2
    rw [hl, nsmul_eq_mul] at h1 h2
    rw [le_div_iff₀ hn, div_le_iff₀ hn]
    constructor <;> linarith
  · rintro rfl
    rw [hj]
    have e : (Np.linspace (-0 / 2) (0 / 2) (2 * j + 1)).map (fun dt => curve flares (dt + time)) =
        List.replicate (2 * j + 1) (curve flares time) := by
      rw [List.eq_replicate_iff]
      refine ⟨by rw [List.length_map, linspace_length], fun y hy => ?_⟩
      obtain ⟨dt, hdt, rfl⟩ := List.mem_map.mp hy
      obtain ⟨h1, h2⟩ := linspace_mem (by norm_num) hdt
      have : dt = 0 := by linarith
      rw [this, zero_add]
    rw [e, List.sum_replicate, nsmul_eq_mul]
    field_simp
  · intro more hm
    refine ⟨_, exp_curve more hm time texp k, ?_⟩
    rw [exp_curve (flares ++ more) (by intro f hf; rcases List.mem_append.mp hf with h | h; exacts [hw f h, hm f h]),
      ← add_div, ← List.sum_map_add]
    congr 5
    funext dt
    simp only [curve, List.map_append, List.sum_append]
  · intro hk
    have hj0 := hj1 hk
    have hj' : (0 : ℝ) < j := by exact_mod_cast hj0
    refine ⟨j, texp / 2 / j, hj0, by omega, by field_simp, ?_⟩
    rw [hj, Np.linspace, List.map_map, sum_range_symm]
    have e : ∀ i : ℕ, ((fun dt => curve flares (dt + time)) ∘ Np.linspaceAt (-texp / 2) (texp / 2) (2 * j + 1)) i =
        curve flares (time + ((i : ℝ) - j) * (texp / 2 / j)) := by
      intro i
      simp only [Function.comp, Np.linspaceAt]
      rw [if_neg (by omega)]
      congr 1
      push_cast
      field_simp
      ring
    simp only [e]
    congr 2
    · rw [sub_self, zero_mul, add_zero]
    · congr 1
      apply List.map_congr_left
      intro i hi
      have := List.mem_range.mp hi
      rw [Nat.cast_add, Nat.cast_sub (by omega)]
      congr 2
      · ring
      · ring

/-- With a single sub-sample requested the code evaluates the curve at the *start* of the exposure, not at its
middle. -/
theorem C75_one_sample (flares : List (ℝ × ℝ × ℝ)) (hw : ∀ f ∈ flares, 0 < f.2.1) (time texp : ℝ) :
    Xoflares.lightCurveExp time texp 1 (realFlares flares) = .fin (curve flares (time - texp / 2)) := by
  rw [exp_curve flares hw]
  simp [Np.linspace, Np.linspaceAt, neg_div, sub_eq_neg_add]

/-- Non-trivial instance of C75: one unit flare peaking at time 0; its mean over an exposure far before the flare is zero, and with
one sub-sample an exposure centred at 0.5 reports the value at its start. -/
example : Xoflares.lightCurveExp (-5) 1 7 (realFlares [(0, 1, 1)]) = .fin 0 ∧
    Xoflares.lightCurveExp 0.5 1 1 (realFlares [(0, 1, 1)]) = .fin 1 := by
  have hw : ∀ f ∈ [((0 : ℝ), (1 : ℝ), (1 : ℝ))], 0 < f.2.1 := by simp
  constructor
  · obtain ⟨v, hv, hb, -⟩ := C75_exposure [(0, 1, 1)] hw (-5) 1 7 (by norm_num)
    rw [hv, Fl.fin_inj]
    have := hb 0 0 (by
      intro t _ h2
      have h3 : t ≤ -4.5 := by linarith
      have : template t = 0 := by
        unfold template
        rw [Set.indicator_of_notMem (by intro h; linarith [h.1]), Set.indicator_of_notMem (by intro h; linarith [h.1]), add_zero]
      simp [curve, this])
    linarith [this.1, this.2]
  · rw [C75_one_sample _ hw]
    norm_num [curve, template, rise]

end Vsm
