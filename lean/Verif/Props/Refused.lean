import Verif.Model.Settings
import Verif.Props.FaculaMap
import Verif.Props.StarCoverage2
import Verif.Props.MatureSpots

/-!
# Settings that are refused (C138)
-/

namespace Vsm

open Real Spec

theorem generate_other {G : SpotGenerator} (hG : G.distribution = .other) (n : ℕ) (d : SpotDraws n) :
    G.generate n d = .error .valueError ∨ G.generate n d = .error .diverges ∧ ∀ k, ∃ i, d.ratios k i ≤ 0 := by
  classical
  unfold SpotGenerator.generate
  by_cases h : G.distAreaLogsigma < 0
  · rw [if_pos h]; exact Or.inl rfl
  rw [if_neg h]
  by_cases hk : ∃ k, ∀ i, 0 < d.ratios k i
  · left
    rw [show SpotGenerator.acceptRatios d = some (d.ratios (Nat.find hk)) from dif_pos hk]
    simp only [hG, if_true]
  · right
    rw [show SpotGenerator.acceptRatios d = none from dif_neg hk]
    push Not at hk
    exact ⟨rfl, hk⟩

/-- **C138** (facula generators) A facula generator is made exactly when the coverage is a number and the distribution
`'iso'`; a coverage of another type is a `TypeError`, whatever the distribution, `'solar'` a `NotImplementedError` and
any other distribution a `ValueError`. -/
theorem C138_facula_generator (F : FaculaGenerator) (coverage : Option ℝ) (dist : SpotDist) :
    (∀ G, F.create coverage dist = .ok G → dist = .iso ∧ coverage = some G.coverage ∧ G.distRPeak = F.distRPeak ∧
      G.distLifePeak = F.distLifePeak ∧ G.grid = F.grid) ∧
    ((∃ G, F.create coverage dist = .ok G) ↔ coverage ≠ none ∧ dist = .iso) ∧
    (F.create coverage dist = .error .typeError ↔ coverage = none) ∧
    (F.create coverage dist = .error .notImplemented ↔ coverage ≠ none ∧ dist = .solar) ∧
    (F.create coverage dist = .error .valueError ↔ coverage ≠ none ∧ dist = .other) := by
  cases coverage <;> cases dist <;> simp [FaculaGenerator.create, FaculaGenerator.checkDist, Except.map]

/-- **C138** (spot generators) A spot generator may be made with any distribution, but one that is neither `'solar'`
nor `'iso'` is refused when spots are made: `birth_spots` never returns, not even when no spot is to be born, and raises
`ValueError` as soon as the loop for the area ratios ends; `generate_mature_spots` does the same except for coverage 0,
which needs no spots.  A negative `dist_area_logsigma` is refused likewise, and otherwise the known distributions are
accepted. -/
theorem C138_spot_generator (s : Star) :
    (s.spotGen.distribution = .other ∨ s.spotGen.distAreaLogsigma < 0 →
      (∀ time k d, ∃ e, s.birthSpots time k d = .error e ∧ (e = .diverges → ∃ n, ∀ j, ∃ i, (d n).ratios j i ≤ 0)) ∧
      (∀ time k d e, s.birthSpots time k d = .error e → e = .valueError ∨ e = .diverges) ∧
      (∀ c draws, 0 < c → ∃ e, s.generateMatureSpots c draws = .error e ∧
        (e = .valueError ∨ e = .diverges ∧ ∀ j, ∃ i, (draws 0).1.ratios j i ≤ 0)) ∧
      ∀ draws, s.generateMatureSpots 0 draws = .ok s) ∧
    (s.spotGen.distribution ≠ .other → 0 ≤ s.spotGen.distAreaLogsigma →
      ∀ x, 0 ≤ x → ∀ time, s.spotGen.nExpected time s.radius = .fin x → ∀ k (d : (n : ℕ) → SpotDraws n),
        (∀ n, ∃ j, ∀ i, 0 < (d n).ratios j i) → ∃ s', s.birthSpots time k d = .ok s') := by
  classical
  have gen : s.spotGen.distribution = .other ∨ s.spotGen.distAreaLogsigma < 0 → ∀ n (d : SpotDraws n),
      s.spotGen.generate n d = .error .valueError ∨
      s.spotGen.generate n d = .error .diverges ∧ ∀ k, ∃ i, d.ratios k i ≤ 0 := by
    intro h n d
    rcases h with h | h
    · exact generate_other h n d
    · left; unfold SpotGenerator.generate; rw [if_pos h]
  constructor
  · intro h
    have birth : ∀ time k d, s.birthSpots time k d = .error .valueError ∨
        s.birthSpots time k d = .error .diverges ∧ ∃ n, ∀ j, ∃ i, (d n).ratios j i ≤ 0 := by
      intro time k d
      unfold Star.birthSpots SpotGenerator.birth
      have hp : Np.poisson (s.spotGen.nExpected time s.radius) k = .error .valueError ∨
          ∃ n, Np.poisson (s.spotGen.nExpected time s.radius) k = .ok n := by
        unfold Np.poisson
        split
        · split_ifs
          · exact Or.inl rfl
          · exact Or.inr ⟨_, rfl⟩
          · exact Or.inr ⟨_, rfl⟩
        · exact Or.inl rfl
      rcases hp with hp | ⟨n, hp⟩
      · rw [hp]; exact Or.inl rfl
      · rw [hp]
        rcases gen h n (d n) with hg | ⟨hg, hr⟩
        · left
          change Except.map _ (s.spotGen.generate n (d n)) = _
          rw [hg]; rfl
        · right
          refine ⟨?_, n, hr⟩
          change Except.map _ (s.spotGen.generate n (d n)) = _
          rw [hg]; rfl
    refine ⟨fun time k d => ?_, fun time k d e he => ?_, fun c draws hc => ?_, fun draws => ?_⟩
    · rcases birth time k d with hb | ⟨hb, hr⟩
      · exact ⟨_, hb, fun h => by cases h⟩
      · exact ⟨_, hb, fun _ => hr⟩
    · rcases birth time k d with hb | ⟨hb, hr⟩
      · rw [hb] at he; cases he; exact Or.inl rfl
      · rw [hb] at he; cases he; exact Or.inr rfl
    · unfold Star.generateMatureSpots
      by_cases h1 : c ≤ 1
      · have step : ∀ e, s.spotGen.generate 1 (draws 0).1 = .error e →
            s.spotGen.generateMature c s.radius draws = .error e := by
          intro e he
          refine generateMature_of_loop _ c s.radius hc.le h1 draws _ 1 ?_
          rw [SpotGenerator.matureLoop, if_pos (show Fl.fin 0 < Fl.fin (4 * π * c) by
            have := pi_pos; exact (Fl.fin_lt _ _).mpr (by positivity))]
          simp only [SpotGenerator.matureStep, he, Except.bind]
        rcases gen h 1 (draws 0).1 with hg | ⟨hg, hr⟩
        · exact ⟨_, by rw [step _ hg]; rfl, Or.inl rfl⟩
        · exact ⟨_, by rw [step _ hg]; rfl, Or.inr ⟨rfl, hr⟩⟩
      · refine ⟨.valueError, ?_, Or.inl rfl⟩
        unfold SpotGenerator.generateMature
        rw [if_pos (Or.inl (not_le.mp h1))]; rfl
    · unfold Star.generateMatureSpots
      rw [generateMature_of_loop s.spotGen 0 s.radius le_rfl zero_le_one draws (.ok []) 0 (by
        rw [SpotGenerator.matureLoop, if_neg (by
          rw [Fl.fin_lt]; simp)])]
      simp [Except.map, Star.addSpot, SpotCollection.addSpot]
  · intro hd hl x hx time hn k d hr
    unfold Star.birthSpots SpotGenerator.birth
    have hp : ∃ n, Np.poisson (s.spotGen.nExpected time s.radius) k = .ok n := by
      rw [hn]
      unfold Np.poisson
      simp only [not_lt.mpr hx, if_false]
      split_ifs
      · exact ⟨_, rfl⟩
      · exact ⟨_, rfl⟩
    obtain ⟨n, hp⟩ := hp
    rw [hp]
    change ∃ s', Except.map _ (s.spotGen.generate n (d n)) = _
    unfold SpotGenerator.generate
    rw [if_neg (not_lt.mpr hl), show SpotGenerator.acceptRatios (d n) = some ((d n).ratios (Nat.find (hr n))) from dif_pos (hr n)]
    simp only [hd, if_false]
    exact ⟨_, rfl⟩

theorem circFraction_unit (x y : Fl) : ∃ v, Helpers.circFraction x y (.fin 1) = .ok v := by
  classical
  unfold Helpers.circFraction
  simp only
  rw [if_neg (by simp)]
  split_ifs <;> exact ⟨_, rfl⟩

theorem fractional_shape {f : Facula} {r : ℝ} (h : f.radius = .fin r) (angle : Fl) :
    f.fractionalEffectiveArea angle = .error .valueError ∨
      ∃ fr, f.fractionalEffectiveArea angle = .ok fr ∧ (wallKey f r = floorKey f r → fr.length = 1) := by
  classical
  have two : ∀ aw af, ∃ fr, f.twoKeys aw af = .ok fr ∧ (wallKey f r = floorKey f r → fr.length = 1) := by
    intro aw af
    by_cases hk : wallKey f r = floorKey f r
    · exact ⟨_, twoKeys_same h hk aw af, fun _ => rfl⟩
    · exact ⟨_, twoKeys_eq h hk aw af, fun h => absurd h hk⟩
  have fin : ∀ aw af, f.effectiveArea angle = f.twoKeys aw af →
      ∃ fr, f.fractionalEffectiveArea angle = .ok fr ∧ (wallKey f r = floorKey f r → fr.length = 1) := by
    intro aw af he
    obtain ⟨fr, h1, h2⟩ := two aw af
    refine ⟨_, by unfold Facula.fractionalEffectiveArea; rw [he, h1]; rfl, fun hk => ?_⟩
    rw [List.length_map]; exact h2 hk
  by_cases h1 : Fl.feq f.floorDteff f.wallDteff
  · left
    unfold Facula.fractionalEffectiveArea Facula.effectiveArea
    rw [if_pos h1]; rfl
  right
  by_cases h2 : f.radius < .fin f.floorMinRad
  · refine fin (.fin π * (f.radius * f.radius) * Fl.cos angle) (.fin 0) ?_
    unfold Facula.effectiveArea
    rw [if_neg h1, if_pos h2]
  · obtain ⟨v, hv⟩ := circFraction_unit (.fin f.depth / f.radius * Fl.tan angle) (.fin 0)
    refine fin ((.fin 1 - v) * (.fin π * (f.radius * f.radius) * Fl.cos angle))
      ((.fin 1 - (.fin 1 - v)) * (.fin π * (f.radius * f.radius) * Fl.cos angle)) ?_
    unfold Facula.effectiveArea
    rw [if_neg h1, if_neg h2]
    simp only
    rw [hv]
    rfl

theorem percentile_raises {M : Multiset ℝ} {a : Fl} {e : PyErr} (h : Np.percentile M a = .error e) : e = .valueError := by
  unfold Np.percentile at h
  split at h
  · split_ifs at h
    cases h; rfl
  · cases h; rfl

theorem addFacula_raises {s : Star} {lat0 lon0 : ℝ} {cur : s.grid.Pix → ℝ} {f : Facula} {r : ℝ} (hg : f.grid = s.grid)
    (h : f.radius = .fin r) : (∀ e, s.addFacula lat0 lon0 cur f = .error e → e = .valueError) ∧
      (wallKey f r = floorKey f r → (∃ p, inFacula f s.radius s.grid p) →
        s.addFacula lat0 lon0 cur f = .error .valueError) := by
  classical
  unfold Star.addFacula
  simp only
  by_cases hex : ∃ p, (f.inside s.radius).2 p
  · rw [if_neg (not_not.mpr hex), inside_on hg]
    rcases fractional_shape h (Helpers.angleBetween lat0 lon0 f.lat f.lon) with hfr | ⟨fr, hfr, hl⟩
    · rw [hfr]
      exact ⟨fun e he => by cases he; rfl, fun _ _ => rfl⟩
    · rw [hfr]
      change (∀ e, s.paintFacula lat0 lon0 _ fr cur = .error e → _) ∧ (_ → _ → s.paintFacula lat0 lon0 _ fr cur = _)
      constructor
      · intro e he
        unfold Star.paintFacula at he
        split at he
        · rename_i kw a kf b
          simp only at he
          generalize hq : Np.percentile _ a = q at he
          cases q with
          | ok v => cases he
          | error e' => cases he; exact percentile_raises hq
        · cases he; rfl
      · intro hk _
        have := hl hk
        obtain ⟨a, rfl⟩ := List.length_eq_one_iff.mp this
        rfl
  · rw [if_pos hex]
    refine ⟨fun e he => (by cases he), fun _ hp => absurd ?_ hex⟩
    obtain ⟨p₀, hp₀⟩ := hp
    have hon := inside_on hg s.radius .indexError
    unfold Field.on at hon
    have hgg : (f.inside s.radius).1 = s.grid := hg
    rw [dif_pos hgg, Except.ok.injEq] at hon
    exact ⟨hgg ▸ p₀, by rw [congrFun hon p₀]; exact hp₀⟩

/-- **C138** (faculae) A facula whose wall and floor temperatures are equal, or round to the same number of kelvins, is
accepted by `Facula(...)` and by the star, but as soon as it covers a pixel, visible or not, the star can no longer be
observed: `calc_coverage` raises `ValueError` for every observer.  `effective_area` of the facula raises exactly if the
two temperatures are equal. -/
theorem C138_equal_temperatures (s : Star) (hgrid : s.spots.grid = s.grid) (hs : Measured s.spots)
    (hf : ∀ f ∈ s.faculae.faculae, f.grid = s.grid ∧ ∃ r, f.radius = .fin r) :
    (∀ f ∈ s.faculae.faculae, ∀ r, f.radius = .fin r → wallKey f r = floorKey f r →
      (∃ p, inFacula f s.radius s.grid p) → ∀ lat0 lon0 gran orbit radius phase incl,
        s.calcCoverage lat0 lon0 gran orbit radius phase incl = .error .valueError) ∧
    ∀ f : Facula, ∀ r, f.radius = .fin r → ∀ angle, ((∃ e, f.effectiveArea angle = .error e) ↔
      f.wallSlope * r + f.wallIntercept = (r - f.floorMinRad) * f.floorSlope + f.floorBase) ∧
      ∀ e, f.effectiveArea angle = .error e → e = .valueError := by
  classical
  constructor
  · intro f hm r hr hk hp lat0 lon0 gran orbit radius phase incl
    obtain ⟨m₀, hm₀, -⟩ := map_exists hgrid hs
    have key : s.addFaculaeToMap lat0 lon0 = .error .valueError := by
      unfold Star.addFaculaeToMap
      rw [hm₀]
      have hon : Field.on ⟨s.spots.grid, m₀⟩ s.grid .indexError = .ok fun p => m₀ (hgrid ▸ p) := by
        unfold Field.on
        rw [dif_pos hgrid]
      change ((Field.on ⟨s.spots.grid, m₀⟩ s.grid .indexError) >>= _) = _
      rw [hon]
      change List.foldlM _ _ _ = _
      generalize (fun p => m₀ (hgrid ▸ p)) = cur
      generalize s.faculae.faculae = l at hf hm
      induction l generalizing cur with
      | nil => cases hm
      | cons f' l ih =>
        rw [List.foldlM_cons]
        obtain ⟨hg', r', hr'⟩ := hf f' (by simp)
        cases hc : s.addFacula lat0 lon0 cur f' with
        | error e => rw [(addFacula_raises hg' hr').1 e hc]; rfl
        | ok m =>
          rcases List.mem_cons.mp hm with rfl | hm
          · rw [(addFacula_raises hg' hr).2 hk hp] at hc; cases hc
          · exact ih m (fun g hg => hf g (by simp [hg])) hm
    unfold Star.calcCoverage
    rw [key]; rfl
  · intro f r h angle
    have hfe : Fl.feq f.floorDteff f.wallDteff ↔
        f.wallSlope * r + f.wallIntercept = (r - f.floorMinRad) * f.floorSlope + f.floorBase := by
      rw [wallDteff_eq h, floorDteff_eq h, Fl.feq_fin]; exact eq_comm
    rw [← hfe]
    by_cases h1 : Fl.feq f.floorDteff f.wallDteff
    · have : f.effectiveArea angle = .error .valueError := by unfold Facula.effectiveArea; rw [if_pos h1]
      rw [this]
      exact ⟨⟨fun _ => h1, fun _ => ⟨_, rfl⟩⟩, fun e he => by cases he; rfl⟩
    · have two : ∀ aw af, ∃ fr, f.twoKeys aw af = .ok fr := by
        intro aw af
        by_cases hk : wallKey f r = floorKey f r
        · exact ⟨_, twoKeys_same h hk aw af⟩
        · exact ⟨_, twoKeys_eq h hk aw af⟩
      have : ∃ fr, f.effectiveArea angle = .ok fr := by
        unfold Facula.effectiveArea
        rw [if_neg h1]
        split_ifs with h2
        · exact two _ _
        · obtain ⟨v, hv⟩ := circFraction_unit (.fin f.depth / f.radius * Fl.tan angle) (.fin 0)
          simp only
          rw [hv]
          exact two _ _
      obtain ⟨fr, hfr⟩ := this
      rw [hfr]
      exact ⟨⟨fun ⟨e, he⟩ => (by cases he), fun h => absurd h h1⟩, fun e he => by cases he⟩

/-- Non-vacuity: facula generators with all three distributions; a star whose spot generator has an unknown distribution
and, on the smallest spiral grid, one facula with equal temperatures that covers a pixel. -/
example :
    (∃ G, (FaculaGenerator.off (.spiral 5)).create (some 0.1) .iso = .ok G ∧ G.coverage = 0.1) ∧
    (FaculaGenerator.off (.spiral 5)).create (some 0.1) .solar = .error .notImplemented ∧
    (FaculaGenerator.off (.spiral 5)).create none .solar = .error .typeError ∧
    ∃ s : Star, s.spotGen.distribution = .other ∧ (∀ draws, s.generateMatureSpots 0 draws = .ok s) ∧
      (∀ d, ∃ e, s.birthSpots 0 0 d = .error e) ∧
      ∀ lat0 lon0, s.calcCoverage lat0 lon0 0 1 1 0 0 = .error .valueError := by
  refine ⟨⟨_, rfl, rfl⟩, rfl, rfl, ?_⟩
  let f : Facula := { lat := 0, lon := 0, rMax := 10, radius := .fin 10, depth := 1, lifetime := 1, floorSlope := 0, floorMinRad := 5, floorBase := 100, wallSlope := 0, wallIntercept := 100.2, isGrowing := true, grid := .spiral 1 }
  let G : SpotGenerator := { SpotGenerator.off (.spiral 1) with distribution := .other }
  let s : Star := { teff := 3000, radius := 1, period := 1, spots := ⟨[], .spiral 1⟩, faculae := ⟨[f], .spiral 1⟩, grid := .spiral 1, flareGen := FlareGenerator.off, spotGen := G, facGen := FaculaGenerator.off (.spiral 1), granulation := none, u1 := 0, u2 := 0, flares := none }
  obtain ⟨⟨h1, -, -, h2⟩, -⟩ := (C138_spot_generator s).imp_left fun h => h (Or.inl rfl)
  refine ⟨s, rfl, h2, fun d => ?_, fun lat0 lon0 => ?_⟩
  · obtain ⟨e, he, -⟩ := h1 0 0 d
    exact ⟨e, he⟩
  · refine (C138_equal_temperatures s rfl ?_ ?_).1 f (List.mem_singleton.mpr rfl) 10 rfl ?_ ⟨(0 : Fin 1), ?_⟩ lat0 lon0 0 1 1 0 0
    · intro sp h; cases h
    · intro g hg; rw [List.mem_singleton.mp hg]; exact ⟨rfl, _, rfl⟩
    · simp only [wallKey, floorKey, f, Np.roundHalfEven]; norm_num
    · change Fl.fin (2 * Real.arcsin _) ≤ Fl.fin 10 / Fl.fin 1
      rw [Fl.fin_div one_ne_zero, Fl.fin_le]
      have := arcsin_le_pi_div_two (√(sin (0.5 * (0 - (Grid.spiral 1).lat (0 : Fin 1))) ^ 2 + cos ((Grid.spiral 1).lat (0 : Fin 1)) * cos 0 * sin (0.5 * (0 - (Grid.spiral 1).lon (0 : Fin 1))) ^ 2))
      have hp := pi_lt_four
      linarith

end Vsm
