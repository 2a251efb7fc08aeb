import Verif.Props.MatureSpots
import Verif.Props.StarState

/-!
# C157: mature spots of a generator whose spots decay but do not grow

`mean_lifetime` divides by the growth rate, so it is infinite or NaN.
-/

noncomputable section

namespace Vsm

open Real Spec

theorem lifetime_bad {G : SpotGenerator} (hA : 0 < G.initArea) (hm : 0 < G.distAreaMean) (hg : G.growthRate = 0)
    (hw : G.decayRate ≠ 0) (x : ℝ) : ∀ y, Fl.fin x * G.meanLifetime ≠ .fin y := by
  have h1 : 0 < G.initArea / G.distAreaMean := div_pos hA hm
  have hst : ¬ G.isStatic := hw
  unfold SpotGenerator.meanLifetime
  rw [if_neg hst, hg, Fl.fin_div hw, Fl.fin_div hm.ne']
  simp only [Fl.log, if_neg (not_lt.mpr h1.le), if_neg h1.ne', Fl.fin_div_zero]
  intro y
  unfold Fl.infTimes
  split_ifs
  · change Fl.infTimes (-x) ≠ _
    unfold Fl.infTimes; split_ifs <;> exact fun h => by cases h
  · change Fl.infTimes x ≠ _
    unfold Fl.infTimes; split_ifs <;> exact fun h => by cases h
  · exact fun h => by cases h

theorem ageFl_bad {s : StarSpot} (hs : s.isGrowing = true) (hg : s.growthRate = 0) {a : ℝ} (ha : s.area = .fin a) {t : Fl}
    (ht : ∀ y, t ≠ .fin y) : (s.ageFl t).area = .nan := by
  have h0 : Fl.log (.fin (s.growthRate + 1)) = .fin 0 := by
    simp [Fl.log, hg]
  unfold StarSpot.ageFl
  rw [if_pos hs]
  simp only [h0, if_true]
  cases t with
  | fin y => exact absurd rfl (ht y)
  | ninf =>
    rw [if_pos (show Fl.ninf < Fl.pinf from trivial), ha]
    change Fl.fin a * Fl.exp (Fl.infTimes (-0)) = .nan
    simp [Fl.infTimes, Fl.exp]
  | nan =>
    rw [if_neg (show ¬ Fl.nan < Fl.pinf from fun h => h), if_neg]
    · rfl
    · exact fun h => h
  | pinf =>
    rw [if_neg (show ¬ Fl.pinf < Fl.pinf from fun h => h), if_neg]
    · rfl
    · exact fun h => h

/-- A spot of unknown size covers no pixel. -/
theorem ghost_masks {s : StarSpot} (ha : s.area = .nan) (R : ℝ) (p : s.r.1.Pix) :
    ¬ s.penumbraMask R p ∧ ¬ s.umbraMask R p := by
  have h1 : s.angularRadius R = .nan := by
    unfold StarSpot.angularRadius; rw [ha]; rfl
  have h2 : s.umbraRadius R = .nan := by
    unfold StarSpot.umbraRadius; rw [h1]; rfl
  have h3 : ¬ s.penumbraMask R p := by
    unfold StarSpot.penumbraMask; rw [h1]; simp
  refine ⟨h3, ?_⟩
  unfold StarSpot.umbraMask
  split_ifs
  · exact h3
  · rw [h2]; simp

theorem ghost_step {T : Type} [LinearOrder T] (emb : ℝ → T) {s : StarSpot} (ha : s.area = .nan) {g : Grid} (hr : s.r.1 = g) (R : ℝ)
    (cur : g.Pix → T) : SpotCollection.mapStep emb R g s cur = .ok cur := by
  unfold SpotCollection.mapStep
  rw [dif_pos hr]
  congr 1
  funext p
  obtain ⟨h1, h2⟩ := ghost_masks ha R (hr ▸ p)
  unfold SpotCollection.overlay
  rw [if_neg (fun h => h2 h.1), if_neg (fun h => h1 h.1)]

theorem ghost_map {s : Star} {sp : StarSpot} (ha : sp.area = .nan) (hr : sp.r.1 = s.spots.grid) : (s.addSpot [sp]).map = s.map := by
  unfold Star.map SpotCollection.mapPixels Star.addSpot SpotCollection.addSpot
  simp only [List.map_cons, List.map_nil, List.foldlM_append, List.foldlM_cons, List.foldlM_nil]
  have : ∀ cur : s.spots.grid.Pix → ℝ, SpotCollection.mapStep id s.radius s.spots.grid { sp with grid := s.spots.grid } cur = .ok cur :=
    fun cur => ghost_step id (s := { sp with grid := s.spots.grid }) ha hr s.radius cur
  simp only [this]
  cases List.foldlM (fun cur s_1 => SpotCollection.mapStep id s.radius s.spots.grid s_1 cur) (fun _ => s.teff) s.spots.spots <;> rfl

theorem ghost_report {s : Star} {sp : StarSpot} (ha : sp.area = .nan) (hr : sp.r.1 = s.spots.grid) (lat0 lon0 gran orbit rp phase incl : ℝ) :
    (s.addSpot [sp]).calcCoverage lat0 lon0 gran orbit rp phase incl = s.calcCoverage lat0 lon0 gran orbit rp phase incl := by
  have hm := ghost_map (s := s) ha hr
  have hf : (s.addSpot [sp]).addFaculaeToMap lat0 lon0 = s.addFaculaeToMap lat0 lon0 := by
    unfold Star.addFaculaeToMap
    rw [hm]
    rfl
  unfold Star.calcCoverage
  rw [hf]
  rfl

/-- **C157** The spots of the generator decay but do not grow.  A call for mature spots of any positive coverage then returns after
one spot, and the area of that spot is NaN. -/
theorem C157_no_growth (G : SpotGenerator) (hA : 0 < G.initArea) (hm : 0 < G.distAreaMean) (hσ : 0 ≤ G.distAreaLogsigma)
    (hd : G.distribution ≠ .other) (hg : G.growthRate = 0) (hw : G.decayRate ≠ 0) (c R : ℝ) (hc0 : 0 < c) (hc1 : c ≤ 1)
    (draws : ℕ → SpotDraws 1 × Set.Ico (0 : ℝ) 1) (hq : ∃ j, ∀ i, 0 < (draws 0).1.ratios j i) :
    ∃ sp, G.generateMature c R draws = .ok [sp] ∧ sp.area = .nan ∧ sp.r.1 = G.grid ∧ sp.growthRate = 0 ∧ sp.decayRate = G.decayRate ∧ 0 < sp.areaMax := by
  obtain ⟨l, hl⟩ := (C27_generate G 1 (draws 0).1).1 hσ hd hq
  obtain ⟨hlen, hnb, hamax⟩ := (C27_generate G 1 (draws 0).1).2.2 l hl
  match l, hlen, hl, hnb, hamax with
  | [sp], _, hl, hnb, hamax =>
    have nb := hnb sp (by simp)
    have am : sp.areaMax = G.distAreaMean * exp (G.distAreaLogsigma * (draws 0).1.z 0) := hamax hm 0 (by simp) (by simp)
    have hst : ¬ G.isStatic := hw
    set t := Fl.fin ((draws 0).2 : ℝ) * G.meanLifetime with ht
    have hstep : G.matureStep (draws 0).1 (draws 0).2 = .ok (sp.ageFl t) := by
      simp only [SpotGenerator.matureStep, hl, Except.bind, hst, if_false, ht]
    have hnan : (sp.ageFl t).area = .nan :=
      ageFl_bad nb.growing (nb.growth.trans hg) nb.area (lifetime_bad hA hm hg hw _)
    obtain ⟨-, -, -, -, k5, k6, k7, -, k9, -⟩ := age_keeps sp t
    refine ⟨sp.ageFl t, ?_, hnan, by rw [k9, nb.dist]; rfl, by rw [k6, nb.growth, hg], by rw [k7, nb.decay], by rw [k5, am]; positivity⟩
    refine (C89_mature_list G c R draws _).mpr ⟨⟨hc0.le, hc1⟩, fun i hi => ?_, ?_, fun m hm' => ?_⟩
    · have : i = 0 := by simpa using hi
      subst this
      simpa using hstep
    · have : countedAngle [sp.ageFl t] R = .nan := by
        have h1 : (sp.ageFl t).angularRadius R = .nan := by unfold StarSpot.angularRadius; rw [hnan]; rfl
        simp only [countedAngle, List.map_cons, List.map_nil, List.sum_cons, List.sum_nil, SpotGenerator.solidAngle, h1]
        rfl
      rw [this]; simp
    · have : m = 0 := by simpa using hm'
      subst this
      simp only [List.take_zero, countedAngle, List.map_nil, List.sum_nil]
      exact (Fl.fin_lt 0 _).mpr (by have := pi_pos; positivity)

/-- **C157** Such a spot shows nowhere: the reports of the star are the ones without it, whatever coverage had been asked for. -/
theorem C157_unseen (s : Star) (hs : s.spotGen.grid = s.spots.grid) (hA : 0 < s.spotGen.initArea) (hm : 0 < s.spotGen.distAreaMean) (hσ : 0 ≤ s.spotGen.distAreaLogsigma)
    (hd : s.spotGen.distribution ≠ .other) (hg : s.spotGen.growthRate = 0) (hw : s.spotGen.decayRate ≠ 0) (c : ℝ) (hc0 : 0 < c) (hc1 : c ≤ 1)
    (draws : ℕ → SpotDraws 1 × Set.Ico (0 : ℝ) 1) (hq : ∃ j, ∀ i, 0 < (draws 0).1.ratios j i) :
    ∃ s', s.generateMatureSpots c draws = .ok s' ∧ s'.spots.spots.length = s.spots.spots.length + 1 ∧
      ∀ lat0 lon0 gran orbit rp phase incl, s'.calcCoverage lat0 lon0 gran orbit rp phase incl = s.calcCoverage lat0 lon0 gran orbit rp phase incl := by
  obtain ⟨sp, h1, h2, h3, -⟩ := C157_no_growth s.spotGen hA hm hσ hd hg hw c s.radius hc0 hc1 draws hq
  refine ⟨s.addSpot [sp], ?_, ?_, fun lat0 lon0 gran orbit rp phase incl => ghost_report h2 (h3.trans hs) lat0 lon0 gran orbit rp phase incl⟩
  · unfold Star.generateMatureSpots; rw [h1]; rfl
  · simp [Star.addSpot, SpotCollection.addSpot]

/-- **C157** Aging does not remove it: it stays in the list, with a NaN area, as long as no single step is longer than the time in which a
spot of its peak area would decay (and for ever, if it still counts as growing). -/
theorem C157_stays (sp : StarSpot) (ha : sp.area = .nan) (hg : sp.growthRate = 0) (ts : List ℝ)
    (ht : ∀ t ∈ ts, sp.isGrowing = true ∨ t * sp.decayRate ≤ sp.areaMax) (g : Grid) :
    ∃ sp', ts.foldl (fun c t => SpotCollection.age c t) (⟨[sp], g⟩ : SpotCollection) = ⟨[sp'], g⟩ ∧ sp'.area = .nan ∧ sp'.lat = sp.lat ∧ sp'.lon = sp.lon := by
  induction ts generalizing sp with
  | nil => exact ⟨sp, rfl, ha, rfl, rfl⟩
  | cons t ts ih =>
    have key : (sp.age t).area = .nan ∧ (sp.age t).isGrowing = sp.isGrowing := by
      rw [StarSpot.age_eq]
      by_cases hgr : sp.isGrowing = true
      · have h0 : Fl.log (.fin (sp.growthRate + 1)) = .fin 0 := by simp [Fl.log, hg]
        simp only [if_pos hgr, h0, if_true, Fl.fin_lt_pinf, ha]
        exact ⟨rfl, trivial⟩
      · have h1 : ¬ Fl.fin sp.areaMax < .fin (t * sp.decayRate) := by
          rw [Fl.fin_lt, not_lt]; exact (ht t (by simp)).resolve_left hgr
        simp only [if_neg hgr, if_neg h1, ha]
        exact ⟨rfl, trivial⟩
    obtain ⟨-, -, k3, k4, k5, k6, k7, -⟩ := age_keeps sp (.fin t)
    have hage : SpotCollection.age ⟨[sp], g⟩ t = ⟨[sp.age t], g⟩ := by
      simp [SpotCollection.age, SpotCollection.clean, key.1]
    obtain ⟨sp', e1, e2, e3, e4⟩ := ih (sp.age t) key.1 (k6.trans hg) (fun u hu => by
      rw [key.2, show (sp.age t).decayRate = sp.decayRate from k7, show (sp.age t).areaMax = sp.areaMax from k5]
      exact ht u (by simp [hu]))
    refine ⟨sp', by rw [List.foldl_cons, hage, e1], e2, e3.trans k3, e4.trans k4⟩

/-- Non-trivial instance of C157: half of the star is to be covered, and one spot of unknown size is returned. -/
example (g : Grid) : ∃ sp, (SpotGenerator.mk 0.2 0 2500 2700 0 0.01 0.1 .iso 0 g).generateMature 0.5 1
    (fun _ => (plainDraws 1, ⟨0.5, by norm_num⟩)) = .ok [sp] ∧ sp.area = .nan ∧
    ∃ sp', [10, 5].foldl (fun c t => SpotCollection.age c t) (⟨[sp], g⟩ : SpotCollection) = ⟨[sp'], g⟩ ∧ sp'.area = .nan := by
  obtain ⟨sp, h1, h2, -, h4, h5, -⟩ := C157_no_growth (SpotGenerator.mk 0.2 0 2500 2700 0 0.01 0.1 .iso 0 g) (by norm_num) (by norm_num)
    (by norm_num) (by simp) rfl (by norm_num) 0.5 1 (by norm_num) (by norm_num)
    (fun _ => (plainDraws 1, ⟨0.5, by norm_num⟩)) ⟨0, fun i => by simp [plainDraws, SpotDraws.ratios]⟩
  have hm : sp.areaMax = 0.2 := by
    obtain ⟨hm, -⟩ := C90_mature_spot _ (by norm_num) _ _ _ _ h1 0 (by simp)
    have := hm.amax
    simpa [plainDraws] using this
  obtain ⟨sp', e1, e2, -⟩ := C157_stays sp h2 h4 [10, 5] (fun t ht => Or.inr (by
    rw [h5, hm]
    rcases List.mem_cons.mp ht with rfl | ht
    · norm_num
    · rw [List.mem_singleton.mp ht]; norm_num)) g
  exact ⟨sp, h1, h2, sp', e1, e2⟩

end Vsm
