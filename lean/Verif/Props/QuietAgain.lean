import Verif.Props.Population
import Verif.Props.StarCoverage2

/-!
# C131: a star without births becomes quiet
-/

noncomputable section

namespace Vsm

open Real Np

/-- The time after which a spot of area `a` is gone (spec): the time to its largest area, if it grows, and the time it takes to decay. -/
def Spec.spotEnd (s : StarSpot) (a : ℝ) : ℝ :=
  if s.isGrowing = true then Real.log (s.areaMax / a) / Real.log (1 + s.growthRate) + s.areaMax / s.decayRate else a / s.decayRate

/-- The time after which a facula of radius `r` is gone (spec): a lifetime after its largest radius. -/
def Spec.faculaEnd (f : Facula) (r : ℝ) : ℝ :=
  if f.isGrowing = true then f.lifetime / 2 * Real.log (f.rMax / r) + f.lifetime else f.lifetime / 2 * (Real.log (r / f.rMax) + 2)

open Spec

theorem spotLater_none {s : StarSpot} {a t : ℝ} (ha : s.area = .fin a) (hm : s.isGrowing = true → 0 < a ∧ 0 < s.areaMax)
    (hw : 0 < s.decayRate) (hg : s.isGrowing = true → 0 < s.growthRate) : spotLater t s = none ↔ spotEnd s a ≤ t := by
  unfold spotLater spotEnd
  rw [ha]
  simp only
  by_cases h : s.isGrowing = true
  · have hmax := (hm h).2
    have hp : 0 < s.areaMax / s.decayRate := by positivity
    rw [if_pos h, if_pos h, if_neg (hg h).ne']
    split_ifs with h1 h2
    · simp only [false_iff, not_le]; linarith
    · rw [← lt_div_iff₀ hw] at h2
      simp only [false_iff, not_le]; linarith
    · rw [← lt_div_iff₀ hw] at h2
      simp only [true_iff]; linarith
  · rw [if_neg h, if_neg h]
    split_ifs with h1
    · rw [← lt_div_iff₀ hw] at h1
      simp only [false_iff, not_le]; exact h1
    · rw [← lt_div_iff₀ hw] at h1
      simp only [true_iff]; linarith

theorem faculaLater_none {f : Facula} {r t : ℝ} (h : PhysF f r) : faculaLater t f = none ↔ faculaEnd f r ≤ t := by
  have hl := h.life
  have hmax : 0 < f.rMax := h.pos.trans_le h.le
  unfold faculaLater faculaEnd
  rw [h.radius]
  simp only
  by_cases hg : f.isGrowing = true
  · rw [if_pos hg, if_pos hg]
    split_ifs with h1 h2
    · simp only [false_iff, not_le]; linarith
    · simp only [false_iff, not_le]; linarith
    · simp only [true_iff]; linarith
  · rw [if_neg hg, if_neg hg]
    have key : f.rMax * exp (-2) < r * exp (-2 * t / f.lifetime) ↔ t < f.lifetime / 2 * (Real.log (r / f.rMax) + 2) := by
      rw [← Real.log_lt_log_iff (by positivity) (mul_pos h.pos (exp_pos _)), Real.log_mul hmax.ne' (exp_pos _).ne',
        Real.log_mul h.pos.ne' (exp_pos _).ne', Real.log_exp, Real.log_exp, Real.log_div h.pos.ne' hmax.ne']
      have e : -2 * t / f.lifetime = -(t / (f.lifetime / 2)) := by field_simp
      rw [e]
      have : t < f.lifetime / 2 * (Real.log r - Real.log f.rMax + 2) ↔ t / (f.lifetime / 2) < Real.log r - Real.log f.rMax + 2 := by
        rw [div_lt_iff₀ (by linarith), mul_comm]
      rw [this]
      constructor <;> intro <;> linarith
    split_ifs with h1
    · simp only [false_iff, not_le]; exact key.mp h1
    · simp only [true_iff]; exact not_lt.mp fun h2 => h1 (key.mpr h2)

theorem foldl_age_spots (ts : List ℝ) (hts : ∀ t ∈ ts, 0 ≤ t) (s : Star) (hs : ∀ sp ∈ s.spots.spots, Sound sp) :
    (ts.foldl Star.age s).spots.spots = later spotLater ts s.spots.spots := by
  induction ts generalizing s with
  | nil => simp [later]
  | cons t ts ih =>
    have ht := hts t (by simp)
    have hn : 0 ≤ ts.sum := List.sum_nonneg fun u hu => hts u (by simp [hu])
    rw [List.foldl_cons, ih (fun u hu => hts u (by simp [hu])) (s.age t) fun sp hsp => by
      obtain ⟨a, ha, -⟩ := sound_age hs ht sp hsp
      exact sound_live ha]
    change later spotLater ts (s.spots.age t).spots = _
    rw [spots_age hs ht]
    exact later_cons _ _ _ _ fun sp hsp => spotLater_add (hs sp hsp) ht hn

theorem foldl_age_faculae (ts : List ℝ) (hts : ∀ t ∈ ts, 0 ≤ t) (s : Star) (hs : ∀ f ∈ s.faculae.faculae, ∃ r, PhysF f r) :
    (ts.foldl Star.age s).faculae.faculae = later faculaLater ts s.faculae.faculae := by
  induction ts generalizing s with
  | nil => simp [later]
  | cons t ts ih =>
    have ht := hts t (by simp)
    have hn : 0 ≤ ts.sum := List.sum_nonneg fun u hu => hts u (by simp [hu])
    rw [List.foldl_cons, ih (fun u hu => hts u (by simp [hu])) (s.age t) (physFAll_age hs ht)]
    change later faculaLater ts (s.faculae.age t).faculae = _
    have e1 := faculae_later (c := s.faculae) hs (t + ts.sum)
    have e2 := faculae_later (c := s.faculae) hs t
    unfold later
    rw [if_neg (List.cons_ne_nil _ _), List.sum_cons]
    by_cases h0 : ts = []
    · rw [if_pos h0, h0, List.sum_nil, add_zero, e2]
    · rw [if_neg h0, ← e1, ← C32_age_add _ hs t _ ht hn, faculae_later (physFAll_age hs ht)]

theorem foldl_age_frame (ts : List ℝ) (s : Star) : let s' := ts.foldl Star.age s; s'.grid = s.grid ∧ s'.spots.grid = s.spots.grid ∧ s'.teff = s.teff ∧
    s'.radius = s.radius ∧ s'.u1 = s.u1 ∧ s'.u2 = s.u2 ∧ s'.granulation = s.granulation := by
  induction ts generalizing s with
  | nil => exact ⟨rfl, rfl, rfl, rfl, rfl, rfl, rfl⟩
  | cons t ts ih =>
    obtain ⟨a, b, c, d, e, f, g⟩ := ih (s.age t)
    exact ⟨a, b, c, d, e, f, g⟩

theorem Fl.fin_or (x : Fl) : (∃ a, x = .fin a) ∨ ∀ a, x ≠ .fin a := by
  by_cases h : ∃ a, x = .fin a
  · exact .inl h
  · exact .inr fun a ha => h ⟨a, ha⟩

theorem filterMap_nil {α β : Type} (f : α → Option β) (l : List α) : l.filterMap f = [] ↔ ∀ x ∈ l, f x = none := by
  simp [List.filterMap_eq_nil_iff]

/-- **C131** (when) A star without births, aged in any steps by a total time `t`, has no spots exactly when every spot it had ends within `t`,
and no faculae exactly when every facula it had ends within `t`; so after some finite time, however it is divided, both are gone. -/
theorem C131_fading (s : Star) (hs : SoundStar s) (hw : ∀ sp ∈ s.spots.spots, 0 < sp.decayRate ∧ (sp.isGrowing = true → 0 < sp.growthRate)) :
    (∀ ts : List ℝ, ts ≠ [] → (∀ t ∈ ts, 0 ≤ t) →
      ((ts.foldl Star.age s).spots.spots = [] ↔ ∀ sp ∈ s.spots.spots, ∀ a, sp.area = .fin a → spotEnd sp a ≤ ts.sum) ∧
      ((ts.foldl Star.age s).faculae.faculae = [] ↔ ∀ f ∈ s.faculae.faculae, ∀ r, f.radius = .fin r → faculaEnd f r ≤ ts.sum)) ∧
    ∃ T, ∀ ts : List ℝ, ts ≠ [] → (∀ t ∈ ts, 0 ≤ t) → T ≤ ts.sum →
      (ts.foldl Star.age s).spots.spots = [] ∧ (ts.foldl Star.age s).faculae.faculae = [] := by
  have main : ∀ ts : List ℝ, ts ≠ [] → (∀ t ∈ ts, 0 ≤ t) →
      ((ts.foldl Star.age s).spots.spots = [] ↔ ∀ sp ∈ s.spots.spots, ∀ a, sp.area = .fin a → spotEnd sp a ≤ ts.sum) ∧
      ((ts.foldl Star.age s).faculae.faculae = [] ↔ ∀ f ∈ s.faculae.faculae, ∀ r, f.radius = .fin r → faculaEnd f r ≤ ts.sum) := by
    intro ts h0 hts
    rw [foldl_age_spots ts hts s hs.1, foldl_age_faculae ts hts s hs.2]
    unfold later
    rw [if_neg h0, if_neg h0, filterMap_nil, filterMap_nil]
    constructor
    · refine forall₂_congr fun sp hsp => ?_
      obtain ⟨a, ha, -, -, h2, -⟩ := hs.1 sp hsp
      rw [spotLater_none ha h2 (hw sp hsp).1 (hw sp hsp).2]
      constructor
      · intro h b hb
        rw [ha, Fl.fin_inj] at hb
        exact hb ▸ h
      · exact fun h => h a ha
    · refine forall₂_congr fun f hf => ?_
      obtain ⟨r, hr⟩ := hs.2 f hf
      rw [faculaLater_none hr]
      constructor
      · intro h b hb
        rw [hr.radius, Fl.fin_inj] at hb
        exact hb ▸ h
      · exact fun h => h r hr.radius
  refine ⟨main, ?_⟩
  have b1 : ∃ T, ∀ sp ∈ s.spots.spots, ∀ a, sp.area = .fin a → spotEnd sp a ≤ T := by
    generalize s.spots.spots = l
    induction l with
    | nil => exact ⟨0, by simp⟩
    | cons x l ih =>
      obtain ⟨T, hT⟩ := ih
      rcases x.area.fin_or with ⟨a, ha⟩ | ha
      · refine ⟨max T (spotEnd x a), fun sp hsp b hb => ?_⟩
        rcases List.mem_cons.mp hsp with rfl | h
        · rw [ha, Fl.fin_inj] at hb
          exact hb ▸ le_max_right _ _
        · exact (hT sp h b hb).trans (le_max_left _ _)
      · refine ⟨T, fun sp hsp b hb => ?_⟩
        rcases List.mem_cons.mp hsp with rfl | h
        · exact absurd hb (ha b)
        · exact hT sp h b hb
  have b2 : ∃ T, ∀ f ∈ s.faculae.faculae, ∀ r, f.radius = .fin r → faculaEnd f r ≤ T := by
    generalize s.faculae.faculae = l
    induction l with
    | nil => exact ⟨0, by simp⟩
    | cons x l ih =>
      obtain ⟨T, hT⟩ := ih
      rcases x.radius.fin_or with ⟨a, ha⟩ | ha
      · refine ⟨max T (faculaEnd x a), fun sp hsp b hb => ?_⟩
        rcases List.mem_cons.mp hsp with rfl | h
        · rw [ha, Fl.fin_inj] at hb
          exact hb ▸ le_max_right _ _
        · exact (hT sp h b hb).trans (le_max_left _ _)
      · refine ⟨T, fun sp hsp b hb => ?_⟩
        rcases List.mem_cons.mp hsp with rfl | h
        · exact absurd hb (ha b)
        · exact hT sp h b hb
  obtain ⟨T1, h1⟩ := b1
  obtain ⟨T2, h2⟩ := b2
  refine ⟨max T1 T2, fun ts h0 hts hT => ⟨?_, ?_⟩⟩
  · exact (main ts h0 hts).1.mpr fun sp hsp a ha => (h1 sp hsp a ha).trans ((le_max_left _ _).trans hT)
  · exact (main ts h0 hts).2.mpr fun f hf r hr => (h2 f hf r hr).trans ((le_max_right _ _).trans hT)

/-- What `calc_coverage` reports for a star of temperature `T` without features with granules of temperature `G` that cover the fraction `g`
(spec). -/
def Spec.quietReport (T G g t : ℝ) : ℝ := if T = G then 1 else if t = T then 1 - g else g

/-- **C131** (report) For a star without spots and faculae `calc_coverage` reports the photosphere with the fraction `1 - g`, the granules with the
fraction `g`, and nothing else, for every observer, planet and limb darkening law. -/
theorem C131_report (s : Star) (hg : goodGrid s.grid) (hR : 0 < s.radius) (hld : PhysicalLD s.u1 s.u2) (hgrid : s.spots.grid = s.grid)
    (h1 : s.spots.spots = []) (h2 : s.faculae.faculae = []) (gr : Granulation) (hgr : s.granulation = some gr)
    (hd : gr.dteff ≠ 0 → 1 / 100 < |gr.dteff|) (lat0 lon0 : ℝ) (h0 : lat0 ∈ Set.Icc (-(π / 2)) (π / 2)) (hv : Visible s lat0 lon0)
    (g orbit r phase incl : ℝ) (hr : 0 < r) (hr' : r ≤ s.radius) :
    ∃ total cov plf, s.calcCoverage lat0 lon0 g orbit r phase incl = .ok (total, cov, plf) ∧
      ∃ label : ℝ → ℤ, (∀ T, |(label T : ℝ) - 100 * T| ≤ 1 / 2) ∧
        (∀ k ∈ Dict.keys total, k = label s.teff ∨ k = label (s.teff - gr.dteff)) ∧
        (∀ t, t = s.teff ∨ t = s.teff - gr.dteff → Dict.get? total (label t) = some (.fin (quietReport s.teff (s.teff - gr.dteff) g t))) := by
  obtain ⟨a, ha, -⟩ := C02_area_partition s.grid hg
  obtain ⟨-, hW⟩ := visible_pos s hg hld ha hv
  have hw : ∀ p, s.weight lat0 lon0 p = .fin (pixelWeight s a lat0 lon0 p) := weight_eq s a ha lat0 lon0
  have hmeas : Measured s.spots := fun sp hsp => by rw [h1] at hsp; cases hsp
  have hmap : s.map = .ok fun _ => s.teff := by
    unfold Star.map SpotCollection.mapPixels
    rw [h1]; rfl
  have hm := noFac_map hgrid hmap h2 lat0 lon0
  obtain ⟨p0, -⟩ := hv
  obtain ⟨total, cov, plf, h, -⟩ := C59_answers_partial s hg hR lat0 lon0 _ (by simp only [hw, Fl.sum_fin]) hW.ne' h0
    gr hgr hgrid hmeas (by simp [h2]) (Or.inr ⟨p0, by simp [h1], by simp [h2]⟩) g orbit r phase incl hr _ _ rfl
    (fun hc => absurd hc.2.1 (not_lt.mpr hr'))
  refine ⟨total, cov, _, h, ?_⟩
  set G := s.teff - gr.dteff with hG
  have hrange : Set.range (fun _ : s.grid.Pix => s.teff) ∪ {s.teff, G} = {s.teff, G} := by
    refine Set.union_eq_self_of_subset_left ?_
    rintro x ⟨_, rfl⟩
    exact Or.inl rfl
  obtain ⟨-, label, hl, hk, mask, -, hent⟩ := C57_shares_partial s hg hR.ne' a ha lat0 lon0 h0 hW.ne' _ _ _ _ _ total cov _ h
    _ hm G ⟨_, hgr, hG⟩ (by
      intro T a1 T' a2 hne
      rw [hrange] at a1 a2
      have hsep : s.teff ≠ G → 1 / 100 < |gr.dteff| := fun hx => hd fun h0 => hx (by rw [hG, h0, sub_zero])
      rcases a1 with rfl | rfl <;> rcases a2 with rfl | rfl
      · exact absurd rfl hne
      · rw [hG, sub_sub_cancel]; exact hsep hne
      · rw [hG, abs_sub_comm, sub_sub_cancel]; exact hsep hne.symm
      · exact absurd rfl hne)
  refine ⟨label, hl, ?_, ?_⟩
  · intro k hk'
    obtain ⟨T, hT, rfl⟩ := hk k hk'
    rw [hrange] at hT
    rcases hT with rfl | rfl
    · exact .inl rfl
    · exact .inr rfl
  · intro t ht
    have e := hent total _ (Or.inl ⟨rfl, rfl⟩) t (by rw [hrange]; rcases ht with rfl | rfl; exacts [Or.inl rfl, Or.inr rfl])
    rw [e, Option.some.injEq, Fl.fin_inj]
    have s1 : share (pixelWeight s a lat0 lon0) (fun _ => s.teff) (fun _ => 1) s.teff = 1 := by
      unfold share; simp [hW.ne']
    rw [s1]
    unfold quietReport
    by_cases hTG : s.teff = G
    · have htT : t = s.teff := by rcases ht with h | h; exacts [h, h.trans hTG.symm]
      rw [if_pos hTG, htT, if_pos hTG, if_pos rfl, s1]; ring
    · rw [if_neg hTG]
      rcases ht with rfl | rfl
      · rw [if_neg hTG, if_pos rfl, if_pos rfl, s1]; ring
      · rw [if_pos rfl, if_neg (Ne.symm hTG), if_neg (Ne.symm hTG), share_of_notMem (fun _ => hTG)]; ring

/-- **C131** A star without births looks like a quiet star after some finite time, however that time is divided into steps. -/
theorem C131_quiet_again (s : Star) (hs : SoundStar s) (hw : ∀ sp ∈ s.spots.spots, 0 < sp.decayRate ∧ (sp.isGrowing = true → 0 < sp.growthRate))
    (hg : goodGrid s.grid) (hR : 0 < s.radius) (hld : PhysicalLD s.u1 s.u2) (hgrid : s.spots.grid = s.grid)
    (gr : Granulation) (hgr : s.granulation = some gr) (hd : gr.dteff ≠ 0 → 1 / 100 < |gr.dteff|) :
    ∃ T, ∀ ts : List ℝ, ts ≠ [] → (∀ t ∈ ts, 0 ≤ t) → T ≤ ts.sum →
      ∀ lat0 lon0, lat0 ∈ Set.Icc (-(π / 2)) (π / 2) → Visible s lat0 lon0 → ∀ g orbit r phase incl, 0 < r → r ≤ s.radius →
        ∃ total cov plf, (ts.foldl Star.age s).calcCoverage lat0 lon0 g orbit r phase incl = .ok (total, cov, plf) ∧
          ∃ label : ℝ → ℤ, (∀ T, |(label T : ℝ) - 100 * T| ≤ 1 / 2) ∧
            (∀ k ∈ Dict.keys total, k = label s.teff ∨ k = label (s.teff - gr.dteff)) ∧
            (∀ t, t = s.teff ∨ t = s.teff - gr.dteff → Dict.get? total (label t) = some (.fin (quietReport s.teff (s.teff - gr.dteff) g t))) := by
  obtain ⟨-, T, hT⟩ := C131_fading s hs hw
  refine ⟨T, fun ts h0 hts hsum lat0 lon0 hlat hv g orbit r phase incl hr hr' => ?_⟩
  obtain ⟨f1, f2⟩ := hT ts h0 hts hsum
  obtain ⟨e1, e2, e3, e4, e5, e6, e7⟩ := foldl_age_frame ts s
  have := C131_report (ts.foldl Star.age s) (by rw [e1]; exact hg) (by rw [e4]; exact hR) (by rw [e5, e6]; exact hld) (by rw [e1, e2]; exact hgrid)
    f1 f2 gr (by rw [e7]; exact hgr) hd lat0 lon0 hlat (by unfold Visible; rw [e1]; exact hv) g orbit r phase incl hr (by rw [e4]; exact hr')
  rw [e3] at this
  exact this

/-- Non-trivial instance of C131: a spot of one day and a facula of `2 + log 4` days.  After one day the spot is gone but not the facula, after
four days, divided in three steps, both are gone, and the report is that of the photosphere with a fifth of granules. -/
example : let s : Star := { sampleStar (.rect 4 3) [sampleSpot (.rect 4 3)] [sampleFacula (.rect 4 3)] with granulation := some ⟨0.2, 1, 1, 100⟩ };
    ((([1] : List ℝ).foldl Star.age s).spots.spots = [] ∧ (([1] : List ℝ).foldl Star.age s).faculae.faculae ≠ []) ∧
    ∃ total cov plf, (([1, 1, 2] : List ℝ).foldl Star.age s).calcCoverage 0 0 0.2 10 (1 / 2) (π / 2) 0 = .ok (total, cov, plf) ∧
      Dict.get? total 300000 = some (.fin 0.8) ∧ Dict.get? total 290000 = some (.fin 0.2) := by
  intro s
  have hpi := pi_pos
  have hs : SoundStar s := by
    refine ⟨fun sp hsp => ?_, fun f hf => ?_⟩
    · rw [show s.spots.spots = [sampleSpot (.rect 4 3)] from rfl, List.mem_singleton] at hsp
      subst hsp
      exact ⟨1, rfl, by norm_num, fun _ => by norm_num [sampleSpot, StarSpot.new], fun _ => by norm_num [sampleSpot, StarSpot.new],
        by norm_num [sampleSpot, StarSpot.new], by norm_num [sampleSpot, StarSpot.new]⟩
    · rw [show s.faculae.faculae = [sampleFacula (.rect 4 3)] from rfl, List.mem_singleton] at hf
      subst hf
      exact ⟨1, sampleFacula_phys _⟩
  obtain ⟨hmain, -⟩ := C131_fading s hs (by
    intro sp hsp
    rw [show s.spots.spots = [sampleSpot (.rect 4 3)] from rfl, List.mem_singleton] at hsp
    subst hsp
    norm_num [sampleSpot, StarSpot.new])
  have e1 : spotEnd (sampleSpot (.rect 4 3)) 1 = 1 := by simp [spotEnd, sampleSpot, StarSpot.new]
  have e2 : faculaEnd (sampleFacula (.rect 4 3)) 1 = Real.log 4 + 2 := by simp [faculaEnd, sampleFacula]
  have l4 : Real.log 4 = 2 * Real.log 2 := by rw [show (4 : ℝ) = 2 ^ 2 by norm_num, Real.log_pow]; norm_num
  have l2 := Real.log_two_lt_d9
  have l2' := Real.log_two_gt_d9
  have spots_gone : ∀ ts : List ℝ, (∀ sp ∈ s.spots.spots, ∀ a, sp.area = .fin a → spotEnd sp a ≤ ts.sum) ↔ 1 ≤ ts.sum := by
    intro ts
    rw [show s.spots.spots = [sampleSpot (.rect 4 3)] from rfl]
    simp only [List.mem_singleton, forall_eq]
    constructor
    · intro h; have := h 1 rfl; rwa [e1] at this
    · intro h a ha
      have : a = 1 := (Fl.fin_inj.mp ha).symm
      rw [this, e1]; exact h
  have fac_gone : ∀ ts : List ℝ, (∀ f ∈ s.faculae.faculae, ∀ r, f.radius = .fin r → faculaEnd f r ≤ ts.sum) ↔ Real.log 4 + 2 ≤ ts.sum := by
    intro ts
    rw [show s.faculae.faculae = [sampleFacula (.rect 4 3)] from rfl]
    simp only [List.mem_singleton, forall_eq]
    constructor
    · intro h; have := h 1 rfl; rwa [e2] at this
    · intro h a ha
      have : a = 1 := (Fl.fin_inj.mp ha).symm
      rw [this, e2]; exact h
  constructor
  · obtain ⟨a1, a2⟩ := hmain [1] (by simp) (by simp)
    rw [spots_gone] at a1
    rw [fac_gone] at a2
    refine ⟨a1.mpr (by simp), fun h => ?_⟩
    have := a2.mp h
    simp only [List.sum_singleton] at this
    linarith
  · obtain ⟨a1, a2⟩ := hmain [1, 1, 2] (by simp) (by simp)
    rw [spots_gone] at a1
    rw [fac_gone] at a2
    obtain ⟨e1, e2, e3, e4, e5, e6, e7⟩ := foldl_age_frame [1, 1, 2] s
    obtain ⟨total, cov, plf, h, label, hl, -, hent⟩ := C131_report (([1, 1, 2] : List ℝ).foldl Star.age s) (by rw [e1]; exact ⟨by omega, by omega⟩)
      (by rw [e4]; exact one_pos) (by rw [e5, e6]; exact granStar_phys (.rect 4 3) [] 100) (by rw [e1, e2]; rfl)
      (a1.mpr (by norm_num)) (a2.mpr (by norm_num; linarith)) ⟨0.2, 1, 1, 100⟩ (by rw [e7]) (by norm_num) 0 0
      ⟨by linarith, by linarith⟩ (visible_rect _ (by rw [e1]; rfl) (by omega) (by omega) 0 0) 0.2 10 (1 / 2) (π / 2) 0 (by norm_num)
      (by rw [e4]; norm_num [s, sampleStar])
    rw [e3] at hent
    have lab : ∀ n : ℤ, label n = 100 * n := by
      intro n
      obtain ⟨h1, h2⟩ := abs_le.mp (hl n)
      have h1 : ((100 * n - 1 : ℤ) : ℝ) < label n := by push_cast; linarith
      have h2 : (label n : ℝ) < ((100 * n + 1 : ℤ) : ℝ) := by push_cast; linarith
      have h1 : 100 * n - 1 < label n := by exact_mod_cast h1
      have h2 : label n < 100 * n + 1 := by exact_mod_cast h2
      omega
    have l1 : label 3000 = 300000 := by have := lab 3000; norm_num at this; exact this
    have l2 : label 2900 = 290000 := by have := lab 2900; norm_num at this; exact this
    have hT : s.teff = 3000 := rfl
    rw [hT] at hent
    have f1 := hent 3000 (Or.inl rfl)
    have f2 := hent 2900 (Or.inr (by norm_num))
    rw [l1] at f1
    rw [l2] at f2
    refine ⟨total, cov, plf, h, ?_, ?_⟩
    · rw [f1]; norm_num [quietReport]
    · rw [f2]; norm_num [quietReport]

end Vsm
