import Verif.Props.Gradual
import Verif.Props.SpotAge

/-!
# C152: growing spots only cool the star, decaying spots only warm it
-/

noncomputable section
namespace Vsm
open Real Np Spec

/-- The second spot is the first with a larger (or the same) area, not larger than the star's surface. -/
def Spec.Bigger (R : ℝ) (sp sp' : StarSpot) : Prop :=
  sp'.lat = sp.lat ∧ sp'.lon = sp.lon ∧ sp'.teffUmbra = sp.teffUmbra ∧ sp'.teffPenumbra = sp.teffPenumbra ∧ sp'.ratio = sp.ratio ∧
    ∃ a a' q, sp.area = .fin a ∧ sp'.area = .fin a' ∧ a ≤ a' ∧ a' ≤ 4 * π * R ^ 2 ∧ sp.ratio = .fin q ∧ 0 < q

theorem cap_mono {R a a' : ℝ} (hR : 0 < R) (h : a ≤ a') (h' : a' ≤ 4 * π * R ^ 2) {θ : ℝ} (hθ : θ ∈ Set.Icc 0 π) (hc : capArea R θ = a) :
    ∃ θ' ∈ Set.Icc 0 π, capArea R θ' = a' ∧ θ ≤ θ' := by
  have hp : 0 < 2 * π * R ^ 2 := by positivity
  have hcos := neg_one_le_cos θ
  have hcos' := cos_le_one θ
  unfold capArea at hc
  have h1 : cos θ = 1 - a / (2 * π * R ^ 2) := by
    rw [← hc]; field_simp; ring
  have h2 : 1 - a' / (2 * π * R ^ 2) ≤ cos θ := by
    rw [h1]
    have : a / (2 * π * R ^ 2) ≤ a' / (2 * π * R ^ 2) := div_le_div_of_nonneg_right h hp.le
    linarith
  have h3 : -1 ≤ 1 - a' / (2 * π * R ^ 2) := by
    have : a' / (2 * π * R ^ 2) ≤ 2 := by rw [div_le_iff₀ hp]; linarith
    linarith
  refine ⟨arccos (1 - a' / (2 * π * R ^ 2)), ⟨arccos_nonneg _, arccos_le_pi _⟩, ?_, ?_⟩
  · unfold capArea
    rw [cos_arccos h3 (by linarith)]
    field_simp
    ring
  · rw [← arccos_cos hθ.1 hθ.2]
    exact arccos_le_arccos h2

theorem bigger_masks {R : ℝ} (hR : 0 < R) {sp sp' : StarSpot} (h : Bigger R sp sp') (g : Grid) (p : g.Pix) :
    (inSpot sp g R p → inSpot sp' g R p) ∧ (inUmbra sp g R p → inUmbra sp' g R p) := by
  obtain ⟨e1, e2, e3, e4, e5, a, a', q, ha, ha', hle, hle', hq, hq0⟩ := h
  obtain ⟨k1, k2, k3, -⟩ := C18_membership sp g R a q hR ha hq hq0 p
  obtain ⟨k1', k2', k3', -⟩ := C18_membership sp' g R a' q hR ha' (e5.trans hq) hq0 p
  have hs : inSpot sp g R p → inSpot sp' g R p := by
    intro h
    obtain ⟨θ, hθ, hc, hlt⟩ := k1.mp h
    obtain ⟨θ', hθ', hc', hle''⟩ := cap_mono hR hle hle' hθ hc
    exact k1'.mpr ⟨θ', hθ', hc', by rw [e1, e2]; exact hlt.trans_le hle''⟩
  refine ⟨hs, fun h => ?_⟩
  by_cases he : sp.teffUmbra = sp.teffPenumbra
  · exact (k3' (by rw [e3, e4, he])).mpr (hs ((k3 he).mp h))
  · obtain ⟨θ, hθ, hc, hlt⟩ := (k2 he).mp h
    obtain ⟨θ', hθ', hc', hle''⟩ := cap_mono hR hle hle' hθ hc
    refine (k2' (by rw [e3, e4]; exact he)).mpr ⟨θ', hθ', hc', ?_⟩
    rw [e1, e2]
    exact hlt.trans_le (div_le_div_of_nonneg_right hle'' (sqrt_nonneg _))

/-- **C152** (map) Replace the spots of a star by others such that every spot has one at least as large among the new ones (same place, same temperatures,
umbrae no hotter than penumbrae).  Then the map is still available, no pixel gets warmer, and pixels that change were no hotter than the photosphere. -/
theorem C152_bigger_map (s : Star) (hs : Placed s) (hR : 0 < s.radius) (l : List StarSpot) (hl : ∀ sp ∈ l, sp.setGridmaker s.grid = sp)
    (hu : ∀ sp ∈ s.spots.spots, sp.teffUmbra ≤ sp.teffPenumbra) (hu' : ∀ sp ∈ l, sp.teffUmbra ≤ sp.teffPenumbra)
    (hb : ∀ sp ∈ s.spots.spots, ∃ sp' ∈ l, Bigger s.radius sp sp') (lat0 lon0 : ℝ) (m : s.grid.Pix → ℝ)
    (hm : s.addFaculaeToMap lat0 lon0 = .ok m) :
    ∃ m', (withSpots s l).addFaculaeToMap lat0 lon0 = .ok m' ∧ ∀ p, m' p ≤ m p ∧ (m' p ≠ m p → m p ≤ s.teff) := by
  obtain ⟨hg, hmeas, hf⟩ := hs
  have hs' : Placed (withSpots s l) := ⟨hg, fun sp hsp => by
    have := hl sp hsp
    rw [← hg] at this
    exact this, hf⟩
  have e1 := addFaculaeToMap_eq s ⟨hg, hmeas, hf⟩ lat0 lon0
  have e2 : (withSpots s l).addFaculaeToMap lat0 lon0 = s.faculae.faculae.foldlM (fun cur f => s.addFacula lat0 lon0 cur f)
      (fun p => l.foldl (fun c sp => SpotCollection.overlay id sp.teffUmbra sp.teffPenumbra
        (inUmbra sp s.grid s.radius p) (inSpot sp s.grid s.radius p) c) s.teff) := addFaculaeToMap_eq _ hs' lat0 lon0
  rw [e1] at hm
  rw [e2]
  rcases foldFaculae_form s lat0 lon0 s.faculae.faculae hf with ⟨e, he⟩ | ⟨v, hv⟩
  · rw [he] at hm; cases hm
  obtain ⟨m₁, h1, h2, h3⟩ := hv (fun p => s.spots.spots.foldl (fun c sp => SpotCollection.overlay id sp.teffUmbra sp.teffPenumbra
        (inUmbra sp s.grid s.radius p) (inSpot sp s.grid s.radius p) c) s.teff)
  obtain ⟨m₂, h1', h2', h3'⟩ := hv (fun p => l.foldl (fun c sp => SpotCollection.overlay id sp.teffUmbra sp.teffPenumbra
        (inUmbra sp s.grid s.radius p) (inSpot sp s.grid s.radius p) c) s.teff)
  have f1 : m₁ = m := Except.ok.inj (h1.symm.trans hm)
  subst f1
  refine ⟨m₂, h1', fun p => ?_⟩
  by_cases hp : ∃ f ∈ s.faculae.faculae, inFacula f s.radius s.grid p
  · rw [h2 p hp, h2' p hp]
    exact ⟨le_rfl, fun h => absurd rfl h⟩
  · push Not at hp
    rw [h3 p hp, h3' p hp]
    refine ⟨?_, fun _ => (foldl_overlay_cases s.spots.spots s.grid s.radius p s.teff).1⟩
    have k1 := foldl_overlay_least s.grid s.radius p s.spots.spots hu s.teff
    have k2 := foldl_overlay_least s.grid s.radius p l hu' s.teff
    apply k2.2
    rcases k1.1 with h | ⟨sp, hsp, h⟩
    · exact Or.inl h
    · obtain ⟨sp', hsp', hbig⟩ := hb sp hsp
      obtain ⟨b1, b2⟩ := bigger_masks hR hbig s.grid p
      obtain ⟨-, -, e3, e4, -⟩ := hbig
      refine Or.inr ⟨sp', hsp', ?_⟩
      rw [e3, e4]
      exact h.imp (fun h => ⟨h.1, b1 h.2⟩) (fun h => ⟨h.1, b2 h.2⟩)

/-- **C152** In that case the fraction reported for the photosphere does not increase (temperatures more than 0.01 K apart). -/
theorem C152_bigger (s : Star) (hs : Placed s) (hg : goodGrid s.grid) (hR : 0 < s.radius) (hld : PhysicalLD s.u1 s.u2) (l : List StarSpot)
    (hl : ∀ sp ∈ l, sp.setGridmaker s.grid = sp) (hu : ∀ sp ∈ s.spots.spots, sp.teffUmbra ≤ sp.teffPenumbra)
    (hu' : ∀ sp ∈ l, sp.teffUmbra ≤ sp.teffPenumbra) (hb : ∀ sp ∈ s.spots.spots, ∃ sp' ∈ l, Bigger s.radius sp sp')
    (lat0 lon0 : ℝ) (hv : Visible s lat0 lon0) (gran : ℝ) (hgran : gran ∈ Set.Icc (0 : ℝ) 1)
    (orbit r phase incl orbit' r' phase' incl' : ℝ) (total cov total' cov' : Dict ℤ Fl) (plf plf' : Fl)
    (h : s.calcCoverage lat0 lon0 gran orbit r phase incl = .ok (total, cov, plf))
    (h' : (withSpots s l).calcCoverage lat0 lon0 gran orbit' r' phase' incl' = .ok (total', cov', plf'))
    (hsep : ∀ m gr, s.granulation = some gr → s.addFaculaeToMap lat0 lon0 = .ok m → Apart (Set.range m ∪ {s.teff, s.teff - gr.dteff}))
    (hsep' : ∀ m gr, s.granulation = some gr → (withSpots s l).addFaculaeToMap lat0 lon0 = .ok m → Apart (Set.range m ∪ {s.teff, s.teff - gr.dteff})) :
    ∃ (k : ℤ) (t t' : ℝ), |(k : ℝ) - 100 * s.teff| ≤ 1 / 2 ∧ Dict.get? total k = some (.fin t) ∧ Dict.get? total' k = some (.fin t') ∧ t' ≤ t := by
  obtain ⟨m, mask, gr, hm, -, hgr, h1, -⟩ := calcCoverage_ok.mp h
  obtain ⟨m', mask', gr', hm', -, hgr', h2, -⟩ := calcCoverage_ok.mp h'
  have hgr'' : s.granulation = some gr' := hgr'
  rw [hgr, Option.some.injEq] at hgr''
  subst hgr''
  obtain ⟨m₂, hm₂, hp⟩ := C152_bigger_map s hs hR l hl hu hu' hb lat0 lon0 m hm
  have e : m' = m₂ := Except.ok.inj (hm'.symm.trans hm₂)
  subst e
  obtain ⟨a, ha, -⟩ := C02_area_partition s.grid hg
  obtain ⟨hnn, hW⟩ := visible_pos s hg hld ha hv
  have hw : ∀ p, s.weight lat0 lon0 p = .fin (pixelWeight s a lat0 lon0 p) := weight_eq s a ha lat0 lon0
  have hw' : ∀ p, (withSpots s l).weight lat0 lon0 p = .fin (pixelWeight s a lat0 lon0 p) := hw
  have hmem : ∀ (m : s.grid.Pix → ℝ) T, (T ∈ Set.range m ∨ T = s.teff ∨ T = s.teff - gr.dteff) → T ∈ Set.range m ∪ {s.teff, s.teff - gr.dteff} := by
    intro m T h; simpa only [Set.mem_union, Set.mem_insert_iff, Set.mem_singleton_iff] using h
  have e1 := (entries_of_sep (c := fun _ => 1) hw hW.ne' h1 (fun T T' a1 a2 hk => key_inj_of_sep (hsep m gr hgr hm T (hmem m T a1) T' (hmem m T' a2)) hk)).2.1
    s.teff (Or.inr (Or.inl rfl))
  have e2 := (entries_of_sep (s := withSpots s l) (m := m') (c := fun _ => 1) hw' hW.ne' h2
    (fun T T' a1 a2 hk => key_inj_of_sep (hsep' m' gr hgr hm' T (hmem m' T a1) T' (hmem m' T' a2)) hk)).2.1 s.teff (Or.inr (Or.inl rfl))
  refine ⟨Star.key s.teff, _, _, key_near _, e1, e2, ?_⟩
  have hle : share (pixelWeight s a lat0 lon0) m' (fun _ => 1) s.teff ≤ share (pixelWeight s a lat0 lon0) m (fun _ => 1) s.teff := by
    unfold share
    refine div_le_div_of_nonneg_right (Finset.sum_le_sum fun p _ => ?_) hW.le
    obtain ⟨q1, q2⟩ := hp p
    by_cases hT : m' p = s.teff
    · rw [if_pos hT]
      by_cases hT' : m p = s.teff
      · rw [if_pos hT']
      · exfalso
        have := q2 (by rw [hT]; exact Ne.symm hT')
        rw [hT] at q1
        exact hT' (le_antisymm this q1)
    · rw [if_neg hT]
      split_ifs
      · exact mul_nonneg (hnn p) zero_le_one
      · exact le_rfl
  have ht : (withSpots s l).teff = s.teff := rfl
  rw [ht]
  obtain ⟨g0, g1⟩ := hgran
  by_cases hG : s.teff = s.teff - gr.dteff
  · rw [if_pos hG, if_pos rfl, if_pos hG, if_pos rfl]
    have k1 : ∀ x y : ℝ, y ≤ x → y + gran * y - gran * y ≤ x + gran * x - gran * x := by intros; linarith
    exact k1 _ _ hle
  · rw [if_neg hG, if_pos rfl, if_neg hG, if_pos rfl]
    have k2 : ∀ x y : ℝ, y ≤ x → y + 0 - gran * y ≤ x + 0 - gran * x := by intros; nlinarith
    exact k2 _ _ hle

/-- A spot whose aging is well behaved: sensible numbers, a maximum not larger than the surface, an umbra no hotter than its penumbra. -/
def Spec.GoodAging (R : ℝ) (sp : StarSpot) : Prop :=
  (∃ a, Phys sp a) ∧ sp.areaMax ≤ 4 * π * R ^ 2 ∧ (∃ q, sp.ratio = .fin q ∧ 0 < q) ∧ sp.teffUmbra ≤ sp.teffPenumbra

theorem age_fields (sp : StarSpot) (t : ℝ) : ∃ (a : Fl) (b : Bool), sp.age t = { sp with area := a, isGrowing := b } := by
  rw [StarSpot.age_eq]
  dsimp only
  split_ifs <;> exact ⟨_, _, rfl⟩

theorem age_bigger {R t : ℝ} {sp : StarSpot} (h : GoodAging R sp) (ht : 0 ≤ t) :
    ((sp.age t).isGrowing = true → Bigger R sp (sp.age t)) ∧ (sp.isGrowing = false → Bigger R (sp.age t) sp) := by
  obtain ⟨⟨a, ha⟩, hmax, ⟨q, hq, hq0⟩, -⟩ := h
  obtain ⟨a', h1, h2, -, h4, -, h6⟩ := C20_area_bounds_partial sp a t ha ht
  obtain ⟨x, b, e⟩ := age_fields sp t
  rw [e] at h1
  refine ⟨fun hg => ?_, fun hg => ?_⟩
  · rw [e]
    exact ⟨rfl, rfl, rfl, rfl, rfl, a, a', q, ha.area, h1, h4 hg, h2.trans hmax, hq, hq0⟩
  · rw [e]
    exact ⟨rfl, rfl, rfl, rfl, rfl, a', a, q, h1, ha.area, (h6 hg).1, ha.le.trans hmax, hq, hq0⟩

theorem noFaculae_age {c : FaculaCollection} (hf : c.faculae = []) {t : ℝ} : c.age t = c := by
  unfold FaculaCollection.age FaculaCollection.clean
  simp only [hf, List.map_nil, List.filter_nil]
  rw [← hf]

theorem age_noFaculae (s : Star) (hf : s.faculae.faculae = []) (t : ℝ) : s.age t = withSpots s (s.spots.age t).spots := by
  unfold Star.age
  rw [noFaculae_age hf]
  rfl

theorem age_noFaculae_map (s : Star) (hf : s.faculae.faculae = []) (t lat0 lon0 : ℝ) :
    (s.age t).addFaculaeToMap lat0 lon0 = (withSpots s (s.spots.age t).spots).addFaculaeToMap lat0 lon0 := by
  have := @congrArg FaculaCollection (Py (s.grid.Pix → ℝ)) _ _
    (fun f : FaculaCollection => (({ s with spots := s.spots.age t, faculae := f } : Star).addFaculaeToMap lat0 lon0 : Py (s.grid.Pix → ℝ)))
    (noFaculae_age hf (t := t))
  exact this

theorem mem_age {c : SpotCollection} {t : ℝ} {sp' : StarSpot} (h : sp' ∈ (c.age t).spots) : ∃ sp ∈ c.spots, sp' = sp.age t := by
  obtain ⟨sp, h1, h2⟩ := List.mem_map.mp ((C22_age_removes c t).1.subset h)
  exact ⟨sp, h1, h2.symm⟩

theorem age_measured {s : Star} {t : ℝ} (hs : Placed s) : ∀ sp ∈ (s.spots.age t).spots, sp.setGridmaker s.grid = sp := by
  intro sp' h
  obtain ⟨sp, h1, rfl⟩ := mem_age h
  obtain ⟨x, b, e⟩ := age_fields sp t
  have h2 := hs.2.1 sp h1
  rw [hs.1] at h2
  rw [e]
  exact congrArg (fun sp : StarSpot => ({ sp with area := x, isGrowing := b } : StarSpot)) h2

theorem age_umbra {R t : ℝ} {c : SpotCollection} (h : ∀ sp ∈ c.spots, GoodAging R sp) : ∀ sp ∈ (c.age t).spots, sp.teffUmbra ≤ sp.teffPenumbra := by
  intro sp' h'
  obtain ⟨sp, h1, rfl⟩ := mem_age h'
  obtain ⟨x, b, e⟩ := age_fields sp t
  rw [e]
  exact (h sp h1).2.2.2

/-- Every spot is still growing after the step: each has a larger successor. -/
theorem growing_bigger {R t : ℝ} {c : SpotCollection} (ht : 0 ≤ t) (h : ∀ sp ∈ c.spots, GoodAging R sp)
    (hgrow : ∀ sp ∈ c.spots, (sp.age t).isGrowing = true) : ∀ sp ∈ c.spots, ∃ sp' ∈ (c.age t).spots, Bigger R sp sp' := by
  intro sp hsp
  refine ⟨sp.age t, ?_, (age_bigger (h sp hsp) ht).1 (hgrow sp hsp)⟩
  by_contra hn
  have := ((C22_age_removes c t).2.2.1 sp hsp hn).2
  rw [hgrow sp hsp] at this
  cases this

theorem decaying_bigger {R t : ℝ} {c : SpotCollection} (ht : 0 ≤ t) (h : ∀ sp ∈ c.spots, GoodAging R sp)
    (hdecay : ∀ sp ∈ c.spots, sp.isGrowing = false) : ∀ sp' ∈ (c.age t).spots, ∃ sp ∈ c.spots, Bigger R sp' sp := by
  intro sp' h'
  obtain ⟨sp, h1, rfl⟩ := mem_age h'
  exact ⟨sp, h1, (age_bigger (h sp h1) ht).2 (hdecay sp h1)⟩

/-- **C152** While all spots grow, time only cools the star: no pixel of the map gets warmer, and the fraction reported for the photosphere does not
increase. -/
theorem C152_growing (s : Star) (hs : Placed s) (hf : s.faculae.faculae = []) (hg : goodGrid s.grid) (hR : 0 < s.radius) (hld : PhysicalLD s.u1 s.u2)
    (t : ℝ) (ht : 0 ≤ t) (hgood : ∀ sp ∈ s.spots.spots, GoodAging s.radius sp) (hgrow : ∀ sp ∈ s.spots.spots, (sp.age t).isGrowing = true)
    (lat0 lon0 : ℝ) (hv : Visible s lat0 lon0) (gran : ℝ) (hgran : gran ∈ Set.Icc (0 : ℝ) 1)
    (orbit r phase incl orbit' r' phase' incl' : ℝ) (total cov total' cov' : Dict ℤ Fl) (plf plf' : Fl)
    (h : s.calcCoverage lat0 lon0 gran orbit r phase incl = .ok (total, cov, plf))
    (h' : (s.age t).calcCoverage lat0 lon0 gran orbit' r' phase' incl' = .ok (total', cov', plf'))
    (hsep : ∀ m gr, s.granulation = some gr → s.addFaculaeToMap lat0 lon0 = .ok m → Apart (Set.range m ∪ {s.teff, s.teff - gr.dteff}))
    (hsep' : ∀ m gr, s.granulation = some gr → (s.age t).addFaculaeToMap lat0 lon0 = .ok m → Apart (Set.range m ∪ {s.teff, s.teff - gr.dteff})) :
    (∃ (m : s.grid.Pix → ℝ) (m' : s.grid.Pix → ℝ), s.addFaculaeToMap lat0 lon0 = .ok m ∧ (s.age t).addFaculaeToMap lat0 lon0 = .ok m' ∧ ∀ p, m' p ≤ m p) ∧
    ∃ (k : ℤ) (x x' : ℝ), |(k : ℝ) - 100 * s.teff| ≤ 1 / 2 ∧ Dict.get? total k = some (.fin x) ∧ Dict.get? total' k = some (.fin x') ∧ x' ≤ x := by
  rw [age_noFaculae s hf] at h'
  rw [age_noFaculae_map s hf] at hsep' ⊢
  have hu : ∀ sp ∈ s.spots.spots, sp.teffUmbra ≤ sp.teffPenumbra := fun sp h => (hgood sp h).2.2.2
  have hb := growing_bigger ht hgood hgrow
  obtain ⟨m, -, -, hm, -⟩ := calcCoverage_ok.mp h
  obtain ⟨m', hm', hp⟩ := C152_bigger_map s hs hR _ (age_measured hs) hu (age_umbra hgood) hb lat0 lon0 m hm
  exact ⟨⟨m, m', hm, hm', fun p => (hp p).1⟩, C152_bigger s hs hg hR hld _ (age_measured hs) hu (age_umbra hgood) hb lat0 lon0 hv gran hgran
    _ _ _ _ _ _ _ _ total cov total' cov' plf plf' h h' hsep hsep'⟩

/-- **C152** Once no spot grows any more, time only warms the star: no pixel of the map gets cooler, and the fraction reported for the photosphere does
not decrease — spots that are removed included. -/
theorem C152_decaying (s : Star) (hs : Placed s) (hf : s.faculae.faculae = []) (hg : goodGrid s.grid) (hR : 0 < s.radius) (hld : PhysicalLD s.u1 s.u2)
    (t : ℝ) (ht : 0 ≤ t) (hgood : ∀ sp ∈ s.spots.spots, GoodAging s.radius sp) (hdecay : ∀ sp ∈ s.spots.spots, sp.isGrowing = false)
    (lat0 lon0 : ℝ) (hv : Visible s lat0 lon0) (gran : ℝ) (hgran : gran ∈ Set.Icc (0 : ℝ) 1)
    (orbit r phase incl orbit' r' phase' incl' : ℝ) (total cov total' cov' : Dict ℤ Fl) (plf plf' : Fl)
    (h : s.calcCoverage lat0 lon0 gran orbit r phase incl = .ok (total, cov, plf))
    (h' : (s.age t).calcCoverage lat0 lon0 gran orbit' r' phase' incl' = .ok (total', cov', plf'))
    (hsep : ∀ m gr, s.granulation = some gr → s.addFaculaeToMap lat0 lon0 = .ok m → Apart (Set.range m ∪ {s.teff, s.teff - gr.dteff}))
    (hsep' : ∀ m gr, s.granulation = some gr → (s.age t).addFaculaeToMap lat0 lon0 = .ok m → Apart (Set.range m ∪ {s.teff, s.teff - gr.dteff})) :
    (∃ (m : s.grid.Pix → ℝ) (m' : s.grid.Pix → ℝ), s.addFaculaeToMap lat0 lon0 = .ok m ∧ (s.age t).addFaculaeToMap lat0 lon0 = .ok m' ∧ ∀ p, m p ≤ m' p) ∧
    ∃ (k : ℤ) (x x' : ℝ), |(k : ℝ) - 100 * s.teff| ≤ 1 / 2 ∧ Dict.get? total k = some (.fin x) ∧ Dict.get? total' k = some (.fin x') ∧ x ≤ x' := by
  rw [age_noFaculae s hf] at h'
  rw [age_noFaculae_map s hf] at hsep' ⊢
  have hu : ∀ sp ∈ s.spots.spots, sp.teffUmbra ≤ sp.teffPenumbra := fun sp h => (hgood sp h).2.2.2
  have hb := decaying_bigger ht hgood hdecay
  have hmeas : ∀ sp ∈ s.spots.spots, sp.setGridmaker s.grid = sp := by
    intro sp hsp
    rw [← hs.1]
    exact hs.2.1 sp hsp
  have hs' : Placed (withSpots s (s.spots.age t).spots) := ⟨hs.1, fun sp hsp => by
    have := age_measured hs sp hsp
    rw [← hs.1] at this
    exact this, hs.2.2⟩
  obtain ⟨m, -, -, hm, -⟩ := calcCoverage_ok.mp h
  obtain ⟨m', -, -, hm', -⟩ := calcCoverage_ok.mp h'
  obtain ⟨m₂, hm₂, hp⟩ := C152_bigger_map (withSpots s (s.spots.age t).spots) hs' hR s.spots.spots hmeas (age_umbra hgood) hu hb lat0 lon0 m' hm'
  have e : m = m₂ := Except.ok.inj (hm.symm.trans hm₂)
  subst e
  refine ⟨⟨m, m', hm, hm', fun p => (hp p).1⟩, ?_⟩
  obtain ⟨k, x, x', h1, h2, h3, h4⟩ := C152_bigger (withSpots s (s.spots.age t).spots) hs' hg hR hld s.spots.spots hmeas (age_umbra hgood) hu hb
    lat0 lon0 hv gran hgran _ _ _ _ _ _ _ _ total' cov' total cov plf' plf h' h hsep' hsep
  exact ⟨k, x', x, h1, h3, h2, h4⟩

/-! ## An instance: a spot covers the whole visible side and vanishes within a day -/

/-- A spot of half the surface in the middle of the disk that shrinks by its whole area in a day. -/
def Spec.fadingSpot (g : Grid) : StarSpot := StarSpot.new 0 0 (4 * π) (.fin (2 * π)) 2700 2700 (.fin 4) false 0 (2 * π) g

/-- A star of radius 1 with that spot. -/
def Spec.fadingStar : Star := granStar (.rect 4 3) [fadingSpot (.rect 4 3)] 100

theorem fadingSpot_good (g : Grid) : GoodAging 1 (fadingSpot g) := by
  have := pi_pos
  refine ⟨⟨2 * π, rfl, by positivity, ?_, le_rfl, ?_⟩, ?_, ⟨4, rfl, by norm_num⟩, le_rfl⟩
  · change 2 * π ≤ 4 * π; linarith
  · change 0 ≤ 2 * π; linarith
  · change 4 * π ≤ 4 * π * 1 ^ 2; linarith

theorem fadingStar_age : fadingStar.age 1 = granStar (.rect 4 3) [] 100 := by
  rw [age_noFaculae fadingStar rfl]
  have : (fadingStar.spots.age 1).spots = [] := by
    rw [collection_age]
    change [(fadingSpot (.rect 4 3)).setGridmaker (.rect 4 3)].filterMap (ageOpt 1) = []
    rw [List.filterMap_cons, List.filterMap_nil]
    obtain ⟨⟨a, ha⟩, -⟩ := fadingSpot_good (.rect 4 3)
    have e : (fadingSpot (.rect 4 3)).setGridmaker (.rect 4 3) = fadingSpot (.rect 4 3) := rfl
    have ea : (2 * π) = a := Fl.fin_inj.mp ha.area
    rw [e, ageOpt_decay ha.live rfl, ← ea]
    have : ¬ (1 * (fadingSpot (.rect 4 3)).decayRate < 2 * π) := by
      change ¬ (1 * (2 * π) < 2 * π)
      simp
    rw [if_neg this]
  rw [this]
  rfl

theorem fadingStar_map (lat0 lon0 : ℝ) : fadingStar.addFaculaeToMap lat0 lon0 = (halfStar []).addFaculaeToMap lat0 lon0 :=
  (addFaculaeToMap_eq fadingStar ⟨rfl, measured_new _ _, by simp [fadingStar, granStar, sampleStar]⟩ lat0 lon0).trans
    (addFaculaeToMap_eq _ (halfStar_placed []) lat0 lon0).symm

theorem fadingStar_report (lat0 lon0 gran orbit r phase incl : ℝ) :
    fadingStar.calcCoverage lat0 lon0 gran orbit r phase incl = (halfStar []).calcCoverage lat0 lon0 gran orbit r phase incl :=
  coverage_of_map rfl _ _ _ _ _ _ _ (heq_of_eq (fadingStar_map lat0 lon0)) HEq.rfl HEq.rfl

/-- Non-trivial instance of C152: the spot that covers the visible side fades within a day.  Both reports exist, and the photosphere does not lose. -/
example : ∃ total cov plf total' cov' plf' k x x', fadingStar.calcCoverage 0 0 0.2 10 (1 / 2) (π / 2) 0 = .ok (total, cov, plf) ∧
    (fadingStar.age 1).calcCoverage 0 0 0.2 10 (1 / 2) (π / 2) 0 = .ok (total', cov', plf') ∧ |(k : ℤ) - 100 * (3000 : ℝ)| ≤ 1 / 2 ∧
    Dict.get? total k = some (.fin x) ∧ Dict.get? total' k = some (.fin x') ∧ x ≤ x' := by
  obtain ⟨total, cov, plf, h⟩ := halfStar_answers [] (by simp) 0
  rw [← fadingStar_report] at h
  obtain ⟨total', cov', h', -⟩ := quiet_example 0 0 (by constructor <;> linarith [pi_pos])
  rw [← fadingStar_age] at h'
  refine ⟨total, cov, plf, total', cov', .fin 1, ?_⟩
  have hpl : Placed fadingStar := ⟨rfl, measured_new _ _, by simp [fadingStar, granStar, sampleStar]⟩
  obtain ⟨-, k, x, x', h1, h2, h3, h4⟩ := C152_decaying fadingStar hpl rfl ⟨by omega, by omega⟩ one_pos (granStar_phys _ _ _) 1 zero_le_one
    (by intro sp hsp; obtain rfl := List.mem_singleton.mp hsp; exact fadingSpot_good _)
    (by intro sp hsp; obtain rfl := List.mem_singleton.mp hsp; rfl) 0 0 (visible_rect _ rfl (by omega) (by omega) 0 0) 0.2 (by norm_num)
    _ _ _ _ _ _ _ _ total cov total' cov' plf (.fin 1) h h'
    (by
      intro m gr hgr hm
      have hgr : gr = ⟨0.2, 1, 1, 100⟩ := (Option.some.inj hgr).symm
      subst hgr
      rw [fadingStar_map] at hm
      have := halfStar_apart m hm
      have eG : fadingStar.teff - (100 : ℝ) = 2900 := by norm_num [fadingStar, granStar, sampleStar]
      change Apart (Set.range m ∪ {3000, fadingStar.teff - (100 : ℝ)})
      rw [eG]
      exact this)
    (by
      intro m gr hgr hm
      have hgr : gr = ⟨0.2, 1, 1, 100⟩ := (Option.some.inj hgr).symm
      subst hgr
      rw [age_noFaculae_map fadingStar rfl] at hm
      have h0 : (fadingStar.spots.age 1).spots = [] := by
        have := congrArg (fun s : Star => s.spots.spots) fadingStar_age
        exact this
      rw [h0] at hm
      have hm := Except.ok.inj ((quiet_map (.rect 4 3) 100 0 0).symm.trans hm)
      subst hm
      have : ∀ T ∈ (Set.range fun _ : (Grid.rect 4 3).Pix => (3000 : ℝ)) ∪ {3000, 3000 - 100}, T = 3000 ∨ T = 2900 := by
        rintro T (⟨p, rfl⟩ | h | h)
        · exact Or.inl rfl
        · exact Or.inl h
        · rw [Set.mem_singleton_iff] at h
          exact Or.inr (by rw [h]; norm_num)
      intro T h T' h' hne
      rcases this T h with rfl | rfl <;> rcases this T' h' with rfl | rfl <;> first | exact absurd rfl hne | norm_num)
  exact ⟨k, x, x', h, h', h1, h2, h3, h4⟩

/-- A growing spot of half the surface whose area triples every day, up to 25 times the surface. -/
def Spec.triplingSpot (g : Grid) : StarSpot := StarSpot.new 0 0 (100 * π) (.fin (2 * π)) 2700 2700 (.fin 4) true 2 0 g

theorem triplingSpot_age (g : Grid) : (triplingSpot g).age 1 = { triplingSpot g with area := .fin (6 * π) } := by
  have := pi_pos
  have hp : Phys (triplingSpot g) (2 * π) := ⟨rfl, by positivity, by change 2 * π ≤ 100 * π; linarith, by change (0 : ℝ) ≤ 2; norm_num, le_rfl⟩
  rw [age_grow hp.live rfl (by change (0 : ℝ) < 2; norm_num)]
  change (if (1 : ℝ) < timeToMax (100 * π) (2 * π) 2 then ({ triplingSpot g with area := .fin (2 * π * exp (Real.log (1 + 2) * 1)) } : StarSpot) else _) = _
  have e : exp (Real.log (1 + 2) * 1) = 3 := by rw [mul_one, exp_log (by norm_num)]; norm_num
  rw [if_pos, e]
  · rw [show 2 * π * 3 = 6 * π by ring]
  · unfold timeToMax
    have : 100 * π / (2 * π) = 50 := by field_simp; norm_num
    rw [this, one_lt_div (log_pos (by norm_num))]
    exact log_lt_log (by norm_num) (by norm_num)

/-- The bound on the area is needed: a growing spot of 2700 K covers the visible side; a day later it is larger than the surface, still growing, and has
disappeared from the map — every pixel shows the photosphere. -/
theorem C152_counterexample : ∃ (s : Star) (m m' : (Grid.rect 4 3).Pix → ℝ), s = granStar (.rect 4 3) [triplingSpot (.rect 4 3)] 100 ∧
    (∀ sp ∈ (s.age 1).spots.spots, sp.isGrowing = true) ∧ (s.age 1).spots.spots.length = 1 ∧
    (granStar (.rect 4 3) [triplingSpot (.rect 4 3)] 100).addFaculaeToMap 0 0 = .ok m ∧ ((granStar (.rect 4 3) [triplingSpot (.rect 4 3)] 100).age 1).addFaculaeToMap 0 0 = .ok m' ∧
    (∃ p, m p = 2700) ∧ ∀ p, m' p = 3000 := by
  classical
  have hpl : Placed (granStar (.rect 4 3) [triplingSpot (.rect 4 3)] 100) := ⟨rfl, measured_new _ _, by simp [granStar, sampleStar]⟩
  have hspots : ((granStar (.rect 4 3) [triplingSpot (.rect 4 3)] 100).spots.age 1).spots = [{ triplingSpot (.rect 4 3) with area := .fin (6 * π) }] := by
    rw [collection_age]
    change [(triplingSpot (.rect 4 3)).setGridmaker (.rect 4 3)].filterMap (ageOpt 1) = _
    have e : (triplingSpot (.rect 4 3)).setGridmaker (.rect 4 3) = triplingSpot (.rect 4 3) := rfl
    rw [List.filterMap_cons, List.filterMap_nil, e]
    unfold ageOpt
    rw [triplingSpot_age, if_neg]
    rintro ⟨-, h⟩
    cases h
  have hspots' : ((granStar (.rect 4 3) [triplingSpot (.rect 4 3)] 100).age 1).spots.spots = [{ triplingSpot (.rect 4 3) with area := .fin (6 * π) }] := hspots
  refine ⟨_, fun p => if 0 < (Grid.rect 4 3).mu 0 0 p then 2700 else 3000, fun _ => 3000, rfl, ?_, ?_, ?_, ?_, ?_, fun _ => rfl⟩
  · rw [hspots']
    intro sp hsp
    obtain rfl := List.mem_singleton.mp hsp
    rfl
  · rw [hspots']; rfl
  · exact (addFaculaeToMap_eq _ hpl 0 0).trans ((addFaculaeToMap_eq _ (halfStar_placed []) 0 0).symm.trans halfStar_map)
  · rw [age_noFaculae_map _ rfl, hspots]
    refine (addFaculaeToMap_eq (withSpots (granStar (.rect 4 3) [triplingSpot (.rect 4 3)] 100) _) ⟨rfl, ?_, by simp [granStar, sampleStar]⟩ 0 0).trans ?_
    · intro sp hsp
      obtain rfl := List.mem_singleton.mp hsp
      rfl
    · change Except.ok _ = _
      congr 1
      funext p
      have hn := C18_membership ({ triplingSpot (.rect 4 3) with area := .fin (6 * π) } : StarSpot) (.rect 4 3) 1 (6 * π) 4 one_pos rfl rfl (by norm_num) p
      have h1 : ¬ inSpot ({ triplingSpot (.rect 4 3) with area := .fin (6 * π) } : StarSpot) (.rect 4 3) 1 p := by
        intro h
        obtain ⟨θ, -, hc, -⟩ := hn.1.mp h
        unfold capArea at hc
        have := neg_one_le_cos θ
        have := pi_pos
        nlinarith
      exact overlay_skip (fun h => h1 ((hn.2.2.1 rfl).mp h)) h1 3000
  · obtain ⟨-, ⟨p, hp⟩, -⟩ := halfStar_pixels
    exact ⟨p, if_pos hp⟩

end Vsm
