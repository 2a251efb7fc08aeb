import Verif.Props.MeanCoverage
import Verif.Props.StarState
import Verif.Props.StarCoverage2
import Verif.Props.DiskAccuracy2

/-!
# C177: the reported photosphere is on average exact
-/

noncomputable section

namespace Vsm

open Real MeasureTheory ProbabilityTheory Set Np Spec
open scoped ENNReal

/-! ### Specification -/

/-- Spots with the umbra part of the spot and not hotter, cooler than the photosphere and not of the temperature `G` of the granules, all
temperatures more than 0.01 K apart. -/
def Spec.CoolSpots (spots : List StarSpot) (teff G : ℝ) : Prop :=
  Nested spots ∧ (∀ s ∈ spots, s.teffUmbra ≤ s.teffPenumbra ∧ s.teffPenumbra < teff ∧ s.teffPenumbra ≠ G ∧ s.teffUmbra ≠ G) ∧
    ∀ T ∈ reportTemps spots teff G, ∀ T' ∈ reportTemps spots teff G, T ≠ T' → 1 / 100 < |T - T'|

/-- A planet whose part in front of or behind the star can be computed: not larger than the star while it is behind it. -/
def Spec.PlanetOk (R orbit r phase incl : ℝ) : Prop :=
  0 < r ∧ ¬ (0 < cos phase ∧ R < r ∧ planetDist (planetPos R orbit phase incl).1 (planetPos R orbit phase incl).2 0 0 ≤ 1 + 2 * (r / R))

/-- What `calc_coverage` reports for the temperature `T` of the random star `S` is on average `q` times what it reports for the star `s`: both
the fraction of the disk (total) and the fraction behind the planet (covered).  No report counts as zero. -/
def Spec.MeanReport {Ω : Type*} [MeasurableSpace Ω] (P : Measure Ω) (S : Ω → Star) (s : Star) (lat0 lon0 g orbit r phase incl T q : ℝ) : Prop :=
  ∃ (key : ℤ) (total₀ cov₀ : Dict ℤ Fl) (plf₀ : Fl) (u₀ c₀ : ℝ) (v c : Ω → ℝ), |(key : ℝ) - 100 * T| ≤ 1 / 2 ∧
    s.calcCoverage lat0 lon0 g orbit r phase incl = .ok (total₀, cov₀, plf₀) ∧
    Dict.get? total₀ key = some (.fin u₀) ∧ Dict.get? cov₀ key = some (.fin c₀) ∧
    (∀ᵐ ω ∂P, (∀ total cov plf, (S ω).calcCoverage lat0 lon0 g orbit r phase incl = .ok (total, cov, plf) →
        Dict.get? total key = some (.fin (v ω)) ∧ Dict.get? cov key = some (.fin (c ω))) ∧
      ∀ e, (S ω).calcCoverage lat0 lon0 g orbit r phase incl = .error e → v ω = 0 ∧ c ω = 0) ∧
    ∫ ω, v ω ∂P = q * u₀ ∧ ∫ ω, c ω ∂P = q * c₀

/-! ### One report -/

/-- The star with other spots (and flares). -/
abbrev relit (s : Star) (l : List StarSpot) (f : Option FlareCollection) : Star := { s with spots := SpotCollection.new l s.grid, flares := f }

open Classical in
/-- The part of the light that comes from the pixels in `A`, counted with the factor `c`. -/
def litShare (s : Star) (a c : s.grid.Pix → ℝ) (lat0 lon0 : ℝ) (A : ℝ → ℝ → Prop) : ℝ :=
  (∑ p, if A (s.grid.lat p) (s.grid.lon p) then pixelWeight s a lat0 lon0 p * c p else 0) / ∑ p, pixelWeight s a lat0 lon0 p

open Classical in
/-- The part of the light of the photosphere that is reported at temperature `T`. -/
def granPart (teff G g T : ℝ) : ℝ := (if T = teff then 1 else 0) + (if T = G then g else 0) - (if T = teff then g else 0)

theorem relit_map (s : Star) (l : List StarSpot) (f : Option FlareCollection) (hf : s.faculae.faculae = []) (hR : 0 < s.radius)
    (ha : ∀ sp ∈ l, ∃ b, sp.area = .fin b) (G : ℝ) (hc : CoolSpots l s.teff G) (lat0 lon0 : ℝ) :
    ∃ m : s.grid.Pix → ℝ, (relit s l f).addFaculaeToMap lat0 lon0 = .ok m ∧
      (∀ p, m p = s.teff ↔ uncovered l s.radius (s.grid.lat p) (s.grid.lon p)) ∧
      (∀ p, m p ∈ reportTemps l s.teff G) ∧ ∀ p, m p = G → G = s.teff := by
  obtain ⟨hn, hcool, -⟩ := hc
  have hmem : ∀ sp ∈ (SpotCollection.new l s.grid).spots, ∃ t ∈ l, sp = t.setGridmaker s.grid := fun sp h => by
    obtain ⟨t, h1, h2⟩ := List.mem_map.mp h
    exact ⟨t, h1, h2.symm⟩
  obtain ⟨m, hm, hleast, -⟩ := C19_coolest_partial (SpotCollection.new l s.grid) (measured_new _ _) s.radius s.teff (fun sp hsp => by
    obtain ⟨t, h1, rfl⟩ := hmem sp hsp
    exact (hcool t h1).1)
  have hmap := noFac_map (s := relit s l f) rfl (m₀ := m) hm hf lat0 lon0
  have htemp : ∀ p, m p = s.teff ∨ ∃ t ∈ l, (m p = t.teffPenumbra ∧ inSpot t s.grid s.radius p) ∨ (m p = t.teffUmbra ∧ inUmbra t s.grid s.radius p) := by
    intro p
    rcases (hleast p).1 with h | ⟨sp, h1, h2⟩
    · exact Or.inl h
    · obtain ⟨t, h3, rfl⟩ := hmem sp h1
      exact Or.inr ⟨t, h3, h2⟩
  refine ⟨m, hmap, fun p => ⟨fun h t ht hin => ?_, fun hu => ?_⟩, fun p => ?_, fun p hp => ?_⟩
  · obtain ⟨b, hb⟩ := ha t ht
    have h1 : inSpot t s.grid s.radius p := (pixel_inside t s.grid hR hb p).mpr hin
    have h2 := (hleast p).2 (Or.inr ⟨t.setGridmaker s.grid, List.mem_map_of_mem ht, Or.inl ⟨rfl, h1⟩⟩)
    rw [h] at h2
    exact absurd (hcool t ht).2.1 (not_lt.mpr h2)
  · rcases htemp p with h | ⟨t, h1, h2⟩
    · exact h
    · exfalso
      obtain ⟨b, hb⟩ := ha t h1
      obtain ⟨q, hq, hq1⟩ := hn t h1
      have h4 : inSpot t s.grid s.radius p := by
        rcases h2 with h2 | h2
        · exact h2.2
        · exact (C18_membership t s.grid s.radius b q hR hb hq (by linarith) p).2.2.2 hq1 h2.2
      exact hu t h1 ((pixel_inside t s.grid hR hb p).mp h4)
  · rcases htemp p with h | ⟨t, h1, h2⟩
    · exact Or.inl (Or.inl h)
    · exact Or.inr ⟨t, h1, h2.imp And.left And.left⟩
  · rcases htemp p with h | ⟨t, h1, h2⟩
    · exact hp.symm.trans h
    · exfalso
      rcases h2 with ⟨h2, -⟩ | ⟨h2, -⟩
      · exact (hcool t h1).2.2.1 (h2.symm.trans hp)
      · exact (hcool t h1).2.2.2 (h2.symm.trans hp)

theorem relit_report (s : Star) (l : List StarSpot) (f : Option FlareCollection) (hf : s.faculae.faculae = []) (hg : goodGrid s.grid) (hR : 0 < s.radius)
    (hld : PhysicalLD s.u1 s.u2) (lat0 lon0 : ℝ) (h0 : lat0 ∈ Set.Icc (-(π / 2)) (π / 2)) (hv : Visible s lat0 lon0) (gr : Granulation)
    (hgr : s.granulation = some gr) (ha : ∀ sp ∈ l, ∃ b, sp.area = .fin b) (hc : CoolSpots l s.teff (s.teff - gr.dteff))
    (g orbit r phase incl : ℝ) (hpl : PlanetOk s.radius orbit r phase incl) (a : s.grid.Pix → ℝ) (haa : ∀ p, s.grid.area p = .fin (a p))
    (c : s.grid.Pix → ℝ) (plf : Fl) (ht : s.transitMask lat0 lon0 orbit r phase incl = .ok (fun p => .fin (c p), plf)) :
    (∀ total cov plf', (relit s l f).calcCoverage lat0 lon0 g orbit r phase incl = .ok (total, cov, plf') →
      ∀ T, T = s.teff ∨ T = s.teff - gr.dteff →
        Dict.get? total (Star.key T) = some (.fin (granPart s.teff (s.teff - gr.dteff) g T * litShare s a (fun _ => 1) lat0 lon0 (uncovered l s.radius))) ∧
        Dict.get? cov (Star.key T) = some (.fin (granPart s.teff (s.teff - gr.dteff) g T * litShare s a c lat0 lon0 (uncovered l s.radius)))) ∧
    ((∃ p : s.grid.Pix, uncovered l s.radius (s.grid.lat p) (s.grid.lon p)) →
      ∃ res, (relit s l f).calcCoverage lat0 lon0 g orbit r phase incl = .ok res) := by
  classical
  obtain ⟨-, hW⟩ := visible_pos s hg hld haa hv
  set G := s.teff - gr.dteff with hG
  obtain ⟨m, hm, hm1, hm2, hm3⟩ := relit_map s l f hf hR ha G hc lat0 lon0
  have hw : ∀ p, (relit s l f).weight lat0 lon0 p = .fin (pixelWeight s a lat0 lon0 p) := weight_eq s a haa lat0 lon0
  constructor
  · intro total cov plf' h T hT
    obtain ⟨m', mask, gr', hm', ht', hgr', h1, h2⟩ := calcCoverage_ok.mp h
    have hmm : m = m' := Except.ok.inj (hm.symm.trans hm')
    subst hmm
    have : gr' = gr := by
      have : s.granulation = some gr' := hgr'
      rw [hgr, Option.some.injEq] at this
      exact this.symm
    subst this
    have hmask : mask = fun p => .fin (c p) := by
      have : s.transitMask lat0 lon0 orbit r phase incl = .ok (mask, plf') := ht'
      rw [ht, Except.ok.injEq, Prod.mk.injEq] at this
      exact this.1.symm
    subst hmask
    have hinj : ∀ T T', (T ∈ Set.range m ∨ T = s.teff ∨ T = G) → (T' ∈ Set.range m ∨ T' = s.teff ∨ T' = G) → Star.key T = Star.key T' → T = T' := by
      have hin : ∀ T, (T ∈ Set.range m ∨ T = s.teff ∨ T = G) → T ∈ reportTemps l s.teff G := by
        rintro T (⟨p, rfl⟩ | h | h)
        · exact hm2 p
        · exact Or.inl (Or.inl h)
        · exact Or.inl (Or.inr h)
      exact fun T T' k1 k2 hk => key_inj_of_sep (hc.2.2 T (hin T k1) T' (hin T' k2)) hk
    have hshare : ∀ c : s.grid.Pix → ℝ, share (pixelWeight s a lat0 lon0) m c s.teff = litShare s a c lat0 lon0 (uncovered l s.radius) := by
      intro c
      unfold share litShare
      simp only [hm1]
    have hzero : ∀ c : s.grid.Pix → ℝ, G ≠ s.teff → share (pixelWeight s a lat0 lon0) m c G = 0 := fun c hne =>
      share_of_notMem fun p hp => hne (hm3 p hp)
    have hfin : ∀ c : s.grid.Pix → ℝ, share (pixelWeight s a lat0 lon0) m c T +
        (if T = G then g * share (pixelWeight s a lat0 lon0) m c s.teff else 0) -
        (if T = s.teff then g * share (pixelWeight s a lat0 lon0) m c s.teff else 0) =
        granPart s.teff G g T * litShare s a c lat0 lon0 (uncovered l s.radius) := by
      intro c
      unfold granPart
      by_cases h1 : T = s.teff
      · subst h1
        rw [hshare]
        by_cases h2 : s.teff = G
        · rw [if_pos h2, if_pos rfl, if_pos rfl, if_pos h2, if_pos rfl]; ring
        · rw [if_neg h2, if_pos rfl, if_pos rfl, if_neg h2, if_pos rfl]; ring
      · have h2 : T = G := hT.resolve_left h1
        subst h2
        rw [hzero c h1, hshare, if_pos rfl, if_neg h1, if_neg h1, if_pos rfl, if_neg h1]; ring
    have e1 := (entries_of_sep (c := fun _ => 1) hw hW.ne' h1 hinj).2.1 T (Or.inr hT)
    have e2 := (entries_of_sep (c := c) hw hW.ne' h2 hinj).2.1 T (Or.inr hT)
    refine ⟨e1.trans ?_, e2.trans ?_⟩
    · rw [← hfin]
    · rw [← hfin]
  · rintro ⟨p, hp⟩
    have hWw : ∑ p, (relit s l f).weight lat0 lon0 p = .fin (∑ p, pixelWeight s a lat0 lon0 p) := by
      rw [← Fl.sum_fin]
      exact Finset.sum_congr rfl fun p _ => hw p
    have hq : ∀ sp ∈ (relit s l f).spots.spots, ¬ inSpot sp s.grid s.radius p ∧ ¬ inUmbra sp s.grid s.radius p := by
      intro sp hsp
      obtain ⟨t, h1, rfl⟩ := List.mem_map.mp hsp
      obtain ⟨b, hb⟩ := ha t h1
      obtain ⟨q, hq, hq1⟩ := hc.1 t h1
      have hns : ¬ inSpot t s.grid s.radius p := fun h => hp t h1 ((pixel_inside t s.grid hR hb p).mp h)
      exact ⟨hns, fun h => hns ((C18_membership t s.grid s.radius b q hR hb hq (by linarith) p).2.2.2 hq1 h)⟩
    obtain ⟨total, cov, v, h, -⟩ := C59_answers_partial (relit s l f) hg hR lat0 lon0 _ hWw hW.ne' h0 gr hgr rfl (measured_new _ _)
      (fun fc hfc => by rw [show (relit s l f).faculae.faculae = [] from hf] at hfc; cases hfc)
      (Or.inr ⟨p, hq, fun fc hfc => by rw [show (relit s l f).faculae.faculae = [] from hf] at hfc; cases hfc⟩) g orbit r phase incl hpl.1
      _ _ rfl hpl.2
    exact ⟨_, h⟩

/-! ### The mean of the reports -/

theorem coolSpots_mono {l l' : List StarSpot} {teff G : ℝ} (h : CoolSpots l' teff G) (hs : ∀ sp ∈ l, sp ∈ l') : CoolSpots l teff G := by
  have key : reportTemps l teff G ⊆ reportTemps l' teff G := by
    rintro T (h | ⟨sp, h1, h2⟩)
    · exact Or.inl h
    · exact Or.inr ⟨sp, hs sp h1, h2⟩
  exact ⟨fun sp hsp => h.1 sp (hs sp hsp), fun sp hsp => h.2.1 sp (hs sp hsp), fun T h1 T' h2 => h.2.2 T (key h1) T' (key h2)⟩

open Classical in
theorem litShare_and (s : Star) (a c : s.grid.Pix → ℝ) (lat0 lon0 : ℝ) (U A : ℝ → ℝ → Prop) :
    litShare s a c lat0 lon0 (fun φ l => U φ l ∧ A φ l) =
      litShare s a (fun p => if U (s.grid.lat p) (s.grid.lon p) then c p else 0) lat0 lon0 A := by
  unfold litShare
  congr 1
  refine Finset.sum_congr rfl fun p _ => ?_
  by_cases h1 : U (s.grid.lat p) (s.grid.lon p) <;> by_cases h2 : A (s.grid.lat p) (s.grid.lon p) <;> simp [h1, h2]

theorem litShare_mean {Ω : Type*} [MeasurableSpace Ω] (P : Measure Ω) [IsProbabilityMeasure P] (s : Star) (a c : s.grid.Pix → ℝ) (lat0 lon0 : ℝ)
    (A : Ω → ℝ → ℝ → Prop) (hA : ∀ φ l, MeasurableSet {ω | A ω φ l}) (q : ℝ) (hq : 0 ≤ q)
    (hP : ∀ φ l, P {ω | A ω φ l} = ENNReal.ofReal q) :
    ∫ ω, litShare s a c lat0 lon0 (A ω) ∂P = q * litShare s a c lat0 lon0 fun _ _ => True := by
  classical
  set w := fun p => pixelWeight s a lat0 lon0 p * c p with hw
  have hi : ∀ p, Integrable (fun ω => if A ω (s.grid.lat p) (s.grid.lon p) then w p else 0) P := fun p =>
    Integrable.of_bound (Measurable.ite (hA _ _) measurable_const measurable_const).aestronglyMeasurable |w p|
      (Filter.Eventually.of_forall fun ω => by split_ifs <;> simp)
  have hI : ∀ p, ∫ ω, (if A ω (s.grid.lat p) (s.grid.lon p) then w p else 0) ∂P = q * w p := by
    intro p
    have e : (fun ω => if A ω (s.grid.lat p) (s.grid.lon p) then w p else 0) = {ω | A ω (s.grid.lat p) (s.grid.lon p)}.indicator fun _ => w p := by
      funext ω
      by_cases h : A ω (s.grid.lat p) (s.grid.lon p) <;> simp [h]
    rw [e, integral_indicator_const _ (hA _ _), measureReal_def, hP, ENNReal.toReal_ofReal hq, smul_eq_mul]
  unfold litShare
  rw [integral_div]
  have e : ∫ ω, ∑ p, (if A ω (s.grid.lat p) (s.grid.lon p) then w p else 0) ∂P = ∑ p, q * w p := by
    rw [integral_finsetSum _ fun p _ => hi p]
    exact Finset.sum_congr rfl fun p _ => hI p
  simp only [if_true]
  rw [← mul_div_assoc, Finset.mul_sum]
  exact congrArg (· / _) e

theorem mean_report {Ω : Type*} [MeasurableSpace Ω] (P : Measure Ω) [IsProbabilityMeasure P] (s : Star)
    (hu : Unified s s.grid) (hf : s.faculae.faculae = []) (hg : goodGrid s.grid) (hR : 0 < s.radius)
    (hld : PhysicalLD s.u1 s.u2) (lat0 lon0 : ℝ) (h0 : lat0 ∈ Set.Icc (-(π / 2)) (π / 2)) (hv : Visible s lat0 lon0) (gr : Granulation)
    (hgr : s.granulation = some gr) (g orbit r phase incl : ℝ) (hpl : PlanetOk s.radius orbit r phase incl)
    (hareas : ∀ sp ∈ s.spots.spots, ∃ b, sp.area = .fin b)
    (hfree : ∃ p, uncovered s.spots.spots s.radius (s.grid.lat p) (s.grid.lon p)) (S : Ω → Star)
    (hS : ∀ᵐ ω ∂P, SameSettings s (S ω) ∧ Unified (S ω) s.grid ∧ (S ω).faculae.faculae = [] ∧ (∀ sp ∈ (S ω).spots.spots, ∃ b, sp.area = .fin b) ∧
      CoolSpots (S ω).spots.spots s.teff (s.teff - gr.dteff)) (hsub : ∀ᵐ ω ∂P, ∀ sp ∈ s.spots.spots, sp ∈ (S ω).spots.spots)
    (A : Ω → ℝ → ℝ → Prop) (hAl : ∀ᵐ ω ∂P, uncovered (S ω).spots.spots s.radius = fun φ l => uncovered s.spots.spots s.radius φ l ∧ A ω φ l)
    (hA : ∀ φ l, MeasurableSet {ω | A ω φ l}) (q : ℝ) (hq : 0 ≤ q)
    (hP : ∀ φ l, P {ω | A ω φ l} = ENNReal.ofReal q) (T : ℝ) (hT : T = s.teff ∨ T = s.teff - gr.dteff) :
    MeanReport P S s lat0 lon0 g orbit r phase incl T q := by
  classical
  obtain ⟨a, haa, -⟩ := C02_area_partition s.grid hg
  have hrel : ∀ s' : Star, SameSettings s s' → Unified s' s.grid → s'.faculae.faculae = [] → s' = relit s s'.spots.spots s'.flares := by
    intro s' h1 h2 h3
    have hsp : SpotCollection.new s'.spots.spots s.grid = s'.spots := by
      have : s'.spots.spots.map (fun sp => sp.setGridmaker s.grid) = s'.spots.spots := by
        conv_rhs => rw [← List.map_id s'.spots.spots]
        exact List.map_congr_left fun sp hsp => onGrid_iff.mp (h2.eachSpot sp hsp)
      have h4 := h2.spots
      unfold SpotCollection.new SpotCollection.setGridmaker
      cases hh : s'.spots with
      | mk sp gr =>
        rw [hh] at this h4
        simp only at this h4 ⊢
        rw [this, h4]
    have hfa : s'.faculae = s.faculae := by
      have h4 := h2.faculae
      have h5 := hu.faculae
      cases hh : s'.faculae with
      | mk x1 x2 =>
        cases hh' : s.faculae with
        | mk y1 y2 =>
          rw [hh] at h3 h4; rw [hh'] at hf h5
          simp only at h3 h4 hf h5
          rw [h3, h4, hf, h5]
    obtain ⟨k1, k2, k3, k4, k5, k6, k7, k8, k9, k10⟩ := h1
    unfold relit
    rw [hsp, ← hfa, ← k1, ← k2, ← k3, ← k4, ← k5, ← k6, ← k7, ← k8, ← k9, ← k10]
  have hs0 := hrel s ⟨rfl, rfl, rfl, rfl, rfl, rfl, rfl, rfl, rfl, rfl⟩ hu hf
  have hcool0 : CoolSpots s.spots.spots s.teff (s.teff - gr.dteff) := by
    obtain ⟨ω, h1, h2⟩ := (hS.and hsub).exists
    exact coolSpots_mono h1.2.2.2.2 h2
  have hans : ∃ mask plf, s.transitMask lat0 lon0 orbit r phase incl = .ok (mask, plf) := by
    cases ht : s.transitMask lat0 lon0 orbit r phase incl with
    | error e =>
      exact absurd (((C64_planet_fraction s hg hR lat0 lon0 orbit r phase incl hpl.1 h0 _ _ _ rfl rfl).1 e).mp ht).2 hpl.2
    | ok res => exact ⟨res.1, res.2, rfl⟩
  obtain ⟨mask, plf, ht⟩ := hans
  obtain ⟨c, rfl, -⟩ := mask_real hg hR.ne' h0 ht
  have hrep := fun (l : List StarSpot) (f : Option FlareCollection) (h1 : ∀ sp ∈ l, ∃ b, sp.area = .fin b) (h2 : CoolSpots l s.teff (s.teff - gr.dteff)) =>
    relit_report s l f hf hg hR hld lat0 lon0 h0 hv gr hgr h1 h2 g orbit r phase incl hpl a haa c plf ht
  have r0 := hrep s.spots.spots s.flares hareas hcool0
  obtain ⟨⟨total₀, cov₀, plf₀⟩, hres⟩ := r0.2 hfree
  obtain ⟨t1, t2⟩ := r0.1 total₀ cov₀ plf₀ hres T hT
  set β := granPart s.teff (s.teff - gr.dteff) g T with hβ
  refine ⟨Star.key T, total₀, cov₀, plf₀, _, _, fun ω => β * litShare s a (fun _ => 1) lat0 lon0 (uncovered (S ω).spots.spots s.radius),
    fun ω => β * litShare s a c lat0 lon0 (uncovered (S ω).spots.spots s.radius), key_near T, by rw [← hs0] at hres; exact hres, t1, t2, ?_, ?_, ?_⟩
  · filter_upwards [hS] with ω ⟨h1, h2, h3, h4, h5⟩
    have e := hrel (S ω) h1 h2 h3
    have r1 := hrep (S ω).spots.spots (S ω).flares h4 h5
    rw [← e] at r1
    refine ⟨fun total cov plf h => r1.1 total cov plf h T hT, fun e he => ?_⟩
    have hno : ∀ p : s.grid.Pix, ¬ uncovered (S ω).spots.spots s.radius (s.grid.lat p) (s.grid.lon p) := fun p hp => by
      obtain ⟨res, hr⟩ := r1.2 ⟨p, hp⟩
      rw [he] at hr; cases hr
    have hz : ∀ c : s.grid.Pix → ℝ, litShare s a c lat0 lon0 (uncovered (S ω).spots.spots s.radius) = 0 := by
      intro c
      unfold litShare
      rw [Finset.sum_eq_zero fun p _ => if_neg (hno p), zero_div]
    simp only [hz, mul_zero, and_self]
  all_goals
    have e : ∀ c : s.grid.Pix → ℝ, litShare s a c lat0 lon0 (uncovered s.spots.spots s.radius) =
        litShare s a (fun p => if uncovered s.spots.spots s.radius (s.grid.lat p) (s.grid.lon p) then c p else 0) lat0 lon0 fun _ _ => True := fun c => by
      rw [← litShare_and]; simp only [and_true]
    rw [integral_const_mul, ← mul_left_comm, e, ← litShare_mean P s a _ lat0 lon0 A hA q hq hP]
    congr 1
    refine integral_congr_ae ?_
    filter_upwards [hAl] with ω hω
    rw [hω, litShare_and]

/-- **C177** What `calc_coverage` reports for the photosphere and for the granules is on average exact, however coarse the grid.  To a star
without faculae `n` spots are added that its generator places isotropically, all spots cooler than the photosphere, with umbrae that are part of
them.  Then the mean fraction of the disk reported at the temperature of the photosphere (and of the granules) is exactly
`(1 − A₀/(4πR²))^n` times the fraction that the same call reports for the star before, and the same holds for the fraction behind the
planet: for every observer, limb darkening, granulation and planet, and whatever spots the star has already. -/
theorem C177_newborn {Ω : Type*} [MeasurableSpace Ω] (P : Measure Ω) [IsProbabilityMeasure P] (s : Star)
    (hareas : ∀ sp ∈ s.spots.spots, ∃ b, sp.area = .fin b)
    (hfree : ∃ p, uncovered s.spots.spots s.radius (s.grid.lat p) (s.grid.lon p))
    (hu : Unified s s.grid) (hf : s.faculae.faculae = []) (hg : goodGrid s.grid) (hR : 0 < s.radius) (hld : PhysicalLD s.u1 s.u2)
    (hiso : s.spotGen.distribution = .iso) (h0 : 0 ≤ s.spotGen.initArea) (h1 : s.spotGen.initArea ≤ 4 * π * s.radius ^ 2)
    (gr : Granulation) (hgr : s.granulation = some gr)
    (n : ℕ) (D : Ω → SpotDraws n) (l : Ω → List StarSpot)
    (hm : Measurable (fun ω i => ((((D ω).uLat i : ℝ), ((D ω).uLon i : ℝ)), (D ω).z i)))
    (hlaw : P.map (fun ω i => ((((D ω).uLat i : ℝ), ((D ω).uLon i : ℝ)), (D ω).z i)) = Measure.pi (fun _ => drawLaw))
    (hl : ∀ᵐ ω ∂P, s.spotGen.generate n (D ω) = .ok (l ω))
    (hcool : ∀ᵐ ω ∂P, CoolSpots (s.spots.spots ++ l ω) s.teff (s.teff - gr.dteff)) :
    ∀ lat0 ∈ Set.Icc (-(π / 2)) (π / 2), ∀ lon0 g orbit r phase incl T : ℝ, Visible s lat0 lon0 → PlanetOk s.radius orbit r phase incl →
      (T = s.teff ∨ T = s.teff - gr.dteff) → MeanReport P (fun ω => s.addSpot (l ω)) s lat0 lon0 g orbit r phase incl T
        ((1 - s.spotGen.initArea / (4 * π * s.radius ^ 2)) ^ n) := by
  intro lat0 hlat0 lon0 g orbit r phase incl T hv hpl hT
  have hshare : ∫ _, capShare s.radius s.spotGen.initArea ∂gaussianReal 0 1 = s.spotGen.initArea / (4 * π * s.radius ^ 2) := by
    rw [integral_const, probReal_univ, one_smul]; exact if_pos ⟨h0, h1⟩
  have hc := capShare_mean hR (fun _ => s.spotGen.initArea) measurable_const
  rw [hshare] at hc
  have hspots : ∀ ω, s.spotGen.generate n (D ω) = .ok (l ω) → (s.addSpot (l ω)).spots.spots = s.spots.spots ++ l ω := by
    intro ω hω
    simp only [Star.addSpot, SpotCollection.addSpot]
    congr 1
    conv_rhs => rw [← List.map_id (l ω)]
    refine List.map_congr_left fun sp hsp => ?_
    have := (generate_onGrid hω sp hsp).1
    rw [hu.spotGen, ← hu.spots] at this
    rw [← this]
    rfl
  set y := fun ω (i : Fin n) => ((((D ω).uLat i : ℝ), ((D ω).uLon i : ℝ)), (D ω).z i) with hy
  have hB : ∀ φ ψ, MeasurableSet {y : (ℝ × ℝ) × ℝ | spares s.radius (fun _ => s.spotGen.initArea) y φ ψ} := fun φ ψ =>
    (inCap_measurable s.radius φ ψ _ measurable_const).compl
  refine mean_report P s hu hf hg hR hld lat0 lon0 hlat0 hv gr hgr g orbit r phase incl hpl hareas hfree _ ?_ ?_
    (fun ω φ ψ => ∀ i, spares s.radius (fun _ => s.spotGen.initArea) (y ω i) φ ψ) ?_ (fun φ ψ => ?_) _ (pow_nonneg (by linarith) n) (fun φ ψ => ?_) T hT
  · filter_upwards [hl, hcool] with ω hω hcω
    have hrun : runOp s (.addSpot (l ω)) = .ok (s.addSpot (l ω)) := rfl
    rw [hspots ω hω]
    refine ⟨(step_frame hrun).1, unified_step hu _ hrun ?_, hf, fun sp hsp => ?_, hcω⟩
    · intro new e sp hsp
      simp only [Op.addSpot.injEq] at e
      subst e
      have := (generate_onGrid hω sp hsp).2
      rwa [hu.spotGen] at this
    · rcases List.mem_append.mp hsp with hsp | hsp
      · exact hareas sp hsp
      · exact ⟨_, (((C27_generate _ n _).2.2 _ hω).2.1 sp hsp).area⟩
  · filter_upwards [hl] with ω hω
    intro sp hsp
    rw [hspots ω hω]
    exact List.mem_append_left _ hsp
  · filter_upwards [hl] with ω hω
    rw [hspots ω hω]
    have e := generated_uncovered _ hiso hR n (D ω) (l ω) hω
    funext φ ψ
    have e' := congrFun (congrFun e φ) ψ
    rw [← e']
    simp only [uncovered, List.mem_append, or_imp, forall_and]
  · have : {ω | ∀ i, spares s.radius (fun _ => s.spotGen.initArea) (y ω i) φ ψ} =
        ⋂ i, (fun ω => y ω i) ⁻¹' {y | spares s.radius (fun _ => s.spotGen.initArea) y φ ψ} := by ext ω; simp
    rw [this]
    exact MeasurableSet.iInter fun i => ((measurable_pi_apply i).comp hm) (hB φ ψ)
  · rw [show {ω | ∀ i, spares s.radius (fun _ => s.spotGen.initArea) (y ω i) φ ψ} =
      {ω | ∀ i, y ω i ∈ {y | spares s.radius (fun _ => s.spotGen.initArea) y φ ψ}} from rfl, all_chance P n y hm hlaw _ (hB φ ψ),
      ENNReal.ofReal_pow (by linarith), ← hshare, ← spare_chance hR φ ψ (fun _ => s.spotGen.initArea) measurable_const (fun _ => h0)]
    rfl

/-- **C177** (settled star) The star goes through `N` steps of length `dt`, in each of which isotropic spots are born for the time `dt` and the
star ages by `dt`.  If the spots at the end are cooler than the photosphere, with umbrae that are part of them, then the mean fraction reported
at the temperature of the photosphere (and of the granules) is exactly `exp(−c)` times the fraction reported for the star without spots, where
`c` is the mean of the summed shares of the surface that the spots cover; the same holds for the fraction behind the planet. -/
theorem C177_settled {Ω : Type*} [MeasurableSpace Ω] (P : Measure Ω) [IsProbabilityMeasure P] (s₀ : Star) (hgn : GoodGens s₀) (h₀ : SoundStar s₀)
    (hs : s₀.spots.spots = []) (hu : Unified s₀ s₀.grid) (hf : s₀.faculae.faculae = []) (hg : goodGrid s₀.grid)
    (hmean : s₀.spotGen.initArea ≤ s₀.spotGen.distAreaMean) (hgr : 0 < s₀.spotGen.growthRate)
    (hdec : 0 < s₀.spotGen.decayRate) (hσ : 0 ≤ s₀.spotGen.distAreaLogsigma) (hdist : s₀.spotGen.distribution = .iso)
    (hc : 0 ≤ s₀.spotGen.coverage) (hR : 0 < s₀.radius) (hld : PhysicalLD s₀.u1 s₀.u2)
    (gr : Granulation) (hgra : s₀.granulation = some gr) (dt : ℝ) (hd : 0 < dt) (N : ℕ) :
    ∃ x : ℝ, s₀.spotGen.nExpected dt s₀.radius = .fin x ∧
      ∀ (K : ℕ → Ω → ℕ) (D : ℕ → Ω → (n : ℕ) → SpotDraws n),
      FairSpots P x K (fun j n ω i => ((((D j ω n).uLat i : ℝ), ((D j ω n).uLon i : ℝ)), (D j ω n).z i)) →
      (∀ᵐ ω ∂P, ∀ j n, ∃ k, ∀ i, 0 < (D j ω n).ratios k i) →
      ∃ (S : Ω → Star) (c : ℝ), 0 ≤ c ∧
        (∀ᵐ ω ∂P, ((List.range N).flatMap fun j => [Op.birthSpots dt (K j ω) (D j ω), Op.age dt]).foldlM runOp s₀ = .ok (S ω)) ∧
        ∫⁻ ω, (((S ω).spots.spots.map fun s => ENNReal.ofReal (capShare s₀.radius (spotAreaNow s))).sum) ∂P = ENNReal.ofReal c ∧
        ((∀ᵐ ω ∂P, CoolSpots (S ω).spots.spots s₀.teff (s₀.teff - gr.dteff)) →
          ∀ lat0 ∈ Set.Icc (-(π / 2)) (π / 2), ∀ lon0 g orbit r phase incl T : ℝ, Visible s₀ lat0 lon0 → PlanetOk s₀.radius orbit r phase incl →
            (T = s₀.teff ∨ T = s₀.teff - gr.dteff) → MeanReport P S s₀ lat0 lon0 g orbit r phase incl T (exp (-c))) := by
  obtain ⟨x', b3', hrun'⟩ := C123_settled_light P s₀ hgn h₀ hs hmean hgr hdec hσ hdist hc hR dt hd N
  obtain ⟨x, b3, hx0, hrun⟩ := settled_run P s₀ hgn h₀ hs hmean hgr hdec hσ hdist hc hR dt hd N
  obtain rfl : x = x' := by rw [b3] at b3'; exact Fl.fin_inj.mp b3'
  refine ⟨x, b3, fun K D hF hacc => ?_⟩
  obtain ⟨S', c, hc0, hS', hshare, hlight, -⟩ := hrun' K D hF hacc
  obtain ⟨S, hS, hsum, hunc⟩ := hrun K D hF hacc
  have hSS : ∀ᵐ ω ∂P, S' ω = S ω := by
    filter_upwards [hS, hS'] with ω w1 w2
    rw [w1] at w2; exact (Except.ok.inj w2).symm
  have h1 : 0 < s₀.spotGen.initArea := hgn.init
  have h2 : 0 < s₀.spotGen.distAreaMean := hgn.mean
  refine ⟨S', c, hc0, hS', hshare, fun hcool lat0 hlat0 lon0 g orbit r phase incl T hv hpl hT => ?_⟩
  set α : ℕ → ℝ → ℝ := fun j z => spotAreaAt s₀.spotGen.initArea (peakOf s₀.spotGen.distAreaMean s₀.spotGen.distAreaLogsigma z) s₀.spotGen.growthRate
    s₀.spotGen.decayRate ((N - j : ℕ) * dt) with hα
  have hαm : ∀ j, Measurable (α j) := fun j => spotAreaAt_measurable h1 h2 _
  have hα0 : ∀ j z, 0 ≤ α j z := fun j z => (spotArea_mem h1 (peak_pos h2 z) hgr hdec _).1
  have hl := run_light P (u1 := 0) (u2 := 0) ⟨by norm_num, by norm_num, by norm_num⟩ 0 0 hR x hx0 K _ hF N α hαm hα0
  have hl2 := hlight 0 0 0 0 ⟨by norm_num, by norm_num, by norm_num⟩
  have e := (integral_congr_ae (μ := P) (by
    filter_upwards [hunc, hSS] with ω hω hω'
    rw [hω', hω])).symm.trans hl2
  rw [← e, hl]
  have hB : ∀ j φ ψ, MeasurableSet {y : (ℝ × ℝ) × ℝ | spares s₀.radius (α j) y φ ψ} := fun j φ ψ => (inCap_measurable s₀.radius φ ψ (α j) (hαm j)).compl
  have hun0 : uncovered s₀.spots.spots s₀.radius = fun _ _ => True := by
    rw [hs]; funext φ l
    simp [uncovered]
  obtain ⟨pv, -⟩ := id hv
  refine mean_report P s₀ hu hf hg hR hld lat0 lon0 hlat0 hv gr hgra g orbit r phase incl hpl (fun sp hsp => by rw [hs] at hsp; cases hsp)
    ⟨pv, by rw [hun0]; trivial⟩ _ ?_ (Filter.Eventually.of_forall fun ω sp hsp => by rw [hs] at hsp; cases hsp)
    (fun ω φ ψ => ∀ j < N, ∀ i, spares s₀.radius (α j) ((((D j ω (K j ω)).uLat i : ℝ), ((D j ω (K j ω)).uLon i : ℝ)), (D j ω (K j ω)).z i) φ ψ)
    ?_ (fun φ ψ => ?_) _ (exp_pos _).le (fun φ ψ => ?_) T hT
  · filter_upwards [hS', hcool] with ω hω hcω
    have hop : ∀ op ∈ ((List.range N).flatMap fun j => [Op.birthSpots dt (K j ω) (D j ω), Op.age dt]),
        Sane op ∧ ¬ addsFaculae op ∧ ∀ new, op ≠ .addSpot new := by
      intro op hop
      obtain ⟨j, -, hj⟩ := List.mem_flatMap.mp hop
      simp only [List.mem_cons, List.not_mem_nil, or_false] at hj
      rcases hj with rfl | rfl
      · exact ⟨trivial, by simp [addsFaculae], by simp⟩
      · exact ⟨hd.le, by simp [addsFaculae], by simp⟩
    have hset := history_induction (P := fun s => SameSettings s₀ s ∧ s.faculae.faculae = []) ⟨⟨rfl, rfl, rfl, rfl, rfl, rfl, rfl, rfl, rfl, rfl⟩, hf⟩
      (fun op ho s s' hp e => by
        refine ⟨sameSettings_trans hp.1 (step_frame e).1, ?_⟩
        rw [(step_frame e).2.2.2.2.2 (hop op ho).2.1]
        generalize ages [op] = ts
        have key : ∀ c : FaculaCollection, c.faculae = [] → (ts.foldl FaculaCollection.age c).faculae = [] := by
          induction ts with
          | nil => exact fun c hc => hc
          | cons t ts ih =>
            intro c hc
            exact ih _ (by simp [FaculaCollection.age, FaculaCollection.clean, hc])
        exact key _ hp.2) hω
    refine ⟨hset.1, (C29_one_grid_partial s₀ (S' ω) s₀.grid hu _ (fun new hnew => absurd rfl ((hop _ hnew).2.2 new)) hω).1, hset.2, fun s hsp => ?_, hcω⟩
    obtain ⟨b, hb, -⟩ := (C78_sound s₀ (S' ω) _ hgn h₀ (fun op h => (hop op h).1) hω).1.1 s hsp
    exact ⟨b, hb⟩
  · filter_upwards [hunc, hSS] with ω hω hω'
    rw [hω', hω, hun0]
    funext φ ψ
    exact propext ⟨fun h => ⟨trivial, h⟩, fun h => h.2⟩
  · have : {ω | ∀ j < N, ∀ i, spares s₀.radius (α j) ((((D j ω (K j ω)).uLat i : ℝ), ((D j ω (K j ω)).uLon i : ℝ)), (D j ω (K j ω)).z i) φ ψ} =
        ⋂ j, ⋂ (_ : j < N), ⋃ n, ({ω | K j ω = n} ∩
          ⋂ i, (fun ω => ((((D j ω n).uLat i : ℝ), ((D j ω n).uLon i : ℝ)), (D j ω n).z i)) ⁻¹' {y | spares s₀.radius (α j) y φ ψ}) := by
      ext w
      simp only [mem_ofPred_eq, mem_iUnion, mem_inter_iff, mem_iInter, mem_preimage]
      constructor
      · intro h j hj; exact ⟨_, rfl, h j hj⟩
      · intro h j hj
        obtain ⟨n, rfl, h'⟩ := h j hj
        exact h'
    rw [this]
    refine MeasurableSet.iInter fun j => MeasurableSet.iInter fun _ => MeasurableSet.iUnion fun n => MeasurableSet.inter ?_ ?_
    · exact hF.count_measurable j (measurableSet_singleton n)
    · exact MeasurableSet.iInter fun i => ((measurable_pi_apply i).comp (hF.measurable j n)) (hB j φ ψ)
  · exact run_chance P x hx0 K _ hF N (fun j => {y | ¬ inCap s₀.radius (α j y.2) (arcsin (2 * y.1.1 - 1)) (2 * π * y.1.2) φ ψ})
      (fun j => (inCap_measurable s₀.radius φ ψ (α j) (hαm j)).compl) _ (fun j => (capShare_mean hR (α j) (hαm j)).2)
      (fun j => spare_chance hR φ ψ (α j) (hαm j) (hα0 j))

/-! ### Example -/

/-- A star of 3000 K and radius 1000 km on a grid of twelve pixels, with granules 5 K cooler, whose generator makes spots that cover a
thousandth of the surface each. -/
def frecklesStar : Star :=
  { granStar (.rect 4 3) [] 5 with radius := 1000, spotGen := { SpotGenerator.off (.rect 4 3) with umbraTeff := 2500, penumbraTeff := 2700, distAreaMean := 4000 * π, initArea := 4000 * π, distAreaLogsigma := 0 } }

/-- Non-trivial instance of C177: a hundred spots are added.  The mean of the fraction reported for the photosphere is `0.999^100` times that of
the star without spots, for every observer, with a third of the photosphere granulated and a planet of half the size of the star in front. -/
example : ∃ l : (ℕ → ℕ × ((n : ℕ) → Fin n → (ℝ × ℝ) × ℝ)) → List StarSpot, (∀ ω, (l ω).length = 100) ∧
    ∀ lat0 ∈ Set.Icc (-(π / 2)) (π / 2), ∀ lon0 : ℝ,
      MeanReport (spotSpace 1) (fun ω => frecklesStar.addSpot (l ω)) frecklesStar lat0 lon0 (1 / 3) 10000 500 π (π / 2) 3000 (0.999 ^ 100) := by
  have hp := pi_pos
  set G := frecklesStar.spotGen with hG
  have hok : ∀ ω : ℕ → ℕ × ((n : ℕ) → Fin n → (ℝ × ℝ) × ℝ), ∃ l, G.generate 100 (spaceDraws (ω 0).2 100) = .ok l := fun ω =>
    (C27_generate G 100 _).1 (by norm_num [hG, frecklesStar]) (by simp [hG, frecklesStar, SpotGenerator.off])
      ⟨0, fun i => by norm_num [SpotDraws.ratios, spaceDraws]⟩
  choose l hl using hok
  refine ⟨l, fun ω => ((C27_generate G 100 _).2.2 _ (hl ω)).1, fun lat0 hlat0 lon0 => ?_⟩
  have hF := spotSpace_fair 1
  have hcool : ∀ ω, CoolSpots (l ω) 3000 (3000 - 5) := by
    intro ω
    have hnew := ((C27_generate G 100 _).2.2 _ (hl ω)).2.1
    have hu : ∀ s ∈ l ω, s.teffUmbra = 2500 := fun s h => (hnew s h).tu
    have hpn : ∀ s ∈ l ω, s.teffPenumbra = 2700 := fun s h => (hnew s h).tp
    refine ⟨generated_nested _ _ _ _ (hl ω) fun k i => by norm_num [SpotDraws.ratios, spaceDraws], fun s h => ?_, ?_⟩
    · rw [hu s h, hpn s h]; norm_num
    · have key : ∀ T ∈ reportTemps (l ω) 3000 (3000 - 5), T = 3000 ∨ T = 2995 ∨ T = 2700 ∨ T = 2500 := by
        rintro T ((h | h) | ⟨s, h1, h | h⟩)
        · exact Or.inl h
        · right; left; rw [show T = 3000 - 5 from h]; norm_num
        · right; right; left; rw [h, hpn s h1]
        · right; right; right; rw [h, hu s h1]
      intro T h1 T' h2 hne
      rcases key T h1 with rfl | rfl | rfl | rfl <;> rcases key T' h2 with rfl | rfl | rfl | rfl <;> first | exact absurd rfl hne | norm_num
  have hpos : 0 < 4000 * π := by positivity
  have h := C177_newborn (spotSpace 1) frecklesStar (fun _ h => absurd h List.not_mem_nil) ⟨(⟨0, by norm_num⟩, ⟨0, by norm_num⟩), fun _ h => absurd h List.not_mem_nil⟩
    ⟨rfl, rfl, rfl, rfl, rfl, fun _ h => absurd h List.not_mem_nil, fun _ h => absurd h List.not_mem_nil⟩ rfl
    (show goodGrid (.rect 4 3) from ⟨by norm_num, by norm_num⟩) (by norm_num [frecklesStar]) (granStar_phys (.rect 4 3) [] 5) rfl hpos.le
    (show 4000 * π ≤ 4 * π * 1000 ^ 2 by nlinarith) ⟨0.2, 1, 1, 5⟩ rfl 100
    (fun ω => spaceDraws (ω 0).2 100) l (hF.measurable 0 100) (hF.law 0 100) (Filter.Eventually.of_forall hl) (Filter.Eventually.of_forall hcool)
    lat0 hlat0 lon0 (1 / 3) 10000 500 π (π / 2) 3000 (visible_rect frecklesStar rfl le_rfl le_rfl lat0 lon0)
    ⟨by norm_num, fun h => by rw [cos_pi] at h; linarith [h.1]⟩ (Or.inl rfl)
  have e : 1 - frecklesStar.spotGen.initArea / (4 * π * frecklesStar.radius ^ 2) = 0.999 := by
    show 1 - 4000 * π / (4 * π * 1000 ^ 2) = 0.999
    field_simp; norm_num
  rwa [e] at h

end Vsm
