import Verif.Props.Symmetry
import Verif.Props.SurfaceMap
import Verif.Props.Population
import Verif.Props.DiskAccuracy
import Verif.Props.StarCoverage2

/-!
# C146: only the side that faces the observer shows
-/

noncomputable section
namespace Vsm
open Real Np Spec

/-! ## Entries by label -/

/-- The value of an entry of a report, zero if there is none. -/
def Spec.entry (d : Dict ℤ Fl) (k : ℤ) : Fl := (Dict.get? d k).getD (.fin 0)

/-- Two reports that differ at most in entries that are zero. -/
def Spec.SameShown (d d' : Dict ℤ Fl) : Prop := ∀ k, entry d k = entry d' k

/-- Different temperatures are more than 0.01 K apart. -/
def Spec.Apart (S : Set ℝ) : Prop := ∀ T ∈ S, ∀ T' ∈ S, T ≠ T' → 1 / 100 < |T - T'|

section
variable {s : Star} {lat0 lon0 : ℝ} {w m c : s.grid.Pix → ℝ}

/-- Share of the disk of the pixels with a certain label. -/
def labelShare {ι : Type} [Fintype ι] (w m c : ι → ℝ) (k : ℤ) : ℝ := (∑ p, if Star.key (m p) = k then w p * c p else 0) / ∑ p, w p

theorem entry_of_apart (hw : ∀ p, s.weight lat0 lon0 p = .fin (w p)) (hW : ∑ p, w p ≠ 0) {G g : ℝ} {d : Dict ℤ Fl}
    (h : Star.granulate (s.rawData lat0 lon0 m (fun p => .fin (c p)) G) (Star.key s.teff) (Star.key G) g = .ok d)
    (hsep : Apart (Set.range m ∪ {s.teff, G})) (k : ℤ) :
    entry d k = .fin (labelShare w m c k + (if k = Star.key G then g * labelShare w m c (Star.key s.teff) else 0) -
      (if k = Star.key s.teff then g * labelShare w m c (Star.key s.teff) else 0)) := by
  classical
  have hmem : ∀ T, (T ∈ Set.range m ∨ T = s.teff ∨ T = G) ↔ T ∈ Set.range m ∪ {s.teff, G} := by
    intro T; simp only [Set.mem_union, Set.mem_insert_iff, Set.mem_singleton_iff]
  have hinj : ∀ T T', (T ∈ Set.range m ∨ T = s.teff ∨ T = G) → (T' ∈ Set.range m ∨ T' = s.teff ∨ T' = G) →
      Star.key T = Star.key T' → T = T' := fun T T' h1 h2 hk =>
    key_inj_of_sep (hsep T ((hmem T).mp h1) T' ((hmem T').mp h2)) hk
  obtain ⟨-, e2, e3⟩ := entries_of_sep hw hW h hinj
  have hl : ∀ T, (T ∈ Set.range m ∨ T = s.teff ∨ T = G) → labelShare w m c (Star.key T) = share w m c T := by
    intro T hT
    unfold labelShare share
    congr 1
    refine Finset.sum_congr rfl fun p _ => ?_
    by_cases hp : m p = T
    · rw [if_pos hp, if_pos (by rw [hp])]
    · rw [if_neg hp, if_neg fun hk => hp (hinj _ _ (Or.inl ⟨p, rfl⟩) hT hk)]
  by_cases hk : ∃ T, (T ∈ Set.range m ∨ T = s.teff ∨ T = G) ∧ k = Star.key T
  · obtain ⟨T, hT, rfl⟩ := hk
    have k1 : Star.key T = Star.key G ↔ T = G := ⟨hinj T G hT (by tauto), fun h => by rw [h]⟩
    have k2 : Star.key T = Star.key s.teff ↔ T = s.teff := ⟨hinj T s.teff hT (by tauto), fun h => by rw [h]⟩
    unfold entry
    rw [e2 T hT, hl T hT, hl s.teff (by tauto)]
    simp only [k1, k2, Option.getD_some]
  · push Not at hk
    have h0 : Dict.get? d k = none := by
      rw [Dict.get?_eq_none]
      intro hk'
      obtain ⟨T, hT, h⟩ := e3 k hk'
      exact hk T (by tauto) h
    have h1 : labelShare w m c k = 0 := by
      unfold labelShare
      rw [Finset.sum_eq_zero, zero_div]
      intro p _
      rw [if_neg fun h => hk (m p) (Or.inl ⟨p, rfl⟩) h.symm]
    unfold entry
    rw [h0, h1, if_neg (hk G (by tauto)), if_neg (hk s.teff (by tauto))]
    simp

theorem labelShare_congr {ι : Type} [Fintype ι] {w m m' c : ι → ℝ} (h : ∀ p, w p ≠ 0 → m p = m' p) (k : ℤ) :
    labelShare w m c k = labelShare w m' c k := by
  unfold labelShare
  congr 1
  refine Finset.sum_congr rfl fun p _ => ?_
  by_cases hp : w p = 0
  · simp [hp]
  · rw [h p hp]

end

theorem pixelWeight_back (s : Star) {a : s.grid.Pix → ℝ} (ha : ∀ p, s.grid.area p = .fin (a p)) {lat0 lon0 : ℝ} {p : s.grid.Pix} (hp : ¬ 0 < s.mu lat0 lon0 p) :
    pixelWeight s a lat0 lon0 p = 0 := by
  have : s.weight lat0 lon0 p = .fin 0 := by
    unfold Star.weight Star.areaProjection
    rw [if_neg hp, ha]
    simp
  rw [weight_eq s a ha lat0 lon0, Fl.fin_inj] at this
  exact this

/-- **C146** A report depends only on the temperatures of the pixels that face the observer.  Take a star and give it other spots and faculae.
If the temperatures of the two surface maps agree wherever `mu` is positive, and different temperatures are more than 0.01 K apart, then the
two reports agree except for entries that are zero, and so does the part of the planet that is seen. -/
theorem C146_visible (s : Star) (spots : SpotCollection) (faculae : FaculaCollection) (hg : goodGrid s.grid) (hR : s.radius ≠ 0) (a : s.grid.Pix → ℝ)
    (ha : ∀ p, s.grid.area p = .fin (a p)) (lat0 lon0 : ℝ) (h0 : lat0 ∈ Set.Icc (-(π / 2)) (π / 2))
    (hW : ∑ p, pixelWeight s a lat0 lon0 p ≠ 0) (g orbit r phase incl : ℝ) (total cov total' cov' : Dict ℤ Fl) (plf plf' : Fl)
    (h : s.calcCoverage lat0 lon0 g orbit r phase incl = .ok (total, cov, plf))
    (h' : { s with spots := spots, faculae := faculae }.calcCoverage lat0 lon0 g orbit r phase incl = .ok (total', cov', plf'))
    (m m' : s.grid.Pix → ℝ) (hm : s.addFaculaeToMap lat0 lon0 = .ok m)
    (hm' : { s with spots := spots, faculae := faculae }.addFaculaeToMap lat0 lon0 = .ok m')
    (hsame : ∀ p, 0 < s.mu lat0 lon0 p → m p = m' p)
    (G : ℝ) (hG : ∃ gr, s.granulation = some gr ∧ G = s.teff - gr.dteff)
    (hsep : Apart (Set.range m ∪ {s.teff, G})) (hsep' : Apart (Set.range m' ∪ {s.teff, G})) :
    SameShown total total' ∧ SameShown cov cov' ∧ plf = plf' := by
  obtain ⟨m₁, mask, gr, e1, ht, hgr, h1, h2⟩ := calcCoverage_ok.mp h
  obtain ⟨m₂, mask', gr', e2, ht', hgr', h1', h2'⟩ := calcCoverage_ok.mp h'
  rw [hm, Except.ok.injEq] at e1
  rw [hm', Except.ok.injEq] at e2
  subst e1 e2
  obtain ⟨gr₀, hgr₀, rfl⟩ := hG
  have hgr₁ : s.granulation = some gr' := hgr'
  rw [hgr, Option.some.injEq] at hgr₀ hgr₁
  subst hgr₀ hgr₁
  have ht₁ : s.transitMask lat0 lon0 orbit r phase incl = .ok (mask', plf') := ht'
  rw [ht, Except.ok.injEq, Prod.mk.injEq] at ht₁
  obtain ⟨rfl, rfl⟩ := ht₁
  obtain ⟨c, rfl, -⟩ := mask_real hg hR h0 ht
  have hw : ∀ p, s.weight lat0 lon0 p = .fin (pixelWeight s a lat0 lon0 p) := weight_eq s a ha lat0 lon0
  have hvis : ∀ p, pixelWeight s a lat0 lon0 p ≠ 0 → m p = m' p := by
    intro p hp
    apply hsame
    by_contra hc
    exact hp (pixelWeight_back s ha hc)
  refine ⟨fun k => ?_, fun k => ?_, rfl⟩
  · rw [entry_of_apart (c := fun _ => 1) hw hW h1 hsep,
      entry_of_apart (s := { s with spots := spots, faculae := faculae }) (c := fun _ => 1) hw hW h1' hsep']
    simp only [labelShare_congr hvis]
  · rw [entry_of_apart hw hW h2 hsep,
      entry_of_apart (s := { s with spots := spots, faculae := faculae }) hw hW h2' hsep']
    simp only [labelShare_congr hvis]

/-! ## Spots and faculae on the far side -/

/-- Everything within `ρ` of the point is more than (or exactly) 90° from the sub-observer point. -/
def Spec.FarSide (lat0 lon0 lat lon ρ : ℝ) : Prop := π / 2 + ρ ≤ greatCircle lat0 lon0 lat lon

theorem far_mu {lat0 lon0 lat lon ρ : ℝ} (h : FarSide lat0 lon0 lat lon ρ) {g : Grid} {p : g.Pix}
    (hp : greatCircle lat lon (g.lat p) (g.lon p) ≤ ρ) : g.mu lat0 lon0 p ≤ 0 := by
  rw [(C03_mu_inner g lat0 lon0 p).2.2.2]
  have h1 := greatCircle_triangle lat0 lon0 (g.lat p) (g.lon p) lat lon
  rw [greatCircle_comm (g.lat p)] at h1
  unfold FarSide at h
  have h2 : greatCircle lat0 lon0 (g.lat p) (g.lon p) ≤ π := InnerProductGeometry.angle_le_pi _ _
  exact cos_nonpos_of_pi_div_two_le_of_le (by linarith) (by linarith [pi_pos])

/-- A spot that is wholly on the far side. -/
def Spec.FarSpot (sp : StarSpot) (R lat0 lon0 : ℝ) : Prop :=
  ∃ a q, sp.area = .fin a ∧ sp.ratio = .fin q ∧ 1 ≤ q ∧ ∀ θ ∈ Set.Icc 0 π, capArea R θ = a → FarSide lat0 lon0 sp.lat sp.lon θ

/-- A facula that is wholly on the far side. -/
def Spec.FarFacula (f : Facula) (R lat0 lon0 : ℝ) : Prop :=
  ∃ r, f.radius = .fin r ∧ FarSide lat0 lon0 f.lat f.lon (r / R)

theorem farSpot_mask {sp : StarSpot} {g : Grid} {R lat0 lon0 : ℝ} (hR : 0 < R) (h : FarSpot sp R lat0 lon0) {p : g.Pix}
    (hp : 0 < g.mu lat0 lon0 p) : ¬ inSpot sp g R p ∧ ¬ inUmbra sp g R p := by
  obtain ⟨a, q, ha, hq, hq1, hf⟩ := h
  obtain ⟨h1, -, -, h4⟩ := C18_membership sp g R a q hR ha hq (by linarith) p
  have h5 : ¬ inSpot sp g R p := by
    intro hin
    obtain ⟨θ, hθ, hc, hlt⟩ := h1.mp hin
    exact absurd hp (not_lt.mpr (far_mu (hf θ hθ hc) hlt.le))
  exact ⟨h5, fun hu => h5 (h4 hq1 hu)⟩

theorem farFacula_mask {f : Facula} {g : Grid} {R lat0 lon0 : ℝ} (hR : 0 < R) (h : FarFacula f R lat0 lon0) {p : g.Pix}
    (hp : 0 < g.mu lat0 lon0 p) : ¬ inFacula f R g p := by
  obtain ⟨r, hr, hf⟩ := h
  intro hin
  unfold inFacula at hin
  rw [hr, Fl.fin_div hR.ne', Fl.fin_le, haversine_eq] at hin
  exact absurd hp (not_lt.mpr (far_mu hf hin))

theorem lastAt_append_far {l nf : List Facula} {R lat0 lon0 : ℝ} {g : Grid} (hR : 0 < R) (h : ∀ f ∈ nf, FarFacula f R lat0 lon0) {p : g.Pix}
    (hp : 0 < g.mu lat0 lon0 p) : lastAt (l ++ nf) R g p = lastAt l R g p := by
  classical
  unfold lastAt
  have e : nf.filter (fun f => decide (inFacula f R g p)) = [] :=
    List.filter_eq_nil_iff.mpr fun f hf => by simpa using farFacula_mask hR (h f hf) hp
  rw [List.filter_append, e, List.append_nil]

theorem foldl_far {ns : List StarSpot} {R lat0 lon0 : ℝ} {g : Grid} (hR : 0 < R) (h : ∀ sp ∈ ns, FarSpot sp R lat0 lon0) {p : g.Pix}
    (hp : 0 < g.mu lat0 lon0 p) (c : ℝ) : ns.foldl (fun c sp => SpotCollection.overlay id sp.teffUmbra sp.teffPenumbra
      (inUmbra sp g R p) (inSpot sp g R p) c) c = c := by
  induction ns generalizing c with
  | nil => rfl
  | cons sp l ih =>
    rw [List.foldl_cons]
    have h1 := farSpot_mask hR (h sp (by simp)) hp
    rw [show SpotCollection.overlay id sp.teffUmbra sp.teffPenumbra (inUmbra sp g R p) (inSpot sp g R p) c = c by
        unfold SpotCollection.overlay; rw [if_neg (fun h => h1.2 h.1), if_neg (fun h => h1.1 h.1)]]
    exact ih (fun sp' h' => h sp' (by simp [h'])) c

/-- The map of a placed star, pixel by pixel. -/
theorem placed_map {s : Star} (hs : Placed s) {lat0 lon0 : ℝ} {m : s.grid.Pix → ℝ} (hm : s.addFaculaeToMap lat0 lon0 = .ok m) (p : s.grid.Pix) :
    (lastAt s.faculae.faculae s.radius s.grid p = none → m p = s.spots.spots.foldl (fun c sp =>
      SpotCollection.overlay id sp.teffUmbra sp.teffPenumbra (inUmbra sp s.grid s.radius p) (inSpot sp s.grid s.radius p) c) s.teff) ∧
      ∀ f, lastAt s.faculae.faculae s.radius s.grid p = some f →
        ∃ kw kf : ℤ, Helpers.roundTeff f.wallDteff = .ok kw ∧ Helpers.roundTeff f.floorDteff = .ok kf ∧
          m p = if s.mu lat0 lon0 p ≤ borderOf s lat0 lon0 f then Helpers.clipTeff (kw + s.teff)
            else Helpers.clipTeff (kf + s.teff) := by
  have h1 := spotMap_on s hs
  have h2 : s.addFaculaeToMap lat0 lon0 = ((s.map >>= fun m => Field.on ⟨s.spots.grid, m⟩ s.grid .indexError) >>= fun m' =>
      s.faculae.faculae.foldlM (fun cur f => s.addFacula lat0 lon0 cur f) m') := by
    unfold Star.addFaculaeToMap
    rw [bind_assoc]
  rw [h2, h1] at hm
  exact foldlM_faculae s lat0 lon0 _ hs.2.2 _ m hm p

/-- **C146** Spots and faculae that are wholly on the far side do not show.  Add such faculae and then such spots (measured on the star's grid) to a star, with
`add_fac` and `add_spot`: if both stars answer and different temperatures are more than 0.01 K apart, the report and the covered fractions are the same, except
for entries that are zero. -/
theorem C146_far_features (s s₁ : Star) (hs : Placed s) (hfg : s.faculae.grid = s.grid) (hg : goodGrid s.grid) (hR : 0 < s.radius) (a : s.grid.Pix → ℝ)
    (ha : ∀ p, s.grid.area p = .fin (a p)) (lat0 lon0 : ℝ) (h0 : lat0 ∈ Set.Icc (-(π / 2)) (π / 2))
    (hW : ∑ p, pixelWeight s a lat0 lon0 p ≠ 0) (g orbit r phase incl : ℝ) (total cov total' cov' : Dict ℤ Fl) (plf plf' : Fl)
    (ns : List StarSpot) (nf : List Facula) (hns : ∀ sp ∈ ns, sp.setGridmaker s.grid = sp ∧ FarSpot sp s.radius lat0 lon0)
    (hnf : ∀ f ∈ nf, FarFacula f s.radius lat0 lon0) (hadd : s.addFac nf = .ok s₁)
    (h : s.calcCoverage lat0 lon0 g orbit r phase incl = .ok (total, cov, plf))
    (h' : (s₁.addSpot ns).calcCoverage lat0 lon0 g orbit r phase incl = .ok (total', cov', plf'))
    (G : ℝ) (hG : ∃ gr, s.granulation = some gr ∧ G = s.teff - gr.dteff)
    (hsep : ∀ m, s.addFaculaeToMap lat0 lon0 = .ok m → Apart (Set.range m ∪ {s.teff, G}))
    (hsep' : ∀ m', (s₁.addSpot ns).addFaculaeToMap lat0 lon0 = .ok m' → Apart (Set.range m' ∪ {s.teff, G})) :
    SameShown total total' ∧ SameShown cov cov' ∧ plf = plf' := by
  unfold Star.addFac at hadd
  cases hc : s.faculae.addFaculae nf with
  | error e => rw [hc] at hadd; cases hadd
  | ok c' =>
  rw [hc] at hadd
  simp only [Except.map, Except.ok.injEq] at hadd
  subst hadd
  obtain ⟨e1, e2⟩ := addFaculae_on hc
  set s' : Star := { s with spots := s.spots.addSpot ns, faculae := c' } with hs'
  have hp' : Placed s' := by
    refine ⟨hs.1, ?_, ?_⟩
    · intro sp hsp
      have hsp : sp ∈ s.spots.spots ++ ns.map fun sp => ({ sp with grid := s.spots.grid } : StarSpot) := hsp
      rw [List.mem_append, List.mem_map] at hsp
      rcases hsp with hsp | ⟨sp', h1, rfl⟩
      · exact hs.2.1 sp hsp
      · have := (hns sp' h1).1
        have e : s'.spots.grid = s.grid := hs.1
        rw [e, hs.1]
        rw [← this]
        rfl
    · intro f hf
      have hf : f ∈ c'.faculae := hf
      rw [e2, List.mem_append] at hf
      rcases hf with hf | hf
      · exact hs.2.2 f hf
      · unfold faculaeOn at hf
        rw [List.mem_map] at hf
        obtain ⟨f', -, rfl⟩ := hf
        exact hfg
  obtain ⟨m, -, -, hm, -⟩ := calcCoverage_ok.mp h
  obtain ⟨m', -, -, hm', -⟩ := calcCoverage_ok.mp h'
  refine C146_visible s (s.spots.addSpot ns) c' hg hR.ne' a ha lat0 lon0 h0 hW g orbit r phase incl total cov total' cov' plf plf' h h'
    m m' hm hm' (fun p hp => ?_) G hG (hsep m hm) (hsep' m' hm')
  have k1 := placed_map hs hm p
  have k2 := placed_map hp' hm' p
  have hnf' : ∀ f ∈ faculaeOn s.faculae.grid nf, FarFacula f s.radius lat0 lon0 := by
    intro f hf
    unfold faculaeOn at hf
    rw [List.mem_map] at hf
    obtain ⟨f', hf', rfl⟩ := hf
    exact hnf f' hf'
  have hlast : lastAt s'.faculae.faculae s'.radius s'.grid p = lastAt s.faculae.faculae s.radius s.grid p := by
    change lastAt c'.faculae s.radius s.grid p = _
    rw [e2]
    exact lastAt_append_far hR hnf' hp
  rw [hlast] at k2
  cases hl : lastAt s.faculae.faculae s.radius s.grid p with
  | none =>
    rw [k1.1 hl, k2.1 hl]
    have e3 : s'.spots.spots = s.spots.spots ++ ns.map fun sp => ({ sp with grid := s.spots.grid } : StarSpot) := rfl
    rw [e3, List.foldl_append]
    refine (foldl_far (ns := ns.map fun sp => ({ sp with grid := s.spots.grid } : StarSpot)) hR ?_ hp _).symm
    intro sp hsp
    rw [List.mem_map] at hsp
    obtain ⟨sp', h1, rfl⟩ := hsp
    exact (hns sp' h1).2
  | some f =>
    obtain ⟨kw, kf, hw1, hf1, hm1⟩ := k1.2 f hl
    obtain ⟨kw', kf', hw2, hf2, hm2⟩ := k2.2 f hl
    rw [hw1, Except.ok.injEq] at hw2
    rw [hf1, Except.ok.injEq] at hf2
    subst hw2 hf2
    rw [hm1, hm2]
    rfl

/-! ## Half covered stars -/

/-- A spot that covers half of a star of radius 1, centred on the equator. -/
def Spec.halfSpot (g : Grid) (lon T : ℝ) : StarSpot := StarSpot.new 0 lon (4 * π) (.fin (2 * π)) T T (.fin 4) false 0 0 g

theorem halfSpot_cap {θ : ℝ} (hθ : θ ∈ Set.Icc 0 π) (h : capArea 1 θ = 2 * π) : θ = π / 2 := by
  unfold capArea at h
  have h1 : 2 * π * cos θ = 0 := by linarith
  have h2 : cos θ = 0 := by
    rcases mul_eq_zero.mp h1 with h | h
    · linarith [pi_pos]
    · exact h
  apply injOn_cos hθ ⟨by linarith [pi_pos], by linarith [pi_pos]⟩
  rw [h2, cos_pi_div_two]

theorem halfSpot_in (g : Grid) (lon T : ℝ) (p : g.Pix) : (inSpot (halfSpot g lon T) g 1 p ↔ 0 < g.mu 0 lon p) ∧
    (inUmbra (halfSpot g lon T) g 1 p ↔ 0 < g.mu 0 lon p) := by
  obtain ⟨h1, -, h3, -⟩ := C18_membership (halfSpot g lon T) g 1 (2 * π) 4 one_pos rfl rfl (by norm_num) p
  have h : inSpot (halfSpot g lon T) g 1 p ↔ 0 < g.mu 0 lon p := by
    refine h1.trans ?_
    rw [(C03_mu_inner g 0 lon p).2.2.2]
    have e0 : 0 ≤ greatCircle 0 lon (g.lat p) (g.lon p) := greatCircle_nonneg _ _ _ _
    have e1 : greatCircle 0 lon (g.lat p) (g.lon p) ≤ π := InnerProductGeometry.angle_le_pi _ _
    constructor
    · rintro ⟨θ, hθ, hc, hlt⟩
      rw [halfSpot_cap hθ hc] at hlt
      exact cos_pos_of_mem_Ioo ⟨by linarith [pi_pos], hlt⟩
    · intro hc
      refine ⟨π / 2, ⟨by linarith [pi_pos], by linarith [pi_pos]⟩, by simp [capArea], ?_⟩
      by_contra hn
      exact absurd hc (not_lt.mpr (cos_nonpos_of_pi_div_two_le_of_le (not_lt.mp hn) (by linarith [pi_pos])))
  exact ⟨h, (h3 rfl).trans h⟩

theorem mu_behind (g : Grid) (p : g.Pix) : g.mu 0 π p = - g.mu 0 0 p := by
  simp only [Grid.mu, Grid.cosAngle]
  rw [cos_pi_sub, zero_sub, cos_neg]
  simp

theorem halfSpot_behind (g : Grid) (T : ℝ) (p : g.Pix) : (inSpot (halfSpot g π T) g 1 p ↔ 0 < - g.mu 0 0 p) ∧
    (inUmbra (halfSpot g π T) g 1 p ↔ 0 < - g.mu 0 0 p) := by
  rw [← mu_behind]
  exact halfSpot_in g π T p

theorem halfSpot_far (g : Grid) (T : ℝ) : FarSpot (halfSpot g π T) 1 0 0 := by
  refine ⟨2 * π, 4, rfl, rfl, by norm_num, fun θ hθ hc => ?_⟩
  rw [halfSpot_cap hθ hc]
  unfold FarSide
  have : greatCircle 0 0 (halfSpot g π T).lat (halfSpot g π T).lon = π := by
    change greatCircle 0 0 0 π = π
    rw [greatCircle_eq]
    simp
  rw [this]
  linarith

/-- A star that faces the observer above longitude 0 of the equator with a spot of 2700 K; the other half may have a spot too. -/
def Spec.halfStar (far : List StarSpot) : Star := granStar (.rect 4 3) (halfSpot (.rect 4 3) 0 2700 :: far) 100

theorem halfStar_add (T : ℝ) : (halfStar []).addSpot [halfSpot (.rect 4 3) π T] = halfStar [halfSpot (.rect 4 3) π T] := rfl

theorem halfStar_placed (far : List StarSpot) : Placed (halfStar far) := ⟨rfl, measured_new _ _, by simp [halfStar, granStar, sampleStar]⟩

theorem overlay_skip {tu tp : ℝ} {inU inP : Prop} (h1 : ¬ inU) (h2 : ¬ inP) (cur : ℝ) : SpotCollection.overlay id tu tp inU inP cur = cur := by
  unfold SpotCollection.overlay
  rw [if_neg fun h => h1 h.1, if_neg fun h => h2 h.1]

theorem overlay_hit {tu tp : ℝ} {inU inP : Prop} (h1 : inU) {cur : ℝ} (h : tu < cur) : SpotCollection.overlay id tu tp inU inP cur = tu := by
  unfold SpotCollection.overlay
  rw [if_pos ⟨h1, h⟩]
  rfl

theorem halfStar_map : (halfStar []).addFaculaeToMap 0 0 = .ok fun p => if 0 < (Grid.rect 4 3).mu 0 0 p then 2700 else 3000 := by
  refine (addFaculaeToMap_eq _ (halfStar_placed []) 0 0).trans ?_
  change Except.ok _ = _
  congr 1
  funext p
  change SpotCollection.overlay id 2700 2700 (inUmbra (halfSpot (.rect 4 3) 0 2700) (.rect 4 3) 1 p) (inSpot (halfSpot (.rect 4 3) 0 2700) (.rect 4 3) 1 p) 3000 = _
  obtain ⟨h1, h2⟩ := halfSpot_in (.rect 4 3) 0 2700 p
  by_cases h : 0 < (Grid.rect 4 3).mu 0 0 p
  · rw [overlay_hit (h2.mpr h) (by norm_num), if_pos h]
  · rw [overlay_skip (fun h' => h (h2.mp h')) (fun h' => h (h1.mp h')), if_neg h]

theorem halfStar_map' {T : ℝ} (hT : T < 3000) : (halfStar [halfSpot (.rect 4 3) π T]).addFaculaeToMap 0 0 = .ok fun p =>
    if 0 < (Grid.rect 4 3).mu 0 0 p then 2700 else if (Grid.rect 4 3).mu 0 0 p < 0 then T else 3000 := by
  refine (addFaculaeToMap_eq _ (halfStar_placed _) 0 0).trans ?_
  change Except.ok _ = _
  congr 1
  funext p
  change SpotCollection.overlay id T T (inUmbra (halfSpot (.rect 4 3) π T) (.rect 4 3) 1 p) (inSpot (halfSpot (.rect 4 3) π T) (.rect 4 3) 1 p)
    (SpotCollection.overlay id 2700 2700 (inUmbra (halfSpot (.rect 4 3) 0 2700) (.rect 4 3) 1 p) (inSpot (halfSpot (.rect 4 3) 0 2700) (.rect 4 3) 1 p) 3000) = _
  obtain ⟨h1, h2⟩ := halfSpot_in (.rect 4 3) 0 2700 p
  obtain ⟨h3, h4⟩ := halfSpot_behind (.rect 4 3) T p
  by_cases h : 0 < (Grid.rect 4 3).mu 0 0 p
  · rw [overlay_skip (fun h' => by linarith [h4.mp h']) (fun h' => by linarith [h3.mp h']), overlay_hit (h2.mpr h) (by norm_num), if_pos h]
  · rw [overlay_skip (inU := inUmbra (halfSpot (.rect 4 3) 0 2700) (.rect 4 3) 1 p) (fun h' => h (h2.mp h')) (fun h' => h (h1.mp h')), if_neg h]
    by_cases h' : (Grid.rect 4 3).mu 0 0 p < 0
    · rw [overlay_hit (h4.mpr (by linarith)) hT, if_pos h']
    · rw [overlay_skip (fun h'' => h' (by linarith [h4.mp h''])) (fun h'' => h' (by linarith [h3.mp h''])), if_neg h']

theorem grid43_mu (i : Fin 3) (j : Fin 4) : (Grid.rect 4 3).mu 0 0 (i, j) = cos (-(π / 2) + j * (π / 3)) * cos (i * (2 * π / 3)) := by
  obtain ⟨h1, h2, -⟩ := (C01_rect_layout 4 3 (by norm_num)).2.2 i j
  simp only [Grid.mu, Grid.cosAngle]
  rw [h1, h2]
  norm_num

/-- A pixel at the pole, one in front and one behind. -/
theorem halfStar_pixels : (∃ p, (Grid.rect 4 3).mu 0 0 p = 0) ∧ (∃ p, 0 < (Grid.rect 4 3).mu 0 0 p) ∧ ∃ p, (Grid.rect 4 3).mu 0 0 p < 0 := by
  have hl := grid43_mu
  have h3 : cos (-(π / 2) + π / 3) = √3 / 2 := by
    rw [show -(π / 2) + π / 3 = -(π / 6) by ring, cos_neg, cos_pi_div_six]
  have h4 : cos (2 * π / 3) = -(1 / 2) := by
    rw [show 2 * π / 3 = π - π / 3 by ring, cos_pi_sub, cos_pi_div_three]
  have h5 : (0 : ℝ) < √3 := by positivity
  refine ⟨⟨((0 : Fin 3), (0 : Fin 4)), ?_⟩, ⟨((0 : Fin 3), (1 : Fin 4)), ?_⟩, ⟨((1 : Fin 3), (1 : Fin 4)), ?_⟩⟩
  · rw [hl]; simp
  · rw [hl]
    simp [h3]
  · rw [hl]
    simp [h3, h4]

theorem halfStar_answers (far : List StarSpot) (hfar : ∀ sp ∈ far, ∃ T, sp = halfSpot (.rect 4 3) π T) (lon0 : ℝ) :
    ∃ total cov plf, (halfStar far).calcCoverage 0 lon0 0.2 10 (1 / 2) (π / 2) 0 = .ok (total, cov, plf) := by
  set s := halfStar far with hs
  have hg : goodGrid s.grid := ⟨by omega, by omega⟩
  have h0 : (0 : ℝ) ∈ Set.Icc (-(π / 2)) (π / 2) := ⟨by linarith [pi_pos], by linarith [pi_pos]⟩
  have hv : Visible s 0 lon0 := visible_rect s rfl (by omega) (by omega) 0 lon0
  obtain ⟨a, ha, -⟩ := C02_area_partition s.grid hg
  obtain ⟨-, hW⟩ := visible_pos s hg (granStar_phys _ _ _) ha hv
  have hw : ∀ p, s.weight 0 lon0 p = .fin (pixelWeight s a 0 lon0 p) := weight_eq s a ha 0 lon0
  have hpos : planetPos s.radius 10 (π / 2) 0 = ((planetPos s.radius 10 (π / 2) 0).1, (planetPos s.radius 10 (π / 2) 0).2) := rfl
  obtain ⟨⟨p, hp⟩, -⟩ := halfStar_pixels
  obtain ⟨total, cov, plf, h, -⟩ := C59_answers_partial s hg one_pos 0 lon0 _ (by simp only [hw, Fl.sum_fin]) hW.ne' h0
    ⟨0.2, 1, 1, 100⟩ rfl rfl (measured_new _ _) (by simp [hs, halfStar, granStar, sampleStar])
    (Or.inr ⟨p, by
      intro sp hsp
      have hsp : sp ∈ (halfSpot (.rect 4 3) 0 2700 :: far).map (·.setGridmaker (.rect 4 3)) := hsp
      rw [List.mem_map] at hsp
      obtain ⟨sp', h1, rfl⟩ := hsp
      rw [List.mem_cons] at h1
      rcases h1 with rfl | h1
      · obtain ⟨h3, h4⟩ := halfSpot_in (.rect 4 3) 0 2700 p
        exact ⟨fun h => by linarith [h3.mp h], fun h => by linarith [h4.mp h]⟩
      · obtain ⟨T, rfl⟩ := hfar sp' h1
        obtain ⟨h3, h4⟩ := halfSpot_behind (.rect 4 3) T p
        exact ⟨fun h => by linarith [h3.mp h], fun h => by linarith [h4.mp h]⟩,
      by simp [hs, halfStar, granStar, sampleStar]⟩) 0.2 10 (1 / 2) (π / 2) 0 (by norm_num) _ _ hpos.symm (by simp)
  exact ⟨total, cov, _, h⟩

theorem halfStar_apart : ∀ m, (halfStar []).addFaculaeToMap 0 0 = .ok m → Apart (Set.range m ∪ {3000, 2900}) := by
  intro m hm
  rw [halfStar_map, Except.ok.injEq] at hm
  subst hm
  have : ∀ T ∈ (Set.range fun p => if 0 < (Grid.rect 4 3).mu 0 0 p then (2700 : ℝ) else 3000) ∪ {3000, 2900}, T = 2700 ∨ T = 3000 ∨ T = 2900 := by
    rintro T (⟨p, rfl⟩ | h)
    · simp only; split_ifs <;> simp
    · exact Or.inr h
  intro T h T' h' hne
  rcases this T h with rfl | rfl | rfl <;> rcases this T' h' with rfl | rfl | rfl <;> first | exact absurd rfl hne | norm_num

/-- Non-trivial instance of C146: a spot of 2500 K covers the half of the star that is turned away, and the reports do not change. -/
example : ∃ total cov plf total' cov' plf', (halfStar []).calcCoverage 0 0 0.2 10 (1 / 2) (π / 2) 0 = .ok (total, cov, plf) ∧
    ((halfStar []).addSpot [halfSpot (.rect 4 3) π 2500]).calcCoverage 0 0 0.2 10 (1 / 2) (π / 2) 0 = .ok (total', cov', plf') ∧
    SameShown total total' ∧ SameShown cov cov' := by
  obtain ⟨total, cov, plf, h⟩ := halfStar_answers [] (by simp) 0
  obtain ⟨total', cov', plf', h'⟩ := halfStar_answers [halfSpot (.rect 4 3) π 2500] (by simp) 0
  refine ⟨total, cov, plf, total', cov', plf', h, h', ?_⟩
  have hg : goodGrid (halfStar []).grid := ⟨by omega, by omega⟩
  have h0 : (0 : ℝ) ∈ Set.Icc (-(π / 2)) (π / 2) := ⟨by linarith [pi_pos], by linarith [pi_pos]⟩
  obtain ⟨a, ha, -⟩ := C02_area_partition (halfStar []).grid hg
  obtain ⟨-, hW⟩ := visible_pos (halfStar []) hg (granStar_phys _ _ _) ha (visible_rect _ rfl (by omega) (by omega) 0 0)
  have := C146_far_features (halfStar []) (halfStar []) (halfStar_placed []) rfl hg one_pos a ha 0 0 h0 hW.ne' _ _ _ _ _ total cov total' cov' plf plf'
    [halfSpot (.rect 4 3) π 2500] [] (by intro sp hsp; rw [List.mem_singleton] at hsp; subst hsp; exact ⟨rfl, halfSpot_far _ _⟩) (by simp) rfl h h'
    2900 ⟨_, rfl, by norm_num [halfStar, granStar, sampleStar]⟩ halfStar_apart (by
      intro m hm
      have e := halfStar_map' (T := 2500) (by norm_num)
      have hm : (halfStar [halfSpot (.rect 4 3) π 2500]).addFaculaeToMap 0 0 = .ok m := hm
      have hm := Except.ok.inj (e.symm.trans hm)
      subst hm
      have : ∀ T ∈ (Set.range fun p => if 0 < (Grid.rect 4 3).mu 0 0 p then (2700 : ℝ) else if (Grid.rect 4 3).mu 0 0 p < 0 then 2500 else 3000) ∪
          {(3000 : ℝ), 2900}, T = 2700 ∨ T = 2500 ∨ T = 3000 ∨ T = 2900 := by
        rintro T (⟨p, rfl⟩ | h)
        · simp only; split_ifs <;> simp
        · exact Or.inr (Or.inr h)
      intro T h T' h' hne
      rcases this T h with rfl | rfl | rfl | rfl <;> rcases this T' h' with rfl | rfl | rfl | rfl <;> first | exact absurd rfl hne | norm_num)
  exact ⟨this.1, this.2.1⟩

/-- The temperatures have to be apart: a star whose visible half is at 2700 K reports all of the disk at that temperature; give it a spot of 2700.004 K on
the half that is turned away, and it reports nothing at that temperature. -/
theorem C146_counterexample : ∃ total cov plf total' cov' plf',
    (halfStar []).calcCoverage 0 0 0.2 10 (1 / 2) (π / 2) 0 = .ok (total, cov, plf) ∧
    ((halfStar []).addSpot [halfSpot (.rect 4 3) π 2700.004]).calcCoverage 0 0 0.2 10 (1 / 2) (π / 2) 0 = .ok (total', cov', plf') ∧
    FarSpot (halfSpot (.rect 4 3) π 2700.004) (halfStar []).radius 0 0 ∧ entry total 270000 = .fin 1 ∧ entry total' 270000 = .fin 0 := by
  classical
  obtain ⟨total, cov, plf, h⟩ := halfStar_answers [] (by simp) 0
  obtain ⟨total', cov', plf', h'⟩ := halfStar_answers [halfSpot (.rect 4 3) π 2700.004] (by simp) 0
  refine ⟨total, cov, plf, total', cov', plf', h, h', halfSpot_far _ _, ?_, ?_⟩
  · set s := halfStar [] with hs
    have hg : goodGrid s.grid := ⟨by omega, by omega⟩
    obtain ⟨a, ha, -⟩ := C02_area_partition s.grid hg
    obtain ⟨-, hW⟩ := visible_pos s hg (granStar_phys _ _ _) ha (visible_rect _ rfl (by omega) (by omega) 0 0)
    have hw : ∀ p, s.weight 0 0 p = .fin (pixelWeight s a 0 0 p) := weight_eq s a ha 0 0
    obtain ⟨m, mask, gr, hm, -, hgr, h1, -⟩ := calcCoverage_ok.mp h
    have hap := halfStar_apart m hm
    have e := Except.ok.inj (halfStar_map.symm.trans hm)
    have hgr : gr = ⟨0.2, 1, 1, 100⟩ := (Option.some.inj hgr).symm
    subst hgr
    have eG : s.teff - (100 : ℝ) = 2900 := by norm_num [hs, halfStar, granStar, sampleStar]
    have k1 : Star.key s.teff = 300000 := by have := key_int 3000; norm_num at this; exact this
    have k2 : Star.key 2900 = 290000 := by have := key_int 2900; norm_num at this; exact this
    have k3 : Star.key 2700 = 270000 := by have := key_int 2700; norm_num at this; exact this
    simp only [eG] at h1
    rw [entry_of_apart (c := fun _ => 1) hw hW.ne' h1 hap 270000, k1, k2, if_neg (by norm_num), if_neg (by norm_num)]
    have : labelShare (pixelWeight s a 0 0) m (fun _ => 1) 270000 = 1 := by
      unfold labelShare
      rw [div_eq_one_iff_eq hW.ne']
      refine Finset.sum_congr rfl fun p _ => ?_
      by_cases hp : 0 < (Grid.rect 4 3).mu 0 0 p
      · rw [if_pos, mul_one]
        rw [← congrFun e p]
        simp only [if_pos hp]
        exact k3
      · have : pixelWeight s a 0 0 p = 0 := pixelWeight_back s ha hp
        simp [this]
    rw [this]
    norm_num
  · set s := halfStar [halfSpot (.rect 4 3) π 2700.004] with hs
    have hg : goodGrid s.grid := ⟨by omega, by omega⟩
    obtain ⟨a, ha, -⟩ := C02_area_partition s.grid hg
    obtain ⟨-, hW⟩ := visible_pos s hg (granStar_phys _ _ _) ha (visible_rect _ rfl (by omega) (by omega) 0 0)
    have hw : ∀ p, s.weight 0 0 p = .fin (pixelWeight s a 0 0 p) := weight_eq s a ha 0 0
    obtain ⟨m, mask, gr, hm, -, hgr, h1, -⟩ := calcCoverage_ok.mp h'
    have e := Except.ok.inj ((halfStar_map' (T := 2700.004) (by norm_num)).symm.trans hm)
    have hgr : gr = ⟨0.2, 1, 1, 100⟩ := (Option.some.inj hgr).symm
    subst hgr
    have eG : s.teff - (100 : ℝ) = 2900 := by norm_num [hs, halfStar, granStar, sampleStar]
    have k1 : Star.key s.teff = 300000 := by have := key_int 3000; norm_num at this; exact this
    have k1' : Star.key 3000 = 300000 := k1
    have k2 : Star.key 2900 = 290000 := by have := key_int 2900; norm_num at this; exact this
    have k4 : Star.key 2700.004 = 270000 := by
      obtain ⟨h, h'⟩ := abs_le.mp (key_near 2700.004)
      have e1 : (269999 : ℝ) < Star.key 2700.004 := by linarith
      have e2 : (Star.key 2700.004 : ℝ) < 270001 := by linarith
      have e1 : (269999 : ℤ) < Star.key 2700.004 := by exact_mod_cast e1
      have e2 : Star.key 2700.004 < (270001 : ℤ) := by exact_mod_cast e2
      omega
    simp only [eG] at h1
    have hval : ∀ p, m p = 2700 ∨ m p = 2700.004 ∨ m p = 3000 := by
      intro p
      rw [← congrFun e p]
      split_ifs <;> simp
    have hlist : Star.uniqueTeffs m = [2700, 2700.004, 3000] := by
      obtain ⟨⟨p1, h1⟩, ⟨p2, h2⟩, ⟨p3, h3⟩⟩ := halfStar_pixels
      have : Finset.univ.image m = List.toFinset [2700, 2700.004, 3000] := by
        ext T
        simp only [Finset.mem_image, Finset.mem_univ, true_and, List.mem_toFinset, List.mem_cons, List.not_mem_nil, or_false]
        constructor
        · rintro ⟨p, rfl⟩
          exact hval p
        · rintro (rfl | rfl | rfl)
          · exact ⟨p2, by rw [← congrFun e p2]; rw [if_pos h2]⟩
          · exact ⟨p3, by rw [← congrFun e p3]; rw [if_neg (by linarith), if_pos h3]⟩
          · exact ⟨p1, by rw [← congrFun e p1]; rw [if_neg (by linarith), if_neg (by linarith)]⟩
      unfold Star.uniqueTeffs
      rw [this]
      refine (List.toFinset_sort _ ?_).mpr ?_
      · simp; norm_num
      · simp; norm_num
    have hz : share (pixelWeight s a 0 0) m (fun _ => 1) 2700.004 = 0 := by
      unfold share
      rw [Finset.sum_eq_zero, zero_div]
      intro p _
      by_cases hp : 0 < (Grid.rect 4 3).mu 0 0 p
      · rw [if_neg]
        rw [← congrFun e p]
        simp only [if_pos hp]
        norm_num
      · have : pixelWeight s a 0 0 p = 0 := pixelWeight_back s ha hp
        simp [this]
    have hraw := rawData_get? hw hW.ne' m (fun _ => 1) 2900
    have r1 : Dict.get? (s.rawData 0 0 m (fun _ => .fin 1) 2900) 270000 = some (.fin 0) := by
      rw [hraw]
      unfold rawVal
      rw [if_neg (by rw [k2]; rintro ⟨-, h⟩; norm_num at h), hlist]
      simp [k1', k4, hz]
    obtain ⟨P, o, hP, ho, rfl⟩ := granulate_ok.mp h1
    unfold entry
    rw [k1, k2, Dict.get?_set, if_neg (by norm_num), Dict.get?_set, if_neg (by norm_num), r1]
    rfl

end Vsm
