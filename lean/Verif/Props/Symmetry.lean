import Verif.Props.StarHistory
import Verif.Props.StarCoverage2

/-!
# C79 – C83: symmetries of `calc_coverage`
-/

noncomputable section

namespace Vsm

open Real Spec

/-! ## A star and a transformed copy with corresponding pixels have the same coverage -/

/-- The star built again from transformed spots and faculae, with stellar radius `R`. -/
abbrev Spec.remade (s : Star) (R : ℝ) (Ts : StarSpot → StarSpot) (Tf : Facula → Facula) : Star :=
  { s with radius := R, spots := .new (s.spots.spots.map Ts) s.grid, faculae := .new (s.faculae.faculae.map Tf) s.grid }

/-- Everything on the star is described on the star's own grid (true of every star built by the constructor and
changed by the operations of a history, see C44). -/
def Spec.Placed (s : Star) : Prop :=
  s.spots.grid = s.grid ∧ Measured s.spots ∧ ∀ f ∈ s.faculae.faculae, f.grid = s.grid

theorem inSpot_setGridmaker (sp : StarSpot) (g : Grid) (R : ℝ) (p : g.Pix) :
    inSpot (sp.setGridmaker g) g R p = inSpot sp g R p := rfl

theorem inUmbra_setGridmaker (sp : StarSpot) (g : Grid) (R : ℝ) (p : g.Pix) :
    inUmbra (sp.setGridmaker g) g R p = inUmbra sp g R p := rfl

theorem inside_ex {f : Facula} {g : Grid} (h : f.grid = g) (R : ℝ) :
    (∃ p, (f.inside R).2 p) ↔ ∃ p, inFacula f R g p := by
  subst h; exact Iff.rfl

/-- The spot map of a placed star, as a function of the masks. -/
theorem spotMap_on (s : Star) (hs : Placed s) :
    (s.map >>= fun m => Field.on ⟨s.spots.grid, m⟩ s.grid .indexError) = (.ok fun p =>
      s.spots.spots.foldl (fun c sp => SpotCollection.overlay id sp.teffUmbra sp.teffPenumbra
        (inUmbra sp s.grid s.radius p) (inSpot sp s.grid s.radius p) c) s.teff : Py _) := by
  obtain ⟨hg, hm, -⟩ := hs
  obtain ⟨teff, radius, period, ⟨spots, sgrid⟩, faculae, grid, fg, sg, fcg, gr, u1, u2, fl⟩ := s
  simp only at hg hm ⊢
  subst hg
  have e : Star.map ⟨teff, radius, period, ⟨spots, sgrid⟩, faculae, sgrid, fg, sg, fcg, gr, u1, u2, fl⟩ = _ :=
    mapFold_eq id radius sgrid spots hm (fun _ => teff)
  rw [e]
  simp only [bind, Except.bind]
  unfold Field.on
  exact dif_pos rfl

theorem spotMap_remade (s : Star) (hs : Placed s) (R : ℝ) (Ts : StarSpot → StarSpot) (Tf : Facula → Facula)
    (e : s.grid.Pix ≃ s.grid.Pix)
    (hT : ∀ sp ∈ s.spots.spots, (Ts sp).teffUmbra = sp.teffUmbra ∧ (Ts sp).teffPenumbra = sp.teffPenumbra)
    (hP : ∀ sp ∈ s.spots.spots, ∀ p, inSpot (Ts sp) s.grid R (e p) ↔ inSpot sp s.grid s.radius p)
    (hU : ∀ sp ∈ s.spots.spots, ∀ p, inUmbra (Ts sp) s.grid R (e p) ↔ inUmbra sp s.grid s.radius p) :
    ((remade s R Ts Tf).map >>= fun m => Field.on ⟨s.grid, m⟩ s.grid .indexError) =
      (s.map >>= fun m => Field.on ⟨s.spots.grid, m⟩ s.grid .indexError).map (· ∘ e.symm) := by
  have hs' : Placed (remade s R Ts Tf) := by
    refine ⟨rfl, measured_new _ _, fun f hf => ?_⟩
    simp only [FaculaCollection.new, FaculaCollection.setGridmaker, List.mem_map] at hf
    obtain ⟨f', -, rfl⟩ := hf; rfl
  have h1 := spotMap_on _ hs'
  refine Eq.trans h1 ?_
  rw [spotMap_on s hs, Except.map]
  congr 1
  funext p
  have key : ∀ (l : List StarSpot), (∀ sp ∈ l, sp ∈ s.spots.spots) → ∀ c : ℝ,
      ((l.map Ts).map (·.setGridmaker s.grid)).foldl (fun c sp => SpotCollection.overlay id sp.teffUmbra sp.teffPenumbra
        (inUmbra sp s.grid R p) (inSpot sp s.grid R p) c) c =
      l.foldl (fun c sp => SpotCollection.overlay id sp.teffUmbra sp.teffPenumbra
        (inUmbra sp s.grid s.radius (e.symm p)) (inSpot sp s.grid s.radius (e.symm p)) c) c := by
    intro l
    induction l with
    | nil => intro _ c; rfl
    | cons sp l ih =>
      intro hl c
      have hsp := hl sp (by simp)
      have h1 := hP sp hsp (e.symm p)
      have h2 := hU sp hsp (e.symm p)
      rw [e.apply_symm_apply] at h1 h2
      simp only [List.map_cons, List.foldl_cons, inSpot_setGridmaker, inUmbra_setGridmaker]
      rw [ih (fun t ht => hl t (by simp [ht])), propext h1, propext h2]
      have e1 : ((Ts sp).setGridmaker s.grid).teffUmbra = sp.teffUmbra := (hT sp hsp).1
      have e2 : ((Ts sp).setGridmaker s.grid).teffPenumbra = sp.teffPenumbra := (hT sp hsp).2
      rw [e1, e2]
  exact key s.spots.spots (fun _ h => h) s.teff

open Classical in
theorem addFacula_remade (s : Star) (R : ℝ) (Ts : StarSpot → StarSpot) (Tf : Facula → Facula)
    (e : s.grid.Pix ≃ s.grid.Pix) (f f' : Facula) (lat0 lon0 lat0' lon0' : ℝ)
    (hg : f.grid = s.grid) (hg' : f'.grid = s.grid)
    (hF : ∀ p, inFacula f' R s.grid (e p) ↔ inFacula f s.radius s.grid p)
    (hfr : f'.fractionalEffectiveArea (Helpers.angleBetween lat0' lon0' f'.lat f'.lon) =
      f.fractionalEffectiveArea (Helpers.angleBetween lat0 lon0 f.lat f.lon))
    (hmu : ∀ p, s.grid.mu lat0' lon0' (e p) = s.grid.mu lat0 lon0 p) (cur : s.grid.Pix → ℝ) :
    (remade s R Ts Tf).addFacula lat0' lon0' (cur ∘ e.symm) f' =
      (s.addFacula lat0 lon0 cur f).map (· ∘ e.symm) := by
  have hF' : ∀ p, inFacula f' R s.grid p ↔ inFacula f s.radius s.grid (e.symm p) := by
    intro p; rw [← hF, e.apply_symm_apply]
  have hmu' : ∀ p, s.grid.mu lat0' lon0' p = s.grid.mu lat0 lon0 (e.symm p) := by
    intro p; rw [← hmu, e.apply_symm_apply]
  have hex : (∃ p, (f'.inside R).2 p) ↔ ∃ p, (f.inside s.radius).2 p := by
    rw [inside_ex hg, inside_ex hg']
    constructor
    · rintro ⟨p, hp⟩; exact ⟨_, (hF' p).mp hp⟩
    · rintro ⟨p, hp⟩; exact ⟨_, (hF p).mpr hp⟩
  unfold Star.addFacula
  simp only
  by_cases h : ∃ p, (f.inside s.radius).2 p
  swap
  · rw [if_pos h, if_pos (fun h' => h (hex.mp h'))]; rfl
  rw [if_neg (not_not.mpr h), if_neg (not_not.mpr (hex.mpr h)), hfr]
  cases f.fractionalEffectiveArea (Helpers.angleBetween lat0 lon0 f.lat f.lon) with
  | error x => rfl
  | ok fracs =>
    have i1 : (f'.inside (remade s R Ts Tf).radius).on (remade s R Ts Tf).grid .indexError =
        .ok fun p => inFacula f' R s.grid p := inside_on hg' R .indexError
    have i2 := inside_on hg s.radius .indexError
    simp only [bind, Except.bind]
    rw [i1, i2]
    simp only
    have hms : ((Finset.univ.filter fun p => inFacula f' R s.grid p).val.map (s.grid.mu lat0' lon0')) =
        ((Finset.univ.filter fun p => inFacula f s.radius s.grid p).val.map (s.grid.mu lat0 lon0)) := by
      have : (Finset.univ.filter fun p => inFacula f' R s.grid p) =
          (Finset.univ.filter fun p => inFacula f s.radius s.grid p).map e.toEmbedding := by
        ext p
        simp only [Finset.mem_filter, Finset.mem_univ, true_and, Finset.mem_map, Equiv.coe_toEmbedding]
        constructor
        · intro hp; exact ⟨e.symm p, (hF' p).mp hp, e.apply_symm_apply p⟩
        · rintro ⟨q, hq, rfl⟩; exact (hF q).mpr hq
      rw [this, Finset.map_val, Multiset.map_map]
      refine Multiset.map_congr rfl fun p _ => ?_
      simp [hmu]
    unfold Star.paintFacula
    split
    · rename_i kw fr kf x
      have hms' : Multiset.map ((remade s R Ts Tf).mu lat0' lon0')
          (Finset.univ.filter fun p => inFacula f' R s.grid p).val = _ := hms
      simp only [bind, Except.bind]
      rw [hms']
      have hms2 : Multiset.map (s.mu lat0 lon0) (Finset.univ.filter fun p => inFacula f s.radius s.grid p).val =
        Multiset.map (s.grid.mu lat0 lon0) (Finset.univ.filter fun p => inFacula f s.radius s.grid p).val := rfl
      rw [hms2]
      cases Np.percentile ((Finset.univ.filter fun p => inFacula f s.radius s.grid p).val.map (s.grid.mu lat0 lon0)) fr with
      | error x => rfl
      | ok b =>
        simp only [pure, Except.pure, Except.map]
        congr 1
        funext p
        have m1 : (remade s R Ts Tf).mu lat0' lon0' p = s.grid.mu lat0 lon0 (e.symm p) := hmu' p
        have m2 : s.mu lat0 lon0 (e.symm p) = s.grid.mu lat0 lon0 (e.symm p) := rfl
        simp only [Function.comp_apply, hF', m1, m2]
    · rfl

theorem addFaculaeToMap_remade (s : Star) (hs : Placed s) (R : ℝ) (Ts : StarSpot → StarSpot) (Tf : Facula → Facula)
    (e : s.grid.Pix ≃ s.grid.Pix) (lat0 lon0 lat0' lon0' : ℝ)
    (hT : ∀ sp ∈ s.spots.spots, (Ts sp).teffUmbra = sp.teffUmbra ∧ (Ts sp).teffPenumbra = sp.teffPenumbra)
    (hP : ∀ sp ∈ s.spots.spots, ∀ p, inSpot (Ts sp) s.grid R (e p) ↔ inSpot sp s.grid s.radius p)
    (hU : ∀ sp ∈ s.spots.spots, ∀ p, inUmbra (Ts sp) s.grid R (e p) ↔ inUmbra sp s.grid s.radius p)
    (hF : ∀ f ∈ s.faculae.faculae, ∀ p, inFacula (Tf f) R s.grid (e p) ↔ inFacula f s.radius s.grid p)
    (hfr : ∀ f ∈ s.faculae.faculae, (Tf f).fractionalEffectiveArea (Helpers.angleBetween lat0' lon0' (Tf f).lat (Tf f).lon) =
      f.fractionalEffectiveArea (Helpers.angleBetween lat0 lon0 f.lat f.lon))
    (hmu : ∀ p, s.grid.mu lat0' lon0' (e p) = s.grid.mu lat0 lon0 p) :
    (remade s R Ts Tf).addFaculaeToMap lat0' lon0' = (s.addFaculaeToMap lat0 lon0).map (· ∘ e.symm) := by
  have hm := spotMap_remade s hs R Ts Tf e hT hP hU
  rw [spotMap_on s hs] at hm
  have e1 : (remade s R Ts Tf).addFaculaeToMap lat0' lon0' =
      ((remade s R Ts Tf).map >>= fun m => Field.on ⟨s.grid, m⟩ s.grid .indexError) >>= fun m' =>
      (remade s R Ts Tf).faculae.faculae.foldlM (fun cur f => (remade s R Ts Tf).addFacula lat0' lon0' cur f) m' := by
    rw [bind_assoc]; rfl
  have e2 : s.addFaculaeToMap lat0 lon0 = (s.map >>= fun m => Field.on ⟨s.spots.grid, m⟩ s.grid .indexError) >>= fun m' =>
      s.faculae.faculae.foldlM (fun cur f => s.addFacula lat0 lon0 cur f) m' := by
    rw [bind_assoc]; rfl
  rw [e1, e2, hm, spotMap_on s hs]
  simp only [Except.map, bind, Except.bind]
  have key : ∀ (l : List Facula), (∀ f ∈ l, f ∈ s.faculae.faculae) → ∀ cur : s.grid.Pix → ℝ,
      ((l.map Tf).map (fun f => { f with grid := s.grid })).foldlM
        (fun cur f => (remade s R Ts Tf).addFacula lat0' lon0' cur f) (cur ∘ e.symm) =
      (l.foldlM (fun cur f => s.addFacula lat0 lon0 cur f) cur).map (· ∘ e.symm) := by
    intro l
    induction l with
    | nil => intro _ c; rfl
    | cons f l ih =>
      intro hl cur
      have hf := hl f (by simp)
      simp only [List.map_cons, List.foldlM_cons]
      have := addFacula_remade s R Ts Tf e f { Tf f with grid := s.grid } lat0 lon0 lat0' lon0' (hs.2.2 f hf) rfl
        (hF f hf) (hfr f hf) hmu cur
      rw [this]
      cases s.addFacula lat0 lon0 cur f with
      | error x => rfl
      | ok c => exact ih (fun t ht => hl t (by simp [ht])) c
  exact key _ (fun _ h => h) _

theorem rawData_remade (s : Star) (R : ℝ) (Ts : StarSpot → StarSpot) (Tf : Facula → Facula)
    (e : s.grid.Pix ≃ s.grid.Pix) (lat0 lon0 lat0' lon0' : ℝ)
    (hmu : ∀ p, s.grid.mu lat0' lon0' (e p) = s.grid.mu lat0 lon0 p)
    (ha : ∀ p, s.grid.area (e p) = s.grid.area p) (m : s.grid.Pix → ℝ) (x : s.grid.Pix → Fl) (G : ℝ) :
    (remade s R Ts Tf).rawData lat0' lon0' (m ∘ e.symm) (x ∘ e.symm) G = s.rawData lat0 lon0 m x G := by
  classical
  have hw : ∀ p, (remade s R Ts Tf).weight lat0' lon0' (e p) = s.weight lat0 lon0 p := by
    intro p
    have m1 : (remade s R Ts Tf).mu lat0' lon0' (e p) = s.mu lat0 lon0 p := hmu p
    have a1 : (remade s R Ts Tf).grid.area (e p) = s.grid.area p := ha p
    unfold Star.weight
    rw [m1, a1]
    rfl
  have hu : Star.uniqueTeffs (m ∘ e.symm) = Star.uniqueTeffs m := by
    unfold Star.uniqueTeffs
    congr 1
    rw [← Finset.image_image]
    congr 1
    exact Finset.image_univ_equiv e.symm
  have hsum : ∑ p, (remade s R Ts Tf).weight lat0' lon0' p = ∑ p, s.weight lat0 lon0 p :=
    (Fintype.sum_equiv e (fun p => s.weight lat0 lon0 p) (fun p => (remade s R Ts Tf).weight lat0' lon0' p) (fun p => (hw p).symm)).symm
  have harea : ∀ T, (remade s R Ts Tf).areaWithTeff lat0' lon0' (m ∘ e.symm) (x ∘ e.symm) T =
      s.areaWithTeff lat0 lon0 m x T := by
    intro T
    refine (Fintype.sum_equiv e _ _ fun p => ?_).symm
    rw [hw]
    have e1 : (m ∘ e.symm) (e p) = m p := congrArg m (e.symm_apply_apply p)
    have e2 : (x ∘ e.symm) (e p) = x p := congrArg x (e.symm_apply_apply p)
    rw [e1, e2]
  have hu' : Star.uniqueTeffs (ι := (remade s R Ts Tf).grid.Pix) (m ∘ e.symm) = Star.uniqueTeffs m := hu
  unfold Star.rawData
  simp only [harea, hsum, hu']

/-- The part of `calc_coverage` after the temperature map and the transit mask. -/
def covEnd (s : Star) (lat0 lon0 gran : ℝ) (m : s.grid.Pix → ℝ) (covered : s.grid.Pix → Fl) (plf : Fl) :
    Py (Np.Dict ℤ Fl × Np.Dict ℤ Fl × Fl) :=
  match s.granulation with
  | none => .error .typeError
  | some gr => do
    let total ← Star.granulate (s.rawData lat0 lon0 m (fun _ => .fin 1) (s.teff - gr.dteff)) (Star.key s.teff)
      (Star.key (s.teff - gr.dteff)) gran
    let cov ← Star.granulate (s.rawData lat0 lon0 m covered (s.teff - gr.dteff)) (Star.key s.teff)
      (Star.key (s.teff - gr.dteff)) gran
    return (total, cov, plf)

theorem calcCoverage_bind (s : Star) (lat0 lon0 gran orbit r phase incl : ℝ) :
    s.calcCoverage lat0 lon0 gran orbit r phase incl = (s.addFaculaeToMap lat0 lon0 >>= fun m =>
      s.transitMask lat0 lon0 orbit r phase incl >>= fun c => covEnd s lat0 lon0 gran m c.1 c.2) := rfl

theorem covEnd_remade (s : Star) (R : ℝ) (Ts : StarSpot → StarSpot) (Tf : Facula → Facula)
    (e : s.grid.Pix ≃ s.grid.Pix) (lat0 lon0 lat0' lon0' gran : ℝ)
    (hmu : ∀ p, s.grid.mu lat0' lon0' (e p) = s.grid.mu lat0 lon0 p)
    (ha : ∀ p, s.grid.area (e p) = s.grid.area p) (m : s.grid.Pix → ℝ) (c : s.grid.Pix → Fl) (plf : Fl) :
    covEnd (remade s R Ts Tf) lat0' lon0' gran (m ∘ e.symm) (c ∘ e.symm) plf = covEnd s lat0 lon0 gran m c plf := by
  have h1 := rawData_remade s R Ts Tf e lat0 lon0 lat0' lon0' hmu ha m (fun _ => .fin 1)
  have h2 := rawData_remade s R Ts Tf e lat0 lon0 lat0' lon0' hmu ha m c
  have e3 : ((fun _ => Fl.fin 1) ∘ e.symm : s.grid.Pix → Fl) = fun _ => Fl.fin 1 := rfl
  rw [e3] at h1
  unfold covEnd
  simp only [h1, h2]

theorem py_map_bind {α β γ : Type} (x : Py α) (f : α → β) (g : β → Py γ) :
    (x.map f >>= g) = (x >>= fun a => g (f a)) := by cases x <;> rfl

theorem coverage_remade (s : Star) (hs : Placed s) (R : ℝ) (Ts : StarSpot → StarSpot) (Tf : Facula → Facula)
    (e : s.grid.Pix ≃ s.grid.Pix) (lat0 lon0 lat0' lon0' gran orbit r phase incl orbit' r' phase' incl' : ℝ)
    (hT : ∀ sp ∈ s.spots.spots, (Ts sp).teffUmbra = sp.teffUmbra ∧ (Ts sp).teffPenumbra = sp.teffPenumbra)
    (hP : ∀ sp ∈ s.spots.spots, ∀ p, inSpot (Ts sp) s.grid R (e p) ↔ inSpot sp s.grid s.radius p)
    (hU : ∀ sp ∈ s.spots.spots, ∀ p, inUmbra (Ts sp) s.grid R (e p) ↔ inUmbra sp s.grid s.radius p)
    (hF : ∀ f ∈ s.faculae.faculae, ∀ p, inFacula (Tf f) R s.grid (e p) ↔ inFacula f s.radius s.grid p)
    (hfr : ∀ f ∈ s.faculae.faculae, (Tf f).fractionalEffectiveArea (Helpers.angleBetween lat0' lon0' (Tf f).lat (Tf f).lon) =
      f.fractionalEffectiveArea (Helpers.angleBetween lat0 lon0 f.lat f.lon))
    (hmu : ∀ p, s.grid.mu lat0' lon0' (e p) = s.grid.mu lat0 lon0 p)
    (ha : ∀ p, s.grid.area (e p) = s.grid.area p)
    (ht : (remade s R Ts Tf).transitMask lat0' lon0' orbit' r' phase' incl' =
      (s.transitMask lat0 lon0 orbit r phase incl).map fun m => (m.1 ∘ e.symm, m.2)) :
    (remade s R Ts Tf).calcCoverage lat0' lon0' gran orbit' r' phase' incl' =
      s.calcCoverage lat0 lon0 gran orbit r phase incl := by
  have hm := addFaculaeToMap_remade s hs R Ts Tf e lat0 lon0 lat0' lon0' hT hP hU hF hfr hmu
  rw [calcCoverage_bind, calcCoverage_bind, hm, ht, py_map_bind]
  refine congrArg (s.addFaculaeToMap lat0 lon0 >>= ·) (funext fun m => ?_)
  rw [py_map_bind]
  refine congrArg (s.transitMask lat0 lon0 orbit r phase incl >>= ·) (funext fun c => ?_)
  exact covEnd_remade s R Ts Tf e lat0 lon0 lat0' lon0' gran hmu ha m c.1 c.2

theorem transitMask_remade (s : Star) (R : ℝ) (Ts : StarSpot → StarSpot) (Tf : Facula → Facula)
    (e : s.grid.Pix ≃ s.grid.Pix) (lat0 lon0 lat0' lon0' orbit r phase incl orbit' r' phase' incl' : ℝ)
    (hmu : ∀ p, s.grid.mu lat0' lon0' (e p) = s.grid.mu lat0 lon0 p)
    (ha : ∀ p, s.grid.area (e p) = s.grid.area p)
    (hd : (remade s R Ts Tf).planetX (phase' - π) orbit' * (remade s R Ts Tf).planetX (phase' - π) orbit' +
        (remade s R Ts Tf).planetY (phase' - π) orbit' incl' * (remade s R Ts Tf).planetY (phase' - π) orbit' incl' =
      s.planetX (phase - π) orbit * s.planetX (phase - π) orbit +
        s.planetY (phase - π) orbit incl * s.planetY (phase - π) orbit incl)
    (hr : Fl.fin r' / Fl.fin R = Fl.fin r / Fl.fin s.radius) (hc : cos phase' = cos phase)
    (hrad : ∀ p, (remade s R Ts Tf).radMap lat0' lon0' ((remade s R Ts Tf).planetX (phase' - π) orbit')
        ((remade s R Ts Tf).planetY (phase' - π) orbit' incl') (e p) =
      s.radMap lat0 lon0 (s.planetX (phase - π) orbit) (s.planetY (phase - π) orbit incl) p) :
    (remade s R Ts Tf).transitMask lat0' lon0' orbit' r' phase' incl' =
      (s.transitMask lat0 lon0 orbit r phase incl).map fun m => (m.1 ∘ e.symm, m.2) := by
  have hcov : ∀ p, (remade s R Ts Tf).coveredValue lat0' lon0' ((remade s R Ts Tf).planetX (phase' - π) orbit')
      ((remade s R Ts Tf).planetY (phase' - π) orbit' incl') (Fl.fin r / Fl.fin s.radius) (e p) =
      s.coveredValue lat0 lon0 (s.planetX (phase - π) orbit) (s.planetY (phase - π) orbit incl)
        (Fl.fin r / Fl.fin s.radius) p := by
    intro p
    have m1 : (remade s R Ts Tf).mu lat0' lon0' (e p) = s.mu lat0 lon0 p := hmu p
    have a1 : (remade s R Ts Tf).pointRadius (e p) = s.pointRadius p := by
      have : (remade s R Ts Tf).grid.area (e p) = s.grid.area p := ha p
      unfold Star.pointRadius; rw [this]
    unfold Star.coveredValue
    simp only [m1, a1, hrad]
  have hcov' : (remade s R Ts Tf).coveredValue lat0' lon0' ((remade s R Ts Tf).planetX (phase' - π) orbit')
      ((remade s R Ts Tf).planetY (phase' - π) orbit' incl') (Fl.fin r / Fl.fin s.radius) =
      s.coveredValue lat0 lon0 (s.planetX (phase - π) orbit) (s.planetY (phase - π) orbit incl)
        (Fl.fin r / Fl.fin s.radius) ∘ e.symm := by
    funext p
    have := hcov (e.symm p)
    rw [e.apply_symm_apply] at this
    exact this
  have hpl : (remade s R Ts Tf).plFrac (phase' - π) orbit' r' incl' = s.plFrac (phase - π) orbit r incl := by
    unfold Star.plFrac Helpers.circFraction
    simp only [hd, hr]
  unfold Star.transitMask
  simp only
  rw [hd, hr, hc, hpl, hcov']
  by_cases h1 : Fl.fin 1 + Fl.fin 2 * (Fl.fin r / Fl.fin s.radius) <
      Fl.sqrt (s.planetX (phase - π) orbit * s.planetX (phase - π) orbit +
        s.planetY (phase - π) orbit incl * s.planetY (phase - π) orbit incl)
  · rw [if_pos h1, if_pos h1]; rfl
  rw [if_neg h1, if_neg h1]
  by_cases h2 : 0 < cos phase
  · rw [if_pos h2, if_pos h2]
    cases s.plFrac (phase - π) orbit r incl <;> rfl
  rw [if_neg h2, if_neg h2]
  set c := s.coveredValue lat0 lon0 (s.planetX (phase - π) orbit) (s.planetY (phase - π) orbit incl)
        (Fl.fin r / Fl.fin s.radius)
  by_cases h3 : ∃ p, (c p).isNan
  · rw [if_pos h3, if_pos]
    · rfl
    · obtain ⟨p, hp⟩ := h3
      exact ⟨e p, by simpa using hp⟩
  · rw [if_neg h3, if_neg]
    · rfl
    · rintro ⟨p, hp⟩
      exact h3 ⟨e.symm p, hp⟩

/-! ## The projection depends on the difference of longitudes only -/

theorem roundHalfEven_neg (x : ℝ) : Np.roundHalfEven (-x) = -Np.roundHalfEven x := by
  by_cases h : Int.fract x = 1 / 2
  · have hx : x = (⌊x⌋ : ℝ) + 1 / 2 := by rw [← h]; exact (Int.floor_add_fract x).symm
    have hx' : -x = ((-⌊x⌋ - 1 : ℤ) : ℝ) + 1 / 2 := by push_cast; linarith
    rw [hx', Np.roundHalfEven_half]
    conv_rhs => rw [hx, Np.roundHalfEven_half]
    have : Even (-⌊x⌋ - 1) ↔ ¬ Even ⌊x⌋ := by
      rw [Int.even_sub_one, even_neg]
    by_cases he : Even ⌊x⌋
    · rw [if_pos he, if_neg (by rw [this]; exact not_not.mpr he)]; ring
    · rw [if_neg he, if_pos (this.mpr he)]; ring
  · apply Np.roundHalfEven_unique
    have h2 : |(Np.roundHalfEven x : ℝ) - x| < 1 / 2 := by
      have hf := Int.floor_add_fract x
      have f0 := Int.fract_nonneg x
      have f1 := Int.fract_lt_one x
      unfold Np.roundHalfEven
      rcases lt_or_gt_of_ne h with h' | h'
      · rw [if_pos h', abs_lt]; constructor <;> linarith
      · rw [if_neg (by linarith), if_pos h', abs_lt]; push_cast; constructor <;> linarith
    rw [← abs_neg] at h2
    convert h2 using 2
    push_cast; ring

/-- Cosine of the position angle computed by `proj_ortho` (rounded to four decimals). -/
def posCos (lat0 lon0 lat lon : ℝ) : ℝ :=
  (Np.roundHalfEven (10 ^ 4 * (orthoY lat0 lon0 lat lon / √(1 - cosDist lat0 lon0 lat lon ^ 2))) : ℝ) / 10 ^ 4

theorem cosDist_cos (lat0 lon0 lat lon : ℝ) :
    cosDist lat0 lon0 lat lon = sin lat0 * sin lat + cos lat0 * cos lat * cos (lon - lon0) := by
  rw [cosDist, inner_unitVec, ← cos_neg (lon0 - lon), neg_sub]

theorem posCos_merid {lat0 lon0 lat lon : ℝ} (h : sin (lon - lon0) = 0) (hS : √(1 - cosDist lat0 lon0 lat lon ^ 2) ≠ 0) :
    posCos lat0 lon0 lat lon = 1 ∧ orthoY lat0 lon0 lat lon = √(1 - cosDist lat0 lon0 lat lon ^ 2) ∨
    posCos lat0 lon0 lat lon = -1 ∧ orthoY lat0 lon0 lat lon = -√(1 - cosDist lat0 lon0 lat lon ^ 2) := by
  have hsq := ortho_sq lat0 lon0 lat lon
  rw [orthoX, h] at hsq
  have hS' : √(1 - cosDist lat0 lon0 lat lon ^ 2) = |orthoY lat0 lon0 lat lon| := by
    rw [← hsq, ← sqrt_sq_eq_abs]; congr 1; ring
  unfold posCos
  rcases abs_choice (orthoY lat0 lon0 lat lon) with h1 | h1
  · left
    rw [hS', h1] at hS ⊢
    have h4 : (10 ^ 4 * 1 : ℝ) = ((10000 : ℤ) : ℝ) := by norm_num
    refine ⟨?_, rfl⟩
    rw [div_self hS, h4, Np.roundHalfEven_int]; norm_num
  · right
    rw [hS', h1] at hS ⊢
    have hy : orthoY lat0 lon0 lat lon ≠ 0 := fun h0 => hS (by rw [h0, neg_zero])
    have h4 : (10 ^ 4 * -1 : ℝ) = ((-10000 : ℤ) : ℝ) := by norm_num
    refine ⟨?_, (neg_neg _).symm⟩
    rw [div_neg, div_self hy, h4, Np.roundHalfEven_int]; norm_num

/-- `proj_ortho` away from the poles, on the near side: closed form without the tests `lon = lon0`. -/
theorem projOrtho_closed {lat0 lon0 lat lon : ℝ} (h0 : lat0 ∈ Set.Ioo (-(π / 2)) (π / 2))
    (hl : lat ∈ Set.Icc (-(π / 2)) (π / 2)) (hmu : 0 ≤ cosDist lat0 lon0 lat lon) :
    Helpers.projOrtho lat0 lon0 lat lon =
      (.fin ((if sin (lon - lon0) < 0 then -1 else 1) * √(1 - posCos lat0 lon0 lat lon ^ 2)
          * √(1 - cosDist lat0 lon0 lat lon ^ 2)),
       .fin (posCos lat0 lon0 lat lon * √(1 - cosDist lat0 lon0 lat lon ^ 2))) := by
  have hsq := ortho_sq lat0 lon0 lat lon
  have hmu' : sin lat0 * sin lat + cos lat0 * cos lat * cos (lon0 - lon) = cosDist lat0 lon0 lat lon := by
    rw [cosDist, inner_unitVec]
  have hmem := cosExpr_mem lat0 lon0 lat lon
  rw [hmu'] at hmem
  have hb0 : π / 2 - lat0 ≠ 0 := by have := h0.2; intro h; linarith
  have hbpi : π / 2 - lat0 ≠ π := by have := h0.1; intro h; linarith
  have hc0 : 0 < cos lat0 := cos_pos_of_mem_Ioo h0
  simp only [Helpers.projOrtho, hb0, hbpi, if_false, hmu', Fl.arccos_fin hmem.1 hmem.2, Fl.cos_fin,
    Fl.sin_fin, cos_arccos hmem.1 hmem.2, sin_arccos, cos_pi_div_two_sub, sin_pi_div_two_sub, hmu, if_true,
    Fl.fin_mul, Fl.fin_sub]
  set m := cosDist lat0 lon0 lat lon with hm
  set Y := orthoY lat0 lon0 lat lon with hY
  set S := √(1 - m ^ 2) with hS
  set c := posCos lat0 lon0 lat lon with hcdef
  have hS0 : 0 ≤ S := sqrt_nonneg _
  have hnum : sin lat - m * sin lat0 = cos lat0 * Y := by
    rw [← hmu', hY, orthoY, ← cos_neg (lon0 - lon), neg_sub]
    linear_combination -(sin lat) * sin_sq_add_cos_sq lat0
  have final : ∀ (C₂ : Fl) (k : ℝ), C₂ = .fin k → sin k * S = √(1 - c ^ 2) * S → cos k * S = c * S →
      ((Fl.sin (if sin (lon - lon0) < 0 then -C₂ else C₂) * .fin S,
        Fl.cos (if sin (lon - lon0) < 0 then -C₂ else C₂) * .fin S) : Fl × Fl) =
        (.fin ((if sin (lon - lon0) < 0 then -1 else 1) * √(1 - c ^ 2) * S), .fin (c * S)) := by
    rintro C₂ k rfl hs hc
    by_cases hneg : sin (lon - lon0) < 0
    · simp only [hneg, if_true, Fl.neg_fin, Fl.sin_fin, Fl.cos_fin, Fl.fin_mul, sin_neg, cos_neg]
      rw [neg_mul, hs, hc]; congr 2; ring
    · simp only [hneg, if_false, Fl.sin_fin, Fl.cos_fin, Fl.fin_mul]
      rw [hs, hc]; congr 2; ring
  by_cases hlon : lon = lon0
  · have hs0 : sin (lon - lon0) = 0 := by rw [hlon, sub_self, sin_zero]
    have hYe : Y = sin (lat - lat0) := by rw [hY, orthoY, hlon, sub_self, cos_zero, sin_sub]; ring
    by_cases hlt : lat < lat0
    · have hYn : Y ≤ 0 := by
        rw [hYe, ← neg_nonneg, ← sin_neg]
        apply sin_nonneg_of_nonneg_of_le_pi <;> linarith [h0.1, h0.2, hl.1, hl.2]
      refine final _ π (by simp [hlon, hlt]) ?_ ?_
      · by_cases hSz : S = 0
        · rw [hSz]; ring
        · rcases posCos_merid hs0 hSz with h | h <;> (rw [← hcdef] at h; rw [h.1]; simp)
      · by_cases hSz : S = 0
        · rw [hSz]; ring
        · rcases posCos_merid hs0 hSz with h | h
          · have h2 : Y = S := h.2
            exact absurd (le_antisymm (by linarith) hS0) hSz
          · rw [← hcdef] at h; rw [h.1]; simp
    · have hYn : 0 ≤ Y := by
        rw [hYe]
        apply sin_nonneg_of_nonneg_of_le_pi <;> linarith [h0.1, h0.2, hl.1, hl.2]
      refine final _ 0 (by simp [hlon, hlt]) ?_ ?_
      · by_cases hSz : S = 0
        · rw [hSz]; ring
        · rcases posCos_merid hs0 hSz with h | h <;> (rw [← hcdef] at h; rw [h.1]; simp)
      · by_cases hSz : S = 0
        · rw [hSz]; ring
        · rcases posCos_merid hs0 hSz with h | h
          · rw [← hcdef] at h; rw [h.1]; simp
          · have h2 : Y = -S := h.2
            exact absurd (le_antisymm (by linarith) hS0) hSz
  · by_cases hm1 : m < 1
    · have hSpos : 0 < S := by rw [hS]; apply sqrt_pos.mpr; nlinarith
      have hS2 : S ^ 2 = 1 - m ^ 2 := by rw [hS, sq_sqrt]; nlinarith
      have hden : S * cos lat0 ≠ 0 := by positivity
      have hq : (sin lat - m * sin lat0) / (S * cos lat0) = Y / S := by
        rw [hnum]; field_simp
      have hYS : -1 ≤ Y / S ∧ Y / S ≤ 1 := by
        rw [← abs_le, abs_div, abs_of_pos hSpos, div_le_one hSpos]
        apply abs_le_of_sq_le_sq _ hSpos.le
        rw [hS2, ← hsq]; nlinarith [sq_nonneg (orthoX lat0 lon0 lat lon)]
      have hr := round4_mem hYS.1 hYS.2
      have hcr : c = (Np.roundHalfEven (10 ^ 4 * (Y / S)) : ℝ) / 10 ^ 4 := by rw [hcdef, posCos]
      rw [← hcr] at hr
      refine final _ (arccos c) ?_ ?_ ?_
      · simp only [hlon, hm1, false_and, if_false, if_true, Fl.fin_inj, hden]
        rw [Fl.fin_div hden, hq, round4_fin, ← hcr, Fl.arccos_fin hr.1 hr.2]
      · rw [sin_arccos]
      · rw [cos_arccos hr.1 hr.2]
    · have hm1' : m = 1 := le_antisymm hmem.2 (not_lt.mp hm1)
      have hSz : S = 0 := by rw [hS, hm1']; simp
      have hr := round4_mem (show (-1 : ℝ) ≤ 1 by norm_num) le_rfl
      refine final _ (arccos ((Np.roundHalfEven (10 ^ 4 * 1) : ℝ) / 10 ^ 4)) ?_ ?_ ?_
      · simp only [hlon, hm1, false_and, if_false]
        rw [round4_fin, Fl.arccos_fin hr.1 hr.2]
      · rw [hSz]; ring
      · rw [hSz]; ring

/-- The projection depends on the two longitudes only through sine and cosine of their difference. -/
theorem projOrtho_turn {lat0 lon0 lat lon lon0' lon' : ℝ} (h0 : lat0 ∈ Set.Ioo (-(π / 2)) (π / 2))
    (hl : lat ∈ Set.Icc (-(π / 2)) (π / 2)) (hc : cos (lon' - lon0') = cos (lon - lon0))
    (hs : sin (lon' - lon0') = sin (lon - lon0)) :
    Helpers.projOrtho lat0 lon0' lat lon' = Helpers.projOrtho lat0 lon0 lat lon := by
  have e1 : cosDist lat0 lon0' lat lon' = cosDist lat0 lon0 lat lon := by
    rw [cosDist_cos, cosDist_cos, hc]
  have e2 : orthoY lat0 lon0' lat lon' = orthoY lat0 lon0 lat lon := by
    rw [orthoY, orthoY, hc]
  by_cases hmu : 0 ≤ cosDist lat0 lon0 lat lon
  · rw [projOrtho_closed h0 hl hmu, projOrtho_closed h0 hl (by rw [e1]; exact hmu)]
    unfold posCos
    rw [e1, e2, hs]
  · rw [projOrtho_far h0 (not_le.mp hmu), projOrtho_far h0 (by rw [e1]; exact not_le.mp hmu)]

/-- Mirroring north and south mirrors the projected `y`. -/
theorem projOrtho_northSouth {lat0 lon0 lat lon : ℝ} (h0 : lat0 ∈ Set.Icc (-(π / 2)) (π / 2))
    (hl : lat ∈ Set.Icc (-(π / 2)) (π / 2)) :
    Helpers.projOrtho (-lat0) lon0 (-lat) lon =
      ((Helpers.projOrtho lat0 lon0 lat lon).1, -(Helpers.projOrtho lat0 lon0 lat lon).2) := by
  rcases eq_or_lt_of_le h0.1 with h1 | h1
  · have e : -lat0 = π / 2 := by linarith
    rw [e, ← h1, projOrtho_north, projOrtho_south]
    by_cases h : lat ≤ 0
    · rw [if_pos h, if_pos (by linarith)]; simp
    · rw [if_neg h, if_neg (by linarith)]; simp
  rcases eq_or_lt_of_le h0.2 with h2 | h2
  · rw [h2, projOrtho_north, projOrtho_south]
    by_cases h : 0 ≤ lat
    · rw [if_pos h, if_pos (by linarith)]; simp
    · rw [if_neg h, if_neg (by linarith)]; simp
  have h0' : -lat0 ∈ Set.Ioo (-(π / 2)) (π / 2) := ⟨by linarith, by linarith⟩
  have hl' : -lat ∈ Set.Icc (-(π / 2)) (π / 2) := ⟨by linarith [hl.2], by linarith [hl.1]⟩
  have e1 : cosDist (-lat0) lon0 (-lat) lon = cosDist lat0 lon0 lat lon := by
    rw [cosDist_cos, cosDist_cos]; simp
  have e2 : orthoY (-lat0) lon0 (-lat) lon = -orthoY lat0 lon0 lat lon := by
    rw [orthoY, orthoY]; simp only [sin_neg, cos_neg]; ring
  have e3 : posCos (-lat0) lon0 (-lat) lon = -posCos lat0 lon0 lat lon := by
    unfold posCos
    rw [e1, e2, neg_div, mul_neg, roundHalfEven_neg]; push_cast; ring
  by_cases hmu : 0 ≤ cosDist lat0 lon0 lat lon
  · rw [projOrtho_closed ⟨h1, h2⟩ hl hmu, projOrtho_closed h0' hl' (by rw [e1]; exact hmu), e1, e3]
    simp
  · rw [projOrtho_far ⟨h1, h2⟩ (not_le.mp hmu), projOrtho_far h0' (by rw [e1]; exact not_le.mp hmu)]
    simp

/-- Mirroring east and west mirrors the projected `x`. -/
theorem projOrtho_eastWest {lat0 lon0 lat lon lon' : ℝ} (h0 : lat0 ∈ Set.Icc (-(π / 2)) (π / 2))
    (hl : lat ∈ Set.Icc (-(π / 2)) (π / 2)) (hc : cos lon' = cos lon) (hs : sin lon' = -sin lon) :
    Helpers.projOrtho lat0 (-lon0) lat lon' =
      (-(Helpers.projOrtho lat0 lon0 lat lon).1, (Helpers.projOrtho lat0 lon0 lat lon).2) := by
  rcases eq_or_lt_of_le h0.1 with h1 | h1
  · rw [← h1, projOrtho_south, projOrtho_south, hc, hs]
    split_ifs <;> simp
  rcases eq_or_lt_of_le h0.2 with h2 | h2
  · rw [h2, projOrtho_north, projOrtho_north, hc, hs]
    split_ifs <;> simp
  have hcd : cos (lon' - -lon0) = cos (lon - lon0) := by
    rw [cos_sub, cos_sub, hc, hs]; simp
  have hsd : sin (lon' - -lon0) = -sin (lon - lon0) := by
    rw [sin_sub, sin_sub, hc, hs]; simp only [cos_neg, sin_neg]; ring
  have e1 : cosDist lat0 (-lon0) lat lon' = cosDist lat0 lon0 lat lon := by
    rw [cosDist_cos, cosDist_cos, hcd]
  have e2 : orthoY lat0 (-lon0) lat lon' = orthoY lat0 lon0 lat lon := by
    rw [orthoY, orthoY, hcd]
  have e3 : posCos lat0 (-lon0) lat lon' = posCos lat0 lon0 lat lon := by
    unfold posCos; rw [e1, e2]
  by_cases hmu : 0 ≤ cosDist lat0 lon0 lat lon
  · rw [projOrtho_closed ⟨h1, h2⟩ hl hmu, projOrtho_closed ⟨h1, h2⟩ hl (by rw [e1]; exact hmu), e1, e3, hsd]
    simp only [Fl.neg_fin, Prod.mk.injEq, Fl.fin_inj, and_true]
    rcases lt_trichotomy (sin (lon - lon0)) 0 with h | h | h
    · rw [if_neg (by linarith), if_pos h]; ring
    · by_cases hS : √(1 - cosDist lat0 lon0 lat lon ^ 2) = 0
      · rw [hS]; ring
      · rcases posCos_merid h hS with hp | hp <;> (rw [hp.1]; simp)
    · rw [if_pos (by linarith), if_neg (by linarith)]; ring
  · rw [projOrtho_far ⟨h1, h2⟩ (not_le.mp hmu), projOrtho_far ⟨h1, h2⟩ (by rw [e1]; exact not_le.mp hmu)]
    simp

/-! ## Transformations that keep all angles -/

theorem inSpot_iff (sp : StarSpot) (g : Grid) (R : ℝ) (p : g.Pix) : inSpot sp g R p ↔
    Fl.fin (Helpers.haversine sp.lat sp.lon (g.lat p) (g.lon p)) < sp.angularRadius R := Iff.rfl

theorem inUmbra_iff (sp : StarSpot) (g : Grid) (R : ℝ) (p : g.Pix) : inUmbra sp g R p ↔
    if sp.teffUmbra = sp.teffPenumbra then inSpot sp g R p
    else Fl.fin (Helpers.haversine sp.lat sp.lon (g.lat p) (g.lon p)) < sp.umbraRadius R := Iff.rfl

theorem haversine_cosAngle {a b c d a' b' c' d' : ℝ} (h : Grid.cosAngle a b c d = Grid.cosAngle a' b' c' d') :
    Helpers.haversine a b c d = Helpers.haversine a' b' c' d' := by
  unfold Grid.cosAngle at h
  rw [haversine_eq, haversine_eq, greatCircle_eq, greatCircle_eq, h]

theorem angleBetween_cosAngle {a b c d a' b' c' d' : ℝ} (h : Grid.cosAngle a b c d = Grid.cosAngle a' b' c' d') :
    Helpers.angleBetween a b c d = Helpers.angleBetween a' b' c' d' := by
  unfold Helpers.angleBetween
  unfold Grid.cosAngle at h
  rw [h]

/-- Same size of star and spots, every angle kept, a projection whose distances to the planet are kept. -/
theorem coverage_isometry (s : Star) (hs : Placed s) (e : s.grid.Pix ≃ s.grid.Pix) (T T' : ℝ → ℝ → ℝ × ℝ)
    (lat0 lon0 lat0' lon0' gran orbit r phase incl phase' incl' : ℝ)
    (hS : ∀ a b p, Grid.cosAngle (T a b).1 (T a b).2 (s.grid.lat (e p)) (s.grid.lon (e p)) =
      Grid.cosAngle a b (s.grid.lat p) (s.grid.lon p))
    (hF : ∀ a b p, Grid.cosAngle (T' a b).1 (T' a b).2 (s.grid.lat (e p)) (s.grid.lon (e p)) =
      Grid.cosAngle a b (s.grid.lat p) (s.grid.lon p))
    (hO : ∀ a b, Grid.cosAngle lat0' lon0' (T' a b).1 (T' a b).2 = Grid.cosAngle lat0 lon0 a b)
    (hmu : ∀ p, s.grid.mu lat0' lon0' (e p) = s.grid.mu lat0 lon0 p)
    (ha : ∀ p, s.grid.area (e p) = s.grid.area p)
    (hd : s.planetX (phase' - π) orbit * s.planetX (phase' - π) orbit +
        s.planetY (phase' - π) orbit incl' * s.planetY (phase' - π) orbit incl' =
      s.planetX (phase - π) orbit * s.planetX (phase - π) orbit +
        s.planetY (phase - π) orbit incl * s.planetY (phase - π) orbit incl)
    (hc : cos phase' = cos phase)
    (hrad : ∀ p, s.radMap lat0' lon0' (s.planetX (phase' - π) orbit) (s.planetY (phase' - π) orbit incl') (e p) =
      s.radMap lat0 lon0 (s.planetX (phase - π) orbit) (s.planetY (phase - π) orbit incl) p) :
    (remade s s.radius (fun sp => { sp with lat := (T sp.lat sp.lon).1, lon := (T sp.lat sp.lon).2 })
      (fun f => { f with lat := (T' f.lat f.lon).1, lon := (T' f.lat f.lon).2 })).calcCoverage
        lat0' lon0' gran orbit r phase' incl' = s.calcCoverage lat0 lon0 gran orbit r phase incl := by
  have hP : ∀ (sp : StarSpot) (p : s.grid.Pix), inSpot { sp with lat := (T sp.lat sp.lon).1, lon := (T sp.lat sp.lon).2 }
      s.grid s.radius (e p) ↔ inSpot sp s.grid s.radius p := by
    intro sp p
    rw [inSpot_iff, inSpot_iff, haversine_cosAngle (hS sp.lat sp.lon p)]
    rfl
  refine coverage_remade s hs s.radius _ _ e lat0 lon0 lat0' lon0' gran orbit r phase incl orbit r phase' incl'
    (fun sp _ => ⟨rfl, rfl⟩) (fun sp _ p => hP sp p) ?_ ?_ ?_ hmu ha ?_
  · intro sp _ p
    rw [inUmbra_iff, inUmbra_iff]
    simp only [hP sp p]
    rw [haversine_cosAngle (hS sp.lat sp.lon p)]
    rfl
  · intro f _ p
    unfold inFacula
    rw [haversine_cosAngle (hF f.lat f.lon p)]
  · intro f _
    rw [angleBetween_cosAngle (hO f.lat f.lon)]
    rfl
  · exact transitMask_remade s s.radius _ _ e lat0 lon0 lat0' lon0' orbit r phase incl orbit r phase' incl' hmu ha hd rfl hc hrad

/-- The star built again with the same settings, every spot and facula moved from `(lat, lon)` to `T lat lon`. -/
abbrev Spec.moved (s : Star) (T : ℝ → ℝ → ℝ × ℝ) : Star :=
  remade s s.radius (fun sp => { sp with lat := (T sp.lat sp.lon).1, lon := (T sp.lat sp.lon).2 })
    (fun f => { f with lat := (T f.lat f.lon).1, lon := (T f.lat f.lon).2 })

theorem placed_of_unified {s : Star} {g : Grid} (h : Unified s g) : s.grid = g ∧ Placed s :=
  ⟨h.star, by rw [h.star]; exact h.spots, fun sp hsp => by rw [h.spots]; exact onGrid_iff.mp (h.eachSpot sp hsp),
    fun f hf => by rw [h.star]; exact h.eachFacula f hf⟩

theorem cosAngle_lon {a b c d a' b' : ℝ} (h : cos (b' - d) = cos (b - c)) :
    Grid.cosAngle a b a' c = Grid.cosAngle a b' a' d := by
  unfold Grid.cosAngle; rw [h]

theorem rect_area_lat {nlat nlon : ℕ} {p q : (Grid.rect nlat nlon).Pix}
    (h : (Grid.rect nlat nlon).lat q = (Grid.rect nlat nlon).lat p ∨ (Grid.rect nlat nlon).lat q = -(Grid.rect nlat nlon).lat p) :
    (Grid.rect nlat nlon).area q = (Grid.rect nlat nlon).area p := by
  have e : Grid.deg 90 = π / 2 := by unfold Grid.deg; ring
  unfold Grid.area
  simp only [e, sin_add_pi_div_two]
  rcases h with h | h
  · rw [h]
  · rw [h, cos_neg]

/-- Pixels moved by `k` steps in longitude. -/
def stepEquiv (nlat nlon k : ℕ) [NeZero nlon] : (Grid.rect nlat nlon).Pix ≃ (Grid.rect nlat nlon).Pix :=
  (Equiv.addRight (Fin.ofNat nlon k)).prodCongr (Equiv.refl _)

theorem stepEquiv_lat (nlat nlon k : ℕ) [NeZero nlon] (p : (Grid.rect nlat nlon).Pix) :
    (Grid.rect nlat nlon).lat (stepEquiv nlat nlon k p) = (Grid.rect nlat nlon).lat p := rfl

theorem rect_lon_eq (nlat nlon : ℕ) (p : (Grid.rect nlat nlon).Pix) :
    (Grid.rect nlat nlon).lon p = (p.1 : ℕ) * (2 * π / nlon) := by
  simp only [Grid.lon, Grid.lonPointDeg, Np.linspaceOpenAt, Grid.deg]; ring

theorem stepEquiv_lon (nlat nlon k : ℕ) [NeZero nlon] (p : (Grid.rect nlat nlon).Pix) :
    ∃ z : ℤ, (Grid.rect nlat nlon).lon (stepEquiv nlat nlon k p) =
      (Grid.rect nlat nlon).lon p + k * (2 * π / nlon) + z * (2 * π) := by
  have hn : (nlon : ℝ) ≠ 0 := Nat.cast_ne_zero.mpr (NeZero.ne nlon)
  refine ⟨-(((p.1 : ℕ) + k) / nlon : ℕ), ?_⟩
  rw [rect_lon_eq, rect_lon_eq]
  have h1 : ((stepEquiv nlat nlon k p).1 : ℕ) = ((p.1 : ℕ) + k) % nlon := by
    simp only [stepEquiv, Equiv.prodCongr_apply, Prod.map_fst, Equiv.coe_addRight, Fin.val_add, Fin.val_ofNat,
      Nat.add_mod_mod]
  have h2 : (((p.1 : ℕ) + k) % nlon : ℕ) + nlon * (((p.1 : ℕ) + k) / nlon) = (p.1 : ℕ) + k := Nat.mod_add_div _ _
  have h3 : ((((p.1 : ℕ) + k) % nlon : ℕ) : ℝ) = (p.1 : ℕ) + k - nlon * ((((p.1 : ℕ) + k) / nlon : ℕ) : ℝ) := by
    have := congrArg (Nat.cast (R := ℝ)) h2
    push_cast at this ⊢
    linarith
  rw [h1, h3, Int.cast_neg, Int.cast_natCast]
  field_simp
  ring

theorem cos_turns {x y : ℝ} {z : ℤ} (h : x = y + z * (2 * π)) : cos x = cos y := by
  rw [h, cos_add_int_mul_two_pi]

theorem sin_turns {x y : ℝ} {z : ℤ} (h : x = y + z * (2 * π)) : sin x = sin y := by
  rw [h, sin_add_int_mul_two_pi]

/-- Rotations about the polar axis that map the grid to itself. -/
theorem coverage_turned (s : Star) (hs : Placed s) (e : s.grid.Pix ≃ s.grid.Pix) (δ : ℝ) (n : ℝ → ℝ → ℤ) (n₀ : ℤ)
    (lat0 lon0 gran orbit r phase incl : ℝ)
    (hlat : ∀ p, s.grid.lat (e p) = s.grid.lat p)
    (hlon : ∀ p, ∃ z : ℤ, s.grid.lon (e p) = s.grid.lon p + δ + z * (2 * π))
    (ha : ∀ p, s.grid.area (e p) = s.grid.area p)
    (hproj : ∀ p, Helpers.projOrtho lat0 (lon0 + δ + n₀ * (2 * π)) (s.grid.lat p) (s.grid.lon (e p)) =
      Helpers.projOrtho lat0 lon0 (s.grid.lat p) (s.grid.lon p)) :
    (moved s fun a b => (a, b + δ + n a b * (2 * π))).calcCoverage lat0 (lon0 + δ + n₀ * (2 * π)) gran orbit r phase incl =
      s.calcCoverage lat0 lon0 gran orbit r phase incl := by
  have hS : ∀ (a b : ℝ) (m : ℤ) (p : s.grid.Pix), Grid.cosAngle a (b + δ + m * (2 * π)) (s.grid.lat (e p)) (s.grid.lon (e p)) =
      Grid.cosAngle a b (s.grid.lat p) (s.grid.lon p) := by
    intro a b m p
    obtain ⟨z, hz⟩ := hlon p
    unfold Grid.cosAngle
    rw [hlat, hz]
    congr 2
    exact cos_turns (z := m - z) (by push_cast; ring)
  have hO : ∀ a b, Grid.cosAngle lat0 (lon0 + δ + n₀ * (2 * π)) a (b + δ + n a b * (2 * π)) = Grid.cosAngle lat0 lon0 a b := by
    intro a b
    unfold Grid.cosAngle
    congr 2
    exact cos_turns (z := n₀ - n a b) (by push_cast; ring)
  have hrad : ∀ (x y : Fl) (p : s.grid.Pix), s.radMap lat0 (lon0 + δ + n₀ * (2 * π)) x y (e p) = s.radMap lat0 lon0 x y p := by
    intro x y p
    unfold Star.radMap
    rw [hlat, hproj]
  exact coverage_isometry s hs e (fun a b => (a, b + δ + n a b * (2 * π))) (fun a b => (a, b + δ + n a b * (2 * π)))
    lat0 lon0 lat0 (lon0 + δ + n₀ * (2 * π)) gran orbit r phase incl phase incl (fun a b p => hS a b (n a b) p)
    (fun a b p => hS a b (n a b) p) hO (fun p => hS lat0 lon0 n₀ p) ha rfl rfl (hrad _ _)

/-! ## C79 -/

/-- **C79** Rotational symmetry.  On a rectangular grid with `nlon` longitudes, rotate everything – the spots, the
faculae and the observer – by any number `k` of grid steps (forwards or backwards): `calc_coverage` answers exactly the
same, for every star, observer off the poles, granulation fraction and planet. -/
theorem C79_rotation (s : Star) (nlat nlon : ℕ) (hs : Unified s (.rect nlat nlon)) (hlat : 2 ≤ nlat) (hlon : 1 ≤ nlon)
    (k : ℤ) (lat0 lon0 gran orbit r phase incl : ℝ) (h0 : lat0 ∈ Set.Ioo (-(π / 2)) (π / 2)) :
    (moved s fun lat lon => (lat, lon + k * (2 * π / nlon))).calcCoverage lat0 (lon0 + k * (2 * π / nlon))
        gran orbit r phase incl = s.calcCoverage lat0 lon0 gran orbit r phase incl := by
  obtain ⟨hg, hp⟩ := placed_of_unified hs
  obtain ⟨teff, radius, period, spots, faculae, grid, fg, sg, fcg, gr, u1, u2, fl⟩ := s
  simp only at hg
  subst hg
  have : NeZero nlon := ⟨by omega⟩
  have hn : (nlon : ℝ) ≠ 0 := Nat.cast_ne_zero.mpr (NeZero.ne nlon)
  obtain ⟨k', z, hk⟩ : ∃ (k' : ℕ) (z : ℤ), k = k' + z * nlon := by
    refine ⟨(k % nlon).toNat, k / nlon, ?_⟩
    rw [Int.toNat_of_nonneg (Int.emod_nonneg _ (by omega))]
    have := Int.emod_add_mul_ediv k nlon
    linarith
  have hk' : (k : ℝ) * (2 * π / nlon) = k' * (2 * π / nlon) + z * (2 * π) := by
    rw [hk]; push_cast; field_simp
  have h := coverage_turned _ hp (stepEquiv nlat nlon k') (k' * (2 * π / nlon)) (fun _ _ => z) z lat0 lon0 gran orbit r
    phase incl (stepEquiv_lat nlat nlon k') (stepEquiv_lon nlat nlon k') (fun p => rect_area_lat (Or.inl rfl)) (by
      intro p
      obtain ⟨z', hz⟩ := stepEquiv_lon nlat nlon k' p
      refine projOrtho_turn h0 (rect_lat_mem nlat nlon hlat p) ?_ ?_
      · exact cos_turns (z := z' - z) (by rw [hz]; push_cast; ring)
      · exact sin_turns (z := z' - z) (by rw [hz]; push_cast; ring))
  simp only [hk', ← add_assoc]
  exact h

/-! ## C80 -/

/-- **C80** Whole turns of longitude do not matter: adding any number of full turns to the observer's longitude and to
the longitudes of the spots and faculae (a different number for each) changes no answer of `calc_coverage`, on every
grid and for every observer, poles included. -/
theorem C80_full_turns (s : Star) (g : Grid) (hs : Unified s g) (hg : goodGrid g) (n : ℝ → ℝ → ℤ) (n₀ : ℤ)
    (lat0 lon0 gran orbit r phase incl : ℝ) (h0 : lat0 ∈ Set.Icc (-(π / 2)) (π / 2)) :
    (moved s fun lat lon => (lat, lon + n lat lon * (2 * π))).calcCoverage lat0 (lon0 + n₀ * (2 * π))
        gran orbit r phase incl = s.calcCoverage lat0 lon0 gran orbit r phase incl := by
  obtain ⟨hsg, hp⟩ := placed_of_unified hs
  subst hsg
  have h := coverage_turned s hp (Equiv.refl _) 0 n n₀ lat0 lon0 gran orbit r phase incl (fun _ => rfl)
    (fun p => ⟨0, by simp⟩) (fun _ => rfl) (by
      intro p
      rcases eq_or_lt_of_le h0.1 with h1 | h1
      · rw [← h1, projOrtho_south, projOrtho_south]; rfl
      rcases eq_or_lt_of_le h0.2 with h2 | h2
      · rw [h2, projOrtho_north, projOrtho_north]; rfl
      refine projOrtho_turn ⟨h1, h2⟩ (grid_lat_mem s.grid hg p) ?_ ?_
      · exact cos_turns (z := -n₀) (by rw [Equiv.refl_apply]; push_cast; ring)
      · exact sin_turns (z := -n₀) (by rw [Equiv.refl_apply]; push_cast; ring))
  simp only [add_zero] at h
  exact h

/-! ## Mirror images -/

theorem Fl.infTimes_neg' (x : ℝ) : Fl.infTimes (-x) = -Fl.infTimes x := by
  rcases lt_trichotomy x 0 with h | h | h
  · rw [Fl.infTimes_neg h, Fl.infTimes_pos (by linarith)]; rfl
  · rw [h, neg_zero, Fl.infTimes_zero]; rfl
  · rw [Fl.infTimes_pos h, Fl.infTimes_neg (by linarith)]; rfl

theorem Fl.mul_fin_neg (a : Fl) (x : ℝ) : a * .fin (-x) = -(a * .fin x) := by
  cases a with
  | nan => simp
  | fin y => simp
  | pinf => exact Fl.infTimes_neg' x
  | ninf => exact Fl.infTimes_neg' (-x)

theorem Fl.neg_mul_self (a : Fl) : -a * -a = a * a := by
  cases a with
  | nan => rfl
  | fin x => simp
  | pinf => rfl
  | ninf => rfl

theorem Fl.neg_sub_neg' (a b : Fl) : -a - -b = -(a - b) := by
  cases a <;> cases b <;> first | rfl | (simp; try ring)

/-- The square used for the distance from the planet does not notice a change of sign. -/
theorem Fl.sq_sub_neg (a b : Fl) : (-a - -b) * (-a - -b) = (a - b) * (a - b) := by
  rw [Fl.neg_sub_neg', Fl.neg_mul_self]

/-- Pixels mirrored at the equator. -/
def flipLat (nlat nlon : ℕ) : (Grid.rect nlat nlon).Pix ≃ (Grid.rect nlat nlon).Pix :=
  (Equiv.refl _).prodCongr Fin.revPerm

theorem flipLat_lat {nlat nlon : ℕ} (h : 2 ≤ nlat) (p : (Grid.rect nlat nlon).Pix) :
    (Grid.rect nlat nlon).lat (flipLat nlat nlon p) = -(Grid.rect nlat nlon).lat p := by
  obtain ⟨i, j⟩ := p
  have e : flipLat nlat nlon (i, j) = (i, Fin.rev j) := rfl
  rw [e, ((C01_rect_layout nlat nlon h).2.2 i j).1, ((C01_rect_layout nlat nlon h).2.2 i (Fin.rev j)).1, Fin.val_rev,
    Nat.cast_sub (by omega)]
  have hn : (nlat : ℝ) - 1 ≠ 0 := by
    have : (2 : ℝ) ≤ nlat := by exact_mod_cast h
    intro h; linarith
  push_cast
  field_simp
  ring

/-- **C81** North–south symmetry.  Mirror the star at its equator (latitudes of spots, faculae and observer change sign)
and the orbit likewise (inclination `i` becomes `180° − i`): `calc_coverage` answers exactly the same, on every
rectangular grid, for every observer, poles included. -/
theorem C81_north_south (s : Star) (nlat nlon : ℕ) (hs : Unified s (.rect nlat nlon)) (hlat : 2 ≤ nlat)
    (lat0 lon0 gran orbit r phase incl : ℝ) (h0 : lat0 ∈ Set.Icc (-(π / 2)) (π / 2)) :
    (moved s fun lat lon => (-lat, lon)).calcCoverage (-lat0) lon0 gran orbit r phase (π - incl) =
      s.calcCoverage lat0 lon0 gran orbit r phase incl := by
  obtain ⟨hg, hp⟩ := placed_of_unified hs
  obtain ⟨teff, radius, period, spots, faculae, grid, fg, sg, fcg, gr, u1, u2, fl⟩ := s
  simp only at hg
  subst hg
  set s : Star := ⟨teff, radius, period, spots, faculae, .rect nlat nlon, fg, sg, fcg, gr, u1, u2, fl⟩ with hsdef
  have hS : ∀ (a b : ℝ) (p : (Grid.rect nlat nlon).Pix), Grid.cosAngle (-a) b ((Grid.rect nlat nlon).lat (flipLat nlat nlon p))
      ((Grid.rect nlat nlon).lon (flipLat nlat nlon p)) =
      Grid.cosAngle a b ((Grid.rect nlat nlon).lat p) ((Grid.rect nlat nlon).lon p) := by
    intro a b p
    rw [flipLat_lat hlat]
    have : (Grid.rect nlat nlon).lon (flipLat nlat nlon p) = (Grid.rect nlat nlon).lon p := rfl
    rw [this]
    unfold Grid.cosAngle
    simp
  have hO : ∀ a b, Grid.cosAngle (-lat0) lon0 (-a) b = Grid.cosAngle lat0 lon0 a b := by
    intro a b; unfold Grid.cosAngle; simp
  have hy : s.planetY (phase - π) orbit (π - incl) = -s.planetY (phase - π) orbit incl := by
    unfold Star.planetY
    rw [cos_pi_sub, Fl.mul_fin_neg]
  have hrad : ∀ (x y : Fl) (p : (Grid.rect nlat nlon).Pix), s.radMap (-lat0) lon0 x (-y) (flipLat nlat nlon p) = s.radMap lat0 lon0 x y p := by
    intro x y p
    unfold Star.radMap
    have e1 : s.grid.lat (flipLat nlat nlon p) = -(Grid.rect nlat nlon).lat p := flipLat_lat hlat p
    have e2 : s.grid.lon (flipLat nlat nlon p) = (Grid.rect nlat nlon).lon p := rfl
    rw [e1, e2, projOrtho_northSouth h0 (rect_lat_mem nlat nlon hlat p)]
    simp only [Fl.sq_sub_neg]
    rfl
  exact coverage_isometry s hp (flipLat nlat nlon) (fun a b => (-a, b)) (fun a b => (-a, b))
    lat0 lon0 (-lat0) lon0 gran orbit r phase incl phase (π - incl) hS hS hO (fun p => hS lat0 lon0 p)
    (fun p => rect_area_lat (Or.inr (flipLat_lat hlat p))) (by rw [hy, Fl.neg_mul_self]) rfl (by rw [hy]; exact hrad _ _)

/-- Pixels mirrored at the meridian of longitude zero. -/
def flipLon (nlat nlon : ℕ) [NeZero nlon] : (Grid.rect nlat nlon).Pix ≃ (Grid.rect nlat nlon).Pix :=
  (Equiv.neg (Fin nlon)).prodCongr (Equiv.refl _)

theorem flipLon_lon (nlat nlon : ℕ) [NeZero nlon] (p : (Grid.rect nlat nlon).Pix) :
    ∃ z : ℤ, (Grid.rect nlat nlon).lon (flipLon nlat nlon p) = -(Grid.rect nlat nlon).lon p + z * (2 * π) := by
  have hn : (nlon : ℝ) ≠ 0 := Nat.cast_ne_zero.mpr (NeZero.ne nlon)
  obtain ⟨i, j⟩ := p
  have e : flipLon nlat nlon (i, j) = (-i, j) := rfl
  rw [e, rect_lon_eq, rect_lon_eq]
  simp only
  have h1 : ((-i : Fin nlon) : ℕ) = (nlon - i) % nlon := Fin.val_neg' i
  by_cases hi : (i : ℕ) = 0
  · refine ⟨0, ?_⟩
    rw [h1, hi]; simp
  · refine ⟨1, ?_⟩
    rw [h1, Nat.mod_eq_of_lt (by omega), Nat.cast_sub (by omega)]
    field_simp
    push_cast
    ring

/-- **C82** East–west symmetry.  Mirror the star at the meridian of longitude zero (longitudes of spots, faculae and
observer change sign) and let the planet pass the other way (phase `φ` becomes `−φ`): `calc_coverage` answers exactly the
same, on every rectangular grid, for every observer, poles included. -/
theorem C82_east_west (s : Star) (nlat nlon : ℕ) (hs : Unified s (.rect nlat nlon)) (hlat : 2 ≤ nlat) (hlon : 1 ≤ nlon)
    (lat0 lon0 gran orbit r phase incl : ℝ) (h0 : lat0 ∈ Set.Icc (-(π / 2)) (π / 2)) :
    (moved s fun lat lon => (lat, -lon)).calcCoverage lat0 (-lon0) gran orbit r (-phase) incl =
      s.calcCoverage lat0 lon0 gran orbit r phase incl := by
  obtain ⟨hg, hp⟩ := placed_of_unified hs
  obtain ⟨teff, radius, period, spots, faculae, grid, fg, sg, fcg, gr, u1, u2, fl⟩ := s
  simp only at hg
  subst hg
  have : NeZero nlon := ⟨by omega⟩
  set s : Star := ⟨teff, radius, period, spots, faculae, .rect nlat nlon, fg, sg, fcg, gr, u1, u2, fl⟩ with hsdef
  have hS : ∀ (a b : ℝ) (p : (Grid.rect nlat nlon).Pix), Grid.cosAngle a (-b) ((Grid.rect nlat nlon).lat (flipLon nlat nlon p))
      ((Grid.rect nlat nlon).lon (flipLon nlat nlon p)) =
      Grid.cosAngle a b ((Grid.rect nlat nlon).lat p) ((Grid.rect nlat nlon).lon p) := by
    intro a b p
    obtain ⟨z, hz⟩ := flipLon_lon nlat nlon p
    have e : (Grid.rect nlat nlon).lat (flipLon nlat nlon p) = (Grid.rect nlat nlon).lat p := rfl
    unfold Grid.cosAngle
    rw [hz, e]
    congr 2
    rw [← cos_neg (b - _)]
    exact cos_turns (z := -z) (by push_cast; ring)
  have hO : ∀ a b, Grid.cosAngle lat0 (-lon0) a (-b) = Grid.cosAngle lat0 lon0 a b := by
    intro a b; unfold Grid.cosAngle
    rw [← cos_neg (lon0 - b)]
    congr 3; ring
  have hx : s.planetX (-phase - π) orbit = -s.planetX (phase - π) orbit := by
    unfold Star.planetX
    have : sin (-phase - π) = -sin (phase - π) := by rw [sin_sub_pi, sin_sub_pi, sin_neg]
    rw [this, Fl.mul_fin_neg]
  have hy : s.planetY (-phase - π) orbit incl = s.planetY (phase - π) orbit incl := by
    unfold Star.planetY
    rw [cos_sub_pi, cos_sub_pi, cos_neg]
  have hrad : ∀ (x y : Fl) (p : (Grid.rect nlat nlon).Pix), s.radMap lat0 (-lon0) (-x) y (flipLon nlat nlon p) = s.radMap lat0 lon0 x y p := by
    intro x y p
    unfold Star.radMap
    obtain ⟨z, hz⟩ := flipLon_lon nlat nlon p
    have e1 : s.grid.lat (flipLon nlat nlon p) = (Grid.rect nlat nlon).lat p := rfl
    have e2 : s.grid.lon (flipLon nlat nlon p) = (Grid.rect nlat nlon).lon (flipLon nlat nlon p) := rfl
    rw [e1, e2, projOrtho_eastWest h0 (rect_lat_mem nlat nlon hlat p) (lon := (Grid.rect nlat nlon).lon p)
      (by rw [cos_turns hz, cos_neg]) (by rw [sin_turns hz, sin_neg])]
    simp only [Fl.sq_sub_neg]
    rfl
  exact coverage_isometry s hp (flipLon nlat nlon) (fun a b => (a, -b)) (fun a b => (a, -b))
    lat0 lon0 lat0 (-lon0) gran orbit r phase incl (-phase) incl hS hS hO (fun p => hS lat0 lon0 p)
    (fun p => rect_area_lat (Or.inl rfl)) (by rw [hx, hy, Fl.neg_mul_self]) (cos_neg _) (by rw [hx, hy]; exact hrad _ _)

/-! ## C83 -/

/-- The spot with every length multiplied by `k` (areas by `k²`). -/
def Spec.scaleSpot (k : ℝ) (sp : StarSpot) : StarSpot :=
  { sp with areaMax := k ^ 2 * sp.areaMax, area := .fin (k ^ 2) * sp.area, decayRate := k ^ 2 * sp.decayRate }

/-- The facula with every length multiplied by `k` (temperature slopes, in kelvin per length, divided by `k`). -/
def Spec.scaleFacula (k : ℝ) (f : Facula) : Facula :=
  { f with rMax := k * f.rMax, radius := .fin k * f.radius, depth := k * f.depth, floorMinRad := k * f.floorMinRad, floorSlope := f.floorSlope / k, wallSlope := f.wallSlope / k }

theorem Fl.infTimes_scale {c : ℝ} (hc : 0 < c) (x : ℝ) : Fl.infTimes (c * x) = Fl.infTimes x := by
  rcases lt_trichotomy x 0 with h | h | h
  · rw [Fl.infTimes_neg h, Fl.infTimes_neg (mul_neg_of_pos_of_neg hc h)]
  · rw [h, mul_zero]
  · rw [Fl.infTimes_pos h, Fl.infTimes_pos (mul_pos hc h)]

theorem Fl.scale_div {c : ℝ} (hc : 0 < c) (x y : ℝ) : Fl.fin (c * x) / Fl.fin (c * y) = Fl.fin x / Fl.fin y := by
  by_cases hy : y = 0
  · rw [hy, mul_zero, Fl.fin_div_zero, Fl.fin_div_zero, Fl.infTimes_scale hc]
  · rw [Fl.fin_div hy, Fl.fin_div (mul_ne_zero hc.ne' hy), mul_div_mul_left _ _ hc.ne']

theorem Fl.scale_pinf {c : ℝ} (hc : 0 < c) : Fl.fin c * Fl.pinf = Fl.pinf := Fl.infTimes_pos hc

theorem Fl.scale_ninf {c : ℝ} (hc : 0 < c) : Fl.fin c * Fl.ninf = Fl.ninf := Fl.infTimes_neg (by linarith)

theorem Fl.scale_div' {c : ℝ} (hc : 0 < c) (x y : Fl) : (Fl.fin c * x) / (Fl.fin c * y) = x / y := by
  cases x <;> cases y <;> simp only [Fl.scale_pinf hc, Fl.scale_ninf hc, Fl.mul_nan, Fl.fin_mul, Fl.nan_div, Fl.div_nan]
  · rename_i y
    change (if c * y < 0 then Fl.pinf else Fl.ninf) = if y < 0 then Fl.pinf else Fl.ninf
    simp only [mul_neg_iff, hc, not_lt.mpr hc.le, true_and, false_and, or_false]
  · rfl
  · exact Fl.scale_div hc _ _
  · rfl
  · rename_i y
    change (if c * y < 0 then Fl.ninf else Fl.pinf) = if y < 0 then Fl.ninf else Fl.pinf
    simp only [mul_neg_iff, hc, not_lt.mpr hc.le, true_and, false_and, or_false]

theorem Fl.scale_add {c : ℝ} (hc : 0 < c) (x y : Fl) : Fl.fin c * x + Fl.fin c * y = Fl.fin c * (x + y) := by
  cases x <;> cases y <;> simp only [Fl.scale_pinf hc, Fl.scale_ninf hc, Fl.mul_nan, Fl.fin_mul, Fl.nan_add, Fl.add_nan, Fl.fin_add]
  · exact (Fl.scale_ninf hc).symm
  · exact (Fl.scale_ninf hc).symm
  · rfl
  · exact (Fl.scale_ninf hc).symm
  · rw [mul_add]
  · exact (Fl.scale_pinf hc).symm
  · rfl
  · exact (Fl.scale_pinf hc).symm
  · exact (Fl.scale_pinf hc).symm

theorem Fl.scale_mul {c : ℝ} (hc : 0 < c) (w : Fl) (x : ℝ) : w * Fl.fin (c * x) = Fl.fin c * (w * Fl.fin x) := by
  cases w with
  | nan => rfl
  | fin y => simp only [Fl.fin_mul]; congr 1; ring
  | pinf =>
    change Fl.infTimes (c * x) = Fl.fin c * Fl.infTimes x
    rw [Fl.infTimes_scale hc]
    unfold Fl.infTimes
    split_ifs
    · exact (Fl.scale_pinf hc).symm
    · exact (Fl.scale_ninf hc).symm
    · rfl
  | ninf =>
    change Fl.infTimes (-(c * x)) = Fl.fin c * Fl.infTimes (-x)
    rw [← mul_neg, Fl.infTimes_scale hc]
    unfold Fl.infTimes
    split_ifs
    · exact (Fl.scale_pinf hc).symm
    · exact (Fl.scale_ninf hc).symm
    · rfl

theorem twoKeys_scale {f f' : Facula} {c : ℝ} (h1 : f'.wallDteff = f.wallDteff) (h2 : f'.floorDteff = f.floorDteff)
    (aw af : Fl) : f'.twoKeys (.fin c * aw) (.fin c * af) =
      (f.twoKeys aw af).map fun d => d.map fun kv => (kv.1, .fin c * kv.2) := by
  unfold Facula.twoKeys
  rw [h1, h2]
  cases Helpers.roundTeff f.wallDteff with
  | error x => rfl
  | ok kw =>
    cases Helpers.roundTeff f.floorDteff with
    | error x => rfl
    | ok kf =>
      simp only [bind, Except.bind, pure, Except.pure, Except.map]
      by_cases h : kw = kf
      · subst h; simp [Np.Dict.set]
      · simp [Np.Dict.set, h]

/-- The fractions do not change when every value is multiplied by the same positive number. -/
theorem fractions_scale {c : ℝ} (hc : 0 < c) (d : Np.Dict ℤ Fl) :
    (let d' : Np.Dict ℤ Fl := d.map fun kv => (kv.1, Fl.fin c * kv.2)
     d'.map fun kv => (kv.1, kv.2 / d'.values.sum)) = d.map fun kv => (kv.1, kv.2 / d.values.sum) := by
  have hsum : ∀ d : Np.Dict ℤ Fl, d ≠ [] →
      (Np.Dict.values (d.map fun kv => (kv.1, Fl.fin c * kv.2))).sum = Fl.fin c * d.values.sum := by
    intro d
    induction d with
    | nil => intro h; exact absurd rfl h
    | cons kv d ih =>
      intro _
      by_cases hd : d = []
      · subst hd; simp [Np.Dict.values]
      · have := ih hd
        simp only [Np.Dict.values, List.map_cons, List.sum_cons] at this ⊢
        rw [this, Fl.scale_add hc]
  by_cases hd : d = []
  · subst hd; rfl
  · simp only [hsum d hd, List.map_map]
    refine List.map_congr_left fun kv _ => ?_
    simp only [Function.comp_apply, Fl.scale_div' hc]

theorem fractional_scale {k : ℝ} (hk : 0 < k) (f : Facula) (r : ℝ) (hr : f.radius = .fin r) (a : ℝ) :
    (scaleFacula k f).fractionalEffectiveArea (.fin a) = f.fractionalEffectiveArea (.fin a) := by
  have hr' : (scaleFacula k f).radius = .fin (k * r) := by
    change Fl.fin k * f.radius = _; rw [hr, Fl.fin_mul]
  have h1 : (scaleFacula k f).wallDteff = f.wallDteff := by
    unfold Facula.wallDteff
    rw [hr', hr]
    simp only [scaleFacula, Fl.fin_mul, Fl.fin_add, Fl.fin_inj]
    field_simp
  have h2 : (scaleFacula k f).floorDteff = f.floorDteff := by
    unfold Facula.floorDteff
    rw [hr', hr]
    simp only [scaleFacula, Fl.fin_mul, Fl.fin_add, Fl.fin_sub, Fl.fin_inj]
    field_simp
  have hlt : (scaleFacula k f).radius < .fin (scaleFacula k f).floorMinRad ↔ f.radius < .fin f.floorMinRad := by
    rw [hr', hr]
    change Fl.fin (k * r) < Fl.fin (k * f.floorMinRad) ↔ _
    rw [Fl.fin_lt, Fl.fin_lt, mul_lt_mul_iff_right₀ hk]
  have hA : Fl.fin π * ((scaleFacula k f).radius * (scaleFacula k f).radius) * Fl.cos (.fin a) =
      Fl.fin (k ^ 2 * (π * (r * r) * cos a)) := by
    rw [hr']; simp only [Fl.fin_mul, Fl.cos_fin]; congr 1; ring
  have hA' : Fl.fin π * (f.radius * f.radius) * Fl.cos (.fin a) = Fl.fin (π * (r * r) * cos a) := by
    rw [hr]; simp only [Fl.fin_mul, Fl.cos_fin]
  have hdep : Fl.fin (scaleFacula k f).depth / (scaleFacula k f).radius = Fl.fin f.depth / f.radius := by
    rw [hr', hr]; exact Fl.scale_div hk _ _
  have hk2 : 0 < k ^ 2 := by positivity
  have key : (scaleFacula k f).effectiveArea (.fin a) =
      (f.effectiveArea (.fin a)).map fun d => d.map fun kv => (kv.1, Fl.fin (k ^ 2) * kv.2) := by
    unfold Facula.effectiveArea
    rw [h1, h2]
    by_cases hf : Fl.feq f.floorDteff f.wallDteff
    · rw [if_pos hf, if_pos hf]; rfl
    rw [if_neg hf, if_neg hf]
    by_cases hl : f.radius < .fin f.floorMinRad
    · rw [if_pos hl, if_pos (hlt.mpr hl), hA, hA', ← twoKeys_scale h1 h2]
      simp only [Fl.fin_mul, mul_zero]
    rw [if_neg hl, if_neg (fun h => hl (hlt.mp h))]
    simp only [hdep, hA, hA']
    cases Helpers.circFraction (Fl.fin f.depth / f.radius * Fl.tan (.fin a)) (.fin 0) (.fin 1) with
    | error x => rfl
    | ok w =>
      simp only [bind, Except.bind]
      rw [Fl.scale_mul hk2, Fl.scale_mul hk2, twoKeys_scale h1 h2]
  unfold Facula.fractionalEffectiveArea
  rw [key]
  cases f.effectiveArea (.fin a) with
  | error x => rfl
  | ok d =>
    simp only [Except.map]
    exact congrArg Except.ok (fractions_scale hk2 d)

/-- **C83** Scale invariance.  Multiply every length of the problem by the same positive number – the star's radius, the
spots' and faculae's sizes, the planet's radius and orbit (areas by the square, temperature slopes by the inverse) – and
`calc_coverage` answers exactly the same, on every grid and for every observer. -/
theorem C83_scale (s : Star) (g : Grid) (hs : Unified s g)
    (harea : ∀ sp ∈ s.spots.spots, ∃ a, sp.area = .fin a) (hrad : ∀ f ∈ s.faculae.faculae, ∃ r, f.radius = .fin r)
    (k : ℝ) (hk : 0 < k) (lat0 lon0 gran orbit r phase incl : ℝ) :
    (remade s (k * s.radius) (scaleSpot k) (scaleFacula k)).calcCoverage lat0 lon0 gran (k * orbit) (k * r) phase incl =
      s.calcCoverage lat0 lon0 gran orbit r phase incl := by
  obtain ⟨hsg, hp⟩ := placed_of_unified hs
  subst hsg
  have hk2 : 0 < k ^ 2 := by positivity
  have hang : ∀ sp ∈ s.spots.spots, (scaleSpot k sp).angularRadius (k * s.radius) = sp.angularRadius s.radius := by
    intro sp hsp
    obtain ⟨a, ha⟩ := harea sp hsp
    unfold StarSpot.angularRadius
    have e : (scaleSpot k sp).area = .fin (k ^ 2 * a) := by
      change Fl.fin (k ^ 2) * sp.area = _; rw [ha, Fl.fin_mul]
    rw [e, ha, show 2 * π * (k * s.radius) ^ 2 = k ^ 2 * (2 * π * s.radius ^ 2) by ring, Fl.scale_div hk2]
  have hP : ∀ sp ∈ s.spots.spots, ∀ p : s.grid.Pix, inSpot (scaleSpot k sp) s.grid (k * s.radius) p ↔ inSpot sp s.grid s.radius p := by
    intro sp hsp p
    rw [inSpot_iff, inSpot_iff, hang sp hsp]
    rfl
  have hx : (Fl.fin (k * orbit) / Fl.fin (k * s.radius) : Fl) = Fl.fin orbit / Fl.fin s.radius := Fl.scale_div hk _ _
  have hX : ∀ an, (remade s (k * s.radius) (scaleSpot k) (scaleFacula k)).planetX an (k * orbit) = s.planetX an orbit := by
    intro an; unfold Star.planetX; exact congrArg (· * Fl.fin (sin an)) hx
  have hY : ∀ an, (remade s (k * s.radius) (scaleSpot k) (scaleFacula k)).planetY an (k * orbit) incl = s.planetY an orbit incl := by
    intro an; unfold Star.planetY; exact congrArg (· * Fl.fin (cos an) * Fl.fin (cos incl)) hx
  refine coverage_remade s hp (k * s.radius) (scaleSpot k) (scaleFacula k) (Equiv.refl _) lat0 lon0 lat0 lon0 gran orbit r
    phase incl (k * orbit) (k * r) phase incl (fun _ _ => ⟨rfl, rfl⟩) hP ?_ ?_ ?_ (fun _ => rfl) (fun _ => rfl) ?_
  · intro sp hsp p
    rw [inUmbra_iff, inUmbra_iff]
    have e : (scaleSpot k sp).umbraRadius (k * s.radius) = sp.umbraRadius s.radius := by
      unfold StarSpot.umbraRadius; rw [hang sp hsp]; rfl
    rw [e]
    simp only [Equiv.refl_apply, hP sp hsp p]
    rfl
  · intro f hf p
    obtain ⟨ρ, hρ⟩ := hrad f hf
    unfold inFacula
    have e : (scaleFacula k f).radius / Fl.fin (k * s.radius) = f.radius / Fl.fin s.radius := by
      change Fl.fin k * f.radius / _ = _
      rw [hρ, Fl.fin_mul, Fl.scale_div hk]
    rw [e]
    rfl
  · intro f hf
    obtain ⟨ρ, hρ⟩ := hrad f hf
    have e : Helpers.angleBetween lat0 lon0 (scaleFacula k f).lat (scaleFacula k f).lon =
      .fin (greatCircle lat0 lon0 f.lat f.lon) := angleBetween_eq _ _ _ _
    rw [e, fractional_scale hk f ρ hρ, angleBetween_eq]
  · refine transitMask_remade s (k * s.radius) _ _ (Equiv.refl _) lat0 lon0 lat0 lon0 orbit r phase incl (k * orbit) (k * r)
      phase incl (fun _ => rfl) (fun _ => rfl) ?_ (Fl.scale_div hk _ _) rfl ?_
    · rw [hX, hY]
    · intro p; rw [hX, hY]; rfl

/-! ## C84 -/

theorem cosAngle_pole {lat0 : ℝ} (h : cos lat0 = 0) (lon0 lon0' lat lon : ℝ) :
    Grid.cosAngle lat0 lon0 lat lon = Grid.cosAngle lat0 lon0' lat lon := by
  unfold Grid.cosAngle; rw [h]; ring

/-- **C84** Seen pole-on, the longitude of the sub-observer point has no effect on any answer of `calc_coverage`: every
star, grid, planet and granulation fraction.  (So a rotating star seen pole-on shows a transiting planet the same face
for ever: the restriction on the observer in C79 is necessary.) -/
theorem C84_pole_on (s : Star) (lat0 : ℝ) (h0 : lat0 = π / 2 ∨ lat0 = -(π / 2)) (lon0 lon0' gran orbit r phase incl : ℝ) :
    s.calcCoverage lat0 lon0 gran orbit r phase incl = s.calcCoverage lat0 lon0' gran orbit r phase incl := by
  have hc : cos lat0 = 0 := by rcases h0 with h | h <;> simp [h]
  have hmu : s.mu lat0 lon0 = s.mu lat0 lon0' := funext fun p => cosAngle_pole hc _ _ _ _
  have hang : ∀ a b, Helpers.angleBetween lat0 lon0 a b = Helpers.angleBetween lat0 lon0' a b :=
    fun a b => angleBetween_cosAngle (cosAngle_pole hc _ _ _ _)
  have hproj : ∀ a b, Helpers.projOrtho lat0 lon0 a b = Helpers.projOrtho lat0 lon0' a b := by
    intro a b
    rcases h0 with h | h
    · rw [h, projOrtho_north, projOrtho_north]
    · rw [h, projOrtho_south, projOrtho_south]
  have hfac : s.addFaculaeToMap lat0 lon0 = s.addFaculaeToMap lat0 lon0' := by
    have hp : s.paintFacula lat0 lon0 = s.paintFacula lat0 lon0' := by
      funext ins fr cur
      unfold Star.paintFacula
      rw [hmu]
    have ha : s.addFacula lat0 lon0 = s.addFacula lat0 lon0' := by
      funext cur f
      unfold Star.addFacula
      rw [hang, hp]
    unfold Star.addFaculaeToMap
    rw [ha]
  have hw : s.weight lat0 lon0 = s.weight lat0 lon0' := by
    funext p; unfold Star.weight; rw [hmu]
  have hraw : s.rawData lat0 lon0 = s.rawData lat0 lon0' := by
    funext m x G
    unfold Star.rawData Star.areaWithTeff
    rw [hw]
  have hmask : s.transitMask lat0 lon0 = s.transitMask lat0 lon0' := by
    funext a b c d
    unfold Star.transitMask Star.coveredValue Star.radMap
    simp only [hproj, hmu]
  unfold Star.calcCoverage
  rw [hfac, hmask, hraw]

/-! ## A star with a spot and a facula, observed during a transit -/

/-- Sample star with one spot and one facula. -/
def Spec.symStar : Star := sampleStar (.rect 4 3) [sampleSpot (.rect 4 3)] [wideFacula (.rect 4 3)]

theorem symStar_unified : Unified symStar (.rect 4 3) := by
  refine ⟨rfl, rfl, rfl, rfl, rfl, ?_, ?_⟩
  · intro sp hsp
    exact onGrid_iff.mpr (measured_new [sampleSpot (.rect 4 3)] (.rect 4 3) sp hsp)
  · intro f hf
    have : f = wideFacula (.rect 4 3) := by simpa [symStar, sampleStar] using hf
    rw [this]; rfl

theorem symStar_answers : ∃ d, symStar.calcCoverage (π / 6) 0 0.2 10 (1 / 2) π (π / 2) = .ok d := by
  have h0 : π / 6 ∈ Set.Icc (-(π / 2)) (π / 2) := ⟨by linarith [pi_pos], by linarith [pi_pos]⟩
  have hg : goodGrid symStar.grid := show goodGrid (.rect 4 3) from ⟨by omega, by omega⟩
  obtain ⟨a, ha, -⟩ := C02_area_partition symStar.grid hg
  have hv : Visible symStar (π / 6) 0 := visible_rect symStar rfl (by omega) (by omega) (π / 6) 0
  obtain ⟨-, hW⟩ := visible_pos symStar hg (by simp [PhysicalLD, symStar, sampleStar]) ha hv
  have hw : ∀ p, symStar.weight (π / 6) 0 p = .fin (pixelWeight symStar a (π / 6) 0 p) := weight_eq symStar a ha (π / 6) 0
  have hkeys := wideFacula_keys (.rect 4 3)
  obtain ⟨t, c, plf, h, -⟩ := C59_answers_partial symStar hg one_pos (π / 6) 0 _ (by simp only [hw, Fl.sum_fin]) hW.ne' h0
    .off rfl rfl (measured_new _ _) (by
      intro f hf
      have : f = wideFacula (.rect 4 3) := by simpa [symStar, sampleStar] using hf
      subst this
      exact ⟨rfl, wideFacula_cosDist _, 2, rfl, two_pos, by rw [hkeys.1, hkeys.2]; norm_num⟩)
    (Or.inl rfl) 0.2 10 (1 / 2) π (π / 2) (by norm_num) _ _ rfl (by simp)
  exact ⟨_, h⟩

/-- C79 – C83 on that star: rotated backwards by one grid step, turned, mirrored and scaled it gives the same answer. -/
example : ∃ d, symStar.calcCoverage (π / 6) 0 0.2 10 (1 / 2) π (π / 2) = .ok d ∧
    (moved symStar fun lat lon => (lat, lon + (-1 : ℤ) * (2 * π / (3 : ℕ)))).calcCoverage (π / 6) (0 + (-1 : ℤ) * (2 * π / (3 : ℕ)))
      0.2 10 (1 / 2) π (π / 2) = .ok d ∧
    (moved symStar fun lat lon => (lat, lon + (5 : ℤ) * (2 * π))).calcCoverage (π / 6) (0 + (-2 : ℤ) * (2 * π))
      0.2 10 (1 / 2) π (π / 2) = .ok d ∧
    (moved symStar fun lat lon => (-lat, lon)).calcCoverage (-(π / 6)) 0 0.2 10 (1 / 2) π (π - π / 2) = .ok d ∧
    (moved symStar fun lat lon => (lat, -lon)).calcCoverage (π / 6) (-0) 0.2 10 (1 / 2) (-π) (π / 2) = .ok d ∧
    (remade symStar (7 * 1) (scaleSpot 7) (scaleFacula 7)).calcCoverage (π / 6) 0 0.2 (7 * 10) (7 * (1 / 2)) π (π / 2) = .ok d := by
  have h0 : π / 6 ∈ Set.Ioo (-(π / 2)) (π / 2) := ⟨by linarith [pi_pos], by linarith [pi_pos]⟩
  have hc : π / 6 ∈ Set.Icc (-(π / 2)) (π / 2) := ⟨h0.1.le, h0.2.le⟩
  obtain ⟨d, hd⟩ := symStar_answers
  refine ⟨d, hd, ?_, ?_, ?_, ?_, ?_⟩
  · rw [C79_rotation symStar 4 3 symStar_unified (by omega) (by omega) (-1) _ _ _ _ _ _ _ h0, hd]
  · rw [C80_full_turns symStar _ symStar_unified ⟨by omega, by omega⟩ (fun _ _ => 5) (-2) _ _ _ _ _ _ _ hc, hd]
  · rw [C81_north_south symStar 4 3 symStar_unified (by omega) _ _ _ _ _ _ _ hc, hd]
  · rw [C82_east_west symStar 4 3 symStar_unified (by omega) (by omega) _ _ _ _ _ _ _ hc, hd]
  · have h := C83_scale symStar _ symStar_unified (by
        intro sp hsp
        have : sp = sampleSpot (.rect 4 3) := by
          simpa [symStar, sampleStar, SpotCollection.new, SpotCollection.setGridmaker, sampleSpot, StarSpot.new, StarSpot.setGridmaker] using hsp
        subst this; exact ⟨1, rfl⟩) (by
        intro f hf
        have : f = wideFacula (.rect 4 3) := by simpa [symStar, sampleStar] using hf
        subst this; exact ⟨2, rfl⟩) 7 (by norm_num) (π / 6) 0 0.2 10 (1 / 2) π (π / 2)
    have e : symStar.radius = 1 := rfl
    rw [e] at h
    rw [h, hd]

/-- C84 on that star seen from the north pole, with a planet in front of it. -/
example : symStar.calcCoverage (π / 2) 0 0.2 10 (1 / 2) π (π / 2) = symStar.calcCoverage (π / 2) 1 0.2 10 (1 / 2) π (π / 2) :=
  C84_pole_on symStar (π / 2) (Or.inl rfl) 0 1 _ _ _ _ _
