import Verif.Model.Warnings
import Verif.Props.Broadcast
import Verif.Props.TransitWarning
/-!
# Warnings (C171)

Which warnings the package issues, and what is left of it for a program that turns warnings into exceptions, as many test suites do.
-/
set_option autoImplicit false

namespace Vsm
open Real Np Spec Warned

namespace Warned

theorem ext' {α : Type} {a b : Warned α} (h1 : a.warnings = b.warnings) (h2 : a.value = b.value) : a = b := by
  cases a; cases b; simp_all

theorem value_bind {α β : Type} (w : Warned α) (f : α → Warned β) : (w >>= f).value = w.value >>= fun a => (f a).value := by
  change (Warned.bind w f).value = _
  unfold Warned.bind
  cases w.value <;> rfl

theorem warnings_bind {α β : Type} {w : Warned α} {a : α} (h : w.value = .ok a) (f : α → Warned β) :
    (w >>= f).warnings = w.warnings ++ (f a).warnings := by
  change (Warned.bind w f).warnings = _
  unfold Warned.bind
  rw [h]

theorem value_pure {α : Type} (a : α) : (pure a : Warned α).value = .ok a := rfl

theorem warnings_pure {α : Type} (a : α) : (pure a : Warned α).warnings = [] := rfl

theorem warn_bind {β : Type} (x : PyWarning) (f : Unit → Warned β) : (warn x >>= f) = ⟨x :: (f ()).warnings, (f ()).value⟩ := rfl

instance : LawfulMonad Warned := LawfulMonad.mk' Warned
  (id_map := fun x => by
    change Warned.bind x _ = x
    cases x with | mk w v => cases v <;> simp [Warned.bind])
  (pure_bind := fun a f => by
    change Warned.bind ⟨[], .ok a⟩ f = f a
    simp [Warned.bind])
  (bind_assoc := fun x f g => by
    change Warned.bind (Warned.bind x f) g = Warned.bind x fun a => Warned.bind (f a) g
    cases x with | mk w v =>
      cases v with
      | error e => rfl
      | ok a =>
        simp only [Warned.bind]
        cases h : (f a).value <;> simp)

theorem value_foldlM {α β : Type} (f : β → α → Warned β) (l : List α) (b : β) :
    (l.foldlM f b).value = l.foldlM (fun b a => (f b a).value) b := by
  induction l generalizing b with
  | nil => rfl
  | cons a l ih =>
    rw [List.foldlM_cons, List.foldlM_cons, value_bind]
    congr 1
    funext c
    exact ih c

theorem value_mapM {α β : Type} (f : α → Warned β) (l : List α) : (l.mapM f).value = l.mapM fun a => (f a).value := by
  induction l with
  | nil => rfl
  | cons a l ih =>
    rw [List.mapM_cons, List.mapM_cons, value_bind]
    congr 1
    funext c
    rw [value_bind, ih]
    rfl

end Warned

/-! ### The values -/

theorem clipTeffW_eq (T : ℝ) : Helpers.clipTeffW T = ⟨.clipDeprecated :: (if 3900 < T then [.tooHigh T] else if T < 2300 then [.tooLow T] else []),
    .ok (Helpers.clipTeff T)⟩ := by
  unfold Helpers.clipTeffW Helpers.clipTeff Helpers.teffHigh Helpers.teffLow
  rw [warn_bind]
  by_cases h1 : 3900 < T
  · simp only [if_pos h1]; rfl
  · by_cases h2 : T < 2300
    · simp only [if_neg h1, if_pos h2]; rfl
    · simp only [if_neg h1, if_neg h2]; rfl

theorem eqW_value (a b : Grid) : (Grid.eqW a b).value = Grid.eq a b := by
  cases a <;> cases b <;> rfl

theorem addFaculaeW_value (c : FaculaCollection) (new : List Facula) : (c.addFaculaeW new).value = c.addFaculae new := by
  unfold FaculaCollection.addFaculaeW FaculaCollection.addFaculae
  rw [value_bind, value_mapM]
  congr 1
  congr 1
  funext f
  rw [value_bind, eqW_value]
  cases Grid.eq f.grid c.grid <;> rfl

theorem unifyW_value (a b : Grid) : (Star.unifyW a b).value = Star.unify a b := by
  cases a <;> cases b <;> simp only [Star.unifyW, Star.unify, Grid.eqW, Grid.eq, Grid.ne, Warned.quiet, Except.map] <;> try rfl
  · rename_i a b c d
    cases h : (a == c && b == d) <;> rfl
  · rename_i n m
    cases h : (n == m) <;> rfl

theorem newW_value (teff radius period : ℝ) (spots : SpotCollection) (faculae : FaculaCollection) (gp : Grid.PyVal) (fg : Option FlareGenerator)
    (sg : Option SpotGenerator) (ug : Option FaculaGenerator) (gr : Option Granulation) (u1 u2 : ℝ) :
    (Star.newW teff radius period spots faculae gp fg sg ug gr u1 u2).value = Star.new teff radius period spots faculae gp fg sg ug gr u1 u2 := by
  unfold Star.newW Star.new
  rw [value_bind]
  congr 1
  funext obj
  rw [value_bind]
  congr 1
  funext g
  cases sg with
  | none =>
    cases ug with
    | none => rfl
    | some ug =>
      simp only [pure_bind, value_bind, unifyW_value]
      cases Star.unify ug.grid g <;> rfl
  | some sg =>
    cases ug with
    | none =>
      simp only [pure_bind, value_bind, unifyW_value]
      cases Star.unify sg.grid g <;> rfl
    | some ug =>
      simp only [pure_bind, value_bind, unifyW_value]
      cases Star.unify sg.grid g with
      | error e => rfl
      | ok a => cases Star.unify ug.grid g <;> rfl

theorem addFacW_value (s : Star) (new : List Facula) : (s.addFacW new).value = s.addFac new := by
  unfold Star.addFacW Star.addFac
  rw [value_bind, addFaculaeW_value]
  cases s.faculae.addFaculae new <;> rfl

theorem birthFaculaeW_value (s : Star) (time : ℝ) (k : ℕ) (d : (n : ℕ) → FaculaDraws n) : (s.birthFaculaeW time k d).value = s.birthFaculae time k d := by
  unfold Star.birthFaculaeW Star.birthFaculae
  rw [value_bind]
  change (s.facGen.birth time s.radius k d).bind _ = _
  congr 1
  funext new
  exact addFacW_value s new

theorem paintFaculaW_value (s : Star) (lat0 lon0 : ℝ) (inside : s.grid.Pix → Prop) (fracs : Np.Dict ℤ Fl) (cur : s.grid.Pix → ℝ) :
    (s.paintFaculaW lat0 lon0 inside fracs cur).value = s.paintFacula lat0 lon0 inside fracs cur := by
  unfold Star.paintFaculaW Star.paintFacula
  rcases fracs with _ | ⟨⟨kw, aw⟩, _ | ⟨⟨kf, af⟩, _ | ⟨x, l⟩⟩⟩
  · rfl
  · rfl
  · simp only
    rw [value_bind]
    congr 1
    funext b
    simp only [value_bind, clipTeffW_eq]
    rfl
  · rfl

theorem addFaculaW_value (s : Star) (lat0 lon0 : ℝ) (cur : s.grid.Pix → ℝ) (f : Facula) :
    (s.addFaculaW lat0 lon0 cur f).value = s.addFacula lat0 lon0 cur f := by
  unfold Star.addFaculaW Star.addFacula
  by_cases h : ¬ ∃ p, (f.inside s.radius).2 p
  · simp only [if_pos h]; rfl
  · simp only [if_neg h]
    rw [value_bind]
    congr 1
    funext fr
    rw [value_bind]
    congr 1
    funext ins
    exact paintFaculaW_value s lat0 lon0 ins fr cur

theorem addFaculaeToMapW_value (s : Star) (lat0 lon0 : ℝ) : (s.addFaculaeToMapW lat0 lon0).value = s.addFaculaeToMap lat0 lon0 := by
  unfold Star.addFaculaeToMapW Star.addFaculaeToMap
  rw [value_bind]
  congr 1
  funext m
  rw [value_bind]
  congr 1
  funext m'
  rw [value_foldlM]
  simp only [addFaculaW_value]

theorem calcCoverageW_value (s : Star) (lat0 lon0 gran orbit r phase incl : ℝ) :
    (s.calcCoverageW lat0 lon0 gran orbit r phase incl).value = s.calcCoverage lat0 lon0 gran orbit r phase incl := by
  unfold Star.calcCoverageW Star.calcCoverage
  rw [value_bind, addFaculaeToMapW_value]
  congr 1
  funext m
  rw [value_bind]
  congr 1
  funext c
  cases s.granulation with
  | none => rfl
  | some gr =>
    simp only
    rw [value_bind]
    congr 1
    funext t
    rw [value_bind]
    rfl

/-! ### The warnings -/

/-- The warnings for a temperature asked of the grid of models (spec): one for the use of `clip_teff` and one if the temperature is outside of
2300 K to 3900 K. -/
noncomputable def Spec.clipWarnings (T : ℝ) : List PyWarning :=
  .clipDeprecated :: (if 3900 < T then [.tooHigh T] else if T < 2300 then [.tooLow T] else [])

/-- The facula reaches the centre of a pixel of the star (spec). -/
def Spec.touches (s : Star) (f : Facula) : Prop :=
  ∃ p : s.grid.Pix, Fl.fin (greatCircle f.lat f.lon (s.grid.lat p) (s.grid.lon p)) ≤ f.radius / .fin s.radius

/-- The warnings for a facula that reaches a pixel (spec): those for the temperatures of its wall and its floor, which differ from the one of the
star by whole kelvins. -/
noncomputable def Spec.faculaWarnings (teff : ℝ) (f : Facula) : List PyWarning :=
  match f.radius with
  | .fin r => clipWarnings (Np.roundHalfEven (f.wallSlope * r + f.wallIntercept) + teff) ++
      clipWarnings (Np.roundHalfEven ((r - f.floorMinRad) * f.floorSlope + f.floorBase) + teff)
  | _ => []

/-- The warning for the comparison of two grids (spec). -/
def Spec.otherKind : Grid → Grid → List PyWarning
  | .spiral _, .rect _ _ => [.otherSubclass]
  | _, _ => []

theorem touches_iff {s : Star} {f : Facula} (h : f.grid = s.grid) : (∃ p, (f.inside s.radius).2 p) ↔ touches s f := by
  rw [inside_ex h]
  unfold inFacula touches
  simp only [haversine_eq]

theorem roundTeff_radius {f : Facula} {kw kf : ℤ} (hw : Helpers.roundTeff f.wallDteff = .ok kw) (hf : Helpers.roundTeff f.floorDteff = .ok kf) :
    (∃ r, f.radius = .fin r ∧ kw = Np.roundHalfEven (f.wallSlope * r + f.wallIntercept) ∧
      kf = Np.roundHalfEven ((r - f.floorMinRad) * f.floorSlope + f.floorBase)) ∨
    (∀ r, f.radius ≠ .fin r) := by
  cases hr : f.radius with
  | fin r =>
    left
    refine ⟨r, rfl, ?_, ?_⟩
    · rw [wallDteff_eq hr] at hw
      simp only [Helpers.roundTeff, Except.ok.injEq] at hw
      exact hw.symm
    · rw [floorDteff_eq hr] at hf
      simp only [Helpers.roundTeff, Except.ok.injEq] at hf
      exact hf.symm
  | _ => right; intro r; simp

open Classical in
theorem addFaculaW_warnings (s : Star) (lat0 lon0 : ℝ) (cur m : s.grid.Pix → ℝ) (f : Facula) (hg : f.grid = s.grid) (hfin : ∃ r, f.radius = .fin r)
    (h : s.addFacula lat0 lon0 cur f = .ok m) :
    (s.addFaculaW lat0 lon0 cur f).warnings = if touches s f then faculaWarnings s.teff f else [] := by
  unfold Star.addFaculaW
  unfold Star.addFacula at h
  simp only at h ⊢
  by_cases hex : ∃ p, (f.inside s.radius).2 p
  · rw [if_neg (not_not.mpr hex)] at h ⊢
    rw [if_pos ((touches_iff hg).mp hex)]
    cases hfr : f.fractionalEffectiveArea (Helpers.angleBetween lat0 lon0 f.lat f.lon) with
    | error e => rw [hfr] at h; cases h
    | ok fr =>
      rw [hfr, inside_on hg] at h
      rw [inside_on hg]
      rw [warnings_bind (a := fr) rfl, warnings_bind (a := fun p => inFacula f s.radius s.grid p) rfl]
      simp only [Warned.quiet, List.nil_append]
      obtain ⟨kw, kf, aw, af, hw, hf, hfr' | hfr'⟩ := fractional_keys hfr
      · subst hfr'
        simp only [bind, Except.bind, Star.paintFacula] at h
        cases hp : Np.percentile ((Finset.univ.filter fun p => inFacula f s.radius s.grid p).val.map (s.mu lat0 lon0)) aw with
        | error e => rw [hp] at h; cases h
        | ok b =>
          simp only [Star.paintFaculaW]
          rw [warnings_bind (a := b) hp, clipTeffW_eq, clipTeffW_eq, warnings_bind (a := Helpers.clipTeff (kw + s.teff)) rfl,
            warnings_bind (a := Helpers.clipTeff (kf + s.teff)) rfl, warnings_pure]
          simp only [Warned.quiet, List.nil_append, List.append_nil]
          rcases roundTeff_radius hw hf with ⟨r, hr, e1, e2⟩ | hno
          · rw [faculaWarnings, hr]
            simp only [clipWarnings, e1, e2]
          · obtain ⟨r, hr⟩ := hfin
            exact absurd hr (hno r)
      · subst hfr'
        simp only [bind, Except.bind, Star.paintFacula] at h
        cases h
  · rw [if_pos hex, if_neg (fun ht => hex ((touches_iff hg).mpr ht))]
    rfl

open Classical in
theorem foldFaculaeW_warnings (s : Star) (lat0 lon0 : ℝ) (l : List Facula) (hg : ∀ f ∈ l, f.grid = s.grid) (hfin : ∀ f ∈ l, ∃ r, f.radius = .fin r)
    (cur m : s.grid.Pix → ℝ) (h : l.foldlM (fun cur f => s.addFacula lat0 lon0 cur f) cur = .ok m) :
    (l.foldlM (fun cur f => s.addFaculaW lat0 lon0 cur f) cur).warnings = l.flatMap fun f => if touches s f then faculaWarnings s.teff f else [] := by
  induction l generalizing cur with
  | nil => rfl
  | cons f l ih =>
    rw [List.foldlM_cons] at h ⊢
    cases hc : s.addFacula lat0 lon0 cur f with
    | error e => rw [hc] at h; cases h
    | ok c =>
      rw [hc] at h
      rw [warnings_bind (a := c) ((addFaculaW_value ..).trans hc), List.flatMap_cons,
        addFaculaW_warnings s lat0 lon0 cur c f (hg f (by simp)) (hfin f (by simp)) hc,
        ih (fun f hf => hg f (by simp [hf])) (fun f hf => hfin f (by simp [hf])) c h]

/-- Whether a warning is about the use of `clip_teff`. -/
def Spec.isClip : PyWarning → Bool
  | .clipDeprecated => true
  | _ => false

theorem strict_ok {α : Type} (w : Warned α) (a : α) : w.strict = .ok a ↔ w.warnings = [] ∧ w.value = .ok a := by
  obtain ⟨l, v⟩ := w
  cases l <;> cases v <;> simp [Warned.strict, Except.mapError]

theorem clipWarnings_count (T : ℝ) : (clipWarnings T).countP isClip = 1 := by
  unfold clipWarnings
  split_ifs <;> rfl

theorem faculaWarnings_count (T : ℝ) (f : Facula) (h : ∃ r, f.radius = .fin r) : (faculaWarnings T f).countP isClip = 2 := by
  obtain ⟨r, hr⟩ := h
  unfold faculaWarnings
  rw [hr]
  simp only [List.countP_append, clipWarnings_count]

open Classical in
/-- **C171** The warnings of a report.  A report of a star that returns a result issues, in the order of the faculae, for every facula that
reaches a pixel a deprecation warning for the temperature of its wall and one for the temperature of its floor, each followed by a
warning with the temperature if this is above 3900 K or below 2300 K; then the warning of C93 about a resolution too low for the planet;
nothing else.  So there are two deprecation warnings for every facula that reaches a pixel, and under a filter that turns warnings into
exceptions the report returns its result exactly if there is no such facula and the resolution is good enough. -/
theorem C171_report (s : Star) (hg : ∀ f ∈ s.faculae.faculae, f.grid = s.grid) (hfin : ∀ f ∈ s.faculae.faculae, ∃ r, f.radius = .fin r)
    (lat0 lon0 gran orbit r phase incl : ℝ) (res : Np.Dict ℤ Fl × Np.Dict ℤ Fl × Fl)
    (h : s.calcCoverage lat0 lon0 gran orbit r phase incl = .ok res) :
    (s.calcCoverageW lat0 lon0 gran orbit r phase incl).value = .ok res ∧
    (s.calcCoverageW lat0 lon0 gran orbit r phase incl).warnings =
      (s.faculae.faculae.flatMap fun f => if touches s f then faculaWarnings s.teff f else []) ++
        ((s.transitWarning lat0 lon0 orbit r phase incl).map PyWarning.lowResolution).toList ∧
    (s.calcCoverageW lat0 lon0 gran orbit r phase incl).warnings.countP isClip = 2 * s.faculae.faculae.countP (fun f => decide (touches s f)) ∧
    ((s.calcCoverageW lat0 lon0 gran orbit r phase incl).strict = .ok res ↔
      (∀ f ∈ s.faculae.faculae, ¬ touches s f) ∧ s.transitWarning lat0 lon0 orbit r phase incl = none) := by
  have hv := (calcCoverageW_value s lat0 lon0 gran orbit r phase incl).trans h
  have hw : (s.calcCoverageW lat0 lon0 gran orbit r phase incl).warnings =
      (s.faculae.faculae.flatMap fun f => if touches s f then faculaWarnings s.teff f else []) ++
        ((s.transitWarning lat0 lon0 orbit r phase incl).map PyWarning.lowResolution).toList := by
    unfold Star.calcCoverage at h
    unfold Star.calcCoverageW
    cases hm : s.addFaculaeToMap lat0 lon0 with
    | error e => rw [hm] at h; cases h
    | ok m =>
      rw [hm] at h
      have hmW : (s.addFaculaeToMapW lat0 lon0).warnings = s.faculae.faculae.flatMap fun f => if touches s f then faculaWarnings s.teff f else [] := by
        unfold Star.addFaculaeToMap at hm
        unfold Star.addFaculaeToMapW
        cases h1 : s.map with
        | error e => rw [h1] at hm; cases hm
        | ok m1 =>
          rw [h1] at hm
          simp only [bind, Except.bind] at hm
          cases h2 : Field.on ⟨s.spots.grid, m1⟩ s.grid .indexError with
          | error e => rw [h2] at hm; cases hm
          | ok m2 =>
            rw [h2] at hm
            rw [warnings_bind (a := m1) rfl, h2, warnings_bind (a := m2) rfl]
            simp only [Warned.quiet, List.nil_append]
            exact foldFaculaeW_warnings s lat0 lon0 _ hg hfin m2 m hm
      rw [warnings_bind (a := m) ((addFaculaeToMapW_value ..).trans hm), hmW]
      congr 1
      simp only [bind, Except.bind] at h
      cases ht : s.transitMask lat0 lon0 orbit r phase incl with
      | error e => rw [ht] at h; cases h
      | ok c =>
        rw [ht] at h
        rw [warnings_bind (a := c) ht]
        simp only [Star.transitMaskW]
        refine (congrArg _ ?_).trans (List.append_nil _)
        cases hgr : s.granulation with
        | none => rfl
        | some gr =>
          rw [hgr] at h
          simp only at h ⊢
          cases h3 : Star.granulate (s.rawData lat0 lon0 m (fun _ => .fin 1) (s.teff - gr.dteff)) (Star.key s.teff) (Star.key (s.teff - gr.dteff)) gran with
          | error e => rw [h3] at h; cases h
          | ok t =>
            rw [h3] at h
            simp only at h
            cases h4 : Star.granulate (s.rawData lat0 lon0 m c.1 (s.teff - gr.dteff)) (Star.key s.teff) (Star.key (s.teff - gr.dteff)) gran with
            | error e => rw [h4] at h; cases h
            | ok t' =>
              rw [warnings_bind (a := t) rfl, warnings_bind (a := t') rfl]
              rfl
  refine ⟨hv, hw, ?_, ?_⟩
  · rw [hw, List.countP_append]
    have h1 : (((s.transitWarning lat0 lon0 orbit r phase incl).map PyWarning.lowResolution).toList).countP isClip = 0 := by
      cases s.transitWarning lat0 lon0 orbit r phase incl <;> rfl
    rw [h1, add_zero]
    clear hw hv h hg
    revert hfin
    generalize s.faculae.faculae = l
    intro hfin
    induction l with
    | nil => rfl
    | cons f l ih =>
      rw [List.flatMap_cons, List.countP_append, ih fun f hf => hfin f (by simp [hf]), List.countP_cons]
      by_cases ht : touches s f
      · rw [if_pos ht, faculaWarnings_count _ _ (hfin f (by simp))]
        simp [ht]
        ring
      · simp [ht]
  · rw [strict_ok, hw, hv]
    simp only [and_true, List.append_eq_nil_iff, List.flatMap_eq_nil_iff]
    refine and_congr ⟨fun hn f hf ht => ?_, fun hn f hf => by rw [if_neg (hn f hf)]⟩ ?_
    · have h1 := hn f hf
      rw [if_pos ht] at h1
      have := faculaWarnings_count s.teff f (hfin f hf)
      rw [h1] at this
      cases this
    · cases s.transitWarning lat0 lon0 orbit r phase incl <;> simp

/-- The comparison of two grids warns only for a spiral grid on the left of a rectangular one. -/
theorem eqW_warnings (a b : Grid) : (Grid.eqW a b).warnings = otherKind a b := by
  cases a <;> cases b <;> rfl

theorem unifyW_eq (a b : Grid) : ∃ g, Star.unifyW a b = ⟨otherKind a b, .ok g⟩ := by
  cases a with
  | rect n m =>
    cases b with
    | rect n' m' => exact ⟨_, rfl⟩
    | spiral k => exact ⟨_, rfl⟩
  | spiral k =>
    cases b with
    | rect n' m' => exact ⟨_, rfl⟩
    | spiral k' => exact ⟨_, rfl⟩

/-- **C171** The warnings of the construction of a star.  A generator handed to the star with a spiral grid while the star gets a rectangular one costs
a warning; there are no other warnings. -/
theorem C171_new (teff radius period : ℝ) (spots : SpotCollection) (faculae : FaculaCollection) (gp : Grid.PyVal) (fg : Option FlareGenerator)
    (sg : Option SpotGenerator) (ug : Option FaculaGenerator) (gr : Option Granulation) (u1 u2 : ℝ) (s : Star)
    (h : Star.new teff radius period spots faculae gp fg sg ug gr u1 u2 = .ok s) :
    (Star.newW teff radius period spots faculae gp fg sg ug gr u1 u2).value = .ok s ∧
    (Star.newW teff radius period spots faculae gp fg sg ug gr u1 u2).warnings =
      (sg.toList.flatMap fun G => otherKind G.grid s.grid) ++ (ug.toList.flatMap fun G => otherKind G.grid s.grid) := by
  have hv := (newW_value teff radius period spots faculae gp fg sg ug gr u1 u2).trans h
  refine ⟨hv, ?_⟩
  unfold Star.newW at hv ⊢
  cases h1 : Grid.Obj.new gp with
  | error e => rw [h1] at hv; cases hv
  | ok obj =>
    rw [h1] at hv
    have p1 : quiet (Except.ok obj : Py Grid.Obj) = pure obj := rfl
    rw [p1, pure_bind] at hv ⊢
    cases h2 : Grid.ofObj obj with
    | error e => rw [h2] at hv; cases hv
    | ok g =>
      rw [h2] at hv
      have p2 : quiet (Except.ok g : Py Grid) = pure g := rfl
      rw [p2, pure_bind] at hv ⊢
      have key : ∀ (l : List PyWarning) (G : Grid), ∀ {β : Type} (f : Grid → Warned β),
          ((⟨l, .ok G⟩ : Warned Grid) >>= f) = ⟨l ++ (f G).warnings, (f G).value⟩ := fun l G β f => rfl
      cases sg with
      | none =>
        cases ug with
        | none =>
          simp only [pure_bind]
          rfl
        | some ug =>
          obtain ⟨g', e⟩ := unifyW_eq ug.grid g
          simp only [pure_bind, e, key] at hv ⊢
          have hs : s.grid = g := by
            simp only [value_pure, Except.ok.injEq] at hv
            rw [← hv]; rfl
          simp [hs, warnings_pure]
      | some sg =>
        obtain ⟨g'', e'⟩ := unifyW_eq sg.grid g
        cases ug with
        | none =>
          simp only [pure_bind, e', key] at hv ⊢
          have hs : s.grid = g := by
            simp only [value_pure, Except.ok.injEq] at hv
            rw [← hv]; rfl
          simp [hs, warnings_pure]
        | some ug =>
          obtain ⟨g', e⟩ := unifyW_eq ug.grid g
          simp only [pure_bind, e, e', key] at hv ⊢
          have hs : s.grid = g := by
            simp only [value_pure, Except.ok.injEq] at hv
            rw [← hv]; rfl
          simp [hs, warnings_pure]

theorem addFaculaeW_warnings (c : FaculaCollection) (new : List Facula) (l : List Facula)
    (h : (new.mapM fun f => (do
      let b ← Grid.eqW f.grid c.grid
      return if !b then { f with grid := c.grid } else f : Warned Facula)).value = .ok l) :
    (new.mapM fun f => (do
      let b ← Grid.eqW f.grid c.grid
      return if !b then { f with grid := c.grid } else f : Warned Facula)).warnings = new.flatMap fun f => otherKind f.grid c.grid := by
  induction new generalizing l with
  | nil => rfl
  | cons f new ih =>
    rw [List.mapM_cons, value_bind] at h
    rw [List.mapM_cons, List.flatMap_cons]
    cases h1 : Grid.eq f.grid c.grid with
    | error e =>
      rw [value_bind, eqW_value, h1] at h
      cases h
    | ok b =>
      have hb : (Grid.eqW f.grid c.grid).value = .ok b := (eqW_value _ _).trans h1
      have hv : (do
          let b ← Grid.eqW f.grid c.grid
          return if !b then { f with grid := c.grid } else f : Warned Facula).value = .ok (if !b then { f with grid := c.grid } else f) := by
        rw [value_bind, hb]
        rfl
      rw [hv] at h
      rw [warnings_bind hv, warnings_bind hb, eqW_warnings, warnings_pure, List.append_nil]
      congr 1
      simp only [bind, Except.bind] at h
      change (Warned.bind _ _).value = _ at h
      cases h2 : (new.mapM fun f => (do
          let b ← Grid.eqW f.grid c.grid
          return if !b then { f with grid := c.grid } else f : Warned Facula)).value with
      | error e =>
        unfold Warned.bind at h
        erw [h2] at h
        cases h
      | ok l' =>
        rw [warnings_bind h2, warnings_pure, List.append_nil]
        exact ih l' h2

/-- **C171** The warnings of added faculae.  Faculae with a spiral grid added to a star with a rectangular one cost a warning each; there are no other
warnings, and none for faculae born on the star if the generator of the star has the star's grid. -/
theorem C171_add (s : Star) :
    (∀ new s', s.addFac new = .ok s' → (s.addFacW new).value = .ok s' ∧
      (s.addFacW new).warnings = new.flatMap fun f => otherKind f.grid s.faculae.grid) ∧
    (s.facGen.grid = s.faculae.grid → ∀ time k d, (s.birthFaculaeW time k d).value = s.birthFaculae time k d ∧
      (s.birthFaculaeW time k d).warnings = []) := by
  have hadd : ∀ new s', s.addFac new = .ok s' → (s.addFacW new).value = .ok s' ∧
      (s.addFacW new).warnings = new.flatMap fun f => otherKind f.grid s.faculae.grid := by
    intro new s' h
    have hv := (addFacW_value s new).trans h
    refine ⟨hv, ?_⟩
    unfold Star.addFacW FaculaCollection.addFaculaeW at hv ⊢
    rw [value_bind, value_bind] at hv
    cases h1 : (new.mapM fun f => (do
        let b ← Grid.eqW f.grid s.faculae.grid
        return if !b then { f with grid := s.faculae.grid } else f : Warned Facula)).value with
    | error e =>
      rw [h1] at hv
      cases hv
    | ok l =>
      rw [bind_assoc, warnings_bind h1, addFaculaeW_warnings s.faculae new l h1, pure_bind, warnings_pure, List.append_nil]
  refine ⟨hadd, fun hgrid time k d => ⟨birthFaculaeW_value s time k d, ?_⟩⟩
  unfold Star.birthFaculaeW
  cases h1 : s.facGen.birth time s.radius k d with
  | error e => rfl
  | ok new =>
    have hgr : ∀ f ∈ new, f.grid = s.faculae.grid := by
      intro f hf
      unfold FaculaGenerator.birth at h1
      cases h2 : Np.poisson (s.facGen.nExpected time s.radius) k with
      | error e => rw [h2] at h1; cases h1
      | ok n =>
        rw [h2] at h1
        simp only [Except.map, Except.ok.injEq] at h1
        rw [← h1] at hf
        simp only [FaculaGenerator.generate, List.mem_ofFn] at hf
        obtain ⟨i, rfl⟩ := hf
        exact hgrid
    rw [warnings_bind (a := new) rfl]
    have hok : ∃ s', s.addFac new = .ok s' := by
      have hm : ∀ l : List Facula, (∀ f ∈ l, f.grid = s.faculae.grid) → ∃ l', (l.mapM fun f =>
          (Grid.eq f.grid s.faculae.grid).map fun b => if !b then { f with grid := s.faculae.grid } else f) = .ok l' := by
        intro l hl
        induction l with
        | nil => exact ⟨[], rfl⟩
        | cons f l ih =>
          obtain ⟨l', h'⟩ := ih fun f hf => hl f (by simp [hf])
          have he : ∃ b, Grid.eq f.grid s.faculae.grid = .ok b := by
            rw [hl f (by simp)]
            cases s.faculae.grid <;> exact ⟨_, rfl⟩
          obtain ⟨b, hb⟩ := he
          rw [List.mapM_cons, h', hb]
          exact ⟨_, rfl⟩
      obtain ⟨l', h'⟩ := hm new hgr
      unfold Star.addFac FaculaCollection.addFaculae
      rw [h']
      exact ⟨_, rfl⟩
    obtain ⟨s', hs'⟩ := hok
    rw [(hadd new s' hs').2]
    simp only [Warned.quiet, List.nil_append, List.flatMap_eq_nil_iff]
    intro f hf
    rw [hgr f hf]
    cases s.faculae.grid <;> rfl

/-- **C171** Calls that always warn.  `clip_teff`, `FaculaCollection.map_pixels`, `Facula.set_gridmaker` and light curves with an exposure time return
what they return without the warnings, but never return to a program that turns warnings into exceptions; light curves without an exposure
time do. -/
theorem C171_always (T : ℝ) (c : FaculaCollection) (pixmap : c.grid.Pix → ℝ) (R teff : ℝ) (f : Facula) (g : Grid) (time texp : ℝ) (n : ℕ)
    (fl : List (ℝ × ℝ × Fl)) :
    ((Helpers.clipTeffW T).value = .ok (max 2300 (min 3900 T)) ∧ ∀ v, (Helpers.clipTeffW T).strict ≠ .ok v) ∧
    ((c.mapPixelsW pixmap R teff).value = c.mapPixels pixmap R teff ∧ ∀ v, (c.mapPixelsW pixmap R teff).strict ≠ .ok v) ∧
    ((f.setGridmakerW g).value = .ok { f with grid := g } ∧ ∀ v, (f.setGridmakerW g).strict ≠ .ok v) ∧
    ((Xoflares.lightCurveW time (some texp) n fl).value = .ok (Xoflares.lightCurveExp time texp n fl) ∧
      ∀ v, (Xoflares.lightCurveW time (some texp) n fl).strict ≠ .ok v) ∧
    (Xoflares.lightCurveW time none n fl).strict = .ok (Xoflares.lightCurve time fl) := by
  refine ⟨⟨?_, fun v h => ?_⟩, ⟨rfl, fun v h => ?_⟩, ⟨rfl, fun v h => ?_⟩, ⟨rfl, fun v h => ?_⟩, rfl⟩
  · rw [clipTeffW_eq]
    simp only [Except.ok.injEq]
    unfold Helpers.clipTeff Helpers.teffHigh Helpers.teffLow
    by_cases h1 : 3900 < T
    · rw [if_pos h1, min_eq_left h1.le]; norm_num
    · by_cases h2 : T < 2300
      · rw [if_neg h1, if_pos h2, min_eq_right (by linarith), max_eq_left h2.le]
      · rw [if_neg h1, if_neg h2, min_eq_right (not_lt.mp h1), max_eq_right (not_lt.mp h2)]
  · rw [strict_ok, clipTeffW_eq] at h
    cases h.1
  all_goals
    rw [strict_ok] at h
    cases h.1

/-- Non-trivial instance of C171: a star of 3850 K with a facula that covers the pixels in front, whose wall is 100 K hotter and whose floor is
100 K colder than the star. -/
example : let s := { sampleStar (.rect 4 3) [] [wideFacula (.rect 4 3)] with teff := 3850 }
    ∃ res, (s.calcCoverageW (π / 6) 0 0.1 10 0.1 (π / 2) (π / 2)).value = .ok res ∧
      (s.calcCoverageW (π / 6) 0 0.1 10 0.1 (π / 2) (π / 2)).warnings = [.clipDeprecated, .tooHigh 3950, .clipDeprecated] ∧
      ∀ r, (s.calcCoverageW (π / 6) 0 0.1 10 0.1 (π / 2) (π / 2)).strict ≠ .ok r := by
  classical
  intro s
  have hkeys := wideFacula_keys (.rect 4 3)
  have hmem : ∀ f ∈ s.faculae.faculae, f = wideFacula (.rect 4 3) := fun f hf => by
    simpa [s, sampleStar] using hf
  have hclear : Fl.fin 1 + .fin 2 * (.fin 0.1 / .fin s.radius) <
      Fl.sqrt (s.planetX (π / 2 - π) 10 * s.planetX (π / 2 - π) 10 + s.planetY (π / 2 - π) 10 (π / 2) * s.planetY (π / 2 - π) 10 (π / 2)) := by
    have e1 : s.planetX (π / 2 - π) 10 = .fin (-10) := by
      unfold Star.planetX
      rw [show π / 2 - π = -(π / 2) by ring, sin_neg, sin_pi_div_two]
      change Fl.fin 10 / Fl.fin 1 * Fl.fin (-1) = _
      rw [Fl.fin_div one_ne_zero, Fl.fin_mul]
      norm_num
    have e2 : s.planetY (π / 2 - π) 10 (π / 2) = .fin 0 := by
      unfold Star.planetY
      rw [cos_pi_div_two]
      change Fl.fin 10 / Fl.fin 1 * _ * _ = _
      rw [Fl.fin_div one_ne_zero, Fl.fin_mul, Fl.fin_mul, mul_zero]
    rw [e1, e2]
    change Fl.fin 1 + .fin 2 * (.fin 0.1 / .fin 1) < _
    rw [Fl.fin_div one_ne_zero, Fl.fin_mul, Fl.fin_mul, Fl.fin_mul, Fl.fin_add, Fl.fin_add]
    rw [show ((-10 : ℝ) * -10 + 0 * 0) = 10 ^ 2 by norm_num, Fl.sqrt_fin (by norm_num), Real.sqrt_sq (by norm_num), Fl.fin_lt]
    norm_num
  have hres : ∃ res, s.calcCoverage (π / 6) 0 0.1 10 0.1 (π / 2) (π / 2) = .ok res := by
    have hm₀ : s.map = .ok (fun _ => 3850) := rfl
    obtain ⟨m, hm⟩ := C70_overlay_total s (π / 6) 0 _ rfl hm₀ (by
      intro f hf
      rw [hmem f hf]
      exact ⟨rfl, wideFacula_cosDist _, 2, rfl, two_pos, by rw [hkeys.1, hkeys.2]; norm_num⟩)
    have ht : s.transitMask (π / 6) 0 10 0.1 (π / 2) (π / 2) = .ok (fun _ => .fin 0, .fin 1) := by
      unfold Star.transitMask
      simp only [if_pos hclear]
    obtain ⟨total, cov, h⟩ := answers_zero (s := s) (show goodGrid (.rect 4 3) from ⟨by omega, by omega⟩) (by norm_num [PhysicalLD, s, sampleStar])
      (visible_rect s (show s.grid = .rect 4 3 from rfl) (by omega) (by omega) _ _) hm ht (gr := .off) rfl rfl 0.1
    exact ⟨_, h⟩
  obtain ⟨res, hres⟩ := hres
  have htouch : touches s (wideFacula (.rect 4 3)) := by
    obtain ⟨-, ⟨p, hp⟩, -⟩ := halfStar_pixels
    refine ⟨p, ?_⟩
    change Fl.fin (greatCircle 0 0 ((Grid.rect 4 3).lat p) ((Grid.rect 4 3).lon p)) ≤ Fl.fin 2 / Fl.fin 1
    rw [Fl.fin_div one_ne_zero, Fl.fin_le, greatCircle_eq]
    have h1 : arccos ((Grid.rect 4 3).mu 0 0 p) ≤ π / 2 := arccos_le_pi_div_two.mpr hp.le
    have h2 := pi_lt_d2
    unfold Grid.mu Grid.cosAngle at h1
    linarith
  have htw : s.transitWarning (π / 6) 0 10 0.1 (π / 2) (π / 2) = none := by
    unfold Star.transitWarning
    simp only [if_pos hclear]
  obtain ⟨h1, h2, -, h4⟩ := C171_report s (fun f hf => by rw [hmem f hf]; rfl) (fun f hf => by rw [hmem f hf]; exact ⟨2, rfl⟩) (π / 6) 0 0.1 10 0.1 (π / 2) (π / 2)
    res hres
  refine ⟨res, h1, ?_, fun r hr => ?_⟩
  · rw [h2, htw]
    have e : s.faculae.faculae = [wideFacula (.rect 4 3)] := rfl
    have hw : faculaWarnings s.teff (wideFacula (.rect 4 3)) = [.clipDeprecated, .tooHigh 3950, .clipDeprecated] := by
      have k1 := hkeys.1
      have k2 := hkeys.2
      unfold wallKey at k1
      unfold floorKey at k2
      simp only [faculaWarnings, show (wideFacula (.rect 4 3)).radius = .fin 2 from rfl, k1, k2, clipWarnings]
      norm_num [s]
    rw [e]
    simp [htouch, hw]
  · have := (strict_ok _ _).mp hr
    have e2 := this.2.symm.trans h1
    simp only [Except.ok.injEq] at e2
    subst e2
    exact (h4.mp hr).1 _ (by simp [s, sampleStar]) htouch

/-- Non-trivial instance of C171: a star with a rectangular grid and a spot generator with a spiral grid costs one warning, and adding two faculae with
spiral grids and one with a rectangular grid costs two more. -/
example : ∃ s s', Star.new 3000 1 1 (.new [] (.rect 4 3)) ⟨[], .rect 4 3⟩ (.tuple [.int 4, .int 3]) none (some (SpotGenerator.off (.spiral 10)))
      (some (FaculaGenerator.off (.rect 7 7))) none 0 0 = .ok s ∧
    (Star.newW 3000 1 1 (.new [] (.rect 4 3)) ⟨[], .rect 4 3⟩ (.tuple [.int 4, .int 3]) none (some (SpotGenerator.off (.spiral 10)))
      (some (FaculaGenerator.off (.rect 7 7))) none 0 0).warnings = [.otherSubclass] ∧
    s.addFac [sampleFacula (.spiral 5), sampleFacula (.rect 4 3), sampleFacula (.spiral 6)] = .ok s' ∧
    (s.addFacW [sampleFacula (.spiral 5), sampleFacula (.rect 4 3), sampleFacula (.spiral 6)]).warnings = [.otherSubclass, .otherSubclass] := by
  have h : ∃ s, Star.new 3000 1 1 (.new [] (.rect 4 3)) ⟨[], .rect 4 3⟩ (.tuple [.int 4, .int 3]) none (some (SpotGenerator.off (.spiral 10)))
      (some (FaculaGenerator.off (.rect 7 7))) none 0 0 = .ok s ∧ s.grid = .rect 4 3 ∧ s.faculae.grid = .rect 4 3 := ⟨_, rfl, rfl, rfl⟩
  obtain ⟨s, h1, h2, h3⟩ := h
  have h4 : ∃ s', s.addFac [sampleFacula (.spiral 5), sampleFacula (.rect 4 3), sampleFacula (.spiral 6)] = .ok s' := by
    unfold Star.addFac FaculaCollection.addFaculae
    rw [h3]
    exact ⟨_, rfl⟩
  obtain ⟨s', h4⟩ := h4
  refine ⟨s, s', h1, ?_, h4, ?_⟩
  · rw [(C171_new _ _ _ _ _ _ _ _ _ _ _ _ s h1).2, h2]
    rfl
  · rw [((C171_add s).1 _ s' h4).2, h3]
    rfl

end Vsm
