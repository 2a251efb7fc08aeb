import Verif.Model.Plot
import Verif.Props.Grid2
import Verif.Props.Transit
import Verif.Props.StarDisk
import Verif.Props.FaculaMap
import Verif.Props.SpiralDisk

/-!
# C106, C107: what `plot_surface` draws
-/

noncomputable section

namespace Vsm

open Real

/-- Row and column of a pixel of a rectangular grid in an array of shape `(nlat, nlon)` (spec). -/
def Spec.cell : (g : Grid) → g.Pix → ℕ × ℕ
  | .rect _ _, p => (p.2, p.1)
  | .spiral _, k => (0, k)

open Spec

/-- When the call answers, and with what. -/
theorem plotSurface_ok {s : Star} {lat0 lon0 orbit r phase incl : ℝ} {nlon nlat : ℕ} {P : SurfacePlot} :
    s.plotSurface lat0 lon0 orbit r phase incl nlon nlat = .ok P ↔
    ∃ mask plf m d c, s.transitMask lat0 lon0 orbit r phase incl = .ok (mask, plf) ∧ s.addFaculaeToMap lat0 lon0 = .ok m ∧
      s.grid.display nlat nlon (s.grid.toData m) = .ok d ∧
      s.grid.display nlat nlon (s.grid.toData fun p => (mask p).real) = .ok c ∧
      ∃ h : (Finset.univ : Finset s.grid.Pix).Nonempty, P = {
        lats := d.lats.map Grid.toDeg
        lons := d.lons.map Grid.toDeg
        mesh := d.layer id
        planet := c.layer fun x => decide (0.5 < x)
        zorder := if plf = .fin 1 then 100 else -100
        shade := s.grid.toImage fun p => .fin 1 - .fin (s.ldMaskForPlotting (s.mu lat0 lon0 p)) /
          .fin (Finset.univ.sup' h fun p => s.ldMaskForPlotting (s.mu lat0 lon0 p)) } := by
  unfold Star.plotSurface
  cases h1 : s.transitMask lat0 lon0 orbit r phase incl with
  | error e => simp [bind, Except.bind]
  | ok x =>
    obtain ⟨mask, plf⟩ := x
    cases h2 : s.addFaculaeToMap lat0 lon0 with
    | error e => simp [bind, Except.bind]
    | ok m =>
      simp only [bind, Except.bind]
      cases h3 : s.grid.display nlat nlon (s.grid.toData m) with
      | error e =>
        refine ⟨fun h => by simp at h, ?_⟩
        rintro ⟨mask', plf', m', d, c, e1, e2, e3, -⟩
        cases e2
        rw [h3] at e3; cases e3
      | ok d =>
        simp only
        cases h4 : s.grid.display nlat nlon (s.grid.toData fun p => (mask p).real) with
        | error e =>
          refine ⟨fun h => by simp at h, ?_⟩
          rintro ⟨mask', plf', m', d', c, e1, e2, e3, e4, -⟩
          cases e1
          rw [h4] at e4; cases e4
        | ok c =>
          simp only
          by_cases hne : (Finset.univ : Finset s.grid.Pix).Nonempty
          · rw [dif_pos hne]
            constructor
            · intro h
              simp only [pure, Except.pure, Except.ok.injEq] at h
              exact ⟨mask, plf, m, d, c, rfl, rfl, h3, h4, hne, by rw [← h]⟩
            · rintro ⟨mask', plf', m', d', c', e1, e2, e3, e4, hne', rfl⟩
              cases e1; cases e2
              rw [h3] at e3; rw [h4] at e4
              cases e3; cases e4
              rfl
          · rw [dif_neg hne]
            refine ⟨fun h => by simp at h, ?_⟩
            rintro ⟨_, _, _, _, _, _, _, _, _, hne', -⟩
            exact absurd hne' hne

theorem layer_get {d : Grid.Display} {α : Type} (f : ℝ → α) {r c : ℕ} (hr : r < d.m) (hc : c < d.n) :
    (d.layer f).get r c = some (f (d.data ⟨c, hc⟩ ⟨r, hr⟩)) := by
  unfold Layer.get
  rw [dif_pos ⟨hr, hc⟩]
  rfl

theorem toDeg_deg (x : ℝ) : Grid.toDeg (Grid.deg x) = x := by
  unfold Grid.toDeg Grid.deg
  have := pi_pos.ne'
  field_simp

/-- The opacity of the shading at each pixel, when some visible pixel is not dark. -/
theorem shade_values {s : Star} (hld : PhysicalLD s.u1 s.u2) {lat0 lon0 : ℝ} (hv : ∃ p, 0 < s.grid.mu lat0 lon0 p)
    (h : (Finset.univ : Finset s.grid.Pix).Nonempty) :
    ∃ al : s.grid.Pix → ℝ, (∀ p : s.grid.Pix, Fl.fin 1 - Fl.fin (s.ldMaskForPlotting (s.mu lat0 lon0 p)) /
        Fl.fin (Finset.univ.sup' h fun p => s.ldMaskForPlotting (s.mu lat0 lon0 p)) = Fl.fin (al p)) ∧
      (∀ p, 0 ≤ al p ∧ al p ≤ 1) ∧ (∀ p, s.grid.mu lat0 lon0 p < 0 → al p = 1) ∧
      (∀ p, 0 < s.grid.mu lat0 lon0 p → al p < 1) ∧
      (∀ p q, s.grid.mu lat0 lon0 p ≤ s.grid.mu lat0 lon0 q → al q ≤ al p) ∧ ∃ p, al p = 0 := by
  obtain ⟨c1, -, c3, c4, c5⟩ := C62_limb_darkening s hld
  have hm : ∀ p, s.grid.mu lat0 lon0 p ∈ Set.Icc (-1 : ℝ) 1 := fun p => (C03_mu_inner s.grid lat0 lon0 p).2.1
  have hpos : ∀ p, 0 < s.grid.mu lat0 lon0 p → 0 < s.ldMaskForPlotting (s.mu lat0 lon0 p) := by
    intro p hp
    unfold Star.mu
    rw [(c5 _ hp.le).1]
    exact quadraticLaw_pos hld hp (hm p).2
  obtain ⟨q, -, hq⟩ := Finset.exists_mem_eq_sup' h fun p => s.ldMaskForPlotting (s.mu lat0 lon0 p)
  have hle : ∀ p, s.ldMaskForPlotting (s.mu lat0 lon0 p) ≤ s.ldMaskForPlotting (s.mu lat0 lon0 q) := fun p => by
    rw [← hq]; exact Finset.le_sup' (fun p => s.ldMaskForPlotting (s.mu lat0 lon0 p)) (Finset.mem_univ p)
  rw [hq]
  have hM : 0 < s.ldMaskForPlotting (s.mu lat0 lon0 q) := by
    obtain ⟨p, hp⟩ := hv
    exact (hpos p hp).trans_le (hle p)
  refine ⟨fun p => 1 - s.ldMaskForPlotting (s.mu lat0 lon0 p) / s.ldMaskForPlotting (s.mu lat0 lon0 q), ?_, ?_, ?_, ?_, ?_, q, ?_⟩
  · intro p
    rw [Fl.fin_div hM.ne', Fl.fin_sub]
  · intro p
    have h1 := (c1 _ (hm p)).1
    have h2 : s.ldMaskForPlotting (s.mu lat0 lon0 p) / s.ldMaskForPlotting (s.mu lat0 lon0 q) ≤ 1 :=
      (div_le_one hM).mpr (hle p)
    have h3 : 0 ≤ s.ldMaskForPlotting (s.mu lat0 lon0 p) / s.ldMaskForPlotting (s.mu lat0 lon0 q) := div_nonneg h1 hM.le
    constructor <;> linarith
  · intro p hp
    have : s.ldMaskForPlotting (s.mu lat0 lon0 p) = 0 := (c4 _ hp).1
    simp [this]
  · intro p hp
    have := div_pos (hpos p hp) hM
    simp only; linarith
  · intro p p' hp
    have h1 : s.ldMaskForPlotting (s.mu lat0 lon0 p) ≤ s.ldMaskForPlotting (s.mu lat0 lon0 p') := c3 _ _ hp (hm p').2
    have := div_le_div_of_nonneg_right h1 hM.le
    simp only; linarith
  · simp [div_self hM.ne']

/-- **C106** On a rectangular grid, asked for the size of the grid, `plot_surface` draws every pixel in its place: the
mesh shows, at the latitude and longitude of each pixel in degrees, the temperature of the surface map with faculae;
the black cells are the pixels covered by more than one half in the transit mask, drawn on top of the mesh exactly when
the planet is seen entirely (and below it otherwise); the dark image laid over the globe has in the cell that
contains the pixel's position an opacity between 0 and 1 that does not increase towards the disk centre, is 1 behind the
limb, less than 1 on the visible side and 0 at the brightest pixel. -/
theorem C106_plot_surface (s : Star) (nlat nlon : ℕ) (hgr : s.grid = .rect nlat nlon) (hlat : 4 ≤ nlat) (hlon : 3 ≤ nlon)
    (hld : PhysicalLD s.u1 s.u2) (lat0 lon0 orbit r phase incl : ℝ) (P : SurfacePlot)
    (h : s.plotSurface lat0 lon0 orbit r phase incl nlon nlat = .ok P) :
    ∃ (m : s.grid.Pix → ℝ) (mask : s.grid.Pix → Fl) (plf : Fl) (al : s.grid.Pix → ℝ) (L : Layer Fl),
      s.addFaculaeToMap lat0 lon0 = .ok m ∧ s.transitMask lat0 lon0 orbit r phase incl = .ok (mask, plf) ∧
      P.shade = .layer L ∧
      (P.lats.length = nlat ∧ P.lons.length = nlon) ∧ (P.mesh.rows = nlat ∧ P.mesh.cols = nlon) ∧
      (P.planet.rows = nlat ∧ P.planet.cols = nlon) ∧ (L.rows = nlat ∧ L.cols = nlon) ∧
      (∀ p : s.grid.Pix, ∃ lat lon : ℝ,
        P.lats[(cell s.grid p).1]? = some lat ∧ P.lons[(cell s.grid p).2]? = some lon ∧
        s.grid.lat p = lat * (π / 180) ∧ s.grid.lon p = lon * (π / 180) ∧
        P.mesh.get (cell s.grid p).1 (cell s.grid p).2 = some (m p) ∧
        (P.planet.get (cell s.grid p).1 (cell s.grid p).2 = some true ↔ ∃ v, mask p = .fin v ∧ 1 / 2 < v) ∧
        L.get (cell s.grid p).1 (cell s.grid p).2 = some (.fin (al p)) ∧
        (-90 + 180 * ((cell s.grid p).1 / nlat : ℝ) ≤ lat ∧ lat ≤ -90 + 180 * (((cell s.grid p).1 + 1) / nlat : ℝ)) ∧
        (360 * ((cell s.grid p).2 / nlon : ℝ) ≤ lon ∧ lon < 360 * (((cell s.grid p).2 + 1) / nlon : ℝ))) ∧
      (P.zorder = 100 ↔ plf = .fin 1) ∧ (P.zorder = 100 ∨ P.zorder = -100) ∧
      (∀ p, 0 ≤ al p ∧ al p ≤ 1) ∧ (∀ p, s.grid.mu lat0 lon0 p < 0 → al p = 1) ∧
      (∀ p, 0 < s.grid.mu lat0 lon0 p → al p < 1) ∧
      (∀ p q, s.grid.mu lat0 lon0 p ≤ s.grid.mu lat0 lon0 q → al q ≤ al p) ∧ ∃ p, al p = 0 := by
  obtain ⟨mask, plf, m, d, c, h1, h2, h3, h4, hne, rfl⟩ := plotSurface_ok.mp h
  have hv : ∃ p, 0 < s.grid.mu lat0 lon0 p := by
    rw [hgr]
    obtain ⟨p, -, hp⟩ := exists_visible nlat nlon hlat hlon lat0 lon0
    exact ⟨p, hp⟩
  obtain ⟨al, a0, a1, a2, a3, a4, a5⟩ := shade_values hld hv hne
  clear h
  simp only [a0]
  clear hv
  obtain ⟨teff, radius, period, spots, faculae, grid, fg, sg, fcg, gr, u1, u2, fl⟩ := s
  simp only at hgr
  subst hgr
  simp only [Grid.display, Grid.displayRect, Grid.toData, ne_eq, not_true, if_false, Except.ok.injEq] at h3 h4
  subst h3 h4
  refine ⟨m, mask, plf, al, _, h2, h1, rfl, ⟨?_, ?_⟩, ⟨rfl, rfl⟩, ⟨rfl, rfl⟩, ⟨rfl, rfl⟩, ?_, ?_, ?_, a1, a2, a3, a4, a5⟩
  · simp [Grid.latAxis]
  · simp [Grid.lonAxis]
  · rintro ⟨i, j⟩
    have hnlat : (4 : ℝ) ≤ nlat := by exact_mod_cast hlat
    have hnlon : (3 : ℝ) ≤ nlon := by exact_mod_cast hlon
    have hj : ((j : ℕ) : ℝ) + 1 ≤ nlat := by exact_mod_cast j.2
    have hj0 : (0 : ℝ) ≤ ((j : ℕ) : ℝ) := Nat.cast_nonneg _
    refine ⟨Grid.latPointDeg nlat j, Grid.lonPointDeg nlon i, ?_, ?_, rfl, rfl, ?_, ?_, ?_, ?_, ?_⟩
    · simp [cell, Grid.latAxis, toDeg_deg]
    · simp [cell, Grid.lonAxis, toDeg_deg]
    · rw [layer_get _ j.2 i.2]; rfl
    · rw [layer_get _ j.2 i.2]
      simp only [Option.some_inj, decide_eq_true_eq]
      change 0.5 < (mask (i, j)).real ↔ _
      cases hm : mask (i, j) with
      | fin v => simp only [Fl.real, Fl.fin_inj, exists_eq_left']; norm_num
      | _ => simp [Fl.real]; norm_num
    · unfold Layer.get
      rw [dif_pos ⟨j.2, i.2⟩]
      rfl
    · simp only [cell]
      unfold Grid.latPointDeg Np.linspaceAt
      rw [if_neg (by omega)]
      have e1 : (0 : ℝ) < nlat - 1 := by linarith
      have e2 : (0 : ℝ) < nlat := by linarith
      constructor
      · have : ((j : ℕ) : ℝ) / nlat ≤ (j : ℕ) / (nlat - 1) := by
          apply div_le_div_of_nonneg_left hj0 e1; linarith
        have e3 : ((j : ℕ) : ℝ) * ((90 - -90) / (nlat - 1)) = 180 * ((j : ℕ) / (nlat - 1)) := by ring
        rw [e3]; linarith
      · have : ((j : ℕ) : ℝ) / (nlat - 1) ≤ ((j : ℕ) + 1) / nlat := by
          rw [div_le_div_iff₀ e1 e2]; nlinarith
        have e3 : ((j : ℕ) : ℝ) * ((90 - -90) / (nlat - 1)) = 180 * ((j : ℕ) / (nlat - 1)) := by ring
        rw [e3]; linarith
    · simp only [cell]
      unfold Grid.lonPointDeg Np.linspaceOpenAt
      have e2 : (0 : ℝ) < nlon := by linarith
      have e3 : (0 : ℝ) + ((i : ℕ) : ℝ) * ((360 - 0) / nlon) = 360 * ((i : ℕ) / nlon) := by ring
      rw [e3]
      refine ⟨le_rfl, ?_⟩
      have : ((i : ℕ) : ℝ) / nlon < ((i : ℕ) + 1) / nlon := by
        apply div_lt_div_of_pos_right _ e2; linarith
      linarith
  · by_cases hp : plf = .fin 1
    · simp [hp]
    · simp [hp]
  · split_ifs
    · exact .inl rfl
    · exact .inr rfl

/-- **C106** (planet) A black cell shows a pixel of the visible side that is within the planet's radius plus two projected
pixel radii of the planet's centre in the projection, and it is drawn on top of the mesh; there are black cells only while
the planet is in front of the star.  In a transit all pixels inside the planet's disk by more than two projected pixel
radii are black. -/
theorem C106_plot_planet (s : Star) (nlat nlon : ℕ) (hgr : s.grid = .rect nlat nlon) (hlat : 4 ≤ nlat) (hlon : 3 ≤ nlon)
    (hld : PhysicalLD s.u1 s.u2) (hR : 0 < s.radius) (a : s.grid.Pix → ℝ) (ha : ∀ p, s.grid.area p = .fin (a p))
    (lat0 lon0 orbit r phase incl : ℝ) (hr : 0 < r) (h0 : lat0 ∈ Set.Icc (-(π / 2)) (π / 2)) (P : SurfacePlot)
    (h : s.plotSurface lat0 lon0 orbit r phase incl nlon nlat = .ok P) (X Y ρ : ℝ)
    (hXY : (X, Y) = planetPos s.radius orbit phase incl) (hρ : ρ = r / s.radius) (p : s.grid.Pix) :
    (P.planet.get (cell s.grid p).1 (cell s.grid p).2 = some true →
      0 ≤ s.grid.mu lat0 lon0 p ∧ cos phase ≤ 0 ∧ P.zorder = 100 ∧
      ∀ px py, Helpers.projOrtho lat0 lon0 (s.grid.lat p) (s.grid.lon p) = (.fin px, .fin py) →
        planetDist X Y px py ≤ ρ + 2 * (2 * √(a p) * s.grid.mu lat0 lon0 p)) ∧
    (∀ px py, Helpers.projOrtho lat0 lon0 (s.grid.lat p) (s.grid.lon p) = (.fin px, .fin py) →
      cos phase ≤ 0 → planetDist X Y 0 0 ≤ 1 + 2 * ρ →
      planetDist X Y px py + 2 * (2 * √(a p) * s.grid.mu lat0 lon0 p) < ρ →
      P.planet.get (cell s.grid p).1 (cell s.grid p).2 = some true) := by
  obtain ⟨m, mask, plf, al, L, -, hmask, -, -, -, -, -, hall, hz, -⟩ :=
    C106_plot_surface s nlat nlon hgr hlat hlon hld lat0 lon0 orbit r phase incl P h
  have hgood : goodGrid s.grid := by rw [hgr]; exact ⟨by omega, by omega⟩
  obtain ⟨-, -, -, -, -, -, -, hb, -⟩ := hall p
  obtain ⟨v, hv, -, -, v1, v2, -, v4⟩ :=
    C63_transit_mask s hgood hR.ne' a ha lat0 lon0 orbit r phase incl h0 mask plf hmask X Y ρ hXY hρ p
  obtain ⟨-, hfr⟩ := C64_planet_fraction s hgood hR lat0 lon0 orbit r phase incl hr h0 X Y ρ hXY hρ
  obtain ⟨w, hw, -, -, w1, -⟩ := hfr mask plf hmask
  rw [hb]
  constructor
  · rintro ⟨v', hv', hhalf⟩
    rw [hv, Fl.fin_inj] at hv'
    subst hv'
    have hc : cos phase ≤ 0 := by
      by_contra hc
      rw [v2 (not_le.mp hc)] at hhalf
      norm_num at hhalf
    refine ⟨?_, hc, hz.mpr (by rw [hw, w1 hc]), ?_⟩
    · by_contra hmu
      rw [v1 (not_le.mp hmu)] at hhalf
      norm_num at hhalf
    · intro px py hp
      by_contra hd
      rw [(v4 px py hp).1 (not_le.mp hd)] at hhalf
      norm_num at hhalf
  · intro px py hp hc hd hin
    refine ⟨v, hv, ?_⟩
    rw [(v4 px py hp).2 hc hd hin]
    norm_num

/-- **C106** (answers) On a rectangular grid with pixels the call answers exactly when the transit mask and the surface map
can be computed and the requested size is that of the grid; if only the size is wrong it raises `TypeError`.  On a spiral
grid with points every size is possible. -/
theorem C106_plot_answers (s : Star) (lat0 lon0 orbit r phase incl : ℝ) (mask : s.grid.Pix → Fl) (plf : Fl)
    (m : s.grid.Pix → ℝ) (h1 : s.transitMask lat0 lon0 orbit r phase incl = .ok (mask, plf))
    (h2 : s.addFaculaeToMap lat0 lon0 = .ok m) (nlon nlat : ℕ) :
    (∀ a b, 1 ≤ a → 1 ≤ b → s.grid = .rect a b →
      ((∃ P, s.plotSurface lat0 lon0 orbit r phase incl nlon nlat = .ok P) ↔ nlat = a ∧ nlon = b) ∧
      (¬ (nlat = a ∧ nlon = b) → s.plotSurface lat0 lon0 orbit r phase incl nlon nlat = .error .typeError)) ∧
    (∀ n, 1 ≤ n → s.grid = .spiral n → ∃ P, s.plotSurface lat0 lon0 orbit r phase incl nlon nlat = .ok P) := by
  constructor
  · intro a b ha hb hgr
    have herr : ¬ (nlat = a ∧ nlon = b) → s.plotSurface lat0 lon0 orbit r phase incl nlon nlat = .error .typeError := by
      intro hne
      have : s.grid.display nlat nlon (s.grid.toData m) = .error .typeError := by
        obtain ⟨teff, radius, period, spots, faculae, grid, fg, sg, fcg, gr, u1, u2, fl⟩ := s
        simp only at hgr
        subst hgr
        simp only [Grid.display, Grid.toData, Grid.displayRect]
        by_cases hb' : b = nlon
        · rw [if_neg (by simpa using hb'), if_pos fun e => hne ⟨e.symm, hb'.symm⟩]
        · rw [if_pos hb']
      unfold Star.plotSurface
      rw [h1, h2]
      simp only [bind, Except.bind]
      rw [this]
    refine ⟨⟨?_, ?_⟩, herr⟩
    · rintro ⟨P, hP⟩
      by_contra hne
      rw [herr hne] at hP
      cases hP
    · rintro ⟨rfl, rfl⟩
      have hne : (Finset.univ : Finset s.grid.Pix).Nonempty := by
        rw [hgr]; exact ⟨(⟨0, hb⟩, ⟨0, ha⟩), Finset.mem_univ _⟩
      have hd : ∀ f : s.grid.Pix → ℝ, ∃ d, s.grid.display nlat nlon (s.grid.toData f) = .ok d := by
        rw [hgr]
        intro f
        exact ⟨_, by simp only [Grid.display, Grid.toData, Grid.displayRect, ne_eq, not_true, if_false]; rfl⟩
      obtain ⟨d, hd1⟩ := hd m
      obtain ⟨c, hc1⟩ := hd fun p => (mask p).real
      exact ⟨_, plotSurface_ok.mpr ⟨mask, plf, m, d, c, h1, h2, hd1, hc1, hne, rfl⟩⟩
  · intro n hn hgr
    have hne : (Finset.univ : Finset s.grid.Pix).Nonempty := by
      rw [hgr]; exact ⟨(⟨0, hn⟩ : Fin n), Finset.mem_univ _⟩
    have hd : ∀ f : s.grid.Pix → ℝ, ∃ d, s.grid.display nlat nlon (s.grid.toData f) = .ok d := by
      rw [hgr]
      intro f
      exact ⟨_, by simp only [Grid.display, Grid.toData, Grid.displaySpiral, dite_true]; rfl⟩
    obtain ⟨d, hd1⟩ := hd m
    obtain ⟨c, hc1⟩ := hd fun p => (mask p).real
    exact ⟨_, plotSurface_ok.mpr ⟨mask, plf, m, d, c, h1, h2, hd1, hc1, hne, rfl⟩⟩

/-- **C106** (spiral grids) On a spiral grid the mesh and the black cells come from weighted means over the points, with
positive weights that add up to 1 and do not grow with the distance of the point: the mesh shows the mean of the surface
map, a cell is black when the mean of the transit mask is more than one half. -/
theorem C106_plot_spiral (s : Star) (n : ℕ) (hgr : s.grid = .spiral n) (hn : 1 ≤ n)
    (lat0 lon0 orbit r phase incl : ℝ) (nlon nlat : ℕ) (P : SurfacePlot)
    (h : s.plotSurface lat0 lon0 orbit r phase incl nlon nlat = .ok P) :
    ∃ (m : s.grid.Pix → ℝ) (mask : s.grid.Pix → Fl) (plf : Fl) (w : Fin nlon → Fin nlat → s.grid.Pix → ℝ),
      s.addFaculaeToMap lat0 lon0 = .ok m ∧ s.transitMask lat0 lon0 orbit r phase incl = .ok (mask, plf) ∧
      (P.zorder = 100 ↔ plf = .fin 1) ∧
      (∀ i j k, 0 < w i j k) ∧ (∀ i j, ∑ k, w i j k = 1) ∧
      (∀ i j k l,
        greatCircle (s.grid.lat k) (s.grid.lon k) ((Grid.rect nlat nlon).lat (i, j)) ((Grid.rect nlat nlon).lon (i, j)) ≤
          greatCircle (s.grid.lat l) (s.grid.lon l) ((Grid.rect nlat nlon).lat (i, j)) ((Grid.rect nlat nlon).lon (i, j)) →
        w i j l ≤ w i j k) ∧
      ∀ (i : Fin nlon) (j : Fin nlat), P.mesh.get j i = some (∑ k, w i j k * m k) ∧
        P.planet.get j i = some (decide (0.5 < ∑ k, w i j k * (mask k).real)) ∧
        P.lats[(j : ℕ)]? = some (Grid.latPointDeg nlat j) ∧ P.lons[(i : ℕ)]? = some (Grid.lonPointDeg nlon i) := by
  obtain ⟨mask, plf, m, d, c, h1, h2, h3, h4, hne, rfl⟩ := plotSurface_ok.mp h
  clear h
  obtain ⟨teff, radius, period, spots, faculae, grid, fg, sg, fcg, gr, u1, u2, fl⟩ := s
  simp only at hgr
  subst hgr
  obtain ⟨w, w1, w2, w3, w4⟩ := C05_display_spiral n nlat nlon hn
  obtain ⟨d', e1, -, -, d1, d2, d3⟩ := w4 m
  obtain ⟨c', e2, -, -, c1, c2, c3⟩ := w4 fun p => (mask p).real
  have hd : d' = d := by
    have := e1.symm.trans h3
    simpa using this
  have hc : c' = c := by
    have := e2.symm.trans h4
    simpa using this
  subst hd hc
  refine ⟨m, mask, plf, w, h2, h1, ?_, w1, w2, w3, ?_⟩
  · by_cases hp : plf = .fin 1
    · simp [hp]
    · simp [hp]
  · intro i j
    have hax : d'.lats = Grid.latAxis nlat ∧ d'.lons = Grid.lonAxis nlon := by
      simp only [Grid.display, Grid.displaySpiral, dite_true, Except.ok.injEq] at e1
      rw [← e1]
      exact ⟨rfl, rfl⟩
    refine ⟨?_, ?_, ?_, ?_⟩
    · rw [layer_get _ (by rw [d2]; exact j.2) (by rw [d1]; exact i.2)]
      rw [← d3 i j]; rfl
    · rw [layer_get _ (by rw [c2]; exact j.2) (by rw [c1]; exact i.2)]
      rw [← c3 i j]; rfl
    · simp [hax.1, Grid.latAxis, toDeg_deg]
    · simp [hax.2, Grid.lonAxis, toDeg_deg]

/-! ## C107 -/

/-- **C107** (partial) With its default size (500 latitudes, 1000 longitudes) `plot_surface` draws every star on the default
rectangular grid of that size, shading included, and on every spiral grid it hands over mesh and black cells of that size.
The full statement is that the call with the default size answers on every grid with pixels and that the shading is an
array over latitude and longitude; it is refuted by `C107_counterexample`. -/
theorem C107_plot_default_partial (s : Star) (lat0 lon0 orbit r phase incl : ℝ) (mask : s.grid.Pix → Fl) (plf : Fl)
    (m : s.grid.Pix → ℝ) (h1 : s.transitMask lat0 lon0 orbit r phase incl = .ok (mask, plf))
    (h2 : s.addFaculaeToMap lat0 lon0 = .ok m) :
    (s.grid = .rect 500 1000 → ∃ P L, s.plotSurface lat0 lon0 orbit r phase incl 1000 500 = .ok P ∧
      P.shade = .layer L ∧ L.rows = 500 ∧ L.cols = 1000) ∧
    (∀ n, 1 ≤ n → s.grid = .spiral n → ∃ P, s.plotSurface lat0 lon0 orbit r phase incl 1000 500 = .ok P ∧
      P.mesh.rows = 500 ∧ P.mesh.cols = 1000 ∧ P.planet.rows = 500 ∧ P.planet.cols = 1000) := by
  constructor
  · intro hgr
    obtain ⟨P, hP⟩ := ((C106_plot_answers s lat0 lon0 orbit r phase incl mask plf m h1 h2 1000 500).1 500 1000
      (by norm_num) (by norm_num) hgr).1.mpr ⟨rfl, rfl⟩
    obtain ⟨mask', plf', m', d, c, -, -, -, -, hne, rfl⟩ := plotSurface_ok.mp hP
    have hi : ∀ f : s.grid.Pix → Fl, ∃ L : Layer Fl, s.grid.toImage f = .layer L ∧ L.rows = 500 ∧ L.cols = 1000 := by
      rw [hgr]
      intro f
      exact ⟨_, rfl, rfl, rfl⟩
    obtain ⟨L, hL⟩ := hi fun p => .fin 1 - .fin (s.ldMaskForPlotting (s.mu lat0 lon0 p)) /
          .fin (Finset.univ.sup' hne fun p => s.ldMaskForPlotting (s.mu lat0 lon0 p))
    exact ⟨_, L, hP, hL⟩
  · intro n hn hgr
    obtain ⟨P, hP⟩ := (C106_plot_answers s lat0 lon0 orbit r phase incl mask plf m h1 h2 1000 500).2 n hn hgr
    refine ⟨P, hP, ?_⟩
    obtain ⟨mask', plf', m', d, c, -, -, hd, hc, hne, rfl⟩ := plotSurface_ok.mp hP
    have key : ∀ (f : s.grid.Pix → ℝ) d, s.grid.display 500 1000 (s.grid.toData f) = .ok d → d.n = 1000 ∧ d.m = 500 := by
      rw [hgr]
      intro f d hd
      simp only [Grid.display, Grid.toData, Grid.displaySpiral, dite_true, Except.ok.injEq] at hd
      rw [← hd]
      exact ⟨rfl, rfl⟩
    exact ⟨(key _ _ hd).2, (key _ _ hd).1, (key _ _ hc).2, (key _ _ hc).1⟩

/-- A plain star can be drawn when the planet is in front of it. -/
theorem plain_plot (g : Grid) (hg : goodGrid g) : ∃ mask plf m,
    (sampleStar g [] []).transitMask 0 0 10 1 π 0 = .ok (mask, plf) ∧
    (sampleStar g [] []).addFaculaeToMap 0 0 = .ok m := by
  obtain ⟨m, hm⟩ := C70_overlay_total (sampleStar g [] []) 0 0 (fun _ => 3000) rfl rfl (by intro f hf; simp [sampleStar] at hf)
  have hpi := pi_pos
  have := transitMask_eq (sampleStar g [] []) hg (by simp [sampleStar]) 0 0 10 1 π 0 ⟨by linarith, by linarith⟩
  rw [cos_pi, if_neg (by norm_num : ¬ (0 : ℝ) < -1)] at this
  by_cases h : 1 + 2 * (1 / (sampleStar g [] []).radius) < planetDist (planetPos (sampleStar g [] []).radius 10 π 0).1
      (planetPos (sampleStar g [] []).radius 10 π 0).2 0 0
  · rw [if_pos h] at this
    exact ⟨_, _, m, this, hm⟩
  · rw [if_neg h] at this
    exact ⟨_, _, m, this, hm⟩

/-- The full statement of C107 is false of the code: with the default size the call raises `TypeError` for a star on a
rectangular grid of another size, and on a spiral grid the shading handed to `imshow` is a one-dimensional array. -/
theorem C107_counterexample :
    (sampleStar (.rect 4 3) [] []).plotSurface 0 0 10 1 π 0 1000 500 = .error .typeError ∧
    ∃ P f, (sampleStar (.spiral 5) [] []).plotSurface 0 0 10 1 π 0 1000 500 = .ok P ∧ P.shade = .flat 5 f := by
  constructor
  · obtain ⟨mask, plf, m, h1, h2⟩ := plain_plot (.rect 4 3) ⟨by norm_num, by norm_num⟩
    exact ((C106_plot_answers _ 0 0 10 1 π 0 mask plf m h1 h2 1000 500).1 4 3 (by norm_num) (by norm_num) rfl).2 (by norm_num)
  · obtain ⟨mask, plf, m, h1, h2⟩ := plain_plot (.spiral 5) (show 1 ≤ 5 by norm_num)
    obtain ⟨P, hP⟩ := (C106_plot_answers _ 0 0 10 1 π 0 mask plf m h1 h2 1000 500).2 5 (by norm_num) rfl
    obtain ⟨mask', plf', m', d, c, -, -, -, -, hne, rfl⟩ := plotSurface_ok.mp hP
    exact ⟨_, _, hP, rfl⟩

/-- Non-trivial instance of C106: a plain star on a 4 × 3 grid is drawn, with some pixel not shaded at all. -/
example : ∃ P L, (sampleStar (.rect 4 3) [] []).plotSurface 0 0 10 1 π 0 3 4 = .ok P ∧ P.shade = .layer L ∧
    P.lats.length = 4 ∧ P.lons.length = 3 ∧ ∃ r c, L.get r c = some (.fin 0) := by
  obtain ⟨mask, plf, m, h1, h2⟩ := plain_plot (.rect 4 3) ⟨by norm_num, by norm_num⟩
  obtain ⟨P, hP⟩ := ((C106_plot_answers _ 0 0 10 1 π 0 mask plf m h1 h2 3 4).1 4 3 (by norm_num) (by norm_num) rfl).1.mpr ⟨rfl, rfl⟩
  obtain ⟨m', mask', plf', al, L, -, -, hL, hlen, -, -, -, hall, -, -, -, -, -, -, p, hp⟩ :=
    C106_plot_surface (sampleStar (.rect 4 3) [] []) 4 3 rfl (by norm_num) (by norm_num)
      ⟨by norm_num [sampleStar], by norm_num [sampleStar], by norm_num [sampleStar]⟩ 0 0 10 1 π 0 P hP
  obtain ⟨lat, lon, -, -, -, -, -, -, hget, -⟩ := hall p
  exact ⟨P, L, hP, hL, hlen.1, hlen.2, _, _, by rw [hget, hp]⟩

end Vsm
