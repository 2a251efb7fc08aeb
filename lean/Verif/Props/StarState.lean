import Verif.Props.FaculaMap
import Verif.Props.SpotGen
import Verif.Model.Aliasing

/-!
# C29, C66 – C68: the state of a star over its life
-/

noncomputable section

namespace Vsm

open Real Spec

/-- Spot measured on grid `g`: it carries the grid and the distances of the grid's pixels (spec). -/
def Spec.OnGrid (sp : StarSpot) (g : Grid) : Prop :=
  sp.grid = g ∧ sp.r = ⟨g, fun p => Helpers.haversine sp.lat sp.lon (g.lat p) (g.lon p)⟩

theorem onGrid_iff {sp : StarSpot} {g : Grid} : OnGrid sp g ↔ sp.setGridmaker g = sp := by
  constructor
  · rintro ⟨h1, h2⟩
    unfold StarSpot.setGridmaker
    cases sp
    simp only at h1 h2
    subst h1 h2
    rfl
  · intro h
    rw [← h]
    exact ⟨rfl, rfl⟩

/-- Everything the star owns lives on grid `g` (spec). -/
structure Spec.Unified (s : Star) (g : Grid) : Prop where
  star : s.grid = g
  spots : s.spots.grid = g
  faculae : s.faculae.grid = g
  spotGen : s.spotGen.grid = g
  facGen : s.facGen.grid = g
  eachSpot : ∀ sp ∈ s.spots.spots, OnGrid sp g
  eachFacula : ∀ f ∈ s.faculae.faculae, f.grid = g

/-! ## C66 -/

theorem unify_eq (a b : Grid) : Star.unify a b = .ok b := by
  unfold Star.unify Grid.ne
  obtain ⟨h1, h2, -⟩ := C06_eq_partial a b
  rcases h2 with h | h | ⟨h, -⟩
  · rw [h]; rfl
  · rw [h, h1.mp h]; rfl
  · rw [h]; rfl

/-- **C66** `Star(...)` succeeds for every combination of grids whenever the grid parameters describe a grid
`g`; afterwards the star, its collections, their members and both generators are on `g`, and the spots and
faculae are the ones passed in. -/
theorem C66_unified (teff radius period : ℝ) (spots : SpotCollection) (faculae : FaculaCollection)
    (gp : Grid.PyVal) (flareGen : Option FlareGenerator) (spotGen : Option SpotGenerator)
    (facGen : Option FaculaGenerator) (gran : Option Granulation) (u1 u2 : ℝ) :
    (∀ obj g, Grid.Obj.new gp = .ok obj → Grid.ofObj obj = .ok g →
      ∃ s, Star.new teff radius period spots faculae gp flareGen spotGen facGen gran u1 u2 = .ok s ∧
        Unified s g ∧
        s.spots.spots = spots.spots.map (fun sp => { sp with grid := g, r := StarSpot.distances sp.lat sp.lon g }) ∧
        s.faculae.faculae = faculae.faculae.map (fun f => { f with grid := g }) ∧
        s.teff = teff ∧ s.radius = radius ∧ s.u1 = u1 ∧ s.u2 = u2) ∧
    (∀ s, Star.new teff radius period spots faculae gp flareGen spotGen facGen gran u1 u2 = .ok s →
      ∃ obj g, Grid.Obj.new gp = .ok obj ∧ Grid.ofObj obj = .ok g) := by
  constructor
  · intro obj g ho hg
    unfold Star.new
    rw [ho]
    simp only [bind, Except.bind]
    rw [hg]
    let sg : SpotGenerator := match spotGen with | none => SpotGenerator.off g | some sg => { sg with grid := g }
    let fg : FaculaGenerator := match facGen with | none => FaculaGenerator.off g | some fg => { fg with grid := g }
    refine ⟨Star.setFacGrid <| Star.setSpotGrid
      { teff, radius, period
        spots := spots.setGridmaker g
        faculae := faculae.setGridmaker g
        grid := g
        flareGen := flareGen.getD FlareGenerator.off
        spotGen := sg
        facGen := fg
        granulation := some (gran.getD Granulation.off)
        u1, u2
        flares := none }, ?_, ⟨rfl, rfl, rfl, ?_, ?_, ?_, ?_⟩, ?_, ?_, rfl, rfl, rfl, rfl⟩
    · cases spotGen <;> cases facGen <;> simp only [unify_eq] <;> rfl
    · cases spotGen <;> rfl
    · cases facGen <;> rfl
    · intro sp hsp
      simp only [Star.setFacGrid, Star.setSpotGrid, SpotCollection.setGridmaker, List.map_map, List.mem_map] at hsp
      obtain ⟨t, -, rfl⟩ := hsp
      exact ⟨rfl, rfl⟩
    · intro f hf
      simp only [Star.setFacGrid, Star.setSpotGrid, FaculaCollection.setGridmaker, List.map_map, List.mem_map] at hf
      obtain ⟨t, -, rfl⟩ := hf
      rfl
    · simp only [Star.setFacGrid, Star.setSpotGrid, SpotCollection.setGridmaker, List.map_map]
      rfl
    · simp only [Star.setFacGrid, Star.setSpotGrid, FaculaCollection.setGridmaker, List.map_map]
      rfl
  · intro s h
    unfold Star.new at h
    simp only [bind, Except.bind] at h
    cases ho : Grid.Obj.new gp with
    | error e => rw [ho] at h; cases h
    | ok obj =>
      rw [ho] at h
      simp only at h
      cases hg : Grid.ofObj obj with
      | error e => rw [hg] at h; cases h
      | ok g => exact ⟨obj, g, rfl, hg⟩

/-- The grid described by the grid parameters of a star (spec): a number of points, or a pair of numbers of latitudes and
longitudes with the defaults 500 and 1000; nothing negative. -/
def Spec.gridOf : Grid.PyVal → Option Grid
  | .int n => if 0 ≤ n then some (.spiral n.toNat) else none
  | .tuple [] => some (.rect 500 1000)
  | .tuple [.int a] => if 0 ≤ a then some (.rect a.toNat 1000) else none
  | .tuple [.int a, .int b] => if 0 ≤ a ∧ 0 ≤ b then some (.rect a.toNat b.toNat) else none
  | _ => none

theorem gridOf_eq (gp : Grid.PyVal) (g : Grid) :
    gridOf gp = some g ↔ ∃ obj, Grid.Obj.new gp = .ok obj ∧ Grid.ofObj obj = .ok g := by
  unfold gridOf Grid.Obj.new Grid.Obj.mkRect
  split
  case h_1 n =>
    simp only [Except.ok.injEq, exists_eq_left', Grid.ofObj]
    by_cases h : 0 ≤ n <;> simp [h]
  case h_2 =>
    simp only [Except.ok.injEq, exists_eq_left', Grid.ofObj]
    exact Iff.of_eq (by norm_num; rfl)
  case h_3 a =>
    simp only [Except.ok.injEq, exists_eq_left', Grid.ofObj]
    by_cases h : 0 ≤ a <;> simp [h]
  case h_4 a b =>
    simp only [Except.ok.injEq, exists_eq_left', Grid.ofObj]
    by_cases h : 0 ≤ a ∧ 0 ≤ b
    · rw [if_pos h, if_pos h]; simp
    · rw [if_neg h, if_neg h]; simp
  case h_5 h1 h2 h3 h4 =>
    simp only [reduceCtorEq, false_iff]
    rintro ⟨obj, ho, -⟩
    split at ho
    · exact h1 _ rfl
    · exact h2 rfl
    · split at ho
      · rename_i e1 e2
        cases e2
        exact h3 _ rfl
      · cases ho
    · split at ho
      · exact h4 _ _ rfl
      · cases ho
    · cases ho
    · cases ho

/-- **C66** `Star(...)` succeeds exactly if the grid parameters describe a grid, and the star is on that grid. -/
theorem C66_grid (teff radius period : ℝ) (spots : SpotCollection) (faculae : FaculaCollection)
    (gp : Grid.PyVal) (flareGen : Option FlareGenerator) (spotGen : Option SpotGenerator)
    (facGen : Option FaculaGenerator) (gran : Option Granulation) (u1 u2 : ℝ) :
    (∀ g, gridOf gp = some g →
      ∃ s, Star.new teff radius period spots faculae gp flareGen spotGen facGen gran u1 u2 = .ok s ∧ s.grid = g) ∧
    (gridOf gp = none → ∃ e, Star.new teff radius period spots faculae gp flareGen spotGen facGen gran u1 u2 = .error e) := by
  obtain ⟨h1, h2⟩ := C66_unified teff radius period spots faculae gp flareGen spotGen facGen gran u1 u2
  constructor
  · intro g hg
    obtain ⟨obj, k1, k2⟩ := (gridOf_eq gp g).mp hg
    obtain ⟨s, k3, k4, -⟩ := h1 obj g k1 k2
    exact ⟨s, k3, k4.star⟩
  · intro hn
    cases e : Star.new teff radius period spots faculae gp flareGen spotGen facGen gran u1 u2 with
    | error x => exact ⟨x, rfl⟩
    | ok s =>
      obtain ⟨obj, g, k1, k2⟩ := h2 s e
      rw [(gridOf_eq gp g).mpr ⟨obj, k1, k2⟩] at hn
      cases hn

/-- Non-trivial instance of C66: a star of 100 points; a star with a negative number of longitudes. -/
example : (∃ s, Star.new 3000 1 1 (.new [] (.spiral 10)) ⟨[], .spiral 7⟩ (.int 100) none none none none 0 0 = .ok s ∧ s.grid = .spiral 100) ∧
    ∃ e, Star.new 3000 1 1 (.new [] (.spiral 10)) ⟨[], .spiral 7⟩ (.tuple [.int 5, .int (-1)]) none none none none 0 0 = .error e :=
  ⟨(C66_grid 3000 1 1 _ _ (.int 100) none none none none 0 0).1 _ rfl,
    (C66_grid 3000 1 1 _ _ (.tuple [.int 5, .int (-1)]) none none none none 0 0).2 rfl⟩

/-- Non-trivial instance of C66: a rectangular star built from a spiral spot collection and generator. -/
example : ∃ s, Star.new 3000 1 1 (.new [] (.spiral 10)) ⟨[sampleFacula (.spiral 7)], .spiral 7⟩
    (.tuple [.int 3, .int 4]) none (some (SpotGenerator.off (.spiral 5))) none none 0 0 = .ok s ∧
    Unified s (.rect 3 4) := by
  obtain ⟨s, h, h', -⟩ := (C66_unified 3000 1 1 (.new [] (.spiral 10)) ⟨[sampleFacula (.spiral 7)], .spiral 7⟩
    (.tuple [.int 3, .int 4]) none (some (SpotGenerator.off (.spiral 5))) none none 0 0).1 (.rect 3 4) (.rect 3 4)
    rfl (by simp [Grid.ofObj])
  exact ⟨s, h, h'⟩

/-! ## C29 -/

/-- Operations on a star (spec): the public methods that change it. -/
inductive Spec.Op where
  | addSpot (new : List StarSpot)
  | birthSpots (time : ℝ) (k : ℕ) (d : (n : ℕ) → SpotDraws n)
  | matureSpots (coverage : ℝ) (draws : ℕ → SpotDraws 1 × Set.Ico (0 : ℝ) 1)
  | addFac (new : List Facula)
  | birthFaculae (time : ℝ) (k : ℕ) (d : (n : ℕ) → FaculaDraws n)
  | flares (duration : ℝ) (k : ℕ) (d : (n : ℕ) → FlareDraws n)
  | age (time : ℝ)

/-- Running one operation. -/
def Spec.runOp (s : Star) : Op → Py Star
  | .addSpot new => .ok (s.addSpot new)
  | .birthSpots t k d => s.birthSpots t k d
  | .matureSpots c d => s.generateMatureSpots c d
  | .addFac new => s.addFac new
  | .birthFaculae t k d => s.birthFaculae t k d
  | .flares t k d => s.getFlares t k d
  | .age t => .ok (s.age t)

theorem spot_frame_fl (s : StarSpot) (t : Fl) : (s.ageFl t).lat = s.lat ∧ (s.ageFl t).lon = s.lon ∧
    (s.ageFl t).grid = s.grid ∧ (s.ageFl t).r = s.r := by
  unfold StarSpot.ageFl
  simp only
  split_ifs <;> exact ⟨rfl, rfl, rfl, rfl⟩

theorem onGrid_ageFl {s : StarSpot} {g : Grid} (h : OnGrid s g) (t : Fl) : OnGrid (s.ageFl t) g := by
  obtain ⟨h1, h2, h3, h4⟩ := spot_frame_fl s t
  refine ⟨h3.trans h.1, ?_⟩
  rw [h4, h1, h2]
  exact h.2

theorem spot_frame (s : StarSpot) (t : ℝ) : (s.age t).lat = s.lat ∧ (s.age t).lon = s.lon ∧
    (s.age t).grid = s.grid ∧ (s.age t).r = s.r := by
  rw [StarSpot.age_eq]
  simp only
  split_ifs <;> exact ⟨rfl, rfl, rfl, rfl⟩

theorem onGrid_age {s : StarSpot} {g : Grid} (h : OnGrid s g) (t : ℝ) : OnGrid (s.age t) g := by
  obtain ⟨h1, h2, h3, h4⟩ := spot_frame s t
  refine ⟨h3.trans h.1, ?_⟩
  rw [h4, h1, h2]
  exact h.2

theorem generate_onGrid {G : SpotGenerator} {n : ℕ} {d : SpotDraws n} {l : List StarSpot}
    (h : G.generate n d = .ok l) : ∀ s ∈ l, OnGrid s G.grid := by
  unfold SpotGenerator.generate at h
  by_cases h1 : G.distAreaLogsigma < 0
  · rw [if_pos h1] at h; cases h
  rw [if_neg h1] at h
  cases ha : SpotGenerator.acceptRatios d with
  | none => rw [ha] at h; cases h
  | some q =>
    rw [ha] at h
    simp only at h
    split_ifs at h with h2
    simp only [Except.ok.injEq] at h
    subst h
    intro s hs
    rw [List.mem_ofFn] at hs
    obtain ⟨i, rfl⟩ := hs
    exact ⟨rfl, rfl⟩

theorem matureStep_onGrid {G : SpotGenerator} {d : SpotDraws 1} {x : Set.Ico (0 : ℝ) 1} {sp : StarSpot}
    (h : G.matureStep d x = .ok sp) : OnGrid sp G.grid := by
  unfold SpotGenerator.matureStep at h
  cases hl : G.generate 1 d with
  | error e => rw [hl] at h; cases h
  | ok l =>
    rw [hl] at h
    simp only [Except.bind] at h
    have hon := generate_onGrid hl
    cases l with
    | nil => cases h
    | cons s₀ l =>
      have h0 := hon s₀ (by simp)
      simp only at h
      by_cases hs : G.isStatic
      · rw [if_pos hs] at h
        simp only [Except.ok.injEq] at h
        rw [← h]
        exact ⟨h0.1, h0.2⟩
      · rw [if_neg hs] at h
        simp only [Except.ok.injEq] at h
        rw [← h]
        exact onGrid_ageFl h0 _

theorem generateMature_onGrid {G : SpotGenerator} {c R : ℝ} {draws : ℕ → SpotDraws 1 × Set.Ico (0 : ℝ) 1}
    {l : List StarSpot} (h : G.generateMature c R draws = .ok l) : ∀ s ∈ l, OnGrid s G.grid := by
  classical
  unfold SpotGenerator.generateMature at h
  by_cases h1 : 1 < c ∨ c < 0
  · rw [if_pos h1] at h; cases h
  rw [if_neg h1] at h
  by_cases h2 : ∃ fuel, (SpotGenerator.matureLoop G (4 * π * c) R draws fuel 0 (.fin 0) []).isSome
  · rw [dif_pos h2] at h
    have hsome := Nat.find_spec h2
    obtain ⟨r, hr⟩ := Option.isSome_iff_exists.mp hsome
    rw [hr] at h
    simp only [Option.getD_some] at h
    subst h
    obtain ⟨-, -, tl, htl, hs⟩ := matureLoop_spec G _ R draws _ 0 [] l (by
      have : countedAngle [] R = .fin 0 := rfl
      rw [this]; exact hr)
    intro s hsl
    rw [htl] at hsl
    obtain ⟨j, hj⟩ := hs s (by simpa using hsl)
    exact matureStep_onGrid hj
  · rw [dif_neg h2] at h; cases h

theorem addSpot_unified {s : Star} {g : Grid} (h : Unified s g) {new : List StarSpot}
    (hn : ∀ sp ∈ new, sp.r = ⟨g, fun p => Helpers.haversine sp.lat sp.lon (g.lat p) (g.lon p)⟩) :
    Unified (s.addSpot new) g := by
  refine ⟨h.star, h.spots, h.faculae, h.spotGen, h.facGen, ?_, h.eachFacula⟩
  intro sp hsp
  simp only [Star.addSpot, SpotCollection.addSpot, List.mem_append, List.mem_map] at hsp
  rcases hsp with hsp | ⟨t, ht, rfl⟩
  · exact h.eachSpot sp hsp
  · exact ⟨h.spots, hn t ht⟩

theorem addFac_unified {s s' : Star} {g : Grid} (h : Unified s g) {new : List Facula} (e : s.addFac new = .ok s') :
    Unified s' g := by
  unfold Star.addFac at e
  by_cases hc : ∀ f ∈ new, comparable f.grid s.faculae.grid
  · rw [(C39_add_faculae_partial s.faculae new).1 hc] at e
    simp only [Except.map, Except.ok.injEq] at e
    subst e
    refine ⟨h.star, h.spots, h.faculae, h.spotGen, h.facGen, h.eachSpot, ?_⟩
    intro f hf
    simp only [List.mem_append, List.mem_map] at hf
    rcases hf with hf | ⟨t, -, rfl⟩
    · exact h.eachFacula f hf
    · exact h.faculae
  · push Not at hc
    rw [(C39_add_faculae_partial s.faculae new).2 hc] at e
    cases e

/-- One operation keeps everything on the grid, provided spots added by hand were built on it. -/
theorem unified_step {s s' : Star} {g : Grid} (h : Unified s g) (op : Op) (e : runOp s op = .ok s')
    (hop : ∀ new, op = .addSpot new →
      ∀ sp ∈ new, sp.r = ⟨g, fun p => Helpers.haversine sp.lat sp.lon (g.lat p) (g.lon p)⟩) : Unified s' g := by
  cases op with
  | addSpot new =>
    simp only [runOp, Except.ok.injEq] at e
    subst e
    exact addSpot_unified h (hop new rfl)
  | birthSpots t k d =>
    simp only [runOp, Star.birthSpots] at e
    cases hb : s.spotGen.birth t s.radius k d with
    | error x => rw [hb] at e; cases e
    | ok new =>
      rw [hb] at e
      simp only [Except.map, Except.ok.injEq] at e
      subst e
      apply addSpot_unified h
      unfold SpotGenerator.birth at hb
      cases hp : Np.poisson (s.spotGen.nExpected t s.radius) k with
      | error x => rw [hp] at hb; cases hb
      | ok n =>
        rw [hp] at hb
        intro sp hsp
        have := generate_onGrid hb sp hsp
        rw [h.spotGen] at this
        exact this.2
  | matureSpots c d =>
    simp only [runOp, Star.generateMatureSpots] at e
    cases hb : s.spotGen.generateMature c s.radius d with
    | error x => rw [hb] at e; cases e
    | ok new =>
      rw [hb] at e
      simp only [Except.map, Except.ok.injEq] at e
      subst e
      apply addSpot_unified h
      intro sp hsp
      have := generateMature_onGrid hb sp hsp
      rw [h.spotGen] at this
      exact this.2
  | addFac new => exact addFac_unified h e
  | birthFaculae t k d =>
    simp only [runOp, Star.birthFaculae] at e
    cases hb : s.facGen.birth t s.radius k d with
    | error x => rw [hb] at e; cases e
    | ok new =>
      rw [hb] at e
      exact addFac_unified h e
  | flares t k d =>
    simp only [runOp, Star.getFlares] at e
    cases hb : s.flareGen.series t k d with
    | error x => rw [hb] at e; cases e
    | ok fl =>
      rw [hb] at e
      simp only [Except.map, Except.ok.injEq] at e
      subst e
      exact ⟨h.star, h.spots, h.faculae, h.spotGen, h.facGen, h.eachSpot, h.eachFacula⟩
  | age t =>
    simp only [runOp, Except.ok.injEq] at e
    subst e
    refine ⟨h.star, h.spots, h.faculae, h.spotGen, h.facGen, ?_, ?_⟩
    · intro sp hsp
      simp only [Star.age, SpotCollection.age, SpotCollection.clean, List.mem_filter, List.mem_map] at hsp
      obtain ⟨⟨t', ht', rfl⟩, -⟩ := hsp
      exact onGrid_age (h.eachSpot t' ht') t
    · intro f hf
      simp only [Star.age, FaculaCollection.age, FaculaCollection.clean, List.mem_filter, List.mem_map] at hf
      obtain ⟨⟨t', ht', rfl⟩, -⟩ := hf
      have := h.eachFacula t' ht'
      unfold Facula.age
      simp only
      split_ifs <;> exact this

/-- **C29** (partial) For every star and every history of operations in which spots added with `add_spot`
were measured on the star's grid, all spots stay measured on the star's grid (and everything else stays on it
too), so the surface map can always be computed.  Missing: spots added by hand that were built on another
grid – refuted by `C29_counterexample`. -/
theorem C29_one_grid_partial (s₀ s : Star) (g : Grid) (h₀ : Unified s₀ g) (ops : List Op)
    (hops : ∀ new, Op.addSpot new ∈ ops →
      ∀ sp ∈ new, sp.r = ⟨g, fun p => Helpers.haversine sp.lat sp.lon (g.lat p) (g.lon p)⟩)
    (h : ops.foldlM runOp s₀ = .ok s) :
    Unified s g ∧ ∃ m, s.map = .ok m := by
  have key : Unified s g := by
    induction ops generalizing s₀ with
    | nil =>
      simp only [List.foldlM_nil] at h
      change Except.ok s₀ = _ at h
      simp only [Except.ok.injEq] at h
      subst h; exact h₀
    | cons op ops ih =>
      rw [List.foldlM_cons] at h
      cases hs : runOp s₀ op with
      | error e => rw [hs] at h; cases h
      | ok s₁ =>
        rw [hs] at h
        refine ih s₁ (unified_step h₀ op hs ?_) (fun new hnew => hops new (by simp [hnew])) h
        intro new e
        exact hops new (by simp [e])
  refine ⟨key, ?_⟩
  unfold Star.map SpotCollection.mapPixels
  rw [mapFold_eq]
  · exact ⟨_, rfl⟩
  · intro sp hsp
    rw [key.spots]
    exact onGrid_iff.mp (key.eachSpot sp hsp)

theorem mapPixels_error {c : SpotCollection} {sp : StarSpot} {l : List StarSpot} (hc : c.spots = sp :: l)
    (h : sp.r.1 ≠ c.grid) (R T : ℝ) : c.mapPixels id R T = .error .valueError := by
  unfold SpotCollection.mapPixels
  rw [hc, List.foldlM_cons]
  unfold SpotCollection.mapStep
  rw [dif_neg h]
  rfl

/-- A spot used in the counterexample, built on grid `g`. -/
def Spec.sampleSpot (g : Grid) : StarSpot := .new 0 0 1 (.fin 1) 2500 2700 (.fin 5) true 1 1 g

/-- The full statement of C29 is false of the code: a spot built on another grid keeps its distances when it
is added, and the surface map cannot be computed any more. -/
theorem C29_counterexample :
    let s := (sampleStar (.rect 3 4) [] []).addSpot [sampleSpot (.spiral 5)]
    Unified (sampleStar (.rect 3 4) [] []) (.rect 3 4) ∧ (∀ sp ∈ s.spots.spots, sp.grid = .rect 3 4) ∧
      (∃ sp ∈ s.spots.spots, sp.r.1 = .spiral 5) ∧ s.map = .error .valueError := by
  intro s
  refine ⟨⟨rfl, rfl, rfl, rfl, rfl, by simp [sampleStar, SpotCollection.new, SpotCollection.setGridmaker],
    by simp [sampleStar]⟩, ?_, ?_, ?_⟩
  · intro sp hsp
    simp only [s, Star.addSpot, SpotCollection.addSpot, sampleStar, SpotCollection.new, SpotCollection.setGridmaker,
      List.map_nil, List.nil_append, List.map_cons, List.mem_singleton] at hsp
    subst hsp; rfl
  · exact ⟨_, List.mem_singleton.mpr rfl, rfl⟩
  · exact mapPixels_error rfl (by simp [sampleSpot, StarSpot.new, StarSpot.distances, s, Star.addSpot,
      SpotCollection.addSpot, sampleStar, SpotCollection.new, SpotCollection.setGridmaker]) s.radius s.teff

/-- Non-trivial instance of C29: add a spot built on the star's grid, then age. -/
example : ∃ s, [Op.addSpot [sampleSpot (.rect 3 4)], .age 1, .age 2].foldlM runOp (sampleStar (.rect 3 4) [] []) =
    .ok s ∧ Unified s (.rect 3 4) := by
  refine ⟨_, rfl, (C29_one_grid_partial (sampleStar (.rect 3 4) [] []) _ _ C29_counterexample.1
    [Op.addSpot [sampleSpot (.rect 3 4)], .age 1, .age 2] ?_ rfl).1⟩
  intro new hnew sp hsp
  simp at hnew
  subst hnew
  rw [List.mem_singleton] at hsp
  subst hsp
  rfl

/-! ## C67 -/

/-- The operations of C67: births of all kinds and aging. -/
def Spec.passive : Op → Prop
  | .birthSpots .. | .birthFaculae .. | .flares .. | .age _ => True
  | _ => False

/-- The time steps of a history. -/
def Spec.ages : List Op → List ℝ
  | [] => []
  | .age t :: l => t :: Spec.ages l
  | _ :: l => Spec.ages l

/-- The generators of a star that was built without generators. -/
def Spec.Quiet (s : Star) : Prop :=
  s.flareGen = .off ∧ (∃ g, s.spotGen = .off g) ∧ (∃ g, s.facGen = .off g)

theorem off_series (t : ℝ) (k : ℕ) (d : (n : ℕ) → FlareDraws n) : FlareGenerator.off.series t k d = .ok [] := by
  have h : FlareGenerator.off.nTotal t = .fin 0 := by
    unfold FlareGenerator.nTotal FlareGenerator.nexpGreaterThan FlareGenerator.frequencyGreaterThan
    have : Fl.rpow FlareGenerator.off.minEnergy FlareGenerator.off.alpha = .fin 0 := by
      norm_num [FlareGenerator.off, Fl.rpow]
    rw [this]; simp
  unfold FlareGenerator.series
  rw [h]
  simp [Np.poisson, bind, Except.bind, pure, Except.pure]

/-- **C67** A star built without generators stays quiet: every history of births and aging succeeds, creates
no spot, no facula and no flare; the spots and faculae are the original ones, aged by the time steps of the
history. -/
theorem C67_quiet (teff radius period : ℝ) (spots : SpotCollection) (faculae : FaculaCollection)
    (gp : Grid.PyVal) (gran : Option Granulation) (u1 u2 : ℝ) (s₀ : Star)
    (h₀ : Star.new teff radius period spots faculae gp none none none gran u1 u2 = .ok s₀) (ops : List Op)
    (hops : ∀ op ∈ ops, passive op) :
    ∃ s, ops.foldlM runOp s₀ = .ok s ∧ s.spots = (ages ops).foldl SpotCollection.age s₀.spots ∧
      s.faculae = (ages ops).foldl FaculaCollection.age s₀.faculae ∧
      s.spots.spots.length ≤ spots.spots.length ∧ s.faculae.faculae.length ≤ faculae.faculae.length ∧
      (∀ c, s.flares = some c → c.flares = []) := by
  have hq : Quiet s₀ ∧ s₀.flares = none ∧ s₀.spots.spots.length = spots.spots.length ∧
      s₀.faculae.faculae.length = faculae.faculae.length := by
    obtain ⟨obj, g, ho, hg⟩ := (C66_unified teff radius period spots faculae gp none none none gran u1 u2).2 s₀ h₀
    unfold Star.new at h₀
    rw [ho] at h₀
    simp only [bind, Except.bind] at h₀
    rw [hg] at h₀
    simp only [pure, Except.pure, Except.ok.injEq] at h₀
    subst h₀
    refine ⟨⟨rfl, ⟨g, rfl⟩, ⟨g, rfl⟩⟩, rfl, ?_, ?_⟩
    · simp [Star.setFacGrid, Star.setSpotGrid, SpotCollection.setGridmaker]
    · simp [Star.setFacGrid, Star.setSpotGrid, FaculaCollection.setGridmaker]
  obtain ⟨hq, hfl', hl1, hl2⟩ := hq
  have hfl : ∀ c, s₀.flares = some c → c.flares = [] := by rw [hfl']; simp
  rw [← hl1, ← hl2]
  clear h₀ hl1 hl2 hfl'
  induction ops generalizing s₀ with
  | nil => exact ⟨s₀, rfl, rfl, rfl, le_rfl, le_rfl, hfl⟩
  | cons op ops ih =>
    have hop := hops op (by simp)
    obtain ⟨q1, ⟨g1, q2⟩, ⟨g2, q3⟩⟩ := hq
    have step : ∃ s₁, ∃ ts : List ℝ, (∀ l, ages (op :: l) = ts ++ ages l) ∧ runOp s₀ op = .ok s₁ ∧ Quiet s₁ ∧ s₁.spots = ts.foldl SpotCollection.age s₀.spots ∧
        s₁.faculae = ts.foldl FaculaCollection.age s₀.faculae ∧
        s₁.spots.spots.length ≤ s₀.spots.spots.length ∧
        s₁.faculae.faculae.length ≤ s₀.faculae.faculae.length ∧ (∀ c, s₁.flares = some c → c.flares = []) := by
      cases op with
      | addSpot _ => exact hop.elim
      | matureSpots _ _ => exact hop.elim
      | addFac _ => exact hop.elim
      | birthSpots t k d =>
        refine ⟨s₀, [], fun _ => rfl, ?_, ⟨q1, ⟨g1, q2⟩, ⟨g2, q3⟩⟩, rfl, rfl, le_rfl, le_rfl, hfl⟩
        simp only [runOp, Star.birthSpots, q2, (C26_no_births t s₀.radius).2.2 g1 k d, Except.map, Except.ok.injEq]
        simp [Star.addSpot, SpotCollection.addSpot]
      | birthFaculae t k d =>
        refine ⟨s₀, [], fun _ => rfl, ?_, ⟨q1, ⟨g1, q2⟩, ⟨g2, q3⟩⟩, rfl, rfl, le_rfl, le_rfl, hfl⟩
        have := (C38_births_balance (FaculaGenerator.off g2) (by norm_num [FaculaGenerator.off])
          (by norm_num [FaculaGenerator.off]) (by norm_num [FaculaGenerator.off]) s₀.radius).2.2 g2 t k d
        simp only [runOp, Star.birthFaculae, q3, this, Except.bind, Star.addFac]
        rw [(C39_add_faculae_partial s₀.faculae []).1 (by simp)]
        simp only [Except.map, List.map_nil, List.append_nil, ← q3]
      | flares t k d =>
        refine ⟨{ s₀ with flares := some (FlareCollection.new []) }, [], fun _ => rfl, ?_, ⟨q1, ⟨g1, q2⟩, ⟨g2, q3⟩⟩, rfl, rfl, le_rfl,
          le_rfl, ?_⟩
        · simp only [runOp, Star.getFlares, q1, off_series, Except.map]
        · intro c hc
          simp only [Option.some_inj] at hc
          subst hc; rfl
      | age t =>
        refine ⟨s₀.age t, [t], fun _ => rfl, rfl, ⟨q1, ⟨g1, q2⟩, ⟨g2, q3⟩⟩, rfl, rfl, ?_, ?_, hfl⟩
        · simp only [Star.age, SpotCollection.age, SpotCollection.clean]
          exact (List.length_filter_le _ _).trans (by simp)
        · simp only [Star.age, FaculaCollection.age, FaculaCollection.clean]
          exact (List.length_filter_le _ _).trans (by simp)
    obtain ⟨s₁, ts, h0, h1, h2, h3, h4, h5, h6, h7⟩ := step
    obtain ⟨s, k1, k2, k3, k4, k5, k6⟩ := ih s₁ (fun x hx => hops x (by simp [hx])) h2 h7
    rw [h0]
    refine ⟨s, ?_, ?_, ?_, k4.trans h5, k5.trans h6, k6⟩
    · rw [List.foldlM_cons, h1]; exact k1
    · rw [List.foldl_append, ← h3]; exact k2
    · rw [List.foldl_append, ← h4]; exact k3

/-- Non-trivial instance of C67. -/
example : ∃ s₀ s, Star.new 3000 1 1 (.new [sampleSpot (.rect 3 4)] (.rect 3 4)) ⟨[], .rect 3 4⟩ (.tuple [.int 3, .int 4])
    none none none none 0 0 = .ok s₀ ∧
    [Op.birthSpots 5 3 plainDraws, .age 1, .birthSpots 7 2 plainDraws].foldlM runOp s₀ = .ok s ∧
    s.spots.spots.length ≤ 1 := by
  obtain ⟨s₀, h₀, -⟩ := (C66_unified 3000 1 1 (.new [sampleSpot (.rect 3 4)] (.rect 3 4)) ⟨[], .rect 3 4⟩
    (.tuple [.int 3, .int 4]) none none none none 0 0).1 (.rect 3 4) (.rect 3 4) rfl (by simp [Grid.ofObj])
  obtain ⟨s, h1, -, -, h2, -⟩ := C67_quiet _ _ _ _ _ _ _ _ _ s₀ h₀
    [Op.birthSpots 5 3 plainDraws, .age 1, .birthSpots 7 2 plainDraws] (by simp [passive])
  exact ⟨s₀, s, h₀, h1, h2⟩

/-! ## C68 -/

/-- **C68** (partial) When no object occurs twice in the collection, aging replaces every object of the
collection by the object aged once, and touches no other object; in general an object that occurs `n` times is
aged `n` times.  Missing: an object held twice must be aged once – refuted by `C68_counterexample`. -/
theorem C68_age_once_partial {α : Type} (step : α → α) (refs : List ℕ) (h : Heap α) (a : ℕ) :
    Heap.ageAll step refs h a = step^[refs.count a] (h a) ∧
    (refs.Nodup → (a ∈ refs → Heap.ageAll step refs h a = step (h a)) ∧
      (a ∉ refs → Heap.ageAll step refs h a = h a)) := by
  have key : ∀ (refs : List ℕ) (h : Heap α), Heap.ageAll step refs h a = step^[refs.count a] (h a) := by
    intro refs
    induction refs with
    | nil => intro h; rfl
    | cons b l ih =>
      intro h
      change Heap.ageAll step l (h.update b (step (h b))) a = _
      rw [ih]
      by_cases hb : b = a
      · subst hb
        rw [List.count_cons_self, Function.iterate_succ_apply]
        simp [Heap.update]
      · rw [List.count_cons_of_ne hb]
        simp [Heap.update, Ne.symm hb]
  refine ⟨key refs h, fun hn => ⟨fun ha => ?_, fun ha => ?_⟩⟩
  · rw [key, List.count_eq_one_of_mem hn ha]; rfl
  · rw [key, List.count_eq_zero_of_not_mem ha]; rfl

/-- The full statement of C68 is false of the code: a spot object held twice by the collection is aged twice
(here a spot of area `10` that loses `1` per day; after one day its area should be `9`). -/
theorem C68_counterexample :
    let sp : StarSpot := .new 0 0 100 (.fin 10) 2500 2700 (.fin 5) false 1 1 (.rect 3 4)
    let h := Heap.ageAll (fun s : StarSpot => s.age 1) [0, 0] (fun _ => sp)
    (sp.age 1).area = .fin 9 ∧ (h 0).area = .fin 8 := by
  intro sp h
  have h1 : ∀ a : ℝ, (StarSpot.new 0 0 100 (.fin a) 2500 2700 (.fin 5) false 1 1 (.rect 3 4)).age 1 =
      .new 0 0 100 (.fin (a - 1)) 2500 2700 (.fin 5) false 1 1 (.rect 3 4) := by
    intro a
    norm_num [StarSpot.age_eq, StarSpot.new]
  refine ⟨?_, ?_⟩
  · rw [h1]; norm_num [StarSpot.new]
  · have : h 0 = (sp.age 1).age 1 := (C68_age_once_partial _ [0, 0] _ 0).1
    rw [this, h1, h1]; norm_num [StarSpot.new]

/-- Non-trivial instance of C68: two different objects at addresses `0` and `3`. -/
example (x y : StarSpot) (t : ℝ) :
    Heap.ageAll (fun s : StarSpot => s.age t) [0, 3] (fun a => if a = 0 then x else y) 3 = y.age t :=
  ((C68_age_once_partial _ _ _ 3).2 (by simp)).1 (by simp)

end Vsm
