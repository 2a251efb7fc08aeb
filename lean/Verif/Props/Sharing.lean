import Verif.Props.World
import Verif.Props.Broadcast

/-!
# C136, C137: objects shared between stars

What happens when two stars are built on the same collection, or with the same generator.
-/

namespace Vsm
open Spec World

/-- `Star(...)` in full when the size of the grid is legal. -/
theorem newStar_eq (W : World) (x : StarArgs) {o : Grid.Obj} {g : Grid} (ho : Grid.Obj.new x.gridParams = .ok o)
    (hg : Grid.ofObj o = .ok g) :
    ∃ sg fg H K n, W.next ≤ n ∧ W.newStar x = .ok
      { spot := Heap.ageAll (fun s => { s with grid := g }) (W.spotColl x.spots).refs
          (Heap.ageAll (·.setGridmaker g) (W.spotColl x.spots).refs W.spot)
        facula := Heap.ageAll (fun s => { s with grid := g }) (W.faculaColl x.faculae).refs
          (Heap.ageAll (fun s => { s with grid := g }) (W.faculaColl x.faculae).refs W.facula)
        spotColl := W.spotColl.update x.spots { W.spotColl x.spots with grid := g }
        faculaColl := W.faculaColl.update x.faculae { W.faculaColl x.faculae with grid := g }
        spotGen := H, facGen := K, next := n
        stars := W.stars ++ [{ teff := x.teff, radius := x.radius, period := x.period, spots := x.spots, faculae := x.faculae, grid := g, flareGen := x.flareGen.getD FlareGenerator.off, spotGen := sg, facGen := fg, granulation := some (x.granulation.getD Granulation.off), u1 := x.u1, u2 := x.u2, flares := none }] } ∧
      (∀ a < W.next, H a = if x.spotGen = some a then { W.spotGen a with grid := g } else W.spotGen a) ∧
      (∀ a < W.next, K a = if x.facGen = some a then { W.facGen a with grid := g } else W.facGen a) ∧
      (∀ a, x.spotGen = some a → sg = a) ∧ (∀ a, x.facGen = some a → fg = a) ∧
      (x.spotGen = none → W.next ≤ sg ∧ sg < n ∧ H sg = SpotGenerator.off g) ∧
      (x.facGen = none → W.next ≤ fg ∧ fg < n ∧ K fg = FaculaGenerator.off g) := by
  have r1 : ∀ (f : StarSpot → StarSpot) (h : Heap StarSpot), Heap.ageAll f ((W.spotColl.update x.spots { W.spotColl x.spots with grid := g }) x.spots).refs h =
      Heap.ageAll f (W.spotColl x.spots).refs h := by intro f h; rw [update_self]
  have r2 : ∀ (f : Facula → Facula) (h : Heap Facula), Heap.ageAll f ((W.faculaColl.update x.faculae { W.faculaColl x.faculae with grid := g }) x.faculae).refs h =
      Heap.ageAll f (W.faculaColl x.faculae).refs h := by intro f h; rw [update_self]
  unfold World.newStar
  rw [ho]
  simp only [bind, Except.bind, hg]
  obtain ⟨tf, rd, pd, sp, fa, gp, fl, sG, fG, gr, u1, u2⟩ := x
  have hlt : ∀ {a b : ℕ}, a < b → a ≠ b := fun h => Nat.ne_of_lt h
  cases sG with
  | none =>
    cases fG with
    | none =>
      refine ⟨W.next, W.next + 1, W.spotGen.update W.next (.off g), W.facGen.update (W.next + 1) (.off g), W.next + 2, by omega, ?_, ?_, ?_, ?_, ?_, ?_, ?_⟩
      · simp only [World.takeSpotGen, World.takeFacGen, World.setSpotGrid, World.setFacGrid, World.newSpotGen, World.newFacGen, World.setSpotCollGrid, World.setFaculaCollGrid, r1, r2]
        rfl
      · intro a ha; rw [update_off _ _ (hlt ha)]; simp
      · intro a ha; rw [update_off _ _ (hlt (by omega))]; simp
      · simp
      · simp
      · intro _; exact ⟨le_rfl, by omega, update_self _ _ _⟩
      · intro _; exact ⟨by omega, by omega, update_self _ _ _⟩
    | some b =>
      refine ⟨W.next, b, W.spotGen.update W.next (.off g), W.facGen.update b { W.facGen b with grid := g }, W.next + 1, by omega, ?_, ?_, ?_, ?_, ?_, ?_, ?_⟩
      · simp only [World.takeSpotGen, World.takeFacGen, World.setSpotGrid, World.setFacGrid, World.newSpotGen, World.setSpotCollGrid, World.setFaculaCollGrid, unify_eq, Except.map, r1, r2]
        rfl
      · intro a ha; rw [update_off _ _ (hlt ha)]; simp
      · intro a ha
        by_cases e : a = b
        · subst e; rw [update_self, if_pos rfl]
        · rw [update_off _ _ e, if_neg (by simpa using Ne.symm e)]
      · simp
      · simp
      · intro _; exact ⟨le_rfl, by omega, update_self _ _ _⟩
      · simp
  | some c =>
    cases fG with
    | none =>
      refine ⟨c, W.next, W.spotGen.update c { W.spotGen c with grid := g }, W.facGen.update W.next (.off g), W.next + 1, by omega, ?_, ?_, ?_, ?_, ?_, ?_, ?_⟩
      · simp only [World.takeSpotGen, World.takeFacGen, World.setSpotGrid, World.setFacGrid, World.newFacGen, World.setSpotCollGrid, World.setFaculaCollGrid, unify_eq, Except.map, r1, r2]
        rfl
      · intro a ha
        by_cases e : a = c
        · subst e; rw [update_self, if_pos rfl]
        · rw [update_off _ _ e, if_neg (by simpa using Ne.symm e)]
      · intro a ha; rw [update_off _ _ (hlt ha)]; simp
      · simp
      · simp
      · simp
      · intro _; exact ⟨le_rfl, by omega, update_self _ _ _⟩
    | some b =>
      refine ⟨c, b, W.spotGen.update c { W.spotGen c with grid := g }, W.facGen.update b { W.facGen b with grid := g }, W.next, le_rfl, ?_, ?_, ?_, ?_, ?_, ?_, ?_⟩
      · simp only [World.takeSpotGen, World.takeFacGen, World.setSpotGrid, World.setFacGrid, World.setSpotCollGrid, World.setFaculaCollGrid, unify_eq, Except.map, r1, r2]
        rfl
      · intro a ha
        by_cases e : a = c
        · subst e; rw [update_self, if_pos rfl]
        · rw [update_off _ _ e, if_neg (by simpa using Ne.symm e)]
      · intro a ha
        by_cases e : a = b
        · subst e; rw [update_self, if_pos rfl]
        · rw [update_off _ _ e, if_neg (by simpa using Ne.symm e)]
      · simp
      · simp
      · simp
      · simp

theorem newStar_ok {W W' : World} {x : StarArgs} (h : W.newStar x = .ok W') :
    ∃ o g, Grid.Obj.new x.gridParams = .ok o ∧ Grid.ofObj o = .ok g := by
  unfold World.newStar at h
  cases ho : Grid.Obj.new x.gridParams with
  | error e => rw [ho] at h; cases h
  | ok o =>
    cases hg : Grid.ofObj o with
    | error e => rw [ho] at h; simp only [bind, Except.bind, hg] at h; cases h
    | ok g => exact ⟨o, g, rfl, hg⟩

/-- The same references, the same grid. -/
def SameRefs (s s' : StarObj) : Prop :=
  s'.spots = s.spots ∧ s'.faculae = s.faculae ∧ s'.spotGen = s.spotGen ∧ s'.facGen = s.facGen ∧ s'.grid = s.grid

theorem addFaculae_stars {W W' : World} {c : ℕ} {l : List ℕ} (h : W.addFaculae c l = .ok W') : W'.stars = W.stars := by
  unfold World.addFaculae at h
  cases hq : adoptFaculae (W.faculaColl c).grid l W.facula with
  | error e => rw [hq] at h; cases h
  | ok f => rw [hq] at h; cases h; rfl

theorem run_refs {W W' : World} {c : Cmd} (h : W.run c = .ok W') (i : ℕ) (s : StarObj) (hs : W.stars[i]? = some s) :
    ∃ s', W'.stars[i]? = some s' ∧ SameRefs s s' := by
  have same : W'.stars = W.stars → ∃ s', W'.stars[i]? = some s' ∧ SameRefs s s' := fun e =>
    ⟨s, by rw [e]; exact hs, rfl, rfl, rfl, rfl, rfl⟩
  cases c with
  | newSpot s => cases h; exact same rfl
  | newFacula f => cases h; exact same rfl
  | newSpotGen G => cases h; exact same rfl
  | newFacGen G => cases h; exact same rfl
  | newSpotColl r g => cases h; exact same rfl
  | newFaculaColl r g => cases h; exact same rfl
  | newStar x =>
    change W.newStar x = _ at h
    obtain ⟨o, g, ho, hg⟩ := newStar_ok h
    obtain ⟨sg, fg, H, K, n, -, e, -⟩ := newStar_eq W x ho hg
    rw [h] at e
    cases e
    exact ⟨s, (List.getElem?_append_left (List.getElem?_eq_some_iff.1 hs).1).trans hs, rfl, rfl, rfl, rfl, rfl⟩
  | on j k =>
    unfold World.run at h
    cases hj : W.stars[j]? with
    | none => simp only [hj] at h; cases h
    | some t =>
      simp only [hj] at h
      cases k with
      | addSpot r => cases h; exact same rfl
      | age x => cases h; exact same rfl
      | birthSpots x m d =>
        simp only [World.call] at h
        cases hq : (W.spotGen t.spotGen).birth x t.radius m d with
        | error e => rw [hq] at h; cases h
        | ok l => rw [hq] at h; cases h; exact same rfl
      | matureSpots x d =>
        simp only [World.call] at h
        cases hq : (W.spotGen t.spotGen).generateMature x t.radius d with
        | error e => rw [hq] at h; cases h
        | ok l => rw [hq] at h; cases h; exact same rfl
      | addFac r => exact same (addFaculae_stars h)
      | birthFaculae x m d =>
        simp only [World.call] at h
        cases hq : (W.facGen t.facGen).birth x t.radius m d with
        | error e => rw [hq] at h; cases h
        | ok l => rw [hq] at h; exact same ((addFaculae_stars h).trans rfl)
      | flares x m d =>
        simp only [World.call] at h
        cases hq : t.flareGen.series x m d with
        | error e => rw [hq] at h; cases h
        | ok l =>
          rw [hq] at h; cases h
          by_cases e : j = i
          · subst e
            rw [hj] at hs
            cases hs
            exact ⟨_, List.getElem?_set_self (List.getElem?_eq_some_iff.1 hj).1, rfl, rfl, rfl, rfl, rfl⟩
          · exact ⟨s, (List.getElem?_set_ne e).trans hs, rfl, rfl, rfl, rfl, rfl⟩

theorem program_refs (cs : List Cmd) : ∀ {W W' : World}, cs.foldlM World.run W = .ok W' → ∀ (i : ℕ) (s : StarObj), W.stars[i]? = some s →
    ∃ s', W'.stars[i]? = some s' ∧ SameRefs s s' := by
  induction cs with
  | nil => intro W W' h i s hs; cases h; exact ⟨s, hs, rfl, rfl, rfl, rfl, rfl⟩
  | cons c cs ih =>
    intro W W' h i s hs
    rw [List.foldlM_cons] at h
    cases hc : W.run c with
    | error e => rw [hc] at h; cases h
    | ok V =>
      rw [hc] at h
      obtain ⟨v, hv, a⟩ := run_refs hc i s hs
      obtain ⟨s', h', b⟩ := ih h i v hv
      exact ⟨s', h', b.1.trans a.1, b.2.1.trans a.2.1, b.2.2.1.trans a.2.2.1, b.2.2.2.1.trans a.2.2.2.1, b.2.2.2.2.trans a.2.2.2.2⟩

/-! ## C136 -/

/-- **C136** Stars built on the same collection show the same features for ever, whatever program runs, polite or
not. -/
theorem C136_together (cs : List Cmd) (W W' : World) (h : cs.foldlM World.run W = .ok W') (i j : ℕ) (s t : StarObj)
    (hi : W.stars[i]? = some s) (hj : W.stars[j]? = some t) :
    ∃ S T, W'.look i = some S ∧ W'.look j = some T ∧ (s.spots = t.spots → S.spots = T.spots) ∧
      (s.faculae = t.faculae → S.faculae = T.faculae) := by
  obtain ⟨s', h1, a1, a2, -⟩ := program_refs cs h i s hi
  obtain ⟨t', h2, b1, b2, -⟩ := program_refs cs h j t hj
  refine ⟨W'.view s', W'.view t', by simp [World.look, h1], by simp [World.look, h2], fun e => ?_, fun e => ?_⟩
  · change W'.spotsAt s'.spots = W'.spotsAt t'.spots
    rw [a1, b1, e]
  · change W'.faculaeAt s'.faculae = W'.faculaeAt t'.faculae
    rw [a2, b2, e]

theorem ageSpots_at (W : World) (c : ℕ) (x : ℝ) (hn : (W.spotColl c).refs.Nodup) :
    (W.ageSpots c x).spotsAt c = (W.spotsAt c).age x ∧ ((W.ageSpots c x).spotColl c).refs.Nodup := by
  constructor
  · simp only [World.ageSpots, World.spotsAt, update_self, SpotCollection.age, SpotCollection.clean]
    rw [clean_map, ageAll_map _ _ hn]
  · change (Heap.update W.spotColl c _ c).refs.Nodup
    rw [update_self]
    exact hn.filter _

theorem ageFaculae_at (W : World) (c : ℕ) (x : ℝ) (hn : (W.faculaColl c).refs.Nodup) :
    (W.ageFaculae c x).faculaeAt c = (W.faculaeAt c).age x ∧ ((W.ageFaculae c x).faculaColl c).refs.Nodup := by
  constructor
  · simp only [World.ageFaculae, World.faculaeAt, update_self, FaculaCollection.age, FaculaCollection.clean]
    rw [clean_map, ageAll_map _ _ hn]
  · change (Heap.update W.faculaColl c _ c).refs.Nodup
    rw [update_self]
    exact hn.filter _

/-- **C136** (aging) When two stars share their collections, letting `x` days pass on the one and `y` on the other
ages the features of both by `x` and then by `y`. -/
theorem C136_aged_twice (W : World) (i j : ℕ) (s t : StarObj) (hi : W.stars[i]? = some s) (hj : W.stars[j]? = some t)
    (h1 : s.spots = t.spots) (h2 : s.faculae = t.faculae) (n1 : (W.spotColl s.spots).refs.Nodup)
    (n2 : (W.faculaColl s.faculae).refs.Nodup) (x y : ℝ) :
    ∃ W', [Cmd.on i (.age x), .on j (.age y)].foldlM World.run W = .ok W' ∧
      ∃ S T, W'.look i = some S ∧ W'.look j = some T ∧
      S.spots = ((W.view s).spots.age x).age y ∧ T.spots = ((W.view s).spots.age x).age y ∧
      S.faculae = ((W.view s).faculae.age x).age y ∧ T.faculae = ((W.view s).faculae.age x).age y := by
  set W₁ := (W.ageSpots s.spots x).ageFaculae s.faculae x with hW₁
  set W₂ := (W₁.ageSpots t.spots y).ageFaculae t.faculae y with hW₂
  have e1 : W.run (.on i (.age x)) = .ok W₁ := by simp only [World.run, hi, World.call, hW₁]
  have e2 : W₁.run (.on j (.age y)) = .ok W₂ := by
    have : W₁.stars[j]? = some t := hj
    simp only [World.run, this, World.call, hW₂]
  obtain ⟨a1, a2⟩ := ageSpots_at W s.spots x n1
  obtain ⟨b1, b2⟩ := ageFaculae_at (W.ageSpots s.spots x) s.faculae x n2
  obtain ⟨c1, c2⟩ := ageSpots_at W₁ s.spots y a2
  obtain ⟨d1, d2⟩ := ageFaculae_at (W₁.ageSpots s.spots y) s.faculae y b2
  have k1 : W₂.spotsAt s.spots = ((W.view s).spots.age x).age y := by
    rw [hW₂, ← h1]
    change (W₁.ageSpots s.spots y).spotsAt s.spots = _
    rw [c1]
    change ((W.ageSpots s.spots x).spotsAt s.spots).age y = _
    rw [a1]; rfl
  have k2 : W₂.faculaeAt s.faculae = ((W.view s).faculae.age x).age y := by
    rw [hW₂, ← h1, ← h2, d1]
    change (((W.ageSpots s.spots x).ageFaculae s.faculae x).faculaeAt s.faculae).age y = _
    rw [b1]; rfl
  refine ⟨W₂, by rw [List.foldlM_cons, e1]; change [_].foldlM World.run W₁ = _; rw [List.foldlM_cons, e2]; rfl, W₂.view s, W₂.view t, ?_, ?_, k1, ?_, k2, ?_⟩
  · have : W₂.stars[i]? = some s := hi
    simp [World.look, this]
  · have : W₂.stars[j]? = some t := hj
    simp [World.look, this]
  · change W₂.spotsAt t.spots = _
    rw [← h1, k1]
  · change W₂.faculaeAt t.faculae = _
    rw [← h2, k2]

theorem ageAll_fixed {α : Type} (step : α → α) (refs : List ℕ) (h : Heap α) (hf : ∀ a ∈ refs, step (h a) = h a) :
    Heap.ageAll step refs h = h := by
  funext a
  by_cases ha : a ∈ refs
  · rw [(C68_age_once_partial step refs h a).1]
    exact Function.iterate_fixed (hf a ha) _
  · exact ageAll_off step h ha

theorem ageAll_made {α : Type} {step : α → α} {refs : List ℕ} {h : Heap α} {P : α → Prop} (hP : ∀ x, P (step x)) {a : ℕ} (ha : a ∈ refs) :
    P (Heap.ageAll step refs h a) := by
  rw [(C68_age_once_partial step refs h a).1]
  obtain ⟨n, hn⟩ := Nat.exists_eq_succ_of_ne_zero (List.count_pos_iff.mpr ha).ne'
  rw [hn, Function.iterate_succ_apply']
  exact hP _

theorem ageAll_kept {α : Type} {step : α → α} {refs : List ℕ} {h : Heap α} {P : α → Prop} (hP : ∀ x, P x → P (step x)) {a : ℕ} (ha : P (h a)) :
    P (Heap.ageAll step refs h a) := by
  rw [(C68_age_once_partial step refs h a).1]
  generalize refs.count a = n
  induction n with
  | zero => exact ha
  | succ n ih => rw [Function.iterate_succ_apply']; exact hP _ ih

/-- **C136** (another grid) When a second star is built on the spot collection of a star, with a grid whose arrays numpy
cannot combine with those of the first, the first star can no longer be observed at all: every call of `calc_coverage`
raises (for the grids that can be combined see C148).  With the same grid nothing changes for a star that is in order. -/
theorem C136_second_star (W W' : World) (x : StarArgs) (h : W.run (.newStar x) = .ok W') (i : ℕ) (s : StarObj)
    (hi : W.stars[i]? = some s) (hx : x.spots = s.spots) (o : Grid.Obj) (g : Grid)
    (ho : Grid.Obj.new x.gridParams = .ok o) (hg : Grid.ofObj o = .ok g) :
    (¬ Fit g s.grid → Nonempty g.Pix → Nonempty s.grid.Pix → ∃ S, W'.look i = some S ∧
      ∀ lat0 lon0 gran orbit rad phase incl, ∃ e, S.calcCoverageB lat0 lon0 gran orbit rad phase incl = .error e) ∧
    (Unified (W.view s) g → x.faculae = s.faculae → s.spotGen < W.next → s.facGen < W.next →
      W'.look i = W.look i) := by
  obtain ⟨sg, fg, H, K, n, -, e, g1, g2, -⟩ := newStar_eq W x ho hg
  have E := Except.ok.inj (h.symm.trans e)
  have hv : W'.stars[i]? = some s := by
    rw [E]
    exact (List.getElem?_append_left (List.getElem?_eq_some_iff.1 hi).1).trans hi
  have e1 : W'.spotColl s.spots = { W.spotColl s.spots with grid := g } := by
    rw [E, ← hx]
    exact update_self _ _ _
  refine ⟨fun hne n1 n2 => ⟨W'.view s, by simp [World.look, hv], ?_⟩, fun hu hf l1 l2 => ?_⟩
  · have hr : ∀ a ∈ (W'.spotColl s.spots).refs, (W'.spot a).r.1 = g := by
      rw [e1, E, ← hx]
      intro a ha
      exact ageAll_kept (step := fun q : StarSpot => { q with grid := g }) (P := fun q : StarSpot => q.r.1 = g) (fun _ h => h)
        (ageAll_made (step := fun q : StarSpot => q.setGridmaker g) (P := fun q : StarSpot => q.r.1 = g) (fun _ => rfl) ha)
    have hG : (W'.view s).spots.grid = g := by
      change (W'.spotColl s.spots).grid = g
      rw [e1]
    refine refused (G := g) (G' := s.grid) ?_ (by simp [arrayGrids, hG]) (by simp [arrayGrids, World.view]) hne
    intro G hG'
    simp only [arrayGrids, List.mem_cons, hG, List.mem_map] at hG'
    rcases hG' with rfl | rfl | ⟨sp, hsp, rfl⟩
    · exact n2
    · exact n1
    · obtain ⟨a, ha, rfl⟩ := List.mem_map.mp hsp
      rw [hr a ha]
      exact n1
  · have e2 : W'.faculaColl s.faculae = { W.faculaColl s.faculae with grid := g } := by
      rw [E, ← hf]
      exact update_self _ _ _
    have u1 : ∀ a ∈ (W.spotColl s.spots).refs, OnGrid (W.spot a) g := fun a ha => hu.eachSpot _ (List.mem_map_of_mem ha)
    have u2 : ∀ a ∈ (W.faculaColl s.faculae).refs, (W.facula a).grid = g := fun a ha => hu.eachFacula _ (List.mem_map_of_mem ha)
    have f1 : W'.spot = W.spot := by
      rw [E]
      simp only
      rw [hx, ageAll_fixed (fun s : StarSpot => s.setGridmaker g) _ _ fun a ha => onGrid_iff.1 (u1 a ha)]
      exact ageAll_fixed _ _ _ fun a ha => by rw [← (u1 a ha).1]
    have f2 : W'.facula = W.facula := by
      rw [E]
      simp only
      have k : Heap.ageAll (fun s : Facula => { s with grid := g }) (W.faculaColl x.faculae).refs W.facula = W.facula :=
        ageAll_fixed _ _ _ fun a ha => by rw [hf] at ha; rw [← u2 a ha]
      rw [k, k]
    unfold World.look
    rw [hv, hi]
    refine congrArg some ?_
    apply view_eq
    · unfold World.spotsAt
      rw [e1, f1, ← (show (W.spotColl s.spots).grid = g from hu.spots)]
    · unfold World.faculaeAt
      rw [e2, f2, ← (show (W.faculaColl s.faculae).grid = g from hu.faculae)]
    · rw [E]
      simp only
      rw [g1 _ l1]
      split_ifs
      · have := hu.spotGen
        change (W.spotGen s.spotGen).grid = g at this
        rw [← this]
      · rfl
    · rw [E]
      simp only
      rw [g2 _ l2]
      split_ifs
      · have := hu.facGen
        change (W.facGen s.facGen).grid = g at this
        rw [← this]
      · rfl

/-! ## C137 -/

theorem generate_cached {G : SpotGenerator} {n : ℕ} {d : SpotDraws n} {l : List StarSpot} (h : G.generate n d = .ok l) :
    ∀ sp ∈ l, sp.r.1 = G.grid := by
  unfold SpotGenerator.generate at h
  by_cases h1 : G.distAreaLogsigma < 0
  · rw [if_pos h1] at h; cases h
  · rw [if_neg h1] at h
    cases ha : SpotGenerator.acceptRatios d with
    | none => simp only [ha] at h; cases h
    | some r =>
      simp only [ha] at h
      by_cases h2 : G.distribution = .other
      · rw [if_pos h2] at h; cases h
      · rw [if_neg h2] at h
        cases h
        intro sp hsp
        obtain ⟨i, rfl⟩ := (List.mem_ofFn' _ _).1 hsp
        rfl

theorem birth_cached {G : SpotGenerator} {t r : ℝ} {k : ℕ} {d : (n : ℕ) → SpotDraws n} {l : List StarSpot}
    (h : G.birth t r k d = .ok l) : ∀ sp ∈ l, sp.r.1 = G.grid := by
  unfold SpotGenerator.birth at h
  cases hq : Np.poisson (G.nExpected t r) k with
  | error e => rw [hq] at h; cases h
  | ok n => rw [hq] at h; exact generate_cached h

theorem addNewSpots_at (W : World) (c : ℕ) (l : List StarSpot) :
    ((W.addNewSpots c l).spotsAt c).grid = (W.spotColl c).grid ∧
    ((W.addNewSpots c l).spotsAt c).spots.length = (W.spotColl c).refs.length + l.length ∧
    ∀ sp ∈ l, { sp with grid := (W.spotColl c).grid } ∈ ((W.addNewSpots c l).spotsAt c).spots := by
  have e : (W.addNewSpots c l).spotColl c = { W.spotColl c with refs := (W.spotColl c).refs ++ List.range' W.next l.length } :=
    update_self _ _ _
  refine ⟨?_, ?_, fun sp hsp => ?_⟩
  · unfold World.spotsAt; rw [e]
  · unfold World.spotsAt; rw [e]; simp
  · unfold World.spotsAt
    rw [e]
    simp only [List.map_append]
    refine List.mem_append_right _ ?_
    have hh : (W.addNewSpots c l).spot = Heap.ageAll (fun s => { s with grid := (W.spotColl c).grid })
      (List.range' W.next l.length) (W.spot.alloc W.next l) := rfl
    rw [hh, ageAll_map _ _ List.nodup_range', alloc_map]
    exact List.mem_map_of_mem hsp

theorem addNewSpots_first (W : World) (c : ℕ) (l : List StarSpot) (h : (W.spotColl c).refs = []) :
    ((W.addNewSpots c l).spotsAt c).spots = l.map fun sp => { sp with grid := (W.spotColl c).grid } := by
  have e : (W.addNewSpots c l).spotColl c = { W.spotColl c with refs := (W.spotColl c).refs ++ List.range' W.next l.length } :=
    update_self _ _ _
  unfold World.spotsAt
  rw [e, h]
  have hh : (W.addNewSpots c l).spot = Heap.ageAll (fun s => { s with grid := (W.spotColl c).grid })
    (List.range' W.next l.length) (W.spot.alloc W.next l) := rfl
  rw [List.nil_append, hh, ageAll_map _ _ List.nodup_range', alloc_map]

/-- **C137** When a second star is built with the spot generator of a star, with a grid whose arrays numpy cannot combine
with those of the first, the spots the first star is given next carry distances on the wrong grid, and it can no longer
be observed: every call of `calc_coverage` raises (for the grids that can be combined see C148). -/
theorem C137_spots (W W' W'' : World) (x : StarArgs) (h : W.run (.newStar x) = .ok W') (i : ℕ) (s : StarObj)
    (hi : W.stars[i]? = some s) (hx : x.spotGen = some s.spotGen) (hl : s.spotGen < W.next) (hc : x.spots ≠ s.spots)
    (o : Grid.Obj) (g : Grid) (ho : Grid.Obj.new x.gridParams = .ok o) (hg : Grid.ofObj o = .ok g)
    (hne : ¬ Fit g (W.view s).spots.grid) (t : ℝ) (k : ℕ) (d : (n : ℕ) → SpotDraws n)
    (h' : W'.run (.on i (.birthSpots t k d)) = .ok W'') :
    ∃ S, W''.look i = some S ∧ ((W.view s).spots.spots.length < S.spots.spots.length → (∀ G ∈ arrayGrids S, Nonempty G.Pix) →
      ∀ lat0 lon0 gran orbit rad phase incl, ∃ e, S.calcCoverageB lat0 lon0 gran orbit rad phase incl = .error e) := by
  obtain ⟨sg, fg, H, K, n, -, e, g1, g2, -⟩ := newStar_eq W x ho hg
  have E := Except.ok.inj (h.symm.trans e)
  have hv : W'.stars[i]? = some s := by
    rw [E]
    exact (List.getElem?_append_left (List.getElem?_eq_some_iff.1 hi).1).trans hi
  have e1 : W'.spotColl s.spots = W.spotColl s.spots := by
    rw [E]
    exact update_off _ _ (Ne.symm hc)
  have e2 : (W'.spotGen s.spotGen).grid = g := by
    rw [E]
    simp only
    rw [g1 _ hl, if_pos hx]
  simp only [World.run, hv, World.call] at h'
  cases hb : (W'.spotGen s.spotGen).birth t s.radius k d with
  | error e => rw [hb] at h'; cases h'
  | ok l =>
    rw [hb] at h'
    have E' : W'' = W'.addNewSpots s.spots l := (Except.ok.inj h').symm
    have hv' : W''.stars[i]? = some s := by rw [E']; exact hv
    refine ⟨W''.view s, by simp [World.look, hv'], fun hlen hpix => ?_⟩
    obtain ⟨a1, a2, a3⟩ := addNewSpots_at W' s.spots l
    suffices hgoal : ∃ sp ∈ (W''.view s).spots.spots, ¬ Fit sp.r.1 (W''.view s).spots.grid by
      obtain ⟨sp, hsp, hfit⟩ := hgoal
      exact refused hpix (G := sp.r.1) (G' := (W''.view s).spots.grid)
        (List.mem_cons_of_mem _ (List.mem_cons_of_mem _ (List.mem_map_of_mem hsp))) (List.mem_cons_of_mem _ List.mem_cons_self) hfit
    change (W.spotsAt s.spots).spots.length < (W''.spotsAt s.spots).spots.length at hlen
    change ∃ sp ∈ (W''.spotsAt s.spots).spots, ¬ Fit sp.r.1 (W''.spotsAt s.spots).grid
    rw [E'] at hlen ⊢
    rw [a2, e1] at hlen
    rw [a1, e1]
    cases l with
    | nil => simp [World.spotsAt] at hlen
    | cons b l =>
      refine ⟨_, a3 b List.mem_cons_self, ?_⟩
      have : b.r.1 = g := (birth_cached hb b List.mem_cons_self).trans e2
      change ¬ Fit b.r.1 _
      rw [this]
      exact hne

theorem facula_birth_grid {G : FaculaGenerator} {t r : ℝ} {k : ℕ} {d : (n : ℕ) → FaculaDraws n} {l : List Facula}
    (h : G.birth t r k d = .ok l) : ∀ f ∈ l, f.grid = G.grid := by
  unfold FaculaGenerator.birth at h
  cases hq : Np.poisson (G.nExpected t r) k with
  | error e => rw [hq] at h; cases h
  | ok n =>
    rw [hq] at h
    cases h
    intro f hf
    obtain ⟨i, rfl⟩ := (List.mem_ofFn' _ _).1 hf
    rfl

theorem adopt_list {g G : Grid} (l : List Facula) (hl : ∀ f ∈ l, f.grid = g) :
    (∀ b, Grid.eq g G = .ok b → l.mapM (adoptOne G) = .ok (l.map fun f => { f with grid := G })) ∧
    ∀ e, Grid.eq g G = .error e → l ≠ [] → l.mapM (adoptOne G) = .error e := by
  constructor
  · intro b hb
    have one : ∀ f : Facula, f.grid = g → adoptOne G f = .ok { f with grid := G } := by
      intro f hf
      unfold adoptOne
      rw [hf, hb]
      cases b with
      | false => rfl
      | true =>
        have : g = G := by
          obtain ⟨h1, -⟩ := C06_eq_partial g G
          exact h1.1 hb
        change Except.ok f = _
        rw [← this, ← hf]
    induction l with
    | nil => rfl
    | cons f l ih =>
      rw [List.mapM_cons, one f (hl f List.mem_cons_self), ih fun f' h => hl f' (List.mem_cons_of_mem _ h)]
      rfl
  · intro e he hne
    cases l with
    | nil => exact absurd rfl hne
    | cons f l =>
      rw [List.mapM_cons]
      have : adoptOne G f = .error e := by
        unfold adoptOne
        rw [hl f List.mem_cons_self, he]; rfl
      rw [this]; rfl

/-- What `add_faculae` makes of new faculae that all have the grid `g`. -/
theorem addNewFaculae_at (W : World) (c : ℕ) (g : Grid) (l : List Facula) (hl : ∀ f ∈ l, f.grid = g)
    (hr : ∀ a ∈ (W.faculaColl c).refs, a < W.next) :
    (∀ b, Grid.eq g (W.faculaColl c).grid = .ok b → ∃ W', W.addNewFaculae c l = .ok W' ∧ W'.stars = W.stars ∧
      W'.faculaeAt c = { grid := (W.faculaColl c).grid, faculae := (W.faculaeAt c).faculae ++ l.map fun f => { f with grid := (W.faculaColl c).grid } }) ∧
    ∀ e, Grid.eq g (W.faculaColl c).grid = .error e → l ≠ [] → W.addNewFaculae c l = .error e := by
  obtain ⟨m1, m2⟩ := adopt_list (G := (W.faculaColl c).grid) l hl
  obtain ⟨k1, k2⟩ := adopt_ok (W.faculaColl c).grid (List.range' W.next l.length) List.nodup_range' (W.facula.alloc W.next l)
  rw [alloc_map] at k1 k2
  unfold World.addNewFaculae World.addFaculae
  simp only
  cases hq : adoptFaculae (W.faculaColl c).grid (List.range' W.next l.length) (W.facula.alloc W.next l) with
  | error e =>
    have hm := k2 e hq
    refine ⟨fun b hb => ?_, fun e' he hne => ?_⟩
    · rw [m1 b hb] at hm; cases hm
    · rw [m2 e' he hne] at hm; cases hm; rfl
  | ok h' =>
    obtain ⟨j1, j2⟩ := k1 h' hq
    refine ⟨fun b hb => ⟨_, rfl, rfl, ?_⟩, fun e' he hne => ?_⟩
    · rw [m1 b hb] at j2
      have j3 := (Except.ok.inj j2).symm
      simp only [World.faculaeAt, update_self, List.map_append, j3]
      congr 2
      refine List.map_congr_left fun a ha => ?_
      have hlt := hr a ha
      rw [j1 a fun h => absurd (List.mem_range'_1.1 h).1 (not_le.2 hlt), alloc_off _ _ _ hlt]
    · rw [m2 e' he hne] at j2; cases j2

/-- **C137** (faculae) The faculae a star is given next by a generator that a second star has moved to its grid are
moved back to the grid of the star; but if the second grid is rectangular and the first a spiral, `birth_faculae`
raises `TypeError`. -/
theorem C137_faculae (W W' : World) (x : StarArgs) (h : W.run (.newStar x) = .ok W') (i : ℕ) (s : StarObj)
    (hi : W.stars[i]? = some s) (hx : x.facGen = some s.facGen) (hl : s.facGen < W.next) (hc : x.faculae ≠ s.faculae)
    (hr : ∀ a ∈ (W.faculaColl s.faculae).refs, a < W.next) (o : Grid.Obj) (g : Grid)
    (ho : Grid.Obj.new x.gridParams = .ok o) (hg : Grid.ofObj o = .ok g) (t : ℝ) (k : ℕ)
    (d : (n : ℕ) → FaculaDraws n) (l : List Facula) (hb : (W'.facGen s.facGen).birth t s.radius k d = .ok l) :
    (∀ m a b, (W.faculaColl s.faculae).grid = .spiral m → g = .rect a b → l ≠ [] →
      W'.run (.on i (.birthFaculae t k d)) = .error .typeError) ∧
    ((¬ ∃ m a b, (W.faculaColl s.faculae).grid = .spiral m ∧ g = .rect a b) →
      ∃ W'' S S', W'.run (.on i (.birthFaculae t k d)) = .ok W'' ∧ W'.look i = some S ∧ W''.look i = some S' ∧
        S'.faculae.faculae = S.faculae.faculae ++ l.map fun f => { f with grid := (W.faculaColl s.faculae).grid }) := by
  obtain ⟨sg, fg, H, K, n, hn, e, g1, g2, -⟩ := newStar_eq W x ho hg
  have E := Except.ok.inj (h.symm.trans e)
  have hv : W'.stars[i]? = some s := by
    rw [E]
    exact (List.getElem?_append_left (List.getElem?_eq_some_iff.1 hi).1).trans hi
  have e1 : W'.faculaColl s.faculae = W.faculaColl s.faculae := by
    rw [E]
    exact update_off _ _ (Ne.symm hc)
  have e2 : (W'.facGen s.facGen).grid = g := by
    rw [E]
    simp only
    rw [g2 _ hl, if_pos hx]
  have e3 : W.next ≤ W'.next := by rw [E]; exact hn
  have hr' : ∀ a ∈ (W'.faculaColl s.faculae).refs, a < W'.next := by
    rw [e1]; exact fun a ha => (hr a ha).trans_le e3
  obtain ⟨k1, k2⟩ := addNewFaculae_at W' s.faculae g l (fun f hf => (facula_birth_grid hb f hf).trans e2) hr'
  rw [e1] at k1 k2
  simp only [World.run, hv, World.call, hb, Except.bind]
  constructor
  · intro m a b hm hgr hne
    exact k2 _ (by rw [hm, hgr]; rfl) hne
  · intro hno
    have hq : ∃ b, Grid.eq g (W.faculaColl s.faculae).grid = .ok b := by
      cases hgr : g with
      | spiral a =>
        cases (W.faculaColl s.faculae).grid with
        | spiral m => exact ⟨_, rfl⟩
        | rect p q => exact ⟨_, rfl⟩
      | rect a b =>
        cases hm : (W.faculaColl s.faculae).grid with
        | spiral m => exact absurd ⟨m, a, b, hm, hgr⟩ hno
        | rect p q => exact ⟨_, rfl⟩
    obtain ⟨b, hb'⟩ := hq
    obtain ⟨W'', r1, r2, r3⟩ := k1 b hb'
    have hv' : W''.stars[i]? = some s := by rw [r2]; exact hv
    refine ⟨W'', W'.view s, W''.view s, r1, by simp [World.look, hv], by simp [World.look, hv'], ?_⟩
    change (W''.faculaeAt s.faculae).faculae = _
    rw [r3]
    rfl

/-! ## Instances -/

/-- Two stars on one spot collection, with different grids. -/
noncomputable def oneCollection : List Cmd :=
  [.newSpotColl [] (.rect 3 4), .newFaculaColl [] (.rect 3 4),
   .newStar ⟨3000, 1, 1, 0, 1, .int 9, none, none, none, none, 0, 0⟩,
   .newFaculaColl [] (.rect 3 4)]

/-- Non-trivial instance of C136: the first star works until the second is built. -/
example (q : StarSpot) (f : Facula) (G : SpotGenerator) (F : FaculaGenerator) :
    ∃ W S W' S', oneCollection.foldlM World.run (noObjects q f G F) = .ok W ∧ W.look 0 = some S ∧
      (∃ m, S.addFaculaeToMap 0 0 = .ok m) ∧
      W.run (.newStar ⟨4000, 1, 1, 0, 4, .tuple [.int 2, .int 3], none, none, none, none, 0, 0⟩) = .ok W' ∧
      W'.look 0 = some S' ∧ (∃ e, S'.calcCoverageB 0 0 0 1 1 0 0 = .error e) ∧
      ∃ W'' S'', W'.run (.on 1 (.age 1)) = .ok W'' ∧ W''.look 0 = some S'' ∧ S''.spots = S'.spots.age 1 := by
  refine ⟨_, _, _, _, rfl, rfl, ⟨_, rfl⟩, rfl, rfl, ?_, _, _, rfl, rfl, rfl⟩
  refine refused (G := .rect 2 3) (G' := .spiral 9) ?_ (List.mem_cons_of_mem _ List.mem_cons_self) List.mem_cons_self (by simp [Fit]) 0 0 0 1 1 0 0
  intro G hG
  change G ∈ [Grid.spiral 9, Grid.rect 2 3] at hG
  simp only [List.mem_cons, List.not_mem_nil, or_false] at hG
  rcases hG with rfl | rfl
  · exact ⟨(0 : Fin 9)⟩
  · exact ⟨((0 : Fin 3), (0 : Fin 2))⟩

/-- Non-trivial instance of C136 and C148: if the first star has a spiral of six points and the second one six parallels, the first star
still reports, but its fractions add up to 3. -/
example (q : StarSpot) (f : Facula) (G : SpotGenerator) (F : FaculaGenerator) :
    ∃ W W' S total cov, [Cmd.newSpotColl [] (.rect 3 4), .newFaculaColl [] (.rect 3 4),
        .newStar ⟨3000, 1, 1, 0, 1, .int 6, none, none, none, some ⟨0.2, 1, 1, 100⟩, 0, 0⟩, .newFaculaColl [] (.rect 3 4)].foldlM World.run (noObjects q f G F) = .ok W ∧
      W.run (.newStar ⟨4000, 1, 1, 0, 4, .tuple [.int 6, .int 3], none, none, none, none, 0, 0⟩) = .ok W' ∧
      W'.look 0 = some S ∧ S.calcCoverageB 0 0 0.2 10 (1 / 2) (Real.pi / 2) 0 = .ok (total, cov, .fin 1) ∧ (Np.Dict.values total).sum = .fin 3 := by
  obtain ⟨total, cov, h1, h2⟩ := copiedStar_sum
  exact ⟨_, _, _, total, cov, rfl, rfl, rfl, h1, h2⟩

/-- Two stars with one spot generator, with different grids. -/
noncomputable def oneGenerator (G : SpotGenerator) : List Cmd :=
  [.newSpotGen G, .newSpotColl [] (.rect 3 4), .newFaculaColl [] (.rect 3 4),
   .newStar ⟨3000, 1, 1, 1, 2, .int 9, none, some 0, none, none, 0, 0⟩,
   .newSpotColl [] (.rect 3 4), .newFaculaColl [] (.rect 3 4)]

/-- Non-trivial instance of C137: a star with a working generator that another star takes over. -/
example (q : StarSpot) (f : Facula) (G : SpotGenerator) (F : FaculaGenerator) :
    let A : SpotGenerator := ⟨4, 1, 2500, 2700, 1, 1, 4, .iso, 0.5, .rect 3 4⟩
    ∃ W W' W'' S, (oneGenerator A).foldlM World.run (noObjects q f G F) = .ok W ∧
      W.run (.newStar ⟨4000, 1, 1, 4, 5, .tuple [.int 2, .int 3], none, some 0, none, none, 0, 0⟩) = .ok W' ∧
      W'.run (.on 0 (.birthSpots 1 3 plainDraws)) = .ok W'' ∧ W''.look 0 = some S ∧ S.spots.spots.length = 3 ∧
      ∃ e, S.calcCoverageB 0 0 0 1 1 0 0 = .error e := by
  intro A
  set B : SpotGenerator := { A with grid := .rect 2 3 } with hB
  have hx : ∃ x, 0 < x ∧ B.nExpected 1 1 = .fin x := by
    refine ⟨0.5 * 4 * Real.pi * 1 ^ 2 / 4 * 1 / 4, by positivity, ?_⟩
    norm_num [hB, A, SpotGenerator.nExpected, SpotGenerator.meanArea, SpotGenerator.meanLifetime, SpotGenerator.isStatic, Fl.log, Fl.fin_div]
  obtain ⟨x, x0, hx⟩ := hx
  obtain ⟨h1, -, h3⟩ := C27_generate B 3 (plainDraws 3)
  obtain ⟨l, hl⟩ := h1 (by norm_num [hB, A]) (by simp [hB, A]) ⟨0, fun i => by simp [plainDraws, SpotDraws.ratios]⟩
  have hb : B.birth 1 1 3 plainDraws = .ok l := by
    unfold SpotGenerator.birth
    rw [hx]
    simp only [Np.poisson, if_neg (not_lt.2 x0.le), if_neg x0.ne']
    exact hl
  have run3 : ∀ V : World, V.stars[0]? = some ⟨3000, 1, 1, 1, 2, .spiral 9, FlareGenerator.off, 0, 3, some Granulation.off, 0, 0, none⟩ →
      V.spotGen 0 = B → V.run (.on 0 (.birthSpots 1 3 plainDraws)) = .ok (V.addNewSpots 1 l) := by
    intro V h0 hV
    simp only [World.run, h0, World.call, hV, hb]
    rfl
  refine ⟨_, _, _, _, rfl, rfl, run3 _ rfl rfl, rfl, ?_, ?_⟩
  · refine (addNewSpots_at _ 1 l).2.1.trans ?_
    rw [(h3 l hl).1]
    rfl
  · have hne : l ≠ [] := by
      intro h; have := (h3 l hl).1; rw [h] at this; simp at this
    obtain ⟨b, hbm⟩ := List.exists_mem_of_ne_nil l hne
    have hr : ∀ b ∈ l, b.r.1 = .rect 2 3 := fun b hb => generate_cached hl b hb
    refine refused (G := .rect 2 3) (G' := .spiral 9) ?_ ?_ List.mem_cons_self (by simp [Fit]) 0 0 0 1 1 0 0
    · intro G hG
      rcases List.mem_cons.mp hG with rfl | hG
      · exact ⟨(0 : Fin 9)⟩
      rcases List.mem_cons.mp hG with rfl | hG
      · exact ⟨(0 : Fin 9)⟩
      obtain ⟨sp, hsp, rfl⟩ := List.mem_map.mp hG
      obtain ⟨b', hb', rfl⟩ := List.mem_map.mp ((congrArg (sp ∈ ·) (addNewSpots_first _ 1 l rfl)).mp hsp)
      change Nonempty b'.r.1.Pix
      rw [hr b' hb']
      exact ⟨((0 : Fin 3), (0 : Fin 2))⟩
    · obtain ⟨-, -, a3⟩ := addNewSpots_at _ 1 l
      rw [← hr b hbm]
      exact List.mem_cons_of_mem _ (List.mem_cons_of_mem _ (List.mem_map.mpr ⟨_, a3 b hbm, rfl⟩))

end Vsm
