import Verif.Props.StarState
import Verif.Props.FlareUse

/-!
# C76 – C78: properties of whole histories of operations on a star
-/

noncomputable section

namespace Vsm

open Real Spec

/-- A property of stars that every operation of a history preserves holds at its end. -/
theorem history_induction {P : Star → Prop} {ops : List Op} {s₀ s : Star} (h₀ : P s₀)
    (step : ∀ op ∈ ops, ∀ s s', P s → runOp s op = .ok s' → P s') (h : ops.foldlM runOp s₀ = .ok s) : P s := by
  induction ops generalizing s₀ with
  | nil =>
    simp only [List.foldlM_nil] at h
    change Except.ok s₀ = _ at h
    simp only [Except.ok.injEq] at h
    subst h; exact h₀
  | cons op ops ih =>
    rw [List.foldlM_cons] at h
    cases hs : runOp s₀ op with
    | error e => rw [hs] at h; cases h
    | ok s₁ =>
      rw [hs] at h
      exact ih (step op (by simp) s₀ s₁ h₀ hs) (fun o ho => step o (by simp [ho])) h

theorem history_append {a b : List Op} {s₀ s : Star} (h : (a ++ b).foldlM runOp s₀ = .ok s) :
    ∃ s₁, a.foldlM runOp s₀ = .ok s₁ ∧ b.foldlM runOp s₁ = .ok s := by
  rw [List.foldlM_append] at h
  cases hs : a.foldlM runOp s₀ with
  | error e => rw [hs] at h; cases h
  | ok s₁ => rw [hs] at h; exact ⟨s₁, rfl, h⟩

/-- The settings of a star: everything but its spots, faculae and flares (spec). -/
structure Spec.SameSettings (s s' : Star) : Prop where
  teff : s'.teff = s.teff
  radius : s'.radius = s.radius
  period : s'.period = s.period
  grid : s'.grid = s.grid
  u1 : s'.u1 = s.u1
  u2 : s'.u2 = s.u2
  flareGen : s'.flareGen = s.flareGen
  spotGen : s'.spotGen = s.spotGen
  facGen : s'.facGen = s.facGen
  granulation : s'.granulation = s.granulation

theorem addFaculae_spec {c c' : FaculaCollection} {new : List Facula} (e : c.addFaculae new = .ok c') :
    ∃ l, c'.faculae = c.faculae ++ l ∧ c'.grid = c.grid ∧ ∀ f ∈ l, ∃ f₀ ∈ new, f = { f₀ with grid := f.grid } := by
  unfold FaculaCollection.addFaculae at e
  cases hm : new.mapM (fun f => (Grid.eq f.grid c.grid).map fun b => if !b then { f with grid := c.grid } else f) with
  | error x => rw [hm] at e; cases e
  | ok l =>
    rw [hm] at e
    simp only [bind, Except.bind, pure, Except.pure, Except.ok.injEq] at e
    subst e
    refine ⟨l, rfl, rfl, ?_⟩
    induction new generalizing l with
    | nil =>
      simp only [List.mapM_nil, pure, Except.pure, Except.ok.injEq] at hm
      subst hm; simp
    | cons f new ih =>
      rw [List.mapM_cons] at hm
      cases hb : Grid.eq f.grid c.grid with
      | error x => rw [hb] at hm; cases hm
      | ok b =>
        rw [hb] at hm
        cases hm' : new.mapM (fun f => (Grid.eq f.grid c.grid).map fun b => if !b then { f with grid := c.grid } else f) with
        | error x => rw [hm'] at hm; cases hm
        | ok l' =>
          rw [hm'] at hm
          simp only [bind, Except.bind, pure, Except.pure, Except.map, Except.ok.injEq] at hm
          subst hm
          intro g hg
          rcases List.mem_cons.mp hg with rfl | hg
          · refine ⟨f, by simp, ?_⟩
            cases b <;> rfl
          · obtain ⟨f₀, h0, h1⟩ := ih l' hm' g hg
            exact ⟨f₀, by simp [h0], h1⟩

/-- The operations that add spots. -/
def Spec.addsSpots : Op → Prop
  | .addSpot _ | .birthSpots .. | .matureSpots .. => True
  | _ => False

/-- The operations that add faculae. -/
def Spec.addsFaculae : Op → Prop
  | .addFac _ | .birthFaculae .. => True
  | _ => False

/-- What one operation may change. -/
theorem step_frame {s s' : Star} {op : Op} (e : runOp s op = .ok s') :
    SameSettings s s' ∧ ((∀ t k d, op ≠ .flares t k d) → s'.flares = s.flares) ∧
    (addsSpots op → (∃ l, s'.spots.spots = s.spots.spots ++ l) ∧ s'.spots.grid = s.spots.grid) ∧
    (addsFaculae op → (∃ l, s'.faculae.faculae = s.faculae.faculae ++ l) ∧ s'.faculae.grid = s.faculae.grid) ∧
    (¬ addsSpots op → s'.spots = (ages [op]).foldl SpotCollection.age s.spots) ∧
    (¬ addsFaculae op → s'.faculae = (ages [op]).foldl FaculaCollection.age s.faculae) := by
  cases op with
  | addSpot new =>
    simp only [runOp, Except.ok.injEq] at e
    subst e
    exact ⟨⟨rfl, rfl, rfl, rfl, rfl, rfl, rfl, rfl, rfl, rfl⟩, fun _ => rfl, fun _ => ⟨⟨_, rfl⟩, rfl⟩, fun h => h.elim,
      fun h => (h trivial).elim, fun _ => rfl⟩
  | birthSpots t k d =>
    simp only [runOp, Star.birthSpots] at e
    cases hb : s.spotGen.birth t s.radius k d with
    | error x => rw [hb] at e; cases e
    | ok new =>
      rw [hb] at e
      simp only [Except.map, Except.ok.injEq] at e
      subst e
      exact ⟨⟨rfl, rfl, rfl, rfl, rfl, rfl, rfl, rfl, rfl, rfl⟩, fun _ => rfl, fun _ => ⟨⟨_, rfl⟩, rfl⟩, fun h => h.elim,
        fun h => (h trivial).elim, fun _ => rfl⟩
  | matureSpots c d =>
    simp only [runOp, Star.generateMatureSpots] at e
    cases hb : s.spotGen.generateMature c s.radius d with
    | error x => rw [hb] at e; cases e
    | ok new =>
      rw [hb] at e
      simp only [Except.map, Except.ok.injEq] at e
      subst e
      exact ⟨⟨rfl, rfl, rfl, rfl, rfl, rfl, rfl, rfl, rfl, rfl⟩, fun _ => rfl, fun _ => ⟨⟨_, rfl⟩, rfl⟩, fun h => h.elim,
        fun h => (h trivial).elim, fun _ => rfl⟩
  | addFac new =>
    simp only [runOp, Star.addFac] at e
    cases hb : s.faculae.addFaculae new with
    | error x => rw [hb] at e; cases e
    | ok c =>
      rw [hb] at e
      simp only [Except.map, Except.ok.injEq] at e
      subst e
      obtain ⟨l, h1, h2, -⟩ := addFaculae_spec hb
      exact ⟨⟨rfl, rfl, rfl, rfl, rfl, rfl, rfl, rfl, rfl, rfl⟩, fun _ => rfl, fun h => h.elim, fun _ => ⟨⟨l, h1⟩, h2⟩,
        fun _ => rfl, fun h => (h trivial).elim⟩
  | birthFaculae t k d =>
    simp only [runOp, Star.birthFaculae] at e
    cases hb : s.facGen.birth t s.radius k d with
    | error x => rw [hb] at e; cases e
    | ok new =>
      rw [hb] at e
      simp only [Except.bind, Star.addFac] at e
      cases hc : s.faculae.addFaculae new with
      | error x => rw [hc] at e; cases e
      | ok c =>
        rw [hc] at e
        simp only [Except.map, Except.ok.injEq] at e
        subst e
        obtain ⟨l, h1, h2, -⟩ := addFaculae_spec hc
        exact ⟨⟨rfl, rfl, rfl, rfl, rfl, rfl, rfl, rfl, rfl, rfl⟩, fun _ => rfl, fun h => h.elim, fun _ => ⟨⟨l, h1⟩, h2⟩,
          fun _ => rfl, fun h => (h trivial).elim⟩
  | flares t k d =>
    simp only [runOp, Star.getFlares] at e
    cases hb : s.flareGen.series t k d with
    | error x => rw [hb] at e; cases e
    | ok fl =>
      rw [hb] at e
      simp only [Except.map, Except.ok.injEq] at e
      subst e
      exact ⟨⟨rfl, rfl, rfl, rfl, rfl, rfl, rfl, rfl, rfl, rfl⟩, fun h => (h t k d rfl).elim, fun h => h.elim, fun h => h.elim,
        fun _ => rfl, fun _ => rfl⟩
  | age t =>
    simp only [runOp, Except.ok.injEq] at e
    subst e
    exact ⟨⟨rfl, rfl, rfl, rfl, rfl, rfl, rfl, rfl, rfl, rfl⟩, fun _ => rfl, fun h => h.elim, fun h => h.elim,
      fun _ => rfl, fun _ => rfl⟩

theorem sameSettings_trans {a b c : Star} (h : SameSettings a b) (k : SameSettings b c) : SameSettings a c :=
  ⟨k.teff.trans h.teff, k.radius.trans h.radius, k.period.trans h.period, k.grid.trans h.grid, k.u1.trans h.u1,
    k.u2.trans h.u2, k.flareGen.trans h.flareGen, k.spotGen.trans h.spotGen, k.facGen.trans h.facGen,
    k.granulation.trans h.granulation⟩

theorem history_settings {ops : List Op} {s₀ s : Star} (h : ops.foldlM runOp s₀ = .ok s) : SameSettings s₀ s :=
  history_induction (P := fun s => SameSettings s₀ s) ⟨rfl, rfl, rfl, rfl, rfl, rfl, rfl, rfl, rfl, rfl⟩
    (fun _ _ _ _ hp e => sameSettings_trans hp (step_frame e).1) h

/-! ## C76 -/

/-- **C76** A new star has no flares, and asking for flare integrals raises until flares have been generated, whatever
else happened in between; after `get_flares_over_observation` the integrals are those of the series that the most recent
such call drew from the star's flare generator, whatever else happened before, in between or afterwards. -/
theorem C76_flare_history :
    (∀ teff radius period spots faculae gp fg sg fcg gr u1 u2 s₀,
      Star.new teff radius period spots faculae gp fg sg fcg gr u1 u2 = .ok s₀ → s₀.flares = none) ∧
    (∀ (s₀ s : Star) (ops : List Op), s₀.flares = none → (∀ t k d, Op.flares t k d ∉ ops) →
      ops.foldlM runOp s₀ = .ok s → ∀ a b lat0 lon0, s.flareInt a b lat0 lon0 = .error .typeError) ∧
    (∀ (s₀ s : Star) (pre post : List Op) t k d, (∀ t k d, Op.flares t k d ∉ post) →
      (pre ++ Op.flares t k d :: post).foldlM runOp s₀ = .ok s →
      ∃ fl, s₀.flareGen.series t k d = .ok fl ∧
        ∀ a b lat0 lon0, s.flareInt a b lat0 lon0 = (FlareCollection.new fl).integrals a b lat0 lon0) := by
  refine ⟨?_, ?_, ?_⟩
  · intro teff radius period spots faculae gp fg sg fcg gr u1 u2 s₀ h
    unfold Star.new at h
    cases ho : Grid.Obj.new gp with
    | error e => rw [ho] at h; cases h
    | ok obj =>
      rw [ho] at h
      simp only [bind, Except.bind] at h
      cases hg : Grid.ofObj obj with
      | error e => rw [hg] at h; cases h
      | ok g =>
        rw [hg] at h
        cases sg <;> cases fcg <;>
          simp only [unify_eq, Except.map, pure, Except.pure, Except.ok.injEq] at h <;> rw [← h] <;> rfl
  · intro s₀ s ops h0 hno h a b lat0 lon0
    have : s.flares = none := history_induction (P := fun s => s.flares = none) h0
      (fun op hop x x' hx e => by
        rw [(step_frame e).2.1 fun t k d hd => hno t k d (hd ▸ hop)]; exact hx) h
    unfold Star.flareInt
    rw [this]
  · intro s₀ s pre post t k d hno h
    obtain ⟨s₁, h1, h2⟩ := history_append h
    rw [List.foldlM_cons] at h2
    cases hs : runOp s₁ (.flares t k d) with
    | error e => rw [hs] at h2; cases h2
    | ok s₂ =>
      rw [hs] at h2
      have hset := history_settings h1
      simp only [runOp, Star.getFlares] at hs
      cases hb : s₁.flareGen.series t k d with
      | error x => rw [hb] at hs; cases hs
      | ok fl =>
        rw [hb] at hs
        simp only [Except.map, Except.ok.injEq] at hs
        refine ⟨fl, by rw [← hset.flareGen]; exact hb, fun a b lat0 lon0 => ?_⟩
        have : s.flares = some (FlareCollection.new fl) :=
          history_induction (P := fun s => s.flares = some (FlareCollection.new fl)) (by rw [← hs])
            (fun op hop x x' hx e => by
              rw [(step_frame e).2.1 fun t k d hd => hno t k d (hd ▸ hop)]; exact hx) h2
        unfold Star.flareInt
        rw [this]

/-! ## C77 -/

theorem ages_cons (op : Op) (l : List Op) : ages (op :: l) = ages [op] ++ ages l := by
  cases op <;> rfl

/-- **C77** After any successful history the settings of the star are what they were; without aging the old spots and
faculae are still there, first and in order, with the new ones behind them; operations that do not add spots affect
the spots only by aging them, and likewise the faculae. -/
theorem C77_history (s₀ s : Star) (ops : List Op) (h : ops.foldlM runOp s₀ = .ok s) :
    SameSettings s₀ s ∧
    ((∀ t, Op.age t ∉ ops) → s₀.spots.spots <+: s.spots.spots ∧ s₀.faculae.faculae <+: s.faculae.faculae) ∧
    ((∀ op ∈ ops, ¬ addsSpots op) → s.spots = (ages ops).foldl SpotCollection.age s₀.spots) ∧
    ((∀ op ∈ ops, ¬ addsFaculae op) → s.faculae = (ages ops).foldl FaculaCollection.age s₀.faculae) := by
  refine ⟨history_settings h, ?_, ?_, ?_⟩
  · intro hno
    refine history_induction (P := fun s => s₀.spots.spots <+: s.spots.spots ∧ s₀.faculae.faculae <+: s.faculae.faculae)
      ⟨List.prefix_rfl, List.prefix_rfl⟩ ?_ h
    intro op hop x x' hx e
    have hage : ages [op] = [] := by
      cases op with
      | age t => exact absurd hop (hno t)
      | _ => rfl
    obtain ⟨-, -, f1, f2, f3, f4⟩ := step_frame e
    rw [hage] at f3 f4
    constructor
    · by_cases ha : addsSpots op
      · obtain ⟨⟨l, hl⟩, -⟩ := f1 ha
        rw [hl]; exact hx.1.trans (List.prefix_append _ _)
      · rw [f3 ha]; exact hx.1
    · by_cases ha : addsFaculae op
      · obtain ⟨⟨l, hl⟩, -⟩ := f2 ha
        rw [hl]; exact hx.2.trans (List.prefix_append _ _)
      · rw [f4 ha]; exact hx.2
  · intro hno
    induction ops generalizing s₀ with
    | nil =>
      simp only [List.foldlM_nil] at h
      change Except.ok s₀ = _ at h
      simp only [Except.ok.injEq] at h
      subst h; rfl
    | cons op ops ih =>
      rw [List.foldlM_cons] at h
      cases hs : runOp s₀ op with
      | error e => rw [hs] at h; cases h
      | ok s₁ =>
        rw [hs] at h
        rw [ih s₁ h fun o ho => hno o (by simp [ho]), (step_frame hs).2.2.2.2.1 (hno op (by simp)), ages_cons op ops, List.foldl_append]
  · intro hno
    induction ops generalizing s₀ with
    | nil =>
      simp only [List.foldlM_nil] at h
      change Except.ok s₀ = _ at h
      simp only [Except.ok.injEq] at h
      subst h; rfl
    | cons op ops ih =>
      rw [List.foldlM_cons] at h
      cases hs : runOp s₀ op with
      | error e => rw [hs] at h; cases h
      | ok s₁ =>
        rw [hs] at h
        rw [ih s₁ h fun o ho => hno o (by simp [ho]), (step_frame hs).2.2.2.2.2 (hno op (by simp)), ages_cons op ops, List.foldl_append]

/-! ## C78 -/

/-- A well-formed spot: real area between 0 and the maximum, positive while growing, rates not negative (spec). -/
def Spec.WellFormed (sp : StarSpot) : Prop :=
  ∃ a, sp.area = .fin a ∧ 0 ≤ a ∧ a ≤ sp.areaMax ∧ (sp.isGrowing = true → 0 < a) ∧ 0 ≤ sp.growthRate ∧ 0 ≤ sp.decayRate

/-- A well-formed star: every spot is well formed, every facula has a positive radius not above its maximum. -/
def Spec.WellFormedStar (s : Star) : Prop :=
  (∀ sp ∈ s.spots.spots, WellFormed sp) ∧ ∀ f ∈ s.faculae.faculae, ∃ r, PhysF f r

/-- The peak area drawn for a spot is not below the initial area. -/
def Spec.peakAbove (G : SpotGenerator) (z : ℝ) : Prop := G.initArea ≤ G.distAreaMean * exp (G.distAreaLogsigma * z)

/-- Arguments of an operation that make physical sense. -/
def Spec.Sensible (G : SpotGenerator) : Op → Prop
  | .addSpot new => ∀ sp ∈ new, WellFormed sp
  | .birthSpots _ _ d => ∀ n i, peakAbove G ((d n).z i)
  | .matureSpots _ d => ∀ j, peakAbove G ((d j).1.z 0)
  | .addFac new => ∀ f ∈ new, ∃ r, PhysF f r
  | .age t => 0 ≤ t
  | _ => True

/-- A spot as generators make them and aging keeps them (spec): real area not below 0, not above the maximum once it has stopped
growing, positive with a positive maximum while growing, rates not negative.  A growing spot may be larger than its maximum. -/
def Spec.Sound (sp : StarSpot) : Prop :=
  ∃ a, sp.area = .fin a ∧ 0 ≤ a ∧ (sp.isGrowing = false → a ≤ sp.areaMax) ∧ (sp.isGrowing = true → 0 < a ∧ 0 < sp.areaMax) ∧
    0 ≤ sp.growthRate ∧ 0 ≤ sp.decayRate

/-- Every spot of the star is sound, every facula has a positive radius not above its maximum. -/
def Spec.SoundStar (s : Star) : Prop :=
  (∀ sp ∈ s.spots.spots, Sound sp) ∧ ∀ f ∈ s.faculae.faculae, ∃ r, PhysF f r

/-- Arguments of an operation that make sense: added features are sound, times of aging not negative.  Nothing is asked of what the
generators draw. -/
def Spec.Sane : Op → Prop
  | .addSpot new => ∀ sp ∈ new, Sound sp
  | .addFac new => ∀ f ∈ new, ∃ r, PhysF f r
  | .age t => 0 ≤ t
  | _ => True

theorem Spec.WellFormed.sound {sp : StarSpot} (h : WellFormed sp) : Sound sp := by
  obtain ⟨a, h1, h2, h3, h4, h5, h6⟩ := h
  exact ⟨a, h1, h2, fun _ => h3, fun hg => ⟨h4 hg, (h4 hg).trans_le h3⟩, h5, h6⟩

theorem Spec.WellFormedStar.sound {s : Star} (h : WellFormedStar s) : SoundStar s := ⟨fun sp hsp => (h.1 sp hsp).sound, h.2⟩

theorem Spec.Sensible.sane {G : SpotGenerator} {op : Op} (h : Sensible G op) : Sane op := by
  cases op <;> try exact h
  all_goals first | trivial | exact fun sp hsp => (h sp hsp).sound

/-- Generators with positive sizes and lifetimes and rates that are not negative; spots that decay also grow (otherwise mature spots have area NaN, C157). -/
structure Spec.GoodGens (s : Star) : Prop where
  init : 0 < s.spotGen.initArea
  mean : 0 < s.spotGen.distAreaMean
  growth : 0 ≤ s.spotGen.growthRate
  decay : 0 ≤ s.spotGen.decayRate
  matures : 0 < s.spotGen.growthRate ∨ s.spotGen.decayRate = 0
  rpeak : 0 < s.facGen.distRPeak
  life : 0 < s.facGen.distLifePeak

theorem wellFormed_phys {sp : StarSpot} {a : ℝ} (h : Phys sp a) : WellFormed sp :=
  ⟨a, h.area, h.pos.le, h.le, fun _ => h.pos, h.growth, h.decay⟩

theorem wellFormed_age {c : SpotCollection} (h : ∀ sp ∈ c.spots, WellFormed sp) {t : ℝ} (ht : 0 ≤ t) :
    ∀ sp ∈ (c.age t).spots, WellFormed sp := by
  intro sp hsp
  rw [collection_age, List.mem_filterMap] at hsp
  obtain ⟨s, hs, e⟩ := hsp
  obtain ⟨a, h1, h2, h3, h4, h5, h6⟩ := h s hs
  rcases h2.eq_or_lt with h0 | h0
  · subst h0
    have hg : s.isGrowing = false := by
      cases hg : s.isGrowing with
      | false => rfl
      | true => exact absurd (h4 hg) (lt_irrefl _)
    unfold ageOpt at e
    rw [age_decay h1 hg] at e
    have := mul_nonneg ht h6
    rw [if_pos] at e
    · cases e
    · refine ⟨?_, hg⟩
      simp only [Fl.fin_le]
      split_ifs <;> linarith
  · obtain ⟨a', h'⟩ := phys_ageOpt ⟨h1, h0, h3, h5, h6⟩ ht e
    exact wellFormed_phys h'

theorem sound_live {sp : StarSpot} {a : ℝ} (h : Live sp a) : Sound sp :=
  ⟨a, h.area, h.pos.le, h.le, fun _ => ⟨h.pos, h.top⟩, h.growth, h.decay⟩

theorem ageOpt_zero {s : StarSpot} {t : ℝ} (h : s.area = .fin 0) (hg : s.isGrowing = false) (hw : 0 ≤ s.decayRate)
    (ht : 0 ≤ t) : ageOpt t s = none := by
  have := mul_nonneg ht hw
  unfold ageOpt
  rw [age_decay h hg, if_pos]
  refine ⟨?_, hg⟩
  simp only [Fl.fin_le]
  split_ifs <;> linarith

theorem sound_cases {s : StarSpot} (h : Sound s) :
    (∃ a, Live s a) ∨ (s.area = .fin 0 ∧ s.isGrowing = false ∧ 0 ≤ s.decayRate) := by
  obtain ⟨a, h1, h2, h3, h4, h5, h6⟩ := h
  by_cases hg : s.isGrowing = true
  · exact .inl ⟨a, h1, (h4 hg).1, (h4 hg).2, h3, h5, h6⟩
  · have hg' : s.isGrowing = false := by simpa using hg
    rcases h2.eq_or_lt with h0 | h0
    · subst h0
      exact .inr ⟨h1, hg', h6⟩
    · exact .inl ⟨a, h1, h0, h0.trans_le (h3 hg'), h3, h5, h6⟩

theorem sound_age {c : SpotCollection} (h : ∀ sp ∈ c.spots, Sound sp) {t : ℝ} (ht : 0 ≤ t) :
    ∀ sp ∈ (c.age t).spots, ∃ a, Live sp a ∧ (0 < sp.growthRate → a ≤ sp.areaMax) := by
  intro sp hsp
  rw [collection_age, List.mem_filterMap] at hsp
  obtain ⟨s, hs, e⟩ := hsp
  rcases sound_cases (h s hs) with ⟨a, ha⟩ | ⟨h1, h2, h3⟩
  · obtain ⟨a', h'⟩ := live_ageOpt ha ht e
    refine ⟨a', h', fun h0 => ?_⟩
    by_cases hg : sp.isGrowing = true
    · unfold ageOpt at e
      split_ifs at e with hd
      rw [Option.some_inj] at e
      have hgs : s.isGrowing = true := by
        by_contra hc
        have hc' : s.isGrowing = false := by simpa using hc
        rw [age_decay ha.area hc'] at e
        rw [← e] at hg
        exact hc hg
      have hgr : 0 < s.growthRate := by
        have : (s.age t).growthRate = s.growthRate := by
          rw [StarSpot.age_eq]
          simp only
          split_ifs <;> rfl
        rw [← this, e]; exact h0
      rw [age_grow ha hgs hgr] at e
      split_ifs at e with h1
      · have h5 := h'.area
        subst e
        simp only [Fl.fin_inj] at h5 ⊢
        rw [← h5]
        exact (grown_lt ha hgr h1).le
      · subst e
        simp at hg
    · exact h'.le (by simpa using hg)
  · rw [ageOpt_zero h1 h2 h3 ht] at e
    cases e

theorem generate_live {G : SpotGenerator} (h1 : 0 < G.initArea) (h2 : 0 < G.distAreaMean) (h3 : 0 ≤ G.growthRate)
    (h4 : 0 ≤ G.decayRate) {n : ℕ} {d : SpotDraws n} {l : List StarSpot}
    (e : G.generate n d = .ok l) : ∀ sp ∈ l, Live sp G.initArea ∧ sp.isGrowing = true := by
  obtain ⟨k1, k2, k3⟩ := (C27_generate G n d).2.2 l e
  intro sp hsp
  obtain ⟨i, hi, rfl⟩ := List.getElem_of_mem hsp
  have hb := k2 _ hsp
  refine ⟨⟨hb.area, h1, ?_, fun h => ?_, by rw [hb.growth]; exact h3, by rw [hb.decay]; exact h4⟩, hb.growing⟩
  · rw [k3 h2 i hi (by omega)]
    positivity
  · rw [hb.growing] at h; cases h

theorem matureStep_sound {G : SpotGenerator} (h1 : 0 < G.initArea) (h2 : 0 < G.distAreaMean) (h3 : 0 ≤ G.growthRate)
    (h4 : 0 ≤ G.decayRate) (h5 : 0 < G.growthRate ∨ G.decayRate = 0) {d : SpotDraws 1} {x : Set.Ico (0 : ℝ) 1} {sp : StarSpot}
    (e : G.matureStep d x = .ok sp) : Sound sp := by
  unfold SpotGenerator.matureStep at e
  cases hg : G.generate 1 d with
  | error err => rw [hg] at e; cases e
  | ok l =>
    rw [hg] at e
    have hp := generate_live h1 h2 h3 h4 hg
    cases l with
    | nil => cases e
    | cons s l =>
      obtain ⟨hp, hgr⟩ := hp s (by simp)
      simp only [Except.bind] at e
      split_ifs at e with hst
      · simp only [Except.ok.injEq] at e
        subst e
        have hx0 := x.2.1
        have hx1 := x.2.2
        have htop := hp.top
        have hpos : 0 < (x : ℝ) * (s.areaMax - G.initArea) + G.initArea := by nlinarith
        exact ⟨_, rfl, hpos.le, (fun h => absurd (hgr.symm.trans h) (by simp)), fun _ => ⟨hpos, htop⟩, hp.growth, hp.decay⟩
      · obtain ⟨L, hL⟩ := meanLifetime_fin h1 h2 (h5.resolve_right hst) hst
        simp only [hL, Fl.fin_mul, Except.ok.injEq] at e
        subst e
        · change Sound (s.age _)
          rcases eq_or_lt_of_le hp.growth with h0 | h0
          · rw [age_static hp hgr h0.symm]; exact sound_live hp
          · rw [age_grow hp hgr h0]
            have hpos := mul_pos hp.pos (exp_pos (Real.log (1 + s.growthRate) * (x * L)))
            split_ifs with ht
            · exact ⟨_, rfl, hpos.le, fun _ => (grown_lt hp h0 ht).le, fun _ => ⟨hpos, hp.top⟩, hp.growth, hp.decay⟩
            · have := mul_nonneg (sub_nonneg.mpr (not_lt.mp ht)) hp.decay
              refine ⟨_, rfl, le_max_left _ _, fun _ => max_le hp.top.le ?_, (fun h => by simp at h), hp.growth, hp.decay⟩
              simp only; linarith

theorem generate_phys {G : SpotGenerator} (h1 : 0 < G.initArea) (h2 : 0 < G.distAreaMean) (h3 : 0 ≤ G.growthRate)
    (h4 : 0 ≤ G.decayRate) {n : ℕ} {d : SpotDraws n} (hd : ∀ i, peakAbove G (d.z i)) {l : List StarSpot}
    (e : G.generate n d = .ok l) : ∀ sp ∈ l, Phys sp G.initArea ∧ sp.isGrowing = true := by
  obtain ⟨k1, k2, k3⟩ := (C27_generate G n d).2.2 l e
  intro sp hsp
  obtain ⟨i, hi, rfl⟩ := List.getElem_of_mem hsp
  have hb := k2 _ hsp
  refine ⟨⟨hb.area, h1, ?_, by rw [hb.growth]; exact h3, by rw [hb.decay]; exact h4⟩, hb.growing⟩
  rw [k3 h2 i hi (by omega)]
  exact hd _

theorem matureStep_wf {G : SpotGenerator} (h1 : 0 < G.initArea) (h2 : 0 < G.distAreaMean) (h3 : 0 ≤ G.growthRate)
    (h4 : 0 ≤ G.decayRate) (h5 : 0 < G.growthRate ∨ G.decayRate = 0) {d : SpotDraws 1} {x : Set.Ico (0 : ℝ) 1} (hd : peakAbove G (d.z 0)) {sp : StarSpot}
    (e : G.matureStep d x = .ok sp) : WellFormed sp := by
  unfold SpotGenerator.matureStep at e
  cases hg : G.generate 1 d with
  | error err => rw [hg] at e; cases e
  | ok l =>
    rw [hg] at e
    have hp := generate_phys h1 h2 h3 h4 (fun i => by rw [Fin.fin_one_eq_zero i]; exact hd) hg
    cases l with
    | nil => cases e
    | cons s l =>
      obtain ⟨hp, hgr⟩ := hp s (by simp)
      simp only [Except.bind] at e
      split_ifs at e with hst
      · simp only [Except.ok.injEq] at e
        subst e
        have hx0 := x.2.1
        have hx1 := x.2.2
        have := hp.le
        exact ⟨_, rfl, by nlinarith, by simp only; nlinarith, fun _ => by nlinarith, hp.growth, hp.decay⟩
      · obtain ⟨L, hL⟩ := meanLifetime_fin h1 h2 (h5.resolve_right hst) hst
        simp only [hL, Fl.fin_mul, Except.ok.injEq] at e
        subst e
        · change WellFormed (s.age _)
          rcases eq_or_lt_of_le hp.growth with h0 | h0
          · rw [age_static hp.live hgr h0.symm]; exact wellFormed_phys hp
          · rw [age_grow hp.live hgr h0]
            split_ifs with ht
            · exact ⟨_, rfl, (mul_pos hp.pos (exp_pos _)).le, (grown_lt hp.live h0 ht).le, fun _ => mul_pos hp.pos (exp_pos _),
                hp.growth, hp.decay⟩
            · have := mul_nonneg (sub_nonneg.mpr (not_lt.mp ht)) hp.decay
              refine ⟨_, rfl, le_max_left _ _, max_le ?_ ?_, (fun h => by simp at h), hp.growth, hp.decay⟩
              · exact hp.pos.le.trans hp.le
              · simp only; linarith

theorem addFaculae_phys {c c' : FaculaCollection} {new : List Facula} (e : c.addFaculae new = .ok c')
    (h : ∀ f ∈ c.faculae, ∃ r, PhysF f r) (hn : ∀ f ∈ new, ∃ r, PhysF f r) : ∀ f ∈ c'.faculae, ∃ r, PhysF f r := by
  obtain ⟨l, h1, -, h3⟩ := addFaculae_spec e
  intro f hf
  rw [h1, List.mem_append] at hf
  rcases hf with hf | hf
  · exact h f hf
  · obtain ⟨f₀, h4, h5⟩ := h3 f hf
    obtain ⟨r, hr⟩ := hn f₀ h4
    rw [h5]
    exact ⟨r, hr.radius, hr.pos, hr.le, hr.life⟩

theorem wellFormed_add {s : Star} {new : List StarSpot} (h : WellFormedStar s) (hn : ∀ sp ∈ new, WellFormed sp) :
    WellFormedStar (s.addSpot new) := by
  refine ⟨fun sp hsp => ?_, h.2⟩
  simp only [Star.addSpot, SpotCollection.addSpot, List.mem_append, List.mem_map] at hsp
  rcases hsp with hsp | ⟨s', hs', rfl⟩
  · exact h.1 sp hsp
  · exact hn s' hs'

theorem wellFormed_step {s s' : Star} {op : Op} (hg : GoodGens s) (h : WellFormedStar s) (hop : Sensible s.spotGen op)
    (e : runOp s op = .ok s') : WellFormedStar s' := by
  cases op with
  | addSpot new =>
    simp only [runOp, Except.ok.injEq] at e
    subst e
    exact wellFormed_add h hop
  | birthSpots t k d =>
    simp only [runOp, Star.birthSpots] at e
    cases hb : s.spotGen.birth t s.radius k d with
    | error x => rw [hb] at e; cases e
    | ok new =>
      rw [hb] at e
      simp only [Except.map, Except.ok.injEq] at e
      subst e
      apply wellFormed_add h
      unfold SpotGenerator.birth at hb
      cases hp : Np.poisson (s.spotGen.nExpected t s.radius) k with
      | error x => rw [hp] at hb; cases hb
      | ok n =>
        rw [hp] at hb
        intro sp hsp
        exact wellFormed_phys (generate_phys hg.init hg.mean hg.growth hg.decay (hop n) hb sp hsp).1
  | matureSpots c d =>
    simp only [runOp, Star.generateMatureSpots] at e
    cases hb : s.spotGen.generateMature c s.radius d with
    | error x => rw [hb] at e; cases e
    | ok new =>
      rw [hb] at e
      simp only [Except.map, Except.ok.injEq] at e
      subst e
      apply wellFormed_add h
      unfold SpotGenerator.generateMature at hb
      split_ifs at hb with h1 h2
      have hsome := Nat.find_spec h2
      obtain ⟨r, hr⟩ := Option.isSome_iff_exists.mp hsome
      rw [hr] at hb
      simp only [Option.getD_some] at hb
      subst hb
      obtain ⟨-, -, tl, htl, hs⟩ := matureLoop_spec s.spotGen _ s.radius d _ 0 [] new hr
      intro sp hsp
      obtain ⟨j, hj⟩ := hs sp (by rw [htl] at hsp; simpa using hsp)
      exact matureStep_wf hg.init hg.mean hg.growth hg.decay hg.matures (hop j) hj
  | addFac new =>
    simp only [runOp, Star.addFac] at e
    cases hb : s.faculae.addFaculae new with
    | error x => rw [hb] at e; cases e
    | ok c =>
      rw [hb] at e
      simp only [Except.map, Except.ok.injEq] at e
      subst e
      exact ⟨h.1, addFaculae_phys hb h.2 hop⟩
  | birthFaculae t k d =>
    simp only [runOp, Star.birthFaculae] at e
    cases hb : s.facGen.birth t s.radius k d with
    | error x => rw [hb] at e; cases e
    | ok new =>
      rw [hb] at e
      simp only [Except.bind, Star.addFac] at e
      cases hc : s.faculae.addFaculae new with
      | error x => rw [hc] at e; cases e
      | ok c =>
        rw [hc] at e
        simp only [Except.map, Except.ok.injEq] at e
        subst e
        refine ⟨h.1, addFaculae_phys hc h.2 ?_⟩
        unfold FaculaGenerator.birth at hb
        cases hp : Np.poisson (s.facGen.nExpected t s.radius) k with
        | error x => rw [hp] at hb; cases hb
        | ok n =>
          rw [hp] at hb
          simp only [Except.map, Except.ok.injEq] at hb
          subst hb
          intro f hf
          exact ⟨_, (generated_facula s.facGen hg.rpeak hg.life n _ f hf).1⟩
  | flares t k d =>
    simp only [runOp, Star.getFlares] at e
    cases hb : s.flareGen.series t k d with
    | error x => rw [hb] at e; cases e
    | ok fl =>
      rw [hb] at e
      simp only [Except.map, Except.ok.injEq] at e
      subst e
      exact h
  | age t =>
    simp only [runOp, Except.ok.injEq] at e
    subst e
    exact ⟨wellFormed_age h.1 hop, physFAll_age h.2 hop⟩

theorem sound_add {s : Star} {new : List StarSpot} (h : SoundStar s) (hn : ∀ sp ∈ new, Sound sp) :
    SoundStar (s.addSpot new) := by
  refine ⟨fun sp hsp => ?_, h.2⟩
  simp only [Star.addSpot, SpotCollection.addSpot, List.mem_append, List.mem_map] at hsp
  rcases hsp with hsp | ⟨s', hs', rfl⟩
  · exact h.1 sp hsp
  · exact hn s' hs'

theorem sound_step {s s' : Star} {op : Op} (hg : GoodGens s) (h : SoundStar s) (hop : Sane op)
    (e : runOp s op = .ok s') : SoundStar s' := by
  cases op with
  | addSpot new =>
    simp only [runOp, Except.ok.injEq] at e
    subst e
    exact sound_add h hop
  | birthSpots t k d =>
    simp only [runOp, Star.birthSpots] at e
    cases hb : s.spotGen.birth t s.radius k d with
    | error x => rw [hb] at e; cases e
    | ok new =>
      rw [hb] at e
      simp only [Except.map, Except.ok.injEq] at e
      subst e
      apply sound_add h
      unfold SpotGenerator.birth at hb
      cases hp : Np.poisson (s.spotGen.nExpected t s.radius) k with
      | error x => rw [hp] at hb; cases hb
      | ok n =>
        rw [hp] at hb
        intro sp hsp
        exact sound_live (generate_live hg.init hg.mean hg.growth hg.decay hb sp hsp).1
  | matureSpots c d =>
    simp only [runOp, Star.generateMatureSpots] at e
    cases hb : s.spotGen.generateMature c s.radius d with
    | error x => rw [hb] at e; cases e
    | ok new =>
      rw [hb] at e
      simp only [Except.map, Except.ok.injEq] at e
      subst e
      apply sound_add h
      unfold SpotGenerator.generateMature at hb
      split_ifs at hb with h1 h2
      have hsome := Nat.find_spec h2
      obtain ⟨r, hr⟩ := Option.isSome_iff_exists.mp hsome
      rw [hr] at hb
      simp only [Option.getD_some] at hb
      subst hb
      obtain ⟨-, -, tl, htl, hs⟩ := matureLoop_spec s.spotGen _ s.radius d _ 0 [] new hr
      intro sp hsp
      obtain ⟨j, hj⟩ := hs sp (by rw [htl] at hsp; simpa using hsp)
      exact matureStep_sound hg.init hg.mean hg.growth hg.decay hg.matures hj
  | addFac new =>
    simp only [runOp, Star.addFac] at e
    cases hb : s.faculae.addFaculae new with
    | error x => rw [hb] at e; cases e
    | ok c =>
      rw [hb] at e
      simp only [Except.map, Except.ok.injEq] at e
      subst e
      exact ⟨h.1, addFaculae_phys hb h.2 hop⟩
  | birthFaculae t k d =>
    simp only [runOp, Star.birthFaculae] at e
    cases hb : s.facGen.birth t s.radius k d with
    | error x => rw [hb] at e; cases e
    | ok new =>
      rw [hb] at e
      simp only [Except.bind, Star.addFac] at e
      cases hc : s.faculae.addFaculae new with
      | error x => rw [hc] at e; cases e
      | ok c =>
        rw [hc] at e
        simp only [Except.map, Except.ok.injEq] at e
        subst e
        refine ⟨h.1, addFaculae_phys hc h.2 ?_⟩
        unfold FaculaGenerator.birth at hb
        cases hp : Np.poisson (s.facGen.nExpected t s.radius) k with
        | error x => rw [hp] at hb; cases hb
        | ok n =>
          rw [hp] at hb
          simp only [Except.map, Except.ok.injEq] at hb
          subst hb
          intro f hf
          exact ⟨_, (generated_facula s.facGen hg.rpeak hg.life n _ f hf).1⟩
  | flares t k d =>
    simp only [runOp, Star.getFlares] at e
    cases hb : s.flareGen.series t k d with
    | error x => rw [hb] at e; cases e
    | ok fl =>
      rw [hb] at e
      simp only [Except.map, Except.ok.injEq] at e
      subst e
      exact h
  | age t =>
    simp only [runOp, Except.ok.injEq] at e
    subst e
    exact ⟨fun sp hsp => by obtain ⟨a, ha, -⟩ := sound_age h.1 hop sp hsp; exact sound_live ha, physFAll_age h.2 hop⟩

/-- **C78** From a well-formed star with good generators every history of sensible operations ends in a
well-formed star: each spot has a real area between 0 and its maximum, each facula a positive radius not above its
maximum.  Right after an aging step no spot has area 0. -/
theorem C78_well_formed (s₀ s : Star) (ops : List Op) (hg : GoodGens s₀) (h₀ : WellFormedStar s₀)
    (hops : ∀ op ∈ ops, Sensible s₀.spotGen op) (h : ops.foldlM runOp s₀ = .ok s) :
    WellFormedStar s ∧ ∀ t, 0 ≤ t → ∀ sp ∈ (s.age t).spots.spots, ∃ a, sp.area = .fin a ∧ 0 < a ∧ a ≤ sp.areaMax := by
  have key := history_induction
    (P := fun s => SameSettings s₀ s ∧ WellFormedStar s) ⟨⟨rfl, rfl, rfl, rfl, rfl, rfl, rfl, rfl, rfl, rfl⟩, h₀⟩
    (fun op hop x x' hx e => by
      obtain ⟨hset, hwf⟩ := hx
      refine ⟨sameSettings_trans hset (step_frame e).1, wellFormed_step ?_ hwf ?_ e⟩
      · constructor <;> (try rw [hset.spotGen]) <;> (try rw [hset.facGen])
        exacts [hg.init, hg.mean, hg.growth, hg.decay, hg.matures, hg.rpeak, hg.life]
      · rw [hset.spotGen]; exact hops op hop) h
  refine ⟨key.2, fun t ht sp hsp => ?_⟩
  obtain ⟨a, h1, h2, h3, h4, -⟩ := wellFormed_age key.2.1 ht sp hsp
  refine ⟨a, h1, ?_, h3⟩
  rcases h2.eq_or_lt with h0 | h0
  · subst h0
    have hm : sp ∈ (s.spots.age t).spots := hsp
    simp only [SpotCollection.age, SpotCollection.clean, List.mem_filter] at hm
    have hm2 := hm.2
    rw [h1] at hm2
    have hgr : sp.isGrowing = true := by
      simpa using hm2
    exact absurd (h4 hgr) (lt_irrefl _)
  · exact h0

/-- **C78** (any drawn sizes) Without any condition on the drawn peak areas: every history of sane operations from a sound star ends in
a sound star.  Right after an aging step every spot has a positive area, not above its maximum unless it is static (growth rate 0
and still growing). -/
theorem C78_sound (s₀ s : Star) (ops : List Op) (hg : GoodGens s₀) (h₀ : SoundStar s₀)
    (hops : ∀ op ∈ ops, Sane op) (h : ops.foldlM runOp s₀ = .ok s) :
    SoundStar s ∧ ∀ t, 0 ≤ t → ∀ sp ∈ (s.age t).spots.spots, ∃ a, sp.area = .fin a ∧ 0 < a ∧
      (0 < sp.growthRate ∨ sp.isGrowing = false → a ≤ sp.areaMax) := by
  have key := history_induction
    (P := fun s => SameSettings s₀ s ∧ SoundStar s) ⟨⟨rfl, rfl, rfl, rfl, rfl, rfl, rfl, rfl, rfl, rfl⟩, h₀⟩
    (fun op hop x x' hx e => by
      obtain ⟨hset, hwf⟩ := hx
      refine ⟨sameSettings_trans hset (step_frame e).1, sound_step ?_ hwf (hops op hop) e⟩
      constructor <;> (try rw [hset.spotGen]) <;> (try rw [hset.facGen])
      exacts [hg.init, hg.mean, hg.growth, hg.decay, hg.matures, hg.rpeak, hg.life]) h
  refine ⟨key.2, fun t ht sp hsp => ?_⟩
  obtain ⟨a, ha, hle⟩ := sound_age key.2.1 ht sp hsp
  exact ⟨a, ha.area, ha.pos, fun h => h.elim hle ha.le⟩

/-- The star of the examples: one spot, one facula, and generators that produce something. -/
def Spec.busyStar : Star :=
  { sampleStar (.rect 3 4) [sampleSpot (.rect 3 4)] [sampleFacula (.rect 3 4)] with
    flareGen := sampleFlareGen
    spotGen := SpotGenerator.mk 4 1 2500 2700 1 1 2 .iso 0.5 (.rect 3 4) }

/-- Non-trivial instance of C76: flares are generated, the star is aged, and the integrals are those of the series. -/
example (d : (n : ℕ) → FlareDraws n) : ∃ s fl, [Op.flares 3 2 d, Op.age 1].foldlM runOp busyStar = .ok s ∧
    sampleFlareGen.series 3 2 d = .ok fl ∧ s.flareInt 0 3 0 0 = (FlareCollection.new fl).integrals 0 3 0 0 ∧ fl.length = 2 := by
  obtain ⟨l, h1, -, h3, -⟩ := C73_series_order sampleFlareGen 10 2 3 1 2 d rfl (by norm_num) (by norm_num [sampleFlareGen])
    rfl (by norm_num) (by norm_num [sampleFlareGen]) (by norm_num [sampleFlareGen]) (by norm_num [sampleFlareGen])
    (by norm_num) (by norm_num)
  have hs : [Op.flares 3 2 d, Op.age 1].foldlM runOp busyStar =
      .ok (Star.age { busyStar with flares := some (FlareCollection.new l) } 1) := by
    have : runOp busyStar (.flares 3 2 d) = .ok { busyStar with flares := some (FlareCollection.new l) } := by
      simp only [runOp, Star.getFlares]
      have : busyStar.flareGen = sampleFlareGen := rfl
      rw [this, h1]; rfl
    rw [List.foldlM_cons, this]
    rfl
  obtain ⟨fl, h4, h5⟩ := C76_flare_history.2.2 busyStar _ [] [Op.age 1] 3 2 d (by simp) hs
  refine ⟨_, fl, hs, h4, h5 _ _ _ _, ?_⟩
  have : busyStar.flareGen = sampleFlareGen := rfl
  rw [this, h1, Except.ok.injEq] at h4
  subst h4
  simpa using congrArg List.length h3

/-- Non-trivial instances of C77 and C78: a spot is added, the star is aged by half a day; both old and new spot are
still there and well formed. -/
example : ∃ s, [Op.addSpot [sampleSpot (.rect 3 4)], Op.age (1 / 2)].foldlM runOp busyStar = .ok s ∧
    SameSettings busyStar s ∧ WellFormedStar s := by
  have hwf : WellFormed (sampleSpot (.rect 3 4)) :=
    ⟨1, rfl, by norm_num, by norm_num [sampleSpot, StarSpot.new], fun _ => by norm_num, by norm_num [sampleSpot, StarSpot.new],
      by norm_num [sampleSpot, StarSpot.new]⟩
  have hs : [Op.addSpot [sampleSpot (.rect 3 4)], Op.age (1 / 2)].foldlM runOp busyStar =
      .ok ((busyStar.addSpot [sampleSpot (.rect 3 4)]).age (1 / 2)) := rfl
  refine ⟨_, hs, (C77_history _ _ _ hs).1, (C78_well_formed _ _ _ ⟨?_, ?_, ?_, ?_, ?_, ?_, ?_⟩ ⟨?_, ?_⟩ ?_ hs).1⟩
  iterate 5 norm_num [busyStar]
  · norm_num [busyStar, sampleStar, FaculaGenerator.off]
  · norm_num [busyStar, sampleStar, FaculaGenerator.off]
  · intro sp hsp
    simp only [busyStar, sampleStar, SpotCollection.new, SpotCollection.setGridmaker, List.map_cons, List.map_nil,
      List.mem_singleton] at hsp
    subst hsp
    exact hwf
  · intro f hf
    simp only [busyStar, sampleStar, List.mem_singleton] at hf
    subst hf
    exact ⟨1, sampleFacula_phys _⟩
  · intro op hop
    simp only [List.mem_cons, List.not_mem_nil, or_false] at hop
    rcases hop with rfl | rfl
    · intro sp hsp
      rw [List.mem_singleton] at hsp
      subst hsp; exact hwf
    · simp only [Sensible]; norm_num

/-- Non-trivial instance of the second part of C78: a new spot twice as large as its maximum is added and the star is aged; it is then
not above its maximum. -/
example : ∃ s, [Op.addSpot [StarSpot.new 0 0 4 (.fin 8) 2500 2700 (.fin 5) true 1 1 (.rect 3 4)]].foldlM runOp busyStar = .ok s ∧
    s.spots.spots.length = 2 ∧
    ∀ sp ∈ (s.age (1 / 2)).spots.spots, ∃ a, sp.area = .fin a ∧ 0 < a ∧ (0 < sp.growthRate ∨ sp.isGrowing = false → a ≤ sp.areaMax) := by
  have hs : [Op.addSpot [StarSpot.new 0 0 4 (.fin 8) 2500 2700 (.fin 5) true 1 1 (.rect 3 4)]].foldlM runOp busyStar =
      .ok (busyStar.addSpot [StarSpot.new 0 0 4 (.fin 8) 2500 2700 (.fin 5) true 1 1 (.rect 3 4)]) := rfl
  refine ⟨_, hs, rfl, (C78_sound _ _ _ ⟨?_, ?_, ?_, ?_, ?_, ?_, ?_⟩ ⟨?_, ?_⟩ ?_ hs).2 (1 / 2) (by norm_num)⟩
  iterate 5 norm_num [busyStar]
  · norm_num [busyStar, sampleStar, FaculaGenerator.off]
  · norm_num [busyStar, sampleStar, FaculaGenerator.off]
  · intro sp hsp
    simp only [busyStar, sampleStar, SpotCollection.new, SpotCollection.setGridmaker, List.map_cons, List.map_nil,
      List.mem_singleton] at hsp
    subst hsp
    exact ⟨1, rfl, by norm_num, fun _ => by norm_num [sampleSpot, StarSpot.new, StarSpot.setGridmaker],
      fun _ => ⟨by norm_num, by norm_num [sampleSpot, StarSpot.new, StarSpot.setGridmaker]⟩,
      by norm_num [sampleSpot, StarSpot.new, StarSpot.setGridmaker], by norm_num [sampleSpot, StarSpot.new, StarSpot.setGridmaker]⟩
  · intro f hf
    simp only [busyStar, sampleStar, List.mem_singleton] at hf
    subst hf
    exact ⟨1, sampleFacula_phys _⟩
  · intro op hop
    rw [List.mem_singleton] at hop
    subst hop
    intro sp hsp
    rw [List.mem_singleton] at hsp
    subst hsp
    exact ⟨8, rfl, by norm_num, (fun h => by simp [StarSpot.new] at h), fun _ => ⟨by norm_num, by norm_num [StarSpot.new]⟩,
      by norm_num [StarSpot.new], by norm_num [StarSpot.new]⟩

end Vsm
