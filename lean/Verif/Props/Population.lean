import Verif.Props.StarHistory

/-!
# C105: the population of spots and faculae after any history of operations
-/

noncomputable section

namespace Vsm

open Real

/-! ### The specification -/

/-- What a spot has become after a total time `t` of aging (spec): a growing spot grows by the factor `(1+g)^t` until it
reaches its maximal area, then it shrinks by the decay rate per day and is gone when nothing is left. -/
def Spec.spotLater (t : ℝ) (s : StarSpot) : Option StarSpot :=
  match s.area with
  | .fin a =>
    let T := Real.log (s.areaMax / a) / Real.log (1 + s.growthRate)
    if s.isGrowing = true then
      if s.growthRate = 0 then some s
      else if t < T then some { s with area := .fin (a * (1 + s.growthRate) ^ t) }
      else if (t - T) * s.decayRate < s.areaMax then some { s with isGrowing := false, area := .fin (s.areaMax - (t - T) * s.decayRate) }
      else none
    else if t * s.decayRate < a then some { s with area := .fin (a - t * s.decayRate) }
    else none
  | _ => none

/-- What a facula has become after a total time `t` of aging (spec): it grows by the factor `exp(2t/L)` until it reaches
its maximal radius, shrinks by `exp(-2t/L)` afterwards, and is gone when it has shrunk to `r_max/e²`. -/
def Spec.faculaLater (t : ℝ) (f : Facula) : Option Facula :=
  match f.radius with
  | .fin r =>
    let T := f.lifetime / 2 * Real.log (f.rMax / r)
    if f.isGrowing = true then
      if t < T then some { f with radius := .fin (r * exp (2 * t / f.lifetime)) }
      else if t < T + f.lifetime then some { f with isGrowing := false, radius := .fin (f.rMax * exp (-2 * (t - T) / f.lifetime)) }
      else none
    else if f.rMax * exp (-2) < r * exp (-2 * t / f.lifetime) then some { f with radius := .fin (r * exp (-2 * t / f.lifetime)) }
    else none
  | _ => none

/-- What has become of a list of features after the time steps `ts` (spec). -/
def Spec.later {α : Type} (f : ℝ → α → Option α) (ts : List ℝ) (l : List α) : List α :=
  if ts = [] then l else l.filterMap (f ts.sum)

/-- The features on the star at the end of a history when operation number `i` added the features `news[i]` (spec):
every one of them has aged by what came after its addition. -/
def Spec.population {α : Type} (f : ℝ → α → Option α) : List Op → List (List α) → List α
  | _ :: ops, new :: news => Spec.later f (ages ops) new ++ Spec.population f ops news
  | _, _ => []

/-- The spots that an operation hands to the star (spec). -/
def Spec.spotsOf (s : Star) : Op → List StarSpot → Prop
  | .addSpot new, l => l = new
  | .birthSpots t k d, l => s.spotGen.birth t s.radius k d = .ok l
  | .matureSpots c d, l => s.spotGen.generateMature c s.radius d = .ok l
  | _, l => l = []

/-- The faculae that an operation hands to the star (spec). -/
def Spec.faculaeOf (s : Star) : Op → List Facula → Prop
  | .addFac new, l => l = new
  | .birthFaculae t k d, l => s.facGen.birth t s.radius k d = .ok l
  | _, l => l = []

/-- The spots placed on the grid `g` (spec). -/
def Spec.spotsOn (g : Grid) (l : List StarSpot) : List StarSpot := l.map fun s => { s with grid := g }

/-- The faculae placed on the grid `g` (spec). -/
def Spec.faculaeOn (g : Grid) (l : List Facula) : List Facula := l.map fun f => { f with grid := g }

open Spec

/-! ### Spots -/

theorem spotLater_eq {s : StarSpot} {t : ℝ} (h : Sound s) (ht : 0 ≤ t) : ageOpt t s = spotLater t s := by
  rcases sound_cases h with ⟨a, ha⟩ | ⟨h1, h2, h3⟩
  · unfold spotLater
    rw [ha.area]
    by_cases hg : s.isGrowing = true
    · simp only
      rw [if_pos hg]
      by_cases h0 : s.growthRate = 0
      · rw [if_pos h0]; exact ageOpt_static ha hg h0 t
      · have h0' : 0 < s.growthRate := lt_of_le_of_ne ha.growth (Ne.symm h0)
        rw [if_neg h0, ageOpt_grow ha hg h0', rpow_def_of_pos (by linarith : 0 < 1 + s.growthRate)]
        rfl
    · have hg' : s.isGrowing = false := by simpa using hg
      simp only [if_neg hg]
      exact ageOpt_decay ha hg' t
  · rw [ageOpt_zero h1 h2 h3 ht]
    unfold spotLater
    have := mul_nonneg ht h3
    simp only [h1, h2, Bool.false_eq_true, if_false]
    rw [if_neg (by linarith)]

theorem spots_age {c : SpotCollection} (h : ∀ s ∈ c.spots, Sound s) {t : ℝ} (ht : 0 ≤ t) :
    (c.age t).spots = c.spots.filterMap (spotLater t) := by
  rw [collection_age]
  apply List.filterMap_congr
  intro s hs
  exact spotLater_eq (h s hs) ht

theorem spotLater_add {s : StarSpot} {t u : ℝ} (h : Sound s) (ht : 0 ≤ t) (hu : 0 ≤ u) :
    (spotLater t s).bind (spotLater u) = spotLater (t + u) s := by
  rw [← spotLater_eq h ht, ← spotLater_eq h (add_nonneg ht hu)]
  rcases sound_cases h with ⟨a, ha⟩ | ⟨h1, h2, h3⟩
  · rw [← ageOpt_add ha ht hu]
    cases e : ageOpt t s with
    | none => rfl
    | some s' =>
      obtain ⟨a', ha'⟩ := live_ageOpt ha ht e
      simp only [Option.bind_some]
      exact (spotLater_eq (sound_live ha') hu).symm
  · rw [ageOpt_zero h1 h2 h3 ht, ageOpt_zero h1 h2 h3 (add_nonneg ht hu)]; rfl

/-! ### Faculae -/

theorem timeLeft_eq {f : Facula} {r : ℝ} (h : PhysF f r) :
    timeLeft f.rMax r f.lifetime = f.lifetime / 2 * Real.log (f.rMax / r) := by
  have hmax : 0 < f.rMax := h.pos.trans_le h.le
  unfold timeLeft
  rw [log_div h.pos.ne' hmax.ne', log_div hmax.ne' h.pos.ne']
  ring

open Classical in
theorem faculaLater_eq {f : Facula} {r t : ℝ} (h : PhysF f r) :
    (if dead (f.age t) then none else some (f.age t)) = faculaLater t f := by
  have hmax : 0 < f.rMax := h.pos.trans_le h.le
  have hl := h.life
  unfold faculaLater
  rw [h.radius]
  simp only
  rw [← timeLeft_eq h]
  by_cases hg : f.isGrowing = true
  · rw [if_pos hg, facula_grow h hg]
    by_cases h1 : timeLeft f.rMax r f.lifetime ≤ t
    · rw [if_pos h1, if_neg (not_lt.mpr h1)]
      have hd : dead { f with isGrowing := false, radius := .fin (f.rMax * exp (-2 * (t - timeLeft f.rMax r f.lifetime) / f.lifetime)) } ↔
          ¬ t < timeLeft f.rMax r f.lifetime + f.lifetime := by
        unfold dead
        simp only [Fl.fin_le, and_true]
        rw [mul_le_mul_iff_right₀ hmax, exp_le_exp, div_le_iff₀ hl, not_lt]
        constructor <;> intro <;> linarith
      by_cases h2 : t < timeLeft f.rMax r f.lifetime + f.lifetime
      · rw [if_neg (fun h => hd.mp h h2), if_pos h2]
      · rw [if_pos (hd.mpr h2), if_neg h2]
    · rw [if_neg h1, if_pos (not_le.mp h1), if_neg]
      unfold dead
      simp [hg]
  · have hg' : f.isGrowing = false := by simpa using hg
    rw [if_neg hg, facula_decay h hg']
    unfold dead
    simp only [Fl.fin_le, hg', and_true]
    by_cases h2 : f.rMax * exp (-2) < r * exp (-2 * t / f.lifetime)
    · rw [if_neg (not_le.mpr h2), if_pos h2]
    · rw [if_pos (not_lt.mp h2), if_neg h2]

theorem faculae_later {c : FaculaCollection} (h : PhysFAll c) (t : ℝ) :
    (c.age t).faculae = c.faculae.filterMap (faculaLater t) := by
  classical
  rw [faculae_age]
  simp only
  have : ∀ l : List Facula, (∀ f ∈ l, ∃ r, PhysF f r) →
      (l.map (·.age t)).filter (fun f => decide (¬ dead f)) = l.filterMap (faculaLater t) := by
    intro l
    induction l with
    | nil => intro _; rfl
    | cons f l ih =>
      intro hl
      obtain ⟨r, hr⟩ := hl f (by simp)
      rw [List.map_cons, List.filter_cons, List.filterMap_cons, ← faculaLater_eq hr,
        ih fun g hg => hl g (by simp [hg])]
      by_cases hd : dead (f.age t) <;> simp [hd]
  exact this _ h

/-! ### Histories -/

theorem later_append {α : Type} (f : ℝ → α → Option α) (ts : List ℝ) (l l' : List α) :
    later f ts (l ++ l') = later f ts l ++ later f ts l' := by
  unfold later
  split_ifs
  · rfl
  · rw [List.filterMap_append]

theorem later_nil {α : Type} (f : ℝ → α → Option α) (ts : List ℝ) : later f ts [] = [] := by
  unfold later
  split_ifs <;> rfl

theorem later_cons {α : Type} (f : ℝ → α → Option α) (t : ℝ) (ts : List ℝ) (l : List α)
    (h : ∀ x ∈ l, (f t x).bind (f ts.sum) = f (t + ts.sum) x) :
    later f ts (l.filterMap (f t)) = later f (t :: ts) l := by
  unfold later
  rw [if_neg (List.cons_ne_nil _ _), List.sum_cons]
  split_ifs with h0
  · subst h0; rw [List.sum_nil, add_zero]
  · rw [List.filterMap_filterMap]
    exact List.filterMap_congr h

theorem ages_nonneg {ops : List Op} (h : ∀ op ∈ ops, Sane op) : ∀ t ∈ ages ops, 0 ≤ t := by
  induction ops with
  | nil => simp [ages]
  | cons op ops ih =>
    have ih' := ih fun o ho => h o (by simp [ho])
    cases op with
    | age t =>
      intro u hu
      rcases List.mem_cons.mp hu with rfl | hu
      · exact h (.age u) (by simp)
      · exact ih' u hu
    | _ => exact ih'

/-- What one operation does to the spots. -/
theorem spots_step {s s' : Star} {op : Op} (e : runOp s op = .ok s') : ∃ new, spotsOf s op new ∧
    s'.spots.grid = s.spots.grid ∧
    s'.spots.spots = ((ages [op]).foldl SpotCollection.age s.spots).spots ++ spotsOn s.spots.grid new := by
  cases op with
  | addSpot new =>
    simp only [runOp, Except.ok.injEq] at e
    subst e
    exact ⟨new, rfl, rfl, rfl⟩
  | birthSpots t k d =>
    simp only [runOp, Star.birthSpots] at e
    cases hb : s.spotGen.birth t s.radius k d with
    | error x => rw [hb] at e; cases e
    | ok new =>
      rw [hb] at e
      simp only [Except.map, Except.ok.injEq] at e
      subst e
      exact ⟨new, hb, rfl, rfl⟩
  | matureSpots c d =>
    simp only [runOp, Star.generateMatureSpots] at e
    cases hb : s.spotGen.generateMature c s.radius d with
    | error x => rw [hb] at e; cases e
    | ok new =>
      rw [hb] at e
      simp only [Except.map, Except.ok.injEq] at e
      subst e
      exact ⟨new, hb, rfl, rfl⟩
  | addFac new => exact ⟨[], rfl, by rw [(step_frame e).2.2.2.2.1 id]; rfl, by rw [(step_frame e).2.2.2.2.1 id]; simp [spotsOn]⟩
  | birthFaculae t k d =>
    exact ⟨[], rfl, by rw [(step_frame e).2.2.2.2.1 id]; rfl, by rw [(step_frame e).2.2.2.2.1 id]; simp [spotsOn]⟩
  | flares t k d =>
    exact ⟨[], rfl, by rw [(step_frame e).2.2.2.2.1 id]; rfl, by rw [(step_frame e).2.2.2.2.1 id]; simp [spotsOn]⟩
  | age t =>
    exact ⟨[], rfl, by rw [(step_frame e).2.2.2.2.1 id]; rfl, by rw [(step_frame e).2.2.2.2.1 id]; simp [spotsOn]⟩

theorem addFaculae_on {c c' : FaculaCollection} {new : List Facula} (e : c.addFaculae new = .ok c') :
    c'.grid = c.grid ∧ c'.faculae = c.faculae ++ faculaeOn c.grid new := by
  by_cases hc : ∀ f ∈ new, comparable f.grid c.grid
  · rw [(C39_add_faculae_partial c new).1 hc, Except.ok.injEq] at e
    subst e
    exact ⟨rfl, rfl⟩
  · push Not at hc
    rw [(C39_add_faculae_partial c new).2 hc] at e
    cases e

/-- What one operation does to the faculae. -/
theorem faculae_step {s s' : Star} {op : Op} (e : runOp s op = .ok s') : ∃ new, faculaeOf s op new ∧
    s'.faculae.grid = s.faculae.grid ∧
    s'.faculae.faculae = ((ages [op]).foldl FaculaCollection.age s.faculae).faculae ++ faculaeOn s.faculae.grid new := by
  cases op with
  | addFac new =>
    simp only [runOp, Star.addFac] at e
    cases hb : s.faculae.addFaculae new with
    | error x => rw [hb] at e; cases e
    | ok c =>
      rw [hb] at e
      simp only [Except.map, Except.ok.injEq] at e
      subst e
      exact ⟨new, rfl, addFaculae_on hb⟩
  | birthFaculae t k d =>
    simp only [runOp, Star.birthFaculae] at e
    cases hb : s.facGen.birth t s.radius k d with
    | error x => rw [hb] at e; cases e
    | ok new =>
      rw [hb] at e
      simp only [Except.bind, Star.addFac] at e
      cases hc : s.faculae.addFaculae new with
      | error x => rw [hc] at e; cases e
      | ok c =>
        rw [hc] at e
        simp only [Except.map, Except.ok.injEq] at e
        subst e
        exact ⟨new, hb, addFaculae_on hc⟩
  | addSpot new => exact ⟨[], rfl, by rw [(step_frame e).2.2.2.2.2 id]; rfl, by rw [(step_frame e).2.2.2.2.2 id]; simp [faculaeOn]⟩
  | birthSpots t k d =>
    exact ⟨[], rfl, by rw [(step_frame e).2.2.2.2.2 id]; rfl, by rw [(step_frame e).2.2.2.2.2 id]; simp [faculaeOn]⟩
  | matureSpots t d =>
    exact ⟨[], rfl, by rw [(step_frame e).2.2.2.2.2 id]; rfl, by rw [(step_frame e).2.2.2.2.2 id]; simp [faculaeOn]⟩
  | flares t k d =>
    exact ⟨[], rfl, by rw [(step_frame e).2.2.2.2.2 id]; rfl, by rw [(step_frame e).2.2.2.2.2 id]; simp [faculaeOn]⟩
  | age t =>
    exact ⟨[], rfl, by rw [(step_frame e).2.2.2.2.2 id]; rfl, by rw [(step_frame e).2.2.2.2.2 id]; simp [faculaeOn]⟩

theorem spotsOf_settings {s s' : Star} (h : SameSettings s s') {op : Op} {l : List StarSpot} (k : spotsOf s' op l) :
    spotsOf s op l := by
  cases op <;> simp only [spotsOf] at k ⊢ <;> first | exact k | (rw [h.spotGen, h.radius] at k; exact k)

theorem faculaeOf_settings {s s' : Star} (h : SameSettings s s') {op : Op} {l : List Facula} (k : faculaeOf s' op l) :
    faculaeOf s op l := by
  cases op <;> simp only [faculaeOf] at k ⊢ <;> first | exact k | (rw [h.facGen, h.radius] at k; exact k)

/-- **C105** After any history of sensible operations the spots on the star are, in the order in which they were added,
exactly those that were there at the beginning or handed to the star by an operation (by hand, or drawn by its
generator) and have not died since; each has the area and the growth phase that its own closed formula gives for the
total time aged since it was added, and is otherwise as it was added.  The same holds for the faculae. -/
theorem C105_population (s₀ s : Star) (ops : List Op) (hg : GoodGens s₀) (h₀ : SoundStar s₀)
    (hops : ∀ op ∈ ops, Sane op) (h : ops.foldlM runOp s₀ = .ok s) :
    (∃ news, List.Forall₂ (spotsOf s₀) ops news ∧
      s.spots.spots = later spotLater (ages ops) s₀.spots.spots ++
        population spotLater ops (news.map (spotsOn s₀.spots.grid))) ∧
    (∃ newf, List.Forall₂ (faculaeOf s₀) ops newf ∧
      s.faculae.faculae = later faculaLater (ages ops) s₀.faculae.faculae ++
        population faculaLater ops (newf.map (faculaeOn s₀.faculae.grid))) := by
  induction ops generalizing s₀ with
  | nil =>
    simp only [List.foldlM_nil] at h
    change Except.ok s₀ = _ at h
    simp only [Except.ok.injEq] at h
    subst h
    exact ⟨⟨[], .nil, by simp [later, population, ages]⟩, [], .nil, by simp [later, population, ages]⟩
  | cons op ops ih =>
    rw [List.foldlM_cons] at h
    cases hs : runOp s₀ op with
    | error e => rw [hs] at h; cases h
    | ok s₁ =>
      rw [hs] at h
      have hset := (step_frame hs).1
      have hop := hops op (by simp)
      have hrest : ∀ o ∈ ops, Sane o := fun o ho => hops o (by simp [ho])
      have hnn := List.sum_nonneg (ages_nonneg hrest)
      obtain ⟨⟨news, k1, k2⟩, newf, k3, k4⟩ := ih s₁
        (by
          constructor <;> (try rw [hset.spotGen]) <;> (try rw [hset.facGen])
          exacts [hg.init, hg.mean, hg.growth, hg.decay, hg.matures, hg.rpeak, hg.life])
        (sound_step hg h₀ hop hs) hrest h
      obtain ⟨new, a1, a2, a3⟩ := spots_step hs
      obtain ⟨nwf, b1, b2, b3⟩ := faculae_step hs
      constructor
      · refine ⟨new :: news, .cons a1 (k1.imp fun _ _ => spotsOf_settings hset), ?_⟩
        rw [k2, a3, a2, later_append, List.map_cons, population, List.append_assoc]
        congr 1
        cases op with
        | age t =>
          have ht : 0 ≤ t := hop
          simp only [ages, List.foldl_cons, List.foldl_nil]
          rw [spots_age h₀.1 ht]
          exact later_cons _ _ _ _ fun x hx => spotLater_add (h₀.1 x hx) ht hnn
        | _ => rfl
      · refine ⟨nwf :: newf, .cons b1 (k3.imp fun _ _ => faculaeOf_settings hset), ?_⟩
        rw [k4, b3, b2, later_append, List.map_cons, population, List.append_assoc]
        congr 1
        cases op with
        | age t =>
          have ht : 0 ≤ t := hop
          simp only [ages, List.foldl_cons, List.foldl_nil]
          unfold later
          rw [if_neg (List.cons_ne_nil _ _), List.sum_cons, ← faculae_later (c := s₀.faculae) h₀.2 (t + (ages ops).sum)]
          by_cases h0 : ages ops = []
          · rw [if_pos h0, h0, List.sum_nil, add_zero]
          · rw [if_neg h0, ← C32_age_add _ h₀.2 t _ ht hnn]
            exact (faculae_later (physFAll_age h₀.2 ht) _).symm
        | _ => rfl

/-- **C105** (lifetimes) A spot born growing with area `a` is among the spots at age `t` exactly when `t` is less than
`log(area_max/a)/log(1+g) + area_max/w`; a facula born with radius `r_max/e²` exactly when `t` is less than two of its
lifetimes. -/
theorem C105_lifetimes :
    (∀ (s : StarSpot) (a t : ℝ), Live s a → s.isGrowing = true → 0 < s.growthRate → 0 < s.decayRate →
      ((spotLater t s).isSome ↔ t < Real.log (s.areaMax / a) / Real.log (1 + s.growthRate) + s.areaMax / s.decayRate)) ∧
    (∀ (f : Facula) (t : ℝ), PhysF f (f.rMax * exp (-2)) → f.isGrowing = true →
      ((faculaLater t f).isSome ↔ t < 2 * f.lifetime)) := by
  constructor
  · intro s a t h hg h0 hw
    have hmax : 0 < s.areaMax := h.top
    have hp : 0 < s.areaMax / s.decayRate := by positivity
    unfold spotLater
    rw [h.area]
    simp only [hg, if_true, if_neg h0.ne']
    split_ifs with h1 h2
    · simp only [Option.isSome_some, true_iff]; linarith
    · simp only [Option.isSome_some, true_iff]
      rw [← lt_div_iff₀ hw] at h2; linarith
    · simp only [Option.isSome_none, Bool.false_eq_true, false_iff]
      rw [← lt_div_iff₀ hw] at h2; linarith
  · intro f t h hg
    have hT := newborn_timeLeft h
    rw [timeLeft_eq h] at hT
    have hl := h.life
    unfold faculaLater
    rw [h.radius]
    simp only [hg, if_true, hT]
    split_ifs with h1 h2
    · simp only [Option.isSome_some, true_iff]; linarith
    · simp only [Option.isSome_some, true_iff]; linarith
    · simp only [Option.isSome_none, Bool.false_eq_true, false_iff]; linarith

/-- Non-trivial instance of C105: a star with a spot at its maximum (area 1, decay 1 per day) is aged by half a day, gets
another such spot and is aged by a quarter of a day: the areas are then 1/4 and 3/4. -/
example : ∃ s, [Op.age (1 / 2), Op.addSpot [sampleSpot (.rect 3 4)], Op.age (1 / 4)].foldlM runOp busyStar = .ok s ∧
    s.spots.spots.map (·.area) = [.fin (1 / 4), .fin (3 / 4)] := by
  have hwf : WellFormed (sampleSpot (.rect 3 4)) :=
    ⟨1, rfl, by norm_num, by norm_num [sampleSpot, StarSpot.new], fun _ => by norm_num, by norm_num [sampleSpot, StarSpot.new],
      by norm_num [sampleSpot, StarSpot.new]⟩
  have hs : [Op.age (1 / 2), Op.addSpot [sampleSpot (.rect 3 4)], Op.age (1 / 4)].foldlM runOp busyStar =
      .ok (((busyStar.age (1 / 2)).addSpot [sampleSpot (.rect 3 4)]).age (1 / 4)) := rfl
  refine ⟨_, hs, ?_⟩
  have hgood : GoodGens busyStar := by
    refine ⟨?_, ?_, ?_, ?_, ?_, ?_, ?_⟩
    · norm_num [busyStar]
    · norm_num [busyStar]
    · norm_num [busyStar]
    · norm_num [busyStar]
    · norm_num [busyStar]
    · norm_num [busyStar, sampleStar, FaculaGenerator.off]
    · norm_num [busyStar, sampleStar, FaculaGenerator.off]
  have hstar : WellFormedStar busyStar := by
    refine ⟨?_, ?_⟩
    · intro sp hsp
      simp only [busyStar, sampleStar, SpotCollection.new, SpotCollection.setGridmaker, List.map_cons, List.map_nil,
        List.mem_singleton] at hsp
      subst hsp
      exact hwf
    · intro f hf
      simp only [busyStar, sampleStar, List.mem_singleton] at hf
      subst hf
      exact ⟨1, sampleFacula_phys _⟩
  have hsens : ∀ op ∈ [Op.age (1 / 2), Op.addSpot [sampleSpot (.rect 3 4)], Op.age (1 / 4)], Sensible busyStar.spotGen op := by
    intro op hop
    simp only [List.mem_cons, List.not_mem_nil, or_false] at hop
    rcases hop with rfl | rfl | rfl
    · simp only [Sensible]; norm_num
    · intro sp hsp
      rw [List.mem_singleton] at hsp
      subst hsp; exact hwf
    · simp only [Sensible]; norm_num
  obtain ⟨⟨news, h1, h2⟩, -⟩ := C105_population busyStar _ _ hgood hstar.sound (fun op hop => (hsens op hop).sane) hs
  rw [h2]
  rcases h1 with _ | ⟨ha, h1⟩
  rcases h1 with _ | ⟨hb, h1⟩
  rcases h1 with _ | ⟨hc, h1⟩
  cases h1
  simp only [spotsOf] at ha hb hc
  subst ha hb hc
  have hl : ∀ t, 0 ≤ t → t < 1 → spotLater t (sampleSpot (.rect 3 4)) =
      some { sampleSpot (.rect 3 4) with isGrowing := false, area := .fin (1 - t) } := by
    intro t h0 h1
    simp only [spotLater, sampleSpot, StarSpot.new]
    norm_num [h0.not_gt, h1]
  have e : busyStar.spots.spots = [sampleSpot (.rect 3 4)] := rfl
  have e' : spotsOn busyStar.spots.grid [sampleSpot (.rect 3 4)] = [sampleSpot (.rect 3 4)] := rfl
  have e0 : spotsOn busyStar.spots.grid [] = [] := rfl
  simp only [List.map_cons, List.map_nil, e, e', e0, population, ages, List.append_nil, later,
    if_neg (List.cons_ne_nil _ _), List.sum_cons, List.sum_nil, List.filterMap_cons, List.filterMap_nil]
  rw [hl _ (by norm_num) (by norm_num), hl _ (by norm_num) (by norm_num)]
  norm_num

end Vsm
