import Verif.Model.Faculae
import Mathlib.MeasureTheory.Integral.IntervalIntegral.FundThmCalculus
import Mathlib.Analysis.SpecialFunctions.Integrals.Basic
import Mathlib.Analysis.Complex.ExponentialBounds

/-!
# C31 – C33, C37, C38: evolution of faculae
-/

noncomputable section

namespace Vsm

open Real

/-- A facula with physically sensible numbers and current radius `r`. -/
structure Spec.PhysF (f : Facula) (r : ℝ) : Prop where
  radius : f.radius = .fin r
  pos : 0 < r
  le : r ≤ f.rMax
  life : 0 < f.lifetime

open Spec

theorem exp_lt_one_of {x : ℝ} (h : x < 0) : Real.exp x < 1 := by
  rw [← Real.exp_zero]; exact Real.exp_lt_exp.mpr h

/-- Time left until a growing facula of radius `r` reaches its maximum (spec). -/
def Spec.timeLeft (rmax r L : ℝ) : ℝ := -Real.log (r / rmax) * L * 0.5

theorem facula_grow {f : Facula} {r : ℝ} (h : PhysF f r) (hg : f.isGrowing = true) (t : ℝ) :
    f.age t = if timeLeft f.rMax r f.lifetime ≤ t then
        { f with isGrowing := false, radius := .fin (f.rMax * exp (-2 * (t - timeLeft f.rMax r f.lifetime) / f.lifetime)) }
      else { f with radius := .fin (r * exp (2 * t / f.lifetime)) } := by
  have hmax : 0 < f.rMax := h.pos.trans_le h.le
  have hT : Fl.fin (-1) * Fl.log (.fin r / .fin f.rMax) * .fin f.lifetime * .fin 0.5 =
      .fin (timeLeft f.rMax r f.lifetime) := by
    rw [Fl.fin_div hmax.ne', Fl.log_fin (div_pos h.pos hmax)]
    simp only [Fl.fin_mul, timeLeft]
    ring_nf
  simp only [Facula.age, hg, if_true, h.radius, hT, Fl.fin_le, Fl.fin_sub, Fl.fin_mul]
  rw [Fl.fin_div h.life.ne', Fl.fin_div h.life.ne']
  rfl

theorem facula_decay {f : Facula} {r : ℝ} (h : PhysF f r) (hg : f.isGrowing = false) (t : ℝ) :
    f.age t = { f with radius := .fin (r * exp (-2 * t / f.lifetime)) } := by
  simp only [Facula.age, hg, h.radius, Bool.false_eq_true, if_false]
  rw [Fl.fin_div h.life.ne']
  rfl

theorem timeLeft_nonneg {f : Facula} {r : ℝ} (h : PhysF f r) : 0 ≤ timeLeft f.rMax r f.lifetime := by
  have hmax : 0 < f.rMax := h.pos.trans_le h.le
  have : Real.log (r / f.rMax) ≤ 0 := log_nonpos (div_nonneg h.pos.le hmax.le) ((div_le_one hmax).mpr h.le)
  have hl := h.life
  unfold timeLeft
  have : 0 ≤ -Real.log (r / f.rMax) := by linarith
  positivity

theorem radius_eq {f : Facula} {r : ℝ} (h : PhysF f r) :
    r = f.rMax * exp (-2 * timeLeft f.rMax r f.lifetime / f.lifetime) := by
  have hmax : 0 < f.rMax := h.pos.trans_le h.le
  have : -2 * timeLeft f.rMax r f.lifetime / f.lifetime = Real.log (r / f.rMax) := by
    unfold timeLeft
    have := h.life.ne'
    field_simp
    ring
  rw [this, exp_log (div_pos h.pos hmax)]
  field_simp

theorem timeLeft_unique {rmax r L T : ℝ} (hmax : 0 < rmax) (hL : 0 < L) (h : r = rmax * exp (-2 * T / L)) :
    timeLeft rmax r L = T := by
  unfold timeLeft
  rw [h, mul_div_cancel_left₀ _ hmax.ne', log_exp]
  field_simp
  ring

theorem physF_age {f : Facula} {r t : ℝ} (h : PhysF f r) (ht : 0 ≤ t) :
    ∃ r', PhysF (f.age t) r' := by
  have hmax : 0 < f.rMax := h.pos.trans_le h.le
  have hl := h.life
  by_cases hg : f.isGrowing = true
  · rw [facula_grow h hg]
    split_ifs with h1
    · refine ⟨_, rfl, by positivity, ?_, h.life⟩
      have : exp (-2 * (t - timeLeft f.rMax r f.lifetime) / f.lifetime) ≤ 1 := by
        apply exp_le_one_iff.mpr
        apply div_nonpos_of_nonpos_of_nonneg _ hl.le
        linarith
      simp only; nlinarith
    · have hr := h.pos
      refine ⟨_, rfl, by positivity, ?_, h.life⟩
      simp only
      have : r * exp (2 * t / f.lifetime) = f.rMax * exp (2 * (t - timeLeft f.rMax r f.lifetime) / f.lifetime) := by
        conv_lhs => rw [radius_eq h]
        rw [mul_assoc, ← exp_add]
        ring_nf
      rw [this]
      have : exp (2 * (t - timeLeft f.rMax r f.lifetime) / f.lifetime) ≤ 1 := by
        apply exp_le_one_iff.mpr
        apply div_nonpos_of_nonpos_of_nonneg _ hl.le
        linarith
      nlinarith
  · have hr := h.pos
    have hle := h.le
    rw [facula_decay h (by simpa using hg)]
    refine ⟨_, rfl, by positivity, ?_, h.life⟩
    simp only
    have : exp (-2 * t / f.lifetime) ≤ 1 := by
      apply exp_le_one_iff.mpr
      apply div_nonpos_of_nonpos_of_nonneg _ hl.le
      linarith
    nlinarith

/-- Two steps of a facula are one step. -/
theorem facula_age_add {f : Facula} {r t u : ℝ} (h : PhysF f r) (ht : 0 ≤ t) (hu : 0 ≤ u) :
    (f.age t).age u = f.age (t + u) := by
  have hmax : 0 < f.rMax := h.pos.trans_le h.le
  have hl := h.life
  obtain ⟨r', h'⟩ := physF_age h ht
  by_cases hg : f.isGrowing = true
  · rw [facula_grow h hg (t + u)]
    have e := facula_grow h hg t
    by_cases h1 : timeLeft f.rMax r f.lifetime ≤ t
    · rw [if_pos h1] at e
      rw [e] at h' ⊢
      have hr' := h'.radius
      simp only [Fl.fin_inj] at hr'
      rw [facula_decay h' rfl, if_pos (by linarith), ← hr', mul_assoc, ← exp_add]
      ring_nf
    · rw [if_neg h1] at e
      rw [e] at h' ⊢
      have hr' := h'.radius
      simp only [Fl.fin_inj] at hr'
      have hT : timeLeft f.rMax r' f.lifetime = timeLeft f.rMax r f.lifetime - t := by
        apply timeLeft_unique hmax hl
        rw [← hr']
        conv_lhs => rw [radius_eq h]
        rw [mul_assoc, ← exp_add]
        ring_nf
      rw [facula_grow h' hg]
      simp only [hT]
      have e1 : (timeLeft f.rMax r f.lifetime - t ≤ u) ↔ (timeLeft f.rMax r f.lifetime ≤ t + u) := by
        constructor <;> intro <;> linarith
      simp only [e1]
      rw [← hr', mul_assoc, ← exp_add]
      ring_nf
  · have hg' : f.isGrowing = false := by simpa using hg
    have e := facula_decay h hg' t
    rw [e] at h' ⊢
    have hr' := h'.radius
    simp only [Fl.fin_inj] at hr'
    rw [facula_decay h' hg', facula_decay h hg', ← hr', mul_assoc, ← exp_add]
    ring_nf

theorem facula_frame (f : Facula) (t : ℝ) : (f.age t).rMax = f.rMax ∧ (f.age t).lifetime = f.lifetime ∧
    (f.age t).lat = f.lat ∧ (f.age t).lon = f.lon ∧ (f.age t).grid = f.grid ∧ (f.age t).depth = f.depth := by
  unfold Facula.age
  simp only
  split_ifs <;> exact ⟨rfl, rfl, rfl, rfl, rfl, rfl⟩

/-! ## C31 -/

/-- **C31** (one step) A step keeps `0 < radius ≤ r_max`; the radius grows as long as the facula is still
growing after the step (strictly if time passes), it shrinks once the facula is past its maximum (strictly
if time passes), and such a facula never grows again. -/
theorem C31_radius_step (f : Facula) (r t : ℝ) (h : PhysF f r) (ht : 0 ≤ t) :
    ∃ r', (f.age t).radius = .fin r' ∧ 0 < r' ∧ r' ≤ f.rMax ∧
      ((f.age t).isGrowing = true → r ≤ r' ∧ (0 < t → r < r')) ∧
      (f.isGrowing = false → (f.age t).isGrowing = false ∧ r' ≤ r ∧ (0 < t → r' < r)) := by
  obtain ⟨r', h'⟩ := physF_age h ht
  have hmax := (facula_frame f t).1
  have hr := h.pos
  have hl := h.life
  refine ⟨r', h'.radius, h'.pos, hmax ▸ h'.le, ?_, ?_⟩
  · intro hg'
    by_cases hg : f.isGrowing = true
    · have e := facula_grow h hg t
      split_ifs at e with h1
      · rw [e] at hg'; simp at hg'
      · have := h'.radius
        rw [e] at this
        simp only [Fl.fin_inj] at this
        rw [← this]
        constructor
        · have : 1 ≤ exp (2 * t / f.lifetime) := one_le_exp (by positivity)
          nlinarith
        · intro ht'
          have : 1 < exp (2 * t / f.lifetime) := one_lt_exp_iff.mpr (by positivity)
          nlinarith
    · have hg'' : f.isGrowing = false := by simpa using hg
      rw [facula_decay h hg''] at hg'
      exact absurd hg' hg
  · intro hg
    have e := facula_decay h hg t
    have := h'.radius
    rw [e] at this
    simp only [Fl.fin_inj] at this
    rw [← this, e]
    refine ⟨hg, ?_, fun ht' => ?_⟩
    · have : exp (-2 * t / f.lifetime) ≤ 1 := exp_le_one_iff.mpr (div_nonpos_of_nonpos_of_nonneg (by linarith) hl.le)
      nlinarith
    · have : exp (-2 * t / f.lifetime) < 1 := exp_lt_one_of (div_neg_of_neg_of_pos (by linarith) hl)
      nlinarith

theorem physF_history (ts : List ℝ) (f : Facula) (r : ℝ) (h : PhysF f r) (hts : ∀ t ∈ ts, 0 ≤ t) :
    (∃ r', PhysF (ts.foldl Facula.age f) r') ∧ (ts.foldl Facula.age f).rMax = f.rMax := by
  induction ts generalizing f r with
  | nil => exact ⟨⟨r, h⟩, rfl⟩
  | cons t ts ih =>
    obtain ⟨r', h'⟩ := physF_age h (hts t (by simp))
    obtain ⟨h1, h2⟩ := ih (f.age t) r' h' fun x hx => hts x (by simp [hx])
    exact ⟨h1, h2.trans (facula_frame f t).1⟩

/-- **C31** (histories) After every history of non-negative steps `0 < radius ≤ r_max`. -/
theorem C31_radius_bounds (f : Facula) (r : ℝ) (h : PhysF f r) (ts : List ℝ) (hts : ∀ t ∈ ts, 0 ≤ t) :
    ∃ r', (ts.foldl Facula.age f).radius = .fin r' ∧ 0 < r' ∧ r' ≤ f.rMax := by
  obtain ⟨⟨r', h'⟩, h2⟩ := physF_history ts f r h hts
  exact ⟨r', h'.radius, h'.pos, h2 ▸ h'.le⟩

/-- A concrete facula for the examples: maximum 4, radius 1, lifetime 2 days. -/
def Spec.sampleFacula (g : Grid) : Facula :=
  { lat := 0, lon := 0, rMax := 4, radius := .fin 1, depth := 1, lifetime := 2, floorSlope := 0
    floorMinRad := 1 / 2, floorBase := -100, wallSlope := 0, wallIntercept := 100, isGrowing := true, grid := g }

theorem sampleFacula_phys (g : Grid) : PhysF (sampleFacula g) 1 :=
  ⟨rfl, one_pos, by norm_num [sampleFacula], by norm_num [sampleFacula]⟩

/-- Non-trivial instance of C31. -/
example (g : Grid) : ∃ r', ([1, 3, 2].foldl Facula.age (sampleFacula g)).radius = .fin r' ∧ 0 < r' ∧ r' ≤ 4 :=
  C31_radius_bounds _ 1 (sampleFacula_phys g) _ (by simp)

/-! ## C32 -/

/-- Every facula of the collection is physical. -/
def Spec.PhysFAll (c : FaculaCollection) : Prop := ∀ f ∈ c.faculae, ∃ r, PhysF f r

/-- The facula is to be removed (spec): past its maximum and shrunk to `r_max/e²` or less. -/
def Spec.dead (f : Facula) : Prop := f.radius ≤ .fin (f.rMax * exp (-2)) ∧ f.isGrowing = false

theorem exp_two_inv (x : ℝ) : x / Real.exp 1 ^ 2 = x * exp (-2) := by
  rw [exp_neg, div_eq_mul_inv, ← exp_nat_mul]; norm_num

open Classical in
theorem faculae_age (c : FaculaCollection) (t : ℝ) :
    c.age t = { faculae := (c.faculae.map (·.age t)).filter fun f => decide (¬ dead f), grid := c.grid } := by
  simp only [FaculaCollection.age, FaculaCollection.clean]
  congr 1
  apply List.filter_congr
  intro f _
  rw [exp_two_inv]
  unfold dead
  by_cases h1 : f.radius ≤ .fin (f.rMax * exp (-2)) <;> by_cases h2 : f.isGrowing = false <;> simp_all

theorem dead_age {f : Facula} {r t : ℝ} (h : PhysF f r) (ht : 0 ≤ t) (hd : dead f) : dead (f.age t) := by
  obtain ⟨r', hr', -, -, -, h2⟩ := C31_radius_step f r t h ht
  obtain ⟨h3, h4, -⟩ := h2 hd.2
  refine ⟨?_, h3⟩
  have := hd.1
  rw [h.radius, Fl.fin_le] at this
  rw [hr', (facula_frame f t).1, Fl.fin_le]
  linarith

theorem physFAll_age {c : FaculaCollection} {t : ℝ} (h : PhysFAll c) (ht : 0 ≤ t) : PhysFAll (c.age t) := by
  intro f hf
  rw [faculae_age] at hf
  have := (List.mem_filter.mp hf).1
  obtain ⟨f₀, h0, rfl⟩ := List.mem_map.mp this
  obtain ⟨r, hr⟩ := h f₀ h0
  exact physF_age hr ht

/-- **C32** (two steps) `age(t1)` then `age(t2)` is `age(t1+t2)`: same faculae, same order, same radii. -/
theorem C32_age_add (c : FaculaCollection) (hc : PhysFAll c) (t u : ℝ) (ht : 0 ≤ t) (hu : 0 ≤ u) :
    (c.age t).age u = c.age (t + u) := by
  rw [faculae_age, faculae_age, faculae_age c (t + u)]
  congr 1
  simp only
  have hc' := hc
  unfold PhysFAll at hc'
  generalize c.faculae = l at hc'
  induction l with
  | nil => rfl
  | cons f l ih =>
    obtain ⟨r, hr⟩ := hc' f (by simp)
    have ih := ih fun x hx => hc' x (by simp [hx])
    have hadd := facula_age_add hr ht hu
    simp only [List.map_cons, List.filter_cons]
    by_cases hd : dead (f.age t)
    · obtain ⟨r', hr'⟩ := physF_age hr ht
      have hd' := dead_age hr' hu hd
      rw [hadd] at hd'
      simp only [hd, hd', not_true, decide_false, Bool.false_eq_true, if_false]
      exact ih
    · simp only [hd, not_false_iff, decide_true, if_true, List.map_cons, List.filter_cons, hadd]
      rw [ih]

/-- **C32** (any schedule) two non-empty schedules of non-negative steps with the same total agree. -/
theorem C32_age_schedule (c : FaculaCollection) (hc : PhysFAll c) (ts us : List ℝ) (hts : ts ≠ [])
    (hus : us ≠ []) (h1 : ∀ t ∈ ts, 0 ≤ t) (h2 : ∀ t ∈ us, 0 ≤ t) (hsum : ts.sum = us.sum) :
    ts.foldl FaculaCollection.age c = us.foldl FaculaCollection.age c := by
  have key : ∀ (l : List ℝ) (c : FaculaCollection), PhysFAll c → l ≠ [] → (∀ t ∈ l, 0 ≤ t) →
      l.foldl FaculaCollection.age c = c.age l.sum := by
    intro l
    induction l with
    | nil => intro c _ h; exact absurd rfl h
    | cons t l ih =>
      intro c hc _ hl
      rw [List.foldl_cons, List.sum_cons]
      by_cases hnil : l = []
      · subst hnil; simp
      · rw [ih (c.age t) (physFAll_age hc (hl t (by simp))) hnil (fun x hx => hl x (by simp [hx])),
          C32_age_add c hc t l.sum (hl t (by simp)) (List.sum_nonneg fun x hx => hl x (by simp [hx]))]
  rw [key ts c hc hts h1, key us c hc hus h2, hsum]

/-- Non-trivial instance of C32. -/
example (g : Grid) : [1, 2].foldl FaculaCollection.age ⟨[sampleFacula g], g⟩ =
    [1 / 2, 1, 3 / 2].foldl FaculaCollection.age ⟨[sampleFacula g], g⟩ :=
  C32_age_schedule _ (by
      intro f hf
      rw [List.mem_singleton] at hf
      exact ⟨1, hf ▸ sampleFacula_phys g⟩)
    _ _ (by simp) (by simp) (by norm_num) (by norm_num) (by norm_num)

/-! ## C33 -/

/-- What every facula made by the generator looks like. -/
theorem generated_facula (G : FaculaGenerator) (hr : 0 < G.distRPeak) (hl : 0 < G.distLifePeak) (n : ℕ)
    (d : FaculaDraws n) : ∀ f ∈ G.generate n d, PhysF f (f.rMax * exp (-2)) ∧ f.isGrowing = true ∧
      f.grid = G.grid ∧ f.depth = G.depth := by
  intro f hf
  unfold FaculaGenerator.generate at hf
  rw [List.mem_ofFn] at hf
  obtain ⟨i, rfl⟩ := hf
  have h1 : (0 : ℝ) < G.distRPeak * 10 ^ (d.mu i * G.distRLogsigma) := by positivity
  refine ⟨⟨?_, by simp only; positivity, ?_, by simp only; positivity⟩, rfl, rfl, rfl⟩
  · simp only [exp_two_inv]
  · have : exp (-2) ≤ 1 := exp_le_one_iff.mpr (by norm_num)
    simp only
    nlinarith

theorem newborn_timeLeft {f : Facula} (h : PhysF f (f.rMax * exp (-2))) :
    timeLeft f.rMax (f.rMax * exp (-2)) f.lifetime = f.lifetime := by
  have hmax : 0 < f.rMax := h.pos.trans_le h.le
  apply timeLeft_unique hmax h.life
  have := h.life.ne'
  rw [mul_div_assoc, div_self this, mul_one]

/-- **C33** A facula from the generator is in the collection after a history of steps exactly when the total
time is less than two of its lifetimes; at total time `t` its radius is `r_max·exp(-2|t-L|/L)`, so it
reaches `r_max` exactly at `t = L`; other members of the collection do not matter. -/
theorem C33_lifetime (G : FaculaGenerator) (hr : 0 < G.distRPeak) (hl : 0 < G.distLifePeak) (n : ℕ)
    (d : FaculaDraws n) (f : Facula) (hf : f ∈ G.generate n d) (g : Grid) (ts : List ℝ) (hts : ∀ t ∈ ts, 0 ≤ t) :
    ((ts.foldl FaculaCollection.age ⟨[f], g⟩).faculae ≠ [] ↔ ts.sum < 2 * f.lifetime) ∧
    (∀ f' ∈ (ts.foldl FaculaCollection.age ⟨[f], g⟩).faculae,
      f'.radius = .fin (f.rMax * exp (-2 * |ts.sum - f.lifetime| / f.lifetime)) ∧
      (f'.radius = .fin f.rMax ↔ ts.sum = f.lifetime)) ∧
    (∀ l l' : List Facula, (ts.foldl FaculaCollection.age ⟨l ++ l', g⟩).faculae =
      (ts.foldl FaculaCollection.age ⟨l, g⟩).faculae ++ (ts.foldl FaculaCollection.age ⟨l', g⟩).faculae) := by
  obtain ⟨hp, hg, -, -⟩ := generated_facula G hr hl n d f hf
  have hmax : 0 < f.rMax := hp.pos.trans_le hp.le
  have hL := hp.life
  have hT := newborn_timeLeft hp
  have hsum : 0 ≤ ts.sum := List.sum_nonneg hts
  -- radius at total time t
  have hrad : ∀ t, 0 ≤ t → (f.age t).radius = .fin (f.rMax * exp (-2 * |t - f.lifetime| / f.lifetime)) := by
    intro t ht
    rw [facula_grow hp hg, hT]
    split_ifs with h1
    · rw [abs_of_nonneg (by linarith)]
    · rw [abs_of_neg (by linarith)]
      simp only
      rw [mul_assoc, ← exp_add]
      congr 3
      field_simp
      ring
  have hiff : ∀ t, f.rMax * exp (-2 * |t - f.lifetime| / f.lifetime) = f.rMax ↔ t = f.lifetime := by
    intro t
    constructor
    · intro h
      have h1 : exp (-2 * |t - f.lifetime| / f.lifetime) = 1 := by
        have := mul_left_cancel₀ hmax.ne' (h.trans (mul_one _).symm)
        exact this
      rw [exp_eq_one_iff, div_eq_zero_iff] at h1
      have h2 : |t - f.lifetime| = 0 := by
        rcases h1 with h1 | h1
        · linarith
        · exact absurd h1 hL.ne'
      linarith [abs_eq_zero.mp h2]
    · rintro rfl; simp
  refine ⟨?_, ?_, ?_⟩
  · by_cases hnil : ts = []
    · subst hnil; simp; linarith
    · rw [C32_age_schedule ⟨[f], g⟩ (by intro x hx; simp at hx; exact ⟨_, hx ▸ hp⟩) ts [ts.sum] hnil (by simp) hts
        (by simpa using hsum) (by simp)]
      simp only [List.foldl_cons, List.foldl_nil]
      rw [faculae_age]
      simp only [List.map_cons, List.map_nil, List.filter_cons, List.filter_nil]
      have : dead (f.age ts.sum) ↔ 2 * f.lifetime ≤ ts.sum := by
        unfold dead
        rw [hrad _ hsum, (facula_frame f _).1, Fl.fin_le, mul_le_mul_iff_right₀ hmax, exp_le_exp]
        rw [facula_grow hp hg, hT]
        by_cases h1 : f.lifetime ≤ ts.sum
        · rw [if_pos h1, abs_of_nonneg (by linarith), div_le_iff₀ hL]
          simp only [and_true]
          constructor <;> intro <;> linarith
        · rw [if_neg h1]
          simp only [hg, Bool.true_eq_false, and_false, false_iff]
          linarith
      by_cases hd : dead (f.age ts.sum)
      · simp [hd]; exact this.mp hd
      · simp [hd]; exact not_le.mp fun h => hd (this.mpr h)
  · by_cases hnil : ts = []
    · subst hnil
      intro f' hf'
      simp only [List.foldl_nil, List.mem_singleton] at hf'
      subst hf'
      have e : f'.rMax * exp (-2 * |[].sum - f'.lifetime| / f'.lifetime) = f'.rMax * exp (-2) := by
        rw [List.sum_nil, zero_sub, abs_neg, abs_of_pos hL, mul_div_assoc, div_self hL.ne', mul_one]
      refine ⟨by rw [e]; exact hp.radius, ?_⟩
      rw [← hiff, e, hp.radius, Fl.fin_inj]
    · rw [C32_age_schedule ⟨[f], g⟩ (by intro x hx; simp at hx; exact ⟨_, hx ▸ hp⟩) ts [ts.sum] hnil (by simp) hts
        (by simpa using hsum) (by simp)]
      simp only [List.foldl_cons, List.foldl_nil]
      rw [faculae_age]
      intro f' hf'
      have := (List.mem_filter.mp hf').1
      simp only [List.map_cons, List.map_nil, List.mem_singleton] at this
      subst this
      refine ⟨hrad _ hsum, ?_⟩
      rw [hrad _ hsum, Fl.fin_inj, hiff]
  · clear hsum hrad hts
    induction ts with
    | nil => intro l l'; rfl
    | cons t ts ih =>
      intro l l'
      simp only [List.foldl_cons]
      rw [faculae_age, faculae_age, faculae_age]
      simp only [List.map_append, List.filter_append]
      exact ih _ _

/-- Non-trivial instance of C33: the generator makes faculae. -/
example (g : Grid) : ((FaculaGenerator.off g).generate 2 ⟨fun _ => 1, fun _ => ⟨0, by simp⟩, fun _ => ⟨0, by simp⟩⟩).length = 2 ∧
    0 < (FaculaGenerator.off g).distRPeak ∧ 0 < (FaculaGenerator.off g).distLifePeak := by
  refine ⟨by simp [FaculaGenerator.generate], ?_, ?_⟩ <;> norm_num [FaculaGenerator.off]

/-! ## C37 -/

/-- The area `π r²` of a facula `t` days after its creation. -/
def Spec.faculaArea (f : Facula) (t : ℝ) : ℝ := match (f.age t).radius with | .fin r => π * r ^ 2 | _ => 0

/-- Time integral of the area of a generated facula over its life. -/
theorem integral_faculaArea (f : Facula) (hp : PhysF f (f.rMax * exp (-2))) (hg : f.isGrowing = true) :
    ∫ t in (0 : ℝ)..(2 * f.lifetime), faculaArea f t = f.lifetime * (π * f.rMax ^ 2 / 2 * (1 - exp (-4))) := by
  have hmax : 0 < f.rMax := hp.pos.trans_le hp.le
  have hL := hp.life
  have hT := newborn_timeLeft hp
  have harea : ∀ t, faculaArea f t = π * f.rMax ^ 2 * exp (-4 * |t - f.lifetime| / f.lifetime) := by
    intro t
    unfold faculaArea
    rw [facula_grow hp hg, hT]
    split_ifs with h1
    · rw [abs_of_nonneg (by linarith)]
      simp only
      rw [mul_pow, ← exp_nat_mul]
      push_cast; ring_nf
    · rw [abs_of_neg (by linarith)]
      simp only
      rw [mul_assoc f.rMax, ← exp_add, mul_pow, ← exp_nat_mul, ← mul_assoc]
      congr 2
      field_simp
      push_cast; ring
  have hfun : faculaArea f = fun t => π * f.rMax ^ 2 * exp (-4 * |t - f.lifetime| / f.lifetime) := funext harea
  have hcont : Continuous (faculaArea f) := by rw [hfun]; fun_prop
  rw [← intervalIntegral.integral_add_adjacent_intervals (hcont.intervalIntegrable 0 f.lifetime)
    (hcont.intervalIntegrable f.lifetime _)]
  have e1 : ∫ t in (0 : ℝ)..f.lifetime, faculaArea f t = f.lifetime * (π * f.rMax ^ 2 / 4 * (1 - exp (-4))) := by
    have : ∫ t in (0 : ℝ)..f.lifetime, faculaArea f t =
        ∫ t in (0 : ℝ)..f.lifetime, π * f.rMax ^ 2 * exp (4 * (t - f.lifetime) / f.lifetime) := by
      apply intervalIntegral.integral_congr
      intro t ht
      rw [Set.uIcc_of_le hL.le] at ht
      simp only
      rw [harea, abs_of_nonpos (by linarith [ht.2])]
      ring_nf
    rw [this]
    have hd : ∀ t ∈ Set.uIcc 0 f.lifetime, HasDerivAt
        (fun t => π * f.rMax ^ 2 * (f.lifetime / 4) * exp (4 * (t - f.lifetime) / f.lifetime))
        (π * f.rMax ^ 2 * exp (4 * (t - f.lifetime) / f.lifetime)) t := by
      intro t _
      have h1 : HasDerivAt (fun t : ℝ => 4 * (t - f.lifetime) / f.lifetime) (4 * 1 / f.lifetime) t :=
        (((hasDerivAt_id t).sub_const _).const_mul 4).div_const _
      refine (h1.exp.const_mul _).congr_deriv ?_
      field_simp
    rw [intervalIntegral.integral_eq_sub_of_hasDerivAt hd (Continuous.intervalIntegrable (by fun_prop) _ _)]
    have h2 : 4 * (0 - f.lifetime) / f.lifetime = -4 := by field_simp; ring
    rw [h2, sub_self, mul_zero, zero_div, exp_zero]
    ring
  have e2 : ∫ t in f.lifetime..(2 * f.lifetime), faculaArea f t =
      f.lifetime * (π * f.rMax ^ 2 / 4 * (1 - exp (-4))) := by
    have : ∫ t in f.lifetime..(2 * f.lifetime), faculaArea f t =
        ∫ t in f.lifetime..(2 * f.lifetime), π * f.rMax ^ 2 * exp (-4 * (t - f.lifetime) / f.lifetime) := by
      apply intervalIntegral.integral_congr
      intro t ht
      rw [Set.uIcc_of_le (by linarith)] at ht
      simp only
      rw [harea, abs_of_nonneg (by linarith [ht.1])]
    rw [this]
    have hd : ∀ t ∈ Set.uIcc f.lifetime (2 * f.lifetime), HasDerivAt
        (fun t => -(π * f.rMax ^ 2 * (f.lifetime / 4)) * exp (-4 * (t - f.lifetime) / f.lifetime))
        (π * f.rMax ^ 2 * exp (-4 * (t - f.lifetime) / f.lifetime)) t := by
      intro t _
      have h1 : HasDerivAt (fun t : ℝ => -4 * (t - f.lifetime) / f.lifetime) (-4 * 1 / f.lifetime) t :=
        (((hasDerivAt_id t).sub_const _).const_mul (-4)).div_const _
      refine (h1.exp.const_mul _).congr_deriv ?_
      field_simp
    rw [intervalIntegral.integral_eq_sub_of_hasDerivAt hd (Continuous.intervalIntegrable (by fun_prop) _ _)]
    have h2 : -4 * (2 * f.lifetime - f.lifetime) / f.lifetime = -4 := by field_simp; ring
    rw [h2, sub_self, mul_zero, zero_div, exp_zero]
    ring
  rw [e1, e2]
  ring

/-- **C37** (partial) The true time average of the area over the life of a generated facula whose peak
radius is `dist_r_peak` is `mean_area·(1+e⁻²)/2`.  Missing: equality with `mean_area` – refuted by
`C37_counterexample`. -/
theorem C37_mean_area_partial (G : FaculaGenerator) (hr : 0 < G.distRPeak) (hl : 0 < G.distLifePeak) (n : ℕ)
    (d : FaculaDraws n) (f : Facula) (hf : f ∈ G.generate n d) (hpeak : f.rMax = G.distRPeak) :
    (∫ t in (0 : ℝ)..(2 * f.lifetime), faculaArea f t) / (2 * f.lifetime) = G.meanArea * ((1 + exp (-2)) / 2) := by
  obtain ⟨hp, hg, -, -⟩ := generated_facula G hr hl n d f hf
  rw [integral_faculaArea f hp hg, hpeak]
  have hL := hp.life.ne'
  unfold FaculaGenerator.meanArea
  have h1 : Real.exp 1 ^ (-2 : ℤ) = exp (-2) := by rw [zpow_neg, exp_neg, zpow_ofNat, ← exp_nat_mul]; norm_num
  have h2 : exp (-4) = exp (-2) * exp (-2) := by rw [← exp_add]; norm_num
  rw [h1, h2]
  field_simp
  ring

/-- The full statement of C37 is false of the code: `mean_area` always exceeds the true time average. -/
theorem C37_counterexample (G : FaculaGenerator) (hr : 0 < G.distRPeak) (hl : 0 < G.distLifePeak) (n : ℕ)
    (d : FaculaDraws n) (f : Facula) (hf : f ∈ G.generate n d) (hpeak : f.rMax = G.distRPeak) :
    (∫ t in (0 : ℝ)..(2 * f.lifetime), faculaArea f t) / (2 * f.lifetime) < G.meanArea := by
  rw [C37_mean_area_partial G hr hl n d f hf hpeak]
  have h1 : Real.exp 1 ^ (-2 : ℤ) = exp (-2) := by rw [zpow_neg, exp_neg, zpow_ofNat, ← exp_nat_mul]; norm_num
  have h2 : exp (-2) < 1 := exp_lt_one_of (by norm_num)
  have hm : 0 < G.meanArea := by
    unfold FaculaGenerator.meanArea
    rw [h1]
    have : 0 < 1 - exp (-2) := by linarith
    positivity
  nlinarith

/-- Such faculae exist: with zero scatter the peak radius is `dist_r_peak`. -/
example (g : Grid) : ∃ f ∈ (FaculaGenerator.off g).generate 1 ⟨fun _ => 0, fun _ => ⟨0, by simp⟩, fun _ => ⟨0, by simp⟩⟩,
    f.rMax = (FaculaGenerator.off g).distRPeak := by
  refine ⟨_, List.mem_ofFn.mpr ⟨0, rfl⟩, ?_⟩
  simp

/-! ## C38 -/

/-- **C38** The expected number of births balances the requested coverage, is non-negative and additive;
the generator that is switched off never makes a facula. -/
theorem C38_births_balance (G : FaculaGenerator) (hr : 0 < G.distRPeak) (hl : 0 < G.distLifePeak)
    (hc : 0 ≤ G.coverage) (R : ℝ) :
    (∃ n : ℝ → ℝ, (∀ t, G.nExpected t R = .fin (n t)) ∧
      (∀ t, n t * (2 * G.distLifePeak) * G.meanArea = G.coverage * (4 * π * R ^ 2) * t) ∧
      (∀ t, 0 ≤ t → 0 ≤ n t) ∧ ∀ t u, n (t + u) = n t + n u) ∧
    (∀ g t, (FaculaGenerator.off g).nExpected t R = .fin 0) ∧
    (∀ g t k d, (FaculaGenerator.off g).birth t R k d = .ok []) := by
  have h1 : Real.exp 1 ^ (-2 : ℤ) = exp (-2) := by rw [zpow_neg, exp_neg, zpow_ofNat, ← exp_nat_mul]; norm_num
  have h2 : exp (-2) < 1 := exp_lt_one_of (by norm_num)
  have hm : ∀ G : FaculaGenerator, 0 < G.distRPeak → 0 < G.meanArea := by
    intro G hr
    unfold FaculaGenerator.meanArea
    rw [h1]
    have : 0 < 1 - exp (-2) := by linarith
    positivity
  have hmG := hm G hr
  have key : ∀ G : FaculaGenerator, 0 < G.distRPeak → 0 < G.distLifePeak → ∀ t, G.nExpected t R =
      .fin (G.coverage * 4 * π * R ^ 2 / G.meanArea * t / (2 * G.distLifePeak)) := by
    intro G hr hl t
    unfold FaculaGenerator.nExpected
    rw [Fl.fin_div (hm G hr).ne', Fl.fin_mul, Fl.fin_div (by positivity)]
  have hoff : ∀ g t, (FaculaGenerator.off g).nExpected t R = .fin 0 := by
    intro g t
    rw [key _ (by norm_num [FaculaGenerator.off]) (by norm_num [FaculaGenerator.off])]
    simp [FaculaGenerator.off]
  refine ⟨⟨_, key G hr hl, fun t => ?_, fun t ht => ?_, fun t u => ?_⟩, hoff, ?_⟩
  · field_simp
  · positivity
  · ring
  · intro g t k d
    simp [FaculaGenerator.birth, hoff, Np.poisson, Except.map, FaculaGenerator.generate]

/-- Non-trivial instance of C38: coverage 10 %. -/
example (g : Grid) : ∃ n, FaculaGenerator.nExpected { FaculaGenerator.off g with coverage := 0.1 } 2 1 = .fin n := by
  obtain ⟨⟨n, h, -⟩, -⟩ := C38_births_balance { FaculaGenerator.off g with coverage := 0.1 }
    (by norm_num [FaculaGenerator.off]) (by norm_num [FaculaGenerator.off]) (by norm_num) 1
  exact ⟨_, h 2⟩

end Vsm
