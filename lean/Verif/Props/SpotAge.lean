import Verif.Model.Spots
import Mathlib.MeasureTheory.Integral.IntervalIntegral.FundThmCalculus
import Mathlib.Analysis.SpecialFunctions.Integrals.Basic
import Mathlib.Analysis.Complex.ExponentialBounds

/-!
# C20 – C23, C25: evolution of spots
-/

noncomputable section

namespace Vsm

open Real

/-- A spot with physically sensible numbers and current area `a`. -/
structure Spec.Phys (s : StarSpot) (a : ℝ) : Prop where
  area : s.area = .fin a
  pos : 0 < a
  le : a ≤ s.areaMax
  growth : 0 ≤ s.growthRate
  decay : 0 ≤ s.decayRate

/-- A spot with current area `a` as the generators make them and aging keeps them: positive areas, rates that are not negative, and
not above its maximum once it has stopped growing.  A new spot may be larger than its maximum. -/
structure Spec.Live (s : StarSpot) (a : ℝ) : Prop where
  area : s.area = .fin a
  pos : 0 < a
  top : 0 < s.areaMax
  le : s.isGrowing = false → a ≤ s.areaMax
  growth : 0 ≤ s.growthRate
  decay : 0 ≤ s.decayRate

open Spec

theorem Spec.Phys.live {s : StarSpot} {a : ℝ} (h : Phys s a) : Live s a :=
  ⟨h.area, h.pos, h.pos.trans_le h.le, fun _ => h.le, h.growth, h.decay⟩

/-- Time from area `a` to the maximum under growth rate `g` per day (spec). -/
def Spec.timeToMax (amax a g : ℝ) : ℝ := Real.log (amax / a) / Real.log (1 + g)

theorem age_static {s : StarSpot} {a : ℝ} (h : Live s a) (hg : s.isGrowing = true) (h0 : s.growthRate = 0)
    (t : ℝ) : s.age t = s := by
  have htau : Fl.log (.fin (s.growthRate + 1)) = .fin 0 := by
    rw [h0, Fl.log_fin (by norm_num)]; simp
  simp only [StarSpot.age_eq, hg, if_true, htau, Fl.fin_lt_pinf, h.area, Fl.fin_mul, zero_mul, Fl.exp_fin,
    exp_zero, mul_one]
  rw [← h.area, ← hg]

theorem age_grow {s : StarSpot} {a : ℝ} (h : Live s a) (hg : s.isGrowing = true) (h0 : 0 < s.growthRate)
    (t : ℝ) : s.age t = if t < timeToMax s.areaMax a s.growthRate then
        { s with area := .fin (a * exp (Real.log (1 + s.growthRate) * t)) }
      else { s with isGrowing := false, area := .fin (max 0 (s.areaMax - (t - timeToMax s.areaMax a s.growthRate) * s.decayRate)) } := by
  have hL : 0 < Real.log (1 + s.growthRate) := log_pos (by linarith)
  have htau : Fl.log (.fin (s.growthRate + 1)) = .fin (Real.log (1 + s.growthRate)) := by
    rw [Fl.log_fin (by linarith), add_comm]
  have hmax : 0 < s.areaMax := h.top
  have hne : (Fl.fin (Real.log (1 + s.growthRate)) = .fin 0) ↔ False := by
    rw [Fl.fin_inj]; exact ⟨fun e => hL.ne' e, False.elim⟩
  have httm : Fl.log (.fin s.areaMax / .fin a) / .fin (Real.log (1 + s.growthRate)) =
      .fin (timeToMax s.areaMax a s.growthRate) := by
    rw [Fl.fin_div h.pos.ne', Fl.log_fin (div_pos hmax h.pos), Fl.fin_div hL.ne', timeToMax]
  simp only [StarSpot.age_eq, hg, if_true, htau, hne, if_false, h.area, httm, Fl.fin_lt, Fl.fin_mul, Fl.exp_fin,
    Fl.fin_sub]
  split_ifs with h1 h2
  · rfl
  · rw [max_eq_left (by linarith)]
  · rw [max_eq_right (by linarith)]

theorem age_decay {s : StarSpot} {a : ℝ} (ha : s.area = .fin a) (hg : s.isGrowing = false) (t : ℝ) :
    s.age t = { s with area := .fin (if s.areaMax < t * s.decayRate then 0 else a - t * s.decayRate) } := by
  simp only [StarSpot.age_eq, hg, ha, Fl.fin_lt, Fl.fin_sub]
  split_ifs <;> simp_all

/-! ### The collection acts spot by spot -/

/-- What a collection step does to one spot. -/
def ageOpt (t : ℝ) (s : StarSpot) : Option StarSpot :=
  if (s.age t).area ≤ .fin 0 ∧ (s.age t).isGrowing = false then none else some (s.age t)

theorem collection_age (c : SpotCollection) (t : ℝ) :
    c.age t = { spots := c.spots.filterMap (ageOpt t), grid := c.grid } := by
  simp only [SpotCollection.age, SpotCollection.clean]
  congr 1
  induction c.spots with
  | nil => rfl
  | cons s l ih =>
    rw [List.map_cons, List.filter_cons, List.filterMap_cons, ih]
    unfold ageOpt
    by_cases h1 : (s.age t).area ≤ .fin 0 <;> by_cases h2 : (s.age t).isGrowing = false <;> simp_all

theorem ageOpt_static {s : StarSpot} {a : ℝ} (h : Live s a) (hg : s.isGrowing = true) (h0 : s.growthRate = 0)
    (t : ℝ) : ageOpt t s = some s := by
  simp [ageOpt, age_static h hg h0, hg]

theorem ageOpt_grow {s : StarSpot} {a : ℝ} (h : Live s a) (hg : s.isGrowing = true) (h0 : 0 < s.growthRate)
    (t : ℝ) : ageOpt t s = if t < timeToMax s.areaMax a s.growthRate then
        some { s with area := .fin (a * exp (Real.log (1 + s.growthRate) * t)) }
      else if (t - timeToMax s.areaMax a s.growthRate) * s.decayRate < s.areaMax then
        some { s with isGrowing := false, area := .fin (s.areaMax - (t - timeToMax s.areaMax a s.growthRate) * s.decayRate) }
      else none := by
  unfold ageOpt
  rw [age_grow h hg h0]
  split_ifs with h1 h2 h3 h4 h5
  · exfalso; simp [hg] at h2
  · rfl
  · exfalso; have := h3.1; rw [Fl.fin_le, max_le_iff] at this; linarith [this.2]
  · rfl
  · rw [max_eq_right (by linarith)]
  · exfalso; apply h3; refine ⟨?_, rfl⟩; rw [Fl.fin_le]; exact max_le le_rfl (by linarith)

theorem ageOpt_decay {s : StarSpot} {a : ℝ} (h : Live s a) (hg : s.isGrowing = false) (t : ℝ) :
    ageOpt t s = if t * s.decayRate < a then some { s with area := .fin (a - t * s.decayRate) } else none := by
  unfold ageOpt
  rw [age_decay h.area hg]
  have hle := h.le (by assumption)
  simp only [hg, and_true, Fl.fin_le]
  by_cases h1 : t * s.decayRate < a
  · rw [if_pos h1, if_neg (by linarith : ¬ s.areaMax < t * s.decayRate), if_neg (by linarith)]
  · rw [if_neg h1, if_pos]
    split_ifs
    · exact le_rfl
    · linarith

theorem timeToMax_nonneg {s : StarSpot} {a : ℝ} (h : Phys s a) : 0 ≤ timeToMax s.areaMax a s.growthRate := by
  apply div_nonneg
  · apply log_nonneg
    rw [le_div_iff₀ h.pos]; linarith [h.le]
  · exact log_nonneg (by linarith [h.growth])

theorem grown_lt {s : StarSpot} {a t : ℝ} (h : Live s a) (h0 : 0 < s.growthRate)
    (ht : t < timeToMax s.areaMax a s.growthRate) : a * exp (Real.log (1 + s.growthRate) * t) < s.areaMax := by
  have hL : 0 < Real.log (1 + s.growthRate) := log_pos (by linarith)
  rw [timeToMax, lt_div_iff₀ hL] at ht
  have hmax : 0 < s.areaMax := h.top
  have h1 : exp (Real.log (1 + s.growthRate) * t) < s.areaMax / a := by
    rw [mul_comm, ← Real.lt_log_iff_exp_lt (div_pos hmax h.pos)]; exact ht
  rw [lt_div_iff₀ h.pos] at h1
  linarith

theorem timeToMax_grown {s : StarSpot} {a : ℝ} (h : Live s a) (h0 : 0 < s.growthRate) (t : ℝ) :
    timeToMax s.areaMax (a * exp (Real.log (1 + s.growthRate) * t)) s.growthRate =
      timeToMax s.areaMax a s.growthRate - t := by
  have hL : 0 < Real.log (1 + s.growthRate) := log_pos (by linarith)
  have hmax : 0 < s.areaMax := h.top
  unfold timeToMax
  rw [← div_div, log_div (div_pos hmax h.pos).ne' (exp_pos _).ne', log_exp]
  field_simp

/-- Surviving spots stay alive. -/
theorem live_ageOpt {s s' : StarSpot} {a t : ℝ} (h : Live s a) (ht : 0 ≤ t) (e : ageOpt t s = some s') :
    ∃ a', Live s' a' := by
  by_cases hg : s.isGrowing = true
  · rcases eq_or_lt_of_le h.growth with h0 | h0
    · rw [ageOpt_static h hg h0.symm, Option.some_inj] at e
      exact ⟨a, e ▸ h⟩
    · rw [ageOpt_grow h hg h0] at e
      split_ifs at e with h1 h2
      · rw [Option.some_inj] at e
        subst e
        exact ⟨_, rfl, mul_pos h.pos (exp_pos _), h.top, fun _ => (grown_lt h h0 h1).le, h.growth, h.decay⟩
      · rw [Option.some_inj] at e
        subst e
        refine ⟨_, rfl, by linarith, h.top, fun _ => ?_, h.growth, h.decay⟩
        have := mul_nonneg (sub_nonneg.mpr (not_lt.mp h1)) h.decay
        simp only; linarith
  · have hg' : s.isGrowing = false := by simpa using hg
    rw [ageOpt_decay h hg'] at e
    split_ifs at e with h1
    rw [Option.some_inj] at e
    subst e
    refine ⟨_, rfl, by linarith, h.top, fun _ => ?_, h.growth, h.decay⟩
    have := mul_nonneg ht h.decay
    have := h.le hg'
    simp only; linarith

/-- Surviving spots stay physical. -/
theorem phys_ageOpt {s s' : StarSpot} {a t : ℝ} (h : Phys s a) (ht : 0 ≤ t) (e : ageOpt t s = some s') :
    ∃ a', Phys s' a' := by
  by_cases hg : s.isGrowing = true
  · rcases eq_or_lt_of_le h.growth with h0 | h0
    · rw [ageOpt_static h.live hg h0.symm, Option.some_inj] at e
      exact ⟨a, e ▸ h⟩
    · rw [ageOpt_grow h.live hg h0] at e
      split_ifs at e with h1 h2
      · rw [Option.some_inj] at e
        subst e
        exact ⟨_, rfl, mul_pos h.pos (exp_pos _), (grown_lt h.live h0 h1).le, h.growth, h.decay⟩
      · rw [Option.some_inj] at e
        subst e
        refine ⟨_, rfl, by linarith, ?_, h.growth, h.decay⟩
        have := mul_nonneg (sub_nonneg.mpr (not_lt.mp h1)) h.decay
        simp only; linarith
  · have hg' : s.isGrowing = false := by simpa using hg
    rw [ageOpt_decay h.live hg'] at e
    split_ifs at e with h1
    rw [Option.some_inj] at e
    subst e
    refine ⟨_, rfl, by linarith, ?_, h.growth, h.decay⟩
    have := mul_nonneg ht h.decay
    have := h.le
    simp only; linarith

/-- Two steps are one step. -/
theorem ageOpt_add {s : StarSpot} {a t u : ℝ} (h : Live s a) (ht : 0 ≤ t) (hu : 0 ≤ u) :
    (ageOpt t s).bind (ageOpt u) = ageOpt (t + u) s := by
  by_cases hg : s.isGrowing = true
  · rcases eq_or_lt_of_le h.growth with h0 | h0
    · rw [ageOpt_static h hg h0.symm, ageOpt_static h hg h0.symm, Option.bind_some,
        ageOpt_static h hg h0.symm]
    · have hw := h.decay
      rw [ageOpt_grow h hg h0 t, ageOpt_grow h hg h0 (t + u)]
      by_cases h1 : t < timeToMax s.areaMax a s.growthRate
      · rw [if_pos h1, Option.bind_some]
        have hph : Live { s with area := .fin (a * exp (Real.log (1 + s.growthRate) * t)) }
            (a * exp (Real.log (1 + s.growthRate) * t)) :=
          ⟨rfl, mul_pos h.pos (exp_pos _), h.top, fun _ => (grown_lt h h0 h1).le, h.growth, h.decay⟩
        rw [ageOpt_grow hph hg h0]
        simp only [timeToMax_grown h h0]
        have e1 : a * exp (Real.log (1 + s.growthRate) * t) * exp (Real.log (1 + s.growthRate) * u) =
            a * exp (Real.log (1 + s.growthRate) * (t + u)) := by
          rw [mul_assoc, ← exp_add]; ring_nf
        have e2 : u - (timeToMax s.areaMax a s.growthRate - t) =
            t + u - timeToMax s.areaMax a s.growthRate := by ring
        have e3 : (u < timeToMax s.areaMax a s.growthRate - t) ↔
            (t + u < timeToMax s.areaMax a s.growthRate) := by constructor <;> intro <;> linarith
        simp only [e1, e2, e3]
      · have h1' : ¬ t + u < timeToMax s.areaMax a s.growthRate := by linarith
        rw [if_neg h1, if_neg h1']
        by_cases h2 : (t - timeToMax s.areaMax a s.growthRate) * s.decayRate < s.areaMax
        · rw [if_pos h2, Option.bind_some]
          have h3 := mul_nonneg (sub_nonneg.mpr (not_lt.mp h1)) hw
          have hph : Live { s with isGrowing := false, area := .fin (s.areaMax - (t - timeToMax s.areaMax a s.growthRate) * s.decayRate) }
              (s.areaMax - (t - timeToMax s.areaMax a s.growthRate) * s.decayRate) :=
            ⟨rfl, by linarith, h.top, fun _ => by simp only; linarith, h.growth, h.decay⟩
          rw [ageOpt_decay hph rfl]
          simp only
          have e1 : (u * s.decayRate < s.areaMax - (t - timeToMax s.areaMax a s.growthRate) * s.decayRate) ↔
              ((t + u - timeToMax s.areaMax a s.growthRate) * s.decayRate < s.areaMax) := by
            constructor <;> intro <;> linarith
          have e2 : s.areaMax - (t - timeToMax s.areaMax a s.growthRate) * s.decayRate - u * s.decayRate =
              s.areaMax - (t + u - timeToMax s.areaMax a s.growthRate) * s.decayRate := by ring
          simp only [e1, e2]
        · rw [if_neg h2, if_neg, Option.bind_none]
          have := mul_nonneg hu hw
          intro hc; apply h2; linarith
  · have hg' : s.isGrowing = false := by simpa using hg
    rw [ageOpt_decay h hg', ageOpt_decay h hg']
    by_cases h1 : t * s.decayRate < a
    · rw [if_pos h1, Option.bind_some]
      have h2 := mul_nonneg ht h.decay
      have hle := h.le (by assumption)
      have hph : Live { s with area := .fin (a - t * s.decayRate) } (a - t * s.decayRate) :=
        ⟨rfl, by linarith, h.top, fun _ => by simp only; linarith, h.growth, h.decay⟩
      rw [ageOpt_decay hph hg']
      simp only
      have e1 : (u * s.decayRate < a - t * s.decayRate) ↔ ((t + u) * s.decayRate < a) := by
        constructor <;> intro <;> linarith
      have e2 : a - t * s.decayRate - u * s.decayRate = a - (t + u) * s.decayRate := by ring
      simp only [e1, e2]
    · rw [if_neg h1, if_neg, Option.bind_none]
      have := mul_nonneg hu h.decay
      intro hc; apply h1; linarith

/-- Every spot of the collection is physical. -/
def Spec.PhysAll (c : SpotCollection) : Prop := ∀ s ∈ c.spots, ∃ a, Phys s a

theorem physAll_age {c : SpotCollection} {t : ℝ} (h : PhysAll c) (ht : 0 ≤ t) : PhysAll (c.age t) := by
  intro s hs
  rw [collection_age] at hs
  obtain ⟨s₀, h0, h1⟩ := List.mem_filterMap.mp hs
  obtain ⟨a, ha⟩ := h s₀ h0
  exact phys_ageOpt ha ht h1

/-- Every spot of the collection is alive: as the generators make them and aging keeps them. -/
def Spec.LiveAll (c : SpotCollection) : Prop := ∀ s ∈ c.spots, ∃ a, Live s a

theorem Spec.PhysAll.live {c : SpotCollection} (h : PhysAll c) : LiveAll c := fun s hs => (h s hs).imp fun _ h => h.live

theorem liveAll_age {c : SpotCollection} {t : ℝ} (h : LiveAll c) (ht : 0 ≤ t) : LiveAll (c.age t) := by
  intro s hs
  rw [collection_age] at hs
  obtain ⟨s₀, h0, h1⟩ := List.mem_filterMap.mp hs
  obtain ⟨a, ha⟩ := h s₀ h0
  exact live_ageOpt ha ht h1

/-! ## C21 -/

/-- **C21** (two steps) `age(t1)` then `age(t2)` is `age(t1+t2)`: same spots in the same order, each with
the same area and the same growth flag. -/
theorem C21_age_add (c : SpotCollection) (hc : LiveAll c) (t u : ℝ) (ht : 0 ≤ t) (hu : 0 ≤ u) :
    (c.age t).age u = c.age (t + u) := by
  rw [collection_age, collection_age, collection_age c (t + u)]
  simp only [List.filterMap_filterMap]
  congr 1
  apply List.filterMap_congr
  intro s hs
  obtain ⟨a, ha⟩ := hc s hs
  exact ageOpt_add ha ht hu

/-- **C21** (any schedule) the result of a schedule of non-negative steps depends only on the total
duration: any two non-empty schedules with the same total agree. -/
theorem C21_age_schedule (c : SpotCollection) (hc : LiveAll c) (ts us : List ℝ) (hts : ts ≠ [])
    (hus : us ≠ []) (h1 : ∀ t ∈ ts, 0 ≤ t) (h2 : ∀ t ∈ us, 0 ≤ t) (hsum : ts.sum = us.sum) :
    ts.foldl SpotCollection.age c = us.foldl SpotCollection.age c := by
  have key : ∀ (l : List ℝ) (c : SpotCollection), LiveAll c → l ≠ [] → (∀ t ∈ l, 0 ≤ t) →
      l.foldl SpotCollection.age c = c.age l.sum := by
    intro l
    induction l with
    | nil => intro c _ h; exact absurd rfl h
    | cons t l ih =>
      intro c hc _ hl
      rw [List.foldl_cons, List.sum_cons]
      by_cases hnil : l = []
      · subst hnil; simp
      · rw [ih (c.age t) (liveAll_age hc (hl t (by simp))) hnil (fun x hx => hl x (by simp [hx])),
          C21_age_add c hc t l.sum (hl t (by simp)) (List.sum_nonneg fun x hx => hl x (by simp [hx]))]
  rw [key ts c hc hts h1, key us c hc hus h2, hsum]

/-- Non-trivial instance: a spot that is still growing after one day and decays on the third. -/
example (g : Grid) : List.foldl SpotCollection.age
      ⟨[StarSpot.new 0 0 4 (.fin 1) 2500 2700 (.fin 5) true 1 1 g], g⟩ [1, 2] =
    List.foldl SpotCollection.age
      ⟨[StarSpot.new 0 0 4 (.fin 1) 2500 2700 (.fin 5) true 1 1 g], g⟩ [1 / 2, 1 / 2, 2] :=
  C21_age_schedule _ (by
      intro s hs
      rw [List.mem_singleton] at hs
      subst hs
      exact ⟨1, Phys.live ⟨rfl, by norm_num, by norm_num [StarSpot.new], by norm_num [StarSpot.new],
        by norm_num [StarSpot.new]⟩⟩)
    _ _ (by simp) (by simp) (by norm_num) (by norm_num) (by norm_num)

/-! ## C22 -/

/-- **C22** After `age(t)`: the survivors are a sublist (same order) of the aged spots; every survivor that
is not growing has positive area (more precisely: its area is not `<= 0`, and areas are finite for physical
spots); every aged spot that is missing had area `<= 0` and was not growing; the survivors keep all other
attributes. -/
theorem C22_age_removes (c : SpotCollection) (t : ℝ) :
    (c.age t).spots.Sublist (c.spots.map (·.age t)) ∧
    (∀ s ∈ (c.age t).spots, s.isGrowing = false → ¬ s.area ≤ .fin 0) ∧
    (∀ s ∈ c.spots, s.age t ∉ (c.age t).spots → (s.age t).area ≤ .fin 0 ∧ (s.age t).isGrowing = false) ∧
    (c.age t).spots.length = (c.spots.filter fun s =>
      (s.age t).isGrowing || !decide ((s.age t).area ≤ .fin 0)).length ∧
    (c.age t).grid = c.grid ∧
    (PhysAll c → 0 ≤ t → ∀ s ∈ (c.age t).spots, ∃ a, s.area = .fin a ∧ 0 < a ∧ a ≤ s.areaMax) := by
  refine ⟨List.filter_sublist, ?_, ?_, ?_, rfl, ?_⟩
  · intro s hs hg hle
    have := (List.mem_filter.mp hs).2
    simp [hg, hle] at this
  · intro s hs hn
    by_contra hc
    apply hn
    refine List.mem_filter.mpr ⟨List.mem_map.mpr ⟨s, hs, rfl⟩, ?_⟩
    by_cases h1 : (s.age t).area ≤ .fin 0 <;> by_cases h2 : (s.age t).isGrowing = false <;> simp_all
  · simp only [SpotCollection.age, SpotCollection.clean, List.filter_map, List.length_map]
    congr 2
    funext s
    simp only [Function.comp]
    by_cases h1 : (s.age t).area ≤ .fin 0 <;> by_cases h2 : (s.age t).isGrowing = false <;> simp_all
  · intro hp ht s hs
    obtain ⟨a, ha⟩ := physAll_age hp ht s hs
    exact ⟨a, ha.area, ha.pos, ha.le⟩

/-- Non-trivial instance: a decaying spot of area 1 losing 2 per day is removed after a day, one of area 3
stays. -/
example (g : Grid) : ((SpotCollection.mk [StarSpot.new 0 0 4 (.fin 1) 2500 2700 (.fin 5) false 1 2 g,
      StarSpot.new 0 0 4 (.fin 3) 2500 2700 (.fin 5) false 1 2 g] g).age 1).spots.map StarSpot.area = [.fin 1] := by
  have h : ∀ a : ℝ, 0 < a → a ≤ 4 → Phys (StarSpot.new 0 0 4 (.fin a) 2500 2700 (.fin 5) false 1 2 g) a :=
    fun a h1 h2 => ⟨rfl, h1, h2, by norm_num [StarSpot.new], by norm_num [StarSpot.new]⟩
  rw [collection_age]
  simp only [List.filterMap_cons, List.filterMap_nil, ageOpt_decay (h 1 (by norm_num) (by norm_num)).live rfl,
    ageOpt_decay (h 3 (by norm_num) (by norm_num)).live rfl]
  norm_num [StarSpot.new]

/-! ## C23 -/

/-- **C23** A growing spot with `0 < a0 ≤ area_max`, `g > 0`, `w > 0` survives a history of `age` calls
iff the total time is less than `log(area_max/a0)/log(1+g) + area_max/w`.  Whatever else is in the
collection does not matter (second part). -/
theorem C23_lifetime (s : StarSpot) (a0 : ℝ) (g : Grid) (h : Phys s a0) (hg : s.isGrowing = true)
    (h0 : 0 < s.growthRate) (hw : 0 < s.decayRate) (ts : List ℝ) (hts : ∀ t ∈ ts, 0 ≤ t) :
    (ts.foldl SpotCollection.age ⟨[s], g⟩).spots ≠ [] ↔
      ts.sum < Real.log (s.areaMax / a0) / Real.log (1 + s.growthRate) + s.areaMax / s.decayRate := by
  have hT := timeToMax_nonneg h
  have hmax : 0 < s.areaMax := h.pos.trans_le h.le
  change _ ↔ ts.sum < timeToMax s.areaMax a0 s.growthRate + s.areaMax / s.decayRate
  by_cases hnil : ts = []
  · subst hnil
    have : 0 < s.areaMax / s.decayRate := by positivity
    simp; linarith
  · have e := C21_age_schedule ⟨[s], g⟩ (by intro s' hs'; simp at hs'; exact ⟨a0, hs' ▸ h.live⟩) ts [ts.sum] hnil (by simp) hts
      (by simpa using List.sum_nonneg hts) (by simp)
    rw [e]
    simp only [List.foldl_cons, List.foldl_nil]
    rw [collection_age]
    simp only [List.filterMap_cons, List.filterMap_nil]
    rw [ageOpt_grow h.live hg h0]
    split_ifs with h1 h2
    · have : 0 < s.areaMax / s.decayRate := by positivity
      simp; linarith
    · simp only [ne_eq, List.cons_ne_nil, not_false_iff, true_iff]
      rw [← lt_div_iff₀ hw] at h2
      linarith
    · simp only [ne_eq, not_true, false_iff]
      intro hc
      apply h2
      rw [← lt_div_iff₀ hw]
      linarith

/-- **C23** (any new spot) The same formula for a new spot that is larger than its maximum, as soon as it has been aged: it starts
to decay at once, from `area_max` less the decay for the negative time to the maximum. -/
theorem C23_lifetime_large (s : StarSpot) (a0 : ℝ) (g : Grid) (h : Live s a0) (hg : s.isGrowing = true)
    (h0 : 0 < s.growthRate) (hw : 0 < s.decayRate) (ts : List ℝ) (hts : ∀ t ∈ ts, 0 ≤ t) (hnil : ts ≠ []) :
    (ts.foldl SpotCollection.age ⟨[s], g⟩).spots ≠ [] ↔
      ts.sum < Real.log (s.areaMax / a0) / Real.log (1 + s.growthRate) + s.areaMax / s.decayRate := by
  have hmax : 0 < s.areaMax := h.top
  change _ ↔ ts.sum < timeToMax s.areaMax a0 s.growthRate + s.areaMax / s.decayRate
  have e := C21_age_schedule ⟨[s], g⟩ (by intro s' hs'; simp at hs'; exact ⟨a0, hs' ▸ h⟩) ts [ts.sum] hnil (by simp) hts
    (by simpa using List.sum_nonneg hts) (by simp)
  rw [e]
  simp only [List.foldl_cons, List.foldl_nil]
  rw [collection_age]
  simp only [List.filterMap_cons, List.filterMap_nil]
  rw [ageOpt_grow h hg h0]
  split_ifs with h1 h2
  · have : 0 < s.areaMax / s.decayRate := by positivity
    simp; linarith
  · simp only [ne_eq, List.cons_ne_nil, not_false_iff, true_iff]
    rw [← lt_div_iff₀ hw] at h2
    linarith
  · simp only [ne_eq, not_true, false_iff]
    intro hc
    apply h2
    rw [← lt_div_iff₀ hw]
    linarith

/-- Non-trivial instance: a spot of area 8 with maximum 4 that would double every day has a time to the maximum of -1 day: it is
gone after 3 days instead of 4. -/
example (g : Grid) : (List.foldl SpotCollection.age
      ⟨[StarSpot.new 0 0 4 (.fin 8) 2500 2700 (.fin 5) true 1 1 g], g⟩ [1, 1.9]).spots ≠ [] ∧
    (List.foldl SpotCollection.age ⟨[StarSpot.new 0 0 4 (.fin 8) 2500 2700 (.fin 5) true 1 1 g], g⟩ [1, 2]).spots = [] := by
  have hl : Live (StarSpot.new 0 0 4 (.fin 8) 2500 2700 (.fin 5) true 1 1 g) 8 :=
    ⟨rfl, by norm_num, by norm_num [StarSpot.new], fun h => by simp [StarSpot.new] at h, by norm_num [StarSpot.new],
      by norm_num [StarSpot.new]⟩
  have h2 : Real.log 2 ≠ 0 := (log_pos (by norm_num)).ne'
  have hlog : Real.log (4 / 8) / Real.log (1 + 1) + 4 / 1 = 3 := by
    rw [show (4 / 8 : ℝ) = 2⁻¹ by norm_num, log_inv, show (1 + 1 : ℝ) = 2 by norm_num, neg_div, div_self h2]; norm_num
  constructor
  · rw [C23_lifetime_large _ 8 g hl rfl (by norm_num [StarSpot.new]) (by norm_num [StarSpot.new]) _
      (by intro t ht; simp only [List.mem_cons, List.not_mem_nil, or_false] at ht; rcases ht with rfl | rfl <;> norm_num) (by simp)]
    simp only [StarSpot.new, hlog, List.sum_cons, List.sum_nil]
    norm_num
  · by_contra hc
    rw [← ne_eq, C23_lifetime_large _ 8 g hl rfl (by norm_num [StarSpot.new]) (by norm_num [StarSpot.new]) _
      (by intro t ht; simp only [List.mem_cons, List.not_mem_nil, or_false] at ht; rcases ht with rfl | rfl <;> norm_num) (by simp)] at hc
    simp only [StarSpot.new, hlog, List.sum_cons, List.sum_nil] at hc
    norm_num at hc

/-- **C23** (locality) the evolution of the spots of a collection is independent of each other. -/
theorem C23_locality (l l' : List StarSpot) (g : Grid) (ts : List ℝ) :
    (ts.foldl SpotCollection.age ⟨l ++ l', g⟩).spots =
      (ts.foldl SpotCollection.age ⟨l, g⟩).spots ++ (ts.foldl SpotCollection.age ⟨l', g⟩).spots := by
  induction ts generalizing l l' with
  | nil => rfl
  | cons t ts ih =>
    simp only [List.foldl_cons]
    rw [collection_age, collection_age, collection_age]
    simp only [List.filterMap_append]
    exact ih _ _

/-- Non-trivial instance: a spot starting at half of its maximum, doubling per day (`g = 1`), decaying
with one area unit per day lives for `1 + areaMax` days. -/
example (g : Grid) : (List.foldl SpotCollection.age
    ⟨[StarSpot.new 0 0 4 (.fin 2) 2500 2700 (.fin 5) true 1 1 g], g⟩ [1, 2, 1]).spots ≠ [] := by
  rw [C23_lifetime (StarSpot.new 0 0 4 (.fin 2) 2500 2700 (.fin 5) true 1 1 g) 2 g
    ⟨rfl, by norm_num, by norm_num [StarSpot.new], by norm_num [StarSpot.new], by norm_num [StarSpot.new]⟩ rfl
    (by norm_num [StarSpot.new]) (by norm_num [StarSpot.new]) _ (by simp)]
  have : Real.log 2 ≠ 0 := (log_pos (by norm_num)).ne'
  simp only [StarSpot.new, List.sum_cons, List.sum_nil]
  norm_num [div_self this]

/-! ## C20 -/

/-- **C20** (partial) One step of a physical spot: the area stays at most `area_max`; while growing it does
not decrease; once past the maximum it does not increase (and the spot never grows again); a step starting
in the growth phase leaves a non-negative area.  Missing: a step in the decay phase may leave a negative
area – see `C20_counterexample`; the exact condition is the last clause. -/
theorem C20_area_bounds_partial (s : StarSpot) (a t : ℝ) (h : Phys s a) (ht : 0 ≤ t) :
    ∃ a', (s.age t).area = .fin a' ∧ a' ≤ s.areaMax ∧ (s.age t).areaMax = s.areaMax ∧
      ((s.age t).isGrowing = true → a ≤ a') ∧
      (s.isGrowing = true → 0 ≤ a') ∧
      (s.isGrowing = false → a' ≤ a ∧ (s.age t).isGrowing = false ∧
        (a' < 0 ↔ a < t * s.decayRate ∧ t * s.decayRate ≤ s.areaMax)) := by
  have hle := h.le
  have hpos := h.pos
  by_cases hg : s.isGrowing = true
  · rcases eq_or_lt_of_le h.growth with h0 | h0
    · rw [age_static h.live hg h0.symm]
      exact ⟨a, h.area, h.le, rfl, fun _ => le_rfl, fun _ => h.pos.le, fun h' => by rw [hg] at h'; cases h'⟩
    · rw [age_grow h.live hg h0]
      split_ifs with h1
      · refine ⟨_, rfl, (grown_lt h.live h0 h1).le, rfl, fun _ => ?_, fun _ => by positivity, fun h' => by rw [hg] at h'; cases h'⟩
        have : 1 ≤ exp (Real.log (1 + s.growthRate) * t) := by
          apply one_le_exp
          exact mul_nonneg (log_nonneg (by linarith)) ht
        nlinarith
      · refine ⟨_, rfl, max_le (by linarith) ?_, rfl, fun h' => by simp at h', fun _ => le_max_left _ _,
          fun h' => by rw [hg] at h'; cases h'⟩
        have := mul_nonneg (sub_nonneg.mpr (not_lt.mp h1)) h.decay
        linarith
  · have hg' : s.isGrowing = false := by simpa using hg
    rw [age_decay h.area hg']
    have hw := mul_nonneg ht h.decay
    refine ⟨_, rfl, ?_, rfl, fun h' => absurd h' hg, fun h' => absurd h' hg, fun _ => ⟨?_, hg', ?_⟩⟩
    · split_ifs <;> linarith
    · split_ifs <;> linarith
    · split_ifs with h1
      · constructor
        · intro h2; exact absurd h2 (lt_irrefl _)
        · rintro ⟨-, h2⟩; linarith
      · constructor
        · intro h2; exact ⟨by linarith, not_lt.mp h1⟩
        · rintro ⟨h2, -⟩; linarith

/-- **C20** (collections) Under every history of non-negative steps applied through the collection, every
spot present has `0 < area ≤ area_max`. -/
theorem C20_collection (c : SpotCollection) (hc : PhysAll c) (ts : List ℝ) (hts : ∀ t ∈ ts, 0 ≤ t) :
    ∀ s ∈ (ts.foldl SpotCollection.age c).spots, ∃ a, s.area = .fin a ∧ 0 < a ∧ a ≤ s.areaMax := by
  induction ts generalizing c with
  | nil =>
    intro s hs
    obtain ⟨a, ha⟩ := hc s hs
    exact ⟨a, ha.area, ha.pos, ha.le⟩
  | cons t ts ih =>
    exact ih _ (physAll_age hc (hts t (by simp))) fun x hx => hts x (by simp [hx])

/-- The full statement of C20 is false of the code: a spot at its maximum area 1 decaying at 1 per day,
aged by 0, 1/2 and 3/4 days, has area `-1/4`. -/
theorem C20_counterexample (g : Grid) :
    ([0, 1 / 2, 3 / 4].foldl StarSpot.age (StarSpot.new 0 0 1 (.fin 1) 0 0 (.fin 5) true 1 1 g)).area
      = .fin (-1 / 4) := by
  simp only [List.foldl_cons, List.foldl_nil]
  have h : Phys (StarSpot.new 0 0 1 (.fin 1) 0 0 (.fin 5) true 1 1 g) 1 :=
    ⟨rfl, by norm_num, by norm_num [StarSpot.new], by norm_num [StarSpot.new], by norm_num [StarSpot.new]⟩
  rw [age_grow h.live rfl (by norm_num [StarSpot.new])]
  have hT : timeToMax (StarSpot.new 0 0 1 (.fin 1) 0 0 (.fin 5) true 1 1 g).areaMax 1
      (StarSpot.new 0 0 1 (.fin 1) 0 0 (.fin 5) true 1 1 g).growthRate = 0 := by simp [timeToMax, StarSpot.new]
  rw [if_neg (by rw [hT]; exact lt_irrefl _), hT]
  have e1 : StarSpot.age { StarSpot.new 0 0 1 (.fin 1) 0 0 (.fin 5) true 1 1 g with
      isGrowing := false, area := .fin 1 } (1 / 2) = { StarSpot.new 0 0 1 (.fin 1) 0 0 (.fin 5) true 1 1 g with
      isGrowing := false, area := .fin (1 / 2) } := by
    rw [age_decay (a := 1) rfl rfl]; norm_num [StarSpot.new]
  have e0 : max 0 ((StarSpot.new 0 0 1 (.fin 1) 0 0 (.fin 5) true 1 1 g).areaMax -
      (0 - 0) * (StarSpot.new 0 0 1 (.fin 1) 0 0 (.fin 5) true 1 1 g).decayRate) = 1 := by
    norm_num [StarSpot.new]
  rw [e0, e1, age_decay (a := 1 / 2) rfl rfl]
  norm_num [StarSpot.new]

/-! ## C25 -/

/-- The area of a spot `t` days after its creation, as a real number. -/
def Spec.areaAt (s : StarSpot) (t : ℝ) : ℝ := match (s.age t).area with | .fin x => x | _ => 0

/-- True lifetime of a spot (C23) and true time integral of its area. -/
theorem integral_area (s : StarSpot) (a : ℝ) (h : Phys s a) (hg : s.isGrowing = true) (h0 : 0 < s.growthRate)
    (hw : 0 < s.decayRate) :
    ∫ t in (0 : ℝ)..(timeToMax s.areaMax a s.growthRate + s.areaMax / s.decayRate), areaAt s t =
      (s.areaMax - a) / Real.log (1 + s.growthRate) + s.areaMax ^ 2 / (2 * s.decayRate) := by
  have hL : 0 < Real.log (1 + s.growthRate) := log_pos (by linarith)
  have hT := timeToMax_nonneg h
  have hmax : 0 < s.areaMax := h.pos.trans_le h.le
  have hq : 0 < s.areaMax / s.decayRate := by positivity
  set T := timeToMax s.areaMax a s.growthRate with hTdef
  set L := Real.log (1 + s.growthRate) with hLdef
  have harea : ∀ t, areaAt s t = if t < T then a * exp (L * t) else max 0 (s.areaMax - (t - T) * s.decayRate) := by
    intro t
    unfold areaAt
    rw [age_grow h.live hg h0]
    split_ifs <;> rfl
  have hexpT : a * exp (L * T) = s.areaMax := by
    rw [hTdef, timeToMax, mul_div_cancel₀ _ hL.ne', exp_log (div_pos hmax h.pos)]
    field_simp [h.pos.ne']
  have hcont : Continuous (areaAt s) := by
    have : areaAt s = fun t => if t ≤ T then a * exp (L * t) else max 0 (s.areaMax - (t - T) * s.decayRate) := by
      funext t
      rw [harea]
      rcases lt_trichotomy t T with h1 | h1 | h1
      · rw [if_pos h1, if_pos h1.le]
      · rw [if_neg (by rw [h1]; exact lt_irrefl _), if_pos h1.le, h1, hexpT]; simp [hmax.le]
      · rw [if_neg (not_lt.mpr h1.le), if_neg (not_le.mpr h1)]
    rw [this]
    refine Continuous.if_le (by fun_prop) (by fun_prop) continuous_id continuous_const ?_
    intro t ht
    rw [ht, hexpT]; simp [hmax.le]
  rw [← intervalIntegral.integral_add_adjacent_intervals (hcont.intervalIntegrable 0 T)
    (hcont.intervalIntegrable T _)]
  congr 1
  · have e1 : ∫ t in (0 : ℝ)..T, areaAt s t = ∫ t in (0 : ℝ)..T, a * exp (L * t) := by
      apply intervalIntegral.integral_congr
      intro t ht
      rw [Set.uIcc_of_le hT] at ht
      simp only
      rw [harea]
      rcases eq_or_lt_of_le ht.2 with h1 | h1
      · rw [if_neg (by rw [h1]; exact lt_irrefl _), h1, hexpT]; simp [hmax.le]
      · rw [if_pos h1]
    rw [e1]
    have hd : ∀ t ∈ Set.uIcc 0 T, HasDerivAt (fun t => a / L * exp (L * t)) (a * exp (L * t)) t := by
      intro t _
      have h1 : HasDerivAt (fun t : ℝ => L * t) (L * 1) t := (hasDerivAt_id t).const_mul L
      have h2 := h1.exp.const_mul (a / L)
      refine h2.congr_deriv ?_
      field_simp
    rw [intervalIntegral.integral_eq_sub_of_hasDerivAt hd (Continuous.intervalIntegrable (by fun_prop) _ _)]
    rw [mul_zero, exp_zero]
    have : a / L * exp (L * T) = s.areaMax / L := by rw [← hexpT]; ring
    rw [this]; ring
  · have e1 : ∫ t in T..(T + s.areaMax / s.decayRate), areaAt s t =
        ∫ t in T..(T + s.areaMax / s.decayRate), (s.areaMax - (t - T) * s.decayRate) := by
      apply intervalIntegral.integral_congr
      intro t ht
      rw [Set.uIcc_of_le (by linarith)] at ht
      simp only
      rw [harea, if_neg (not_lt.mpr ht.1), max_eq_right]
      have : (t - T) ≤ s.areaMax / s.decayRate := by linarith [ht.2]
      rw [le_div_iff₀ hw] at this
      linarith
    rw [e1]
    have hd : ∀ t ∈ Set.uIcc T (T + s.areaMax / s.decayRate),
        HasDerivAt (fun t => s.areaMax * t - (t - T) ^ 2 / 2 * s.decayRate) (s.areaMax - (t - T) * s.decayRate) t := by
      intro t _
      have h1 : HasDerivAt (fun t : ℝ => s.areaMax * t) (s.areaMax * 1) t := (hasDerivAt_id t).const_mul _
      have h2 : HasDerivAt (fun t : ℝ => t - T) 1 t := (hasDerivAt_id t).sub_const T
      have h3 := ((h2.pow 2).div_const 2).mul_const s.decayRate
      refine (h1.sub h3).congr_deriv ?_
      simp
    rw [intervalIntegral.integral_eq_sub_of_hasDerivAt hd (Continuous.intervalIntegrable (by fun_prop) _ _)]
    field_simp
    ring

/-- **C25** (partial) What `mean_lifetime` and `mean_area` are, next to the truth for a spot of peak area
`dist_area_mean` made by the generator: the decay-phase terms agree, `mean_lifetime` never exceeds the true
lifetime and equals it exactly if `init_area = dist_area_mean`; the growth-phase terms differ
(`growth_rate` instead of `log(1+growth_rate)`, and `+ init_area` instead of `- init_area`).
Missing: equality in general – refuted by `C25_counterexample`. -/
theorem C25_generator_statistics_partial (G : SpotGenerator) (h1 : 0 < G.initArea)
    (h2 : G.initArea ≤ G.distAreaMean) (hg : 0 < G.growthRate) (hw : 0 < G.decayRate) (lat lon tu tp : ℝ) (q : Fl) :
    let s := StarSpot.new lat lon G.distAreaMean (.fin G.initArea) tu tp q true G.growthRate G.decayRate G.grid
    let life := timeToMax G.distAreaMean G.initArea G.growthRate + G.distAreaMean / G.decayRate
    ∃ L A : ℝ, G.meanLifetime = .fin L ∧ G.meanArea = .fin A ∧ 0 < L ∧ 0 < A ∧
      L = G.distAreaMean / G.decayRate + Real.log (G.distAreaMean / G.initArea) / G.growthRate ∧
      L ≤ life ∧ (L = life ↔ G.initArea = G.distAreaMean) ∧
      A * L = (G.distAreaMean + G.initArea) / G.growthRate + G.distAreaMean ^ 2 / (2 * G.decayRate) ∧
      ∫ t in (0 : ℝ)..life, areaAt s t =
        (G.distAreaMean - G.initArea) / Real.log (1 + G.growthRate) + G.distAreaMean ^ 2 / (2 * G.decayRate) := by
  intro s life
  have hm : 0 < G.distAreaMean := h1.trans_le h2
  have hns : ¬ G.isStatic := by unfold SpotGenerator.isStatic; exact hw.ne'
  have hlife : G.meanLifetime = .fin (G.distAreaMean / G.decayRate +
      Real.log (G.distAreaMean / G.initArea) / G.growthRate) := by
    simp only [SpotGenerator.meanLifetime, hns, if_false]
    rw [Fl.fin_div hw.ne', Fl.fin_div hm.ne', Fl.log_fin (div_pos h1 hm), Fl.fin_div hg.ne', Fl.fin_sub,
      Fl.fin_inj, ← inv_div G.distAreaMean G.initArea, Real.log_inv]
    ring
  have hlog : 0 ≤ Real.log (G.distAreaMean / G.initArea) := log_nonneg (by rw [le_div_iff₀ h1]; linarith)
  have hLpos : 0 < G.distAreaMean / G.decayRate + Real.log (G.distAreaMean / G.initArea) / G.growthRate := by
    positivity
  have hl1 : 0 < Real.log (1 + G.growthRate) := log_pos (by linarith)
  have hl2 : Real.log (1 + G.growthRate) < G.growthRate := by
    have := Real.log_lt_sub_one_of_pos (by linarith : 0 < 1 + G.growthRate) (by linarith)
    linarith
  refine ⟨_, ((G.distAreaMean + G.initArea) / G.growthRate + G.distAreaMean ^ 2 / (2 * G.decayRate)) /
    (G.distAreaMean / G.decayRate + Real.log (G.distAreaMean / G.initArea) / G.growthRate),
    hlife, ?_, hLpos, by positivity, rfl, ?_, ?_, ?_, ?_⟩
  · simp only [SpotGenerator.meanArea, hns, if_false, hlife]
    rw [Fl.fin_div hg.ne', Fl.fin_div hg.ne', Fl.fin_div hw.ne', Fl.fin_add, Fl.fin_add, Fl.fin_div hLpos.ne',
      Fl.fin_inj]
    congr 1
    field_simp
  · have := div_le_div_of_nonneg_left hlog hl1 hl2.le
    simp only [life, timeToMax]; linarith
  · simp only [life, timeToMax]
    constructor
    · intro he
      by_contra hne
      have hlt : G.initArea < G.distAreaMean := lt_of_le_of_ne h2 hne
      have hlog' : 0 < Real.log (G.distAreaMean / G.initArea) := log_pos (by rw [lt_div_iff₀ h1]; linarith)
      have := div_lt_div_of_pos_left hlog' hl1 hl2
      linarith
    · intro he
      rw [he, div_self hm.ne']; simp
  · rw [div_mul_cancel₀ _ hLpos.ne']
  · exact integral_area s G.initArea ⟨rfl, h1, h2, hg.le, hw.le⟩ rfl hg hw

/-- The full statement of C25 is false of the code: with peak area `e`, initial area 1, growth rate `e-1`
per day and decay rate 1 per day a spot lives `1 + e` days, but `mean_lifetime` is smaller. -/
theorem C25_counterexample (g : Grid) :
    ∃ L : ℝ, (SpotGenerator.mk (exp 1) 1 2500 2700 (exp 1 - 1) 1 1 .iso 0.1 g).meanLifetime = .fin L ∧
      L < timeToMax (exp 1) 1 (exp 1 - 1) + exp 1 / 1 := by
  have he : (2 : ℝ) < exp 1 := lt_trans (by norm_num) exp_one_gt_d9
  obtain ⟨L, A, hL, -, -, -, -, hle, hiff, -⟩ := C25_generator_statistics_partial
    (SpotGenerator.mk (exp 1) 1 2500 2700 (exp 1 - 1) 1 1 .iso 0.1 g) one_pos (by simp only; linarith)
    (by simp only; linarith) one_pos 0 0 0 0 (.fin 5)
  refine ⟨L, hL, lt_of_le_of_ne hle fun h => ?_⟩
  have := hiff.mp h
  simp only at this
  linarith

end Vsm
