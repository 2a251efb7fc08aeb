import Verif.Props.SpotGen
import Verif.Props.SpotAge

/-!
# C89, C90: `generate_mature_spots` in full
-/

noncomputable section

namespace Vsm

open Real Spec

/-! ## C89: which spots, and when the loop ends -/

/-- The list `l` consists of the spots made from the first `l.length` batches of random numbers, in order. -/
def Spec.MadeInOrder (G : SpotGenerator) (draws : ℕ → SpotDraws 1 × Set.Ico (0 : ℝ) 1) (k : ℕ)
    (l : List StarSpot) : Prop :=
  ∀ i (h : i < l.length), G.matureStep (draws (k + i)).1 (draws (k + i)).2 = .ok l[i]

theorem madeInOrder_cons {G : SpotGenerator} {draws : ℕ → SpotDraws 1 × Set.Ico (0 : ℝ) 1} {k : ℕ} {s : StarSpot}
    {l : List StarSpot} : MadeInOrder G draws k (s :: l) ↔
      G.matureStep (draws k).1 (draws k).2 = .ok s ∧ MadeInOrder G draws (k + 1) l := by
  constructor
  · intro h
    refine ⟨h 0 (by simp), fun i hi => ?_⟩
    have := h (i + 1) (by simpa using hi)
    rw [show k + 1 + i = k + (i + 1) by ring]
    simpa using this
  · rintro ⟨h1, h2⟩ i hi
    cases i with
    | zero => simpa using h1
    | succ i =>
      have := h2 i (by simpa using hi)
      rw [show k + (i + 1) = k + 1 + i by ring]
      simpa using this

/-- The loop stops exactly at the first prefix whose counted solid angle is not below the target. -/
theorem matureLoop_iff (G : SpotGenerator) (target R : ℝ) (draws : ℕ → SpotDraws 1 × Set.Ico (0 : ℝ) 1)
    (fuel k : ℕ) (acc l : List StarSpot) :
    G.matureLoop target R draws fuel k (countedAngle acc R) acc = some (.ok l) ↔
      ∃ tl, l = acc ++ tl ∧ tl.length ≤ fuel ∧ MadeInOrder G draws k tl ∧
        ¬ countedAngle l R < .fin target ∧
        ∀ m < tl.length, countedAngle (acc ++ tl.take m) R < .fin target := by
  induction fuel generalizing k acc with
  | zero =>
    simp only [SpotGenerator.matureLoop]
    constructor
    · intro h
      split_ifs at h with h1
      simp only [Option.some_inj, Except.ok.injEq] at h
      subst h
      exact ⟨[], by simp, by simp, fun i hi => absurd hi (by simp), h1, fun m hm => absurd hm (by simp)⟩
    · rintro ⟨tl, rfl, hlen, -, h2, -⟩
      have : tl = [] := List.length_eq_zero_iff.mp (Nat.le_zero.mp hlen)
      subst this
      rw [List.append_nil] at h2 ⊢
      rw [if_neg h2]
  | succ fuel ih =>
    simp only [SpotGenerator.matureLoop]
    by_cases h1 : countedAngle acc R < .fin target
    · rw [if_pos h1]
      constructor
      · intro h
        cases hm : G.matureStep (draws k).1 (draws k).2 with
        | error e => rw [hm] at h; simp at h
        | ok sp =>
          rw [hm] at h
          simp only at h
          rw [← countedAngle_append, ih] at h
          obtain ⟨tl, rfl, h2, h3, h4, h5⟩ := h
          refine ⟨sp :: tl, by simp, by simpa using h2, madeInOrder_cons.mpr ⟨hm, h3⟩, h4, fun m hm' => ?_⟩
          cases m with
          | zero => simpa using h1
          | succ m =>
            have := h5 m (by simpa using hm')
            simpa using this
      · rintro ⟨tl, rfl, h2, h3, h4, h5⟩
        cases tl with
        | nil => rw [List.append_nil] at h4; exact absurd h1 h4
        | cons sp tl =>
          obtain ⟨h6, h7⟩ := madeInOrder_cons.mp h3
          rw [h6]
          simp only
          rw [← countedAngle_append, ih]
          refine ⟨tl, by simp, by simpa using h2, h7, h4, fun m hm => ?_⟩
          have := h5 (m + 1) (by simpa using hm)
          simpa using this
    · rw [if_neg h1]
      constructor
      · intro h
        simp only [Option.some_inj, Except.ok.injEq] at h
        subst h
        exact ⟨[], by simp, by simp, fun i hi => absurd hi (by simp), h1, fun m hm => absurd hm (by simp)⟩
      · rintro ⟨tl, rfl, -, -, -, h5⟩
        cases tl with
        | nil => simp
        | cons sp tl => exact absurd (by simpa using h5 0 (by simp)) h1

theorem matureLoop_mono (G : SpotGenerator) (target R : ℝ) (draws : ℕ → SpotDraws 1 × Set.Ico (0 : ℝ) 1)
    (fuel k : ℕ) (w : Fl) (acc : List StarSpot) (r : Py (List StarSpot))
    (h : G.matureLoop target R draws fuel k w acc = some r) (n : ℕ) (hn : fuel ≤ n) :
    G.matureLoop target R draws n k w acc = some r := by
  induction fuel generalizing k w acc n with
  | zero =>
    simp only [SpotGenerator.matureLoop] at h
    split_ifs at h with h1
    cases n <;> simp only [SpotGenerator.matureLoop, if_neg h1, h]
  | succ fuel ih =>
    obtain ⟨n, rfl⟩ : ∃ m, n = m + 1 := ⟨n - 1, by omega⟩
    simp only [SpotGenerator.matureLoop] at h ⊢
    by_cases h1 : w < .fin target
    · rw [if_pos h1] at h ⊢
      cases hm : G.matureStep (draws k).1 (draws k).2 with
      | error e => rw [hm] at h; exact h
      | ok sp =>
        rw [hm] at h
        exact ih _ _ _ h n (by omega)
    · rw [if_neg h1] at h ⊢
      exact h

/-- `generate_mature_spots` runs the loop to its end. -/
theorem generateMature_of_loop (G : SpotGenerator) (c R : ℝ) (h0 : 0 ≤ c) (h1 : c ≤ 1)
    (draws : ℕ → SpotDraws 1 × Set.Ico (0 : ℝ) 1) (r : Py (List StarSpot)) (fuel : ℕ)
    (h : G.matureLoop (4 * π * c) R draws fuel 0 (.fin 0) [] = some r) : G.generateMature c R draws = r := by
  unfold SpotGenerator.generateMature
  rw [if_neg (by rintro (h | h) <;> linarith)]
  have hex : ∃ fuel, (G.matureLoop (4 * π * c) R draws fuel 0 (.fin 0) []).isSome := ⟨fuel, by rw [h]; rfl⟩
  rw [dif_pos hex]
  obtain ⟨r', hr'⟩ := Option.isSome_iff_exists.mp (Nat.find_spec hex)
  have := matureLoop_mono _ _ _ _ _ _ _ _ _ hr' fuel (Nat.find_min' hex (by rw [h]; rfl))
  rw [h, Option.some_inj] at this
  rw [hr', this]
  rfl

/-- **C89** `generate_mature_spots(coverage, R)` returns the list `l` exactly when `coverage ∈ [0,1]`, the
spots of `l` are those made in order from the first `len(l)` batches of random numbers, the solid angle as
counted (`Σ π θ²`) is not below `4π·coverage`, and every shorter prefix is below: no spot too many, none too
few, none skipped. -/
theorem C89_mature_list (G : SpotGenerator) (c R : ℝ) (draws : ℕ → SpotDraws 1 × Set.Ico (0 : ℝ) 1)
    (l : List StarSpot) : G.generateMature c R draws = .ok l ↔
      (0 ≤ c ∧ c ≤ 1) ∧
      (∀ i (h : i < l.length), G.matureStep (draws i).1 (draws i).2 = .ok l[i]) ∧
      ¬ countedAngle l R < .fin (4 * π * c) ∧
      ∀ m < l.length, countedAngle (l.take m) R < .fin (4 * π * c) := by
  have hmade : (∀ i (h : i < l.length), G.matureStep (draws i).1 (draws i).2 = .ok l[i]) ↔
      MadeInOrder G draws 0 l := by
    constructor <;> intro h i hi
    · rw [Nat.zero_add]; exact h i hi
    · have := h i hi; rwa [Nat.zero_add] at this
  rw [hmade]
  have hnil : (Fl.fin 0 : Fl) = countedAngle [] R := rfl
  constructor
  · intro h
    unfold SpotGenerator.generateMature at h
    split_ifs at h with h1 h2
    obtain ⟨r, hr⟩ := Option.isSome_iff_exists.mp (Nat.find_spec h2)
    rw [hr] at h
    simp only [Option.getD_some] at h
    subst h
    obtain ⟨fuel, hf⟩ : ∃ fuel, G.matureLoop (4 * π * c) R draws fuel 0 (countedAngle [] R) [] = some (.ok l) :=
      ⟨_, hr⟩
    rw [matureLoop_iff] at hf
    obtain ⟨tl, h3, -, h4, h5, h6⟩ := hf
    rw [List.nil_append] at h3
    subst h3
    push Not at h1
    exact ⟨⟨h1.2, h1.1⟩, h4, h5, fun m hm => by simpa using h6 m hm⟩
  · rintro ⟨⟨h0, h1⟩, h2, h3, h4⟩
    refine generateMature_of_loop G c R h0 h1 draws _ l.length ?_
    rw [hnil, matureLoop_iff]
    exact ⟨l, by simp, le_rfl, h2, h3, fun m hm => by simpa using h4 m hm⟩

/-- **C89** When every batch of random numbers gives a spot, the call ends if and only if some prefix of
those spots is not below the target; otherwise it never returns. -/
theorem C89_mature_ends (G : SpotGenerator) (c R : ℝ) (h0 : 0 ≤ c) (h1 : c ≤ 1)
    (draws : ℕ → SpotDraws 1 × Set.Ico (0 : ℝ) 1) (sp : ℕ → StarSpot)
    (hsp : ∀ i, G.matureStep (draws i).1 (draws i).2 = .ok (sp i)) :
    ((∃ n, ¬ countedAngle ((List.range n).map sp) R < .fin (4 * π * c)) →
      ∃ n, G.generateMature c R draws = .ok ((List.range n).map sp)) ∧
    ((∀ n, countedAngle ((List.range n).map sp) R < .fin (4 * π * c)) →
      G.generateMature c R draws = .error .diverges) := by
  classical
  constructor
  · intro hex
    refine ⟨Nat.find hex, (C89_mature_list G c R draws _).mpr ⟨⟨h0, h1⟩, fun i hi => ?_, Nat.find_spec hex, ?_⟩⟩
    · rw [hsp]; simp
    · intro m hm
      have hm' : m < Nat.find hex := by simpa using hm
      have := Nat.find_min hex hm'
      rw [not_not] at this
      rwa [← List.map_take, List.take_range, min_eq_left hm'.le]
  · intro hall
    unfold SpotGenerator.generateMature
    rw [if_neg (by rintro (h | h) <;> linarith), dif_neg]
    rintro ⟨fuel, hf⟩
    obtain ⟨r, hr⟩ := Option.isSome_iff_exists.mp hf
    cases r with
    | error e =>
      obtain ⟨j, hj⟩ := matureLoop_error _ _ _ _ _ _ _ _ _ hr
      rw [hsp] at hj
      cases hj
    | ok l =>
      have hl := generateMature_of_loop G c R h0 h1 draws _ fuel hr
      obtain ⟨-, h2, h3, -⟩ := (C89_mature_list G c R draws l).mp hl
      apply h3
      have : l = (List.range l.length).map sp := by
        apply List.ext_getElem (by simp)
        intro i h4 h5
        have := (h2 i h4).symm.trans (hsp i)
        simpa using this
      rw [this]
      exact hall _

/-! ## C90: what a mature spot is -/

theorem matureStep_ok {G : SpotGenerator} {d : SpotDraws 1} {x : Set.Ico (0 : ℝ) 1} {s : StarSpot}
    (h : G.matureStep d x = .ok s) : ∃ sp, G.generate 1 d = .ok [sp] ∧
      ((G.decayRate = 0 ∧ s = { sp with area := .fin ((x : ℝ) * (sp.areaMax - G.initArea) + G.initArea) }) ∨
       (G.decayRate ≠ 0 ∧ s = sp.ageFl (Fl.fin (x : ℝ) * G.meanLifetime))) := by
  unfold SpotGenerator.matureStep at h
  cases hg : G.generate 1 d with
  | error e => rw [hg] at h; cases h
  | ok l =>
    have hlen := ((C27_generate G 1 d).2.2 l hg).1
    match l, hlen, hg with
    | [sp], _, hg =>
      rw [hg] at h
      refine ⟨sp, rfl, ?_⟩
      simp only [Except.bind] at h
      split_ifs at h with h1
      · exact Or.inl ⟨h1, (Except.ok.inj h).symm⟩
      · exact Or.inr ⟨h1, (Except.ok.inj h).symm⟩

theorem age_keeps (s : StarSpot) (t : Fl) : (s.ageFl t).teffUmbra = s.teffUmbra ∧
    (s.ageFl t).teffPenumbra = s.teffPenumbra ∧ (s.ageFl t).lat = s.lat ∧ (s.ageFl t).lon = s.lon ∧
    (s.ageFl t).areaMax = s.areaMax ∧ (s.ageFl t).growthRate = s.growthRate ∧ (s.ageFl t).decayRate = s.decayRate ∧
    (s.ageFl t).grid = s.grid ∧ (s.ageFl t).r = s.r ∧ (s.ageFl t).ratio = s.ratio := by
  simp only [StarSpot.ageFl]
  split_ifs <;> simp

/-- What every mature spot has in common with a new one. -/
structure Spec.MatureLike (G : SpotGenerator) (d : SpotDraws 1) (s : StarSpot) : Prop where
  tu : s.teffUmbra = G.umbraTeff
  tp : s.teffPenumbra = G.penumbraTeff
  growth : s.growthRate = G.growthRate
  decay : s.decayRate = G.decayRate
  grid : s.grid = G.grid
  dist : s.r = StarSpot.distances s.lat s.lon G.grid
  amax : s.areaMax = G.distAreaMean * exp (G.distAreaLogsigma * d.z 0)
  ratio : ∃ q, s.ratio = .fin q ∧ 0 < q

theorem age_area_mem {s : StarSpot} {a : ℝ} (h : Phys s a) (hg : s.isGrowing = true) (t : ℝ) :
    ∃ b, (s.age t).area = .fin b ∧ 0 ≤ b ∧ b ≤ s.areaMax := by
  rcases eq_or_lt_of_le h.growth with h0 | h0
  · rw [age_static h.live hg h0.symm]
    exact ⟨a, h.area, h.pos.le, h.le⟩
  · rw [age_grow h.live hg h0]
    have hmax : 0 < s.areaMax := h.pos.trans_le h.le
    split_ifs with h1
    · exact ⟨_, rfl, (mul_pos h.pos (exp_pos _)).le, (grown_lt h.live h0 h1).le⟩
    · refine ⟨_, rfl, le_max_left _ _, max_le hmax.le ?_⟩
      push Not at h1
      have : 0 ≤ (t - timeToMax s.areaMax a s.growthRate) * s.decayRate :=
        mul_nonneg (sub_nonneg.mpr h1) h.decay
      linarith

/-- **C90** Each spot returned by `generate_mature_spots` has the generator's temperatures, rates and grid, a
peak area `mean·exp(σ z)` of its own and a positive umbra ratio.  For a static generator its area is
`A₀ + x (A_max − A₀)` with the uniform draw `x` and it still counts as growing; for an evolving one it is a new
spot aged by `x·mean_lifetime`.  In both cases, if the initial area does not exceed the peak area, the area
lies between 0 and the peak area (and above the initial area for a static one). -/
theorem C90_mature_spot (G : SpotGenerator) (hm : 0 < G.distAreaMean) (c R : ℝ)
    (draws : ℕ → SpotDraws 1 × Set.Ico (0 : ℝ) 1) (l : List StarSpot) (hl : G.generateMature c R draws = .ok l)
    (i : ℕ) (hi : i < l.length) :
    MatureLike G (draws i).1 l[i] ∧
    (G.decayRate = 0 → l[i].isGrowing = true ∧
      l[i].area = .fin (G.initArea + (draws i).2 * (l[i].areaMax - G.initArea))) ∧
    (G.decayRate ≠ 0 → ∃ sp, G.generate 1 (draws i).1 = .ok [sp] ∧ l[i] = sp.ageFl (Fl.fin ((draws i).2 : ℝ) * G.meanLifetime) ∧
      (0 < G.initArea → 0 < G.growthRate → ∃ L, G.meanLifetime = .fin L ∧ l[i] = sp.age ((draws i).2 * L))) ∧
    (0 < G.initArea → G.initArea ≤ l[i].areaMax → 0 ≤ G.growthRate → 0 ≤ G.decayRate → 0 < G.growthRate ∨ G.decayRate = 0 →
      ∃ a, l[i].area = .fin a ∧ 0 ≤ a ∧ a ≤ l[i].areaMax ∧ (G.decayRate = 0 → G.initArea ≤ a)) := by
  have hstep := ((C89_mature_list G c R draws l).mp hl).2.1 i hi
  generalize l[i] = s at hstep ⊢
  obtain ⟨sp, hgen, hcase⟩ := matureStep_ok hstep
  obtain ⟨-, hnb, hamax⟩ := (C27_generate G 1 (draws i).1).2.2 _ hgen
  have nb := hnb sp (by simp)
  have am : sp.areaMax = G.distAreaMean * exp (G.distAreaLogsigma * (draws i).1.z 0) :=
    hamax hm 0 (by simp) (by simp)
  have hx0 := (draws i).2.2.1
  have hx1 := (draws i).2.2.2
  rcases hcase with ⟨h0, rfl⟩ | ⟨h0, rfl⟩
  · refine ⟨⟨nb.tu, nb.tp, nb.growth, nb.decay, nb.grid, nb.dist, am, nb.ratio⟩,
      fun _ => ⟨nb.growing, ?_⟩, fun h => absurd h0 h, fun h1 h2 _ _ _ => ⟨_, rfl, ?_, ?_, fun _ => ?_⟩⟩
    · simp only [Fl.fin_inj]; ring
    all_goals
      simp only at h2
      nlinarith
  · obtain ⟨k1, k2, k3, k4, k5, k6, k7, k8, k9, k10⟩ := age_keeps sp (Fl.fin ((draws i).2 : ℝ) * G.meanLifetime)
    refine ⟨⟨k1.trans nb.tu, k2.trans nb.tp, k6.trans nb.growth, k7.trans nb.decay, k8.trans nb.grid, ?_, k5.trans am,
      k10 ▸ nb.ratio⟩, fun h => absurd h h0, fun _ => ⟨sp, hgen, rfl, fun h1 h3 => ?_⟩, fun h1 h2 h3 h4 h5 => ?_⟩
    · rw [k9, k3, k4]; exact nb.dist
    · obtain ⟨L, hL⟩ := meanLifetime_fin h1 hm h3 h0
      exact ⟨L, hL, by rw [hL, Fl.fin_mul]; rfl⟩
    · rw [k5] at h2 ⊢
      have hph : Phys sp G.initArea := ⟨nb.area, h1, h2, nb.growth ▸ h3, nb.decay ▸ h4⟩
      obtain ⟨L, hL⟩ := meanLifetime_fin h1 hm (h5.resolve_right h0) h0
      rw [hL, Fl.fin_mul]
      obtain ⟨b, hb, hb0, hb1⟩ := age_area_mem hph nb.growing ((draws i).2 * L)
      exact ⟨b, hb, hb0, hb1, fun h => absurd h h0⟩

/-- **C90** A static generator whose spots have peak areas of at least `a₀ > 0`, no smaller than the initial
area `A₀ > 0`, always ends: the loop adds at least `A₀/R²` per spot. -/
theorem C90_static_ends (G : SpotGenerator) (hm : 0 < G.distAreaMean) (hs : 0 ≤ G.distAreaLogsigma)
    (hd : G.distribution ≠ .other) (h0 : G.decayRate = 0) (hi : 0 < G.initArea) (c R : ℝ) (hR : 0 < R)
    (hc0 : 0 ≤ c) (hc1 : c ≤ 1) (draws : ℕ → SpotDraws 1 × Set.Ico (0 : ℝ) 1)
    (hq : ∀ k, ∃ j, ∀ i, 0 < (draws k).1.ratios j i)
    (ha : ∀ k, G.initArea ≤ G.distAreaMean * exp (G.distAreaLogsigma * (draws k).1.z 0))
    (hf : ∀ k, G.distAreaMean * exp (G.distAreaLogsigma * (draws k).1.z 0) ≤ 4 * π * R ^ 2) :
    ∃ l, G.generateMature c R draws = .ok l ∧
      ((l.length : ℝ) - 1) * (G.initArea / R ^ 2) ≤ 4 * π * c := by
  have hstep : ∀ k, ∃ s a, G.matureStep (draws k).1 (draws k).2 = .ok s ∧ s.area = .fin a ∧ G.initArea ≤ a ∧
      a ≤ 4 * π * R ^ 2 := by
    intro k
    obtain ⟨e1, -, e3⟩ := C27_generate G 1 (draws k).1
    obtain ⟨l, hl⟩ := e1 hs hd (hq k)
    obtain ⟨hlen, hnb, hamax⟩ := e3 l hl
    match l, hlen, hl, hnb, hamax with
    | [sp], _, hl, hnb, hamax =>
      have am : sp.areaMax = G.distAreaMean * exp (G.distAreaLogsigma * (draws k).1.z 0) :=
        hamax hm 0 (by simp) (by simp)
      have k1 := ha k
      have k2 := hf k
      rw [← am] at k1 k2
      have hx0 := (draws k).2.2.1
      have hx1 := (draws k).2.2.2
      refine ⟨{ sp with area := .fin ((draws k).2 * (sp.areaMax - G.initArea) + G.initArea) }, _, ?_, rfl, ?_, ?_⟩
      · have hst : G.isStatic := h0
        simp only [SpotGenerator.matureStep, hl, Except.bind, hst, if_true]
      · nlinarith
      · nlinarith
  choose sp a hsp har halo hahi using hstep
  have hp : 0 < G.initArea / R ^ 2 := by positivity
  have hfit : ∀ n, Fits ((List.range n).map sp) R := by
    intro n s hs'
    obtain ⟨k, -, rfl⟩ := List.mem_map.mp hs'
    exact ⟨a k, har k, hi.le.trans (halo k), hahi k⟩
  have htrue : ∀ n : ℕ, (n : ℝ) * (G.initArea / R ^ 2) ≤ trueAngle ((List.range n).map sp) R := by
    intro n
    induction n with
    | zero => simp [trueAngle]
    | succ n ih =>
      rw [List.range_succ, List.map_append]
      simp only [trueAngle, List.map_append, List.sum_append, List.map_cons, List.map_nil, List.sum_cons,
        List.sum_nil, har, add_zero] at ih ⊢
      have : G.initArea / R ^ 2 ≤ a n / R ^ 2 := by
        apply div_le_div_of_nonneg_right (halo n) (by positivity)
      push_cast
      linarith
  obtain ⟨n, hn⟩ := exists_nat_gt (4 * π * c / (G.initArea / R ^ 2))
  rw [div_lt_iff₀ hp] at hn
  obtain ⟨N, hN⟩ := (C89_mature_ends G c R hc0 hc1 draws sp hsp).1 ⟨n, by
    obtain ⟨w, hw, hw1, -⟩ := countedAngle_fits hR (hfit n)
    rw [hw, Fl.fin_lt, not_lt]
    linarith [htrue n]⟩
  refine ⟨_, hN, ?_⟩
  rw [List.length_map, List.length_range]
  have hp4 : 0 ≤ 4 * π * c := by positivity
  cases N with
  | zero => push_cast; linarith
  | succ N =>
    have h4 := ((C89_mature_list G c R draws _).mp hN).2.2.2 N (by simp)
    rw [← List.map_take, List.take_range, min_eq_left (Nat.le_succ N)] at h4
    obtain ⟨w, hw, hw1, -⟩ := countedAngle_fits hR (hfit N)
    rw [hw, Fl.fin_lt] at h4
    push_cast
    linarith [htrue N]

/-- Non-trivial instance of C89 and C90: spots of about a hundredth of the surface, asked to cover 10 %. -/
example (g : Grid) : ∃ l, (SpotGenerator.mk 0.2 0 2500 2700 0 0 0.1 .iso 0 g).generateMature 0.1 1
    (fun _ => (plainDraws 1, ⟨0.5, by norm_num⟩)) = .ok l ∧ l ≠ [] ∧
    ∀ i (h : i < l.length), l[i].teffUmbra = 2500 ∧ l[i].area = .fin (0.1 + 0.5 * (l[i].areaMax - 0.1)) := by
  have hp3 := pi_gt_three
  obtain ⟨l, hl, -⟩ := C90_static_ends (SpotGenerator.mk 0.2 0 2500 2700 0 0 0.1 .iso 0 g) (by norm_num) (by norm_num)
    (by simp) rfl (by norm_num) 0.1 1 one_pos (by norm_num) (by norm_num)
    (fun _ => (plainDraws 1, ⟨0.5, by norm_num⟩)) (fun _ => ⟨0, fun i => by simp [plainDraws, SpotDraws.ratios]⟩)
    (fun _ => by simp [plainDraws]; norm_num) (fun _ => by simp [plainDraws]; linarith)
  refine ⟨l, hl, ?_, fun i hi => ?_⟩
  · rintro rfl
    apply ((C89_mature_list _ _ _ _ _).mp hl).2.2.1
    simp only [countedAngle, List.map_nil, List.sum_nil]
    exact (Fl.fin_lt 0 _).mpr (by positivity)
  · obtain ⟨h1, h2, -⟩ := C90_mature_spot _ (by norm_num) _ _ _ l hl i hi
    exact ⟨h1.tu, (h2 rfl).2⟩

end Vsm
