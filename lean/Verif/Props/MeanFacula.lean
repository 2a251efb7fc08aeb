import Verif.Props.MeanLight
import Verif.Props.Steady

/-!
# C161: the light from outside randomly placed faculae
-/

noncomputable section

namespace Vsm

open Real MeasureTheory ProbabilityTheory Set Np Spec
open scoped ENNReal

/-! ### Specification -/

/-- Share of the sphere within the angle `ρ` of a point. -/
def Spec.ballShare (ρ : ℝ) : ℝ := if 0 ≤ ρ then (1 - cos (min ρ π)) / 2 else 0

/-- The radius of a facula as a number. -/
def Spec.radiusNow (f : Facula) : ℝ := match f.radius with | .fin r => r | _ => 0

/-! ### Random draws -/

theorem batch_any {Ω : Type*} [MeasurableSpace Ω] (P : Measure Ω) [IsProbabilityMeasure P] {u1 u2 : ℝ} (hld : PhysicalLD u1 u2) (lat0 lon0 : ℝ)
    (n : ℕ) (y : Ω → Fin n → (ℝ × ℝ) × ℝ) (hm : Measurable y) (hl : P.map y = Measure.pi fun _ => drawLaw)
    (B : (ℝ × ℝ) × ℝ → ℝ → ℝ → Prop) (hB : MeasurableSet {w : ((ℝ × ℝ) × ℝ) × ℝ × ℝ | B w.1 w.2.2 w.2.1})
    (hper : ∀ y φ l, B y φ (l + 2 * π) ↔ B y φ l) (c : ℝ) (hc : c ≤ 1) (hBc : ∀ φ l, drawLaw {y | B y φ l} = ENNReal.ofReal (1 - c)) :
    ∫ ω, lightShare u1 u2 lat0 lon0 (fun φ l => ∀ i, B (y ω i) φ l) ∂P = (1 - c) ^ n := by
  have hB1 : ∀ φ l, MeasurableSet {y | B y φ l} := fun φ l => (by fun_prop : Measurable fun y : (ℝ × ℝ) × ℝ => (y, ((l, φ) : ℝ × ℝ))) hB
  refine mean_light P hld lat0 lon0 _ ?_ (fun ω φ l => by simp only [hper]) _ (pow_nonneg (by linarith) n) fun φ l => ?_
  · have : {w : Ω × ℝ × ℝ | ∀ i, B (y w.1 i) w.2.2 w.2.1} = ⋂ i, {w : Ω × ℝ × ℝ | B (y w.1 i) w.2.2 w.2.1} := by ext w; simp
    rw [this]
    refine MeasurableSet.iInter fun i => ?_
    have hy : Measurable fun w : Ω × ℝ × ℝ => (y w.1 i, w.2) := (((measurable_pi_apply i).comp hm).comp measurable_fst).prodMk measurable_snd
    exact hy hB
  · have := all_chance P n y hm hl _ (hB1 φ l)
    rw [show {ω | ∀ i, B (y ω i) φ l} = {ω | ∀ i, y ω i ∈ {y : (ℝ × ℝ) × ℝ | B y φ l}} from rfl, this, hBc, ENNReal.ofReal_pow (by linarith)]

theorem run_any {Ω : Type*} [MeasurableSpace Ω] (P : Measure Ω) [IsProbabilityMeasure P] {u1 u2 : ℝ} (hld : PhysicalLD u1 u2) (lat0 lon0 : ℝ)
    (x : ℝ) (hx : 0 ≤ x) (K : ℕ → Ω → ℕ) (y : ℕ → (n : ℕ) → Ω → Fin n → (ℝ × ℝ) × ℝ) (hF : FairSpots P x K y) (N : ℕ)
    (B : ℕ → (ℝ × ℝ) × ℝ → ℝ → ℝ → Prop) (hB : ∀ j, MeasurableSet {w : ((ℝ × ℝ) × ℝ) × ℝ × ℝ | B j w.1 w.2.2 w.2.1})
    (hper : ∀ j y φ l, B j y φ (l + 2 * π) ↔ B j y φ l) (c : ℕ → ℝ) (hc : ∀ j, c j ≤ 1)
    (hBc : ∀ j φ l, drawLaw {y | B j y φ l} = ENNReal.ofReal (1 - c j)) :
    ∫ ω, lightShare u1 u2 lat0 lon0 (fun φ l => ∀ j < N, ∀ i, B j (y j (K j ω) ω i) φ l) ∂P = exp (-(x * ∑ j ∈ Finset.range N, c j)) := by
  have hB1 : ∀ j φ l, MeasurableSet {y | B j y φ l} := fun j φ l => (by fun_prop : Measurable fun y : (ℝ × ℝ) × ℝ => (y, ((l, φ) : ℝ × ℝ))) (hB j)
  refine mean_light P hld lat0 lon0 _ ?_ (fun ω φ l => by simp only [hper]) _ (exp_pos _).le fun φ l => ?_
  · have : {w : Ω × ℝ × ℝ | ∀ j < N, ∀ i, B j (y j (K j w.1) w.1 i) w.2.2 w.2.1} =
        ⋂ j, ⋂ (_ : j < N), ⋃ n, ({w : Ω × ℝ × ℝ | K j w.1 = n} ∩ ⋂ i, {w : Ω × ℝ × ℝ | B j (y j n w.1 i) w.2.2 w.2.1}) := by
      ext w
      simp only [mem_ofPred_eq, mem_iUnion, mem_inter_iff, mem_iInter]
      constructor
      · intro h j hj; exact ⟨_, rfl, h j hj⟩
      · intro h j hj
        obtain ⟨n, rfl, h'⟩ := h j hj
        exact h'
    rw [this]
    refine MeasurableSet.iInter fun j => MeasurableSet.iInter fun _ => MeasurableSet.iUnion fun n => MeasurableSet.inter ?_ ?_
    · exact ((hF.count_measurable j).comp measurable_fst) (measurableSet_singleton n)
    · refine MeasurableSet.iInter fun i => ?_
      have hy : Measurable fun w : Ω × ℝ × ℝ => (y j n w.1 i, w.2) :=
        (((measurable_pi_apply i).comp (hF.measurable j n)).comp measurable_fst).prodMk measurable_snd
      exact hy (hB j)
  · exact run_chance P x hx K y hF N (fun j => {y | B j y φ l}) (fun j => hB1 j φ l) c hc (fun j => hBc j φ l)

/-- A facula of angular radius `ρ` and place `y` does not reach the point. -/
def misses (ρ : ℝ → ℝ) (y : (ℝ × ℝ) × ℝ) (φ l : ℝ) : Prop := ρ y.2 < greatCircle (arcsin (2 * y.1.1 - 1)) (2 * π * y.1.2) φ l

theorem misses_measurable (ρ : ℝ → ℝ) (hρ : Measurable ρ) : MeasurableSet {w : ((ℝ × ℝ) × ℝ) × ℝ × ℝ | misses ρ w.1 w.2.2 w.2.1} := by
  have h1 : Measurable fun w : ((ℝ × ℝ) × ℝ) × ℝ × ℝ => ρ w.1.2 := hρ.comp (measurable_snd.comp measurable_fst)
  refine measurableSet_lt h1 ?_
  simp only [greatCircle_eq]; fun_prop

theorem ballShare_mem (ρ : ℝ) : 0 ≤ ballShare ρ ∧ ballShare ρ ≤ 1 := by
  unfold ballShare
  have h1 := neg_one_le_cos (min ρ π)
  have h2 := cos_le_one (min ρ π)
  split_ifs
  · constructor <;> linarith
  · norm_num

theorem ballShare_measurable : Measurable ballShare := by
  unfold ballShare
  exact Measurable.ite measurableSet_Ici (by fun_prop) measurable_const

/-- A disk on the sphere has no more area than a flat one. -/
theorem ballShare_flat (ρ : ℝ) : ballShare ρ ≤ ρ ^ 2 / 4 := by
  unfold ballShare
  split_ifs with h
  · have hm : 0 ≤ min ρ π := le_min h pi_pos.le
    have h1 : min ρ π ^ 2 ≤ ρ ^ 2 := pow_le_pow_left₀ hm (min_le_left _ _) 2
    have h2 := one_sub_sq_div_two_le_cos (x := min ρ π)
    linarith
  · positivity

theorem ballShare_integrable (ρ : ℝ → ℝ) (hρ : Measurable ρ) : Integrable (fun z => ballShare (ρ z)) (gaussianReal 0 1) :=
  Integrable.of_bound (ballShare_measurable.comp hρ).aestronglyMeasurable 1 (Filter.Eventually.of_forall fun z => by
    rw [norm_eq_abs, abs_of_nonneg (ballShare_mem _).1]; exact (ballShare_mem _).2)

theorem ballShare_mean (ρ : ℝ → ℝ) (hρ : Measurable ρ) : ∫ z, ballShare (ρ z) ∂gaussianReal 0 1 ≤ 1 := by
  refine (integral_mono (ballShare_integrable ρ hρ) (integrable_const 1) fun z => (ballShare_mem _).2).trans ?_
  simp

theorem cosDist_antipode (a b c d : ℝ) : cosDist (-a) (b + π) c d = -cosDist a b c d := by
  simp only [cosDist, inner_unitVec, cos_neg, sin_neg]
  rw [show b + π - d = (b - d) + π by ring, cos_add_pi]
  ring

theorem miss_chance (φ l : ℝ) (ρ : ℝ → ℝ) (hρ : Measurable ρ) :
    drawLaw {y | misses ρ y φ l} = ENNReal.ofReal (1 - ∫ z, ballShare (ρ z) ∂gaussianReal 0 1) := by
  have hms : MeasurableSet {y | misses ρ y φ l} :=
    (by fun_prop : Measurable fun y : (ℝ × ℝ) × ℝ => (y, ((l, φ) : ℝ × ℝ))) (misses_measurable ρ hρ)
  have e0 : 1 - ∫ z, ballShare (ρ z) ∂gaussianReal 0 1 = ∫ z, (1 - ballShare (ρ z)) ∂gaussianReal 0 1 := by
    rw [integral_sub (integrable_const 1) (ballShare_integrable ρ hρ)]; simp
  have hint : Integrable (fun z => 1 - ballShare (ρ z)) (gaussianReal 0 1) := (integrable_const 1).sub (ballShare_integrable ρ hρ)
  rw [e0, drawLaw, Measure.prod_apply_symm hms, ofReal_integral_eq_lintegral_ofReal hint
    (Filter.Eventually.of_forall fun z => by have := (ballShare_mem (ρ z)).2; show 0 ≤ 1 - ballShare (ρ z); linarith)]
  refine lintegral_congr fun z => ?_
  have hpre : (fun x : ℝ × ℝ => (x, z)) ⁻¹' {y : (ℝ × ℝ) × ℝ | misses ρ y φ l} =
      {x | ρ z < greatCircle (arcsin (2 * x.1 - 1)) (2 * π * x.2) φ l} := rfl
  rw [hpre]
  by_cases h0 : 0 ≤ ρ z
  · set k := cos (min (ρ z) π) with hk
    have hmem : min (ρ z) π ∈ Icc 0 π := ⟨le_min h0 pi_pos.le, min_le_right _ _⟩
    have hA : MeasurableSet {p : ℝ × ℝ | -k < cosDist (-φ) (l + π) p.1 p.2} := by
      have : Measurable fun p : ℝ × ℝ => cosDist (-φ) (l + π) p.1 p.2 := by simp only [cosDist, inner_unitVec]; fun_prop
      exact measurableSet_lt measurable_const this
    have e : {x : ℝ × ℝ | ρ z < greatCircle (arcsin (2 * x.1 - 1)) (2 * π * x.2) φ l} =
        {x | (arcsin (2 * x.1 - 1), 2 * π * x.2) ∈ {p : ℝ × ℝ | -k < cosDist (-φ) (l + π) p.1 p.2}} := by
      ext x
      simp only [mem_ofPred_eq]
      rw [cosDist_antipode, neg_lt_neg_iff, cosDist_symm, ← cos_greatCircle, hk]
      have hgm : greatCircle (arcsin (2 * x.1 - 1)) (2 * π * x.2) φ l ∈ Icc 0 π := ⟨greatCircle_nonneg _ _ _ _, InnerProductGeometry.angle_le_pi _ _⟩
      rw [strictAntiOn_cos.lt_iff_gt hgm hmem]
      constructor
      · intro h; exact lt_of_le_of_lt (min_le_left _ _) h
      · intro h
        rcases min_lt_iff.mp h with h | h
        · exact h
        · exact absurd hgm.2 (not_le.mpr h)
    rw [e, Measure.restrict_apply (place_measurable _ hA)]
    have h2 := square_sphere _ hA
    rw [cap_share (-φ) (l + π) (-k) (by linarith [cos_le_one (min (ρ z) π)]) (by linarith [neg_one_le_cos (min (ρ z) π)])] at h2
    refine Eq.trans ?_ (h2.trans ?_)
    · congr 1
      ext x
      simp only [Spec.square, mem_inter_iff, mem_ofPred_eq, and_comm]
    · rw [ballShare, if_pos h0, ← hk]
      congr 1
      ring
  · have e : {x : ℝ × ℝ | ρ z < greatCircle (arcsin (2 * x.1 - 1)) (2 * π * x.2) φ l} = univ := by
      ext x
      simp only [mem_ofPred_eq, mem_univ, iff_true]
      exact lt_of_lt_of_le (not_le.mp h0) (greatCircle_nonneg _ _ _ _)
    rw [e, measure_univ, ballShare, if_neg h0, sub_zero, ENNReal.ofReal_one]

theorem misses_periodic (ρ : ℝ → ℝ) (y : (ℝ × ℝ) × ℝ) (φ l : ℝ) : misses ρ y φ (l + 2 * π) ↔ misses ρ y φ l := by
  simp only [misses, greatCircle_periodic]

/-! ### The faculae of a run -/

theorem facPopulation_all (s : Star) (dt x : ℝ) (hx : s.facGen.nExpected dt s.radius = .fin x) (k : ℕ → ℕ)
    (d : ℕ → (n : ℕ) → FaculaDraws n) (g : Grid) (Q : Facula → Prop) (Ψ : ℝ → (ℝ × ℝ) × ℝ → Prop)
    (hΨ : ∀ (n : ℕ) (e : FaculaDraws n) (i : Fin n) (t : ℝ),
      (∀ f', faculaLater t { (s.facGen.generate n e)[(i : ℕ)]'(by simp [FaculaGenerator.generate]) with grid := g } = some f' → Q f') ↔
        Ψ t ((e.uLat i, e.uLon i), e.mu i))
    (js : List ℕ) (hp : ∀ j ∈ js, Np.poisson (.fin x) (k j) = .ok (k j)) (newf : List (List Facula))
    (h : List.Forall₂ (faculaeOf s) (js.flatMap fun j => facStep dt (k j) (d j)) newf) :
    (∀ f' ∈ population faculaLater (js.flatMap fun j => facStep dt (k j) (d j)) (newf.map (faculaeOn g)), Q f') ↔
      ∀ (m : ℕ) (hm : m < js.length) (i : Fin (k js[m])),
        Ψ ((js.length - m : ℕ) * dt) (((d js[m] _).uLat i, (d js[m] _).uLon i), (d js[m] _).mu i) := by
  induction js generalizing newf with
  | nil =>
    cases h
    simp [population]
  | cons j js ih =>
    have hages := ages_run dt k d js
    rw [List.flatMap_cons] at h ⊢
    rw [show facStep dt (k j) (d j) = [.birthFaculae dt (k j) (d j), .age dt] from rfl] at h ⊢
    simp only [List.cons_append, List.nil_append] at h ⊢
    obtain ⟨new, l', h1, h2, rfl⟩ := List.forall₂_cons_left_iff.mp h
    obtain ⟨new2, rest, h3, h4, rfl⟩ := List.forall₂_cons_left_iff.mp h2
    have hn2 : new2 = [] := h3
    have hn : new = s.facGen.generate (k j) (d j (k j)) := by
      have : s.facGen.birth dt s.radius (k j) (d j) = .ok new := h1
      unfold FaculaGenerator.birth at this
      rw [hx, hp j (by simp)] at this
      simp only [Except.map, Except.ok.injEq] at this
      exact this.symm
    subst hn2 hn
    have hlen : (s.facGen.generate (k j) (d j (k j))).length = k j := by simp [FaculaGenerator.generate]
    have ih' := ih (fun j' hj' => hp j' (by simp [hj'])) rest h4
    have hage : ages (Op.age dt :: List.flatMap (fun j => facStep dt (k j) (d j)) js) = dt :: List.replicate js.length dt :=
      congrArg (dt :: ·) hages
    have hsum : (dt :: List.replicate js.length dt).sum = ((js.length + 1 : ℕ) : ℝ) * dt := by
      simp
      ring
    simp only [List.map_cons, population, faculaeOn, List.map_nil, later_nil, List.nil_append, List.mem_append]
    have hnew : (∀ f' ∈ later faculaLater (ages (Op.age dt :: List.flatMap (fun j => facStep dt (k j) (d j)) js))
          ((s.facGen.generate (k j) (d j (k j))).map fun f => { f with grid := g }), Q f') ↔
        ∀ i : Fin (k j), Ψ ((js.length + 1 : ℕ) * dt) (((d j _).uLat i, (d j _).uLon i), (d j _).mu i) := by
      unfold later
      rw [hage, if_neg (by simp), hsum]
      simp only [List.mem_filterMap, List.mem_map]
      constructor
      · intro h i
        rw [← hΨ _ _ i]
        intro f' hf'
        exact h f' ⟨_, ⟨_, List.getElem_mem _, rfl⟩, hf'⟩
      · rintro h f' ⟨_, ⟨f₁, hf₁, rfl⟩, hf'⟩
        obtain ⟨i, hi, rfl⟩ := List.getElem_of_mem hf₁
        exact (hΨ _ _ ⟨i, by rw [← hlen]; exact hi⟩ _).mpr (h ⟨i, by rw [← hlen]; exact hi⟩) f' hf'
    constructor
    · intro h m hm
      cases m with
      | zero => exact hnew.mp fun s' hs' => h s' (Or.inl hs')
      | succ m =>
        have := ih'.mp (fun s' hs' => h s' (Or.inr hs')) m (by simpa using hm)
        simpa using this
    · intro h s' hs'
      rcases hs' with hs' | hs'
      · exact hnew.mpr (h 0 (by simp)) s' hs'
      · refine ih'.mpr (fun m hm => ?_) s' hs'
        have := h (m + 1) (by simpa using hm)
        simpa using this

/-- Angular radius of a facula of age `t`; negative after its life. -/
def sizeAt (R r L t : ℝ) : ℝ := if t < 2 * L then r * exp (-2 * |t - L| / L) / R else -1

theorem later_size {R : ℝ} (f : Facula) (h : PhysF f (f.rMax * exp (-2))) (hg : f.isGrowing = true) (t : ℝ) :
    (∃ f', faculaLater t f = some f' ∧ t < 2 * f.lifetime ∧ f'.lat = f.lat ∧ f'.lon = f.lon ∧
      f'.radius = .fin (f.rMax * exp (-2 * |t - f.lifetime| / f.lifetime)) ∧
      sizeAt R f.rMax f.lifetime t = f.rMax * exp (-2 * |t - f.lifetime| / f.lifetime) / R) ∨
    (faculaLater t f = none ∧ ¬ t < 2 * f.lifetime ∧ sizeAt R f.rMax f.lifetime t = -1) := by
  have hT := newborn_timeLeft h
  have hl := h.life
  rw [timeLeft_eq h] at hT
  unfold faculaLater sizeAt
  rw [h.radius]
  simp only [hg, if_true, hT]
  by_cases h1 : t < f.lifetime
  · left
    rw [if_pos h1, if_pos (by linarith : t < 2 * f.lifetime)]
    refine ⟨_, rfl, by linarith, rfl, rfl, ?_, rfl⟩
    show Fl.fin _ = Fl.fin _
    rw [Fl.fin.injEq, abs_of_neg (by linarith), mul_assoc, ← exp_add]
    congr 2
    field_simp; ring
  · rw [if_neg h1]
    by_cases h2 : t < 2 * f.lifetime
    · left
      rw [if_pos (by linarith : t < f.lifetime + f.lifetime), if_pos h2]
      refine ⟨_, rfl, h2, rfl, rfl, ?_, rfl⟩
      rw [abs_of_nonneg (by linarith)]
    · right
      rw [if_neg (by linarith : ¬ t < f.lifetime + f.lifetime), if_neg h2]
      exact ⟨rfl, h2, rfl⟩

/-- No facula of the list reaches the point. -/
def Spec.outside (fs : List Facula) (R φ l : ℝ) : Prop := ¬ inAnyFacula fs R φ l

theorem outside_iff (fs : List Facula) (R φ l : ℝ) : outside fs R φ l ↔ ∀ f ∈ fs, ∀ r, f.radius = .fin r → r / R < greatCircle f.lat f.lon φ l := by
  unfold outside inAnyFacula
  push Not
  rfl

theorem facula_place (G : FaculaGenerator) (n : ℕ) (e : FaculaDraws n) (i : Fin n) :
    ((G.generate n e)[(i : ℕ)]'(by simp [FaculaGenerator.generate])).lat = arcsin (2 * (e.uLat i : ℝ) - 1) ∧
    ((G.generate n e)[(i : ℕ)]'(by simp [FaculaGenerator.generate])).lon = 2 * π * (e.uLon i : ℝ) := by
  have := congrArg (fun l => l[(i : ℕ)]?) (facula_fields G n e)
  have hi : (i : ℕ) < (G.generate n e).length := by simp [FaculaGenerator.generate]
  simp [hi] at this
  exact this

theorem fac_later_cover (G : FaculaGenerator) (hr : 0 < G.distRPeak) (hl : 0 < G.distLifePeak) (g : Grid) (R φ ψ : ℝ)
    (n : ℕ) (e : FaculaDraws n) (i : Fin n) (t : ℝ) :
    (∀ f', faculaLater t { (G.generate n e)[(i : ℕ)]'(by simp [FaculaGenerator.generate]) with grid := g } = some f' →
      ∀ r, f'.radius = .fin r → r / R < greatCircle f'.lat f'.lon φ ψ) ↔
      misses (fun z => sizeAt R (radiusOf G z) (lifeOf G z) t) ((e.uLat i, e.uLon i), e.mu i) φ ψ := by
  obtain ⟨c1, c2, c3, c4⟩ := generated_on G hr hl g n e i _ rfl
  obtain ⟨p1, p2⟩ := facula_place G n e i
  unfold misses
  simp only
  rw [← c3, ← c4, ← p1, ← p2]
  rcases later_size (R := R) _ c1 c2 t with ⟨f', k1, -, k3, k4, k5, k6⟩ | ⟨k1, -, k3⟩
  · rw [k1, k6]
    constructor
    · intro h
      have := h f' rfl _ k5
      rw [k3, k4] at this
      exact this
    · rintro h f'' hf'' r hr'
      obtain rfl := Option.some.inj hf''
      rw [k5, Fl.fin.injEq] at hr'
      rw [← hr', k3, k4]
      exact h
  · rw [k1, k3]
    refine iff_of_true (fun f' h => by cases h) ?_
    linarith [greatCircle_nonneg ((G.generate n e)[(i : ℕ)]'(by simp [FaculaGenerator.generate])).lat
      ((G.generate n e)[(i : ℕ)]'(by simp [FaculaGenerator.generate])).lon φ ψ]

theorem fairFaculae_lives {Ω : Type*} [MeasurableSpace Ω] {P : Measure Ω} {x : ℝ} {K : ℕ → Ω → ℕ} {D : ℕ → Ω → (n : ℕ) → FaculaDraws n}
    (hF : FairSpots P x K (fun j n ω i => ((((D j ω n).uLat i : ℝ), ((D j ω n).uLon i : ℝ)), (D j ω n).mu i))) (j : ℕ) :
    FairLives P x (K j) fun ω n i => (D j ω n).mu i := fairSpots_lives hF j

/-- **C161** The light from outside all newborn faculae.  When `n` faculae are generated at independent places, uniformly distributed over the
sphere, the share of the light of the disk that comes from outside all of them is on average exactly `(1 − q)^n`, whatever the limb darkening and
wherever the observer; `q` is the mean share of the sphere within the radius of a newborn facula, and at most
`(r₀/R)²·exp(−4 + 2(σ·ln 10)²)/4`. -/
theorem C161_newborn {Ω : Type*} [MeasurableSpace Ω] (P : Measure Ω) [IsProbabilityMeasure P] (G : FaculaGenerator) (hr : 0 < G.distRPeak)
    (hl : 0 < G.distLifePeak) (R : ℝ) (n : ℕ) (D : Ω → FaculaDraws n)
    (hm : Measurable (fun ω i => ((((D ω).uLat i : ℝ), ((D ω).uLon i : ℝ)), (D ω).mu i)))
    (hlaw : P.map (fun ω i => ((((D ω).uLat i : ℝ), ((D ω).uLon i : ℝ)), (D ω).mu i)) = Measure.pi (fun _ => drawLaw)) :
    let q := ∫ z, ballShare (G.distRPeak * (10 : ℝ) ^ (z * G.distRLogsigma) / exp 2 / R) ∂gaussianReal 0 1
    (∀ u1 u2 lat0 lon0 : ℝ, PhysicalLD u1 u2 → ∫ ω, lightShare u1 u2 lat0 lon0 (outside (G.generate n (D ω)) R) ∂P = (1 - q) ^ n) ∧
      0 ≤ q ∧ q ≤ (G.distRPeak / R) ^ 2 * exp (-4 + 2 * (Real.log 10 * G.distRLogsigma) ^ 2) / 4 := by
  intro q
  have hz : ∀ z, G.distRPeak * (10 : ℝ) ^ (z * G.distRLogsigma) / exp 2 / R = radiusOf G z * exp (-2) / R := by
    intro z
    rw [radiusOf, ten_rpow, exp_neg]
    have : Real.log 10 * (z * G.distRLogsigma) = Real.log 10 * G.distRLogsigma * z := by ring
    rw [this]
    rfl
  have hq : q = ∫ z, ballShare (radiusOf G z * exp (-2) / R) ∂gaussianReal 0 1 := by simp only [q, hz]
  have hρm : Measurable fun z => radiusOf G z * exp (-2) / R := by unfold radiusOf; fun_prop
  refine ⟨fun u1 u2 lat0 lon0 hld => ?_, integral_nonneg fun z => (ballShare_mem _).1, ?_⟩
  · rw [hq, ← batch_any P hld lat0 lon0 n _ hm hlaw (misses fun z => radiusOf G z * exp (-2) / R) (misses_measurable _ hρm)
      (misses_periodic _) _ (ballShare_mean _ hρm) (fun φ l => miss_chance φ l _ hρm)]
    congr 1
    funext ω
    congr 1
    funext φ l
    refine propext ((outside_iff _ _ _ _).trans ?_)
    have hlen : (G.generate n (D ω)).length = n := by simp [FaculaGenerator.generate]
    have key : ∀ i : Fin n, (∀ r, ((G.generate n (D ω))[(i : ℕ)]'(by rw [hlen]; exact i.2)).radius = .fin r →
        r / R < greatCircle ((G.generate n (D ω))[(i : ℕ)]'(by rw [hlen]; exact i.2)).lat ((G.generate n (D ω))[(i : ℕ)]'(by rw [hlen]; exact i.2)).lon φ l) ↔
        misses (fun z => radiusOf G z * exp (-2) / R) ((((D ω).uLat i : ℝ), ((D ω).uLon i : ℝ)), (D ω).mu i) φ l := by
      intro i
      obtain ⟨c1, -, c3, -⟩ := generated_on G hr hl ((G.generate n (D ω))[(i : ℕ)]'(by rw [hlen]; exact i.2)).grid n (D ω) i _ rfl
      obtain ⟨p1, p2⟩ := facula_place G n (D ω) i
      have e : ((G.generate n (D ω))[(i : ℕ)]'(by rw [hlen]; exact i.2)).radius = .fin (radiusOf G ((D ω).mu i) * exp (-2)) := by
        rw [← c3]; exact c1.radius
      rw [e, p1, p2]
      unfold misses
      simp only [Fl.fin.injEq, forall_eq']
    constructor
    · intro h i
      exact (key i).mp (h _ (List.getElem_mem _))
    · intro h f hf
      obtain ⟨i, hi, rfl⟩ := List.getElem_of_mem hf
      exact (key ⟨i, by rw [← hlen]; exact hi⟩).mpr (h _)
  · rw [hq]
    have e1 : ∀ z, (radiusOf G z * exp (-2) / R) ^ 2 / 4 = (G.distRPeak / R) ^ 2 * exp (-4) / 4 * exp (2 * (Real.log 10 * G.distRLogsigma) * z) := by
      intro z
      rw [show (radiusOf G z * exp (-2) / R) ^ 2 / 4 = (G.distRPeak / R) ^ 2 * (exp (-2) ^ 2) / 4 * (exp (Real.log 10 * G.distRLogsigma * z)) ^ 2 by
        unfold radiusOf; ring, ← exp_nat_mul, ← exp_nat_mul]
      congr 2
      · congr 2; norm_num
      · push_cast; ring
    have hi : Integrable (fun z => (radiusOf G z * exp (-2) / R) ^ 2 / 4) (gaussianReal 0 1) := by
      simp only [e1]; exact (normal_exp_integrable _).const_mul _
    refine (integral_mono (ballShare_integrable _ hρm) hi fun z => ballShare_flat _).trans (le_of_eq ?_)
    simp only [e1]
    rw [integral_const_mul, normal_exp_integral, exp_add, show (2 * (Real.log 10 * G.distRLogsigma)) ^ 2 / 2 = 2 * (Real.log 10 * G.distRLogsigma) ^ 2 by ring]
    ring

/-- **C161** The light from outside the faculae of a settled star.  A star without faculae goes through `N` steps of length `dt`, in each of which
faculae are born for the time `dt`, at independent places uniformly distributed over the sphere, and the star ages by `dt`.  Almost surely the run
succeeds; at its end the share of the light of the disk that comes from outside all faculae is on average exactly `exp(−c)`, whatever the limb
darkening and wherever the observer, where `c` is the mean of the summed shares of the sphere that the faculae cover.  And `c` is at most the
`coverage` of the generator times `(1+e⁻²)/2·exp((ln 10·(2σ_r+σ_l))²/2)`, up to the error of C120. -/
theorem C161_settled {Ω : Type*} [MeasurableSpace Ω] (P : Measure Ω) [IsProbabilityMeasure P] (s₀ : Star) (hg : GoodGens s₀) (h₀ : SoundStar s₀)
    (hf : s₀.faculae.faculae = []) (hcmp : comparable s₀.facGen.grid s₀.faculae.grid) (hc : 0 ≤ s₀.facGen.coverage) (hR : 0 < s₀.radius)
    (dt : ℝ) (hd : 0 < dt) (N : ℕ) (hN : 0 < N) :
    ∃ x n : ℝ, s₀.facGen.nExpected dt s₀.radius = .fin x ∧ n * s₀.facGen.meanArea = s₀.facGen.coverage * (4 * π * s₀.radius ^ 2) ∧
      ∀ (K : ℕ → Ω → ℕ) (D : ℕ → Ω → (n : ℕ) → FaculaDraws n),
      FairSpots P x K (fun j n ω i => ((((D j ω n).uLat i : ℝ), ((D j ω n).uLon i : ℝ)), (D j ω n).mu i)) →
      ∃ (S : Ω → Star) (c : ℝ), 0 ≤ c ∧
        (∀ᵐ ω ∂P, ((List.range N).flatMap fun j => [Op.birthFaculae dt (K j ω) (D j ω), Op.age dt]).foldlM runOp s₀ = .ok (S ω)) ∧
        ∫⁻ ω, (((S ω).faculae.faculae.map fun f => ENNReal.ofReal (ballShare (radiusNow f / s₀.radius))).sum) ∂P = ENNReal.ofReal c ∧
        (∀ u1 u2 lat0 lon0 : ℝ, PhysicalLD u1 u2 →
          ∫ ω, lightShare u1 u2 lat0 lon0 (outside (S ω).faculae.faculae s₀.radius) ∂P = exp (-c)) ∧
        c ≤ s₀.facGen.coverage * ((1 + exp (-2)) / 2 * exp ((Real.log 10 * (2 * s₀.facGen.distRLogsigma + s₀.facGen.distLifeLogsigma)) ^ 2 / 2)) +
          (s₀.facGen.distRPeak / s₀.radius) ^ 2 / 4 * (x * exp (2 * (Real.log 10 * s₀.facGen.distRLogsigma) ^ 2) +
            n * (s₀.facGen.distLifePeak / (2 * (N * dt))) * exp (2 * (Real.log 10 * (s₀.facGen.distRLogsigma + s₀.facGen.distLifeLogsigma)) ^ 2)) := by
  have hp := pi_pos
  obtain ⟨x, n, hxe, hn, hC120⟩ := C120_settled_faculae P s₀ hg h₀ hf hcmp hc dt hd N hN
  refine ⟨x, n, hxe, hn, fun K D hF => ?_⟩
  have hLives := fun j => fairFaculae_lives hF j
  obtain ⟨S, M, A, hrun, -, hA, -, hA0, -, -, hAb⟩ := hC120 K D hLives
  set G := s₀.facGen with hG
  set R := s₀.radius with hRdef
  have hr : 0 < G.distRPeak := hg.rpeak
  have hl : 0 < G.distLifePeak := hg.life
  obtain ⟨⟨rate, b1, -, b3, -⟩, -⟩ := C38_births_balance G hr hl hc R
  have hx0 : 0 ≤ x := by
    have : rate dt = x := by have := (b1 dt).symm.trans hxe; simpa using this
    rw [← this]; exact b3 dt hd.le
  have hpo : ∀ᵐ ω ∂P, ∀ j, Np.poisson (.fin x) (K j ω) = .ok (K j ω) := by
    rw [ae_all_iff]
    exact fun j => poisson_ok P x hx0 (K j) (hF.count_measurable j) (hF.count j)
  have hnews : ∀ ω, ((List.range N).flatMap fun j => facStep dt (K j ω) (D j ω)).foldlM runOp s₀ = .ok (S ω) →
      ∃ newf, List.Forall₂ (faculaeOf s₀) ((List.range N).flatMap fun j => facStep dt (K j ω) (D j ω)) newf ∧
        (S ω).faculae.faculae = population faculaLater ((List.range N).flatMap fun j => facStep dt (K j ω) (D j ω)) (newf.map (faculaeOn s₀.faculae.grid)) := by
    intro ω hω
    have hop : ∀ op ∈ ((List.range N).flatMap fun j => facStep dt (K j ω) (D j ω)), Sane op := by
      intro op hop
      obtain ⟨j, -, hj⟩ := List.mem_flatMap.mp hop
      simp only [facStep, List.mem_cons, List.not_mem_nil, or_false] at hj
      rcases hj with rfl | rfl
      · trivial
      · exact hd.le
    obtain ⟨-, newf, k1, k2⟩ := C105_population s₀ (S ω) _ hg h₀ hop hω
    refine ⟨newf, k1, ?_⟩
    rw [k2, hf, later_nil, List.nil_append]
  have hLm : Measurable (lifeOf G) := by unfold lifeOf; fun_prop
  have hRm : Measurable (radiusOf G) := by unfold radiusOf; fun_prop
  have hsm : ∀ t, Measurable fun z => sizeAt R (radiusOf G z) (lifeOf G z) t := by
    intro t
    unfold sizeAt
    refine Measurable.ite (measurableSet_lt measurable_const (hLm.const_mul 2)) ?_ measurable_const
    fun_prop
  set σ : ℕ → ℝ := fun m => ∫ z, ballShare (sizeAt R (radiusOf G z) (lifeOf G z) (m * dt)) ∂gaussianReal 0 1 with hσdef
  have hσ0 : ∀ m, 0 ≤ σ m := fun m => integral_nonneg fun z => (ballShare_mem _).1
  have hshare : ∫⁻ ω, (((S ω).faculae.faculae.map fun f => ENNReal.ofReal (ballShare (radiusNow f / R))).sum) ∂P =
      ENNReal.ofReal (x * ∑ k ∈ Finset.range N, σ (k + 1)) := by
    have e1 := (facSum_mean P x dt K (fun j ω n i => (D j ω n).mu i) hLives
      (fun t z => ENNReal.ofReal (ballShare (sizeAt R (radiusOf G z) (lifeOf G z) t)))
      (fun t => (ballShare_measurable.comp (hsm t)).ennreal_ofReal) (List.range N)).2
    rw [List.length_range] at e1
    have e2 : ENNReal.ofReal (x * ∑ k ∈ Finset.range N, σ (k + 1)) = ENNReal.ofReal x * ∑ k ∈ Finset.range N,
        ∫⁻ z, ENNReal.ofReal (ballShare (sizeAt R (radiusOf G z) (lifeOf G z) ((k + 1 : ℕ) * dt))) ∂gaussianReal 0 1 := by
      rw [ENNReal.ofReal_mul hx0, ENNReal.ofReal_sum_of_nonneg fun k _ => hσ0 _]
      congr 1
      refine Finset.sum_congr rfl fun k _ => ?_
      rw [hσdef]
      simp only
      rw [ofReal_integral_eq_lintegral_ofReal (ballShare_integrable _ (hsm _)) (Filter.Eventually.of_forall fun z => (ballShare_mem _).1)]
    rw [e2, ← e1]
    refine lintegral_congr_ae ?_
    filter_upwards [hpo, hrun] with ω hω hω2
    obtain ⟨newf, k1, k2⟩ := hnews ω hω2
    rw [k2]
    refine population_sum s₀ dt x hxe (fun j => K j ω) (fun j => D j ω) s₀.faculae.grid _ _ (fun n e i t => ?_) (List.range N) (fun j _ => hω j) newf k1
    obtain ⟨c1, c2, c3, c4⟩ := generated_on G hr hl s₀.faculae.grid n e i _ rfl
    rw [← c3, ← c4]
    rcases later_size (R := R) _ c1 c2 t with ⟨f', k1, -, -, -, k5, k6⟩ | ⟨k1, -, k3⟩
    · rw [k1, k6, Option.elim_some, radiusNow, k5]
    · rw [k1, k3, Option.elim_none, ballShare, if_neg (by norm_num), ENNReal.ofReal_zero]
  refine ⟨S, x * ∑ k ∈ Finset.range N, σ (k + 1), mul_nonneg hx0 (Finset.sum_nonneg fun k _ => hσ0 _), hrun, hshare, ?_, ?_⟩
  · intro u1 u2 lat0 lon0 hld
    have h := run_any P hld lat0 lon0 x hx0 K _ hF N (fun j => misses fun z => sizeAt R (radiusOf G z) (lifeOf G z) ((N - j : ℕ) * dt))
      (fun j => misses_measurable _ (hsm _)) (fun j => misses_periodic _) (fun j => σ (N - j)) (fun j => ballShare_mean _ (hsm _))
      (fun j φ l => miss_chance φ l _ (hsm _))
    have e : ∑ j ∈ Finset.range N, σ (N - j) = ∑ k ∈ Finset.range N, σ (k + 1) := by
      rw [← Finset.sum_range_reflect (fun k => σ (k + 1))]
      refine Finset.sum_congr rfl fun j hj => ?_
      rw [Finset.mem_range] at hj
      congr 1
      omega
    rw [← e, ← h]
    refine integral_congr_ae ?_
    filter_upwards [hpo, hrun] with ω hω hω2
    obtain ⟨newf, k1, k2⟩ := hnews ω hω2
    congr 1
    funext φ ψ
    have := facPopulation_all s₀ dt x hxe (fun j => K j ω) (fun j => D j ω) s₀.faculae.grid
      (fun f => ∀ r, f.radius = .fin r → r / R < greatCircle f.lat f.lon φ ψ)
      (fun t y => misses (fun z => sizeAt R (radiusOf G z) (lifeOf G z) t) y φ ψ)
      (fun n e i t => fac_later_cover G hr hl s₀.faculae.grid R φ ψ n e i t) (List.range N) (fun j _ => hω j) newf k1
    rw [← k2] at this
    refine propext ((outside_iff _ _ _ _).trans (this.trans ?_))
    simp only [List.length_range]
    refine forall₂_congr fun m hm => ?_
    have e : (List.range N)[m]'(by simpa using hm) = m := List.getElem_range _
    generalize (List.range N)[m]'(by simpa using hm) = j at e
    subst e
    rfl
  · have hR2 : 0 < 4 * π * R ^ 2 := by positivity
    have hcA : x * ∑ k ∈ Finset.range N, σ (k + 1) ≤ A / (4 * π * R ^ 2) := by
      rw [← ENNReal.ofReal_le_ofReal_iff (by positivity), ← hshare, div_eq_mul_inv, mul_comm A, ENNReal.ofReal_mul (by positivity), ← hA,
        ← lintegral_const_mul' _ _ ENNReal.ofReal_ne_top]
      refine lintegral_mono fun ω => ?_
      rw [← List.sum_map_mul_left]
      refine List.sum_le_sum fun f _ => ?_
      rw [← ENNReal.ofReal_mul (by positivity)]
      refine ENNReal.ofReal_le_ofReal ((ballShare_flat _).trans (le_of_eq ?_))
      unfold radiusNow areaNow
      cases f.radius <;> simp
      field_simp
    have hAb' := (abs_le.mp hAb).2
    refine hcA.trans ?_
    rw [div_le_iff₀ hR2]
    refine (sub_le_iff_le_add.mp hAb').trans (le_of_eq ?_)
    field_simp
    ring

/-! ### Examples -/

/-- The draws for the faculae of one step. -/
def facDraws (ω : (n : ℕ) → Fin n → (ℝ × ℝ) × ℝ) (n : ℕ) : FaculaDraws n :=
  ⟨fun i => (ω n i).2, fun i => unitDraw (ω n i).1.1, fun i => unitDraw (ω n i).1.2⟩

theorem facDraws_fair (mean : ℝ) : FairSpots (spotSpace mean) mean (fun j ω => (ω j).1)
    (fun j n ω i => ((((facDraws (ω j).2 n).uLat i : ℝ), ((facDraws (ω j).2 n).uLon i : ℝ)), (facDraws (ω j).2 n).mu i)) := spotSpace_fair mean

/-- A generator of faculae that are born with a sixth of the circumference of a star of radius 1000 km as their radius. -/
def vastFaculae : FaculaGenerator := { FaculaGenerator.off (.rect 3 4) with distRPeak := exp 2 * (π / 3 * 1000), distRLogsigma := 0 }

/-- Non-trivial instance of C161: two such faculae, each over a quarter of the sphere, leave on average 9/16 of the light. -/
example : ∫ ω, lightShare 0.3 0.1 0.2 1 (outside (vastFaculae.generate 2 (facDraws (ω 0).2 2)) 1000) ∂spotSpace 1 = 9 / 16 := by
  have hp := pi_pos
  have hF := facDraws_fair 1
  have h := (C161_newborn (spotSpace 1) vastFaculae (by simp only [vastFaculae]; positivity) (by norm_num [vastFaculae, FaculaGenerator.off]) 1000 2
    (fun ω => facDraws (ω 0).2 2) (hF.measurable 0 2) (hF.law 0 2)).1 0.3 0.1 0.2 1 ⟨by norm_num, by norm_num, by norm_num⟩
  rw [h]
  have e : ∀ z : ℝ, vastFaculae.distRPeak * (10 : ℝ) ^ (z * vastFaculae.distRLogsigma) / exp 2 / 1000 = π / 3 := by
    intro z
    have := exp_pos 2
    simp only [vastFaculae, mul_zero, rpow_zero]
    field_simp
  simp only [e]
  rw [ballShare, if_pos (by positivity), min_eq_left (by linarith), cos_pi_div_three]
  norm_num

/-- Non-trivial instance of C161: after a thousand hours of hourly steps, on average at least 92 per cent of the light comes from outside the
faculae of a star asked to be covered by a tenth with faculae. -/
example : ∃ (mean : ℝ) (S : (ℕ → ℕ × ((n : ℕ) → Fin n → (ℝ × ℝ) × ℝ)) → Star),
    (∀ᵐ ω ∂spotSpace mean, ((List.range 1000).flatMap fun j => [Op.birthFaculae (1 / 24) (ω j).1 (facDraws (ω j).2), Op.age (1 / 24)]).foldlM
      runOp faculaeStar = .ok (S ω)) ∧
    0.92 ≤ ∫ ω, lightShare 0.3 0.1 0 0 (outside (S ω).faculae.faculae 1000) ∂spotSpace mean := by
  have hp := pi_pos
  have hgood : GoodGens faculaeStar := by
    refine ⟨?_, ?_, ?_, ?_, ?_, ?_, ?_⟩ <;> norm_num [faculaeStar, busyStar, sampleStar, FaculaGenerator.off]
  have hstar : SoundStar faculaeStar := by
    refine ⟨?_, ?_⟩ <;> simp [faculaeStar, SpotCollection.new, SpotCollection.setGridmaker]
  have hm : 0 < faculaeStar.facGen.meanArea := by
    unfold FaculaGenerator.meanArea
    have : Real.exp 1 ^ (-2 : ℤ) < 1 := by
      rw [zpow_neg, zpow_ofNat]
      refine inv_lt_one_of_one_lt₀ ?_
      nlinarith [Real.exp_one_gt_d9]
    have h2 : 0 < faculaeStar.facGen.distRPeak := hgood.rpeak
    have : 0 < 1 - Real.exp 1 ^ (-2 : ℤ) := by linarith
    positivity
  obtain ⟨x, n, hx, hn, h⟩ := C161_settled (spotSpace ((faculaeStar.facGen.coverage * (4 * π * faculaeStar.radius ^ 2) / faculaeStar.facGen.meanArea) / 12))
    faculaeStar hgood hstar rfl trivial (by norm_num [faculaeStar]) (by norm_num [faculaeStar]) (1 / 24) (by norm_num) 1000 (by norm_num)
  have hn' : n = faculaeStar.facGen.coverage * (4 * π * faculaeStar.radius ^ 2) / faculaeStar.facGen.meanArea := by
    rw [← hn]; field_simp
  have hx' : x = n / 12 := by
    unfold FaculaGenerator.nExpected at hx
    rw [Fl.fin_div hm.ne', Fl.fin_mul, Fl.fin_div (by norm_num [faculaeStar, FaculaGenerator.off]), Fl.fin_inj] at hx
    rw [← hx, hn']
    norm_num [faculaeStar, FaculaGenerator.off]
    ring
  have he0 : exp (-2) = Real.exp 1 ^ (-2 : ℤ) := by
    rw [zpow_neg, zpow_ofNat, ← exp_nat_mul, exp_neg]
    norm_num
  have hnv : n * (1 - exp (-2)) = 80 := by
    rw [he0]
    have : n * (0.5 * π * (1 - Real.exp 1 ^ (-2 : ℤ)) * (100 : ℝ) ^ 2) = 0.1 * (4 * π * (1000 : ℝ) ^ 2) := hn
    have h3 : π * (n * (1 - Real.exp 1 ^ (-2 : ℤ))) = π * 80 := by linarith
    exact mul_left_cancel₀ hp.ne' h3
  have he : exp (-2) < 0.15 := by
    have h1 := Real.exp_one_gt_d9
    rw [he0, zpow_neg, zpow_ofNat, inv_lt_comm₀ (by positivity) (by norm_num)]
    nlinarith
  rw [← hn'] at h
  have hn2 : n < 95 := by nlinarith
  obtain ⟨S, c, -, h1, -, h3, h4⟩ := h (fun j ω => (ω j).1) (fun j ω => facDraws (ω j).2) (by rw [hx']; exact facDraws_fair _)
  refine ⟨n / 12, S, h1, ?_⟩
  have h5 := h3 0.3 0.1 0 0 ⟨by norm_num, by norm_num, by norm_num⟩
  rw [show faculaeStar.radius = 1000 from rfl] at h5
  rw [h5]
  rw [show faculaeStar.facGen.distRLogsigma = 0 from rfl, show faculaeStar.facGen.distLifeLogsigma = 0 from rfl,
    show faculaeStar.facGen.distLifePeak = 6 / 24 from rfl, show faculaeStar.facGen.distRPeak = 100 from rfl, show faculaeStar.radius = 1000 from rfl,
    show faculaeStar.facGen.coverage = 0.1 from rfl, hx'] at h4
  norm_num at h4
  have := add_one_le_exp (-c)
  norm_num
  linarith

end Vsm
