import Verif.Props.SpotGeom
import Verif.Lemmas.TrapzError
import Mathlib.Analysis.Convex.SpecificFunctions.Deriv
import Mathlib.Analysis.MeanInequalities
import Mathlib.MeasureTheory.Measure.Lebesgue.VolumeOfBalls
import Mathlib.Analysis.SpecialFunctions.Integrals.Basic
import Mathlib.Analysis.Real.Pi.Bounds

/-!
# C96, C97: what `StarSpot.surface_fraction` computes
-/

noncomputable section

namespace Vsm

open Real Spec MeasureTheory

/-- A continuous quasi-concave function on an interval rises to a peak and falls afterwards. -/
theorem exists_peak {f : ℝ → ℝ} (hc : Continuous f) {l r : ℝ} (hlr : l ≤ r)
    (hq : ∀ x y z, l ≤ x → x ≤ y → y ≤ z → z ≤ r → min (f x) (f z) ≤ f y) :
    ∃ p ∈ Set.Icc l r, MonotoneOn f (Set.Icc l p) ∧ AntitoneOn f (Set.Icc p r) := by
  obtain ⟨p, hp, hmax⟩ := isCompact_Icc.exists_isMaxOn (Set.nonempty_Icc.mpr hlr) hc.continuousOn
  refine ⟨p, hp, ?_, ?_⟩
  · intro x hx y hy hxy
    have h := hq x y p hx.1 hxy hy.2 hp.2
    have hm : f x ≤ f p := hmax ⟨hx.1, hx.2.trans hp.2⟩
    rwa [min_eq_left hm] at h
  · intro x hx y hy hxy
    have h := hq p x y hp.1 hx.1 hxy hy.2
    have hm : f y ≤ f p := hmax ⟨hp.1.trans hy.1, hy.2⟩
    rwa [min_eq_right hm] at h

/-- The trapezoid rule with `n` evenly spaced samples for a continuous quasi-concave function with values between
`0` and `M`. -/
theorem trapz_quasiconcave {f : ℝ → ℝ} (hc : Continuous f) {l r M : ℝ} (hlr : l ≤ r)
    (hq : ∀ x y z, l ≤ x → x ≤ y → y ≤ z → z ≤ r → min (f x) (f z) ≤ f y)
    (h0 : ∀ x ∈ Set.Icc l r, 0 ≤ f x) (hM : ∀ x ∈ Set.Icc l r, f x ≤ M) {n : ℕ} (hn : 2 ≤ n) :
    |trapzR ((Np.linspace l r n).map f) (Np.linspace l r n) - ∫ t in l..r, f t| ≤ (r - l) / (n - 1) * M := by
  obtain ⟨p, hp, hup, hdown⟩ := exists_peak hc hlr hq
  have hn1 : (1 : ℝ) ≤ n - 1 := by
    have : (2 : ℝ) ≤ n := by exact_mod_cast hn
    linarith
  have hh : 0 ≤ (r - l) / ((n : ℝ) - 1) := div_nonneg (by linarith) (by linarith)
  set F : ℝ → ℝ := fun t => f (max l (min r t)) with hF
  have hcl : ∀ t, max l (min r t) ∈ Set.Icc l r := fun t => ⟨le_max_left _ _, max_le hlr (min_le_left _ _)⟩
  have hid : ∀ t ∈ Set.Icc l r, F t = f t := by
    intro t ht
    rw [hF]
    beta_reduce
    rw [min_eq_right ht.2, max_eq_right ht.1]
  have hFup : MonotoneOn F (Set.Iic p) := by
    intro x hx y hy hxy
    have hle : ∀ t ≤ p, max l (min r t) ≤ p := fun t ht => max_le hp.1 ((min_le_right _ _).trans ht)
    exact hup ⟨(hcl x).1, hle x hx⟩ ⟨(hcl y).1, hle y hy⟩ (max_le_max_left _ (min_le_min_left _ hxy))
  have hFdown : AntitoneOn F (Set.Ici p) := by
    intro x hx y hy hxy
    have hle : ∀ t, p ≤ t → p ≤ max l (min r t) := fun t ht => (le_min hp.2 ht).trans (le_max_right _ _)
    exact hdown ⟨hle x hx, (hcl x).2⟩ ⟨hle y hy, (hcl y).2⟩ (max_le_max_left _ (min_le_min_left _ hxy))
  obtain ⟨L, hL, hlast⟩ := linspace_ends (a := l) (b := r) hn
  have hg := linspace_gaps hlr hn
  have hmap : (Np.linspace l r n).map f = (Np.linspace l r n).map F :=
    List.map_congr_left fun t ht => (hid t (linspace_mem hlr ht)).symm
  have hint : ∫ t in l..r, f t = ∫ t in l..r, F t := by
    refine intervalIntegral.integral_congr fun t ht => ?_
    rw [Set.uIcc_of_le hlr] at ht
    exact (hid t ht).symm
  rw [hmap, hint, hL]
  rw [hL] at hg
  have := trapz_unimodal hFup hFdown (fun t => h0 _ (hcl t)) hh l L hg
  rw [hlast] at this
  exact this.trans (mul_le_mul_of_nonneg_left (hM _ (hcl p)) hh)

/-- Half the integrand of `surface_fraction`: the length of the chord of the spot at the angle `c` from the disk
centre, in the flat approximation, foreshortened. -/
def Spec.chord (θ c0 c : ℝ) : ℝ := cos c * √(max 0 (θ ^ 2 - (c - c0) ^ 2))

theorem chord_continuous (θ c0 : ℝ) : Continuous (chord θ c0) := by
  unfold chord
  fun_prop

theorem chord_nonneg (θ c0 : ℝ) {c : ℝ} (hc : c ∈ Set.Icc (-(π / 2)) (π / 2)) : 0 ≤ chord θ c0 c :=
  mul_nonneg (cos_nonneg_of_mem_Icc hc) (sqrt_nonneg _)

theorem chord_le {θ : ℝ} (hθ : 0 ≤ θ) (c0 c : ℝ) : chord θ c0 c ≤ θ := by
  have h1 : √(max 0 (θ ^ 2 - (c - c0) ^ 2)) ≤ θ := by
    rw [sqrt_le_left hθ]
    exact max_le (by positivity) (by nlinarith [sq_nonneg (c - c0)])
  unfold chord
  nlinarith [cos_le_one c, sqrt_nonneg (max 0 (θ ^ 2 - (c - c0) ^ 2))]

theorem halfChord_concave {θ c0 x z a b : ℝ} (ha : 0 ≤ a) (hb : 0 ≤ b) (hab : a + b = 1)
    (hx : 0 ≤ θ ^ 2 - (x - c0) ^ 2) (hz : 0 ≤ θ ^ 2 - (z - c0) ^ 2) :
    a * √(θ ^ 2 - (x - c0) ^ 2) + b * √(θ ^ 2 - (z - c0) ^ 2) ≤ √(θ ^ 2 - (a * x + b * z - c0) ^ 2) := by
  have p2 := sq_sqrt hx
  have q2 := sq_sqrt hz
  obtain rfl : b = 1 - a := by linarith
  have hA : (a * x + (1 - a) * z - c0) ^ 2 = a * (x - c0) ^ 2 + (1 - a) * (z - c0) ^ 2 - a * (1 - a) * (x - z) ^ 2 := by
    ring
  apply le_sqrt_of_sq_le
  rw [hA]
  generalize √(θ ^ 2 - (x - c0) ^ 2) = p at *
  generalize √(θ ^ 2 - (z - c0) ^ 2) = q at *
  nlinarith [mul_nonneg (mul_nonneg ha hb) (sq_nonneg (x - z)), mul_nonneg (mul_nonneg ha hb) (sq_nonneg (p - q)),
    mul_le_mul_of_nonneg_left p2.le ha, mul_le_mul_of_nonneg_left p2.ge ha, mul_le_mul_of_nonneg_left q2.le hb,
    mul_le_mul_of_nonneg_left q2.ge hb]

theorem chord_quasiconcave (θ c0 x y z : ℝ) (hx : -(π / 2) ≤ x) (hxy : x ≤ y) (hyz : y ≤ z) (hz : z ≤ π / 2) :
    min (chord θ c0 x) (chord θ c0 z) ≤ chord θ c0 y := by
  have hX : x ∈ Set.Icc (-(π / 2)) (π / 2) := ⟨hx, by linarith⟩
  have hY : y ∈ Set.Icc (-(π / 2)) (π / 2) := ⟨by linarith, by linarith⟩
  have hZ : z ∈ Set.Icc (-(π / 2)) (π / 2) := ⟨by linarith, hz⟩
  have hy0 := chord_nonneg θ c0 hY
  by_cases h1 : θ ^ 2 - (x - c0) ^ 2 < 0
  · have : chord θ c0 x = 0 := by rw [chord, max_eq_left h1.le, sqrt_zero, mul_zero]
    exact (min_le_left _ _).trans (this ▸ hy0)
  by_cases h2 : θ ^ 2 - (z - c0) ^ 2 < 0
  · have : chord θ c0 z = 0 := by rw [chord, max_eq_left h2.le, sqrt_zero, mul_zero]
    exact (min_le_right _ _).trans (this ▸ hy0)
  push Not at h1 h2
  rcases hxy.eq_or_lt with rfl | hlt
  · exact min_le_left _ _
  have hxz : 0 < z - x := by linarith
  set a := (z - y) / (z - x) with ha
  set b := (y - x) / (z - x) with hb
  have ha0 : 0 ≤ a := div_nonneg (by linarith) hxz.le
  have hb0 : 0 ≤ b := div_nonneg (by linarith) hxz.le
  have hab : a + b = 1 := by rw [ha, hb, ← add_div, div_eq_one_iff_eq hxz.ne']; ring
  have hyy : a * x + b * z = y := by rw [ha, hb]; field_simp; ring
  have hc : a * cos x + b * cos z ≤ cos y := by
    have := strictConcaveOn_cos_Icc.concaveOn.2 hX hZ ha0 hb0 hab
    simpa only [smul_eq_mul, hyy] using this
  have hs := halfChord_concave (c0 := c0) ha0 hb0 hab h1 h2
  rw [hyy] at hs
  have cx := cos_nonneg_of_mem_Icc hX
  have cz := cos_nonneg_of_mem_Icc hZ
  have sx := sqrt_nonneg (θ ^ 2 - (x - c0) ^ 2)
  have sz := sqrt_nonneg (θ ^ 2 - (z - c0) ^ 2)
  have ex : chord θ c0 x = cos x * √(θ ^ 2 - (x - c0) ^ 2) := by rw [chord, max_eq_right h1]
  have ez : chord θ c0 z = cos z * √(θ ^ 2 - (z - c0) ^ 2) := by rw [chord, max_eq_right h2]
  have ey : cos y * √(θ ^ 2 - (y - c0) ^ 2) ≤ chord θ c0 y := by
    rw [chord]
    exact mul_le_mul_of_nonneg_left (sqrt_le_sqrt (le_max_right _ _)) (cos_nonneg_of_mem_Icc hY)
  refine le_trans ?_ ey
  have step : (a * cos x + b * cos z) * (a * √(θ ^ 2 - (x - c0) ^ 2) + b * √(θ ^ 2 - (z - c0) ^ 2)) ≤
      cos y * √(θ ^ 2 - (y - c0) ^ 2) :=
    mul_le_mul hc hs (by positivity) (cos_nonneg_of_mem_Icc hY)
  refine le_trans ?_ step
  rw [ex, ez]
  generalize √(θ ^ 2 - (x - c0) ^ 2) = p at *
  generalize √(θ ^ 2 - (z - c0) ^ 2) = q at *
  have g1 := Real.geom_mean_le_arith_mean2_weighted ha0 hb0 cx cz hab
  have g2 := Real.geom_mean_le_arith_mean2_weighted ha0 hb0 sx sz hab
  refine le_trans ?_ (mul_le_mul g1 g2 (by positivity) (by positivity))
  have e : cos x ^ a * cos z ^ b * (p ^ a * q ^ b) = (cos x * p) ^ a * (cos z * q) ^ b := by
    rw [mul_rpow cx sx, mul_rpow cz sz]; ring
  rw [e]
  set m := min (cos x * p) (cos z * q)
  have hm0 : 0 ≤ m := le_min (mul_nonneg cx sx) (mul_nonneg cz sz)
  have hm : m = m ^ a * m ^ b := by
    rw [← rpow_add_of_nonneg hm0 ha0 hb0, hab, rpow_one]
  rw [hm]
  exact mul_le_mul (rpow_le_rpow hm0 (min_le_left _ _) ha0) (rpow_le_rpow hm0 (min_le_right _ _) hb0)
    (by positivity) (by have := mul_nonneg cx sx; positivity)

/-- `surface_fraction` as a trapezoid sum of real numbers. -/
theorem surfaceFraction_eq (s : StarSpot) (lat0 lon0 R θ : ℝ) (n : ℕ) (hθ : s.angularRadius R = .fin θ) :
    s.surfaceFraction lat0 lon0 R n = .fin (trapzR ((Np.linspace (-(π / 2)) (π / 2) n).map
      fun c => chord θ (greatCircle lat0 lon0 s.lat s.lon) c * 2) (Np.linspace (-(π / 2)) (π / 2) n) / (2 * π)) := by
  have hp := pi_pos
  have hc0 : Fl.arccos (.fin (sin lat0 * sin s.lat + cos lat0 * cos s.lat * cos (lon0 - s.lon))) =
      .fin (greatCircle lat0 lon0 s.lat s.lon) := angleBetween_eq lat0 lon0 s.lat s.lon
  simp only [StarSpot.surfaceFraction, hc0, hθ]
  set c0 := greatCircle lat0 lon0 s.lat s.lon
  have e : (Np.linspace (-(π / 2)) (π / 2) n).map (fun ci =>
      Fl.fin (2 * cos ci) * Fl.sqrt (if Fl.fin θ * Fl.fin θ - (Fl.fin ci - Fl.fin c0) * (Fl.fin ci - Fl.fin c0) < .fin 0
        then .fin 0 else Fl.fin θ * Fl.fin θ - (Fl.fin ci - Fl.fin c0) * (Fl.fin ci - Fl.fin c0))) =
      ((Np.linspace (-(π / 2)) (π / 2) n).map fun ci => chord θ c0 ci * 2).map .fin := by
    rw [List.map_map]
    apply List.map_congr_left
    intro ci _
    have e1 : θ * θ - (ci - c0) * (ci - c0) = θ ^ 2 - (ci - c0) ^ 2 := by ring
    simp only [Fl.fin_mul, Fl.fin_sub, Fl.fin_lt, Function.comp, e1, chord]
    split_ifs with h
    · rw [Fl.sqrt_fin le_rfl, max_eq_left h.le, Fl.fin_mul]; ring_nf
    · rw [Fl.sqrt_fin (not_lt.mp h), max_eq_right (not_lt.mp h), Fl.fin_mul]; ring_nf
  rw [e, trapz_fin, Fl.fin_div (by positivity)]

theorem trapzR_mono_on {f g : ℝ → ℝ} : ∀ l : List ℝ, l.Pairwise (· ≤ ·) → (∀ x ∈ l, f x ≤ g x) →
    trapzR (l.map f) l ≤ trapzR (l.map g) l
  | [], _, _ => by simp [trapzR]
  | [x], _, _ => by simp [trapzR]
  | x :: y :: l, hp, h => by
    have ih := trapzR_mono_on (y :: l) hp.of_cons fun z hz => h z (List.mem_cons_of_mem _ hz)
    simp only [List.map_cons, trapzR] at ih ⊢
    have hxy : x ≤ y := (List.pairwise_cons.mp hp).1 y (by simp)
    have h1 := h x (by simp)
    have h2 := h y (by simp)
    nlinarith

/-- The integral `surface_fraction` approximates. -/
theorem fraction_accuracy (s : StarSpot) (lat0 lon0 R θ : ℝ) (n : ℕ) (hθ : s.angularRadius R = .fin θ) (h0 : 0 ≤ θ)
    (hn : 2 ≤ n) :
    ∃ v : ℝ, s.surfaceFraction lat0 lon0 R n = .fin v ∧
      |v - (1 / π) * ∫ c in (-(π / 2))..(π / 2), chord θ (greatCircle lat0 lon0 s.lat s.lon) c| ≤ θ / (n - 1) := by
  have hp := pi_pos
  refine ⟨_, surfaceFraction_eq s lat0 lon0 R θ n hθ, ?_⟩
  set c0 := greatCircle lat0 lon0 s.lat s.lon
  have key := trapz_quasiconcave (chord_continuous θ c0) (by linarith : -(π / 2) ≤ π / 2)
    (chord_quasiconcave θ c0) (fun x hx => chord_nonneg θ c0 hx) (fun x _ => chord_le h0 c0 x) hn
  rw [trapzR_mul]
  set T := trapzR ((Np.linspace (-(π / 2)) (π / 2) n).map (chord θ c0)) (Np.linspace (-(π / 2)) (π / 2) n)
  set I := ∫ c in (-(π / 2))..(π / 2), chord θ c0 c
  have e1 : T * 2 / (2 * π) - 1 / π * I = (T - I) / π := by field_simp
  have e2 : π / 2 - -(π / 2) = π := by ring
  rw [e1, abs_div, abs_of_pos hp, div_le_iff₀ hp]
  rw [e2] at key
  calc _ ≤ _ := key
    _ = _ := by ring

/-- Area of the flat disk by which the code replaces the spot. -/
theorem chord_integral_le {θ : ℝ} (hθ : 0 ≤ θ) (c0 : ℝ) :
    ∫ c in (-(π / 2))..(π / 2), chord θ c0 c ≤ π * θ ^ 2 / 2 := by
  have hp := pi_pos
  set g : ℝ → ℝ := fun c => √(max 0 (θ ^ 2 - (c - c0) ^ 2)) with hg
  have gc : Continuous g := by rw [hg]; fun_prop
  have gi : ∀ a b, IntervalIntegrable g volume a b := fun a b => gc.intervalIntegrable a b
  have g0 : ∀ c, 0 ≤ g c := fun c => sqrt_nonneg _
  have h1 : ∫ c in (-(π / 2))..(π / 2), chord θ c0 c ≤ ∫ c in (-(π / 2))..(π / 2), g c := by
    refine intervalIntegral.integral_mono_on (by linarith) ((chord_continuous θ c0).intervalIntegrable _ _) (gi _ _) ?_
    intro c _
    exact (mul_le_of_le_one_left (sqrt_nonneg _) (cos_le_one c))
  have hz : ∀ a b, a ≤ b → (b ≤ c0 - θ ∨ c0 + θ ≤ a) → ∫ c in a..b, g c = 0 := by
    intro a b hab h
    rw [intervalIntegral.integral_congr (g := fun _ => (0 : ℝ)), intervalIntegral.integral_zero]
    intro c hc
    rw [Set.uIcc_of_le hab] at hc
    have : θ ^ 2 - (c - c0) ^ 2 ≤ 0 := by
      rcases h with h | h
      · nlinarith [hc.2]
      · nlinarith [hc.1]
    simp only [hg, max_eq_left this, sqrt_zero]
  have h2 : ∫ c in (-(π / 2))..(π / 2), g c ≤ ∫ c in (c0 - θ)..(c0 + θ), g c := by
    set A := min (-(π / 2)) (c0 - θ)
    set B := max (π / 2) (c0 + θ)
    have e1 : ∫ c in A..B, g c = (∫ c in A..(-(π / 2)), g c) + (∫ c in (-(π / 2))..(π / 2), g c) + ∫ c in (π / 2)..B, g c := by
      rw [intervalIntegral.integral_add_adjacent_intervals (gi _ _) (gi _ _),
        intervalIntegral.integral_add_adjacent_intervals (gi _ _) (gi _ _)]
    have e2 : ∫ c in A..B, g c = (∫ c in A..(c0 - θ), g c) + (∫ c in (c0 - θ)..(c0 + θ), g c) + ∫ c in (c0 + θ)..B, g c := by
      rw [intervalIntegral.integral_add_adjacent_intervals (gi _ _) (gi _ _),
        intervalIntegral.integral_add_adjacent_intervals (gi _ _) (gi _ _)]
    rw [hz A (c0 - θ) (min_le_right _ _) (Or.inl le_rfl), hz (c0 + θ) B (le_max_right _ _) (Or.inr le_rfl)] at e2
    have p1 : 0 ≤ ∫ c in A..(-(π / 2)), g c := intervalIntegral.integral_nonneg (min_le_left _ _) fun c _ => g0 c
    have p2 : 0 ≤ ∫ c in (π / 2)..B, g c := intervalIntegral.integral_nonneg (le_max_left _ _) fun c _ => g0 c
    linarith
  have h3 : ∫ c in (c0 - θ)..(c0 + θ), g c = π * θ ^ 2 / 2 := by
    have e := intervalIntegral.mul_integral_comp_add_mul (f := g) (a := -1) (b := 1) θ c0
    have l1 : c0 + θ * -1 = c0 - θ := by ring
    rw [l1, mul_one] at e
    rw [← e]
    have : ∫ x in (-1 : ℝ)..1, g (c0 + θ * x) = ∫ x in (-1 : ℝ)..1, θ * √(1 - x ^ 2) := by
      refine intervalIntegral.integral_congr fun x hx => ?_
      rw [Set.uIcc_of_le (by norm_num)] at hx
      have hx2 : 0 ≤ 1 - x ^ 2 := by nlinarith [hx.1, hx.2]
      have e3 : θ ^ 2 - (c0 + θ * x - c0) ^ 2 = θ ^ 2 * (1 - x ^ 2) := by ring
      simp only [hg]
      rw [e3, max_eq_right (by positivity), sqrt_mul (by positivity), sqrt_sq hθ]
    rw [this, intervalIntegral.integral_const_mul, integral_sqrt_one_sub_sq]
    ring
  linarith

/-- Share of the visible disk covered by a circular spot of angular radius `θ` whose centre is at the angle `c0`
from the centre of the disk: the disk is the unit disk of the plane, the point of the near hemisphere over `z` is
`(re z, im z, √(1-|z|²))`, the spot centre is `(sin c0, 0, cos c0)`. -/
def Spec.diskShare (θ c0 : ℝ) : ℝ :=
  (volume {z : ℂ | ‖z‖ ≤ 1 ∧ cos θ < z.re * sin c0 + √(1 - ‖z‖ ^ 2) * cos c0}).toReal / π

theorem diskShare_centre {θ : ℝ} (h0 : 0 ≤ θ) (h1 : θ ≤ π / 2) : diskShare θ 0 = sin θ ^ 2 := by
  have hp := pi_pos
  have hs : 0 ≤ sin θ := sin_nonneg_of_nonneg_of_le_pi h0 (by linarith)
  have hc : 0 ≤ cos θ := cos_nonneg_of_mem_Icc ⟨by linarith, h1⟩
  have e : {z : ℂ | ‖z‖ ≤ 1 ∧ cos θ < z.re * sin 0 + √(1 - ‖z‖ ^ 2) * cos 0} = Metric.ball 0 (sin θ) := by
    ext z
    simp only [Set.mem_ofPred_eq, sin_zero, mul_zero, zero_add, cos_zero, mul_one, mem_ball_zero_iff]
    rw [lt_sqrt hc]
    have hz := norm_nonneg z
    constructor
    · rintro ⟨-, h⟩
      have : ‖z‖ ^ 2 < sin θ ^ 2 := by nlinarith [sin_sq_add_cos_sq θ]
      exact lt_of_pow_lt_pow_left₀ 2 hs this
    · intro h
      have : ‖z‖ ^ 2 < sin θ ^ 2 := by nlinarith
      exact ⟨by linarith [sin_le_one θ], by nlinarith [sin_sq_add_cos_sq θ]⟩
  rw [diskShare, e, Complex.volume_ball]
  simp only [ENNReal.toReal_mul, ENNReal.toReal_pow, ENNReal.toReal_ofReal hs, ENNReal.coe_toReal, NNReal.coe_real_pi]
  field_simp

/-- **C96** (partial) Intended: `surface_fraction` is, up to the sampling error, the share of the visible disk that
the spot covers.  What is missing: that is false, see `C96_counterexample`.  What holds: the result differs by at
most `θ/(n-1)` from `1/π ∫ cos c · √(θ²-(c-c0)²) dc` over `[-90°, 90°]`, which is at most `θ²/2`, so near the disk
centre the result is about half of the true share `sin² θ`. -/
theorem C96_surface_fraction_partial (s : StarSpot) (lat0 lon0 R θ : ℝ) (n : ℕ) (hθ : s.angularRadius R = .fin θ)
    (h0 : 0 ≤ θ) (hn : 2 ≤ n) :
    ∃ v : ℝ, s.surfaceFraction lat0 lon0 R n = .fin v ∧
      |v - (1 / π) * ∫ c in (-(π / 2))..(π / 2), cos c * √(max 0 (θ ^ 2 - (c - greatCircle lat0 lon0 s.lat s.lon) ^ 2))|
        ≤ θ / (n - 1) ∧
      v ≤ θ ^ 2 / 2 + θ / (n - 1) := by
  obtain ⟨v, hv, hb⟩ := fraction_accuracy s lat0 lon0 R θ n hθ h0 hn
  refine ⟨v, hv, hb, ?_⟩
  have h := chord_integral_le h0 (greatCircle lat0 lon0 s.lat s.lon)
  have hp := pi_pos
  have h' : 1 / π * ∫ c in (-(π / 2))..(π / 2), chord θ (greatCircle lat0 lon0 s.lat s.lon) c ≤ θ ^ 2 / 2 := by
    rw [div_mul_eq_mul_div, one_mul, div_le_iff₀ hp]
    linarith
  have := (abs_le.mp hb).2
  linarith

/-- **C96** (counterexample) A spot of 45° angular radius at the disk centre covers half of the disk, but
`surface_fraction` returns less than a third. -/
theorem C96_counterexample : ∃ (s : StarSpot) (v : ℝ), s.angularRadius 1 = .fin (π / 4) ∧
    greatCircle 0 0 s.lat s.lon = 0 ∧ diskShare (π / 4) 0 = 1 / 2 ∧
    s.surfaceFraction 0 0 1 1001 = .fin v ∧ v < 1 / 3 := by
  have hp := pi_pos
  have hp4 := pi_le_four
  have hp3 := pi_lt_d2
  set s := StarSpot.new 0 0 1 (.fin (2 * π * (1 - √2 / 2))) 2500 2700 (.fin 5) true 0.5 1 (.rect 500 1000) with hs
  have hr : s.angularRadius 1 = .fin (π / 4) := by
    rw [angularRadius_fin s one_pos rfl]
    have : (1 : ℝ) - 2 * π * (1 - √2 / 2) / (2 * π * 1 ^ 2) = cos (π / 4) := by
      rw [cos_pi_div_four]; field_simp; ring
    rw [this, Fl.arccos_fin (neg_one_le_cos _) (cos_le_one _), arccos_cos (by linarith) (by linarith)]
  obtain ⟨v, hv, -, hle⟩ := C96_surface_fraction_partial s 0 0 1 (π / 4) 1001 hr (by linarith) (by norm_num)
  refine ⟨s, v, hr, ?_, ?_, hv, ?_⟩
  · rw [greatCircle_eq]; simp [hs, StarSpot.new]
  · rw [diskShare_centre (by linarith) (by linarith), sin_pi_div_four, div_pow, sq_sqrt (by norm_num)]; norm_num
  · norm_num at hle
    norm_num at hp3
    nlinarith

/-- **C97** `surface_fraction` depends on the observer and the spot's position only through their angular distance,
and never decreases when the spot grows; lengths can be measured in any unit. -/
theorem C97_fraction_laws (s s' : StarSpot) (lat0 lon0 lat0' lon0' R a a' : ℝ) (n : ℕ) (hR : 0 < R)
    (hd : greatCircle lat0 lon0 s.lat s.lon = greatCircle lat0' lon0' s'.lat s'.lon)
    (ha : s.area = .fin a) (ha' : s'.area = .fin a') (h0 : 0 ≤ a) (h1 : a ≤ a') (h2 : a' ≤ 4 * π * R ^ 2) :
    ∃ v v' : ℝ, s.surfaceFraction lat0 lon0 R n = .fin v ∧ s'.surfaceFraction lat0' lon0' R n = .fin v' ∧
      v ≤ v' ∧ (a = a' → v = v') ∧
      (∀ k, 0 < k → StarSpot.surfaceFraction { s with area := .fin (k ^ 2 * a) } lat0 lon0 (k * R) n = .fin v) := by
  have hp := pi_pos
  have m := (capArg_mem (a := a) hR).mpr ⟨h0, h1.trans h2⟩
  have m' := (capArg_mem (a := a') hR).mpr ⟨h0.trans h1, h2⟩
  have hθ := angularRadius_fin s hR ha
  have hθ' := angularRadius_fin s' hR ha'
  rw [Fl.arccos_fin m.1 m.2] at hθ
  rw [Fl.arccos_fin m'.1 m'.2] at hθ'
  have hle : arccos (1 - a / (2 * π * R ^ 2)) ≤ arccos (1 - a' / (2 * π * R ^ 2)) := by
    apply arccos_le_arccos
    have : a / (2 * π * R ^ 2) ≤ a' / (2 * π * R ^ 2) := by gcongr
    linarith
  have hθ0 := arccos_nonneg (1 - a / (2 * π * R ^ 2))
  refine ⟨_, _, surfaceFraction_eq s lat0 lon0 R _ n hθ, surfaceFraction_eq s' lat0' lon0' R _ n hθ', ?_, ?_, ?_⟩
  · refine div_le_div_of_nonneg_right (trapzR_mono_on _ (linspace_pairwise_le (by linarith) n) ?_) (by positivity)
    intro c hc
    have hcos := cos_nonneg_of_mem_Icc (linspace_mem (by linarith) hc)
    rw [hd]
    unfold chord
    have : √(max 0 (arccos (1 - a / (2 * π * R ^ 2)) ^ 2 - (c - greatCircle lat0' lon0' s'.lat s'.lon) ^ 2)) ≤
        √(max 0 (arccos (1 - a' / (2 * π * R ^ 2)) ^ 2 - (c - greatCircle lat0' lon0' s'.lat s'.lon) ^ 2)) :=
      sqrt_le_sqrt (max_le_max_left _ (by nlinarith))
    nlinarith
  · rintro rfl; rw [hd]
  · intro k hk
    refine surfaceFraction_eq { s with area := .fin (k ^ 2 * a) } lat0 lon0 (k * R) _ n ?_
    rw [angularRadius_fin _ (mul_pos hk hR) rfl]
    rw [angularRadius_fin s hR ha] at hθ
    rw [← hθ]
    congr 3
    field_simp

/-- Non-trivial instance of C97: seen from the pole or from the equator, two equal spots at the same distance look
equally large. -/
example : ∃ v : ℝ,
    (StarSpot.new (π / 4) 0 1 (.fin 1) 2500 2700 (.fin 5) true 0.5 1 (.rect 5 5)).surfaceFraction 0 0 1 1001 = .fin v ∧
    (StarSpot.new (π / 4) 3 1 (.fin 1) 2500 2700 (.fin 5) true 0.5 1 (.rect 5 5)).surfaceFraction (π / 2) 7 1 1001 = .fin v := by
  obtain ⟨v, v', hv, hv', -, he, -⟩ := C97_fraction_laws
    (StarSpot.new (π / 4) 0 1 (.fin 1) 2500 2700 (.fin 5) true 0.5 1 (.rect 5 5))
    (StarSpot.new (π / 4) 3 1 (.fin 1) 2500 2700 (.fin 5) true 0.5 1 (.rect 5 5)) 0 0 (π / 2) 7 1 1 1 1001 one_pos
    (by simp [greatCircle_eq, StarSpot.new]) rfl rfl zero_le_one le_rfl (by nlinarith [pi_gt_three])
  exact ⟨v, hv, by rw [hv', he rfl]⟩

end Vsm
