import Verif.Model.Flares
import Verif.Lemmas.Trapz
import Verif.Lemmas.Sphere
import Mathlib.MeasureTheory.Integral.IntervalIntegral.FundThmCalculus
import Mathlib.MeasureTheory.Measure.Lebesgue.Integral
import Mathlib.MeasureTheory.Measure.Haar.NormedSpace
import Mathlib.Analysis.SpecialFunctions.Integrals.Basic

/-!
# C42, C43, C47 – C50: flare light curves and flare collections
-/

noncomputable section

namespace Vsm

open Real Spec MeasureTheory

/-- Polynomial rise of the flare template (Davenport et al. 2014), time in units of the width (spec). -/
def Spec.rise (x : ℝ) : ℝ := 1 + 1.94053 * x - 0.175084 * x ^ 2 - 2.24588 * x ^ 3 - 1.12498 * x ^ 4

/-- Two-exponential decay of the flare template (spec). -/
def Spec.decay (x : ℝ) : ℝ := 0.689008 * exp (-1.60053 * x) + 0.302963 * exp (-0.278318 * x)

/-- The flare template: rises from one width before the peak, decays for twenty widths (spec). -/
def Spec.template (x : ℝ) : ℝ :=
  (Set.Ioc (-1) 0).indicator rise x + (Set.Ioo 0 20).indicator decay x

theorem rise_bounds {x : ℝ} (h1 : -1 < x) (h2 : x ≤ 0) : 0 < rise x ∧ rise x ≤ 1 := by
  obtain ⟨y, rfl⟩ : ∃ y, x = -y := ⟨-x, by ring⟩
  have hy0 : 0 ≤ y := by linarith
  have hy1 : y < 1 := by linarith
  have hq : 0 ≤ 0.994714 - 0.945816 * y - 1.1209 * y ^ 2 + 1.12498 * y ^ 3 := by
    nlinarith [mul_nonneg (sq_nonneg (y - 0.957)) hy0, sq_nonneg (y - 0.957)]
  have hr : 0 ≤ 1.94053 + 0.175084 * y - 2.24588 * y ^ 2 + 1.12498 * y ^ 3 := by
    nlinarith [mul_nonneg hy0 (sq_nonneg (y - 1))]
  constructor
  · have : rise (-y) = 0.005286 + (1 - y) * (0.994714 - 0.945816 * y - 1.1209 * y ^ 2 + 1.12498 * y ^ 3) := by
      unfold rise; ring
    rw [this]
    have := mul_nonneg (by linarith : 0 ≤ 1 - y) hq
    linarith
  · have : rise (-y) = 1 - y * (1.94053 + 0.175084 * y - 2.24588 * y ^ 2 + 1.12498 * y ^ 3) := by
      unfold rise; ring
    rw [this]
    have := mul_nonneg hy0 hr
    linarith

theorem decay_bounds {x : ℝ} (h : 0 < x) : 0 < decay x ∧ decay x < 1 := by
  unfold decay
  have h1 : exp (-1.60053 * x) ≤ 1 := exp_le_one_iff.mpr (by linarith)
  have h2 : exp (-0.278318 * x) ≤ 1 := exp_le_one_iff.mpr (by linarith)
  constructor
  · positivity
  · linarith

theorem template_bounds (x : ℝ) : 0 ≤ template x ∧ template x ≤ 1 := by
  unfold template
  by_cases h1 : x ∈ Set.Ioc (-1 : ℝ) 0
  · have h2 : x ∉ Set.Ioo (0 : ℝ) 20 := fun h => absurd h.1 (not_lt.mpr h1.2)
    rw [Set.indicator_of_mem h1, Set.indicator_of_notMem h2, add_zero]
    exact ⟨(rise_bounds h1.1 h1.2).1.le, (rise_bounds h1.1 h1.2).2⟩
  · rw [Set.indicator_of_notMem h1, zero_add]
    by_cases h2 : x ∈ Set.Ioo (0 : ℝ) 20
    · rw [Set.indicator_of_mem h2]
      exact ⟨(decay_bounds h2.1).1.le, (decay_bounds h2.1).2.le⟩
    · rw [Set.indicator_of_notMem h2]; norm_num

theorem template_pos {x : ℝ} (h1 : -1 < x) (h2 : x < 20) : 0 < template x := by
  unfold template
  rcases le_or_gt x 0 with h | h
  · rw [Set.indicator_of_mem (show x ∈ Set.Ioc (-1 : ℝ) 0 from ⟨h1, h⟩),
      Set.indicator_of_notMem (fun h' => absurd h'.1 (not_lt.mpr h)), add_zero]
    exact (rise_bounds h1 h).1
  · rw [Set.indicator_of_notMem (fun h' => absurd h'.2 (not_le.mpr h)),
      Set.indicator_of_mem (show x ∈ Set.Ioo (0 : ℝ) 20 from ⟨h, h2⟩), zero_add]
    exact (decay_bounds h).1

theorem template_out {x : ℝ} (h : x ≤ -1 ∨ 20 ≤ x) : template x = 0 := by
  unfold template
  rw [Set.indicator_of_notMem, Set.indicator_of_notMem, add_zero]
  · rintro ⟨h1, h2⟩; rcases h with h | h <;> linarith
  · rintro ⟨h1, h2⟩; rcases h with h | h <;> linarith

theorem template_zero : template 0 = 1 := by
  unfold template
  rw [Set.indicator_of_mem (show (0 : ℝ) ∈ Set.Ioc (-1 : ℝ) 0 from ⟨by norm_num, le_rfl⟩),
    Set.indicator_of_notMem (fun h => lt_irrefl _ h.1)]
  norm_num [rise]

theorem riseP_fin (x : ℝ) : Xoflares.riseP (.fin x) = .fin (rise x) := by
  unfold Xoflares.riseP rise
  simp only [Fl.fin_mul, Fl.fin_add, Fl.fin_inj]
  norm_num
  ring

theorem decayP_fin (x : ℝ) : Xoflares.decayP (.fin x) = .fin (decay x) := by
  unfold Xoflares.decayP decay
  simp only [Fl.fin_mul, Fl.fin_add, Fl.fin_inj, Fl.exp_fin]
  rw [mul_comm x, mul_comm x]

/-- The code's light curve of a single flare is the scaled template. -/
theorem flareModel_fin {w : ℝ} (hw : 0 < w) (t p A : ℝ) :
    Xoflares.flareModel t p w (.fin A) = .fin (template ((t - p) / w) * A) := by
  unfold Xoflares.flareModel
  rw [Fl.fin_div hw.ne']
  set x := (t - p) / w with hx
  have hle : t ≤ p ↔ x ≤ 0 := by
    rw [hx, div_le_iff₀ hw, zero_mul, sub_nonpos]
  have hlt : p < t ↔ 0 < x := by
    rw [hx, lt_div_iff₀ hw, zero_mul, sub_pos]
  simp only [Fl.fin_lt, hle, hlt]
  unfold template
  by_cases h1 : 0 < x ∧ x < 20
  · rw [if_pos h1, Set.indicator_of_notMem (fun h => absurd h.2 (not_le.mpr h1.1)),
      Set.indicator_of_mem (show x ∈ Set.Ioo (0 : ℝ) 20 from h1)]
    rw [decayP_fin, Fl.fin_mul, zero_add]
  · rw [if_neg h1, Set.indicator_of_notMem (show x ∉ Set.Ioo (0 : ℝ) 20 from h1)]
    by_cases h2 : x ≤ 0 ∧ -1 < x
    · rw [if_pos h2, Set.indicator_of_mem (show x ∈ Set.Ioc (-1 : ℝ) 0 from ⟨h2.2, h2.1⟩)]
      rw [riseP_fin, Fl.fin_mul, add_zero]
    · rw [if_neg h2, Set.indicator_of_notMem (show x ∉ Set.Ioc (-1 : ℝ) 0 from fun h => h2 ⟨h.2, h.1⟩)]
      simp

/-! ## C50 -/

theorem lightCurve_sum (t : ℝ) (l : List (ℝ × ℝ × Fl)) :
    Xoflares.lightCurve t l = (l.map fun f => Xoflares.flareModel t f.1 f.2.1 f.2.2).sum := by
  unfold Xoflares.lightCurve Xoflares.multiFlareModel
  have : ∀ (l : List (ℝ × ℝ × Fl)) (acc : Fl),
      l.foldl (fun lc f => lc + Xoflares.flareModel t f.1 f.2.1 f.2.2) acc =
        acc + (l.map fun f => Xoflares.flareModel t f.1 f.2.1 f.2.2).sum := by
    intro l
    induction l with
    | nil => intro acc; simp
    | cons f l ih => intro acc; rw [List.foldl_cons, ih]; simp [add_assoc]
  rw [this, ← Fl.zero_def, zero_add]

/-- **C50** The light curve of several flares is the sum of the single light curves, does not depend on
the order of the flares, and concatenating lists adds curves; this holds for every width and amplitude, finite
or not. -/
theorem C50_superposition (t : ℝ) (l l' : List (ℝ × ℝ × Fl)) :
    Xoflares.lightCurve t l = (l.map fun f => Xoflares.lightCurve t [f]).sum ∧
    (l.Perm l' → Xoflares.lightCurve t l = Xoflares.lightCurve t l') ∧
    Xoflares.lightCurve t (l ++ l') = Xoflares.lightCurve t l + Xoflares.lightCurve t l' ∧
    Xoflares.lightCurve t [] = .fin 0 := by
  refine ⟨?_, ?_, ?_, rfl⟩
  · rw [lightCurve_sum]; simp [lightCurve_sum]
  · intro h
    rw [lightCurve_sum, lightCurve_sum]
    exact (h.map _).sum_eq
  · simp [lightCurve_sum]

/-- Non-trivial instance of C50: two overlapping flares, in both orders. -/
example : Xoflares.lightCurve 1 [(0, 1, .fin 2), (1, 3, .fin 4)] =
    Xoflares.lightCurve 1 [(1, 3, .fin 4)] + Xoflares.lightCurve 1 [(0, 1, .fin 2)] :=
  ((C50_superposition 1 _ [(1, 3, .fin 4), (0, 1, .fin 2)]).2.1 (List.Perm.swap _ _ _)).trans
    (C50_superposition 1 [(1, 3, .fin 4)] [(0, 1, .fin 2)]).2.2.1

/-! ## C42 -/

theorem lightCurve_single {w : ℝ} (hw : 0 < w) (t p A : ℝ) :
    Xoflares.lightCurve t [(p, w, .fin A)] = .fin (template ((t - p) / w) * A) := by
  rw [lightCurve_sum]
  simp [flareModel_fin hw]

/-- The constant in the closed-form integral. -/
def unitIntegral : ℝ :=
  Xoflares.intBefore 0 - Xoflares.intBefore (-1) + (Xoflares.intAfter 20 - Xoflares.intAfter 0)

theorem unitIntegral_pos : 0 < unitIntegral := by
  have h1 : exp (-1.60053 * 20 : ℝ) ≤ 1 := exp_le_one_iff.mpr (by norm_num)
  have h2 : exp (-0.278318 * 20 : ℝ) ≤ 1 := exp_le_one_iff.mpr (by norm_num)
  unfold unitIntegral Xoflares.intBefore Xoflares.intAfter
  simp only [mul_zero, exp_zero]
  linarith

theorem flareIntegral_eq (w A : ℝ) : Xoflares.flareIntegral w A = unitIntegral * A * w := rfl

theorem sigmaSB_pos : 0 < sigmaSB := by unfold sigmaSB; norm_num

theorem peakArea_fin {f : StellarFlare} {e : ℝ} (he : f.energy = .fin e) (hw : 0 < f.fwhm) (hT : f.teff ≠ 0) :
    f.peakArea = .fin (e / (sigmaSB * f.teff ^ 4 * (unitIntegral * f.fwhm))) := by
  unfold StellarFlare.peakArea
  have h1 := sigmaSB_pos.ne'
  have h2 : f.teff ^ 4 ≠ 0 := pow_ne_zero _ hT
  have h3 : unitIntegral * 1 * f.fwhm ≠ 0 := by
    have := unitIntegral_pos
    positivity
  simp only [he, flareIntegral_eq]
  rw [Fl.fin_div h1, Fl.fin_div h2, Fl.fin_div h3, Fl.fin_mul, Fl.fin_inj]
  field_simp

/-- **C42** The area curve of a flare is non-negative, at most the peak area, equals the peak area exactly at
the peak, is positive inside and vanishes outside the interval from one width before to twenty widths after
the peak.  First for the light curve, then for `StellarFlare`. -/
theorem C42_curve_shape :
    (∀ (p w A : ℝ), 0 < w → 0 ≤ A →
      Xoflares.lightCurve p [(p, w, .fin A)] = .fin A ∧
      ∀ t, ∃ a, Xoflares.lightCurve t [(p, w, .fin A)] = .fin a ∧ 0 ≤ a ∧ a ≤ A ∧
        (t ≤ p - w ∨ p + 20 * w ≤ t → a = 0) ∧ (p - w < t → t < p + 20 * w → 0 < A → 0 < a)) ∧
    (∀ (f : StellarFlare) (e : ℝ), f.energy = .fin e → 0 ≤ e → 0 < f.fwhm → f.teff ≠ 0 →
      ∃ A, 0 ≤ A ∧ (0 < e → 0 < A) ∧ f.peakArea = .fin A ∧ f.areaAt f.tpeak = .fin A ∧
      ∀ t, ∃ a, f.areaAt t = .fin a ∧ 0 ≤ a ∧ a ≤ A ∧
        (t ≤ f.tpeak - f.fwhm ∨ f.tpeak + 20 * f.fwhm ≤ t → a = 0) ∧
        (f.tpeak - f.fwhm < t → t < f.tpeak + 20 * f.fwhm → 0 < A → 0 < a)) := by
  have first : ∀ (p w A : ℝ), 0 < w → 0 ≤ A →
      Xoflares.lightCurve p [(p, w, .fin A)] = .fin A ∧
      ∀ t, ∃ a, Xoflares.lightCurve t [(p, w, .fin A)] = .fin a ∧ 0 ≤ a ∧ a ≤ A ∧
        (t ≤ p - w ∨ p + 20 * w ≤ t → a = 0) ∧ (p - w < t → t < p + 20 * w → 0 < A → 0 < a) := by
    intro p w A hw hA
    refine ⟨by rw [lightCurve_single hw, sub_self, zero_div, template_zero, one_mul], fun t => ?_⟩
    obtain ⟨h1, h2⟩ := template_bounds ((t - p) / w)
    refine ⟨_, lightCurve_single hw t p A, mul_nonneg h1 hA, by nlinarith, fun h => ?_, fun h3 h4 h5 => ?_⟩
    · rw [template_out, zero_mul]
      rcases h with h | h
      · left; rw [div_le_iff₀ hw]; linarith
      · right; rw [le_div_iff₀ hw]; linarith
    · exact mul_pos (template_pos (by rw [lt_div_iff₀ hw]; linarith) (by rw [div_lt_iff₀ hw]; linarith)) h5
  refine ⟨first, ?_⟩
  intro f e he he0 hw hT
  have h1 := sigmaSB_pos
  have h2 : 0 < f.teff ^ 4 := by positivity
  have h3 := unitIntegral_pos
  have hpk := peakArea_fin he hw hT
  have hA : 0 ≤ e / (sigmaSB * f.teff ^ 4 * (unitIntegral * f.fwhm)) := by positivity
  refine ⟨_, hA, fun h => by positivity, hpk, ?_⟩
  have := first f.tpeak f.fwhm _ hw hA
  unfold StellarFlare.areaAt
  rw [hpk]
  exact this

/-- Non-trivial instance of C42: a half day into the decay of a one-day flare of amplitude `5`. -/
example : ∃ a, Xoflares.lightCurve 0.5 [(0, 1, .fin 5)] = .fin a ∧ 0 < a ∧ a ≤ 5 := by
  obtain ⟨a, h1, -, h2, -, h3⟩ := (C42_curve_shape.1 0 1 5 (by norm_num) (by norm_num)).2 0.5
  exact ⟨a, h1, h3 (by norm_num) (by norm_num) (by norm_num), h2⟩

/-! ## C43 -/

theorem continuous_rise : Continuous rise := by unfold rise; fun_prop
theorem continuous_decay : Continuous decay := by unfold decay; fun_prop

theorem integrable_rise : Integrable ((Set.Ioc (-1 : ℝ) 0).indicator rise) :=
  (integrable_indicator_iff measurableSet_Ioc).mpr
    ((continuous_rise.integrableOn_Icc).mono_set Set.Ioc_subset_Icc_self)

theorem integrable_decay : Integrable ((Set.Ioo (0 : ℝ) 20).indicator decay) :=
  (integrable_indicator_iff measurableSet_Ioo).mpr
    ((continuous_decay.integrableOn_Icc).mono_set Set.Ioo_subset_Icc_self)

theorem integrable_template : Integrable template := integrable_rise.add integrable_decay

theorem hasDerivAt_intBefore (x : ℝ) : HasDerivAt Xoflares.intBefore (rise x) x := by
  unfold Xoflares.intBefore
  have h1 := (hasDerivAt_id x).const_mul (1.00000 : ℝ)
  have h2 := ((hasDerivAt_pow 2 x).const_mul (1.94053 : ℝ)).div_const 2
  have h3 := ((hasDerivAt_pow 3 x).const_mul (-0.175084 : ℝ)).div_const 3
  have h4 := ((hasDerivAt_pow 4 x).const_mul (-2.24588 : ℝ)).div_const 4
  have h5 := ((hasDerivAt_pow 5 x).const_mul (-1.12498 : ℝ)).div_const 5
  refine ((((h1.add h2).add h3).add h4).add h5).congr_deriv ?_
  unfold rise
  norm_num
  ring

theorem hasDerivAt_intAfter (x : ℝ) : HasDerivAt Xoflares.intAfter (decay x) x := by
  unfold Xoflares.intAfter
  have h (c k : ℝ) : HasDerivAt (fun x => c * exp (k * x)) (c * (exp (k * x) * (k * 1))) x :=
    (((hasDerivAt_id x).const_mul k).exp).const_mul c
  refine ((h (0.689008 / (-1.60053)) (-1.60053)).add (h (0.302963 / (-0.278318)) (-0.278318))).congr_deriv ?_
  unfold decay
  norm_num
  ring

theorem integral_template : ∫ x, template x = unitIntegral := by
  unfold template
  rw [integral_add integrable_rise integrable_decay, integral_indicator measurableSet_Ioc,
    integral_indicator measurableSet_Ioo, ← integral_Ioc_eq_integral_Ioo,
    ← intervalIntegral.integral_of_le (by norm_num), ← intervalIntegral.integral_of_le (by norm_num),
    intervalIntegral.integral_eq_sub_of_hasDerivAt (fun x _ => hasDerivAt_intBefore x)
      (continuous_rise.intervalIntegrable _ _),
    intervalIntegral.integral_eq_sub_of_hasDerivAt (fun x _ => hasDerivAt_intAfter x)
      (continuous_decay.intervalIntegrable _ _)]
  rfl

theorem integrable_curve {w : ℝ} (hw : 0 < w) (p A : ℝ) : Integrable (fun t => template ((t - p) / w) * A) := by
  have h1 : Integrable (fun t => template (t / w)) := integrable_template.comp_div hw.ne'
  exact (h1.comp_sub_right p).mul_const A

theorem integral_curve {w : ℝ} (hw : 0 < w) (p A : ℝ) :
    ∫ t, template ((t - p) / w) * A = unitIntegral * A * w := by
  rw [integral_mul_const, integral_sub_right_eq_self (fun t => template (t / w)) p,
    Measure.integral_comp_div, integral_template, abs_of_pos hw, smul_eq_mul]
  ring

/-- **C43** The closed-form flare integral is the integral over all time of the light curve; hence the energy
radiated by the flare, `σ Teff⁴` (Stefan-Boltzmann, SI) times the time integral of its area curve (from km² and
days to m² and s, from J to erg), is the energy the flare was created with. -/
theorem C43_energy :
    (∀ p w A : ℝ, 0 < w → ∃ curve : ℝ → ℝ, (∀ t, Xoflares.lightCurve t [(p, w, .fin A)] = .fin (curve t)) ∧
      Integrable curve ∧ ∫ t, curve t = Xoflares.flareIntegral w A) ∧
    (∀ (f : StellarFlare) (e : ℝ), f.energy = .fin e → 0 < f.fwhm → f.teff ≠ 0 →
      ∃ curve : ℝ → ℝ, (∀ t, f.areaAt t = .fin (curve t)) ∧ Integrable curve ∧
        5.670374419e-8 * f.teff ^ 4 * ((∫ t, curve t) * 1000 ^ 2 * (24 * 3600)) * 10 ^ 7 = e) := by
  constructor
  · intro p w A hw
    exact ⟨_, fun t => lightCurve_single hw t p A, integrable_curve hw p A, integral_curve hw p A⟩
  · intro f e he hw hT
    refine ⟨_, fun t => ?_,
      integrable_curve hw f.tpeak (e / (sigmaSB * f.teff ^ 4 * (unitIntegral * f.fwhm))), ?_⟩
    · unfold StellarFlare.areaAt
      rw [peakArea_fin he hw hT, lightCurve_single hw]
    · rw [integral_curve hw]
      have h3 := unitIntegral_pos.ne'
      have h4 := hw.ne'
      have h5 : sigmaSB = 5.670374419e-8 * 1000 ^ 2 * (24 * 3600) * 10 ^ 7 := by unfold sigmaSB; norm_num
      have h6 := sigmaSB_pos.ne'
      have : unitIntegral * (e / (sigmaSB * f.teff ^ 4 * (unitIntegral * f.fwhm))) * f.fwhm =
          e / (sigmaSB * f.teff ^ 4) := by field_simp
      rw [this]
      have : 5.670374419e-8 * f.teff ^ 4 * (e / (sigmaSB * f.teff ^ 4) * 1000 ^ 2 * (24 * 3600)) * 10 ^ 7 =
          sigmaSB * f.teff ^ 4 * (e / (sigmaSB * f.teff ^ 4)) := by rw [h5]; ring
      rw [this]
      field_simp

/-- Non-trivial instance of C43: a 9000 K flare of `10³²` erg, twelve hours wide. -/
example : ∃ curve : ℝ → ℝ, (∀ t, (⟨0.5, .fin (10 ^ 32), 0, 0, 9000, 3⟩ : StellarFlare).areaAt t = .fin (curve t)) ∧
    5.670374419e-8 * 9000 ^ 4 * ((∫ t, curve t) * 1000 ^ 2 * (24 * 3600)) * 10 ^ 7 = 10 ^ 32 := by
  obtain ⟨curve, h1, -, h2⟩ := C43_energy.2 ⟨0.5, .fin (10 ^ 32), 0, 0, 9000, 3⟩ (10 ^ 32) rfl
    (by norm_num) (by norm_num)
  exact ⟨curve, h1, h2⟩

/-! ## C47 -/

theorem inPeriod_eq (flares : List StellarFlare) (a b : ℝ) :
    (FlareCollection.new flares).inPeriod a b =
      flares.filter fun f => decide (a < f.tpeak + 20 * f.fwhm) && decide (f.tpeak - 10 * f.fwhm < b) := by
  unfold FlareCollection.inPeriod FlareCollection.mask FlareCollection.new
  simp only
  induction flares with
  | nil => rfl
  | cons f l ih =>
    simp only [List.map_cons, List.zip_cons_cons, Np.maskSelect, List.filter_cons]
    rw [ih]

theorem areaAt_support {f : StellarFlare} (hw : 0 ≤ f.fwhm) {t : ℝ} (h : f.areaAt t ≠ .fin 0) :
    f.tpeak - f.fwhm < t ∧ t < f.tpeak + 20 * f.fwhm := by
  unfold StellarFlare.areaAt at h
  rw [lightCurve_sum] at h
  simp only [List.map_cons, List.map_nil, List.sum_cons, List.sum_nil, add_zero] at h
  unfold Xoflares.flareModel at h
  rcases hw.eq_or_lt with hw | hw
  · exfalso
    apply h
    rw [← hw, Fl.fin_div_zero]
    simp only [Fl.infTimes, sub_pos, sub_neg]
    rcases lt_trichotomy t f.tpeak with h1 | h1 | h1
    · rw [if_neg (by simp [h1.not_gt])]
      simp [h1, h1.not_gt]
    · simp [h1]
    · simp [h1, h1.not_ge]
  · rw [Fl.fin_div hw.ne'] at h
    simp only [Fl.fin_lt] at h
    split_ifs at h with h1 h2
    · rw [div_lt_iff₀ hw] at h1
      exact ⟨by linarith, by linarith⟩
    · rw [lt_div_iff₀ hw] at h2
      exact ⟨by linarith, by linarith⟩
    · exact absurd rfl h

/-- **C47** `get_flares_in_timeperiod` keeps every flare whose area is different from zero at some instant of
the window (so a dropped flare contributes exactly zero at every instant), in the original order and
multiplicity. -/
theorem C47_kept (flares : List StellarFlare) (a b : ℝ) :
    ∃ keep : StellarFlare → Bool, (FlareCollection.new flares).inPeriod a b = flares.filter keep ∧
      (∀ f, 0 ≤ f.fwhm → (∃ t, a ≤ t ∧ t ≤ b ∧ f.areaAt t ≠ .fin 0) → keep f = true) ∧
      (∀ f, 0 ≤ f.fwhm → keep f = false → ∀ t, a ≤ t → t ≤ b → f.areaAt t = .fin 0) := by
  have key : ∀ f : StellarFlare, 0 ≤ f.fwhm → (∃ t, a ≤ t ∧ t ≤ b ∧ f.areaAt t ≠ .fin 0) →
      (decide (a < f.tpeak + 20 * f.fwhm) && decide (f.tpeak - 10 * f.fwhm < b)) = true := by
    rintro f hw ⟨t, h1, h2, h3⟩
    obtain ⟨h4, h5⟩ := areaAt_support hw h3
    simp only [Bool.and_eq_true, decide_eq_true_eq]
    exact ⟨by linarith, by linarith⟩
  refine ⟨_, inPeriod_eq flares a b, key, ?_⟩
  intro f hw hk t h1 h2
  by_contra h
  rw [key f hw ⟨t, h1, h2, h⟩] at hk
  cases hk

/-- Non-trivial instance of C47: of two flares only the active one is kept. -/
example : (FlareCollection.new [⟨0.1, .fin 1, 0, 0, 9000, 0⟩, ⟨0.1, .fin 1, 0, 0, 9000, 7⟩]).inPeriod 6 8 =
    [⟨0.1, .fin 1, 0, 0, 9000, 7⟩] := by
  rw [inPeriod_eq]
  norm_num [List.filter_cons]

/-! ## C48 -/

/-- **C48** `get_visible_flares_in_timeperiod` returns, in order, exactly the flares of the time period that
are less than `90°` away from the sub-observer point. -/
theorem C48_visible (c : FlareCollection) (a b lat0 lon0 : ℝ) :
    c.visible a b lat0 lon0 =
      (c.inPeriod a b).filter fun f => decide (greatCircle lat0 lon0 f.lat f.lon < π / 2) := by
  unfold FlareCollection.visible
  apply List.filter_congr
  intro f _
  rw [decide_eq_decide, greatCircle_eq, arccos_lt_pi_div_two]

/-- Non-trivial instance of C48: a flare on the near side is visible, one on the far side is not. -/
example : (FlareCollection.new [⟨1, .fin 1, 0, 0, 9000, 0⟩, ⟨1, .fin 1, 0, π, 9000, 0⟩]).visible 0 1 0 0 =
    [⟨1, .fin 1, 0, 0, 9000, 0⟩] := by
  unfold FlareCollection.visible
  rw [inPeriod_eq]
  norm_num [List.filter_cons]

/-! ## C49 -/

theorem times_eq {a b : ℝ} (hab : a ≤ b) :
    FlareCollection.times a b = .ok (Np.linspace a b ⌊(b - a) * 144⌋₊) := by
  unfold FlareCollection.times FlareCollection.pyInt
  have h : 0 ≤ (b - a) * 144 := by nlinarith
  have e : (b - a) / (1 / 144) = (b - a) * 144 := by ring
  simp only [e]
  rw [if_pos h, if_neg (not_lt.mpr (Int.floor_nonneg.mpr h)), Int.floor_toNat]

theorem timearea_fin {f : StellarFlare} {curve : ℝ → ℝ} (h : ∀ t, f.areaAt t = .fin (curve t)) (l : List ℝ) :
    f.timearea l = .fin (trapzR (l.map curve) l) := by
  unfold StellarFlare.timearea
  rw [← trapz_fin, List.map_map]
  congr 1
  exact List.map_congr_left fun t _ => h t

/-- **C49** (partial) For every window `get_flare_integral_in_timeperiod` returns one entry per visible flare,
in order, with its temperature and a non-negative time-area; the entry is positive whenever the window is at
least twenty minutes long and the flare has positive area throughout.  Missing: shorter windows – refuted by
`C49_counterexample`. -/
theorem C49_timearea_partial (c : FlareCollection) (a b lat0 lon0 : ℝ) (hab : a < b)
    (hphys : ∀ f ∈ c.flares, (∃ e, f.energy = .fin e ∧ 0 ≤ e) ∧ 0 < f.fwhm ∧ f.teff ≠ 0) :
    ∃ l, c.integrals a b lat0 lon0 = .ok l ∧
      List.Forall₂ (fun f entry => entry.1 = f.teff ∧ ∃ x, entry.2 = Fl.fin x ∧ 0 ≤ x ∧
        (20 / (24 * 60) ≤ b - a → (∀ t, a ≤ t → t ≤ b → .fin 0 < f.areaAt t) → 0 < x))
        (c.visible a b lat0 lon0) l := by
  unfold FlareCollection.integrals
  rw [times_eq hab.le]
  refine ⟨_, rfl, ?_⟩
  rw [List.forall₂_map_right_iff, List.forall₂_same]
  intro f hf
  have hf' : f ∈ c.flares := by
    have h1 : f ∈ c.inPeriod a b := (List.mem_filter.mp hf).1
    have : ∀ (l : List StellarFlare) (m : List Bool), f ∈ Np.maskSelect l m → f ∈ l := by
      intro l
      induction l with
      | nil => intro m h; cases m <;> simp [Np.maskSelect] at h
      | cons x l ih =>
        intro m h
        cases m with
        | nil => simp [Np.maskSelect] at h
        | cons y m =>
          rw [Np.maskSelect] at h
          split_ifs at h
          · rcases List.mem_cons.mp h with h | h
            · simp [h]
            · simp [ih m h]
          · simp [ih m h]
    exact this _ _ h1
  obtain ⟨⟨e, he, he0⟩, hw, hT⟩ := hphys f hf'
  obtain ⟨A, -, -, -, -, hc⟩ := C42_curve_shape.2 f e he he0 hw hT
  choose curve h1 h2 h3 h4 h5 using hc
  refine ⟨rfl, _, timearea_fin h1 _, ?_, ?_⟩
  · apply trapzR_nonneg
    · intro y hy
      obtain ⟨t, -, rfl⟩ := List.mem_map.mp hy
      exact h2 t
    · exact linspace_pairwise_le hab.le _
  · intro hlong hpos
    have hn : 2 ≤ ⌊(b - a) * 144⌋₊ := by
      apply Nat.le_floor
      norm_num at hlong ⊢
      linarith
    apply trapzR_pos
    · simpa [linspace_length] using hn
    · rwa [linspace_length]
    · intro y hy
      obtain ⟨t, ht, rfl⟩ := List.mem_map.mp hy
      obtain ⟨h6, h7⟩ := linspace_mem hab.le ht
      have := hpos t h6 h7
      rwa [h1, Fl.fin_lt] at this
    · exact linspace_pairwise_lt hab hn

/-- A flare used in the examples: one day wide, peaking at time zero at the centre of the disk. -/
def Spec.sampleFlare : StellarFlare := ⟨1, .fin 1, 0, 0, 9000, 0⟩

theorem sampleFlare_visible {b : ℝ} (hb : 0 < b) :
    (FlareCollection.new [sampleFlare]).visible 0 b 0 0 = [sampleFlare] := by
  unfold FlareCollection.visible
  rw [inPeriod_eq]
  have : -10 < b := by linarith
  norm_num [List.filter_cons, sampleFlare, this]

theorem sampleFlare_pos {t : ℝ} (h1 : 0 ≤ t) (h2 : t ≤ 1) : .fin 0 < sampleFlare.areaAt t := by
  obtain ⟨A, -, hA, -, -, hc⟩ :=
    C42_curve_shape.2 sampleFlare 1 rfl (by norm_num) (by norm_num [sampleFlare]) (by norm_num [sampleFlare])
  obtain ⟨a, h3, -, -, -, h4⟩ := hc t
  rw [h3, Fl.fin_lt]
  refine h4 ?_ ?_ (hA (by norm_num)) <;> norm_num [sampleFlare] <;> linarith

/-- The full statement of C49 is false of the code: during a window of 14.4 minutes a visible flare with
positive area throughout contributes nothing, because the trapezoid rule is given a single sample.  The same
happens to every flare in every window shorter than twenty minutes. -/
theorem C49_counterexample :
    (∀ t, 0 ≤ t → t ≤ 1 / 100 → .fin 0 < sampleFlare.areaAt t) ∧
    (FlareCollection.new [sampleFlare]).integrals 0 (1 / 100) 0 0 = .ok [(9000, .fin 0)] ∧
    (∀ (c : FlareCollection) (a b lat0 lon0 : ℝ), a ≤ b → b - a < 20 / (24 * 60) →
      c.integrals a b lat0 lon0 = .ok ((c.visible a b lat0 lon0).map fun f => (f.teff, .fin 0))) := by
  have gen : ∀ (c : FlareCollection) (a b lat0 lon0 : ℝ), a ≤ b → b - a < 20 / (24 * 60) →
      c.integrals a b lat0 lon0 = .ok ((c.visible a b lat0 lon0).map fun f => (f.teff, .fin 0)) := by
    intro c a b lat0 lon0 hab hs
    unfold FlareCollection.integrals
    rw [times_eq hab]
    have hn : ⌊(b - a) * 144⌋₊ < 2 := by
      rw [Nat.floor_lt (by nlinarith)]
      norm_num at hs ⊢
      linarith
    simp only [Except.map, Except.ok.injEq]
    apply List.map_congr_left
    intro f _
    congr 1
    unfold StellarFlare.timearea
    interval_cases ⌊(b - a) * 144⌋₊ <;> simp [Np.linspace, Np.trapz, List.range_succ]
  refine ⟨fun t h1 h2 => sampleFlare_pos h1 (by linarith), ?_, gen⟩
  rw [gen _ _ _ _ _ (by norm_num) (by norm_num), sampleFlare_visible (by norm_num)]
  rfl

/-- Non-trivial instance of C49: during one day after its peak the sample flare contributes. -/
example : ∃ x, (FlareCollection.new [sampleFlare]).integrals 0 1 0 0 = .ok [(9000, .fin x)] ∧ 0 < x := by
  obtain ⟨l, h1, h2⟩ := C49_timearea_partial (FlareCollection.new [sampleFlare]) 0 1 0 0 (by norm_num) (by
    intro f hf
    simp only [FlareCollection.new, List.mem_singleton] at hf
    subst hf
    exact ⟨⟨1, rfl, by norm_num⟩, by norm_num [sampleFlare], by norm_num [sampleFlare]⟩)
  rw [sampleFlare_visible (by norm_num), List.forall₂_cons_left_iff] at h2
  obtain ⟨y, l', ⟨h3, x, h4, -, h5⟩, h6, rfl⟩ := h2
  cases h6
  refine ⟨x, ?_, h5 (by norm_num) fun t => sampleFlare_pos⟩
  rw [h1]
  cases y
  simp only at h3 h4
  subst h3 h4
  rfl

end Vsm
