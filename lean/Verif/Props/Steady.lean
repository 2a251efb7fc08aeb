import Verif.Props.Chance
import Verif.Props.Averages
import Verif.Props.Population
import Mathlib.Analysis.SumIntegralComparisons

/-!
# C120: the settled population of faculae
-/

noncomputable section

namespace Vsm

open Real MeasureTheory ProbabilityTheory Set
open scoped ENNReal

/-! ### Sums over a random number of terms -/

theorem randomSum_eq {Ω : Type*} (K : Ω → ℕ) (f : (n : ℕ) → Fin n → Ω → ℝ≥0∞) (ω : Ω) :
    ∑ i : Fin (K ω), f (K ω) i ω = ∑' n, (K ⁻¹' {n}).indicator (fun ω => ∑ i : Fin n, f n i ω) ω := by
  rw [tsum_eq_single (K ω)]
  · rw [indicator_of_mem (show ω ∈ K ⁻¹' {K ω} from rfl)]
  · intro n hn
    rw [indicator_of_notMem (show ω ∉ K ⁻¹' {n} from fun h => hn (Eq.symm h))]

theorem randomSum_measurable {Ω : Type*} [MeasurableSpace Ω] (K : Ω → ℕ) (hK : Measurable K)
    (f : (n : ℕ) → Fin n → Ω → ℝ≥0∞) (hf : ∀ n i, Measurable (f n i)) : Measurable fun ω => ∑ i : Fin (K ω), f (K ω) i ω := by
  simp only [randomSum_eq]
  refine Measurable.tsum fun n => ?_
  exact (Finset.measurable_sum _ fun i _ => hf n i).indicator (hK (measurableSet_singleton n))

/-- Mean of a sum of a Poisson number of equally distributed terms that are independent of the number. -/
theorem randomSum_mean {Ω : Type*} [MeasurableSpace Ω] (P : Measure Ω) (r : NNReal) (K : Ω → ℕ) (hK : Measurable K)
    (hl : P.map K = poissonMeasure r) (Y : (n : ℕ) → Fin n → Ω → ℝ) (hY : ∀ n i, Measurable (Y n i)) (μ : Measure ℝ)
    (hYl : ∀ n i, P.map (Y n i) = μ) (hind : ∀ n i, IndepFun (Y n i) K P) (φ : ℝ → ℝ≥0∞) (hφ : Measurable φ) :
    ∫⁻ ω, ∑ i : Fin (K ω), φ (Y (K ω) i ω) ∂P = r * ∫⁻ z, φ z ∂μ := by
  have hKn : ∀ n, MeasurableSet (K ⁻¹' {n}) := fun n => hK (measurableSet_singleton n)
  have hm : ∀ n i, Measurable fun ω => φ (Y n i ω) := fun n i => hφ.comp (hY n i)
  have e : ∀ ω, ∑ i : Fin (K ω), φ (Y (K ω) i ω) = ∑' n, (K ⁻¹' {n}).indicator (fun ω => ∑ i : Fin n, φ (Y n i ω)) ω :=
    fun ω => randomSum_eq K (fun n i ω => φ (Y n i ω)) ω
  simp only [e]
  rw [lintegral_tsum fun n => ((Finset.measurable_sum _ fun i _ => hm n i).indicator (hKn n)).aemeasurable]
  have h2 : ∀ n : ℕ, ∫⁻ ω, (K ⁻¹' {n}).indicator (fun ω => ∑ i : Fin n, φ (Y n i ω)) ω ∂P =
      (n : ℝ≥0∞) * poissonMeasure r {n} * ∫⁻ z, φ z ∂μ := by
    intro n
    rw [lintegral_indicator (hKn n), lintegral_finsetSum _ fun i _ => hm n i]
    have h3 : ∀ i : Fin n, ∫⁻ ω in K ⁻¹' {n}, φ (Y n i ω) ∂P = poissonMeasure r {n} * ∫⁻ z, φ z ∂μ := by
      intro i
      rw [← lintegral_indicator (hKn n)]
      have h4 : (fun ω => (K ⁻¹' {n}).indicator (fun ω => φ (Y n i ω)) ω) =
          (fun ω => φ (Y n i ω)) * fun ω => ({n} : Set ℕ).indicator (fun _ => (1 : ℝ≥0∞)) (K ω) := by
        funext ω
        by_cases h : K ω = n <;> simp [indicator, h]
      have h5 : Measurable (({n} : Set ℕ).indicator fun _ => (1 : ℝ≥0∞)) := measurable_const.indicator (measurableSet_singleton n)
      have h7 := lintegral_mul_eq_lintegral_mul_lintegral_of_indepFun (hm n i) (h5.comp hK) ((hind n i).comp hφ h5)
      rw [h4]
      refine h7.trans ?_
      rw [← hYl n i, lintegral_map hφ (hY n i), mul_comm]
      congr 1
      have h6 : (fun ω => ({n} : Set ℕ).indicator (fun _ => (1 : ℝ≥0∞)) (K ω)) = (K ⁻¹' {n}).indicator 1 := by
        funext ω; simp [indicator]
      show ∫⁻ ω, ({n} : Set ℕ).indicator (fun _ => (1 : ℝ≥0∞)) (K ω) ∂P = _
      rw [h6, lintegral_indicator_one (hKn n), ← hl, Measure.map_apply hK (measurableSet_singleton n)]
    simp only [h3]
    rw [Finset.sum_const, Finset.card_univ, Fintype.card_fin, nsmul_eq_mul, mul_assoc]
  simp only [h2]
  rw [ENNReal.tsum_mul_right, poisson_mean]

/-! ### Sums against integrals -/

theorem mono_riemann (h : ℝ → ℝ) (hm : MonotoneOn h (Ici 0)) (dt : ℝ) (hd : 0 < dt) (N : ℕ) :
    ∫ t in (0 : ℝ)..(N * dt), h t ≤ dt * ∑ k ∈ Finset.range N, h ((k + 1 : ℕ) * dt) ∧
    dt * ∑ k ∈ Finset.range N, h ((k + 1 : ℕ) * dt) ≤ (∫ t in (0 : ℝ)..(N * dt), h t) + dt * (h (N * dt) - h 0) := by
  have hmon : MonotoneOn (fun u => h (u * dt)) (Icc (0 : ℝ) (0 + N)) := by
    intro a ha b hb hab
    exact hm (mul_nonneg ha.1 hd.le) (mul_nonneg hb.1 hd.le) (by gcongr)
  have hi : ∫ u in (0 : ℝ)..(0 + N), h (u * dt) = dt⁻¹ * ∫ t in (0 : ℝ)..(N * dt), h t := by
    rw [intervalIntegral.integral_comp_mul_right _ hd.ne', zero_mul, zero_add, smul_eq_mul]
  have h1 := hmon.integral_le_sum
  have h2 := hmon.sum_le_integral
  rw [hi] at h1 h2
  simp only [zero_add] at h1 h2
  rw [inv_mul_le_iff₀ hd] at h1
  rw [le_inv_mul_iff₀ hd] at h2
  refine ⟨h1, ?_⟩
  have h3 : ∑ k ∈ Finset.range N, h ((k + 1 : ℕ) * dt) = ∑ k ∈ Finset.range N, h ((k : ℕ) * dt) + (h (N * dt) - h 0) := by
    have a := Finset.sum_range_succ (fun k : ℕ => h ((k : ℕ) * dt)) N
    have b := Finset.sum_range_succ' (fun k : ℕ => h ((k : ℕ) * dt)) N
    rw [a] at b
    simp only [Nat.cast_zero, zero_mul] at b
    linarith
  rw [h3, mul_add]
  linarith

/-- A quantity with the values `up` while it grows and `down` less than its peak afterwards. -/
theorem hill_riemann (f u d : ℝ → ℝ) (M : ℝ) (hu : MonotoneOn u (Ici 0)) (hd : MonotoneOn d (Ici 0)) (hf : ∀ t, 0 ≤ t → f t = u t - d t)
    (hu0 : ∀ t, 0 ≤ t → 0 ≤ u t ∧ u t ≤ M) (hd0 : ∀ t, 0 ≤ t → 0 ≤ d t ∧ d t ≤ M) (dt : ℝ) (hdt : 0 < dt) (N : ℕ) :
    |dt * ∑ k ∈ Finset.range N, f ((k + 1 : ℕ) * dt) - ∫ t in (0 : ℝ)..(N * dt), f t| ≤ M * dt := by
  have hT : (0 : ℝ) ≤ N * dt := by positivity
  obtain ⟨a1, a2⟩ := mono_riemann u hu dt hdt N
  obtain ⟨b1, b2⟩ := mono_riemann d hd dt hdt N
  have iu : IntervalIntegrable u volume 0 (N * dt) := (hu.mono (by rw [uIcc_of_le hT]; exact Icc_subset_Ici_self)).intervalIntegrable
  have id' : IntervalIntegrable d volume 0 (N * dt) := (hd.mono (by rw [uIcc_of_le hT]; exact Icc_subset_Ici_self)).intervalIntegrable
  have e1 : ∫ t in (0 : ℝ)..(N * dt), f t = (∫ t in (0 : ℝ)..(N * dt), u t) - ∫ t in (0 : ℝ)..(N * dt), d t := by
    rw [← intervalIntegral.integral_sub iu id']
    refine intervalIntegral.integral_congr fun t ht => ?_
    rw [uIcc_of_le hT] at ht
    exact hf t ht.1
  have e2 : ∑ k ∈ Finset.range N, f ((k + 1 : ℕ) * dt) = ∑ k ∈ Finset.range N, u ((k + 1 : ℕ) * dt) -
      ∑ k ∈ Finset.range N, d ((k + 1 : ℕ) * dt) := by
    rw [← Finset.sum_sub_distrib]
    exact Finset.sum_congr rfl fun k _ => hf _ (by positivity)
  rw [e1, e2, abs_le]
  have c1 := hu0 (N * dt) hT
  have c2 := hu0 0 le_rfl
  have c3 := hd0 (N * dt) hT
  have c4 := hd0 0 le_rfl
  have d1 : dt * (u (N * dt) - u 0) ≤ dt * M := mul_le_mul_of_nonneg_left (by linarith) hdt.le
  have d2 : dt * (d (N * dt) - d 0) ≤ dt * M := mul_le_mul_of_nonneg_left (by linarith) hdt.le
  constructor <;> (rw [mul_sub]; linarith)

/-! ### One facula -/

/-- Number of features (1 or 0) that are left after the time `t` of one that lives for the time `Λ` (spec). -/
def Spec.aliveAt (Λ t : ℝ) : ℝ := if t < Λ then 1 else 0

/-- Area after the time `t` of a facula with largest radius `r` and lifetime `L` (spec). -/
def Spec.faculaAreaAt (r L t : ℝ) : ℝ := if t < 2 * L then π * r ^ 2 * exp (-4 * |t - L| / L) else 0

open Spec

theorem alive_sum {Λ : ℝ} (hL : 0 ≤ Λ) {dt : ℝ} (hd : 0 < dt) {N : ℕ} (hN : 0 < N) :
    Λ - Λ ^ 2 / (4 * (N * dt)) - dt ≤ dt * ∑ k ∈ Finset.range N, aliveAt Λ ((k + 1 : ℕ) * dt) ∧
    dt * ∑ k ∈ Finset.range N, aliveAt Λ ((k + 1 : ℕ) * dt) ≤ Λ := by
  have hT : (0 : ℝ) < N * dt := by positivity
  set d : ℝ → ℝ := fun t => if t < Λ then 0 else 1 with hdd
  have hdm : MonotoneOn d (Ici 0) := by
    intro a _ b _ hab
    simp only [hdd]
    split_ifs <;> linarith
  have hsum : ∑ k ∈ Finset.range N, aliveAt Λ ((k + 1 : ℕ) * dt) = N - ∑ k ∈ Finset.range N, d ((k + 1 : ℕ) * dt) := by
    have : ∀ t, aliveAt Λ t = 1 - d t := by
      intro t; simp only [hdd, aliveAt]; split_ifs <;> norm_num
    simp only [this, Finset.sum_sub_distrib, Finset.sum_const, Finset.card_range, nsmul_eq_mul, mul_one]
  obtain ⟨b1, b2⟩ := mono_riemann d hdm dt hd N
  have hint : ∫ t in (0 : ℝ)..(N * dt), d t = max 0 (N * dt - Λ) := by
    rcases le_total (N * dt) (Λ) with h | h
    · rw [max_eq_left (by linarith)]
      have : ∫ t in (0 : ℝ)..(N * dt), d t = ∫ t in (0 : ℝ)..(N * dt), (0 : ℝ) := by
        refine intervalIntegral.integral_congr_ae ?_
        have hne : ∀ᵐ t : ℝ, t ≠ Λ := by
          rw [ae_iff]; simp
        filter_upwards [hne] with t ht hm
        rw [uIoc_of_le hT.le] at hm
        simp only [hdd]
        rw [if_pos (lt_of_le_of_ne (hm.2.trans h) ht)]
      rw [this]; simp
    · rw [max_eq_right (by linarith)]
      have i1 : IntervalIntegrable d volume 0 (Λ) :=
        (hdm.mono (by rw [uIcc_of_le (by linarith)]; exact Icc_subset_Ici_self)).intervalIntegrable
      have i2 : IntervalIntegrable d volume (Λ) (N * dt) :=
        (hdm.mono (by rw [uIcc_of_le h]; exact fun x hx => (by linarith [hx.1] : (0 : ℝ) ≤ x))).intervalIntegrable
      rw [← intervalIntegral.integral_add_adjacent_intervals i1 i2]
      have e1 : ∫ t in (0 : ℝ)..(Λ), d t = ∫ t in (0 : ℝ)..(Λ), (0 : ℝ) := by
        refine intervalIntegral.integral_congr_ae ?_
        have hne : ∀ᵐ t : ℝ, t ≠ Λ := by
          rw [ae_iff]; simp
        filter_upwards [hne] with t ht hm
        rw [uIoc_of_le (by linarith)] at hm
        simp only [hdd]
        rw [if_pos (lt_of_le_of_ne hm.2 ht)]
      have e2 : ∫ t in (Λ)..(N * dt), d t = ∫ t in (Λ)..(N * dt), (1 : ℝ) := by
        refine intervalIntegral.integral_congr fun t ht => ?_
        rw [uIcc_of_le h] at ht
        simp only [hdd]
        rw [if_neg (not_lt.mpr ht.1)]
      rw [e1, e2]
      simp
  rw [hint] at b1 b2
  have hd0 : 0 ≤ d 0 := by simp only [hdd]; split_ifs <;> norm_num
  have hdN : d (N * dt) ≤ 1 := by simp only [hdd]; split_ifs <;> norm_num
  have b3 : dt * (d (N * dt) - d 0) ≤ dt := mul_le_of_le_one_right hd.le (by linarith)
  rw [hsum, mul_sub]
  have hq : Λ - N * dt ≤ Λ ^ 2 / (4 * (N * dt)) := by
    rw [le_div_iff₀ (by positivity)]; nlinarith [sq_nonneg (Λ - 2 * (N * dt))]
  have hq0 : 0 ≤ Λ ^ 2 / (4 * (N * dt)) := by positivity
  constructor
  · have : max 0 (N * dt - Λ) ≤ N * dt - Λ + Λ ^ 2 / (4 * (N * dt)) := max_le (by linarith) (by linarith)
    linarith
  · linarith [le_max_right 0 (N * dt - Λ)]


theorem faculaArea_closed (f : Facula) (hp : PhysF f (f.rMax * exp (-2))) (hg : f.isGrowing = true) (t : ℝ) :
    faculaArea f t = π * f.rMax ^ 2 * exp (-4 * |t - f.lifetime| / f.lifetime) := by
  have hL := hp.life
  have hT := newborn_timeLeft hp
  unfold faculaArea
  rw [facula_grow hp hg, hT]
  split_ifs with h1
  · rw [abs_of_nonneg (by linarith)]
    simp only
    rw [mul_pow, ← exp_nat_mul]
    push_cast; ring_nf
  · rw [abs_of_neg (by linarith)]
    simp only
    rw [mul_assoc f.rMax, ← exp_add, mul_pow, ← exp_nat_mul, ← mul_assoc]
    congr 2
    field_simp
    push_cast; ring

theorem life_integral {r L : ℝ} (hr : 0 < r) (hL : 0 < L) :
    ∫ t in (0 : ℝ)..(2 * L), π * r ^ 2 * exp (-4 * |t - L| / L) = L * (π * r ^ 2 / 2 * (1 - exp (-4))) := by
  have he : exp (-2) ≤ 1 := exp_le_one_iff.mpr (by norm_num)
  have hp : PhysF (⟨0, 0, r, .fin (r * exp (-2)), 0, L, 0, 0, 0, 0, 0, true, .rect 3 3⟩ : Facula) (r * exp (-2)) :=
    ⟨rfl, by positivity, mul_le_of_le_one_right hr.le he, hL⟩
  rw [← integral_faculaArea _ hp rfl]
  simp only [faculaArea_closed _ hp rfl]

theorem area_sum {r L : ℝ} (hr : 0 < r) (hL : 0 < L) {dt : ℝ} (hd : 0 < dt) {N : ℕ} (hN : 0 < N) :
    |dt * ∑ k ∈ Finset.range N, faculaAreaAt r L ((k + 1 : ℕ) * dt) - L * (π * r ^ 2 / 2 * (1 - exp (-4)))| ≤
      π * r ^ 2 * dt + π * r ^ 2 * L ^ 2 / (N * dt) := by
  have hT : (0 : ℝ) < N * dt := by positivity
  have hM : 0 < π * r ^ 2 := by have := pi_pos; positivity
  set M := π * r ^ 2 with hMd
  have hneg : ∀ x : ℝ, 0 ≤ x → exp (-4 * x / L) ≤ 1 := fun x hx => by
    rw [exp_le_one_iff]; apply div_nonpos_of_nonpos_of_nonneg _ hL.le; linarith
  set u : ℝ → ℝ := fun t => if t < L then M * exp (-4 * (L - t) / L) else M with hu
  set d : ℝ → ℝ := fun t => if t < L then 0 else if t < 2 * L then M * (1 - exp (-4 * (t - L) / L)) else M with hdd
  have hum : MonotoneOn u (Ici 0) := by
    intro a _ b _ hab
    simp only [hu]
    split_ifs with h1 h2
    · apply mul_le_mul_of_nonneg_left _ hM.le
      rw [exp_le_exp, div_le_div_iff_of_pos_right hL]
      linarith
    · exact mul_le_of_le_one_right hM.le (hneg _ (by linarith))
    · linarith
    · exact le_rfl
  have hdm : MonotoneOn d (Ici 0) := by
    intro a _ b _ hab
    simp only [hdd]
    split_ifs with h1 h2 h3 h4 h5 h6 h7
    all_goals first | exact le_rfl | linarith | skip
    · exact mul_nonneg hM.le (by linarith [hneg (b - L) (by linarith)])
    · apply mul_le_mul_of_nonneg_left _ hM.le
      have : exp (-4 * (b - L) / L) ≤ exp (-4 * (a - L) / L) := by
        rw [exp_le_exp, div_le_div_iff_of_pos_right hL]; linarith
      linarith
    · exact mul_le_of_le_one_right hM.le (by linarith [exp_pos (-4 * (a - L) / L)])
  have hfud : ∀ t, 0 ≤ t → faculaAreaAt r L t = u t - d t := by
    intro t _
    simp only [faculaAreaAt, hu, hdd]
    by_cases h1 : t < L
    · rw [if_pos (by linarith : t < 2 * L), if_pos h1, if_pos h1, abs_of_neg (by linarith), sub_zero, neg_sub]
    · rw [if_neg h1, if_neg h1]
      by_cases h2 : t < 2 * L
      · rw [if_pos h2, if_pos h2, abs_of_nonneg (by linarith)]; ring
      · rw [if_neg h2, if_neg h2, sub_self]
  have hub : ∀ t, 0 ≤ t → 0 ≤ u t ∧ u t ≤ M := by
    intro t _
    simp only [hu]
    split_ifs with h1
    · exact ⟨by positivity, mul_le_of_le_one_right hM.le (hneg _ (by linarith))⟩
    · exact ⟨hM.le, le_rfl⟩
  have hdb : ∀ t, 0 ≤ t → 0 ≤ d t ∧ d t ≤ M := by
    intro t _
    simp only [hdd]
    split_ifs with h1 h2
    · exact ⟨le_rfl, hM.le⟩
    · exact ⟨mul_nonneg hM.le (by linarith [hneg (t - L) (by linarith)]),
        mul_le_of_le_one_right hM.le (by linarith [exp_pos (-4 * (t - L) / L)])⟩
    · exact ⟨hM.le, le_rfl⟩
  have key := hill_riemann (faculaAreaAt r L) u d M hum hdm hfud hub hdb dt hd N
  have hii : ∀ a b : ℝ, 0 ≤ a → 0 ≤ b → IntervalIntegrable (faculaAreaAt r L) volume a b := by
    intro a b ha hb
    have hsub : uIcc a b ⊆ Ici 0 := fun x hx => (le_min ha hb).trans hx.1
    have i1 : IntervalIntegrable u volume a b := (hum.mono hsub).intervalIntegrable
    have i2 : IntervalIntegrable d volume a b := (hdm.mono hsub).intervalIntegrable
    refine (i1.sub i2).congr fun t ht => ?_
    exact (hfud t (hsub (uIoc_subset_uIcc ht))).symm
  have hfull : ∫ t in (0 : ℝ)..(2 * L), faculaAreaAt r L t = L * (M / 2 * (1 - exp (-4))) := by
    rw [← life_integral hr hL]
    refine intervalIntegral.integral_congr_ae ?_
    have hne : ∀ᵐ t : ℝ, t ≠ 2 * L := by
      rw [ae_iff]; simp
    filter_upwards [hne] with t ht hm
    rw [uIoc_of_le (by linarith)] at hm
    rw [faculaAreaAt, if_pos (lt_of_le_of_ne hm.2 ht)]
  have htail : |(∫ t in (0 : ℝ)..(N * dt), faculaAreaAt r L t) - L * (M / 2 * (1 - exp (-4)))| ≤ M * L ^ 2 / (N * dt) := by
    rw [← hfull, ← intervalIntegral.integral_add_adjacent_intervals (hii 0 (2 * L) le_rfl (by linarith)) (hii (2 * L) (N * dt) (by linarith) hT.le),
      add_sub_cancel_left]
    rcases le_total (N * dt) (2 * L) with h | h
    · have hb : ∀ t ∈ uIoc (2 * L) (N * dt), ‖faculaAreaAt r L t‖ ≤ M := by
        intro t ht
        have h0 : 0 ≤ t := by
          rw [uIoc_comm, uIoc_of_le h] at ht
          exact hT.le.trans ht.1.le
        rw [norm_eq_abs, hfud t h0, abs_le]
        have c1 := hub t h0
        have c2 := hdb t h0
        constructor <;> linarith
      have := intervalIntegral.norm_integral_le_of_norm_le_const hb
      rw [norm_eq_abs] at this
      refine this.trans ?_
      rw [abs_of_nonpos (by linarith), mul_div_assoc]
      apply mul_le_mul_of_nonneg_left _ hM.le
      rw [le_div_iff₀ hT]
      nlinarith [sq_nonneg (L - N * dt)]
    · have : ∫ t in (2 * L)..(N * dt), faculaAreaAt r L t = ∫ t in (2 * L)..(N * dt), (0 : ℝ) := by
        refine intervalIntegral.integral_congr fun t ht => ?_
        rw [uIcc_of_le h] at ht
        rw [faculaAreaAt, if_neg (not_lt.mpr ht.1)]
      rw [this]
      simp only [intervalIntegral.integral_zero, abs_zero]
      positivity
  refine (abs_sub_le _ _ _).trans (add_le_add key htail)

/-! ### A run of the star -/

/-- One step of a run: faculae are born, then the star ages. -/
def Spec.facStep (dt : ℝ) (k : ℕ) (d : (n : ℕ) → FaculaDraws n) : List Op := [.birthFaculae dt k d, .age dt]

theorem facStep_ok (s : Star) (dt x : ℝ) (hx : s.facGen.nExpected dt s.radius = .fin x)
    (hc : comparable s.facGen.grid s.faculae.grid) (hr : 0 < s.facGen.distRPeak) (hl : 0 < s.facGen.distLifePeak) (k : ℕ)
    (d : (n : ℕ) → FaculaDraws n) (hp : Np.poisson (.fin x) k = .ok k) :
    ∃ s', (facStep dt k d).foldlM runOp s = .ok s' ∧ s'.facGen = s.facGen ∧ s'.radius = s.radius ∧ s'.faculae.grid = s.faculae.grid := by
  have hb : s.facGen.birth dt s.radius k d = .ok (s.facGen.generate k (d k)) := by
    unfold FaculaGenerator.birth
    rw [hx, hp]; rfl
  have hadd := (C39_add_faculae_partial s.faculae (s.facGen.generate k (d k))).1 (fun f hf => by
    rw [(generated_facula s.facGen hr hl k (d k) f hf).2.2.1]; exact hc)
  obtain ⟨s₁, h1⟩ : ∃ s₁, runOp s (.birthFaculae dt k d) = .ok s₁ := by
    simp only [runOp, Star.birthFaculae, hb, Except.bind, Star.addFac, hadd, Except.map]
    exact ⟨_, rfl⟩
  obtain ⟨s₂, h2⟩ : ∃ s₂, runOp s₁ (.age dt) = .ok s₂ := ⟨_, rfl⟩
  have f1 := (step_frame h1).1
  have f2 := (step_frame h2).1
  obtain ⟨-, -, g1, -⟩ := faculae_step h1
  obtain ⟨-, -, g2, -⟩ := faculae_step h2
  refine ⟨s₂, ?_, by rw [f2.facGen, f1.facGen], by rw [f2.radius, f1.radius], by rw [g2, g1]⟩
  simp only [facStep, List.foldlM_cons, List.foldlM_nil, h1, h2, bind, Except.bind, pure, Except.pure]

theorem facRun_ok (dt x : ℝ) (k : ℕ → ℕ) (d : ℕ → (n : ℕ) → FaculaDraws n) (js : List ℕ) (s : Star)
    (hx : s.facGen.nExpected dt s.radius = .fin x)
    (hc : comparable s.facGen.grid s.faculae.grid) (hr : 0 < s.facGen.distRPeak) (hl : 0 < s.facGen.distLifePeak)
    (hp : ∀ j ∈ js, Np.poisson (.fin x) (k j) = .ok (k j)) :
    ∃ s', (js.flatMap fun j => facStep dt (k j) (d j)).foldlM runOp s = .ok s' := by
  induction js generalizing s with
  | nil => exact ⟨s, rfl⟩
  | cons j js ih =>
    obtain ⟨s₁, h1, e1, e2, e3⟩ := facStep_ok s dt x hx hc hr hl (k j) (d j) (hp j (by simp))
    obtain ⟨s₂, h2⟩ := ih s₁ (by rw [e1, e2]; exact hx) (by rw [e1, e3]; exact hc) (by rw [e1]; exact hr) (by rw [e1]; exact hl)
      (fun j' hj' => hp j' (by simp [hj']))
    refine ⟨s₂, ?_⟩
    rw [List.flatMap_cons, List.foldlM_append, h1]
    exact h2

theorem ages_run (dt : ℝ) (k : ℕ → ℕ) (d : ℕ → (n : ℕ) → FaculaDraws n) (js : List ℕ) :
    ages (js.flatMap fun j => facStep dt (k j) (d j)) = List.replicate js.length dt := by
  induction js with
  | nil => rfl
  | cons j js ih =>
    rw [List.flatMap_cons]
    simp only [facStep, List.cons_append, List.nil_append, ages, List.length_cons, List.replicate_succ]
    exact congrArg _ ih

theorem sum_filterMap {α β : Type} (h : α → Option β) (φ : β → ℝ≥0∞) (l : List α) :
    ((l.filterMap h).map φ).sum = (l.map fun a => (h a).elim 0 φ).sum := by
  induction l with
  | nil => rfl
  | cons a l ih =>
    rw [List.filterMap_cons]
    cases e : h a with
    | none => simp [e, ih]
    | some b => simp [e, ih]

/-- The sum over the features of a run, step by step. -/
def facSum (Φ : ℝ → ℝ → ℝ≥0∞) (dt : ℝ) (k : ℕ → ℕ) (mu : ℕ → (n : ℕ) → Fin n → ℝ) : List ℕ → ℝ≥0∞
  | [] => 0
  | j :: js => (∑ i : Fin (k j), Φ ((js.length + 1 : ℕ) * dt) (mu j (k j) i)) + facSum Φ dt k mu js

theorem population_sum (s : Star) (dt x : ℝ) (hx : s.facGen.nExpected dt s.radius = .fin x) (k : ℕ → ℕ)
    (d : ℕ → (n : ℕ) → FaculaDraws n) (g : Grid) (φ : Facula → ℝ≥0∞) (Φ : ℝ → ℝ → ℝ≥0∞)
    (hΦ : ∀ (n : ℕ) (e : FaculaDraws n) (i : Fin n) (t : ℝ),
      (faculaLater t { (s.facGen.generate n e)[(i : ℕ)]'(by simp [FaculaGenerator.generate]) with grid := g }).elim 0 φ = Φ t (e.mu i))
    (js : List ℕ) (hp : ∀ j ∈ js, Np.poisson (.fin x) (k j) = .ok (k j)) (newf : List (List Facula))
    (h : List.Forall₂ (faculaeOf s) (js.flatMap fun j => facStep dt (k j) (d j)) newf) :
    ((population faculaLater (js.flatMap fun j => facStep dt (k j) (d j)) (newf.map (faculaeOn g))).map φ).sum =
      facSum Φ dt k (fun j n i => (d j n).mu i) js := by
  induction js generalizing newf with
  | nil => cases h; rfl
  | cons j js ih =>
    have hages := ages_run dt k d js
    rw [List.flatMap_cons] at h ⊢
    rw [show facStep dt (k j) (d j) = [.birthFaculae dt (k j) (d j), .age dt] from rfl] at h ⊢
    simp only [List.cons_append, List.nil_append] at h ⊢
    obtain ⟨new, l', h1, h2, rfl⟩ := List.forall₂_cons_left_iff.mp h
    obtain ⟨new2, rest, h3, h4, rfl⟩ := List.forall₂_cons_left_iff.mp h2
    have hn2 : new2 = [] := h3
    have hn : new = s.facGen.generate (k j) (d j (k j)) := by
      have : s.facGen.birth dt s.radius (k j) (d j) = .ok new := h1
      unfold FaculaGenerator.birth at this
      rw [hx, hp j (by simp)] at this
      simp only [Except.map, Except.ok.injEq] at this
      exact this.symm
    subst hn2 hn
    have ih' := ih (fun j' hj' => hp j' (by simp [hj'])) rest h4
    have hage : ages (Op.age dt :: List.flatMap (fun j => facStep dt (k j) (d j)) js) = dt :: List.replicate js.length dt :=
      congrArg (dt :: ·) hages
    have hsum : (dt :: List.replicate js.length dt).sum = ((js.length + 1 : ℕ) : ℝ) * dt := by
      simp
      ring
    simp only [List.map_cons, population, faculaeOn, List.map_nil, later_nil, List.nil_append]
    rw [List.map_append, List.sum_append, facSum]
    congr 1
    unfold later
    rw [hage, if_neg (by simp), hsum, sum_filterMap, List.map_map]
    rw [show (fun i : Fin (k j) => Φ ((js.length + 1 : ℕ) * dt) ((d j (k j)).mu i)) = _ from funext fun i => (hΦ _ _ i _).symm]
    rw [← List.sum_ofFn]
    congr 1
    apply List.ext_getElem
    · simp [FaculaGenerator.generate]
    · intro n h1 h2
      simp

/-! ### Means over the draws -/

/-- A Poisson number of births with the given mean; every normal draw for size and lifetime is independent of that number (spec of the
numpy generator as far as it matters here). -/
structure Spec.FairLives {Ω : Type*} [MeasurableSpace Ω] (P : Measure Ω) (mean : ℝ) (K : Ω → ℕ) (z : Ω → (n : ℕ) → Fin n → ℝ) : Prop where
  count_measurable : Measurable K
  count : P.map K = poissonMeasure mean.toNNReal
  measurable : ∀ n i, Measurable fun ω => z ω n i
  normal : ∀ n i, P.map (fun ω => z ω n i) = gaussianReal 0 1
  indep : ∀ n i, IndepFun (fun ω => z ω n i) K P

theorem facSum_mean {Ω : Type*} [MeasurableSpace Ω] (P : Measure Ω) (x dt : ℝ) (K : ℕ → Ω → ℕ)
    (z : ℕ → Ω → (n : ℕ) → Fin n → ℝ) (hF : ∀ j, FairLives P x (K j) (z j)) (Φ : ℝ → ℝ → ℝ≥0∞) (hΦ : ∀ t, Measurable (Φ t))
    (js : List ℕ) : Measurable (fun ω => facSum Φ dt (fun j => K j ω) (fun j => z j ω) js) ∧
    ∫⁻ ω, facSum Φ dt (fun j => K j ω) (fun j => z j ω) js ∂P =
      ENNReal.ofReal x * ∑ k ∈ Finset.range js.length, ∫⁻ y, Φ ((k + 1 : ℕ) * dt) y ∂gaussianReal 0 1 := by
  induction js with
  | nil => simp [facSum]
  | cons j js ih =>
    have hm : Measurable fun ω => ∑ i : Fin (K j ω), Φ ((js.length + 1 : ℕ) * dt) (z j ω (K j ω) i) :=
      randomSum_measurable (K j) (hF j).count_measurable (fun n i ω => Φ ((js.length + 1 : ℕ) * dt) (z j ω n i))
        (fun n i => (hΦ _).comp ((hF j).measurable n i))
    refine ⟨hm.add ih.1, ?_⟩
    simp only [facSum]
    rw [lintegral_add_left hm, ih.2]
    have h1 := randomSum_mean P x.toNNReal (K j) (hF j).count_measurable (hF j).count (fun n i ω => z j ω n i) (hF j).measurable
      (gaussianReal 0 1) (hF j).normal (hF j).indep (Φ ((js.length + 1 : ℕ) * dt)) (hΦ _)
    rw [h1, List.length_cons, Finset.sum_range_succ, mul_add, add_comm]
    rfl

theorem normal_exp_integrable (c : ℝ) : Integrable (fun z => exp (c * z)) (gaussianReal 0 1) :=
  integrable_exp_mul_gaussianReal c

theorem normal_exp_integral (c : ℝ) : ∫ z, exp (c * z) ∂gaussianReal 0 1 = exp (c ^ 2 / 2) :=
  normal_exp_mean (gaussianReal 0 1) id Measure.map_id c

/-- A sum of means of non-negative terms. -/
theorem sum_lintegral_ofReal {N : ℕ} (ψ : ℕ → ℝ → ℝ) (hm : ∀ k, Measurable (ψ k)) (h0 : ∀ k z, 0 ≤ ψ k z) (μ : Measure ℝ)
    (hi : Integrable (fun z => ∑ k ∈ Finset.range N, ψ k z) μ) :
    ∑ k ∈ Finset.range N, ∫⁻ z, ENNReal.ofReal (ψ k z) ∂μ = ENNReal.ofReal (∫ z, ∑ k ∈ Finset.range N, ψ k z ∂μ) := by
  rw [ofReal_integral_eq_lintegral_ofReal hi (Filter.Eventually.of_forall fun z => Finset.sum_nonneg fun k _ => h0 k z),
    ← lintegral_finsetSum _ fun k _ => (hm k).ennreal_ofReal]
  refine lintegral_congr fun z => ?_
  rw [ENNReal.ofReal_sum_of_nonneg fun k _ => h0 k z]

/-! ### Faculae of a generator -/

/-- Lifetime for the normal draw `z` (spec). -/
def Spec.lifeOf (G : FaculaGenerator) (z : ℝ) : ℝ := G.distLifePeak * exp (Real.log 10 * G.distLifeLogsigma * z)

/-- Largest radius for the normal draw `z` (spec). -/
def Spec.radiusOf (G : FaculaGenerator) (z : ℝ) : ℝ := G.distRPeak * exp (Real.log 10 * G.distRLogsigma * z)

/-- The area `π r²` of a facula as it is (spec). -/
def Spec.areaNow (f : Facula) : ℝ := match f.radius with | .fin r => π * r ^ 2 | _ => 0

theorem generated_on (G : FaculaGenerator) (hr : 0 < G.distRPeak) (hl : 0 < G.distLifePeak) (g : Grid) (n : ℕ) (e : FaculaDraws n)
    (i : Fin n) (f : Facula) (hf : f = { (G.generate n e)[(i : ℕ)]'(by simp [FaculaGenerator.generate]) with grid := g }) :
    PhysF f (f.rMax * exp (-2)) ∧ f.isGrowing = true ∧ f.rMax = radiusOf G (e.mu i) ∧ f.lifetime = lifeOf G (e.mu i) := by
  obtain ⟨h1, h2, -, -⟩ := generated_facula G hr hl n e ((G.generate n e)[(i : ℕ)]'(by simp [FaculaGenerator.generate])) (List.getElem_mem _)
  subst hf
  refine ⟨⟨h1.radius, h1.pos, h1.le, h1.life⟩, h2, ?_, ?_⟩
  · simp only [FaculaGenerator.generate, List.getElem_ofFn, radiusOf, ten_rpow]
    congr 2; ring
  · simp only [FaculaGenerator.generate, List.getElem_ofFn, lifeOf, ten_rpow]
    congr 2; ring

theorem later_alive (f : Facula) (h : PhysF f (f.rMax * exp (-2))) (hg : f.isGrowing = true) (t : ℝ) :
    (faculaLater t f).elim 0 (fun _ => (1 : ℝ≥0∞)) = ENNReal.ofReal (aliveAt (2 * f.lifetime) t) := by
  have h1 := C105_lifetimes.2 f t h hg
  unfold aliveAt
  cases hf : faculaLater t f with
  | none =>
    rw [hf] at h1
    have : ¬ t < 2 * f.lifetime := fun hc => by simpa using h1.mpr hc
    rw [if_neg this]; simp
  | some f' =>
    rw [hf] at h1
    rw [if_pos (h1.mp rfl)]; simp

theorem later_area (f : Facula) (h : PhysF f (f.rMax * exp (-2))) (hg : f.isGrowing = true) (t : ℝ) :
    (faculaLater t f).elim 0 (fun f => ENNReal.ofReal (areaNow f)) = ENNReal.ofReal (faculaAreaAt f.rMax f.lifetime t) := by
  have hT := newborn_timeLeft h
  have hl := h.life
  rw [timeLeft_eq h] at hT
  unfold faculaLater faculaAreaAt
  rw [h.radius]
  simp only [hg, if_true, hT]
  split_ifs with h1 h2 h3 h4
  · simp only [Option.elim_some, areaNow]
    congr 1
    have e : (f.rMax * exp (-2) * exp (2 * t / f.lifetime)) ^ 2 = f.rMax ^ 2 * exp (-4 * -(t - f.lifetime) / f.lifetime) := by
      rw [mul_pow, mul_pow, ← exp_nat_mul, ← exp_nat_mul, mul_assoc, ← exp_add]
      congr 2
      push_cast; field_simp; ring
    rw [abs_of_neg (by linarith), e, mul_assoc]
  · exfalso; linarith
  · simp only [Option.elim_some, areaNow]
    congr 1
    rw [abs_of_nonneg (by linarith), mul_pow, ← exp_nat_mul, ← mul_assoc]
    congr 2
    push_cast; ring
  · exfalso; linarith
  · exfalso; linarith
  · simp

theorem aliveAt_mem (Λ t : ℝ) : 0 ≤ aliveAt Λ t ∧ aliveAt Λ t ≤ 1 := by
  unfold aliveAt; split_ifs <;> norm_num

theorem life_pow_integral (G : FaculaGenerator) (a b : ℕ) :
    Integrable (fun z => radiusOf G z ^ a * lifeOf G z ^ b) (gaussianReal 0 1) ∧
    ∫ z, radiusOf G z ^ a * lifeOf G z ^ b ∂gaussianReal 0 1 = G.distRPeak ^ a * G.distLifePeak ^ b *
      exp ((Real.log 10 * (a * G.distRLogsigma + b * G.distLifeLogsigma)) ^ 2 / 2) := by
  have e : (fun z => radiusOf G z ^ a * lifeOf G z ^ b) = fun z => G.distRPeak ^ a * G.distLifePeak ^ b *
      exp (Real.log 10 * (a * G.distRLogsigma + b * G.distLifeLogsigma) * z) := by
    funext z
    rw [radiusOf, lifeOf, mul_pow, mul_pow, ← exp_nat_mul, ← exp_nat_mul,
      show Real.log 10 * (a * G.distRLogsigma + b * G.distLifeLogsigma) * z =
        a * (Real.log 10 * G.distRLogsigma * z) + b * (Real.log 10 * G.distLifeLogsigma * z) by ring, exp_add]
    ring
  rw [e]
  exact ⟨(normal_exp_integrable _).const_mul _, by rw [integral_const_mul, normal_exp_integral]⟩

/-- The mean number left of the faculae of a run. -/
theorem mean_alive (G : FaculaGenerator) (hl : 0 < G.distLifePeak) {dt : ℝ} (hd : 0 < dt) {N : ℕ} (hN : 0 < N) :
    ∃ I : ℝ, ∑ k ∈ Finset.range N, ∫⁻ z, ENNReal.ofReal (aliveAt (2 * lifeOf G z) ((k + 1 : ℕ) * dt)) ∂gaussianReal 0 1 = ENNReal.ofReal I ∧
      0 ≤ I ∧ dt * I ≤ 2 * G.distLifePeak * exp ((Real.log 10 * G.distLifeLogsigma) ^ 2 / 2) ∧
      2 * G.distLifePeak * exp ((Real.log 10 * G.distLifeLogsigma) ^ 2 / 2) -
        G.distLifePeak ^ 2 * exp (2 * (Real.log 10 * G.distLifeLogsigma) ^ 2) / (N * dt) - dt ≤ dt * I := by
  have hL : ∀ z, 0 < lifeOf G z := fun z => by unfold lifeOf; positivity
  have hLm : Measurable (lifeOf G) := by unfold lifeOf; fun_prop
  set ψ : ℕ → ℝ → ℝ := fun k z => aliveAt (2 * lifeOf G z) ((k + 1 : ℕ) * dt) with hψ
  have hm : ∀ k, Measurable (ψ k) := by
    intro k
    simp only [hψ, aliveAt]
    exact Measurable.ite (measurableSet_lt measurable_const (hLm.const_mul 2)) measurable_const measurable_const
  have hsum : ∀ z, 2 * lifeOf G z - lifeOf G z ^ 2 / (N * dt) - dt ≤ dt * ∑ k ∈ Finset.range N, ψ k z ∧
      dt * ∑ k ∈ Finset.range N, ψ k z ≤ 2 * lifeOf G z := by
    intro z
    have := alive_sum (Λ := 2 * lifeOf G z) (by linarith [hL z]) hd hN
    rw [show (2 * lifeOf G z) ^ 2 / (4 * (N * dt)) = lifeOf G z ^ 2 / (N * dt) by
      rw [mul_pow, show (2 : ℝ) ^ 2 = 4 by norm_num, mul_div_mul_left _ _ (by norm_num)]] at this
    exact this
  obtain ⟨i1, e1⟩ := life_pow_integral G 0 1
  obtain ⟨i2, e2⟩ := life_pow_integral G 0 2
  simp only [pow_zero, pow_one, one_mul, Nat.cast_zero, zero_mul, zero_add, Nat.cast_one] at i1 e1 i2 e2
  have hi : Integrable (fun z => ∑ k ∈ Finset.range N, ψ k z) (gaussianReal 0 1) := by
    refine Integrable.of_bound (C := N) (Finset.measurable_sum _ fun k _ => hm k).aestronglyMeasurable (Filter.Eventually.of_forall fun z => ?_)
    rw [norm_eq_abs, abs_of_nonneg (Finset.sum_nonneg fun k _ => (aliveAt_mem _ _).1)]
    calc ∑ k ∈ Finset.range N, ψ k z ≤ ∑ k ∈ Finset.range N, (1 : ℝ) := Finset.sum_le_sum fun k _ => (aliveAt_mem _ _).2
      _ = N := by simp
  refine ⟨∫ z, ∑ k ∈ Finset.range N, ψ k z ∂gaussianReal 0 1, sum_lintegral_ofReal ψ hm (fun k z => (aliveAt_mem _ _).1) _ hi,
    integral_nonneg fun z => Finset.sum_nonneg fun k _ => (aliveAt_mem _ _).1, ?_, ?_⟩
  · rw [mul_assoc, ← e1, ← integral_const_mul, ← integral_const_mul]
    exact integral_mono (hi.const_mul _) (i1.const_mul _) fun z => (hsum z).2
  · have e3 : 2 * G.distLifePeak * exp ((Real.log 10 * G.distLifeLogsigma) ^ 2 / 2) -
        G.distLifePeak ^ 2 * exp (2 * (Real.log 10 * G.distLifeLogsigma) ^ 2) / (N * dt) - dt =
        ∫ z, (2 * lifeOf G z - lifeOf G z ^ 2 / (N * dt) - dt) ∂gaussianReal 0 1 := by
      have j1 : Integrable (fun z => 2 * lifeOf G z) (gaussianReal 0 1) := i1.const_mul 2
      have j2 : Integrable (fun z => lifeOf G z ^ 2 / (N * dt)) (gaussianReal 0 1) := i2.div_const _
      have j3 : Integrable (fun z => 2 * lifeOf G z - lifeOf G z ^ 2 / (N * dt)) (gaussianReal 0 1) := j1.sub j2
      rw [integral_sub j3 (integrable_const _), integral_sub j1 j2, integral_const_mul, integral_div, e1, e2]
      simp only [integral_const, probReal_univ, smul_eq_mul, one_mul]
      rw [show (Real.log 10 * (((2 : ℕ) : ℝ) * G.distLifeLogsigma)) ^ 2 / 2 = 2 * (Real.log 10 * G.distLifeLogsigma) ^ 2 by push_cast; ring]
      ring
    rw [e3, ← integral_const_mul]
    exact integral_mono (((i1.const_mul 2).sub (i2.div_const _)).sub (integrable_const _)) (hi.const_mul _) fun z => (hsum z).1

/-- The mean area left of the faculae of a run. -/
theorem mean_area_left (G : FaculaGenerator) (hr : 0 < G.distRPeak) (hl : 0 < G.distLifePeak) {dt : ℝ} (hd : 0 < dt) {N : ℕ} (hN : 0 < N) :
    ∃ I : ℝ, ∑ k ∈ Finset.range N, ∫⁻ z, ENNReal.ofReal (faculaAreaAt (radiusOf G z) (lifeOf G z) ((k + 1 : ℕ) * dt)) ∂gaussianReal 0 1 =
        ENNReal.ofReal I ∧ 0 ≤ I ∧
      |dt * I - π / 2 * (1 - exp (-4)) * (G.distRPeak ^ 2 * G.distLifePeak *
          exp ((Real.log 10 * (2 * G.distRLogsigma + G.distLifeLogsigma)) ^ 2 / 2))| ≤
        π * G.distRPeak ^ 2 * (exp (2 * (Real.log 10 * G.distRLogsigma) ^ 2) * dt +
          G.distLifePeak ^ 2 * exp (2 * (Real.log 10 * (G.distRLogsigma + G.distLifeLogsigma)) ^ 2) / (N * dt)) := by
  have hp := pi_pos
  have hL : ∀ z, 0 < lifeOf G z := fun z => by unfold lifeOf; positivity
  have hR : ∀ z, 0 < radiusOf G z := fun z => by unfold radiusOf; positivity
  have hLm : Measurable (lifeOf G) := by unfold lifeOf; fun_prop
  have hRm : Measurable (radiusOf G) := by unfold radiusOf; fun_prop
  set ψ : ℕ → ℝ → ℝ := fun k z => faculaAreaAt (radiusOf G z) (lifeOf G z) ((k + 1 : ℕ) * dt) with hψ
  have hm : ∀ k, Measurable (ψ k) := by
    intro k
    simp only [hψ, faculaAreaAt]
    refine Measurable.ite (measurableSet_lt measurable_const (hLm.const_mul 2)) ?_ measurable_const
    fun_prop
  have h0 : ∀ k z, 0 ≤ ψ k z := by
    intro k z
    simp only [hψ, faculaAreaAt]
    split_ifs
    · positivity
    · exact le_rfl
  have hb : ∀ k z, ψ k z ≤ π * radiusOf G z ^ 2 := by
    intro k z
    simp only [hψ, faculaAreaAt]
    split_ifs
    · refine mul_le_of_le_one_right (by positivity) ?_
      rw [exp_le_one_iff]
      exact div_nonpos_of_nonpos_of_nonneg (by linarith [abs_nonneg (((k + 1 : ℕ) : ℝ) * dt - lifeOf G z)]) (hL z).le
    · positivity
  obtain ⟨i1, e1⟩ := life_pow_integral G 2 1
  obtain ⟨i2, e2⟩ := life_pow_integral G 2 0
  obtain ⟨i3, e3⟩ := life_pow_integral G 2 2
  simp only [pow_zero, pow_one, mul_one, Nat.cast_zero, zero_mul, add_zero, Nat.cast_one, one_mul, Nat.cast_ofNat] at i1 e1 i2 e2 i3 e3
  have hi : Integrable (fun z => ∑ k ∈ Finset.range N, ψ k z) (gaussianReal 0 1) := by
    refine ((i2.const_mul π).const_mul (N : ℝ)).mono' (Finset.measurable_sum _ fun k _ => hm k).aestronglyMeasurable
      (Filter.Eventually.of_forall fun z => ?_)
    rw [norm_eq_abs, abs_of_nonneg (Finset.sum_nonneg fun k _ => h0 k z)]
    calc ∑ k ∈ Finset.range N, ψ k z ≤ ∑ k ∈ Finset.range N, π * radiusOf G z ^ 2 := Finset.sum_le_sum fun k _ => hb k z
      _ = N * (π * radiusOf G z ^ 2) := by simp
  have hsum : ∀ z, |dt * ∑ k ∈ Finset.range N, ψ k z - π / 2 * (1 - exp (-4)) * (radiusOf G z ^ 2 * lifeOf G z)| ≤
      π * dt * radiusOf G z ^ 2 + π / (N * dt) * (radiusOf G z ^ 2 * lifeOf G z ^ 2) := by
    intro z
    have := area_sum (hR z) (hL z) hd hN
    rw [show lifeOf G z * (π * radiusOf G z ^ 2 / 2 * (1 - exp (-4))) = π / 2 * (1 - exp (-4)) * (radiusOf G z ^ 2 * lifeOf G z) by ring,
      show π * radiusOf G z ^ 2 * dt + π * radiusOf G z ^ 2 * lifeOf G z ^ 2 / (N * dt) =
        π * dt * radiusOf G z ^ 2 + π / (N * dt) * (radiusOf G z ^ 2 * lifeOf G z ^ 2) by ring] at this
    exact this
  refine ⟨∫ z, ∑ k ∈ Finset.range N, ψ k z ∂gaussianReal 0 1, sum_lintegral_ofReal ψ hm h0 _ hi,
    integral_nonneg fun z => Finset.sum_nonneg fun k _ => h0 k z, ?_⟩
  have a1 : π / 2 * (1 - exp (-4)) * (G.distRPeak ^ 2 * G.distLifePeak *
      exp ((Real.log 10 * (2 * G.distRLogsigma + G.distLifeLogsigma)) ^ 2 / 2)) =
      ∫ z, π / 2 * (1 - exp (-4)) * (radiusOf G z ^ 2 * lifeOf G z) ∂gaussianReal 0 1 := by
    rw [integral_const_mul, e1]
  have a2 : π * G.distRPeak ^ 2 * (exp (2 * (Real.log 10 * G.distRLogsigma) ^ 2) * dt +
          G.distLifePeak ^ 2 * exp (2 * (Real.log 10 * (G.distRLogsigma + G.distLifeLogsigma)) ^ 2) / (N * dt)) =
      ∫ z, (π * dt * radiusOf G z ^ 2 + π / (N * dt) * (radiusOf G z ^ 2 * lifeOf G z ^ 2)) ∂gaussianReal 0 1 := by
    rw [integral_add (i2.const_mul _) (i3.const_mul _), integral_const_mul, integral_const_mul, e2, e3,
      show (Real.log 10 * (2 * G.distRLogsigma)) ^ 2 / 2 = 2 * (Real.log 10 * G.distRLogsigma) ^ 2 by ring,
      show (Real.log 10 * (2 * G.distRLogsigma + 2 * G.distLifeLogsigma)) ^ 2 / 2 =
        2 * (Real.log 10 * (G.distRLogsigma + G.distLifeLogsigma)) ^ 2 by ring]
    ring
  rw [a1, a2, ← integral_const_mul, ← integral_sub (hi.const_mul _) (i1.const_mul _)]
  refine (abs_integral_le_integral_abs).trans ?_
  exact integral_mono ((hi.const_mul _).sub (i1.const_mul _)).abs ((i2.const_mul _).add (i3.const_mul _)) hsum

/-- **C120** The settled population of faculae.  A star without faculae goes through `N` steps of length `dt`, in each of which
faculae are born for the time `dt` and the star ages by `dt`.  The run succeeds almost surely.  With `n = coverage·4πR²/mean_area`
the mean number of faculae at the end is at most `n·exp((s σ_l)²/2)`, `s = ln 10`, and at most `n·L/(2T)·exp(2(s σ_l)²) + x` less, where `T = N dt`, `L` is
the peak lifetime and `x` the expected number of births per step.  The mean of their total area `Σ π r²` is
`coverage·4πR²·(1+e⁻²)/2·exp((s(2σ_r+σ_l))²/2)` up to `π r_0²(x·exp(2(sσ_r)²) + n·L/(2T)·exp(2(s(σ_r+σ_l))²))`. -/
theorem C120_settled_faculae {Ω : Type*} [MeasurableSpace Ω] (P : Measure Ω) (s₀ : Star) (hg : GoodGens s₀) (h₀ : SoundStar s₀)
    (hf : s₀.faculae.faculae = []) (hcmp : comparable s₀.facGen.grid s₀.faculae.grid) (hc : 0 ≤ s₀.facGen.coverage)
    (dt : ℝ) (hd : 0 < dt) (N : ℕ) (hN : 0 < N) :
    ∃ x n : ℝ, s₀.facGen.nExpected dt s₀.radius = .fin x ∧ n * s₀.facGen.meanArea = s₀.facGen.coverage * (4 * π * s₀.radius ^ 2) ∧
      ∀ (K : ℕ → Ω → ℕ) (D : ℕ → Ω → (n : ℕ) → FaculaDraws n),
      (∀ j, FairLives P x (K j) fun ω n i => (D j ω n).mu i) →
      ∃ (S : Ω → Star) (M A : ℝ),
        (∀ᵐ ω ∂P, ((List.range N).flatMap fun j => [Op.birthFaculae dt (K j ω) (D j ω), Op.age dt]).foldlM runOp s₀ = .ok (S ω)) ∧
        ∫⁻ ω, ((S ω).faculae.faculae.length : ℝ≥0∞) ∂P = ENNReal.ofReal M ∧
        ∫⁻ ω, (((S ω).faculae.faculae.map fun f => ENNReal.ofReal (areaNow f)).sum) ∂P = ENNReal.ofReal A ∧ 0 ≤ M ∧ 0 ≤ A ∧
        M ≤ n * exp ((Real.log 10 * s₀.facGen.distLifeLogsigma) ^ 2 / 2) ∧
        n * exp ((Real.log 10 * s₀.facGen.distLifeLogsigma) ^ 2 / 2) -
          (n * (s₀.facGen.distLifePeak / (2 * (N * dt))) * exp (2 * (Real.log 10 * s₀.facGen.distLifeLogsigma) ^ 2) + x) ≤ M ∧
        |A - s₀.facGen.coverage * (4 * π * s₀.radius ^ 2) * ((1 + exp (-2)) / 2 *
            exp ((Real.log 10 * (2 * s₀.facGen.distRLogsigma + s₀.facGen.distLifeLogsigma)) ^ 2 / 2))| ≤
          π * s₀.facGen.distRPeak ^ 2 * (x * exp (2 * (Real.log 10 * s₀.facGen.distRLogsigma) ^ 2) +
            n * (s₀.facGen.distLifePeak / (2 * (N * dt))) *
              exp (2 * (Real.log 10 * (s₀.facGen.distRLogsigma + s₀.facGen.distLifeLogsigma)) ^ 2)) := by
  have hp := pi_pos
  set G := s₀.facGen with hG
  have hr : 0 < G.distRPeak := hg.rpeak
  have hl : 0 < G.distLifePeak := hg.life
  obtain ⟨⟨rate, b1, b2, b3, -⟩, -⟩ := C38_births_balance G hr hl hc s₀.radius
  set x := rate dt with hx
  have hx0 : 0 ≤ x := b3 dt hd.le
  have hxe : G.nExpected dt s₀.radius = .fin x := b1 dt
  have hn : x / dt * (2 * G.distLifePeak) * G.meanArea = G.coverage * (4 * π * s₀.radius ^ 2) := by
    rw [show x / dt * (2 * G.distLifePeak) * G.meanArea = x * (2 * G.distLifePeak) * G.meanArea / dt by ring, hx, b2 dt]
    field_simp
  refine ⟨x, x / dt * (2 * G.distLifePeak), hxe, hn, fun K D hF => ?_⟩
  have hpo : ∀ᵐ ω ∂P, ∀ j, Np.poisson (.fin x) (K j ω) = .ok (K j ω) := by
    rw [ae_all_iff]
    exact fun j => poisson_ok P x hx0 (K j) (hF j).count_measurable (hF j).count
  have hrun : ∀ ω, ∃ S, (∀ j, Np.poisson (.fin x) (K j ω) = .ok (K j ω)) →
      ((List.range N).flatMap fun j => facStep dt (K j ω) (D j ω)).foldlM runOp s₀ = .ok S := by
    intro ω
    by_cases h : ∀ j, Np.poisson (.fin x) (K j ω) = .ok (K j ω)
    · obtain ⟨S, hS⟩ := facRun_ok dt x (fun j => K j ω) (fun j => D j ω) (List.range N) s₀ hxe hcmp hr hl (fun j _ => h j)
      exact ⟨S, fun _ => hS⟩
    · exact ⟨s₀, fun h' => absurd h' h⟩
  choose S hS using hrun
  have hsum : ∀ (φ : Facula → ℝ≥0∞) (Φ : ℝ → ℝ → ℝ≥0∞), (∀ t, Measurable (Φ t)) → (∀ (n : ℕ) (e : FaculaDraws n) (i : Fin n) (t : ℝ),
      (faculaLater t { (G.generate n e)[(i : ℕ)]'(by simp [FaculaGenerator.generate]) with grid := s₀.faculae.grid }).elim 0 φ = Φ t (e.mu i)) →
      ∫⁻ ω, (((S ω).faculae.faculae.map φ).sum) ∂P =
        ENNReal.ofReal x * ∑ k ∈ Finset.range N, ∫⁻ y, Φ ((k + 1 : ℕ) * dt) y ∂gaussianReal 0 1 := by
    intro φ Φ hm hΦ
    have h1 := (facSum_mean P x dt K (fun j ω n i => (D j ω n).mu i) hF Φ hm (List.range N)).2
    rw [List.length_range] at h1
    rw [← h1]
    refine lintegral_congr_ae ?_
    filter_upwards [hpo] with ω hω
    have hop : ∀ op ∈ ((List.range N).flatMap fun j => facStep dt (K j ω) (D j ω)), Sane op := by
      intro op hop
      obtain ⟨j, -, hj⟩ := List.mem_flatMap.mp hop
      simp only [facStep, List.mem_cons, List.not_mem_nil, or_false] at hj
      rcases hj with rfl | rfl
      · trivial
      · exact hd.le
    obtain ⟨-, newf, k1, k2⟩ := C105_population s₀ (S ω) _ hg h₀ hop (hS ω hω)
    rw [k2, hf, later_nil, List.nil_append]
    exact population_sum s₀ dt x hxe (fun j => K j ω) (fun j => D j ω) s₀.faculae.grid φ Φ hΦ (List.range N) (fun j _ => hω j) newf k1
  obtain ⟨I, m1, m2, m3, m4⟩ := mean_alive G hl hd hN
  obtain ⟨J, a1, a2, a3⟩ := mean_area_left G hr hl hd hN
  have hLm : Measurable (lifeOf G) := by unfold lifeOf; fun_prop
  have hRm : Measurable (radiusOf G) := by unfold radiusOf; fun_prop
  have hcount : ∫⁻ ω, ((S ω).faculae.faculae.length : ℝ≥0∞) ∂P = ENNReal.ofReal (x * I) := by
    have := hsum (fun _ => 1) (fun t z => ENNReal.ofReal (aliveAt (2 * lifeOf G z) t))
      (fun t => by
        refine Measurable.ennreal_ofReal ?_
        unfold aliveAt
        exact Measurable.ite (measurableSet_lt measurable_const (hLm.const_mul 2)) measurable_const measurable_const)
      (fun n e i t => by
        obtain ⟨c1, c2, -, c4⟩ := generated_on G hr hl s₀.faculae.grid n e i _ rfl
        rw [later_alive _ c1 c2, c4])
    rw [m1, ← ENNReal.ofReal_mul hx0] at this
    rw [← this]
    refine lintegral_congr fun ω => ?_
    simp
  have harea : ∫⁻ ω, (((S ω).faculae.faculae.map fun f => ENNReal.ofReal (areaNow f)).sum) ∂P = ENNReal.ofReal (x * J) := by
    have := hsum (fun f => ENNReal.ofReal (areaNow f)) (fun t z => ENNReal.ofReal (faculaAreaAt (radiusOf G z) (lifeOf G z) t))
      (fun t => by
        refine Measurable.ennreal_ofReal ?_
        unfold faculaAreaAt
        refine Measurable.ite (measurableSet_lt measurable_const (hLm.const_mul 2)) ?_ measurable_const
        fun_prop)
      (fun n e i t => by
        obtain ⟨c1, c2, c3, c4⟩ := generated_on G hr hl s₀.faculae.grid n e i _ rfl
        rw [later_area _ c1 c2, c3, c4])
    rw [a1, ← ENNReal.ofReal_mul hx0] at this
    exact this
  have hxd : 0 ≤ x / dt := by positivity
  have hN0 : (0 : ℝ) < N := by exact_mod_cast hN
  refine ⟨S, x * I, x * J, ?_, hcount, harea, by positivity, by positivity, ?_, ?_, ?_⟩
  · filter_upwards [hpo] with ω hω
    exact hS ω hω
  · have := mul_le_mul_of_nonneg_left m3 hxd
    rw [show x / dt * (dt * I) = x * I by field_simp] at this
    linarith
  · have := mul_le_mul_of_nonneg_left m4 hxd
    rw [show x / dt * (dt * I) = x * I by field_simp] at this
    refine le_trans (le_of_eq ?_) this
    field_simp
    ring
  · have h1 := mul_le_mul_of_nonneg_left a3 hxd
    rw [← abs_of_nonneg hxd, ← abs_mul, abs_of_nonneg hxd, mul_sub, show x / dt * (dt * J) = x * J by field_simp] at h1
    have e1 : Real.exp 1 ^ (-2 : ℤ) = exp (-2) := by rw [zpow_neg, exp_neg, zpow_ofNat, ← exp_nat_mul]; norm_num
    have e2 : exp (-4) = exp (-2) * exp (-2) := by rw [← exp_add]; norm_num
    rw [← hn]
    have e3 : x / dt * (2 * G.distLifePeak) * G.meanArea * ((1 + exp (-2)) / 2 *
        exp ((Real.log 10 * (2 * G.distRLogsigma + G.distLifeLogsigma)) ^ 2 / 2)) = x / dt * (π / 2 * (1 - exp (-4)) * (G.distRPeak ^ 2 *
        G.distLifePeak * exp ((Real.log 10 * (2 * G.distRLogsigma + G.distLifeLogsigma)) ^ 2 / 2))) := by
      unfold FaculaGenerator.meanArea
      rw [e1, e2]
      ring
    rw [e3]
    refine h1.trans (le_of_eq ?_)
    field_simp

/-! ### Example -/

/-- A probability space for the draws: one count and one normal number for each step. -/
def livesSpace (mean : ℝ) : Measure (ℕ × ℝ) := (poissonMeasure mean.toNNReal).prod (gaussianReal 0 1)

theorem livesSpace_fair (mean : ℝ) : FairLives (livesSpace mean) mean Prod.fst fun ω _ _ => ω.2 := by
  refine ⟨measurable_fst, Measure.fst_prod, fun _ _ => measurable_snd, fun _ _ => Measure.snd_prod, fun n i => ?_⟩
  exact (indepFun_prod (X := fun k : ℕ => k) (Y := fun x : ℝ => x) measurable_id measurable_id).symm

/-- A star of radius 1000 km on which faculae of radius 100 km that grow for 6 hours and shrink for 6 hours are to cover a tenth of
the surface. -/
def faculaeStar : Star :=
  { busyStar with radius := 1000, faculae := ⟨[], .rect 3 4⟩, spots := .new [] (.rect 3 4), facGen := { FaculaGenerator.off (.rect 3 4) with coverage := 0.1, distRLogsigma := 0, distLifeLogsigma := 0 } }

/-- Non-trivial instance of C120: after a thousand hours of hourly steps the mean number of faculae is between 91 and 100 per cent
of `n = coverage·4πR²/mean_area`. -/
example : ∃ (n : ℝ) (P : Measure (ℕ × ℝ)) (K : ℕ → ℕ × ℝ → ℕ) (D : ℕ → ℕ × ℝ → (n : ℕ) → FaculaDraws n) (S : ℕ × ℝ → Star) (M : ℝ),
    IsProbabilityMeasure P ∧ 89 < n ∧ n < 95 ∧
    (∀ᵐ ω ∂P, ((List.range 1000).flatMap fun j => [Op.birthFaculae (1 / 24) (K j ω) (D j ω), Op.age (1 / 24)]).foldlM runOp faculaeStar = .ok (S ω)) ∧
    ∫⁻ ω, ((S ω).faculae.faculae.length : ℝ≥0∞) ∂P = ENNReal.ofReal M ∧ 0.91 * n ≤ M ∧ M ≤ n := by
  have hp := pi_pos
  have hgood : GoodGens faculaeStar := by
    refine ⟨?_, ?_, ?_, ?_, ?_, ?_, ?_⟩ <;> norm_num [faculaeStar, busyStar, sampleStar, FaculaGenerator.off]
  have hstar : SoundStar faculaeStar := by
    refine ⟨?_, ?_⟩ <;> simp [faculaeStar, SpotCollection.new, SpotCollection.setGridmaker]
  obtain ⟨x, n, hx, hn, h⟩ := C120_settled_faculae (livesSpace ((faculaeStar.facGen.coverage * (4 * π * faculaeStar.radius ^ 2) / faculaeStar.facGen.meanArea) / 12))
    faculaeStar hgood hstar rfl trivial (by norm_num [faculaeStar]) (1 / 24) (by norm_num) 1000 (by norm_num)
  have hm : 0 < faculaeStar.facGen.meanArea := by
    unfold FaculaGenerator.meanArea
    have : Real.exp 1 ^ (-2 : ℤ) < 1 := by
      rw [zpow_neg, zpow_ofNat]
      refine inv_lt_one_of_one_lt₀ ?_
      nlinarith [Real.exp_one_gt_d9]
    have h2 : 0 < faculaeStar.facGen.distRPeak := hgood.rpeak
    have : 0 < 1 - Real.exp 1 ^ (-2 : ℤ) := by linarith
    positivity
  have hn' : n = faculaeStar.facGen.coverage * (4 * π * faculaeStar.radius ^ 2) / faculaeStar.facGen.meanArea := by
    rw [← hn]; field_simp
  have hx' : x = n / 12 := by
    unfold FaculaGenerator.nExpected at hx
    rw [Fl.fin_div hm.ne', Fl.fin_mul, Fl.fin_div (by norm_num [faculaeStar, FaculaGenerator.off]), Fl.fin_inj] at hx
    rw [← hx, hn']
    norm_num [faculaeStar, FaculaGenerator.off]
    ring
  have hnv : n * (1 - Real.exp 1 ^ (-2 : ℤ)) = 80 := by
    have : n * (0.5 * π * (1 - Real.exp 1 ^ (-2 : ℤ)) * (100 : ℝ) ^ 2) = 0.1 * (4 * π * (1000 : ℝ) ^ 2) := hn
    have h3 : π * (n * (1 - Real.exp 1 ^ (-2 : ℤ))) = π * 80 := by linarith
    exact mul_left_cancel₀ hp.ne' h3
  have he : 0.11 < Real.exp 1 ^ (-2 : ℤ) ∧ Real.exp 1 ^ (-2 : ℤ) < 0.15 := by
    have h1 := Real.exp_one_gt_d9
    have h2 := Real.exp_one_lt_d9
    rw [zpow_neg, zpow_ofNat]
    constructor
    · rw [lt_inv_comm₀ (by norm_num) (by positivity)]; nlinarith
    · rw [inv_lt_comm₀ (by positivity) (by norm_num)]; nlinarith
  rw [← hn'] at h
  have hn1 : 80 < n := by nlinarith
  have hn2 : n < 95 := by nlinarith
  have hn3 : 89 < n := by nlinarith
  obtain ⟨S, M, A, h1, h2, -, -, -, h3, h4, -⟩ := h (fun _ => Prod.fst) (fun _ ω n => ⟨fun _ => ω.2, fun _ => unitDraw 0, fun _ => unitDraw 0⟩)
    (fun j => by rw [hx']; exact livesSpace_fair _)
  refine ⟨n, livesSpace (n / 12), _, _, S, M, by unfold livesSpace; infer_instance, hn3, hn2, h1, h2, ?_, ?_⟩
  · refine le_trans ?_ h4
    have e1 : faculaeStar.facGen.distLifeLogsigma = 0 := rfl
    have e2 : faculaeStar.facGen.distLifePeak = 6 / 24 := rfl
    rw [e1, e2, hx']
    norm_num
    linarith
  · refine h3.trans (le_of_eq ?_)
    rw [show faculaeStar.facGen.distLifeLogsigma = 0 from rfl]
    norm_num

end Vsm
