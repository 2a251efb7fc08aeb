import Verif.Props.FaculaGeom
import Verif.Props.FaculaAge
import Verif.Props.Ties
import Verif.Tests.Spots
import Mathlib.Analysis.Real.Pi.Bounds

/-!
# The project's own tests as statements about the model

Mirrors test/test_faculae.py; see DESIGN.md, section 5, for what is left out.
-/

noncomputable section
namespace Vsm
namespace Tests
open Real Np Spec

/-- `init_facula()` (test_faculae.py:13-33); the lifetime is 10 hours. -/
def initFacula : Facula :=
  { lat := Grid.deg 0, lon := Grid.deg 0, rMax := 300, radius := .fin 100, depth := 100, lifetime := 10 / 24, floorSlope := 0, floorMinRad := 10
    floorBase := 100, wallSlope := 0, wallIntercept := 0, isGrowing := true, grid := .rect 300 600 }

/-- The facula of `test_facula_age`. -/
def ageFacula (r : ℝ) (growing : Bool) : Facula := { initFacula with rMax := 100, radius := .fin r, isGrowing := growing }

theorem ageFacula_phys {r : ℝ} (b : Bool) (h0 : 0 < r) (h1 : r ≤ 100) : PhysF (ageFacula r b) r := ⟨rfl, h0, h1, by simp [ageFacula, initFacula]⟩

theorem age_up : (ageFacula (100 / exp 1) true).age (10 / 24 * 0.5) = ageFacula 100 false := by
  have he : (1 : ℝ) < exp 1 := by simp
  have ht : timeLeft 100 (100 / exp 1) (10 / 24) = 10 / 24 * 0.5 := by
    unfold timeLeft
    rw [div_div_cancel_left' (by norm_num), log_inv, log_exp]; norm_num
  rw [facula_grow (ageFacula_phys true (by positivity) (by rw [div_le_iff₀ (by positivity)]; linarith)) rfl, if_pos]
  · show Facula.mk .. = _
    simp only [ageFacula, initFacula, ht, sub_self]
    simp
  · show timeLeft 100 (100 / exp 1) (10 / 24) ≤ _
    rw [ht]

theorem age_down (r : ℝ) (h0 : 0 < r) (h1 : r ≤ 100) : (ageFacula r false).age (10 / 24 * 0.5) = ageFacula (r / exp 1) false := by
  rw [facula_decay (ageFacula_phys false h0 h1) rfl]
  simp only [ageFacula, initFacula]
  rw [show (-2 * (10 / 24 * 0.5) / (10 / 24) : ℝ) = -1 by norm_num, exp_neg]; rfl

/-- `test_facula_age` (test_faculae.py:46-58). -/
example : let f1 := (ageFacula (100 / exp 1) true).age (10 / 24 * 0.5); f1.radius = .fin 100 ∧ f1.isGrowing = false ∧
    (f1.age (10 / 24 * 0.5)).radius = .fin (100 / exp 1) := by
  simp only [age_up, age_down 100 (by norm_num) le_rfl]
  exact ⟨rfl, rfl, rfl⟩

/-- The facula of `test_facula_effective_area`. -/
def areaFacula (depth minRad : ℝ) : Facula := { initFacula with floorBase := -200, wallIntercept := 300, depth := depth, floorMinRad := minRad }

theorem areaFacula_keys (d m : ℝ) : wallKey (areaFacula d m) 100 = 300 ∧ floorKey (areaFacula d m) 100 = -200 := by
  constructor
  · have := Np.roundHalfEven_int 300
    simpa [wallKey, areaFacula, initFacula] using this
  · have := Np.roundHalfEven_int (-200)
    simpa [floorKey, areaFacula, initFacula] using this

theorem areaFacula_eq (d m : ℝ) {θ : ℝ} (h0 : 0 ≤ θ) (h1 : θ < π / 2) : (areaFacula d m).effectiveArea (.fin θ) =
    .ok [(300, .fin (wallShare (areaFacula d m) 100 θ * (π * 100 ^ 2 * cos θ))), (-200, .fin ((1 - wallShare (areaFacula d m) 100 θ) * (π * 100 ^ 2 * cos θ)))] := by
  obtain ⟨k1, k2⟩ := areaFacula_keys d m
  have hk : wallKey (areaFacula d m) 100 ≠ floorKey (areaFacula d m) 100 := by rw [k1, k2]; norm_num
  rw [effectiveArea_two rfl (by norm_num) (keys_ne_dteff hk) h0 h1, twoKeys_eq rfl hk, k1, k2]

theorem share_eq (d : ℝ) (θ : ℝ) : wallShare (areaFacula d 10) 100 θ = 1 - overlap ⟨d / 100 * tan θ, 0⟩ 1 / (π * 1 ^ 2) := by
  unfold wallShare
  rw [if_neg]; · rfl
  show ¬ (100 : ℝ) < 10
  norm_num

theorem norm_mk (x : ℝ) : ‖(⟨x, 0⟩ : ℂ)‖ = |x| := by
  rw [show (⟨x, 0⟩ : ℂ) = (x : ℂ) from rfl, Complex.norm_real, norm_eq_abs]

theorem deg5 : Grid.deg 5 = π / 36 ∧ 0 ≤ Grid.deg 5 ∧ Grid.deg 5 < π / 2 := by
  have := pi_pos
  unfold Grid.deg
  refine ⟨by ring, by positivity, by linarith⟩

theorem deg6 : Grid.deg 6 = π / 30 ∧ 0 ≤ Grid.deg 6 ∧ Grid.deg 6 < π / 2 := by
  have := pi_pos
  unfold Grid.deg
  refine ⟨by ring, by positivity, by linarith⟩

/-- `test_facula_effective_area` (test_faculae.py:60-88), the flat cold and the flat hot facula. -/
example : (areaFacula 0 10).effectiveArea (.fin (Grid.deg 0)) = .ok [(300, .fin 0), (-200, .fin (π * 100 ^ 2))] ∧
    (areaFacula 0 10).effectiveArea (.fin (Grid.deg 5)) = .ok [(300, .fin 0), (-200, .fin (π * 100 ^ 2 * cos (Grid.deg 5)))] ∧
    (areaFacula 1e9 10).effectiveArea (.fin (Grid.deg 5)) = .ok [(300, .fin (π * 100 ^ 2 * cos (Grid.deg 5))), (-200, .fin 0)] := by
  have hp := pi_pos
  have hp3 := pi_gt_three
  have flat : ∀ θ, wallShare (areaFacula 0 10) 100 θ = 0 := by
    intro θ
    rw [share_eq, overlap_inside zero_le_one (by rw [norm_mk]; simp), div_self (by positivity)]; norm_num
  obtain ⟨e5, a5, b5⟩ := deg5
  refine ⟨?_, ?_, ?_⟩
  · rw [areaFacula_eq 0 10 (by simp [Grid.deg]) (by simp [Grid.deg, hp]), flat]; simp [Grid.deg]
  · rw [areaFacula_eq 0 10 a5 b5, flat]; simp
  · have : wallShare (areaFacula 1e9 10) 100 (Grid.deg 5) = 1 := by
      rw [share_eq, overlap_disjoint]
      · simp
      · rw [norm_mk]
        have ht : Grid.deg 5 < tan (Grid.deg 5) := lt_tan (by rw [e5]; positivity) b5
        rw [abs_of_nonneg (by have : 0 < tan (Grid.deg 5) := lt_of_le_of_lt a5 ht; positivity)]
        rw [e5] at ht ⊢
        linarith
    rw [areaFacula_eq 1e9 10 a5 b5, this]; simp

/-- Area that two unit disks at distance `x` do not share. -/
theorem unshared {x : ℝ} (h0 : 0 < x) (h1 : x ≤ 0.2) : π - overlap ⟨x, 0⟩ 1 = 2 * (arcsin (x / 2) + x / 2 * √(1 - (x / 2) ^ 2)) := by
  have hl := volume_lens (d := x) (r := 1) one_pos h0 (by linarith) (by linarith) (by linarith)
  have e1 : (x ^ 2 - 1 ^ 2 + 1) / (2 * x) = x / 2 := by field_simp; ring
  have e2 : (x ^ 2 + 1 ^ 2 - 1) / (2 * x) = x / 2 := by field_simp; ring
  rw [e1, e2] at hl
  have ho : overlap ⟨x, 0⟩ 1 = (MeasureTheory.volume (lens x 1)).toReal := by
    unfold overlap
    rw [show (⟨x, 0⟩ : ℂ) = (x : ℂ) from rfl, volume_overlap_real zero_le_one]
  have hnn : 0 ≤ arccos (x / 2) - x / 2 * √(1 - (x / 2) ^ 2) + (1 ^ 2 * arccos (x / 2 / 1) - x / 2 * √(1 ^ 2 - (x / 2) ^ 2)) := by
    have h3 : √(1 - (x / 2) ^ 2) ≤ 1 := sqrt_le_one.mpr (by nlinarith)
    have h4 : √(1 ^ 2 - (x / 2) ^ 2) ≤ 1 := sqrt_le_one.mpr (by nlinarith)
    have h5 : π / 2 - π / 4 ≤ arccos (x / 2) := by
      rw [arccos]
      have : arcsin (x / 2) ≤ π / 4 := by
        rw [← arcsin_sin (x := π / 4) (by linarith [pi_pos]) (by linarith [pi_pos]), sin_pi_div_four]
        apply arcsin_le_arcsin
        have : (1 : ℝ) ≤ √2 := one_le_sqrt.mpr (by norm_num)
        linarith
      linarith
    have h6 := pi_gt_three
    rw [div_one]
    nlinarith
  rw [ho, hl, ENNReal.toReal_ofReal hnn, arccos]
  simp only [div_one, one_pow, one_mul]
  rw [arccos]
  ring

theorem unshared_bounds {x : ℝ} (h0 : 0 < x) (h1 : x ≤ 0.2) : 1.98 * x ≤ π - overlap ⟨x, 0⟩ 1 ∧ π - overlap ⟨x, 0⟩ 1 ≤ 2.01 * x := by
  have hp := pi_gt_three
  rw [unshared h0 h1]
  have hs : 1 - (x / 2) ^ 2 ≤ √(1 - (x / 2) ^ 2) := by
    apply le_sqrt_of_sq_le
    have : (x / 2) ^ 2 ≤ 1 := by nlinarith
    nlinarith [sq_nonneg (x / 2)]
  have hs' : √(1 - (x / 2) ^ 2) ≤ 1 := sqrt_le_one.mpr (by nlinarith)
  have a1 : x / 2 ≤ arcsin (x / 2) := by
    rw [le_arcsin_iff_sin_le (by constructor <;> linarith) (by constructor <;> linarith)]
    exact (sin_lt (by linarith)).le
  have a2 : arcsin (x / 2) ≤ 1.01 * (x / 2) := by
    rw [arcsin_le_iff_le_sin (by constructor <;> linarith) (by constructor <;> linarith)]
    have := sin_gt_sub_cube (x := 1.01 * (x / 2)) (by linarith)
    have h3 : (1.01 * (x / 2)) ^ 3 ≤ 0.011 * x := by
      have : x ^ 2 ≤ 0.04 := by nlinarith
      have : x ^ 3 ≤ 0.04 * x := by nlinarith
      nlinarith
    linarith
  have b1 : x / 2 * (1 - (x / 2) ^ 2) ≤ x / 2 * √(1 - (x / 2) ^ 2) := mul_le_mul_of_nonneg_left hs (by linarith)
  have b2 : x / 2 * √(1 - (x / 2) ^ 2) ≤ x / 2 := mul_le_of_le_one_right (by linarith) hs'
  have b3 : x / 2 * (x / 2) ^ 2 ≤ 0.005 * x := by
    have : x ^ 2 ≤ 0.04 := by nlinarith
    nlinarith
  constructor <;> nlinarith

/-- `test_facula_effective_area` (test_faculae.py:89-102), the facula seen at 5° and at 6°. -/
example : ∃ w1 f1 w2 f2 : ℝ, (areaFacula 100 10).effectiveArea (.fin (Grid.deg 5)) = .ok [(300, .fin w1), (-200, .fin f1)] ∧
    (areaFacula 100 10).effectiveArea (.fin (Grid.deg 6)) = .ok [(300, .fin w2), (-200, .fin f2)] ∧ f2 / w2 < f1 / w1 ∧ f2 < f1 ∧ w1 < w2 := by
  have h1 := pi_gt_d6
  have h2 := pi_lt_d6
  have hp := pi_pos
  obtain ⟨e5, a5, b5⟩ := deg5
  obtain ⟨e6, a6, b6⟩ := deg6
  refine ⟨_, _, _, _, areaFacula_eq 100 10 a5 b5, areaFacula_eq 100 10 a6 b6, ?_⟩
  rw [share_eq, share_eq, show (100 : ℝ) / 100 = 1 by norm_num, one_mul, one_mul]
  have c5 : 0 < cos (Grid.deg 5) := cos_pos_of_mem_Ioo ⟨by linarith, b5⟩
  have c6 : 0 < cos (Grid.deg 6) := cos_pos_of_mem_Ioo ⟨by linarith, b6⟩
  have s5 : sin (Grid.deg 5) ≤ 0.0873 := by
    refine (sin_lt (by rw [e5]; positivity)).le.trans ?_
    rw [e5]; linarith
  have s5' : 0 < sin (Grid.deg 5) := sin_pos_of_pos_of_lt_pi (by rw [e5]; positivity) (by linarith)
  have s6' : 0.104 ≤ sin (Grid.deg 6) := by
    refine le_trans ?_ (sin_gt_sub_cube (x := Grid.deg 6) (by rw [e6]; positivity)).le
    have h3 : (π / 30) ^ 3 ≤ (0.105) ^ 3 := pow_le_pow_left₀ (by positivity) (by linarith) 3
    rw [e6]; norm_num at h3 ⊢; linarith
  have s6 : sin (Grid.deg 6) ≤ 0.105 := by
    refine (sin_lt (by rw [e6]; positivity)).le.trans ?_
    rw [e6]; linarith
  have c56 : cos (Grid.deg 6) < cos (Grid.deg 5) := cos_lt_cos_of_nonneg_of_le_pi a5 (by linarith) (by rw [e5, e6]; linarith)
  have c6b : 0.9 ≤ cos (Grid.deg 6) := by
    have := one_sub_sq_div_two_le_cos (x := Grid.deg 6)
    have h3 : (π / 30) ^ 2 ≤ (0.105) ^ 2 := pow_le_pow_left₀ (by positivity) (by linarith) 2
    rw [e6] at this ⊢; norm_num at h3 ⊢; linarith
  have t5 : tan (Grid.deg 5) * cos (Grid.deg 5) = sin (Grid.deg 5) := tan_mul_cos c5.ne'
  have t6 : tan (Grid.deg 6) * cos (Grid.deg 6) = sin (Grid.deg 6) := tan_mul_cos c6.ne'
  have p5 : 0 < tan (Grid.deg 5) := tan_pos_of_pos_of_lt_pi_div_two (by rw [e5]; positivity) b5
  have p6 : 0 < tan (Grid.deg 6) := tan_pos_of_pos_of_lt_pi_div_two (by rw [e6]; positivity) b6
  have q6 : tan (Grid.deg 6) ≤ 0.2 := by
    rw [tan_eq_sin_div_cos, div_le_iff₀ c6]; linarith
  have q56 : tan (Grid.deg 5) ≤ tan (Grid.deg 6) := (tan_lt_tan_of_lt_of_lt_pi_div_two (by linarith) b6 (by rw [e5, e6]; linarith)).le
  obtain ⟨l5, u5⟩ := unshared_bounds p5 (q56.trans q6)
  obtain ⟨l6, u6⟩ := unshared_bounds p6 q6
  have anti : overlap ⟨tan (Grid.deg 6), 0⟩ 1 ≤ overlap ⟨tan (Grid.deg 5), 0⟩ 1 :=
    overlap_antitone zero_le_one (by rw [norm_mk, norm_mk, abs_of_pos p5, abs_of_pos p6]; exact q56)
  have pos6 : 0 < overlap ⟨tan (Grid.deg 6), 0⟩ 1 := overlap_pos (by rw [norm_mk, abs_of_pos p6]; linarith)
  set o5 := overlap ⟨tan (Grid.deg 5), 0⟩ 1
  set o6 := overlap ⟨tan (Grid.deg 6), 0⟩ 1
  have w1e : (1 - o5 / (π * 1 ^ 2)) * (π * 100 ^ 2 * cos (Grid.deg 5)) = 10000 * ((π - o5) * cos (Grid.deg 5)) := by field_simp; norm_num
  have w2e : (1 - o6 / (π * 1 ^ 2)) * (π * 100 ^ 2 * cos (Grid.deg 6)) = 10000 * ((π - o6) * cos (Grid.deg 6)) := by field_simp; norm_num
  have f1e : (1 - (1 - o5 / (π * 1 ^ 2))) * (π * 100 ^ 2 * cos (Grid.deg 5)) = 10000 * (o5 * cos (Grid.deg 5)) := by field_simp; norm_num
  have f2e : (1 - (1 - o6 / (π * 1 ^ 2))) * (π * 100 ^ 2 * cos (Grid.deg 6)) = 10000 * (o6 * cos (Grid.deg 6)) := by field_simp; norm_num
  rw [w1e, w2e, f1e, f2e]
  have hw : (π - o5) * cos (Grid.deg 5) < (π - o6) * cos (Grid.deg 6) := by
    have k1 : (π - o5) * cos (Grid.deg 5) ≤ 2.01 * tan (Grid.deg 5) * cos (Grid.deg 5) := mul_le_mul_of_nonneg_right u5 c5.le
    have k2 : 1.98 * tan (Grid.deg 6) * cos (Grid.deg 6) ≤ (π - o6) * cos (Grid.deg 6) := mul_le_mul_of_nonneg_right l6 c6.le
    rw [mul_assoc, t5] at k1
    rw [mul_assoc, t6] at k2
    linarith
  have hf : o6 * cos (Grid.deg 6) < o5 * cos (Grid.deg 5) := mul_lt_mul'' (lt_of_le_of_ne anti fun e => by rw [e] at l6; nlinarith) c56 pos6.le c6.le
  have hw1 : 0 < (π - o5) * cos (Grid.deg 5) := mul_pos (by linarith) c5
  refine ⟨?_, by linarith, by linarith⟩
  exact div_lt_div₀ (by linarith) (by linarith) (by have := mul_pos (pos6.trans_le anti) c5; linarith) (by linarith)

/-- `test_facula_effective_area` (test_faculae.py:103-109), at the critical angle and one degree before. -/
example : (∃ w, (areaFacula 100 10).effectiveArea (.fin (arctan (2 * 100 / 100))) = .ok [(300, .fin w), (-200, .fin 0)]) ∧
    ∃ w f : ℝ, (areaFacula 100 10).effectiveArea (.fin (arctan (2 * 100 / 100) - Grid.deg 1)) = .ok [(300, .fin w), (-200, .fin f)] ∧ 1e-6 < f := by
  have hp := pi_pos
  have h1 := pi_gt_d6
  have h2 := pi_lt_d6
  have e2 : (2 * 100 / 100 : ℝ) = 2 := by norm_num
  rw [e2]
  have a0 : 0 < arctan 2 := arctan_pos.mpr (by norm_num)
  have a1 : π / 4 < arctan 2 := by rw [← arctan_one]; exact arctan_strictMono (by norm_num)
  have e1 : Grid.deg 1 = π / 180 := by unfold Grid.deg; ring
  constructor
  · rw [areaFacula_eq 100 10 a0.le (arctan_lt_pi_div_two 2), share_eq, tan_arctan, overlap_disjoint (by rw [norm_mk]; norm_num)]
    simp
  · have b0 : 0 ≤ arctan 2 - Grid.deg 1 := by rw [e1]; linarith
    have b1 : arctan 2 - Grid.deg 1 < π / 2 := by have := arctan_lt_pi_div_two 2; rw [e1]; linarith
    rw [areaFacula_eq 100 10 b0 b1]
    refine ⟨_, _, rfl, ?_⟩
    rw [share_eq, show (100 : ℝ) / 100 = 1 by norm_num, one_mul]
    set θ := arctan 2 - Grid.deg 1 with hθ
    have t1 : 0.0174 ≤ tan (Grid.deg 1) := by
      refine le_trans ?_ (lt_tan (x := Grid.deg 1) (by rw [e1]; positivity) (by rw [e1]; linarith)).le
      rw [e1]; linarith
    have tθ : tan θ ≤ 1.95 := by
      have hθ' : θ ≤ arctan 1.95 := by
        have key : arctan 2 ≤ arctan 1.95 + Grid.deg 1 := by
          have hb : arctan 1.95 + Grid.deg 1 < π / 2 ∨ π / 2 ≤ arctan 1.95 + Grid.deg 1 := lt_or_ge _ _
          rcases hb with hb | hb
          · have ha : 0 < arctan 1.95 := arctan_pos.mpr (by norm_num)
            rw [← arctan_tan (x := arctan 1.95 + Grid.deg 1) (by rw [e1]; linarith) hb]
            apply arctan_strictMono.monotone
            have hc := cos_pos_of_mem_Ioo (x := Grid.deg 1) ⟨by rw [e1]; linarith, by rw [e1]; linarith⟩
            have hca := cos_arctan_pos 1.95
            have hcs := cos_pos_of_mem_Ioo (x := arctan 1.95 + Grid.deg 1) ⟨by rw [e1]; linarith, hb⟩
            have hs : sin (arctan 1.95) = 1.95 * cos (arctan 1.95) := by
              rw [← tan_mul_cos hca.ne', tan_arctan]
            have hs1 : sin (Grid.deg 1) = tan (Grid.deg 1) * cos (Grid.deg 1) := (tan_mul_cos hc.ne').symm
            rw [tan_eq_sin_div_cos, le_div_iff₀ hcs, sin_add, cos_add, hs, hs1]
            have : 0 < cos (arctan 1.95) * cos (Grid.deg 1) := mul_pos hca hc
            nlinarith
          · linarith [arctan_lt_pi_div_two 2]
        linarith
      calc tan θ ≤ tan (arctan 1.95) := by
            rcases eq_or_lt_of_le hθ' with e | e
            · rw [e]
            · exact (tan_lt_tan_of_lt_of_lt_pi_div_two (by linarith) (arctan_lt_pi_div_two _) e).le
        _ = 1.95 := tan_arctan _
    have tθ0 : 0 ≤ tan θ := tan_nonneg_of_nonneg_of_le_pi_div_two b0 b1.le
    have hov : π * 0.025 ^ 2 ≤ overlap ⟨tan θ, 0⟩ 1 := by
      have hsub : Metric.ball ((⟨tan θ, 0⟩ : ℂ) / 2) 0.025 ⊆ Metric.ball (0 : ℂ) 1 ∩ Metric.ball ⟨tan θ, 0⟩ 1 := by
        refine Set.subset_inter (Metric.ball_subset_ball' ?_) (Metric.ball_subset_ball' ?_)
        · rw [dist_zero_right, norm_div, norm_mk, abs_of_nonneg tθ0]
          simp; linarith
        · rw [dist_eq_norm, show (⟨tan θ, 0⟩ : ℂ) / 2 - ⟨tan θ, 0⟩ = -(⟨tan θ, 0⟩ / 2) by ring, norm_neg, norm_div, norm_mk, abs_of_nonneg tθ0]
          simp; linarith
      have hfin : MeasureTheory.volume (Metric.ball (0 : ℂ) 1 ∩ Metric.ball ⟨tan θ, 0⟩ 1) ≠ ⊤ :=
        ((MeasureTheory.measure_mono Set.inter_subset_left).trans_lt MeasureTheory.measure_ball_lt_top).ne
      have := ENNReal.toReal_mono hfin (MeasureTheory.measure_mono hsub)
      rw [volume_ball_toReal _ (by norm_num)] at this
      exact this
    have hcos : 0.1 ≤ cos θ := by
      have hc : 0 < cos θ := cos_pos_of_mem_Ioo ⟨by linarith, b1⟩
      have hs : sin θ = tan θ * cos θ := (tan_mul_cos hc.ne').symm
      have := sin_sq_add_cos_sq θ
      rw [hs] at this
      by_contra h
      push Not at h
      have h3 : tan θ * cos θ ≤ 0.195 := by nlinarith
      have h4 : 0 ≤ tan θ * cos θ := by positivity
      nlinarith
    set o := overlap ⟨tan θ, 0⟩ 1
    have : (1 - (1 - o / (π * 1 ^ 2))) * (π * 100 ^ 2 * cos θ) = 10000 * (o * cos θ) := by field_simp; norm_num
    rw [this]
    have := mul_le_mul hov hcos (by norm_num) ((by positivity : (0 : ℝ) ≤ π * 0.025 ^ 2).trans hov)
    norm_num at this ⊢
    linarith

/-- `test_facula_effective_area` (test_faculae.py:110-120), below the radius from which the floor is seen. -/
example : (areaFacula 100 200).effectiveArea (.fin (Grid.deg 5)) = .ok [(300, .fin (π * 100 ^ 2 * cos (Grid.deg 5))), (-200, .fin 0)] := by
  obtain ⟨-, a5, b5⟩ := deg5
  rw [areaFacula_eq 100 200 a5 b5]
  have : wallShare (areaFacula 100 200) 100 (Grid.deg 5) = 1 := by
    unfold wallShare
    rw [if_pos]
    show (100 : ℝ) < 200
    norm_num
  rw [this]; simp

/-- `test_facula_fractional_effective_area` (test_faculae.py:123-146) at 0° and 5°.  The test also asks for 90°, where the code divides 0 by 0 in
exact arithmetic; it passes because the cosine of 90° in double precision is not 0. -/
example (θ : ℝ) (h : θ = Grid.deg 0 ∨ θ = Grid.deg 5) : ∃ w f : ℝ,
    Facula.fractionalEffectiveArea { initFacula with floorBase := 2500, wallIntercept := 3900 } (.fin θ) = .ok [(3900, .fin w), (2500, .fin f)] ∧ f + w = 1 := by
  have hp := pi_pos
  obtain ⟨-, a5, b5⟩ := deg5
  have k1 : wallKey { initFacula with floorBase := 2500, wallIntercept := 3900 } 100 = 3900 := by
    have := Np.roundHalfEven_int 3900
    simpa [wallKey, initFacula] using this
  have k2 : floorKey { initFacula with floorBase := 2500, wallIntercept := 3900 } 100 = 2500 := by
    have := Np.roundHalfEven_int 2500
    simpa [floorKey, initFacula] using this
  have hθ : 0 ≤ θ ∧ θ < π / 2 := by
    rcases h with rfl | rfl
    · simp [Grid.deg, hp]
    · exact ⟨a5, b5⟩
  have := fractional_eq (f := { initFacula with floorBase := 2500, wallIntercept := 3900 }) (r := 100) rfl (by norm_num) (by rw [k1, k2]; norm_num) hθ.1 hθ.2
  rw [k1, k2] at this
  exact ⟨_, _, this, by ring⟩

/-- `test_facula_angular_radius` (test_faculae.py:149-159). -/
example : initFacula.angularRadius (0.15 * 695700) = .fin (100 / (0.15 * 695700)) := Fl.fin_div (by norm_num)

theorem rect300_dist (p : (Grid.rect 300 600).Pix) : 0 < initFacula.dist.2 p ∧ initFacula.dist.2 p < Grid.deg 180 := by
  have hp := pi_pos
  have hj : ((p.2 : ℕ) : ℝ) ≤ 299 := by exact_mod_cast Nat.le_of_lt_succ p.2.2
  have hj0 : (0 : ℝ) ≤ (p.2 : ℕ) := Nat.cast_nonneg _
  have e : (Grid.rect 300 600).lat p = (-90 + (p.2 : ℕ) * (180 / 299)) * (π / 180) := by
    show Grid.deg (Np.linspaceAt (-90) 90 300 p.2) = _
    rw [Np.linspaceAt, if_neg (by norm_num), Grid.deg]; norm_num
  refine off_equator ?_ ?_ fun h0 => ?_
  · show -(π / 2) ≤ (Grid.rect 300 600).lat p
    rw [e]; nlinarith
  · show (Grid.rect 300 600).lat p ≤ π / 2
    rw [e]; nlinarith
  · rw [show initFacula.grid.lat p = (Grid.rect 300 600).lat p from rfl, e] at h0
    have h1 : -90 + ((p.2 : ℕ) : ℝ) * (180 / 299) = 0 := by
      rcases mul_eq_zero.mp h0 with h | h
      · exact h
      · exact absurd h (by positivity)
    have h2 : 2 * ((p.2 : ℕ) : ℝ) = 299 := by linarith
    have h3 : 2 * (p.2 : ℕ) = 299 := by exact_mod_cast h2
    omega

theorem rect300_far : Grid.deg 179 ≤ initFacula.dist.2 ((⟨300, by norm_num⟩, ⟨149, by norm_num⟩) : Fin 600 × Fin 300) := by
  have hp := pi_pos
  have h2 := pi_lt_d2
  refine near_antipode ?_
  show cos (Grid.deg (Np.linspaceAt (-90) 90 300 149)) * cos (Grid.deg (Np.linspaceOpenAt 0 360 600 300)) ≤ _
  have e1 : Grid.deg (Np.linspaceAt (-90) 90 300 149) = -(π / 598) := by
    rw [Np.linspaceAt, if_neg (by norm_num), Grid.deg]; push_cast; ring
  have e2 : Grid.deg (Np.linspaceOpenAt 0 360 600 300) = π := by
    rw [Np.linspaceOpenAt, Grid.deg]; push_cast; ring
  rw [e1, e2, cos_neg, cos_pi]
  have := one_sub_sq_div_two_le_cos (x := π / 598)
  have h3 : (π / 598) ^ 2 ≤ (3.15 / 598) ^ 2 := pow_le_pow_left₀ (by positivity) (by linarith) 2
  norm_num at h3 ⊢
  linarith

/-- `test_facula_init` (test_faculae.py:36-43). -/
example : (∀ p, 0 < initFacula.dist.2 p ∧ initFacula.dist.2 p < Grid.deg 180) ∧ ∃ p, Grid.deg 179 ≤ initFacula.dist.2 p :=
  ⟨rect300_dist, _, rect300_far⟩

/-- `test_facula_map_pixels` (test_faculae.py:162-184). -/
example : let f (r : ℝ) : Facula := { initFacula with radius := .fin r }; (∀ p, ¬ ((f 0).inside (0.15 * 695700)).2 p) ∧
    (∀ p, ((f (π * (0.15 * 695700))).inside (0.15 * 695700)).2 p) ∧ ¬ ∀ p, ((f (π * (0.15 * 695700) * 0.9)).inside (0.15 * 695700)).2 p := by
  have hp := pi_pos
  have hr : (0.15 * 695700 : ℝ) ≠ 0 := by norm_num
  refine ⟨fun p => ?_, fun p => ?_, fun h => ?_⟩
  · show ¬ Fl.fin (initFacula.dist.2 p) ≤ .fin 0 / .fin (0.15 * 695700)
    rw [Fl.fin_div hr, zero_div, Fl.fin_le, not_le]
    exact (rect300_dist p).1
  · show Fl.fin (initFacula.dist.2 p) ≤ .fin (π * (0.15 * 695700)) / .fin (0.15 * 695700)
    rw [Fl.fin_div hr, mul_div_cancel_right₀ _ hr, Fl.fin_le]
    have := (rect300_dist p).2
    rw [show Grid.deg 180 = π by unfold Grid.deg; ring] at this
    exact this.le
  · have h' : Fl.fin (initFacula.dist.2 ((⟨300, by norm_num⟩, ⟨149, by norm_num⟩) : Fin 600 × Fin 300)) ≤ .fin (π * (0.15 * 695700) * 0.9) / .fin (0.15 * 695700) := h _
    rw [Fl.fin_div hr, mul_right_comm, mul_div_cancel_right₀ _ hr, Fl.fin_le] at h'
    have := rect300_far.trans h'
    unfold Grid.deg at this
    linarith

/-- `test_fac_collection_init`, `_add_facula` (test_faculae.py:187-224). -/
example : let f400 : Facula := { initFacula with grid := .rect 400 600 }; let c := FaculaCollection.new (List.replicate 4 f400) (.rect 300 600);
    Grid.eq c.grid (.rect 300 600) = .ok true ∧ (∀ f ∈ c.faculae, Grid.eq f.grid c.grid = .ok true) ∧ c.faculae.length = 4 ∧
    ∃ c1, c.addFaculae [initFacula] = .ok c1 ∧ c1.faculae.length = 4 + 1 ∧ (∀ f ∈ c1.faculae, Grid.eq f.grid c1.grid = .ok true) ∧
    ∃ c2, c1.addFaculae [initFacula, initFacula] = .ok c2 ∧ c2.faculae.length = 4 + 1 + 2 ∧ ∀ f ∈ c2.faculae, Grid.eq f.grid c2.grid = .ok true := by
  refine ⟨rfl, ?_, rfl, _, rfl, rfl, ?_, _, rfl, rfl, ?_⟩ <;>
  · intro f hf
    simp [FaculaCollection.new, FaculaCollection.setGridmaker, List.replicate] at hf
    aesop

/-- `test_fac_collection_clean_faclist` (test_faculae.py:227-250). -/
example : let n (x : ℝ) (growing : Bool) := (FaculaCollection.new [{ initFacula with rMax := 100, radius := .fin (x * 100), isGrowing := growing }] (.rect 500 1000)).clean.faculae.length;
    n 0.8 true = 1 ∧ n 0.8 false = 1 ∧ n 0.01 true = 1 ∧ n 0.01 false = 0 := by
  have h1 : exp 1 < 2.7182818286 := exp_one_lt_d9
  have h2 : 2.7182818283 < exp 1 := exp_one_gt_d9
  have k1 : ¬ (0.8 * 100 : ℝ) ≤ 100 / exp 1 ^ 2 := by
    rw [not_le, div_lt_iff₀ (by positivity)]
    nlinarith
  have k2 : (0.01 * 100 : ℝ) ≤ 100 / exp 1 ^ 2 := by
    rw [le_div_iff₀ (by positivity)]
    nlinarith
  refine ⟨?_, ?_, ?_, ?_⟩ <;> simp only [FaculaCollection.new, FaculaCollection.setGridmaker, FaculaCollection.clean, List.map_cons, List.map_nil, List.filter, Fl.fin_le, k1, k2] <;> simp

theorem ageFacula_grid (f : Facula) (g : Grid) (t : ℝ) : Facula.age { f with grid := g } t = { f.age t with grid := g } := by
  simp only [Facula.age]
  split_ifs <;> rfl

/-- `test_fac_collection_age` (test_faculae.py:253-271), on any grid. -/
example (g : Grid) : let c := FaculaCollection.new (List.replicate 4 (ageFacula (100 / exp 1) true)) g; let c1 := c.age (10 / 24 * 0.5);
    let c2 := c1.age (10 / 24 * 0.5); let c3 := c2.age (10 / 24 * 0.5); (c1.faculae.map (·.radius)) = List.replicate 4 (.fin 100) ∧
    (c2.faculae.map (·.radius)) = List.replicate 4 (.fin (100 / exp 1)) ∧ c3.faculae = [] := by
  have he : (1 : ℝ) < exp 1 := by simp
  have hd : ∀ r, 0 < r → r ≤ 100 → Facula.age { ageFacula r false with grid := g } (10 / 24 * 0.5) = { ageFacula (r / exp 1) false with grid := g } := by
    intro r h0 h1
    rw [ageFacula_grid, age_down r h0 h1]
  have hu : Facula.age { ageFacula (100 / exp 1) true with grid := g } (10 / 24 * 0.5) = { ageFacula 100 false with grid := g } := by
    rw [ageFacula_grid, age_up]
  have keep : ∀ r, 100 / exp 1 ^ 2 < r → (FaculaCollection.mk (List.replicate 4 { ageFacula r false with grid := g }) g).clean =
      .mk (List.replicate 4 { ageFacula r false with grid := g }) g := by
    intro r hr
    have : ¬ (Fl.fin r ≤ .fin (100 / exp 1 ^ 2)) := by rw [Fl.fin_le]; exact not_le.mpr hr
    have e2 : exp 1 ^ 2 = exp 2 := by rw [← exp_nat_mul]; norm_num
    rw [e2] at hr
    simp [FaculaCollection.clean, List.replicate, ageFacula, hr]
  have c1 : (FaculaCollection.new (List.replicate 4 (ageFacula (100 / exp 1) true)) g).age (10 / 24 * 0.5) =
      .mk (List.replicate 4 { ageFacula 100 false with grid := g }) g := by
    rw [FaculaCollection.age, FaculaCollection.new, FaculaCollection.setGridmaker]
    simp only [List.map_replicate, hu]
    refine keep 100 ?_
    rw [div_lt_iff₀ (by positivity)]; nlinarith
  have c2 : (FaculaCollection.mk (List.replicate 4 { ageFacula 100 false with grid := g }) g).age (10 / 24 * 0.5) =
      .mk (List.replicate 4 { ageFacula (100 / exp 1) false with grid := g }) g := by
    rw [FaculaCollection.age]
    simp only [List.map_replicate, hd 100 (by norm_num) le_rfl]
    refine keep _ ?_
    rw [div_lt_div_iff₀ (by positivity) (by positivity)]; nlinarith
  have c3 : ((FaculaCollection.mk (List.replicate 4 { ageFacula (100 / exp 1) false with grid := g }) g).age (10 / 24 * 0.5)).faculae = [] := by
    rw [FaculaCollection.age]
    simp only [List.map_replicate, hd (100 / exp 1) (by positivity) (by rw [div_le_iff₀ (by positivity)]; linarith)]
    have : 100 / exp 1 / exp 1 ≤ 100 / exp 1 ^ 2 := by rw [div_div, sq]
    have e2 : exp 1 ^ 2 = exp 2 := by rw [← exp_nat_mul]; norm_num
    rw [e2] at this
    simp [FaculaCollection.clean, List.replicate, ageFacula, this]
  simp only [c1, c2, c3]
  exact ⟨rfl, rfl, trivial⟩

/-- `test_fac_gen_init` (test_faculae.py:274-298). -/
example (f : FaculaGenerator) (h : f.grid = .rect 300 600) : FaculaGenerator.checkDist .iso = .ok () ∧ Grid.eq f.grid (.rect 300 600) = .ok true := by
  rw [h]; exact ⟨rfl, rfl⟩

end Tests
end Vsm
