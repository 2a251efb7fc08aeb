import Verif.Model.Float
import Verif.Props.DiskAccuracy
import Verif.Props.FaculaAccuracy2

/-!
# Geometry in double precision: C144
-/

noncomputable section

namespace Vsm

open Real Np Spec

/-! ## Rounding -/

theorem roundBits_err (n : ℕ) (x : ℝ) : |roundBits n x - x| ≤ |x| / 2 ^ n := by
  by_cases hx : x = 0
  · subst hx
    have := roundHalfEven_int 0
    simp only [Int.cast_zero] at this
    simp [roundBits, this]
  have h0 : 0 < |x| := abs_pos.mpr hx
  unfold roundBits
  set e := Int.log 2 |x| with he
  have hu : (0 : ℝ) < 2 ^ (e - ((n : ℤ) - 1)) := by positivity
  have h1 := abs_roundHalfEven_sub_le (x / 2 ^ (e - ((n : ℤ) - 1)))
  have h2 : ((2 : ℕ) : ℝ) ^ e ≤ |x| := Int.zpow_log_le_self (by norm_num) h0
  have e1 : (roundHalfEven (x / 2 ^ (e - ((n : ℤ) - 1))) : ℝ) * 2 ^ (e - ((n : ℤ) - 1)) - x =
      ((roundHalfEven (x / 2 ^ (e - ((n : ℤ) - 1))) : ℝ) - x / 2 ^ (e - ((n : ℤ) - 1))) * 2 ^ (e - ((n : ℤ) - 1)) := by field_simp
  simp only
  rw [e1, abs_mul, abs_of_pos hu]
  have e2 : (2 : ℝ) ^ (e - ((n : ℤ) - 1)) = 2 * 2 ^ e / 2 ^ n := by
    rw [show e - ((n : ℤ) - 1) = e + 1 - n by ring, zpow_sub₀ (by norm_num), zpow_add₀ (by norm_num), zpow_natCast]
    ring
  push_cast at h2
  calc _ ≤ 1 / 2 * (2 : ℝ) ^ (e - ((n : ℤ) - 1)) := by gcongr
    _ = 2 ^ e / 2 ^ n := by rw [e2]; ring
    _ ≤ _ := by gcongr

/-- Half the distance from 1 to the next double. -/
def Spec.ulp : ℝ := 1 / 2 ^ 53

theorem ulp_pos : 0 < ulp := by unfold ulp; positivity

theorem ulp_small : ulp ≤ 1 / 10 ^ 15 := by unfold ulp; norm_num

theorem dbl_err (x : ℝ) : |dbl x - x| ≤ |x| * ulp := by
  have := roundBits_err 53 x
  unfold ulp
  rw [mul_one_div]
  exact this

theorem dbl_zero : dbl 0 = 0 := by
  have := dbl_err 0
  simpa using this

theorem dbl_nonneg {x : ℝ} (h : 0 ≤ x) : 0 ≤ dbl x := by
  have := abs_le.mp (dbl_err x)
  rw [abs_of_nonneg h] at this
  nlinarith [ulp_small, this.1]

/-- Functions of the mathematical library with a relative error of at most `2^-52`. -/
def Spec.Accurate (M : Libm) : Prop :=
  (∀ x, |M.sin x - sin x| ≤ |sin x| * (1 / 2 ^ 52)) ∧ (∀ x, |M.cos x - cos x| ≤ |cos x| * (1 / 2 ^ 52)) ∧
  (∀ x, |x| ≤ 1 → |M.arcsin x - arcsin x| ≤ |arcsin x| * (1 / 2 ^ 52)) ∧ ∀ x, |x| ≤ 1 → |M.arccos x - arccos x| ≤ |arccos x| * (1 / 2 ^ 52)

theorem rounded_accurate : Accurate Libm.rounded := by
  have h : ∀ x : ℝ, |dbl x - x| ≤ |x| * (1 / 2 ^ 52) := fun x => (dbl_err x).trans (by unfold ulp; gcongr <;> norm_num)
  exact ⟨fun x => h _, fun x => h _, fun x _ => h _, fun x _ => h _⟩

/-! ## Absolute errors of numbers of size at most one -/

/-- `a` differs from `a'`, a number of size at most 1, by at most `k` units. -/
def Near (k a a' : ℝ) : Prop := |a - a'| ≤ k * ulp ∧ |a'| ≤ 1

theorem Near.mono {k l a a' : ℝ} (h : Near k a a') (hkl : k ≤ l) : Near l a a' :=
  ⟨h.1.trans (by have := ulp_pos; gcongr), h.2⟩

theorem Near.dbl {k a a' : ℝ} (h : Near k a a') (hk : k ≤ 1000) : Near (k + 2) (dbl a) a' := by
  refine ⟨?_, h.2⟩
  have h1 := dbl_err a
  have h2 : |a| ≤ |a - a'| + |a'| := by have := abs_add_le (a - a') a'; simpa using this
  have hu := ulp_pos
  have hs := ulp_small
  have h3 : |a| ≤ 2 := by
    have := h.1; have := h.2
    nlinarith
  calc |Vsm.dbl a - a'| ≤ |Vsm.dbl a - a| + |a - a'| := abs_sub_le _ _ _
    _ ≤ |a| * ulp + k * ulp := add_le_add h1 h.1
    _ ≤ 2 * ulp + k * ulp := by gcongr
    _ = _ := by ring

theorem Near.mul {i j a a' b b' : ℝ} (ha : Near i a a') (hb : Near j b b') (hi : i ≤ 1000) (hj : j ≤ 1000) :
    Near (i + j + 1) (a * b) (a' * b') := by
  have hu := ulp_pos
  have hs := ulp_small
  refine ⟨?_, by rw [abs_mul]; exact mul_le_one₀ ha.2 (abs_nonneg _) hb.2⟩
  have e : a * b - a' * b' = (a - a') * (b - b') + (a - a') * b' + a' * (b - b') := by ring
  rw [e]
  have h0 := abs_nonneg (a - a')
  have h0' := abs_nonneg (b - b')
  have h1 : |(a - a') * (b - b')| ≤ ulp := by
    rw [abs_mul]
    have h2 := ha.1
    have h3 : |b - b'| ≤ 1 / 1000 := hb.1.trans (by nlinarith)
    calc |a - a'| * |b - b'| ≤ (1000 * ulp) * (1 / 1000) := by
          gcongr
          exact h2.trans (by gcongr)
      _ = ulp := by ring
  have h2 : |(a - a') * b'| ≤ i * ulp := by
    rw [abs_mul]
    calc _ ≤ |a - a'| * 1 := by gcongr; exact hb.2
      _ ≤ _ := by rw [mul_one]; exact ha.1
  have h3 : |a' * (b - b')| ≤ j * ulp := by
    rw [abs_mul]
    calc _ ≤ 1 * |b - b'| := by gcongr; exact ha.2
      _ ≤ _ := by rw [one_mul]; exact hb.1
  calc _ ≤ |(a - a') * (b - b')| + |(a - a') * b'| + |a' * (b - b')| := abs_add_three _ _ _
    _ ≤ ulp + i * ulp + j * ulp := by gcongr
    _ = _ := by ring

theorem Near.add {i j a a' b b' : ℝ} (ha : Near i a a') (hb : Near j b b') (h : |a' + b'| ≤ 1) : Near (i + j) (a + b) (a' + b') := by
  refine ⟨?_, h⟩
  rw [show a + b - (a' + b') = (a - a') + (b - b') by ring, add_mul]
  exact (abs_add_le _ _).trans (add_le_add ha.1 hb.1)

theorem near_sin {M : Libm} (hM : Accurate M) {x y k : ℝ} (h : |x - y| ≤ k * ulp) : Near (k + 2) (M.sin x) (sin y) := by
  refine ⟨?_, abs_sin_le_one _⟩
  have h1 := hM.1 x
  have h2 : |sin x - sin y| ≤ |x - y| := by
    have := Real.abs_sin_sub_sin_le x y
    exact this
  have h3 : |sin x| * (1 / 2 ^ 52) ≤ 2 * ulp := by
    unfold ulp
    have := abs_sin_le_one x
    calc _ ≤ 1 * (1 / 2 ^ 52 : ℝ) := by gcongr
      _ = _ := by norm_num
  calc _ ≤ |M.sin x - sin x| + |sin x - sin y| := abs_sub_le _ _ _
    _ ≤ 2 * ulp + k * ulp := by linarith
    _ = _ := by ring

theorem near_cos {M : Libm} (hM : Accurate M) {x y k : ℝ} (h : |x - y| ≤ k * ulp) : Near (k + 2) (M.cos x) (cos y) := by
  refine ⟨?_, abs_cos_le_one _⟩
  have h1 := hM.2.1 x
  have h2 : |cos x - cos y| ≤ |x - y| := Real.abs_cos_sub_cos_le x y
  have h3 : |cos x| * (1 / 2 ^ 52) ≤ 2 * ulp := by
    unfold ulp
    have := abs_cos_le_one x
    calc _ ≤ 1 * (1 / 2 ^ 52 : ℝ) := by gcongr
      _ = _ := by norm_num
  calc _ ≤ |M.cos x - cos x| + |cos x - cos y| := abs_sub_le _ _ _
    _ ≤ 2 * ulp + k * ulp := by linarith
    _ = _ := by ring

/-! ## Angles -/

theorem mu_near {M : Libm} (hM : Accurate M) (a b c d : ℝ) (h : |b - d| ≤ 16) :
    Near 37 (M.mu a b c d) (sin a * sin c + cos a * cos c * cos (b - d)) := by
  have z : ∀ x : ℝ, |x - x| ≤ 0 * ulp := fun x => by simp
  have h1 := ((near_sin hM (z a)).mul (near_sin hM (z c)) (by norm_num) (by norm_num)).dbl (by norm_num)
  have h2 := ((near_cos hM (z a)).mul (near_cos hM (z c)) (by norm_num) (by norm_num)).dbl (by norm_num)
  have h3 : |dbl (b - d) - (b - d)| ≤ 16 * ulp := (dbl_err _).trans (by have := ulp_pos; gcongr)
  have h4 := (h2.mul (near_cos hM h3) (by norm_num) (by norm_num)).dbl (by norm_num)
  have h5 := ((h1.add h4 (abs_le.mpr (cosExpr_mem a b c d))).dbl (by norm_num))
  exact h5.mono (by norm_num)

theorem arccos_near {a b : ℝ} (ha : |a| ≤ 1) (hb : |b| ≤ 1) : |arccos a - arccos b| ≤ π * √(|a - b| / 2) := by
  have key : ∀ x y : ℝ, x ∈ Set.Icc 0 π → y ∈ Set.Icc 0 π → y ≤ x → x - y ≤ π * √((cos y - cos x) / 2) := by
    intro x y hx hy hyx
    have hp := pi_pos
    have h1 : cos y - cos x = 2 * sin ((x + y) / 2) * sin ((x - y) / 2) := by
      rw [cos_sub_cos, show (y - x) / 2 = -((x - y) / 2) by ring, sin_neg, add_comm y x]; ring
    have h0 : 0 ≤ sin ((x - y) / 2) := sin_nonneg_of_nonneg_of_le_pi (by linarith) (by linarith [hx.2, hy.1])
    have h2 : sin ((x - y) / 2) ≤ sin ((x + y) / 2) := by
      by_cases hh : (x + y) / 2 ≤ π / 2
      · exact sin_le_sin_of_le_of_le_pi_div_two (by linarith [hy.1]) hh (by linarith [hy.1])
      · rw [← sin_pi_sub ((x + y) / 2)]
        exact sin_le_sin_of_le_of_le_pi_div_two (by linarith [hy.1]) (by linarith) (by linarith [hx.2])
    have h3 : 2 / π * ((x - y) / 2) ≤ sin ((x - y) / 2) := mul_le_sin (by linarith) (by linarith [hx.2, hy.1])
    have h4 : ((x - y) / π) ^ 2 ≤ (cos y - cos x) / 2 := by
      rw [h1]
      have h5 : (x - y) / π ≤ sin ((x - y) / 2) := by
        calc (x - y) / π = 2 / π * ((x - y) / 2) := by ring
          _ ≤ _ := h3
      have h6 : 0 ≤ (x - y) / π := div_nonneg (by linarith) hp.le
      nlinarith
    have h5 := le_sqrt_of_sq_le h4
    calc x - y = π * ((x - y) / π) := by field_simp
      _ ≤ _ := by gcongr
  have ha' := abs_le.mp ha
  have hb' := abs_le.mp hb
  rcases le_total (arccos b) (arccos a) with h | h
  · rw [abs_of_nonneg (by linarith)]
    have := key _ _ ⟨arccos_nonneg a, arccos_le_pi a⟩ ⟨arccos_nonneg b, arccos_le_pi b⟩ h
    rw [cos_arccos ha'.1 ha'.2, cos_arccos hb'.1 hb'.2] at this
    refine this.trans ?_
    have := neg_abs_le (a - b)
    gcongr
    linarith
  · rw [abs_of_nonpos (by linarith), neg_sub]
    have := key _ _ ⟨arccos_nonneg b, arccos_le_pi b⟩ ⟨arccos_nonneg a, arccos_le_pi a⟩ h
    rw [cos_arccos ha'.1 ha'.2, cos_arccos hb'.1 hb'.2] at this
    refine this.trans ?_
    have := le_abs_self (a - b)
    gcongr

theorem sqrt_small {x y : ℝ} (hy : 0 ≤ y) (h : x ≤ y ^ 2) : π * √x ≤ 3.15 * y := by
  have h1 : √x ≤ y := sqrt_le_iff.mpr ⟨hy, h⟩
  have := pi_lt_d2
  have := pi_pos
  have := sqrt_nonneg x
  nlinarith

/-- The angle between two points is computed to 2e-7, or is NaN, which happens only within 2e-7 of 0 or π. -/
theorem angle_near {M : Libm} (hM : Accurate M) (a b c d : ℝ) (h : |b - d| ≤ 16) :
    (∃ x, M.angleBetween a b c d = .fin x ∧ |x - greatCircle a b c d| ≤ 2 / 10 ^ 7) ∨
    (M.angleBetween a b c d = .nan ∧ (greatCircle a b c d ≤ 2 / 10 ^ 7 ∨ π - 2 / 10 ^ 7 ≤ greatCircle a b c d)) := by
  have hn := mu_near hM a b c d h
  have hs : ulp ≤ 1 / 10 ^ 15 * (9 / 8) := by unfold ulp; norm_num
  have hu := ulp_pos
  have hlt : 37 * ulp / 2 ≤ (5 / 10 ^ 8) ^ 2 := by unfold ulp; norm_num
  set m := M.mu a b c d with hm
  set m' := sin a * sin c + cos a * cos c * cos (b - d) with hm'
  have hg : greatCircle a b c d = arccos m' := greatCircle_eq a b c d
  unfold Libm.angleBetween
  simp only [← hm]
  by_cases h1 : |m| ≤ 1
  · left
    rw [if_pos h1]
    refine ⟨_, rfl, ?_⟩
    have h2 := arccos_near h1 hn.2
    have h3 : π * √(|m - m'| / 2) ≤ 3.15 * (5 / 10 ^ 8) := sqrt_small (by norm_num) (by have := hn.1; linarith)
    have h4 := hM.2.2.2 m h1
    have h5 : |arccos m| ≤ 4 := by rw [abs_of_nonneg (arccos_nonneg _)]; linarith [arccos_le_pi m, pi_lt_d2]
    have h6 : |arccos m| * (1 / 2 ^ 52) ≤ 4 * (1 / 2 ^ 52) := by gcongr
    rw [hg]
    calc _ ≤ |M.arccos m - arccos m| + |arccos m - arccos m'| := abs_sub_le _ _ _
      _ ≤ 4 * (1 / 2 ^ 52) + 3.15 * (5 / 10 ^ 8) := by linarith
      _ ≤ _ := by norm_num
  · right
    rw [if_neg h1]
    refine ⟨rfl, ?_⟩
    rw [hg]
    push Not at h1
    have hb := abs_le.mp hn.2
    have hd := abs_le.mp hn.1
    rcases lt_abs.mp h1 with h1 | h1
    · left
      have h2 := arccos_near hn.2 (b := 1) (by norm_num)
      rw [arccos_one, sub_zero, abs_of_nonneg (arccos_nonneg _)] at h2
      have h3 : |m' - 1| ≤ 37 * ulp := by rw [abs_of_nonpos (by linarith)]; linarith
      have h4 : π * √(|m' - 1| / 2) ≤ 3.15 * (5 / 10 ^ 8) := sqrt_small (by norm_num) (by linarith)
      refine h2.trans (h4.trans (by norm_num))
    · right
      have h2 := arccos_near hn.2 (b := -1) (by norm_num)
      rw [arccos_neg_one, abs_sub_comm, abs_of_nonneg (by linarith [arccos_le_pi m'])] at h2
      have h3 : |m' - -1| ≤ 37 * ulp := by rw [abs_of_nonneg (by linarith)]; linarith
      have h4 : π * √(|m' - -1| / 2) ≤ 3.15 * (5 / 10 ^ 8) := sqrt_small (by norm_num) (by linarith)
      have : (3.15 : ℝ) * (5 / 10 ^ 8) ≤ 2 / 10 ^ 7 := by norm_num
      linarith

/-! ## Distances of pixels -/

theorem half_near {x : ℝ} (h : |x| ≤ 16) : |dbl (0.5 * dbl x) - 0.5 * x| ≤ 17 * ulp := by
  have hu := ulp_pos
  have hs := ulp_small
  have h1 := dbl_err x
  have h2 := dbl_err (0.5 * dbl x)
  have h3 : |dbl x| ≤ 17 := by
    have : |dbl x| ≤ |dbl x - x| + |x| := by have := abs_add_le (dbl x - x) x; simpa using this
    nlinarith [abs_nonneg x]
  have h4 : |0.5 * dbl x| ≤ 8.5 := by rw [abs_mul, abs_of_pos (by norm_num : (0:ℝ) < 0.5)]; linarith
  have h5 : |0.5 * dbl x - 0.5 * x| ≤ 8 * ulp := by
    rw [← mul_sub, abs_mul, abs_of_pos (by norm_num : (0:ℝ) < 0.5)]
    nlinarith
  calc _ ≤ |dbl (0.5 * dbl x) - 0.5 * dbl x| + |0.5 * dbl x - 0.5 * x| := abs_sub_le _ _ _
    _ ≤ 8.5 * ulp + 8 * ulp := add_le_add (h2.trans (by gcongr)) h5
    _ ≤ _ := by linarith

theorem hav_near {M : Libm} (hM : Accurate M) (a b c d : ℝ) (h : |a - c| ≤ 16) (h' : |b - d| ≤ 16) :
    Near 94 (M.hav a b c d) ((1 - (sin a * sin c + cos a * cos c * cos (b - d))) / 2) := by
  have z : ∀ x : ℝ, |x - x| ≤ 0 * ulp := fun x => by simp
  have h1 := near_sin hM (half_near h)
  have h2 := near_sin hM (half_near h')
  have h3 := (h1.mul h1 (by norm_num) (by norm_num)).dbl (by norm_num)
  have h4 := (h2.mul h2 (by norm_num) (by norm_num)).dbl (by norm_num)
  have h5 := ((near_cos hM (z c)).mul (near_cos hM (z a)) (by norm_num) (by norm_num)).dbl (by norm_num)
  have h6 := (h5.mul h4 (by norm_num) (by norm_num)).dbl (by norm_num)
  have e := haversine_arg a b c d
  simp only [sq] at e
  have hm := cosExpr_mem a b c d
  have h7 := (h3.add h6 (by rw [e, abs_le]; constructor <;> linarith [hm.1, hm.2])).dbl (by norm_num)
  rw [e] at h7
  exact h7.mono (by norm_num)

theorem hav_nonneg {M : Libm} (hM : Accurate M) {a c : ℝ} (b d : ℝ) (ha : a ∈ Set.Icc (-(π / 2)) (π / 2)) (hc : c ∈ Set.Icc (-(π / 2)) (π / 2)) :
    0 ≤ M.hav a b c d := by
  have hcos : ∀ x ∈ Set.Icc (-(π / 2)) (π / 2), 0 ≤ M.cos x := by
    intro x hx
    have h0 := cos_nonneg_of_mem_Icc hx
    have h1 := abs_le.mp (hM.2.1 x)
    rw [abs_of_nonneg h0] at h1
    norm_num at h1
    linarith [h1.1]
  unfold Libm.hav
  refine dbl_nonneg (add_nonneg (dbl_nonneg (mul_self_nonneg _)) (dbl_nonneg (mul_nonneg (dbl_nonneg (mul_nonneg (hcos c hc) (hcos a ha))) (dbl_nonneg (mul_self_nonneg _)))))

/-- The distance of a pixel is computed to 4e-7, or is NaN, which happens only within 4e-7 of π. -/
theorem dist_near {M : Libm} (hM : Accurate M) {a b c d : ℝ} (ha : a ∈ Set.Icc (-(π / 2)) (π / 2)) (hc : c ∈ Set.Icc (-(π / 2)) (π / 2)) (h' : |b - d| ≤ 16) :
    (∃ x, M.dist a b c d = .fin x ∧ |x - greatCircle a b c d| ≤ 4 / 10 ^ 7) ∨
    (M.dist a b c d = .nan ∧ π - 4 / 10 ^ 7 ≤ greatCircle a b c d) := by
  have hp := pi_gt_three
  have hp' := pi_lt_d2
  have h : |a - c| ≤ 16 := by rw [abs_le]; constructor <;> linarith [ha.1, ha.2, hc.1, hc.2]
  have hn := hav_near hM a b c d h h'
  have h0 := hav_nonneg hM b d ha hc
  have hm := cosExpr_mem a b c d
  have hu := ulp_pos
  have hus := ulp_small
  have hlt : 99 * ulp ≤ (1.1 / 10 ^ 7) ^ 2 := by unfold ulp; norm_num
  have hg : greatCircle a b c d = arccos (sin a * sin c + cos a * cos c * cos (b - d)) := greatCircle_eq a b c d
  set m' := sin a * sin c + cos a * cos c * cos (b - d) with hm'
  set H := M.hav a b c d with hH
  set x := dbl (√H) with hx
  have hx0 : 0 ≤ x := dbl_nonneg (sqrt_nonneg _)
  have hHn := abs_le.mp hn.1
  have hH1 : H ≤ 2 := by nlinarith [hHn.2, hm.1]
  have hxs : |x ^ 2 - H| ≤ 5 * ulp := by
    have h1 := dbl_err (√H)
    rw [← hx, abs_of_nonneg (sqrt_nonneg _)] at h1
    have h2 := sq_sqrt h0
    have h3 : √H ≤ 3 / 2 := sqrt_le_iff.mpr ⟨by norm_num, by linarith⟩
    have h4 := sqrt_nonneg H
    have h5 := abs_le.mp h1
    rw [← h2, sq_sub_sq, abs_mul]
    have h6 : |x + √H| ≤ 3.1 := by rw [abs_of_nonneg (by linarith)]; nlinarith [h5.2]
    calc _ ≤ 3.1 * (√H * ulp) := by gcongr
      _ ≤ 3.1 * (3 / 2 * ulp) := by gcongr
      _ ≤ _ := by linarith
  have hxs' := abs_le.mp hxs
  have key : ∀ y : ℝ, 0 ≤ y → y ≤ 1 → |y ^ 2 - (1 - m') / 2| ≤ 99 * ulp → |2 * arcsin y - greatCircle a b c d| ≤ 3.15 * (1.1 / 10 ^ 7) := by
    intro y hy hy1 hyn
    have e : 2 * arcsin y = arccos (1 - 2 * y ^ 2) := by
      have := two_arcsin_sqrt (x := 1 - 2 * y ^ 2) (by nlinarith) (by nlinarith)
      rw [show (1 - (1 - 2 * y ^ 2)) / 2 = y ^ 2 by ring, sqrt_sq hy] at this
      exact this
    rw [e, hg]
    refine (arccos_near (a := 1 - 2 * y ^ 2) (b := m') (by rw [abs_le]; constructor <;> nlinarith) (abs_le.mpr hm)).trans ?_
    refine sqrt_small (by norm_num) ?_
    have : |1 - 2 * y ^ 2 - m'| / 2 = |y ^ 2 - (1 - m') / 2| := by
      rw [show 1 - 2 * y ^ 2 - m' = -2 * (y ^ 2 - (1 - m') / 2) by ring, abs_mul]; norm_num
    rw [this]
    exact hyn.trans hlt
  unfold Libm.dist
  simp only [← hH, ← hx]
  by_cases h1 : x ≤ 1
  · left
    rw [if_pos ⟨h0, h1⟩]
    refine ⟨_, rfl, ?_⟩
    have hk := key x hx0 h1 (by rw [abs_le]; constructor <;> linarith)
    have h2 := hM.2.2.1 x (by rw [abs_of_nonneg hx0]; exact h1)
    have h3 : |arcsin x| ≤ 2 := by
      rw [abs_of_nonneg (arcsin_nonneg.mpr hx0)]; linarith [arcsin_le_pi_div_two x]
    have h4 : |M.arcsin x - arcsin x| ≤ 2 * (1 / 2 ^ 52) := h2.trans (by gcongr)
    have h5 := dbl_err (2 * M.arcsin x)
    have h6 : |2 * M.arcsin x| ≤ 5 := by
      have := abs_le.mp h4
      have := abs_le.mp h3
      rw [abs_le]
      constructor <;> norm_num at * <;> linarith
    have h7 : |2 * M.arcsin x| * ulp ≤ 5 * ulp := by gcongr
    have h8 : |2 * M.arcsin x - 2 * arcsin x| ≤ 4 * (1 / 2 ^ 52) := by
      rw [← mul_sub, abs_mul, abs_of_pos (by norm_num : (0:ℝ) < 2)]; linarith
    calc _ ≤ |dbl (2 * M.arcsin x) - 2 * M.arcsin x| + |2 * M.arcsin x - greatCircle a b c d| := abs_sub_le _ _ _
      _ ≤ |dbl (2 * M.arcsin x) - 2 * M.arcsin x| + (|2 * M.arcsin x - 2 * arcsin x| + |2 * arcsin x - greatCircle a b c d|) := by
        gcongr; exact abs_sub_le _ _ _
      _ ≤ 5 * ulp + (4 * (1 / 2 ^ 52) + 3.15 * (1.1 / 10 ^ 7)) := by linarith
      _ ≤ _ := by unfold ulp; norm_num
  · right
    rw [if_neg fun h => h1 h.2]
    refine ⟨rfl, ?_⟩
    push Not at h1
    have hk := key 1 zero_le_one le_rfl (by
      rw [abs_le]
      constructor <;> nlinarith [hm.1, hm.2])
    rw [arcsin_one] at hk
    have := abs_le.mp hk
    norm_num at this
    norm_num
    linarith [this.2]

/-! ## Relative errors -/

/-- `a` differs from `a'` by at most `k` units times the size of `a'`. -/
def Rel (k a a' : ℝ) : Prop := |a - a'| ≤ k * ulp * |a'|

theorem Rel.refl (a : ℝ) : Rel 0 a a := by simp [Rel]

theorem Rel.mono {k l a a' : ℝ} (h : Rel k a a') (hkl : k ≤ l) : Rel l a a' := by
  refine h.trans ?_
  have := ulp_pos
  gcongr

theorem Rel.abs_le {k a a' : ℝ} (h : Rel k a a') (hk : k ≤ 1000) : |a| ≤ 2 * |a'| := by
  have hs := ulp_small
  have hu := ulp_pos
  have h2 : |a| ≤ |a - a'| + |a'| := by have := abs_add_le (a - a') a'; simpa using this
  have h3 : k * ulp ≤ 1 := by nlinarith
  unfold Rel at h
  nlinarith [abs_nonneg a']

theorem Rel.dbl {k a a' : ℝ} (h : Rel k a a') (hk : k ≤ 1000) : Rel (k + 2) (dbl a) a' := by
  have h1 := dbl_err a
  have h2 := h.abs_le hk
  have hu := ulp_pos
  unfold Rel at h ⊢
  calc |Vsm.dbl a - a'| ≤ |Vsm.dbl a - a| + |a - a'| := abs_sub_le _ _ _
    _ ≤ 2 * |a'| * ulp + k * ulp * |a'| := add_le_add (h1.trans (by gcongr)) h
    _ = _ := by ring

theorem Rel.mul {i j a a' b b' : ℝ} (ha : Rel i a a') (hb : Rel j b b') (hi : i ≤ 1000) (hj : j ≤ 1000) : Rel (i + j + 1) (a * b) (a' * b') := by
  have hu := ulp_pos
  have hs := ulp_small
  unfold Rel at *
  have e : a * b - a' * b' = (a - a') * (b - b') + (a - a') * b' + a' * (b - b') := by ring
  have h0 := abs_nonneg a'
  have h0' := abs_nonneg b'
  have h1 : |(a - a') * (b - b')| ≤ ulp * (|a'| * |b'|) := by
    rw [abs_mul]
    have h2 : |a - a'| ≤ 1000 * ulp * |a'| := ha.trans (by gcongr)
    have h3 : |b - b'| ≤ 1 / 1000 * |b'| := hb.trans (by
      have : j * ulp ≤ 1 / 1000 := by nlinarith
      gcongr)
    calc |a - a'| * |b - b'| ≤ (1000 * ulp * |a'|) * (1 / 1000 * |b'|) := by gcongr
      _ = _ := by ring
  have h2 : |(a - a') * b'| ≤ i * ulp * (|a'| * |b'|) := by
    rw [abs_mul]
    calc _ ≤ (i * ulp * |a'|) * |b'| := by gcongr
      _ = _ := by ring
  have h3 : |a' * (b - b')| ≤ j * ulp * (|a'| * |b'|) := by
    rw [abs_mul]
    calc _ ≤ |a'| * (j * ulp * |b'|) := by gcongr
      _ = _ := by ring
  rw [e, abs_mul]
  calc _ ≤ |(a - a') * (b - b')| + |(a - a') * b'| + |a' * (b - b')| := abs_add_three _ _ _
    _ ≤ ulp * (|a'| * |b'|) + i * ulp * (|a'| * |b'|) + j * ulp * (|a'| * |b'|) := by gcongr
    _ = _ := by ring

theorem Rel.div {i j a a' b b' : ℝ} (ha : Rel i a a') (hb : Rel j b b') (hi : i ≤ 1000) (hj : j ≤ 1000) (hi0 : 0 ≤ i) (hj0 : 0 ≤ j) (hb0 : b' ≠ 0) :
    Rel (i + j + 1) (a / b) (a' / b') := by
  have hu := ulp_pos
  have hs := ulp_small
  unfold Rel at *
  have hb1 : 0 < |b'| := abs_pos.mpr hb0
  have hju : j * ulp ≤ 1 / 10 ^ 12 := by nlinarith
  have hbb : (1 - j * ulp) * |b'| ≤ |b| := by
    have : |b'| ≤ |b - b'| + |b| := by
      have := abs_add_le (b' - b) b
      rw [abs_sub_comm b b']; simpa using this
    nlinarith
  have hb2 : 0 < |b| := lt_of_lt_of_le (by nlinarith) hbb
  have hb3 : b ≠ 0 := abs_pos.mp hb2
  have e : a / b - a' / b' = ((a - a') * b' + a' * (b' - b)) / (b * b') := by field_simp; ring
  rw [e, abs_div, abs_mul, abs_div, div_le_iff₀ (by positivity)]
  have h1 : |(a - a') * b' + a' * (b' - b)| ≤ (i + j) * ulp * (|a'| * |b'|) := by
    calc _ ≤ |(a - a') * b'| + |a' * (b' - b)| := abs_add_le _ _
      _ = |a - a'| * |b'| + |a'| * |b - b'| := by rw [abs_mul, abs_mul, abs_sub_comm b' b]
      _ ≤ (i * ulp * |a'|) * |b'| + |a'| * (j * ulp * |b'|) := by gcongr
      _ = _ := by ring
  refine h1.trans ?_
  have h2 : (i + j) ≤ (i + j + 1) * (1 - j * ulp) := by nlinarith
  have h3 : (i + j) * |b'| ≤ (i + j + 1) * |b| := by
    calc (i + j) * |b'| ≤ (i + j + 1) * (1 - j * ulp) * |b'| := by gcongr
      _ = (i + j + 1) * ((1 - j * ulp) * |b'|) := by ring
      _ ≤ _ := by gcongr
  have e2 : (i + j + 1) * ulp * (|a'| / |b'|) * (|b| * |b'|) = ulp * |a'| * ((i + j + 1) * |b|) := by field_simp
  rw [e2]
  calc _ = ulp * |a'| * ((i + j) * |b'|) := by ring
    _ ≤ _ := by gcongr

/-! ## Radii of spots and faculae -/

/-- The radius of a spot is computed to 1.4e-7 before the conversion to degrees, or is NaN, which happens only within 2e-7 of 0 or π. -/
theorem spotRadius_near {M : Libm} {area R ρ : ℝ} (hR : R ≠ 0) (hρ : ρ ∈ Set.Icc 0 π) (harea : capArea R ρ = area) :
    (∃ c, M.spotRadiusDeg area R = some (Libm.toDeg (M.arccos c)) ∧ |c| ≤ 1 ∧ |arccos c - ρ| ≤ 1.4 / 10 ^ 7) ∨
    (M.spotRadiusDeg area R = none ∧ (ρ ≤ 2 / 10 ^ 7 ∨ π - 2 / 10 ^ 7 ≤ ρ)) := by
  have hp := pi_pos
  have hu := ulp_pos
  have hR2 : 0 < R ^ 2 := by positivity
  set q := area / (2 * π * (R * R)) with hq
  have hqe : q = 1 - cos ρ := by
    rw [hq, ← harea, capArea]
    field_simp
  have hq0 : 0 ≤ q := by rw [hqe]; linarith [cos_le_one ρ]
  have hq2 : q ≤ 2 := by rw [hqe]; linarith [neg_one_le_cos ρ]
  have r1 := ((Rel.refl 2).mul ((Rel.refl π).dbl (by norm_num)) (by norm_num) (by norm_num)).dbl (by norm_num)
  have r2 := ((Rel.refl R).mul (Rel.refl R) (by norm_num) (by norm_num)).dbl (by norm_num)
  have r3 := (r1.mul r2 (by norm_num) (by norm_num)).dbl (by norm_num)
  have r4 := ((Rel.refl area).div r3 (by norm_num) (by norm_num) (by norm_num) (by norm_num) (by positivity)).dbl (by norm_num)
  rw [← hq] at r4
  set Q := dbl (area / dbl (dbl (2 * dbl π) * dbl (R * R))) with hQ
  have r4' : |Q - q| ≤ 28 * ulp := by
    refine (r4.mono (l := 14) (by norm_num)).trans ?_
    rw [abs_of_nonneg hq0]
    nlinarith
  have n1 : Near 28 (1 - Q) (cos ρ) := by
    refine ⟨?_, abs_cos_le_one _⟩
    rw [show 1 - Q - cos ρ = -(Q - q) by rw [hqe]; ring, abs_neg]
    exact r4'
  have n2 := n1.dbl (by norm_num)
  have hlt : 15 * ulp ≤ (4.2 / 10 ^ 8) ^ 2 := by unfold ulp; norm_num
  have hac : arccos (cos ρ) = ρ := arccos_cos hρ.1 hρ.2
  unfold Libm.spotRadiusDeg
  simp only [← hQ]
  set c := dbl (1 - Q) with hc
  have hn := n2.1
  by_cases h1 : |c| ≤ 1
  · left
    rw [if_pos h1]
    refine ⟨c, rfl, h1, ?_⟩
    have h2 := arccos_near h1 n2.2
    rw [hac] at h2
    refine h2.trans ((sqrt_small (y := 4.2 / 10 ^ 8) (by norm_num) (by linarith)).trans (by norm_num))
  · right
    rw [if_neg h1]
    refine ⟨rfl, ?_⟩
    push Not at h1
    have hb := abs_le.mp n2.2
    have hd := abs_le.mp hn
    rcases lt_abs.mp h1 with h1 | h1
    · left
      have h2 := arccos_near n2.2 (b := 1) (by norm_num)
      rw [arccos_one, sub_zero, hac, abs_of_nonneg hρ.1] at h2
      have h3 : |cos ρ - 1| ≤ 30 * ulp := by rw [abs_of_nonpos (by linarith)]; linarith
      refine h2.trans ((sqrt_small (y := 4.2 / 10 ^ 8) (by norm_num) (by linarith)).trans (by norm_num))
    · right
      have h2 := arccos_near n2.2 (b := -1) (by norm_num)
      rw [arccos_neg_one, hac, abs_sub_comm, abs_of_nonneg (by linarith [hρ.2])] at h2
      have h3 : |cos ρ - -1| ≤ 30 * ulp := by rw [abs_of_nonneg (by linarith)]; linarith
      have h4 := sqrt_small (x := |cos ρ - -1| / 2) (y := 4.2 / 10 ^ 8) (by norm_num) (by linarith)
      have : (3.15 : ℝ) * (4.2 / 10 ^ 8) ≤ 2 / 10 ^ 7 := by norm_num
      linarith

theorem arccos_rel {M : Libm} (hM : Accurate M) {c : ℝ} (hc : |c| ≤ 1) : Rel 2 (M.arccos c) (arccos c) := by
  have := hM.2.2.2 c hc
  unfold Rel ulp
  calc _ ≤ _ := this
    _ = _ := by ring

/-- The radius of a spot, back in radians. -/
theorem rad_near {M : Libm} (hM : Accurate M) {c ρ : ℝ} (hc : |c| ≤ 1) (h : |arccos c - ρ| ≤ 1.4 / 10 ^ 7) :
    |Libm.toRad (Libm.toDeg (M.arccos c)) - ρ| ≤ 2 / 10 ^ 7 := by
  have hp := pi_pos
  have hu := ulp_pos
  have r1 := ((arccos_rel hM hc).mul ((Rel.refl (180 / π)).dbl (by norm_num)) (by norm_num) (by norm_num)).dbl (by norm_num)
  have r2 := (r1.mul ((Rel.refl (π / 180)).dbl (by norm_num)) (by norm_num) (by norm_num)).dbl (by norm_num)
  have e : arccos c * (180 / π) * (π / 180) = arccos c := by field_simp
  rw [e] at r2
  have r3 : |Libm.toRad (Libm.toDeg (M.arccos c)) - arccos c| ≤ 12 * ulp * |arccos c| := r2.mono (by norm_num)
  have h5 : |arccos c| ≤ 4 := by rw [abs_of_nonneg (arccos_nonneg _)]; linarith [arccos_le_pi c, pi_lt_d2]
  have r4 : 12 * ulp * |arccos c| ≤ 12 * ulp * 4 := by gcongr
  calc _ ≤ |Libm.toRad (Libm.toDeg (M.arccos c)) - arccos c| + |arccos c - ρ| := abs_sub_le _ _ _
    _ ≤ 12 * ulp * 4 + 1.4 / 10 ^ 7 := by linarith
    _ ≤ _ := by unfold ulp; norm_num

/-- The radius of an umbra, back in radians. -/
theorem umbra_near {M : Libm} (hM : Accurate M) {c ρ ratio : ℝ} (hc : |c| ≤ 1) (h : |arccos c - ρ| ≤ 1.4 / 10 ^ 7) (hr : 1 ≤ ratio) :
    |Libm.toRad (dbl (Libm.toDeg (M.arccos c) / dbl (√ratio))) - ρ / √ratio| ≤ 2 / 10 ^ 7 := by
  have hp := pi_pos
  have hu := ulp_pos
  have hs1 : 1 ≤ √ratio := by rw [one_le_sqrt]; exact hr
  have hs : √ratio ≠ 0 := by positivity
  have r1 := ((arccos_rel hM hc).mul ((Rel.refl (180 / π)).dbl (by norm_num)) (by norm_num) (by norm_num)).dbl (by norm_num)
  have r1' := (r1.div ((Rel.refl (√ratio)).dbl (by norm_num)) (by norm_num) (by norm_num) (by norm_num) (by norm_num) hs).dbl (by norm_num)
  have r2 := (r1'.mul ((Rel.refl (π / 180)).dbl (by norm_num)) (by norm_num) (by norm_num)).dbl (by norm_num)
  have e : arccos c * (180 / π) / √ratio * (π / 180) = arccos c / √ratio := by field_simp
  rw [e] at r2
  have r3 : |Libm.toRad (dbl (Libm.toDeg (M.arccos c) / dbl (√ratio))) - arccos c / √ratio| ≤ 20 * ulp * |arccos c / √ratio| := r2.mono (by norm_num)
  have h5 : |arccos c / √ratio| ≤ 4 := by
    rw [abs_of_nonneg (div_nonneg (arccos_nonneg _) (by positivity)), div_le_iff₀ (by positivity)]
    nlinarith [arccos_le_pi c, pi_lt_d2]
  have r4 : 20 * ulp * |arccos c / √ratio| ≤ 20 * ulp * 4 := by gcongr
  have h6 : |arccos c / √ratio - ρ / √ratio| ≤ 1.4 / 10 ^ 7 := by
    rw [← sub_div, abs_div, abs_of_pos (by positivity : 0 < √ratio), div_le_iff₀ (by positivity)]
    refine h.trans ?_
    nlinarith
  calc _ ≤ |Libm.toRad (dbl (Libm.toDeg (M.arccos c) / dbl (√ratio))) - arccos c / √ratio| + |arccos c / √ratio - ρ / √ratio| := abs_sub_le _ _ _
    _ ≤ 20 * ulp * 4 + 1.4 / 10 ^ 7 := by linarith
    _ ≤ _ := by unfold ulp; norm_num

/-- The coordinates of a pixel as computed are within 1e-8 of the true ones and the latitude is one. -/
def Spec.Close (lat lon lat' lon' : ℝ) : Prop := |lat - lat'| ≤ 1 / 10 ^ 8 ∧ |lon - lon'| ≤ 1 / 10 ^ 8 ∧ lat' ∈ Set.Icc (-(π / 2)) (π / 2)

theorem close_dist {lat lon lat' lon' : ℝ} (h : Close lat lon lat' lon') (a b : ℝ) :
    |greatCircle a b lat' lon' - greatCircle a b lat lon| ≤ 2 / 10 ^ 8 := by
  have hp := pi_gt_three
  rw [abs_sub_comm]
  refine (abs_greatCircle_sub a b lat lon lat' lon').trans ((greatCircle_le_add _ _ _ _ ?_ ?_).trans ?_)
  · exact h.1.trans (by norm_num; linarith)
  · exact h.2.1.trans (by norm_num; linarith)
  · have := h.1; have := h.2.1
    norm_num at *
    linarith

/-- **C144** (pixels of spots).  Away from its edge by 1e-6 a spot covers the same pixels with rounding as without. -/
theorem C144_spot_pixels_partial (M : Libm) (hM : Accurate M) (a b area R ρ : ℝ) (ha : a ∈ Set.Icc (-(π / 2)) (π / 2)) (hR : 0 < R) (hρ : ρ ∈ Set.Icc 0 π)
    (harea : capArea R ρ = area) (lat lon lat' lon' : ℝ) (hc : Close lat lon lat' lon') (hlon : |b - lon'| ≤ 16) :
    (greatCircle a b lat lon + 1 / 10 ^ 6 ≤ ρ → ρ ≤ π - 1 / 10 ^ 6 → M.inSpot a b area R lat' lon') ∧
    (ρ + 1 / 10 ^ 6 ≤ greatCircle a b lat lon → ¬ M.inSpot a b area R lat' lon') ∧
    ∀ ratio, 1 ≤ ratio →
      (greatCircle a b lat lon + 1 / 10 ^ 6 ≤ ρ / √ratio → ρ ≤ π - 1 / 10 ^ 6 → M.inUmbra a b area ratio R lat' lon') ∧
      (ρ / √ratio + 1 / 10 ^ 6 ≤ greatCircle a b lat lon → ¬ M.inUmbra a b area ratio R lat' lon') := by
  have hcd := abs_le.mp (close_dist hc a b)
  have h0 := greatCircle_nonneg a b lat lon
  have hd := dist_near hM ha hc.2.2 hlon
  have hr := spotRadius_near (M := M) hR.ne' hρ harea
  unfold Libm.inSpot Libm.inUmbra
  have hle : ∀ ratio : ℝ, 1 ≤ ratio → ρ / √ratio ≤ ρ := by
    intro ratio h1
    have hs1 : 1 ≤ √ratio := by rw [one_le_sqrt]; exact h1
    exact div_le_self hρ.1 hs1
  rcases hd with ⟨x, hx, hxn⟩ | ⟨hx, hxn⟩ <;> rcases hr with ⟨c, hr, hc1, hcn⟩ | ⟨hr, hrn⟩ <;> rw [hx, hr] <;> simp only
  · have hxn := abs_le.mp hxn
    have h3 := abs_le.mp (rad_near hM hc1 hcn)
    norm_num at *
    refine ⟨fun h1 h2 => by linarith [hxn.2, h3.1, hcd.2], fun h1 => by linarith [hxn.1, h3.2, hcd.1], fun ratio h1 => ?_⟩
    have h4 := abs_le.mp (umbra_near hM hc1 (by norm_num; exact hcn) h1)
    norm_num at h4
    exact ⟨fun h1 h2 => by linarith [hxn.2, h4.1, hcd.2], fun h1 => by linarith [hxn.1, h4.2, hcd.1]⟩
  · norm_num at *
    refine ⟨fun h1 => ?_, fun ratio h1 h2 => ?_⟩
    · rcases hrn with h | h <;> linarith
    · have := hle ratio h1
      rcases hrn with h | h <;> linarith
  · norm_num at *
    refine ⟨fun h1 => ?_, fun ratio h1 h2 => ?_⟩
    · linarith [hcd.2]
    · have := hle ratio h1
      linarith [hcd.2]
  · norm_num at *
    refine ⟨fun h1 => ?_, fun ratio h1 h2 => ?_⟩
    · rcases hrn with h | h <;> linarith
    · have := hle ratio h1
      rcases hrn with h | h <;> linarith

/-- **C144** (distances).  `get_angle_between` gives the great-circle angle to 2e-7, or NaN, which happens only within 2e-7 of 0 or π;
the distances of pixels to spots and faculae are accurate to 4e-7, or NaN, which happens only within 4e-7 of π. -/
theorem C144_distances_partial (M : Libm) (hM : Accurate M) (a b c d : ℝ) (h : |b - d| ≤ 16) :
    ((∃ x, M.angleBetween a b c d = .fin x ∧ |x - greatCircle a b c d| ≤ 2 / 10 ^ 7) ∨
      (M.angleBetween a b c d = .nan ∧ (greatCircle a b c d ≤ 2 / 10 ^ 7 ∨ π - 2 / 10 ^ 7 ≤ greatCircle a b c d))) ∧
    (a ∈ Set.Icc (-(π / 2)) (π / 2) → c ∈ Set.Icc (-(π / 2)) (π / 2) →
      (∃ x, M.dist a b c d = .fin x ∧ |x - greatCircle a b c d| ≤ 4 / 10 ^ 7) ∨ (M.dist a b c d = .nan ∧ π - 4 / 10 ^ 7 ≤ greatCircle a b c d)) :=
  ⟨angle_near hM a b c d h, fun ha hc => dist_near hM ha hc h⟩

/-- **C144** (pixels of faculae).  Away from its edge by 1e-6 a facula covers the same pixels with rounding as without. -/
theorem C144_facula_pixels_partial (M : Libm) (hM : Accurate M) (a b r R : ℝ) (ha : a ∈ Set.Icc (-(π / 2)) (π / 2)) (hR : 0 < R) (hr : |r| ≤ 1000 * R)
    (lat lon lat' lon' : ℝ) (hc : Close lat lon lat' lon') (hlon : |b - lon'| ≤ 16) :
    (greatCircle a b lat lon + 1 / 10 ^ 6 ≤ r / R → greatCircle a b lat lon ≤ π - 1 / 10 ^ 6 → M.inFacula a b r R lat' lon') ∧
    (r / R + 1 / 10 ^ 6 ≤ greatCircle a b lat lon → ¬ M.inFacula a b r R lat' lon') := by
  have hp := pi_pos
  have hu := ulp_pos
  have hcd := abs_le.mp (close_dist hc a b)
  have hd := dist_near hM ha hc.2.2 hlon
  have r1 := ((Rel.refl r).div (Rel.refl R) (by norm_num) (by norm_num) le_rfl le_rfl hR.ne').dbl (by norm_num)
  have r2 := (r1.mul (Rel.refl 180) (by norm_num) (by norm_num)).dbl (by norm_num)
  have r3 := (r2.div ((Rel.refl π).dbl (by norm_num)) (by norm_num) (by norm_num) (by norm_num) (by norm_num) hp.ne').dbl (by norm_num)
  have r4 := (r3.mul ((Rel.refl (π / 180)).dbl (by norm_num)) (by norm_num) (by norm_num)).dbl (by norm_num)
  have e : r / R * 180 / π * (π / 180) = r / R := by field_simp
  rw [e] at r4
  have r5 : |Libm.toRad (dbl (dbl (dbl (r / R) * 180) / dbl π)) - r / R| ≤ 20 * ulp * |r / R| := r4.mono (by norm_num)
  have h5 : |r / R| ≤ 1000 := by rw [abs_div, abs_of_pos hR, div_le_iff₀ hR]; exact hr
  have r6 : |Libm.toRad (dbl (dbl (dbl (r / R) * 180) / dbl π)) - r / R| ≤ 1 / 10 ^ 9 := by
    calc _ ≤ 20 * ulp * |r / R| := r5
      _ ≤ 20 * ulp * 1000 := by gcongr
      _ ≤ _ := by unfold ulp; norm_num
  have r7 := abs_le.mp r6
  unfold Libm.inFacula
  rcases hd with ⟨x, hx, hxn⟩ | ⟨hx, hxn⟩ <;> rw [hx] <;> simp only
  · have hxn := abs_le.mp hxn
    norm_num at *
    exact ⟨fun h1 h2 => by linarith [hxn.2, r7.1, hcd.2], fun h1 => by linarith [hxn.1, r7.2, hcd.1]⟩
  · norm_num at *
    intro h1
    linarith [hcd.2]

/-- The place is at least 1e-6 away from the edges of the spot and of its umbra; the spot has a radius, not larger than nearly the whole star, and an umbra that is not larger. -/
def Spec.OffEdges (s : StarSpot) (R lat lon : ℝ) : Prop :=
  ∃ a q ρ, s.area = .fin a ∧ s.ratio = .fin q ∧ 1 ≤ q ∧ 0 ≤ ρ ∧ ρ ≤ π - 1 / 10 ^ 6 ∧ capArea R ρ = a ∧
    1 / 10 ^ 6 ≤ |greatCircle s.lat s.lon lat lon - ρ| ∧ 1 / 10 ^ 6 ≤ |greatCircle s.lat s.lon lat lon - ρ / √q|

theorem greatCircle_back (a b lat lon : ℝ) (k : ℤ) : greatCircle a b lat (lon - 2 * π * k) = greatCircle a b lat lon := by
  rw [greatCircle_eq, greatCircle_eq, show b - (lon - 2 * π * k) = b - lon + k * (2 * π) by ring, cos_add_int_mul_two_pi]

/-- **C144** (map).  At every pixel that is 1e-6 away from the edges of all spots the map computed with rounding, at coordinates correct to
1e-8 (up to full turns), holds the temperature of the map computed without. -/
theorem C144_map_partial (M : Libm) (hM : Accurate M) (emb : ℝ → ℝ) (c : SpotCollection) (hc : Measured c) (R T : ℝ) (hR : 0 < R)
    (hlat : ∀ s ∈ c.spots, s.lat ∈ Set.Icc (-(π / 2)) (π / 2)) :
    ∃ m, SpotCollection.mapPixels emb c R T = .ok m ∧ ∀ p lat' lon' (k : ℤ), Close (c.grid.lat p) (c.grid.lon p - 2 * π * k) lat' lon' →
      (∀ s ∈ c.spots, |s.lon - lon'| ≤ 16) → (∀ s ∈ c.spots, OffEdges s R (c.grid.lat p) (c.grid.lon p)) →
      M.mapPixel emb c.spots R T lat' lon' = m p := by
  refine ⟨_, mapFold_eq emb R c.grid c.spots hc _, fun p lat' lon' k hcl hlon hoff => ?_⟩
  unfold Libm.mapPixel
  generalize c.spots = l at *
  generalize c.grid = g at *
  clear hc
  induction l generalizing T with
  | nil => rfl
  | cons s l ih =>
    rw [List.foldl_cons, List.foldl_cons]
    rw [ih _ (fun t ht => hlat t (by simp [ht])) (fun t ht => hlon t (by simp [ht])) (fun t ht => hoff t (by simp [ht]))]
    congr 1
    obtain ⟨a, q, ρ, h1, h2, hq, h0, hpi, harea, e1, e2⟩ := hoff s (by simp)
    have hρ : ρ ∈ Set.Icc 0 π := ⟨h0, by norm_num at hpi; linarith⟩
    obtain ⟨m1, m2, m3, -⟩ := C18_membership s g R a q hR h1 h2 (by linarith) p
    obtain ⟨n1, n2, n3⟩ := C144_spot_pixels_partial M hM s.lat s.lon a R ρ (hlat s (by simp)) hR hρ harea _ _ _ _ hcl (hlon s (by simp))
    obtain ⟨n3, n4⟩ := n3 q hq
    rw [greatCircle_back] at n1 n2 n3 n4
    have uniq : ∀ θ ∈ Set.Icc 0 π, capArea R θ = a → θ = ρ := by
      intro θ hθ he
      rcases lt_trichotomy θ ρ with h | h | h
      · have := capArea_strictMono hR hθ.1 h hρ.2; linarith
      · exact h
      · have := capArea_strictMono hR h0 h hθ.2; linarith
    have i1 : M.inSpot s.lat s.lon a R lat' lon' ↔ inSpot s g R p := by
      rw [inSpot, m1]
      constructor
      · intro h
        refine ⟨ρ, hρ, harea, ?_⟩
        by_contra hcon
        rw [abs_of_nonneg (by linarith)] at e1
        exact n2 (by linarith) h
      · rintro ⟨θ, hθ, he, h⟩
        rw [uniq θ hθ he] at h
        rw [abs_of_neg (by linarith)] at e1
        exact n1 (by linarith) hpi
    have i2 : s.teffUmbra ≠ s.teffPenumbra → (M.inUmbra s.lat s.lon a q R lat' lon' ↔ inUmbra s g R p) := by
      intro hne
      rw [inUmbra, m2 hne]
      constructor
      · intro h
        refine ⟨ρ, hρ, harea, ?_⟩
        by_contra hcon
        rw [abs_of_nonneg (by linarith)] at e2
        exact n4 (by linarith) h
      · rintro ⟨θ, hθ, he, h⟩
        rw [uniq θ hθ he] at h
        rw [abs_of_neg (by linarith)] at e2
        exact n3 (by linarith) hpi
    rw [h1, h2]
    simp only
    rw [propext i1]
    by_cases he : s.teffUmbra = s.teffPenumbra
    · rw [if_pos he]
      have : inUmbra s g R p = inSpot s g R p := propext (m3 he)
      rw [this]
    · rw [if_neg he, propext (i2 he)]

/-! ## An angle that is not a number -/

/-- With an angle that is not a number the share of the wall is not a number. -/
theorem fractional_nan {f : Facula} {d : Dict ℤ Fl} (h : f.fractionalEffectiveArea .nan = .ok d) : ∃ k rest, d = (k, Fl.nan) :: rest := by
  have two : ∀ x y d', f.twoKeys x y = .ok d' → x = .nan → (y = .nan ∨ y = .fin 0) → ∃ k rest, (d'.map fun kv => (kv.1, kv.2 / d'.values.sum)) = (k, Fl.nan) :: rest := by
    rintro x y d' hd rfl hy
    unfold Facula.twoKeys at hd
    cases hw : Helpers.roundTeff f.wallDteff with
    | error e => rw [hw] at hd; cases hd
    | ok kw =>
      cases hf : Helpers.roundTeff f.floorDteff with
      | error e => rw [hw, hf] at hd; cases hd
      | ok kf =>
        rw [hw, hf] at hd
        cases hd
        by_cases hk : kw = kf
        · subst hk
          rcases hy with rfl | rfl
          · exact ⟨kw, [], by simp [Dict.set, Dict.values]⟩
          · exact ⟨kw, [], by simp [Dict.set, Dict.values, Fl.fin_div_zero, Fl.infTimes]⟩
        · rcases hy with rfl | rfl
          · exact ⟨kw, [(kf, _)], by simp [Dict.set, Dict.values, hk]; rfl⟩
          · exact ⟨kw, [(kf, _)], by simp [Dict.set, Dict.values, hk]; rfl⟩
  have hcos : Fl.cos .nan = .nan := rfl
  unfold Facula.fractionalEffectiveArea at h
  cases hd : f.effectiveArea .nan with
  | error e => rw [hd] at h; cases h
  | ok d' =>
    rw [hd] at h
    cases h
    unfold Facula.effectiveArea at hd
    simp only [hcos, Fl.mul_nan] at hd
    split_ifs at hd with h1 h2
    · exact two _ _ _ hd rfl (Or.inr rfl)
    · cases hc : Helpers.circFraction (Fl.fin f.depth / f.radius * Fl.tan Fl.nan) (.fin 0) (.fin 1) with
      | error e => rw [hc] at hd; cases hd
      | ok frac =>
        rw [hc] at hd
        exact two _ _ _ hd rfl (Or.inl rfl)

/-- A facula that covers a pixel is refused when its angle to the observer is not a number. -/
theorem addFaculaFloat_raises (M : Libm) (s : Star) (lat0 lon0 : ℝ) (cur : s.grid.Pix → ℝ) (f : Facula) (hc : ∃ p, (f.inside s.radius).2 p)
    (hn : M.angleBetween lat0 lon0 f.lat f.lon = .nan) : ∃ e, s.addFaculaFloat M lat0 lon0 cur f = .error e := by
  unfold Star.addFaculaFloat
  simp only [hn]
  rw [if_neg (not_not.mpr hc)]
  cases hd : f.fractionalEffectiveArea .nan with
  | error e => exact ⟨e, rfl⟩
  | ok d =>
    obtain ⟨k, rest, rfl⟩ := fractional_nan hd
    cases hi : (f.inside s.radius).on s.grid .indexError with
    | error e => exact ⟨e, rfl⟩
    | ok ins =>
      change ∃ e, s.paintFacula lat0 lon0 ins ((k, Fl.nan) :: rest) cur = .error e
      unfold Star.paintFacula
      match rest with
      | [] => exact ⟨_, rfl⟩
      | [(_, _)] => exact ⟨.valueError, rfl⟩
      | _ :: _ :: _ => exact ⟨_, rfl⟩

theorem foldlM_raises {α β : Type} (step : β → α → Py β) (a : α) (ha : ∀ b, ∃ e, step b a = .error e) (l : List α) (hl : a ∈ l) (b : β) :
    ∃ e, l.foldlM step b = (.error e : Py β) := by
  induction l generalizing b with
  | nil => cases hl
  | cons x l ih =>
    rw [List.foldlM_cons]
    cases hx : step b x with
    | error e => exact ⟨e, rfl⟩
    | ok b' =>
      rcases List.mem_cons.mp hl with rfl | h
      · obtain ⟨e, he⟩ := ha b
        rw [he] at hx; cases hx
      · exact ih h b'

/-- A star with such a facula has no map. -/
theorem addFaculaeToMapFloat_raises (M : Libm) (s : Star) (lat0 lon0 : ℝ) (f : Facula) (hf : f ∈ s.faculae.faculae) (hc : ∃ p, (f.inside s.radius).2 p)
    (hn : M.angleBetween lat0 lon0 f.lat f.lon = .nan) : ∃ e, s.addFaculaeToMapFloat M lat0 lon0 = .error e := by
  unfold Star.addFaculaeToMapFloat
  cases hm : s.map with
  | error e => exact ⟨e, rfl⟩
  | ok m =>
    cases hm' : Field.on ⟨s.spots.grid, m⟩ s.grid .indexError with
    | error e => exact ⟨e, by rw [bind, Except.instMonad]; simp only [Except.bind]; rw [hm']⟩
    | ok m' =>
      obtain ⟨e, he⟩ := foldlM_raises (fun cur f => s.addFaculaFloat M lat0 lon0 cur f) f (fun b => addFaculaFloat_raises M s lat0 lon0 b f hc hn) _ hf m'
      refine ⟨e, ?_⟩
      change (Field.on ⟨s.spots.grid, m⟩ s.grid .indexError >>= fun m' => s.faculae.faculae.foldlM (fun cur f => s.addFaculaFloat M lat0 lon0 cur f) m') = _
      rw [hm']
      exact he

theorem exp_I_sum (x : ℝ) (n : ℕ) : ∑ m ∈ Finset.range (2 * n), ((x : ℂ) * Complex.I) ^ m / m.factorial =
    ((∑ k ∈ Finset.range n, (-1) ^ k * x ^ (2 * k) / (2 * k).factorial : ℝ) : ℂ) +
      ((∑ k ∈ Finset.range n, (-1) ^ k * x ^ (2 * k + 1) / (2 * k + 1).factorial : ℝ) : ℂ) * Complex.I := by
  induction n with
  | zero => simp
  | succ n ih =>
    rw [show 2 * (n + 1) = 2 * n + 1 + 1 by ring, Finset.sum_range_succ, Finset.sum_range_succ, ih, Finset.sum_range_succ, Finset.sum_range_succ]
    have h1 : ((x : ℂ) * Complex.I) ^ (2 * n) = (-1) ^ n * (x : ℂ) ^ (2 * n) := by
      rw [mul_pow, pow_mul Complex.I, Complex.I_sq]; ring
    rw [pow_succ, h1]
    push_cast
    ring

/-- Sine and cosine by their series. -/
theorem series_near {x : ℝ} {n : ℕ} (hx : |x| / ((2 * n : ℕ).succ : ℝ) ≤ 1 / 2) :
    |sin x - ∑ k ∈ Finset.range n, (-1) ^ k * x ^ (2 * k + 1) / (2 * k + 1).factorial| ≤ |x| ^ (2 * n) / (2 * n).factorial * 2 ∧
    |cos x - ∑ k ∈ Finset.range n, (-1) ^ k * x ^ (2 * k) / (2 * k).factorial| ≤ |x| ^ (2 * n) / (2 * n).factorial * 2 := by
  have hn : ‖(x : ℂ) * Complex.I‖ = |x| := by simp
  have h := Complex.exp_bound' (x := (x : ℂ) * Complex.I) (n := 2 * n) (by rw [hn]; exact hx)
  rw [hn, exp_I_sum] at h
  generalize (∑ k ∈ Finset.range n, (-1) ^ k * x ^ (2 * k + 1) / ((2 * k + 1).factorial : ℝ)) = a at *
  generalize (∑ k ∈ Finset.range n, (-1) ^ k * x ^ (2 * k) / ((2 * k).factorial : ℝ)) = b at *
  constructor
  · refine le_trans ?_ h
    refine le_trans (le_of_eq ?_) (Complex.abs_im_le_norm _)
    simp [Complex.exp_ofReal_mul_I_im]
  · refine le_trans ?_ h
    refine le_trans (le_of_eq ?_) (Complex.abs_re_le_norm _)
    simp [Complex.exp_ofReal_mul_I_re]

theorem dbl_eq {x : ℝ} {e k : ℤ} (h1 : (2 : ℝ) ^ (e + 52) ≤ x) (h2 : x < (2 : ℝ) ^ (e + 53)) (h3 : |x / 2 ^ e - k| < 1 / 2) : dbl x = k * 2 ^ e := by
  have hx : 0 < x := lt_of_lt_of_le (by positivity) h1
  have hl : Int.log 2 |x| = e + 52 := by
    rw [abs_of_pos hx]
    apply le_antisymm
    · have : Int.log 2 x < e + 53 := (Int.lt_zpow_iff_log_lt (by norm_num) hx).mp (by push_cast; exact h2)
      omega
    · exact (Int.zpow_le_iff_le_log (by norm_num) hx).mp (by push_cast; exact h1)
  unfold dbl roundBits
  simp only
  rw [hl, show e + 52 - (((53 : ℕ) : ℤ) - 1) = e by push_cast; ring]
  congr 2
  have h4 := abs_roundHalfEven_sub_le (x / 2 ^ e)
  have h5 : |((roundHalfEven (x / 2 ^ e) - k : ℤ) : ℝ)| < 1 := by
    push_cast
    calc _ ≤ |(roundHalfEven (x / 2 ^ e) : ℝ) - x / 2 ^ e| + |x / 2 ^ e - k| := abs_sub_le _ _ _
      _ < _ := by linarith
  rw [← Int.cast_abs] at h5
  have h6 : |roundHalfEven (x / 2 ^ e) - k| < 1 := by exact_mod_cast h5
  have := Int.abs_lt_one_iff.mp h6
  omega

theorem sin_place : dbl (sin (251 / 256)) = 7482806293271830 / 2 ^ 53 := by
  have h := (series_near (x := 251 / 256) (n := 11) (by norm_num)).1
  have h := abs_le.mp h
  norm_num [Finset.sum_range_succ, Nat.factorial] at h
  rw [dbl_eq (e := -53) (k := 7482806293271830)]
  · norm_num
  · norm_num; linarith [h.1]
  · norm_num; linarith [h.2]
  · rw [abs_lt]; norm_num; constructor <;> linarith [h.1, h.2]

theorem cos_place : dbl (cos (251 / 256)) = 5013706053607270 / 2 ^ 53 := by
  have h := (series_near (x := 251 / 256) (n := 11) (by norm_num)).2
  have h := abs_le.mp h
  norm_num [Finset.sum_range_succ, Nat.factorial] at h
  rw [dbl_eq (e := -53) (k := 5013706053607270)]
  · norm_num
  · norm_num; linarith [h.1]
  · norm_num; linarith [h.2]
  · rw [abs_lt]; norm_num; constructor <;> linarith [h.1, h.2]

/-- The angle between a point at latitude 251/256 and itself is not a number. -/
theorem angle_nan (lon : ℝ) : Libm.rounded.angleBetween (251 / 256) lon (251 / 256) lon = .nan := by
  have d1 : dbl 1 = 1 := by
    rw [dbl_eq (e := -52) (k := 2 ^ 52)] <;> norm_num
  have s2 : dbl ((7482806293271830 / 2 ^ 53 : ℝ) * (7482806293271830 / 2 ^ 53)) = 6216404060691406 / 2 ^ 53 := by
    rw [dbl_eq (e := -53) (k := 6216404060691406)] <;> norm_num [abs_lt]
  have c2 : dbl ((5013706053607270 / 2 ^ 53 : ℝ) * (5013706053607270 / 2 ^ 53)) = 5581590388099175 / 2 ^ 54 := by
    rw [dbl_eq (e := -54) (k := 5581590388099175)] <;> norm_num [abs_lt]
  have c3 : dbl (5581590388099175 / 2 ^ 54 : ℝ) = 5581590388099175 / 2 ^ 54 := by
    rw [dbl_eq (e := -54) (k := 5581590388099175)] <;> norm_num [abs_lt]
  have m : dbl (6216404060691406 / 2 ^ 53 + 5581590388099175 / 2 ^ 54 : ℝ) = 1 + 1 / 2 ^ 52 := by
    rw [dbl_eq (e := -52) (k := 2 ^ 52 + 1)] <;> norm_num [abs_lt]
  have : Libm.rounded.mu (251 / 256) lon (251 / 256) lon = 1 + 1 / 2 ^ 52 := by
    unfold Libm.mu Libm.rounded
    simp only [sub_self, dbl_zero, cos_zero, d1, mul_one]
    rw [sin_place, cos_place, s2, c2, c3, m]
  unfold Libm.angleBetween
  simp only [this]
  rw [if_neg (by norm_num)]

/-- **C144** (faculae, answers).  `add_faculae_to_map` returns a map when no facula is within 1e-6 of the disk centre, its antipode or the limb. -/
theorem C144_answers_partial (M : Libm) (hM : Accurate M) (s : Star) (lat0 lon0 : ℝ) (hgrid : s.spots.grid = s.grid) (hs : Measured s.spots)
    (hf : ∀ f ∈ s.faculae.faculae, f.grid = s.grid ∧ |lon0 - f.lon| ≤ 16 ∧ (∃ r, f.radius = .fin r ∧ 0 < r ∧ wallKey f r ≠ floorKey f r) ∧
      1 / 10 ^ 6 ≤ greatCircle lat0 lon0 f.lat f.lon ∧ greatCircle lat0 lon0 f.lat f.lon ≤ π - 1 / 10 ^ 6 ∧
      1 / 10 ^ 6 ≤ |greatCircle lat0 lon0 f.lat f.lon - π / 2|) :
    ∃ m, s.addFaculaeToMapFloat M lat0 lon0 = .ok m := by
  have one : ∀ f ∈ s.faculae.faculae, ∀ cur, ∃ m, s.addFaculaFloat M lat0 lon0 cur f = .ok m := by
    intro f hm cur
    obtain ⟨hg, hl, ⟨r, h, hr, hk⟩, h1, h2, h3⟩ := hf f hm
    rcases angle_near hM lat0 lon0 f.lat f.lon hl with ⟨x, hx, hxn⟩ | ⟨-, hh⟩
    · have hp := pi_gt_three
      have hxn := abs_le.mp hxn
      have h0 := greatCircle_nonneg lat0 lon0 f.lat f.lon
      have hcos : cos x ≠ 0 := by
        intro hc
        have hx0 : 0 ≤ x := by norm_num at *; linarith [hxn.1]
        have hx1 : x ≤ π := by norm_num at *; linarith [hxn.2]
        have : x = π / 2 := by
          have := arccos_cos hx0 hx1
          rw [hc, arccos_zero] at this
          exact this.symm
        subst this
        rcases le_abs.mp h3 with h3 | h3
        · norm_num at *; linarith [hxn.1, hxn.2]
        · norm_num at *; linarith [hxn.1, hxn.2]
      classical
      unfold Star.addFaculaFloat
      simp only [hx]
      by_cases hex : ∃ p, (f.inside s.radius).2 p
      · rw [if_neg (not_not.mpr hex), inside_on hg]
        rw [fractional_cos h hr hk hcos]
        obtain ⟨b, hb⟩ := percentile_ok ((Finset.univ.filter fun p => inFacula f s.radius s.grid p).val.map (s.mu lat0 lon0))
          (wallShare f r x) (wallShare_mem _ _ _).1 (wallShare_mem _ _ _).2
        simp only [bind, Except.bind, Star.paintFacula]
        rw [hb]
        exact ⟨_, rfl⟩
      · rw [if_pos hex]
        exact ⟨_, rfl⟩
    · exfalso
      norm_num at *
      rcases hh with hh | hh <;> linarith
  obtain ⟨m₀, hm₀, -⟩ := map_exists hgrid hs
  unfold Star.addFaculaeToMapFloat
  rw [hm₀]
  have hon : Field.on ⟨s.spots.grid, m₀⟩ s.grid .indexError = .ok fun p => m₀ (hgrid ▸ p) := by
    unfold Field.on
    exact dif_pos hgrid
  simp only [bind, Except.bind]
  rw [hon]
  simp only
  generalize (fun p => m₀ (hgrid ▸ p)) = cur
  clear hf
  generalize s.faculae.faculae = l at one
  induction l generalizing cur with
  | nil => exact ⟨_, rfl⟩
  | cons f l ih =>
    obtain ⟨m, hm⟩ := one f (by simp) cur
    rw [List.foldlM_cons, hm]
    exact ih m (fun t ht => one t (by simp [ht]))

/-- The full statement of C144 is false of the code: the angle of a point to itself may be not a number, and a star with a facula at the centre
of the disk may have no map (see the instance). -/
theorem C144_counterexample : Accurate Libm.rounded ∧ ∀ lon0,
    Helpers.angleBetween (251 / 256) lon0 (251 / 256) lon0 = .fin 0 ∧ Libm.rounded.angleBetween (251 / 256) lon0 (251 / 256) lon0 = .nan ∧
    ∀ (s : Star) (f : Facula), f ∈ s.faculae.faculae → f.lat = 251 / 256 → f.lon = lon0 → (∃ p, (f.inside s.radius).2 p) →
      ∃ e, s.addFaculaeToMapFloat Libm.rounded (251 / 256) lon0 = .error e := by
  refine ⟨rounded_accurate, fun lon0 => ⟨?_, angle_nan lon0, ?_⟩⟩
  · rw [angleBetween_eq, greatCircle_eq, sub_self, cos_zero, mul_one, ← sq, ← sq, sin_sq_add_cos_sq, arccos_one]
  · rintro s f hf h1 rfl hc
    exact addFaculaeToMapFloat_raises _ s _ _ f hf hc (by rw [h1]; exact angle_nan _)

/-- A star with one facula, 56 degrees north. -/
def Spec.northFacula : Star := sampleStar (.rect 5 4) [] [{ sampleFacula (.rect 5 4) with lat := 251 / 256 }]

theorem northFacula_keys : wallKey { sampleFacula (.rect 5 4) with lat := 251 / 256 } 1 ≠ floorKey { sampleFacula (.rect 5 4) with lat := 251 / 256 } 1 := by
  have := sampleFacula_keys (.rect 5 4)
  exact this

theorem northFacula_covers : ∃ p, (({ sampleFacula (.rect 5 4) with lat := 251 / 256 } : Facula).inside northFacula.radius).2 p := by
  obtain ⟨l1, -⟩ := (C01_rect_layout 5 4 (by omega)).2.2 ⟨0, by omega⟩ ⟨4, by omega⟩
  refine ⟨(⟨0, by omega⟩, ⟨4, by omega⟩), ?_⟩
  change inFacula { sampleFacula (.rect 5 4) with lat := 251 / 256 } 1 (.rect 5 4) _
  rw [inFacula_pixel (r := 1) rfl one_ne_zero, greatCircle_eq, l1]
  have e : (-(π / 2) + ((4 : ℕ) : ℝ) * (π / (((5 : ℕ) : ℝ) - 1)) : ℝ) = π / 2 := by push_cast; ring
  rw [e, sin_pi_div_two, cos_pi_div_two]
  simp only [mul_one, mul_zero, zero_mul, add_zero]
  rw [← cos_pi_div_two_sub, arccos_cos (by linarith [pi_gt_three]) (by linarith [pi_gt_three])]
  linarith [pi_lt_d2]

/-- Non-trivial instance of the counterexample: seen from above the facula the map exists without rounding and does not exist with it. -/
example : (∃ m, northFacula.addFaculaeToMap (251 / 256) 0 = .ok m) ∧ ∃ e, northFacula.addFaculaeToMapFloat Libm.rounded (251 / 256) 0 = .error e := by
  refine ⟨?_, (C144_counterexample.2 0).2.2 northFacula _ (List.mem_singleton.mpr rfl) rfl rfl northFacula_covers⟩
  obtain ⟨m₀, hm₀, -⟩ := map_exists (s := northFacula) rfl (measured_new _ _)
  refine C70_overlay_total _ _ _ m₀ rfl hm₀ ?_
  intro f hf
  rw [show northFacula.faculae.faculae = [{ sampleFacula (.rect 5 4) with lat := 251 / 256 }] from rfl, List.mem_singleton] at hf
  subst hf
  refine ⟨rfl, ?_, 1, rfl, one_pos, northFacula_keys⟩
  unfold cosDist
  rw [inner_unitVec]
  simp only [sampleFacula, sub_self, cos_zero, mul_one]
  have := sin_sq_add_cos_sq (251 / 256 : ℝ)
  intro h
  have h' : sin (251 / 256) ^ 2 + cos (251 / 256) ^ 2 = (0 : ℝ) := by rw [← h]; ring
  linarith

/-- Non-trivial instance of C144 (answers): seen from the equator the star has a map. -/
example (M : Libm) (hM : Accurate M) : ∃ m, northFacula.addFaculaeToMapFloat M 0 0 = .ok m := by
  refine C144_answers_partial M hM _ 0 0 rfl (measured_new _ _) ?_
  intro f hf
  rw [show northFacula.faculae.faculae = [{ sampleFacula (.rect 5 4) with lat := 251 / 256 }] from rfl, List.mem_singleton] at hf
  subst hf
  have hp := pi_gt_three
  have e : greatCircle 0 0 (251 / 256) 0 = 251 / 256 := by
    rw [greatCircle_eq]
    simp only [sin_zero, cos_zero, zero_mul, one_mul, sub_self, mul_one, zero_add]
    rw [arccos_cos (by norm_num) (by linarith)]
  refine ⟨rfl, by simp [sampleFacula], ⟨1, rfl, one_pos, northFacula_keys⟩, ?_, ?_, ?_⟩
  · change _ ≤ greatCircle 0 0 (251 / 256) 0
    rw [e]; norm_num
  · change greatCircle 0 0 (251 / 256) 0 ≤ _
    rw [e]; norm_num; linarith
  · change _ ≤ |greatCircle 0 0 (251 / 256) 0 - _|
    rw [e, abs_of_neg (by linarith)]; norm_num; linarith

theorem dist_meridian {x : ℝ} (h0 : 0 ≤ x) (h1 : x ≤ π) : greatCircle 0 0 x 0 = x := by
  rw [greatCircle_eq]
  simp only [sin_zero, cos_zero, zero_mul, one_mul, sub_self, mul_one, zero_add]
  exact arccos_cos h0 h1

theorem cap_third : capArea 1 (π / 3) = π := by
  unfold capArea
  rw [cos_pi_div_three]
  ring

/-- Non-trivial instance of C144 (spot pixels): 45 degrees from its centre a spot of radius 60 degrees is seen but not its umbra of radius 30 degrees,
and 45 degrees from its centre a facula of radius 57 degrees is seen but not one of radius 29 degrees. -/
example (M : Libm) (hM : Accurate M) : M.inSpot 0 0 π 1 (π / 4) 0 ∧ ¬ M.inUmbra 0 0 π 4 1 (π / 4) 0 ∧
    M.inFacula 0 0 1 1 (π / 4) 0 ∧ ¬ M.inFacula 0 0 (1 / 2) 1 (π / 4) 0 := by
  have hp := pi_gt_three
  have hp' := pi_lt_d2
  have hc : Close (π / 4) 0 (π / 4) 0 := ⟨by simp, by simp, by constructor <;> linarith⟩
  have h0 : (0 : ℝ) ∈ Set.Icc (-(π / 2)) (π / 2) := ⟨by linarith, by linarith⟩
  have hd := dist_meridian (x := π / 4) (by linarith) (by linarith)
  obtain ⟨n1, -, n3⟩ := C144_spot_pixels_partial M hM 0 0 π 1 (π / 3) h0 one_pos ⟨by linarith, by linarith⟩ cap_third _ _ _ _ hc (by norm_num)
  obtain ⟨m1, -⟩ := C144_facula_pixels_partial M hM 0 0 1 1 h0 one_pos (by norm_num) _ _ _ _ hc (by norm_num)
  obtain ⟨-, m2⟩ := C144_facula_pixels_partial M hM 0 0 (1 / 2) 1 h0 one_pos (by norm_num [abs_of_pos]) _ _ _ _ hc (by norm_num)
  rw [hd] at *
  have e : √(4 : ℝ) = 2 := by rw [show (4 : ℝ) = 2 ^ 2 by norm_num]; exact sqrt_sq (by norm_num)
  refine ⟨n1 (by norm_num; linarith) (by norm_num; linarith), (n3 4 (by norm_num)).2 (by rw [e]; norm_num; linarith), m1 (by norm_num; linarith) (by norm_num; linarith),
    m2 (by norm_num; linarith)⟩

/-- Non-trivial instance of C144 (map). -/
example (M : Libm) (hM : Accurate M) : let c := SpotCollection.new [.new 0 0 4 (.fin π) 2500 2700 (.fin 4) true 1 1 (.rect 5 4)] (.rect 5 4); ∃ m,
    SpotCollection.mapPixels id c 1 3000 = .ok m ∧ M.mapPixel id c.spots 1 3000 (π / 4) 0 = m (⟨0, by decide⟩, ⟨3, by decide⟩) := by
  intro c
  have hp := pi_gt_three
  have hp' := pi_lt_d2
  have h0 : (0 : ℝ) ∈ Set.Icc (-(π / 2)) (π / 2) := ⟨by linarith, by linarith⟩
  have hcs : ∀ s ∈ c.spots, s.lat = 0 ∧ s.lon = 0 ∧ s.area = .fin π ∧ s.ratio = .fin 4 := by
    intro s hs
    simp only [c, SpotCollection.new, SpotCollection.setGridmaker, List.map_cons, List.map_nil, List.mem_singleton] at hs
    subst hs
    exact ⟨rfl, rfl, rfl, rfl⟩
  obtain ⟨m, hm, h⟩ := C144_map_partial M hM id c (measured_new _ _) 1 3000 one_pos (fun s hs => by rw [(hcs s hs).1]; exact h0)
  refine ⟨m, hm, h _ _ _ 0 ?_ (fun s hs => by rw [(hcs s hs).2.1]; norm_num) (fun s hs => ?_)⟩
  all_goals
    obtain ⟨l1, l2, -⟩ := (C01_rect_layout 5 4 (by omega)).2.2 ⟨0, by omega⟩ ⟨3, by omega⟩
    have e1 : (-(π / 2) + ((3 : ℕ) : ℝ) * (π / (((5 : ℕ) : ℝ) - 1)) : ℝ) = π / 4 := by push_cast; ring
    have l1 : c.grid.lat (⟨0, by decide⟩, ⟨3, by decide⟩) = π / 4 := l1.trans e1
    have l2 : c.grid.lon (⟨0, by decide⟩, ⟨3, by decide⟩) = 0 := l2.trans (by simp)
  · rw [l1, l2]
    exact ⟨by simp, by simp, by constructor <;> linarith⟩
  · obtain ⟨g1, g2, g3, g4⟩ := hcs s hs
    have e : √(4 : ℝ) = 2 := by rw [show (4 : ℝ) = 2 ^ 2 by norm_num]; exact sqrt_sq (by norm_num)
    refine ⟨π, 4, π / 3, g3, g4, by norm_num, by linarith, by norm_num; linarith, cap_third, ?_, ?_⟩
    · rw [l1, l2, g1, g2, dist_meridian (by linarith) (by linarith), abs_of_neg (by linarith)]; norm_num; linarith
    · rw [l1, l2, g1, g2, dist_meridian (by linarith) (by linarith), e, abs_of_pos (by linarith)]; norm_num; linarith

/-- Non-trivial instance of C144 (distances). -/
example (M : Libm) (hM : Accurate M) : ∃ x, M.angleBetween 0 0 (π / 4) 0 = .fin x ∧ |x - π / 4| ≤ 2 / 10 ^ 7 := by
  have hp := pi_gt_three
  obtain ⟨h, -⟩ := C144_distances_partial M hM 0 0 (π / 4) 0 (by norm_num)
  rw [dist_meridian (by linarith) (by linarith)] at h
  rcases h with h | ⟨-, h | h⟩
  · exact h
  · norm_num at h; linarith
  · norm_num at h; linarith

end Vsm
