import Verif.Model.FloatTransit
import Verif.Props.FloatReport
import Verif.Props.Projection
import Verif.Props.FloatAll
import Mathlib.Analysis.Real.Pi.Bounds

/-!
# C156: where the planet's shadow falls, computed in double precision

`proj_ortho` and the tests of `get_transit_mask` with rounding: the error of the picture of a point on the disk, which pixels are left free and which are
covered, and a place at which the pixel at the centre of the disk is lost.
-/

noncomputable section

namespace Vsm

open Real Np Spec

theorem ulp_tight : ulp ≤ 1.12 / 10 ^ 16 := by unfold ulp; norm_num

theorem colat_near {t : ℝ} (h : |t| ≤ π / 2) : |dbl (dbl π / 2 - t) - (π / 2 - t)| ≤ 7 * ulp := by
  have hu := ulp_pos
  have hs := ulp_small
  have hp := pi_gt_three
  have hp' := pi_lt_d2
  have e := dbl_err π
  rw [abs_of_pos pi_pos] at e
  have e1 : |dbl π / 2 - t - (π / 2 - t)| ≤ 2 * ulp := by
    rw [show dbl π / 2 - t - (π / 2 - t) = (dbl π - π) / 2 by ring, abs_div, abs_of_pos (by norm_num : (0 : ℝ) < 2)]
    nlinarith
  have := dbl_abs e1 (B := 3.15) (by rw [abs_le] at h ⊢; constructor <;> linarith [h.1, h.2]) (by norm_num at hs; linarith)
  nlinarith

/-- The cosine of the computed distance, and its sine. -/
theorem arc_near {M : Libm} (hM : Accurate M) {m μ : ℝ} (hm : Near 37 m μ) (h1 : |m| ≤ 1) (h0 : 0 ≤ m) :
    Near 46 (M.cos (M.arccos m)) μ ∧ 0 ≤ sin (M.arccos m) ∧ |sin (M.arccos m) ^ 2 - (1 - μ ^ 2)| ≤ 89 * ulp := by
  have hu := ulp_pos
  have hs := ulp_small
  have hp := pi_gt_three
  have hp' := pi_lt_d2
  norm_num at hs
  have hr := arccos_rel hM h1
  have ha0 := arccos_nonneg m
  have ha1 : arccos m ≤ π / 2 := arccos_le_pi_div_two.mpr h0
  have e : |M.arccos m - arccos m| ≤ 4 * ulp := by
    have := hr.err (A := 2) (by rw [abs_of_nonneg ha0]; linarith) (by norm_num)
    linarith
  have hcos := near_cos hM e
  rw [cos_arccos (abs_le.mp h1).1 (abs_le.mp h1).2] at hcos
  have hc2 : |cos (M.arccos m) - m| ≤ 4 * ulp := by
    have := (abs_cos_sub_cos_le (M.arccos m) (arccos m)).trans e
    rwa [cos_arccos (abs_le.mp h1).1 (abs_le.mp h1).2] at this
  have hsplit : |cos (M.arccos m) - μ| ≤ 41 * ulp := by
    have := abs_sub_le (cos (M.arccos m)) m μ
    linarith [hm.1]
  refine ⟨⟨?_, hm.2⟩, ?_, ?_⟩
  · have := abs_sub_le (M.cos (M.arccos m)) m μ
    linarith [hm.1, hcos.1]
  · have h2 := abs_le.mp e
    rcases le_or_gt 0 (M.arccos m) with h | h
    · exact sin_nonneg_of_nonneg_of_le_pi h (by linarith [h2.2])
    · -- a negative result would have a relative error above one
      have h3 : |M.arccos m - arccos m| ≤ 2 * ulp * |arccos m| := hr
      rw [abs_of_nonneg ha0, abs_of_neg (by linarith)] at h3
      nlinarith
  · rw [sin_sq, show 1 - cos (M.arccos m) ^ 2 - (1 - μ ^ 2) = (μ - cos (M.arccos m)) * (μ + cos (M.arccos m)) by ring, abs_mul]
    have k1 : |μ - cos (M.arccos m)| ≤ 41 * ulp := by rw [abs_sub_comm]; exact hsplit
    have k2 : |μ + cos (M.arccos m)| ≤ 2 := (abs_add_le _ _).trans (by linarith [hm.2, abs_cos_le_one (M.arccos m)])
    calc _ ≤ 41 * ulp * 2 := by gcongr
      _ ≤ _ := by linarith

/-- The computed sine of the distance. -/
theorem sin_arc {M : Libm} (hM : Accurate M) {a s V : ℝ} (h0 : 0 ≤ sin a) (hs : 0 < s) (hV : V = s ^ 2) (h : |sin a ^ 2 - V| ≤ 89 * ulp) :
    |M.sin a - s| ≤ 89 * ulp / s + 2 * ulp := by
  have hu := ulp_pos
  have e : |sin a - s| ≤ 89 * ulp / s := by
    rw [le_div_iff₀ hs]
    calc |sin a - s| * s ≤ |sin a - s| * |sin a + s| := by
          gcongr
          rw [abs_of_nonneg (by linarith)]
          linarith
      _ = |sin a ^ 2 - V| := by rw [← abs_mul, hV]; congr 1; ring
      _ ≤ _ := h
  have h1 := hM.1 a
  have h3 : |sin a| * (1 / 2 ^ 52) ≤ 2 * ulp := by
    unfold ulp
    have := abs_sin_le_one a
    calc _ ≤ 1 * (1 / 2 ^ 52 : ℝ) := by gcongr
      _ = _ := by norm_num
  have := abs_sub_le (M.sin a) (sin a) s
  linarith

/-- The quotient in `proj_ortho`. -/
theorem quotient_near {num N A s B κ : ℝ} (hs0 : 1 / 10 ^ 4 ≤ s) (hκ0 : 1 / 10 ^ 4 ≤ κ) (hN : |N| ≤ s * κ)
    (hnum : |num - N| ≤ 100 * ulp) (hA : |A - s| ≤ 10 ^ 6 * ulp) (hB : |B - κ| ≤ 10 * ulp) :
    dbl (A * B) ≠ 0 ∧ |dbl (num / dbl (A * B)) - N / (s * κ)| ≤ 3 / 10 ^ 6 := by
  have hu := ulp_pos
  have hs := ulp_tight
  norm_num at hs hs0 hκ0
  have hs' : 0 < s := by linarith
  have hκ' : 0 < κ := by linarith
  set D := s * κ with hD
  have hD0 : 1 / 10 ^ 8 ≤ D := by
    rw [hD]
    calc (1 / 10 ^ 8 : ℝ) = (1 / 10000) * (1 / 10000) := by norm_num
      _ ≤ _ := by gcongr
  norm_num at hD0
  have hA' := abs_le.mp hA
  have hB' := abs_le.mp hB
  have e1 : |A * B - D| ≤ 1.2 / 10 ^ 6 * D := by
    rw [show A * B - D = (A - s) * B + s * (B - κ) by rw [hD]; ring]
    have k1 : |(A - s) * B| ≤ 1.19 / 10 ^ 6 * D := by
      rw [abs_mul]
      have hBpos : |B| ≤ 1.0001 * κ := by
        rw [abs_le]
        constructor <;> linarith
      calc |A - s| * |B| ≤ (10 ^ 6 * ulp) * (1.0001 * κ) := by gcongr
        _ ≤ (1.13 / 10 ^ 10) * (1.0001 * κ) := by gcongr; norm_num; linarith
        _ ≤ (1.13 / 10 ^ 6 * s) * (1.0001 * κ) := by gcongr; norm_num; linarith
        _ ≤ 1.19 / 10 ^ 6 * (s * κ) := by nlinarith [mul_pos hs' hκ']
    have k2 : |s * (B - κ)| ≤ 0.01 / 10 ^ 6 * D := by
      rw [abs_mul, abs_of_pos hs']
      calc s * |B - κ| ≤ s * (10 * ulp) := by gcongr
        _ ≤ s * (0.01 / 10 ^ 6 * κ) := mul_le_mul_of_nonneg_left (by norm_num; linarith) hs'.le
        _ = _ := by rw [hD]; ring
    calc _ ≤ _ := abs_add_le _ _
      _ ≤ _ := add_le_add k1 k2
      _ ≤ _ := by linarith
  have hDpos : 0 < D := by linarith
  have e2 : |dbl (A * B) - D| ≤ 1.3 / 10 ^ 6 * D := by
    have h1 := dbl_err (A * B)
    have h2 : |A * B| ≤ 2 * D := by
      have := abs_le.mp e1
      norm_num at this
      rw [abs_le]
      constructor <;> linarith [this.1, this.2]
    have h3 : |A * B| * ulp ≤ 1 / 100000000 * D := by
      calc _ ≤ 2 * D * ulp := by gcongr
        _ ≤ _ := by norm_num; nlinarith
    have := abs_sub_le (dbl (A * B)) (A * B) D
    norm_num at e1 ⊢
    linarith
  set d := dbl (A * B) with hd
  have hd0 : 0.9 * D ≤ d := by
    have := abs_le.mp e2
    norm_num at this ⊢
    linarith [this.1]
  have hdpos : 0 < d := by linarith
  refine ⟨hdpos.ne', ?_⟩
  have hNn : |num - N| ≤ 1.2 / 10 ^ 6 * D := by
    norm_num
    linarith
  have e3 : |num / d - N / D| ≤ 2.8 / 10 ^ 6 := by
    rw [show num / d - N / D = ((num - N) * D - N * (d - D)) / (d * D) by field_simp; ring, abs_div, abs_of_pos (mul_pos hdpos hDpos), div_le_iff₀ (mul_pos hdpos hDpos)]
    have k1 : |(num - N) * D| ≤ 12 / 10000000 * D * D := by
      rw [abs_mul, abs_of_pos hDpos]
      norm_num at hNn
      gcongr
      linarith
    have k2 : |N * (d - D)| ≤ D * (13 / 10000000 * D) := by
      rw [abs_mul]
      norm_num at e2
      gcongr
    have k3 : 9 / 10 * D * D ≤ d * D := by norm_num at hd0; gcongr
    have := abs_sub ((num - N) * D) (N * (d - D))
    rw [show (2.8 / 10 ^ 6 : ℝ) = 28 / 10000000 by norm_num]
    nlinarith [mul_pos hDpos hDpos]
  have hq : |N / D| ≤ 1 := by
    rw [abs_div, abs_of_pos hDpos, div_le_one hDpos]
    exact hN
  have := dbl_abs e3 hq (by norm_num)
  norm_num at this ⊢
  linarith

/-- Rounding to four decimals. -/
theorem round4_near {q Q : ℝ} (h : |q - Q| ≤ 3 / 10 ^ 6) (hQ : |Q| ≤ 1) : |Libm.round4 q| ≤ 1 ∧ |Libm.round4 q - Q| ≤ 5.4 / 10 ^ 5 := by
  have hu := ulp_pos
  have hs := ulp_tight
  norm_num at hs
  have hq : |q| ≤ 1 + 3 / 10 ^ 6 := by
    have := abs_add_le (q - Q) Q
    rw [sub_add_cancel] at this
    linarith
  have e1 := dbl_err (q * 10000)
  have e2 : |q * 10000| * ulp ≤ 1 / 10 ^ 10 := by
    rw [abs_mul, abs_of_pos (by norm_num : (0 : ℝ) < 10000)]
    norm_num at hq ⊢
    nlinarith
  set z := dbl (q * 10000) with hz
  have e3 := abs_roundHalfEven_sub_le z
  set n := Np.roundHalfEven z with hn
  have hqb := abs_le.mp hq
  have e12 := abs_le.mp (e1.trans e2)
  have e3' := abs_le.mp e3
  norm_num at hqb e12 e3'
  have hn1 : n ≤ 10000 := by
    have : (n : ℝ) < ((10001 : ℤ) : ℝ) := by push_cast; linarith [e12.2, e3'.2, hqb.2]
    have := Int.cast_lt.mp this
    omega
  have hn2 : -10000 ≤ n := by
    have : ((-10001 : ℤ) : ℝ) < (n : ℝ) := by push_cast; linarith [e12.1, e3'.1, hqb.1]
    have := Int.cast_lt.mp this
    omega
  have hn1' : (n : ℝ) ≤ 10000 := by exact_mod_cast hn1
  have hn2' : (-10000 : ℝ) ≤ n := by exact_mod_cast hn2
  have hnn : |(n : ℝ) / 10000| ≤ 1 := by
    rw [abs_le]
    constructor
    · rw [le_div_iff₀ (by norm_num)]; linarith
    · rw [div_le_one (by norm_num)]; exact hn1'
  have d1 : dbl 1 = 1 := by
    rw [dbl_eq (e := -52) (k := 2 ^ 52)] <;> norm_num
  constructor
  · change |dbl ((n : ℝ) / 10000)| ≤ 1
    by_cases h1 : n = 10000
    · rw [h1]; norm_num [d1]
    by_cases h2 : n = -10000
    · rw [h2]; norm_num [dbl_neg, d1]
    · have h3 : (n : ℝ) ≤ 9999 := by exact_mod_cast (by omega : n ≤ 9999)
      have h4 : (-9999 : ℝ) ≤ n := by exact_mod_cast (by omega : -9999 ≤ n)
      have h5 := dbl_err ((n : ℝ) / 10000)
      have h6 := abs_le.mp (h5.trans (mul_le_of_le_one_left hu.le hnn))
      rw [abs_le]
      constructor <;> linarith [h6.1, h6.2]
  · change |dbl ((n : ℝ) / 10000) - Q| ≤ _
    have h5 := abs_le.mp ((dbl_err ((n : ℝ) / 10000)).trans (mul_le_of_le_one_left hu.le hnn))
    have h' := abs_le.mp h
    norm_num at h'
    rw [abs_le]
    norm_num
    constructor <;> linarith [h5.1, h5.2, h'.1, h'.2, e12.1, e12.2, e3'.1, e3'.2]

theorem near_self {x : ℝ} (h : |x| ≤ 1) : Near 0 x x := ⟨by simp, h⟩

/-- The last step of `proj_ortho`. -/
theorem place_near {M : Libm} (hM : Accurate M) {C θ a s e : ℝ} (hC : |C - θ| ≤ 7 * ulp) (hs : |s| ≤ 1) (ha : |M.sin a - s| ≤ e) (he : e ≤ 1 / 2) :
    |dbl (M.sin C * M.sin a) - sin θ * s| ≤ e + 30 * ulp ∧ |dbl (M.cos C * M.sin a) - cos θ * s| ≤ e + 30 * ulp := by
  have hu := ulp_pos
  have hτ : |M.sin a| ≤ 2 := by
    have := abs_add_le (M.sin a - s) s
    rw [sub_add_cancel] at this
    linarith
  have key : ∀ t T : ℝ, Near 9 t T → |dbl (t * M.sin a) - T * s| ≤ e + 30 * ulp := by
    intro t T h
    have k1 : |t * M.sin a - T * s| ≤ e + 18 * ulp := by
      rw [show t * M.sin a - T * s = (t - T) * M.sin a + T * (M.sin a - s) by ring]
      have i1 : |(t - T) * M.sin a| ≤ 9 * ulp * 2 := by
        rw [abs_mul]
        exact mul_le_mul h.1 hτ (abs_nonneg _) (by positivity)
      have i2 : |T * (M.sin a - s)| ≤ e := by
        rw [abs_mul]
        exact (mul_le_of_le_one_left (abs_nonneg _) h.2).trans ha
      linarith [abs_add_le ((t - T) * M.sin a) (T * (M.sin a - s))]
    have k2 := dbl_abs k1 (B := 1) (by rw [abs_mul]; exact mul_le_one₀ h.2 (abs_nonneg _) hs) (by have := ulp_small; norm_num at this; linarith)
    linarith
  exact ⟨key _ _ ((near_sin hM hC).mono (by norm_num)), key _ _ ((near_cos hM hC).mono (by norm_num))⟩

theorem place_small {M : Libm} (hM : Accurate M) (C : ℝ) {a : ℝ} (ha : |M.sin a| ≤ 1.1 / 10 ^ 4) :
    |dbl (M.sin C * M.sin a)| ≤ 1.2 / 10 ^ 4 ∧ |dbl (M.cos C * M.sin a)| ≤ 1.2 / 10 ^ 4 := by
  have hu := ulp_pos
  have hs := ulp_tight
  norm_num at hs
  have key : ∀ t T : ℝ, Near 2 t T → |dbl (t * M.sin a)| ≤ 1.2 / 10 ^ 4 := by
    intro t T h
    have ht : |t| ≤ 1.01 := by
      have := abs_add_le (t - T) T
      rw [sub_add_cancel] at this
      norm_num
      linarith [h.1, h.2]
    have k : |t * M.sin a| ≤ 1.01 * (1.1 / 10 ^ 4) := by
      rw [abs_mul]
      exact mul_le_mul ht ha (abs_nonneg _) (by norm_num)
    have h1 := dbl_err (t * M.sin a)
    have h2 : |t * M.sin a| * ulp ≤ 1 / 10 ^ 6 := by
      calc _ ≤ 1.01 * (1.1 / 10 ^ 4) * ulp := by gcongr
        _ ≤ _ := by norm_num; linarith
    have h3 := abs_add_le (dbl (t * M.sin a) - t * M.sin a) (t * M.sin a)
    rw [sub_add_cancel] at h3
    refine h3.trans ((add_le_add (h1.trans h2) k).trans ?_)
    norm_num
  have z : |C - C| ≤ 0 * ulp := by simp
  exact ⟨key _ _ ((near_sin hM z).mono (by norm_num)), key _ _ ((near_cos hM z).mono (by norm_num))⟩

theorem sqrt_diff {a b e : ℝ} (ha : 0 ≤ a) (hb : 0 ≤ b) (h : |a - b| ≤ e ^ 2) (he : 0 ≤ e) : |√a - √b| ≤ e := by
  refine abs_le_of_sq_le_sq' ?_ he |> abs_le.mpr
  have h1 := sqrt_nonneg a
  have h2 := sqrt_nonneg b
  refine le_trans ?_ h
  calc (√a - √b) ^ 2 = |√a - √b| * |√a - √b| := by rw [abs_mul_abs_self, sq]
    _ ≤ |√a - √b| * |√a + √b| := by
        refine mul_le_mul_of_nonneg_left ?_ (abs_nonneg _)
        rw [abs_of_nonneg (by linarith : 0 ≤ √a + √b), abs_le]
        constructor <;> linarith
    _ = |a - b| := by
        rw [← abs_mul, show (√a - √b) * (√a + √b) = √a ^ 2 - √b ^ 2 by ring, sq_sqrt ha, sq_sqrt hb]

theorem coords_near {M : Libm} (hM : Accurate M) {a s r X Y : ℝ} {w : Prop} [Decidable w] (hsq : X ^ 2 + Y ^ 2 = s ^ 2) (hspos : 0 < s) (hs1 : s ≤ 1)
    (hτ : |M.sin a - s| ≤ 1 / 10 ^ 9) (r1 : |r| ≤ 1) (r2 : |r - Y / s| ≤ 5.4 / 10 ^ 5) (hsgnX : (w → X ≤ 16 * ulp) ∧ (¬ w → -(16 * ulp) ≤ X)) :
    |dbl (M.sin (if w then -M.arccos r else M.arccos r) * M.sin a) - X| ≤ 0.011 ∧
    |dbl (M.cos (if w then -M.arccos r else M.arccos r) * M.sin a) - Y| ≤ 3 / 10 ^ 4 := by
  have hu := ulp_pos
  have hs := ulp_tight
  norm_num at hs
  have hp' := pi_lt_d2
  have hYs : |Y| ≤ s := abs_le_of_sq_le_sq (by linarith [sq_nonneg X]) hspos.le
  have hQ : |Y / s| ≤ 1 := by
    rw [abs_div, abs_of_pos hspos, div_le_one hspos]
    exact hYs
  have hC : |M.arccos r - arccos r| ≤ 7 * ulp := by
    have := (arccos_rel hM r1).err (A := 3.15) (by rw [abs_of_nonneg (arccos_nonneg r)]; linarith [arccos_le_pi r]) (by norm_num)
    norm_num at this
    linarith
  have hr' := abs_le.mp r1
  have hroot : |√(1 - r ^ 2) - √(1 - (Y / s) ^ 2)| ≤ 0.0104 := by
    have hQ' := abs_le.mp hQ
    refine sqrt_diff (by nlinarith) (by nlinarith) ?_ (by norm_num)
    rw [show 1 - r ^ 2 - (1 - (Y / s) ^ 2) = (r - Y / s) * (-(r + Y / s)) by ring, abs_mul, abs_neg]
    have hsum : |r + Y / s| ≤ 2 := (abs_add_le _ _).trans (by linarith)
    exact (mul_le_mul r2 hsum (abs_nonneg _) (by norm_num)).trans (by norm_num)
  have hXs : √(1 - (Y / s) ^ 2) * s = |X| := by
    rw [← sqrt_sq_eq_abs, show √(1 - (Y / s) ^ 2) * s = √(1 - (Y / s) ^ 2) * √(s ^ 2) by rw [sqrt_sq hspos.le], ← sqrt_mul (by have := abs_le.mp hQ; nlinarith)]
    congr 1
    rw [sub_mul, one_mul, div_pow, div_mul_cancel₀ _ (by positivity), ← hsq]
    ring
  have hxr : |√(1 - r ^ 2) * s - abs X| ≤ 0.0104 := by
    rw [← hXs, ← sub_mul, abs_mul, abs_of_pos hspos]
    exact (mul_le_of_le_one_right (abs_nonneg _) hs1).trans hroot
  have hyr : |r * s - Y| ≤ 5.4 / 10 ^ 5 := by
    rw [show r * s - Y = (r - Y / s) * s by field_simp, abs_mul, abs_of_pos hspos]
    exact (mul_le_of_le_one_right (abs_nonneg _) hs1).trans r2
  have hxr' := abs_le.mp hxr
  have hyr' := abs_le.mp hyr
  norm_num at hxr' hyr'
  have hsabs : |s| ≤ 1 := by rw [abs_of_pos hspos]; exact hs1
  by_cases hw : w
  · simp only [if_pos hw]
    have hC' : |-M.arccos r - -arccos r| ≤ 7 * ulp := by rw [neg_sub_neg, abs_sub_comm]; exact hC
    obtain ⟨k1, k2⟩ := place_near hM hC' hsabs hτ (by norm_num)
    rw [sin_neg, sin_arccos] at k1
    rw [cos_neg, cos_arccos hr'.1 hr'.2] at k2
    have hX1 := hsgnX.1 hw
    refine ⟨?_, ?_⟩
    · have k1' := abs_le.mp k1
      norm_num at k1'
      rw [abs_le]
      rcases le_total 0 X with h | h
      · rw [abs_of_nonneg h] at hxr'
        norm_num
        constructor <;> linarith [k1'.1, k1'.2, hxr'.1, hxr'.2]
      · rw [abs_of_nonpos h] at hxr'
        norm_num
        constructor <;> linarith [k1'.1, k1'.2, hxr'.1, hxr'.2]
    · have k2' := abs_le.mp k2
      norm_num at k2'
      rw [abs_le]
      norm_num
      constructor <;> linarith [k2'.1, k2'.2, hyr'.1, hyr'.2]
  · simp only [if_neg hw]
    obtain ⟨k1, k2⟩ := place_near hM hC hsabs hτ (by norm_num)
    rw [sin_arccos] at k1
    rw [cos_arccos hr'.1 hr'.2] at k2
    have hX1 := hsgnX.2 hw
    refine ⟨?_, ?_⟩
    · have k1' := abs_le.mp k1
      norm_num at k1'
      rw [abs_le]
      rcases le_total 0 X with h | h
      · rw [abs_of_nonneg h] at hxr'
        norm_num
        constructor <;> linarith [k1'.1, k1'.2, hxr'.1, hxr'.2]
      · rw [abs_of_nonpos h] at hxr'
        norm_num
        constructor <;> linarith [k1'.1, k1'.2, hxr'.1, hxr'.2]
    · have k2' := abs_le.mp k2
      norm_num at k2'
      rw [abs_le]
      norm_num
      constructor <;> linarith [k2'.1, k2'.2, hyr'.1, hyr'.2]


theorem seen_num (lat0 lon0 lat lon : ℝ) : sin lat - (sin lat0 * sin lat + cos lat0 * cos lat * cos (lon0 - lon)) * sin lat0 =
    orthoY lat0 lon0 lat lon * cos lat0 := by
  unfold orthoY
  have e : cos (lon0 - lon) = cos (lon - lon0) := by rw [← cos_neg, neg_sub]
  rw [e]
  linear_combination - sin lat * sin_sq_add_cos_sq lat0

theorem sign_near {M : Libm} (hM : Accurate M) {z : ℝ} (hz : |z| ≤ 16) : (M.sin (dbl z) < 0 → sin z ≤ 16 * ulp) ∧ (¬ M.sin (dbl z) < 0 → -(16 * ulp) ≤ sin z) := by
  have hu := ulp_pos
  have h1 : |dbl z - z| ≤ 16 * ulp := (dbl_err z).trans (by gcongr)
  have h2 := abs_le.mp ((abs_sin_sub_sin_le (dbl z) z).trans h1)
  have h3 := abs_le.mp (hM.1 (dbl z))
  constructor
  · intro h
    by_contra hn
    have : 0 < sin (dbl z) := by linarith [h2.1]
    rw [abs_of_pos this] at h3
    norm_num at h3
    linarith [h3.1]
  · intro h
    by_contra hn
    have : sin (dbl z) < 0 := by linarith [h2.2]
    rw [abs_of_neg this] at h3
    norm_num at h3
    linarith [h3.2]

theorem part_le {X Y B : ℝ} (h : X ^ 2 + Y ^ 2 ≤ B ^ 2) (hB : 0 ≤ B) : |X| ≤ B ∧ |Y| ≤ B :=
  ⟨abs_le_of_sq_le_sq (by linarith [sq_nonneg Y]) hB, abs_le_of_sq_le_sq (by linarith [sq_nonneg X]) hB⟩

theorem over_one {m μ : ℝ} (h : |m - μ| ≤ 37 * ulp) (hμ : |μ| ≤ 1) (h1 : 1 < m) : 1 - μ ^ 2 < (1 / 10 ^ 4) ^ 2 := by
  have hs := ulp_tight
  norm_num at hs ⊢
  have := (abs_le.mp h).2
  have := (abs_le.mp hμ).2
  nlinarith

theorem below_one {m μ : ℝ} (h : |m - μ| ≤ 37 * ulp) (h1 : (1 / 10 ^ 4) ^ 2 ≤ 1 - μ ^ 2) : m < 1 := by
  have hs := ulp_tight
  norm_num at hs h1
  have := (abs_le.mp h).2
  nlinarith

theorem div_far {s : ℝ} (hs0 : 1 / 10 ^ 4 ≤ s) : 89 * ulp / s ≤ 89 * ulp * 10 ^ 4 := by
  have hu := ulp_pos
  have h : (0 : ℝ) < 1 / 10 ^ 4 := by norm_num
  rw [div_le_iff₀ (h.trans_le hs0)]
  norm_num at hs0
  nlinarith

theorem sign_seen {M : Libm} (hM : Accurate M) (lat0 : ℝ) {lon0 lat lon : ℝ} (hl : |lat| ≤ π / 2) (hz : |lon - lon0| ≤ 16) :
    (M.sin (dbl (lon - lon0)) < 0 → orthoX lat0 lon0 lat lon ≤ 16 * ulp) ∧ (¬ M.sin (dbl (lon - lon0)) < 0 → -(16 * ulp) ≤ orthoX lat0 lon0 lat lon) := by
  have hu := ulp_pos
  have hcl : 0 ≤ cos lat := cos_nonneg_of_mem_Icc (abs_le.mp hl)
  have hcl1 := cos_le_one lat
  have sgn := sign_near hM hz
  unfold orthoX
  constructor
  · intro h
    have := sgn.1 h
    nlinarith
  · intro h
    have := sgn.2 h
    nlinarith

theorem centre_arc {M : Libm} (hM : Accurate M) {a V : ℝ} (hsa : 0 ≤ sin a) (h : |sin a ^ 2 - V| ≤ 89 * ulp) (hB : V < (1 / 10 ^ 4) ^ 2) : |M.sin a| ≤ 1.1 / 10 ^ 4 := by
  have hs := ulp_tight
  norm_num at hs
  have h1 := hM.1 a
  have h2 : sin a ≤ 1.05 / 10 ^ 4 := by
    refine abs_le_of_sq_le_sq' ?_ (by norm_num) |>.2
    have := (abs_le.mp h).2
    norm_num at hB ⊢
    linarith
  rw [abs_of_nonneg hsa] at h1
  have h3 : sin a * (1 / 2 ^ 52) ≤ 1 / 10 ^ 6 := by
    calc _ ≤ (1.05 / 10 ^ 4) * (1 / 2 ^ 52 : ℝ) := by gcongr
      _ ≤ _ := by norm_num
  have h4 := abs_le.mp (h1.trans h3)
  norm_num at h2 h4
  rw [abs_le]
  norm_num
  constructor <;> linarith [h4.1, h4.2]

theorem colat_ne {lat0 : ℝ} (h0 : |lat0| ≤ π / 2) (hκ : 1 / 10 ^ 4 ≤ cos lat0) : dbl (dbl π / 2 - lat0) ≠ 0 ∧ dbl (dbl π / 2 - lat0) ≠ dbl π := by
  have hu := ulp_pos
  have hs := ulp_tight
  norm_num at hs hκ
  have hp' := pi_lt_d2
  have hb := colat_near h0
  set b := dbl (dbl π / 2 - lat0) with hbdef
  have hb0 : b ≠ 0 := by
    intro h
    have := (abs_sin_sub_sin_le b (π / 2 - lat0)).trans hb
    rw [h, sin_zero, sin_pi_div_two_sub, zero_sub, abs_neg, abs_of_pos (by linarith)] at this
    linarith
  have hbπ : b ≠ dbl π := by
    intro h
    have h1 := (abs_sin_sub_sin_le b (π / 2 - lat0)).trans hb
    have h2 : |sin (dbl π) - sin π| ≤ 4 * ulp := (abs_sin_sub_sin_le _ _).trans ((dbl_err π).trans (by rw [abs_of_pos pi_pos]; gcongr; linarith))
    rw [h, sin_pi_div_two_sub] at h1
    rw [sin_pi] at h2
    have := abs_le.mp h1
    have := abs_le.mp h2
    linarith [this.1, this.2]
  exact ⟨hb0, hbπ⟩

set_option maxHeartbeats 1000000 in
/-- **C156** (projection) In double precision `proj_ortho` returns the coordinates at which a point appears on the disk, up to 0.011 and 0.0003, or NaN; the latter
only for points behind (or within 1e-14 of) the limb and points within 1e-4 of the centre of the disk; and points behind the limb get NaN. -/
theorem C156_projection {M : Libm} (hM : Accurate M) (lat0 lon0 lat lon : ℝ) (h0 : |lat0| ≤ π / 2) (hl : |lat| ≤ π / 2) (hκ : 1 / 10 ^ 4 ≤ cos lat0)
    (hz : |lon - lon0| ≤ 16) :
    (M.projOrtho lat0 lon0 lat lon = (.nan, .nan) ∧
      (cos (greatCircle lat0 lon0 lat lon) ≤ 1 / 10 ^ 14 ∨ orthoX lat0 lon0 lat lon ^ 2 + orthoY lat0 lon0 lat lon ^ 2 < (1 / 10 ^ 4) ^ 2)) ∨
    ∃ x y : ℝ, M.projOrtho lat0 lon0 lat lon = (.fin x, .fin y) ∧ -(1 / 10 ^ 14) ≤ cos (greatCircle lat0 lon0 lat lon) ∧
      |x - orthoX lat0 lon0 lat lon| ≤ 0.011 ∧ |y - orthoY lat0 lon0 lat lon| ≤ 3 / 10 ^ 4 := by
  have hu := ulp_pos
  have hs := ulp_tight
  norm_num at hs
  have hp := pi_gt_three
  have hp' := pi_lt_d2
  have hcg : cos (greatCircle lat0 lon0 lat lon) = sin lat0 * sin lat + cos lat0 * cos lat * cos (lon0 - lon) := by
    rw [greatCircle_eq, cos_arccos (cosExpr_mem _ _ _ _).1 (cosExpr_mem _ _ _ _).2]
  rw [hcg]
  have hsq := ortho_sq lat0 lon0 lat lon
  rw [cosDist, inner_unitVec] at hsq
  have hnum := seen_num lat0 lon0 lat lon
  have hm := mu_near hM lat0 lon0 lat lon (by rw [abs_sub_comm]; exact hz)
  set μ := sin lat0 * sin lat + cos lat0 * cos lat * cos (lon0 - lon) with hμ
  set X := orthoX lat0 lon0 lat lon with hX
  set Y := orthoY lat0 lon0 lat lon with hY
  have hb := colat_near h0
  have hc := colat_near hl
  have hκ1 := cos_le_one lat0
  have hκ4 := hκ
  norm_num at hκ
  set b := dbl (dbl π / 2 - lat0) with hbdef
  set c := dbl (dbl π / 2 - lat) with hcdef
  have hbsin := near_sin hM hb
  have hbcos := near_cos hM hb
  have hccos := near_cos hM hc
  rw [sin_pi_div_two_sub] at hbsin
  rw [cos_pi_div_two_sub] at hbcos hccos
  obtain ⟨hb0, hbπ⟩ := colat_ne h0 hκ4
  unfold Libm.projOrtho
  simp only
  rw [← hbdef, ← hcdef, if_neg hb0, if_neg hbπ]
  set m := M.mu lat0 lon0 lat lon with hmdef
  have hm' := abs_le.mp hm.1
  by_cases hm1 : 1 < |m|
  · rw [if_pos hm1]
    refine Or.inl ⟨rfl, ?_⟩
    rcases lt_abs.mp hm1 with h | h
    · right
      rw [hsq]
      exact over_one hm.1 hm.2 h
    · left
      norm_num
      linarith [hm'.1]
  rw [if_neg hm1]
  push Not at hm1
  by_cases hmneg : m < 0
  · -- behind the limb
    have : M.bearing lat0 lon0 lat lon b c m (M.arccos m) = none := by
      unfold Libm.bearing
      simp only [if_neg (not_le.mpr hmneg), Option.map_none, ite_self]
    rw [this]
    refine Or.inl ⟨rfl, Or.inl ?_⟩
    norm_num
    linarith [hm'.1]
  push Not at hmneg
  have hlimb : -(1 / 10 ^ 14) ≤ μ := by
    norm_num
    linarith [hm'.2]
  obtain ⟨hca, hsa, hsa2⟩ := arc_near hM hm hm1 hmneg
  set a := M.arccos m with hadef
  have hμ1 := abs_le.mp hm.2
  have hV0 : 0 ≤ 1 - μ ^ 2 := sub_nonneg.mpr ((sq_le_one_iff_abs_le_one μ).mpr hm.2)
  by_cases hB : X ^ 2 + Y ^ 2 < (1 / 10 ^ 4) ^ 2
  · -- near the centre of the disk
    have hτ := centre_arc hM hsa hsa2 (hsq ▸ hB)
    cases hbear : M.bearing lat0 lon0 lat lon b c m a with
    | none => exact Or.inl ⟨rfl, Or.inr hB⟩
    | some C =>
      right
      obtain ⟨k1, k2⟩ := place_small hM C hτ
      refine ⟨_, _, rfl, hlimb, ?_, ?_⟩
      · have hXs : |X| ≤ 1 / 10 ^ 4 := (part_le hB.le (by norm_num)).1
        refine (abs_sub _ _).trans ((add_le_add k1 hXs).trans ?_)
        norm_num
      · have hYs : |Y| ≤ 1 / 10 ^ 4 := (part_le hB.le (by norm_num)).2
        refine (abs_sub _ _).trans ((add_le_add k2 hYs).trans ?_)
        norm_num
  · push Not at hB
    right
    rw [hsq] at hB
    set s := √(1 - μ ^ 2) with hsdef
    have hssq : s ^ 2 = 1 - μ ^ 2 := sq_sqrt hV0
    have hs0 : 1 / 10 ^ 4 ≤ s := by
      rw [hsdef]
      exact le_sqrt_of_sq_le hB
    have hs1 : s ≤ 1 := by rw [hsdef, sqrt_le_iff]; exact ⟨by norm_num, by rw [one_pow]; linarith [sq_nonneg μ]⟩
    have hspos : 0 < s := by norm_num at hs0; linarith
    have hτ : |M.sin a - s| ≤ 1 / 10 ^ 9 ∧ |M.sin a - s| ≤ 10 ^ 6 * ulp := by
      have h1 := sin_arc hM hsa hspos hssq.symm hsa2
      have h2 := div_far hs0
      constructor
      · norm_num at h2 ⊢
        linarith
      · norm_num at h2 ⊢
        linarith
    have hYs : |Y| ≤ s := (part_le (by rw [hsq, hssq]) hspos.le).2
    have sgn := sign_near hM hz
    by_cases hlon : lon = lon0
    · -- on the meridian of the observer
      subst hlon
      have hX0 : X = 0 := by rw [hX]; simp [orthoX]
      have hY0 : Y = sin (lat - lat0) := by rw [hY, orthoY, sub_self, cos_zero, sin_sub]; ring
      have hYs2 : s = |sin (lat - lat0)| := by
        rw [← hY0, hsdef, ← hsq, hX0, ← sqrt_sq_eq_abs]
        congr 1
        ring
      have hrange : |lat - lat0| ≤ π := by
        rw [abs_le] at h0 hl ⊢
        constructor <;> linarith [h0.1, h0.2, hl.1, hl.2]
      have hr := abs_le.mp hrange
      have hw : ¬ M.sin (dbl (lon - lon)) < 0 := by
        rw [sub_self, dbl_zero]
        have := hM.1 0
        simp at this
        linarith
      have hbear : M.bearing lat0 lon lat lon b c m a = if lat < lat0 then some (dbl π) else some 0 := by
        unfold Libm.bearing
        simp only [if_neg hw, if_pos hmneg, true_and, if_true]
      rw [hbear]
      by_cases hlt : lat < lat0
      · rw [if_pos hlt]
        obtain ⟨k1, k2⟩ := place_near hM (C := dbl π) (θ := π) (a := a) (s := s) (e := 1 / 10 ^ 9) ((dbl_err π).trans (by rw [abs_of_pos pi_pos]; gcongr; linarith))
          (by rw [abs_of_pos hspos]; exact hs1) hτ.1 (by norm_num)
        rw [sin_pi, zero_mul] at k1
        rw [cos_pi, hYs2, abs_of_nonpos (sin_nonpos_of_nonpos_of_neg_pi_le (by linarith) hr.1), ← hY0] at k2
        refine ⟨_, _, rfl, hlimb, ?_, ?_⟩
        · rw [hX0]
          refine k1.trans ?_
          norm_num; linarith
        · rw [show (-1 : ℝ) * -Y = Y by ring] at k2
          refine k2.trans ?_
          norm_num; linarith
      · rw [if_neg hlt]
        obtain ⟨k1, k2⟩ := place_near hM (C := 0) (θ := 0) (a := a) (s := s) (e := 1 / 10 ^ 9) (by simp; linarith)
          (by rw [abs_of_pos hspos]; exact hs1) hτ.1 (by norm_num)
        rw [sin_zero, zero_mul] at k1
        rw [cos_zero, hYs2, abs_of_nonneg (sin_nonneg_of_nonneg_of_le_pi (by linarith) hr.2), ← hY0, one_mul] at k2
        refine ⟨_, _, rfl, hlimb, ?_, ?_⟩
        · rw [hX0]
          refine k1.trans ?_
          norm_num; linarith
        · refine k2.trans ?_
          norm_num; linarith
    · have hmlt : m < 1 := below_one hm.1 hB
      have hn : |dbl (M.cos c - dbl (M.cos a * M.cos b)) - Y * cos lat0| ≤ 100 * ulp := by
        have i1 := (hca.mul hbcos (by norm_num) (by norm_num)).dbl (by norm_num)
        have i2 : |M.cos c - dbl (M.cos a * M.cos b) - Y * cos lat0| ≤ 70 * ulp := by
          rw [← hnum, show M.cos c - dbl (M.cos a * M.cos b) - (sin lat - μ * sin lat0) = (M.cos c - sin lat) - (dbl (M.cos a * M.cos b) - μ * sin lat0) by ring]
          refine (abs_sub _ _).trans ?_
          have := hccos.1
          have := i1.1
          linarith
        have := dbl_abs i2 (B := 1) (by rw [abs_mul, abs_of_pos (by linarith : 0 < cos lat0)]; exact mul_le_one₀ (hYs.trans hs1) (by linarith) hκ1) (by linarith)
        linarith
      obtain ⟨q0, q1⟩ := quotient_near (num := dbl (M.cos c - dbl (M.cos a * M.cos b))) (N := Y * cos lat0) (A := M.sin a) (s := s) (B := M.sin b) (κ := cos lat0) hs0
        (by norm_num; linarith) (by rw [abs_mul, abs_of_pos (by linarith : 0 < cos lat0)]; gcongr) hn hτ.2 (hbsin.1.trans (by linarith))
      rw [mul_div_mul_right _ _ (by linarith : cos lat0 ≠ 0)] at q1
      have hQ : |Y / s| ≤ 1 := by
        rw [abs_div, abs_of_pos hspos, div_le_one hspos]
        exact hYs
      obtain ⟨r1, r2⟩ := round4_near q1 hQ
      set r := Libm.round4 (dbl (dbl (M.cos c - dbl (M.cos a * M.cos b)) / dbl (M.sin a * M.sin b))) with hr
      have hbear : M.bearing lat0 lon0 lat lon b c m a = some (if M.sin (dbl (lon - lon0)) < 0 then -M.arccos r else M.arccos r) := by
        unfold Libm.bearing
        simp only [if_neg q0, if_pos hmlt, if_neg hlon, if_neg (fun h : lon = lon0 ∧ lat < lat0 => hlon h.1), if_pos hmneg]
        rw [← hr, if_pos r1]
        split_ifs <;> rfl
      rw [hbear]
      have hsgnX := sign_seen hM lat0 hl hz
      obtain ⟨k1, k2⟩ := coords_near hM (w := M.sin (dbl (lon - lon0)) < 0) (hsq.trans hssq.symm) hspos hs1 hτ.1 r1 r2 hsgnX
      exact ⟨_, _, rfl, hlimb, k1, k2⟩

theorem dbl_between {v : ℝ} (h : 0 ≤ v) : (1 - ulp) * v ≤ dbl v ∧ dbl v ≤ (1 + ulp) * v := by
  have := abs_le.mp (dbl_err v)
  rw [abs_of_nonneg h] at this
  constructor <;> linarith [this.1, this.2]

theorem dbl_sq_between (v : ℝ) : (1 - ulp) ^ 3 * v ^ 2 ≤ dbl (dbl v * dbl v) ∧ dbl (dbl v * dbl v) ≤ (1 + ulp) ^ 3 * v ^ 2 := by
  have hu := ulp_pos
  have hs := ulp_tight
  norm_num at hs
  have h := dbl_between (mul_self_nonneg (dbl v))
  have e := dbl_err v
  have e1 : |dbl v| ≤ (1 + ulp) * |v| := by
    have := abs_add_le (dbl v - v) v
    rw [sub_add_cancel] at this
    linarith
  have e2 : (1 - ulp) * |v| ≤ |dbl v| := by
    have := abs_add_le (v - dbl v) (dbl v)
    rw [sub_add_cancel, abs_sub_comm] at this
    linarith
  have s1 : dbl v * dbl v ≤ (1 + ulp) ^ 2 * v ^ 2 := by
    rw [← abs_mul_abs_self (dbl v), ← sq_abs v, ← mul_pow, sq]
    exact mul_self_le_mul_self (abs_nonneg _) e1
  have s2 : (1 - ulp) ^ 2 * v ^ 2 ≤ dbl v * dbl v := by
    rw [← abs_mul_abs_self (dbl v), ← sq_abs v, ← mul_pow, sq]
    exact mul_self_le_mul_self (mul_nonneg (by linarith) (abs_nonneg _)) e2
  constructor
  · refine le_trans ?_ h.1
    calc (1 - ulp) ^ 3 * v ^ 2 = (1 - ulp) * ((1 - ulp) ^ 2 * v ^ 2) := by ring
      _ ≤ _ := mul_le_mul_of_nonneg_left s2 (by linarith)
  · refine h.2.trans ?_
    calc (1 + ulp) * (dbl v * dbl v) ≤ (1 + ulp) * ((1 + ulp) ^ 2 * v ^ 2) := mul_le_mul_of_nonneg_left s1 (by linarith)
      _ = _ := by ring

/-- The distance computed for the mask. -/
theorem hypot_near {u v B : ℝ} (hB : √(u ^ 2 + v ^ 2) ≤ B) :
    |dbl √(dbl (dbl (dbl u * dbl u) + dbl (dbl v * dbl v))) - √(u ^ 2 + v ^ 2)| ≤ 4 * B * ulp := by
  have hu := ulp_pos
  have hs := ulp_tight
  norm_num at hs
  obtain ⟨a1, a2⟩ := dbl_sq_between u
  obtain ⟨b1, b2⟩ := dbl_sq_between v
  have l0 : (0 : ℝ) ≤ 1 - ulp := by linarith
  have p : 0 ≤ dbl (dbl u * dbl u) + dbl (dbl v * dbl v) := add_nonneg (dbl_nonneg (mul_self_nonneg _)) (dbl_nonneg (mul_self_nonneg _))
  obtain ⟨c1, c2⟩ := dbl_between p
  have hh := sqrt_nonneg (u ^ 2 + v ^ 2)
  set h := √(u ^ 2 + v ^ 2) with hdef
  have hsq : h ^ 2 = u ^ 2 + v ^ 2 := sq_sqrt (by positivity)
  have d1 : (1 - ulp) ^ 2 * h ≤ √(dbl (dbl (dbl u * dbl u) + dbl (dbl v * dbl v))) := by
    refine le_sqrt_of_sq_le (le_trans ?_ c1)
    calc ((1 - ulp) ^ 2 * h) ^ 2 = (1 - ulp) * ((1 - ulp) ^ 3 * u ^ 2 + (1 - ulp) ^ 3 * v ^ 2) := by rw [mul_pow, hsq]; ring
      _ ≤ _ := mul_le_mul_of_nonneg_left (by linarith) l0
  have d2 : √(dbl (dbl (dbl u * dbl u) + dbl (dbl v * dbl v))) ≤ (1 + ulp) ^ 2 * h := by
    rw [sqrt_le_left (by positivity)]
    refine c2.trans ?_
    calc _ ≤ (1 + ulp) * ((1 + ulp) ^ 3 * u ^ 2 + (1 + ulp) ^ 3 * v ^ 2) := mul_le_mul_of_nonneg_left (by linarith) (by linarith)
      _ = _ := by rw [mul_pow, hsq]; ring
  obtain ⟨e1, e2⟩ := dbl_between (sqrt_nonneg (dbl (dbl (dbl u * dbl u) + dbl (dbl v * dbl v))))
  have f1 : (1 - ulp) ^ 3 * h ≤ dbl √(dbl (dbl (dbl u * dbl u) + dbl (dbl v * dbl v))) := by
    refine le_trans ?_ e1
    calc (1 - ulp) ^ 3 * h = (1 - ulp) * ((1 - ulp) ^ 2 * h) := by ring
      _ ≤ _ := mul_le_mul_of_nonneg_left d1 l0
  have f2 : dbl √(dbl (dbl (dbl u * dbl u) + dbl (dbl v * dbl v))) ≤ (1 + ulp) ^ 3 * h := by
    refine e2.trans ?_
    calc _ ≤ (1 + ulp) * ((1 + ulp) ^ 2 * h) := mul_le_mul_of_nonneg_left d2 (by linarith)
      _ = _ := by ring
  generalize dbl √(dbl (dbl (dbl u * dbl u) + dbl (dbl v * dbl v))) = D at f1 f2
  have g1 : 1 - 4 * ulp ≤ (1 - ulp) ^ 3 := by nlinarith [sq_nonneg ulp, pow_pos hu 3, pow_pos hu 2, mul_pos hu (pow_pos hu 2)]
  have g2 : (1 + ulp) ^ 3 ≤ 1 + 4 * ulp := by nlinarith [sq_nonneg ulp, pow_pos hu 3, pow_pos hu 2, mul_pos hu (pow_pos hu 2)]
  have k1 := mul_le_mul_of_nonneg_right g1 hh
  have k2 := mul_le_mul_of_nonneg_right g2 hh
  have k3 : h * ulp ≤ B * ulp := mul_le_mul_of_nonneg_right hB hu.le
  rw [abs_le]
  constructor <;> linarith

theorem hypot_diff (x y x' y' X Y : ℝ) : |√((x - X) ^ 2 + (y - Y) ^ 2) - √((x' - X) ^ 2 + (y' - Y) ^ 2)| ≤ |x - x'| + |y - y'| := by
  have h := abs_norm_sub_norm_le (⟨x - X, y - Y⟩ : ℂ) ⟨x' - X, y' - Y⟩
  rw [Complex.norm_eq_sqrt_sq_add_sq, Complex.norm_eq_sqrt_sq_add_sq] at h
  refine h.trans ((Complex.norm_le_abs_re_add_abs_im _).trans ?_)
  simp

theorem margin_near {M : Libm} {lat0 lon0 lat lon ρ μ : ℝ} (hm : Near 37 (M.mu lat0 lon0 lat lon) μ) (h0 : 0 ≤ ρ) (h1 : ρ ≤ 10) :
    |dbl (2 * Libm.projRadius ρ (M.mu lat0 lon0 lat lon)) - 2 * ρ * μ| ≤ 1000 * ulp := by
  have hu := ulp_pos
  have hs := ulp_tight
  norm_num at hs
  unfold Libm.projRadius
  set m := M.mu lat0 lon0 lat lon
  have i1 : |ρ * m - ρ * μ| ≤ 370 * ulp := by
    rw [← mul_sub, abs_mul, abs_of_nonneg h0]
    calc ρ * |m - μ| ≤ 10 * (37 * ulp) := mul_le_mul h1 hm.1 (abs_nonneg _) (by norm_num)
      _ = _ := by ring
  have b1 : |ρ * μ| ≤ 10 := by
    rw [abs_mul, abs_of_nonneg h0]
    calc ρ * |μ| ≤ 10 * 1 := mul_le_mul h1 hm.2 (abs_nonneg _) (by norm_num)
      _ = _ := by ring
  have i2 := dbl_abs i1 b1 (by linarith)
  have i3 : |2 * dbl (ρ * m) - 2 * ρ * μ| ≤ 762 * ulp := by
    rw [mul_assoc, ← mul_sub, abs_mul, abs_of_pos (by norm_num : (0 : ℝ) < 2)]
    linarith
  have b2 : |2 * ρ * μ| ≤ 20 := by
    rw [mul_assoc, abs_mul, abs_of_pos (by norm_num : (0 : ℝ) < 2)]
    linarith
  have i4 := dbl_abs i3 b2 (by linarith)
  linarith

/-- **C156** (mask) In double precision, a pixel behind the limb, or whose picture is farther from the planet than the planet's radius and two projected pixel radii by
0.012 stellar radii, is left free; a pixel closer than that, by 0.012, and not at the limb or the centre of the disk is covered at least in part; and a pixel
inside the planet's disk by two projected radii and 0.012 is completely covered; one that is not inside by two projected radii less 0.012 is not taken for completely
covered. -/
theorem C156_mask {M : Libm} (hM : Accurate M) (lat0 lon0 lat lon ρ X Y rp : ℝ) (h0 : |lat0| ≤ π / 2) (hl : |lat| ≤ π / 2) (hκ : 1 / 10 ^ 4 ≤ cos lat0)
    (hz : |lon - lon0| ≤ 16) (hX : |X| ≤ 100) (hY : |Y| ≤ 100) (hrp : |rp| ≤ 100) (hρ0 : 0 ≤ ρ) (hρ1 : ρ ≤ 10) :
    let μ := cos (greatCircle lat0 lon0 lat lon); let x := orthoX lat0 lon0 lat lon; let y := orthoY lat0 lon0 lat lon; let d := √((x - X) ^ 2 + (y - Y) ^ 2);
    (μ < -(1 / 10 ^ 14) ∨ rp + 2 * ρ * μ + 0.012 < d → M.outside lat0 lon0 lat lon ρ X Y rp) ∧
    (1 / 10 ^ 14 < μ → (1 / 10 ^ 4) ^ 2 ≤ x ^ 2 + y ^ 2 → d + 0.012 < rp + 2 * ρ * μ → ¬ M.outside lat0 lon0 lat lon ρ X Y rp) ∧
    (1 / 10 ^ 14 < μ → (1 / 10 ^ 4) ^ 2 ≤ x ^ 2 + y ^ 2 → d + 2 * ρ * μ + 0.012 < rp → M.behind lat0 lon0 lat lon ρ X Y rp) ∧
    (rp + 0.012 < d + 2 * ρ * μ → ¬ M.behind lat0 lon0 lat lon ρ X Y rp) := by
  intro μ x y d
  have hu := ulp_pos
  have hs := ulp_tight
  norm_num at hs
  have hμ : μ = sin lat0 * sin lat + cos lat0 * cos lat * cos (lon0 - lon) := by
    show cos (greatCircle lat0 lon0 lat lon) = _
    rw [greatCircle_eq, cos_arccos (cosExpr_mem _ _ _ _).1 (cosExpr_mem _ _ _ _).2]
  have hm := mu_near hM lat0 lon0 lat lon (by rw [abs_sub_comm]; exact hz)
  rw [← hμ] at hm
  have mg := abs_le.mp (margin_near hm hρ0 hρ1)
  have hpar := ortho_sq lat0 lon0 lat lon
  have hxy : |x| ≤ 1 ∧ |y| ≤ 1 := part_le (by show orthoX _ _ _ _ ^ 2 + orthoY _ _ _ _ ^ 2 ≤ _; rw [hpar]; linarith [sq_nonneg (cosDist lat0 lon0 lat lon)]) (by norm_num)
  have hd1 : d ≤ 202 := by
    have h := Complex.norm_le_abs_re_add_abs_im (⟨x - X, y - Y⟩ : ℂ)
    rw [Complex.norm_eq_sqrt_sq_add_sq] at h
    refine h.trans ?_
    have a := (abs_sub x X).trans (add_le_add hxy.1 hX)
    have b := (abs_sub y Y).trans (add_le_add hxy.2 hY)
    show |x - X| + |y - Y| ≤ 202
    linarith
  have hρμ : |2 * ρ * μ| ≤ 20 := by
    rw [mul_assoc, abs_mul, abs_mul, abs_of_nonneg hρ0, abs_of_pos (by norm_num : (0 : ℝ) < 2)]
    have : ρ * |μ| ≤ 10 * 1 := mul_le_mul hρ1 hm.2 (abs_nonneg _) (by norm_num)
    linarith
  have thr : |dbl (rp + dbl (2 * Libm.projRadius ρ (M.mu lat0 lon0 lat lon))) - (rp + 2 * ρ * μ)| ≤ 2000 * ulp := by
    have i1 : |rp + dbl (2 * Libm.projRadius ρ (M.mu lat0 lon0 lat lon)) - (rp + 2 * ρ * μ)| ≤ 1000 * ulp := by
      rw [add_sub_add_left_eq_sub]
      exact margin_near hm hρ0 hρ1
    have := dbl_abs i1 (B := 120) ((abs_add_le _ _).trans (by linarith)) (by linarith)
    linarith
  have thr' := abs_le.mp thr
  have key : ∀ x' y' : ℝ, |x' - x| ≤ 0.011 → |y' - y| ≤ 3 / 10 ^ 4 → |dbl √(dbl (dbl (dbl (x' - X) * dbl (x' - X)) + dbl (dbl (y' - Y) * dbl (y' - Y)))) - d| ≤ 0.0114 := by
    intro x' y' hx hy
    have h1 := hypot_diff x' y' x y X Y
    have h1' := abs_le.mp h1
    have h2 := hypot_near (u := x' - X) (v := y' - Y) (B := 203) (by norm_num at hx hy; linarith [h1'.2])
    have := abs_add_le (dbl √(dbl (dbl (dbl (x' - X) * dbl (x' - X)) + dbl (dbl (y' - Y) * dbl (y' - Y)))) - √((x' - X) ^ 2 + (y' - Y) ^ 2)) (√((x' - X) ^ 2 + (y' - Y) ^ 2) - d)
    rw [sub_add_sub_cancel] at this
    refine this.trans ((add_le_add h2 (h1.trans (add_le_add hx hy))).trans ?_)
    norm_num
    linarith
  rcases C156_projection hM lat0 lon0 lat lon h0 hl hκ hz with ⟨hp, hc⟩ | ⟨x', y', hp, hμ', hx, hy⟩
  · refine ⟨fun _ => ?_, fun h1 h2 => ?_, fun h1 h2 => ?_, fun _ hb => ?_⟩
    · unfold Libm.outside
      rw [hp]
      trivial
    · rcases hc with hc | hc
      · exact absurd hc (not_le.mpr h1)
      · exact absurd hc (not_lt.mpr h2)
    · rcases hc with hc | hc
      · exact absurd hc (not_le.mpr h1)
      · exact absurd hc (not_lt.mpr h2)
    · unfold Libm.behind at hb
      rw [hp] at hb
      exact hb.2
  · have kd := abs_le.mp (key x' y' hx hy)
    norm_num at kd
    have hout : M.outside lat0 lon0 lat lon ρ X Y rp ↔ dbl (rp + dbl (2 * Libm.projRadius ρ (M.mu lat0 lon0 lat lon))) <
        dbl √(dbl (dbl (dbl (x' - X) * dbl (x' - X)) + dbl (dbl (y' - Y) * dbl (y' - Y)))) := by
      unfold Libm.outside
      rw [hp]
      rfl
    have i1 : |dbl √(dbl (dbl (dbl (x' - X) * dbl (x' - X)) + dbl (dbl (y' - Y) * dbl (y' - Y)))) + dbl (2 * Libm.projRadius ρ (M.mu lat0 lon0 lat lon)) - (d + 2 * ρ * μ)| ≤ 0.0115 := by
      rw [abs_le]
      norm_num
      constructor <;> linarith [kd.1, kd.2, mg.1, mg.2]
    have i2 := abs_le.mp (dbl_abs i1 (B := 222) ((abs_add_le _ _).trans (by rw [abs_of_nonneg (sqrt_nonneg _)]; linarith)) (by norm_num))
    norm_num at i2
    refine ⟨?_, ?_, ?_, ?_⟩
    · rintro (h | h)
      · exact absurd hμ' (not_le.mpr h)
      · rw [hout]
        norm_num at h
        linarith [kd.1, thr'.2]
    · intro _ _ h
      rw [hout, not_lt]
      norm_num at h
      linarith [kd.2, thr'.1]
    · intro h1 _ h
      norm_num at h h1
      have hp0 : 0 ≤ 2 * ρ * μ := by have : 0 ≤ μ := by linarith
                                     positivity
      unfold Libm.behind
      rw [hout, not_lt, hp]
      refine ⟨by linarith [kd.2, thr'.1], ?_⟩
      show dbl (dbl √(dbl (dbl (dbl (x' - X) * dbl (x' - X)) + dbl (dbl (y' - Y) * dbl (y' - Y)))) + dbl (2 * Libm.projRadius ρ (M.mu lat0 lon0 lat lon))) < rp
      linarith [i2.2]
    · intro h hb
      unfold Libm.behind at hb
      rw [hp] at hb
      have hb : dbl (dbl √(dbl (dbl (dbl (x' - X) * dbl (x' - X)) + dbl (dbl (y' - Y) * dbl (y' - Y)))) + dbl (2 * Libm.projRadius ρ (M.mu lat0 lon0 lat lon))) < rp := hb.2
      norm_num at h
      linarith [i2.1]

/-- The pixel at the centre of the disk can be lost. -/
theorem C156_centre (lon : ℝ) : Libm.rounded.projOrtho (251 / 256) lon (251 / 256) lon = (.nan, .nan) ∧
    (∀ ρ X Y rp : ℝ, Libm.rounded.outside (251 / 256) lon (251 / 256) lon ρ X Y rp) ∧
    Helpers.projOrtho (251 / 256) lon (251 / 256) lon = (.fin 0, .fin 0) := by
  have hp := pi_gt_three
  have hcos : 1 / 10 ^ 4 ≤ cos (251 / 256 : ℝ) := by
    have := one_sub_sq_div_two_le_cos (x := (251 / 256 : ℝ))
    norm_num at this ⊢
    linarith
  obtain ⟨b0, bπ⟩ := colat_ne (lat0 := 251 / 256) (by rw [abs_of_pos (by norm_num)]; linarith) hcos
  have hmu : 1 < |Libm.rounded.mu (251 / 256) lon (251 / 256) lon| := by
    by_contra h
    have := angle_nan lon
    unfold Libm.angleBetween at this
    simp only at this
    rw [if_pos (by push Not at h; exact h)] at this
    cases this
  have h1 : Libm.rounded.projOrtho (251 / 256) lon (251 / 256) lon = (.nan, .nan) := by
    unfold Libm.projOrtho
    simp only
    rw [if_neg b0, if_neg bπ, if_pos hmu]
  refine ⟨h1, fun ρ X Y rp => ?_, ?_⟩
  · unfold Libm.outside
    rw [h1]
    trivial
  · have hm : sin (251 / 256 : ℝ) * sin (251 / 256) + cos (251 / 256 : ℝ) * cos (251 / 256) * cos (lon - lon) = 1 := by
      rw [sub_self, cos_zero, mul_one, ← sq, ← sq, sin_sq_add_cos_sq]
    unfold Helpers.projOrtho
    simp only [hm]
    rw [if_neg (by linarith), if_neg (by linarith)]
    simp [Fl.arccos, Fl.sin, Fl.fin_mul]

/-- The second case of the mask is not empty: a pixel a third of a radius from the centre, and a planet over it. -/
example (M : Libm) (hM : Accurate M) : M.behind 0 0 0 (1 / 3) (1 / 100) (sin (1 / 3)) 0 (1 / 10) := by
  have hs1 : sin (1 / 3 : ℝ) ≤ 1 / 3 := sin_le (by norm_num)
  have hs0 : 1 / 4 < sin (1 / 3 : ℝ) := by
    have := sin_gt_sub_cube (x := 1 / 3) (by norm_num)
    norm_num at this ⊢
    linarith
  have hc0 : 9 / 10 < cos (1 / 3 : ℝ) := by
    have := one_sub_sq_div_two_le_cos (x := (1 / 3 : ℝ))
    norm_num at this ⊢
    linarith
  have hc1 := cos_le_one (1 / 3 : ℝ)
  have e : cos (greatCircle 0 0 0 (1 / 3)) = cos (1 / 3) := by
    rw [greatCircle_eq, cos_arccos (cosExpr_mem _ _ _ _).1 (cosExpr_mem _ _ _ _).2]
    simp
  refine (C156_mask hM 0 0 0 (1 / 3) (1 / 100) (sin (1 / 3)) 0 (1 / 10) (by simp; positivity) (by simp; positivity) (by simp; norm_num) (by norm_num [abs_le])
    (by rw [abs_le]; constructor <;> linarith) (by norm_num) (by norm_num [abs_le]) (by norm_num) (by norm_num)).2.2.1 ?_ ?_ ?_
  · rw [e]; norm_num at *; linarith
  · simp only [orthoX, orthoY]
    norm_num
    norm_num at hs0
    nlinarith
  · rw [e]
    simp only [orthoX, orthoY]
    norm_num
    norm_num at hc1
    linarith

end Vsm
