import Verif.Model.FloatFlare
import Verif.Props.FloatReport
import Verif.Props.FloatAge
import Verif.Props.FloatAll
import Verif.Props.FlareCurve

/-!
# C163: flares in double precision
-/

noncomputable section

namespace Vsm

open Real Spec

/-- An exponential and powers with a relative error of at most `2^-52`. -/
def Spec.AccuratePow (E : ExpPow) : Prop :=
  (∀ x, |E.exp x - exp x| ≤ exp x * (1 / 2 ^ 52)) ∧ ∀ x n, |E.pow x n - x ^ n| ≤ |x ^ n| * (1 / 2 ^ 52)

theorem rounded_accuratePow : AccuratePow ExpPow.rounded := by
  have h : ∀ x : ℝ, |dbl x - x| ≤ |x| * (1 / 2 ^ 52) := fun x => (dbl_err x).trans (by unfold ulp; gcongr <;> norm_num)
  exact ⟨fun x => (h _).trans (by rw [abs_of_pos (exp_pos x)]), fun x n => h _⟩

/-! ## Rounding twice -/

theorem dbl_twice {x : ℝ} (hx : 0 ≤ x) : dbl (dbl x) = dbl x := by
  rcases hx.eq_or_lt with rfl | hx
  · rw [dbl_zero, dbl_zero]
  set e := Int.log 2 |x| with he
  have h0 : 0 < |x| := abs_pos.mpr hx.ne'
  have h1 : (2 : ℝ) ^ e ≤ x := by
    have := Int.zpow_log_le_self (b := 2) (by norm_num) h0
    rw [abs_of_pos hx] at this; rw [he, abs_of_pos hx]; push_cast at this; exact this
  have h2 : x < (2 : ℝ) ^ (e + 1) := by
    have := Int.lt_zpow_succ_log_self (b := 2) (by norm_num) |x|
    rw [← he, abs_of_pos hx] at this; push_cast at this; exact this
  set d : ℤ := e - 52 with hd
  have hp : (0 : ℝ) < 2 ^ d := by positivity
  set k := Np.roundHalfEven (x / 2 ^ d) with hk
  have e0 : dbl x = k * 2 ^ d := by
    unfold dbl roundBits
    simp only
    rw [← he, show e - (((53 : ℕ) : ℤ) - 1) = d by rw [hd]; push_cast; ring]
  have a1 : ((2 ^ 52 : ℤ) : ℝ) ≤ x / 2 ^ d := by
    rw [le_div_iff₀ hp]
    have : ((2 ^ 52 : ℤ) : ℝ) * 2 ^ d = 2 ^ e := by
      rw [hd, zpow_sub₀ (by norm_num)]; push_cast; norm_num; ring
    rw [this]; exact h1
  have a2 : x / 2 ^ d ≤ ((2 ^ 53 : ℤ) : ℝ) := by
    rw [div_le_iff₀ hp]
    have : ((2 ^ 53 : ℤ) : ℝ) * 2 ^ d = 2 ^ (e + 1) := by
      rw [hd, zpow_sub₀ (by norm_num), zpow_add₀ (by norm_num)]; push_cast; norm_num; ring
    rw [this]; exact h2.le
  have k1 : 2 ^ 52 ≤ k := by have := Np.roundHalfEven_mono a1; rwa [Np.roundHalfEven_int] at this
  have k2 : k ≤ 2 ^ 53 := by have := Np.roundHalfEven_mono a2; rwa [Np.roundHalfEven_int] at this
  rw [e0]
  rcases k2.eq_or_lt with h | h
  · have e1 : (k : ℝ) * 2 ^ d = ((2 ^ 52 : ℤ) : ℝ) * 2 ^ (d + 1) := by
      rw [h, zpow_add₀ (by norm_num)]; push_cast; ring
    have e2 : ((2 ^ 52 : ℤ) : ℝ) * 2 ^ (d + 1) = 2 ^ (d + 1 + 52) := by
      rw [zpow_add₀ (by norm_num) (d + 1) 52]; push_cast; norm_num; ring
    rw [e1]
    refine dbl_eq (k := 2 ^ 52) ?_ ?_ ?_
    · rw [e2]
    · rw [e2]; exact zpow_lt_zpow_right₀ (by norm_num) (by omega)
    · rw [mul_div_assoc, div_self (by positivity)]; simp
  · refine dbl_eq ?_ ?_ ?_
    · rw [zpow_add₀ (by norm_num), mul_comm]
      gcongr
      have : ((2 ^ 52 : ℤ) : ℝ) ≤ k := by exact_mod_cast k1
      push_cast at this; norm_num at this ⊢; exact this
    · rw [zpow_add₀ (by norm_num), mul_comm]
      gcongr
      have : (k : ℝ) < ((2 ^ 53 : ℤ) : ℝ) := by exact_mod_cast h
      push_cast at this; norm_num at this ⊢; exact this
    · rw [mul_div_assoc, div_self hp.ne']; simp

theorem dbl_one : dbl 1 = 1 := by
  have : dbl ((2 ^ 52 : ℤ) * (2 : ℝ) ^ (-52 : ℤ)) = ((2 ^ 52 : ℤ) : ℝ) * 2 ^ (-52 : ℤ) := by
    refine dbl_eq ?_ ?_ ?_ <;> norm_num
  norm_num at this
  exact this

/-! ## The shape -/

theorem Rel.trans {i j a b c : ℝ} (h : Rel i a b) (h' : Rel j b c) (hi : 0 ≤ i) (hi' : i ≤ 1000) (hj : j ≤ 1000) : Rel (i + j + 1) a c := by
  have hu := ulp_pos
  have hs := ulp_small
  have hc := abs_nonneg c
  have hb : |b| ≤ (1 + 1000 * ulp) * |c| := by
    have h1 := abs_add_le (b - c) c
    rw [sub_add_cancel] at h1
    unfold Rel at h'
    have : j * ulp * |c| ≤ 1000 * ulp * |c| := by gcongr
    linarith
  unfold Rel at *
  calc _ ≤ |a - b| + |b - c| := abs_sub_le _ _ _
    _ ≤ i * ulp * ((1 + 1000 * ulp) * |c|) + j * ulp * |c| := add_le_add (h.trans (by gcongr)) h'
    _ = (i + j) * ulp * |c| + ulp * |c| * (i * (1000 * ulp)) := by ring
    _ ≤ (i + j) * ulp * |c| + ulp * |c| * 1 := by
        have : i * (1000 * ulp) ≤ 1 := by
          have : i * (1000 * ulp) ≤ 1000 * (1000 * (1 / 10 ^ 15)) := by gcongr
          linarith
        gcongr
    _ = _ := by ring

theorem rel_dbl (c : ℝ) : Rel 2 (dbl c) c := by simpa using (Rel.refl c).dbl (by norm_num)

theorem pow_rel {E : ExpPow} (hE : AccuratePow E) (x : ℝ) (n : ℕ) : Rel 2 (E.pow x n) (x ^ n) := by
  have := hE.2 x n
  rw [two_ulp] at this
  unfold Rel; linarith

theorem Rel.mulC {k x x' : ℝ} (c : ℝ) (h : Rel k x x') (hk : k ≤ 990) : Rel (k + 5) (Vsm.dbl (Vsm.dbl c * x)) (c * x') := by
  have := ((rel_dbl c).mul h (by norm_num) (by linarith)).dbl (by linarith)
  exact this.mono (by linarith)

theorem rise_close {E : ExpPow} (hE : AccuratePow E) {x x' : ℝ} (h : Rel 5 x x') (h1 : -1.001 ≤ x') (h2 : x' ≤ 0) : |E.rise x - rise x'| ≤ 150 * ulp := by
  have hu := ulp_pos
  have hs := ulp_small
  have hx : |x'| ≤ 1.001 := abs_le.mpr ⟨by linarith, by linarith⟩
  have q2 : |x' ^ 2| ≤ 1.003 := by rw [abs_pow]; calc _ ≤ (1.001 : ℝ) ^ 2 := by gcongr
                                                 _ ≤ _ := by norm_num
  have q3 : |x' ^ 3| ≤ 1.004 := by rw [abs_pow]; calc _ ≤ (1.001 : ℝ) ^ 3 := by gcongr
                                                 _ ≤ _ := by norm_num
  have q4 : |x' ^ 4| ≤ 1.005 := by rw [abs_pow]; calc _ ≤ (1.001 : ℝ) ^ 4 := by gcongr
                                                 _ ≤ _ := by norm_num
  have r2 : Rel 11 (x * x) (x' * x') := by simpa using (h.mul h (by norm_num) (by norm_num)).mono (l := 11) (by norm_num)
  have r3 : Rel 17 (x ^ 3) (x' ^ 3) := by
    have := (r2.mul h (by norm_num) (by norm_num)).mono (l := 17) (by norm_num)
    rw [show x ^ 3 = x * x * x by ring, show x' ^ 3 = x' * x' * x' by ring]; exact this
  have r4 : Rel 23 (x ^ 4) (x' ^ 4) := by
    have := (r3.mul h (by norm_num) (by norm_num)).mono (l := 23) (by norm_num)
    rw [show x ^ 4 = x ^ 3 * x by ring, show x' ^ 4 = x' ^ 3 * x' by ring]; exact this
  have s1 := (h.mulC 1.94053 (by norm_num)).err (A := 1.9425) (by rw [abs_mul]; norm_num [abs_of_pos]; linarith) (by norm_num)
  have s2 := ((r2.dbl (by norm_num)).mulC (-0.175084) (by norm_num)).err (A := 0.176) (by rw [abs_mul, ← sq]; norm_num [abs_of_pos]; norm_num at q2; linarith) (by norm_num)
  have s3 := (((pow_rel hE x 3).trans r3 (by norm_num) (by norm_num) (by norm_num)).mulC (-2.24588) (by norm_num)).err (A := 2.26) (by rw [abs_mul]; norm_num [abs_of_pos]; norm_num at q3; linarith) (by norm_num)
  have s4 := (((pow_rel hE x 4).trans r4 (by norm_num) (by norm_num) (by norm_num)).mulC (-1.12498) (by norm_num)).err (A := 1.135) (by rw [abs_mul]; norm_num [abs_of_pos]; norm_num at q4; linarith) (by norm_num)
  have b2 := abs_le.mp q2
  have b3 := abs_le.mp q3
  have b4 := abs_le.mp q4
  unfold ExpPow.rise
  set t1 := dbl (dbl 1.94053 * x)
  set t2 := dbl (dbl (-0.175084) * dbl (x * x))
  set t3 := dbl (dbl (-2.24588) * E.pow x 3)
  set t4 := dbl (dbl (-1.12498) * E.pow x 4)
  have add {a a' b b' i j : ℝ} (ha : |a - a'| ≤ i) (hb : |b - b'| ≤ j) : |a + b - (a' + b')| ≤ i + j := by
    rw [add_sub_add_comm]; exact (abs_add_le _ _).trans (add_le_add ha hb)
  have u1 := dbl_abs (x := 1 + t1) (y := 1 + 1.94053 * x') (B := 1) (add (a := 1) (a' := 1) (i := 0) (by simp) s1) (abs_le.mpr ⟨by linarith, by linarith⟩) (by linarith)
  have u2 := dbl_abs (B := 1.2) (add u1 s2) (by rw [← sq]; exact abs_le.mpr ⟨by linarith, by linarith [sq_nonneg x']⟩) (by linarith)
  have u3 := dbl_abs (B := 4) (add u2 s3) (by rw [← sq]; exact abs_le.mpr ⟨by linarith, by linarith [sq_nonneg x']⟩) (by linarith)
  have u4 := dbl_abs (B := 5) (add u3 s4) (by rw [← sq]; exact abs_le.mpr ⟨by linarith, by linarith [sq_nonneg x']⟩) (by linarith)
  have e : rise x' = 1 + 1.94053 * x' + -0.175084 * (x' * x') + -2.24588 * x' ^ 3 + -1.12498 * x' ^ 4 := by unfold rise; ring
  rw [e]
  refine u4.trans ?_
  linarith

theorem exp_near {E : ExpPow} (hE : AccuratePow E) {x x' c : ℝ} (h : Rel 5 x x') (h1 : 0 ≤ x') (h2 : x' ≤ 21) (hc : 0 < c) (hc2 : c ≤ 2) {y : ℝ}
    (hy : y = dbl (x * dbl (-c)) ∨ y = dbl (dbl (-c) * x)) : Near 26 (E.exp y) (exp (-c * x')) := by
  have hu := ulp_pos
  have hs := ulp_small
  have r : Rel 10 y (-c * x') := by
    have : Rel 10 (dbl (dbl (-c) * x)) (-c * x') := (h.mulC (-c) (by norm_num)).mono (by norm_num)
    rcases hy with rfl | rfl
    · rw [mul_comm x]; exact this
    · exact this
  set z := c * x' with hz
  have hz0 : 0 ≤ z := by positivity
  have hz1 : z ≤ 42 := by rw [hz]; nlinarith
  have e0 : -c * x' = -z := by rw [hz]; ring
  rw [e0] at r ⊢
  unfold Rel at r
  rw [abs_neg, abs_of_nonneg hz0] at r
  have hzz : z * exp (-z) ≤ 1 := by
    have h3 := add_one_le_exp z
    have h4 : exp z * exp (-z) = 1 := by rw [← exp_add]; simp
    have h5 := exp_pos (-z)
    nlinarith
  have h6 : |exp y - exp (-z)| ≤ 20 * ulp := by
    have e1 : exp y - exp (-z) = exp (-z) * (exp (y - -z) - 1) := by rw [mul_sub, ← exp_add]; simp
    have h7 : |y - -z| ≤ 1 := r.trans (by nlinarith)
    have h8 := abs_exp_sub_one_le h7
    have h9 := exp_pos (-z)
    rw [e1, abs_mul, abs_of_pos h9]
    calc _ ≤ exp (-z) * (2 * (10 * ulp * z)) := by gcongr; exact h8.trans (by gcongr)
      _ = 20 * ulp * (z * exp (-z)) := by ring
      _ ≤ 20 * ulp * 1 := by gcongr
      _ = _ := by ring
  have hle : exp (-z) ≤ 1 := exp_le_one_iff.mpr (by linarith)
  have h10 := hE.1 y
  rw [two_ulp] at h10
  have h11 : exp y ≤ 3 := by have := (abs_le.mp h6).2; linarith
  refine ⟨?_, by rw [abs_of_pos (exp_pos _)]; exact hle⟩
  calc _ ≤ |E.exp y - exp y| + |exp y - exp (-z)| := abs_sub_le _ _ _
    _ ≤ 3 * (2 * ulp) + 20 * ulp := add_le_add (h10.trans (by gcongr)) h6
    _ = _ := by ring

theorem near_dbl {c : ℝ} (hc : |c| ≤ 1) : Near 2 (dbl c) c := by
  refine ⟨?_, hc⟩
  have := rel_dbl c
  have hu := ulp_pos
  unfold Rel at this
  nlinarith [abs_nonneg c]

theorem decay_close {E : ExpPow} (hE : AccuratePow E) {x x' : ℝ} (h : Rel 5 x x') (h1 : 0 < x') (h2 : x' ≤ 21) : |E.decay x - decay x'| ≤ 80 * ulp := by
  have n1 := exp_near hE h h1.le h2 (c := 1.60053) (by norm_num) (by norm_num) (Or.inl rfl)
  have n2 := exp_near hE h h1.le h2 (c := 0.278318) (by norm_num) (by norm_num) (Or.inl rfl)
  have m1 := ((near_dbl (c := 0.689008) (by norm_num [abs_of_pos])).mul n1 (by norm_num) (by norm_num)).dbl (by norm_num)
  have m2 := ((near_dbl (c := 0.302963) (by norm_num [abs_of_pos])).mul n2 (by norm_num) (by norm_num)).dbl (by norm_num)
  have hb := decay_bounds h1
  have m3 := (m1.add m2 (by change |decay x'| ≤ 1; rw [abs_of_pos hb.1]; exact hb.2.le)).dbl (by norm_num)
  exact (m3.mono (l := 80) (by norm_num)).1


/-! ## The integral -/

theorem before_close : |ExpPow.intBefore - Xoflares.intBefore (-1)| ≤ 30 * ulp := by
  have hu := ulp_pos
  have hs := ulp_small
  have add {a a' b b' i j : ℝ} (ha : |a - a'| ≤ i) (hb : |b - b'| ≤ j) : |a + b - (a' + b')| ≤ i + j := by
    rw [add_sub_add_comm]; exact (abs_add_le _ _).trans (add_le_add ha hb)
  have term (c s n : ℝ) (hs : |s| = 1) (hn : n ≠ 0) (B : ℝ) (hB : |c * s / n| ≤ B) : |dbl (dbl (dbl c * s) / n) - c * s / n| ≤ 8 * B * ulp := by
    have h1 := ((rel_dbl c).mul (Rel.refl s) (by norm_num) (by norm_num)).dbl (by norm_num)
    have h2 := ((h1.div (Rel.refl n) (by norm_num) (by norm_num) (by norm_num) (by norm_num) hn).dbl (by norm_num)).mono (l := 8) (by norm_num)
    exact h2.err hB (by norm_num)
  have t0 : |dbl (1 * -1) - (1 * -1)| ≤ 1 * ulp := by
    have := dbl_err (1 * -1)
    norm_num at this ⊢; linarith
  have t1 := term 1.94053 1 2 (by norm_num) (by norm_num) 1 (by norm_num [abs_of_pos])
  have t2 := term (-0.175084) (-1) 3 (by norm_num) (by norm_num) 0.06 (by norm_num [abs_of_pos])
  have t3 := term (-2.24588) 1 4 (by norm_num) (by norm_num) 0.6 (by norm_num [abs_of_pos])
  have t4 := term (-1.12498) (-1) 5 (by norm_num) (by norm_num) 0.25 (by norm_num [abs_of_pos])
  have u1 := dbl_abs (B := 0.1) (add t0 t1) (by norm_num [abs_of_pos, abs_of_neg, abs_le]) (by linarith)
  have u2 := dbl_abs (B := 0.1) (add u1 t2) (by norm_num [abs_of_pos, abs_of_neg, abs_le]) (by linarith)
  have u3 := dbl_abs (B := 1) (add u2 t3) (by norm_num [abs_of_pos, abs_of_neg, abs_le]) (by linarith)
  have u4 := dbl_abs (B := 1) (add u3 t4) (by norm_num [abs_of_pos, abs_of_neg, abs_le]) (by linarith)
  unfold ExpPow.intBefore
  have e : Xoflares.intBefore (-1) = 1 * -1 + 1.94053 * 1 / 2 + -0.175084 * -1 / 3 + -2.24588 * 1 / 4 + -1.12498 * -1 / 5 := by
    unfold Xoflares.intBefore; norm_num
  rw [e]
  refine u4.trans ?_
  linarith

theorem mul_close {a a' b b' i j A : ℝ} (ha : |a - a'| ≤ i) (hb : |b - b'| ≤ j) (hA : |a'| ≤ A) (hB : |b'| ≤ 1) (hi : i ≤ 1) : |a * b - a' * b'| ≤ i + (A + 1) * j := by
  have e : a * b - a' * b' = (a - a') * b' + a * (b - b') := by ring
  have h1 : |a| ≤ A + 1 := by
    have := abs_add_le (a - a') a'
    rw [sub_add_cancel] at this
    linarith
  have h0 : 0 ≤ i := (abs_nonneg _).trans ha
  have h0' : 0 ≤ j := (abs_nonneg _).trans hb
  have hA0 : 0 ≤ A + 1 := by have := abs_nonneg a'; linarith
  rw [e]
  calc _ ≤ |a - a'| * |b'| + |a| * |b - b'| := by rw [← abs_mul, ← abs_mul]; exact abs_add_le _ _
    _ ≤ i * 1 + (A + 1) * j := by gcongr
    _ = _ := by ring

theorem after_close {E : ExpPow} (hE : AccuratePow E) {x : ℝ} (h1 : 0 ≤ x) (h2 : x ≤ 21) : |E.intAfter x - Xoflares.intAfter x| ≤ 150 * ulp := by
  have hu := ulp_pos
  have hs := ulp_small
  have hx : Rel 5 x x := (Rel.refl x).mono (by norm_num)
  have n1 := exp_near hE hx h1 h2 (c := 1.60053) (by norm_num) (by norm_num) (Or.inr rfl)
  have n2 := exp_near hE hx h1 h2 (c := 0.278318) (by norm_num) (by norm_num) (Or.inr rfl)
  have q (a b : ℝ) (hb : b ≠ 0) (B : ℝ) (hB : |a / b| ≤ B) : |dbl (dbl a / dbl b) - a / b| ≤ 7 * B * ulp :=
    ((((rel_dbl a).div (rel_dbl b) (by norm_num) (by norm_num) (by norm_num) (by norm_num) hb).dbl (by norm_num)).mono (l := 7) (by norm_num)).err hB (by norm_num)
  have q1 := q 0.689008 (-1.60053) (by norm_num) 0.5 (by rw [abs_le]; norm_num)
  have q2 := q 0.302963 (-0.278318) (by norm_num) 1.1 (by rw [abs_le]; norm_num)
  have m1 := mul_close (A := 0.5) q1 n1.1 (by rw [abs_le]; norm_num) n1.2 (by linarith)
  have m2 := mul_close (A := 1.1) q2 n2.1 (by rw [abs_le]; norm_num) n2.2 (by linarith)
  have p1 : |0.689008 / -1.60053 * exp (-1.60053 * x)| ≤ 0.5 := by
    rw [abs_mul]
    calc _ ≤ (0.5 : ℝ) * 1 := mul_le_mul (by rw [abs_le]; norm_num) n1.2 (abs_nonneg _) (by norm_num)
      _ = _ := by norm_num
  have p2 : |0.302963 / -0.278318 * exp (-0.278318 * x)| ≤ 1.1 := by
    rw [abs_mul]
    calc _ ≤ (1.1 : ℝ) * 1 := mul_le_mul (by rw [abs_le]; norm_num) n2.2 (abs_nonneg _) (by norm_num)
      _ = _ := by norm_num
  have d1 := dbl_abs m1 p1 (by linarith)
  have d2 := dbl_abs m2 p2 (by linarith)
  have add {a a' b b' i j : ℝ} (ha : |a - a'| ≤ i) (hb : |b - b'| ≤ j) : |a + b - (a' + b')| ≤ i + j := by
    rw [add_sub_add_comm]; exact (abs_add_le _ _).trans (add_le_add ha hb)
  have d3 := dbl_abs (B := 1.6) (add d1 d2) ((abs_add_le _ _).trans (by linarith)) (by linarith)
  unfold ExpPow.intAfter Xoflares.intAfter
  refine d3.trans ?_
  linarith

theorem unitIntegral_big : 1 ≤ unitIntegral ∧ unitIntegral ≤ 3 := by
  have h1 : exp (-1.60053 * 20 : ℝ) ≤ 0.1 := by
    rw [← le_log_iff_exp_le (by norm_num)]
    have := log_le_sub_one_of_pos (show (0 : ℝ) < 10 by norm_num)
    have e : log 0.1 = - log 10 := by rw [show (0.1 : ℝ) = 10⁻¹ by norm_num, log_inv]
    rw [e]; linarith
  have h2 : exp (-0.278318 * 20 : ℝ) ≤ 0.4 := by
    rw [← le_log_iff_exp_le (by norm_num)]
    have := log_le_sub_one_of_pos (show (0 : ℝ) < 2.5 by norm_num)
    have e : log 0.4 = - log 2.5 := by rw [show (0.4 : ℝ) = 2.5⁻¹ by norm_num, log_inv]
    rw [e]; linarith
  have h3 := exp_pos (-1.60053 * 20 : ℝ)
  have h4 := exp_pos (-0.278318 * 20 : ℝ)
  unfold unitIntegral Xoflares.intBefore Xoflares.intAfter
  simp only [mul_zero, exp_zero]
  constructor <;> linarith

theorem integral_rel {E : ExpPow} (hE : AccuratePow E) (w : ℝ) : Rel 410 (E.flareIntegral w 1) (unitIntegral * w) := by
  have hu := ulp_pos
  have hs := ulp_small
  obtain ⟨hI1, hI3⟩ := unitIntegral_big
  have b := before_close
  have a20 := after_close hE (x := 20) (by norm_num) (by norm_num)
  have a0 := after_close hE (x := 0) (by norm_num) (by norm_num)
  have sub {a a' b b' i j : ℝ} (ha : |a - a'| ≤ i) (hb : |b - b'| ≤ j) : |a - b - (a' - b')| ≤ i + j := by
    rw [sub_sub_sub_comm]; exact (abs_sub _ _).trans (add_le_add ha hb)
  have add {a a' b b' i j : ℝ} (ha : |a - a'| ≤ i) (hb : |b - b'| ≤ j) : |a + b - (a' + b')| ≤ i + j := by
    rw [add_sub_add_comm]; exact (abs_add_le _ _).trans (add_le_add ha hb)
  have e0 : Xoflares.intBefore 0 = 0 := by unfold Xoflares.intBefore; norm_num
  have hb1 : |Xoflares.intBefore 0 - Xoflares.intBefore (-1)| ≤ 1 := by
    unfold Xoflares.intBefore; rw [abs_le]; norm_num
  have ha1 : |Xoflares.intAfter 20 - Xoflares.intAfter 0| ≤ 3 := by
    have h1 : exp (-1.60053 * 20 : ℝ) ≤ 1 := exp_le_one_iff.mpr (by norm_num)
    have h2 : exp (-0.278318 * 20 : ℝ) ≤ 1 := exp_le_one_iff.mpr (by norm_num)
    have h3 := exp_pos (-1.60053 * 20 : ℝ)
    have h4 := exp_pos (-0.278318 * 20 : ℝ)
    unfold Xoflares.intAfter
    simp only [mul_zero, exp_zero]
    rw [abs_le]
    constructor <;> linarith
  have u1 := dbl_abs (e := 0 + 30 * ulp) (sub (a := 0) (a' := Xoflares.intBefore 0) (i := 0) (by rw [e0]; simp) b) hb1 (by linarith)
  have u2 := dbl_abs (sub a20 a0) ha1 (by linarith)
  have u3 := add u1 u2
  have r : Rel 340 (dbl (0 - ExpPow.intBefore) + dbl (E.intAfter 20 - E.intAfter 0)) unitIntegral := by
    unfold Rel
    change |_ - unitIntegral| ≤ _ at u3
    rw [abs_of_pos (show 0 < unitIntegral by linarith)]
    refine u3.trans ?_
    nlinarith
  have r1 := (((r.dbl (by norm_num)).mul (Rel.refl 1) (by norm_num) (by norm_num)).dbl (by norm_num))
  have r2 := ((r1.mul (Rel.refl w) (by norm_num) (by norm_num)).dbl (by norm_num))
  unfold ExpPow.flareIntegral
  rw [mul_one unitIntegral] at r2
  exact r2.mono (by norm_num)

/-- The factor from erg/(W m⁻² K⁻⁴)/K⁴/(km² day)·km² to km² (spec). -/
def Spec.km2Factor : ℝ := 1 / (1e7 * 86400 * 1e6)

theorem peak_rel {E : ExpPow} (hE : AccuratePow E) {c e T w : ℝ} (hc : |c - km2Factor| ≤ km2Factor / 2 ^ 47) (hT : T ≠ 0) (hw : 0 < w) :
    Rel 510 (E.peakArea c e T w) (e / (sigmaSB * T ^ 4 * (unitIntegral * w))) := by
  have hu := ulp_pos
  obtain ⟨hI1, hI3⟩ := unitIntegral_big
  have rc : Rel 64 c km2Factor := by
    have h0 : (0 : ℝ) < km2Factor := by unfold km2Factor; norm_num
    unfold Rel
    rw [abs_of_pos h0]
    refine hc.trans (le_of_eq ?_)
    unfold ulp; ring
  have r1 := (((Rel.refl e).div (rel_dbl 5.670374419e-8) (by norm_num) (by norm_num) (by norm_num) (by norm_num) (by norm_num)).dbl (by norm_num)).mono (l := 5) (by norm_num)
  have r2 := ((r1.div (pow_rel hE T 4) (by norm_num) (by norm_num) (by norm_num) (by norm_num) (pow_ne_zero _ hT)).dbl (by norm_num)).mono (l := 10) (by norm_num)
  have r3 := ((r2.div (integral_rel hE w) (by norm_num) (by norm_num) (by norm_num) (by norm_num) (by positivity)).dbl (by norm_num)).mono (l := 423) (by norm_num)
  have r4 := ((r3.mul (Rel.refl 1) (by norm_num) (by norm_num)).dbl (by norm_num)).mono (l := 426) (by norm_num)
  have r5 := ((r4.mul rc (by norm_num) (by norm_num)).dbl (by norm_num)).mono (l := 510) (by norm_num)
  unfold ExpPow.peakArea
  have e1 : e / (sigmaSB * T ^ 4 * (unitIntegral * w)) = e / 5.670374419e-8 / T ^ 4 / (unitIntegral * w) * 1 * km2Factor := by
    unfold sigmaSB km2Factor
    field_simp
  rw [e1]
  exact r5


/-! ## The curve -/

theorem rise_floor {x : ℝ} (h1 : -1 < x) (h2 : x ≤ 0) : 0.005 ≤ rise x := by
  obtain ⟨y, rfl⟩ : ∃ y, x = -y := ⟨-x, by ring⟩
  have hy0 : 0 ≤ y := by linarith
  have hy1 : y < 1 := by linarith
  have hq : 0 ≤ 0.994714 - 0.945816 * y - 1.1209 * y ^ 2 + 1.12498 * y ^ 3 := by
    nlinarith [mul_nonneg (sq_nonneg (y - 0.957)) hy0, sq_nonneg (y - 0.957)]
  have : rise (-y) = 0.005286 + (1 - y) * (0.994714 - 0.945816 * y - 1.1209 * y ^ 2 + 1.12498 * y ^ 3) := by
    unfold rise; ring
  rw [this]
  have := mul_nonneg (by linarith : 0 ≤ 1 - y) hq
  linarith

theorem rise_start {x : ℝ} (h : |x + 1| ≤ 1 / 10 ^ 10) : 0.005 ≤ rise x ∧ rise x ≤ 0.0054 := by
  obtain ⟨d, rfl⟩ : ∃ d, x = -1 + d := ⟨x + 1, by ring⟩
  rw [neg_add_cancel_comm] at h
  have hd : |d| ≤ 1 := h.trans (by norm_num)
  have h0 := abs_nonneg d
  have p2 : |d ^ 2| ≤ 1 / 10 ^ 10 := by rw [abs_pow, sq]; nlinarith
  have p3 : |d ^ 3| ≤ 1 / 10 ^ 10 := by
    rw [abs_pow, show |d| ^ 3 = |d| * |d| ^ 2 by ring]
    have : |d| ^ 2 ≤ 1 := pow_le_one₀ h0 hd
    nlinarith [sq_nonneg |d|]
  have p4 : |d ^ 4| ≤ 1 / 10 ^ 10 := by
    rw [abs_pow, show |d| ^ 4 = |d| * |d| ^ 3 by ring]
    have : |d| ^ 3 ≤ 1 := pow_le_one₀ h0 hd
    nlinarith [pow_nonneg h0 3]
  have e : rise (-1 + d) = 0.005286 + 0.052978 * d - 0.187324 * d ^ 2 + 2.25404 * d ^ 3 - 1.12498 * d ^ 4 := by unfold rise; ring
  have a1 := abs_le.mp h
  have a2 := abs_le.mp p2
  have a3 := abs_le.mp p3
  have a4 := abs_le.mp p4
  rw [e]
  constructor <;> linarith

theorem decay_floor {x : ℝ} (h2 : x ≤ 21) : 0.0001 ≤ decay x := by
  have h3 : exp (-6 : ℝ) ≤ exp (-0.278318 * x) := exp_le_exp.mpr (by linarith)
  have h4 : (1 / 2.7182818286) ^ 6 ≤ exp (-6 : ℝ) := by
    have : exp (-6 : ℝ) = (1 / exp 1) ^ 6 := by rw [div_pow, one_pow, ← exp_nat_mul, exp_neg]; norm_num
    rw [this]
    have := exp_one_lt_d9
    gcongr
  have h5 := exp_pos (-1.60053 * x)
  have h6 : (0.002 : ℝ) ≤ (1 / 2.7182818286) ^ 6 := by norm_num
  unfold decay
  linarith

theorem decay_end {x : ℝ} (h : 19 ≤ x) : decay x ≤ 0.0054 := by
  have h5 : exp (-5 : ℝ) ≤ (1 / 2.7182818283) ^ 5 := by
    have : exp (-5 : ℝ) = (1 / exp 1) ^ 5 := by rw [div_pow, one_pow, ← exp_nat_mul, exp_neg]; norm_num
    rw [this]
    have := exp_one_gt_d9
    gcongr
  have h10 : exp (-10 : ℝ) = exp (-5) * exp (-5) := by rw [← exp_add]; norm_num
  have h0 := exp_pos (-5 : ℝ)
  have h7 : ((1 / 2.7182818283) ^ 5 : ℝ) ≤ 0.007 := by norm_num
  have h8 : exp (-10 : ℝ) ≤ 0.001 := by rw [h10]; nlinarith
  have h3 : exp (-0.278318 * x) ≤ exp (-5) := exp_le_exp.mpr (by linarith)
  have h4 : exp (-1.60053 * x) ≤ exp (-10) := exp_le_exp.mpr (by linarith)
  unfold decay
  linarith

theorem scaled_close {r r' P P' : ℝ} (h : |r - r'| ≤ 150 * ulp) (h0 : 0.0001 ≤ r') (h1 : r' ≤ 1) (hP : Rel 510 P P') (hP' : 0 ≤ P') :
    |dbl (r * P) - r' * P'| ≤ 700 * ulp * P' ∧ 0 ≤ dbl (r * P) ∧ (0 < P' → 0 < dbl (r * P)) := by
  have hu := ulp_pos
  have hs := ulp_small
  unfold Rel at hP
  rw [abs_of_nonneg hP'] at hP
  have hb := abs_le.mp h
  have hPb := abs_le.mp hP
  have hr : 0 < r := by linarith
  have hP0 : 0.5 * P' ≤ P := by nlinarith
  have hP1 : P ≤ 1.01 * P' := by nlinarith
  have hP2 : 0 ≤ P := by linarith
  have h2 : |r * P - r' * P'| ≤ 690 * ulp * P' := by
    have e : r * P - r' * P' = (r - r') * P + r' * (P - P') := by ring
    have hr0 : 0 ≤ r' := by linarith
    rw [e]
    calc _ ≤ |r - r'| * |P| + |r'| * |P - P'| := by rw [← abs_mul, ← abs_mul]; exact abs_add_le _ _
      _ ≤ 150 * ulp * (1.01 * P') + 1 * (510 * ulp * P') := by
          rw [abs_of_nonneg hP2, abs_of_nonneg hr0]; gcongr
      _ ≤ _ := by have : 0 ≤ ulp * P' := by positivity
                  linarith
  have h3 := dbl_err (r * P)
  rw [abs_of_nonneg (show 0 ≤ r * P by positivity)] at h3
  have hr1 : r ≤ 1.1 := by linarith
  refine ⟨?_, dbl_nonneg (by positivity), fun h => dbl_pos (mul_pos hr (by linarith))⟩
  calc _ ≤ |dbl (r * P) - r * P| + |r * P - r' * P'| := abs_sub_le _ _ _
    _ ≤ (1.1 * (1.01 * P')) * ulp + 690 * ulp * P' := add_le_add (h3.trans (by gcongr)) h2
    _ ≤ _ := by have : 0 ≤ ulp * P' := by positivity
                linarith

/-- What is claimed of the computed area `b` when the exact one is `a`, the peak `P` and the phase `x`. -/
def Spec.CurveOk (P x a b : ℝ) : Prop :=
  0 ≤ b ∧ |b - a| ≤ 0.0055 * P ∧
    (1 / 2 ^ 50 ≤ |x + 1| → 1 / 2 ^ 46 ≤ |x - 20| → |b - a| ≤ P / 2 ^ 43 ∧ (a = 0 → b = 0) ∧ (0 < a → 0 < b))

theorem light_close {E : ExpPow} (hE : AccuratePow E) {t p w P P' : ℝ} (hw : 0 < w) (hP : Rel 510 P P') (hP' : 0 ≤ P') :
    CurveOk P' ((t - p) / w) (template ((t - p) / w) * P') (E.lightCurve t p w P) := by
  have hu := ulp_pos
  have hs := ulp_small
  have hx : Rel 5 (dbl (dbl (t - p) / w)) ((t - p) / w) := by
    have := (((rel_dbl (t - p)).div (Rel.refl w) (by norm_num) (by norm_num) (by norm_num) (by norm_num) hw.ne').dbl (by norm_num)).mono (l := 5) (by norm_num)
    exact this
  have hle : t ≤ p ↔ (t - p) / w ≤ 0 := by rw [div_le_iff₀ hw, zero_mul, sub_nonpos]
  have hlt : p < t ↔ 0 < (t - p) / w := by rw [← not_le, hle, not_le]
  have n50 : (1 : ℝ) / 2 ^ 50 = 8 * ulp := by unfold ulp; norm_num
  have n46 : (1 : ℝ) / 2 ^ 46 = 128 * ulp := by unfold ulp; norm_num
  have n43 : P' / 2 ^ 43 = 1024 * ulp * P' := by unfold ulp; ring
  unfold ExpPow.lightCurve
  simp only [hle, hlt]
  set x := dbl (dbl (t - p) / w)
  set x' := (t - p) / w
  have hx' := hx
  unfold Rel at hx'
  have huP : 0 ≤ ulp * P' := by positivity
  have hsP : ulp * P' ≤ 1 / 10 ^ 15 * P' := by gcongr
  unfold CurveOk
  rw [n50, n46, n43]
  rcases lt_or_ge 0 x' with h0 | h0
  · rw [abs_of_pos h0] at hx'
    have hb := abs_le.mp hx'
    by_cases h20 : x < 20
    · have h21 : x' ≤ 20 + 128 * ulp := by nlinarith
      have h21' : x' ≤ 21 := by linarith
      rw [if_pos ⟨h0, h20⟩]
      obtain ⟨c1, c2, c3⟩ := scaled_close ((decay_close hE hx h0 h21').trans (by linarith)) (decay_floor h21') (decay_bounds h0).2.le hP hP'
      refine ⟨c2, ?_⟩
      by_cases h' : x' < 20
      · have e : template x' = decay x' := by
          unfold template
          rw [Set.indicator_of_notMem (fun h => absurd h.2 (not_le.mpr h0)), Set.indicator_of_mem (show x' ∈ Set.Ioo (0 : ℝ) 20 from ⟨h0, h'⟩), zero_add]
        rw [e]
        refine ⟨by linarith, fun _ _ => ⟨by linarith, fun h => ?_, fun h => c3 ?_⟩⟩
        · have hd := (decay_bounds h0).1
          have : P' = 0 := by
            rcases mul_eq_zero.mp h with h | h
            · linarith
            · exact h
          rw [h, this] at c1
          simpa using c1
        · by_contra hn
          have : P' = 0 := le_antisymm (not_lt.mp hn) hP'
          rw [this, mul_zero] at h
          exact lt_irrefl _ h
      · rw [template_out (Or.inr (not_lt.mp h')), zero_mul, sub_zero, abs_of_nonneg c2]
        refine ⟨?_, fun _ hm => ?_⟩
        · have h1 := (abs_le.mp c1).2
          have h2 : decay x' * P' ≤ 0.0054 * P' := by gcongr; exact decay_end (by linarith)
          linarith
        · exfalso
          have h1 := not_lt.mp h'
          rw [abs_of_nonneg (by linarith)] at hm
          nlinarith
    · rw [if_neg (fun h => h20 h.2), if_neg (fun h => absurd h.1 (not_le.mpr h0))]
      refine ⟨le_rfl, ?_⟩
      rw [zero_sub, abs_neg]
      by_cases h' : x' < 20
      · have e : template x' = decay x' := by
          unfold template
          rw [Set.indicator_of_notMem (fun h => absurd h.2 (not_le.mpr h0)), Set.indicator_of_mem (show x' ∈ Set.Ioo (0 : ℝ) 20 from ⟨h0, h'⟩), zero_add]
        have h19 : 20 - 128 * ulp < x' := by
          have := not_lt.mp h20
          nlinarith
        rw [e, abs_of_nonneg (mul_nonneg (decay_bounds h0).1.le hP')]
        refine ⟨by have := decay_end (x := x') (by linarith); gcongr; linarith, fun _ hm => ?_⟩
        exfalso
        rw [abs_of_neg (by linarith)] at hm
        linarith
      · rw [template_out (Or.inr (not_lt.mp h')), zero_mul, abs_zero]
        exact ⟨by positivity, fun _ _ => ⟨by positivity, fun _ => rfl, fun h => h⟩⟩
  · rw [if_neg (fun h => absurd h.1 (not_lt.mpr h0))]
    rw [abs_of_nonpos h0] at hx'
    have hb := abs_le.mp hx'
    by_cases h1 : -1 < x
    · have h2 : -1 - 8 * ulp < x' := by nlinarith
      have h2' : -1.001 ≤ x' := by linarith
      rw [if_pos ⟨h0, h1⟩]
      by_cases h' : -1 < x'
      · have e : template x' = rise x' := by
          unfold template
          rw [Set.indicator_of_mem (show x' ∈ Set.Ioc (-1 : ℝ) 0 from ⟨h', h0⟩), Set.indicator_of_notMem (fun h => absurd h.1 (not_lt.mpr h0)), add_zero]
        have hf := rise_floor h' h0
        obtain ⟨c1, c2, c3⟩ := scaled_close (rise_close hE hx h2' h0) (by linarith) (rise_bounds h' h0).2 hP hP'
        refine ⟨c2, ?_⟩
        rw [e]
        refine ⟨by linarith, fun _ _ => ⟨by linarith, fun h => ?_, fun h => c3 ?_⟩⟩
        · have : P' = 0 := by
            rcases mul_eq_zero.mp h with h | h
            · linarith
            · exact h
          rw [h, this] at c1
          simpa using c1
        · by_contra hn
          have : P' = 0 := le_antisymm (not_lt.mp hn) hP'
          rw [this, mul_zero] at h
          exact lt_irrefl _ h
      · have h3 := not_lt.mp h'
        have hd : |x' + 1| ≤ 8 * ulp := abs_le.mpr ⟨by linarith, by linarith⟩
        have hr := rise_start (hd.trans (by linarith))
        obtain ⟨c1, c2, c3⟩ := scaled_close (rise_close hE hx h2' h0) (by linarith) (by linarith) hP hP'
        refine ⟨c2, ?_⟩
        rw [template_out (Or.inl h3), zero_mul, sub_zero, abs_of_nonneg c2]
        refine ⟨?_, fun hm _ => ?_⟩
        · have h1 := (abs_le.mp c1).2
          have h2 : rise x' * P' ≤ 0.0054 * P' := by gcongr; exact hr.2
          linarith
        · exfalso
          rw [abs_of_nonpos (by linarith)] at hm
          linarith
    · rw [if_neg (fun h => h1 h.2)]
      refine ⟨le_rfl, ?_⟩
      rw [zero_sub, abs_neg]
      by_cases h' : -1 < x'
      · have e : template x' = rise x' := by
          unfold template
          rw [Set.indicator_of_mem (show x' ∈ Set.Ioc (-1 : ℝ) 0 from ⟨h', h0⟩), Set.indicator_of_notMem (fun h => absurd h.1 (not_lt.mpr h0)), add_zero]
        have h3 : x' < -1 + 8 * ulp := by
          have := not_lt.mp h1
          nlinarith
        have hd : |x' + 1| ≤ 8 * ulp := abs_le.mpr ⟨by linarith, by linarith⟩
        have hr := rise_start (hd.trans (by linarith))
        rw [e, abs_of_nonneg (mul_nonneg (by linarith) hP')]
        refine ⟨by gcongr; linarith, fun hm _ => ?_⟩
        exfalso
        rw [abs_of_nonneg (by linarith)] at hm
        linarith
      · rw [template_out (Or.inl (not_lt.mp h')), zero_mul, abs_zero]
        exact ⟨by positivity, fun _ _ => ⟨by positivity, fun _ => rfl, fun h => h⟩⟩

theorem light_peak {E : ExpPow} (hE : AccuratePow E) {p w P : ℝ} (hP : 0 ≤ P) : E.lightCurve p p w (dbl P) = dbl P := by
  unfold ExpPow.lightCurve
  have pw (n : ℕ) (hn : n ≠ 0) : E.pow 0 n = 0 := by
    have := hE.2 0 n
    rw [zero_pow hn] at this
    simpa using this
  simp only
  rw [if_neg (fun h => lt_irrefl _ h.1), sub_self, dbl_zero, zero_div, dbl_zero, if_pos ⟨le_rfl, by norm_num⟩]
  unfold ExpPow.rise
  rw [pw 3 (by norm_num), pw 4 (by norm_num)]
  simp only [mul_zero, dbl_zero, add_zero, dbl_one, one_mul]
  exact dbl_twice hP

/-- **C163** Flares in double precision: the peak area is right up to a relative error of 2⁻⁴⁴, the area at any time up to 2⁻⁴³ of the peak except within rounding of the two
ends of the flare, where it is right up to 0.55 percent of the peak.  It is never negative, and outside and inside the flare it is zero and positive as it should be.  At the
time of the peak it is the peak area. -/
theorem C163_flare_rounding (E : ExpPow) (hE : AccuratePow E) (c : ℝ) (hc : |c - km2Factor| ≤ km2Factor / 2 ^ 47) (f : StellarFlare) (e : ℝ) (he : f.energy = .fin e)
    (he0 : 0 ≤ e) (hw : 0 < f.fwhm) (hT : f.teff ≠ 0) :
    ∃ P, f.peakArea = .fin P ∧ |E.peakArea c e f.teff f.fwhm - P| ≤ P / 2 ^ 44 ∧
      E.areaAt c e f.teff f.fwhm f.tpeak f.tpeak = E.peakArea c e f.teff f.fwhm ∧
      ∀ t, ∃ a, f.areaAt t = .fin a ∧ CurveOk P ((t - f.tpeak) / f.fwhm) a (E.areaAt c e f.teff f.fwhm f.tpeak t) := by
  have hu := ulp_pos
  have h1 := sigmaSB_pos
  have h2 : 0 < f.teff ^ 4 := by positivity
  have h3 := unitIntegral_pos
  have hpk := peakArea_fin he hw hT
  have hr := peak_rel hE (e := e) hc hT hw
  set P := e / (sigmaSB * f.teff ^ 4 * (unitIntegral * f.fwhm)) with hP
  have hP0 : 0 ≤ P := by positivity
  refine ⟨P, hpk, ?_, ?_, fun t => ⟨template ((t - f.tpeak) / f.fwhm) * P, ?_, light_close hE hw hr hP0⟩⟩
  · unfold Rel at hr
    rw [abs_of_nonneg hP0] at hr
    have : P / 2 ^ 44 = 512 * ulp * P := by unfold ulp; ring
    rw [this]
    refine hr.trans ?_
    gcongr
    norm_num
  · unfold ExpPow.areaAt
    have hn : 0 ≤ E.peakArea c e f.teff f.fwhm := by
      unfold Rel at hr
      rw [abs_of_nonneg hP0] at hr
      have := (abs_le.mp hr).1
      have hs := ulp_small
      nlinarith
    unfold ExpPow.peakArea at hn ⊢
    simp only at hn ⊢
    exact light_peak hE (not_lt.mp fun h => absurd hn (not_le.mpr (by
      have := dbl_pos (neg_pos.mpr h)
      rw [dbl_neg] at this
      linarith)))
  · unfold StellarFlare.areaAt
    rw [hpk]
    exact lightCurve_single hw _ _ _

/-- Non-trivial instance of C163: the area of a flare of 10³³ erg, a tenth of a day after its peak at day 3. -/
example : ∃ P a, (⟨0.1, .fin 1e33, 0, 0, 9000, 3⟩ : StellarFlare).peakArea = .fin P ∧ (⟨0.1, .fin 1e33, 0, 0, 9000, 3⟩ : StellarFlare).areaAt 3.1 = .fin a ∧
    |ExpPow.rounded.areaAt (dbl km2Factor) 1e33 9000 0.1 3 3.1 - a| ≤ P / 2 ^ 43 := by
  obtain ⟨P, h1, -, -, h2⟩ := C163_flare_rounding ExpPow.rounded rounded_accuratePow (dbl km2Factor) ((dbl_err _).trans (by
    have h0 : (0 : ℝ) < km2Factor := by unfold km2Factor; norm_num
    rw [abs_of_pos h0]; unfold ulp; rw [mul_one_div]; gcongr <;> norm_num)) ⟨0.1, .fin 1e33, 0, 0, 9000, 3⟩ 1e33 rfl (by norm_num) (by norm_num) (by norm_num)
  obtain ⟨a, h3, -, -, h4⟩ := h2 3.1
  exact ⟨P, a, h1, h3, (h4 (by norm_num [abs_of_pos]) (by norm_num [abs_of_neg])).1⟩

end Vsm
