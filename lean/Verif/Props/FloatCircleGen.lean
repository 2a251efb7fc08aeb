import Verif.Props.FloatCircle

/-!
# C164: the overlap of two circles in double precision
-/

noncomputable section

namespace Vsm

open Real Spec

/-! ## Circles of other radii -/

theorem abs_dbl_le_one {x : ℝ} (h : |x| ≤ 1) : |dbl x| ≤ 1 := by
  have h' := abs_le.mp h
  refine abs_le.mpr ⟨?_, dbl_le_one h'.2⟩
  have := dbl_le_one (x := -x) (by linarith)
  rw [dbl_neg] at this
  linarith

theorem sqrt_step {a b : ℝ} (ha : 0 ≤ a) (hb : 0 < b) : |√a - √b| ≤ |a - b| / √b := by
  have h1 : 0 < √b := sqrt_pos.mpr hb
  have h2 := sqrt_nonneg a
  rw [le_div_iff₀ h1]
  have e : a - b = (√a - √b) * (√a + √b) := by
    have := sq_sqrt ha
    have := sq_sqrt hb.le
    nlinarith
  rw [e, abs_mul, abs_of_pos (show 0 < √a + √b by linarith)]
  gcongr
  linarith

theorem arccos_step {p q : ℝ} (hp : |p| < 1) (hq : |q| ≤ 1) : |arccos q - arccos p| ≤ 3 * |q - p| + 2 * |q - p| / √(1 - p ^ 2) := by
  have hp2 : p ^ 2 < 1 := by rw [← sq_abs]; exact pow_lt_one₀ (abs_nonneg p) hp two_ne_zero
  have hq2 : q ^ 2 ≤ 1 := by rw [← sq_abs]; exact pow_le_one₀ (abs_nonneg q) hq
  have h1 := seg_lipschitz q p
  have h2 := sqrt_step (a := 1 - q ^ 2) (b := 1 - p ^ 2) (by linarith) (by linarith)
  have hs : 0 < √(1 - p ^ 2) := sqrt_pos.mpr (by linarith)
  have h3 : |(1 - q ^ 2) - (1 - p ^ 2)| ≤ 2 * |q - p| := by
    have : (1 - q ^ 2) - (1 - p ^ 2) = (q - p) * (-(q + p)) := by ring
    rw [this, abs_mul, abs_neg, mul_comm]
    have := abs_add_le q p
    gcongr; linarith
  have h4 : √(1 - q ^ 2) ≤ 1 := sqrt_le_one.mpr (by linarith [sq_nonneg q])
  have h5 : |q * √(1 - q ^ 2) - p * √(1 - p ^ 2)| ≤ |q - p| + 2 * |q - p| / √(1 - p ^ 2) := by
    have : q * √(1 - q ^ 2) - p * √(1 - p ^ 2) = (q - p) * √(1 - q ^ 2) + p * (√(1 - q ^ 2) - √(1 - p ^ 2)) := by ring
    rw [this]
    refine (abs_add_le _ _).trans (add_le_add ?_ ?_)
    · rw [abs_mul, abs_of_nonneg (sqrt_nonneg _)]
      calc _ ≤ |q - p| * 1 := by gcongr
        _ = _ := mul_one _
    · rw [abs_mul]
      calc _ ≤ 1 * (|(1 - q ^ 2) - (1 - p ^ 2)| / √(1 - p ^ 2)) := by gcongr
        _ ≤ _ := by rw [one_mul]; gcongr
  have e : arccos q - arccos p = (seg q - seg p) + (q * √(1 - q ^ 2) - p * √(1 - p ^ 2)) := by unfold seg; ring
  rw [e]
  refine (abs_add_le _ _).trans ?_
  linarith

set_option maxHeartbeats 2000000 in
/-- The area of a segment whose chord is not too short. -/
theorem segment_gen {M : Libm} (hM : Accurate M) {R t h : ℝ} (hR : 0 < R) (hh : 0 < h) (ht : h ^ 2 ≤ R ^ 2 - t ^ 2) (hm : R ≤ 100000 * h) :
    ∃ v, M.segArea R t = .fin v ∧ |v - R ^ 2 * seg (t / R)| ≤ 40 * ulp * R ^ 3 / h := by
  have hu := ulp_pos
  have hs := ulp_small
  have htR : |t| < R := abs_lt_of_sq_lt_sq (by nlinarith [sq_pos_of_pos hh]) hR.le
  have hp : |t / R| < 1 := by rw [abs_div, abs_of_pos hR, div_lt_one hR]; exact htR
  have ht2 : t ^ 2 ≤ R ^ 2 := by nlinarith [sq_pos_of_pos hh]
  have ht0 := sq_nonneg t
  have hR2 : 0 < R ^ 2 := by positivity
  have hhR : h ≤ R := (sq_le_sq₀ hh.le hR.le).mp (by linarith)
  set H := √(R ^ 2 - t ^ 2) with hH
  have hpos : 0 < R ^ 2 - t ^ 2 := lt_of_lt_of_le (by positivity) ht
  have hhH : h ≤ H := le_sqrt_of_sq_le ht
  have hHR : H ≤ R := by
    rw [hH, sqrt_le_left hR.le]; linarith
  have hH0 : 0 < H := by linarith
  -- everything is measured in `w = ulp * R / h`
  set w := ulp * R / h with hw
  have hw1 : ulp ≤ w := by rw [hw, le_div_iff₀ hh]; gcongr
  have hw0 : 0 < w := by positivity
  have hwb : w ≤ 1 / 10 ^ 10 := by
    rw [hw, div_le_iff₀ hh]
    have : ulp * R ≤ 1 / 10 ^ 15 * (100000 * h) := by gcongr
    linarith
  have hgoal : 40 * ulp * R ^ 3 / h = 40 * w * R ^ 2 := by rw [hw]; field_simp
  have hq : |dbl (t / R)| ≤ 1 := abs_dbl_le_one hp.le
  have e1 : |dbl (R * R) - R ^ 2| ≤ ulp * R ^ 2 := by
    have := dbl_err (R * R)
    rw [← sq, abs_of_pos hR2] at this
    rw [← sq]; linarith
  have e2 : |dbl (t * t) - t ^ 2| ≤ ulp * R ^ 2 := by
    have := dbl_err (t * t)
    rw [← sq, abs_of_nonneg ht0] at this
    rw [← sq]
    have : t ^ 2 * ulp ≤ R ^ 2 * ulp := by gcongr
    linarith
  have huR : 0 < ulp * R ^ 2 := by positivity
  have huR1 : ulp * R ^ 2 ≤ 1 / 10 ^ 15 * R ^ 2 := by gcongr
  have e3 : |dbl (R * R) - dbl (t * t) - (R ^ 2 - t ^ 2)| ≤ 2 * ulp * R ^ 2 := by
    rw [sub_sub_sub_comm]
    exact (abs_sub _ _).trans (by linarith)
  have b3 := abs_le.mp e3
  have e4 := dbl_near (B := 2 * R ^ 2) e3 (abs_le.mpr ⟨by linarith, by linarith⟩)
  have b4 := abs_le.mp e4
  have hs0 : 0 ≤ dbl (dbl (R * R) - dbl (t * t)) := by
    have : R ^ 2 ≤ (100000 * h) ^ 2 := by gcongr
    rw [mul_pow] at this
    linarith
  unfold Libm.segArea
  simp only
  rw [if_pos ⟨hq, hs0⟩]
  refine ⟨_, rfl, ?_⟩
  rw [hgoal]
  set s := dbl (dbl (R * R) - dbl (t * t))
  have hwH : ulp * R / H ≤ w := by rw [hw]; gcongr
  have e5 : |√s - H| ≤ 4 * w * R := by
    refine (sqrt_step hs0 hpos).trans ?_
    rw [div_le_iff₀ hH0]
    have h6 : ulp * R ≤ w * H := by rwa [div_le_iff₀ hH0] at hwH
    have : ulp * R * R ≤ w * H * R := by gcongr
    exact e4.trans (by linarith)
  have b5 := abs_le.mp e5
  have hwR : 0 < w * R := by positivity
  have hwR1 : w * R ≤ 1 / 10 ^ 10 * R := by gcongr
  have e6 := dbl_near (B := 2 * R) e5 (abs_le.mpr ⟨by linarith, by linarith⟩)
  have huR' : ulp * R ≤ w * R := by gcongr
  have e6' : |dbl √s - H| ≤ 6 * w * R := e6.trans (by linarith)
  have b6 := abs_le.mp e6'
  have e7 : |t * dbl √s - t * H| ≤ 6 * w * R ^ 2 := by
    rw [← mul_sub, abs_mul]
    calc _ ≤ R * (6 * w * R) := by gcongr
      _ = _ := by ring
  have m7 : |t * dbl √s| ≤ 2 * R ^ 2 := by
    rw [abs_mul]
    have : |dbl √s| ≤ 2 * R := abs_le.mpr ⟨by linarith, by linarith⟩
    calc _ ≤ R * (2 * R) := by gcongr
      _ = _ := by ring
  have hwR2 : 0 < w * R ^ 2 := by positivity
  have huw : ulp * R ^ 2 ≤ w * R ^ 2 := by gcongr
  have e8 : |dbl (t * dbl √s) - t * H| ≤ 8 * w * R ^ 2 := (dbl_near e7 m7).trans (by linarith)
  -- the arc
  have a1 : |dbl (t / R) - t / R| ≤ ulp := (dbl_err _).trans (by nlinarith [abs_nonneg (t / R)])
  have a2 := arccos_step hp hq
  have hq0 : √(1 - (t / R) ^ 2) = H / R := by
    rw [hH, ← sqrt_sq hR.le, ← sqrt_div' _ (sq_nonneg R), sqrt_sq hR.le]
    congr 1
    field_simp
  have a3 : |arccos (dbl (t / R)) - arccos (t / R)| ≤ 5 * w := by
    refine a2.trans ?_
    rw [hq0]
    have h1 : 2 * |dbl (t / R) - t / R| / (H / R) ≤ 2 * w := by
      rw [div_div_eq_mul_div, div_le_iff₀ hH0]
      have h6 : ulp * R ≤ w * H := by rwa [div_le_iff₀ hH0] at hwH
      have : |dbl (t / R) - t / R| * R ≤ ulp * R := by gcongr
      linarith
    linarith
  have a4 : |M.arccos (dbl (t / R)) - arccos (t / R)| ≤ 12 * w :=
    (abs_sub_le _ _ _).trans ((add_le_add (arccos_rounded hM hq) a3).trans (by linarith))
  have hpi := pi_lt_d2
  have c0 := arccos_nonneg (t / R)
  have c1 := arccos_le_pi (t / R)
  have ba := abs_le.mp a4
  set A := M.arccos (dbl (t / R))
  set A' := arccos (t / R)
  have hA : |A| ≤ 4 := abs_le.mpr ⟨by linarith, by linarith⟩
  have a5 : |dbl (R * R) * A - R ^ 2 * A'| ≤ 16 * w * R ^ 2 := by
    have : dbl (R * R) * A - R ^ 2 * A' = (dbl (R * R) - R ^ 2) * A + R ^ 2 * (A - A') := by ring
    rw [this]
    have x1 : |(dbl (R * R) - R ^ 2) * A| ≤ ulp * R ^ 2 * 4 := by rw [abs_mul]; gcongr
    have x2 : |R ^ 2 * (A - A')| ≤ R ^ 2 * (12 * w) := by rw [abs_mul, abs_of_pos hR2]; gcongr
    exact (abs_add_le _ _).trans (by linarith)
  have hwb2 : w * R ^ 2 ≤ 1 / 10 ^ 10 * R ^ 2 := by gcongr
  have c2 : 0 ≤ R ^ 2 * A' := by positivity
  have c3 : R ^ 2 * A' ≤ R ^ 2 * 3.15 := by gcongr; linarith
  have b9 := abs_le.mp a5
  have a6 := dbl_near (B := 4 * R ^ 2) a5 (abs_le.mpr ⟨by linarith, by linarith⟩)
  have a6' : |dbl (dbl (R * R) * A) - R ^ 2 * A'| ≤ 20 * w * R ^ 2 := a6.trans (by linarith)
  have b10 := abs_le.mp a6'
  have b11 := abs_le.mp e8
  have c4 : |t * H| ≤ R ^ 2 := by
    rw [abs_mul, abs_of_pos hH0, sq]; gcongr
  have b12 := abs_le.mp c4
  have f : |dbl (dbl (R * R) * A) - dbl (t * dbl √s) - (R ^ 2 * A' - t * H)| ≤ 28 * w * R ^ 2 := by
    rw [sub_sub_sub_comm]
    exact (abs_sub _ _).trans (by linarith)
  have g := dbl_near (B := 6 * R ^ 2) f (abs_le.mpr ⟨by linarith, by linarith⟩)
  have hseg : R ^ 2 * seg (t / R) = R ^ 2 * A' - t * H := by
    change R ^ 2 * (A' - t / R * √(1 - (t / R) ^ 2)) = _
    rw [hq0]
    field_simp
  rw [hseg]
  exact g.trans (by linarith)


/-- The overlap of two circles that cross. -/
theorem overlap_crossing {x y r D : ℝ} (hD : D = √(x ^ 2 + y ^ 2)) (hr : 0 < r) (hdp : 0 < D) (h1 : 1 - r ≤ D) (h2 : r - 1 ≤ D) (h3 : D ≤ 1 + r) :
    overlap ⟨x, y⟩ r = seg ((D ^ 2 - r ^ 2 + 1) / (2 * D)) + r ^ 2 * seg ((D ^ 2 + r ^ 2 - 1) / (2 * D) / r) := by
  have hn := norm_mk x y
  rw [← hD] at hn
  have hov : overlap ⟨x, y⟩ r = (MeasureTheory.volume (lens D r)).toReal := by
    rw [overlap, overlap_norm, hn, volume_overlap_real hr.le]
  have hl := volume_lens hr hdp h1 h2 h3
  have a1 : (D ^ 2 - r ^ 2 + 1) / (2 * D) ≤ 1 := by rw [div_le_one (by linarith)]; nlinarith
  have a2 : -1 ≤ (D ^ 2 - r ^ 2 + 1) / (2 * D) := by rw [le_div_iff₀ (by linarith)]; nlinarith
  have a3 : (D ^ 2 + r ^ 2 - 1) / (2 * D) ≤ r := by rw [div_le_iff₀ (by linarith)]; nlinarith
  have a4 : -r ≤ (D ^ 2 + r ^ 2 - 1) / (2 * D) := by rw [le_div_iff₀ (by linarith)]; nlinarith
  have t1 := seg_nonneg one_pos a2 a1
  have t2 := seg_nonneg hr a4 a3
  simp only [one_pow, one_mul, div_one] at t1
  rw [hov, hl, ENNReal.toReal_ofReal (by linarith)]
  set d2 := (D ^ 2 + r ^ 2 - 1) / (2 * D)
  have e : r ^ 2 * seg (d2 / r) = r ^ 2 * arccos (d2 / r) - d2 * √(r ^ 2 - d2 ^ 2) := by
    unfold seg
    have : √(1 - (d2 / r) ^ 2) = √(r ^ 2 - d2 ^ 2) / r := by
      rw [← sqrt_sq hr.le, ← sqrt_div' _ (sq_nonneg r), sqrt_sq hr.le]
      congr 1
      field_simp
    rw [this]
    field_simp
  rw [e]
  unfold seg
  ring

theorem quotient_close {N N' E D : ℝ} (hN : |N - N'| ≤ 74 * ulp) (hE : Rel 9 E (2 * D)) (hD : 1 / 1000 ≤ D) (hq : |N' / (2 * D)| ≤ 1) :
    |dbl (N / E) - N' / (2 * D)| ≤ 37100 * ulp := by
  have hu := ulp_pos
  have hs := ulp_small
  unfold Rel at hE
  rw [abs_of_pos (by linarith : 0 < 2 * D)] at hE
  have bE := abs_le.mp hE
  have huD : ulp * D ≤ 1 / 10 ^ 15 * D := by gcongr
  have hE1 : 1.999 * D ≤ E := by linarith
  have hE0 : 0 < E := by linarith
  set q := N' / (2 * D) with hqd
  have hN' : N' = q * (2 * D) := by rw [hqd]; field_simp
  have h1 : |N / E - q| ≤ 37090 * ulp := by
    have : N / E - q = ((N - N') + q * (2 * D - E)) / E := by rw [hN']; field_simp; ring
    rw [this, abs_div, abs_of_pos hE0, div_le_iff₀ hE0]
    have x1 : |q * (2 * D - E)| ≤ 1 * (9 * ulp * (2 * D)) := by rw [abs_mul, abs_sub_comm (2 * D)]; gcongr
    refine (abs_add_le _ _).trans ?_
    have x2 : 37090 * ulp * (1.999 * D) ≤ 37090 * ulp * E := by gcongr
    have x3 : ulp * (1 / 1000) ≤ ulp * D := by gcongr
    linarith
  have b1 := abs_le.mp h1
  have bq := abs_le.mp hq
  exact (dbl_near (B := 2) h1 (abs_le.mpr ⟨by linarith, by linarith⟩)).trans (by linarith)

/-- The two computed numerators. -/
theorem numerators {d D r : ℝ} (hd : Rel 6 d D) (hD0 : 0 ≤ D) (hD : D ≤ 2) (hr0 : 0 ≤ r) (hr : r ≤ 1) :
    |dbl (dbl (dbl (d * d) - dbl (r * r)) + 1) - (D ^ 2 - r ^ 2 + 1)| ≤ 74 * ulp ∧
    |dbl (dbl (dbl (d * d) + dbl (r * r)) - 1) - (D ^ 2 + r ^ 2 - 1)| ≤ 74 * ulp := by
  have hu := ulp_pos
  have hs := ulp_small
  have hDD : D ^ 2 ≤ 4 := by nlinarith
  have hDD0 := sq_nonneg D
  have hrr : r ^ 2 ≤ 1 := pow_le_one₀ hr0 hr
  have hrr0 := sq_nonneg r
  have r1 : Rel 15 (dbl (d * d)) (D ^ 2) := by
    rw [sq]; exact ((hd.mul hd (by norm_num) (by norm_num)).dbl (by norm_num)).mono (by norm_num)
  have r2 : Rel 2 (dbl (r * r)) (r ^ 2) := by rw [sq]; exact rel_dbl _
  have e1 := r1.err (A := 4) (by rw [abs_of_nonneg hDD0]; exact hDD) (by norm_num)
  have e2 := r2.err (A := 1) (by rw [abs_of_nonneg hrr0]; exact hrr) (by norm_num)
  have b1 := abs_le.mp e1
  have b2 := abs_le.mp e2
  set P := dbl (d * d)
  set Q := dbl (r * r)
  have f1 : |P - Q - (D ^ 2 - r ^ 2)| ≤ 62 * ulp := abs_le.mpr ⟨by linarith, by linarith⟩
  have f2 : |P + Q - (D ^ 2 + r ^ 2)| ≤ 62 * ulp := abs_le.mpr ⟨by linarith, by linarith⟩
  have g1 := dbl_near (B := 5) f1 (abs_le.mpr ⟨by linarith, by linarith⟩)
  have g2 := dbl_near (B := 6) f2 (abs_le.mpr ⟨by linarith, by linarith⟩)
  have c1 := abs_le.mp g1
  have c2 := abs_le.mp g2
  have k1 : |dbl (P - Q) + 1 - (D ^ 2 - r ^ 2 + 1)| ≤ 67 * ulp := abs_le.mpr ⟨by linarith, by linarith⟩
  have k2 : |dbl (P + Q) - 1 - (D ^ 2 + r ^ 2 - 1)| ≤ 68 * ulp := abs_le.mpr ⟨by linarith, by linarith⟩
  exact ⟨(dbl_near (B := 6) k1 (abs_le.mpr ⟨by linarith, by linarith⟩)).trans (by linarith),
    (dbl_near (B := 6) k2 (abs_le.mpr ⟨by linarith, by linarith⟩)).trans (by linarith)⟩

/-- The half chord of two circles that cross clearly. -/
theorem chord {r D : ℝ} (hr : 0 < r) (hr1 : r ≤ 1) (h1 : 1 - r + r / 1000 ≤ D) (h2 : D ≤ 1 + r - r / 1000) :
    r ^ 2 / 1001 ≤ 1 - ((D ^ 2 - r ^ 2 + 1) / (2 * D)) ^ 2 ∧
    1 - ((D ^ 2 - r ^ 2 + 1) / (2 * D)) ^ 2 = r ^ 2 - ((D ^ 2 + r ^ 2 - 1) / (2 * D)) ^ 2 := by
  have hD : 0 < D := by linarith
  refine ⟨?_, by field_simp; ring⟩
  have e : 1 - ((D ^ 2 - r ^ 2 + 1) / (2 * D)) ^ 2 = ((1 + r - D) * (D - 1 + r)) * ((1 + r + D) * (D + 1 - r)) / (2 * D) ^ 2 := by field_simp; ring
  rw [e, le_div_iff₀ (by positivity)]
  have p1 : r ^ 2 * 1999 / 1000 ^ 2 ≤ (1 + r - D) * (D - 1 + r) := by nlinarith
  have p2 : 2 * D ^ 2 ≤ (1 + r + D) * (D + 1 - r) := by
    have : 2 * D * D ≤ (1 + r + D) * (D + 1 - r) := mul_le_mul (by linarith) (by linarith) hD.le (by linarith)
    linarith
  have p3 : r ^ 2 * 1999 / 1000 ^ 2 * (2 * D ^ 2) ≤ ((1 + r - D) * (D - 1 + r)) * ((1 + r + D) * (D + 1 - r)) :=
    mul_le_mul p1 p2 (by positivity) ((by positivity : (0:ℝ) ≤ r ^ 2 * 1999 / 1000 ^ 2).trans p1)
  refine le_trans ?_ p3
  have : 0 < r ^ 2 * D ^ 2 := by positivity
  rw [mul_pow]
  linarith

theorem circle_gen {M : Libm} (hM : Accurate M) {x y r : ℝ} (hr : 1 / 1000 ≤ r) (hr1 : r ≤ 1) (h1 : 1 - r + r / 1000 ≤ √(x ^ 2 + y ^ 2))
    (h2 : √(x ^ 2 + y ^ 2) ≤ 1 + r - r / 1000) :
    ∃ v, M.circFraction x y r = .ok (.fin v) ∧ |v - overlap ⟨x, y⟩ r / (π * r ^ 2)| ≤ 1 / 10 ^ 11 / r ^ 3 := by
  have hu := ulp_pos
  have hs := ulp_small
  have uu : ulp ≤ 1.2 / 10 ^ 16 := by unfold ulp; norm_num
  have hd := norm_rel x y
  set D := √(x ^ 2 + y ^ 2) with hDdef
  have hr0 : 0 < r := by linarith
  have hD3 : 1 / 1000 ≤ D := by linarith
  have hD0 : 0 < D := by linarith
  have hD2 : D ≤ 2 := by linarith
  have hov := overlap_crossing hDdef hr0 hD0 (by linarith) (by linarith) (by linarith)
  have hch := chord hr0 hr1 h1 h2
  obtain ⟨n1, n2⟩ := numerators hd hD0.le hD2 hr0.le hr1
  set d := dbl √(dbl (dbl (x * x) + dbl (y * y)))
  have rE : Rel 9 (dbl (2 * d)) (2 * D) := (((Rel.refl (2 : ℝ)).mul hd (by norm_num) (by norm_num)).dbl (by norm_num)).mono (by norm_num)
  set d1 := (D ^ 2 - r ^ 2 + 1) / (2 * D) with hd1
  set d2 := (D ^ 2 + r ^ 2 - 1) / (2 * D) with hd2
  have hrr : 0 < r ^ 2 := by positivity
  have q1 : |d1| ≤ 1 := abs_le_one_iff_mul_self_le_one.mpr (by rw [← sq]; linarith [hch.1])
  have q2 : |d2| ≤ r := abs_le_of_sq_le_sq (by linarith [hch.1, hch.2]) hr0.le
  have t1 := quotient_close n1 rE hD3 q1
  have t2 := quotient_close n2 rE hD3 (q2.trans hr1)
  unfold Libm.circFraction
  simp only
  rw [if_neg (not_lt.mpr hr1)]
  have ed := hd.err (A := 2) (by rw [abs_of_pos hD0]; exact hD2) (by norm_num)
  have bd := abs_le.mp ed
  have e1 := abs_le.mp (dbl_err (1 + r))
  have e2 := abs_le.mp (dbl_err (1 - r))
  rw [abs_of_pos (by linarith)] at e1
  rw [abs_of_nonneg (by linarith)] at e2
  have hur : r * ulp ≤ 1 * ulp := by gcongr
  have hur0 : 0 < r * ulp := by positivity
  rw [if_neg (not_lt.mpr (by linarith [e1.1])), if_neg (not_le.mpr (by linarith [e2.2])), if_neg (fun h => by linarith [h.1])]
  set T1 := dbl (dbl (dbl (dbl (d * d) - dbl (r * r)) + 1) / dbl (2 * d))
  set T2 := dbl (dbl (dbl (dbl (d * d) + dbl (r * r)) - 1) / dbl (2 * d))
  change |T1 - d1| ≤ 37100 * ulp at t1
  change |T2 - d2| ≤ 37100 * ulp at t2
  have hη : 37100 * ulp ≤ 4.5 / 10 ^ 12 := by linarith
  have s1 : |T1 ^ 2 - d1 ^ 2| ≤ 1 / 10 ^ 11 := by
    have : T1 ^ 2 - d1 ^ 2 = (T1 - d1) * ((T1 - d1) + 2 * d1) := by ring
    rw [this, abs_mul]
    have : |T1 - d1 + 2 * d1| ≤ 2.1 := by
      refine (abs_add_le _ _).trans ?_
      rw [abs_mul, abs_two]; linarith
    calc _ ≤ 4.5 / 10 ^ 12 * (2.1 : ℝ) := by gcongr; exact t1.trans hη
      _ ≤ _ := by norm_num
  have s2 : |T2 ^ 2 - d2 ^ 2| ≤ 1 / 10 ^ 11 * r := by
    have : T2 ^ 2 - d2 ^ 2 = (T2 - d2) * ((T2 - d2) + 2 * d2) := by ring
    rw [this, abs_mul]
    have : |T2 - d2 + 2 * d2| ≤ 2.1 * r := by
      refine (abs_add_le _ _).trans ?_
      rw [abs_mul, abs_two]; linarith
    calc _ ≤ 4.5 / 10 ^ 12 * (2.1 * r) := by gcongr; exact t2.trans hη
      _ ≤ _ := by linarith
  have hr2 : 1 / 1000 * r ≤ r ^ 2 := by rw [sq]; gcongr
  have bs1 := abs_le.mp s1
  have bs2 := abs_le.mp s2
  obtain ⟨a, ha, ha'⟩ := segment_gen hM (R := 1) (t := T1) (h := r / 40) one_pos (by positivity) (by rw [div_pow]; linarith [hch.1]) (by linarith)
  obtain ⟨b, hb, hb'⟩ := segment_gen hM (R := r) (t := T2) (h := r / 40) hr0 (by positivity) (by rw [div_pow]; linarith [hch.1, hch.2]) (by linarith)
  rw [ha, hb]
  refine ⟨_, rfl, ?_⟩
  -- everything is measured in `w = ulp / r`
  set w := ulp / r with hw
  have hw1 : ulp ≤ w := by rw [hw, le_div_iff₀ hr0]; linarith
  have hw0 : 0 < w := by positivity
  have z1 : 40 * ulp * 1 ^ 3 / (r / 40) = 1600 * w := by rw [hw]; field_simp; norm_num
  have z2 : 40 * ulp * r ^ 3 / (r / 40) ≤ 1600 * w := by
    have : 40 * ulp * r ^ 3 / (r / 40) = 1600 * ulp * r ^ 2 := by field_simp; norm_num
    rw [this]
    have : ulp * r ^ 2 ≤ ulp * 1 := by gcongr; exact pow_le_one₀ hr0.le hr1
    linarith
  rw [z1, div_one, one_pow, one_mul] at ha'
  have l1 := seg_lipschitz T1 d1
  have l2 := seg_lipschitz (T2 / r) (d2 / r)
  have l2' : |r ^ 2 * seg (T2 / r) - r ^ 2 * seg (d2 / r)| ≤ 2 * |T2 - d2| := by
    rw [← mul_sub, abs_mul, abs_of_pos hrr]
    rw [← sub_div, abs_div, abs_of_pos hr0] at l2
    calc _ ≤ r ^ 2 * (2 * (|T2 - d2| / r)) := by gcongr
      _ = r * (2 * |T2 - d2|) := by field_simp
      _ ≤ 1 * (2 * |T2 - d2|) := by gcongr
      _ = _ := one_mul _
  have m1 : |a - seg d1| ≤ 1600 * w + 74200 * ulp := (abs_sub_le _ _ _).trans (add_le_add ha' (by linarith))
  have m2 : |b - r ^ 2 * seg (d2 / r)| ≤ 1600 * w + 74200 * ulp := (abs_sub_le _ _ _).trans (add_le_add (hb'.trans z2) (by linarith))
  set O := overlap ⟨x, y⟩ r with hO
  have m3 : |a + b - O| ≤ 151600 * w := by
    rw [hov, add_sub_add_comm]
    exact (abs_add_le _ _).trans ((add_le_add m1 m2).trans (by linarith))
  have o1 := overlap_le ⟨x, y⟩ hr0.le
  have o0 := overlap_nonneg ⟨x, y⟩ r
  rw [← hO] at o1 o0
  have hpi := pi_lt_d2
  have hpi' := pi_gt_d2
  have hrr1 : r ^ 2 ≤ 1 := pow_le_one₀ hr0.le hr1
  have o2 : π * r ^ 2 ≤ 3.15 * 1 := mul_le_mul hpi.le hrr1 hrr.le (by norm_num)
  have hwb : w ≤ 1.2 / 10 ^ 13 := by
    rw [hw, div_le_iff₀ hr0]; linarith
  have bm := abs_le.mp m3
  have m4 := dbl_near (B := 10) m3 (abs_le.mpr ⟨by linarith, by linarith⟩)
  have m4' : |dbl (a + b) - O| ≤ 151700 * w := m4.trans (by linarith)
  set S := dbl (a + b)
  have rD : Rel 7 (dbl (dbl π * dbl (r * r))) (π * r ^ 2) := by
    rw [sq]; exact (((rel_dbl π).mul (rel_dbl (r * r)) (by norm_num) (by norm_num)).dbl (by norm_num)).mono (by norm_num)
  have hP : 0 < π * r ^ 2 := by positivity
  have rq : Rel 10 (dbl (S / dbl (dbl π * dbl (r * r)))) (S / (π * r ^ 2)) :=
    (((Rel.refl S).div rD (by norm_num) (by norm_num) (by norm_num) (by norm_num) hP.ne').dbl (by norm_num)).mono (by norm_num)
  -- measured in `k = ulp / r ^ 3`
  set k := ulp / r ^ 3 with hk
  have hkw : w = k * r ^ 2 := by rw [hw, hk]; field_simp
  have hk0 : 0 < k := by positivity
  have m5 : |S / (π * r ^ 2) - O / (π * r ^ 2)| ≤ 48400 * k := by
    rw [← sub_div, abs_div, abs_of_pos hP, div_le_iff₀ hP]
    refine m4'.trans ?_
    rw [hkw]
    have : k * r ^ 2 * 3.14 ≤ k * r ^ 2 * π := by gcongr
    have : 0 < k * r ^ 2 := by positivity
    linarith
  have o3 : O / (π * r ^ 2) ≤ 1 := (div_le_one hP).mpr o1
  have o4 : 0 ≤ O / (π * r ^ 2) := div_nonneg o0 hP.le
  have hku : ulp ≤ k := by
    rw [hk, le_div_iff₀ (by positivity)]
    have : ulp * r ^ 3 ≤ ulp * 1 := by gcongr; exact pow_le_one₀ hr0.le hr1
    linarith
  have hk9 : k ≤ 1 / 10 ^ 6 := by
    rw [hk, div_le_iff₀ (by positivity)]
    have : (1 / 1000 : ℝ) ^ 3 ≤ r ^ 3 := by gcongr
    linarith
  have b5 := abs_le.mp m5
  have m6 := rq.err (A := 2) (abs_le.mpr ⟨by linarith, by linarith⟩) (by norm_num)
  refine (abs_sub_le _ _ _).trans ((add_le_add m6 m5).trans ?_)
  have : k ≤ 1.2 / 10 ^ 16 / r ^ 3 := by rw [hk]; gcongr
  have e9 : 1 / 10 ^ 11 / r ^ 3 = (10 ^ 5 / 1.2) * (1.2 / 10 ^ 16 / r ^ 3) := by field_simp
  rw [e9]
  linarith

theorem circle_far {M : Libm} {x y r : ℝ} (hr0 : 0 ≤ r) (hr1 : r ≤ 1) (h : 1 + r + 20 * ulp ≤ √(x ^ 2 + y ^ 2)) : M.circFraction x y r = .ok (.fin 0) := by
  have hu := ulp_pos
  have hs := ulp_small
  have hd := norm_rel x y
  unfold Rel at hd
  rw [abs_of_nonneg (sqrt_nonneg _)] at hd
  have bd := abs_le.mp hd
  have e1 := abs_le.mp (dbl_err (1 + r))
  rw [abs_of_pos (by linarith)] at e1
  unfold Libm.circFraction
  simp only
  rw [if_neg (not_lt.mpr hr1), if_pos]
  set d := dbl √(dbl (dbl (x * x) + dbl (y * y)))
  set D := √(x ^ 2 + y ^ 2)
  have : (1 + r + 20 * ulp) * (1 - 6 * ulp) ≤ D * (1 - 6 * ulp) := by gcongr; linarith
  have h3 : r * ulp ≤ 1 * ulp := by gcongr
  have h4 : ulp * ulp ≤ 1 / 10 ^ 15 * ulp := by gcongr
  nlinarith [e1.2, bd.1]

theorem circle_in {M : Libm} {x y r : ℝ} (hr0 : 0 ≤ r) (hr1 : r ≤ 1) (h : √(x ^ 2 + y ^ 2) ≤ 1 - r - 20 * ulp) : M.circFraction x y r = .ok (.fin 1) := by
  have hu := ulp_pos
  have hs := ulp_small
  have hd := (norm_rel x y).err (A := 1) (by rw [abs_of_nonneg (sqrt_nonneg _)]; linarith) (by norm_num)
  have bd := abs_le.mp hd
  have e1 := abs_le.mp (dbl_err (1 + r))
  rw [abs_of_pos (by linarith)] at e1
  have e2 := abs_le.mp (dbl_err (1 - r))
  rw [abs_of_nonneg (by linarith)] at e2
  have h3 : r * ulp ≤ 1 * ulp := by gcongr
  have h4 : 0 ≤ r * ulp := by positivity
  unfold Libm.circFraction
  simp only
  rw [if_neg (not_lt.mpr hr1), if_neg (not_lt.mpr (by linarith [e1.1])), if_pos (by linarith [e2.1])]


/-! ## C164 -/

/-- `res` is a number at most `ε` away from the share of the disk of radius `r` around `(x, y)` that lies inside the unit disk. -/
def Spec.ShareWithin (ε : ℝ) (res : Py Fl) (x y r : ℝ) : Prop :=
  ∃ v, res = .ok (.fin v) ∧ |v - (MeasureTheory.volume (Metric.ball (0 : ℂ) 1 ∩ Metric.ball (⟨x, y⟩ : ℂ) r)).toReal / (π * r ^ 2)| ≤ ε

/-- **C164** (partial: a number for every `r ≤ 1` is false, see `C164_counterexample`; what is missing is the narrow band of circles that nearly touch) In
double precision `calc_circ_fraction_inside_unit_circle(x, y, r)`

* raises `ValueError` for `r > 1`;
* returns for `r = 1`, whatever `x` and `y`, a number within 10⁻⁷ of the true share;
* returns for `1/1000 ≤ r ≤ 1` a number within 10⁻¹¹/r³ of the true share if the circles cross clearly;
* returns exactly 0 (exactly 1) for a disk clearly outside (inside) the unit disk.

A facula therefore never has an undefined share of wall and floor: the two shares of `fractional_effective_area` are numbers within 10⁻⁷ of the exact ones, and
the two areas of `effective_area` within 10⁻⁷ of the projected area. -/
theorem C164_circle_rounding_partial (M : Libm) (hM : Accurate M) :
    (∀ x y r, 1 < r → M.circFraction x y r = .error .valueError) ∧
    (∀ x y, ShareWithin (1 / 10 ^ 7) (M.circFraction x y 1) x y 1) ∧
    (∀ x y r, 1 / 1000 ≤ r → r ≤ 1 → 1 - r + r / 1000 ≤ √(x ^ 2 + y ^ 2) → √(x ^ 2 + y ^ 2) ≤ 1 + r - r / 1000 →
      ShareWithin (1 / 10 ^ 11 / r ^ 3) (M.circFraction x y r) x y r) ∧
    (∀ x y r, 0 ≤ r → r ≤ 1 → 1 + r + 1 / 10 ^ 14 ≤ √(x ^ 2 + y ^ 2) → M.circFraction x y r = .ok (.fin 0)) ∧
    (∀ x y r, 0 ≤ r → r ≤ 1 → √(x ^ 2 + y ^ 2) ≤ 1 - r - 1 / 10 ^ 14 → M.circFraction x y r = .ok (.fin 1)) ∧
    ∀ depth radius angle T w : ℝ, |T - tan angle| ≤ |tan angle| * (1 / 2 ^ 52) →
      w = 1 - (MeasureTheory.volume (Metric.ball (0 : ℂ) 1 ∩ Metric.ball (⟨depth / radius * tan angle, 0⟩ : ℂ) 1)).toReal / π →
      (∃ a b, M.wallFloor depth radius angle T = .ok (.fin a, .fin b) ∧
        |a - w * (π * radius ^ 2 * cos angle)| ≤ 1 / 10 ^ 7 * |π * radius ^ 2 * cos angle| ∧
        |b - (1 - w) * (π * radius ^ 2 * cos angle)| ≤ 1 / 10 ^ 7 * |π * radius ^ 2 * cos angle|) ∧
      (radius ≠ 0 → cos angle ≠ 0 → ∃ a b, M.wallFloorShares depth radius angle T = .ok (.fin a, .fin b) ∧ |a - w| ≤ 1 / 10 ^ 7 ∧ |b - (1 - w)| ≤ 1 / 10 ^ 7) := by
  have hs := ulp_small
  have uu : ulp ≤ 1.2 / 10 ^ 16 := by unfold ulp; norm_num
  refine ⟨fun x y r h => ?_, fun x y => ?_, fun x y r h1 h2 h3 h4 => circle_gen hM h1 h2 h3 h4, fun x y r h0 h1 h => circle_far h0 h1 (by linarith),
    fun x y r h0 h1 h => circle_in h0 h1 (by linarith), fun depth radius angle T w hT hw => ?_⟩
  · unfold Libm.circFraction
    simp only
    rw [if_pos h]
  · obtain ⟨v, h, h'⟩ := circle_one hM x y
    refine ⟨v, h, ?_⟩
    rw [one_pow, mul_one]
    exact h'.trans (by norm_num)
  · change w = shareAt (depth / radius * tan angle) at hw
    subst hw
    refine ⟨?_, fun hr hc => shares_one hM hr hT hc⟩
    obtain ⟨a, b, h, ha, hb, -⟩ := areas_one hM (depth := depth) (radius := radius) hT
    have := abs_nonneg (π * radius ^ 2 * cos angle)
    exact ⟨a, b, h, ha.trans (by linarith), hb.trans (by linarith)⟩

/-- `calc_circ_fraction_inside_unit_circle(1.1, 0, 0.1)`, two circles that touch, is NaN, although the formula without rounding gives a number in [0, 1]
for these very arguments. -/
theorem C164_counterexample (M : Libm) :
    M.circFraction (dbl 1.1) 0 (dbl 0.1) = .ok .nan ∧ ∃ v : ℝ, Helpers.circFraction (.fin (dbl 1.1)) (.fin 0) (.fin (dbl 0.1)) = .ok (.fin v) ∧ 0 ≤ v ∧ v ≤ 1 := by
  refine ⟨touching_nan M, ?_⟩
  have h := (C13_circ_fraction_total (dbl 1.1) 0 (dbl 0.1)).2 (by rw [lit_01]; norm_num)
  obtain ⟨v, h1, h2, h3, -⟩ := h
  exact ⟨v, h1, h2, h3⟩

/-- A planet of a tenth of the star's radius half way across the limb, with a correctly rounded arccosine. -/
example : ShareWithin (2 / 10 ^ 8) (Libm.rounded.circFraction (dbl 0.6) (dbl 0.8) (dbl 0.1)) (dbl 0.6) (dbl 0.8) (dbl 0.1) := by
  have e1 := abs_le.mp (dbl_err 0.6)
  have e2 := abs_le.mp (dbl_err 0.8)
  have e3 := abs_le.mp (dbl_err 0.1)
  have uu : ulp ≤ 1.2 / 10 ^ 16 := by unfold ulp; norm_num
  norm_num at e1 e2 e3
  have hl : 1 - dbl 0.1 + dbl 0.1 / 1000 ≤ √(dbl 0.6 ^ 2 + dbl 0.8 ^ 2) := by
    apply le_sqrt_of_sq_le
    norm_num
    nlinarith
  have hh : √(dbl 0.6 ^ 2 + dbl 0.8 ^ 2) ≤ 1 + dbl 0.1 - dbl 0.1 / 1000 := by
    rw [sqrt_le_left (by norm_num; linarith)]
    norm_num
    nlinarith
  obtain ⟨v, h, h'⟩ := (C164_circle_rounding_partial _ rounded_accurate).2.2.1 (dbl 0.6) (dbl 0.8) (dbl 0.1) (by norm_num; linarith) (by norm_num; linarith) hl hh
  refine ⟨v, h, h'.trans ?_⟩
  rw [div_le_iff₀ (by apply pow_pos; norm_num; linarith)]
  have : (0.0999 : ℝ) ^ 3 ≤ dbl 0.1 ^ 3 := by gcongr; norm_num; linarith
  linarith

end Vsm
