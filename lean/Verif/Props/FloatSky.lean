import Verif.Model.FloatSky
import Verif.Props.FloatMask
import Verif.Props.FloatPeaks

/-!
# C181: the transit with all rounding

C180 took the planet and the sizes of the pixels as given up to an error.  Here they are computed as in `Star.get_transit_mask`, and so is the choice between its three branches.
-/

noncomputable section

namespace Vsm

open Real Spec Np

theorem rad_180 : Libm.toRad 180 ≤ π ∧ |Libm.toRad 180 - π| ≤ 20 * ulp := by
  have h1 := pi_pos
  have e : Libm.toRad 180 = 2 * Libm.toRad 90 := by
    unfold Libm.toRad
    have : 0 < dbl (π / 180) := dbl_pos (by positivity)
    rw [← dbl_double (by positivity)]
    congr 1; ring
  refine ⟨by rw [e]; linarith [rad_90], ?_⟩
  have := toRad_abs (x := 180) (y := 180) (e := 0) (B := 180) (by simp) (by norm_num) (by norm_num)
  rw [show (180 : ℝ) * (π / 180) = π by ring] at this
  refine this.trans ?_
  have := ulp_pos
  linarith

theorem planet_near {M : Libm} (hM : Accurate M) {R orbit phase incl : ℝ} (hq : |orbit / R| ≤ 10 ^ 6) (hph : |phase| ≤ 16) :
    |M.planetX R orbit phase - (planetPos R orbit phase incl).1| ≤ 1 / 10 ^ 7 ∧ |M.planetY R orbit phase incl - (planetPos R orbit phase incl).2| ≤ 1 / 10 ^ 7 := by
  have hu := ulp_pos
  have hs := ulp_tight
  have hp := pi_lt_d2
  norm_num at hs hq
  have ang : |dbl (phase - Libm.toRad 180) - (phase - π)| ≤ 50 * ulp := by
    have h1 : |phase - Libm.toRad 180 - (phase - π)| ≤ 20 * ulp := by
      rw [sub_sub_sub_cancel_left, abs_sub_comm]
      exact rad_180.2
    have := dbl_abs h1 (B := 20) (by rw [abs_le] at hph ⊢; constructor <;> linarith [hph.1, hph.2, pi_pos]) (by linarith)
    linarith
  have key : ∀ q' q t t' : ℝ, ∀ e f : ℝ, |q| ≤ 1000000 → |q' - q| ≤ e → e ≤ 1 / 100 → Near f t' t → 0 ≤ f → f ≤ 100 → |dbl (q' * t') - q * t| ≤ e + 1 / 10 ^ 9 + 1000000 * f * ulp + 1 / 10 ^ 9 := by
    intro q' q t t' e f hq h1 he h2 hf hf'
    have h3 : |q' * t' - q * t| ≤ e + 1 / 10 ^ 9 + 1000000 * f * ulp := by
      rw [show q' * t' - q * t = (q' - q) * (t' - t) + (q' - q) * t + q * (t' - t) by ring]
      refine (abs_add_three _ _ _).trans ?_
      rw [abs_mul, abs_mul, abs_mul]
      have a1 : |q' - q| * |t' - t| ≤ 1 / 100 * (f * ulp) := mul_le_mul (h1.trans he) h2.1 (abs_nonneg _) (by norm_num)
      have a2 : |q' - q| * |t| ≤ e * 1 := mul_le_mul h1 h2.2 (abs_nonneg _) ((abs_nonneg _).trans h1)
      have a3 : |q| * |t' - t| ≤ 1000000 * (f * ulp) := mul_le_mul hq h2.1 (abs_nonneg _) (by norm_num)
      have a4 : f * ulp ≤ 100 * ulp := by gcongr
      norm_num
      linarith
    have hfu : f * ulp ≤ 100 * ulp := by gcongr
    have := dbl_abs h3 (B := 1000000) (by rw [abs_mul]; exact (mul_le_mul hq h2.2 (abs_nonneg _) (by norm_num)).trans (by norm_num)) (by norm_num; linarith)
    norm_num at this ⊢
    linarith
  have hq' : |dbl (orbit / R) - orbit / R| ≤ 2 / 10 ^ 10 := (dbl_err _).trans (by norm_num; nlinarith)
  have hsn := near_sin hM ang
  have hcs := near_cos hM ang
  have hci := near_cos hM (x := incl) (y := incl) (k := 0) (by simp)
  have X := key _ _ _ _ _ _ hq hq' (by norm_num) hsn (by norm_num) (by norm_num)
  have Y1 := key _ _ _ _ _ _ hq hq' (by norm_num) hcs (by norm_num) (by norm_num)
  have hqc : |orbit / R * cos (phase - π)| ≤ 1000000 := by
    rw [abs_mul]
    exact (mul_le_mul hq (abs_cos_le_one _) (abs_nonneg _) (by norm_num)).trans (by norm_num)
  have Y := key _ _ _ _ (1.5 / 10 ^ 8) _ hqc (Y1.trans (by norm_num; linarith)) (by norm_num) hci (by norm_num) (by norm_num)
  refine ⟨X.trans ?_, Y.trans ?_⟩
  · norm_num; linarith
  · norm_num; linarith

theorem msin_nonneg {M : Libm} (hM : Accurate M) {x : ℝ} (h : 0 ≤ sin x) : 0 ≤ M.sin x := by
  have := (abs_le.mp (hM.1 x)).1
  rw [abs_of_nonneg h] at this
  have h2 : sin x * (1 / 2 ^ 52) ≤ sin x * 1 := by gcongr; norm_num
  linarith

/-- The areas as computed are not negative. -/
theorem jacobian_nonneg {M : Libm} (hM : Accurate M) {a j : ℕ} (ha : 3 ≤ a) (hj : j < a) (hn : (a : ℝ) ≤ 10 ^ 7) : 0 ≤ M.jacobian a j := by
  have hu := ulp_pos
  have hs := ulp_tight
  have hp := pi_gt_three
  norm_num at hs hn
  unfold Libm.jacobian
  apply msin_nonneg hM
  have h180 : dbl (180 : ℝ) = 180 := by
    have := dbl_double (x := 90) (by norm_num)
    rw [dbl_90] at this
    norm_num at this
    exact this
  by_cases h0 : j = 0
  · subst h0
    unfold Libm.latDeg
    rw [if_neg (by omega)]
    rw [Nat.cast_zero, zero_mul, dbl_zero, zero_add, dbl_neg, dbl_90, neg_add_cancel, dbl_zero]
    unfold Libm.toRad
    rw [zero_mul, dbl_zero, sin_zero]
  by_cases h1 : j + 1 = a
  · unfold Libm.latDeg
    rw [if_pos ⟨by omega, h1⟩, show (90 : ℝ) + 90 = 180 by norm_num, h180]
    refine sin_nonneg_of_nonneg_of_le_pi ?_ rad_180.1
    unfold Libm.toRad
    exact dbl_nonneg (mul_nonneg (by norm_num) (dbl_nonneg (by positivity)))
  · obtain ⟨k1, k2⟩ := latDeg_near ha hj
    have hm : (0 : ℝ) < (a : ℝ) - 1 := by
      have : (3 : ℝ) ≤ a := by exact_mod_cast ha
      linarith
    have hj1 : (1 : ℝ) ≤ j := by exact_mod_cast Nat.one_le_iff_ne_zero.mpr h0
    have hj2 : (j : ℝ) ≤ (a : ℝ) - 1 - 1 := by
      have : j + 2 ≤ a := by omega
      have : ((j + 2 : ℕ) : ℝ) ≤ a := by exact_mod_cast this
      push_cast at this
      linarith
    have hst : 1 / 10 ^ 5 ≤ 180 / ((a : ℝ) - 1) := by
      rw [div_le_div_iff₀ (by norm_num) hm]
      norm_num
      linarith
    have hst0 : 0 ≤ 180 / ((a : ℝ) - 1) := by positivity
    have l1 : 1 / 10 ^ 5 ≤ j * (180 / ((a : ℝ) - 1)) := hst.trans (by nlinarith)
    have l2 : j * (180 / ((a : ℝ) - 1)) ≤ 180 - 1 / 10 ^ 5 := by
      have : (j : ℝ) * (180 / ((a : ℝ) - 1)) ≤ ((a : ℝ) - 1 - 1) * (180 / ((a : ℝ) - 1)) := by gcongr
      have e : ((a : ℝ) - 1 - 1) * (180 / ((a : ℝ) - 1)) = 180 - 180 / ((a : ℝ) - 1) := by field_simp
      linarith
    set z := (j : ℝ) * (180 / ((a : ℝ) - 1))
    have i1 : |Libm.latDeg a j + 90 - z| ≤ 1100 * ulp := by
      rw [show Libm.latDeg a j + 90 - z = Libm.latDeg a j - (-90 + z) by ring]
      exact k1
    have hz : |z| ≤ 180 := by
      norm_num at l1 l2
      rw [abs_le]; constructor <;> linarith
    have i2 := dbl_abs i1 hz (by linarith)
    have i3 := abs_le.mp (toRad_abs i2 hz (by linarith))
    norm_num at l1 l2
    have m1 : 1 / 100000 * (3 / 180) ≤ z * (π / 180) := mul_le_mul l1 (by linarith) (by norm_num) (by linarith)
    have m2 : z * (π / 180) ≤ π - 1 / 100000 * (3 / 180) := by
      have : (180 - z) * (π / 180) ≥ 1 / 100000 * (3 / 180) := mul_le_mul (by linarith) (by linarith) (by norm_num) (by linarith)
      have e : (180 - z) * (π / 180) = π - z * (π / 180) := by ring
      linarith
    norm_num at m1 m2
    exact sin_nonneg_of_nonneg_of_le_pi (by linarith [i3.1]) (by linarith [i3.2])

theorem sqrt_rel {a b e : ℝ} (hb : 0 < b) (ha : 0 ≤ a) (h : |a - b| ≤ b * e) : |√a - √b| ≤ √b * e := by
  have h0 := sqrt_pos.mpr hb
  have h1 := sqrt_nonneg a
  have e1 : |√a - √b| * (√a + √b) = |a - b| := by
    rw [← abs_of_nonneg (add_nonneg h1 h0.le), ← abs_mul]
    congr 1
    nlinarith [sq_sqrt ha, sq_sqrt hb.le]
  have e2 : |√a - √b| * √b ≤ √b * e * √b := by
    calc |√a - √b| * √b ≤ |√a - √b| * (√a + √b) := by gcongr; linarith
      _ = |a - b| := e1
      _ ≤ b * e := h
      _ = √b * e * √b := by rw [mul_right_comm, mul_self_sqrt hb.le]
  exact le_of_mul_le_mul_right e2 h0

/-- **C181** (sizes) The areas as computed are not negative, so that their roots are numbers, and the sizes of the pixels are right to five digits. -/
theorem C181_sizes {M : Libm} (hM : Accurate M) (g : Grid) (hg : goodGrid g) (hn : (Fintype.card g.Pix : ℝ) ≤ 10 ^ 7) {T : SumTree g.Pix} (hT : Adds T) (hD : T.depth ≤ 1000)
    {a : g.Pix → ℝ} (ha : ∀ p, g.area p = .fin (a p)) (p : g.Pix) :
    0 ≤ M.area g T p ∧ 0 ≤ M.pointRadius g T p ∧ |M.pointRadius g T p - 2 * √(a p)| ≤ 1 / 10 ^ 5 := by
  have hu := ulp_pos
  have hs := ulp_tight
  norm_num at hs
  obtain ⟨hj, hJ, hN, hae⟩ := jac_facts g hg
  have haa : a p = jac g p / ∑ q, jac g q := Fl.fin.inj ((ha p).symm.trans (hae p))
  cases g with
  | spiral n =>
    have hn1 : (1 : ℝ) ≤ n := by
      have : 1 ≤ n := hg
      exact_mod_cast this
    have e : a p = 1 / n := by
      rw [haa]
      simp [jac, Grid.Pix]
    have hb : (0 : ℝ) < 1 / n := by positivity
    have hb1 : (1 : ℝ) / n ≤ 1 := by rw [div_le_one (by linarith)]; exact hn1
    have hp := single_pos (dbl_pos hb)
    have d1 := dbl_err (1 / n : ℝ)
    have d2 := single_err (dbl (1 / n : ℝ))
    rw [abs_of_pos hb] at d1
    rw [abs_of_pos (dbl_pos hb)] at d2
    have d3 : |single (dbl (1 / n : ℝ)) - 1 / n| ≤ 1 / n * (7 / 10 ^ 8) := by
      refine (abs_sub_le _ _ _).trans ((add_le_add d2 d1).trans ?_)
      have := (abs_le.mp d1).2
      generalize (1 : ℝ) / n = b at *
      norm_num at *
      nlinarith
    have d4 := sqrt_rel hb hp.le d3
    have h5 : √(1 / n : ℝ) ≤ 1 := sqrt_le_one.mpr hb1
    have h6 := single_err √(single (dbl (1 / n : ℝ)))
    have h7 := sqrt_nonneg (single (dbl (1 / n : ℝ)))
    rw [abs_of_nonneg h7] at h6
    have d4' := abs_le.mp d4
    have h6' := abs_le.mp h6
    change 0 ≤ single (dbl (1 / n : ℝ)) ∧ 0 ≤ 2 * single √(single (dbl (1 / n : ℝ))) ∧ |2 * single √(single (dbl (1 / n : ℝ))) - 2 * √(a p)| ≤ _
    rw [e]
    have h8 : √(single (dbl (1 / n : ℝ))) ≤ 2 := by norm_num at *; linarith [d4'.2]
    refine ⟨hp.le, by norm_num at *; linarith [h6'.1], ?_⟩
    rw [abs_le]
    norm_num at *
    constructor <;> linarith [h6'.1, h6'.2, d4'.1, d4'.2]
  | rect c b =>
    have hc : 3 ≤ c := hg.1
    have hcn : (c : ℝ) ≤ 10 ^ 7 := by
      simp only [Grid.Pix, Fintype.card_prod, Fintype.card_fin] at hn
      push_cast at hn
      have : (1 : ℝ) ≤ b := by exact_mod_cast hg.2
      nlinarith [(Nat.cast_nonneg c : (0 : ℝ) ≤ c)]
    set x : (Grid.rect c b).Pix → ℝ := fun q => M.jacobian c q.2 with hx
    have hx0 : ∀ p, 0 ≤ x p := fun p => jacobian_nonneg hM hc p.2.2 hcn
    have hxn : ∀ p, |x p - jac (.rect c b) p| ≤ 60 * ulp := by
      rintro ⟨i, j⟩
      obtain ⟨l1, -⟩ := (C01_rect_layout c b (by omega)).2.2 i j
      change |M.jacobian c j - cos ((Grid.rect c b).lat (i, j))| ≤ _
      rw [l1]
      exact jacobian_near hM hc j.2
    have hsum := tree_scaled hT hD (by norm_num; linarith) (J := 1) (K := 60 * ulp) one_pos (by linarith) x (jac (.rect c b)) (fun p => by rw [one_mul]; exact hxn p)
      (fun p => by rw [abs_of_nonneg (hj p).1]; exact (hj p).2)
    rw [one_mul] at hsum
    set S := ∑ q, jac (.rect c b) q with hS
    set N : ℝ := (Fintype.card (Grid.rect c b).Pix : ℝ) with hNdef
    have hN1 : 1 ≤ N := by
      rw [hNdef] at hN ⊢
      exact_mod_cast Nat.one_le_iff_ne_zero.mpr (by intro h; rw [h] at hN; simp at hN)
    have hsum : |T.sum x - S| ≤ N * (3060 * ulp) := hsum.trans (le_of_eq (by push_cast; ring))
    have hS' : N / 7 ≤ T.sum x := by
      have := (abs_le.mp hsum).1
      nlinarith
    have hSpos : 0 < S := by linarith
    have hTpos : 0 < T.sum x := by linarith
    have q0 : 0 ≤ x p / T.sum x := div_nonneg (hx0 p) hTpos.le
    have q : |x p / T.sum x - a p| ≤ 130000 * ulp := by
      rw [haa, div_sub_div _ _ hTpos.ne' hSpos.ne', abs_div, abs_of_pos (mul_pos hTpos hSpos), div_le_iff₀ (mul_pos hTpos hSpos)]
      have e : |x p * S - T.sum x * jac (.rect c b) p| ≤ 60 * ulp * S + N * (3060 * ulp) := by
        rw [show x p * S - T.sum x * jac (.rect c b) p = (x p - jac (.rect c b) p) * S - jac (.rect c b) p * (T.sum x - S) by ring]
        refine (abs_sub _ _).trans ?_
        rw [abs_mul, abs_mul, abs_of_pos hSpos, abs_of_nonneg (hj p).1]
        have t1 : |x p - jac (.rect c b) p| * S ≤ 60 * ulp * S := by gcongr; exact hxn p
        have t2 : jac (.rect c b) p * |T.sum x - S| ≤ 1 * (N * (3060 * ulp)) := mul_le_mul (hj p).2 hsum (abs_nonneg _) zero_le_one
        linarith
      refine e.trans ?_
      have t3 : 60 * S ≤ 420 * (T.sum x * S) := by nlinarith
      have t4 : N * 3060 ≤ 128520 * (T.sum x * S) := by
        have : N / 7 * (N / 6) ≤ T.sum x * S := mul_le_mul hS' hJ (by positivity) hTpos.le
        nlinarith
      have t5 : 60 * S + N * 3060 ≤ 130000 * (T.sum x * S) := by nlinarith [mul_pos hTpos hSpos]
      calc 60 * ulp * S + N * (3060 * ulp) = (60 * S + N * 3060) * ulp := by ring
        _ ≤ 130000 * (T.sum x * S) * ulp := by gcongr
        _ = _ := by ring
    have ha0 : 0 ≤ a p := by rw [haa]; exact div_nonneg (hj p).1 hSpos.le
    have ha1 : a p ≤ 1 := by
      rw [haa, div_le_one hSpos]
      exact Finset.single_le_sum (fun q _ => (hj q).1) (Finset.mem_univ p)
    have q1 : |dbl (x p / T.sum x) - a p| ≤ (4.5 / 10 ^ 6) ^ 2 := by
      refine (dbl_abs q (B := 1) (by rw [abs_of_nonneg ha0]; exact ha1) (by linarith)).trans ?_
      norm_num
      linarith
    have q2 := abs_le.mp (sqrt_diff (dbl_nonneg q0) ha0 q1 (by norm_num))
    have q3 := dbl_err √(dbl (x p / T.sum x))
    rw [abs_of_nonneg (sqrt_nonneg _)] at q3
    have q4 := abs_le.mp q3
    have h5 : √(a p) ≤ 1 := sqrt_le_one.mpr ha1
    change 0 ≤ dbl (x p / T.sum x) ∧ 0 ≤ 2 * dbl √(dbl (x p / T.sum x)) ∧ |2 * dbl √(dbl (x p / T.sum x)) - 2 * √(a p)| ≤ _
    refine ⟨dbl_nonneg q0, mul_nonneg zero_le_two (dbl_nonneg (sqrt_nonneg _)), ?_⟩
    have h8 : √(dbl (x p / T.sum x)) * ulp ≤ 2 * ulp := by
      gcongr
      norm_num at q2
      linarith [q2.2]
    rw [abs_le]
    norm_num at q2 ⊢
    constructor <;> linarith [q4.1, q4.2, q2.1, q2.2]

theorem mcos_sign {M : Libm} (hM : Accurate M) (x : ℝ) : 0 < M.cos x ↔ 0 < cos x := by
  have h := abs_le.mp (hM.2.1 x)
  constructor
  · intro h1
    by_contra hn
    rw [abs_of_nonpos (not_lt.mp hn)] at h
    norm_num at h
    linarith [h.2]
  · intro h1
    rw [abs_of_pos h1] at h
    norm_num at h
    linarith [h.1]

/-- **C181** (branches) `get_transit_mask` as computed finds out correctly whether the planet is behind the star, and up to `1/10^4` stellar radii whether it is far from it. -/
theorem C181_branches {M : Libm} (hM : Accurate M) {s : Star} (T : SumTree s.grid.Pix) (lat0 lon0 : ℝ) {orbit r phase incl : ℝ} (mid : s.grid.Pix → ℝ)
    (hq : |orbit / s.radius| ≤ 10 ^ 6) (hphase : |phase| ≤ 16) {X Y ρ : ℝ} (hXY : (X, Y) = planetPos s.radius orbit phase incl) (hρ : ρ = r / s.radius) (hbig : |ρ| ≤ 40) :
    (0 < cos phase ∨ 1 + 2 * ρ + 1 / 10 ^ 4 < √(X ^ 2 + Y ^ 2) → M.transitMask s T lat0 lon0 orbit r phase incl mid = fun _ => 0) ∧
    (cos phase ≤ 0 → √(X ^ 2 + Y ^ 2) + 1 / 10 ^ 4 < 1 + 2 * ρ → ∃ X' Y' rp', |X' - X| ≤ 1 / 10 ^ 5 ∧ |Y' - Y| ≤ 1 / 10 ^ 5 ∧ |rp' - ρ| ≤ 1 / 10 ^ 5 ∧
      M.transitMask s T lat0 lon0 orbit r phase incl mid = M.maskD s.grid lat0 lon0 X' Y' rp' (M.pointRadius s.grid T) mid) := by
  have hu := ulp_pos
  have hs := ulp_tight
  norm_num at hs
  obtain ⟨hx, hy⟩ := planet_near hM (incl := incl) hq hphase
  rw [← hXY] at hx hy
  dsimp only at hx hy
  have hrp : |dbl (r / s.radius) - ρ| ≤ 1 / 10 ^ 10 := by
    rw [hρ]
    refine (dbl_err _).trans ?_
    rw [← hρ]
    norm_num
    nlinarith [abs_nonneg ρ]
  have hrp' := abs_le.mp hrp
  have hthr : |dbl (1 + dbl (2 * dbl (r / s.radius))) - (1 + 2 * ρ)| ≤ 1 / 10 ^ 9 := by
    have i1 : |2 * dbl (r / s.radius) - 2 * ρ| ≤ 2 / 10 ^ 10 := by
      rw [abs_le]; constructor <;> (norm_num at *; linarith)
    have hb := abs_le.mp hbig
    have i2 := dbl_abs i1 (B := 80) (by rw [abs_le]; constructor <;> linarith) (by norm_num)
    have i3 : |1 + dbl (2 * dbl (r / s.radius)) - (1 + 2 * ρ)| ≤ 3 / 10 ^ 10 := by
      rw [add_sub_add_left_eq_sub]
      refine i2.trans ?_
      norm_num
      linarith
    refine (dbl_abs i3 (B := 81) (by rw [abs_le]; constructor <;> linarith) (by norm_num)).trans ?_
    norm_num
    linarith
  have hthr' := abs_le.mp hthr
  set x := M.planetX s.radius orbit phase with hxdef
  set y := M.planetY s.radius orbit phase incl with hydef
  have hdist : |dbl √(dbl (dbl (x * x) + dbl (y * y))) - √(X ^ 2 + Y ^ 2)| ≤ 1 / 10 ^ 5 := by
    have hxx : dbl x = x := by rw [hxdef]; unfold Libm.planetX; exact dbl_idem _
    have hyy : dbl y = y := by rw [hydef]; unfold Libm.planetY; exact dbl_idem _
    have d0 := abs_hypot_sub x y X Y
    have bXY : √(X ^ 2 + Y ^ 2) ≤ 2 * 10 ^ 6 := by
      have h := Complex.norm_le_abs_re_add_abs_im (⟨X, Y⟩ : ℂ)
      rw [Complex.norm_eq_sqrt_sq_add_sq] at h
      refine h.trans ?_
      have e1 : X = orbit / s.radius * sin (phase - π) := congrArg Prod.fst hXY
      have e2 : Y = orbit / s.radius * cos (phase - π) * cos incl := congrArg Prod.snd hXY
      have b1 : |X| ≤ 10 ^ 6 * 1 := by rw [e1, abs_mul]; exact mul_le_mul hq (abs_sin_le_one _) (abs_nonneg _) (by norm_num)
      have b2 : |Y| ≤ 10 ^ 6 * 1 * 1 := by
        rw [e2, abs_mul, abs_mul]
        exact mul_le_mul (mul_le_mul hq (abs_cos_le_one _) (abs_nonneg _) (by norm_num)) (abs_cos_le_one _) (abs_nonneg _) (by norm_num)
      show |X| + |Y| ≤ _
      linarith
    have d1 := hypot_near (u := x) (v := y) (B := 3 * 10 ^ 6) (by norm_num at *; linarith [(abs_le.mp d0).2])
    rw [hxx, hyy] at d1
    refine (abs_sub_le _ _ _).trans ((add_le_add d1 d0).trans ?_)
    norm_num at *
    linarith
  have hdist' := abs_le.mp hdist
  constructor
  · rintro h
    unfold Libm.transitMask
    dsimp only
    rw [← hxdef, ← hydef]
    rcases h with h | h
    · rw [if_pos ((mcos_sign hM phase).mpr h), ite_self]
    · rw [if_pos (by norm_num at *; linarith)]
  · intro hc h
    refine ⟨x, y, dbl (r / s.radius), hx.trans (by norm_num), hy.trans (by norm_num), hrp.trans (by norm_num), ?_⟩
    unfold Libm.transitMask
    dsimp only
    rw [← hxdef, ← hydef, if_neg (by norm_num at *; linarith), if_neg (by rw [mcos_sign hM]; exact not_lt.mpr hc)]

open Classical in
/-- **C181** The report in a transit with everything rounded: grid, pixel sizes, the planet's place and size and the tests of `get_transit_mask`.  The temperatures' own shares are as
good as without a planet, the covered shares off by at most the light of the pixels at the planet's edge, at the limb and at the centre of the disk in addition. -/
theorem C181_transit {M : Libm} (hM : Accurate M) {s : Star} {gr : Granulation} (hgr : s.granulation = some gr) (hS : SpottedStar s gr) {lat0 lon0 : ℝ} (h0 : |lat0| ≤ π / 2)
    (hκ : 1 / 10 ^ 4 ≤ cos lat0) {T T₁ T₂ : SumTree s.grid.Pix} {D : ℕ} (H : FloatSetting s lon0 T T₁ T₂ D) (hT : T.depth ≤ 1000) {L : ℝ} (hL : ∑ p, s.weight lat0 lon0 p = .fin L)
    (hLe : allowance s.grid D ≤ L) {g orbit r phase incl : ℝ} (hg : g ∈ Set.Icc 0 1) {total cov : Dict ℤ Fl} {plf : Fl}
    (h : s.calcCoverage lat0 lon0 g orbit r phase incl = .ok (total, cov, plf)) {m : s.grid.Pix → ℝ} (hm : s.addFaculaeToMap lat0 lon0 = .ok m)
    (hp : ∃ p, Clear s p ∧ m p = s.teff) {E : ℝ} (hE : ∑ p, (if Clear s p then .fin 0 else s.weight lat0 lon0 p) = .fin E) {a : s.grid.Pix → ℝ}
    (ha : ∀ p, s.grid.area p = .fin (a p)) (hq : |orbit / s.radius| ≤ 10 ^ 6) (hphase : |phase| ≤ 16) {X Y ρ : ℝ} (hXY : (X, Y) = planetPos s.radius orbit phase incl)
    (hρ : ρ = r / s.radius) (hph : cos phase ≤ 0) (hnear : √(X ^ 2 + Y ^ 2) + 1 / 10 ^ 4 < 1 + 2 * ρ) (hbig : |ρ| ≤ 40) {mid : s.grid.Pix → ℝ}
    (hmid : ∀ p, mid p ∈ Set.Icc (0 : ℝ) 1) {B : ℝ} (hB : ∑ p, (if Decided s.grid lat0 lon0 X Y ρ a p then .fin 0 else s.weight lat0 lon0 p) = .fin B) :
    ∃ total' cov', M.calcCoverageSpots s T T₁ T₂ lat0 lon0 g (M.transitMask s T lat0 lon0 orbit r phase incl mid) = .ok (total', cov') ∧
      ∀ k, ∃ x y, entry total k = .fin x ∧ entry cov k = .fin y ∧
        |(Dict.get? total' k).getD 0 - x| ≤ (3 * allowance s.grid D + E) / L ∧ |(Dict.get? cov' k).getD 0 - y| ≤ (3 * allowance s.grid D + E + B) / L := by
  obtain ⟨X', Y', rp', hX, hY, hrp, e⟩ := (C181_branches hM T lat0 lon0 mid hq hphase hXY hρ hbig).2 hph hnear
  rw [e]
  exact C180_transit hM hgr hS h0 hκ H hL hLe hg h hm hp hE ha hXY hρ hph (by linarith) hbig hX hY hrp
    (fun p => (C181_sizes hM s.grid H.grid H.pixels H.adds.1 hT ha p).2) hmid hB

theorem sum_zero {ι : Type} (T : SumTree ι) : T.sum (fun _ => 0) = 0 := by
  induction T with
  | leaf i => rfl
  | node l r hl hr => rw [SumTree.sum, hl, hr, add_zero, dbl_zero]

/-- A dict all of whose values are zero. -/
def Spec.AllZero (d : Dict ℤ ℝ) : Prop := ∀ k v, Dict.get? d k = some v → v = 0

theorem allZero_set {d : Dict ℤ ℝ} (h : AllZero d) (k : ℤ) : AllZero (Dict.set d k 0) := fun k' v hv => by
  rw [Dict.get?_set] at hv
  split_ifs at hv
  · exact (Option.some.inj hv).symm
  · exact h k' v hv

theorem allZero_fold (l : List ℝ) (d : Dict ℤ ℝ) (h : AllZero d) : AllZero (l.foldl (fun d teff => Dict.set d (Star.key teff) 0) d) := by
  induction l generalizing d with
  | nil => exact h
  | cons t l ih => exact ih _ (allZero_set h _)

theorem allZero_granulate {d e : Dict ℤ ℝ} (h : AllZero d) {kP kG : ℤ} {g : ℝ} (he : Libm.granulate d kP kG g = .ok e) : AllZero e := by
  unfold Libm.granulate Dict.get at he
  cases h1 : Dict.get? d kP with
  | none =>
    rw [h1] at he
    cases he
  | some x =>
    have hx : x = 0 := h _ _ h1
    subst hx
    rw [h1] at he
    simp only [zero_mul, dbl_zero, bind, Except.bind, pure, Except.pure, add_zero] at he
    have hz := allZero_set h kP
    cases h2 : Dict.get? (Dict.set d kP 0) kG with
    | none =>
      rw [h2] at he
      cases he
    | some y =>
      have hy : y = 0 := hz _ _ h2
      subst hy
      rw [h2] at he
      simp only [dbl_zero] at he
      cases he
      exact allZero_set hz kG

/-- **C181** (free) When the planet is behind the star or away from it, every covered share of the report as computed is exactly zero, not just small. -/
theorem C181_free {M : Libm} (hM : Accurate M) {s : Star} (T T₁ T₂ : SumTree s.grid.Pix) (lat0 lon0 g : ℝ) {orbit r phase incl : ℝ} (mid : s.grid.Pix → ℝ)
    (hq : |orbit / s.radius| ≤ 10 ^ 6) (hphase : |phase| ≤ 16) {X Y ρ : ℝ} (hXY : (X, Y) = planetPos s.radius orbit phase incl) (hρ : ρ = r / s.radius) (hbig : |ρ| ≤ 40)
    (hfree : 0 < cos phase ∨ 1 + 2 * ρ + 1 / 10 ^ 4 < √(X ^ 2 + Y ^ 2)) {total cov : Dict ℤ ℝ}
    (h : M.calcCoverageSpots s T T₁ T₂ lat0 lon0 g (M.transitMask s T lat0 lon0 orbit r phase incl mid) = .ok (total, cov)) (k : ℤ) :
    (Dict.get? cov k).getD 0 = 0 := by
  rw [(C181_branches hM T lat0 lon0 mid hq hphase hXY hρ hbig).1 hfree] at h
  have hz : AllZero cov := by
    unfold Libm.calcCoverageSpots at h
    cases hgr : s.granulation with
    | none =>
      rw [hgr] at h
      cases h
    | some gr =>
      rw [hgr] at h
      dsimp only at h
      have hshare : M.coveredShare s T T₁ T₂ lat0 lon0 (M.spotMap s) (fun _ => 0) = fun _ => 0 := by
        funext t
        unfold Libm.coveredShare
        simp only [mul_zero, dbl_zero, sum_zero, zero_div]
      rw [hshare] at h
      have hraw : ∀ G, AllZero (Libm.rawDataSingle (M.spotMap s) (fun _ => 0) G) := fun G => by
        unfold Libm.rawDataSingle
        have h0 := allZero_fold (Star.uniqueTeffs (M.spotMap s)) [] (fun k v hv => by cases hv)
        dsimp only
        split_ifs
        · exact h0
        · exact allZero_set h0 _
      simp only [bind, Except.bind, pure, Except.pure] at h
      cases h1 : Libm.granulate (Libm.rawDataSingle (M.spotMap s) (M.nominalShare s T T₁ T₂ lat0 lon0 (M.spotMap s)) (dbl (s.teff - gr.dteff))) (Star.key s.teff)
          (Star.key (dbl (s.teff - gr.dteff))) g with
      | error e =>
        rw [h1] at h
        cases h
      | ok d1 =>
        rw [h1] at h
        cases h2 : Libm.granulate (Libm.rawDataSingle (M.spotMap s) (fun _ => 0) (dbl (s.teff - gr.dteff))) (Star.key s.teff) (Star.key (dbl (s.teff - gr.dteff))) g with
        | error e =>
          rw [h2] at h
          cases h
        | ok d2 =>
          rw [h2] at h
          cases h
          exact allZero_granulate (hraw _) h2
  cases hk : Dict.get? cov k with
  | none => rfl
  | some v => exact hz k v hk
/-- Non-trivial instance of C181: a planet of twenty stellar radii in front of a star half of which is covered by a spot.  Whatever the Gaussian integrals give, the report as computed agrees
with the exact one to eight digits. -/
example {M : Libm} (hM : Accurate M) (mid : (halfStar []).grid.Pix → ℝ) (hmid : ∀ p, mid p ∈ Set.Icc (0 : ℝ) 1) : ∃ total cov plf T total' cov',
    (halfStar []).calcCoverage 0 0 0.2 30 20 π (π / 2) = .ok (total, cov, plf) ∧
    M.calcCoverageSpots (halfStar []) T T T 0 0 0.2 (M.transitMask (halfStar []) T 0 0 30 20 π (π / 2) mid) = .ok (total', cov') ∧
    ∀ k, ∃ x y, entry total k = .fin x ∧ entry cov k = .fin y ∧ |(Dict.get? total' k).getD 0 - x| ≤ 1 / 10 ^ 8 ∧ |(Dict.get? cov' k).getD 0 - y| ≤ 1 / 10 ^ 8 := by
  classical
  have hp := pi_pos
  obtain ⟨total, cov, plf, h⟩ := halfStar_transit
  obtain ⟨L, hL, hL1⟩ := halfStar_light
  obtain ⟨T, hT⟩ := halfStar_setting
  obtain ⟨-, -, p, hpix⟩ := halfStar_pixels
  have hal : allowance (halfStar []).grid 12 ≤ 1 / 10 ^ 11 := by
    change 600 * (80 * ulp) + (30000 + 80 * (12 : ℕ)) * (1 / 2 ^ 53 : ℝ) ≤ _
    unfold ulp
    norm_num
  obtain ⟨a, ha, hpos, hsum, -⟩ := C02_area_partition (halfStar []).grid ⟨by show 3 ≤ 4; norm_num, by show 1 ≤ 3; norm_num⟩
  have ha1 : ∀ p, √(a p) ≤ 1 := fun p => sqrt_le_one.mpr ((Finset.single_le_sum (fun q _ => hpos q) (Finset.mem_univ p)).trans hsum.le)
  have dark : ∀ N : (halfStar []).grid.Pix → Prop, (∀ q, (Grid.rect 4 3).mu 0 0 q ≠ 0 → N q) →
      ∑ q, (if N q then .fin 0 else (halfStar []).weight 0 0 q) = .fin 0 := fun N hN => by
    refine (Finset.sum_congr rfl fun q _ => ?_ : _ = ∑ _ : (halfStar []).grid.Pix, Fl.fin 0).trans (by rw [Fl.sum_fin]; simp)
    by_cases hq : N q
    · rw [if_pos hq]
    · rw [if_neg hq]
      have hz : (Grid.rect 4 3).mu 0 0 q = 0 := by
        by_contra hne
        exact hq (hN q hne)
      have hz' : ¬ 0 < (halfStar []).mu 0 0 q := fun hlt => by
        change 0 < (Grid.rect 4 3).mu 0 0 q at hlt
        linarith
      rw [weight_eq _ a ha]
      exact congrArg Fl.fin (pixelWeight_back (halfStar []) ha hz')
  obtain ⟨total', cov', h1, h2⟩ := C181_transit hM (s := halfStar []) rfl halfStar_spotted (lat0 := 0) (by rw [abs_zero]; positivity) (by rw [cos_zero]; norm_num) hT
    (hT.depth.1.trans (by norm_num)) hL (hal.trans (by norm_num; linarith)) (by constructor <;> norm_num) h halfStar_map ⟨p, halfStar_clear p hpix.ne, by rw [if_neg hpix.not_gt]; rfl⟩
    (dark _ halfStar_clear) ha (by change |(30 : ℝ) / 1| ≤ _; norm_num) (by rw [abs_of_pos hp]; linarith [pi_lt_d2]) (X := 0) (Y := 0) (ρ := 20) (by simp [planetPos])
    (by change (20 : ℝ) = 20 / 1; norm_num) (by rw [cos_pi]; norm_num) (by norm_num) (by norm_num [abs_of_pos]) hmid (dark _ (halfStar_decided ha1))
  refine ⟨total, cov, plf, T, total', cov', h, h1, fun k => ?_⟩
  obtain ⟨x, y, hx, hy, a1, a2⟩ := h2 k
  have hle : (3 * allowance (halfStar []).grid 12 + 0) / L ≤ 1 / 10 ^ 8 := by
    rw [div_le_iff₀ (by linarith)]
    calc _ ≤ 3 * (1 / 10 ^ 11 : ℝ) := by linarith
      _ ≤ 1 / 10 ^ 8 * (1 / 100) := by norm_num
      _ ≤ _ := by gcongr
  exact ⟨x, y, hx, hy, a1.trans hle, a2.trans (by rw [add_zero]; exact hle)⟩

/-- Non-trivial instance of C181: the same planet behind the star covers nothing, and so does a small one far beside it. -/
example {M : Libm} (hM : Accurate M) (T : SumTree (halfStar []).grid.Pix) (mid : (halfStar []).grid.Pix → ℝ) :
    M.transitMask (halfStar []) T 0 0 30 20 0 (π / 2) mid = (fun _ => 0) ∧ M.transitMask (halfStar []) T 0 0 30 0.1 (π / 2) (π / 2) mid = fun _ => 0 := by
  have hp := pi_pos
  refine ⟨(C181_branches hM T 0 0 mid (by change |(30 : ℝ) / 1| ≤ _; norm_num) (by norm_num) rfl rfl (by change |(20 : ℝ) / 1| ≤ _; norm_num [abs_of_pos])).1
    (Or.inl (by rw [cos_zero]; exact one_pos)), ?_⟩
  refine (C181_branches hM T 0 0 mid (by change |(30 : ℝ) / 1| ≤ _; norm_num) (by rw [abs_of_pos (by positivity)]; linarith [pi_lt_d2]) (X := -30) (Y := 0) ?_ rfl
    (by change |(0.1 : ℝ) / 1| ≤ _; norm_num [abs_of_pos])).1 (Or.inr ?_)
  · have e : sin (π / 2 - π) = -1 := by rw [show π / 2 - π = -(π / 2) by ring, sin_neg, sin_pi_div_two]
    simp only [planetPos, e, cos_pi_div_two, mul_zero]
    change ((-30 : ℝ), (0 : ℝ)) = (30 / 1 * -1, 0)
    norm_num
  · change 1 + 2 * ((0.1 : ℝ) / 1) + 1 / 10 ^ 4 < _
    rw [show (-30 : ℝ) ^ 2 + 0 ^ 2 = 30 ^ 2 by norm_num, sqrt_sq (by norm_num)]
    norm_num

/-- Non-trivial instance of C181: with the planet behind the star the report as computed has answers, and every covered share is zero. -/
example {M : Libm} (hM : Accurate M) (mid : (halfStar []).grid.Pix → ℝ) : ∃ T total' cov',
    M.calcCoverageSpots (halfStar []) T T T 0 0 0.2 (M.transitMask (halfStar []) T 0 0 30 20 0 (π / 2) mid) = .ok (total', cov') ∧ ∀ k, (Dict.get? cov' k).getD 0 = 0 := by
  classical
  have hp := pi_pos
  obtain ⟨total, cov, plf, h⟩ := halfStar_transit
  obtain ⟨L, hL, hL1⟩ := halfStar_light
  obtain ⟨T, hT⟩ := halfStar_setting
  obtain ⟨-, -, p, hpix⟩ := halfStar_pixels
  have hal : allowance (halfStar []).grid 12 ≤ 1 / 10 ^ 11 := by
    change 600 * (80 * ulp) + (30000 + 80 * (12 : ℕ)) * (1 / 2 ^ 53 : ℝ) ≤ _
    unfold ulp
    norm_num
  obtain ⟨w, hw, hw0⟩ := weights_real hT.grid hT.ld 0 0
  obtain ⟨m', mask, gr', hm', ht, hgr', h1, h2⟩ := calcCoverage_ok.mp h
  obtain ⟨c, rfl, hc0, hc1⟩ := mask_real hT.grid halfStar_spotted.radius.ne' (abs_le.mp (by rw [abs_zero]; positivity)) ht
  have hE : ∑ q, (if Clear (halfStar []) q then Fl.fin 0 else (halfStar []).weight 0 0 q) = .fin (∑ q, if Clear (halfStar []) q then 0 else w q) := by
    rw [← Fl.sum_fin]
    refine Finset.sum_congr rfl fun q _ => ?_
    split_ifs
    · rfl
    · exact hw q
  obtain ⟨total', cov', h3, -⟩ := C180_report hM (s := halfStar []) rfl halfStar_spotted (lat0 := 0) hT hL (hal.trans (by norm_num; linarith)) (by constructor <;> norm_num) h
    halfStar_map ⟨p, halfStar_clear p hpix.ne, by rw [if_neg hpix.not_gt]; rfl⟩ hE ht (c' := fun _ => 0) (fun _ => ⟨le_refl _, zero_le_one⟩)
    (B := ∑ q, w q * |0 - c q|) (by simp only [hw, Fl.fin_mul, Fl.sum_fin])
  have e := (C181_branches hM T 0 0 mid (orbit := 30) (r := 20) (phase := 0) (incl := π / 2) (by change |(30 : ℝ) / 1| ≤ _; norm_num) (by norm_num) rfl rfl
    (by change |(20 : ℝ) / 1| ≤ _; norm_num [abs_of_pos])).1 (Or.inl (by rw [cos_zero]; exact one_pos))
  refine ⟨T, total', cov', by rw [e]; exact h3, fun k => ?_⟩
  exact C181_free hM T T T 0 0 0.2 mid (orbit := 30) (r := 20) (phase := 0) (incl := π / 2) (by change |(30 : ℝ) / 1| ≤ _; norm_num) (by norm_num) rfl rfl
    (by change |(20 : ℝ) / 1| ≤ _; norm_num [abs_of_pos]) (Or.inl (by rw [cos_zero]; exact one_pos)) (by rw [e]; exact h3) k

end Vsm
