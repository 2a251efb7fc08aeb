import Verif.Props.SpiralAccuracy
import Verif.Props.Grid2

/-!
# C114, C115: spiral grids have no holes and their maps are displayed faithfully
-/

noncomputable section

namespace Vsm

open Real MeasureTheory Set Spec

theorem zonal_cap {k : ℝ} (h0 : -1 ≤ k) (h1 : k ≤ 1) :
    ∫ φ in (-(π / 2))..(π / 2), (Ioi k).indicator (1 : ℝ → ℝ) (sin φ) * cos φ = 1 - k := by
  have hp := pi_pos
  have e3 : EqOn (fun φ => (Ioi k).indicator (1 : ℝ → ℝ) (sin φ) * cos φ) ((Ioc (arcsin k) (π / 2)).indicator cos)
      (Ioc (-(π / 2)) (π / 2)) := by
    intro φ hφ
    have := arcsin_lt_iff_lt_sin' (x := k) (y := φ) (Ioc_subset_Ioc_left le_rfl hφ)
    by_cases hk : k < sin φ
    · simp only
      rw [indicator_of_mem (by exact hk), indicator_of_mem (show φ ∈ Ioc (arcsin k) (π / 2) from ⟨this.mpr hk, hφ.2⟩)]
      simp
    · simp only
      rw [indicator_of_notMem (by exact hk), indicator_of_notMem (fun h => hk (this.mp h.1)), zero_mul]
  rw [intervalIntegral.integral_of_le (by linarith), setIntegral_congr_fun measurableSet_Ioc e3,
    setIntegral_indicator measurableSet_Ioc, Ioc_inter_Ioc, max_eq_right (neg_pi_div_two_le_arcsin k), min_self,
    ← intervalIntegral.integral_of_le (arcsin_le_pi_div_two k), integral_cos, sin_pi_div_two, sin_arcsin h0 h1]

/-- Every point of the sphere has a grid point near it. -/
theorem spiral_near (n m : ℕ) (hn : 1 ≤ n) (φ0 l0 : ℝ) :
    ∃ k : (Grid.spiral n).Pix, greatCircle φ0 l0 ((Grid.spiral n).lat k) ((Grid.spiral n).lon k) ≤ 3 * spiralReach n m := by
  have hp := pi_pos
  have hn' : (0 : ℝ) < n := by exact_mod_cast hn
  have hF : (0 : ℝ) < Nat.fib (m + 1) := by exact_mod_cast Nat.fib_pos.mpr (Nat.succ_pos m)
  set ρ := spiralReach n m with hρ
  have hρ1 : π * √(Nat.fib (m + 1) / n) < ρ := by
    rw [hρ, spiralReach]; have : 0 < 4 * π / (Nat.fib (m + 1) : ℝ) := by positivity
    linarith
  have hρ0 : 0 < ρ := lt_of_le_of_lt (by positivity) hρ1
  by_contra hc
  push Not at hc
  have hsmall : 2 * ρ < π := by
    have h1 := hc (⟨0, hn⟩ : Fin n)
    have h2 : greatCircle φ0 l0 ((Grid.spiral n).lat (⟨0, hn⟩ : Fin n)) ((Grid.spiral n).lon (⟨0, hn⟩ : Fin n)) ≤ π :=
      InnerProductGeometry.angle_le_pi _ _
    linarith
  set c := cos (2 * ρ) with hcdef
  set h : ℝ → ℝ := (Ioi c).indicator 1 with hh
  have hb : ∀ x, |h x| ≤ 1 := fun x => by simp only [hh, indicator]; split_ifs <;> simp
  have hhm : Measurable h := measurable_one.indicator measurableSet_Ioi
  have hs := spiral_sum n m hn (fun φ l => h (sin φ0 * sin φ + cos φ0 * cos φ * cos (l0 - l)))
    (hhm.comp (by fun_prop)) (fun φ l => by rw [show l0 - (l + 2 * π) = l0 - l - 2 * π by ring, cos_sub_two_pi]) 1
    (fun φ l => hb _) (fun _ => 0) (integrable_zero _ _ _) (fun _ => le_rfl) (fun _ => 0) (fun _ => by simp) (by
      intro p x hx
      have h1 := hc p
      have h2 := greatCircle_triangle φ0 l0 x.2 x.1 ((Grid.spiral n).lat p) ((Grid.spiral n).lon p)
      have h3 : 2 * ρ ≤ greatCircle φ0 l0 x.2 x.1 := by linarith
      rw [greatCircle_eq] at h3
      have h4 : sin φ0 * sin x.2 + cos φ0 * cos x.2 * cos (l0 - x.1) ≤ c := by
        by_contra h5
        push Not at h5
        have h6 := arccos_lt_arccos (neg_one_le_cos _) h5
          (cosExpr_mem φ0 l0 x.2 x.1).2
        rw [arccos_cos (by linarith) hsmall.le] at h6
        linarith
      simp only [hh]
      rw [indicator_of_notMem (by exact not_lt.mpr h4)]
      simp)
  rw [zonal_integral h hhm 1 (fun x => by simp only [hh, indicator]; split_ifs <;> simp) (fun x => (le_abs_self _).trans (hb x)),
    hh, zonal_cap (neg_one_le_cos _) (cos_le_one _)] at hs
  simp only [mul_zero, Finset.sum_const_zero, zero_sub, abs_neg, integral_zero, zero_add, mul_one] at hs
  have h1 : c ≤ 1 - 2 / π ^ 2 * (2 * ρ) ^ 2 := by
    rw [hcdef]
    exact cos_le_one_sub_mul_cos_sq (by rw [abs_of_nonneg (by linarith)]; exact hsmall.le)
  have h2 : π ^ 2 * (Nat.fib (m + 1) / n) < ρ ^ 2 := by
    have := mul_self_lt_mul_self (by positivity) hρ1
    have e : √((Nat.fib (m + 1) : ℝ) / n) * √(Nat.fib (m + 1) / n) = Nat.fib (m + 1) / n := mul_self_sqrt (by positivity)
    nlinarith
  have h3 : 8 * ((Nat.fib (m + 1) : ℝ) / n) < 1 - c := by
    have : 2 / π ^ 2 * (2 * ρ) ^ 2 = 8 * (ρ ^ 2 / π ^ 2) := by field_simp; ring
    have h4 : (Nat.fib (m + 1) : ℝ) / n < ρ ^ 2 / π ^ 2 := by rw [lt_div_iff₀ (by positivity)]; linarith
    linarith
  have h4 : 2 * π * (1 - c) ≤ 4 * π * (2 * Nat.fib (m + 1) / n) := (le_abs_self _).trans hs
  have h5 : 2 * (Nat.fib (m + 1) : ℝ) / n = 2 * (Nat.fib (m + 1) / n) := by ring
  rw [h5] at h4
  have h6 : 1 - c ≤ 4 * ((Nat.fib (m + 1) : ℝ) / n) := by
    have := le_of_mul_le_mul_left (show 2 * π * (1 - c) ≤ 2 * π * (4 * ((Nat.fib (m + 1) : ℝ) / n)) by linarith) (by positivity)
    exact this
  have h7 : 0 < (Nat.fib (m + 1) : ℝ) / n := by positivity
  linarith

/-- **C114** Spiral grids have no holes: every point of the sphere has a grid point within `3(π√(F/n) + 4π/F)`, whatever the
Fibonacci number `F`; so for every distance all grids of enough points have a point within that distance of every
point of the sphere. -/
theorem C114_no_holes :
    (∀ (n m : ℕ), 1 ≤ n → ∀ φ l : ℝ, ∃ k : Fin n, greatCircle φ l ((Grid.spiral n).lat k) ((Grid.spiral n).lon k) ≤
      3 * (π * √(Nat.fib (m + 1) / n) + 4 * π / Nat.fib (m + 1))) ∧
    ∀ r : ℝ, 0 < r → ∃ N, ∀ n ≥ N, ∀ φ l : ℝ, ∃ k : Fin n,
      greatCircle φ l ((Grid.spiral n).lat k) ((Grid.spiral n).lon k) ≤ r := by
  refine ⟨fun n m hn φ l => spiral_near n m hn φ l, fun r hr => ?_⟩
  obtain ⟨m, N, hN⟩ := spiral_fine (r / 3) (by linarith)
  refine ⟨N + 1, fun n hn φ l => ?_⟩
  obtain ⟨k, hk⟩ := spiral_near n m (by omega) φ l
  exact ⟨k, hk.trans (by linarith [(hN n (by omega)).1])⟩

/-- Non-trivial instance of C114: on a grid of 1000000 points no point of the sphere is farther than a tenth of a turn from a
grid point. -/
example (φ l : ℝ) : ∃ k : Fin 1000000, greatCircle φ l ((Grid.spiral 1000000).lat k) ((Grid.spiral 1000000).lon k) ≤ 2 * π / 10 := by
  obtain ⟨k, hk⟩ := C114_no_holes.1 1000000 11 (by norm_num) φ l
  refine ⟨k, hk.trans ?_⟩
  have h1 : Nat.fib (11 + 1) = 144 := by decide
  rw [h1]
  have h2 : √(((144 : ℕ) : ℝ) / ((1000000 : ℕ) : ℝ)) = 12 / 1000 := by
    rw [show ((144 : ℕ) : ℝ) / ((1000000 : ℕ) : ℝ) = (12 / 1000) ^ 2 by norm_num]
    exact sqrt_sq (by norm_num)
  rw [h2]
  have := pi_pos
  norm_num
  linarith

theorem displayWeight_eq (n nlat nlon : ℕ) (hn : 1 ≤ n) (i : Fin nlon) (j : Fin nlat) (k : Fin n) :
    Grid.spiralWeight n nlat nlon (i, j) k = exp (-(n / (4 * π) *
      greatCircle ((Grid.rect nlat nlon).lat (i, j)) ((Grid.rect nlat nlon).lon (i, j)) ((Grid.spiral n).lat k)
        ((Grid.spiral n).lon k) ^ 2)) := by
  have hp := pi_pos
  have hn' : (0 : ℝ) < n := by exact_mod_cast hn
  rw [greatCircle_comm, greatCircle_eq]
  simp only [Grid.spiralWeight, Grid.mu, Grid.cosAngle]
  congr 2
  rw [div_div_eq_mul_div, div_one, mul_pow, sq_sqrt (by positivity), mul_comm]

/-- Resampling error at one target pixel. -/
theorem display_error (n m nlat nlon : ℕ) (hn : 1 ≤ n) (f : Fin n → ℝ) (i : Fin nlon) (j : Fin nlat) (c δ M : ℝ)
    (hδ : 0 ≤ δ) (hM : 0 ≤ M)
    (h1 : ∀ k, greatCircle ((Grid.rect nlat nlon).lat (i, j)) ((Grid.rect nlat nlon).lon (i, j)) ((Grid.spiral n).lat k)
      ((Grid.spiral n).lon k) ≤ 6 * spiralReach n m → |f k - c| ≤ δ) (h2 : ∀ k, |f k - c| ≤ M) :
    |(∑ k : Fin n, Grid.spiralWeight n nlat nlon (i, j) k * f k) / (∑ k : Fin n, Grid.spiralWeight n nlat nlon (i, j) k) - c| ≤
      δ + M * (n * exp (-(27 * n * spiralReach n m ^ 2 / (4 * π)))) := by
  have hp := pi_pos
  have hn' : (0 : ℝ) < n := by exact_mod_cast hn
  set W := ∑ k : Fin n, Grid.spiralWeight n nlat nlon (i, j) k with hW
  have hW0 : 0 < W := spiralWeight_sum_pos n nlat nlon hn _
  set ρ := spiralReach n m with hρ
  have hρ0 : 0 ≤ ρ := by rw [hρ, spiralReach]; positivity
  have hWl : exp (-(9 * n * ρ ^ 2 / (4 * π))) ≤ W := by
    obtain ⟨k, hk⟩ := spiral_near n m hn ((Grid.rect nlat nlon).lat (i, j)) ((Grid.rect nlat nlon).lon (i, j))
    refine le_trans ?_ (Finset.single_le_sum (f := fun k => Grid.spiralWeight n nlat nlon (i, j) k)
      (fun k _ => (spiralWeight_pos n nlat nlon (i, j) k).le) (Finset.mem_univ k))
    rw [displayWeight_eq n nlat nlon hn]
    apply exp_le_exp.mpr
    apply neg_le_neg
    have h3 := greatCircle_nonneg ((Grid.rect nlat nlon).lat (i, j)) ((Grid.rect nlat nlon).lon (i, j))
      ((Grid.spiral n).lat k) ((Grid.spiral n).lon k)
    have h4 := pow_le_pow_left₀ h3 hk 2
    calc n / (4 * π) * _ ≤ n / (4 * π) * (3 * ρ) ^ 2 := mul_le_mul_of_nonneg_left h4 (by positivity)
      _ = _ := by ring
  have hterm : ∀ k : Fin n, |Grid.spiralWeight n nlat nlon (i, j) k * (f k - c)| ≤
      Grid.spiralWeight n nlat nlon (i, j) k * δ + M * exp (-(36 * n * ρ ^ 2 / (4 * π))) := by
    intro k
    have hw := (spiralWeight_pos n nlat nlon (i, j) k).le
    rw [abs_mul, abs_of_nonneg hw]
    by_cases h : greatCircle ((Grid.rect nlat nlon).lat (i, j)) ((Grid.rect nlat nlon).lon (i, j)) ((Grid.spiral n).lat k)
      ((Grid.spiral n).lon k) ≤ 6 * ρ
    · have := mul_le_mul_of_nonneg_left (h1 k h) hw
      have h3 : 0 ≤ M * exp (-(36 * n * ρ ^ 2 / (4 * π))) := by positivity
      linarith
    · push Not at h
      have h3 : Grid.spiralWeight n nlat nlon (i, j) k ≤ exp (-(36 * n * ρ ^ 2 / (4 * π))) := by
        rw [displayWeight_eq n nlat nlon hn]
        apply exp_le_exp.mpr
        apply neg_le_neg
        have h4 := pow_le_pow_left₀ (by positivity) h.le 2
        calc 36 * n * ρ ^ 2 / (4 * π) = n / (4 * π) * (6 * ρ) ^ 2 := by ring
          _ ≤ _ := mul_le_mul_of_nonneg_left h4 (by positivity)
      have h4 := mul_le_mul h3 (h2 k) (abs_nonneg _) (exp_pos _).le
      have h5 : 0 ≤ Grid.spiralWeight n nlat nlon (i, j) k * δ := mul_nonneg hw hδ
      linarith
  have hsum : (∑ k : Fin n, Grid.spiralWeight n nlat nlon (i, j) k * f k) / W - c =
      (∑ k : Fin n, Grid.spiralWeight n nlat nlon (i, j) k * (f k - c)) / W := by
    have : ∑ k : Fin n, Grid.spiralWeight n nlat nlon (i, j) k * (f k - c) =
        ∑ k : Fin n, Grid.spiralWeight n nlat nlon (i, j) k * f k - W * c := by
      rw [hW, Finset.sum_mul, ← Finset.sum_sub_distrib]
      exact Finset.sum_congr rfl fun k _ => by ring
    rw [this]
    field_simp
  rw [hsum, abs_div, abs_of_pos hW0, div_le_iff₀ hW0]
  refine (Finset.abs_sum_le_sum_abs _ _).trans ((Finset.sum_le_sum fun k _ => hterm k).trans ?_)
  rw [Finset.sum_add_distrib, ← Finset.sum_mul, Finset.sum_const, Finset.card_univ, Fintype.card_fin, nsmul_eq_mul, ← hW]
  have he : exp (-(36 * n * ρ ^ 2 / (4 * π))) = exp (-(27 * n * ρ ^ 2 / (4 * π))) * exp (-(9 * n * ρ ^ 2 / (4 * π))) := by
    rw [← exp_add]; congr 1; ring
  rw [he]
  have := mul_le_mul_of_nonneg_left hWl (by positivity : 0 ≤ n * (M * exp (-(27 * n * ρ ^ 2 / (4 * π)))))
  calc W * δ + n * (M * (exp (-(27 * n * ρ ^ 2 / (4 * π))) * exp (-(9 * n * ρ ^ 2 / (4 * π)))))
      = W * δ + n * (M * exp (-(27 * n * ρ ^ 2 / (4 * π)))) * exp (-(9 * n * ρ ^ 2 / (4 * π))) := by ring
    _ ≤ W * δ + n * (M * exp (-(27 * n * ρ ^ 2 / (4 * π)))) * W := by linarith
    _ = _ := by ring

/-- **C115** Resampling a map on a spiral grid for display is accurate: the value shown at a pixel differs from any number `c`
by at most `δ + M·n·exp(-27 n ρ²/(4π))`, if the data within `6ρ` of the pixel are within `δ` of `c` and all data are
within `M` of it, where `ρ = π√(F/n) + 4π/F` for any Fibonacci number `F`.  In particular samples of a function `G` that changes
by at most `L` per radian are shown with an error of at most `L(6ρ + π·n·exp(-27 n ρ²/(4π)))`. -/
theorem C115_display_accuracy (n m nlat nlon : ℕ) (hn : 1 ≤ n) (f : Fin n → ℝ) :
    ∃ D, (Grid.spiral n).display nlat nlon (.one n f) = .ok D ∧ ∃ (e1 : D.n = nlon) (e2 : D.m = nlat),
      (∀ (i : Fin nlon) (j : Fin nlat) (c δ M : ℝ), 0 ≤ δ → 0 ≤ M →
        (∀ k, greatCircle ((Grid.rect nlat nlon).lat (i, j)) ((Grid.rect nlat nlon).lon (i, j)) ((Grid.spiral n).lat k)
          ((Grid.spiral n).lon k) ≤ 6 * (π * √(Nat.fib (m + 1) / n) + 4 * π / Nat.fib (m + 1)) → |f k - c| ≤ δ) →
        (∀ k, |f k - c| ≤ M) → |D.data (Fin.cast e1.symm i) (Fin.cast e2.symm j) - c| ≤
          δ + M * (n * exp (-(27 * n * (π * √(Nat.fib (m + 1) / n) + 4 * π / Nat.fib (m + 1)) ^ 2 / (4 * π))))) ∧
      ∀ (G : ℝ → ℝ → ℝ) (L : ℝ), 0 ≤ L → (∀ φ l φ' l', |G φ l - G φ' l'| ≤ L * greatCircle φ l φ' l') →
        (∀ k, f k = G ((Grid.spiral n).lat k) ((Grid.spiral n).lon k)) → ∀ (i : Fin nlon) (j : Fin nlat),
        |D.data (Fin.cast e1.symm i) (Fin.cast e2.symm j) -
            G ((Grid.rect nlat nlon).lat (i, j)) ((Grid.rect nlat nlon).lon (i, j))| ≤
          L * (6 * (π * √(Nat.fib (m + 1) / n) + 4 * π / Nat.fib (m + 1)) +
            π * (n * exp (-(27 * n * (π * √(Nat.fib (m + 1) / n) + 4 * π / Nat.fib (m + 1)) ^ 2 / (4 * π))))) := by
  have hp := pi_pos
  have hD : (Grid.spiral n).display nlat nlon (.one n f) = .ok ⟨Grid.latAxis nlat, Grid.lonAxis nlon,
      nlon, nlat, fun i j => (∑ k, Grid.spiralWeight n nlat nlon (i, j) k * f k) /
        ∑ k, Grid.spiralWeight n nlat nlon (i, j) k⟩ := by
    simp only [Grid.display, Grid.displaySpiral, dite_true]; rfl
  refine ⟨_, hD, rfl, rfl, ?_, ?_⟩
  · intro i j c δ M hδ hM h1 h2
    exact display_error n m nlat nlon hn f i j c δ M hδ hM h1 h2
  · intro G L hL hG hf i j
    have hρ0 : 0 ≤ spiralReach n m := by rw [spiralReach]; positivity
    have := display_error n m nlat nlon hn f i j (G ((Grid.rect nlat nlon).lat (i, j)) ((Grid.rect nlat nlon).lon (i, j)))
      (L * (6 * spiralReach n m)) (L * π) (by positivity) (by positivity) (by
        intro k hk
        rw [hf k]
        refine (hG _ _ _ _).trans (mul_le_mul_of_nonneg_left ?_ hL)
        rw [greatCircle_comm]; exact hk) (by
        intro k
        rw [hf k]
        exact (hG _ _ _ _).trans (mul_le_mul_of_nonneg_left (InnerProductGeometry.angle_le_pi _ _) hL))
    calc _ ≤ _ := this
      _ = _ := by rw [spiralReach]; ring

/-- **C115** (convergence) For every radius and tolerance all spiral grids of enough points show, at every pixel of every
rectangular grid, a value within the tolerance of the data around the pixel. -/
theorem C115_display_converges (r η M : ℝ) (hr : 0 < r) (hη : 0 < η) (hM : 0 ≤ M) :
    ∃ N, ∀ n ≥ N, ∀ (nlat nlon : ℕ) (f : Fin n → ℝ), ∃ D, (Grid.spiral n).display nlat nlon (.one n f) = .ok D ∧
      ∃ (e1 : D.n = nlon) (e2 : D.m = nlat), ∀ (i : Fin nlon) (j : Fin nlat) (c δ : ℝ), 0 ≤ δ →
        (∀ k, greatCircle ((Grid.rect nlat nlon).lat (i, j)) ((Grid.rect nlat nlon).lon (i, j)) ((Grid.spiral n).lat k)
          ((Grid.spiral n).lon k) ≤ r → |f k - c| ≤ δ) →
        (∀ k, |f k - c| ≤ M) → |D.data (Fin.cast e1.symm i) (Fin.cast e2.symm j) - c| ≤ δ + η := by
  have hp := pi_pos
  obtain ⟨m, N, hN⟩ := spiral_fine (r / 6) (by linarith)
  have hF : (0 : ℝ) < Nat.fib (m + 1) := by exact_mod_cast Nat.fib_pos.mpr (Nat.succ_pos m)
  set b : ℝ := 27 * (4 * π / Nat.fib (m + 1)) ^ 2 / (4 * π) with hb
  have hb0 : 0 < b := by positivity
  obtain ⟨N', hN'⟩ := exists_nat_gt (2 * (M / η) / b ^ 2)
  refine ⟨max N N' + 1, fun n hn nlat nlon f => ?_⟩
  have hnN : N ≤ n := (le_max_left N N').trans (by omega)
  have hn1 : 1 ≤ n := by omega
  have hn' : (0 : ℝ) < n := by exact_mod_cast hn1
  have hnN' : (N' : ℝ) ≤ n := by exact_mod_cast (le_max_right N N').trans (by omega)
  obtain ⟨D, hD, e1, e2, h1, -⟩ := C115_display_accuracy n m nlat nlon hn1 f
  refine ⟨D, hD, e1, e2, fun i j c δ hδ h2 h3 => ?_⟩
  refine (h1 i j c δ M hδ hM (fun k hk => h2 k (hk.trans ?_)) h3).trans ?_
  · have := (hN n hnN).1
    rw [spiralReach] at this
    linarith
  · have hx : b * n ≤ 27 * n * (π * √(Nat.fib (m + 1) / n) + 4 * π / Nat.fib (m + 1)) ^ 2 / (4 * π) := by
      have h4 : (4 * π / Nat.fib (m + 1)) ^ 2 ≤ (π * √(Nat.fib (m + 1) / n) + 4 * π / Nat.fib (m + 1)) ^ 2 := by
        refine pow_le_pow_left₀ (by positivity) ?_ 2
        have : 0 ≤ π * √((Nat.fib (m + 1) : ℝ) / n) := by positivity
        linarith
      calc b * n = 27 * n * (4 * π / Nat.fib (m + 1)) ^ 2 / (4 * π) := by rw [hb]; ring
        _ ≤ _ := by gcongr
    have hexp : exp (-(27 * n * (π * √(Nat.fib (m + 1) / n) + 4 * π / Nat.fib (m + 1)) ^ 2 / (4 * π))) ≤
        2 / (b * n) ^ 2 := by
      refine (exp_le_exp.mpr (neg_le_neg hx)).trans ?_
      have h5 := quadratic_le_exp_of_nonneg (by positivity : 0 ≤ b * n)
      rw [exp_neg, inv_le_comm₀ (exp_pos _) (by positivity), inv_div]
      have : 0 ≤ b * n := by positivity
      linarith
    have h6 : n * (2 / (b * n) ^ 2) = 2 / b ^ 2 / n := by field_simp
    have h7 : M * (n * exp (-(27 * n * (π * √(Nat.fib (m + 1) / n) + 4 * π / Nat.fib (m + 1)) ^ 2 / (4 * π)))) ≤ η := by
      calc M * (n * exp (-(27 * n * (π * √(Nat.fib (m + 1) / n) + 4 * π / Nat.fib (m + 1)) ^ 2 / (4 * π))))
          ≤ M * (2 / b ^ 2 / n) := by
            rw [← h6]
            exact mul_le_mul_of_nonneg_left (mul_le_mul_of_nonneg_left hexp hn'.le) hM
        _ = 2 * (M / η) / b ^ 2 / n * η := by field_simp
        _ ≤ 1 * η := by
            refine mul_le_mul_of_nonneg_right ?_ hη.le
            rw [div_le_one hn']
            linarith
        _ = η := one_mul η
    linarith

/-- Non-trivial instance of C115: the map `3000 + 100 sin(latitude)` is shown within 1 K on all spiral grids of enough points. -/
example : ∃ N, ∀ n ≥ N, ∀ nlat nlon : ℕ, ∃ D,
    (Grid.spiral n).display nlat nlon (.one n fun k => 3000 + 100 * sin ((Grid.spiral n).lat k)) = .ok D ∧
      ∃ (e1 : D.n = nlon) (e2 : D.m = nlat), ∀ (i : Fin nlon) (j : Fin nlat),
        |D.data (Fin.cast e1.symm i) (Fin.cast e2.symm j) - (3000 + 100 * sin ((Grid.rect nlat nlon).lat (i, j)))| ≤ 1 := by
  obtain ⟨N, hN⟩ := C115_display_converges (1 / 200) (1 / 2) 200 (by norm_num) (by norm_num) (by norm_num)
  refine ⟨N, fun n hn nlat nlon => ?_⟩
  obtain ⟨D, hD, e1, e2, h⟩ := hN n hn nlat nlon (fun k => 3000 + 100 * sin ((Grid.spiral n).lat k))
  refine ⟨D, hD, e1, e2, fun i j => ?_⟩
  have hz : ∀ a b c d : ℝ, |sin c - sin a| ≤ greatCircle a b c d := by
    intro a b c d
    have hs : ∀ x y : ℝ, cos (greatCircle (π / 2) 0 x y) = sin x := by
      intro x y
      rw [greatCircle_eq, cos_arccos (cosExpr_mem _ _ _ _).1 (cosExpr_mem _ _ _ _).2, sin_pi_div_two, cos_pi_div_two]
      ring
    have h1 := abs_mu_sub (π / 2) 0 c d a b
    rw [hs, hs, greatCircle_comm] at h1
    exact h1
  have := h i j (3000 + 100 * sin ((Grid.rect nlat nlon).lat (i, j))) (1 / 2) (by norm_num) (fun k hk => by
    rw [show (3000 + 100 * sin ((Grid.spiral n).lat k) - (3000 + 100 * sin ((Grid.rect nlat nlon).lat (i, j)))) =
      100 * (sin ((Grid.spiral n).lat k) - sin ((Grid.rect nlat nlon).lat (i, j))) by ring, abs_mul, abs_of_pos (by norm_num)]
    linarith [hz ((Grid.rect nlat nlon).lat (i, j)) ((Grid.rect nlat nlon).lon (i, j)) ((Grid.spiral n).lat k)
      ((Grid.spiral n).lon k)]) (fun k => by
    rw [abs_le]
    constructor <;> linarith [sin_le_one ((Grid.spiral n).lat k), neg_one_le_sin ((Grid.spiral n).lat k),
      sin_le_one ((Grid.rect nlat nlon).lat (i, j)), neg_one_le_sin ((Grid.rect nlat nlon).lat (i, j))])
  linarith

end Vsm
