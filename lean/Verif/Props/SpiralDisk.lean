import Verif.Props.StarCoverage

/-!
# The visible disk of a spiral grid (C71)
-/

namespace Vsm

open Real Spec

/-- The golden angle lies in the third quadrant. -/
theorem golden_angle : cos (2 * π / goldenRatio) < 0 ∧ sin (2 * π / goldenRatio) < 0 := by
  have h1 := one_lt_goldenRatio
  have h2 := goldenRatio_lt_two
  have hφ : (3 / 2 : ℝ) < goldenRatio := by
    unfold goldenRatio
    have : (2 : ℝ) < √5 := by
      rw [show (2 : ℝ) = √4 by rw [show (4 : ℝ) = 2 ^ 2 by norm_num, sqrt_sq (by norm_num)]]
      exact sqrt_lt_sqrt (by norm_num) (by norm_num)
    linarith
  have hπ := pi_pos
  have a1 : π < 2 * π / goldenRatio := by
    rw [lt_div_iff₀ (by linarith)]; nlinarith
  have a2 : 2 * π / goldenRatio < π + π / 2 := by
    rw [div_lt_iff₀ (by linarith)]; nlinarith
  have e : 2 * π / goldenRatio = (2 * π / goldenRatio - π) + π := by ring
  rw [e, cos_add_pi, sin_add_pi]
  exact ⟨neg_lt_zero.mpr (cos_pos_of_mem_Ioo ⟨by linarith, by linarith⟩),
    neg_lt_zero.mpr (sin_pos_of_pos_of_lt_pi (by linarith) (by linarith))⟩

/-- Among three successive turns by the golden angle one has a cosine of any given sign. -/
theorem golden_three (θ c : ℝ) (hc : c ≠ 0) : ∃ k ∈ ({0, 1, 2} : Finset ℕ), 0 < c * cos (θ - k * (2 * π / goldenRatio)) := by
  obtain ⟨h1, h2⟩ := golden_angle
  set a := 2 * π / goldenRatio
  by_contra hno
  push Not at hno
  have n0 := hno 0 (by simp)
  have n1 := hno 1 (by simp)
  have n2 := hno 2 (by simp)
  simp only [Nat.cast_zero, zero_mul, sub_zero, Nat.cast_one, one_mul, Nat.cast_ofNat] at n0 n1 n2
  have e0 : cos θ = cos (θ - a) * cos a - sin (θ - a) * sin a := by rw [← cos_add]; congr 1; ring
  have e2 : cos (θ - 2 * a) = cos (θ - a) * cos a + sin (θ - a) * sin a := by rw [← cos_sub]; congr 1; ring
  rw [e0] at n0
  rw [e2] at n2
  have hz : c * cos (θ - a) * cos a = 0 := by
    refine le_antisymm (by linarith) ?_
    exact mul_nonneg_of_nonpos_of_nonpos n1 h1.le
  have hcz : cos (θ - a) = 0 := by
    rcases mul_eq_zero.mp hz with h | h
    · exact (mul_eq_zero.mp h).resolve_left hc
    · exact absurd h h1.ne
  rw [hcz] at n0 n2
  have hs : c * (sin (θ - a) * sin a) = 0 := by linarith
  have hs0 : sin (θ - a) = 0 := by
    rcases mul_eq_zero.mp hs with h | h
    · exact absurd h hc
    · exact (mul_eq_zero.mp h).resolve_right h2.ne
  have := sin_sq_add_cos_sq (θ - a)
  rw [hcz, hs0] at this
  norm_num at this

/-- The cosine of the angle from the disk centre at a spiral point. -/
theorem spiral_mu {n : ℕ} (i : Fin n) (lat0 lon0 : ℝ) : (Grid.spiral n).mu lat0 lon0 i =
    sin lat0 * (1 - 2 * (((i : ℕ) : ℝ) + 0.5) / n) +
      cos ((Grid.spiral n).lat i) * (cos lat0 * cos (lon0 - (i : ℕ) * (2 * π / goldenRatio))) := by
  obtain ⟨k, hk⟩ := (C04_spiral_equal_area n).2.2.2.2.1 i
  rw [Grid.mu, Grid.cosAngle, sin_spiral_lat, hk]
  have : cos (lon0 - ((i : ℕ) * (2 * π / goldenRatio) + k * (2 * π))) = cos (lon0 - (i : ℕ) * (2 * π / goldenRatio)) := by
    rw [← sub_sub, cos_sub_int_mul_two_pi]
  rw [this]
  ring

/-- Seen from any direction, a spiral grid of at least five points has a point on the near side. -/
theorem spiral_visible (n : ℕ) (hn : 5 ≤ n) (lat0 lon0 : ℝ) :
    ∃ p : (Grid.spiral n).Pix, 0 < (Grid.spiral n).mu lat0 lon0 p := by
  have hn' : (5 : ℝ) ≤ n := by exact_mod_cast hn
  have hn0 : (0 : ℝ) < n := by linarith
  have hcos : ∀ i : Fin n, 0 < cos ((Grid.spiral n).lat i) := fun i =>
    cos_pos_of_mem_Ioo ((C04_spiral_equal_area n).2.1 i)
  by_cases hc : cos lat0 = 0
  · have hs : sin lat0 ^ 2 = 1 := by have := sin_sq_add_cos_sq lat0; rw [hc] at this; linarith
    have hfrac : (0 : ℝ) < 1 - 1 / n := by
      rw [sub_pos, div_lt_one hn0]; linarith
    rcases sq_eq_one_iff.mp hs with h | h
    · refine ⟨⟨0, by omega⟩, ?_⟩
      rw [spiral_mu, hc, h, zero_mul, mul_zero, add_zero, one_mul]
      have : (1 : ℝ) - 2 * (((0 : ℕ) : ℝ) + 0.5) / n = 1 - 1 / n := by norm_num
      simpa using hfrac.trans_eq this.symm
    · refine ⟨⟨n - 1, by omega⟩, ?_⟩
      rw [spiral_mu, hc, h, zero_mul, mul_zero, add_zero]
      have : -1 * ((1 : ℝ) - 2 * (((n - 1 : ℕ) : ℝ) + 0.5) / n) = 1 - 1 / n := by
        rw [Nat.cast_sub (by omega)]
        push_cast
        field_simp
        ring
      rw [this]
      exact hfrac
  · rcases le_or_gt 0 (sin lat0) with hs | hs
    · obtain ⟨k, hk, hpos⟩ := golden_three lon0 (cos lat0) hc
      have hk2 : k ≤ 2 := by simp at hk; omega
      have hkr : (k : ℝ) ≤ 2 := by exact_mod_cast hk2
      refine ⟨⟨k, by omega⟩, ?_⟩
      rw [spiral_mu]
      refine add_pos_of_nonneg_of_pos (mul_nonneg hs ?_) (mul_pos (hcos _) hpos)
      rw [sub_nonneg, div_le_one hn0]
      norm_num
      linarith
    · obtain ⟨k, hk, hpos⟩ := golden_three (lon0 - (n - 3 : ℕ) * (2 * π / goldenRatio)) (cos lat0) hc
      have hk2 : k ≤ 2 := by simp at hk; omega
      have hkr : (0 : ℝ) ≤ k := Nat.cast_nonneg k
      refine ⟨⟨n - 3 + k, by omega⟩, ?_⟩
      rw [spiral_mu]
      refine add_pos_of_nonneg_of_pos (mul_nonneg_of_nonpos_of_nonpos hs.le ?_) (mul_pos (hcos _) ?_)
      · rw [sub_nonpos, le_div_iff₀ hn0]
        simp only
        rw [Nat.cast_add, Nat.cast_sub (by omega)]
        push_cast
        norm_num
        linarith
      · have e : lon0 - ((n - 3 + k : ℕ) : ℝ) * (2 * π / goldenRatio) =
            lon0 - (n - 3 : ℕ) * (2 * π / goldenRatio) - k * (2 * π / goldenRatio) := by
          rw [Nat.cast_add]; ring
        rw [e]
        exact hpos

/-- **C71** For every spiral grid of at least five points (the default of `Star` has 1000), physical limb
darkening and every sub-observer point, the limb-darkened projected area of the disk – the divisor of all
coverage fractions – is a positive real number. -/
theorem C71_spiral_disk (s : Star) (n : ℕ) (hg : s.grid = .spiral n) (hn : 5 ≤ n) (hld : PhysicalLD s.u1 s.u2)
    (lat0 lon0 : ℝ) :
    (∃ p, 0 < s.grid.mu lat0 lon0 p) ∧ Visible s lat0 lon0 ∧
    ∃ (a : s.grid.Pix → ℝ) (W : ℝ), (∀ p, s.grid.area p = .fin (a p)) ∧
      ∑ p, s.weight lat0 lon0 p = .fin W ∧ 0 < W ∧
      W = ∑ p, quadraticLaw s.u1 s.u2 (s.grid.mu lat0 lon0 p) * (a p * max (s.grid.mu lat0 lon0 p) 0) := by
  have hgood : goodGrid s.grid := by rw [hg]; exact Nat.le_trans (by norm_num) hn
  have hex : ∃ p, 0 < s.grid.mu lat0 lon0 p := by rw [hg]; exact spiral_visible n hn lat0 lon0
  have hv : Visible s lat0 lon0 := by
    unfold Visible
    rw [hg]
    obtain ⟨p, hp⟩ := spiral_visible n hn lat0 lon0
    refine ⟨p, ?_, hp⟩
    rw [spiral_area_eq n (by omega), Ne, Fl.fin_inj]
    have : (0 : ℝ) < n := by exact_mod_cast (by omega : 0 < n)
    positivity
  obtain ⟨a, ha, -⟩ := C02_area_partition s.grid hgood
  exact ⟨hex, hv, a, _, ha, by simp only [weight_eq s a ha]; exact Fl.sum_fin _ _, (visible_pos s hgood hld ha hv).2, rfl⟩

/-- Too few points do not suffice: from behind, the only point of a one-point grid is not seen, and two points
can both be hidden at once. -/
theorem C71_one_point : (∀ p, (Grid.spiral 1).mu 0 π p < 0) ∧ ∃ lon0, ∀ p, (Grid.spiral 2).mu 0 lon0 p ≤ 0 := by
  constructor
  · intro p
    have : p = (⟨0, by norm_num⟩ : Fin 1) := Subsingleton.elim _ _
    subst this
    rw [spiral_mu]
    simp only [sin_zero, zero_mul, zero_add, Nat.cast_zero, sub_zero, cos_zero, one_mul, cos_pi]
    have := cos_pos_of_mem_Ioo ((C04_spiral_equal_area 1).2.1 ⟨0, by norm_num⟩)
    linarith
  · refine ⟨π / 2, ?_⟩
    intro p
    have hp := cos_pos_of_mem_Ioo ((C04_spiral_equal_area 2).2.1 p)
    rw [spiral_mu]
    simp only [sin_zero, zero_mul, zero_add, cos_zero, one_mul]
    refine mul_nonpos_of_nonneg_of_nonpos hp.le ?_
    rw [cos_pi_div_two_sub]
    fin_cases p
    · simp
    · simpa using golden_angle.2.le

/-- Non-trivial instance: a star on the default 1000-point grid, seen from its pole. -/
example : ∃ p, 0 < (sampleStar (.spiral 1000) [] []).grid.mu (π / 2) 0 p :=
  (C71_spiral_disk (sampleStar (.spiral 1000) [] []) 1000 rfl (by norm_num)
    ⟨by norm_num [sampleStar], by norm_num [sampleStar], by norm_num [sampleStar]⟩ (π / 2) 0).1

end Vsm
