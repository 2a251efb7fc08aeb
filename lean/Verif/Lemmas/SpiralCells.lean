import Verif.Props.TransitAccuracy2
import Mathlib.Data.Nat.Fib.Basic

/-!
# Cells of a spiral grid

The points of a spiral grid are cut into blocks of `F` consecutive points, `F` a Fibonacci number.  The points of a block lie
in a zone between two parallels of latitude; as `1/φ` is within `1/F²` of a fraction with denominator `F`, their
longitudes are near those of `F` equally spaced meridians.  So each point gets a cell of the sphere of area `4π/n`.
-/

open Real MeasureTheory Vsm.Np Vsm.Spec

noncomputable section

namespace Vsm

theorem fib_le_golden_pow (m : ℕ) : (Nat.fib (m + 1) : ℝ) ≤ goldenRatio ^ (m + 1) := by
  rw [← goldenRatio_mul_fib_succ_add_fib]
  have h1 := one_lt_goldenRatio
  have h2 : (0 : ℝ) ≤ Nat.fib (m + 1) := by positivity
  have h3 : (0 : ℝ) ≤ Nat.fib m := by positivity
  nlinarith

/-- The inverse golden ratio is near a ratio of Fibonacci numbers. -/
theorem golden_approx (m : ℕ) : |1 / goldenRatio - Nat.fib m / Nat.fib (m + 1)| ≤ 1 / (Nat.fib (m + 1) : ℝ) ^ 2 := by
  have hF : (0 : ℝ) < Nat.fib (m + 1) := by exact_mod_cast Nat.fib_pos.mpr (Nat.succ_pos m)
  have hψ : goldenConj = -(1 / goldenRatio) := by rw [one_div, inv_goldenRatio, neg_neg]
  have h := goldenConj_mul_fib_succ_add_fib m
  have e : 1 / goldenRatio - Nat.fib m / Nat.fib (m + 1) = -goldenConj ^ (m + 1) / Nat.fib (m + 1) := by
    rw [← h, hψ]; field_simp; ring
  have hφ := goldenRatio_pos
  rw [e, abs_div, abs_neg, abs_pow, hψ, abs_neg, abs_of_pos (by positivity : 0 < 1 / goldenRatio), abs_of_pos hF, sq,
    ← div_div, div_le_div_iff_of_pos_right hF, one_div_pow]
  exact one_div_le_one_div_of_le hF (fib_le_golden_pow m)

/-- Angles with nearby sines are near each other. -/
theorem angle_of_sin {α β h : ℝ} (hα : α ∈ Set.Icc (-(π / 2)) (π / 2)) (hβ : β ∈ Set.Icc (-(π / 2)) (π / 2))
    (hh : |sin α - sin β| ≤ 2 * h) : |α - β| ≤ π * √h := by
  have hp := pi_pos
  wlog hle : β ≤ α generalizing α β
  · rw [abs_sub_comm]
    exact this hβ hα (by rwa [abs_sub_comm]) (le_of_not_ge hle)
  rw [abs_of_nonneg (by linarith)]
  set d := (α - β) / 2 with hd
  have hd0 : 0 ≤ d := by rw [hd]; linarith
  have hd1 : d ≤ π / 2 := by rw [hd]; linarith [hα.2, hβ.1]
  have h1 : 2 / π * d ≤ sin d := mul_le_sin hd0 hd1
  have h2 : sin d ≤ cos ((α + β) / 2) := by
    rw [← cos_pi_div_two_sub, ← cos_abs ((α + β) / 2)]
    refine cos_le_cos_of_nonneg_of_le_pi (abs_nonneg _) (by linarith) ?_
    rw [abs_le]; constructor <;> rw [hd] <;> linarith [hα.2, hβ.1, hα.1, hβ.2]
  have h3 : sin α - sin β = 2 * sin d * cos ((α + β) / 2) := by rw [hd]; exact sin_sub_sin α β
  have h4 : 0 ≤ sin d := (by positivity : 0 ≤ 2 / π * d).trans h1
  have h5 : (2 / π * d) ^ 2 ≤ h := by
    have := (abs_le.mp hh).2
    rw [h3] at this
    have h6 : sin d * sin d ≤ sin d * cos ((α + β) / 2) := mul_le_mul_of_nonneg_left h2 h4
    have h7 : (2 / π * d) ^ 2 ≤ sin d ^ 2 := pow_le_pow_left₀ (by positivity) h1 2
    rw [sq (sin d)] at h7
    linarith
  have h6 : 2 / π * d ≤ √h := le_sqrt_of_sq_le h5
  have : α - β = π * (2 / π * d) := by rw [hd]; field_simp
  rw [this]
  exact mul_le_mul_of_nonneg_left h6 hp.le

/-- Column of point `k` of a spiral grid cut into blocks of `fib (m+1)` points. -/
def spiralCol (m k : ℕ) : ℕ :=
  (k % Nat.fib (m + 1) * Nat.fib m + ⌊(Nat.fib (m + 1) : ℝ) * ((k / Nat.fib (m + 1) * Nat.fib (m + 1) : ℕ) / goldenRatio)⌋₊) %
    Nat.fib (m + 1)

/-- Cell of point `k` of a spiral grid of `n` points cut into blocks of `fib (m+1)` points; empty in an incomplete block. -/
def spiralCell (m n k : ℕ) : Set (ℝ × ℝ) :=
  if (k / Nat.fib (m + 1) + 1) * Nat.fib (m + 1) ≤ n then
    Set.Ioc (2 * π * spiralCol m k / Nat.fib (m + 1)) (2 * π * (spiralCol m k + 1) / Nat.fib (m + 1)) ×ˢ
      Set.Ioc (arcsin (1 - 2 * (((k / Nat.fib (m + 1) + 1) * Nat.fib (m + 1) : ℕ) : ℝ) / n))
        (arcsin (1 - 2 * ((k / Nat.fib (m + 1) * Nat.fib (m + 1) : ℕ) : ℝ) / n))
  else ∅

theorem spiralCell_measurable (m n k : ℕ) : MeasurableSet (spiralCell m n k) := by
  unfold spiralCell
  split_ifs
  · exact measurableSet_Ioc.prod measurableSet_Ioc
  · exact MeasurableSet.empty

theorem rowM_zone {z z' : ℝ} (h0 : -1 ≤ z) (h1 : z ≤ z') (h2 : z' ≤ 1) :
    rowM (Set.Ioc (arcsin z) (arcsin z')) = ENNReal.ofReal (z' - z) := by
  have h3 : Set.Ioc (arcsin z) (arcsin z') ∩ Set.Ioc (-(π / 2)) (π / 2) = Set.Ioc (arcsin z) (arcsin z') := by
    refine Set.inter_eq_left.mpr fun x hx => ⟨?_, ?_⟩
    · exact (neg_pi_div_two_le_arcsin z).trans_lt hx.1
    · exact hx.2.trans (arcsin_le_pi_div_two z')
  rw [rowM_apply measurableSet_Ioc, h3, ← intervalIntegral.integral_of_le (monotone_arcsin h1), integral_cos,
    sin_arcsin (h0.trans h1) h2, sin_arcsin h0 (h1.trans h2)]

theorem spiralCell_area (m n k : ℕ) (hn : 1 ≤ n) (hk : (k / Nat.fib (m + 1) + 1) * Nat.fib (m + 1) ≤ n) :
    (sphM 0).real (spiralCell m n k) = 4 * π / n := by
  have hp := pi_pos
  have hF0 : 0 < Nat.fib (m + 1) := Nat.fib_pos.mpr (Nat.succ_pos m)
  have hF : (0 : ℝ) < Nat.fib (m + 1) := by exact_mod_cast hF0
  have hn' : (0 : ℝ) < n := by exact_mod_cast hn
  rw [spiralCell, if_pos hk, measureReal_def, sphM, Measure.prod_prod]
  have hcol : spiralCol m k + 1 ≤ Nat.fib (m + 1) := Nat.mod_lt _ hF0
  have hcol' : (spiralCol m k : ℝ) + 1 ≤ Nat.fib (m + 1) := by exact_mod_cast hcol
  have h1 : volume.restrict (Set.Ioc 0 (0 + 2 * π)) (Set.Ioc (2 * π * spiralCol m k / Nat.fib (m + 1))
      (2 * π * (spiralCol m k + 1) / Nat.fib (m + 1))) = ENNReal.ofReal (2 * π / Nat.fib (m + 1)) := by
    rw [Measure.restrict_apply measurableSet_Ioc, Set.inter_eq_left.mpr, Real.volume_Ioc]
    · congr 1; ring
    · refine Set.Ioc_subset_Ioc (by positivity) ?_
      rw [zero_add, div_le_iff₀ hF]
      exact mul_le_mul_of_nonneg_left hcol' (by positivity)
  set b := k / Nat.fib (m + 1)
  have hk' : (((b + 1) * Nat.fib (m + 1) : ℕ) : ℝ) ≤ n := by exact_mod_cast hk
  have hbb : ((b * Nat.fib (m + 1) : ℕ) : ℝ) ≤ (((b + 1) * Nat.fib (m + 1) : ℕ) : ℝ) := by
    exact_mod_cast Nat.mul_le_mul_right _ (Nat.le_succ b)
  rw [h1, rowM_zone]
  · rw [ENNReal.toReal_mul, ENNReal.toReal_ofReal (by positivity), ENNReal.toReal_ofReal]
    · push_cast; field_simp; ring
    · rw [sub_sub_sub_cancel_left, sub_nonneg]; gcongr
  · rw [le_sub_iff_add_le, neg_add_le_iff_le_add, div_le_iff₀ hn']; linarith
  · gcongr
  · rw [sub_le_self_iff]; positivity

theorem spiralCol_inj (m : ℕ) {k k' : ℕ} (hb : k / Nat.fib (m + 1) = k' / Nat.fib (m + 1)) (hc : spiralCol m k = spiralCol m k') :
    k = k' := by
  unfold spiralCol at hc
  rw [hb] at hc
  have h1 : k % Nat.fib (m + 1) * Nat.fib m ≡ k' % Nat.fib (m + 1) * Nat.fib m [MOD Nat.fib (m + 1)] :=
    Nat.ModEq.add_right_cancel' _ hc
  have h2 := Nat.ModEq.cancel_right_of_coprime (Nat.fib_coprime_fib_succ m).symm h1
  have h3 : k % Nat.fib (m + 1) = k' % Nat.fib (m + 1) := by
    have := h2
    rw [Nat.ModEq, Nat.mod_mod, Nat.mod_mod] at this
    exact this
  rw [← Nat.div_add_mod k (Nat.fib (m + 1)), ← Nat.div_add_mod k' (Nat.fib (m + 1)), hb, h3]

theorem spiralCell_disjoint_row (m n k k' : ℕ) (h : k / Nat.fib (m + 1) < k' / Nat.fib (m + 1)) :
    Disjoint (spiralCell m n k) (spiralCell m n k') := by
  unfold spiralCell
  split_ifs
  · refine Set.disjoint_left.mpr fun x hx hx' => ?_
    have h1 := hx.2.1
    have h2 := hx'.2.2
    have : arcsin (1 - 2 * ((k' / Nat.fib (m + 1) * Nat.fib (m + 1) : ℕ) : ℝ) / n) ≤
        arcsin (1 - 2 * (((k / Nat.fib (m + 1) + 1) * Nat.fib (m + 1) : ℕ) : ℝ) / n) := by
      refine monotone_arcsin ?_
      have : (((k / Nat.fib (m + 1) + 1) * Nat.fib (m + 1) : ℕ) : ℝ) ≤ ((k' / Nat.fib (m + 1) * Nat.fib (m + 1) : ℕ) : ℝ) := by
        exact_mod_cast Nat.mul_le_mul_right _ h
      gcongr
    linarith
  all_goals simp

theorem spiralCell_disjoint (m n : ℕ) : Pairwise fun k k' : Fin n => Disjoint (spiralCell m n k) (spiralCell m n k') := by
  have hF0 : 0 < Nat.fib (m + 1) := Nat.fib_pos.mpr (Nat.succ_pos m)
  have hF : (0 : ℝ) < Nat.fib (m + 1) := by exact_mod_cast hF0
  have hp := pi_pos
  intro k k' hne
  rcases lt_trichotomy ((k : ℕ) / Nat.fib (m + 1)) ((k' : ℕ) / Nat.fib (m + 1)) with h | h | h
  · exact spiralCell_disjoint_row m n k k' h
  · have hcol : spiralCol m k ≠ spiralCol m k' := fun e => hne (Fin.ext (spiralCol_inj m h e))
    have col : ∀ a b : ℕ, spiralCol m a < spiralCol m b → Disjoint (spiralCell m n a) (spiralCell m n b) := by
      intro a b hab
      unfold spiralCell
      split_ifs
      · refine Set.disjoint_left.mpr fun x hx hx' => ?_
        have h1 := hx.1.2
        have h2 := hx'.1.1
        have : 2 * π * ((spiralCol m a : ℝ) + 1) / Nat.fib (m + 1) ≤ 2 * π * spiralCol m b / Nat.fib (m + 1) := by
          have : (spiralCol m a : ℝ) + 1 ≤ spiralCol m b := by exact_mod_cast hab
          gcongr
        linarith
      all_goals simp
    rcases hcol.lt_or_gt with h' | h'
    · exact col _ _ h'
    · exact (col _ _ h').symm
  · exact (spiralCell_disjoint_row m n k' k h).symm

/-- Points of a cell are near in longitude. -/
theorem spiralCell_lon (m n : ℕ) (k : Fin n) (x : ℝ × ℝ) (hx : x ∈ spiralCell m n k) :
    ∃ t : ℤ, |x.1 - ((Grid.spiral n).lon k + t * (2 * π))| ≤ 4 * π / Nat.fib (m + 1) := by
  have hF0 : 0 < Nat.fib (m + 1) := Nat.fib_pos.mpr (Nat.succ_pos m)
  have hF : (0 : ℝ) < Nat.fib (m + 1) := by exact_mod_cast hF0
  have hp := pi_pos
  obtain ⟨t₀, ht₀⟩ := (C04_spiral_equal_area n).2.2.2.2.1 k
  unfold spiralCell at hx
  split_ifs at hx with hk
  swap
  · exact absurd hx (Set.notMem_empty _)
  obtain ⟨⟨h1, h2⟩, -⟩ := hx
  set F : ℝ := ((Nat.fib (m + 1) : ℕ) : ℝ) with hFdef
  set F' : ℝ := ((Nat.fib m : ℕ) : ℝ) with hF'def
  set b := (k : ℕ) / Nat.fib (m + 1) with hb
  set i := (k : ℕ) % Nat.fib (m + 1) with hi
  have hkk : ((k : ℕ) : ℝ) = (b * Nat.fib (m + 1) : ℕ) + (i : ℝ) := by
    have := Nat.div_add_mod (k : ℕ) (Nat.fib (m + 1))
    rw [mul_comm] at this
    exact_mod_cast this.symm
  set B : ℝ := ((b * Nat.fib (m + 1) : ℕ) : ℝ) with hB
  have hB0 : 0 ≤ B := by rw [hB]; positivity
  have hφ := goldenRatio_pos
  set c := ⌊F * (B / goldenRatio)⌋₊ with hc
  have hc1 : (c : ℝ) ≤ F * (B / goldenRatio) := Nat.floor_le (by positivity)
  have hc2 : F * (B / goldenRatio) < c + 1 := Nat.lt_floor_add_one _
  set j := spiralCol m k with hj
  -- the column differs from `i F' + c` by a multiple of `F`
  set u := (i * Nat.fib m + c) / Nat.fib (m + 1) with hu
  have hcolu : (i : ℝ) * F' + c = j + u * F := by
    have := Nat.div_add_mod (i * Nat.fib m + c) (Nat.fib (m + 1))
    have e : (i * Nat.fib m + c) % Nat.fib (m + 1) = j := rfl
    rw [e, ← hu] at this
    have h3 : ((Nat.fib (m + 1) * u + j : ℕ) : ℝ) = ((i * Nat.fib m + c : ℕ) : ℝ) := by exact_mod_cast this
    push_cast at h3
    rw [← hFdef, ← hF'def] at h3
    linarith
  have hε := golden_approx m
  rw [← hFdef, ← hF'def] at hε
  have hi1 : (i : ℝ) ≤ F := by
    have : i < Nat.fib (m + 1) := Nat.mod_lt _ hF0
    rw [hFdef]; exact_mod_cast this.le
  have hi0 : (0 : ℝ) ≤ i := by positivity
  -- F times (i / φ) is near i F'
  have h3 : |F * (i / goldenRatio) - i * F'| ≤ 1 := by
    have e : F * (i / goldenRatio) - i * F' = i * F * (1 / goldenRatio - F' / F) := by field_simp
    rw [e, abs_mul, abs_of_nonneg (by positivity)]
    calc i * F * |1 / goldenRatio - F' / F| ≤ F * F * (1 / F ^ 2) := by gcongr
      _ = 1 := by field_simp
  obtain ⟨h4, h5⟩ := abs_le.mp h3
  refine ⟨-t₀ - u, ?_⟩
  have e1 : x.1 - ((Grid.spiral n).lon k + ((-t₀ - u : ℤ) : ℝ) * (2 * π)) =
      x.1 - 2 * π * (F * (i / goldenRatio) + F * (B / goldenRatio) - u * F) / F := by
    rw [ht₀, hkk]; push_cast; field_simp; ring
  push_cast at e1 ⊢
  rw [e1]
  have e2 : 2 * π * (j + 1) / F = 2 * π * j / F + 2 * π / F := by ring
  have e3 : 2 * π * (F * (i / goldenRatio) + F * (B / goldenRatio) - u * F) / F - 2 * π * j / F =
      2 * π / F * ((F * (i / goldenRatio) - i * F') + (F * (B / goldenRatio) - c)) := by
    have : (j : ℝ) = i * F' + c - u * F := by linarith
    rw [this]; ring
  have hq : 0 < 2 * π / F := by positivity
  have h6 : 2 * π / F * ((F * (i / goldenRatio) - i * F') + (F * (B / goldenRatio) - c)) ≤ 2 * π / F * 2 :=
    mul_le_mul_of_nonneg_left (by linarith) hq.le
  have h7 : 2 * π / F * (-1) ≤ 2 * π / F * ((F * (i / goldenRatio) - i * F') + (F * (B / goldenRatio) - c)) :=
    mul_le_mul_of_nonneg_left (by linarith) hq.le
  have e4 : 4 * π / F = 2 * π / F * 2 := by ring
  rw [e4]
  rw [e2] at h2
  rw [abs_le]
  constructor <;> linarith

theorem greatCircle_turns (a b φ l : ℝ) (t : ℤ) : greatCircle a b φ (l + t * (2 * π)) = greatCircle a b φ l := by
  rw [greatCircle_eq, greatCircle_eq, ← sub_sub, cos_sub_int_mul_two_pi]

/-- Distance within which the points of a cell lie from the grid point. -/
def Spec.spiralReach (n m : ℕ) : ℝ := π * √(Nat.fib (m + 1) / n) + 4 * π / Nat.fib (m + 1)

/-- Points of a cell are near the grid point. -/
theorem spiralCell_near (m n : ℕ) (k : Fin n) (x : ℝ × ℝ) (hx : x ∈ spiralCell m n k) :
    greatCircle x.2 x.1 ((Grid.spiral n).lat k) ((Grid.spiral n).lon k) ≤ spiralReach n m := by
  have hF0 : 0 < Nat.fib (m + 1) := Nat.fib_pos.mpr (Nat.succ_pos m)
  have hF : (0 : ℝ) < Nat.fib (m + 1) := by exact_mod_cast hF0
  have hp := pi_pos
  have hn : (0 : ℝ) < n := by have := k.2; exact_mod_cast (by omega : 0 < n)
  obtain ⟨t, ht⟩ := spiralCell_lon m n k x hx
  unfold spiralReach
  by_cases hbig : π < 4 * π / Nat.fib (m + 1)
  · have h1 : greatCircle x.2 x.1 ((Grid.spiral n).lat k) ((Grid.spiral n).lon k) ≤ π := InnerProductGeometry.angle_le_pi _ _
    have : 0 ≤ π * √(Nat.fib (m + 1) / n) := by positivity
    linarith
  rw [not_lt] at hbig
  unfold spiralCell at hx
  split_ifs at hx with hk
  swap
  · exact absurd hx (Set.notMem_empty _)
  obtain ⟨-, h1, h2⟩ := hx
  have hx2 : x.2 ∈ Set.Icc (-(π / 2)) (π / 2) :=
    ⟨((neg_pi_div_two_le_arcsin _).trans_lt h1).le, h2.trans (arcsin_le_pi_div_two _)⟩
  have hlat := (C04_spiral_equal_area n).2.1 k
  have hlat' : (Grid.spiral n).lat k ∈ Set.Icc (-(π / 2)) (π / 2) := ⟨hlat.1.le, hlat.2.le⟩
  have hk' : ((((k : ℕ) / Nat.fib (m + 1) + 1) * Nat.fib (m + 1) : ℕ) : ℝ) ≤ n := by exact_mod_cast hk
  have hlow : (((k : ℕ) / Nat.fib (m + 1) * Nat.fib (m + 1) : ℕ) : ℝ) ≤ (k : ℕ) := by
    exact_mod_cast Nat.div_mul_le_self _ _
  have hup : ((k : ℕ) : ℝ) + 1 ≤ ((((k : ℕ) / Nat.fib (m + 1) + 1) * Nat.fib (m + 1) : ℕ) : ℝ) := by
    have := Nat.lt_div_mul_add (a := (k : ℕ)) hF0
    have h3 : (k : ℕ) + 1 ≤ ((k : ℕ) / Nat.fib (m + 1) + 1) * Nat.fib (m + 1) := by rw [add_mul, one_mul]; omega
    exact_mod_cast h3
  have hwid : ((((k : ℕ) / Nat.fib (m + 1) + 1) * Nat.fib (m + 1) : ℕ) : ℝ) =
      (((k : ℕ) / Nat.fib (m + 1) * Nat.fib (m + 1) : ℕ) : ℝ) + Nat.fib (m + 1) := by push_cast; ring
  set b0 : ℝ := (((k : ℕ) / Nat.fib (m + 1) * Nat.fib (m + 1) : ℕ) : ℝ) with hb0
  have hb00 : 0 ≤ b0 := by rw [hb0]; positivity
  have hs1 : 1 - 2 * (b0 + Nat.fib (m + 1)) / n ≤ sin x.2 := by
    rw [hwid] at h1 hk'
    have := (strictMonoOn_sin.monotoneOn) (arcsin_mem_Icc _) hx2 h1.le
    rwa [sin_arcsin] at this
    · rw [le_sub_iff_add_le, neg_add_le_iff_le_add, div_le_iff₀ hn]; linarith
    · rw [sub_le_self_iff]; positivity
  have hs2 : sin x.2 ≤ 1 - 2 * b0 / n := by
    have := (strictMonoOn_sin.monotoneOn) hx2 (arcsin_mem_Icc _) h2
    rwa [sin_arcsin] at this
    · rw [le_sub_iff_add_le, neg_add_le_iff_le_add, div_le_iff₀ hn]; linarith
    · rw [sub_le_self_iff]; positivity
  have hd : |sin x.2 - sin ((Grid.spiral n).lat k)| ≤ 2 * (Nat.fib (m + 1) / n) := by
    rw [sin_spiral_lat]
    have hz1 : 1 - 2 * (((k : ℕ) : ℝ) + 0.5) / n ≤ 1 - 2 * b0 / n := by gcongr; linarith
    have hz2 : 1 - 2 * (b0 + Nat.fib (m + 1)) / n ≤ 1 - 2 * (((k : ℕ) : ℝ) + 0.5) / n := by
      have : ((k : ℕ) : ℝ) + 0.5 ≤ b0 + Nat.fib (m + 1) := by rw [← hwid]; linarith
      have h3 : 2 * (((k : ℕ) : ℝ) + 0.5) / n ≤ 2 * (b0 + Nat.fib (m + 1)) / n := by
        rw [div_le_div_iff_of_pos_right hn]; linarith
      linarith
    have e : 1 - 2 * (b0 + (Nat.fib (m + 1) : ℝ)) / n = 1 - 2 * b0 / n - 2 * (Nat.fib (m + 1) / n) := by ring
    rw [e] at hs1 hz2
    rw [abs_le]; constructor <;> linarith
  have hlat2 := angle_of_sin hx2 hlat' hd
  rw [← greatCircle_turns _ _ _ _ t]
  refine (greatCircle_le_add _ _ _ _ ?_ (ht.trans hbig)).trans (add_le_add hlat2 ht)
  rw [abs_le]; constructor <;> linarith [hx2.1, hx2.2, hlat.1, hlat.2]

/-- Pixel values of a spiral grid against the integral of a function. -/
theorem spiral_sum (n m : ℕ) (hn : 1 ≤ n) (g : ℝ → ℝ → ℝ) (hg : Measurable fun x : ℝ × ℝ => g x.2 x.1)
    (hper : ∀ φ l, g φ (l + 2 * π) = g φ l) (M : ℝ) (hM : ∀ φ l, |g φ l| ≤ M) (e : ℝ × ℝ → ℝ)
    (he : Integrable e (sphM 0)) (he0 : ∀ x, 0 ≤ e x) (v : (Grid.spiral n).Pix → ℝ) (hvM : ∀ p, |v p| ≤ M)
    (hv : ∀ p, ∀ x : ℝ × ℝ, greatCircle x.2 x.1 ((Grid.spiral n).lat p) ((Grid.spiral n).lon p) ≤ spiralReach n m →
      |v p - g x.2 x.1| ≤ e x) :
    |4 * π * ∑ p, 1 / (n : ℝ) * v p - sphereInt g| ≤ ∫ x, e x ∂sphM 0 + 4 * π * M * (2 * Nat.fib (m + 1) / n) := by
  classical
  have hF0 : 0 < Nat.fib (m + 1) := Nat.fib_pos.mpr (Nat.succ_pos m)
  have hp := pi_pos
  have hn' : (0 : ℝ) < n := by exact_mod_cast hn
  have hM0 : 0 ≤ M := (abs_nonneg _).trans (hM 0 0)
  have hgi := sphM_integrable 0 _ hg M (fun x => hM _ _)
  have key := cell_sum (sphM 0) (fun k : Fin n => spiralCell m n k) (fun k => spiralCell_measurable m n k) (spiralCell_disjoint m n)
    (fun x => g x.2 x.1) e hgi he he0 v (fun p x hx => hv p x (spiralCell_near m n p x hx)) M (fun x => hM _ _)
  rw [sphM_sphereInt _ g hgi hper, sphM_real_univ] at key
  set S : Finset (Fin n) := Finset.univ.filter fun k => ((k : ℕ) / Nat.fib (m + 1) + 1) * Nat.fib (m + 1) ≤ n with hS
  have harea : ∀ k : Fin n, (sphM 0).real (spiralCell m n k) = if k ∈ S then 4 * π / n else 0 := by
    intro k
    by_cases hk : ((k : ℕ) / Nat.fib (m + 1) + 1) * Nat.fib (m + 1) ≤ n
    · rw [if_pos (by simp [hS, hk]), spiralCell_area m n k hn hk]
    · rw [if_neg (by simp [hS, hk]), spiralCell, if_neg hk, measureReal_empty]
  simp only [harea] at key
  -- few points are in the incomplete block
  have hcard : ((Finset.univ \ S).card : ℝ) ≤ Nat.fib (m + 1) := by
    have : (Finset.univ \ S).card ≤ Nat.fib (m + 1) := by
      have hsub : (Finset.univ \ S).map Fin.valEmbedding ⊆ Finset.Ico (n / Nat.fib (m + 1) * Nat.fib (m + 1))
          (n / Nat.fib (m + 1) * Nat.fib (m + 1) + Nat.fib (m + 1)) := by
        intro a ha
        simp only [Finset.mem_map, Finset.mem_sdiff, Finset.mem_univ, true_and, hS, Finset.mem_filter, not_le,
          Fin.valEmbedding_apply] at ha
        obtain ⟨k, hk, rfl⟩ := ha
        have h1 : n / Nat.fib (m + 1) ≤ (k : ℕ) / Nat.fib (m + 1) := by
          have := (Nat.div_lt_iff_lt_mul hF0).mpr hk
          omega
        have h2 := Nat.div_mul_le_self (k : ℕ) (Nat.fib (m + 1))
        have h3 := Nat.mul_le_mul_right (Nat.fib (m + 1)) h1
        have h4 := Nat.lt_div_mul_add (a := n) hF0
        have h5 := k.2
        rw [Finset.mem_Ico]
        constructor
        · exact h3.trans h2
        · exact h5.trans h4
      have := Finset.card_le_card hsub
      rwa [Finset.card_map, Nat.card_Ico, Nat.add_sub_cancel_left] at this
    exact_mod_cast this
  have hsplit : ∑ k : Fin n, (if k ∈ S then 4 * π / (n : ℝ) else 0) * v k =
      4 * π * ∑ p, 1 / (n : ℝ) * v p - 4 * π / n * ∑ k ∈ Finset.univ \ S, v k := by
    simp only [ite_mul, zero_mul]
    rw [Finset.sum_ite_mem, Finset.univ_inter, ← Finset.mul_sum, ← Finset.mul_sum, ← Finset.sum_sdiff (Finset.subset_univ S)]
    ring
  have htot : ∑ k : Fin n, (if k ∈ S then 4 * π / (n : ℝ) else 0) = 4 * π - 4 * π / n * (Finset.univ \ S).card := by
    rw [Finset.sum_ite_mem, Finset.univ_inter, Finset.sum_const, nsmul_eq_mul]
    have h1 := Finset.card_sdiff_add_card_eq_card (Finset.subset_univ S)
    rw [Finset.card_univ, Fintype.card_fin] at h1
    have h2 : ((Finset.univ \ S).card : ℝ) + S.card = n := by exact_mod_cast h1
    have h3 : (S.card : ℝ) = n - (Finset.univ \ S).card := by linarith
    rw [h3]; field_simp
  rw [hsplit, htot] at key
  have hrest : |∑ k ∈ Finset.univ \ S, v k| ≤ (Finset.univ \ S).card * M := by
    refine (Finset.abs_sum_le_sum_abs _ _).trans ((Finset.sum_le_card_nsmul _ _ M fun k _ => hvM k).trans (le_of_eq ?_))
    rw [nsmul_eq_mul]
  set r : ℝ := ∑ k ∈ Finset.univ \ S, v k
  set N : ℝ := ((Finset.univ \ S).card : ℝ)
  have h1 : 4 * π / n * |r| ≤ 4 * π / n * (N * M) := mul_le_mul_of_nonneg_left hrest (by positivity)
  have h2 : 4 * π / n * (N * M) ≤ 4 * π / n * (Nat.fib (m + 1) * M) := by gcongr
  have h3 : 4 * π * M * (2 * (Nat.fib (m + 1) : ℝ) / n) = 2 * (4 * π / n * (Nat.fib (m + 1) * M)) := by ring
  have h4 : M * (4 * π - (4 * π - 4 * π / n * N)) = 4 * π / n * (N * M) := by ring
  rw [h4] at key
  rw [h3]
  have h5 : |4 * π / n * r| = 4 * π / n * |r| := by rw [abs_mul, abs_of_pos (by positivity)]
  have e1 : 4 * π * ∑ p, 1 / (n : ℝ) * v p - sphereInt g =
      (4 * π * ∑ p, 1 / (n : ℝ) * v p - 4 * π / n * r - sphereInt g) + 4 * π / n * r := by ring
  rw [e1]
  refine (abs_add_le _ _).trans ?_
  rw [h5]
  linarith

end Vsm
