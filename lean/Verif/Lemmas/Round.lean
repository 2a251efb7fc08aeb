import Verif.Np
import Mathlib.Tactic.Linarith

/-! # Rounding half to even -/

namespace Vsm.Np

theorem abs_roundHalfEven_sub_le (x : ℝ) : |(roundHalfEven x : ℝ) - x| ≤ 1 / 2 := by
  have h0 := Int.fract_nonneg x
  have h1 := Int.fract_lt_one x
  have h2 := Int.floor_add_fract x
  rw [abs_le]
  unfold roundHalfEven
  split_ifs <;> push_cast <;> constructor <;> linarith

theorem roundHalfEven_int (n : ℤ) : roundHalfEven (n : ℝ) = n := by
  simp [roundHalfEven]

/-- Exactly half way between two integers the even one is chosen. -/
theorem roundHalfEven_half (n : ℤ) : roundHalfEven (n + 1 / 2 : ℝ) = if Even n then n else n + 1 := by
  have hf : Int.fract ((n : ℝ) + 1 / 2) = 1 / 2 := by
    rw [Int.fract_intCast_add]; exact Int.fract_eq_self.mpr (by norm_num)
  have hfl : ⌊(n : ℝ) + 1 / 2⌋ = n := by
    rw [Int.floor_intCast_add]; norm_num
  simp only [roundHalfEven, hf, hfl]
  norm_num

theorem roundHalfEven_mono : Monotone roundHalfEven := by
  intro x y hxy
  by_contra h
  push Not at h
  have hx := abs_le.mp (abs_roundHalfEven_sub_le x)
  have hy := abs_le.mp (abs_roundHalfEven_sub_le y)
  have h' : (roundHalfEven y : ℝ) + 1 ≤ roundHalfEven x := by exact_mod_cast h
  -- both are half way, hence equal
  have hxy' : x = y := by
    apply le_antisymm hxy
    linarith [hx.2, hy.1]
  rw [hxy'] at h
  exact lt_irrefl _ h

theorem roundHalfEven_unique {x : ℝ} {n : ℤ} (h : |(n : ℝ) - x| < 1 / 2) : roundHalfEven x = n := by
  have h1 := abs_le.mp (abs_roundHalfEven_sub_le x)
  have h2 := abs_lt.mp h
  have h3 : (roundHalfEven x : ℝ) < n + 1 := by linarith
  have h4 : (n : ℝ) < roundHalfEven x + 1 := by linarith
  have h5 : roundHalfEven x < n + 1 := by exact_mod_cast h3
  have h6 : n < roundHalfEven x + 1 := by exact_mod_cast h4
  omega

end Vsm.Np
