import Verif.Props.Grid
import Mathlib.Analysis.SpecialFunctions.Integrals.Basic

/-!
# C91, C92: spacing and cell areas of rectangular grids
-/

noncomputable section

namespace Vsm

open Real Spec

/-! ## C91 -/

/-- **C91** `dlat` and `dlon` are the actual distances between neighbouring rows and columns of the grid:
`nlat − 1` steps lead from pole to pole, `nlon` steps once around, and the column after the last one is the
first again. -/
theorem C91_spacing (nlat nlon : ℕ) (hlat : 2 ≤ nlat) (hlon : 1 ≤ nlon) :
    ∃ dlat dlon : ℝ, Grid.dlatDeg nlat = .fin dlat ∧ Grid.dlonDeg nlon = .fin dlon ∧ 0 < dlat ∧ 0 < dlon ∧
      (∀ (i : Fin nlon) (j k : Fin nlat), (k : ℕ) = j + 1 →
        (Grid.rect nlat nlon).lat (i, k) - (Grid.rect nlat nlon).lat (i, j) = dlat * (π / 180)) ∧
      (∀ (i k : Fin nlon) (j : Fin nlat), (k : ℕ) = i + 1 →
        (Grid.rect nlat nlon).lon (k, j) - (Grid.rect nlat nlon).lon (i, j) = dlon * (π / 180)) ∧
      (∀ (i : Fin nlon) (j k : Fin nlat), (j : ℕ) = 0 → (k : ℕ) = nlat - 1 →
        (Grid.rect nlat nlon).lat (i, k) - (Grid.rect nlat nlon).lat (i, j) = π) ∧
      (∀ (i k : Fin nlon) (j : Fin nlat), (i : ℕ) = 0 → (k : ℕ) = nlon - 1 →
        (Grid.rect nlat nlon).lon (k, j) + dlon * (π / 180) - (Grid.rect nlat nlon).lon (i, j) = 2 * π) ∧
      ((nlat : ℝ) - 1) * dlat = 180 ∧ (nlon : ℝ) * dlon = 360 := by
  have hn : (0 : ℝ) < (nlat : ℝ) - 1 := by
    have : (2 : ℝ) ≤ nlat := by exact_mod_cast hlat
    linarith
  have hm : (0 : ℝ) < nlon := by exact_mod_cast hlon
  obtain ⟨-, -, h⟩ := C01_rect_layout nlat nlon hlat
  refine ⟨180 / (nlat - 1), 360 / nlon, ?_, ?_, by positivity, by positivity, ?_, ?_, ?_, ?_, ?_, ?_⟩
  · rw [Grid.dlatDeg, Fl.fin_div hn.ne']
  · rw [Grid.dlonDeg, Fl.fin_div hm.ne']
  · intro i j k hk
    rw [(h i k).1, (h i j).1, hk]
    push_cast
    field_simp
    ring
  · intro i k j hk
    rw [(h k j).2.1, (h i j).2.1, hk]
    push_cast
    field_simp
    ring
  · intro i j k hj hk
    rw [(h i k).1, (h i j).1, hk, hj, Nat.cast_sub (by omega)]
    push_cast
    field_simp
    ring
  · intro i k j hi hk
    rw [(h k j).2.1, (h i j).2.1, hk, hi, Nat.cast_sub (by omega)]
    push_cast
    field_simp
    ring
  · field_simp
  · field_simp

/-- Non-trivial instance of C91: a 19 × 36 grid is spaced by 10 degrees both ways. -/
example : Grid.dlatDeg 19 = .fin 10 ∧ Grid.dlonDeg 36 = .fin 10 ∧
    (Grid.rect 19 36).lat (3, 5) - (Grid.rect 19 36).lat (3, 4) = 10 * (π / 180) := by
  obtain ⟨a, b, h1, h2, -, -, h3, -, -, -, h4, h5⟩ := C91_spacing 19 36 (by norm_num) (by norm_num)
  have ha : a = 10 := by push_cast at h4; linarith
  have hb : b = 10 := by push_cast at h5; linarith
  subst ha hb
  exact ⟨h1, h2, h3 3 4 5 rfl⟩

/-! ## C92 -/

/-- The sum of the cosines of equally spaced angles. -/
theorem sum_cos_telescope (a δ : ℝ) (n : ℕ) : 2 * sin (δ / 2) * ∑ j : Fin n, cos (a + (j : ℕ) * δ) =
    sin (a + (n - 1 / 2) * δ) - sin (a - δ / 2) := by
  induction n with
  | zero => simp; ring_nf
  | succ n ih =>
    rw [Fin.sum_univ_castSucc, mul_add]
    simp only [Fin.val_castSucc, Fin.val_last]
    rw [ih]
    have h1 : a + ((n : ℝ) - 1 / 2) * δ = (a + n * δ) - δ / 2 := by ring
    have h2 : a + (((n + 1 : ℕ) : ℝ) - 1 / 2) * δ = (a + n * δ) + δ / 2 := by push_cast; ring
    rw [h1, h2, sin_add, sin_sub]
    ring

/-- **C92** The area given to a pixel of a rectangular grid is the solid angle of its latitude–longitude cell
divided by `4π cos(dlat/2)` – the same factor for every pixel; a pixel at a pole has area 0. -/
theorem C92_cell_area (nlat nlon : ℕ) (hlat : 3 ≤ nlat) (hlon : 1 ≤ nlon) (p : (Grid.rect nlat nlon).Pix)
    (δ ε : ℝ) (hδ : Grid.dlatDeg nlat = .fin (δ * (180 / π))) (hε : Grid.dlonDeg nlon = .fin (ε * (180 / π))) :
    ∃ a : ℝ, (Grid.rect nlat nlon).area p = .fin a ∧ 0 < cos (δ / 2) ∧
      (4 * π * cos (δ / 2) * a =
        ε * ∫ φ in ((Grid.rect nlat nlon).lat p - δ / 2)..((Grid.rect nlat nlon).lat p + δ / 2), cos φ) ∧
      ((p.2 : ℕ) = 0 ∨ (p.2 : ℕ) = nlat - 1 → a = 0) := by
  have hp := pi_pos
  have hn : (0 : ℝ) < (nlat : ℝ) - 1 := by
    have : (3 : ℝ) ≤ nlat := by exact_mod_cast hlat
    linarith
  have hn2 : (2 : ℝ) ≤ (nlat : ℝ) - 1 := by
    have : (3 : ℝ) ≤ nlat := by exact_mod_cast hlat
    linarith
  have hm : (0 : ℝ) < nlon := by exact_mod_cast hlon
  have hδ' : δ = π / (nlat - 1) := by
    rw [Grid.dlatDeg, Fl.fin_div hn.ne', Fl.fin_inj] at hδ
    field_simp at hδ ⊢
    linarith
  have hε' : ε = 2 * π / nlon := by
    rw [Grid.dlonDeg, Fl.fin_div hm.ne', Fl.fin_inj] at hε
    field_simp at hε ⊢
    linarith
  have hδ0 : 0 < δ := by rw [hδ']; positivity
  have hδ2 : δ ≤ π / 2 := by
    rw [hδ']
    exact div_le_div_of_nonneg_left hp.le (by norm_num) hn2
  have hs : 0 < sin (δ / 2) := sin_pos_of_pos_of_lt_pi (by linarith) (by linarith)
  have hc : 0 < cos (δ / 2) := cos_pos_of_mem_Ioo ⟨by linarith, by linarith⟩
  obtain ⟨-, -, h⟩ := C01_rect_layout nlat nlon (by omega)
  have hterm : ∀ q : (Grid.rect nlat nlon).Pix, sin ((Grid.rect nlat nlon).lat q + Grid.deg 90) =
      cos (-(π / 2) + (q.2 : ℕ) * δ) := by
    rintro ⟨i, j⟩
    rw [(h i j).1, hδ', show Grid.deg 90 = π / 2 by unfold Grid.deg; ring, sin_add_pi_div_two]
  have hsum : ∑ q : (Grid.rect nlat nlon).Pix, sin ((Grid.rect nlat nlon).lat q + Grid.deg 90) =
      nlon * (cos (δ / 2) / sin (δ / 2)) := by
    have h1 : ∑ q : (Grid.rect nlat nlon).Pix, sin ((Grid.rect nlat nlon).lat q + Grid.deg 90) =
        ∑ q : Fin nlon × Fin nlat, cos (-(π / 2) + (q.2 : ℕ) * δ) := Finset.sum_congr rfl fun q _ => hterm q
    rw [h1, Fintype.sum_prod_type]
    simp only [Finset.sum_const, Finset.card_univ, Fintype.card_fin, nsmul_eq_mul]
    congr 1
    have h2 := sum_cos_telescope (-(π / 2)) δ nlat
    have h3 : -(π / 2) + ((nlat : ℝ) - 1 / 2) * δ = (π / 2) + δ / 2 := by
      have : ((nlat : ℝ) - 1) * δ = π := by rw [hδ']; field_simp
      nlinarith
    rw [h3, sin_add, sin_sub, sin_neg, cos_neg, sin_pi_div_two, cos_pi_div_two] at h2
    rw [eq_div_iff hs.ne']
    linarith
  have hnorm : (0 : ℝ) < nlon * (cos (δ / 2) / sin (δ / 2)) := by positivity
  refine ⟨sin ((Grid.rect nlat nlon).lat p + Grid.deg 90) / (nlon * (cos (δ / 2) / sin (δ / 2))), ?_, hc, ?_, ?_⟩
  · change Fl.fin _ / ∑ q : (Grid.rect nlat nlon).Pix, Fl.fin (sin ((Grid.rect nlat nlon).lat q + Grid.deg 90)) = _
    rw [Fl.sum_fin, hsum, Fl.fin_div hnorm.ne']
  · rw [integral_cos, show Grid.deg 90 = π / 2 by unfold Grid.deg; ring, sin_add_pi_div_two, sin_add, sin_sub, hε']
    field_simp
    ring
  · obtain ⟨i, j⟩ := p
    intro hj
    rw [show Grid.deg 90 = π / 2 by unfold Grid.deg; ring, sin_add_pi_div_two]
    rcases hj with hj | hj
    · rw [(h i j).2.2.2.2.1.mpr hj, cos_neg, cos_pi_div_two, zero_div]
    · rw [(h i j).2.2.2.2.2.1.mpr hj, cos_pi_div_two, zero_div]

/-- Non-trivial instance of C92: on a 7 × 12 grid (30 degrees) a pixel on the equator. -/
example : ∃ a : ℝ, (Grid.rect 7 12).area (0, 3) = .fin a ∧ 0 < a := by
  have hp := pi_pos
  obtain ⟨a, h1, h2, h3, -⟩ := C92_cell_area 7 12 (by norm_num) (by norm_num) (0, 3) (π / 6) (π / 6)
    (by rw [Grid.dlatDeg, Fl.fin_div (by norm_num), Fl.fin_inj]; field_simp; norm_num)
    (by rw [Grid.dlonDeg, Fl.fin_div (by norm_num), Fl.fin_inj]; field_simp; norm_num)
  refine ⟨a, h1, ?_⟩
  have hl : (Grid.rect 7 12).lat (0, 3) = 0 := by
    rw [((C01_rect_layout 7 12 (by norm_num)).2.2 0 3).1]
    simp; ring
  rw [hl, integral_cos] at h3
  have hs : 0 < sin (π / 6 / 2) := sin_pos_of_pos_of_lt_pi (by linarith) (by linarith)
  have h4 : π / 6 * (sin (0 + π / 6 / 2) - sin (0 - π / 6 / 2)) = π / 3 * sin (π / 6 / 2) := by
    rw [zero_add, zero_sub, sin_neg]; ring
  rw [h4] at h3
  by_contra hc
  have : 4 * π * cos (π / 6 / 2) * a ≤ 0 := mul_nonpos_of_nonneg_of_nonpos (by positivity) (not_lt.mp hc)
  have : 0 < π / 3 * sin (π / 6 / 2) := by positivity
  linarith

end Vsm
