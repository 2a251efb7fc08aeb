import Verif.Lemmas.Sphere
import Mathlib.Algebra.Order.BigOperators.Ring.Finset
import Mathlib.Data.Fintype.BigOperators
import Mathlib.Data.Fintype.Fin

/-!
# C01 – C08: coordinate grids
-/

noncomputable section

namespace Vsm

open Real Spec

/-! ## C01 -/

/-- **C01** The arrays of a rectangular grid have shape `(nlon, nlat)`; entry `(i,j)` carries the `j`-th of
`nlat` equally spaced latitudes from -90° to 90° inclusive and the `i`-th of `nlon` equally spaced
longitudes from 0 to below 360°. -/
theorem C01_rect_layout (nlat nlon : ℕ) (hlat : 2 ≤ nlat) :
    (Grid.rect nlat nlon).shape = [nlon, nlat] ∧
    Fintype.card (Grid.rect nlat nlon).Pix = nlon * nlat ∧
    ∀ (i : Fin nlon) (j : Fin nlat),
      (Grid.rect nlat nlon).lat (i, j) = -(π / 2) + (j : ℕ) * (π / (nlat - 1)) ∧
      (Grid.rect nlat nlon).lon (i, j) = (i : ℕ) * (2 * π / nlon) ∧
      (Grid.rect nlat nlon).lat (i, j) ∈ Set.Icc (-(π / 2)) (π / 2) ∧
      (Grid.rect nlat nlon).lon (i, j) ∈ Set.Ico 0 (2 * π) ∧
      ((Grid.rect nlat nlon).lat (i, j) = -(π / 2) ↔ (j : ℕ) = 0) ∧
      ((Grid.rect nlat nlon).lat (i, j) = π / 2 ↔ (j : ℕ) = nlat - 1) ∧
      (Grid.rect nlat nlon).zeros (i, j) = 0 := by
  refine ⟨rfl, by simp [Grid.Pix], fun i j => ?_⟩
  have hn : (0 : ℝ) < (nlat : ℝ) - 1 := by
    have : (2 : ℝ) ≤ nlat := by exact_mod_cast hlat
    linarith
  have hl : (Grid.rect nlat nlon).lat (i, j) = -(π / 2) + (j : ℕ) * (π / (nlat - 1)) := by
    simp only [Grid.lat, Grid.deg, Grid.latPointDeg, Np.linspaceAt]
    rw [if_neg (by omega)]
    field_simp
    ring
  have hlo : (Grid.rect nlat nlon).lon (i, j) = (i : ℕ) * (2 * π / nlon) := by
    simp only [Grid.lon, Grid.deg, Grid.lonPointDeg, Np.linspaceOpenAt]
    field_simp
    ring
  have hj0 : (0 : ℝ) ≤ (j : ℕ) := by positivity
  have hj1 : ((j : ℕ) : ℝ) ≤ nlat - 1 := by
    have : (j : ℕ) + 1 ≤ nlat := j.2
    have : (((j : ℕ) + 1 : ℕ) : ℝ) ≤ nlat := by exact_mod_cast this
    push_cast at this; linarith
  have hpi := pi_pos
  refine ⟨hl, hlo, ?_, ?_, ?_, ?_, rfl⟩
  · rw [hl]
    constructor
    · have : 0 ≤ ((j : ℕ) : ℝ) * (π / (nlat - 1)) := by positivity
      linarith
    · have : ((j : ℕ) : ℝ) * (π / (nlat - 1)) ≤ (nlat - 1) * (π / (nlat - 1)) := by
        gcongr
      rw [mul_div_cancel₀ _ hn.ne'] at this
      linarith
  · rw [hlo]
    have hi : ((i : ℕ) : ℝ) < nlon := by exact_mod_cast i.2
    have hpos : (0 : ℝ) < nlon := lt_of_le_of_lt (by positivity) hi
    constructor
    · positivity
    · calc ((i : ℕ) : ℝ) * (2 * π / nlon) < nlon * (2 * π / nlon) := by gcongr
        _ = 2 * π := mul_div_cancel₀ _ hpos.ne'
  · rw [hl]
    constructor
    · intro h
      have h1 : ((j : ℕ) : ℝ) * (π / (nlat - 1)) = 0 := by linarith
      rcases mul_eq_zero.mp h1 with h2 | h2
      · exact_mod_cast h2
      · exact absurd h2 (by positivity)
    · intro h; simp [h]
  · rw [hl]
    have hcast : ((nlat - 1 : ℕ) : ℝ) = (nlat : ℝ) - 1 := by
      rw [Nat.cast_sub (by omega)]; simp
    constructor
    · intro h
      have h1 : ((j : ℕ) : ℝ) * (π / (nlat - 1)) = π := by linarith
      have h2 : ((j : ℕ) : ℝ) = nlat - 1 := by
        field_simp at h1
        linarith
      rw [← hcast] at h2
      exact_mod_cast h2
    · intro h
      rw [h, hcast, mul_div_cancel₀ _ hn.ne']
      ring

/-- Non-trivial instance: a 3 × 4 grid, the middle latitude is the equator. -/
example : (Grid.rect 3 4).lat ((1 : Fin 4), (1 : Fin 3)) = 0 := by
  rw [((C01_rect_layout 3 4 (by norm_num)).2.2 1 1).1]
  norm_num

/-! ## C02 -/

theorem rect_jacobian_eq (nlat nlon : ℕ) (p : (Grid.rect nlat nlon).Pix) :
    sin ((Grid.rect nlat nlon).lat p + Grid.deg 90) = cos ((Grid.rect nlat nlon).lat p) := by
  rw [Grid.deg, show (90 : ℝ) * (π / 180) = π / 2 by ring, sin_add_pi_div_two]

theorem rect_lat_mem (nlat nlon : ℕ) (hlat : 2 ≤ nlat) (p : (Grid.rect nlat nlon).Pix) :
    (Grid.rect nlat nlon).lat p ∈ Set.Icc (-(π / 2)) (π / 2) :=
  ((C01_rect_layout nlat nlon hlat).2.2 p.1 p.2).2.2.1

theorem rect_cos_nonneg (nlat nlon : ℕ) (hlat : 2 ≤ nlat) (p : (Grid.rect nlat nlon).Pix) :
    0 ≤ cos ((Grid.rect nlat nlon).lat p) :=
  cos_nonneg_of_mem_Icc (rect_lat_mem nlat nlon hlat p)

theorem rect_cos_pos (nlat nlon : ℕ) (hlat : 2 ≤ nlat) (p : (Grid.rect nlat nlon).Pix)
    (h0 : (p.2 : ℕ) ≠ 0) (h1 : (p.2 : ℕ) ≠ nlat - 1) : 0 < cos ((Grid.rect nlat nlon).lat p) := by
  obtain ⟨_, _, hm, _, ha, hb, _⟩ := (C01_rect_layout nlat nlon hlat).2.2 p.1 p.2
  exact cos_pos_of_mem_Ioo
    ⟨lt_of_le_of_ne hm.1 (fun h => h0 (ha.mp h.symm)), lt_of_le_of_ne hm.2 (fun h => h1 (hb.mp h))⟩

theorem rect_cos_sum_pos (nlat nlon : ℕ) (hlat : 3 ≤ nlat) (hlon : 1 ≤ nlon) :
    0 < ∑ q : (Grid.rect nlat nlon).Pix, cos ((Grid.rect nlat nlon).lat q) := by
  refine Finset.sum_pos' (fun q _ => rect_cos_nonneg nlat nlon (by omega) q)
    ⟨((⟨0, hlon⟩ : Fin nlon), (⟨1, by omega⟩ : Fin nlat)), Finset.mem_univ _, ?_⟩
  exact rect_cos_pos nlat nlon (by omega) _ (by simp) (by simp; omega)

/-- The area of a rectangular pixel is its `cos(lat)` share. -/
theorem rect_area_eq (nlat nlon : ℕ) (hlat : 3 ≤ nlat) (hlon : 1 ≤ nlon) (p : (Grid.rect nlat nlon).Pix) :
    (Grid.rect nlat nlon).area p = .fin (cos ((Grid.rect nlat nlon).lat p) /
      ∑ q : (Grid.rect nlat nlon).Pix, cos ((Grid.rect nlat nlon).lat q)) := by
  simp only [Grid.area, rect_jacobian_eq]
  rw [Fl.sum_fin, Fl.fin_div (rect_cos_sum_pos nlat nlon hlat hlon).ne']

theorem spiral_area_eq (n : ℕ) (hn : 1 ≤ n) (p : (Grid.spiral n).Pix) :
    (Grid.spiral n).area p = .fin (1 / n) := by
  have : (n : ℝ) ≠ 0 := by positivity
  simp [Grid.area, Fl.fin_div this]

/-- Grids whose areas are well defined. -/
def Spec.goodGrid : Grid → Prop
  | .rect nlat nlon => 3 ≤ nlat ∧ 1 ≤ nlon
  | .spiral n => 1 ≤ n

/-- **C02** Pixel areas are non-negative finite numbers adding up to 1; on a rectangular grid they are
proportional to `cos(lat)`, on a spiral grid all equal. -/
theorem C02_area_partition (g : Grid) (hg : Spec.goodGrid g) :
    ∃ a : g.Pix → ℝ, (∀ p, g.area p = .fin (a p)) ∧ (∀ p, 0 ≤ a p) ∧ ∑ p, a p = 1 ∧
      (match g with
        | .rect nlat nlon => ∀ p q : (Grid.rect nlat nlon).Pix,
            (Grid.rect nlat nlon).area p * .fin (cos ((Grid.rect nlat nlon).lat q))
              = (Grid.rect nlat nlon).area q * .fin (cos ((Grid.rect nlat nlon).lat p))
        | .spiral n => ∀ p q : (Grid.spiral n).Pix, (Grid.spiral n).area p = (Grid.spiral n).area q) := by
  cases g with
  | rect nlat nlon =>
    obtain ⟨h1, h2⟩ := hg
    have hs := rect_cos_sum_pos nlat nlon h1 h2
    refine ⟨_, rect_area_eq nlat nlon h1 h2, fun p => ?_, ?_, ?_⟩
    · exact div_nonneg (rect_cos_nonneg nlat nlon (by omega) p) hs.le
    · rw [← Finset.sum_div, div_self hs.ne']
    · intro p q
      rw [rect_area_eq nlat nlon h1 h2, rect_area_eq nlat nlon h1 h2, Fl.fin_mul, Fl.fin_mul, Fl.fin_inj]
      ring
  | spiral n =>
    have hn : (0 : ℝ) < n := by exact_mod_cast hg
    refine ⟨_, spiral_area_eq n hg, fun p => by positivity, ?_, ?_⟩
    · simp [Grid.Pix, hn.ne']
    · intro p q
      rw [spiral_area_eq n hg, spiral_area_eq n hg]

example : Spec.goodGrid (.rect 500 1000) ∧ Spec.goodGrid (.spiral 1000) := by
  simp [Spec.goodGrid]

/-- The hypothesis of C02 is needed: with two latitudes all weights vanish and the areas are NaN. -/
theorem C02_degenerate : (Grid.rect 2 1).area ((0 : Fin 1), (0 : Fin 2)) = .nan := by
  have h0 : ∀ p : (Grid.rect 2 1).Pix, cos ((Grid.rect 2 1).lat p) = 0 := by
    rintro ⟨i, j⟩
    obtain ⟨hl, -⟩ := (C01_rect_layout 2 1 le_rfl).2.2 i j
    rw [hl]
    rcases Nat.lt_or_ge (j : ℕ) 1 with h | h
    · have : (j : ℕ) = 0 := by omega
      simp [this]
    · have : (j : ℕ) = 1 := by have := j.2; omega
      rw [this, show -(π / 2) + ((1 : ℕ) : ℝ) * (π / ((2 : ℕ) - 1)) = π / 2 by norm_num; ring]
      exact cos_pi_div_two
  simp only [Grid.area, rect_jacobian_eq, h0]
  rw [Fl.sum_fin]
  simp [Fl.fin_div_zero]

/-! ## C03 -/

/-- **C03** `cos_angle_from_disk_center` is the inner product of the unit vectors of the pixel and of the
sub-observer point; it lies in `[-1,1]` and is 1 exactly at the sub-observer point. -/
theorem C03_mu_inner (g : Grid) (lat0 lon0 : ℝ) (p : g.Pix) :
    g.mu lat0 lon0 p = inner ℝ (unitVec lat0 lon0) (unitVec (g.lat p) (g.lon p)) ∧
    g.mu lat0 lon0 p ∈ Set.Icc (-1) 1 ∧
    (g.mu lat0 lon0 p = 1 ↔ unitVec (g.lat p) (g.lon p) = unitVec lat0 lon0) ∧
    g.mu lat0 lon0 p = cos (greatCircle lat0 lon0 (g.lat p) (g.lon p)) := by
  refine ⟨(inner_unitVec _ _ _ _).symm, cosExpr_mem _ _ _ _, ?_, ?_⟩
  · rw [eq_comm (b := unitVec lat0 lon0)]
    exact cosExpr_eq_one_iff lat0 lon0 (g.lat p) (g.lon p)
  · rw [greatCircle_eq, cos_arccos (cosExpr_mem _ _ _ _).1 (cosExpr_mem _ _ _ _).2]
    rfl

/-- Non-trivial instance: the equator pixel of a 3 × 4 grid seen from the north pole has `mu = 0`. -/
example : (Grid.rect 3 4).mu (π / 2) 0 ((1 : Fin 4), (1 : Fin 3)) = 0 := by
  have h : (Grid.rect 3 4).lat ((1 : Fin 4), (1 : Fin 3)) = 0 := by
    rw [((C01_rect_layout 3 4 (by norm_num)).2.2 1 1).1]; norm_num
  simp [Grid.mu, Grid.cosAngle, h]

/-! ## C04 -/

theorem spiral_arg_mem {n : ℕ} (i : Fin n) :
    -1 < 1 - 2 * (((i : ℕ) : ℝ) + 0.5) / n ∧ 1 - 2 * (((i : ℕ) : ℝ) + 0.5) / n < 1 := by
  have hi : ((i : ℕ) : ℝ) + 1 ≤ n := by exact_mod_cast i.2
  have h0 : (0 : ℝ) ≤ (i : ℕ) := by positivity
  have hn : (0 : ℝ) < n := by linarith
  constructor
  · have : 2 * (((i : ℕ) : ℝ) + 0.5) / n < 2 := by
      rw [div_lt_iff₀ hn]; linarith
    linarith
  · have : 0 < 2 * (((i : ℕ) : ℝ) + 0.5) / n := by positivity
    linarith

theorem spiral_lat_eq {n : ℕ} (i : Fin n) :
    (Grid.spiral n).lat i = arcsin (1 - 2 * (((i : ℕ) : ℝ) + 0.5) / n) := by
  simp only [Grid.lat]
  rw [arccos_eq_pi_div_two_sub_arcsin]; ring

theorem sin_spiral_lat {n : ℕ} (i : Fin n) :
    sin ((Grid.spiral n).lat i) = 1 - 2 * (((i : ℕ) : ℝ) + 0.5) / n := by
  rw [spiral_lat_eq, sin_arcsin (spiral_arg_mem i).1.le (spiral_arg_mem i).2.le]

theorem mod2pi_mem (x : ℝ) : Grid.mod2pi x ∈ Set.Ico 0 (2 * π) := by
  have hp : 0 < 2 * π := by positivity
  have h1 := Int.floor_le (x / (2 * π))
  have h2 := Int.lt_floor_add_one (x / (2 * π))
  rw [le_div_iff₀ hp] at h1
  rw [div_lt_iff₀ hp] at h2
  constructor <;> simp only [Grid.mod2pi] <;> linarith

/-- **C04** The spiral grid: `n` pairwise different points of the sphere, latitudes strictly decreasing
strictly between the poles, longitudes in `[0, 2π)` advancing by the golden angle, and for every latitude
threshold the number of points north of it is within 1/2 of `n` times the exact area fraction. -/
theorem C04_spiral_equal_area (n : ℕ) :
    Fintype.card (Grid.spiral n).Pix = n ∧
    (∀ i : Fin n, (Grid.spiral n).lat i ∈ Set.Ioo (-(π / 2)) (π / 2)) ∧
    (∀ i j : Fin n, i < j → (Grid.spiral n).lat j < (Grid.spiral n).lat i) ∧
    (∀ i : Fin n, (Grid.spiral n).lon i ∈ Set.Ico 0 (2 * π)) ∧
    (∀ i : Fin n, ∃ k : ℤ, (Grid.spiral n).lon i = (i : ℕ) * (2 * π / goldenRatio) + k * (2 * π)) ∧
    (∀ i j : Fin n, i ≠ j → unitVec ((Grid.spiral n).lat i) ((Grid.spiral n).lon i)
      ≠ unitVec ((Grid.spiral n).lat j) ((Grid.spiral n).lon j)) ∧
    (∀ φ ∈ Set.Icc (-(π / 2)) (π / 2),
      |((Finset.univ.filter fun i : Fin n => φ < (Grid.spiral n).lat i).card : ℝ) - n * fracNorth φ|
        ≤ 1 / 2) := by
  have hanti : ∀ i j : Fin n, i < j → (Grid.spiral n).lat j < (Grid.spiral n).lat i := by
    intro i j hij
    rw [spiral_lat_eq, spiral_lat_eq]
    apply strictMonoOn_arcsin ⟨(spiral_arg_mem j).1.le, (spiral_arg_mem j).2.le⟩
      ⟨(spiral_arg_mem i).1.le, (spiral_arg_mem i).2.le⟩
    have hn : (0 : ℝ) < n := by
      have := i.2; exact_mod_cast (by omega : 0 < n)
    have : ((i : ℕ) : ℝ) < (j : ℕ) := by exact_mod_cast hij
    gcongr
  refine ⟨by simp [Grid.Pix], ?_, hanti, fun i => mod2pi_mem _, ?_, ?_, ?_⟩
  · intro i
    rw [spiral_lat_eq]
    exact ⟨neg_pi_div_two_lt_arcsin.mpr (spiral_arg_mem i).1, arcsin_lt_pi_div_two.mpr (spiral_arg_mem i).2⟩
  · intro i
    refine ⟨-⌊2 * π * (i : ℕ) / (0.5 * (1 + √5)) / (2 * π)⌋, ?_⟩
    have hg : (0.5 * (1 + √5) : ℝ) = goldenRatio := by rw [goldenRatio]; ring
    simp only [Grid.lon, Grid.mod2pi, hg]
    push_cast
    ring
  · intro i j hij h
    have h2 : sin ((Grid.spiral n).lat i) = sin ((Grid.spiral n).lat j) := by
      simpa [unitVec] using congrArg (fun v : E3 => v 2) h
    rw [sin_spiral_lat, sin_spiral_lat] at h2
    have hn : (0 : ℝ) < n := by
      have := i.2; exact_mod_cast (by omega : 0 < n)
    field_simp at h2
    have : ((i : ℕ) : ℝ) = (j : ℕ) := by linarith
    exact hij (Fin.ext (by exact_mod_cast this))
  · intro φ hφ
    rcases Nat.eq_zero_or_pos n with hn0 | hn0
    · subst hn0; simp
    have hn : (0 : ℝ) < n := by exact_mod_cast hn0
    set x : ℝ := n * fracNorth φ - 1 / 2 with hx
    have hiff : ∀ i : Fin n, φ < (Grid.spiral n).lat i ↔ (i : ℕ) < ⌈x⌉₊ := by
      intro i
      rw [Nat.lt_ceil, spiral_lat_eq,
        lt_arcsin_iff_sin_lt ⟨hφ.1, hφ.2⟩ ⟨(spiral_arg_mem i).1.le, (spiral_arg_mem i).2.le⟩]
      rw [hx, fracNorth]
      have key : (1 - 2 * (((i : ℕ) : ℝ) + 0.5) / n) * n = n - 2 * (((i : ℕ) : ℝ) + 0.5) := by
        field_simp
      constructor
      · intro h
        have := mul_lt_mul_of_pos_right h hn
        rw [key] at this
        linarith
      · intro h
        by_contra hc
        have := mul_le_mul_of_nonneg_right (not_lt.mp hc) hn.le
        rw [key] at this
        linarith
    have hf0 : 0 ≤ fracNorth φ := by
      rw [fracNorth]; linarith [sin_le_one φ]
    have hf1 : fracNorth φ ≤ 1 := by
      rw [fracNorth]; linarith [neg_one_le_sin φ]
    have hcn : ⌈x⌉₊ ≤ n := by
      rw [Nat.ceil_le, hx]
      nlinarith
    have hcard : (Finset.univ.filter fun i : Fin n => φ < (Grid.spiral n).lat i).card = ⌈x⌉₊ := by
      simp only [hiff]
      rw [Fin.card_filter_val_lt]
      omega
    rw [hcard]
    have hge := Nat.le_ceil x
    rw [abs_le]
    constructor
    · rw [hx] at hge ⊢; linarith
    · rcases le_or_gt 0 x with h | h
      · have := Nat.ceil_lt_add_one h
        rw [hx] at this ⊢; linarith
      · have : ⌈x⌉₊ = 0 := Nat.ceil_eq_zero.mpr h.le
        rw [this]
        have : 0 ≤ (n : ℝ) * fracNorth φ := by positivity
        simp; linarith

/-- Non-trivial instance: of 1000 spiral points exactly half are north of the equator. -/
example : |((Finset.univ.filter fun i : Fin 1000 => 0 < (Grid.spiral 1000).lat i).card : ℝ) - 500| ≤ 1 / 2 := by
  have h := (C04_spiral_equal_area 1000).2.2.2.2.2.2 0 ⟨by linarith [pi_pos], by linarith [pi_pos]⟩
  rw [fracNorth, sin_zero, show ((1000 : ℕ) : ℝ) * ((1 - 0) / 2) = 500 by norm_num] at h
  exact h

end Vsm
