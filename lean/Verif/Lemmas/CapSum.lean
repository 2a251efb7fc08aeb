import Verif.Lemmas.SolidAngle

/-!
# Counting grid cells in a spherical cap

Sums over the points of a latitude–longitude grid that lie in a spherical cap, compared with the solid angle of the
cap.
-/

noncomputable section

namespace Vsm

open Real MeasureTheory Set

/-! ## Rows -/

/-- Weight of a grid row: the integral of the cosine over the row. -/
theorem row_weight (x δ : ℝ) : 2 * sin (δ / 2) * cos x = sin (x + δ / 2) - sin (x - δ / 2) := by
  rw [sin_add, sin_sub]; ring

theorem sum_rows_from (a δ : ℝ) (m n : ℕ) (h : m ≤ n) :
    ∑ i ∈ Finset.range n, (if m ≤ i then 2 * sin (δ / 2) * cos (a + i * δ) else 0) =
      sin (a + n * δ - δ / 2) - sin (a + m * δ - δ / 2) := by
  induction n, h using Nat.le_induction with
  | base =>
    rw [sub_self]
    refine Finset.sum_eq_zero fun i hi => ?_
    rw [if_neg (by have := Finset.mem_range.mp hi; omega)]
  | succ n hmn ih =>
    rw [Finset.sum_range_succ, ih, if_pos hmn, row_weight]
    push_cast
    rw [show a + (n + 1) * δ - δ / 2 = a + n * δ + δ / 2 by ring]
    ring

theorem sin_sub_le {x y : ℝ} (h : x ≤ y) : sin y - sin x ≤ y - x := by
  have := abs_sin_sub_sin_le y x
  rw [abs_of_nonneg (by linarith : 0 ≤ y - x)] at this
  exact (le_abs_self _).trans this

theorem abs_sin_sub_sin_le' (y x : ℝ) : |sin y - sin x| ≤ |y - x| := abs_sin_sub_sin_le y x

theorem cos_integrable (s : Set ℝ) (hs : s ⊆ Icc (-(π / 2)) (π / 2)) : IntegrableOn cos s :=
  ((continuous_cos.integrableOn_Icc (a := -(π / 2)) (b := π / 2)).mono_set hs)

theorem setIntegral_cos_Icc {a : ℝ} (h1 : a ≤ π / 2) : ∫ φ in Icc a (π / 2), cos φ = 1 - sin a := by
  rw [integral_Icc_eq_integral_Ioc, ← intervalIntegral.integral_of_le h1, integral_cos, sin_pi_div_two]

theorem setIntegral_cos_mono {s t : Set ℝ} (hst : s ⊆ t) (ht : t ⊆ Icc (-(π / 2)) (π / 2))
    (htm : MeasurableSet t) : ∫ φ in s, cos φ ≤ ∫ φ in t, cos φ := by
  refine setIntegral_mono_set (cos_integrable t ht) ?_ (Filter.Eventually.of_forall hst)
  filter_upwards [ae_restrict_mem htm] with φ hφ
  exact cos_nonneg_of_mem_Icc (ht hφ)

/-- Summed weight of the rows whose latitude is in `S`. -/
def rowSum (n : ℕ) (δ : ℝ) (S : Set ℝ) : ℝ :=
  ∑ i ∈ Finset.range n, S.indicator (fun x => 2 * sin (δ / 2) * cos x) (-(π / 2) + i * δ)

/-- Rows in an upper set. -/
theorem upper_rows {δ : ℝ} {n : ℕ} (hn : 2 ≤ n) (hδ : ((n : ℝ) - 1) * δ = π) (hδ0 : 0 < δ) {U : Set ℝ}
    (hU : IsUpperSet U) :
    |rowSum n δ U +
      (1 - cos (δ / 2)) - ∫ φ in Icc (-(π / 2)) (π / 2) ∩ U, cos φ| ≤ δ / 2 := by
  classical
  have hp := pi_pos
  have hUm : MeasurableSet U := hU.ordConnected.measurableSet
  have hm : ∀ s : Set ℝ, s.OrdConnected → MeasurableSet s := fun s h => h.measurableSet
  have h1c : 1 - cos (δ / 2) ≤ δ / 2 := by
    have := sin_sub_le (x := π / 2 - δ / 2) (y := π / 2) (by linarith)
    rw [sin_pi_div_two, sin_pi_div_two_sub] at this
    linarith
  have hc1 : 0 ≤ 1 - cos (δ / 2) := by linarith [cos_le_one (δ / 2)]
  have hlast : -(π / 2) + ((n - 1 : ℕ) : ℝ) * δ = π / 2 := by
    rw [Nat.cast_sub (by omega)]; push_cast; linarith
  have hend : sin (-(π / 2) + n * δ - δ / 2) = cos (δ / 2) := by
    rw [show -(π / 2) + n * δ - δ / 2 = π / 2 - -(δ / 2) by linarith, sin_pi_div_two_sub, cos_neg]
  by_cases hex : ∃ i : ℕ, i < n ∧ -(π / 2) + (i : ℝ) * δ ∈ U
  · -- first row in `U`
    obtain ⟨m, ⟨hmn, hmU⟩, hmin⟩ : ∃ m : ℕ, (m < n ∧ -(π / 2) + (m : ℝ) * δ ∈ U) ∧
        ∀ i : ℕ, (i < n ∧ -(π / 2) + (i : ℝ) * δ ∈ U) → m ≤ i :=
      ⟨Nat.find hex, Nat.find_spec hex, fun i hi => Nat.find_min' hex hi⟩
    have hsum : rowSum n δ U =
        cos (δ / 2) - sin (-(π / 2) + m * δ - δ / 2) := by
      rw [rowSum, ← hend, ← sum_rows_from _ _ _ _ hmn.le]
      refine Finset.sum_congr rfl fun i hi => ?_
      have hi := Finset.mem_range.mp hi
      by_cases hU' : -(π / 2) + (i : ℝ) * δ ∈ U
      · rw [indicator_of_mem hU', if_pos (hmin i ⟨hi, hU'⟩)]
      · rw [indicator_of_notMem hU', if_neg]
        intro hmi
        refine hU' (hU ?_ hmU)
        have : (m : ℝ) ≤ i := by exact_mod_cast hmi
        nlinarith
    rw [hsum]
    have hm0 : (0 : ℝ) ≤ m := Nat.cast_nonneg m
    have hxm : -(π / 2) + (m : ℝ) * δ ≤ π / 2 := by
      have : (m : ℝ) ≤ n - 1 := by
        have : m + 1 ≤ n := hmn
        have : ((m + 1 : ℕ) : ℝ) ≤ n := by exact_mod_cast this
        push_cast at this; linarith
      nlinarith
    have hx0 : -(π / 2) ≤ -(π / 2) + (m : ℝ) * δ := by nlinarith [mul_nonneg hm0 hδ0.le]
    have hlow : 1 - sin (-(π / 2) + m * δ) ≤ ∫ φ in Icc (-(π / 2)) (π / 2) ∩ U, cos φ := by
      rw [← setIntegral_cos_Icc hxm]
      refine setIntegral_cos_mono ?_ inter_subset_left (measurableSet_Icc.inter hUm)
      intro φ hφ
      exact ⟨⟨hx0.trans hφ.1, hφ.2⟩, hU hφ.1 hmU⟩
    rcases Nat.eq_zero_or_pos m with rfl | hmpos
    · have hup : ∫ φ in Icc (-(π / 2)) (π / 2) ∩ U, cos φ ≤ 2 := by
        have := setIntegral_cos_Icc (a := -(π / 2)) (by linarith)
        rw [sin_neg, sin_pi_div_two] at this
        calc _ ≤ ∫ φ in Icc (-(π / 2)) (π / 2), cos φ := setIntegral_cos_mono inter_subset_left subset_rfl measurableSet_Icc
          _ = 2 := by rw [this]; norm_num
      simp only [Nat.cast_zero, zero_mul, add_zero, sin_neg, sin_pi_div_two] at hlow ⊢
      have e : sin (-(π / 2) - δ / 2) = -cos (δ / 2) := by
        rw [show -(π / 2) - δ / 2 = -(π / 2 - -(δ / 2)) by ring, sin_neg, sin_pi_div_two_sub, cos_neg]
      rw [e, abs_le]
      constructor <;> linarith
    · have hprev : -(π / 2) + ((m : ℝ) - 1) * δ ∉ U := by
        intro h
        have := hmin (m - 1) ⟨by omega, by rw [Nat.cast_sub hmpos]; exact_mod_cast h⟩
        omega
      have hm1 : (1 : ℝ) ≤ m := by exact_mod_cast hmpos
      have hx1 : -(π / 2) ≤ -(π / 2) + ((m : ℝ) - 1) * δ := by nlinarith [mul_nonneg (sub_nonneg.mpr hm1) hδ0.le]
      have hup : ∫ φ in Icc (-(π / 2)) (π / 2) ∩ U, cos φ ≤ 1 - sin (-(π / 2) + ((m : ℝ) - 1) * δ) := by
        rw [← setIntegral_cos_Icc (by nlinarith)]
        refine setIntegral_cos_mono ?_ (Icc_subset_Icc_left hx1) measurableSet_Icc
        intro φ hφ
        refine ⟨?_, hφ.1.2⟩
        by_contra h
        push Not at h
        exact hprev (hU h.le hφ.2)
      have b1 := sin_sub_le (x := -(π / 2) + m * δ - δ / 2) (y := -(π / 2) + m * δ) (by linarith)
      have b2 := sin_sub_le (x := -(π / 2) + ((m : ℝ) - 1) * δ) (y := -(π / 2) + m * δ - δ / 2) (by nlinarith)
      rw [abs_le]
      constructor
      · nlinarith
      · nlinarith
  · push Not at hex
    have hempty : Icc (-(π / 2)) (π / 2) ∩ U = ∅ := by
      ext φ
      simp only [mem_inter_iff, mem_empty_iff_false, iff_false, not_and]
      intro hφ hφU
      refine hex (n - 1) (by omega) (hU ?_ hφU)
      rw [hlast]; exact hφ.2
    rw [hempty, Measure.restrict_empty, integral_zero_measure, sub_zero]
    rw [rowSum, Finset.sum_eq_zero, zero_add, abs_of_nonneg hc1]
    · exact h1c
    · intro i hi
      rw [indicator_of_notMem (hex i (Finset.mem_range.mp hi))]

/-- Rows in an interval. -/
theorem interval_rows {δ : ℝ} {n : ℕ} (hn : 2 ≤ n) (hδ : ((n : ℝ) - 1) * δ = π) (hδ0 : 0 < δ) {S : Set ℝ}
    (hS : S.OrdConnected) (hSI : S ⊆ Icc (-(π / 2)) (π / 2)) :
    |rowSum n δ S -
      ∫ φ in S, cos φ| ≤ δ := by
  set U : Set ℝ := {x | ∃ y ∈ S, y ≤ x} with hU
  have hU1 : IsUpperSet U := by
    rintro x z hxz ⟨y, hy, hyx⟩
    exact ⟨y, hy, hyx.trans hxz⟩
  have hU2 : IsUpperSet (U \ S) := by
    rintro x z hxz ⟨⟨y, hy, hyx⟩, hxS⟩
    exact ⟨⟨y, hy, hyx.trans hxz⟩, fun hz => hxS (hS.out hy hz ⟨hyx, hxz⟩)⟩
  have hSU : S ⊆ U := fun x hx => ⟨x, hx, le_rfl⟩
  have e1 := upper_rows hn hδ hδ0 hU1
  have e2 := upper_rows hn hδ hδ0 hU2
  have hint : ∫ φ in Icc (-(π / 2)) (π / 2) ∩ U, cos φ =
      (∫ φ in S, cos φ) + ∫ φ in Icc (-(π / 2)) (π / 2) ∩ (U \ S), cos φ := by
    rw [← setIntegral_union]
    · congr 2
      ext φ
      simp only [mem_inter_iff, mem_union, mem_sdiff]
      constructor
      · rintro ⟨h1, h2⟩
        by_cases h3 : φ ∈ S
        · exact Or.inl h3
        · exact Or.inr ⟨h1, h2, h3⟩
      · rintro (h | h)
        · exact ⟨hSI h, hSU h⟩
        · exact ⟨h.1, h.2.1⟩
    · rw [Set.disjoint_left]
      exact fun φ h1 h2 => h2.2.2 h1
    · exact measurableSet_Icc.inter hU2.ordConnected.measurableSet
    · exact cos_integrable _ hSI
    · exact cos_integrable _ inter_subset_left
  have hsum : rowSum n δ U =
      rowSum n δ S +
      rowSum n δ (U \ S) := by
    simp only [rowSum]
    rw [← Finset.sum_add_distrib]
    refine Finset.sum_congr rfl fun i _ => ?_
    by_cases h3 : -(π / 2) + (i : ℝ) * δ ∈ S
    · rw [indicator_of_mem (hSU h3), indicator_of_mem h3, indicator_of_notMem (fun h => h.2 h3), add_zero]
    · by_cases h4 : -(π / 2) + (i : ℝ) * δ ∈ U
      · rw [indicator_of_mem h4, indicator_of_notMem h3, indicator_of_mem (show -(π / 2) + (i : ℝ) * δ ∈ U \ S from ⟨h4, h3⟩), zero_add]
      · rw [indicator_of_notMem h4, indicator_of_notMem h3, indicator_of_notMem (fun h => h4 h.1), zero_add]
  rw [hint, hsum, abs_le] at e1
  rw [abs_le] at e2 ⊢
  constructor <;> linarith [e1.1, e1.2, e2.1, e2.2]

/-! ## Columns -/

/-- On a meridian a sinusoid that is non-negative at two latitudes is at least as large in between. -/
theorem sinusoid_between {A B k x y z : ℝ} (hxy : x ≤ y) (hyz : y ≤ z)
    (hk : 0 ≤ k) (h1 : k ≤ sin x * B + cos x * A) (h2 : k ≤ sin z * B + cos z * A)
    (hne : z - x < π) : k ≤ sin y * B + cos y * A ∧
      (k < sin x * B + cos x * A → k < sin z * B + cos z * A → k < sin y * B + cos y * A) := by
  have hp := pi_pos
  rcases hxy.eq_or_lt with rfl | hxy
  · exact ⟨h1, fun h _ => h⟩
  rcases hyz.eq_or_lt with rfl | hyz
  · exact ⟨h2, fun _ h => h⟩
  have s1 : 0 < sin (z - y) := sin_pos_of_pos_of_lt_pi (by linarith) (by linarith)
  have s2 : 0 < sin (y - x) := sin_pos_of_pos_of_lt_pi (by linarith) (by linarith)
  have s3 : 0 < sin (z - x) := sin_pos_of_pos_of_lt_pi (by linarith) (by linarith)
  have id : (sin y * B + cos y * A) * sin (z - x) =
      (sin x * B + cos x * A) * sin (z - y) + (sin z * B + cos z * A) * sin (y - x) := by
    rw [sin_sub, sin_sub, sin_sub]
    have hy := sin_sq_add_cos_sq y
    linear_combination (0 : ℝ) * hy
  have sub : sin (z - x) ≤ sin (z - y) + sin (y - x) := by
    have : sin (z - x) = sin (z - y) * cos (y - x) + cos (z - y) * sin (y - x) := by
      rw [← sin_add]; congr 1; ring
    rw [this]
    nlinarith [cos_le_one (y - x), cos_le_one (z - y)]
  constructor
  · by_contra h
    push Not at h
    nlinarith
  · intro h3 h4
    by_contra h
    push Not at h
    nlinarith

/-- The part of a meridian lying in a cap. -/
def meridianSet (A B k : ℝ) : Set ℝ := {φ | φ ∈ Icc (-(π / 2)) (π / 2) ∧ k < sin φ * B + cos φ * A}

theorem meridianSet_ordConnected {A B k : ℝ} (hk : 0 ≤ k) : (meridianSet A B k).OrdConnected := by
  refine ⟨fun x hx z hz y hy => ⟨⟨hx.1.1.trans hy.1, hy.2.trans hz.1.2⟩, ?_⟩⟩
  have hne : z - x < π := by
    by_contra h
    push Not at h
    have e1 : x = -(π / 2) := by linarith [hx.1.1, hz.1.2]
    have e2 : z = π / 2 := by linarith [hx.1.1, hz.1.2]
    have h1 := hx.2
    have h2 := hz.2
    rw [e1, sin_neg, cos_neg, sin_pi_div_two, cos_pi_div_two] at h1
    rw [e2, sin_pi_div_two, cos_pi_div_two] at h2
    linarith
  exact (sinusoid_between hy.1 hy.2 hk hx.2.le hz.2.le hne).2 hx.2 hz.2

theorem meridianCompl_ordConnected {A B k : ℝ} (hk : k < 0) :
    (Icc (-(π / 2)) (π / 2) \ meridianSet A B k).OrdConnected := by
  have hmem : ∀ φ, φ ∈ Icc (-(π / 2)) (π / 2) \ meridianSet A B k ↔
      φ ∈ Icc (-(π / 2)) (π / 2) ∧ -k ≤ sin φ * (-B) + cos φ * (-A) := by
    intro φ
    simp only [mem_sdiff, meridianSet, mem_ofPred_eq, not_and, not_lt]
    constructor
    · rintro ⟨h1, h2⟩; exact ⟨h1, by have := h2 h1; linarith⟩
    · rintro ⟨h1, h2⟩; exact ⟨h1, fun _ => by linarith⟩
  refine ⟨fun x hx z hz y hy => ?_⟩
  rw [hmem] at hx hz ⊢
  refine ⟨⟨hx.1.1.trans hy.1, hy.2.trans hz.1.2⟩, ?_⟩
  have hne : z - x < π := by
    by_contra h
    push Not at h
    have e1 : x = -(π / 2) := by linarith [hx.1.1, hz.1.2]
    have e2 : z = π / 2 := by linarith [hx.1.1, hz.1.2]
    have h1 := hx.2
    have h2 := hz.2
    rw [e1, sin_neg, cos_neg, sin_pi_div_two, cos_pi_div_two] at h1
    rw [e2, sin_pi_div_two, cos_pi_div_two] at h2
    linarith
  exact (sinusoid_between hy.1 hy.2 (by linarith) hx.2 hz.2 hne).1

theorem meridianSet_measurable (A B k : ℝ) : MeasurableSet (meridianSet A B k) :=
  measurableSet_Icc.inter (measurableSet_lt (measurable_const (a := k))
    (by fun_prop : Measurable fun φ : ℝ => sin φ * B + cos φ * A))

/-- The rows of one column in a cap, compared with the integral along the meridian. -/
theorem column_rows {δ : ℝ} {n : ℕ} (hn : 2 ≤ n) (hδ : ((n : ℝ) - 1) * δ = π) (hδ0 : 0 < δ) (A B k : ℝ) :
    |rowSum n δ (meridianSet A B k) - ∫ φ in meridianSet A B k, cos φ| ≤ δ + δ ^ 2 / 4 := by
  have hp := pi_pos
  have hsub : meridianSet A B k ⊆ Icc (-(π / 2)) (π / 2) := fun φ h => h.1
  rcases le_or_gt 0 k with hk | hk
  · have := interval_rows hn hδ hδ0 (meridianSet_ordConnected (A := A) (B := B) hk) hsub
    nlinarith [sq_nonneg δ]
  · have h := interval_rows hn hδ hδ0 (meridianCompl_ordConnected (A := A) (B := B) hk) sdiff_subset
    have hint : (∫ φ in meridianSet A B k, cos φ) + ∫ φ in Icc (-(π / 2)) (π / 2) \ meridianSet A B k, cos φ = 2 := by
      rw [← setIntegral_union disjoint_sdiff_right (measurableSet_Icc.diff (meridianSet_measurable A B k))
        (cos_integrable _ hsub) (cos_integrable _ sdiff_subset), union_sdiff_cancel hsub,
        setIntegral_cos_Icc (by linarith), sin_neg, sin_pi_div_two]
      norm_num
    have hsum : rowSum n δ (meridianSet A B k) +
        rowSum n δ (Icc (-(π / 2)) (π / 2) \ meridianSet A B k) = 2 * cos (δ / 2) := by
      have hall := sum_rows_from (-(π / 2)) δ 0 n (Nat.zero_le _)
      have e1 : sin (-(π / 2) + n * δ - δ / 2) = cos (δ / 2) := by
        rw [show -(π / 2) + n * δ - δ / 2 = π / 2 - -(δ / 2) by linarith, sin_pi_div_two_sub, cos_neg]
      have e2 : sin (-(π / 2) + (0 : ℕ) * δ - δ / 2) = -cos (δ / 2) := by
        rw [show -(π / 2) + ((0 : ℕ) : ℝ) * δ - δ / 2 = -(π / 2 - -(δ / 2)) by push_cast; ring, sin_neg,
          sin_pi_div_two_sub, cos_neg]
      rw [e1, e2] at hall
      rw [show 2 * cos (δ / 2) = cos (δ / 2) - -cos (δ / 2) by ring, ← hall, rowSum, rowSum, ← Finset.sum_add_distrib]
      refine Finset.sum_congr rfl fun i hi => ?_
      rw [if_pos (Nat.zero_le _)]
      have hi' : (i : ℝ) ≤ n - 1 := by
        have : i + 1 ≤ n := Finset.mem_range.mp hi
        have : ((i + 1 : ℕ) : ℝ) ≤ n := by exact_mod_cast this
        push_cast at this; linarith
      have hmem : -(π / 2) + (i : ℝ) * δ ∈ Icc (-(π / 2)) (π / 2) := by
        have : (0 : ℝ) ≤ i := Nat.cast_nonneg i
        constructor <;> nlinarith
      by_cases h3 : -(π / 2) + (i : ℝ) * δ ∈ meridianSet A B k
      · rw [indicator_of_mem h3, indicator_of_notMem (fun h => h.2 h3), add_zero]
      · rw [indicator_of_notMem h3, indicator_of_mem
          (show -(π / 2) + (i : ℝ) * δ ∈ Icc (-(π / 2)) (π / 2) \ meridianSet A B k from ⟨hmem, h3⟩), zero_add]
    have hcos := one_sub_sq_div_two_le_cos (x := δ / 2)
    have hcos1 := cos_le_one (δ / 2)
    rw [abs_le] at h ⊢
    constructor <;> nlinarith [h.1, h.2]

/-! ## Sums around the circle -/

/-- One sample per cell of a monotone function. -/
theorem monotone_cells {U : ℝ → ℝ} {a h : ℝ} (hh : 0 ≤ h) (y : ℕ → ℝ) : ∀ N : ℕ,
    MonotoneOn U (Icc a (a + N * h)) → (∀ j < N, y j ∈ Icc (a + j * h) (a + (j + 1) * h)) →
    |h * ∑ j ∈ Finset.range N, U (y j) - ∫ x in a..(a + N * h), U x| ≤ h * (U (a + N * h) - U a)
  | 0, _, _ => by simp
  | N + 1, hU, hy => by
    have hN : (0 : ℝ) ≤ N := Nat.cast_nonneg N
    have hab : a + (N : ℝ) * h ≤ a + ((N + 1 : ℕ) : ℝ) * h := by push_cast; nlinarith
    have ha : a ≤ a + (N : ℝ) * h := by nlinarith [mul_nonneg hN hh]
    have hsub : Icc a (a + N * h) ⊆ Icc a (a + ((N + 1 : ℕ) : ℝ) * h) := Icc_subset_Icc_right hab
    have hsub2 : Icc (a + N * h) (a + ((N + 1 : ℕ) : ℝ) * h) ⊆ Icc a (a + ((N + 1 : ℕ) : ℝ) * h) := Icc_subset_Icc_left ha
    have ih := monotone_cells hh y N (hU.mono hsub) fun j hj => hy j (by omega)
    have i1 : IntervalIntegrable U volume a (a + N * h) := by
      apply MonotoneOn.intervalIntegrable; rw [uIcc_of_le ha]; exact hU.mono hsub
    have i2 : IntervalIntegrable U volume (a + N * h) (a + ((N + 1 : ℕ) : ℝ) * h) := by
      apply MonotoneOn.intervalIntegrable; rw [uIcc_of_le hab]; exact hU.mono hsub2
    rw [← intervalIntegral.integral_add_adjacent_intervals i1 i2, Finset.sum_range_succ]
    have hyN := hy N (by omega)
    have e1 : a + ((N : ℝ) + 1) * h = a + ((N + 1 : ℕ) : ℝ) * h := by push_cast; ring
    rw [e1] at hyN
    have hlen : a + ((N + 1 : ℕ) : ℝ) * h - (a + N * h) = h := by push_cast; ring
    have hm1 : ∀ x ∈ Icc (a + N * h) (a + ((N + 1 : ℕ) : ℝ) * h), U (a + N * h) ≤ U x := fun x hx =>
      hU ⟨ha, hab⟩ (hsub2 hx) hx.1
    have hm2 : ∀ x ∈ Icc (a + N * h) (a + ((N + 1 : ℕ) : ℝ) * h), U x ≤ U (a + ((N + 1 : ℕ) : ℝ) * h) := fun x hx =>
      hU (hsub2 hx) ⟨ha.trans hab, le_rfl⟩ hx.2
    have b1 : h * U (a + N * h) ≤ ∫ x in (a + N * h)..(a + ((N + 1 : ℕ) : ℝ) * h), U x := by
      have := intervalIntegral.integral_mono_on hab (intervalIntegrable_const (c := U (a + N * h))) i2 hm1
      rwa [intervalIntegral.integral_const, hlen, smul_eq_mul] at this
    have b2 : ∫ x in (a + N * h)..(a + ((N + 1 : ℕ) : ℝ) * h), U x ≤ h * U (a + ((N + 1 : ℕ) : ℝ) * h) := by
      have := intervalIntegral.integral_mono_on hab i2 (intervalIntegrable_const (c := U (a + ((N + 1 : ℕ) : ℝ) * h))) hm2
      rwa [intervalIntegral.integral_const, hlen, smul_eq_mul] at this
    have c1 := mul_le_mul_of_nonneg_left (hm1 _ hyN) hh
    have c2 := mul_le_mul_of_nonneg_left (hm2 _ hyN) hh
    rw [abs_le] at ih ⊢
    constructor <;> nlinarith [ih.1, ih.2]

/-- One sample per cell of a function with a single peak. -/
theorem unimodal_cells {F : ℝ → ℝ} {a h p M : ℝ} (hh : 0 ≤ h) (y : ℕ → ℝ) (N : ℕ) (hp : p ∈ Icc a (a + N * h))
    (hF1 : MonotoneOn F (Icc a p)) (hF2 : AntitoneOn F (Icc p (a + N * h))) (h0 : ∀ x, 0 ≤ F x) (hM : ∀ x, F x ≤ M)
    (hy : ∀ j < N, y j ∈ Icc (a + j * h) (a + (j + 1) * h)) :
    |h * ∑ j ∈ Finset.range N, F (y j) - ∫ x in a..(a + N * h), F x| ≤ 2 * h * M := by
  have hab : a ≤ a + N * h := hp.1.trans hp.2
  have m1 : MonotoneOn (fun x => F (min x p)) (Icc a (a + N * h)) := fun x hx z hz hxz =>
    hF1 ⟨le_min hx.1 hp.1, min_le_right _ _⟩ ⟨le_min hz.1 hp.1, min_le_right _ _⟩ (min_le_min_right _ hxz)
  have m2 : MonotoneOn (fun x => -F (max x p)) (Icc a (a + N * h)) := fun x hx z hz hxz =>
    neg_le_neg (hF2 ⟨le_max_right _ _, max_le hx.2 hp.2⟩ ⟨le_max_right _ _, max_le hz.2 hp.2⟩ (max_le_max_right _ hxz))
  have k1 := monotone_cells hh y N m1 hy
  have k2 := monotone_cells hh y N m2 hy
  have i1 : IntervalIntegrable (fun x => F (min x p)) volume a (a + N * h) := by
    apply MonotoneOn.intervalIntegrable; rw [uIcc_of_le hab]; exact m1
  have i2 : IntervalIntegrable (fun x => -F (max x p)) volume a (a + N * h) := by
    apply MonotoneOn.intervalIntegrable; rw [uIcc_of_le hab]; exact m2
  have hdec : ∀ x, F x = F (min x p) - -F (max x p) - F p := by
    intro x
    rcases le_total x p with h | h
    · rw [min_eq_left h, max_eq_right h]; ring
    · rw [min_eq_right h, max_eq_left h]; ring
  have hint : ∫ x in a..(a + N * h), F x = (∫ x in a..(a + N * h), F (min x p)) -
      (∫ x in a..(a + N * h), -F (max x p)) - N * h * F p := by
    rw [intervalIntegral.integral_congr (g := fun x => F (min x p) - -F (max x p) - F p) (fun x _ => hdec x),
      intervalIntegral.integral_sub (i1.sub i2) intervalIntegrable_const, intervalIntegral.integral_sub i1 i2,
      intervalIntegral.integral_const, smul_eq_mul, add_sub_cancel_left]
  have hsum : ∑ j ∈ Finset.range N, F (y j) = (∑ j ∈ Finset.range N, F (min (y j) p)) -
      (∑ j ∈ Finset.range N, -F (max (y j) p)) - N * F p := by
    rw [← Finset.sum_sub_distrib, Finset.sum_congr rfl (fun j _ => hdec (y j)), Finset.sum_sub_distrib,
      Finset.sum_const, Finset.card_range, nsmul_eq_mul]
  simp only [min_eq_right hp.2, min_eq_left hp.1, max_eq_left hp.2, max_eq_right hp.1] at k1 k2
  have hMb := mul_le_mul_of_nonneg_left (hM p) hh
  have g1 := mul_nonneg hh (h0 a)
  have g2 := mul_nonneg hh (h0 (a + N * h))
  rw [hint, hsum]
  rw [abs_le] at k1 k2 ⊢
  constructor <;> nlinarith [k1.1, k1.2, k2.1, k2.2]

theorem sum_shift {F : ℝ → ℝ} {h : ℝ} {N : ℕ} (hper : Function.Periodic F (N * h)) (x : ℝ) :
    ∑ j ∈ Finset.range N, F (x + h + j * h) = ∑ j ∈ Finset.range N, F (x + j * h) := by
  have e : ∀ j : ℕ, x + h + j * h = x + ((j + 1 : ℕ) : ℝ) * h := by intro j; push_cast; ring
  simp only [e]
  have h1 := Finset.sum_range_succ (fun j : ℕ => F (x + j * h)) N
  have h2 := Finset.sum_range_succ' (fun j : ℕ => F (x + j * h)) N
  simp only [Nat.cast_zero, zero_mul, add_zero] at h1 h2
  rw [hper x] at h1
  linarith

theorem sum_shift_int {F : ℝ → ℝ} {h : ℝ} {N : ℕ} (hper : Function.Periodic F (N * h)) (x : ℝ) (m : ℤ) :
    ∑ j ∈ Finset.range N, F (x + m * h + j * h) = ∑ j ∈ Finset.range N, F (x + j * h) := by
  induction m using Int.induction_on with
  | zero => simp
  | succ i ih =>
    rw [← ih, ← sum_shift hper (x + ((i : ℤ) : ℝ) * h)]
    refine Finset.sum_congr rfl fun j _ => ?_
    congr 1; push_cast; ring
  | pred i ih =>
    rw [← ih, ← sum_shift hper (x + ((-(i : ℤ) - 1 : ℤ) : ℝ) * h)]
    refine Finset.sum_congr rfl fun j _ => ?_
    congr 1; push_cast; ring

/-- Equally spaced samples, starting anywhere, of a function on the circle with a single peak at 0 and lowest at π. -/
theorem circle_sum {F : ℝ → ℝ} {M : ℝ} {N : ℕ} (hN : 1 ≤ N) (hper : Function.Periodic F (2 * π))
    (heven : ∀ x, F (-x) = F x) (hanti : AntitoneOn F (Icc 0 π)) (h0 : ∀ x, 0 ≤ F x) (hM : ∀ x, F x ≤ M) (x : ℝ) :
    |2 * π / N * ∑ j ∈ Finset.range N, F (x + j * (2 * π / N)) - ∫ l in (-π)..π, F l| ≤ 4 * π / N * M := by
  have hp := pi_pos
  have hN' : (0 : ℝ) < N := by exact_mod_cast hN
  set h := 2 * π / N with hh
  have hh0 : 0 < h := by positivity
  have hNh : N * h = 2 * π := by rw [hh]; field_simp
  have hper' : Function.Periodic F (N * h) := by rw [hNh]; exact hper
  -- start in the first cell
  set m := ⌊(x + π) / h⌋ with hm
  have f1 : (m : ℝ) * h ≤ x + π := by
    have := Int.floor_le ((x + π) / h)
    rwa [le_div_iff₀ hh0] at this
  have f2 : x + π < (m + 1) * h := by
    have := Int.lt_floor_add_one ((x + π) / h)
    rwa [div_lt_iff₀ hh0] at this
  have e1 := sum_shift_int hper' x (-m)
  rw [← e1]
  have hend : -π + N * h = π := by rw [hNh]; ring
  have hy : ∀ j < N, x + ((-m : ℤ) : ℝ) * h + (j : ℕ) * h ∈ Icc (-π + (j : ℝ) * h) (-π + ((j : ℝ) + 1) * h) := by
    intro j _
    push_cast
    constructor <;> nlinarith
  have key := unimodal_cells (F := F) (a := -π) (p := 0) (M := M) hh0.le
    (fun j => x + ((-m : ℤ) : ℝ) * h + (j : ℕ) * h) N (by rw [hend]; constructor <;> linarith) (by
      intro u hu v hv huv
      rw [← heven u, ← heven v]
      exact hanti ⟨by linarith [hv.2], by linarith [hv.1]⟩ ⟨by linarith [hu.2], by linarith [hu.1]⟩ (by linarith))
    (by rw [hend]; exact hanti) h0 hM hy
  rw [hend] at key
  have e2 : 4 * π / N * M = 2 * h * M := by rw [hh]; ring
  rw [e2]
  exact key

/-! ## Caps -/

/-- Integral of the cosine of the latitude over the part of the meridian at longitude difference `l` from the cap
centre (latitude `φ0`) that lies in the cap `{cos distance > k}`. -/
def capColumn (φ0 k l : ℝ) : ℝ := ∫ φ in meridianSet (cos φ0 * cos l) (sin φ0) k, cos φ

theorem meridianSet_sub (A B k : ℝ) : meridianSet A B k ⊆ Icc (-(π / 2)) (π / 2) := fun _ h => h.1

theorem capColumn_nonneg (φ0 k l : ℝ) : 0 ≤ capColumn φ0 k l :=
  setIntegral_nonneg (meridianSet_measurable _ _ _) fun _ h => cos_nonneg_of_mem_Icc h.1

theorem capColumn_le_two (φ0 k l : ℝ) : capColumn φ0 k l ≤ 2 := by
  have := setIntegral_cos_mono (meridianSet_sub (cos φ0 * cos l) (sin φ0) k) subset_rfl measurableSet_Icc
  rw [setIntegral_cos_Icc (by linarith [pi_pos]), sin_neg, sin_pi_div_two] at this
  unfold capColumn
  linarith

theorem capColumn_anti {φ0 : ℝ} (h0 : 0 ≤ cos φ0) (k : ℝ) : AntitoneOn (capColumn φ0 k) (Icc 0 π) := by
  intro l hl l' hl' hll
  refine setIntegral_cos_mono ?_ (meridianSet_sub _ _ _) (meridianSet_measurable _ _ _)
  intro φ hφ
  refine ⟨hφ.1, lt_of_lt_of_le hφ.2 ?_⟩
  have h1 := cos_le_cos_of_nonneg_of_le_pi hl.1 hl'.2 hll
  have h2 := cos_nonneg_of_mem_Icc hφ.1
  have := mul_le_mul_of_nonneg_left (mul_le_mul_of_nonneg_left h1 h0) h2
  linarith

theorem capColumn_periodic (φ0 k : ℝ) : Function.Periodic (capColumn φ0 k) (2 * π) := by
  intro l; simp only [capColumn, cos_add_two_pi]

theorem capColumn_even (φ0 k l : ℝ) : capColumn φ0 k (-l) = capColumn φ0 k l := by
  simp only [capColumn, cos_neg]

/-- The solid angle of a spherical cap, in latitude and longitude, whatever its centre. -/
theorem capColumn_integral {φ0 : ℝ} (h0 : 0 ≤ cos φ0) {k : ℝ} (hk : k ∈ Icc (-1) 1) :
    ∫ l in (-π)..π, capColumn φ0 k l = 2 * π * (1 - k) := by
  have hp := pi_pos
  have hzon := zonal_lintegral ((Ioi k).indicator 1) (measurable_one.indicator measurableSet_Ioi) φ0
  have inner : ∀ (A B : ℝ), ∫⁻ φ in Ioo (-(π / 2)) (π / 2),
      ENNReal.ofReal (cos φ) * (Ioi k).indicator 1 (sin φ * B + cos φ * A) =
      ENNReal.ofReal (∫ φ in meridianSet A B k, cos φ) := by
    intro A B
    rw [ofReal_integral_eq_lintegral_ofReal (cos_integrable _ (meridianSet_sub A B k))
      (by filter_upwards [ae_restrict_mem (meridianSet_measurable A B k)] with φ hφ
          exact cos_nonneg_of_mem_Icc hφ.1)]
    rw [setLIntegral_congr Ioo_ae_eq_Icc, ← lintegral_indicator measurableSet_Icc,
      ← lintegral_indicator (meridianSet_measurable A B k)]
    refine lintegral_congr fun φ => ?_
    by_cases h1 : φ ∈ Icc (-(π / 2)) (π / 2)
    · by_cases h2 : k < sin φ * B + cos φ * A
      · rw [indicator_of_mem h1, indicator_of_mem (by exact h2), indicator_of_mem (show φ ∈ meridianSet A B k from ⟨h1, h2⟩)]
        simp
      · rw [indicator_of_mem h1, indicator_of_notMem (by exact h2),
          indicator_of_notMem (show φ ∉ meridianSet A B k from fun h => h2 h.2), mul_zero]
    · rw [indicator_of_notMem h1, indicator_of_notMem (show φ ∉ meridianSet A B k from fun h => h1 h.1)]
  have hright : ∫⁻ φ in Ioo (-(π / 2)) (π / 2), ENNReal.ofReal (cos φ) * (Ioi k).indicator 1 (sin φ) =
      ENNReal.ofReal (1 - k) := by
    have := inner 0 1
    simp only [mul_one, mul_zero, add_zero] at this
    rw [this]
    congr 1
    have hset : meridianSet 0 1 k =ᵐ[volume] Icc (arcsin k) (π / 2) := by
      have : meridianSet 0 1 k = Ioc (arcsin k) (π / 2) := by
        ext φ
        simp only [meridianSet, mem_ofPred_eq, mul_one, mul_zero, add_zero, mem_Ioc, mem_Icc]
        constructor
        · rintro ⟨h1, h2⟩
          exact ⟨(arcsin_lt_iff_lt_sin hk ⟨h1.1, h1.2⟩).mpr h2, h1.2⟩
        · rintro ⟨h1, h2⟩
          have h3 := (neg_pi_div_two_le_arcsin k).trans h1.le
          exact ⟨⟨h3, h2⟩, (arcsin_lt_iff_lt_sin hk ⟨h3, h2⟩).mp h1⟩
      rw [this]; exact Ioc_ae_eq_Icc
    rw [setIntegral_congr_set hset, setIntegral_cos_Icc (arcsin_le_pi_div_two k), sin_arcsin hk.1 hk.2]
  rw [hright] at hzon
  have hleft : ∀ l, ∫⁻ φ in Ioo (-(π / 2)) (π / 2),
      ENNReal.ofReal (cos φ) * (Ioi k).indicator 1 (sin φ * sin φ0 + cos φ * cos φ0 * cos l) =
      ENNReal.ofReal (capColumn φ0 k l) := by
    intro l
    rw [capColumn, ← inner]
    refine lintegral_congr fun φ => ?_
    rw [mul_assoc]
  simp only [hleft] at hzon
  have hi1 : IntervalIntegrable (capColumn φ0 k) volume 0 π := by
    apply AntitoneOn.intervalIntegrable; rw [uIcc_of_le hp.le]; exact capColumn_anti h0 k
  have hi2 : IntervalIntegrable (capColumn φ0 k) volume (-π) 0 := by
    apply MonotoneOn.intervalIntegrable; rw [uIcc_of_le (by linarith)]
    intro u hu v hv huv
    rw [← capColumn_even φ0 k u, ← capColumn_even φ0 k v]
    exact capColumn_anti h0 k ⟨by linarith [hv.2], by linarith [hv.1]⟩ ⟨by linarith [hu.2], by linarith [hu.1]⟩ (by linarith)
  have hi := hi2.trans hi1
  rw [intervalIntegral.integral_of_le (by linarith), integral_Ioc_eq_integral_Ioo]
  have hon : IntegrableOn (capColumn φ0 k) (Ioo (-π) π) :=
    ((intervalIntegrable_iff_integrableOn_Ioc_of_le (by linarith)).mp hi).mono_set Ioo_subset_Ioc_self
  rw [← ofReal_integral_eq_lintegral_ofReal hon (Filter.Eventually.of_forall fun l => capColumn_nonneg φ0 k l),
    ← ENNReal.ofReal_mul (by positivity)] at hzon
  refine (ENNReal.ofReal_eq_ofReal_iff ?_ ?_).mp hzon
  · exact integral_nonneg fun l => capColumn_nonneg φ0 k l
  · have := hk.2
    exact mul_nonneg (by positivity) (by linarith)

/-- **Grid points in a cap.** The weighted number of points of an `n × N` grid in a cap. -/
theorem cap_sum {δ : ℝ} {n N : ℕ} (hn : 2 ≤ n) (hδ : ((n : ℝ) - 1) * δ = π) (hδ0 : 0 < δ) (hN : 1 ≤ N) {φ0 : ℝ}
    (h0 : 0 ≤ cos φ0) {k : ℝ} (hk : k ∈ Icc (-1) 1) (x : ℝ) :
    |2 * π / N * ∑ j ∈ Finset.range N, rowSum n δ (meridianSet (cos φ0 * cos (x + j * (2 * π / N))) (sin φ0) k) -
      2 * π * (1 - k)| ≤ 2 * π * (δ + δ ^ 2 / 4) + 8 * π / N := by
  have hp := pi_pos
  have hN' : (0 : ℝ) < N := by exact_mod_cast hN
  have h1 := circle_sum hN (capColumn_periodic φ0 k) (capColumn_even φ0 k) (capColumn_anti h0 k) (capColumn_nonneg φ0 k)
    (capColumn_le_two φ0 k) x
  rw [capColumn_integral h0 hk] at h1
  have h2 : |∑ j ∈ Finset.range N, rowSum n δ (meridianSet (cos φ0 * cos (x + j * (2 * π / N))) (sin φ0) k) -
      ∑ j ∈ Finset.range N, capColumn φ0 k (x + j * (2 * π / N))| ≤ N * (δ + δ ^ 2 / 4) := by
    rw [← Finset.sum_sub_distrib]
    refine (Finset.abs_sum_le_sum_abs _ _).trans ?_
    refine (Finset.sum_le_card_nsmul _ _ (δ + δ ^ 2 / 4) fun j _ => column_rows hn hδ hδ0 _ _ _).trans ?_
    rw [Finset.card_range, nsmul_eq_mul]
  have h3 : |2 * π / N * ∑ j ∈ Finset.range N, rowSum n δ (meridianSet (cos φ0 * cos (x + j * (2 * π / N))) (sin φ0) k) -
      2 * π / N * ∑ j ∈ Finset.range N, capColumn φ0 k (x + j * (2 * π / N))| ≤ 2 * π * (δ + δ ^ 2 / 4) := by
    rw [← mul_sub, abs_mul, abs_of_pos (by positivity)]
    calc _ ≤ 2 * π / N * (N * (δ + δ ^ 2 / 4)) := mul_le_mul_of_nonneg_left h2 (by positivity)
      _ = _ := by field_simp
  have e : 4 * π / N * 2 = 8 * π / N := by ring
  rw [e] at h1
  exact (abs_sub_le _ _ _).trans (add_le_add h3 h1)

end Vsm
