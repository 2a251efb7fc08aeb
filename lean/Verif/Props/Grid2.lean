import Verif.Props.Grid

/-!
# C05 – C08: resampling, equality and construction of grids
-/

noncomputable section

namespace Vsm

open Real Spec

/-! ## C05 -/

theorem spiralWeight_pos (n nlat nlon : ℕ) (p) (k : Fin n) : 0 < Grid.spiralWeight n nlat nlon p k :=
  Real.exp_pos _

theorem spiralWeight_sum_pos (n nlat nlon : ℕ) (hn : 1 ≤ n) (p) :
    0 < ∑ k : Fin n, Grid.spiralWeight n nlat nlon p k :=
  Finset.sum_pos (fun k _ => spiralWeight_pos n nlat nlon p k) ⟨⟨0, hn⟩, Finset.mem_univ _⟩

/-- **C05** Resampling a spiral map of `n ≥ 1` points onto `nlat × nlon` points: there are weights in
`[0,1]` adding up to 1 at every target pixel (the same for all data) such that every data array of length
`n` is mapped to its weighted mean.  The result has the requested shape and axes.  Hence the result is
linear in the data, between the minimum and the maximum of the data, and constant for constant data
(see the corollaries).  A nearer point never weighs less than a farther one. -/
theorem C05_display_spiral (n nlat nlon : ℕ) (hn : 1 ≤ n) :
    ∃ w : Fin nlon → Fin nlat → Fin n → ℝ,
      (∀ i j k, 0 < w i j k) ∧ (∀ i j, ∑ k, w i j k = 1) ∧
      (∀ i j k l,
        greatCircle ((Grid.spiral n).lat k) ((Grid.spiral n).lon k)
            ((Grid.rect nlat nlon).lat (i, j)) ((Grid.rect nlat nlon).lon (i, j))
          ≤ greatCircle ((Grid.spiral n).lat l) ((Grid.spiral n).lon l)
            ((Grid.rect nlat nlon).lat (i, j)) ((Grid.rect nlat nlon).lon (i, j)) → w i j l ≤ w i j k) ∧
      ∀ f : Fin n → ℝ, ∃ D, (Grid.spiral n).display nlat nlon (.one n f) = .ok D ∧
        D.lats.length = nlat ∧ D.lons.length = nlon ∧
        ∃ (h1 : D.n = nlon) (h2 : D.m = nlat), ∀ (i : Fin nlon) (j : Fin nlat),
          D.data (Fin.cast h1.symm i) (Fin.cast h2.symm j) = ∑ k, w i j k * f k := by
  refine ⟨fun i j k => Grid.spiralWeight n nlat nlon (i, j) k /
    ∑ l : Fin n, Grid.spiralWeight n nlat nlon (i, j) l, ?_, ?_, ?_, ?_⟩
  · intro i j k
    exact div_pos (spiralWeight_pos _ _ _ _ _) (spiralWeight_sum_pos n nlat nlon hn _)
  · intro i j
    rw [← Finset.sum_div, div_self (spiralWeight_sum_pos n nlat nlon hn _).ne']
  · intro i j k l h
    apply div_le_div_of_nonneg_right _ (spiralWeight_sum_pos n nlat nlon hn _).le
    rw [greatCircle_eq, greatCircle_eq] at h
    simp only [Grid.spiralWeight, Grid.mu, Grid.cosAngle]
    apply Real.exp_le_exp.mpr
    apply neg_le_neg
    have hp : (0 : ℝ) < n := by exact_mod_cast hn
    have := arccos_nonneg (sin ((Grid.spiral n).lat k) * sin ((Grid.rect nlat nlon).lat (i, j)) +
      cos ((Grid.spiral n).lat k) * cos ((Grid.rect nlat nlon).lat (i, j)) *
        cos ((Grid.spiral n).lon k - (Grid.rect nlat nlon).lon (i, j)))
    have := pi_pos
    gcongr
  · intro f
    have hD : (Grid.spiral n).display nlat nlon (.one n f) = .ok ⟨Grid.latAxis nlat, Grid.lonAxis nlon,
        nlon, nlat, fun i j => (∑ k, Grid.spiralWeight n nlat nlon (i, j) k * f k) /
          ∑ k, Grid.spiralWeight n nlat nlon (i, j) k⟩ := by
      simp only [Grid.display, Grid.displaySpiral, dite_true]; rfl
    refine ⟨_, hD, ?_, ?_, rfl, rfl, ?_⟩
    · simp [Grid.latAxis]
    · simp [Grid.lonAxis]
    · intro i j
      simp only [Fin.cast_refl]
      rw [Finset.sum_div]
      apply Finset.sum_congr rfl
      intro k _
      rw [mul_div_right_comm]
      rfl

/-- **C05** (bounds) every resampled value is between the bounds of the data; constant data is
reproduced. -/
theorem C05_display_spiral_bounds (n nlat nlon : ℕ) (hn : 1 ≤ n) (f : Fin n → ℝ) (lo hi : ℝ)
    (hlo : ∀ k, lo ≤ f k) (hhi : ∀ k, f k ≤ hi) :
    ∃ D, (Grid.spiral n).display nlat nlon (.one n f) = .ok D ∧
      ∀ i j, lo ≤ D.data i j ∧ D.data i j ≤ hi := by
  obtain ⟨w, hw0, hw1, -, hw⟩ := C05_display_spiral n nlat nlon hn
  obtain ⟨D, hD, -, -, h1, h2, hd⟩ := hw f
  refine ⟨D, hD, fun i j => ?_⟩
  have := hd (Fin.cast h1 i) (Fin.cast h2 j)
  simp only [Fin.cast_cast, Fin.cast_eq_self] at this
  rw [this]
  set i' := Fin.cast h1 i
  set j' := Fin.cast h2 j
  constructor
  · calc lo = ∑ k, w i' j' k * lo := by rw [← Finset.sum_mul, hw1, one_mul]
      _ ≤ _ := Finset.sum_le_sum fun k _ => mul_le_mul_of_nonneg_left (hlo k) (hw0 _ _ _).le
  · calc _ ≤ ∑ k, w i' j' k * hi :=
          Finset.sum_le_sum fun k _ => mul_le_mul_of_nonneg_left (hhi k) (hw0 _ _ _).le
      _ = hi := by rw [← Finset.sum_mul, hw1, one_mul]

/-- **C05** (errors) resampling raises `ValueError` exactly when the data is not one dimensional with
`n_points` entries, and no other exception. -/
theorem C05_display_spiral_errors (n nlat nlon : ℕ) (d : Grid.Data) :
    ((∃ e, (Grid.spiral n).display nlat nlon d = .error e) ↔ ¬ ∃ f : Fin n → ℝ, d = .one n f) ∧
    ∀ e, (Grid.spiral n).display nlat nlon d = .error e → e = .valueError := by
  cases d with
  | one m f =>
    by_cases h : m = n
    · subst h
      simp [Grid.display, Grid.displaySpiral]
    · simp only [Grid.display, Grid.displaySpiral, h, dite_false]
      refine ⟨⟨fun _ => ?_, fun _ => ⟨_, rfl⟩⟩, fun e he => by cases he; rfl⟩
      rintro ⟨f', hf⟩
      cases hf
      exact h rfl
  | two a b f => simp [Grid.display, Grid.displaySpiral]
  | higher => simp [Grid.display, Grid.displaySpiral]

/-- Non-trivial instance. -/
example : ∃ D, (Grid.spiral 2).display 3 4 (.one 2 ![1, 5]) = .ok D ∧
    ∀ i j, 1 ≤ D.data i j ∧ D.data i j ≤ 5 :=
  C05_display_spiral_bounds 2 3 4 (by norm_num) _ 1 5 (by intro k; fin_cases k <;> simp)
    (by intro k; fin_cases k <;> simp)

/-! ## C06 -/

/-- **C06** (partial) `a == b` is `True` for two grids only if they are of the same kind with the same
sizes, `a == a` is `True`; between grids of the same kind, and with a spiral grid on the left, the
comparison answers.  Missing from the full statement: it must not raise for two `CoordinateGrid` objects
and must be symmetric – refuted by `C06_counterexample`. -/
theorem C06_eq_partial (a b : Grid) :
    (Grid.eq a b = .ok true ↔ a = b) ∧
    (Grid.eq a b = .ok false ∨ Grid.eq a b = .ok true ∨
      (Grid.eq a b = .error .typeError ∧ ∃ m n k, a = .rect m n ∧ b = .spiral k)) ∧
    ((∃ m n k l, a = .rect m n ∧ b = .rect k l) ∨ (∃ m n, a = .spiral m ∧ b = .spiral n) →
      Grid.eq a b = Grid.eq b a) := by
  cases a <;> cases b <;> simp [Grid.eq]
  · rename_i a b c d
    constructor
    · by_cases h : a = c ∧ b = d
      · right; exact h
      · left; intro h1 h2; exact h ⟨h1, h2⟩
    · rw [Bool.eq_iff_iff]; simp; tauto
  · rename_i a b
    constructor
    · tauto
    · exact eq_comm

/-- The full statement of C06 is false of the code: comparing a rectangular with a spiral grid raises
`TypeError`, in the other order it answers `False`. -/
theorem C06_counterexample :
    ¬ (∀ a b : Grid, (∃ r, Grid.eq a b = .ok r) ∧ Grid.eq a b = Grid.eq b a) := by
  intro h
  obtain ⟨⟨r, hr⟩, -⟩ := h (.rect 500 1000) (.spiral 1000)
  simp [Grid.eq] at hr

/-! ## C07 -/

/-- **C07** (partial) `RectangularGrid.display_grid(nlat, nlon, data)` answers exactly when the data has
shape `(nlon, nlat)`, raising `TypeError` otherwise; the data is returned unchanged; the axes have the
*grid's own* sizes, which are the requested ones when `nlat, nlon` are the grid's sizes.  Missing: axes of
the requested sizes for other `nlat, nlon` – refuted by `C07_counterexample`. -/
theorem C07_display_rect_partial (gnlat gnlon nlat nlon : ℕ) (d : Grid.Data) :
    ((∃ D, (Grid.rect gnlat gnlon).display nlat nlon d = .ok D) ↔
      ∃ f : Fin nlon → Fin nlat → ℝ, d = .two nlon nlat f) ∧
    (∀ e, (Grid.rect gnlat gnlon).display nlat nlon d = .error e → e = .typeError) ∧
    ∀ f : Fin nlon → Fin nlat → ℝ, ∃ D,
      (Grid.rect gnlat gnlon).display nlat nlon (.two nlon nlat f) = .ok D ∧
      (∃ (h1 : D.n = nlon) (h2 : D.m = nlat), ∀ i j,
        D.data i j = f (Fin.cast h1 i) (Fin.cast h2 j)) ∧
      D.lats.length = gnlat ∧ D.lons.length = gnlon ∧
      (nlat = gnlat → nlon = gnlon → D.lats.length = nlat ∧ D.lons.length = nlon) := by
  refine ⟨?_, ?_, ?_⟩
  · cases d with
    | one m f => simp [Grid.display, Grid.displayRect]
    | higher => simp [Grid.display, Grid.displayRect]
    | two a b f =>
      simp only [Grid.display, Grid.displayRect]
      by_cases h1 : a = nlon
      · by_cases h2 : b = nlat
        · subst h1 h2; simp
        · simp only [h1, h2, ne_eq, not_true, not_false_iff, if_true, if_false]
          refine ⟨fun ⟨D, h⟩ => by simp at h, fun ⟨f', h⟩ => ?_⟩
          cases h; exact absurd rfl h2
      · simp only [h1, ne_eq, not_false_iff, if_true]
        refine ⟨fun ⟨D, h⟩ => by simp at h, fun ⟨f', h⟩ => ?_⟩
        cases h; exact absurd rfl h1
  · intro e he
    cases d with
    | one m f => simp [Grid.display, Grid.displayRect] at he; exact he.symm
    | higher => simp [Grid.display, Grid.displayRect] at he; exact he.symm
    | two a b f =>
      simp only [Grid.display, Grid.displayRect] at he
      split_ifs at he <;> simp at he <;> exact he.symm
  · intro f
    have hD : (Grid.rect gnlat gnlon).display nlat nlon (.two nlon nlat f) =
        .ok ⟨Grid.latAxis gnlat, Grid.lonAxis gnlon, nlon, nlat, f⟩ := by
      simp only [Grid.display, Grid.displayRect, ne_eq, not_true, if_false]
    refine ⟨_, hD, ⟨rfl, rfl, fun i j => rfl⟩, ?_, ?_, ?_⟩
    · simp [Grid.latAxis]
    · simp [Grid.lonAxis]
    · intro h1 h2; simp [Grid.latAxis, Grid.lonAxis, h1, h2]

/-- The full statement of C07 is false of the code: a 2 × 3 grid asked to display a 5 × 4 map answers with
axes of lengths 2 and 3. -/
theorem C07_counterexample :
    ∃ D, (Grid.rect 2 3).display 4 5 (.two 5 4 fun _ _ => 0) = .ok D ∧
      D.lats.length ≠ 4 ∧ D.lons.length ≠ 5 := by
  have hD : (Grid.rect 2 3).display 4 5 (.two 5 4 fun _ _ => 0) =
      .ok ⟨Grid.latAxis 2, Grid.lonAxis 3, 5, 4, fun _ _ => 0⟩ := by
    simp only [Grid.display, Grid.displayRect, ne_eq, not_true, if_false]
  refine ⟨_, hD, ?_, ?_⟩ <;> simp [Grid.latAxis, Grid.lonAxis]

/-! ## C08 -/

/-- **C08** `CoordinateGrid.new`: an int gives a spiral grid, a tuple of at most two ints a rectangular
grid (missing sizes default to 500 and 1000), everything else raises `TypeError`. -/
theorem C08_new (v : Grid.PyVal) :
    (∀ n, v = .int n → Grid.Obj.new v = .ok (.spiral n)) ∧
    (∀ a b, v = .tuple [.int a, .int b] → Grid.Obj.new v = .ok (.rect a b)) ∧
    (∀ a, v = .tuple [.int a] → Grid.Obj.new v = .ok (.rect a 1000)) ∧
    (v = .tuple [] → Grid.Obj.new v = .ok (.rect 500 1000)) ∧
    ((¬ ∃ n, v = .int n) → (¬ ∃ a b, v = .tuple [.int a, .int b]) → (¬ ∃ a, v = .tuple [.int a]) →
      v ≠ .tuple [] → Grid.Obj.new v = .error .typeError) := by
  refine ⟨?_, ?_, ?_, ?_, ?_⟩
  · rintro n rfl; rfl
  · rintro a b rfl; rfl
  · rintro a rfl; rfl
  · rintro rfl; rfl
  · intro h1 h2 h3 h4
    match v with
    | .int n => exact absurd ⟨n, rfl⟩ h1
    | .other => rfl
    | .tuple [] => exact absurd rfl h4
    | .tuple [.int a] => exact absurd ⟨a, rfl⟩ h3
    | .tuple [.tuple _] => rfl
    | .tuple [.other] => rfl
    | .tuple [.int a, .int b] => exact absurd ⟨a, b, rfl⟩ h2
    | .tuple [.int a, .tuple _] => rfl
    | .tuple [.int a, .other] => rfl
    | .tuple [.tuple _, _] => rfl
    | .tuple [.other, _] => rfl
    | .tuple (_ :: _ :: _ :: _) => rfl

example : Grid.Obj.new (.tuple [.int 500, .int 1000]) = .ok (.rect 500 1000) :=
  (C08_new _).2.1 500 1000 rfl

end Vsm
