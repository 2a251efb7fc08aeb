import Verif.Lemmas.Sphere
import Verif.Lemmas.Round
import Verif.Model.Spots
import Verif.Model.Faculae

/-!
# C09 – C12, C15, C16: angles, distances, projection, temperature helpers
-/

noncomputable section

namespace Vsm

open Real Spec

/-! ## C09 -/

/-- **C09** `get_angle_between` is a finite number in `[0,π]`, symmetric, zero exactly for the same point
of the sphere, satisfies the triangle inequality, and is invariant under a rotation about the axis.
It is the angle between the two unit vectors. -/
theorem C09_angle_between :
    ∃ d : ℝ → ℝ → ℝ → ℝ → ℝ,
      (∀ a b c e, Helpers.angleBetween a b c e = .fin (d a b c e)) ∧
      (∀ a b c e, cos (d a b c e) = inner ℝ (unitVec a b) (unitVec c e)) ∧
      (∀ a b c e, 0 ≤ d a b c e ∧ d a b c e ≤ π) ∧
      (∀ a b c e, d a b c e = d c e a b) ∧
      (∀ a b c e, d a b c e = 0 ↔ unitVec a b = unitVec c e) ∧
      (∀ a b c e f g, d a b f g ≤ d a b c e + d c e f g) ∧
      (∀ a b c e s, d a (b + s) c (e + s) = d a b c e) := by
  refine ⟨greatCircle, angleBetween_eq, ?_, ?_, ?_, greatCircle_eq_zero_iff, ?_, ?_⟩
  · intro a b c e
    rw [greatCircle_eq, cos_arccos (cosExpr_mem a b c e).1 (cosExpr_mem a b c e).2, inner_unitVec]
  · intro a b c e
    exact ⟨InnerProductGeometry.angle_nonneg _ _, InnerProductGeometry.angle_le_pi _ _⟩
  · intro a b c e
    exact InnerProductGeometry.angle_comm _ _
  · intro a b c e f g
    exact InnerProductGeometry.angle_le_angle_add_angle _ _ _
  · intro a b c e s
    rw [greatCircle_eq, greatCircle_eq, add_sub_add_right_eq_sub]

/-- For latitudes strictly between the poles, "the same point" means the same latitude and the same
longitude up to full turns. -/
theorem C09_angle_between_zero {a b c e : ℝ} (ha : a ∈ Set.Ioo (-(π / 2)) (π / 2))
    (hc : c ∈ Set.Icc (-(π / 2)) (π / 2)) :
    Helpers.angleBetween a b c e = .fin 0 ↔ a = c ∧ ∃ k : ℤ, b = e + k * (2 * π) := by
  rw [angleBetween_eq, Fl.fin_inj, greatCircle_eq_zero_iff, unitVec_eq_iff ha hc]

/-- Non-trivial instance: a quarter of the equator. -/
example : Helpers.angleBetween 0 0 0 (π / 2) = .fin (π / 2) := by
  rw [angleBetween_eq, greatCircle_eq]; simp

/-! ## C10 -/

/-- **C10** The distance array a spot (`StarSpot.set_gridmaker`) or facula (`Facula._r`) compares with its
angular radius is, pixel by pixel, `get_angle_between(centre, pixel)`. -/
theorem C10_pixel_distance :
    (∀ (s : StarSpot) (g : Grid), (s.setGridmaker g).r.1 = g ∧
      ∀ e : (s.setGridmaker g).r.1.Pix,
        Helpers.angleBetween s.lat s.lon ((s.setGridmaker g).r.1.lat e) ((s.setGridmaker g).r.1.lon e)
          = .fin ((s.setGridmaker g).r.2 e)) ∧
    (∀ f : Facula, f.dist.1 = f.grid ∧ ∀ e : f.dist.1.Pix,
      Helpers.angleBetween f.lat f.lon (f.dist.1.lat e) (f.dist.1.lon e) = .fin (f.dist.2 e)) := by
  refine ⟨fun s g => ⟨rfl, fun e => ?_⟩, fun f => ⟨rfl, fun e => ?_⟩⟩
  · rw [angleBetween_eq, ← haversine_eq]; rfl
  · rw [angleBetween_eq, ← haversine_eq]; rfl

/-! ## C11, C12 -/

/-- Orthographic coordinates of a point seen from above `(lat0, lon0)` (spec). -/
def Spec.orthoX (_lat0 lon0 lat lon : ℝ) : ℝ := cos lat * sin (lon - lon0)
/-- Orthographic coordinates of a point seen from above `(lat0, lon0)` (spec). -/
def Spec.orthoY (lat0 lon0 lat lon : ℝ) : ℝ :=
  cos lat0 * sin lat - sin lat0 * cos lat * cos (lon - lon0)

/-- Cosine of the angle between the point and the centre (spec). -/
def Spec.cosDist (lat0 lon0 lat lon : ℝ) : ℝ := inner ℝ (unitVec lat0 lon0) (unitVec lat lon)

theorem ortho_sq (lat0 lon0 lat lon : ℝ) :
    orthoX lat0 lon0 lat lon ^ 2 + orthoY lat0 lon0 lat lon ^ 2 = 1 - cosDist lat0 lon0 lat lon ^ 2 := by
  rw [cosDist, inner_unitVec, orthoX, orthoY, ← cos_neg (lon0 - lon), neg_sub]
  have h1 := sin_sq_add_cos_sq lat0
  have h2 := sin_sq_add_cos_sq lat
  have h3 := sin_sq_add_cos_sq (lon - lon0)
  generalize sin lat0 = a at *
  generalize cos lat0 = b at *
  generalize sin lat = c at *
  generalize cos lat = d at *
  generalize sin (lon - lon0) = e at *
  generalize cos (lon - lon0) = f at *
  linear_combination (c ^ 2 + d ^ 2 * f ^ 2) * h1 + h2 + d ^ 2 * h3

theorem round4_fin (x : ℝ) : Helpers.round4 (.fin x) = .fin ((Np.roundHalfEven (10 ^ 4 * x) : ℝ) / 10 ^ 4) := rfl

theorem round4_err (x : ℝ) : |(Np.roundHalfEven (10 ^ 4 * x) : ℝ) / 10 ^ 4 - x| ≤ 5e-5 := by
  have := Np.abs_roundHalfEven_sub_le (10 ^ 4 * x)
  rw [abs_le] at *
  constructor <;> linarith [this.1, this.2]

theorem round4_mem {x : ℝ} (h1 : -1 ≤ x) (h2 : x ≤ 1) :
    -1 ≤ (Np.roundHalfEven (10 ^ 4 * x) : ℝ) / 10 ^ 4 ∧ (Np.roundHalfEven (10 ^ 4 * x) : ℝ) / 10 ^ 4 ≤ 1 := by
  have ha : Np.roundHalfEven (10 ^ 4 * x) ≤ 10000 := by
    have := Np.roundHalfEven_mono (show 10 ^ 4 * x ≤ ((10000 : ℤ) : ℝ) by push_cast; linarith)
    rwa [Np.roundHalfEven_int] at this
  have hb : -10000 ≤ Np.roundHalfEven (10 ^ 4 * x) := by
    have := Np.roundHalfEven_mono (show ((-10000 : ℤ) : ℝ) ≤ 10 ^ 4 * x by push_cast; linarith)
    rwa [Np.roundHalfEven_int] at this
  have ha' : (Np.roundHalfEven (10 ^ 4 * x) : ℝ) ≤ 10000 := by exact_mod_cast ha
  have hb' : (-10000 : ℝ) ≤ Np.roundHalfEven (10 ^ 4 * x) := by exact_mod_cast hb
  constructor
  · rw [le_div_iff₀ (by norm_num)]; linarith
  · rw [div_le_iff₀ (by norm_num)]; linarith

/-- What `proj_ortho` computes away from the poles for a point of the near side: position angle `C`. -/
theorem projOrtho_near {lat0 lon0 lat lon : ℝ} (h0 : lat0 ∈ Set.Ioo (-(π / 2)) (π / 2))
    (hl : lat ∈ Set.Icc (-(π / 2)) (π / 2)) (hmu : 0 ≤ cosDist lat0 lon0 lat lon) :
    ∃ C : ℝ, Helpers.projOrtho lat0 lon0 lat lon =
        (.fin (sin C * √(1 - cosDist lat0 lon0 lat lon ^ 2)), .fin (cos C * √(1 - cosDist lat0 lon0 lat lon ^ 2))) ∧
      |cos C * √(1 - cosDist lat0 lon0 lat lon ^ 2) - orthoY lat0 lon0 lat lon|
        ≤ 5e-5 * √(1 - cosDist lat0 lon0 lat lon ^ 2) ∧
      (sin (lon - lon0) < 0 → sin C ≤ 0) ∧ (0 ≤ sin (lon - lon0) → 0 ≤ sin C) := by
  have hsq := ortho_sq lat0 lon0 lat lon
  have hmu' : sin lat0 * sin lat + cos lat0 * cos lat * cos (lon0 - lon) = cosDist lat0 lon0 lat lon := by
    rw [cosDist, inner_unitVec]
  have hmem := cosExpr_mem lat0 lon0 lat lon
  rw [hmu'] at hmem
  have hb0 : π / 2 - lat0 ≠ 0 := by have := h0.2; intro h; linarith
  have hbpi : π / 2 - lat0 ≠ π := by have := h0.1; intro h; linarith
  have hc0 : 0 < cos lat0 := cos_pos_of_mem_Ioo h0
  simp only [Helpers.projOrtho, hb0, hbpi, if_false, hmu', Fl.arccos_fin hmem.1 hmem.2, Fl.cos_fin,
    Fl.sin_fin, cos_arccos hmem.1 hmem.2, sin_arccos, cos_pi_div_two_sub, sin_pi_div_two_sub, hmu, if_true,
    Fl.fin_mul, Fl.fin_sub]
  set m := cosDist lat0 lon0 lat lon with hm
  set Y := orthoY lat0 lon0 lat lon with hY
  set S := √(1 - m ^ 2) with hS
  have hS0 : 0 ≤ S := sqrt_nonneg _
  have hnum : sin lat - m * sin lat0 = cos lat0 * Y := by
    rw [← hmu', hY, orthoY, ← cos_neg (lon0 - lon), neg_sub]
    linear_combination -(sin lat) * sin_sq_add_cos_sq lat0
  -- final step shared by all branches
  have final : ∀ (C₂ : Fl) (c : ℝ), C₂ = .fin c → 0 ≤ sin c → |cos c * S - Y| ≤ 5e-5 * S →
      ∃ C : ℝ, ((Fl.sin (if sin (lon - lon0) < 0 then -C₂ else C₂) * .fin S,
        Fl.cos (if sin (lon - lon0) < 0 then -C₂ else C₂) * .fin S) : Fl × Fl) =
        (.fin (sin C * S), .fin (cos C * S)) ∧ |cos C * S - Y| ≤ 5e-5 * S ∧
        (sin (lon - lon0) < 0 → sin C ≤ 0) ∧ (0 ≤ sin (lon - lon0) → 0 ≤ sin C) := by
    rintro C₂ c rfl hs hc
    by_cases hneg : sin (lon - lon0) < 0
    · refine ⟨-c, by simp [hneg], by simpa using hc, fun _ => by simpa using hs, fun h => absurd h (not_le.mpr hneg)⟩
    · refine ⟨c, by simp [hneg], hc, fun h => absurd h hneg, fun _ => hs⟩
  by_cases hlon : lon = lon0
  · -- same meridian
    have hYe : Y = sin (lat - lat0) := by rw [hY, orthoY, hlon, sub_self, cos_zero, sin_sub]; ring
    have hSe : S = |Y| := by
      rw [hS, ← hsq, orthoX, hlon, sub_self, sin_zero, ← sqrt_sq_eq_abs]; congr 1; ring
    by_cases hlt : lat < lat0
    · refine final _ π ?_ ?_ ?_
      · simp [hlon, hlt]
      · simp
      · have : Y ≤ 0 := by
          rw [hYe, ← neg_nonneg, ← sin_neg]
          apply sin_nonneg_of_nonneg_of_le_pi <;> linarith [h0.1, h0.2, hl.1, hl.2]
        rw [hSe, abs_of_nonpos this]; simp; linarith
    · refine final _ 0 ?_ ?_ ?_
      · simp [hlon, hlt]
      · simp
      · have : 0 ≤ Y := by
          rw [hYe]
          apply sin_nonneg_of_nonneg_of_le_pi <;> linarith [h0.1, h0.2, hl.1, hl.2]
        rw [hSe, abs_of_nonneg this]; simp; linarith
  · by_cases hm1 : m < 1
    · have hSpos : 0 < S := by rw [hS]; apply sqrt_pos.mpr; nlinarith
      have hS2 : S ^ 2 = 1 - m ^ 2 := by rw [hS, sq_sqrt]; nlinarith
      have hden : S * cos lat0 ≠ 0 := by positivity
      have hq : (sin lat - m * sin lat0) / (S * cos lat0) = Y / S := by
        rw [hnum]; field_simp
      have hYS : -1 ≤ Y / S ∧ Y / S ≤ 1 := by
        rw [← abs_le, abs_div, abs_of_pos hSpos, div_le_one hSpos]
        apply abs_le_of_sq_le_sq _ hSpos.le
        rw [hS2, ← hsq]; nlinarith [sq_nonneg (orthoX lat0 lon0 lat lon)]
      have hr := round4_mem hYS.1 hYS.2
      refine final _ (arccos ((Np.roundHalfEven (10 ^ 4 * (Y / S)) : ℝ) / 10 ^ 4)) ?_ ?_ ?_
      · simp only [hlon, hm1, false_and, if_false, if_true, Fl.fin_inj, hden]
        rw [Fl.fin_div hden, hq, round4_fin, Fl.arccos_fin hr.1 hr.2]
      · rw [sin_arccos]; exact sqrt_nonneg _
      · rw [cos_arccos hr.1 hr.2]
        have := round4_err (Y / S)
        have h2 := mul_le_mul_of_nonneg_right this hSpos.le
        rw [← abs_of_pos hSpos, ← abs_mul, abs_of_pos hSpos, sub_mul, div_mul_cancel₀ _ hSpos.ne'] at h2
        exact h2
    · have hm1' : m = 1 := le_antisymm hmem.2 (not_lt.mp hm1)
      have hSz : S = 0 := by rw [hS, hm1']; simp
      have hYz : Y = 0 := by
        have : Y ^ 2 ≤ 0 := by
          have : orthoX lat0 lon0 lat lon ^ 2 + Y ^ 2 = 0 := by rw [hsq, hm1']; norm_num
          nlinarith [sq_nonneg (orthoX lat0 lon0 lat lon)]
        nlinarith
      have hr := round4_mem (show (-1 : ℝ) ≤ 1 by norm_num) le_rfl
      refine final _ (arccos ((Np.roundHalfEven (10 ^ 4 * 1) : ℝ) / 10 ^ 4)) ?_ ?_ ?_
      · simp only [hlon, hm1, false_and, if_false]
        rw [round4_fin, Fl.arccos_fin hr.1 hr.2]
      · rw [sin_arccos]; exact sqrt_nonneg _
      · rw [hSz, hYz]; simp

theorem projOrtho_far {lat0 lon0 lat lon : ℝ} (h0 : lat0 ∈ Set.Ioo (-(π / 2)) (π / 2))
    (hmu : cosDist lat0 lon0 lat lon < 0) : Helpers.projOrtho lat0 lon0 lat lon = (.nan, .nan) := by
  have hmu' : sin lat0 * sin lat + cos lat0 * cos lat * cos (lon0 - lon) = cosDist lat0 lon0 lat lon := by
    rw [cosDist, inner_unitVec]
  have hb0 : π / 2 - lat0 ≠ 0 := by have := h0.2; intro h; linarith
  have hbpi : π / 2 - lat0 ≠ π := by have := h0.1; intro h; linarith
  simp [Helpers.projOrtho, hb0, hbpi, hmu', not_le.mpr hmu]

theorem cosDist_north (lon0 lat lon : ℝ) : cosDist (π / 2) lon0 lat lon = sin lat := by
  rw [cosDist, inner_unitVec]; simp

theorem cosDist_south (lon0 lat lon : ℝ) : cosDist (-(π / 2)) lon0 lat lon = -sin lat := by
  rw [cosDist, inner_unitVec]; simp

theorem projOrtho_north (lon0 lat lon : ℝ) : Helpers.projOrtho (π / 2) lon0 lat lon =
    if 0 ≤ lat then (.fin (sin lon * cos lat), .fin (-cos lon * cos lat)) else (.nan, .nan) := by
  by_cases h : 0 ≤ lat
  · simp [Helpers.projOrtho, h, sin_pi_div_two_sub]
  · simp [Helpers.projOrtho, h]

theorem projOrtho_south (lon0 lat lon : ℝ) : Helpers.projOrtho (-(π / 2)) lon0 lat lon =
    if lat ≤ 0 then (.fin (sin lon * cos lat), .fin (cos lon * cos lat)) else (.nan, .nan) := by
  have h1 : π / 2 - -(π / 2) = π := by ring
  have h2 : π ≠ 0 := pi_ne_zero
  by_cases h : lat ≤ 0
  · simp [Helpers.projOrtho, h1, h2, h, sin_pi_div_two_sub]
  · have : ¬ lat ≤ 0 := h
    simp [Helpers.projOrtho, h1, h2, h]

/-- **C11** For every centre (poles included) and every point: both coordinates are NaN if the point is on
the far hemisphere; otherwise both are finite and `x² + y²` is exactly `sin²` of the angle between centre
and point. -/
theorem C11_ortho_radius (lat0 lon0 lat lon : ℝ) (h0 : lat0 ∈ Set.Icc (-(π / 2)) (π / 2))
    (hl : lat ∈ Set.Icc (-(π / 2)) (π / 2)) :
    (π / 2 < greatCircle lat0 lon0 lat lon → Helpers.projOrtho lat0 lon0 lat lon = (.nan, .nan)) ∧
    (greatCircle lat0 lon0 lat lon ≤ π / 2 → ∃ x y : ℝ,
      Helpers.projOrtho lat0 lon0 lat lon = (.fin x, .fin y) ∧
      x ^ 2 + y ^ 2 = sin (greatCircle lat0 lon0 lat lon) ^ 2 ∧ x ^ 2 + y ^ 2 ≤ 1) := by
  have hg : cos (greatCircle lat0 lon0 lat lon) = cosDist lat0 lon0 lat lon := by
    rw [greatCircle_eq, cos_arccos (cosExpr_mem _ _ _ _).1 (cosExpr_mem _ _ _ _).2, cosDist, inner_unitVec]
  have hgm : 0 ≤ greatCircle lat0 lon0 lat lon ∧ greatCircle lat0 lon0 lat lon ≤ π :=
    ⟨InnerProductGeometry.angle_nonneg _ _, InnerProductGeometry.angle_le_pi _ _⟩
  have hfar : π / 2 < greatCircle lat0 lon0 lat lon → cosDist lat0 lon0 lat lon < 0 := by
    intro h; rw [← hg]; exact cos_neg_of_pi_div_two_lt_of_lt h (by linarith [pi_pos])
  have hnear : greatCircle lat0 lon0 lat lon ≤ π / 2 → 0 ≤ cosDist lat0 lon0 lat lon := by
    intro h; rw [← hg]; exact cos_nonneg_of_mem_Icc ⟨by linarith [pi_pos], h⟩
  have hsin : sin (greatCircle lat0 lon0 lat lon) ^ 2 = 1 - cosDist lat0 lon0 lat lon ^ 2 := by
    rw [← hg]; linarith [sin_sq_add_cos_sq (greatCircle lat0 lon0 lat lon)]
  refine ⟨fun h => ?_, fun h => ?_⟩
  · have hneg := hfar h
    rcases eq_or_lt_of_le h0.1 with h1 | h1
    · rw [← h1] at hneg ⊢
      rw [cosDist_south] at hneg
      rw [projOrtho_south, if_neg]
      intro hle
      have : sin lat ≤ 0 := by
        rw [← neg_nonneg, ← sin_neg]; apply sin_nonneg_of_nonneg_of_le_pi <;> linarith [hl.1, pi_pos]
      linarith
    · rcases eq_or_lt_of_le h0.2 with h2 | h2
      · rw [h2] at hneg ⊢
        rw [cosDist_north] at hneg
        rw [projOrtho_north, if_neg]
        intro hle
        have : 0 ≤ sin lat := by apply sin_nonneg_of_nonneg_of_le_pi <;> linarith [hl.2, pi_pos]
        linarith
      · exact projOrtho_far ⟨h1, h2⟩ hneg
  · have hpos := hnear h
    rw [hsin]
    have key : ∀ x y : ℝ, x ^ 2 + y ^ 2 = 1 - cosDist lat0 lon0 lat lon ^ 2 → x ^ 2 + y ^ 2 ≤ 1 := by
      intro x y hxy; rw [hxy]; nlinarith [sq_nonneg (cosDist lat0 lon0 lat lon)]
    rcases eq_or_lt_of_le h0.1 with h1 | h1
    · have hle : lat ≤ 0 := by
        by_contra hc; push Not at hc
        rw [← h1, cosDist_south] at hpos
        have : 0 < sin lat := sin_pos_of_pos_of_lt_pi hc (by linarith [hl.2, pi_pos])
        linarith
      have e : (sin lon * cos lat) ^ 2 + (cos lon * cos lat) ^ 2 = 1 - cosDist lat0 lon0 lat lon ^ 2 := by
        rw [← h1, cosDist_south]
        linear_combination (cos lat ^ 2) * sin_sq_add_cos_sq lon + sin_sq_add_cos_sq lat
      exact ⟨_, _, by rw [← h1, projOrtho_south, if_pos hle], e, key _ _ e⟩
    · rcases eq_or_lt_of_le h0.2 with h2 | h2
      · have hle : 0 ≤ lat := by
          by_contra hc; push Not at hc
          rw [h2, cosDist_north] at hpos
          have : 0 < sin (-lat) := sin_pos_of_pos_of_lt_pi (by linarith) (by linarith [hl.1, pi_pos])
          rw [sin_neg] at this
          linarith
        have e : (sin lon * cos lat) ^ 2 + (-cos lon * cos lat) ^ 2 = 1 - cosDist lat0 lon0 lat lon ^ 2 := by
          rw [h2, cosDist_north]
          linear_combination (cos lat ^ 2) * sin_sq_add_cos_sq lon + sin_sq_add_cos_sq lat
        exact ⟨_, _, by rw [h2, projOrtho_north, if_pos hle], e, key _ _ e⟩
      · obtain ⟨C, hC, -, -⟩ := projOrtho_near ⟨h1, h2⟩ hl hpos
        have e : (sin C * √(1 - cosDist lat0 lon0 lat lon ^ 2)) ^ 2 +
            (cos C * √(1 - cosDist lat0 lon0 lat lon ^ 2)) ^ 2 = 1 - cosDist lat0 lon0 lat lon ^ 2 := by
          have hn : 0 ≤ 1 - cosDist lat0 lon0 lat lon ^ 2 := by rw [← hsin]; positivity
          rw [mul_pow, mul_pow, sq_sqrt hn, ← add_mul, sin_sq_add_cos_sq, one_mul]
        exact ⟨_, _, hC, e, key _ _ e⟩

/-- **C12** (partial) For every visible point and every centre that is not a pole, or is a pole with
`lon0 = 0` modulo a full turn: `|y error| ≤ 5e-5`, `x` does not have the wrong sign, and
`|x² error| ≤ 1e-4`.  Missing: poles with other `lon0` – refuted by `C12_counterexample`. -/
theorem C12_ortho_accuracy_partial (lat0 lon0 lat lon : ℝ) (h0 : lat0 ∈ Set.Icc (-(π / 2)) (π / 2))
    (hpole : lat0 ∈ Set.Ioo (-(π / 2)) (π / 2) ∨ ∃ k : ℤ, lon0 = k * (2 * π))
    (hl : lat ∈ Set.Icc (-(π / 2)) (π / 2)) (hvis : greatCircle lat0 lon0 lat lon ≤ π / 2) :
    ∃ x y : ℝ, Helpers.projOrtho lat0 lon0 lat lon = (.fin x, .fin y) ∧
      |y - (cos lat0 * sin lat - sin lat0 * cos lat * cos (lon - lon0))| ≤ 5e-5 ∧
      0 ≤ x * (cos lat * sin (lon - lon0)) ∧
      |x ^ 2 - (cos lat * sin (lon - lon0)) ^ 2| ≤ 1e-4 := by
  have hg : cos (greatCircle lat0 lon0 lat lon) = cosDist lat0 lon0 lat lon := by
    rw [greatCircle_eq, cos_arccos (cosExpr_mem _ _ _ _).1 (cosExpr_mem _ _ _ _).2, cosDist, inner_unitVec]
  have hpos : 0 ≤ cosDist lat0 lon0 lat lon := by
    rw [← hg]
    have h00 : 0 ≤ greatCircle lat0 lon0 lat lon := InnerProductGeometry.angle_nonneg _ _
    exact cos_nonneg_of_mem_Icc ⟨by linarith [pi_pos], hvis⟩
  have hcl : 0 ≤ cos lat := cos_nonneg_of_mem_Icc hl
  by_cases hin : lat0 ∈ Set.Ioo (-(π / 2)) (π / 2)
  · obtain ⟨C, hC, hy, hn, hp⟩ := projOrtho_near hin hl hpos
    have hsq := ortho_sq lat0 lon0 lat lon
    refine ⟨_, _, hC, ?_, ?_, ?_⟩
    all_goals
      change |_ - orthoY lat0 lon0 lat lon| ≤ _ at hy
      have hn' : 0 ≤ 1 - cosDist lat0 lon0 lat lon ^ 2 := by rw [← hsq]; positivity
      set S := √(1 - cosDist lat0 lon0 lat lon ^ 2) with hS
      have hS0 : 0 ≤ S := sqrt_nonneg _
      have hS1 : S ≤ 1 := by rw [hS, sqrt_le_left (by norm_num)]; nlinarith [sq_nonneg (cosDist lat0 lon0 lat lon)]
    · change |_ - orthoY lat0 lon0 lat lon| ≤ _
      linarith
    · rcases lt_or_ge (sin (lon - lon0)) 0 with h | h
      · have := hn h
        have h1 : sin C * S ≤ 0 := mul_nonpos_of_nonpos_of_nonneg this hS0
        have h2 : cos lat * sin (lon - lon0) ≤ 0 := mul_nonpos_of_nonneg_of_nonpos hcl h.le
        exact mul_nonneg_of_nonpos_of_nonpos h1 h2
      · have := hp h
        positivity
    · change |_ - orthoX lat0 lon0 lat lon ^ 2| ≤ _
      have hS2 : S ^ 2 = 1 - cosDist lat0 lon0 lat lon ^ 2 := sq_sqrt hn'
      have e : (sin C * S) ^ 2 - orthoX lat0 lon0 lat lon ^ 2 =
          orthoY lat0 lon0 lat lon ^ 2 - (cos C * S) ^ 2 := by
        rw [← hS2] at hsq
        linear_combination (-1 : ℝ) * hsq + S ^ 2 * sin_sq_add_cos_sq C
      rw [e]
      have hY1 : |orthoY lat0 lon0 lat lon| ≤ 1 := by
        rw [← sq_le_one_iff_abs_le_one]
        nlinarith [sq_nonneg (orthoX lat0 lon0 lat lon), sq_nonneg (cosDist lat0 lon0 lat lon)]
      have hC1 : |cos C * S| ≤ 1 := by
        rw [abs_mul, abs_of_nonneg hS0]
        have := abs_cos_le_one C
        nlinarith [abs_nonneg (cos C)]
      have : |orthoY lat0 lon0 lat lon + cos C * S| ≤ 2 := (abs_add_le _ _).trans (by linarith)
      calc |orthoY lat0 lon0 lat lon ^ 2 - (cos C * S) ^ 2|
          = |cos C * S - orthoY lat0 lon0 lat lon| * |orthoY lat0 lon0 lat lon + cos C * S| := by
            rw [← abs_mul, ← abs_neg]; congr 1; ring
        _ ≤ 5e-5 * 2 := by
            apply mul_le_mul (by linarith) this (abs_nonneg _) (by norm_num)
        _ = 1e-4 := by norm_num
  · obtain ⟨k, hk⟩ := hpole.resolve_left hin
    have e1 : sin (lon - lon0) = sin lon := by rw [hk]; exact sin_sub_int_mul_two_pi lon k
    have e2 : cos (lon - lon0) = cos lon := by rw [hk]; exact cos_sub_int_mul_two_pi lon k
    rw [e1, e2]
    have hor : lat0 = -(π / 2) ∨ lat0 = π / 2 := by
      rcases eq_or_lt_of_le h0.1 with h1 | h1
      · exact Or.inl h1.symm
      · rcases eq_or_lt_of_le h0.2 with h2 | h2
        · exact Or.inr h2
        · exact absurd ⟨h1, h2⟩ hin
    rcases hor with h1 | h2
    · have hle : lat ≤ 0 := by
        by_contra hc; push Not at hc
        rw [h1, cosDist_south] at hpos
        have : 0 < sin lat := sin_pos_of_pos_of_lt_pi hc (by linarith [hl.2, pi_pos])
        linarith
      refine ⟨_, _, by rw [h1, projOrtho_south, if_pos hle], ?_, ?_, ?_⟩
      · rw [h1]; simp; rw [mul_comm]; norm_num
      · nlinarith [mul_self_nonneg (sin lon * cos lat)]
      · rw [mul_comm (sin lon)]; norm_num
    · have hle : 0 ≤ lat := by
        by_contra hc; push Not at hc
        rw [h2, cosDist_north] at hpos
        have : 0 < sin (-lat) := sin_pos_of_pos_of_lt_pi (by linarith) (by linarith [hl.1, pi_pos])
        rw [sin_neg] at this
        linarith
      refine ⟨_, _, by rw [h2, projOrtho_north, if_pos hle], ?_, ?_, ?_⟩
      · rw [h2]; simp; rw [mul_comm]; norm_num
      · nlinarith [mul_self_nonneg (sin lon * cos lat)]
      · rw [mul_comm (sin lon)]; norm_num

/-- The full statement of C12 is false of the code: seen from above the north pole with `lon0 = π`, the
point `(0, 0)` is placed at `y = -1` instead of `y = 1`. -/
theorem C12_counterexample :
    ∃ x y : ℝ, Helpers.projOrtho (π / 2) π 0 0 = (.fin x, .fin y) ∧ greatCircle (π / 2) π 0 0 ≤ π / 2 ∧
      ¬ |y - (cos (π / 2) * sin 0 - sin (π / 2) * cos 0 * cos (0 - π))| ≤ 5e-5 := by
  refine ⟨_, _, by rw [projOrtho_north, if_pos le_rfl], ?_, ?_⟩
  · rw [greatCircle_eq]; simp
  · simp; norm_num

/-- Non-trivial instance: a point 30° east on the equator. -/
example : ∃ x y : ℝ, Helpers.projOrtho 0 0 0 (π / 6) = (.fin x, .fin y) ∧ |y - 0| ≤ 5e-5 ∧
    |x ^ 2 - (1 / 2) ^ 2| ≤ 1e-4 := by
  have hp := pi_pos
  obtain ⟨x, y, h, hy, -, hx⟩ := C12_ortho_accuracy_partial 0 0 0 (π / 6) ⟨by linarith, by linarith⟩
    (Or.inl ⟨by linarith, by linarith⟩) ⟨by linarith, by linarith⟩ (by
      rw [greatCircle_eq]
      simp
      positivity)
  refine ⟨x, y, h, ?_, ?_⟩
  · simpa using hy
  · simpa using hx

/-! ## C15 -/

/-- **C15** `clip_teff` maps into `[2300, 3900]`, is the identity there, is monotone and idempotent. -/
theorem C15_clip_teff :
    (∀ t, 2300 ≤ Helpers.clipTeff t ∧ Helpers.clipTeff t ≤ 3900) ∧
    (∀ t, 2300 ≤ t → t ≤ 3900 → Helpers.clipTeff t = t) ∧
    Monotone Helpers.clipTeff ∧
    (∀ t, Helpers.clipTeff (Helpers.clipTeff t) = Helpers.clipTeff t) := by
  have h : ∀ t, Helpers.clipTeff t = max 2300 (min t 3900) := by
    intro t
    unfold Helpers.clipTeff Helpers.teffLow Helpers.teffHigh
    split_ifs with h1 h2
    · rw [min_eq_right h1.le]; norm_num
    · rw [min_eq_left (not_lt.mp h1), max_eq_left h2.le]
    · rw [min_eq_left (not_lt.mp h1), max_eq_right (not_lt.mp h2)]
  refine ⟨fun t => ?_, fun t h1 h2 => ?_, fun a b hab => ?_, fun t => ?_⟩
  · rw [h]; exact ⟨le_max_left _ _, max_le (by norm_num) (min_le_right _ _)⟩
  · rw [h, min_eq_left h2, max_eq_right h1]
  · rw [h, h]; exact max_le_max le_rfl (min_le_min hab le_rfl)
  · rw [h, h]
    rw [min_eq_left (max_le (by norm_num) (min_le_right t 3900)), max_eq_right (le_max_left _ _)]

/-! ## C16 -/

/-- **C16** `round_teff` of a finite temperature is an integer within 0.5 K, the identity on integers,
monotone, and ties go to the even integer; NaN raises `ValueError`. -/
theorem C16_round_teff :
    ∃ rd : ℝ → ℤ, (∀ t, Helpers.roundTeff (.fin t) = .ok (rd t)) ∧
      (∀ t, |(rd t : ℝ) - t| ≤ 1 / 2) ∧ (∀ n : ℤ, rd n = n) ∧ Monotone rd ∧
      (∀ n : ℤ, Even (rd (n + 1 / 2))) := by
  refine ⟨Np.roundHalfEven, fun t => rfl, Np.abs_roundHalfEven_sub_le, Np.roundHalfEven_int,
    Np.roundHalfEven_mono, fun n => ?_⟩
  rw [Np.roundHalfEven_half]
  split_ifs with h
  · exact h
  · rw [Int.not_even_iff_odd] at h
    exact h.add_one

example : Helpers.roundTeff (.fin 3000.5) = .ok 3000 := by
  have := Np.roundHalfEven_half 3000
  simp only [Helpers.roundTeff]
  norm_num at this ⊢
  rw [this, if_pos]
  decide

end Vsm
