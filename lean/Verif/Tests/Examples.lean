import Verif.Tests.Spots
import Verif.Props.FaculaGeom
import Verif.Props.Grid2
import Mathlib.Analysis.Real.Pi.Bounds

/-!
# The example programs of the documentation

What the programs /repo/examples/plot_spot_growth.py, plot_effect_facula_depth.py and plot_explore_grids.py compute, from the properties of the model.
-/

noncomputable section
namespace Vsm
namespace Tests
open Real Np Spec

/-! ## plot_spot_growth.py -/

/-- The spot of plot_spot_growth.py:32-44. -/
def growthSpot : StarSpot :=
  StarSpot.new (Grid.deg 0) (Grid.deg 0) (200 * MSH) (.fin (10 * MSH)) 2700 2900 (.fin 5) true 0.5 (20 * MSH) (.spiral 1000)

/-- The collection after `k` passes through the loop (plot_spot_growth.py:59-66). -/
def growthAt (k : ℕ) : SpotCollection :=
  (List.replicate k (8 / 24 : ℝ)).foldl SpotCollection.age (SpotCollection.new [growthSpot] (.spiral 1000))

/-- The value appended in pass `k`, in MSH. -/
def growthArea (k : ℕ) : Fl :=
  match (growthAt k).spots with
  | [] => .fin 0
  | s :: _ => s.area / .fin MSH

theorem growth_live : Live growthSpot (10 * MSH) := by
  have := MSH_pos
  refine ⟨rfl, by positivity, ?_, fun h => absurd h (by simp [growthSpot, StarSpot.new]), ?_, ?_⟩
  · show 0 < 200 * MSH; positivity
  · show (0 : ℝ) ≤ 0.5; norm_num
  · show 0 ≤ 20 * MSH; positivity

theorem growth_time : timeToMax growthSpot.areaMax (10 * MSH) growthSpot.growthRate = Real.log 20 / Real.log (3 / 2) := by
  have := MSH_pos
  show timeToMax (200 * MSH) (10 * MSH) 0.5 = _
  unfold timeToMax
  rw [mul_div_mul_right _ _ this.ne']; norm_num

theorem growth_time_bounds : 22 / 3 < Real.log 20 / Real.log (3 / 2) ∧ Real.log 20 / Real.log (3 / 2) < 23 / 3 := by
  have hl : 0 < Real.log (3 / 2) := log_pos (by norm_num)
  constructor
  · rw [lt_div_iff₀ hl]
    have h := log_lt_log (by norm_num : (0 : ℝ) < (3 / 2) ^ 22) (by norm_num : ((3 / 2) ^ 22 : ℝ) < 20 ^ 3)
    rw [log_pow, log_pow] at h
    push_cast at h
    linarith
  · rw [div_lt_iff₀ hl]
    have h := log_lt_log (by norm_num : (0 : ℝ) < 20 ^ 3) (by norm_num : (20 ^ 3 : ℝ) < (3 / 2) ^ 23)
    rw [log_pow, log_pow] at h
    push_cast at h
    linarith

theorem growth_at (k : ℕ) (hk : k ≠ 0) : (growthAt k).spots = (ageOpt (k / 3) growthSpot).toList := by
  unfold growthAt
  have hnew : SpotCollection.new [growthSpot] (.spiral 1000) = ⟨[growthSpot], .spiral 1000⟩ := rfl
  rw [hnew, C21_age_schedule ⟨[growthSpot], .spiral 1000⟩ (by intro s hs; simp at hs; exact ⟨_, hs ▸ growth_live⟩) (List.replicate k (8 / 24)) [(k : ℝ) / 3]
    (by simpa using hk) (by simp) (by intro t ht; rw [List.eq_of_mem_replicate ht]; norm_num) (by intro t ht; simp at ht; rw [ht]; positivity)
    (by rw [List.sum_replicate, nsmul_eq_mul]; simp; ring)]
  simp only [List.foldl_cons, List.foldl_nil]
  rw [collection_age]
  simp only [List.filterMap_cons, List.filterMap_nil]
  cases ageOpt (k / 3) growthSpot <;> rfl

/-- The curve plotted by plot_spot_growth.py: the area grows by half each day until after 22 passes (7.3 days), then shrinks by 20 MSH per day from 200 MSH, the
maximum being reached at `ln 20 / ln 1.5` days between two passes; from pass 53 on the spot is gone and zeros are plotted. -/
theorem growth_curve (k : ℕ) : growthArea k = .fin (
    if k ≤ 22 then 10 * (3 / 2 : ℝ) ^ ((k : ℝ) / 3) else if k ≤ 52 then 200 - 20 * (k / 3 - Real.log 20 / Real.log (3 / 2)) else 0) := by
  have hM := MSH_pos
  obtain ⟨b1, b2⟩ := growth_time_bounds
  rcases Nat.eq_zero_or_pos k with rfl | hk
  · show Fl.fin (10 * MSH) / .fin MSH = _
    rw [Fl.fin_div hM.ne', if_pos (by norm_num), mul_div_cancel_right₀ _ hM.ne']
    norm_num
  · unfold growthArea
    rw [growth_at k hk.ne', ageOpt_grow growth_live rfl (by show (0 : ℝ) < 0.5; norm_num), growth_time]
    have hdec : growthSpot.decayRate = 20 * MSH := rfl
    have hmax : growthSpot.areaMax = 200 * MSH := rfl
    have hrate : (1 : ℝ) + growthSpot.growthRate = 3 / 2 := by show (1 : ℝ) + 0.5 = 3 / 2; norm_num
    by_cases h1 : k ≤ 22
    · have h1' : (k : ℝ) ≤ 22 := by exact_mod_cast h1
      rw [if_pos h1, if_pos (by linarith)]
      show Fl.fin (10 * MSH * exp (Real.log (1 + growthSpot.growthRate) * (k / 3))) / .fin MSH = _
      rw [Fl.fin_div hM.ne', hrate, ← rpow_def_of_pos (by norm_num)]
      congr 1
      field_simp
    · have h1' : (23 : ℝ) ≤ k := by exact_mod_cast (by omega : 23 ≤ k)
      rw [if_neg h1, if_neg (by linarith), hdec, hmax]
      by_cases h2 : k ≤ 52
      · have h2' : (k : ℝ) ≤ 52 := by exact_mod_cast h2
        rw [if_pos h2, if_pos (by nlinarith)]
        show Fl.fin (200 * MSH - (k / 3 - Real.log 20 / Real.log (3 / 2)) * (20 * MSH)) / .fin MSH = _
        rw [Fl.fin_div hM.ne']
        congr 1
        field_simp
      · have h2' : (53 : ℝ) ≤ k := by exact_mod_cast (by omega : 53 ≤ k)
        rw [if_neg h2, if_neg (by nlinarith)]
        rfl

/-! ## plot_effect_facula_depth.py -/

/-- The facula of plot_effect_facula_depth.py:24-42 with radius `r` and depth `r * d`. -/
def depthFacula (r d : ℝ) : Facula :=
  { lat := 0, lon := 0, rMax := r, radius := .fin r, depth := r * d, lifetime := 1, floorSlope := 0, floorMinRad := 1, floorBase := -100, wallSlope := 0, wallIntercept := 100, isGrowing := true, grid := .spiral 1000 }

theorem depth_keys (r d : ℝ) : wallKey (depthFacula r d) r = 100 ∧ floorKey (depthFacula r d) r = -100 := by
  constructor
  · have := Np.roundHalfEven_int 100
    simpa [wallKey, depthFacula] using this
  · have := Np.roundHalfEven_int (-100)
    simpa [floorKey, depthFacula] using this

/-- The function `relative_flux` of plot_effect_facula_depth.py:60-69 for a star of radius `R`. -/
def relativeFlux (f : Facula) (R : ℝ) (angle : Fl) : Py Fl := do
  let area ← f.effectiveArea angle
  let kf ← Helpers.roundTeff f.floorDteff
  let kw ← Helpers.roundTeff f.wallDteff
  match Dict.get? area kf, Dict.get? area kw with
  | some af, some aw => .ok (.fin 1 + af / .fin (π * R ^ 2) * .fin (0.9 - 1) + aw / .fin (π * R ^ 2) * .fin (1.1 - 1))
  | _, _ => .error .keyError

/-- The curves of plot_effect_facula_depth.py: below 90° every point is plotted and lies within a tenth of the area of the facula on the disk; in the middle of the
disk the facula is dark, and as soon as the wall hides the floor it is bright. -/
theorem depth_curve (r d R θ : ℝ) (hr : 1 ≤ r) (hd : 0 ≤ d) (hR : 0 < R) (hθ : 0 ≤ θ) (hθ' : θ < π / 2) : ∃ y : ℝ, relativeFlux (depthFacula r d) R (.fin θ) = .ok (.fin y) ∧
    |y - 1| ≤ 0.1 * (r / R) ^ 2 * cos θ ∧ (θ = 0 → y = 1 - 0.1 * (r / R) ^ 2) ∧ (2 ≤ d * tan θ → y = 1 + 0.1 * (r / R) ^ 2 * cos θ) := by
  have hp := pi_pos
  have hr0 : 0 < r := by linarith
  obtain ⟨k1, k2⟩ := depth_keys r d
  have hrad : (depthFacula r d).radius = .fin r := rfl
  have hk : wallKey (depthFacula r d) r ≠ floorKey (depthFacula r d) r := by rw [k1, k2]; norm_num
  have hc : 0 < cos θ := cos_pos_of_mem_Ioo ⟨by linarith, hθ'⟩
  obtain ⟨w0, w1⟩ := wallShare_mem (depthFacula r d) r θ
  have hfr := fractional_eq hrad hr0 hk hθ hθ'
  obtain ⟨-, c2, c3⟩ := C35_brightening (depthFacula r d) r hrad hr0 (by show 0 ≤ r * d; positivity) hk θ θ _ _ _ _ hθ le_rfl hθ' hfr hfr
  set w := wallShare (depthFacula r d) r θ with hw
  have e : relativeFlux (depthFacula r d) R (.fin θ) = .ok (.fin (1 + (1 - w) * (π * r ^ 2 * cos θ) / (π * R ^ 2) * (0.9 - 1) + w * (π * r ^ 2 * cos θ) / (π * R ^ 2) * (1.1 - 1))) := by
    unfold relativeFlux
    rw [effectiveArea_two hrad hr0 (keys_ne_dteff hk) hθ hθ', twoKeys_eq hrad hk, wallDteff_eq hrad, floorDteff_eq hrad, k1, k2, ← hw]
    simp only [Helpers.roundTeff]
    change (match Dict.get? [((100 : ℤ), Fl.fin (w * (π * r ^ 2 * cos θ))), (-100, Fl.fin ((1 - w) * (π * r ^ 2 * cos θ)))] (floorKey (depthFacula r d) r),
      Dict.get? [((100 : ℤ), Fl.fin (w * (π * r ^ 2 * cos θ))), (-100, Fl.fin ((1 - w) * (π * r ^ 2 * cos θ)))] (wallKey (depthFacula r d) r) with
      | some af, some aw => Except.ok (Fl.fin 1 + af / Fl.fin (π * R ^ 2) * Fl.fin (0.9 - 1) + aw / Fl.fin (π * R ^ 2) * Fl.fin (1.1 - 1))
      | _, _ => .error PyErr.keyError) = _
    rw [k1, k2]
    have hA : π * R ^ 2 ≠ 0 := by positivity
    simp only [Dict.get?]
    norm_num [Fl.fin_div hA]
  have e2 : 1 + (1 - w) * (π * r ^ 2 * cos θ) / (π * R ^ 2) * (0.9 - 1) + w * (π * r ^ 2 * cos θ) / (π * R ^ 2) * (1.1 - 1) = 1 + (2 * w - 1) * (0.1 * (r / R) ^ 2 * cos θ) := by
    field_simp; ring
  rw [e2] at e
  refine ⟨_, e, ?_, ?_, ?_⟩
  · rw [add_sub_cancel_left, abs_mul, abs_of_nonneg (show 0 ≤ 0.1 * (r / R) ^ 2 * cos θ by positivity)]
    exact mul_le_of_le_one_left (by positivity) (abs_le.mpr ⟨by linarith, by linarith⟩)
  · rintro rfl
    rw [c2 rfl (by show (1 : ℝ) ≤ r; exact hr), cos_zero]; ring
  · intro h
    rw [c3 (by show 2 * r ≤ r * d * tan θ; nlinarith)]; ring

/-! ## plot_explore_grids.py -/

/-- The number of points chosen in plot_explore_grids.py:73-81 for a resolution of ten degrees. -/
theorem ten_degrees : Np.roundHalfEven (2 * π / (π * 10 / 180)) = 36 ∧ Np.roundHalfEven (4 * π / (π * 10 / 180) ^ 2) = 413 := by
  have h1 := pi_gt_d6
  have h2 := pi_lt_d6
  have hp := pi_pos
  constructor
  · have e : 2 * π / (π * 10 / 180) = ((36 : ℤ) : ℝ) := by push_cast; field_simp; norm_num
    rw [e, Np.roundHalfEven_int]
  · have e : 4 * π / (π * 10 / 180) ^ 2 = 1296 / π := by field_simp; norm_num
    rw [e]
    apply Np.roundHalfEven_unique
    have a1 : 1296 / π < 412.6 := by rw [div_lt_iff₀ hp]; linarith
    have a2 : 412.51 < 1296 / π := by rw [lt_div_iff₀ hp]; linarith
    push_cast
    rw [abs_lt]; constructor <;> linarith

/-- The `try` block of plot_explore_grids.py:87-92: the rectangular grid refuses to resample to five times as many points, and displays the data as they are. -/
example (f : Fin 36 → Fin 18 → ℝ) : (Grid.rect 18 36).display 90 180 (.two 36 18 f) = .error .typeError ∧
    ∃ D, (Grid.rect 18 36).display 18 36 (.two 36 18 f) = .ok D ∧ D.lats.length = 18 ∧ D.lons.length = 36 := by
  refine ⟨?_, ?_⟩
  · simp [Grid.display, Grid.displayRect]
  · obtain ⟨D, h, -, h1, h2, -⟩ := (C07_display_rect_partial 18 36 18 36 (.two 36 18 f)).2.2 f
    exact ⟨D, h, h1, h2⟩

end Tests
end Vsm
