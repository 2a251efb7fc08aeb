import Verif.Model.Star
import Verif.Props.Circle
import Verif.Props.Projection
import Verif.Props.FaculaAge
import Verif.Props.Grid2
import Verif.Lemmas.Round
import Mathlib.Analysis.Real.Pi.Bounds

/-!
# C34 – C36, C39, C40: walls, floors and the faculae on the map
-/

noncomputable section

namespace Vsm

open Real Spec

/-- Rounded temperature excess of the wall and of the floor for radius `r` (spec). -/
def Spec.wallKey (f : Facula) (r : ℝ) : ℤ := Np.roundHalfEven (f.wallSlope * r + f.wallIntercept)

/-- See `wallKey`. -/
def Spec.floorKey (f : Facula) (r : ℝ) : ℤ :=
  Np.roundHalfEven ((r - f.floorMinRad) * f.floorSlope + f.floorBase)

/-- Share of the projected disk of a facula of radius `r` that is wall, seen at angle `θ` (spec): everything
for a small facula, else what is left of the unit disk after removing its overlap with the unit disk shifted
by `depth/r·tan θ`. -/
def Spec.wallShare (f : Facula) (r θ : ℝ) : ℝ :=
  if r < f.floorMinRad then 1 else 1 - overlap ⟨f.depth / r * tan θ, 0⟩ 1 / (π * 1 ^ 2)

theorem wallShare_mem (f : Facula) (r θ : ℝ) : 0 ≤ wallShare f r θ ∧ wallShare f r θ ≤ 1 := by
  unfold wallShare
  split_ifs
  · norm_num
  · have hA : 0 < π * (1 : ℝ) ^ 2 := by positivity
    have h1 := (div_le_one hA).mpr (overlap_le ⟨f.depth / r * tan θ, 0⟩ zero_le_one)
    have h2 := div_nonneg (overlap_nonneg ⟨f.depth / r * tan θ, 0⟩ 1) hA.le
    constructor <;> linarith

theorem wallDteff_eq {f : Facula} {r : ℝ} (h : f.radius = .fin r) :
    f.wallDteff = .fin (f.wallSlope * r + f.wallIntercept) := by
  simp [Facula.wallDteff, h]

theorem floorDteff_eq {f : Facula} {r : ℝ} (h : f.radius = .fin r) :
    f.floorDteff = .fin ((r - f.floorMinRad) * f.floorSlope + f.floorBase) := by
  simp [Facula.floorDteff, h]

theorem twoKeys_eq {f : Facula} {r : ℝ} (h : f.radius = .fin r) (hk : wallKey f r ≠ floorKey f r) (aw af : Fl) :
    f.twoKeys aw af = .ok [(wallKey f r, aw), (floorKey f r, af)] := by
  unfold Facula.twoKeys
  rw [wallDteff_eq h, floorDteff_eq h]
  simp only [Helpers.roundTeff]
  change Except.ok (Np.Dict.set (Np.Dict.set [] (wallKey f r) aw) (floorKey f r) af) = _
  simp [Np.Dict.set, hk]

theorem twoKeys_same {f : Facula} {r : ℝ} (h : f.radius = .fin r) (hk : wallKey f r = floorKey f r) (aw af : Fl) :
    f.twoKeys aw af = .ok [(floorKey f r, af)] := by
  unfold Facula.twoKeys
  rw [wallDteff_eq h, floorDteff_eq h]
  simp only [Helpers.roundTeff]
  change Except.ok (Np.Dict.set (Np.Dict.set [] (wallKey f r) aw) (floorKey f r) af) = _
  simp [Np.Dict.set, hk]

/-- The two numbers `effective_area` puts in its dict. -/
theorem effectiveArea_cos {f : Facula} {r θ : ℝ} (h : f.radius = .fin r) (hr : 0 < r)
    (hne : f.wallSlope * r + f.wallIntercept ≠ (r - f.floorMinRad) * f.floorSlope + f.floorBase)
    (hc : cos θ ≠ 0) :
    f.effectiveArea (.fin θ) = f.twoKeys (.fin (wallShare f r θ * (π * r ^ 2 * cos θ)))
      (.fin ((1 - wallShare f r θ) * (π * r ^ 2 * cos θ))) := by
  unfold Facula.effectiveArea
  rw [if_neg]
  · by_cases h1 : r < f.floorMinRad
    · rw [if_pos (by rw [h]; exact h1), h]
      simp only [wallShare, if_pos h1, Fl.fin_mul, Fl.cos_fin]
      ring_nf
    · rw [if_neg (by rw [h]; exact h1), h, Fl.fin_div hr.ne']
      have ht : Fl.tan (.fin θ) = .fin (tan θ) := by
        unfold Fl.tan
        rw [Fl.sin_fin, Fl.cos_fin, Fl.fin_div hc, tan_eq_sin_div_cos]
      simp only [ht, Fl.fin_mul, circFraction_eq _ _ 1 one_pos le_rfl]
      simp only [wallShare, if_neg h1, Fl.cos_fin]
      change f.twoKeys _ _ = _
      simp only [Fl.fin_mul, Fl.fin_sub, sq]
  · rw [wallDteff_eq h, floorDteff_eq h, Fl.feq_fin]
    exact fun e => hne e.symm

theorem effectiveArea_two {f : Facula} {r θ : ℝ} (h : f.radius = .fin r) (hr : 0 < r)
    (hne : f.wallSlope * r + f.wallIntercept ≠ (r - f.floorMinRad) * f.floorSlope + f.floorBase)
    (hθ : 0 ≤ θ) (hθ' : θ < π / 2) :
    f.effectiveArea (.fin θ) = f.twoKeys (.fin (wallShare f r θ * (π * r ^ 2 * cos θ)))
      (.fin ((1 - wallShare f r θ) * (π * r ^ 2 * cos θ))) :=
  effectiveArea_cos h hr hne (cos_pos_of_mem_Ioo ⟨by linarith [pi_pos], hθ'⟩).ne'

theorem keys_ne_dteff {f : Facula} {r : ℝ} (hk : wallKey f r ≠ floorKey f r) :
    f.wallSlope * r + f.wallIntercept ≠ (r - f.floorMinRad) * f.floorSlope + f.floorBase := by
  intro e
  apply hk
  unfold wallKey floorKey
  rw [e]

theorem fractional_cos {f : Facula} {r θ : ℝ} (h : f.radius = .fin r) (hr : 0 < r) (hk : wallKey f r ≠ floorKey f r)
    (hc : cos θ ≠ 0) :
    f.fractionalEffectiveArea (.fin θ) =
      .ok [(wallKey f r, .fin (wallShare f r θ)), (floorKey f r, .fin (1 - wallShare f r θ))] := by
  have hA : π * r ^ 2 * cos θ ≠ 0 := by positivity
  unfold Facula.fractionalEffectiveArea
  rw [effectiveArea_cos h hr (keys_ne_dteff hk) hc, twoKeys_eq h hk]
  simp only [Except.map, Np.Dict.values, List.map_cons, List.map_nil, List.sum_cons, List.sum_nil, add_zero,
    Fl.fin_add]
  have hs : wallShare f r θ * (π * r ^ 2 * cos θ) + (1 - wallShare f r θ) * (π * r ^ 2 * cos θ) =
      π * r ^ 2 * cos θ := by ring
  rw [hs, Fl.fin_div hA, Fl.fin_div hA, mul_div_cancel_right₀ _ hA, mul_div_cancel_right₀ _ hA]

theorem fractional_eq {f : Facula} {r θ : ℝ} (h : f.radius = .fin r) (hr : 0 < r) (hk : wallKey f r ≠ floorKey f r)
    (hθ : 0 ≤ θ) (hθ' : θ < π / 2) :
    f.fractionalEffectiveArea (.fin θ) =
      .ok [(wallKey f r, .fin (wallShare f r θ)), (floorKey f r, .fin (1 - wallShare f r θ))] :=
  fractional_cos h hr hk (cos_pos_of_mem_Ioo ⟨by linarith [pi_pos], hθ'⟩).ne'

/-! ## C34 -/

/-- **C34** For every angle in `[0°,90°)` wall and floor share the projected area `π r² cos θ`, and the
fractions are in `[0,1]` and add up to 1. -/
theorem C34_shares (f : Facula) (r θ : ℝ) (h : f.radius = .fin r) (hr : 0 < r)
    (hk : wallKey f r ≠ floorKey f r) (hθ : 0 ≤ θ) (hθ' : θ < π / 2) :
    (∃ aw af, f.effectiveArea (.fin θ) = .ok [(wallKey f r, .fin aw), (floorKey f r, .fin af)] ∧
      0 ≤ aw ∧ 0 ≤ af ∧ aw + af = π * r ^ 2 * cos θ) ∧
    ∃ fw ff, f.fractionalEffectiveArea (.fin θ) = .ok [(wallKey f r, .fin fw), (floorKey f r, .fin ff)] ∧
      0 ≤ fw ∧ fw ≤ 1 ∧ 0 ≤ ff ∧ ff ≤ 1 ∧ fw + ff = 1 := by
  have hc : 0 < cos θ := cos_pos_of_mem_Ioo ⟨by linarith [pi_pos], hθ'⟩
  obtain ⟨h1, h2⟩ := wallShare_mem f r θ
  refine ⟨⟨_, _, by rw [effectiveArea_two h hr (keys_ne_dteff hk) hθ hθ', twoKeys_eq h hk],
    mul_nonneg h1 (by positivity), mul_nonneg (by linarith) (by positivity), by ring⟩,
    ⟨_, _, fractional_eq h hr hk hθ hθ', h1, h2, by linarith, by linarith, by ring⟩⟩

/-- The sample facula has different rounded wall and floor temperatures. -/
theorem sampleFacula_keys (g : Grid) : wallKey (sampleFacula g) 1 ≠ floorKey (sampleFacula g) 1 := by
  have h1 : wallKey (sampleFacula g) 1 = 100 := by
    have := Np.roundHalfEven_int 100
    simpa [wallKey, sampleFacula] using this
  have h2 : floorKey (sampleFacula g) 1 = -100 := by
    have := Np.roundHalfEven_int (-100)
    simpa [floorKey, sampleFacula] using this
  rw [h1, h2]; norm_num

/-- Non-trivial instance of C34. -/
example (g : Grid) : ∃ fw ff, (sampleFacula g).fractionalEffectiveArea (.fin 1) =
    .ok [(wallKey (sampleFacula g) 1, .fin fw), (floorKey (sampleFacula g) 1, .fin ff)] ∧ fw + ff = 1 := by
  obtain ⟨-, fw, ff, h, -, -, -, -, h'⟩ := C34_shares (sampleFacula g) 1 1 rfl one_pos (sampleFacula_keys g)
    zero_le_one (by linarith [pi_gt_three])
  exact ⟨fw, ff, h, h'⟩

/-! ## C35 -/

/-- **C35** The wall fraction never decreases towards the limb; it is 0 at disk centre when the floor is
visible and 1 once `depth·tan θ ≥ 2·radius`. -/
theorem C35_brightening (f : Facula) (r : ℝ) (h : f.radius = .fin r) (hr : 0 < r) (hd : 0 ≤ f.depth)
    (hk : wallKey f r ≠ floorKey f r) (θ₁ θ₂ w₁ w₂ : ℝ) (x₁ x₂ : Fl) (h0 : 0 ≤ θ₁) (h12 : θ₁ ≤ θ₂)
    (h2 : θ₂ < π / 2)
    (e₁ : f.fractionalEffectiveArea (.fin θ₁) = .ok [(wallKey f r, .fin w₁), (floorKey f r, x₁)])
    (e₂ : f.fractionalEffectiveArea (.fin θ₂) = .ok [(wallKey f r, .fin w₂), (floorKey f r, x₂)]) :
    w₁ ≤ w₂ ∧ (θ₁ = 0 → f.floorMinRad ≤ r → w₁ = 0) ∧ (2 * r ≤ f.depth * tan θ₁ → w₁ = 1) := by
  rw [fractional_eq h hr hk h0 (by linarith)] at e₁
  rw [fractional_eq h hr hk (by linarith) h2] at e₂
  simp only [Except.ok.injEq, List.cons.injEq, Prod.mk.injEq, Fl.fin_inj, true_and, and_true] at e₁ e₂
  rw [← e₁.1, ← e₂.1]
  have ht : tan θ₁ ≤ tan θ₂ := by
    rcases eq_or_lt_of_le h12 with rfl | h
    · exact le_rfl
    · exact (tan_lt_tan_of_lt_of_lt_pi_div_two (by linarith [pi_pos]) h2 h).le
  have ht0 : 0 ≤ tan θ₁ := tan_nonneg_of_nonneg_of_le_pi_div_two h0 (by linarith)
  have hA : 0 < π * (1 : ℝ) ^ 2 := by positivity
  refine ⟨?_, ?_, ?_⟩
  · unfold wallShare
    split_ifs
    · exact le_rfl
    · apply sub_le_sub_left
      apply div_le_div_of_nonneg_right _ hA.le
      apply overlap_antitone zero_le_one
      rw [norm_mk, norm_mk]
      apply sqrt_le_sqrt
      have : f.depth / r * tan θ₁ ≤ f.depth / r * tan θ₂ := mul_le_mul_of_nonneg_left ht (by positivity)
      have h3 : 0 ≤ f.depth / r * tan θ₁ := by positivity
      nlinarith
  · rintro rfl hm
    unfold wallShare
    rw [if_neg (not_lt.mpr hm), tan_zero, mul_zero]
    rw [overlap_inside zero_le_one (by rw [norm_mk]; simp), div_self hA.ne', sub_self]
  · intro h3
    unfold wallShare
    split_ifs
    · rfl
    · rw [overlap_disjoint, zero_div, sub_zero]
      rw [norm_mk]
      have h4 : 2 ≤ f.depth / r * tan θ₁ := by
        rw [div_mul_eq_mul_div, le_div_iff₀ hr]; exact h3
      rw [show (f.depth / r * tan θ₁) ^ 2 + (0 : ℝ) ^ 2 = (f.depth / r * tan θ₁) ^ 2 by ring, sqrt_sq (by linarith)]
      linarith

/-- Non-trivial instance of C35: angles 0 and 1 of the sample facula. -/
example (g : Grid) : ∃ w₁ w₂ x₁ x₂,
    (sampleFacula g).fractionalEffectiveArea (.fin 0) =
      .ok [(wallKey (sampleFacula g) 1, .fin w₁), (floorKey (sampleFacula g) 1, x₁)] ∧
    (sampleFacula g).fractionalEffectiveArea (.fin 1) =
      .ok [(wallKey (sampleFacula g) 1, .fin w₂), (floorKey (sampleFacula g) 1, x₂)] ∧ w₁ = 0 ∧ w₁ ≤ w₂ := by
  have e₁ := fractional_eq (f := sampleFacula g) (θ := 0) rfl one_pos (sampleFacula_keys g) le_rfl (by linarith [pi_pos])
  have e₂ := fractional_eq (f := sampleFacula g) (θ := 1) rfl one_pos (sampleFacula_keys g) zero_le_one
    (by linarith [pi_gt_three])
  obtain ⟨h1, h2, -⟩ := C35_brightening (sampleFacula g) 1 rfl one_pos (by norm_num [sampleFacula])
    (sampleFacula_keys g) 0 1 _ _ _ _ le_rfl zero_le_one (by linarith [pi_gt_three]) e₁ e₂
  exact ⟨_, _, _, _, e₁, e₂, h2 rfl (by norm_num [sampleFacula]), h1⟩

/-! ## C36 -/

/-- **C36** (partial) If wall and floor temperature differ after rounding, `effective_area` and
`fractional_effective_area` have two entries, wall first, floor second.  Missing: temperatures that differ but
round to the same integer – refuted by `C36_counterexample`. -/
theorem C36_two_entries_partial (f : Facula) (r θ : ℝ) (h : f.radius = .fin r) (hr : 0 < r)
    (hk : wallKey f r ≠ floorKey f r) (hθ : 0 ≤ θ) (hθ' : θ < π / 2) :
    ∃ d d', f.effectiveArea (.fin θ) = .ok d ∧ f.fractionalEffectiveArea (.fin θ) = .ok d' ∧
      d.keys = [wallKey f r, floorKey f r] ∧ d'.keys = [wallKey f r, floorKey f r] := by
  refine ⟨_, _, by rw [effectiveArea_two h hr (keys_ne_dteff hk) hθ hθ', twoKeys_eq h hk],
    fractional_eq h hr hk hθ hθ', rfl, rfl⟩

/-- The full statement of C36 is false of the code: a wall 0.2 K above the floor is accepted, but the result
has a single entry (and `add_faculae_to_map` cannot unpack it). -/
theorem C36_counterexample (g : Grid) (θ : ℝ) (hθ : 0 ≤ θ) (hθ' : θ < π / 2) :
    let f : Facula := { sampleFacula g with floorBase := 0, wallIntercept := 0.2 }
    ¬ Fl.feq f.floorDteff f.wallDteff ∧ ∃ k a, f.effectiveArea (.fin θ) = .ok [(k, a)] ∧
      ∀ (s : Star) lat0 lon0 inside cur x, s.paintFacula lat0 lon0 inside [(k, x)] cur = .error .valueError := by
  intro f
  have hrad : f.radius = .fin 1 := rfl
  have hne : f.wallSlope * 1 + f.wallIntercept ≠ (1 - f.floorMinRad) * f.floorSlope + f.floorBase := by
    norm_num [f, sampleFacula]
  have hk : wallKey f 1 = floorKey f 1 := by
    have h1 : wallKey f 1 = 0 := by
      unfold wallKey
      apply Np.roundHalfEven_unique
      norm_num [f, sampleFacula, abs_of_pos, abs_of_neg]
    have h2 : floorKey f 1 = 0 := by
      unfold floorKey
      apply Np.roundHalfEven_unique
      norm_num [f, sampleFacula]
    rw [h1, h2]
  refine ⟨?_, floorKey f 1, .fin ((1 - wallShare f 1 θ) * (π * 1 ^ 2 * cos θ)), ?_, fun s lat0 lon0 inside cur x => rfl⟩
  · rw [wallDteff_eq hrad, floorDteff_eq hrad, Fl.feq_fin]
    exact fun e => hne e.symm
  · rw [effectiveArea_two hrad one_pos hne hθ hθ', twoKeys_same hrad hk]

/-! ## C39 -/

/-- The comparison made by `add_faculae` goes through: not a rectangular facula grid against a spiral one. -/
def Spec.comparable : Grid → Grid → Prop
  | .rect _ _, .spiral _ => False
  | _, _ => True

theorem mapM_add (c : FaculaCollection) (new : List Facula) (h : ∀ f ∈ new, comparable f.grid c.grid) :
    (new.mapM fun f => (Grid.eq f.grid c.grid).map fun b => if !b then { f with grid := c.grid } else f) =
      (.ok (new.map fun f => { f with grid := c.grid }) : Py (List Facula)) := by
  induction new with
  | nil => rfl
  | cons f l ih =>
    rw [List.mapM_cons, ih fun x hx => h x (by simp [hx])]
    have hf := h f (by simp)
    have : ((Grid.eq f.grid c.grid).map fun b => if !b then { f with grid := c.grid } else f) =
        (.ok { f with grid := c.grid } : Py Facula) := by
      have hc := (C06_eq_partial f.grid c.grid)
      rcases hc.2.1 with h1 | h1 | ⟨h1, m, n, k, h2, h3⟩
      · rw [h1]; rfl
      · have := hc.1.mp h1
        rw [h1]; simp only [Except.map, Bool.not_true]
        rw [← this]; rfl
      · rw [h2, h3] at hf; exact hf.elim
    rw [this]
    rfl

/-- **C39** (partial) If no facula with a rectangular grid meets a collection with a spiral grid,
`add_faculae` appends the new faculae with the collection's grid and changes nothing else; whenever it
succeeds this is the result, and the only failure is `TypeError`.  Missing: it never fails – refuted by
`C39_counterexample`. -/
theorem C39_add_faculae_partial (c : FaculaCollection) (new : List Facula) :
    ((∀ f ∈ new, comparable f.grid c.grid) →
      c.addFaculae new = .ok { faculae := c.faculae ++ new.map fun f => { f with grid := c.grid }, grid := c.grid }) ∧
    ((∃ f ∈ new, ¬ comparable f.grid c.grid) → c.addFaculae new = .error .typeError) := by
  constructor
  · intro h
    unfold FaculaCollection.addFaculae
    rw [mapM_add c new h]
    rfl
  · intro h
    unfold FaculaCollection.addFaculae
    have : (new.mapM fun f => (Grid.eq f.grid c.grid).map fun b => if !b then { f with grid := c.grid } else f) =
        (.error .typeError : Py (List Facula)) := by
      induction new with
      | nil => obtain ⟨f, hf, -⟩ := h; simp at hf
      | cons f l ih =>
        rw [List.mapM_cons]
        by_cases hf : comparable f.grid c.grid
        · have hl : ∃ f ∈ l, ¬ comparable f.grid c.grid := by
            obtain ⟨x, hx, hx'⟩ := h
            rcases List.mem_cons.mp hx with rfl | hx
            · exact absurd hf hx'
            · exact ⟨x, hx, hx'⟩
          rw [ih hl]
          have hc := (C06_eq_partial f.grid c.grid)
          rcases hc.2.1 with h1 | h1 | ⟨h1, m, n, k, h2, h3⟩
          · rw [h1]; rfl
          · rw [h1]; rfl
          · rw [h1]; rfl
        · match hg1 : f.grid, hg2 : c.grid with
          | .rect a b, .spiral n => rfl
          | .rect a b, .rect n m => rw [hg1, hg2] at hf; exact absurd trivial hf
          | .spiral a, .spiral n => rw [hg1, hg2] at hf; exact absurd trivial hf
          | .spiral a, .rect n m => rw [hg1, hg2] at hf; exact absurd trivial hf
    rw [this]
    rfl

/-- The full statement of C39 is false of the code. -/
theorem C39_counterexample :
    (FaculaCollection.mk [] (.spiral 10)).addFaculae [sampleFacula (.rect 4 8)] = .error .typeError :=
  (C39_add_faculae_partial _ _).2 ⟨_, List.mem_singleton.mpr rfl, fun h => h⟩

/-- Non-trivial instance of C39. -/
example : (FaculaCollection.mk [sampleFacula (.rect 5 9)] (.rect 5 9)).addFaculae [sampleFacula (.rect 4 8)] =
    .ok ⟨[sampleFacula (.rect 5 9), sampleFacula (.rect 5 9)], .rect 5 9⟩ :=
  (C39_add_faculae_partial _ _).1 (by intro f hf; rw [List.mem_singleton] at hf; subst hf; trivial)

/-! ## C40 -/

/-- The pixel lies inside the facula (spec). -/
def Spec.inFacula (f : Facula) (R : ℝ) (g : Grid) (p : g.Pix) : Prop :=
  Fl.fin (Helpers.haversine f.lat f.lon (g.lat p) (g.lon p)) ≤ f.radius / .fin R

theorem inside_on {f : Facula} {g : Grid} (h : f.grid = g) (R : ℝ) (e : PyErr) :
    (f.inside R).on g e = .ok fun p => inFacula f R g p := by
  subst h
  unfold Field.on
  exact dif_pos rfl

open Classical in
/-- The last facula of the list that contains the pixel. -/
def Spec.lastAt (l : List Facula) (R : ℝ) (g : Grid) (p : g.Pix) : Option Facula :=
  (l.filter fun f => decide (inFacula f R g p)).getLast?

open Classical in
/-- Border value of mu between wall and floor pixels of a facula (the percentile the code computes). -/
def borderOf (s : Star) (lat0 lon0 : ℝ) (f : Facula) : ℝ :=
  match f.fractionalEffectiveArea (Helpers.angleBetween lat0 lon0 f.lat f.lon) with
  | .ok ((_, aw) :: _) =>
    match Np.percentile ((Finset.univ.filter fun p => inFacula f s.radius s.grid p).val.map (s.mu lat0 lon0)) aw with
    | .ok b => b
    | .error _ => 0
  | _ => 0

theorem fractional_keys {f : Facula} {angle : Fl} {fr : Np.Dict ℤ Fl} (hfr : f.fractionalEffectiveArea angle = .ok fr) :
    ∃ kw kf aw af, Helpers.roundTeff f.wallDteff = .ok kw ∧ Helpers.roundTeff f.floorDteff = .ok kf ∧
          (fr = [(kw, aw), (kf, af)] ∨ fr = [(kf, af)]) := by
  unfold Facula.fractionalEffectiveArea at hfr
  cases hea : f.effectiveArea angle with
  | error e => rw [hea] at hfr; cases hfr
  | ok d =>
    rw [hea] at hfr
    have htk : ∃ a b, f.twoKeys a b = .ok d := by
      unfold Facula.effectiveArea at hea
      split_ifs at hea
      · exact ⟨_, _, hea⟩
      · simp only at hea
        revert hea
        cases Helpers.circFraction (.fin f.depth / f.radius * angle.tan) (.fin 0) (.fin 1) with
        | error e => intro hea; cases hea
        | ok v => intro hea; exact ⟨_, _, hea⟩
    obtain ⟨a, b, htk⟩ := htk
    unfold Facula.twoKeys at htk
    cases hw : Helpers.roundTeff f.wallDteff with
    | error e => rw [hw] at htk; cases htk
    | ok kw =>
      cases hf : Helpers.roundTeff f.floorDteff with
      | error e => rw [hw, hf] at htk; cases htk
      | ok kf =>
        rw [hw, hf] at htk
        change Except.ok (Np.Dict.set (Np.Dict.set [] kw a) kf b) = _ at htk
        simp only [Except.ok.injEq] at htk
        simp only [Except.map, Except.ok.injEq] at hfr
        subst htk
        subst hfr
        by_cases hk : kw = kf
        · subst hk
          exact ⟨kw, kw, .fin 0, _, rfl, rfl, Or.inr (by simp [Np.Dict.set]; rfl)⟩
        · exact ⟨kw, kf, _, _, rfl, rfl, Or.inl (by simp [Np.Dict.set, hk]; exact ⟨rfl, rfl⟩)⟩

/-- Effect of a single facula on the map. -/
theorem addFacula_spec (s : Star) (lat0 lon0 : ℝ) (cur m : s.grid.Pix → ℝ) (f : Facula) (hg : f.grid = s.grid)
    (h : s.addFacula lat0 lon0 cur f = .ok m) :
    (∀ p, ¬ inFacula f s.radius s.grid p → m p = cur p) ∧
    ∀ p, inFacula f s.radius s.grid p → ∃ kw kf : ℤ,
      Helpers.roundTeff f.wallDteff = .ok kw ∧ Helpers.roundTeff f.floorDteff = .ok kf ∧
      m p = if s.mu lat0 lon0 p ≤ borderOf s lat0 lon0 f then Helpers.clipTeff (kw + s.teff)
        else Helpers.clipTeff (kf + s.teff) := by
  classical
  unfold Star.addFacula at h
  simp only at h
  by_cases hex : ∃ p, (f.inside s.radius).2 p
  · rw [if_neg (not_not.mpr hex), inside_on hg] at h
    cases hfr : f.fractionalEffectiveArea (Helpers.angleBetween lat0 lon0 f.lat f.lon) with
    | error e => rw [hfr] at h; cases h
    | ok fr =>
      rw [hfr] at h
      obtain ⟨kw, kf, aw, af, hw, hf, hfr' | hfr'⟩ := fractional_keys hfr
      · subst hfr'
        simp only [bind, Except.bind, Star.paintFacula] at h
        cases hp : Np.percentile ((Finset.univ.filter fun p => inFacula f s.radius s.grid p).val.map (s.mu lat0 lon0)) aw with
        | error e => rw [hp] at h; cases h
        | ok b =>
          rw [hp] at h
          have hb : borderOf s lat0 lon0 f = b := by
            unfold borderOf
            rw [hfr]
            simp only [hp]
          change Except.ok _ = _ at h
          simp only [Except.ok.injEq] at h
          rw [hb]
          refine ⟨?_, ?_⟩
          · intro p hn; rw [← h]; simp [hn]
          · intro p hi
            refine ⟨kw, kf, hw, hf, ?_⟩
            rw [← h]
            by_cases hb : s.mu lat0 lon0 p ≤ b
            · simp [hi, hb, not_lt.mpr hb]
            · simp [hi, hb, not_le.mp hb]
      · subst hfr'
        simp only [bind, Except.bind, Star.paintFacula] at h
        cases h
  · rw [if_pos hex] at h
    simp only [Except.ok.injEq] at h
    subst h
    refine ⟨fun p _ => rfl, fun p hi => ?_⟩
    exfalso
    apply hex
    have hon := inside_on hg s.radius .indexError
    unfold Field.on at hon
    have hgg : (f.inside s.radius).1 = s.grid := hg
    rw [dif_pos hgg, Except.ok.injEq] at hon
    exact ⟨hgg ▸ p, by rw [congrFun hon p]; exact hi⟩

open Classical in
theorem foldlM_faculae (s : Star) (lat0 lon0 : ℝ) (l : List Facula) (hg : ∀ f ∈ l, f.grid = s.grid)
    (cur m : s.grid.Pix → ℝ) (h : l.foldlM (fun cur f => s.addFacula lat0 lon0 cur f) cur = .ok m) (p : s.grid.Pix) :
    (lastAt l s.radius s.grid p = none → m p = cur p) ∧
      ∀ f, lastAt l s.radius s.grid p = some f →
        ∃ kw kf : ℤ, Helpers.roundTeff f.wallDteff = .ok kw ∧ Helpers.roundTeff f.floorDteff = .ok kf ∧
          m p = if s.mu lat0 lon0 p ≤ borderOf s lat0 lon0 f then Helpers.clipTeff (kw + s.teff)
            else Helpers.clipTeff (kf + s.teff) := by
  induction l generalizing cur with
  | nil =>
    simp only [List.foldlM_nil] at h
    change Except.ok cur = _ at h
    simp only [Except.ok.injEq] at h
    subst h
    exact ⟨fun _ => rfl, fun f hf => by simp [lastAt] at hf⟩
  | cons f l ih =>
    rw [List.foldlM_cons] at h
    cases hc : s.addFacula lat0 lon0 cur f with
    | error e => rw [hc] at h; cases h
    | ok c' =>
      rw [hc] at h
      obtain ⟨ih1, ih2⟩ := ih (fun x hx => hg x (by simp [hx])) c' h
      obtain ⟨h1, h2⟩ := addFacula_spec s lat0 lon0 cur c' f (hg f (by simp)) hc
      have hlast : lastAt (f :: l) s.radius s.grid p = match lastAt l s.radius s.grid p with
          | some f' => some f'
          | none => if inFacula f s.radius s.grid p then some f else none := by
        unfold lastAt
        rw [List.filter_cons]
        by_cases hi : inFacula f s.radius s.grid p
        · simp only [hi, decide_true, if_true]
          rw [List.getLast?_cons]
          cases (l.filter fun f => decide (inFacula f s.radius s.grid p)).getLast? <;> simp
        · simp only [hi, decide_false, Bool.false_eq_true, if_false]
          cases (l.filter fun f => decide (inFacula f s.radius s.grid p)).getLast? <;> rfl
      rw [hlast]
      cases hl : lastAt l s.radius s.grid p with
      | some f' =>
        refine ⟨fun hn => by simp at hn, fun f'' hf'' => ?_⟩
        simp only [Option.some_inj] at hf''
        subst hf''
        exact ih2 _ hl
      | none =>
        simp only
        by_cases hi : inFacula f s.radius s.grid p
        · rw [if_pos hi]
          refine ⟨fun hn => by simp at hn, fun f'' hf'' => ?_⟩
          rw [Option.some_inj] at hf''
          subst hf''
          rw [ih1 hl]
          exact h2 p hi
        · rw [if_neg hi]
          refine ⟨fun _ => ?_, fun f'' hf'' => by simp at hf''⟩
          rw [ih1 hl, h1 p hi]

/-- **C40** When `add_faculae_to_map` returns: pixels outside all faculae keep the value of the spot map
`m₀`; every other pixel has the clipped wall or floor temperature of the last facula containing it, and the
wall pixels of a facula are those with `mu` up to a border, i.e. those nearest the limb. -/
theorem C40_overlay (s : Star) (lat0 lon0 : ℝ) (m₀ : s.spots.grid.Pix → ℝ) (hgrid : s.spots.grid = s.grid)
    (hm₀ : s.map = .ok m₀) (hg : ∀ f ∈ s.faculae.faculae, f.grid = s.grid) (m : s.grid.Pix → ℝ)
    (h : s.addFaculaeToMap lat0 lon0 = .ok m) :
    ∃ border : Facula → ℝ, ∀ p,
      (lastAt s.faculae.faculae s.radius s.grid p = none → m p = m₀ (hgrid ▸ p)) ∧
      ∀ f, lastAt s.faculae.faculae s.radius s.grid p = some f →
        ∃ kw kf : ℤ, Helpers.roundTeff f.wallDteff = .ok kw ∧ Helpers.roundTeff f.floorDteff = .ok kf ∧
          m p = if s.mu lat0 lon0 p ≤ border f then Helpers.clipTeff (kw + s.teff)
            else Helpers.clipTeff (kf + s.teff) := by
  unfold Star.addFaculaeToMap at h
  rw [hm₀] at h
  have hon : Field.on ⟨s.spots.grid, m₀⟩ s.grid .indexError = .ok fun p => m₀ (hgrid ▸ p) := by
    unfold Field.on
    rw [dif_pos hgrid]
  change ((Field.on ⟨s.spots.grid, m₀⟩ s.grid .indexError) >>= _) = _ at h
  rw [hon] at h
  exact ⟨borderOf s lat0 lon0, fun p => foldlM_faculae s lat0 lon0 _ hg _ m h p⟩

end Vsm
