import Verif.Model.Examples
import Verif.Props.FaculaGeom

/-!
# C173: the light of a facula across the disk
-/

noncomputable section

namespace Vsm

open Real Spec Set MeasureTheory

/-! ### The walls in closed form -/

/-- The overlap of two unit disks `2 sin φ` apart. -/
theorem overlap_unit {φ : ℝ} (h0 : 0 ≤ φ) (h1 : φ ≤ π / 2) : overlap ⟨2 * sin φ, 0⟩ 1 = π - (2 * φ + sin (2 * φ)) := by
  rcases h0.eq_or_lt with rfl | hp
  · rw [overlap_inside zero_le_one (by simp [norm_mk])]
    simp
  · have hs : 0 < sin φ := sin_pos_of_pos_of_lt_pi hp (by linarith [pi_pos])
    have hc : 0 ≤ cos φ := cos_nonneg_of_mem_Icc ⟨by linarith, h1⟩
    have hs1 := sin_le_one φ
    have hn : ‖(⟨2 * sin φ, 0⟩ : ℂ)‖ = 2 * sin φ := by
      rw [norm_mk, show (2 * sin φ) ^ 2 + (0 : ℝ) ^ 2 = (2 * sin φ) ^ 2 by ring, sqrt_sq (by linarith)]
    have hov : overlap ⟨2 * sin φ, 0⟩ 1 = (volume (lens (2 * sin φ) 1)).toReal := by
      rw [overlap, overlap_norm, hn, volume_overlap_real zero_le_one]
    rw [hov, volume_lens one_pos (by linarith) (by linarith) (by linarith) (by linarith)]
    have e1 : ((2 * sin φ) ^ 2 - 1 ^ 2 + 1) / (2 * (2 * sin φ)) = sin φ := by field_simp; ring
    have e2 : ((2 * sin φ) ^ 2 + 1 ^ 2 - 1) / (2 * (2 * sin φ)) = sin φ := by field_simp; ring
    have e3 : arccos (sin φ) = π / 2 - φ := by
      rw [← cos_pi_div_two_sub, arccos_cos (by linarith) (by linarith)]
    have e4 : √(1 - sin φ ^ 2) = cos φ := by
      rw [← cos_sq', sqrt_sq hc]
    have hle : 2 * φ + sin (2 * φ) ≤ π := by
      have := sin_le (show 0 ≤ π - 2 * φ by linarith)
      rw [sin_pi_sub] at this
      linarith
    rw [e1, e2, div_one, e3, one_pow, e4, ENNReal.toReal_ofReal]
    · rw [sin_two_mul]; ring
    · rw [sin_two_mul] at hle
      linarith

theorem overlap_arcsin {d : ℝ} (h0 : 0 ≤ d) : overlap ⟨d, 0⟩ 1 = π - (2 * arcsin (d / 2) + sin (2 * arcsin (d / 2))) := by
  rcases le_total d 2 with h | h
  · have := overlap_unit (arcsin_nonneg.mpr (show 0 ≤ d / 2 by linarith)) (arcsin_le_pi_div_two _)
    rwa [sin_arcsin (by linarith) (by linarith), show 2 * (d / 2) = d by ring] at this
  · rw [arcsin_of_one_le (by linarith), overlap_disjoint, show 2 * (π / 2) = π by ring, sin_pi]
    · ring
    · rw [norm_mk, show d ^ 2 + (0 : ℝ) ^ 2 = d ^ 2 by ring, sqrt_sq h0]
      linarith

theorem wallArc_strictMono : StrictMonoOn (fun φ : ℝ => 2 * φ + sin (2 * φ)) (Icc 0 (π / 2)) := by
  refine strictMonoOn_of_deriv_pos (convex_Icc _ _) (by fun_prop) fun x hx => ?_
  rw [interior_Icc] at hx
  have hd : HasDerivAt (fun φ : ℝ => 2 * φ + sin (2 * φ)) (2 * 1 + cos (2 * x) * (2 * 1)) x :=
    ((hasDerivAt_id x).const_mul 2).add (((hasDerivAt_id x).const_mul 2).sin)
  rw [hd.deriv]
  have hc : -1 < cos (2 * x) := by
    rw [← cos_pi]
    exact cos_lt_cos_of_nonneg_of_le_pi (by linarith [hx.1]) le_rfl (by linarith [hx.2])
  linarith

theorem wallShare_arc {f : Facula} {r θ : ℝ} (hr : 0 < r) (hD : 0 ≤ f.depth) (hm : f.floorMinRad ≤ r) (h0 : 0 ≤ θ) (h1 : θ < π / 2) :
    wallShare f r θ = (2 * arcsin (f.depth / r * tan θ / 2) + sin (2 * arcsin (f.depth / r * tan θ / 2))) / π := by
  have ht : 0 ≤ tan θ := tan_nonneg_of_nonneg_of_le_pi_div_two h0 h1.le
  rw [wallShare, if_neg (not_lt.mpr hm), overlap_arcsin (by positivity)]
  field_simp
  ring

/-! ### The light -/

theorem relativeFlux_eq {f : Facula} {r R bw bf θ : ℝ} (h : f.radius = .fin r) (hr : 0 < r) (hR : 0 < R) (hk : wallKey f r ≠ floorKey f r)
    (h0 : 0 ≤ θ) (h1 : θ < π / 2) :
    Example.relativeFlux R bw bf f (.fin θ) = .ok (.fin (1 + (r / R) ^ 2 * cos θ * ((bf - 1) + wallShare f r θ * (bw - bf)))) := by
  unfold Example.relativeFlux
  rw [effectiveArea_two h hr (keys_ne_dteff hk) h0 h1, twoKeys_eq h hk, wallDteff_eq h, floorDteff_eq h]
  simp only [Helpers.roundTeff]
  change (Np.Dict.get _ (floorKey f r) >>= fun areaFloor => Np.Dict.get _ (wallKey f r) >>= _) = _
  have hA : π * R ^ 2 ≠ 0 := by positivity
  simp only [Np.Dict.get, Np.Dict.get?, if_neg hk, if_true]
  change Except.ok _ = _
  rw [Fl.fin_div hA, Fl.fin_div hA]
  simp only [Fl.fin_mul, Fl.fin_add]
  congr 2
  field_simp
  ring

set_option maxHeartbeats 1000000 in
/-- **C173** The light of a facula across the disk, in the toy model of the example.  For a wall brighter and a floor darker than the
photosphere there is one number `d`, the same for every facula and star, such that a facula with a visible floor is darker than the
photosphere exactly at angles below `arctan (d·radius/depth)` from the disk centre and brighter beyond.  It is darkest at the centre,
brightens strictly up to that angle, shows only its wall once `depth·tan(angle)` is twice the radius, and fades towards the limb like the
cosine of the angle.  If wall and floor differ equally from the photosphere, `d` is between 0.75 and 0.9. -/
theorem C173_light_curve (bw bf : ℝ) (hw : 1 < bw) (hf : bf < 1) : ∃ d : ℝ, 0 < d ∧ d < 2 ∧ (bw - 1 = 1 - bf → 0.75 < d ∧ d < 0.9) ∧
    ∀ (R : ℝ) (_ : 0 < R) (f : Facula) (r : ℝ) (_ : f.radius = .fin r) (_ : 0 < r) (_ : 0 < f.depth) (_ : f.floorMinRad ≤ r)
      (_ : wallKey f r ≠ floorKey f r), ∃ F : ℝ → ℝ,
      (∀ θ, 0 ≤ θ → θ < π / 2 → Example.relativeFlux R bw bf f (.fin θ) = .ok (.fin (F θ))) ∧
      F 0 = 1 - (1 - bf) * (r / R) ^ 2 ∧
      StrictMonoOn F (Icc 0 (arctan (d * r / f.depth))) ∧
      ∀ θ, 0 ≤ θ → θ < π / 2 →
        (F θ < 1 ↔ θ < arctan (d * r / f.depth)) ∧ (1 < F θ ↔ arctan (d * r / f.depth) < θ) ∧
        (2 * r ≤ f.depth * tan θ → F θ = 1 + (bw - 1) * (r / R) ^ 2 * cos θ) ∧
        F 0 ≤ F θ ∧ |F θ - 1| ≤ max (bw - 1) (1 - bf) * (r / R) ^ 2 * cos θ := by
  have hpi := pi_pos
  have hb : 0 < bw - bf := by linarith
  obtain ⟨s, hs⟩ : ∃ s, s = (1 - bf) / (bw - bf) := ⟨_, rfl⟩
  have hs0 : 0 < s := by rw [hs]; exact div_pos (by linarith) hb
  have hs1 : s < 1 := by rw [hs, div_lt_one hb]; linarith
  have hsb : s * (bw - bf) = 1 - bf := by rw [hs]; field_simp
  obtain ⟨φ, ⟨hφ0, hφ1⟩, hφ⟩ : π * s ∈ (fun φ : ℝ => 2 * φ + sin (2 * φ)) '' Icc 0 (π / 2) := by
    refine intermediate_value_Icc (by positivity) (by fun_prop) ⟨?_, ?_⟩
    · simp; positivity
    · simp only [show 2 * (π / 2) = π by ring, sin_pi, add_zero]
      nlinarith
  simp only at hφ
  have hφ0' : 0 < φ := by
    rcases hφ0.eq_or_lt with rfl | h
    · simp at hφ
      nlinarith
    · exact h
  have hφ1' : φ < π / 2 := by
    rcases hφ1.eq_or_lt with rfl | h
    · simp only [show 2 * (π / 2) = π by ring, sin_pi, add_zero] at hφ
      nlinarith
    · exact h
  have hsin0 : 0 < sin φ := sin_pos_of_pos_of_lt_pi hφ0' (by linarith)
  have hsin1 : sin φ < 1 := by
    rw [← sin_pi_div_two]
    exact sin_lt_sin_of_lt_of_le_pi_div_two (by linarith) le_rfl hφ1'
  have hcos0 : 0 < cos φ := cos_pos_of_mem_Ioo ⟨by linarith, hφ1'⟩
  -- comparing a wall share with `s`
  have hcmp : ∀ x, 0 ≤ x → (((2 * arcsin (x / 2) + sin (2 * arcsin (x / 2))) / π < s ↔ x < 2 * sin φ) ∧
      (s < (2 * arcsin (x / 2) + sin (2 * arcsin (x / 2))) / π ↔ 2 * sin φ < x)) := by
    intro x hx
    have hm : arcsin (x / 2) ∈ Icc 0 (π / 2) := ⟨arcsin_nonneg.mpr (by linarith), arcsin_le_pi_div_two _⟩
    constructor
    · rw [div_lt_iff₀ hpi, mul_comm s, ← hφ, wallArc_strictMono.lt_iff_lt hm ⟨hφ0, hφ1⟩, arcsin_lt_iff_lt_sin' ⟨by linarith, hφ1⟩]
      constructor <;> intro h <;> linarith
    · rw [lt_div_iff₀ hpi, mul_comm s, ← hφ, wallArc_strictMono.lt_iff_lt ⟨hφ0, hφ1⟩ hm, lt_arcsin_iff_sin_lt' ⟨by linarith, hφ1'⟩]
      constructor <;> intro h <;> linarith
  refine ⟨2 * sin φ, by linarith, by linarith, ?_, ?_⟩
  · intro he
    have hs2 : s = 1 / 2 := by
      rw [hs, div_eq_iff hb.ne']
      linarith
    rw [hs2] at hφ
    have p1 := pi_gt_d4
    have p2 := pi_lt_d4
    have hsq := sin_sq_add_cos_sq φ
    rw [sin_two_mul] at hφ
    constructor
    · by_contra hlt
      push Not at hlt
      have hx : sin φ ≤ 0.375 := by linarith
      have hc1 : 0.927 ≤ cos φ := by nlinarith
      have hφt : φ ≤ 0.375 / 0.927 := by
        have h1 := le_tan hφ0 hφ1'
        have h2 : tan φ ≤ 0.375 / 0.927 := by
          rw [tan_eq_sin_div_cos]
          exact div_le_div₀ (by norm_num) hx (by norm_num) hc1
        linarith
      have hc2 : cos φ ≤ 1 := cos_le_one φ
      nlinarith
    · by_contra hlt
      push Not at hlt
      have hx : 0.45 ≤ sin φ := by linarith
      have hφs := sin_le hφ0
      have hφ5 : φ ≤ 0.79 := by
        have : 0 ≤ 2 * sin φ * cos φ := by positivity
        nlinarith
      have hc1 : 0.68 ≤ cos φ := by
        have := one_sub_sq_div_two_le_cos (x := φ)
        nlinarith
      nlinarith [mul_nonneg (sub_nonneg.mpr hx) (sub_nonneg.mpr hc1)]
  · intro R hR f r h hr hD hm hk
    set F : ℝ → ℝ := fun θ => 1 + (r / R) ^ 2 * cos θ * ((bf - 1) + wallShare f r θ * (bw - bf)) with hF
    have hq : 0 < (r / R) ^ 2 := by positivity
    have hdr : 0 < f.depth / r := by positivity
    have hcosθ : ∀ θ, 0 ≤ θ → θ < π / 2 → 0 < cos θ := fun θ a b => cos_pos_of_mem_Ioo ⟨by linarith, b⟩
    have htan : ∀ θ, 0 ≤ θ → θ < π / 2 → ((f.depth / r * tan θ < 2 * sin φ ↔ θ < arctan (2 * sin φ * r / f.depth)) ∧
        (2 * sin φ < f.depth / r * tan θ ↔ arctan (2 * sin φ * r / f.depth) < θ)) := by
      intro θ a b
      have e : arctan (tan θ) = θ := arctan_tan (by linarith) b
      constructor
      · rw [div_mul_eq_mul_div, div_lt_iff₀ hr, ← e, arctan_strictMono.lt_iff_lt, lt_div_iff₀ hD, mul_comm, e]
      · rw [div_mul_eq_mul_div, lt_div_iff₀ hr, ← e, arctan_strictMono.lt_iff_lt, div_lt_iff₀ hD, mul_comm (tan _), e]
    have hw' : ∀ θ, 0 ≤ θ → θ < π / 2 → ((wallShare f r θ < s ↔ θ < arctan (2 * sin φ * r / f.depth)) ∧
        (s < wallShare f r θ ↔ arctan (2 * sin φ * r / f.depth) < θ)) := by
      intro θ a b
      have ht : 0 ≤ tan θ := tan_nonneg_of_nonneg_of_le_pi_div_two a b.le
      rw [wallShare_arc hr hD.le hm a b, (hcmp _ (by positivity)).1, (hcmp _ (by positivity)).2]
      exact htan θ a b
    have hval : ∀ θ, F θ = 1 + (r / R) ^ 2 * cos θ * ((wallShare f r θ - s) * (bw - bf)) := by
      intro θ
      rw [hF]
      simp only
      rw [show (wallShare f r θ - s) * (bw - bf) = wallShare f r θ * (bw - bf) - s * (bw - bf) by ring, hsb]
      ring
    have hmono : ∀ a b, 0 ≤ a → a < b → b < π / 2 → wallShare f r a ≤ wallShare f r b := by
      intro a b h0 hab hb'
      have ht := (tan_lt_tan_of_lt_of_lt_pi_div_two (by linarith) hb' hab).le
      have ha : 0 ≤ tan a := tan_nonneg_of_nonneg_of_le_pi_div_two h0 (by linarith)
      rw [wallShare_arc hr hD.le hm h0 (by linarith), wallShare_arc hr hD.le hm (by linarith) hb']
      refine div_le_div_of_nonneg_right (wallArc_strictMono.monotoneOn ⟨arcsin_nonneg.mpr (by positivity), arcsin_le_pi_div_two _⟩
        ⟨arcsin_nonneg.mpr ?_, arcsin_le_pi_div_two _⟩ (monotone_arcsin ?_)) hpi.le
      · have := mul_le_mul_of_nonneg_left ht hdr.le
        have : 0 ≤ f.depth / r * tan a := by positivity
        linarith
      · have := mul_le_mul_of_nonneg_left ht hdr.le
        linarith
    have hz : wallShare f r 0 = 0 := by
      rw [wallShare_arc hr hD.le hm le_rfl (by positivity)]
      simp
    refine ⟨F, fun θ a b => relativeFlux_eq h hr hR hk a b, ?_, ?_, ?_⟩
    · rw [hF]
      simp only [hz, cos_zero]
      ring
    · intro a ha b hb' hab
      have hbn : b < π / 2 := hb'.2.trans_lt (arctan_lt_pi_div_two _)
      have hca := hcosθ a ha.1 (by linarith)
      have hcb := hcosθ b hb'.1 hbn
      have hcab : cos b < cos a := cos_lt_cos_of_nonneg_of_le_pi ha.1 (by linarith) hab
      have w1 : wallShare f r a < s := (hw' a ha.1 (by linarith)).1.mpr (by linarith [hb'.2])
      have w2 := hmono a b ha.1 hab hbn
      rw [hval, hval]
      have k : (s - wallShare f r b) * cos b < (s - wallShare f r a) * cos a := by
        have k1 : (s - wallShare f r b) * cos b ≤ (s - wallShare f r a) * cos b := mul_le_mul_of_nonneg_right (by linarith) hcb.le
        have k2 : (s - wallShare f r a) * cos b < (s - wallShare f r a) * cos a := mul_lt_mul_of_pos_left hcab (by linarith)
        linarith
      have k3 := mul_lt_mul_of_pos_left k (mul_pos hq hb)
      nlinarith
    · intro θ a b
      have hc := hcosθ θ a b
      obtain ⟨w0, w1⟩ := wallShare_mem f r θ
      have hp : 0 < (r / R) ^ 2 * cos θ := by positivity
      have hpb : 0 < (r / R) ^ 2 * cos θ * (bw - bf) := by positivity
      have hval' : F θ = 1 + (r / R) ^ 2 * cos θ * (bw - bf) * (wallShare f r θ - s) := by rw [hval]; ring
      refine ⟨?_, ?_, ?_, ?_, ?_⟩
      · rw [← (hw' θ a b).1, hval']
        constructor
        · intro h
          by_contra hn
          push Not at hn
          have := mul_nonneg hpb.le (sub_nonneg.mpr hn)
          linarith
        · intro h
          have := mul_pos hpb (sub_pos.mpr h)
          linarith
      · rw [← (hw' θ a b).2, hval']
        constructor
        · intro h
          by_contra hn
          push Not at hn
          have := mul_nonneg hpb.le (sub_nonneg.mpr hn)
          linarith
        · intro h
          have := mul_pos hpb (sub_pos.mpr h)
          linarith
      · intro h2
        have : wallShare f r θ = 1 := by
          rw [wallShare_arc hr hD.le hm a b, arcsin_of_one_le, show 2 * (π / 2) = π by ring, sin_pi, add_zero, div_self hpi.ne']
          rw [le_div_iff₀ (by norm_num), div_mul_eq_mul_div, le_div_iff₀ hr]
          linarith
        rw [hF]
        simp only [this]
        ring
      · rw [hval, hval, hz, cos_zero]
        have k : (s - wallShare f r θ) * cos θ ≤ s := by
          have := cos_le_one θ
          have : 0 ≤ wallShare f r θ * cos θ := by positivity
          nlinarith
        have k3 := mul_le_mul_of_nonneg_left k (mul_pos hq hb).le
        nlinarith
      · rw [hF]
        simp only [add_sub_cancel_left]
        rw [abs_mul, abs_of_pos hp]
        have hm1 := le_max_left (bw - 1) (1 - bf)
        have hm2 := le_max_right (bw - 1) (1 - bf)
        have hab : |bf - 1 + wallShare f r θ * (bw - bf)| ≤ max (bw - 1) (1 - bf) := by
          rw [abs_le]
          constructor
          · have : 0 ≤ wallShare f r θ * (bw - bf) := by positivity
            linarith
          · have : wallShare f r θ * (bw - bf) ≤ 1 * (bw - bf) := mul_le_mul_of_nonneg_right w1 hb.le
            linarith
        calc (r / R) ^ 2 * cos θ * |bf - 1 + wallShare f r θ * (bw - bf)| ≤ (r / R) ^ 2 * cos θ * max (bw - 1) (1 - bf) :=
              mul_le_mul_of_nonneg_left hab hp.le
          _ = _ := by ring

/-- **C173** Of two faculae that differ only in depth the deeper one is at least as bright at every angle. -/
theorem C173_deeper (bw bf R D : ℝ) (hw : bf ≤ bw) (hR : 0 < R) (f : Facula) (r : ℝ) (h : f.radius = .fin r) (hr : 0 < r) (hD : 0 ≤ f.depth)
    (hDD : f.depth ≤ D) (hk : wallKey f r ≠ floorKey f r) (θ : ℝ) (h0 : 0 ≤ θ) (h1 : θ < π / 2) :
    ∃ x y : ℝ, Example.relativeFlux R bw bf f (.fin θ) = .ok (.fin x) ∧ Example.relativeFlux R bw bf { f with depth := D } (.fin θ) = .ok (.fin y) ∧
      x ≤ y := by
  refine ⟨_, _, relativeFlux_eq h hr hR hk h0 h1, relativeFlux_eq (f := { f with depth := D }) h hr hR hk h0 h1, ?_⟩
  have hc : 0 < cos θ := cos_pos_of_mem_Ioo ⟨by linarith [pi_pos], h1⟩
  have ht : 0 ≤ tan θ := tan_nonneg_of_nonneg_of_le_pi_div_two h0 h1.le
  have hs : wallShare f r θ ≤ wallShare { f with depth := D } r θ := by
    unfold wallShare
    split_ifs
    · exact le_rfl
    · have hn : ∀ E : ℝ, 0 ≤ E → ‖(⟨E / r * tan θ, 0⟩ : ℂ)‖ = E / r * tan θ := by
        intro E hE
        rw [norm_mk, show (E / r * tan θ) ^ 2 + (0 : ℝ) ^ 2 = (E / r * tan θ) ^ 2 by ring, sqrt_sq (by positivity)]
      have := overlap_antitone (z := ⟨f.depth / r * tan θ, 0⟩) (w := ⟨D / r * tan θ, 0⟩) zero_le_one (by
        rw [hn _ hD, hn _ (hD.trans hDD)]
        gcongr)
      have hA : 0 < π * (1 : ℝ) ^ 2 := by positivity
      have := div_le_div_of_nonneg_right this hA.le
      linarith
  have : wallShare f r θ * (bw - bf) ≤ wallShare { f with depth := D } r θ * (bw - bf) := mul_le_mul_of_nonneg_right hs (by linarith)
  have := mul_le_mul_of_nonneg_left this (show 0 ≤ (r / R) ^ 2 * cos θ by positivity)
  linarith

/-- **C173** The light curves of the example: at the disk centre every facula takes away one part in 9000 of the light, and one that is
`k` times as deep as wide in radius passes from darker to brighter between `arctan (0.75/k)` and `arctan (0.9/k)`. -/
theorem C173_example (g : Grid) (k : ℝ) (hk : 0 < k) : ∃ F : ℝ → ℝ,
    (∀ θ, 0 ≤ θ → θ < π / 2 → Example.relativeFlux (0.15 * 695700) 1.1 0.9 (Example.makeFac g k) (.fin θ) = .ok (.fin (F θ))) ∧
    F 0 = 1 - 1 / 9000 ∧ (∀ θ, 0 ≤ θ → θ ≤ arctan (0.75 / k) → F θ < 1) ∧ (∀ θ, arctan (0.9 / k) ≤ θ → θ < π / 2 → 1 < F θ) ∧
    ∀ θ, 0 ≤ θ → θ < π / 2 → |F θ - 1| ≤ cos θ / 9000 := by
  obtain ⟨d, h1, h2, h3, h4⟩ := C173_light_curve 1.1 0.9 (by norm_num) (by norm_num)
  obtain ⟨h5, h6⟩ := h3 (by norm_num)
  have hkey : wallKey (Example.makeFac g k) (0.005 * 695700) ≠ floorKey (Example.makeFac g k) (0.005 * 695700) := by
    have e1 : wallKey (Example.makeFac g k) (0.005 * 695700) = 100 := by
      have := Np.roundHalfEven_int 100
      simpa [wallKey, Example.makeFac] using this
    have e2 : floorKey (Example.makeFac g k) (0.005 * 695700) = -100 := by
      have := Np.roundHalfEven_int (-100)
      simpa [floorKey, Example.makeFac] using this
    rw [e1, e2]
    norm_num
  obtain ⟨F, k1, k2, -, k4⟩ := h4 (0.15 * 695700) (by norm_num) (Example.makeFac g k) (0.005 * 695700) rfl (by norm_num)
    (by simp only [Example.makeFac]; positivity) (by simp only [Example.makeFac]; norm_num) hkey
  have hd : d * (0.005 * 695700) / (Example.makeFac g k).depth = d / k := by
    simp only [Example.makeFac]
    field_simp
  rw [hd] at k4
  refine ⟨F, k1, by rw [k2]; norm_num, fun θ a b => ?_, fun θ a b => ?_, fun θ a b => ?_⟩
  · refine ((k4 θ a (b.trans_lt (arctan_lt_pi_div_two _))).1).mpr (b.trans_lt (arctan_strictMono ?_))
    gcongr
  · refine ((k4 θ ((arctan_nonneg.mpr (by positivity)).trans a) b).2.1).mpr (lt_of_lt_of_le (arctan_strictMono ?_) a)
    gcongr
  · refine ((k4 θ a b).2.2.2.2).trans (le_of_eq ?_)
    norm_num
    ring

/-- Non-trivial instance of C173: a facula as deep as it is wide in radius is dark 36 degrees from the disk centre and bright at 45 degrees. -/
example (g : Grid) : ∃ x y : ℝ, Example.relativeFlux (0.15 * 695700) 1.1 0.9 (Example.makeFac g 1) (.fin (arctan 0.75)) = .ok (.fin x) ∧ x < 1 ∧
    Example.relativeFlux (0.15 * 695700) 1.1 0.9 (Example.makeFac g 1) (.fin (π / 4)) = .ok (.fin y) ∧ 1 < y := by
  obtain ⟨F, h1, -, h3, h4, -⟩ := C173_example g 1 one_pos
  have hp := pi_pos
  refine ⟨_, _, h1 _ (arctan_nonneg.mpr (by norm_num)) (arctan_lt_pi_div_two _), h3 _ (arctan_nonneg.mpr (by norm_num)) (by simp),
    h1 _ (by positivity) (by linarith), h4 _ ?_ (by linarith)⟩
  rw [← arctan_one, div_one]
  exact arctan_strictMono.monotone (by norm_num)

end Vsm
