import Verif.Props.MeanLight
import Verif.Props.FlareCurve
import Verif.Props.SpiralShow

/-!
# C141, C142: averages over all observers
-/

noncomputable section

namespace Vsm

open Real MeasureTheory Set Np Spec

namespace Spec

/-- Average over all observers, uniformly distributed over the sphere. -/
def observerMean (f : ℝ → ℝ → ℝ) : ℝ := sphereInt f / (4 * π)

open Classical in
/-- Share of the surface taken by the points satisfying `A`. -/
def surfaceShare (A : ℝ → ℝ → Prop) : ℝ := sphereInt (fun φ l => if A φ l then 1 else 0) / (4 * π)

end Spec

theorem intensity_joint (u1 u2 : ℝ) : Measurable fun y : (ℝ × ℝ) × ℝ × ℝ => intensity u1 u2 y.1.2 y.1.1 y.2.2 y.2.1 := by
  unfold intensity quadraticLaw
  simp only [greatCircle_eq]
  fun_prop

theorem intensity_comm (u1 u2 a b c d : ℝ) : intensity u1 u2 a b c d = intensity u1 u2 c d a b := by
  unfold intensity; rw [greatCircle_comm]

theorem intensity_range {u1 u2 : ℝ} (hld : PhysicalLD u1 u2) (a b c d : ℝ) : 0 ≤ intensity u1 u2 a b c d ∧ intensity u1 u2 a b c d ≤ 1 := by
  rw [intensity_eq]; exact lightAt_range hld (cos_le_one _)

theorem intensity_periodic (u1 u2 a b c d : ℝ) : intensity u1 u2 a b c (d + 2 * π) = intensity u1 u2 a b c d := by
  unfold intensity; rw [greatCircle_periodic]

/-- The light that one point of the surface sends to all observers together. -/
theorem point_light {u1 u2 : ℝ} (hld : PhysicalLD u1 u2) (φ l : ℝ) :
    ∫ o : ℝ × ℝ, intensity u1 u2 o.2 o.1 φ l ∂(sphM (-π)) = π * (1 - u1 / 3 - u2 / 6) := by
  have e : ∀ o : ℝ × ℝ, intensity u1 u2 o.2 o.1 φ l = intensity u1 u2 φ l o.2 o.1 := fun o => intensity_comm _ _ _ _ _ _
  have hm : Measurable fun o : ℝ × ℝ => intensity u1 u2 φ l o.2 o.1 := by
    unfold intensity quadraticLaw
    simp only [greatCircle_eq]
    fun_prop
  have hi : Integrable (fun o : ℝ × ℝ => intensity u1 u2 φ l o.2 o.1) (sphM (-π)) := by
    refine sphM_integrable _ _ hm 1 fun y => ?_
    rw [abs_of_nonneg (intensity_range hld _ _ _ _).1]; exact (intensity_range hld _ _ _ _).2
  rw [integral_congr_ae (Filter.Eventually.of_forall e), sphM_sphereInt (-π) (intensity u1 u2 φ l) hi (intensity_periodic _ _ _ _),
    (intensity_total hld _ _).1]

/-- The light of a region for all observers together. -/
theorem observers_light {u1 u2 : ℝ} (hld : PhysicalLD u1 u2) (A : ℝ → ℝ → Prop) (hA : MeasurableSet {x : ℝ × ℝ | A x.2 x.1})
    (hper : ∀ φ l, A φ (l + 2 * π) ↔ A φ l) :
    Integrable (fun o : ℝ × ℝ => lightShare u1 u2 o.2 o.1 A) (sphM (-π)) ∧
    (∀ φ l, lightShare u1 u2 φ (l + 2 * π) A = lightShare u1 u2 φ l A) ∧
    sphereInt (fun φ l => lightShare u1 u2 φ l A) = 4 * π * surfaceShare A := by
  classical
  have hp := pi_pos
  set σ := sphM (-π) with hσ
  set T := π * (1 - u1 / 3 - u2 / 6) with hT
  have hT0 : 0 < T := by
    have h1 := (intensity_total hld 0 0).1
    have h2 := (intensity_total hld 0 0).2
    rw [h1, ← hT] at h2
    linarith
  set F : ℝ × ℝ → ℝ × ℝ → ℝ := fun o x => if A x.2 x.1 then intensity u1 u2 o.2 o.1 x.2 x.1 else 0 with hF
  have hFm : Measurable (Function.uncurry F) := Measurable.ite (measurable_snd hA) (intensity_joint u1 u2) measurable_const
  have hFb : ∀ o x, |F o x| ≤ 1 := by
    intro o x
    simp only [hF]
    split_ifs
    · rw [abs_of_nonneg (intensity_range hld _ _ _ _).1]; exact (intensity_range hld _ _ _ _).2
    · simp
  have hFi : ∀ o, Integrable (F o) σ := fun o => sphM_integrable _ _ (hFm.comp measurable_prodMk_left) 1 (hFb o)
  have h1 : ∀ o : ℝ × ℝ, lightShare u1 u2 o.2 o.1 A = (∫ x, F o x ∂σ) / T := by
    intro o
    unfold lightShare
    rw [(intensity_total hld o.2 o.1).1, ← sphM_sphereInt (-π) (fun φ l => if A φ l then intensity u1 u2 o.2 o.1 φ l else 0) (hFi o)]
    intro φ l
    simp only [hper, intensity_periodic]
  have hprod : Integrable (Function.uncurry F) (σ.prod σ) :=
    Integrable.of_bound hFm.aestronglyMeasurable 1 (Filter.Eventually.of_forall fun y => hFb y.1 y.2)
  have hint : Integrable (fun o : ℝ × ℝ => lightShare u1 u2 o.2 o.1 A) σ := by
    simp only [h1]
    exact (hprod.integral_prod_left).div_const T
  have hperL : ∀ φ l, lightShare u1 u2 φ (l + 2 * π) A = lightShare u1 u2 φ l A := by
    intro φ l
    unfold lightShare
    have e : intensity u1 u2 φ (l + 2 * π) = intensity u1 u2 φ l := by
      funext c d
      rw [intensity_comm, intensity_periodic, intensity_comm]
    rw [e]
  refine ⟨hint, hperL, ?_⟩
  rw [← sphM_sphereInt (-π) (fun φ l => lightShare u1 u2 φ l A) hint hperL]
  simp only [h1]
  rw [integral_div, integral_integral_swap hprod]
  have h2 : ∀ x : ℝ × ℝ, ∫ o, F o x ∂σ = T * if A x.2 x.1 then 1 else 0 := by
    intro x
    simp only [hF]
    split_ifs with h
    · rw [mul_one]; exact point_light hld x.2 x.1
    · simp
  simp only [h2]
  rw [integral_const_mul, mul_div_cancel_left₀ _ hT0.ne', sphM_sphereInt (-π) (fun φ l => if A φ l then (1 : ℝ) else 0), surfaceShare,
    mul_div_cancel₀ _ (by positivity)]
  · exact sphM_integrable _ _ (Measurable.ite hA measurable_const measurable_const) 1 fun y => by split_ifs <;> simp
  · intro φ l; simp only [hper]

/-- **C141** Averaged over all observers, the share of the light that comes from a part of the surface is its share of the surface, whatever
the limb darkening. -/
theorem C141_mean_light (u1 u2 : ℝ) (hld : PhysicalLD u1 u2) (A : ℝ → ℝ → Prop) (hA : MeasurableSet {x : ℝ × ℝ | A x.2 x.1})
    (hper : ∀ φ l, A φ (l + 2 * π) ↔ A φ l) :
    observerMean (fun lat0 lon0 => lightShare u1 u2 lat0 lon0 A) = surfaceShare A := by
  have hp := pi_pos
  unfold observerMean
  rw [(observers_light hld A hA hper).2.2, mul_div_cancel_left₀ _ (by positivity)]

theorem trueShare_light (spots : List StarSpot) (R teff u1 u2 lat0 lon0 T : ℝ) :
    trueShare spots R teff u1 u2 lat0 lon0 T = lightShare u1 u2 lat0 lon0 fun φ l => trueTemp spots R teff φ l = T := rfl

theorem granMoved_err {sh tru : ℝ → ℝ} {E g : ℝ} (hg : 0 ≤ g) (h : ∀ T, |sh T - tru T| ≤ E) (teff G T : ℝ) :
    |granMoved sh teff G g T - granMoved tru teff G g T| ≤ (1 + g) * E := by
  have h1 := abs_le.mp (h T)
  have h2 := abs_le.mp (h teff)
  have hE0 : 0 ≤ E := (abs_nonneg _).trans (h T)
  have h3 : g * (sh teff - tru teff) ≤ g * E := mul_le_mul_of_nonneg_left h2.2 hg
  have h4 : g * (-E) ≤ g * (sh teff - tru teff) := mul_le_mul_of_nonneg_left h2.1 hg
  have h5 := mul_nonneg hg hE0
  unfold granMoved
  rw [abs_le]
  split_ifs <;> constructor <;> linarith [h1.1, h1.2]

/-- **C141** For a star without faculae on a rectangular grid: the fraction that `calc_coverage` reports for a temperature (zero if it is not
reported), averaged over all observers, is the share of the surface with that temperature (a fraction `g` of the photosphere being moved to
the granulation), up to a constant times the grid spacing. -/
theorem C141_mean_report (s : Star) (nlat nlon : ℕ) (hgrid : s.grid = .rect nlat nlon) (hlat : 4 ≤ nlat) (hlon : 3 ≤ nlon)
    (hsg : s.spots.grid = s.grid) (hms : Measured s.spots) (hf : s.faculae.faculae = []) (hR : 0 < s.radius)
    (hld : PhysicalLD s.u1 s.u2) (hs : ∀ sp ∈ s.spots.spots, GoodSpot sp s.radius) (gr : Granulation) (hgr : s.granulation = some gr)
    (hsep : ∀ T ∈ reportTemps s.spots.spots s.teff (s.teff - gr.dteff), ∀ T' ∈ reportTemps s.spots.spots s.teff (s.teff - gr.dteff),
      T ≠ T' → 1 / 100 < |T - T'|) (g : ℝ) (hg0 : 0 ≤ g) :
    ∃ label : ℝ → ℤ, (∀ T, |(label T : ℝ) - 100 * T| ≤ 1 / 2) ∧
      ∀ T ∈ reportTemps s.spots.spots s.teff (s.teff - gr.dteff), ∃ v : ℝ → ℝ → ℝ,
        (∀ lat0 ∈ Set.Icc (-(π / 2)) (π / 2), ∀ lon0 orbit r phase incl total cov plf,
          s.calcCoverage lat0 lon0 g orbit r phase incl = .ok (total, cov, plf) →
          (Dict.get? total (label T)).getD (.fin 0) = .fin (v lat0 lon0)) ∧
        |observerMean v - granMoved (fun T => surfaceShare fun φ l => trueTemp s.spots.spots s.radius s.teff φ l = T)
          s.teff (s.teff - gr.dteff) g T| ≤ (1 + g) * shareError s.spots.spots.length nlat nlon s.u1 s.u2 := by
  classical
  have hp := pi_pos
  have hg : goodGrid s.grid := by rw [hgrid]; exact ⟨by omega, by omega⟩
  obtain ⟨a, ha, -⟩ := C02_area_partition s.grid hg
  have hvis : ∀ lat0 lon0, (∀ p, 0 ≤ pixelWeight s a lat0 lon0 p) ∧ 0 < ∑ p, pixelWeight s a lat0 lon0 p := fun lat0 lon0 =>
    visible_pos s hg hld ha (visible_rect s hgrid hlat hlon lat0 lon0)
  obtain ⟨m₀, hm₀, hleast, -⟩ := C19_coolest_partial s.spots hms s.radius s.teff (fun sp hsp => (hs sp hsp).2.2)
  have hm := noFac_map hsg (show s.map = .ok m₀ from hm₀) hf
  set m : s.grid.Pix → ℝ := fun p => m₀ (hsg ▸ p) with hmdef
  have hmem : ∀ p, m p ∈ reportTemps s.spots.spots s.teff (s.teff - gr.dteff) := by
    intro p
    rcases (hleast (hsg ▸ p)).1 with h1 | ⟨sp, h1, h2⟩
    · exact Or.inl (Or.inl h1)
    · exact Or.inr ⟨sp, h1, h2.imp And.left And.left⟩
  have hacc : ∀ lat0 lon0 T, |share (pixelWeight s a lat0 lon0) m (fun _ => 1) T - trueShare s.spots.spots s.radius s.teff s.u1 s.u2 lat0 lon0 T| ≤
        shareError s.spots.spots.length nlat nlon s.u1 s.u2 := by
    intro lat0 lon0
    have hW := (hvis lat0 lon0).2
    clear hm hm₀ hsep hvis hmem
    obtain ⟨teff, radius, period, ⟨spots, grid⟩, faculae, grid', fg, sg, fcg, gr', u1, u2, fl⟩ := s
    simp only at hgrid hsg
    subst hsg
    subst hgrid
    intro T
    exact share_accuracy nlat nlon (by omega) (by omega) a ha spots radius teff u1 u2 lat0 lon0 hR hld hs m₀ hleast
        (pixelWeight _ a lat0 lon0) (fun p => by
          unfold pixelWeight intensity
          rw [(C03_mu_inner _ lat0 lon0 p).2.2.2]
          ring) hW T
  set E := shareError s.spots.spots.length nlat nlon s.u1 s.u2 with hE
  set G := s.teff - gr.dteff with hG
  refine ⟨Star.key, key_near, fun T hT => ?_⟩
  set v : ℝ → ℝ → ℝ := fun lat0 lon0 => granMoved (fun T => share (pixelWeight s a lat0 lon0) m (fun _ => 1) T) s.teff G g T with hv
  set tr : ℝ → ℝ → ℝ := fun lat0 lon0 => granMoved (fun T => trueShare s.spots.spots s.radius s.teff s.u1 s.u2 lat0 lon0 T) s.teff G g T with htr
  refine ⟨v, fun lat0 h0 lon0 orbit r phase incl total cov plf h => ?_, ?_⟩
  · obtain ⟨m', mask, gr', hm', ht, hgr', h1, h2⟩ := calcCoverage_ok.mp h
    rw [hm, Except.ok.injEq] at hm'
    rw [hgr, Option.some.injEq] at hgr'
    subst hgr'
    rw [← hm'] at h1
    have hw : ∀ p, s.weight lat0 lon0 p = .fin (pixelWeight s a lat0 lon0 p) := weight_eq s a ha lat0 lon0
    have hsub : ∀ T, (T ∈ Set.range m ∨ T = s.teff ∨ T = G) → T ∈ reportTemps s.spots.spots s.teff G := by
      rintro T (⟨p, rfl⟩ | h | h)
      · exact hmem p
      · exact Or.inl (Or.inl h)
      · exact Or.inl (Or.inr h)
    have e1 := entries_of_sep (c := fun _ => 1) hw (hvis lat0 lon0).2.ne' h1 (fun T T' k1 k2 hk => key_inj_of_sep (hsep T (hsub T k1) T' (hsub T' k2)) hk)
    obtain ⟨w, hw1, hw2⟩ := moved_accuracy (pixelWeight s a lat0 lon0) m (fun _ => 1) (fun T => share (pixelWeight s a lat0 lon0) m (fun _ => 1) T)
      s.teff G g 0 hg0 Star.key total (reportTemps s.spots.spots s.teff G) key_near (fun T hT => Or.inl hT)
      (by
        have : Set.range m ∪ reportTemps s.spots.spots s.teff G = reportTemps s.spots.spots s.teff G :=
          Set.union_eq_right.mpr (by rintro _ ⟨p, rfl⟩; exact hmem p)
        rw [this]; exact hsep)
      (fun k hk => by
        obtain ⟨T, hT, hk⟩ := e1.2.2 k hk
        refine ⟨T, ?_, hk⟩
        rcases hT with h | h
        · exact Or.inl h
        · exact Or.inr (Or.inr h))
      (fun T hT => by
        refine (e1.2.1 T ?_).trans ?_
        · rcases hT with h | h | h
          · exact Or.inl h
          · exact Or.inr (Or.inl h)
          · exact Or.inr (Or.inr h)
        · rfl)
      (fun T _ => by simp) T hT
    rw [hw1]
    congr 1
    rw [mul_zero] at hw2
    exact sub_eq_zero.mp (abs_eq_zero.mp (le_antisymm hw2 (abs_nonneg _)))
  · set σ := sphM (-π) with hσ
    have hAm : ∀ T, MeasurableSet {x : ℝ × ℝ | trueTemp s.spots.spots s.radius s.teff x.2 x.1 = T} := fun T =>
      (trueTemp_measurable s.spots.spots s.radius s.teff hR hs) (measurableSet_singleton T)
    have hL := fun T => observers_light hld (fun φ l => trueTemp s.spots.spots s.radius s.teff φ l = T) (hAm T)
      (fun φ l => by rw [trueTemp_periodic])
    have hmu : ∀ p, Measurable fun o : ℝ × ℝ => pixelWeight s a o.2 o.1 p := by
      intro p
      unfold pixelWeight quadraticLaw Grid.mu Grid.cosAngle
      fun_prop
    have hsm : ∀ T, Measurable fun o : ℝ × ℝ => share (pixelWeight s a o.2 o.1) m (fun _ => 1) T := by
      intro T
      unfold share
      refine Measurable.div (Finset.measurable_sum _ fun p _ => ?_) (Finset.measurable_sum _ fun p _ => hmu p)
      split_ifs
      · exact (hmu p).mul_const _
      · exact measurable_const
    have hsi : ∀ T, Integrable (fun o : ℝ × ℝ => share (pixelWeight s a o.2 o.1) m (fun _ => 1) T) σ := fun T =>
      sphM_integrable _ _ (hsm T) 1 fun o => by
        rw [abs_of_nonneg (share_nonneg (hvis _ _).1 (fun _ => zero_le_one) T)]
        exact share_le_one (hvis _ _).1 (hvis _ _).2 T
    have hmove : ∀ sh : ℝ × ℝ → ℝ → ℝ, (∀ T, Integrable (fun o => sh o T) σ) → Integrable (fun o => granMoved (sh o) s.teff G g T) σ ∧
        ∫ o, granMoved (sh o) s.teff G g T ∂σ = granMoved (fun T => ∫ o, sh o T ∂σ) s.teff G g T := by
      intro sh hsh
      unfold granMoved
      have i1 : Integrable (fun o => if T = G then g * sh o s.teff else 0) σ := by
        split_ifs
        · exact (hsh _).const_mul g
        · exact integrable_zero _ _ _
      have i2 : Integrable (fun o => if T = s.teff then g * sh o s.teff else 0) σ := by
        split_ifs
        · exact (hsh _).const_mul g
        · exact integrable_zero _ _ _
      refine ⟨((hsh T).add i1).sub i2, ?_⟩
      refine (integral_sub ((hsh T).add i1) i2).trans ?_
      rw [integral_add' (hsh T) i1]
      congr 1
      · congr 1
        split_ifs
        · rw [integral_const_mul]
        · simp
      · split_ifs
        · rw [integral_const_mul]
        · simp
    have hvi := (hmove (fun o T => share (pixelWeight s a o.2 o.1) m (fun _ => 1) T) hsi).1
    have hti := hmove (fun o T => trueShare s.spots.spots s.radius s.teff s.u1 s.u2 o.2 o.1 T) fun T => (hL T).1
    have hvper : ∀ φ l, v φ (l + 2 * π) = v φ l := by
      intro φ l
      have : pixelWeight s a φ (l + 2 * π) = pixelWeight s a φ l := by
        funext p
        unfold pixelWeight Grid.mu Grid.cosAngle
        rw [show l + 2 * π - s.grid.lon p = l - s.grid.lon p + 2 * π by ring, cos_add_two_pi]
      simp only [hv, this]
    have e1 : observerMean v = (∫ o, v o.2 o.1 ∂σ) / (4 * π) := by
      unfold observerMean; rw [← sphM_sphereInt (-π) v hvi hvper]
    have e2 : granMoved (fun T => surfaceShare fun φ l => trueTemp s.spots.spots s.radius s.teff φ l = T) s.teff G g T =
        (∫ o, tr o.2 o.1 ∂σ) / (4 * π) := by
      rw [show (∫ o : ℝ × ℝ, tr o.2 o.1 ∂σ) = _ from hti.2]
      have : ∀ T, ∫ o : ℝ × ℝ, trueShare s.spots.spots s.radius s.teff s.u1 s.u2 o.2 o.1 T ∂σ =
          4 * π * surfaceShare fun φ l => trueTemp s.spots.spots s.radius s.teff φ l = T := by
        intro T
        rw [← (hL T).2.2, ← sphM_sphereInt (-π) _ (hL T).1 (hL T).2.1]
        rfl
      simp only [this]
      unfold granMoved
      split_ifs <;> field_simp <;> ring
    rw [e1, e2, ← sub_div, abs_div, abs_of_pos (by positivity : (0 : ℝ) < 4 * π), div_le_iff₀ (by positivity),
      ← integral_sub hvi hti.1, ← Real.norm_eq_abs]
    refine (norm_integral_le_of_norm_le_const (C := (1 + g) * E) (Filter.Eventually.of_forall fun o => ?_)).trans (le_of_eq ?_)
    · rw [Real.norm_eq_abs]
      exact granMoved_err hg0 (hacc o.2 o.1) s.teff G T
    · rw [hσ, sphM_real_univ]

/-- Non-trivial instance: the part of a limb-darkened star north of 30 degrees sends a quarter of the light to the average observer. -/
example : observerMean (fun lat0 lon0 => lightShare 0.3 0.2 lat0 lon0 fun φ _ => 1 / 2 < sin φ) = 1 / 4 := by
  have hp := pi_pos
  rw [C141_mean_light 0.3 0.2 (by norm_num [PhysicalLD]) (fun φ _ => 1 / 2 < sin φ)
    (measurableSet_lt measurable_const (by fun_prop)) (fun _ _ => Iff.rfl), surfaceShare]
  have h := zonal_integral ((Ioi (1 / 2 : ℝ)).indicator 1) ((measurable_one).indicator measurableSet_Ioi) 1
    (fun x => by simp only [indicator]; split_ifs <;> simp) (fun x => by simp only [indicator]; split_ifs <;> simp) (π / 2) 0
  rw [zonal_cap (by norm_num) (by norm_num)] at h
  simp only [sin_pi_div_two, cos_pi_div_two, one_mul, zero_mul, add_zero] at h
  have e : ∀ φ : ℝ, (Ioi (1 / 2 : ℝ)).indicator (1 : ℝ → ℝ) (sin φ) = if 1 / 2 < sin φ then (1 : ℝ) else 0 := by
    intro φ
    simp [indicator]
  simp only [e] at h
  have e2 : (sphereInt fun φ _ => @ite ℝ (1 / 2 < sin φ) (Classical.propDecidable _) 1 0) = 2 * π * (1 - 1 / 2) := by
    rw [← h]
  rw [e2]
  field_simp
  norm_num

/-- Non-trivial instance: a star with a spot and with granules 100 K cooler than the photosphere, on a fine grid.  It answers for every
observer, and the average of each answer is within 0.007 of the share of the surface. -/
example : (∀ lat0 ∈ Set.Icc (-(π / 2)) (π / 2), ∀ lon0, ∃ total cov plf,
      (granStar (.rect 20001 40000) [sampleSpot (.rect 20001 40000)] 100).calcCoverage lat0 lon0 0.2 10 (1 / 2) (π / 2) 0 = .ok (total, cov, plf)) ∧
    ∃ label : ℝ → ℤ, (∀ T, |(label T : ℝ) - 100 * T| ≤ 1 / 2) ∧
      ∀ T ∈ ({3000, 2900, 2700, 2500} : Set ℝ), ∃ v : ℝ → ℝ → ℝ,
        (∀ lat0 ∈ Set.Icc (-(π / 2)) (π / 2), ∀ lon0 total cov plf,
          (granStar (.rect 20001 40000) [sampleSpot (.rect 20001 40000)] 100).calcCoverage lat0 lon0 0.2 10 (1 / 2) (π / 2) 0 = .ok (total, cov, plf) →
          (Dict.get? total (label T)).getD (.fin 0) = .fin (v lat0 lon0)) ∧
        |observerMean v - granMoved (fun T => surfaceShare fun φ l => trueTemp [sampleSpot (.rect 20001 40000)] 1 3000 φ l = T) 3000 2900 0.2 T| ≤ 0.007 := by
  set gd : Grid := .rect 20001 40000 with hgd
  set s := granStar gd [sampleSpot gd] 100 with hs
  have hp := pi_pos
  have hg : goodGrid s.grid := ⟨by omega, by omega⟩
  obtain ⟨a, ha, -⟩ := C02_area_partition s.grid hg
  have hsp : s.spots.spots = [sampleSpot gd] := rfl
  have hR1 : s.radius = 1 := rfl
  have hpos : planetPos s.radius 10 (π / 2) 0 = ((planetPos s.radius 10 (π / 2) 0).1, (planetPos s.radius 10 (π / 2) 0).2) := rfl
  refine ⟨fun lat0 h0 lon0 => ?_, ?_⟩
  · have hv : Visible s lat0 lon0 := visible_rect s rfl (by omega) (by omega) lat0 lon0
    obtain ⟨-, hW⟩ := visible_pos s hg (granStar_phys _ _ _) ha hv
    have hw : ∀ p, s.weight lat0 lon0 p = .fin (pixelWeight s a lat0 lon0 p) := weight_eq s a ha lat0 lon0
    obtain ⟨total, cov, plf, h, -⟩ := C59_answers_partial s hg one_pos lat0 lon0 _ (by simp only [hw, Fl.sum_fin]) hW.ne' h0
      ⟨0.2, 1, 1, 100⟩ rfl rfl (measured_new _ _) (by simp [hs, granStar, sampleStar])
      (Or.inr ⟨(⟨0, by omega⟩, ⟨0, by omega⟩), by
        intro sp hsp'
        rw [hsp, List.mem_singleton] at hsp'
        rw [hsp']
        have := inSpot_cos (sampleSpot gd) gd 1 1 5 one_pos rfl zero_le_one (by nlinarith [pi_gt_three]) rfl (by norm_num)
          (⟨0, by omega⟩, ⟨0, by omega⟩)
        rw [← not_or]
        intro hin
        have hin := this.mp hin
        obtain ⟨l1, -⟩ := (C01_rect_layout 20001 40000 (by omega)).2.2 ⟨0, by omega⟩ ⟨0, by omega⟩
        rw [show gd.lat (⟨0, by omega⟩, ⟨0, by omega⟩) = _ from l1] at hin
        simp [sampleSpot, StarSpot.new] at hin
        have h7 : (π⁻¹ * 2⁻¹ : ℝ) < 1 := by
          have : π⁻¹ ≤ 1 := inv_le_one_of_one_le₀ (by linarith [pi_gt_three])
          linarith
        linarith,
        by simp [hs, granStar, sampleStar]⟩) 0.2 10 (1 / 2) (π / 2) 0 (by norm_num) _ _ hpos.symm (by simp)
    exact ⟨_, _, _, h⟩
  have hset : reportTemps s.spots.spots s.teff (s.teff - 100) = {3000, 2900, 2700, 2500} := by
    rw [hsp]
    ext t
    simp only [reportTemps, Set.mem_union, Set.mem_insert_iff, Set.mem_singleton_iff, Set.mem_ofPred_eq, List.mem_singleton,
      exists_eq_left, sampleSpot, StarSpot.new, hs, granStar, sampleStar]
    norm_num
    tauto
  obtain ⟨label, hl, hent⟩ := C141_mean_report s 20001 40000 rfl (by omega) (by omega) rfl (measured_new _ _) rfl one_pos
    (granStar_phys _ _ _) (by
      intro sp hsp'
      rw [hsp, List.mem_singleton] at hsp'
      subst hsp'
      exact ⟨⟨1, rfl, zero_le_one, by rw [hR1]; nlinarith [pi_gt_three]⟩, ⟨5, rfl, by norm_num⟩, by norm_num [sampleSpot, StarSpot.new]⟩)
    ⟨0.2, 1, 1, 100⟩ rfl (by
      intro T h1 T' h2 hne
      rw [hset] at h1 h2
      simp only [Set.mem_insert_iff, Set.mem_singleton_iff] at h1 h2
      rcases h1 with rfl | rfl | rfl | rfl <;> rcases h2 with rfl | rfl | rfl | rfl <;> first | exact absurd rfl hne | norm_num)
    0.2 (by norm_num)
  refine ⟨label, hl, fun T hT => ?_⟩
  obtain ⟨v, hv1, hv2⟩ := hent T (by rw [hset]; exact hT)
  refine ⟨v, fun lat0 h0 lon0 total cov plf h => hv1 lat0 h0 lon0 10 (1 / 2) (π / 2) 0 total cov plf h, ?_⟩
  have e2 : s.teff - 100 = 2900 := by norm_num [hs, granStar, sampleStar]
  have e3 : s.teff = 3000 := rfl
  have e4 : s.u1 = 0 := rfl
  have e5 : s.u2 = 0 := rfl
  rw [e2, e3, e4, e5, hsp, hR1] at hv2
  refine hv2.trans ?_
  simp only [shareError, List.length_singleton]
  have := pi_lt_d2
  push_cast
  norm_num
  linarith

/-! ### C142: flares and observers -/

/-- **C142** The observer at the antipodes sees exactly the flares of the time window that are behind the limb for the first observer.  So
every flare of the window is seen by exactly one of the two, except those exactly on the limb, which neither sees. -/
theorem C142_antipodes (c : FlareCollection) (a b lat0 lon0 : ℝ) :
    c.visible a b (-lat0) (lon0 + π) = (c.inPeriod a b).filter fun f => decide (π / 2 < greatCircle lat0 lon0 f.lat f.lon) := by
  rw [C48_visible]
  apply List.filter_congr
  intro f _
  rw [decide_eq_decide, greatCircle_eq, greatCircle_eq, arccos_lt_pi_div_two, ← not_le, ← not_le, arccos_le_pi_div_two, not_iff_not,
    sin_neg, cos_neg, show lon0 + π - f.lon = lon0 - f.lon + π by ring, cos_add_pi]
  constructor <;> intro h <;> linarith

open Classical in
/-- **C142** Averaged over all observers, any amount that is summed over the flares seen is half of the amount summed over all the flares of
the time window. -/
theorem C142_half (c : FlareCollection) (a b : ℝ) (F : StellarFlare → ℝ) :
    observerMean (fun lat0 lon0 => ((c.visible a b lat0 lon0).map F).sum) = ((c.inPeriod a b).map F).sum / 2 := by
  have hp := pi_pos
  simp only [C48_visible]
  generalize c.inPeriod a b = l
  set h : ℝ → ℝ := (Ioi (0 : ℝ)).indicator 1 with hh
  have hhm : Measurable h := measurable_one.indicator measurableSet_Ioi
  have hb0 : ∀ x, 0 ≤ h x := fun x => by simp only [hh, indicator]; split_ifs <;> simp
  have hb1 : ∀ x, h x ≤ 1 := fun x => by simp only [hh, indicator]; split_ifs <;> simp
  set q : StellarFlare → ℝ → ℝ → ℝ := fun f φ l => h (sin f.lat * sin φ + cos f.lat * cos φ * cos (f.lon - l)) with hq
  have hqi : ∀ f, Integrable (fun o : ℝ × ℝ => q f o.2 o.1) (sphM (-π)) := fun f =>
    sphM_integrable _ _ (hhm.comp (by fun_prop)) 1 fun o => by rw [abs_of_nonneg (hb0 _)]; exact hb1 _
  have hqp : ∀ f φ l, q f φ (l + 2 * π) = q f φ l := fun f φ l => by
    simp only [hq]; rw [show f.lon - (l + 2 * π) = f.lon - l - 2 * π by ring, cos_sub_two_pi]
  have hqv : ∀ f, ∫ o : ℝ × ℝ, q f o.2 o.1 ∂(sphM (-π)) = 2 * π := by
    intro f
    rw [sphM_sphereInt (-π) (q f) (hqi f) (hqp f), zonal_integral h hhm 1 hb0 hb1, zonal_cap (by norm_num) (by norm_num)]
    ring
  have key : ∀ l : List StellarFlare, ∀ φ ψ, ((l.filter fun f => decide (greatCircle φ ψ f.lat f.lon < π / 2)).map F).sum =
      (l.map fun f => F f * q f φ ψ).sum := by
    intro l φ ψ
    induction l with
    | nil => rfl
    | cons f l ih =>
      have e : sin φ * sin f.lat + cos φ * cos f.lat * cos (ψ - f.lon) = sin f.lat * sin φ + cos f.lat * cos φ * cos (f.lon - ψ) := by
        rw [← cos_neg (ψ - f.lon), neg_sub]; ring
      rw [List.map_cons, List.sum_cons, ← ih, List.filter_cons]
      simp only [hq, hh, indicator, mem_Ioi, greatCircle_eq, arccos_lt_pi_div_two, e, Pi.one_apply, decide_eq_true_eq]
      split_ifs <;> simp
  simp only [key, observerMean]
  have main : ∀ l : List StellarFlare, Integrable (fun o : ℝ × ℝ => (l.map fun f => F f * q f o.2 o.1).sum) (sphM (-π)) ∧
      ∫ o : ℝ × ℝ, (l.map fun f => F f * q f o.2 o.1).sum ∂(sphM (-π)) = 2 * π * (l.map F).sum := by
    intro l
    induction l with
    | nil => simp
    | cons f l ih =>
      simp only [List.map_cons, List.sum_cons]
      refine ⟨((hqi f).const_mul _).add ih.1, ?_⟩
      rw [integral_add ((hqi f).const_mul _) ih.1, ih.2, integral_const_mul, hqv]
      ring
  rw [← sphM_sphereInt (-π) (fun φ ψ => (l.map fun f => F f * q f φ ψ).sum) (main l).1 (fun φ ψ => by simp only [hqp]), (main l).2]
  field_simp
  ring

/-- Non-trivial instance: of two flares, one on the equator and one at the north pole, the average observer sees one.  The observer over the
south pole sees neither, as the first is on the limb. -/
example : observerMean (fun lat0 lon0 => (((FlareCollection.new [⟨1, .fin 1, 0, 0, 9000, 0⟩, ⟨1, .fin 1, π / 2, 0, 9000, 0⟩]).visible 0 1 lat0 lon0).map fun _ => 1).sum) = 1 ∧
    (FlareCollection.new [⟨1, .fin 1, 0, 0, 9000, 0⟩, ⟨1, .fin 1, π / 2, 0, 9000, 0⟩]).visible 0 1 (-(π / 2)) (0 + π) = [] := by
  have h2 : (FlareCollection.new [⟨1, .fin 1, 0, 0, 9000, 0⟩, ⟨1, .fin 1, π / 2, 0, 9000, 0⟩]).inPeriod 0 1 =
      [⟨1, .fin 1, 0, 0, 9000, 0⟩, ⟨1, .fin 1, π / 2, 0, 9000, 0⟩] := by
    rw [inPeriod_eq]
    norm_num
  constructor
  · rw [C142_half, h2]
    norm_num
  · rw [C142_antipodes, h2]
    norm_num [greatCircle_eq]

end Vsm
