import Verif.Model.Single
import Verif.Props.UnitsStar
import Verif.Props.DiskAccuracy2
import Verif.Props.FaculaAccuracy2

/-!
# The report and single precision: C143
-/

noncomputable section

namespace Vsm

open Real Np Spec

/-! ## Rounding to single precision -/

theorem single_err (x : ℝ) : |single x - x| ≤ |x| / 2 ^ 24 := by
  by_cases hx : x = 0
  · subst hx
    have := roundHalfEven_int 0
    simp only [Int.cast_zero] at this
    simp [single, this]
  have h0 : 0 < |x| := abs_pos.mpr hx
  unfold single
  set e := Int.log 2 |x| with he
  have hu : (0 : ℝ) < 2 ^ (e - 23) := by positivity
  have h1 := abs_roundHalfEven_sub_le (x / 2 ^ (e - 23))
  have h2 : ((2 : ℕ) : ℝ) ^ e ≤ |x| := Int.zpow_log_le_self (by norm_num) h0
  have e1 : (roundHalfEven (x / 2 ^ (e - 23)) : ℝ) * 2 ^ (e - 23) - x =
      ((roundHalfEven (x / 2 ^ (e - 23)) : ℝ) - x / 2 ^ (e - 23)) * 2 ^ (e - 23) := by field_simp
  simp only
  rw [e1, abs_mul, abs_of_pos hu]
  have e2 : (2 : ℝ) ^ (e - 23) = 2 ^ e / 2 ^ 23 := by rw [zpow_sub₀ (by norm_num)]; norm_cast
  push_cast at h2
  calc _ ≤ 1 / 2 * (2 : ℝ) ^ (e - 23) := by gcongr
    _ = 2 ^ e / 2 ^ 24 := by rw [e2]; ring
    _ ≤ _ := by gcongr

/-- Numbers below 65536 with eight binary places are kept exactly. -/
theorem single_exact {x : ℝ} (k : ℤ) (hx : x = k / 256) (hb : |x| < 65536) : single x = x := by
  by_cases h0 : x = 0
  · have := single_err x
    rw [h0] at this ⊢
    simpa using this
  have h0 : 0 < |x| := abs_pos.mpr h0
  have hlog : Int.log 2 |x| < 16 := by
    rw [← Int.lt_zpow_iff_log_lt (by norm_num) h0]
    norm_num
    exact hb
  unfold single
  obtain ⟨n, hn⟩ : ∃ n : ℕ, Int.log 2 |x| = 15 - n := ⟨(15 - Int.log 2 |x|).toNat, by omega⟩
  rw [hn]
  have e : x / (2 : ℝ) ^ ((15 : ℤ) - n - 23) = ((k * 2 ^ n : ℤ) : ℝ) := by
    rw [show (15 : ℤ) - n - 23 = -((8 : ℕ) + (n : ℤ)) by push_cast; ring, zpow_neg, zpow_add₀ (by norm_num), zpow_natCast, zpow_natCast, hx]
    push_cast
    field_simp
    norm_num
  simp only [e, roundHalfEven_int]
  rw [← e]
  field_simp

/-- Between 2048 and 4096 single precision has twelve binary places. -/
theorem single_12 {x : ℝ} (h1 : 2048 ≤ x) (h2 : x < 4096) : single x = roundHalfEven (x * 4096) / 4096 := by
  have h0 : 0 < x := by linarith
  have hlog : Int.log 2 |x| = 11 := by
    rw [abs_of_pos h0]
    apply le_antisymm
    · have := (Int.lt_zpow_iff_log_lt (b := 2) (R := ℝ) (x := 12) (by norm_num) h0).mp (by norm_num; exact h2)
      omega
    · exact (Int.zpow_le_iff_le_log (b := 2) (R := ℝ) (x := 11) (by norm_num) h0).mp (by norm_num; exact h1)
  unfold single
  rw [hlog]
  norm_num
  ring_nf

theorem single_near {x : ℝ} (h : |x| < 65536) : |single x - x| < 1 / 256 := by
  refine (single_err x).trans_lt ?_
  rw [div_lt_iff₀ (by norm_num)]
  norm_num
  exact h

theorem single_lt {x y : ℝ} (hx : |x| < 65536) (hy : |y| < 65536) (hxy : x < y) (h : 1 / 50 < |x - y|) : single x + 1 / 100 < single y := by
  have h1 := abs_lt.mp (single_near hx)
  have h2 := abs_lt.mp (single_near hy)
  rw [abs_of_neg (by linarith)] at h
  linarith [h1.2, h2.1]

/-- Whole hundredths of a kelvin keep their name. -/
theorem key_single {T : ℝ} (h : |T| < 65536) (hT : single T = T ∨ ∃ k : ℤ, T = k / 100) : Star.key (single T) = Star.key T := by
  rcases hT with e | ⟨k, hk⟩
  · rw [e]
  · have e1 : Star.key T = k := by
      unfold Star.key
      rw [hk, mul_div_cancel₀ _ (by norm_num)]
      exact roundHalfEven_int k
    rw [e1]
    apply roundHalfEven_unique
    have h1 := abs_lt.mp (single_near h)
    rw [abs_lt]
    rw [hk] at h1 ⊢
    constructor <;> linarith [h1.1, h1.2]

theorem exact_or {T : ℝ} (h : |T| < 65536) (hT : ∃ k : ℤ, T = k / 100 ∨ T = k / 256) : single T = T ∨ ∃ k : ℤ, T = k / 100 := by
  obtain ⟨k, hk | hk⟩ := hT
  · exact Or.inr ⟨k, hk⟩
  · exact Or.inl (single_exact k hk h)

/-! ## The map -/

/-- Two results are the same error, or values in the relation `R`. -/
def Both {α β : Type*} (R : α → β → Prop) (x : Py α) (y : Py β) : Prop :=
  (∃ e, x = .error e ∧ y = .error e) ∨ ∃ a b, x = .ok a ∧ y = .ok b ∧ R a b

theorem both_bind {α β γ δ : Type*} {R : α → β → Prop} {Q : γ → δ → Prop} {x : Py α} {y : Py β} {f : α → Py γ} {g : β → Py δ}
    (h : Both R x y) (hf : ∀ a b, R a b → Both Q (f a) (g b)) : Both Q (x.bind f) (y.bind g) := by
  rcases h with ⟨e, rfl, rfl⟩ | ⟨a, b, rfl, rfl, h⟩
  · exact Or.inl ⟨e, rfl, rfl⟩
  · exact hf a b h

theorem both_foldlM {α β γ : Type*} {R : α → β → Prop} {f : α → γ → Py α} {g : β → γ → Py β} (l : List γ)
    (hf : ∀ c ∈ l, ∀ a b, R a b → Both R (f a c) (g b c)) (a : α) (b : β) (h : R a b) : Both R (l.foldlM f a) (l.foldlM g b) := by
  induction l generalizing a b with
  | nil => exact Or.inr ⟨a, b, rfl, rfl, h⟩
  | cons c l ih =>
    rw [List.foldlM_cons, List.foldlM_cons]
    exact both_bind (hf c (by simp) a b h) fun a' b' h' => ih (fun c hc => hf c (by simp [hc])) a' b' h'

theorem overlay_single {S : Set ℝ} (hS : StrictMonoOn single S) {tu tp cur : ℝ} (hu : tu ∈ S) (hp : tp ∈ S) (hc : cur ∈ S) (U P : Prop) :
    SpotCollection.overlay single tu tp U P (single cur) = single (SpotCollection.overlay id tu tp U P cur) ∧
      SpotCollection.overlay id tu tp U P cur ∈ S := by
  unfold SpotCollection.overlay
  simp only [id]
  have e1 : U ∧ single tu < single cur ↔ U ∧ tu < cur := and_congr_right fun _ => hS.lt_iff_lt hu hc
  have e2 : P ∧ single tp < single cur ↔ P ∧ tp < cur := and_congr_right fun _ => hS.lt_iff_lt hp hc
  by_cases h1 : U ∧ tu < cur
  · rw [if_pos h1, if_pos (e1.mpr h1)]; exact ⟨rfl, hu⟩
  · rw [if_neg h1, if_neg (e1.not.mpr h1)]
    by_cases h2 : P ∧ tp < cur
    · rw [if_pos h2, if_pos (e2.mpr h2)]; exact ⟨rfl, hp⟩
    · rw [if_neg h2, if_neg (e2.not.mpr h2)]; exact ⟨rfl, hc⟩

/-- Temperatures that the map of spots can show. -/
def Spec.spotTemps (s : Star) : Set ℝ := {t | t = s.teff ∨ ∃ sp ∈ s.spots.spots, t = sp.teffPenumbra ∨ t = sp.teffUmbra}

theorem map_single (s : Star) : Both (fun m m' => StrictMonoOn single (spotTemps s) → ∀ p, m p ∈ spotTemps s ∧ m' p = single (m p)) s.map s.mapSingle := by
  unfold Star.map Star.mapSingle SpotCollection.mapPixels
  refine both_foldlM _ (fun sp hsp a b h => ?_) _ _ fun _ p => ⟨Or.inl rfl, rfl⟩
  unfold SpotCollection.mapStep
  by_cases hg : sp.r.1 = s.spots.grid
  · rw [dif_pos hg, dif_pos hg]
    refine Or.inr ⟨_, _, rfl, rfl, fun hS p => ?_⟩
    have h1 := h hS p
    simp only [h1.2]
    have := overlay_single hS (tu := sp.teffUmbra) (tp := sp.teffPenumbra) (Or.inr ⟨sp, hsp, Or.inr rfl⟩) (Or.inr ⟨sp, hsp, Or.inl rfl⟩) h1.1
      (sp.umbraMask s.radius (hg ▸ p)) (sp.penumbraMask s.radius (hg ▸ p))
    exact ⟨this.2, this.1⟩
  · rw [dif_neg hg, dif_neg hg]
    exact Or.inl ⟨_, rfl, rfl⟩

/-- The temperatures that faculae write into the map are kept exactly. -/
def FaculaeExact (s : Star) : Prop := ∀ k : ℤ, single (Helpers.clipTeff (k + s.teff)) = Helpers.clipTeff (k + s.teff)

theorem faculaeExact_of {s : Star} (j : ℤ) (h : s.teff = j / 256) : FaculaeExact s := by
  intro k
  unfold Helpers.clipTeff Helpers.teffHigh Helpers.teffLow
  split_ifs with h1 h2
  · exact single_exact (3900 * 256) (by norm_num) (by norm_num)
  · exact single_exact (2300 * 256) (by norm_num) (by norm_num)
  · push Not at h1 h2
    refine single_exact (k * 256 + j) (by rw [h]; push_cast; ring) ?_
    rw [abs_lt]; constructor <;> linarith

theorem paint_single {s : Star} (hf : FaculaeExact s) (lat0 lon0 : ℝ) (inside : s.grid.Pix → Prop) (fracs : Dict ℤ Fl) {H : Prop}
    (cur cur' : s.grid.Pix → ℝ) (h : H → ∀ p, cur' p = single (cur p)) :
    Both (fun m m' => H → ∀ p, m' p = single (m p)) (s.paintFacula lat0 lon0 inside fracs cur) (s.paintFaculaSingle lat0 lon0 inside fracs cur') := by
  classical
  unfold Star.paintFacula Star.paintFaculaSingle
  split
  · rename_i dw frac df _
    refine both_bind (R := Eq) ?_ fun a b e => ?_
    · generalize Np.percentile _ _ = x
      cases x with
      | error e => exact Or.inl ⟨e, rfl, rfl⟩
      | ok v => exact Or.inr ⟨v, v, rfl, rfl, rfl⟩
    · subst e
      simp only
      rw [if_neg (not_not.mpr (hf dw)), if_neg (not_not.mpr (hf df))]
      refine Or.inr ⟨_, _, rfl, rfl, fun hH p => ?_⟩
      simp only
      split_ifs
      · exact (hf df).symm
      · exact (hf dw).symm
      · exact h hH p
  · rename_i h0
    refine Or.inl ⟨_, rfl, ?_⟩
    split
    · rename_i dw frac df v
      exact absurd rfl (h0 dw frac df v)
    · rfl

theorem both_refl {α : Type*} (x : Py α) : Both Eq x x := by
  cases x with
  | error e => exact Or.inl ⟨e, rfl, rfl⟩
  | ok v => exact Or.inr ⟨v, v, rfl, rfl, rfl⟩

theorem surface_single (s : Star) (hf : s.faculae.faculae = [] ∨ FaculaeExact s) (lat0 lon0 : ℝ) :
    Both (fun m m' => StrictMonoOn single (spotTemps s) → ∀ p, m' p = single (m p)) (s.addFaculaeToMap lat0 lon0) (s.addFaculaeToMapSingle lat0 lon0) := by
  unfold Star.addFaculaeToMap Star.addFaculaeToMapSingle
  refine both_bind (map_single s) fun m m' h => ?_
  refine both_bind (R := fun (m m' : s.grid.Pix → ℝ) => StrictMonoOn single (spotTemps s) → ∀ p, m' p = single (m p)) ?_ fun m m' h => ?_
  · unfold Field.on
    by_cases hg : s.spots.grid = s.grid
    · simp only [dif_pos hg]
      exact Or.inr ⟨_, _, rfl, rfl, fun hS p => (h hS _).2⟩
    · simp only [dif_neg hg]
      exact Or.inl ⟨_, rfl, rfl⟩
  · rcases hf with hf | hf
    · rw [hf]
      exact Or.inr ⟨_, _, rfl, rfl, h⟩
    · refine both_foldlM _ (fun f _ a b h => ?_) _ _ h
      unfold Star.addFacula Star.addFaculaSingle
      simp only
      by_cases hex : ¬ ∃ p, (f.inside s.radius).2 p
      · rw [if_pos hex, if_pos hex]; exact Or.inr ⟨_, _, rfl, rfl, h⟩
      · rw [if_neg hex, if_neg hex]
        refine both_bind (both_refl _) fun fr _ e => ?_
        subst e
        refine both_bind (both_refl _) fun ins _ e => ?_
        subst e
        exact paint_single hf lat0 lon0 ins fr a b h

/-! ## The report -/

theorem uniqueTeffs_single {ι : Type} [Fintype ι] {m m' : ι → ℝ} (hS : StrictMonoOn single (Set.range m)) (h : ∀ p, m' p = single (m p)) :
    Star.uniqueTeffs m' = (Star.uniqueTeffs m).map single := by
  classical
  unfold Star.uniqueTeffs
  have e : (Finset.univ.image m' : Finset ℝ) = (Finset.univ.image m).image single := by
    rw [Finset.image_image]
    exact Finset.image_congr fun p _ => h p
  have hin : Set.InjOn single ((Finset.univ.image m : Finset ℝ) : Set ℝ) := by
    intro a ha b hb hab
    exact hS.injOn (by simpa using ha) (by simpa using hb) hab
  rw [e, ← Finset.sort_val, ← Finset.sort_val, Finset.image_val_of_injOn hin]
  symm
  refine Multiset.map_sort _ _ _ _ fun a ha b hb => ?_
  exact (hS.le_iff_le (by simpa using ha) (by simpa using hb)).symm

theorem area_single {s : Star} {m m' : s.grid.Pix → ℝ} (hS : StrictMonoOn single (Set.range m)) (h : ∀ p, m' p = single (m p))
    (lat0 lon0 : ℝ) (extra : s.grid.Pix → Fl) {T : ℝ} (hT : T ∈ Set.range m) :
    s.areaWithTeff lat0 lon0 m' extra (single T) = s.areaWithTeff lat0 lon0 m extra T := by
  unfold Star.areaWithTeff
  refine Finset.sum_congr rfl fun p _ => ?_
  have : m' p = single T ↔ m p = T := by rw [h p]; exact hS.injOn.eq_iff ⟨p, rfl⟩ hT
  simp only [this]

open Classical in
theorem raw_single {s : Star} {m m' : s.grid.Pix → ℝ} {G : ℝ} {S : Set ℝ} (hSm : ∀ T, (∃ p, m p = T) ∨ T = G → T ∈ S) (hS : StrictMonoOn single S)
    (h : ∀ p, m' p = single (m p)) (hk : S.InjOn fun T => Star.key (single T)) (hG : Star.key (single G) = Star.key G) (lat0 lon0 : ℝ) (extra : s.grid.Pix → Fl) :
    s.rawDataSingle lat0 lon0 m' extra G = renameKeys (fun T => Star.key (single T)) (byTemp s lat0 lon0 m extra G) := by
  have hr : Set.range m ⊆ S := by rintro _ ⟨p, rfl⟩; exact hSm _ (Or.inl ⟨p, rfl⟩)
  have hGS := hSm G (Or.inr rfl)
  have hl : ∀ k ∈ Star.uniqueTeffs m, k ∈ S := fun k hk => hSm k (Or.inl (mem_uniqueTeffs.mp hk))
  obtain ⟨h1, h2⟩ := foldl_rename hk (fun T => s.areaWithTeff lat0 lon0 m extra T / ∑ p, s.weight lat0 lon0 p) _ hl [] (by simp [Dict.keys])
  have hmem : single G ∈ Star.uniqueTeffs m' ↔ G ∈ Star.uniqueTeffs m := by
    rw [mem_uniqueTeffs, mem_uniqueTeffs]
    refine exists_congr fun p => ?_
    rw [h p]
    exact hS.injOn.eq_iff (hr ⟨p, rfl⟩) hGS
  have hfold : (Star.uniqueTeffs m').foldl (fun d teff => Dict.set d (Star.key teff) (s.areaWithTeff lat0 lon0 m' extra teff / ∑ p, s.weight lat0 lon0 p)) [] =
      (Star.uniqueTeffs m).foldl (fun d T => Dict.set d (Star.key (single T)) (s.areaWithTeff lat0 lon0 m extra T / ∑ p, s.weight lat0 lon0 p)) [] := by
    rw [uniqueTeffs_single (hS.mono hr) h, List.foldl_map]
    refine List.foldl_ext _ _ _ fun d T hT => ?_
    rw [area_single (hS.mono hr) h lat0 lon0 extra (mem_uniqueTeffs.mp hT)]
  unfold byTemp Star.rawDataSingle
  simp only [renameKeys, List.map_nil] at h1
  by_cases hc : G ∈ Star.uniqueTeffs m
  · simp only [if_pos hc, if_pos (hmem.mpr hc)]
    rw [hfold]; exact h1
  · simp only [if_neg hc, if_neg (fun h => hc (hmem.mp h))]
    rw [hfold, h1, ← hG]; exact set_rename hk h2 hGS _

/-- **C143** (single precision).  The surface map is an array of single-precision numbers.  The report is nevertheless the report with exact
temperatures, under names that are off by at most a hundredth of a kelvin, provided that all temperatures that occur (of the photosphere, of
the spots, of the granules and of the map with its faculae) are below 65536 K and those that differ do so by more than 1/50 K, the photosphere and the
granules have temperatures in whole hundredths or whole 256ths of a kelvin, and with faculae the temperature of the photosphere is a multiple of
1/256 K.  In general this is false, see the counterexamples. -/
theorem C143_single_partial (s : Star) (lat0 lon0 gran orbit r phase incl : ℝ)
    (hsep : ∀ m, s.addFaculaeToMap lat0 lon0 = .ok m → ∀ gr, s.granulation = some gr →
      ∀ T ∈ Set.range m ∪ spotTemps s ∪ {s.teff - gr.dteff}, |T| < 65536 ∧ ∀ T' ∈ Set.range m ∪ spotTemps s ∪ {s.teff - gr.dteff}, T ≠ T' → 1 / 50 < |T - T'|)
    (hT : ∀ gr, s.granulation = some gr → ∀ T ∈ ({s.teff, s.teff - gr.dteff} : Set ℝ), ∃ k : ℤ, T = k / 100 ∨ T = k / 256)
    (hfac : s.faculae.faculae = [] ∨ ∃ k : ℤ, s.teff = k / 256) :
    (∃ e, s.calcCoverage lat0 lon0 gran orbit r phase incl = .error e ∧
      s.calcCoverageSingle lat0 lon0 gran orbit r phase incl = .error e) ∨
    ∃ total cov total' cov' plf, s.calcCoverage lat0 lon0 gran orbit r phase incl = .ok (total, cov, plf) ∧
      s.calcCoverageSingle lat0 lon0 gran orbit r phase incl = .ok (total', cov', plf) ∧
      Dict.values total' = Dict.values total ∧ Dict.values cov' = Dict.values cov ∧
      ∃ name name' : ℝ → ℤ, (∀ T, |(name T : ℝ) - 100 * T| ≤ 1 / 2) ∧ (∀ T, |T| < 65536 → |(name' T : ℝ) - 100 * T| < 1) ∧
        (∀ m, s.addFaculaeToMap lat0 lon0 = .ok m → ∀ gr, s.granulation = some gr →
          ∀ T ∈ Set.range m ∪ {s.teff, s.teff - gr.dteff}, Dict.get? total' (name' T) = Dict.get? total (name T) ∧
            Dict.get? cov' (name' T) = Dict.get? cov (name T)) := by
  have hmap := surface_single s (hfac.imp id fun ⟨k, hk⟩ => faculaeExact_of k hk) lat0 lon0
  unfold Star.calcCoverage Star.calcCoverageSingle
  rcases hmap with ⟨e, hm, hm'⟩ | ⟨m, m', hm, hm', hrel⟩
  · rw [hm, hm']; left; exact ⟨e, rfl, rfl⟩
  rw [hm, hm']
  cases hk : s.transitMask lat0 lon0 orbit r phase incl with
  | error e => left; exact ⟨e, rfl, rfl⟩
  | ok mk =>
  obtain ⟨mask, plf⟩ := mk
  cases hgr : s.granulation with
  | none => left; exact ⟨_, rfl, rfl⟩
  | some gr =>
  have hsep := hsep m hm gr hgr
  have hT := hT gr hgr
  set G := s.teff - gr.dteff with hG
  set S : Set ℝ := Set.range m ∪ spotTemps s ∪ {G} with hSd
  have mono : StrictMonoOn single S := by
    intro x hx y hy hxy
    have := single_lt (hsep x hx).1 (hsep y hy).1 hxy ((hsep x hx).2 y hy hxy.ne)
    linarith
  have i1 : S.InjOn Star.key := fun T hT T' hT' h => key_inj_of_sep (fun hne => by have := (hsep T hT).2 T' hT' hne; linarith) h
  have i2 : S.InjOn fun T => Star.key (single T) := by
    intro x hx y hy h
    by_contra hne
    have hd := (hsep x hx).2 y hy hne
    have : single x = single y := by
      refine key_inj_of_sep (fun _ => ?_) h
      rcases lt_or_gt_of_ne hne with hlt | hlt
      · have := single_lt (hsep x hx).1 (hsep y hy).1 hlt hd
        rw [abs_of_neg (by linarith)]; linarith
      · have := single_lt (hsep y hy).1 (hsep x hx).1 hlt (by rwa [abs_sub_comm])
        rw [abs_of_pos (by linarith)]; linarith
    exact hne (mono.injOn hx hy this)
  have hTS : s.teff ∈ S := Or.inl (Or.inr (Or.inl rfl))
  have hGS : G ∈ S := Or.inr rfl
  have hrel := hrel (mono.mono fun x hx => Or.inl (Or.inr hx))
  have kT := key_single (hsep _ hTS).1 (exact_or (hsep _ hTS).1 (hT s.teff (Or.inl rfl)))
  have kG := key_single (hsep _ hGS).1 (exact_or (hsep _ hGS).1 (hT G (Or.inr rfl)))
  have hin : ∀ T, (∃ p, m p = T) ∨ T = G → T ∈ S := by
    rintro T (⟨p, rfl⟩ | rfl)
    · exact Or.inl (Or.inl ⟨p, rfl⟩)
    · exact hGS
  obtain ⟨a1, a2, -⟩ := raw_rename s lat0 lon0 m (fun _ => .fin 1) G 1 S hin
  obtain ⟨b1, b2, -⟩ := raw_rename s lat0 lon0 m mask G 1 S hin
  have a3 := raw_single hin mono hrel i2 kG lat0 lon0 (fun _ => .fin 1)
  have b3 := raw_single hin mono hrel i2 kG lat0 lon0 mask
  have ga := granulate_rename i1 i2 a1 hTS hGS gran
  have gb := granulate_rename i1 i2 b1 hTS hGS gran
  simp only [kT, kG] at ga gb
  simp only [bind, Except.bind, pure, Except.pure]
  rw [a2 i1, b2 i1, a3, b3]
  rcases ga with ⟨e, h1, h2⟩ | ⟨ra, ka, h1, h2⟩
  · left; exact ⟨e, by rw [h1], by rw [h2]⟩
  rcases gb with ⟨e, h3, h4⟩ | ⟨rb, kb, h3, h4⟩
  · left; exact ⟨e, by rw [h1, h3], by rw [h2, h4]⟩
  right
  refine ⟨_, _, _, _, plf, by rw [h1, h3], by rw [h2, h4], by rw [values_rename, values_rename], by rw [values_rename, values_rename],
    Star.key, fun T => Star.key (single T), key_near, fun T hT => ?_, ?_⟩
  · have h5 := abs_le.mp (key_near (single T))
    have h6 := abs_lt.mp (single_near hT)
    rw [abs_lt]
    constructor <;> linarith [h5.1, h5.2, h6.1, h6.2]
  · intro m₁ hm₁ gr₁ hgr₁ T hTm
    cases hm₁
    cases hgr₁
    have hTS' : T ∈ S := by
      rcases hTm with h | rfl | rfl
      · exact Or.inl (Or.inl h)
      · exact hTS
      · exact hGS
    exact ⟨by rw [get?_rename i1 ka hTS', get?_rename i2 ka hTS'], by rw [get?_rename i1 kb hTS', get?_rename i2 kb hTS']⟩

/-! ## Where it fails -/

/-- A star without spots and faculae and granules 100 K cooler than the photosphere. -/
def Spec.plainStar (g : Grid) (T : ℝ) : Star := { granStar g [] 100 with teff := T }

/-- **C143** is false in general, names of temperatures: the photosphere has 3300.005001 K.  The map stores 3300.0048828125 K, whose name is 3300.00, and the entry
of the photosphere, 3300.01, does not exist.  Every report of such a star without spots and faculae raises `KeyError`. -/
theorem C143_counterexample (nlat nlon : ℕ) (h1 : 4 ≤ nlat) (h2 : 3 ≤ nlon) (lat0 lon0 gran : ℝ) (h0 : lat0 ∈ Set.Icc (-(π / 2)) (π / 2)) :
    (∃ res, (plainStar (.rect nlat nlon) 3300.005001).calcCoverage lat0 lon0 gran 10 (1 / 2) (π / 2) 0 = .ok res) ∧
    (plainStar (.rect nlat nlon) 3300.005001).calcCoverageSingle lat0 lon0 gran 10 (1 / 2) (π / 2) 0 = .error .keyError := by
  set s := plainStar (.rect nlat nlon) 3300.005001 with hs
  have hg : goodGrid s.grid := ⟨by omega, by omega⟩
  have hv : Visible s lat0 lon0 := visible_rect s rfl h1 h2 lat0 lon0
  obtain ⟨a, ha, -⟩ := C02_area_partition s.grid hg
  have hld : PhysicalLD s.u1 s.u2 := granStar_phys (.rect nlat nlon) [] 100
  obtain ⟨-, hW⟩ := visible_pos s hg hld ha hv
  have hw : ∀ p, s.weight lat0 lon0 p = .fin (pixelWeight s a lat0 lon0 p) := weight_eq s a ha lat0 lon0
  have hT : s.teff = 3300.005001 := rfl
  have hbes := beside s rfl hg lat0 lon0 h0
  constructor
  · obtain ⟨total, cov, plf, h, -⟩ := C59_answers_partial s hg one_pos lat0 lon0 _ (by simp only [hw, Fl.sum_fin]) hW.ne' h0
      ⟨0.2, 1, 1, 100⟩ rfl rfl (measured_new _ _) (by intro f hf; cases hf)
      (Or.inr ⟨(⟨0, by omega⟩, ⟨0, by omega⟩), (by intro f hf; cases hf), (by intro f hf; cases hf)⟩)
      gran 10 (1 / 2) (π / 2) 0 (by norm_num) _ _ rfl (by simp)
    exact ⟨_, h⟩
  · have hm : s.addFaculaeToMapSingle lat0 lon0 = .ok fun _ => single 3300.005001 := by
      unfold Star.addFaculaeToMapSingle
      have e1 : s.mapSingle = .ok fun _ => single 3300.005001 := rfl
      rw [e1]
      have hon : Field.on ⟨s.spots.grid, fun _ => single 3300.005001⟩ s.grid .indexError = .ok fun _ => single 3300.005001 := by
        unfold Field.on
        exact dif_pos rfl
      change (Field.on ⟨s.spots.grid, fun _ => single 3300.005001⟩ s.grid .indexError >>= _) = _
      rw [hon]
      rfl
    have r1 : roundHalfEven ((3300.005001 : ℝ) * 4096) = 13516820 := by
      apply roundHalfEven_unique
      rw [abs_lt]
      constructor <;> norm_num
    have hst : single 3300.005001 = 13516820 / 4096 := by
      rw [single_12 (by norm_num) (by norm_num), r1]
      norm_num
    have k1 : Star.key (single 3300.005001) = 330000 := by
      rw [hst]
      apply roundHalfEven_unique
      rw [abs_lt]
      constructor <;> norm_num
    have k2 : Star.key s.teff = 330001 := by
      rw [hT]
      apply roundHalfEven_unique
      rw [abs_lt]
      constructor <;> norm_num
    have k3 : Star.key (s.teff - 100) = 320001 := by
      rw [hT]
      apply roundHalfEven_unique
      rw [abs_lt]
      constructor <;> norm_num
    have : Nonempty s.grid.Pix := ⟨(⟨0, by omega⟩, ⟨0, by omega⟩)⟩
    have hne : ¬ single (s.teff - 100) ∈ Star.uniqueTeffs (fun _ : s.grid.Pix => single 3300.005001) := by
      rw [uniqueTeffs_const]
      intro e
      rw [List.mem_singleton] at e
      have := single_lt (x := s.teff - 100) (y := 3300.005001) (by rw [hT]; norm_num) (by norm_num) (by rw [hT]; norm_num)
        (by rw [hT]; norm_num)
      rw [e] at this
      linarith
    unfold Star.calcCoverageSingle
    rw [hm, hbes]
    have hgr : s.granulation = some ⟨0.2, 1, 1, 100⟩ := rfl
    simp only [bind, Except.bind, hgr]
    have hd : ∀ ex, s.rawDataSingle lat0 lon0 (fun _ => single 3300.005001) ex (s.teff - 100) =
        [(330000, s.areaWithTeff lat0 lon0 (fun _ => single 3300.005001) ex (single 3300.005001) / ∑ p, s.weight lat0 lon0 p), (320001, .fin 0)] := by
      intro ex
      unfold Star.rawDataSingle
      simp only [if_neg hne]
      simp only [uniqueTeffs_const, List.foldl_cons, List.foldl_nil, k1, k3]
      rfl
    rw [hd, k2, k3]
    rfl

/-- A facula of the star covers a pixel and its wall is neither clipped nor exact in single precision. -/
def Spec.Unstorable (s : Star) (f : Facula) : Prop :=
  f.grid = s.grid ∧ (∃ p, inFacula f s.radius s.grid p) ∧ ∃ k : ℤ, Helpers.roundTeff f.wallDteff = .ok k ∧ 2300 ≤ k + s.teff ∧ k + s.teff ≤ 3900

theorem clip_mid {x : ℝ} (h1 : 2300 ≤ x) (h2 : x ≤ 3900) : Helpers.clipTeff x = x := by
  unfold Helpers.clipTeff Helpers.teffHigh Helpers.teffLow
  split_ifs <;> linarith

theorem covers_ex {f : Facula} {g : Grid} {R : ℝ} (h : f.grid = g) (hp : ∃ p, inFacula f R g p) : ∃ p, (f.inside R).2 p := by
  subst h
  exact hp

theorem addFacula_loses {s : Star} {lat0 lon0 : ℝ} {cur m : s.grid.Pix → ℝ} {f : Facula} (h : s.addFacula lat0 lon0 cur f = .ok m) (cur' : s.grid.Pix → ℝ) :
    ((∃ m', s.addFaculaSingle lat0 lon0 cur' f = .ok m') ∨ s.addFaculaSingle lat0 lon0 cur' f = .error .typeError) ∧
    (Unstorable s f → (∀ k : ℤ, s.teff ≠ k / 4096) → s.addFaculaSingle lat0 lon0 cur' f = .error .typeError) := by
  classical
  unfold Star.addFacula at h
  unfold Star.addFaculaSingle
  simp only at h ⊢
  by_cases hex : ∃ p, (f.inside s.radius).2 p
  · rw [if_neg (not_not.mpr hex)] at h ⊢
    cases hfr : f.fractionalEffectiveArea (Helpers.angleBetween lat0 lon0 f.lat f.lon) with
    | error e => rw [hfr] at h; cases h
    | ok fr =>
      rw [hfr] at h
      cases hon : (f.inside s.radius).on s.grid .indexError with
      | error e => rw [hon] at h; cases h
      | ok ins =>
        rw [hon] at h
        simp only [bind, Except.bind] at h ⊢
        unfold Star.paintFacula at h
        unfold Star.paintFaculaSingle
        split at h
        · rename_i dw fw df ff
          cases hp : percentile ((Finset.univ.filter ins).val.map (s.mu lat0 lon0)) fw with
          | error e => simp only [hp, bind, Except.bind] at h; cases h
          | ok bo =>
            simp only [hp, bind, Except.bind]
            by_cases c1 : single (Helpers.clipTeff (dw + s.teff)) ≠ Helpers.clipTeff (dw + s.teff)
            · rw [if_pos c1]; exact ⟨Or.inr rfl, fun _ _ => rfl⟩
            · rw [if_neg c1]
              constructor
              · by_cases c2 : single (Helpers.clipTeff (df + s.teff)) ≠ Helpers.clipTeff (df + s.teff)
                · rw [if_pos c2]; exact Or.inr rfl
                · rw [if_neg c2]; exact Or.inl ⟨_, rfl⟩
              · rintro ⟨hgr, -, k, hk, b1, b2⟩ hne
                obtain ⟨kw, kf, aw, af, h1, -, h3⟩ := fractional_keys hfr
                have : dw = k := by
                  rw [hk] at h1
                  cases h1
                  rcases h3 with h3 | h3
                  · simp only [List.cons.injEq, Prod.mk.injEq] at h3
                    exact h3.1.1
                  · simp at h3
                subst this
                exfalso
                apply c1
                rw [clip_mid b1 b2]
                intro e
                rw [single_12 (by linarith) (by linarith)] at e
                refine hne (roundHalfEven (((dw : ℝ) + s.teff) * 4096) - dw * 4096) ?_
                push_cast
                linarith
        · cases h
  · rw [if_pos hex]
    refine ⟨Or.inl ⟨_, rfl⟩, ?_⟩
    rintro ⟨hgr, hp, -⟩
    exact absurd (covers_ex hgr hp) hex

theorem fold_loses {s : Star} {lat0 lon0 : ℝ} (hne : ∀ k : ℤ, s.teff ≠ k / 4096) (l : List Facula) (cur cur' m : s.grid.Pix → ℝ)
    (h : l.foldlM (fun cur f => s.addFacula lat0 lon0 cur f) cur = .ok m) :
    ((∃ m', l.foldlM (fun cur f => s.addFaculaSingle lat0 lon0 cur f) cur' = .ok m') ∨
      l.foldlM (fun cur f => s.addFaculaSingle lat0 lon0 cur f) cur' = .error .typeError) ∧
    ((∃ f ∈ l, Unstorable s f) → l.foldlM (fun cur f => s.addFaculaSingle lat0 lon0 cur f) cur' = .error .typeError) := by
  induction l generalizing cur cur' with
  | nil => exact ⟨Or.inl ⟨_, rfl⟩, by rintro ⟨f, hf, -⟩; cases hf⟩
  | cons f l ih =>
    rw [List.foldlM_cons] at h ⊢
    cases h1 : s.addFacula lat0 lon0 cur f with
    | error e => rw [h1] at h; cases h
    | ok m1 =>
      rw [h1] at h
      obtain ⟨h2, h3⟩ := addFacula_loses h1 cur'
      rcases h2 with ⟨m', h2⟩ | h2
      · rw [h2]
        obtain ⟨h4, h5⟩ := ih m1 m' h
        refine ⟨h4, ?_⟩
        rintro ⟨g, hg, hu⟩
        rcases List.mem_cons.mp hg with rfl | hg
        · rw [h3 hu hne] at h2; cases h2
        · exact h5 ⟨g, hg, hu⟩
      · rw [h2]; exact ⟨Or.inr rfl, fun _ => rfl⟩

/-- **C143** is false in general, faculae: a photosphere whose temperature is no multiple of 1/4096 K (3300.1 K, say) and a facula that covers a pixel
and whose wall is between 2300 K and 3900 K: the temperature of the wall cannot be written into the map without loss, and every report that would be
answered with exact temperatures raises `TypeError` instead, for every observer and every planet. -/
theorem C143_counterexample_faculae (s : Star) (hne : ∀ k : ℤ, s.teff ≠ k / 4096) (hf : ∃ f ∈ s.faculae.faculae, Unstorable s f)
    (lat0 lon0 gran orbit r phase incl : ℝ) (res) (h : s.calcCoverage lat0 lon0 gran orbit r phase incl = .ok res) :
    s.calcCoverageSingle lat0 lon0 gran orbit r phase incl = .error .typeError := by
  obtain ⟨total, cov, plf⟩ := res
  obtain ⟨m, -, -, hm, -⟩ := calcCoverage_ok.mp h
  have : s.addFaculaeToMapSingle lat0 lon0 = .error .typeError := by
    unfold Star.addFaculaeToMap at hm
    unfold Star.addFaculaeToMapSingle
    rcases map_single s with ⟨e, h1, h2⟩ | ⟨m0, m0', h1, h2, -⟩
    · rw [h1] at hm; cases hm
    rw [h1] at hm
    rw [h2]
    simp only [bind, Except.bind] at hm ⊢
    by_cases hg : s.spots.grid = s.grid
    · have on1 : ∀ m0 : s.spots.grid.Pix → ℝ, Field.on ⟨s.spots.grid, m0⟩ s.grid .indexError = .ok fun p => m0 (hg ▸ p) := fun m0 => by
        unfold Field.on
        exact dif_pos hg
      rw [on1] at hm ⊢
      exact (fold_loses hne _ _ _ _ hm).2 hf
    · have on1 : ∀ m0 : s.spots.grid.Pix → ℝ, Field.on ⟨s.spots.grid, m0⟩ s.grid .indexError = .error .indexError := fun m0 => by
        unfold Field.on
        exact dif_neg hg
      rw [on1] at hm; cases hm
  unfold Star.calcCoverageSingle
  rw [this]
  rfl

/-! ## Instances -/

/-- A star with one facula and granules. -/
def Spec.oneFacula (T : ℝ) : Star :=
  { sampleStar (.rect 5 4) [] [sampleFacula (.rect 5 4)] with granulation := some ⟨0.2, 1, 1, 50⟩, teff := T }

theorem oneFacula_answers (T : ℝ) : ∃ res, (oneFacula T).calcCoverage 0 1 0.2 10 (1 / 2) π (π / 2) = .ok res := by
  set gd : Grid := .rect 5 4 with hgd
  set s := oneFacula T with hs
  have hp := pi_pos
  have h0 : (0 : ℝ) ∈ Set.Icc (-(π / 2)) (π / 2) := ⟨by linarith, by linarith⟩
  have hg : goodGrid s.grid := ⟨by omega, by omega⟩
  have hv : Visible s 0 1 := visible_rect s rfl (by omega) (by omega) 0 1
  obtain ⟨a, ha, -⟩ := C02_area_partition s.grid hg
  have hld : PhysicalLD s.u1 s.u2 := by simp [PhysicalLD, hs, oneFacula, sampleStar]
  obtain ⟨-, hW⟩ := visible_pos s hg hld ha hv
  have hw : ∀ p, s.weight 0 1 p = .fin (pixelWeight s a 0 1 p) := weight_eq s a ha 0 1
  have hff : s.faculae.faculae = [sampleFacula gd] := rfl
  obtain ⟨l1, -⟩ := (C01_rect_layout 5 4 (by omega)).2.2 ⟨0, by omega⟩ ⟨0, by omega⟩
  obtain ⟨total, cov, plf, h, -⟩ := C59_answers_partial s hg one_pos 0 1 _ (by simp only [hw, Fl.sum_fin]) hW.ne' h0
    ⟨0.2, 1, 1, 50⟩ rfl rfl (measured_new _ _) (by
      intro f hf
      rw [hff, List.mem_singleton] at hf
      subst hf
      refine ⟨rfl, ?_, 1, rfl, one_pos, by rw [(sampleFacula_keyvals gd).1, (sampleFacula_keyvals gd).2]; norm_num⟩
      unfold cosDist
      rw [inner_unitVec]
      simp [sampleFacula]
      exact (cos_pos_of_mem_Ioo ⟨by linarith [pi_gt_three], by linarith [pi_gt_three]⟩).ne')
    (Or.inr ⟨(⟨0, by omega⟩, ⟨0, by omega⟩), (by intro sp hsp; cases hsp), (by
        intro f hf
        rw [hff, List.mem_singleton] at hf
        subst hf
        exact sampleFacula_pole gd _ (l1.trans (by simp)))⟩) 0.2 10 (1 / 2) π (π / 2) (by norm_num) _ _ rfl (by simp)
  exact ⟨_, h⟩

theorem oneFacula_covers (T : ℝ) : ∃ p, inFacula (sampleFacula (.rect 5 4)) (oneFacula T).radius (oneFacula T).grid p := by
  obtain ⟨l1, l2, -⟩ := (C01_rect_layout 5 4 (by omega)).2.2 ⟨0, by omega⟩ ⟨2, by omega⟩
  refine ⟨(⟨0, by omega⟩, ⟨2, by omega⟩), ?_⟩
  change inFacula (sampleFacula (.rect 5 4)) 1 (.rect 5 4) _
  rw [inFacula_pixel (r := 1) rfl one_ne_zero, greatCircle_eq, l1, l2]
  simp [sampleFacula]
  ring_nf
  simp

/-- Non-trivial instance of the counterexample: at 3300.1 K the report raises `TypeError`. -/
example : (∃ res, (oneFacula 3300.1).calcCoverage 0 1 0.2 10 (1 / 2) π (π / 2) = .ok res) ∧
    (oneFacula 3300.1).calcCoverageSingle 0 1 0.2 10 (1 / 2) π (π / 2) = .error .typeError := by
  obtain ⟨res, h⟩ := oneFacula_answers 3300.1
  refine ⟨⟨res, h⟩, C143_counterexample_faculae _ ?_ ⟨_, List.mem_singleton.mpr rfl, rfl, oneFacula_covers _, 100, ?_, ?_, ?_⟩ _ _ _ _ _ _ _ res h⟩
  · intro k hk
    have hk : (3300.1 : ℝ) = k / 4096 := hk
    have : ((k * 10 : ℤ) : ℝ) = (135172096 : ℤ) := by push_cast; linarith
    have : k * 10 = 135172096 := by exact_mod_cast this
    omega
  · rw [wallDteff_eq (r := 1) rfl]
    simp only [Helpers.roundTeff, Except.ok.injEq]
    exact (sampleFacula_keyvals _).1
  · norm_num [oneFacula]
  · norm_num [oneFacula]

/-- Non-trivial instance of C143: at 3300.5 K the star with a facula is reported in single precision as with exact temperatures. -/
example : ∃ total cov plf, (oneFacula 3300.5).calcCoverageSingle 0 1 0.2 10 (1 / 2) π (π / 2) = .ok (total, cov, plf) ∧
    ∃ total' cov', (oneFacula 3300.5).calcCoverage 0 1 0.2 10 (1 / 2) π (π / 2) = .ok (total', cov', plf) ∧ Dict.values total = Dict.values total' := by
  set s := oneFacula 3300.5 with hs
  have hT : s.teff = 3300.5 := rfl
  have hff : s.faculae.faculae = [sampleFacula (.rect 5 4)] := rfl
  have hpl : Placed s := ⟨rfl, measured_new _ _, by simp [hs, oneFacula, sampleStar, sampleFacula]⟩
  have hkeys := sampleFacula_keyvals (.rect 5 4)
  have hmap : ∀ m, s.addFaculaeToMap 0 1 = .ok m → ∀ p, m p = 3300.5 ∨ m p = 3400.5 ∨ m p = 3200.5 := by
    intro m hm p
    rcases C95_map_temperatures s hpl 0 1 m hm p with ⟨f, hf, hin, -, -, k, hk, e⟩ | ⟨hout, hh⟩
    · rw [hff, List.mem_singleton] at hf
      subst hf
      right
      rw [e, hT]
      rcases hk with hk | hk
      · rw [wallDteff_eq (r := 1) rfl] at hk
        simp only [Helpers.roundTeff, Except.ok.injEq] at hk
        have : k = 100 := by rw [← hk]; exact hkeys.1
        left; subst this; norm_num [Helpers.clipTeff, Helpers.teffHigh, Helpers.teffLow]
      · rw [floorDteff_eq (r := 1) rfl] at hk
        simp only [Helpers.roundTeff, Except.ok.injEq] at hk
        have : k = -100 := by rw [← hk]; exact hkeys.2
        right; subst this; norm_num [Helpers.clipTeff, Helpers.teffHigh, Helpers.teffLow]
    · left
      rcases hh with h1 | ⟨-, sp, hsp, -⟩
      · exact h1
      · cases hsp
  have hall : ∀ m, s.addFaculaeToMap 0 1 = .ok m → ∀ gr, s.granulation = some gr →
      ∀ T ∈ Set.range m ∪ spotTemps s ∪ {s.teff - gr.dteff}, T = 3300.5 ∨ T = 3400.5 ∨ T = 3200.5 ∨ T = 3250.5 := by
    intro m hm gr hgr T h
    cases hgr
    rcases h with (⟨p, rfl⟩ | (rfl | ⟨sp, hsp, -⟩)) | rfl
    · rcases hmap m hm p with h | h | h <;> simp only [h, true_or, or_true]
    · exact Or.inl rfl
    · cases hsp
    · right; right; right; rw [hT]; norm_num
  rcases C143_single_partial s 0 1 0.2 10 (1 / 2) π (π / 2) (by
      intro m hm gr hgr T h
      refine ⟨by rcases hall m hm gr hgr T h with rfl | rfl | rfl | rfl <;> norm_num, fun T' h' hne => ?_⟩
      rcases hall m hm gr hgr T h with rfl | rfl | rfl | rfl <;> rcases hall m hm gr hgr T' h' with rfl | rfl | rfl | rfl <;>
        first | exact absurd rfl hne | norm_num)
    (by
      intro gr hgr T h
      cases hgr
      rcases h with rfl | rfl
      · exact ⟨330050, Or.inl (by rw [hT]; norm_num)⟩
      · exact ⟨325050, Or.inl (by rw [hT]; norm_num)⟩)
    (Or.inr ⟨844928, by rw [hT]; norm_num⟩) with ⟨e, h, -⟩ | ⟨t, c, t', c', plf, h1, h2, h3, -⟩
  · obtain ⟨res, hr⟩ := oneFacula_answers 3300.5
    rw [hr] at h
    cases h
  · exact ⟨t', c', plf, h2, t, c, h1, h3⟩

end Vsm
