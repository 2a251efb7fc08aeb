import Verif.Props.FaculaGeom
import Mathlib.Data.Multiset.Sort
import Mathlib.Data.List.Sort
import Mathlib.Data.List.GetD

/-!
# C41, C69: how many pixels are wall, and how hot they are
-/

noncomputable section

namespace Vsm

open Real Spec

/-! ## C41 -/

/-- The percentile separates the first `⌊(n-1)q⌋+1` entries of a strictly sorted list from the others. -/
theorem percentileSorted_sep (l : List ℝ) (hl : l.SortedLT) (q : ℝ) (hq : 0 ≤ q) (hq' : q ≤ 1)
    (i : ℕ) (hi : i < l.length) :
    l[i] ≤ Np.percentileSorted l q ↔ i ≤ ⌊((l.length : ℝ) - 1) * q⌋₊ := by
  have hlen : (1 : ℝ) ≤ l.length := by exact_mod_cast (by omega : 1 ≤ l.length)
  have hv : 0 ≤ ((l.length : ℝ) - 1) * q := mul_nonneg (by linarith) hq
  have hv' : ((l.length : ℝ) - 1) * q ≤ l.length - 1 := by nlinarith
  set v := ((l.length : ℝ) - 1) * q with hvdef
  set j := ⌊v⌋₊ with hj
  have hj1 : (j : ℝ) ≤ v := Nat.floor_le hv
  have hj2 : v < j + 1 := Nat.lt_floor_add_one v
  have hjl : j < l.length := by
    have : (j : ℝ) < l.length := by linarith
    exact_mod_cast this
  have hmono : ∀ (a b : ℕ) (ha : a < l.length) (hb : b < l.length), a < b → l[a] < l[b] :=
    fun a b ha hb hab => hl.getElem_lt_getElem_of_lt hab
  have hp : Np.percentileSorted l q = l[j] + (l.getD (j + 1) l[j] - l[j]) * (v - j) := by
    unfold Np.percentileSorted
    simp only [← hvdef, ← hj, List.getD_eq_getElem _ _ hjl]
  rw [hp]
  have hle : ∀ (a b : ℕ) (ha : a < l.length) (hb : b < l.length), a ≤ b → l[a] ≤ l[b] := by
    intro a b ha hb hab
    rcases Nat.lt_or_eq_of_le hab with h | h
    · exact (hmono a b ha hb h).le
    · subst h; exact le_rfl
  by_cases hj3 : j + 1 < l.length
  · rw [List.getD_eq_getElem _ _ hj3]
    have hlt := hmono j (j + 1) hjl hj3 (by omega)
    constructor
    · intro h
      by_contra hc
      have := hle (j + 1) i hj3 hi (by omega)
      nlinarith
    · intro h
      have := hle i j hi hjl h
      nlinarith
  · rw [List.getD_eq_default _ _ (by omega), sub_self, zero_mul, add_zero]
    constructor
    · intro _; omega
    · intro h; exact hle i j hi hjl h

theorem count_sep (l : List ℝ) (b : ℝ) (k : ℕ) (hk : k ≤ l.length)
    (h : ∀ (i : ℕ) (hi : i < l.length), l[i] ≤ b ↔ i < k) : l.countP (fun x => decide (x ≤ b)) = k := by
  induction l generalizing k with
  | nil => simp at hk; simp [hk]
  | cons a l ih =>
    rw [List.countP_cons]
    cases k with
    | zero =>
      have h0 : ¬ a ≤ b := by
        have := h 0 (by simp)
        rw [List.getElem_cons_zero] at this
        simpa using this
      have := ih 0 (Nat.zero_le _) (fun i hi => by
        have := h (i + 1) (by simpa using hi)
        rw [List.getElem_cons_succ] at this
        simpa using this)
      rw [this]; simp [h0]
    | succ k =>
      have h0 : a ≤ b := by
        have := h 0 (by simp)
        rw [List.getElem_cons_zero] at this
        simpa using this
      have := ih k (by simpa using hk) (fun i hi => by
        have := h (i + 1) (by simpa using hi)
        rw [List.getElem_cons_succ] at this
        simpa using this)
      rw [this]; simp [h0]

theorem countP_percentile (s : Multiset ℝ) (hs : s.Nodup) (hn : s ≠ 0) (q b : ℝ)
    (hb : Np.percentile s (.fin q) = .ok b) :
    |(s.countP (fun x => x ≤ b) : ℝ) / s.card - q| ≤ 1 / s.card := by
  unfold Np.percentile at hb
  simp only at hb
  split_ifs at hb with hq
  simp only [Except.ok.injEq] at hb
  set l := s.sort (· ≤ ·) with hl
  have hsl : (l : Multiset ℝ) = s := Multiset.sort_eq _ _
  have hnd : l.Nodup := by rw [← Multiset.coe_nodup, hsl]; exact hs
  have hsorted : l.SortedLE := (Multiset.pairwise_sort s (· ≤ ·)).sortedLE
  have hlt : l.SortedLT := hsorted.sortedLT_of_nodup hnd
  have hcard : s.card = l.length := by rw [← hsl]; rfl
  have hpos : 0 < l.length := by
    rw [← hcard]; exact Multiset.card_pos.mpr hn
  have hlen : (1 : ℝ) ≤ l.length := by exact_mod_cast hpos
  set v := ((l.length : ℝ) - 1) * q with hvdef
  have hv : 0 ≤ v := mul_nonneg (by linarith) hq.1
  have hv' : v ≤ l.length - 1 := by nlinarith [hq.2]
  have hjl : ⌊v⌋₊ + 1 ≤ l.length := by
    have h1 : (⌊v⌋₊ : ℝ) ≤ v := Nat.floor_le hv
    have : (⌊v⌋₊ : ℝ) + 1 ≤ l.length := by linarith
    exact_mod_cast this
  have hcount : l.countP (fun x => decide (x ≤ b)) = ⌊v⌋₊ + 1 := by
    apply count_sep l b _ hjl
    intro i hi
    rw [← hb, percentileSorted_sep l hlt q hq.1 hq.2 i hi, Nat.lt_succ_iff]
  have hc2 : s.countP (fun x => x ≤ b) = ⌊v⌋₊ + 1 := by
    rw [← hcount, ← hsl, Multiset.coe_countP]
  rw [hc2, hcard]
  have h1 : (⌊v⌋₊ : ℝ) ≤ v := Nat.floor_le hv
  have h2 : v < ⌊v⌋₊ + 1 := Nat.lt_floor_add_one v
  have hL : (0 : ℝ) < l.length := by linarith
  rw [show ((⌊v⌋₊ + 1 : ℕ) : ℝ) / l.length - q = ((⌊v⌋₊ : ℝ) + 1 - q * l.length) / l.length by
    push_cast; field_simp, abs_div, abs_of_pos hL]
  apply div_le_div_of_nonneg_right _ hL.le
  rw [abs_le]
  constructor <;> nlinarith [hq.1, hq.2]

open Classical in
/-- Pixels of the star inside a facula (spec). -/
def Spec.faculaPixels (s : Star) (f : Facula) : Finset s.grid.Pix :=
  Finset.univ.filter fun p => inFacula f s.radius s.grid p

open Classical in
/-- **C41** If the pixels inside the facula have pairwise different `mu`, the share of them painted with the
wall temperature differs from the wall fraction by at most one pixel. -/
theorem C41_wall_share (s : Star) (lat0 lon0 : ℝ) (cur m : s.grid.Pix → ℝ) (f : Facula) (hg : f.grid = s.grid)
    (kw kf : ℤ) (q : ℝ) (x : Fl)
    (hfr : f.fractionalEffectiveArea (Helpers.angleBetween lat0 lon0 f.lat f.lon) = .ok [(kw, .fin q), (kf, x)])
    (hT : Helpers.clipTeff (kw + s.teff) ≠ Helpers.clipTeff (kf + s.teff))
    (hinj : Set.InjOn (s.mu lat0 lon0) (faculaPixels s f)) (hne : (faculaPixels s f).Nonempty)
    (h : s.addFacula lat0 lon0 cur f = .ok m) :
    |(((faculaPixels s f).filter fun p => m p = Helpers.clipTeff (kw + s.teff)).card : ℝ) /
        (faculaPixels s f).card - q| ≤ 1 / (faculaPixels s f).card := by
  set S := faculaPixels s f with hS
  have hS' : (Finset.univ.filter fun p => inFacula f s.radius s.grid p) = S := rfl
  unfold Star.addFacula at h
  simp only at h
  obtain ⟨p₀, hp₀⟩ := hne
  have hp₀' : inFacula f s.radius s.grid p₀ := by simpa [hS, faculaPixels] using hp₀
  have hex : ∃ p, (f.inside s.radius).2 p := by
    have hon := inside_on hg s.radius .indexError
    unfold Field.on at hon
    have hgg : (f.inside s.radius).1 = s.grid := hg
    rw [dif_pos hgg, Except.ok.injEq] at hon
    exact ⟨hgg ▸ p₀, by rw [congrFun hon p₀]; exact hp₀'⟩
  rw [if_neg (not_not.mpr hex), inside_on hg, hfr] at h
  simp only [bind, Except.bind, Star.paintFacula] at h
  cases hp : Np.percentile (S.val.map (s.mu lat0 lon0)) (.fin q) with
  | error e =>
    have hp2 : Np.percentile ((Finset.univ.filter fun p => inFacula f s.radius s.grid p).val.map (s.mu lat0 lon0))
      (.fin q) = .error e := hp
    rw [hp2] at h; cases h
  | ok b =>
    have hp2 : Np.percentile ((Finset.univ.filter fun p => inFacula f s.radius s.grid p).val.map (s.mu lat0 lon0))
      (.fin q) = .ok b := hp
    rw [hp2] at h
    change Except.ok _ = _ at h
    simp only [Except.ok.injEq] at h
    have hnd : (S.val.map (s.mu lat0 lon0)).Nodup :=
      Multiset.Nodup.map_on (fun a ha b hb hab => hinj ha hb hab) S.nodup
    have hn0 : S.val.map (s.mu lat0 lon0) ≠ 0 := by
      intro h0
      rw [Multiset.map_eq_zero] at h0
      have : p₀ ∈ S.val := hp₀
      rw [h0] at this
      simp at this
    have key := countP_percentile _ hnd hn0 q b hp
    rw [Multiset.card_map] at key
    have hc : (S.filter fun p => m p = Helpers.clipTeff (kw + s.teff)).card =
        (S.val.map (s.mu lat0 lon0)).countP (fun x => x ≤ b) := by
      rw [Multiset.countP_map]
      rw [← Finset.filter_val, Finset.card_val]
      congr 1
      apply Finset.filter_congr
      intro p hpS
      have hpi : inFacula f s.radius s.grid p := by simpa [hS, faculaPixels] using hpS
      rw [← h]
      by_cases hb : s.mu lat0 lon0 p ≤ b
      · simp [hpi, hb, not_lt.mpr hb]
      · simp only [hpi, true_and, not_le.mp hb, if_true]
        constructor
        · intro e; exact absurd e.symm hT
        · intro e; exact absurd e hb
    rw [hc]
    exact key

/-! ## C69 -/

/-- **C69** (partial) Wherever the wall is at least as hot as the floor it is painted at least as hot, and for
a star no hotter than 3900 K a wall with positive
excess is not painted cooler than the photosphere.  Missing: hotter stars, refuted by `C69_counterexample`. -/
theorem C69_hot_walls_partial (f : Facula) (T : ℝ) (kw kf : ℤ) (w g : ℝ) (hw : f.wallDteff = .fin w)
    (hf : f.floorDteff = .fin g) (hkw : Helpers.roundTeff f.wallDteff = .ok kw)
    (hkf : Helpers.roundTeff f.floorDteff = .ok kf) :
    (g ≤ w → Helpers.clipTeff (kf + T) ≤ Helpers.clipTeff (kw + T)) ∧
    (0 < w → T ≤ 3900 → T ≤ Helpers.clipTeff (kw + T)) := by
  rw [hw] at hkw
  rw [hf] at hkf
  simp only [Helpers.roundTeff, Except.ok.injEq] at hkw hkf
  subst hkw hkf
  have hmono : ∀ a b : ℝ, a ≤ b → Helpers.clipTeff a ≤ Helpers.clipTeff b := C15_clip_teff.2.2.1
  constructor
  · intro h
    apply hmono
    have : (Np.roundHalfEven g : ℝ) ≤ Np.roundHalfEven w := by exact_mod_cast Np.roundHalfEven_mono h
    linarith
  · intro h hT
    have h0 : (0 : ℝ) ≤ Np.roundHalfEven w := by
      have := Np.roundHalfEven_mono h.le
      rw [show (0 : ℝ) = ((0 : ℤ) : ℝ) by simp, Np.roundHalfEven_int] at this
      exact_mod_cast this
    unfold Helpers.clipTeff Helpers.teffHigh Helpers.teffLow
    split_ifs <;> linarith

/-- The full statement of C69 is false of the code: on a 6000 K star a wall 100 K hotter than the photosphere
is painted with 3900 K. -/
theorem C69_counterexample (g : Grid) : (sampleFacula g).wallDteff = .fin 100 ∧
    Helpers.roundTeff (sampleFacula g).wallDteff = .ok 100 ∧ Helpers.clipTeff (((100 : ℤ) : ℝ) + 6000) < 6000 := by
  have h : (sampleFacula g).wallDteff = .fin 100 := by
    rw [wallDteff_eq (r := 1) rfl]; norm_num [sampleFacula]
  refine ⟨h, ?_, ?_⟩
  · rw [h]
    have := Np.roundHalfEven_int 100
    simp only [Helpers.roundTeff]
    rw [show (100 : ℝ) = ((100 : ℤ) : ℝ) by norm_num, this]
  · norm_num [Helpers.clipTeff, Helpers.teffHigh]

/-- Non-trivial instance of C69: floor and wall of the sample facula on a 3000 K star. -/
example (g : Grid) : Helpers.clipTeff (((-100 : ℤ) : ℝ) + 3000) ≤ Helpers.clipTeff (((100 : ℤ) : ℝ) + 3000) ∧
    (3000 : ℝ) ≤ Helpers.clipTeff (((100 : ℤ) : ℝ) + 3000) := by
  have hw : (sampleFacula g).wallDteff = .fin 100 := by
    rw [wallDteff_eq (r := 1) rfl]; norm_num [sampleFacula]
  have hf : (sampleFacula g).floorDteff = .fin (-100) := by
    rw [floorDteff_eq (r := 1) rfl]; norm_num [sampleFacula]
  have h1 := Np.roundHalfEven_int 100
  have h2 := Np.roundHalfEven_int (-100)
  push_cast at h1 h2
  have := C69_hot_walls_partial (sampleFacula g) 3000 100 (-100) 100 (-100) hw hf
    (by rw [hw]; simp only [Helpers.roundTeff, h1]) (by rw [hf]; simp only [Helpers.roundTeff, h2])
  exact ⟨this.1 (by norm_num), this.2 (by norm_num) (by norm_num)⟩

/-! ## C70 -/

theorem percentile_ok (s : Multiset ℝ) (q : ℝ) (h0 : 0 ≤ q) (h1 : q ≤ 1) : ∃ b, Np.percentile s (.fin q) = .ok b := by
  refine ⟨Np.percentileSorted (s.sort (· ≤ ·)) q, ?_⟩
  unfold Np.percentile
  simp only
  rw [if_pos ⟨h0, h1⟩]

theorem cos_greatCircle (a b c d : ℝ) : cos (greatCircle a b c d) = cosDist a b c d := by
  obtain ⟨e, h1, h2, -⟩ := C09_angle_between
  have h3 := h1 a b c d
  rw [angleBetween_eq, Fl.fin_inj] at h3
  rw [h3, h2]; rfl

theorem addFacula_ok (s : Star) (lat0 lon0 : ℝ) (cur : s.grid.Pix → ℝ) (f : Facula) (r : ℝ) (hg : f.grid = s.grid)
    (h : f.radius = .fin r) (hr : 0 < r) (hk : wallKey f r ≠ floorKey f r)
    (hc : cosDist lat0 lon0 f.lat f.lon ≠ 0) : ∃ m, s.addFacula lat0 lon0 cur f = .ok m := by
  classical
  unfold Star.addFacula
  simp only
  by_cases hex : ∃ p, (f.inside s.radius).2 p
  · rw [if_neg (not_not.mpr hex), inside_on hg, angleBetween_eq]
    rw [fractional_cos h hr hk (by rw [cos_greatCircle]; exact hc)]
    obtain ⟨b, hb⟩ := percentile_ok ((Finset.univ.filter fun p => inFacula f s.radius s.grid p).val.map (s.mu lat0 lon0))
      (wallShare f r (greatCircle lat0 lon0 f.lat f.lon)) (wallShare_mem _ _ _).1 (wallShare_mem _ _ _).2
    simp only [bind, Except.bind, Star.paintFacula]
    rw [hb]
    exact ⟨_, rfl⟩
  · rw [if_pos hex]
    exact ⟨_, rfl⟩

/-- **C70** `add_faculae_to_map` returns a map for every star whose spot map exists and whose faculae have a
positive radius, live on the star's grid, have wall and floor temperatures that differ after rounding, and are
not exactly 90 degrees away from the disk centre. -/
theorem C70_overlay_total (s : Star) (lat0 lon0 : ℝ) (m₀ : s.spots.grid.Pix → ℝ) (hgrid : s.spots.grid = s.grid)
    (hm₀ : s.map = .ok m₀)
    (hf : ∀ f ∈ s.faculae.faculae, f.grid = s.grid ∧ cosDist lat0 lon0 f.lat f.lon ≠ 0 ∧
      ∃ r, f.radius = .fin r ∧ 0 < r ∧ wallKey f r ≠ floorKey f r) :
    ∃ m, s.addFaculaeToMap lat0 lon0 = .ok m := by
  unfold Star.addFaculaeToMap
  rw [hm₀]
  have hon : Field.on ⟨s.spots.grid, m₀⟩ s.grid .indexError = .ok fun p => m₀ (hgrid ▸ p) := by
    unfold Field.on
    rw [dif_pos hgrid]
  change ∃ m, ((Field.on ⟨s.spots.grid, m₀⟩ s.grid .indexError) >>= _) = _
  rw [hon]
  change ∃ m, List.foldlM _ _ _ = _
  generalize (fun p => m₀ (hgrid ▸ p)) = cur
  generalize hl : s.faculae.faculae = l
  rw [hl] at hf
  clear hl
  induction l generalizing cur with
  | nil => exact ⟨cur, rfl⟩
  | cons f l ih =>
    obtain ⟨hg, hc, r, h, hr, hk⟩ := hf f (by simp)
    obtain ⟨m, hm⟩ := addFacula_ok s lat0 lon0 cur f r hg h hr hk hc
    rw [List.foldlM_cons, hm]
    exact ih m (fun x hx => hf x (by simp [hx]))

/-- The exception in C70 is real: a facula exactly on the limb makes `np.percentile` raise `ValueError`. -/
theorem C70_limb_raises (s : Star) (lat0 lon0 : ℝ) (cur : s.grid.Pix → ℝ) (f : Facula) (r : ℝ) (hg : f.grid = s.grid)
    (h : f.radius = .fin r) (hr' : r < f.floorMinRad) (hk : wallKey f r ≠ floorKey f r)
    (hc : cosDist lat0 lon0 f.lat f.lon = 0) (hp : ∃ p, inFacula f s.radius s.grid p) :
    s.addFacula lat0 lon0 cur f = .error .valueError := by
  classical
  obtain ⟨p₀, hp₀⟩ := hp
  have hex : ∃ p, (f.inside s.radius).2 p := by
    have hon := inside_on hg s.radius .indexError
    unfold Field.on at hon
    have hgg : (f.inside s.radius).1 = s.grid := hg
    rw [dif_pos hgg, Except.ok.injEq] at hon
    exact ⟨hgg ▸ p₀, by rw [congrFun hon p₀]; exact hp₀⟩
  have hcos : cos (greatCircle lat0 lon0 f.lat f.lon) = 0 := by rw [cos_greatCircle]; exact hc
  unfold Star.addFacula
  simp only
  rw [if_neg (not_not.mpr hex), inside_on hg, angleBetween_eq]
  have hfr : f.fractionalEffectiveArea (.fin (greatCircle lat0 lon0 f.lat f.lon)) =
      .ok [(wallKey f r, .nan), (floorKey f r, .nan)] := by
    unfold Facula.fractionalEffectiveArea Facula.effectiveArea
    rw [if_neg, if_pos (by rw [h]; exact hr'), h, twoKeys_eq h hk, Fl.cos_fin, hcos]
    · simp [Except.map, Np.Dict.values, Fl.fin_div_zero, Fl.infTimes]
    · rw [wallDteff_eq h, floorDteff_eq h, Fl.feq_fin]
      exact fun e => keys_ne_dteff hk e.symm
  rw [hfr]
  rfl

/-! ## Sample star -/

/-- A 3000 K star of radius 1 km with the given features, for the examples. -/
def Spec.sampleStar (g : Grid) (spots : List StarSpot) (fac : List Facula) : Star :=
  { teff := 3000, radius := 1, period := 1, spots := .new spots g, faculae := ⟨fac, g⟩, grid := g
    flareGen := .off, spotGen := .off g, facGen := .off g, granulation := some .off, u1 := 0, u2 := 0, flares := none }

/-- The 3 by 1 grid: south pole, equator and north pole on the meridian. -/
theorem grid31 (p : (Grid.rect 3 1).Pix) : (Grid.rect 3 1).lon p = 0 ∧
    (Grid.rect 3 1).lat p = ((p.2 : ℕ) - 1) * (π / 2) := by
  obtain ⟨i, j⟩ := p
  obtain ⟨h1, h2, -⟩ := (C01_rect_layout 3 1 (by norm_num)).2.2 i j
  have hi : (i : ℕ) = 0 := by omega
  refine ⟨by rw [h2, hi]; simp, ?_⟩
  rw [h1]
  push_cast
  ring

/-- A facula of radius 2 stellar radii, for the examples. -/
def Spec.wideFacula (g : Grid) : Facula := { sampleFacula g with radius := .fin 2 }

theorem wideFacula_keys (g : Grid) : wallKey (wideFacula g) 2 = 100 ∧ floorKey (wideFacula g) 2 = -100 := by
  constructor
  · have := Np.roundHalfEven_int 100
    simpa [wallKey, wideFacula, sampleFacula] using this
  · have := Np.roundHalfEven_int (-100)
    simpa [floorKey, wideFacula, sampleFacula] using this

theorem wideFacula_inside (p : (Grid.rect 3 1).Pix) : inFacula (wideFacula (.rect 3 1)) 1 (.rect 3 1) p := by
  unfold inFacula
  rw [haversine_eq]
  change Fl.fin _ ≤ Fl.fin 2 / Fl.fin 1
  rw [Fl.fin_div one_ne_zero, Fl.fin_le, greatCircle_eq, (grid31 p).1]
  have h : (0 : ℝ) ≤ cos (0 : ℝ) * cos ((Grid.rect 3 1).lat p) := by
    have := rect_cos_nonneg 3 1 (by norm_num) p
    simpa using this
  have : arccos (sin (wideFacula (Grid.rect 3 1)).lat * sin ((Grid.rect 3 1).lat p) +
      cos (wideFacula (Grid.rect 3 1)).lat * cos ((Grid.rect 3 1).lat p) *
        cos ((wideFacula (Grid.rect 3 1)).lon - 0)) ≤ π / 2 := by
    rw [arccos_le_pi_div_two]
    simpa [wideFacula, sampleFacula] using h
  have := pi_lt_d2
  rw [div_one]
  linarith

theorem wideFacula_cosDist (g : Grid) : cosDist (π / 6) 0 (wideFacula g).lat (wideFacula g).lon ≠ 0 := by
  unfold cosDist
  rw [inner_unitVec]
  simp [wideFacula, sampleFacula]

/-- Non-trivial instance of C40 and C70: the wide facula seen from 30° north.  Every pixel carries the wall or
the floor temperature. -/
example : ∃ m, (sampleStar (.rect 3 1) [] [wideFacula (.rect 3 1)]).addFaculaeToMap (π / 6) 0 = .ok m ∧
    ∀ p, m p = 3100 ∨ m p = 2900 := by
  classical
  set s := sampleStar (.rect 3 1) [] [wideFacula (.rect 3 1)] with hs
  have hm₀ : s.map = .ok (fun _ => 3000) := rfl
  have hkeys := wideFacula_keys (.rect 3 1)
  obtain ⟨m, hm⟩ := C70_overlay_total s (π / 6) 0 _ rfl hm₀ (by
    intro f hf
    have hf : f = wideFacula (.rect 3 1) := by simpa [hs, sampleStar] using hf
    subst hf
    exact ⟨rfl, wideFacula_cosDist _, 2, rfl, two_pos, by rw [hkeys.1, hkeys.2]; norm_num⟩)
  refine ⟨m, hm, fun p => ?_⟩
  obtain ⟨b, hb⟩ := C40_overlay s (π / 6) 0 _ rfl hm₀ (by
    intro f hf
    have hf : f = wideFacula (.rect 3 1) := by simpa [hs, sampleStar] using hf
    subst hf; rfl) m hm
  have hlast : lastAt s.faculae.faculae s.radius s.grid p = some (wideFacula (.rect 3 1)) := by
    change lastAt [wideFacula (.rect 3 1)] 1 (.rect 3 1) p = _
    simp [lastAt, wideFacula_inside p]
  obtain ⟨kw, kf, h1, h2, h3⟩ := (hb p).2 _ hlast
  have e1 : kw = 100 := by
    rw [wallDteff_eq (r := 2) rfl] at h1
    simp only [Helpers.roundTeff, Except.ok.injEq] at h1
    rw [← h1]; exact hkeys.1
  have e2 : kf = -100 := by
    rw [floorDteff_eq (r := 2) rfl] at h2
    simp only [Helpers.roundTeff, Except.ok.injEq] at h2
    rw [← h2]; exact hkeys.2
  rw [h3, e1, e2]
  have ht : s.teff = 3000 := rfl
  split_ifs
  · left; norm_num [Helpers.clipTeff, Helpers.teffHigh, Helpers.teffLow, ht]
  · right; norm_num [Helpers.clipTeff, Helpers.teffHigh, Helpers.teffLow, ht]

open Classical in
/-- Non-trivial instance of C41: the share of the three pixels that is wall is within 1/3 of the fraction. -/
example : let s := sampleStar (.rect 3 1) [] [wideFacula (.rect 3 1)]
    ∃ (m : s.grid.Pix → ℝ) (q : ℝ), s.addFacula (π / 6) 0 (fun _ => 3000) (wideFacula (.rect 3 1)) = .ok m ∧
      |(((faculaPixels s (wideFacula (.rect 3 1))).filter fun p => m p = 3100).card : ℝ) / 3 - q| ≤ 1 / 3 := by
  intro s
  have hkeys := wideFacula_keys (.rect 3 1)
  have hne : wallKey (wideFacula (.rect 3 1)) 2 ≠ floorKey (wideFacula (.rect 3 1)) 2 := by
    rw [hkeys.1, hkeys.2]; norm_num
  obtain ⟨m, hm⟩ := addFacula_ok s (π / 6) 0 (fun _ => 3000) (wideFacula (.rect 3 1)) 2 rfl rfl two_pos hne
    (wideFacula_cosDist _)
  have hS : faculaPixels s (wideFacula (.rect 3 1)) = Finset.univ := by
    unfold faculaPixels
    rw [Finset.filter_eq_self]
    exact fun p _ => wideFacula_inside p
  have hcard : (faculaPixels s (wideFacula (.rect 3 1))).card = 3 := by rw [hS]; rfl
  refine ⟨m, wallShare (wideFacula (.rect 3 1)) 2 (greatCircle (π / 6) 0 0 0), hm, ?_⟩
  have hclip : Helpers.clipTeff (((100 : ℤ) : ℝ) + s.teff) = 3100 := by
    have ht : s.teff = 3000 := rfl
    norm_num [Helpers.clipTeff, Helpers.teffHigh, Helpers.teffLow, ht]
  have hclip' : Helpers.clipTeff (((-100 : ℤ) : ℝ) + s.teff) = 2900 := by
    have ht : s.teff = 3000 := rfl
    norm_num [Helpers.clipTeff, Helpers.teffHigh, Helpers.teffLow, ht]
  have hfr := fractional_cos (f := wideFacula (.rect 3 1)) (r := 2) (θ := greatCircle (π / 6) 0 0 0) rfl two_pos hne
    (by rw [cos_greatCircle]; exact wideFacula_cosDist (.rect 3 1))
  rw [hkeys.1, hkeys.2] at hfr
  have := C41_wall_share s (π / 6) 0 (fun _ => 3000) m (wideFacula (.rect 3 1)) rfl 100 (-100) _ _
    (by rw [angleBetween_eq]; exact hfr) (by rw [hclip, hclip']; norm_num) ?_ ⟨((0 : Fin 1), (0 : Fin 3)), by rw [hS]; exact Finset.mem_univ _⟩ hm
  · rw [hclip, hcard] at this
    exact_mod_cast this
  · -- the three values of mu are -1/2, √3/2 and 1/2
    have hmu : ∀ p : (Grid.rect 3 1).Pix, s.mu (π / 6) 0 p = sin (π / 6) * sin (((p.2 : ℕ) - 1) * (π / 2)) +
        cos (π / 6) * cos (((p.2 : ℕ) - 1) * (π / 2)) := by
      intro p
      change Grid.cosAngle _ _ ((Grid.rect 3 1).lat p) ((Grid.rect 3 1).lon p) = _
      rw [(grid31 p).1, (grid31 p).2, Grid.cosAngle, sub_zero, cos_zero, mul_one]
    have h3 : (1 : ℝ) < √3 := by
      rw [lt_sqrt (by norm_num)]; norm_num
    intro p _ p' _ h
    obtain ⟨i, j⟩ := p
    obtain ⟨i', j'⟩ := p'
    have hi : i = i' := Subsingleton.elim _ _
    rw [hmu, hmu, sin_pi_div_six, cos_pi_div_six] at h
    have hv : ∀ k : Fin 3, 1 / 2 * sin (((k : ℕ) - 1 : ℝ) * (π / 2)) + √3 / 2 * cos (((k : ℕ) - 1 : ℝ) * (π / 2)) =
        if k = 0 then -(1 / 2) else if k = 1 then √3 / 2 else 1 / 2 := by
      intro k
      fin_cases k
      · simp [sin_neg]
      · simp
      · norm_num
    have h' := h
    change 1 / 2 * sin (((j : ℕ) - 1 : ℝ) * (π / 2)) + √3 / 2 * cos (((j : ℕ) - 1 : ℝ) * (π / 2)) =
      1 / 2 * sin (((j' : ℕ) - 1 : ℝ) * (π / 2)) + √3 / 2 * cos (((j' : ℕ) - 1 : ℝ) * (π / 2)) at h'
    rw [hv j, hv j'] at h'
    have hj : j = j' := by
      revert h'
      have cases3 : ∀ k : Fin 3, k = 0 ∨ k = 1 ∨ k = 2 := by decide
      rcases cases3 j with e | e | e <;> rcases cases3 j' with e' | e' | e' <;> rw [e, e'] <;> intro h'
      all_goals first
        | rfl
        | (exfalso
           simp only [if_true, if_neg (show ¬ (1 : Fin 3) = 0 by decide), if_neg (show ¬ (2 : Fin 3) = 0 by decide),
             if_neg (show ¬ (2 : Fin 3) = 1 by decide)] at h'
           linarith)
    rw [hi, hj]

end Vsm
