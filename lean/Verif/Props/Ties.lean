import Verif.Props.Gradual
import Verif.Props.FloatReport

/-!
# C154 – C155: walls of faculae, and the report of a star with faculae as the observer moves
-/

noncomputable section
namespace Vsm
open Real Np Spec

/-! ## C154 -/

/-- Where the percentile of a sorted list lies: between the entry number `⌊(n-1)q⌋` and all larger ones. -/
theorem percentileSorted_border (l : List ℝ) (hl : l.SortedLE) (hne : l ≠ []) (q : ℝ) (hq : 0 ≤ q) (hq' : q ≤ 1) :
    ∃ (j : ℕ) (hj : j < l.length), (j : ℝ) ≤ ((l.length : ℝ) - 1) * q ∧ ((l.length : ℝ) - 1) * q < j + 1 ∧
      l[j] ≤ Np.percentileSorted l q ∧ ∀ (i : ℕ) (hi : i < l.length), l[i] ≤ Np.percentileSorted l q → l[i] ≤ l[j] := by
  have hlen : (1 : ℝ) ≤ l.length := by exact_mod_cast List.length_pos_of_ne_nil hne
  have hv : 0 ≤ ((l.length : ℝ) - 1) * q := mul_nonneg (by linarith) hq
  have hv' : ((l.length : ℝ) - 1) * q ≤ l.length - 1 := by nlinarith
  set v := ((l.length : ℝ) - 1) * q with hvdef
  set j := ⌊v⌋₊ with hj
  have hj1 : (j : ℝ) ≤ v := Nat.floor_le hv
  have hj2 : v < j + 1 := Nat.lt_floor_add_one v
  have hjl : j < l.length := by
    have : (j : ℝ) < l.length := by linarith
    exact_mod_cast this
  have hle : ∀ (a b : ℕ) (ha : a < l.length) (hb : b < l.length), a ≤ b → l[a] ≤ l[b] := fun a b ha hb hab => hl.getElem_le_getElem_of_le hab
  have hp : Np.percentileSorted l q = l[j] + (l.getD (j + 1) l[j] - l[j]) * (v - j) := by
    unfold Np.percentileSorted
    simp only [← hvdef, ← hj, List.getD_eq_getElem _ _ hjl]
  rw [hp]
  refine ⟨j, hjl, hj1, hj2, ?_⟩
  by_cases hj3 : j + 1 < l.length
  · rw [List.getD_eq_getElem _ _ hj3]
    have hs := hle j (j + 1) hjl hj3 (by omega)
    refine ⟨by nlinarith, fun i hi h => ?_⟩
    by_cases hij : i ≤ j
    · exact hle i j hi hjl hij
    · have := hle (j + 1) i hj3 hi (by omega)
      by_cases e : l[j + 1] = l[j]
      · rw [e, sub_self, zero_mul, add_zero] at h
        exact h
      · have : l[j] < l[j + 1] := lt_of_le_of_ne hs (Ne.symm e)
        nlinarith
  · rw [List.getD_eq_default _ _ (by omega), sub_self, zero_mul, add_zero]
    exact ⟨le_refl _, fun i hi h => h⟩

theorem filter_le_length (l : List ℝ) (hl : l.SortedLE) (j : ℕ) (hj : j < l.length) :
    j + 1 ≤ (l.filter fun x => decide (x ≤ l[j])).length ∧ (l.filter fun x => decide (x < l[j])).length ≤ j := by
  have hle : ∀ (a b : ℕ) (ha : a < l.length) (hb : b < l.length), a ≤ b → l[a] ≤ l[b] := fun a b ha hb hab => hl.getElem_le_getElem_of_le hab
  constructor
  · have h1 : (l.take (j + 1)).filter (fun x => decide (x ≤ l[j])) = l.take (j + 1) := by
      rw [List.filter_eq_self]
      intro x hx
      obtain ⟨i, hi, rfl⟩ := List.mem_iff_getElem.mp hx
      rw [List.length_take] at hi
      rw [List.getElem_take]
      exact decide_eq_true (hle i j (by omega) hj (by omega))
    have h2 : ((l.take (j + 1)).filter (fun x => decide (x ≤ l[j]))).length ≤ (l.filter fun x => decide (x ≤ l[j])).length :=
      ((List.take_sublist _ _).filter _).length_le
    rw [h1, List.length_take] at h2
    omega
  · have h1 : (l.drop j).filter (fun x => decide (x < l[j])) = [] := by
      rw [List.filter_eq_nil_iff]
      intro x hx
      obtain ⟨i, hi, rfl⟩ := List.mem_iff_getElem.mp hx
      rw [List.length_drop] at hi
      rw [List.getElem_drop]
      simpa using hle j (j + i) hj (by omega) (by omega)
    have h2 : ∀ y, (l.drop j).filter (fun x => decide (x < y)) = [] → l.filter (fun x => decide (x < y)) = (l.take j).filter (fun x => decide (x < y)) := fun y h => by
      conv_lhs => rw [← List.take_append_drop j l, List.filter_append, h, List.append_nil]
    rw [h2 _ h1]
    exact (List.length_filter_le _ _).trans (by rw [List.length_take]; omega)

open Classical in
/-- **C154** For every facula that covers a pixel: let `n` be the number of its pixels and `q` its wall fraction.  There is always a wall pixel, and some wall pixel `p₀` lies nearest to
the disk centre; more than `(n-1) q` pixels are painted as wall, and at most `(n-1) q` of them lie farther out than `p₀`. -/
theorem C154_walls (s : Star) (lat0 lon0 : ℝ) (cur m : s.grid.Pix → ℝ) (f : Facula) (hg : f.grid = s.grid)
    (kw kf : ℤ) (q : ℝ) (x : Fl)
    (hfr : f.fractionalEffectiveArea (Helpers.angleBetween lat0 lon0 f.lat f.lon) = .ok [(kw, .fin q), (kf, x)])
    (hT : Helpers.clipTeff (kw + s.teff) ≠ Helpers.clipTeff (kf + s.teff)) (hne : (faculaPixels s f).Nonempty)
    (h : s.addFacula lat0 lon0 cur f = .ok m) :
    let walls := (faculaPixels s f).filter fun p => m p = Helpers.clipTeff (kw + s.teff)
    ∃ p₀ ∈ walls, (∀ p ∈ walls, s.mu lat0 lon0 p ≤ s.mu lat0 lon0 p₀) ∧
      (((faculaPixels s f).card : ℝ) - 1) * q < walls.card ∧
      ((walls.filter fun p => s.mu lat0 lon0 p < s.mu lat0 lon0 p₀).card : ℝ) ≤ (((faculaPixels s f).card : ℝ) - 1) * q := by
  intro walls
  set S := faculaPixels s f with hS
  unfold Star.addFacula at h
  simp only at h
  obtain ⟨p₁, hp₁⟩ := hne
  have hp₁' : inFacula f s.radius s.grid p₁ := by simpa [hS, faculaPixels] using hp₁
  have hex : ∃ p, (f.inside s.radius).2 p := by
    have hon := inside_on hg s.radius .indexError
    unfold Field.on at hon
    have hgg : (f.inside s.radius).1 = s.grid := hg
    rw [dif_pos hgg, Except.ok.injEq] at hon
    exact ⟨hgg ▸ p₁, by rw [congrFun hon p₁]; exact hp₁'⟩
  rw [if_neg (not_not.mpr hex), inside_on hg, hfr] at h
  simp only [bind, Except.bind, Star.paintFacula] at h
  set M : Multiset ℝ := S.val.map (s.mu lat0 lon0) with hM
  have hM' : (Finset.univ.filter fun p => inFacula f s.radius s.grid p).val.map (s.mu lat0 lon0) = M := rfl
  rw [hM'] at h
  by_cases hq : 0 ≤ q ∧ q ≤ 1
  swap
  · unfold Np.percentile at h
    simp only at h
    rw [if_neg hq] at h
    cases h
  unfold Np.percentile at h
  simp only at h
  rw [if_pos hq] at h
  set l := M.sort (· ≤ ·) with hl
  have hsort : l.SortedLE := (Multiset.pairwise_sort M (· ≤ ·)).sortedLE
  have hln : l.length = S.card := by rw [hl, Multiset.length_sort, hM, Multiset.card_map]; rfl
  have hcoe : (l : Multiset ℝ) = M := Multiset.sort_eq M _
  have hne : l ≠ [] := by
    intro h0
    rw [h0, List.length_nil] at hln
    have := Finset.card_pos.mpr ⟨p₁, hp₁⟩
    omega
  set b := Np.percentileSorted l q with hb
  change Except.ok _ = _ at h
  simp only [Except.ok.injEq] at h
  have hwall : ∀ p, p ∈ walls ↔ p ∈ S ∧ s.mu lat0 lon0 p ≤ b := fun p => by
    rw [Finset.mem_filter]
    refine and_congr_right fun hpS => ?_
    have hpi : inFacula f s.radius s.grid p := by simpa [hS, faculaPixels] using hpS
    rw [← h]
    by_cases hb : s.mu lat0 lon0 p ≤ b
    · simp [hpi, hb, not_lt.mpr hb]
    · simp only [hpi, true_and, not_le.mp hb, if_true]
      exact ⟨fun e => absurd e.symm hT, fun e => absurd e hb⟩
  obtain ⟨j, hj, a1, a2, a3, a4⟩ := percentileSorted_border l hsort hne q hq.1 hq.2
  obtain ⟨c1, c2⟩ := filter_le_length l hsort j hj
  have hmem : ∀ y, y ∈ l ↔ ∃ p ∈ S, s.mu lat0 lon0 p = y := fun y => by
    rw [← Multiset.mem_coe, hcoe, hM, Multiset.mem_map]
    rfl
  obtain ⟨p₀, hp₀, hmu⟩ := (hmem l[j]).mp (List.getElem_mem hj)
  have count : ∀ P : ℝ → Prop, (l.filter fun x => decide (P x)).length = (S.filter fun p => P (s.mu lat0 lon0 p)).card := fun P => by
    rw [← List.countP_eq_length_filter, ← Multiset.coe_countP, hcoe, hM, Multiset.countP_map, ← Finset.filter_val, Finset.card_val]
  have hcw : walls = S.filter fun p => s.mu lat0 lon0 p ≤ b := Finset.ext fun p => by rw [hwall, Finset.mem_filter]
  refine ⟨p₀, (hwall p₀).mpr ⟨hp₀, by rw [hmu]; exact a3⟩, fun p hp => ?_, ?_, ?_⟩
  · obtain ⟨hpS, hpb⟩ := (hwall p).mp hp
    obtain ⟨i, hi, e⟩ := List.mem_iff_getElem.mp ((hmem _).mpr ⟨p, hpS, rfl⟩)
    rw [hmu, ← e]
    exact a4 i hi (by rw [e]; exact hpb)
  · rw [← hln]
    have k1 := c1
    rw [count fun x => x ≤ l[j]] at k1
    have k2 : (S.filter fun p => s.mu lat0 lon0 p ≤ l[j]).card ≤ walls.card := Finset.card_le_card fun p hp => by
      rw [Finset.mem_filter] at hp
      exact (hwall p).mpr ⟨hp.1, hp.2.trans a3⟩
    have k3 : ((j + 1 : ℕ) : ℝ) ≤ walls.card := by exact_mod_cast k1.trans k2
    push_cast at k3
    linarith
  · rw [← hln]
    rw [count fun x => x < l[j]] at c2
    have k2 : (walls.filter fun p => s.mu lat0 lon0 p < s.mu lat0 lon0 p₀).card ≤ (S.filter fun p => s.mu lat0 lon0 p < l[j]).card := Finset.card_le_card fun p hp => by
      rw [Finset.mem_filter] at hp ⊢
      exact ⟨((hwall p).mp hp.1).1, by rw [← hmu]; exact hp.2⟩
    have k3 : ((walls.filter fun p => s.mu lat0 lon0 p < s.mu lat0 lon0 p₀).card : ℝ) ≤ j := by exact_mod_cast k2.trans c2
    linarith

open Classical in
/-- **C154** So the share of the pixels painted as wall is at least the wall fraction up to one pixel, and at most the wall fraction plus the pixels that are as far from the disk centre as the innermost wall pixel. -/
theorem C154_share (s : Star) (lat0 lon0 : ℝ) (cur m : s.grid.Pix → ℝ) (f : Facula) (hg : f.grid = s.grid)
    (kw kf : ℤ) (q : ℝ) (x : Fl)
    (hfr : f.fractionalEffectiveArea (Helpers.angleBetween lat0 lon0 f.lat f.lon) = .ok [(kw, .fin q), (kf, x)])
    (hT : Helpers.clipTeff (kw + s.teff) ≠ Helpers.clipTeff (kf + s.teff)) (hne : (faculaPixels s f).Nonempty) (hq : 0 ≤ q ∧ q ≤ 1)
    (h : s.addFacula lat0 lon0 cur f = .ok m) :
    let walls := (faculaPixels s f).filter fun p => m p = Helpers.clipTeff (kw + s.teff)
    let n : ℝ := (faculaPixels s f).card
    1 ≤ walls.card ∧ q - 1 / n ≤ walls.card / n ∧
    ∃ p₀ ∈ walls, (walls.card : ℝ) / n ≤ q + ((faculaPixels s f).filter fun p => s.mu lat0 lon0 p = s.mu lat0 lon0 p₀).card / n := by
  intro walls n
  obtain ⟨p₀, h1, h2, h3, h4⟩ := C154_walls s lat0 lon0 cur m f hg kw kf q x hfr hT hne h
  have hn : 0 < n := by
    have := Finset.card_pos.mpr hne
    simp only [n]
    exact_mod_cast this
  refine ⟨Finset.card_pos.mpr ⟨p₀, h1⟩, ?_, p₀, h1, ?_⟩
  · rw [sub_le_iff_le_add, ← add_div, le_div_iff₀ hn]
    have : (n - 1) * q < walls.card := h3
    nlinarith [hq.2]
  · rw [div_le_iff₀ hn, add_mul, div_mul_cancel₀ _ hn.ne']
    have hsplit : walls.card ≤ (walls.filter fun p => s.mu lat0 lon0 p < s.mu lat0 lon0 p₀).card + ((faculaPixels s f).filter fun p => s.mu lat0 lon0 p = s.mu lat0 lon0 p₀).card := by
      refine (Finset.card_le_card ?_).trans (Finset.card_union_le _ _)
      intro p hp
      rcases (h2 p hp).lt_or_eq with e | e
      · exact Finset.mem_union_left _ (Finset.mem_filter.mpr ⟨hp, e⟩)
      · exact Finset.mem_union_right _ (Finset.mem_filter.mpr ⟨(Finset.mem_filter.mp hp).1, e⟩)
    have hsplit' : (walls.card : ℝ) ≤ (walls.filter fun p => s.mu lat0 lon0 p < s.mu lat0 lon0 p₀).card + ((faculaPixels s f).filter fun p => s.mu lat0 lon0 p = s.mu lat0 lon0 p₀).card := by exact_mod_cast hsplit
    have h4' : ((walls.filter fun p => s.mu lat0 lon0 p < s.mu lat0 lon0 p₀).card : ℝ) ≤ (n - 1) * q := h4
    nlinarith [hq.1]

/-! ## C155 -/

/-- A set of labels that has both temperatures of each facula or neither. -/
def Spec.WholeFaculae (s : Star) (K : Finset ℤ) : Prop := ∀ f ∈ s.faculae.faculae, ∀ kw kf : ℤ, Helpers.roundTeff f.wallDteff = .ok kw → Helpers.roundTeff f.floorDteff = .ok kf →
  (Star.key (Helpers.clipTeff (kw + s.teff)) ∈ K ↔ Star.key (Helpers.clipTeff (kf + s.teff)) ∈ K)

/-- No facula shows the temperature of the photosphere. -/
def Spec.FaculaeDiffer (s : Star) : Prop := ∀ f ∈ s.faculae.faculae, ∀ k : ℤ, Helpers.roundTeff f.wallDteff = .ok k ∨ Helpers.roundTeff f.floorDteff = .ok k →
  Star.key (Helpers.clipTeff (k + s.teff)) ≠ Star.key s.teff

/-- **C155** Let two observers look at a star from directions that are an angle `θ` apart, as in C150 but with faculae, none of which shows the temperature of the photosphere.  The fractions
that they report for any set of temperatures that has both temperatures of each facula or neither differ by at most `3 θ` divided by the light that the first observer receives. -/
theorem C155_gradual (s : Star) (hg : goodGrid s.grid) (hs : Placed s) (hfd : FaculaeDiffer s) (hld : PhysicalLD s.u1 s.u2)
    (a : s.grid.Pix → ℝ) (ha : ∀ p, s.grid.area p = .fin (a p)) (lat0 lon0 lat1 lon1 : ℝ)
    (hW : 0 < ∑ p, pixelWeight s a lat0 lon0 p) (hW' : 0 < ∑ p, pixelWeight s a lat1 lon1 p)
    (g orbit r phase incl orbit' r' phase' incl' : ℝ) (hg01 : 0 ≤ g ∧ g ≤ 1)
    (total cov total' cov' : Dict ℤ Fl) (plf plf' : Fl) (h : s.calcCoverage lat0 lon0 g orbit r phase incl = .ok (total, cov, plf))
    (h' : s.calcCoverage lat1 lon1 g orbit' r' phase' incl' = .ok (total', cov', plf'))
    (hsep : ∀ m gr, (s.addFaculaeToMap lat0 lon0 = .ok m ∨ s.addFaculaeToMap lat1 lon1 = .ok m) → s.granulation = some gr → Apart (Set.range m ∪ {s.teff, s.teff - gr.dteff})) :
    ∃ x x' : ℤ → ℝ, (∀ k, entry total k = .fin (x k)) ∧ (∀ k, entry total' k = .fin (x' k)) ∧
      ∀ K : Finset ℤ, WholeFaculae s K → |∑ k ∈ K, x k - ∑ k ∈ K, x' k| ≤ 3 * greatCircle lat0 lon0 lat1 lon1 / ∑ p, pixelWeight s a lat0 lon0 p := by
  obtain ⟨m, mask, gr, e1, ht, hgr, h1, h2⟩ := calcCoverage_ok.mp h
  obtain ⟨m', mask', gr', e2, ht', hgr', h1', h2'⟩ := calcCoverage_ok.mp h'
  rw [hgr, Option.some.injEq] at hgr'
  subst hgr'
  have hsep1 := hsep m gr (Or.inl e1) hgr
  have hsep2 := hsep m' gr (Or.inr e2) hgr
  obtain ⟨a', ha', hann, hsum, -⟩ := C02_area_partition s.grid hg
  have haa : a' = a := by funext p; have := ha p; rw [ha' p, Fl.fin_inj] at this; exact this
  subst haa
  have hnn : ∀ p, 0 ≤ pixelWeight s a' lat1 lon1 p := by
    intro p
    have : pixelWeight s a' lat1 lon1 p = a' p * lightAt s.u1 s.u2 (s.grid.mu lat1 lon1 p) := by unfold pixelWeight lightAt; ring
    rw [this]
    refine mul_nonneg (hann p) (lightAt_range hld ?_).1
    rw [(C03_mu_inner _ lat1 lon1 p).2.2.2]
    exact cos_le_one _
  refine ⟨_, _, fun k => entry_of_apart (c := fun _ => 1) (weight_eq s a' ha lat0 lon0) hW.ne' h1 hsep1 k,
    fun k => entry_of_apart (c := fun _ => 1) (weight_eq s a' ha lat1 lon1) hW'.ne' h1' hsep2 k, fun K hK => ?_⟩
  have hmm : ∀ p, (Star.key (m p) ∈ K ↔ Star.key (m' p) ∈ K) ∧ (Star.key (m p) = Star.key s.teff ↔ Star.key (m' p) = Star.key s.teff) := by
    intro p
    rw [addFaculaeToMap_eq s hs] at e1 e2
    obtain ⟨b1, b2⟩ := foldlM_faculae s lat0 lon0 _ hs.2.2 _ m e1 p
    obtain ⟨b3, b4⟩ := foldlM_faculae s lat1 lon1 _ hs.2.2 _ m' e2 p
    cases hl : lastAt s.faculae.faculae s.radius s.grid p with
    | none => rw [b1 hl, b3 hl]; exact ⟨Iff.rfl, Iff.rfl⟩
    | some f =>
      have hf : f ∈ s.faculae.faculae := by
        classical
        have hf : f ∈ s.faculae.faculae.filter fun f => decide (inFacula f s.radius s.grid p) := List.mem_of_getLast? hl
        exact (List.mem_filter.mp hf).1
      obtain ⟨kw, kf, r1, r2, v1⟩ := b2 f hl
      obtain ⟨kw', kf', r1', r2', v2⟩ := b4 f hl
      rw [r1, Except.ok.injEq] at r1'
      rw [r2, Except.ok.injEq] at r2'
      subst r1' r2'
      have n1 := hfd f hf kw (Or.inl r1)
      have n2 := hfd f hf kf (Or.inr r2)
      have n3 := hK f hf kw kf r1 r2
      rw [v1, v2]
      split_ifs
      · exact ⟨Iff.rfl, Iff.rfl⟩
      · exact ⟨n3, by simp only [n1, n2]⟩
      · exact ⟨n3.symm, by simp only [n1, n2]⟩
      · exact ⟨Iff.rfl, Iff.rfl⟩
  have k1 := moved_mean (pixelWeight s a' lat0 lon0) m (Star.key s.teff) (Star.key (s.teff - gr.dteff)) g K
  have k2 := moved_mean (pixelWeight s a' lat1 lon1) m' (Star.key s.teff) (Star.key (s.teff - gr.dteff)) g K
  have k3 := mean_lip (w := pixelWeight s a' lat0 lon0) hW hnn hW' hsum (pixelWeight_lip s a' hann hld lat0 lon0 lat1 lon1)
    (c := fun p => (if Star.key (m p) ∈ K then 1 else 0) + (if Star.key (m p) = Star.key s.teff then
      g * ((if Star.key (s.teff - gr.dteff) ∈ K then 1 else 0) - (if Star.key s.teff ∈ K then 1 else 0)) else 0))
    (fun p => moved_range hg01 K _)
  have k4 : ∀ p, ((if Star.key (m' p) ∈ K then (1 : ℝ) else 0) + (if Star.key (m' p) = Star.key s.teff then
      g * ((if Star.key (s.teff - gr.dteff) ∈ K then 1 else 0) - (if Star.key s.teff ∈ K then 1 else 0)) else 0)) =
      ((if Star.key (m p) ∈ K then 1 else 0) + (if Star.key (m p) = Star.key s.teff then
      g * ((if Star.key (s.teff - gr.dteff) ∈ K then 1 else 0) - (if Star.key s.teff ∈ K then 1 else 0)) else 0)) := fun p => by
    simp only [(hmm p).1, (hmm p).2]
  simp only [k4] at k2
  rw [← k1, ← k2] at k3
  exact k3

/-- **C155** On a rectangular grid at least as fine as the default one (500 × 1000) these fractions change by at most 30 times the angle (in radians) by which the observer moves. -/
theorem C155_fine (s : Star) (nlat nlon : ℕ) (hgrid : s.grid = .rect nlat nlon) (hlat : 500 ≤ nlat) (hlon : 1000 ≤ nlon) (hs : Placed s) (hfd : FaculaeDiffer s)
    (hld : PhysicalLD s.u1 s.u2) (lat0 lon0 lat1 lon1 : ℝ)
    (g orbit r phase incl orbit' r' phase' incl' : ℝ) (hg01 : 0 ≤ g ∧ g ≤ 1)
    (total cov total' cov' : Dict ℤ Fl) (plf plf' : Fl) (h : s.calcCoverage lat0 lon0 g orbit r phase incl = .ok (total, cov, plf))
    (h' : s.calcCoverage lat1 lon1 g orbit' r' phase' incl' = .ok (total', cov', plf'))
    (hsep : ∀ m gr, (s.addFaculaeToMap lat0 lon0 = .ok m ∨ s.addFaculaeToMap lat1 lon1 = .ok m) → s.granulation = some gr → Apart (Set.range m ∪ {s.teff, s.teff - gr.dteff})) :
    ∃ x x' : ℤ → ℝ, (∀ k, entry total k = .fin (x k)) ∧ (∀ k, entry total' k = .fin (x' k)) ∧
      ∀ K : Finset ℤ, WholeFaculae s K → |∑ k ∈ K, x k - ∑ k ∈ K, x' k| ≤ 30 * greatCircle lat0 lon0 lat1 lon1 := by
  have hg : goodGrid s.grid := by rw [hgrid]; exact ⟨by omega, by omega⟩
  obtain ⟨a, ha, -⟩ := C02_area_partition s.grid hg
  have k1 := fine_light s hgrid hlat hlon hld a ha lat0 lon0
  have k2 := fine_light s hgrid hlat hlon hld a ha lat1 lon1
  obtain ⟨x, x', e1, e2, e3⟩ := C155_gradual s hg hs hfd hld a ha lat0 lon0 lat1 lon1 (by linarith) (by linarith) g orbit r phase incl
    orbit' r' phase' incl' hg01 total cov total' cov' plf plf' h h' hsep
  refine ⟨x, x', e1, e2, fun K hK => (e3 K hK).trans ?_⟩
  rw [div_le_iff₀ (by linarith)]
  have := greatCircle_nonneg lat0 lon0 lat1 lon1
  nlinarith


/-! ## A facula at the disk centre -/

/-- A facula with walls of 3100 K and a floor of 2900 K that covers two pixels, 30 degrees north and south of the equator. -/
def Spec.hillStar : Star := { sampleStar (.rect 4 3) [] [sampleFacula (.rect 4 3)] with granulation := some ⟨0.2, 1, 1, 50⟩ }

theorem hillStar_placed : Placed hillStar := ⟨rfl, measured_new _ _, by simp [hillStar, sampleStar, sampleFacula]⟩

theorem hill_mu (lat0 : ℝ) (i : Fin 3) (j : Fin 4) : hillStar.mu lat0 0 (i, j) =
    sin lat0 * sin (-(π / 2) + j * (π / 3)) + cos lat0 * cos (-(π / 2) + j * (π / 3)) * cos (i * (2 * π / 3)) := by
  obtain ⟨h1, h2, -⟩ := (C01_rect_layout 4 3 (by norm_num)).2.2 i j
  change Grid.cosAngle lat0 0 ((Grid.rect 4 3).lat (i, j)) ((Grid.rect 4 3).lon (i, j)) = _
  simp only [Grid.cosAngle]
  rw [h1, h2]
  norm_num

/-- The pixels of the facula. -/
theorem hill_in (i : Fin 3) (j : Fin 4) : inFacula (sampleFacula (.rect 4 3)) 1 (.rect 4 3) (i, j) ↔ i = 0 ∧ (j = 1 ∨ j = 2) := by
  have hp := pi_gt_three
  have hp4 := pi_lt_d2
  have e0 : inFacula (sampleFacula (.rect 4 3)) 1 (.rect 4 3) (i, j) ↔ greatCircle 0 0 ((Grid.rect 4 3).lat (i, j)) ((Grid.rect 4 3).lon (i, j)) ≤ 1 := by
    unfold inFacula
    rw [haversine_eq]
    change Fl.fin _ ≤ Fl.fin 1 / .fin 1 ↔ _
    rw [Fl.fin_div one_ne_zero, Fl.fin_le, div_one]
    rfl
  have g1 := greatCircle_nonneg 0 0 ((Grid.rect 4 3).lat (i, j)) ((Grid.rect 4 3).lon (i, j))
  have g2 : greatCircle 0 0 ((Grid.rect 4 3).lat (i, j)) ((Grid.rect 4 3).lon (i, j)) ≤ π := InnerProductGeometry.angle_le_pi _ _
  have hc : cos (greatCircle 0 0 ((Grid.rect 4 3).lat (i, j)) ((Grid.rect 4 3).lon (i, j))) = cos (-(π / 2) + j * (π / 3)) * cos (i * (2 * π / 3)) := by
    rw [← (C03_mu_inner (.rect 4 3) 0 0 (i, j)).2.2.2, grid43_mu]
  rw [e0]
  set d := greatCircle 0 0 ((Grid.rect 4 3).lat (i, j)) ((Grid.rect 4 3).lon (i, j)) with hd
  have h3 : cos (-(π / 2) + π / 3) = √3 / 2 := by
    rw [show -(π / 2) + π / 3 = -(π / 6) by ring, cos_neg, cos_pi_div_six]
  have h3' : cos (-(π / 2) + 2 * (π / 3)) = √3 / 2 := by
    rw [show -(π / 2) + 2 * (π / 3) = π / 6 by ring, cos_pi_div_six]
  have h4 : cos (2 * π / 3) = -(1 / 2) := by
    rw [show 2 * π / 3 = π - π / 3 by ring, cos_pi_sub, cos_pi_div_three]
  have h5 : cos (2 * (2 * π / 3)) = -(1 / 2) := by
    rw [show 2 * (2 * π / 3) = π / 3 + π by ring, cos_add_pi, cos_pi_div_three]
  have h6 : cos (-(π / 2) + 3 * (π / 3)) = 0 := by
    rw [show -(π / 2) + 3 * (π / 3) = π / 2 by ring, cos_pi_div_two]
  have near : cos d = √3 / 2 → d ≤ 1 := fun h => by
    rw [← cos_pi_div_six] at h
    have := injOn_cos ⟨g1, g2⟩ ⟨by linarith, by linarith⟩ h
    linarith
  have far : cos d ≤ 0 → ¬ d ≤ 1 := fun h h' => by
    have := cos_pos_of_mem_Ioo (x := d) ⟨by linarith, by linarith⟩
    linarith
  have hs := sqrt_nonneg 3
  fin_cases j <;> fin_cases i <;> simp [h3, h3', h4, h5, h6] at hc ⊢
  all_goals first | exact near hc | exact not_le.mp (far (by rw [hc]; try nlinarith))

theorem overlap_pos {z : ℂ} (h : ‖z‖ < 2) : 0 < overlap z 1 := by
  have hsub : Metric.ball (z / 2) (1 - ‖z‖ / 2) ⊆ Metric.ball (0 : ℂ) 1 ∩ Metric.ball z 1 := by
    refine Set.subset_inter (Metric.ball_subset_ball' ?_) (Metric.ball_subset_ball' ?_)
    · rw [dist_zero_right, norm_div]
      simp
    · rw [dist_eq_norm, show z / 2 - z = -(z / 2) by ring, norm_neg, norm_div]
      simp
  have hfin : MeasureTheory.volume (Metric.ball (0 : ℂ) 1 ∩ Metric.ball z 1) ≠ ⊤ :=
    ((MeasureTheory.measure_mono Set.inter_subset_left).trans_lt MeasureTheory.measure_ball_lt_top).ne
  have := ENNReal.toReal_mono hfin (MeasureTheory.measure_mono hsub)
  rw [volume_ball_toReal _ (by linarith)] at this
  refine lt_of_lt_of_le ?_ this
  have : 0 < 1 - ‖z‖ / 2 := by linarith
  positivity

/-- The wall fraction of the facula of `hillStar` is below one. -/
theorem hill_share {ε : ℝ} (h0 : 0 ≤ ε) (h1 : ε ≤ 1 / 2) : wallShare (sampleFacula (.rect 4 3)) 1 ε < 1 := by
  have hp := pi_gt_three
  unfold wallShare
  rw [if_neg (by change ¬ (1 : ℝ) < 1 / 2; norm_num)]
  have ht0 : 0 ≤ tan ε := tan_nonneg_of_nonneg_of_le_pi_div_two h0 (by linarith)
  have ht : tan ε ≤ 1 := by
    rw [← tan_pi_div_four]
    rcases eq_or_lt_of_le (show ε ≤ π / 4 by linarith) with e | e
    · rw [e]
    · exact (tan_lt_tan_of_lt_of_lt_pi_div_two (by linarith) (by linarith) e).le
  have : 0 < overlap (⟨(sampleFacula (.rect 4 3)).depth / 1 * tan ε, 0⟩ : ℂ) 1 := by
    refine overlap_pos ?_
    have : (⟨(sampleFacula (.rect 4 3)).depth / 1 * tan ε, 0⟩ : ℂ) = ((tan ε : ℝ) : ℂ) := by
      apply Complex.ext
      · rw [Complex.ofReal_re]
        change 1 / 1 * tan ε = tan ε
        ring
      · rw [Complex.ofReal_im]
    rw [this, Complex.norm_real, norm_of_nonneg ht0]
    linarith
  have : 0 < overlap (⟨(sampleFacula (.rect 4 3)).depth / 1 * tan ε, 0⟩ : ℂ) 1 / (π * 1 ^ 2) := by positivity
  linarith

/-- The map of `hillStar`. -/
theorem hill_map {lat0 : ℝ} {m : hillStar.grid.Pix → ℝ} (hm : hillStar.addFaculaeToMap lat0 0 = .ok m) :
    ∃ b, ∀ p, (inFacula (sampleFacula (.rect 4 3)) 1 (.rect 4 3) p → m p = if hillStar.mu lat0 0 p ≤ b then 3100 else 2900) ∧
      (¬ inFacula (sampleFacula (.rect 4 3)) 1 (.rect 4 3) p → m p = 3000) := by
  classical
  have e := hm
  rw [addFaculaeToMap_eq _ hillStar_placed] at e
  refine ⟨borderOf hillStar lat0 0 (sampleFacula (.rect 4 3)), fun p => ?_⟩
  obtain ⟨b1, b2⟩ := foldlM_faculae hillStar lat0 0 _ hillStar_placed.2.2 _ m e p
  have hkeys := sampleFacula_keyvals (.rect 4 3)
  constructor
  · intro h
    have hl : lastAt hillStar.faculae.faculae hillStar.radius hillStar.grid p = some (sampleFacula (.rect 4 3)) := by
      change ([sampleFacula (.rect 4 3)].filter fun f => decide (inFacula f 1 (.rect 4 3) p)).getLast? = _
      rw [List.filter_cons_of_pos (by simpa using h)]
      rfl
    obtain ⟨kw, kf, r1, r2, v⟩ := b2 _ hl
    rw [wallDteff_eq (r := 1) rfl] at r1
    rw [floorDteff_eq (r := 1) rfl] at r2
    simp only [Helpers.roundTeff, Except.ok.injEq] at r1 r2
    have e1 : kw = 100 := by rw [← r1]; exact hkeys.1
    have e2 : kf = -100 := by rw [← r2]; exact hkeys.2
    rw [v, e1, e2]
    have e3 : hillStar.teff = 3000 := rfl
    rw [e3]
    congr 1 <;> norm_num [Helpers.clipTeff, Helpers.teffHigh, Helpers.teffLow]
  · intro h
    have hl : lastAt hillStar.faculae.faculae hillStar.radius hillStar.grid p = none := by
      change ([sampleFacula (.rect 4 3)].filter fun f => decide (inFacula f 1 (.rect 4 3) p)).getLast? = _
      rw [List.filter_cons_of_neg (by simpa using h)]
      rfl
    rw [b1 hl]
    rfl

theorem hill_answers {lat0 : ℝ} (h0 : 0 ≤ lat0) (h1 : lat0 ≤ 1 / 2) :
    ∃ total cov plf, hillStar.calcCoverage lat0 0 0.2 10 (1 / 2) (π / 2) 0 = .ok (total, cov, plf) := by
  have hp := pi_gt_three
  set s := hillStar with hs
  have hg : goodGrid s.grid := ⟨by show 3 ≤ 4; norm_num, by show 1 ≤ 3; norm_num⟩
  have hld : PhysicalLD s.u1 s.u2 := by simp [PhysicalLD, hs, hillStar, sampleStar]
  have hv : Visible s lat0 0 := visible_rect s rfl (by omega) (by omega) lat0 0
  obtain ⟨a, ha, -⟩ := C02_area_partition s.grid hg
  obtain ⟨-, hW⟩ := visible_pos s hg hld ha hv
  have hw : ∀ p, s.weight lat0 0 p = .fin (pixelWeight s a lat0 0 p) := weight_eq s a ha lat0 0
  have hpos : planetPos s.radius 10 (π / 2) 0 = ((planetPos s.radius 10 (π / 2) 0).1, (planetPos s.radius 10 (π / 2) 0).2) := rfl
  obtain ⟨total, cov, plf, h, -⟩ := C59_answers_partial s hg one_pos lat0 0 _ (by simp only [hw, Fl.sum_fin]) hW.ne' ⟨by linarith, by linarith⟩
    ⟨0.2, 1, 1, 50⟩ rfl rfl (measured_new _ _) (by
      intro f hf
      have : f = sampleFacula (.rect 4 3) := by simpa [hs, hillStar, sampleStar] using hf
      subst this
      refine ⟨rfl, ?_, 1, rfl, one_pos, sampleFacula_keys _⟩
      rw [← cos_greatCircle]
      rw [cos_greatCircle, cosDist, inner_unitVec]
      change sin lat0 * sin 0 + cos lat0 * cos 0 * cos (0 - 0) ≠ 0
      have := cos_pos_of_mem_Ioo (x := lat0) ⟨by linarith, by linarith⟩
      simp [this.ne'])
    (Or.inr ⟨((1 : Fin 3), (1 : Fin 4)), (by intro sp hsp; have : sp ∈ ([] : List StarSpot) := hsp; cases this), by
      intro f hf
      have : f = sampleFacula (.rect 4 3) := by simpa [hs, hillStar, sampleStar] using hf
      subst this
      intro h
      have := (hill_in 1 1).mp h
      simp at this⟩) 0.2 10 (1 / 2) (π / 2) 0 (by norm_num) _ _ hpos.symm (by simp)
  exact ⟨total, cov, _, h⟩

theorem hill_apart {lat0 : ℝ} {m : hillStar.grid.Pix → ℝ} (hm : hillStar.addFaculaeToMap lat0 0 = .ok m) : Apart (Set.range m ∪ {3000, 2950}) := by
  obtain ⟨b, hb⟩ := hill_map hm
  have : ∀ T ∈ Set.range m ∪ {(3000 : ℝ), 2950}, T = 3100 ∨ T = 2900 ∨ T = 3000 ∨ T = 2950 := by
    rintro T (⟨p, rfl⟩ | h)
    · by_cases hp : inFacula (sampleFacula (.rect 4 3)) 1 (.rect 4 3) p
      · rw [(hb p).1 hp]
        split_ifs <;> simp
      · rw [(hb p).2 hp]
        simp
    · rcases h with h | h
      · exact Or.inr (Or.inr (Or.inl h))
      · exact Or.inr (Or.inr (Or.inr h))
  intro T h T' h' hne
  rcases this T h with rfl | rfl | rfl | rfl <;> rcases this T' h' with rfl | rfl | rfl | rfl <;> first | exact absurd rfl hne | norm_num

theorem hill_mu_south (lat0 : ℝ) : hillStar.mu lat0 0 ((0 : Fin 3), (1 : Fin 4)) = cos (lat0 + π / 6) := by
  have h := hill_mu lat0 (0 : Fin 3) (1 : Fin 4)
  have e : -(π / 2) + (((1 : Fin 4) : ℕ) : ℝ) * (π / 3) = -(π / 6) := by norm_num; ring
  have e' : (((0 : Fin 3) : ℕ) : ℝ) * (2 * π / 3) = 0 := by norm_num
  rw [e, e', cos_zero, mul_one, sin_neg, cos_neg] at h
  rw [cos_add]
  refine h.trans ?_
  ring

theorem hill_mu_north (lat0 : ℝ) : hillStar.mu lat0 0 ((0 : Fin 3), (2 : Fin 4)) = cos (lat0 - π / 6) := by
  have h := hill_mu lat0 (0 : Fin 3) (2 : Fin 4)
  have e : -(π / 2) + (((2 : Fin 4) : ℕ) : ℝ) * (π / 3) = π / 6 := by norm_num; ring
  have e' : (((0 : Fin 3) : ℕ) : ℝ) * (2 * π / 3) = 0 := by norm_num
  rw [e, e', cos_zero, mul_one] at h
  rw [cos_sub]
  refine h.trans ?_
  ring

/-- The facula of `hillStar` covers two pixels. -/
theorem hill_pixels {pS pN : hillStar.grid.Pix} (hpS : pS = ((0 : Fin 3), (1 : Fin 4))) (hpN : pN = ((0 : Fin 3), (2 : Fin 4))) :
    faculaPixels hillStar (sampleFacula (.rect 4 3)) = {pS, pN} ∧ pS ≠ pN ∧ (faculaPixels hillStar (sampleFacula (.rect 4 3))).card = 2 := by
  classical
  have hS : faculaPixels hillStar (sampleFacula (.rect 4 3)) = {pS, pN} := by
    ext p
    have : p ∈ faculaPixels hillStar (sampleFacula (.rect 4 3)) ↔ inFacula (sampleFacula (.rect 4 3)) 1 (.rect 4 3) p := by
      unfold faculaPixels
      rw [Finset.mem_filter]
      exact and_iff_right (Finset.mem_univ _)
    rw [this, Finset.mem_insert, Finset.mem_singleton]
    obtain ⟨i, j⟩ := p
    refine (hill_in i j).trans ?_
    constructor
    · rintro ⟨rfl, rfl | rfl⟩
      · exact Or.inl hpS.symm
      · exact Or.inr hpN.symm
    · rintro (h | h)
      · obtain ⟨h1, h2⟩ := Prod.mk.inj (h.trans hpS)
        exact ⟨h1, Or.inl h2⟩
      · obtain ⟨h1, h2⟩ := Prod.mk.inj (h.trans hpN)
        exact ⟨h1, Or.inr h2⟩
  have hSN : pS ≠ pN := fun h => by
    have := (Prod.mk.inj (hpS.symm.trans (h.trans hpN))).2
    simp at this
  have hcard : (faculaPixels hillStar (sampleFacula (.rect 4 3))).card = 2 := by rw [hS]; exact Finset.card_pair hSN
  exact ⟨hS, hSN, hcard⟩

/-- Its temperatures and their fractions. -/
theorem hill_fraction {lat0 : ℝ} (h0 : 0 ≤ lat0) (h1 : lat0 ≤ 1 / 2) :
    (sampleFacula (.rect 4 3)).fractionalEffectiveArea (Helpers.angleBetween lat0 0 (sampleFacula (.rect 4 3)).lat (sampleFacula (.rect 4 3)).lon) =
      .ok [((100 : ℤ), .fin (wallShare (sampleFacula (.rect 4 3)) 1 lat0)), (-100, .fin (1 - wallShare (sampleFacula (.rect 4 3)) 1 lat0))] := by
  have hp := pi_gt_three
  have hang : greatCircle lat0 0 0 0 = lat0 := by
    rw [greatCircle_eq]
    simp only [sin_zero, mul_zero, cos_zero, mul_one, sub_self, zero_add]
    exact arccos_cos h0 (by linarith)
  have hcos : cos (greatCircle lat0 0 0 0) ≠ 0 := by
    rw [hang]
    exact (cos_pos_of_mem_Ioo ⟨by linarith, by linarith⟩).ne'
  have hkeys := sampleFacula_keyvals (.rect 4 3)
  rw [angleBetween_eq]
  have := fractional_cos (f := sampleFacula (.rect 4 3)) (r := 1) rfl one_pos (sampleFacula_keys _) hcos
  rw [hkeys.1, hkeys.2, hang] at this
  change Facula.fractionalEffectiveArea _ (.fin (greatCircle lat0 0 0 0)) = _
  rw [hang]
  exact this

/-- The map is what adding the facula makes. -/
theorem hill_add {lat0 : ℝ} {m : hillStar.grid.Pix → ℝ} (hm : hillStar.addFaculaeToMap lat0 0 = .ok m) :
    ∃ cur, hillStar.addFacula lat0 0 cur (sampleFacula (.rect 4 3)) = .ok m := by
  have e := hm
  rw [addFaculaeToMap_eq _ hillStar_placed] at e
  change List.foldlM _ _ [sampleFacula (.rect 4 3)] = _ at e
  rw [List.foldlM_cons] at e
  generalize (fun p => List.foldl (fun c sp => SpotCollection.overlay id sp.teffUmbra sp.teffPenumbra (inUmbra sp hillStar.grid hillStar.radius p)
    (inSpot sp hillStar.grid hillStar.radius p) c) hillStar.teff hillStar.spots.spots) = cur at e
  refine ⟨cur, ?_⟩
  cases hq : hillStar.addFacula lat0 0 cur (sampleFacula (.rect 4 3)) with
  | error err => rw [hq] at e; cases e
  | ok m' => rw [hq] at e; exact e

/-- Wall pixels of `hillStar`. -/
theorem hill_walls {lat0 : ℝ} (h0 : 0 ≤ lat0) (h1 : lat0 ≤ 1 / 2) {m : hillStar.grid.Pix → ℝ} (hm : hillStar.addFaculaeToMap lat0 0 = .ok m) :
    (lat0 = 0 → m ((0 : Fin 3), (1 : Fin 4)) = 3100 ∧ m ((0 : Fin 3), (2 : Fin 4)) = 3100) ∧ (0 < lat0 → m ((0 : Fin 3), (2 : Fin 4)) ≠ 3100) := by
  classical
  have hp := pi_gt_three
  obtain ⟨b, hb⟩ := hill_map hm
  set pS : hillStar.grid.Pix := ((0 : Fin 3), (1 : Fin 4)) with hpS
  set pN : hillStar.grid.Pix := ((0 : Fin 3), (2 : Fin 4)) with hpN
  have inS : inFacula (sampleFacula (.rect 4 3)) 1 (.rect 4 3) pS := (hill_in 0 1).mpr ⟨rfl, Or.inl rfl⟩
  have inN : inFacula (sampleFacula (.rect 4 3)) 1 (.rect 4 3) pN := (hill_in 0 2).mpr ⟨rfl, Or.inr rfl⟩
  have muS : hillStar.mu lat0 0 pS = cos (lat0 + π / 6) := hill_mu_south lat0
  have muN : hillStar.mu lat0 0 pN = cos (lat0 - π / 6) := hill_mu_north lat0
  obtain ⟨hS, hSN, hcard⟩ := hill_pixels hpS hpN
  obtain ⟨cur, hadd⟩ := hill_add hm
  have hfr := hill_fraction h0 h1
  have e31 : Helpers.clipTeff (((100 : ℤ) : ℝ) + hillStar.teff) = 3100 := by
    change Helpers.clipTeff (((100 : ℤ) : ℝ) + 3000) = 3100
    norm_num [Helpers.clipTeff, Helpers.teffHigh, Helpers.teffLow]
  have e29 : Helpers.clipTeff (((-100 : ℤ) : ℝ) + hillStar.teff) = 2900 := by
    change Helpers.clipTeff (((-100 : ℤ) : ℝ) + 3000) = 2900
    norm_num [Helpers.clipTeff, Helpers.teffHigh, Helpers.teffLow]
  obtain ⟨p₀, w1, w2, w3, w4⟩ := C154_walls hillStar lat0 0 cur m (sampleFacula (.rect 4 3)) rfl 100 (-100) _ _ hfr (by rw [e31, e29]; norm_num) ⟨pS, by rw [hS]; simp⟩ hadd
  rw [e31] at w1 w2 w4
  rw [hcard] at w4
  have hp₀ : p₀ = pS ∨ p₀ = pN := by
    have := (Finset.mem_filter.mp w1).1
    rw [hS] at this
    simpa using this
  have hw₀ : m p₀ = 3100 := (Finset.mem_filter.mp w1).2
  have hb₀ : hillStar.mu lat0 0 p₀ ≤ b := by
    have h : m p₀ = if hillStar.mu lat0 0 p₀ ≤ b then 3100 else 2900 := by
      rcases hp₀ with rfl | rfl
      · exact (hb _).1 inS
      · exact (hb _).1 inN
    by_contra hn
    rw [if_neg hn, hw₀] at h
    norm_num at h
  refine ⟨fun hz => ?_, fun hz hN => ?_⟩
  · have e : hillStar.mu lat0 0 pS = hillStar.mu lat0 0 pN := by rw [muS, muN, hz, zero_add, zero_sub, cos_neg]
    have hb1 : hillStar.mu lat0 0 pS ≤ b := by
      rcases hp₀ with rfl | rfl
      · exact hb₀
      · rw [e]; exact hb₀
    exact ⟨by rw [(hb _).1 inS, if_pos hb1], by rw [(hb _).1 inN, if_pos (e ▸ hb1)]⟩
  · have hlt : hillStar.mu lat0 0 pS < hillStar.mu lat0 0 pN := by
      rw [muS, muN, ← cos_abs (lat0 - π / 6)]
      refine cos_lt_cos_of_nonneg_of_le_pi (abs_nonneg _) (by linarith) ?_
      rw [abs_lt]
      constructor <;> linarith
    have hNw : pN ∈ (faculaPixels hillStar (sampleFacula (.rect 4 3))).filter fun p => m p = 3100 := Finset.mem_filter.mpr ⟨by rw [hS]; simp, hN⟩
    have hbN : hillStar.mu lat0 0 pN ≤ hillStar.mu lat0 0 p₀ := w2 pN hNw
    have hmS : m pS = 3100 := by rw [(hb _).1 inS, if_pos (hlt.le.trans (hbN.trans hb₀))]
    have hmem : pS ∈ ((faculaPixels hillStar (sampleFacula (.rect 4 3))).filter fun p => m p = 3100).filter fun p => hillStar.mu lat0 0 p < hillStar.mu lat0 0 p₀ :=
      Finset.mem_filter.mpr ⟨Finset.mem_filter.mpr ⟨by rw [hS]; simp, hmS⟩, hlt.trans_le hbN⟩
    have hc1 : (1 : ℝ) ≤ ((((faculaPixels hillStar (sampleFacula (.rect 4 3))).filter fun p => m p = 3100).filter fun p => hillStar.mu lat0 0 p < hillStar.mu lat0 0 p₀).card : ℝ) := by
      exact_mod_cast Finset.card_pos.mpr ⟨pS, hmem⟩
    have := hill_share h0 h1
    norm_num at w4
    linarith

/-- **C155** (what is excluded) For a single temperature of a facula the report need not change gradually: the observer moves by an arbitrarily small
angle `ε`, and the reported coverage of the walls drops from everything to at most half. -/
theorem C155_jump (ε : ℝ) (h0 : 0 < ε) (h1 : ε ≤ 1 / 2) :
    ∃ total cov plf total' cov' plf' x, hillStar.calcCoverage 0 0 0.2 10 (1 / 2) (π / 2) 0 = .ok (total, cov, plf) ∧
      hillStar.calcCoverage ε 0 0.2 10 (1 / 2) (π / 2) 0 = .ok (total', cov', plf') ∧ entry total 310000 = .fin 1 ∧ entry total' 310000 = .fin x ∧ x ≤ 1 / 2 := by
  classical
  have hp := pi_gt_three
  obtain ⟨total, cov, plf, h⟩ := hill_answers le_rfl (by norm_num)
  obtain ⟨total', cov', plf', h'⟩ := hill_answers h0.le h1
  obtain ⟨m, mask, gr, e1, ht, hgr, r1, -⟩ := calcCoverage_ok.mp h
  obtain ⟨m', mask', gr', e2, ht', hgr', r2, -⟩ := calcCoverage_ok.mp h'
  have q1 : (⟨0.2, 1, 1, 50⟩ : Granulation) = gr := Option.some.inj hgr
  have q2 : (⟨0.2, 1, 1, 50⟩ : Granulation) = gr' := Option.some.inj hgr'
  subst q1
  subst q2
  have eG : hillStar.teff - (50 : ℝ) = 2950 := by change (3000 : ℝ) - 50 = 2950; norm_num
  have hg : goodGrid hillStar.grid := ⟨by show 3 ≤ 4; norm_num, by show 1 ≤ 3; norm_num⟩
  have hld : PhysicalLD hillStar.u1 hillStar.u2 := by simp [PhysicalLD, hillStar, sampleStar]
  obtain ⟨hj, hJ, hN, ha⟩ := jac_facts hillStar.grid hg
  have hq : ∀ x, quadraticLaw hillStar.u1 hillStar.u2 x = 1 := fun x => by simp [quadraticLaw, hillStar, sampleStar]
  have key31 : Star.key 3100 = 310000 := by have := key_int 3100; norm_num at this; exact this
  have key30 : Star.key 3000 = 300000 := by have := key_int 3000; norm_num at this; exact this
  have key29 : Star.key 2900 = 290000 := by have := key_int 2900; norm_num at this; exact this
  have key2 : Star.key 2950 = 295000 := by have := key_int 2950; norm_num at this; exact this
  have hlab : ∀ (lat0 : ℝ) (m : hillStar.grid.Pix → ℝ), hillStar.addFaculaeToMap lat0 0 = .ok m → ∀ p, (Star.key (m p) = 310000 ↔ m p = 3100) ∧
      (m p = 3100 → inFacula (sampleFacula (.rect 4 3)) 1 (.rect 4 3) p) := by
    intro lat0 m hm p
    obtain ⟨b, hb⟩ := hill_map hm
    by_cases hin : inFacula (sampleFacula (.rect 4 3)) 1 (.rect 4 3) p
    · refine ⟨?_, fun _ => hin⟩
      rw [(hb p).1 hin]
      split_ifs
      · simp [key31]
      · rw [key29]; norm_num
    · rw [(hb p).2 hin, key30]
      norm_num
  have ent : ∀ (lat0 : ℝ) (m : hillStar.grid.Pix → ℝ) (d : Dict ℤ Fl), hillStar.addFaculaeToMap lat0 0 = .ok m →
      Star.granulate (hillStar.rawData lat0 0 m (fun _ => .fin 1) (hillStar.teff - 50)) (Star.key hillStar.teff) (Star.key (hillStar.teff - 50)) 0.2 = .ok d →
      entry d 310000 = .fin (labelShare (pixelWeight hillStar (fun p => jac hillStar.grid p / ∑ q, jac hillStar.grid q) lat0 0) m (fun _ => 1) 310000) := by
    intro lat0 m d hm hd
    have hv : Visible hillStar lat0 0 := visible_rect hillStar rfl (by omega) (by omega) lat0 0
    obtain ⟨-, hW⟩ := visible_pos hillStar hg hld ha hv
    have := entry_of_apart (c := fun _ => 1) (weight_eq hillStar _ ha lat0 0) hW.ne' hd (by rw [eG]; exact hill_apart hm) 310000
    rw [eG, key2, show hillStar.teff = 3000 from rfl, key30] at this
    rw [this]
    norm_num
    rfl
  refine ⟨total, cov, plf, total', cov', plf', _, h, h', ?_, ent ε m' total' e2 r2, ?_⟩
  · rw [ent 0 m total e1 r1, Fl.fin_inj]
    have hv : Visible hillStar 0 0 := visible_rect hillStar rfl (by omega) (by omega) 0 0
    obtain ⟨-, hW⟩ := visible_pos hillStar hg hld ha hv
    unfold labelShare
    rw [div_eq_one_iff_eq hW.ne']
    refine Finset.sum_congr rfl fun p _ => ?_
    obtain ⟨w1, w2⟩ := (hill_walls le_rfl (by norm_num) e1).1 rfl
    by_cases hmu : 0 < hillStar.mu 0 0 p
    · have : m p = 3100 := by
        obtain ⟨i, j⟩ := p
        have hmu' := hmu
        rw [hill_mu, sin_zero, cos_zero, zero_mul, zero_add, one_mul] at hmu'
        have hi : i = 0 := by
          have hc : 0 ≤ cos (-(π / 2) + (j : ℕ) * (π / 3)) := by
            refine cos_nonneg_of_mem_Icc ⟨?_, ?_⟩
            · have : 0 ≤ ((j : ℕ) : ℝ) * (π / 3) := by positivity
              linarith
            · have : ((j : ℕ) : ℝ) ≤ 3 := by exact_mod_cast (by omega : (j : ℕ) ≤ 3)
              nlinarith
          have h4 : cos (2 * π / 3) = -(1 / 2) := by
            rw [show 2 * π / 3 = π - π / 3 by ring, cos_pi_sub, cos_pi_div_three]
          have h5 : cos (2 * (2 * π / 3)) = -(1 / 2) := by
            rw [cos_two_mul, h4]; norm_num
          fin_cases i
          · rfl
          · norm_num [h4] at hmu'
            linarith
          · norm_num [h5] at hmu'
            linarith
        subst hi
        fin_cases j
        · norm_num at hmu'
        · exact w1
        · exact w2
        · norm_num at hmu'
          rw [show -(π / 2) + 3 * (π / 3) = π / 2 by ring, cos_pi_div_two] at hmu'
          exact absurd hmu' (lt_irrefl _)
      rw [if_pos ((hlab 0 m e1 p).1.mpr this), mul_one]
    · rw [pixelWeight_back hillStar ha hmu]
      simp
  · have hv : Visible hillStar ε 0 := visible_rect hillStar rfl (by omega) (by omega) ε 0
    obtain ⟨hnn, hW⟩ := visible_pos hillStar hg hld ha hv
    have hN := (hill_walls h0.le h1 e2).2 h0
    set w := pixelWeight hillStar (fun p => jac hillStar.grid p / ∑ q, jac hillStar.grid q) ε 0 with hw
    let pS : hillStar.grid.Pix := ((0 : Fin 3), (1 : Fin 4))
    let pN : hillStar.grid.Pix := ((0 : Fin 3), (2 : Fin 4))
    have hSN : pS ≠ pN := fun h => by
      have := (Prod.mk.inj h).2
      simp at this
    have hSN' : w pS ≤ w pN := by
      have muS : hillStar.grid.mu ε 0 pS = cos (ε + π / 6) := hill_mu_south ε
      have muN : hillStar.grid.mu ε 0 pN = cos (ε - π / 6) := hill_mu_north ε
      have jS : jac hillStar.grid pS = jac hillStar.grid pN := by
        obtain ⟨l1, -⟩ := (C01_rect_layout 4 3 (by omega)).2.2 (0 : Fin 3) (1 : Fin 4)
        obtain ⟨l2, -⟩ := (C01_rect_layout 4 3 (by omega)).2.2 (0 : Fin 3) (2 : Fin 4)
        change cos ((Grid.rect 4 3).lat pS) = cos ((Grid.rect 4 3).lat pN)
        rw [show (Grid.rect 4 3).lat pS = -(π / 6) from l1.trans (by norm_num; ring), show (Grid.rect 4 3).lat pN = π / 6 from l2.trans (by norm_num; ring), cos_neg]
      rw [hw]
      unfold pixelWeight
      beta_reduce
      rw [hq, hq, muS, muN, jS]
      have : cos (ε + π / 6) ≤ cos (ε - π / 6) := by
        rw [← cos_abs (ε - π / 6)]
        refine cos_le_cos_of_nonneg_of_le_pi (abs_nonneg _) (by linarith) ?_
        rw [abs_le]
        constructor <;> linarith
      have h0J : 0 ≤ jac hillStar.grid pN / ∑ q, jac hillStar.grid q := div_nonneg (hj _).1 (Finset.sum_nonneg fun q _ => (hj q).1)
      gcongr
    have hsum : ∑ p, (if Star.key (m' p) = 310000 then w p * 1 else 0) ≤ w pS := by
      have : w pS = ∑ p, if p = pS then w p else 0 := by rw [Finset.sum_ite_eq' Finset.univ pS w, if_pos (Finset.mem_univ _)]
      rw [this]
      refine Finset.sum_le_sum fun p _ => ?_
      by_cases hk : Star.key (m' p) = 310000
      · have h3 := (hlab ε m' e2 p).1.mp hk
        have hin := (hlab ε m' e2 p).2 h3
        have : p = pS := by
          obtain ⟨i, j⟩ := p
          obtain ⟨rfl, rfl | rfl⟩ := (hill_in i j).mp hin
          · rfl
          · exact absurd h3 hN
        rw [if_pos hk, if_pos this, mul_one]
      · rw [if_neg hk]
        split_ifs
        · exact hnn p
        · exact le_rfl
    have htwo : w pS + w pN ≤ ∑ p, w p := by
      rw [← Finset.sum_pair hSN]
      exact Finset.sum_le_sum_of_subset_of_nonneg (Finset.subset_univ _) fun p _ _ => hnn p
    unfold labelShare
    rw [div_le_iff₀ hW]
    linarith

/-- **C154** (the extreme case) At the disk centre the fraction of the walls is zero, and yet the whole facula is painted as wall: its two pixels are equally
far from the disk centre, and the innermost of them is always a wall. -/
theorem C154_all_walls : ∃ cur m, hillStar.addFacula 0 0 cur (sampleFacula (.rect 4 3)) = .ok m ∧
    (sampleFacula (.rect 4 3)).fractionalEffectiveArea (Helpers.angleBetween 0 0 (sampleFacula (.rect 4 3)).lat (sampleFacula (.rect 4 3)).lon) = .ok [((100 : ℤ), .fin 0), (-100, .fin 1)] ∧
    (faculaPixels hillStar (sampleFacula (.rect 4 3))).card = 2 ∧ ∀ p ∈ faculaPixels hillStar (sampleFacula (.rect 4 3)), m p = 3100 := by
  obtain ⟨total, cov, plf, h⟩ := hill_answers le_rfl (by norm_num)
  obtain ⟨m, mask, gr, e1, -⟩ := calcCoverage_ok.mp h
  obtain ⟨cur, hadd⟩ := hill_add e1
  obtain ⟨w1, w2⟩ := (hill_walls le_rfl (by norm_num) e1).1 rfl
  obtain ⟨pS, hpS⟩ : ∃ q : hillStar.grid.Pix, q = ((0 : Fin 3), (1 : Fin 4)) := ⟨_, rfl⟩
  obtain ⟨pN, hpN⟩ : ∃ q : hillStar.grid.Pix, q = ((0 : Fin 3), (2 : Fin 4)) := ⟨_, rfl⟩
  obtain ⟨hS, -, hc⟩ := hill_pixels hpS hpN
  rw [← hpS] at w1
  rw [← hpN] at w2
  have hz : wallShare (sampleFacula (.rect 4 3)) 1 0 = 0 := by
    unfold wallShare
    rw [if_neg (by change ¬ (1 : ℝ) < 1 / 2; norm_num), tan_zero, mul_zero, overlap_inside zero_le_one (by
      rw [show (⟨0, 0⟩ : ℂ) = 0 from rfl]; simp)]
    rw [div_self (by positivity), sub_self]
  have hfr := hill_fraction le_rfl (show (0 : ℝ) ≤ 1 / 2 by norm_num)
  rw [hz, sub_zero] at hfr
  refine ⟨cur, m, hadd, hfr, hc, fun p hp => ?_⟩
  rw [hS, Finset.mem_insert, Finset.mem_singleton] at hp
  rcases hp with rfl | rfl
  · exact w1
  · exact w2

/-- C154 applied: seen from latitude 1/2, one of the two pixels of the facula of `hillStar` is a wall. -/
example : ∃ cur m, hillStar.addFacula (1 / 2) 0 cur (sampleFacula (.rect 4 3)) = .ok m ∧
    1 ≤ ((faculaPixels hillStar (sampleFacula (.rect 4 3))).filter fun p => m p = 3100).card ∧ m ((0 : Fin 3), (2 : Fin 4)) ≠ 3100 := by
  obtain ⟨total, cov, plf, h⟩ := hill_answers (show (0 : ℝ) ≤ 1 / 2 by norm_num) le_rfl
  obtain ⟨m, mask, gr, e1, -⟩ := calcCoverage_ok.mp h
  obtain ⟨cur, hadd⟩ := hill_add e1
  have hfr := hill_fraction (show (0 : ℝ) ≤ 1 / 2 by norm_num) le_rfl
  have e31 : Helpers.clipTeff (((100 : ℤ) : ℝ) + hillStar.teff) = 3100 := by
    change Helpers.clipTeff (((100 : ℤ) : ℝ) + 3000) = 3100
    norm_num [Helpers.clipTeff, Helpers.teffHigh, Helpers.teffLow]
  have e29 : Helpers.clipTeff (((-100 : ℤ) : ℝ) + hillStar.teff) = 2900 := by
    change Helpers.clipTeff (((-100 : ℤ) : ℝ) + 3000) = 2900
    norm_num [Helpers.clipTeff, Helpers.teffHigh, Helpers.teffLow]
  have := (C154_share hillStar (1 / 2) 0 cur m (sampleFacula (.rect 4 3)) rfl 100 (-100) _ _ hfr (by rw [e31, e29]; norm_num)
    (Finset.card_pos.mp (by rw [(hill_pixels rfl rfl).2.2]; norm_num)) (wallShare_mem _ _ _) hadd).1
  rw [e31] at this
  exact ⟨cur, m, hadd, this, (hill_walls (by norm_num) le_rfl e1).2 (by norm_num)⟩

/-- C155 applied: the fractions of `{3000 K}` (here: the photosphere without its granules) and of `{3100 K, 2900 K}` that two observers of `hillStar` report. -/
example : ∃ C : ℝ, ∀ ε, 0 ≤ ε → ε ≤ 1 / 2 → ∃ total cov plf total' cov' plf', hillStar.calcCoverage 0 0 0.2 10 (1 / 2) (π / 2) 0 = .ok (total, cov, plf) ∧
    hillStar.calcCoverage ε 0 0.2 10 (1 / 2) (π / 2) 0 = .ok (total', cov', plf') ∧
    ∃ x x' : ℤ → ℝ, (∀ k, entry total k = .fin (x k)) ∧ (∀ k, entry total' k = .fin (x' k)) ∧ |x 310000 + x 290000 - (x' 310000 + x' 290000)| ≤ C * ε := by
  refine ⟨3 / ∑ p, pixelWeight hillStar (fun p => jac hillStar.grid p / ∑ q, jac hillStar.grid q) 0 0 p, fun ε h0 h1 => ?_⟩
  have hp := pi_gt_three
  obtain ⟨total, cov, plf, h⟩ := hill_answers le_rfl (by norm_num)
  obtain ⟨total', cov', plf', h'⟩ := hill_answers h0 h1
  have hg : goodGrid hillStar.grid := ⟨by show 3 ≤ 4; norm_num, by show 1 ≤ 3; norm_num⟩
  have hld : PhysicalLD hillStar.u1 hillStar.u2 := by simp [PhysicalLD, hillStar, sampleStar]
  obtain ⟨-, -, -, ha⟩ := jac_facts hillStar.grid hg
  have hv : ∀ l, Visible hillStar l 0 := fun l => visible_rect hillStar rfl (by omega) (by omega) l 0
  have eG : ∀ gr, hillStar.granulation = some gr → hillStar.teff - gr.dteff = 2950 := by
    intro gr hgr
    have q : (⟨0.2, 1, 1, 50⟩ : Granulation) = gr := Option.some.inj hgr
    subst q
    change (3000 : ℝ) - 50 = 2950
    norm_num
  have key31 : Star.key 3100 = 310000 := by have := key_int 3100; norm_num at this; exact this
  have key30 : Star.key 3000 = 300000 := by have := key_int 3000; norm_num at this; exact this
  have key29 : Star.key 2900 = 290000 := by have := key_int 2900; norm_num at this; exact this
  have e31 : Helpers.clipTeff (((100 : ℤ) : ℝ) + hillStar.teff) = 3100 := by
    change Helpers.clipTeff (((100 : ℤ) : ℝ) + 3000) = 3100
    norm_num [Helpers.clipTeff, Helpers.teffHigh, Helpers.teffLow]
  have e29 : Helpers.clipTeff (((-100 : ℤ) : ℝ) + hillStar.teff) = 2900 := by
    change Helpers.clipTeff (((-100 : ℤ) : ℝ) + 3000) = 2900
    norm_num [Helpers.clipTeff, Helpers.teffHigh, Helpers.teffLow]
  have hk : ∀ f ∈ hillStar.faculae.faculae, (∀ k, Helpers.roundTeff f.wallDteff = .ok k → k = 100) ∧ ∀ k, Helpers.roundTeff f.floorDteff = .ok k → k = -100 := by
    intro f hf
    have : f = sampleFacula (.rect 4 3) := by simpa [hillStar, sampleStar] using hf
    subst this
    have hkeys := sampleFacula_keyvals (.rect 4 3)
    constructor
    · intro k hk
      rw [wallDteff_eq (r := 1) rfl] at hk
      simp only [Helpers.roundTeff, Except.ok.injEq] at hk
      rw [← hk]
      exact hkeys.1
    · intro k hk
      rw [floorDteff_eq (r := 1) rfl] at hk
      simp only [Helpers.roundTeff, Except.ok.injEq] at hk
      rw [← hk]
      exact hkeys.2
  obtain ⟨x, x', q1, q2, q3⟩ := C155_gradual hillStar hg hillStar_placed (by
      intro f hf k hk'
      have : k = 100 ∨ k = -100 := hk'.imp ((hk f hf).1 k) ((hk f hf).2 k)
      rcases this with rfl | rfl
      · rw [e31, key31, show hillStar.teff = 3000 from rfl, key30]; norm_num
      · rw [e29, key29, show hillStar.teff = 3000 from rfl, key30]; norm_num) hld _ ha 0 0 ε 0
    (visible_pos hillStar hg hld ha (hv 0)).2 (visible_pos hillStar hg hld ha (hv ε)).2 _ _ _ _ _ _ _ _ _ (by norm_num) total cov total' cov' plf plf' h h' (by
      intro m gr hm hgr
      rw [eG gr hgr]
      rcases hm with hm | hm
      · exact hill_apart hm
      · exact hill_apart hm)
  refine ⟨total, cov, plf, total', cov', plf', h, h', x, x', q1, q2, ?_⟩
  have := q3 {310000, 290000} (by
    intro f hf kw kf h1 h2
    rw [(hk f hf).1 kw h1, (hk f hf).2 kf h2, e31, e29, key31, key29]
    simp)
  rw [Finset.sum_pair (by norm_num), Finset.sum_pair (by norm_num)] at this
  refine this.trans (le_of_eq ?_)
  have : greatCircle 0 0 ε 0 = ε := by
    rw [greatCircle_eq]
    simp only [sin_zero, zero_mul, cos_zero, one_mul, sub_self, zero_add, mul_one]
    exact arccos_cos h0 (by linarith)
  rw [this, mul_div_right_comm]

end Vsm
