import Verif.Props.FarSide

/-!
# C147: averages over one rotation
-/

noncomputable section
namespace Vsm
open Real Np Spec

open Classical in
/-- The part of the parallel through a pixel that has temperature `T`. -/
def Spec.parallelPart (g : Grid) (m : g.Pix → ℝ) (T : ℝ) (p : g.Pix) : ℝ :=
  (Finset.univ.filter fun q => g.lat q = g.lat p ∧ m q = T).card / (Finset.univ.filter fun q => g.lat q = g.lat p).card

/-- The light of every pixel, given to `T` in proportion to the part of its parallel that has this temperature. -/
def Spec.parallelMean (s : Star) (a : s.grid.Pix → ℝ) (lat0 lon0 : ℝ) (m : s.grid.Pix → ℝ) (T : ℝ) : ℝ :=
  (∑ p, pixelWeight s a lat0 lon0 p * parallelPart s.grid m T p) / ∑ p, pixelWeight s a lat0 lon0 p

theorem rect_lat_inj {nlat nlon : ℕ} (h : 2 ≤ nlat) {p q : (Grid.rect nlat nlon).Pix} (e : (Grid.rect nlat nlon).lat p = (Grid.rect nlat nlon).lat q) :
    p.2 = q.2 := by
  obtain ⟨i, j⟩ := p
  obtain ⟨i', j'⟩ := q
  obtain ⟨h1, -, -⟩ := (C01_rect_layout nlat nlon h).2.2 i j
  obtain ⟨h2, -, -⟩ := (C01_rect_layout nlat nlon h).2.2 i' j'
  rw [h1, h2] at e
  have hn : (0 : ℝ) < nlat - 1 := by
    have : (2 : ℝ) ≤ nlat := by exact_mod_cast h
    linarith
  have hpi := pi_pos
  field_simp at e
  have : ((j : ℕ) : ℝ) = ((j' : ℕ) : ℝ) := by nlinarith
  exact Fin.ext (by exact_mod_cast this)

theorem sum_steps {nlat nlon : ℕ} [NeZero nlon] (F : (Grid.rect nlat nlon).Pix → ℝ) (i : Fin nlon) (j : Fin nlat) :
    ∑ k ∈ Finset.range nlon, F (stepEquiv nlat nlon k (i, j)) = ∑ i', F (i', j) := by
  rw [Finset.sum_range]
  have h : ∀ k : Fin nlon, stepEquiv nlat nlon k (i, j) = (i + k, j) := by
    intro k
    simp only [stepEquiv, Equiv.prodCongr_apply, Prod.map, Equiv.coe_addRight, Equiv.refl_apply]
    congr 2
    exact Fin.ofNat_val_eq_self k
  simp only [h]
  exact Equiv.sum_comp (Equiv.addLeft i) fun i' => F (i', j)

theorem parallel_count {nlat nlon : ℕ} [NeZero nlon] (hlat : 2 ≤ nlat) (m : (Grid.rect nlat nlon).Pix → ℝ) (T : ℝ) (i : Fin nlon) (j : Fin nlat) :
    parallelPart (Grid.rect nlat nlon) m T (i, j) = (∑ i', if m (i', j) = T then (1 : ℝ) else 0) / nlon := by
  classical
  unfold parallelPart
  have hl : ∀ q : (Grid.rect nlat nlon).Pix, (Grid.rect nlat nlon).lat q = (Grid.rect nlat nlon).lat (i, j) ↔ q.2 = j :=
    fun q => ⟨fun h => rect_lat_inj hlat h, fun h => by obtain ⟨i', j'⟩ := q; simp only at h; subst h; rfl⟩
  have h1 : (Finset.univ.filter fun q : (Grid.rect nlat nlon).Pix => (Grid.rect nlat nlon).lat q = (Grid.rect nlat nlon).lat (i, j) ∧ m q = T).card =
      (Finset.univ.filter fun i' : Fin nlon => m (i', j) = T).card := by
    symm
    refine Finset.card_bij (fun i' _ => (i', j)) ?_ ?_ ?_
    · intro i' hi'
      rw [Finset.mem_filter] at hi' ⊢
      exact ⟨Finset.mem_univ _, (hl _).mpr rfl, hi'.2⟩
    · intro a _ b _ h
      exact (Prod.mk.inj h).1
    · rintro ⟨i', j'⟩ hq
      rw [Finset.mem_filter, hl] at hq
      obtain ⟨-, h, hm⟩ := hq
      simp only at h
      subst h
      exact ⟨i', Finset.mem_filter.mpr ⟨Finset.mem_univ _, hm⟩, rfl⟩
  have h2 : (Finset.univ.filter fun q : (Grid.rect nlat nlon).Pix => (Grid.rect nlat nlon).lat q = (Grid.rect nlat nlon).lat (i, j)).card = nlon := by
    refine Eq.trans (Eq.symm ?_) (Finset.card_fin nlon)
    refine Finset.card_bij (fun i' _ => (i', j)) ?_ ?_ ?_
    · intro i' _
      rw [Finset.mem_filter]
      exact ⟨Finset.mem_univ _, (hl _).mpr rfl⟩
    · intro a _ b _ h
      exact (Prod.mk.inj h).1
    · rintro ⟨i', j'⟩ hq
      rw [Finset.mem_filter, hl] at hq
      obtain ⟨-, h⟩ := hq
      simp only at h
      subst h
      exact ⟨i', Finset.mem_univ _, rfl⟩
  rw [h1, h2, Finset.sum_boole]

theorem sum_fin_list {n : ℕ} (f : ℕ → Fl) (x : ℕ → ℝ) (h : ∀ k < n, f k = .fin (x k)) : ∑ k ∈ Finset.range n, f k = .fin (∑ k ∈ Finset.range n, x k) := by
  induction n with
  | zero => rfl
  | succ n ih => rw [Finset.sum_range_succ, Finset.sum_range_succ, ih fun k hk => h k (by omega), h n (by omega), Fl.fin_add]

theorem mu_turned (nlat nlon k : ℕ) [NeZero nlon] (lat0 lon0 : ℝ) (p : (Grid.rect nlat nlon).Pix) :
    (Grid.rect nlat nlon).mu lat0 (lon0 + k * (2 * π / nlon)) (stepEquiv nlat nlon k p) = (Grid.rect nlat nlon).mu lat0 lon0 p := by
  obtain ⟨z, hz⟩ := stepEquiv_lon nlat nlon k p
  unfold Grid.mu Grid.cosAngle
  rw [stepEquiv_lat, hz]
  congr 2
  exact cos_turns (z := -z) (by push_cast; ring)

theorem mean_core {nlat nlon : ℕ} [NeZero nlon] (w : ℕ → (Grid.rect nlat nlon).Pix → ℝ) (w₀ m : (Grid.rect nlat nlon).Pix → ℝ)
    (hw : ∀ k p, w k (stepEquiv nlat nlon k p) = w₀ p) (κ : ℤ) :
    ∑ k ∈ Finset.range nlon, labelShare (w k) m (fun _ => 1) κ =
      (∑ p, w₀ p * ∑ i', if Star.key (m (i', p.2)) = κ then (1 : ℝ) else 0) / ∑ p, w₀ p := by
  have h1 : ∀ k, labelShare (w k) m (fun _ => 1) κ = (∑ p, w₀ p * if Star.key (m (stepEquiv nlat nlon k p)) = κ then (1 : ℝ) else 0) / ∑ p, w₀ p := by
    intro k
    unfold labelShare
    rw [← Equiv.sum_comp (stepEquiv nlat nlon k) (w k), ← Equiv.sum_comp (stepEquiv nlat nlon k)]
    simp only [hw, mul_one]
    congr 1
    refine Finset.sum_congr rfl fun p _ => ?_
    split_ifs <;> simp
  simp only [h1]
  rw [← Finset.sum_div, Finset.sum_comm]
  congr 1
  refine Finset.sum_congr rfl fun p _ => ?_
  rw [← Finset.mul_sum]
  congr 1
  exact sum_steps (fun q => if Star.key (m q) = κ then (1 : ℝ) else 0) p.1 p.2

theorem weight_turned (s : Star) {nlat nlon : ℕ} [NeZero nlon] (hgrid : s.grid = .rect nlat nlon) (a : s.grid.Pix → ℝ) (ha : ∀ p, s.grid.area p = .fin (a p)) (lat0 lon0 : ℝ) (k : ℕ) :
    ∑ p, pixelWeight s a lat0 (lon0 + k * (2 * π / nlon)) p = ∑ p, pixelWeight s a lat0 lon0 p := by
  obtain ⟨teff, radius, period, spots, faculae, grid, fg, sg, fcg, gr, u1, u2, fl⟩ := s
  simp only at hgrid
  subst hgrid
  rw [← Equiv.sum_comp (stepEquiv nlat nlon k)]
  refine Finset.sum_congr rfl fun p _ => ?_
  unfold pixelWeight
  have e1 := mu_turned nlat nlon k lat0 lon0 p
  have e2 : a (stepEquiv nlat nlon k p) = a p := by
    have := rect_area_lat (Or.inl (stepEquiv_lat nlat nlon k p))
    have h3 := ha (stepEquiv nlat nlon k p)
    have h4 := ha p
    simp only at h3 h4
    rw [this, h4, Fl.fin_inj] at h3
    exact h3.symm
  simp only [e1, e2]

/-- **C147** Averages over one rotation.  Look at a star without faculae on a rectangular grid with `nlon` longitudes from `nlon` directions that are one grid step apart, while a
planet moves in any way.  The fractions that are reported for a temperature are on average the fractions that would be reported if the light of every pixel were given to
the temperature in proportion to the part of the pixel's parallel that has this temperature, with the granulation fraction moved.  The
longitudes at which features sit do not enter. -/
theorem C147_rotation_mean (s : Star) (nlat nlon : ℕ) (hgrid : s.grid = .rect nlat nlon) (hlat : 3 ≤ nlat) (hlon : 1 ≤ nlon) (hs : Placed s)
    (hf : s.faculae.faculae = []) (a : s.grid.Pix → ℝ) (ha : ∀ p, s.grid.area p = .fin (a p)) (lat0 lon0 : ℝ)
    (hW : ∑ p, pixelWeight s a lat0 lon0 p ≠ 0) (g orbit r incl : ℝ) (phase : ℕ → ℝ)
    (total cov : ℕ → Dict ℤ Fl) (plf : ℕ → Fl)
    (h : ∀ k < nlon, s.calcCoverage lat0 (lon0 + k * (2 * π / nlon)) g orbit r (phase k) incl = .ok (total k, cov k, plf k))
    (m : s.grid.Pix → ℝ) (hm : s.addFaculaeToMap lat0 lon0 = .ok m) (G : ℝ) (hG : ∃ gr, s.granulation = some gr ∧ G = s.teff - gr.dteff)
    (hsep : Apart (Set.range m ∪ {s.teff, G})) :
    ∃ label : ℝ → ℤ, (∀ T, |(label T : ℝ) - 100 * T| ≤ 1 / 2) ∧ ∀ T ∈ Set.range m ∪ {s.teff, G},
      ∑ k ∈ Finset.range nlon, entry (total k) (label T) = .fin (nlon * (parallelMean s a lat0 lon0 m T +
        (if T = G then g * parallelMean s a lat0 lon0 m s.teff else 0) - (if T = s.teff then g * parallelMean s a lat0 lon0 m s.teff else 0))) := by
  have : NeZero nlon := ⟨by omega⟩
  have hn : (nlon : ℝ) ≠ 0 := Nat.cast_ne_zero.mpr (NeZero.ne nlon)
  refine ⟨Star.key, key_near, ?_⟩
  have hg : goodGrid s.grid := by rw [hgrid]; exact ⟨by omega, by omega⟩
  have hmap : ∀ lon, s.addFaculaeToMap lat0 lon = .ok m := by
    intro lon
    rw [← hm, addFaculaeToMap_eq s hs, addFaculaeToMap_eq s hs, hf]
    rfl
  have hinj : ∀ T ∈ Set.range m ∪ {s.teff, G}, ∀ p, Star.key (m p) = Star.key T ↔ m p = T := by
    intro T hT p
    exact ⟨fun hk => key_inj_of_sep (hsep _ (Or.inl ⟨p, rfl⟩) T hT) hk, fun h => by rw [h]⟩
  have hE : ∀ T ∈ Set.range m ∪ {s.teff, G}, ∑ k ∈ Finset.range nlon, labelShare (pixelWeight s a lat0 (lon0 + k * (2 * π / nlon))) m (fun _ => 1) (Star.key T) =
      nlon * parallelMean s a lat0 lon0 m T := by
    intro T hT
    have hinj' := hinj T hT
    clear hinj hsep hmap h hm hW hG
    obtain ⟨teff, radius, period, spots, faculae, grid, fg, sg, fcg, gr, u1, u2, fl⟩ := s
    simp only at hgrid
    subst hgrid
    have h1 := mean_core (nlat := nlat) (nlon := nlon) (fun k => pixelWeight ⟨teff, radius, period, spots, faculae, .rect nlat nlon, fg, sg, fcg, gr, u1, u2, fl⟩ a lat0 (lon0 + k * (2 * π / nlon)))
      (pixelWeight ⟨teff, radius, period, spots, faculae, .rect nlat nlon, fg, sg, fcg, gr, u1, u2, fl⟩ a lat0 lon0) m (fun k p => by
        unfold pixelWeight
        have e1 := mu_turned nlat nlon k lat0 lon0 p
        have e2 : a (stepEquiv nlat nlon k p) = a p := by
          have := rect_area_lat (Or.inl (stepEquiv_lat nlat nlon k p))
          have h3 := ha (stepEquiv nlat nlon k p)
          have h4 := ha p
          simp only at h3 h4
          rw [this, h4, Fl.fin_inj] at h3
          exact h3.symm
        simp only [e1, e2]) (Star.key T)
    refine h1.trans ?_
    unfold parallelMean
    rw [← mul_div_assoc, Finset.mul_sum]
    congr 1
    refine Finset.sum_congr rfl fun p _ => ?_
    have h2 := parallel_count (by omega : 2 ≤ nlat) m T p.1 p.2
    have h3 : parallelPart (Grid.rect nlat nlon) m T p = (∑ i', if Star.key (m (i', p.2)) = Star.key T then (1 : ℝ) else 0) / nlon := by
      rw [show p = (p.1, p.2) from rfl, h2]
      simp only [hinj']
    simp only
    rw [h3]
    field_simp
  have hsum : ∀ k : ℕ, ∑ p, pixelWeight s a lat0 (lon0 + k * (2 * π / nlon)) p = ∑ p, pixelWeight s a lat0 lon0 p := fun k => weight_turned s hgrid a ha lat0 lon0 k
  intro T hT
  have hk : ∀ k < nlon, entry (total k) (Star.key T) = .fin (labelShare (pixelWeight s a lat0 (lon0 + k * (2 * π / nlon))) m (fun _ => 1) (Star.key T) +
      (if T = G then g * labelShare (pixelWeight s a lat0 (lon0 + k * (2 * π / nlon))) m (fun _ => 1) (Star.key s.teff) else 0) -
      (if T = s.teff then g * labelShare (pixelWeight s a lat0 (lon0 + k * (2 * π / nlon))) m (fun _ => 1) (Star.key s.teff) else 0)) := by
    intro k hk
    obtain ⟨m', mask, gr, hm', -, hgr, h1, -⟩ := calcCoverage_ok.mp (h k hk)
    rw [hmap, Except.ok.injEq] at hm'
    subst hm'
    obtain ⟨gr', hgr', rfl⟩ := hG
    rw [hgr, Option.some.injEq] at hgr'
    subst hgr'
    have hT' : s.teff ∈ Set.range m ∪ {s.teff, s.teff - gr.dteff} := by simp
    have hG' : s.teff - gr.dteff ∈ Set.range m ∪ {s.teff, s.teff - gr.dteff} := by simp
    rw [entry_of_apart (c := fun _ => 1) (weight_eq s a ha _ _) (by rw [← hsum k] at hW; exact hW) h1 hsep]
    have k1 : Star.key T = Star.key (s.teff - gr.dteff) ↔ T = s.teff - gr.dteff :=
      ⟨key_inj_of_sep (hsep T hT _ hG'), fun h => by rw [h]⟩
    have k2 : Star.key T = Star.key s.teff ↔ T = s.teff := ⟨key_inj_of_sep (hsep T hT _ hT'), fun h => by rw [h]⟩
    simp only [k1, k2]
    rfl
  rw [sum_fin_list _ _ hk, Finset.sum_sub_distrib, Finset.sum_add_distrib, hE T hT]
  have hT' : s.teff ∈ Set.range m ∪ {s.teff, G} := by simp
  congr 1
  by_cases h1 : T = G <;> by_cases h2 : T = s.teff
  · simp only [if_pos h1, if_pos h2, ← Finset.mul_sum, hE _ hT']; ring
  · simp only [if_pos h1, if_neg h2, ← Finset.mul_sum, hE _ hT', Finset.sum_const_zero]; ring
  · simp only [if_neg h1, if_pos h2, ← Finset.mul_sum, hE _ hT', Finset.sum_const_zero]; ring
  · simp only [if_neg h1, if_neg h2, Finset.sum_const_zero]; ring

/-- Non-trivial instance of C147: a star with a spot over one half, seen from three directions on the equator; the three fractions at 2700 K add up to one. -/
example : ∃ (total cov : ℕ → Dict ℤ Fl) (plf : ℕ → Fl),
    (∀ k : ℕ, k < 3 → (halfStar []).calcCoverage 0 (0 + k * (2 * π / (3 : ℕ))) 0.2 10 (1 / 2) (π / 2) 0 = .ok (total k, cov k, plf k)) ∧
    entry (total 0) 270000 + entry (total 1) 270000 + entry (total 2) 270000 = .fin 1 := by
  have hall := fun k : ℕ => halfStar_answers [] (by simp) (0 + k * (2 * π / (3 : ℕ)))
  choose total cov plf h using hall
  refine ⟨total, cov, plf, fun k _ => h k, ?_⟩
  set s := halfStar [] with hs
  have hg : goodGrid s.grid := ⟨by omega, by omega⟩
  obtain ⟨a, ha, -⟩ := C02_area_partition s.grid hg
  obtain ⟨-, hW⟩ := visible_pos s hg (granStar_phys _ _ _) ha (visible_rect _ rfl (by omega) (by omega) 0 0)
  obtain ⟨label, hl, H⟩ := C147_rotation_mean s 4 3 rfl (by norm_num) (by norm_num) (halfStar_placed []) rfl a ha 0 0 hW.ne' _ _ _ _ (fun _ => π / 2) total cov plf
    (fun k _ => h k) _ halfStar_map 2900 ⟨_, rfl, by norm_num [hs, halfStar, granStar, sampleStar]⟩ (halfStar_apart _ halfStar_map)
  obtain ⟨-, ⟨p₀, hp₀⟩, -⟩ := halfStar_pixels
  have H := H 2700 (Or.inl ⟨p₀, by simp only [if_pos hp₀]⟩)
  have hlab : label 2700 = 270000 := by
    obtain ⟨h, h'⟩ := abs_le.mp (hl 2700)
    have e1 : (269999 : ℝ) < label 2700 := by linarith
    have e2 : (label 2700 : ℝ) < 270001 := by linarith
    have e1 : (269999 : ℤ) < label 2700 := by exact_mod_cast e1
    have e2 : label 2700 < (270001 : ℤ) := by exact_mod_cast e2
    omega
  rw [hlab] at H
  simp only [Finset.sum_range_succ, Finset.sum_range_zero] at H
  have hmean : parallelMean s a 0 0 (fun p => if 0 < (Grid.rect 4 3).mu 0 0 p then 2700 else 3000) 2700 = 1 / 3 := by
    unfold parallelMean
    rw [div_eq_iff hW.ne', Finset.mul_sum]
    refine Finset.sum_congr rfl fun p _ => ?_
    by_cases hp : 0 < (Grid.rect 4 3).mu 0 0 p
    · obtain ⟨i, j⟩ := p
      have h4 : cos (2 * π / 3) = -(1 / 2) := by
        rw [show 2 * π / 3 = π - π / 3 by ring, cos_pi_sub, cos_pi_div_three]
      have h5 : cos (2 * (2 * π / 3)) = -(1 / 2) := by rw [cos_two_mul, h4]; norm_num
      have c : ∀ i' : Fin 3, cos ((i' : ℕ) * (2 * π / 3)) = 1 ∨ cos ((i' : ℕ) * (2 * π / 3)) = -(1 / 2) := by
        intro i'
        fin_cases i'
        · left; simp
        · right; simp [h4]
        · right; simpa using h5
      have hpos : 0 < cos (-(π / 2) + (j : ℕ) * (π / 3)) := by
        have hj : (j : ℕ) < 4 := j.2
        have hge : 0 ≤ cos (-(π / 2) + (j : ℕ) * (π / 3)) := by
          have h3 : ((j : ℕ) : ℝ) ≤ 3 := by exact_mod_cast (by omega : (j : ℕ) ≤ 3)
          have h3' : (0 : ℝ) ≤ ((j : ℕ) : ℝ) := Nat.cast_nonneg _
          have := mul_nonneg h3' (by positivity : 0 ≤ π / 3)
          have := mul_le_mul_of_nonneg_right h3 (by positivity : 0 ≤ π / 3)
          exact cos_nonneg_of_mem_Icc ⟨by linarith, by linarith⟩
        rcases hge.lt_or_eq with h | h
        · exact h
        · rw [grid43_mu, ← h] at hp
          simp at hp
      have e := parallel_count (nlat := 4) (nlon := 3) (by norm_num) (fun p => if 0 < (Grid.rect 4 3).mu 0 0 p then (2700 : ℝ) else 3000) 2700 i j
      have e' : parallelPart s.grid (fun p => if 0 < (Grid.rect 4 3).mu 0 0 p then (2700 : ℝ) else 3000) 2700 (i, j) = 1 / 3 := by
        refine e.trans ?_
        simp only [grid43_mu]
        rw [Fin.sum_univ_three]
        have n0 : 0 < cos (-(π / 2) + (j : ℕ) * (π / 3)) * cos (((0 : Fin 3) : ℕ) * (2 * π / 3)) := by simpa using hpos
        have n1 : ¬ 0 < cos (-(π / 2) + (j : ℕ) * (π / 3)) * cos (((1 : Fin 3) : ℕ) * (2 * π / 3)) := by
          have : cos (((1 : Fin 3) : ℕ) * (2 * π / 3)) = -(1 / 2) := by simp [h4]
          rw [this]; linarith
        have n2 : ¬ 0 < cos (-(π / 2) + (j : ℕ) * (π / 3)) * cos (((2 : Fin 3) : ℕ) * (2 * π / 3)) := by
          have : cos (((2 : Fin 3) : ℕ) * (2 * π / 3)) = -(1 / 2) := by simpa using h5
          rw [this]; linarith
        rw [if_pos n0, if_neg n1, if_neg n2]
        norm_num
      rw [e']
      ring
    · have : pixelWeight s a 0 0 p = 0 := pixelWeight_back s ha hp
      rw [this]; simp
  rw [hmean, if_neg (by norm_num), if_neg (by norm_num [hs, halfStar, granStar, sampleStar])] at H
  have e0 : ∀ x : Fl, (0 : Fl) + x = x := fun x => zero_add x
  rw [e0] at H
  rw [H]
  norm_num

end Vsm
