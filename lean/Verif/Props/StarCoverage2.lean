import Verif.Props.StarCoverage

/-!
# Coverage: totality, refutations, average temperature (C57, C59, C65)
-/

noncomputable section

namespace Vsm

open Real Spec Np

/-! ## C59 -/

theorem map_exists {s : Star} (hgrid : s.spots.grid = s.grid) (hs : Measured s.spots) :
    ∃ m₀ : s.spots.grid.Pix → ℝ, s.map = .ok m₀ ∧
      ∀ p : s.grid.Pix, (∀ sp ∈ s.spots.spots, ¬ inSpot sp s.grid s.radius p ∧ ¬ inUmbra sp s.grid s.radius p) →
        m₀ (hgrid ▸ p) = s.teff := by
  refine ⟨_, mapFold_eq id s.radius s.spots.grid s.spots.spots hs _, ?_⟩
  obtain ⟨teff, radius, period, spots, faculae, grid, fg, sg, fcg, gr, u1, u2, fl⟩ := s
  simp only at hgrid
  subst hgrid
  intro p hp
  simp only at hp ⊢
  generalize spots.spots = l at hp
  induction l with
  | nil => rfl
  | cons sp l ih =>
    rw [List.foldl_cons]
    have h1 := hp sp (by simp)
    rw [show SpotCollection.overlay id sp.teffUmbra sp.teffPenumbra (inUmbra sp spots.grid radius p)
      (inSpot sp spots.grid radius p) teff = teff by
        unfold SpotCollection.overlay; rw [if_neg (fun h => h1.2 h.1), if_neg (fun h => h1.1 h.1)]]
    exact ih fun sp' h' => hp sp' (by simp [h'])

/-- **C59** (partial) `calc_coverage` returns a result with finite numbers only, whenever the disk has a non-zero
limb-darkened area, the spots and faculae live on the star's grid, every facula has positive radius, wall and floor temperatures that
do not round to the same number and a centre not exactly 90° from the sub-observer point, the planet is not
larger than the star during an eclipse, and either the granulation temperature equals the photosphere or some pixel (on either side)
is free of spots and faculae.
Missing: the remaining cases, where the code raises (`C59_counterexample`, `C59_counterexample_eclipse`). -/
theorem C59_answers_partial (s : Star) (hg : goodGrid s.grid) (hR : 0 < s.radius) (lat0 lon0 W : ℝ)
    (hW : ∑ p, s.weight lat0 lon0 p = .fin W) (hW0 : W ≠ 0) (h0 : lat0 ∈ Set.Icc (-(π / 2)) (π / 2))
    (gr : Granulation) (hgr : s.granulation = some gr) (hgrid : s.spots.grid = s.grid) (hs : Measured s.spots)
    (hf : ∀ f ∈ s.faculae.faculae, f.grid = s.grid ∧ cosDist lat0 lon0 f.lat f.lon ≠ 0 ∧
      ∃ r, f.radius = .fin r ∧ 0 < r ∧ wallKey f r ≠ floorKey f r)
    (hq : gr.dteff = 0 ∨ ∃ p, (∀ sp ∈ s.spots.spots, ¬ inSpot sp s.grid s.radius p ∧ ¬ inUmbra sp s.grid s.radius p) ∧
      ∀ f ∈ s.faculae.faculae, ¬ inFacula f s.radius s.grid p)
    (g orbit r phase incl : ℝ) (hr : 0 < r) (X Y : ℝ) (hXY : (X, Y) = planetPos s.radius orbit phase incl)
    (hpl : ¬ (0 < cos phase ∧ s.radius < r ∧ planetDist X Y 0 0 ≤ 1 + 2 * (r / s.radius))) :
    ∃ total cov plf, s.calcCoverage lat0 lon0 g orbit r phase incl = .ok (total, cov, .fin plf) ∧
      (∀ k v, (k, v) ∈ total ∨ (k, v) ∈ cov → ∃ x : ℝ, v = .fin x) := by
  obtain ⟨m₀, hm₀, hm₀'⟩ := map_exists hgrid hs
  obtain ⟨m, hm⟩ := C70_overlay_total s lat0 lon0 m₀ hgrid hm₀ hf
  have h64 := C64_planet_fraction s hg hR lat0 lon0 orbit r phase incl hr h0 X Y _ hXY rfl
  cases ht : s.transitMask lat0 lon0 orbit r phase incl with
  | error e => exact absurd ((h64.1 e).mp ht).2 hpl
  | ok res =>
  obtain ⟨mask, plf⟩ := res
  obtain ⟨v, rfl, -⟩ := h64.2 mask plf ht
  obtain ⟨c, rfl, -⟩ := mask_real hg hR.ne' h0 ht
  obtain ⟨a, ha, -⟩ := C02_area_partition s.grid hg
  have hw : ∀ p, s.weight lat0 lon0 p = .fin (pixelWeight s a lat0 lon0 p) := weight_eq s a ha lat0 lon0
  have hWw : ∑ p, pixelWeight s a lat0 lon0 p ≠ 0 := by
    simp only [hw, Fl.sum_fin, Fl.fin_inj] at hW
    rw [hW]; exact hW0
  -- the photosphere key exists
  have hkey : ∀ (c : s.grid.Pix → ℝ) (T : ℝ), (T = s.teff ∨ T = s.teff - gr.dteff) →
      Dict.get? (s.rawData lat0 lon0 m (fun p => .fin (c p)) (s.teff - gr.dteff)) (Star.key T) ≠ none := by
    classical
    intro c T hT
    rw [rawData_get? hw hWw]
    unfold rawVal
    split_ifs with hk
    · simp
    · have hmem : ∃ p, m p = T := by
        have hG : T = s.teff - gr.dteff → ∃ p, m p = T := by
          intro h; by_contra hc; push Not at hc; exact hk ⟨by rw [← h]; exact hc, by rw [h]⟩
        rcases hT with h | h
        · rcases hq with h' | ⟨p, hp1, hp2⟩
          · exact hG (by rw [h, h', sub_zero])
          · obtain ⟨b, hb⟩ := C40_overlay s lat0 lon0 m₀ hgrid hm₀ (fun f h => (hf f h).1) m hm
            refine ⟨p, ?_⟩
            rw [(hb p).1 (by unfold lastAt; rw [List.filter_eq_nil_iff.mpr (by simpa using hp2)]; rfl), hm₀' p hp1, h]
        · exact hG h
      have hmem := mem_uniqueTeffs.mpr hmem
      cases hfd : (Star.uniqueTeffs m).reverse.find? fun T' => decide (Star.key T' = Star.key T) with
      | none =>
        rw [List.find?_eq_none] at hfd
        exact absurd (hfd T (by simpa using hmem)) (by simp)
      | some T' => simp
  obtain ⟨total, h1⟩ := granulate_total g (hkey (fun _ => 1) _ (Or.inl rfl)) (hkey (fun _ => 1) _ (Or.inr rfl))
  obtain ⟨cov, h2⟩ := granulate_total g (hkey c _ (Or.inl rfl)) (hkey c _ (Or.inr rfl))
  refine ⟨total, cov, v, calcCoverage_ok.mpr ⟨m, _, gr, hm, ht, hgr, h1, h2⟩, ?_⟩
  have a1 := (granulate_sum (raw_allFin hw hWw m (fun _ => 1) _) h1).2
  have a2 := (granulate_sum (raw_allFin hw hWw m c _) h2).2
  rintro k v (h | h)
  · exact a1 v (List.mem_map.mpr ⟨_, h, rfl⟩)
  · exact a2 v (List.mem_map.mpr ⟨_, h, rfl⟩)

/-- Sample star (3000 K, radius 1 km) with granules cooler by `dteff`. -/
def Spec.granStar (g : Grid) (spots : List StarSpot) (dteff : ℝ) : Star :=
  { sampleStar g spots [] with granulation := some ⟨0.2, 1, 1, dteff⟩ }

theorem granStar_phys (g : Grid) (spots : List StarSpot) (dteff : ℝ) :
    PhysicalLD (granStar g spots dteff).u1 (granStar g spots dteff).u2 := by
  simp [PhysicalLD, granStar, sampleStar]

/-- A planet of half the star's radius beside the star, as in the default arguments of `calc_coverage`. -/
theorem beside (s : Star) (hs : s.radius = 1) (hg : goodGrid s.grid) (lat0 lon0 : ℝ) (h0 : lat0 ∈ Set.Icc (-(π / 2)) (π / 2)) :
    s.transitMask lat0 lon0 10 (1 / 2) (π / 2) 0 = .ok (fun _ => .fin 0, .fin 1) := by
  rw [transitMask_eq s hg (by rw [hs]; norm_num) _ _ _ _ _ _ h0, hs, if_pos]
  have e : planetPos 1 10 (π / 2) 0 = (-10, 0) := by
    simp only [planetPos]
    rw [show π / 2 - π = -(π / 2) by ring]
    simp
  rw [e]
  simp [planetDist]
  norm_num

theorem noFac_map {s : Star} (hgrid : s.spots.grid = s.grid) {m₀ : s.spots.grid.Pix → ℝ} (hm₀ : s.map = .ok m₀)
    (hf : s.faculae.faculae = []) (lat0 lon0 : ℝ) : s.addFaculaeToMap lat0 lon0 = .ok fun p => m₀ (hgrid ▸ p) := by
  unfold Star.addFaculaeToMap
  rw [hm₀, hf]
  have hon : Field.on ⟨s.spots.grid, m₀⟩ s.grid .indexError = .ok fun p => m₀ (hgrid ▸ p) := by
    unfold Field.on
    rw [dif_pos hgrid]
  change ((Field.on ⟨s.spots.grid, m₀⟩ s.grid .indexError) >>= _) = _
  rw [hon]
  rfl

theorem quiet_map (g : Grid) (dteff lat0 lon0 : ℝ) : (granStar g [] dteff).addFaculaeToMap lat0 lon0 = .ok fun _ => 3000 := by
  exact noFac_map (s := granStar g [] dteff) rfl rfl rfl lat0 lon0

theorem uniqueTeffs_const {ι : Type} [Fintype ι] [Nonempty ι] (T : ℝ) : Star.uniqueTeffs (fun _ : ι => T) = [T] := by
  classical
  have : (Finset.univ : Finset ι).image (fun _ => T) = {T} := Finset.image_const Finset.univ_nonempty T
  simp [Star.uniqueTeffs, this]

theorem key_int (n : ℤ) : Star.key n = 100 * n := by
  have := Np.roundHalfEven_int (100 * n)
  simpa [Star.key] using this

/-- **C57** is false in general: granules cooler by 0.001 K share the dict key of the photosphere, whose entry is
overwritten with 0; the fractions then add up to 0, for every observer of every such star without spots and faculae. -/
theorem C57_counterexample (nlat nlon : ℕ) (h1 : 4 ≤ nlat) (h2 : 3 ≤ nlon) (lat0 lon0 gran : ℝ)
    (h0 : lat0 ∈ Set.Icc (-(π / 2)) (π / 2)) :
    Visible (granStar (.rect nlat nlon) [] 0.001) lat0 lon0 ∧
    ∃ total cov plf, (granStar (.rect nlat nlon) [] 0.001).calcCoverage lat0 lon0 gran 10 (1 / 2) (π / 2) 0 =
      .ok (total, cov, plf) ∧ (Dict.values total).sum = .fin 0 := by
  set s := granStar (.rect nlat nlon) [] 0.001 with hs
  have hg : goodGrid s.grid := ⟨by omega, by omega⟩
  have hv : Visible s lat0 lon0 := visible_rect s rfl h1 h2 lat0 lon0
  refine ⟨hv, ?_⟩
  obtain ⟨a, ha, -⟩ := C02_area_partition s.grid hg
  obtain ⟨-, hW⟩ := visible_pos s hg (granStar_phys _ _ _) ha hv
  have hw : ∀ p, s.weight lat0 lon0 p = .fin (pixelWeight s a lat0 lon0 p) := weight_eq s a ha lat0 lon0
  have hkT : Star.key s.teff = 300000 := by
    have := key_int 3000
    norm_num at this
    exact this
  have hG : s.teff - 0.001 = 2999.999 := by
    have : s.teff = 3000 := rfl
    rw [this]; norm_num
  have hkG : Star.key 2999.999 = 300000 := by
    obtain ⟨h, h'⟩ := abs_le.mp (key_near 2999.999)
    have e1 : (299999 : ℝ) < Star.key 2999.999 := by linarith
    have e2 : (Star.key 2999.999 : ℝ) < 300001 := by linarith
    have e1 : (299999 : ℤ) < Star.key 2999.999 := by exact_mod_cast e1
    have e2 : Star.key 2999.999 < (300001 : ℤ) := by exact_mod_cast e2
    omega
  have : Nonempty s.grid.Pix := ⟨(⟨0, by omega⟩, ⟨0, by omega⟩)⟩
  have hraw : ∀ c : s.grid.Pix → Fl, s.rawData lat0 lon0 (fun _ => 3000) c 2999.999 = [(300000, .fin 0)] := by
    intro c
    unfold Star.rawData
    rw [uniqueTeffs_const]
    have hne : ¬ ((2999.999 : ℝ) ∈ [(3000 : ℝ)]) := by simp; norm_num
    rw [if_neg hne, hkG]
    have hk3 : Star.key 3000 = 300000 := hkT
    simp [Dict.set, hk3]
  have hgran : Star.granulate [(300000, .fin 0)] 300000 300000 gran = .ok [(300000, .fin 0)] := by
    simp [Star.granulate, Dict.get, Dict.get?, Dict.set, bind, Except.bind, pure, Except.pure]
  refine ⟨[(300000, .fin 0)], [(300000, .fin 0)], .fin 1,
    calcCoverage_ok.mpr ⟨fun _ => 3000, fun _ => .fin 0, ⟨0.2, 1, 1, 0.001⟩, quiet_map _ _ _ _, beside s rfl hg _ _ h0, rfl, ?_, ?_⟩, ?_⟩
  · simp only [hG, hkT, hkG, hraw]; exact hgran
  · simp only [hG, hkT, hkG, hraw]; exact hgran
  · simp [Dict.values]

/-- Non-trivial instance of C57, C58, C59 and C60: granules cooler by 100 K cover 20 % of a star without spots. -/
theorem quiet_example (lat0 lon0 : ℝ) (h0 : lat0 ∈ Set.Icc (-(π / 2)) (π / 2)) :
    ∃ total cov, (granStar (.rect 4 3) [] 100).calcCoverage lat0 lon0 0.2 10 (1 / 2) (π / 2) 0 = .ok (total, cov, .fin 1) ∧
      Dict.get? total 300000 = some (.fin 0.8) ∧ Dict.get? total 290000 = some (.fin 0.2) ∧
      Dict.get? cov 300000 = some (.fin 0) ∧ (Dict.values total).sum = .fin 1 := by
  set s := granStar (.rect 4 3) [] 100 with hs
  have hg : goodGrid s.grid := ⟨by omega, by omega⟩
  have hv : Visible s lat0 lon0 := visible_rect s rfl (by omega) (by omega) lat0 lon0
  obtain ⟨a, ha, -⟩ := C02_area_partition s.grid hg
  obtain ⟨-, hW⟩ := visible_pos s hg (granStar_phys _ _ _) ha hv
  have hw : ∀ p, s.weight lat0 lon0 p = .fin (pixelWeight s a lat0 lon0 p) := weight_eq s a ha lat0 lon0
  have hm := quiet_map (.rect 4 3) 100 lat0 lon0
  have ht := beside s rfl hg lat0 lon0 h0
  have : Nonempty s.grid.Pix := ⟨(⟨0, by omega⟩, ⟨0, by omega⟩)⟩
  have hpos : planetPos s.radius 10 (π / 2) 0 = ((planetPos s.radius 10 (π / 2) 0).1, (planetPos s.radius 10 (π / 2) 0).2) := rfl
  obtain ⟨total, cov, plf, h, -⟩ := C59_answers_partial s hg one_pos lat0 lon0 _ (by simp only [hw, Fl.sum_fin]) hW.ne' h0
    ⟨0.2, 1, 1, 100⟩ rfl rfl (measured_new _ _) (by simp [hs, granStar, sampleStar])
    (Or.inr ⟨(⟨0, by omega⟩, ⟨0, by omega⟩), by simp [hs, granStar, sampleStar, SpotCollection.new, SpotCollection.setGridmaker],
      by simp [hs, granStar, sampleStar]⟩) 0.2 10 (1 / 2) (π / 2) 0 (by norm_num) _ _ hpos.symm (by simp)
  have hplf : plf = 1 := by
    obtain ⟨m', mask, gr, -, ht', -⟩ := calcCoverage_ok.mp h
    rw [ht, Except.ok.injEq, Prod.mk.injEq, Fl.fin_inj] at ht'
    exact ht'.2.symm
  subst hplf
  refine ⟨total, cov, h, ?_⟩
  have hT : s.teff = 3000 := rfl
  obtain ⟨hsum, label, hl, -, mask, hmask, hent⟩ := C57_shares_partial s hg one_ne_zero a ha lat0 lon0 h0 hW.ne' _ _ _ _ _ total cov _ h
    _ hm (s.teff - 100) ⟨_, rfl, rfl⟩ (by
      intro T h1 T' h2 hne
      rw [Set.range_const, hT] at h1 h2
      simp only [Set.mem_union, Set.mem_insert_iff, Set.mem_singleton_iff] at h1 h2
      rcases h1 with rfl | rfl | rfl <;> rcases h2 with rfl | rfl | rfl <;> first | exact absurd rfl hne | norm_num)
  have lab : ∀ n : ℤ, label n = 100 * n := by
    intro n
    obtain ⟨h1, h2⟩ := abs_le.mp (hl n)
    have h1 : ((100 * n - 1 : ℤ) : ℝ) < label n := by push_cast; linarith
    have h2 : (label n : ℝ) < ((100 * n + 1 : ℤ) : ℝ) := by push_cast; linarith
    have h1 : 100 * n - 1 < label n := by exact_mod_cast h1
    have h2 : label n < 100 * n + 1 := by exact_mod_cast h2
    omega
  have l1 : label 3000 = 300000 := by have := lab 3000; norm_num at this; exact this
  have l2 : label 2900 = 290000 := by have := lab 2900; norm_num at this; exact this
  have s1 : ∀ c, share (pixelWeight s a lat0 lon0) (fun _ => 3000) c 3000 =
      (∑ p, pixelWeight s a lat0 lon0 p * c p) / ∑ p, pixelWeight s a lat0 lon0 p := by intro c; unfold share; simp
  have s2 : ∀ c, share (pixelWeight s a lat0 lon0) (fun _ => 3000) c 2900 = 0 :=
    fun c => share_of_notMem (fun _ => by norm_num)
  rw [ht, Except.ok.injEq, Prod.mk.injEq] at hmask
  have hmask0 : mask = fun _ => 0 := by
    funext p; have := congrFun hmask.1 p; simpa using this.symm
  rw [hT, show (3000 : ℝ) - 100 = 2900 by norm_num] at hent
  have e1 := hent total _ (Or.inl ⟨rfl, rfl⟩) 3000 (by simp)
  have e2 := hent total _ (Or.inl ⟨rfl, rfl⟩) 2900 (by simp)
  have e3 := hent cov _ (Or.inr ⟨rfl, rfl⟩) 3000 (by simp)
  rw [l1, s1] at e1 e3
  rw [l2, s2, s1] at e2
  simp only [mul_one, div_self hW.ne', hmask0, mul_zero, Finset.sum_const_zero, zero_div] at e1 e2 e3
  refine ⟨?_, ?_, ?_, hsum⟩
  · rw [e1]; norm_num
  · rw [e2]; norm_num
  · rw [e3]; norm_num

/-- C58 applied to that star. -/
example : ∃ total cov plf, (granStar (.rect 4 3) [] 100).calcCoverage 0 1 0.2 10 (1 / 2) (π / 2) 0 = .ok (total, cov, plf) ∧
    ∀ k v, Dict.get? total k = some v → ∃ t u : ℝ, v = .fin t ∧ Dict.get? cov k = some (.fin u) ∧ 0 ≤ u ∧ u ≤ t ∧ t ≤ 1 := by
  have h0 : (0 : ℝ) ∈ Set.Icc (-(π / 2)) (π / 2) := ⟨by linarith [pi_pos], by linarith [pi_pos]⟩
  obtain ⟨total, cov, h, -⟩ := quiet_example 0 1 h0
  exact ⟨total, cov, _, h, (C58_fractions (granStar (.rect 4 3) [] 100) (show goodGrid (.rect 4 3) from ⟨by omega, by omega⟩) one_ne_zero
    (granStar_phys _ _ _) 0 1 (visible_rect _ rfl (by omega) (by omega) 0 1) h0 0.2 (by norm_num) _ _ _ _ total cov _ h).2.2⟩

/-! ### Refutations of C59 -/

theorem calcCoverage_keyError {s : Star} {lat0 lon0 g orbit r phase incl : ℝ} {m : s.grid.Pix → ℝ} {res}
    {gr : Granulation} (hm : s.addFaculaeToMap lat0 lon0 = .ok m) (ht : s.transitMask lat0 lon0 orbit r phase incl = .ok res)
    (hgr : s.granulation = some gr)
    (hk : Dict.get? (s.rawData lat0 lon0 m (fun _ => .fin 1) (s.teff - gr.dteff)) (Star.key s.teff) = none) :
    s.calcCoverage lat0 lon0 g orbit r phase incl = .error .keyError := by
  unfold Star.calcCoverage
  rw [hm, ht, hgr]
  simp only [bind, Except.bind]
  rw [granulate_error.mpr ⟨rfl, Or.inl hk⟩]

/-- A spot of the size of the whole surface centred on the equator. -/
def Spec.hugeSpot (g : Grid) : StarSpot := StarSpot.new 0 0 (4 * π) (.fin (4 * π)) 2500 2700 (.fin 4) false 0 0 g

theorem hugeSpot_in (nlat nlon : ℕ) (h1 : 2 ≤ nlat) (he : Even nlat) (p : (Grid.rect nlat nlon).Pix) :
    inSpot (hugeSpot (.rect nlat nlon)) (.rect nlat nlon) 1 p := by
  obtain ⟨i, j⟩ := p
  refine ((C18_membership (hugeSpot (.rect nlat nlon)) (.rect nlat nlon) 1 (4 * π) 4 one_pos rfl rfl (by norm_num) (i, j)).1).mpr
    ⟨π, ⟨pi_pos.le, le_rfl⟩, by simp [capArea]; ring, ?_⟩
  obtain ⟨e1, -, hlat, -⟩ := (C01_rect_layout nlat nlon h1).2.2 i j
  rw [greatCircle_eq]
  change arccos (sin 0 * _ + cos 0 * _ * _) < π
  refine lt_of_le_of_ne (arccos_le_pi _) fun h => ?_
  rw [arccos_eq_pi] at h
  simp only [sin_zero, zero_mul, cos_zero, one_mul, zero_add] at h
  set x := (Grid.rect nlat nlon).lat (i, j)
  have hx0 : x ≠ 0 := by
    intro h
    rw [h] at e1
    have hn : ((nlat : ℝ) - 1) ≠ 0 := by
      have : (2 : ℝ) ≤ nlat := by exact_mod_cast h1
      linarith
    have hp := pi_pos.ne'
    have : ((nlat : ℝ) - 1) = 2 * (j : ℕ) := by
      field_simp at e1
      have : π * ((nlat : ℝ) - 1) = π * (2 * (j : ℕ)) := by linarith
      exact mul_left_cancel₀ hp this
    have : (nlat : ℤ) - 1 = 2 * (j : ℕ) := by exact_mod_cast this
    obtain ⟨k, hk⟩ := he
    omega
  have hc1 : cos x < 1 := by
    rw [← cos_zero, ← cos_abs x]
    exact cos_lt_cos_of_nonneg_of_le_pi le_rfl (by
      have := abs_le.mpr ⟨hlat.1, hlat.2⟩
      linarith [pi_pos]) (abs_pos.mpr hx0)
  have hc0 : 0 ≤ cos x := cos_nonneg_of_mem_Icc hlat
  have := neg_one_le_cos (((hugeSpot (Grid.rect nlat nlon)).lon) - (Grid.rect nlat nlon).lon (i, j))
  nlinarith

/-- **C59** is false in general: a star completely covered by a spot, with granules cooler by 100 K, raises `KeyError`
for every observer and every granulation fraction, although its disk is bright. -/
theorem C59_counterexample (nlat nlon : ℕ) (h1 : 4 ≤ nlat) (h2 : 3 ≤ nlon) (he : Even nlat) (lat0 lon0 gran : ℝ)
    (h0 : lat0 ∈ Set.Icc (-(π / 2)) (π / 2)) :
    let s := granStar (.rect nlat nlon) [hugeSpot (.rect nlat nlon)] 100
    Visible s lat0 lon0 ∧ s.calcCoverage lat0 lon0 gran 10 (1 / 2) (π / 2) 0 = .error .keyError := by
  intro s
  have hg : goodGrid s.grid := ⟨by omega, by omega⟩
  have hv : Visible s lat0 lon0 := visible_rect s rfl h1 h2 lat0 lon0
  refine ⟨hv, ?_⟩
  obtain ⟨a, ha, -⟩ := C02_area_partition s.grid hg
  obtain ⟨-, hW⟩ := visible_pos s hg (granStar_phys _ _ _) ha hv
  have hw : ∀ p, s.weight lat0 lon0 p = .fin (pixelWeight s a lat0 lon0 p) := weight_eq s a ha lat0 lon0
  obtain ⟨m, hm, hmT⟩ : ∃ m, s.addFaculaeToMap lat0 lon0 = .ok m ∧ ∀ p, m p = 2500 ∨ m p = 2700 := by
    have hfold := mapFold_eq id 1 s.spots.grid s.spots.spots (measured_new _ _) (fun _ => (3000 : ℝ))
    have hm : s.map = .ok _ := hfold
    refine ⟨_, noFac_map rfl hm rfl lat0 lon0, fun p => ?_⟩
    change SpotCollection.overlay id 2500 2700 (inUmbra ((hugeSpot (.rect nlat nlon)).setGridmaker _) (.rect nlat nlon) 1 p)
      (inSpot (hugeSpot (.rect nlat nlon)) (.rect nlat nlon) 1 p) 3000 = 2500 ∨ SpotCollection.overlay id 2500 2700
      (inUmbra ((hugeSpot (.rect nlat nlon)).setGridmaker _) (.rect nlat nlon) 1 p)
      (inSpot (hugeSpot (.rect nlat nlon)) (.rect nlat nlon) 1 p) 3000 = 2700
    unfold SpotCollection.overlay
    have := hugeSpot_in nlat nlon (by omega) he p
    by_cases hu : inUmbra ((hugeSpot (.rect nlat nlon)).setGridmaker (.rect nlat nlon)) (.rect nlat nlon) 1 p ∧ id (2500 : ℝ) < 3000
    · left; rw [if_pos hu]; rfl
    · right; rw [if_neg hu, if_pos ⟨this, by norm_num⟩]; rfl
  refine calcCoverage_keyError hm (beside s rfl hg lat0 lon0 h0) rfl ?_
  have hT : s.teff = 3000 := rfl
  rw [rawData_get? hw hW.ne' m (fun _ => 1), hT, show (3000 : ℝ) - 100 = 2900 by norm_num]
  have k1 : Star.key 3000 = 300000 := by have := key_int 3000; norm_num at this; exact this
  have k2 : Star.key 2900 = 290000 := by have := key_int 2900; norm_num at this; exact this
  have k3 : Star.key 2500 = 250000 := by have := key_int 2500; norm_num at this; exact this
  have k4 : Star.key 2700 = 270000 := by have := key_int 2700; norm_num at this; exact this
  unfold rawVal
  rw [if_neg (by rw [k1, k2]; simp), List.find?_eq_none.mpr]
  · rfl
  · intro T hT
    rw [List.mem_reverse, mem_uniqueTeffs] at hT
    obtain ⟨p, rfl⟩ := hT
    rcases hmT p with h | h <;> rw [h, k1] <;> simp [k3, k4]

/-- **C59** also fails in an eclipse of a planet larger than the star. -/
theorem C59_counterexample_eclipse (s : Star) (hg : goodGrid s.grid) (hR : 0 < s.radius) (lat0 lon0 gran : ℝ)
    (h0 : lat0 ∈ Set.Icc (-(π / 2)) (π / 2)) (m : s.grid.Pix → ℝ) (hm : s.addFaculaeToMap lat0 lon0 = .ok m) :
    s.calcCoverage lat0 lon0 gran (10 * s.radius) (2 * s.radius) 0 (π / 2) = .error .valueError := by
  have ht : s.transitMask lat0 lon0 (10 * s.radius) (2 * s.radius) 0 (π / 2) = .error .valueError := by
    refine ((C64_planet_fraction s hg hR lat0 lon0 (10 * s.radius) (2 * s.radius) 0 (π / 2) (by linarith) h0 0 0 2 ?_ ?_).1
      .valueError).mpr ⟨rfl, by simp, by linarith, by simp [planetDist]; norm_num⟩
    · simp [planetPos]
    · field_simp
  unfold Star.calcCoverage
  rw [hm, ht]
  rfl

/-! ## C65 -/

/-- **C65** is false: `average_teff` never returns a value, because the keys are strings.  Whenever the coverage
exists (with the default planet, of the radius of the Earth at 1 AU, seen edge-on) it raises `TypeError`. -/
theorem C65_counterexample (s : Star) (lat0 lon0 : ℝ) :
    (∀ x, s.averageTeff lat0 lon0 ≠ .ok x) ∧
    ∀ total cov plf, s.calcCoverage lat0 lon0 0 149597870.7 6378.1 (π / 2) 0 = .ok (total, cov, plf) →
      s.averageTeff lat0 lon0 = .error .typeError := by
  constructor
  · intro x h
    unfold Star.averageTeff at h
    cases hc : s.calcCoverage lat0 lon0 0 Star.defaultOrbit Star.defaultPlanetRadius (Grid.deg 90) 0 with
    | error e => rw [hc] at h; cases h
    | ok d =>
      rw [hc] at h
      change Star.averageOfStrings d.1 = _ at h
      cases hd : d.1 with
      | nil => rw [hd] at h; cases h
      | cons a l => rw [hd] at h; cases h
  · intro total cov plf hc
    obtain ⟨m, mask, gr, -, -, -, h1, -⟩ := calcCoverage_ok.mp hc
    unfold Star.averageTeff
    rw [← show Grid.deg 90 = π / 2 by unfold Grid.deg; ring] at hc
    unfold Star.defaultOrbit Star.defaultPlanetRadius
    rw [hc]
    change Star.averageOfStrings total = _
    obtain ⟨P, old, -, -, rfl⟩ := granulate_ok.mp h1
    generalize (Dict.set (s.rawData lat0 lon0 m (fun _ => .fin 1) (s.teff - gr.dteff)) (Star.key s.teff) (P * .fin (1 - 0))) = d
    cases d with
    | nil => rfl
    | cons a l =>
      unfold Dict.set
      split_ifs <;> rfl

/-- **C65** (partial) The arithmetic of the loop on numeric keys: for non-negative coverages with positive sum it gives
the fourth-power mean, which lies between the coolest and the hottest temperature.
Missing: the code applies it to string keys, see `C65_counterexample`. -/
theorem C65_fourth_power_mean_partial (d : List (ℤ × ℝ)) (hk : ∀ kv ∈ d, 0 < kv.1) (hv : ∀ kv ∈ d, 0 ≤ kv.2)
    (hs : 0 < (d.map Prod.snd).sum) (lo hi : ℝ) (hlo : 0 ≤ lo) (hb : ∀ kv ∈ d, lo ≤ kv.1 / 100 ∧ (kv.1 : ℝ) / 100 ≤ hi) :
    ∃ x : ℝ, Star.averageOfNumbers (d.map fun kv => (kv.1, Fl.fin kv.2)) = .fin x ∧ lo ≤ x ∧ x ≤ hi ∧
      x ^ 4 * (d.map Prod.snd).sum = (d.map fun kv => ((kv.1 : ℝ) / 100) ^ 4 * kv.2).sum := by
  have fold : ∀ (l : List (ℤ × ℝ)) (a b : ℝ), (l.map fun kv => (kv.1, Fl.fin kv.2)).foldl
      (fun (nd : Fl × Fl) kv => (nd.1 + .fin (((kv.1 : ℝ) / 100) ^ 4) * kv.2, nd.2 + kv.2)) (.fin a, .fin b) =
      (.fin (a + (l.map fun kv => ((kv.1 : ℝ) / 100) ^ 4 * kv.2).sum), .fin (b + (l.map Prod.snd).sum)) := by
    intro l
    induction l with
    | nil => simp
    | cons kv l ih => intro a b; simp only [List.map_cons, List.foldl_cons, Fl.fin_mul, Fl.fin_add, ih, List.sum_cons, add_assoc]
  have bounds : ∀ l : List (ℤ × ℝ), (∀ kv ∈ l, 0 ≤ kv.2) → (∀ kv ∈ l, lo ≤ kv.1 / 100 ∧ (kv.1 : ℝ) / 100 ≤ hi) →
      lo ^ 4 * (l.map Prod.snd).sum ≤ (l.map fun kv => ((kv.1 : ℝ) / 100) ^ 4 * kv.2).sum ∧
      (l.map fun kv => ((kv.1 : ℝ) / 100) ^ 4 * kv.2).sum ≤ hi ^ 4 * (l.map Prod.snd).sum := by
    intro l
    induction l with
    | nil => simp
    | cons kv l ih =>
      intro h1 h2
      obtain ⟨i1, i2⟩ := ih (fun kv h => h1 kv (by simp [h])) (fun kv h => h2 kv (by simp [h]))
      obtain ⟨b1, b2⟩ := h2 kv (by simp)
      have v0 := h1 kv (by simp)
      have p1 : lo ^ 4 * kv.2 ≤ ((kv.1 : ℝ) / 100) ^ 4 * kv.2 := mul_le_mul_of_nonneg_right (pow_le_pow_left₀ hlo b1 4) v0
      have p2 : ((kv.1 : ℝ) / 100) ^ 4 * kv.2 ≤ hi ^ 4 * kv.2 :=
        mul_le_mul_of_nonneg_right (pow_le_pow_left₀ (hlo.trans b1) b2 4) v0
      simp only [List.map_cons, List.sum_cons]
      constructor <;> linarith
  obtain ⟨b1, b2⟩ := bounds d hv hb
  set S := (d.map Prod.snd).sum with hS
  set N := (d.map fun kv => ((kv.1 : ℝ) / 100) ^ 4 * kv.2).sum with hN
  have hNpos : 0 < N := by
    obtain ⟨kv, hkv, hkv0⟩ : ∃ kv ∈ d, 0 < kv.2 := by
      by_contra hc
      push Not at hc
      have : S ≤ 0 := by
        clear_value N
        clear hs bounds fold b1 b2 hN hk hv hb
        rw [hS]
        clear hS S
        induction d with
        | nil => simp
        | cons kv l ih =>
          have h1 := hc kv (by simp)
          have h2 := ih fun kv h => hc kv (by simp [h])
          simp only [List.map_cons, List.sum_cons]; linarith
      linarith
    have hmem : ((kv.1 : ℝ) / 100) ^ 4 * kv.2 ∈ d.map fun kv => ((kv.1 : ℝ) / 100) ^ 4 * kv.2 := List.mem_map.mpr ⟨kv, hkv, rfl⟩
    have hk' : (0 : ℝ) < kv.1 := by exact_mod_cast hk kv hkv
    refine lt_of_lt_of_le (show 0 < ((kv.1 : ℝ) / 100) ^ 4 * kv.2 by positivity) (List.single_le_sum ?_ _ hmem)
    intro x hx
    obtain ⟨kv', h', rfl⟩ := List.mem_map.mp hx
    exact mul_nonneg (by positivity) (hv kv' h')
  have hq : 0 < N / S := div_pos hNpos hs
  have h4 : ((N / S) ^ (0.25 : ℝ)) ^ 4 = N / S := by
    rw [← rpow_natCast, ← rpow_mul hq.le]; norm_num
  have hx0 : 0 ≤ (N / S) ^ (0.25 : ℝ) := rpow_nonneg hq.le _
  have hd : d ≠ [] := by rintro rfl; simp [hS] at hs
  have hhi : 0 ≤ hi := by
    obtain ⟨kv, hkv⟩ := List.exists_mem_of_ne_nil d hd
    exact hlo.trans ((hb kv hkv).1.trans (hb kv hkv).2)
  refine ⟨(N / S) ^ (0.25 : ℝ), ?_, ?_, ?_, ?_⟩
  · unfold Star.averageOfNumbers
    rw [fold, zero_add, zero_add, ← hN, ← hS]
    change Fl.rpow (.fin N / .fin S) 0.25 = _
    rw [Fl.fin_div hs.ne', Fl.rpow_fin hq]
  · refine le_of_pow_le_pow_left₀ (n := 4) (by norm_num) hx0 ?_
    rw [h4, le_div_iff₀ hs]; exact b1
  · refine le_of_pow_le_pow_left₀ (n := 4) (by norm_num) hhi ?_
    rw [h4, div_le_iff₀ hs]; exact b2
  · rw [h4]; field_simp

/-- Non-trivial instance: a star with 3000 K and 2000 K in equal parts. -/
example : ∃ x : ℝ, Star.averageOfNumbers [(300000, .fin 0.5), (200000, .fin 0.5)] = .fin x ∧ 2000 ≤ x ∧ x ≤ 3000 ∧
    x ^ 4 = (3000 ^ 4 + 2000 ^ 4) / 2 := by
  obtain ⟨x, h1, h2, h3, h4⟩ := C65_fourth_power_mean_partial [(300000, 0.5), (200000, 0.5)] (by simp) (by intro kv h; simp at h; rcases h with rfl | rfl <;> norm_num)
    (by norm_num) 2000 3000 (by norm_num) (by intro kv h; simp at h; rcases h with rfl | rfl <;> norm_num)
  refine ⟨x, h1, h2, h3, ?_⟩
  norm_num at h4
  norm_num [h4]

end Vsm
