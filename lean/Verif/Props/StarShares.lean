import Verif.Props.Symmetry

/-!
# How the coverage depends on planet, spots and faculae (C85 – C88)
-/

noncomputable section

namespace Vsm

open Real Spec Np

/-! ## C85: a bigger planet covers no less -/

theorem gaussEntry_mono {rp rp' : ℝ} (h : rp ≤ rp') (d a b : ℝ) (ha : 0 < a) (hb : 0 < b) (i j : ℕ) :
    ∃ e e' : ℝ, Star.gaussEntry (.fin rp) (.fin d) (.fin a) (.fin b) i j = .fin e ∧
      Star.gaussEntry (.fin rp') (.fin d) (.fin a) (.fin b) i j = .fin e' ∧ e ≤ e' := by
  obtain ⟨e, he, he0, -⟩ := gaussEntry_eq rp d a b ha hb i j
  obtain ⟨e', he', he0', -⟩ := gaussEntry_eq rp' d a b ha hb i j
  refine ⟨e, e', he, he', ?_⟩
  unfold Star.gaussEntry at he he'
  simp only [gaussX_eq] at he he'
  rw [Fl.fin_sub, Fl.fin_mul, Fl.fin_mul, Fl.fin_add,
    Fl.sqrt_fin (add_nonneg (mul_self_nonneg _) (mul_self_nonneg _))] at he he'
  split_ifs at he he' with h1 h2 h2
  · rw [he, Fl.fin_inj] at he'; exact he'.le
  · rw [Fl.fin_lt] at h1 h2; exact absurd (h1.trans_le h) h2
  · rw [Fl.fin_inj] at he; rw [← he]; exact he0'
  · rw [Fl.fin_inj] at he; rw [← he]; exact he0'

theorem gaussOverlap_mono {rp rp' : ℝ} (h : rp ≤ rp') (d a b : ℝ) (ha : 0 < a) (hb : 0 < b) :
    ∃ v v' : ℝ, Star.gaussOverlap (.fin rp) (.fin d) (.fin a) (.fin b) = .fin v ∧
      Star.gaussOverlap (.fin rp') (.fin d) (.fin a) (.fin b) = .fin v' ∧ v ≤ v' := by
  choose e e' he he' hle using gaussEntry_mono h d a b ha hb
  set x : ℕ → ℝ := fun i => -(3 * a) + i * (6 * a / 99) with hx
  have hmono : ∀ i, x i ≤ x (i + 1) := by
    intro i; simp only [hx]; push_cast; have : 0 < 6 * a / 99 := by positivity
    linarith
  have hxs : (List.range 100).map (Star.gaussX (.fin a)) = ((List.range 100).map x).map .fin := by
    rw [List.map_map]; exact List.map_congr_left fun i _ => gaussX_eq a i
  have main : ∀ (q : ℝ) (f : ℕ → ℕ → ℝ), (∀ i j, Star.gaussEntry (.fin q) (.fin d) (.fin a) (.fin b) i j = .fin (f i j)) →
      Star.gaussOverlap (.fin q) (.fin d) (.fin a) (.fin b) =
        .fin (trapzR ((List.range 100).map fun i => trapzR ((List.range 100).map (f i)) ((List.range 100).map x))
          ((List.range 100).map x)) := by
    intro q f hf
    have hin : ∀ i, Np.trapz ((List.range 100).map fun j => Star.gaussEntry (.fin q) (.fin d) (.fin a) (.fin b) i j)
        (((List.range 100).map x).map .fin) = .fin (trapzR ((List.range 100).map (f i)) ((List.range 100).map x)) := by
      intro i
      rw [← trapz_fin, List.map_map]
      congr 1
      exact List.map_congr_left fun j _ => hf i j
    unfold Star.gaussOverlap
    simp only [hxs, hin]
    have hout : (List.range 100).map (fun i => Fl.fin (trapzR ((List.range 100).map (f i)) ((List.range 100).map x))) =
        ((List.range 100).map fun i => trapzR ((List.range 100).map (f i)) ((List.range 100).map x)).map .fin := by
      rw [List.map_map]; rfl
    rw [hout, trapz_fin]
  exact ⟨_, _, main rp e he, main rp' e' he', trapzR_mono _ _ x 99 hmono fun i => trapzR_mono _ _ x 99 hmono (hle i)⟩

theorem coveredValue_mono (s : Star) (hg : goodGrid s.grid) (lat0 lon0 : ℝ) (h0 : lat0 ∈ Set.Icc (-(π / 2)) (π / 2))
    (X Y rp rp' : ℝ) (h : rp ≤ rp') (p : s.grid.Pix) :
    ∃ v v' : ℝ, s.coveredValue lat0 lon0 (.fin X) (.fin Y) (.fin rp) p = .fin v ∧
      s.coveredValue lat0 lon0 (.fin X) (.fin Y) (.fin rp') p = .fin v' ∧ v ≤ v' := by
  obtain ⟨a, ha, ha0, -⟩ := C02_area_partition s.grid hg
  have hC := C11_ortho_radius lat0 lon0 (s.grid.lat p) (s.grid.lon p) h0 (grid_lat_mem s.grid hg p)
  rcases lt_or_ge (s.grid.mu lat0 lon0 p) 0 with hmu | hmu
  · exact ⟨0, 0, coveredValue_far s hg lat0 lon0 h0 _ _ _ p hmu, coveredValue_far s hg lat0 lon0 h0 _ _ _ p hmu, le_rfl⟩
  obtain ⟨px, py, hp, -⟩ := hC.2 (not_lt.mp fun h => absurd ((mu_greatCircle s.grid lat0 lon0 p).mp h) (not_lt.mpr hmu))
  obtain ⟨v, h1, h2, h3, h4, h5⟩ := coveredValue_near s a ha ha0 lat0 lon0 X Y rp px py p hp hmu
  obtain ⟨v', h1', h2', h3', h4', h5'⟩ := coveredValue_near s a ha ha0 lat0 lon0 X Y rp' px py p hp hmu
  refine ⟨v, v', h1, h1', ?_⟩
  by_cases c1 : rp + 2 * (2 * √(a p) * s.grid.mu lat0 lon0 p) < planetDist X Y px py
  · rw [h4 c1]; exact h2'
  by_cases c2 : planetDist X Y px py + 2 * (2 * √(a p) * s.grid.mu lat0 lon0 p) < rp'
  · rw [h5' c2]; exact h3
  have hpt : s.pointRadius p = .fin (2 * √(a p)) := by
    unfold Star.pointRadius; rw [ha, Fl.sqrt_fin (ha0 p), Fl.fin_mul]
  have hrad : s.radMap lat0 lon0 (.fin X) (.fin Y) p = .fin (planetDist X Y px py) := by
    unfold Star.radMap
    rw [hp]
    simp only [Fl.fin_sub, Fl.fin_mul, Fl.fin_add]
    rw [Fl.sqrt_fin (add_nonneg (mul_self_nonneg _) (mul_self_nonneg _)), planetDist, sq, sq]
  have hsq := sqrt_nonneg (a p)
  have hr0 : 0 ≤ 2 * √(a p) * s.grid.mu lat0 lon0 p := by positivity
  have hD : 0 ≤ planetDist X Y px py := sqrt_nonneg _
  unfold Star.coveredValue at h1 h1'
  simp only [hpt, hrad, Star.mu, Fl.fin_mul, Fl.fin_add, Fl.fin_lt] at h1 h1'
  set r := 2 * √(a p) * s.grid.mu lat0 lon0 p
  set D := planetDist X Y px py
  rw [if_neg (by simp [Fl.isNan, c1]), if_neg (fun h' => c2 (h'.trans_le h))] at h1
  rw [if_neg (by simp only [Fl.isNan, or_false]; exact fun h' => c1 (by linarith)), if_neg c2] at h1'
  rcases eq_or_lt_of_le hr0 with e | e
  · rw [← e] at c2
    rw [← e, gaussOverlap_zero rp D _ hD (by linarith), Fl.fin_inj] at h1
    rw [← e, gaussOverlap_zero rp' D _ hD (by linarith), Fl.fin_inj] at h1'
    exact (h1.symm.trans h1').le
  · have hb : 0 < 2 * √(a p) := by
      rcases eq_or_lt_of_le hsq with e' | e'
      · simp only [r, ← e', mul_zero, zero_mul, lt_self_iff_false] at e
      · positivity
    obtain ⟨w, w', hw, hw', hle⟩ := gaussOverlap_mono h D r (2 * √(a p)) e hb
    rw [hw, Fl.fin_inj] at h1
    rw [hw', Fl.fin_inj] at h1'
    rw [← h1, ← h1']; exact hle

/-- **C85** (mask) Enlarging the planet never lowers the covered share of any pixel. -/
theorem C85_bigger_planet_mask (s : Star) (hg : goodGrid s.grid) (hR : 0 < s.radius) (lat0 lon0 orbit r r' phase incl : ℝ)
    (h0 : lat0 ∈ Set.Icc (-(π / 2)) (π / 2)) (hr : r ≤ r') (mask mask' : s.grid.Pix → Fl) (plf plf' : Fl)
    (h : s.transitMask lat0 lon0 orbit r phase incl = .ok (mask, plf))
    (h' : s.transitMask lat0 lon0 orbit r' phase incl = .ok (mask', plf')) (p : s.grid.Pix) :
    ∃ v v' : ℝ, mask p = .fin v ∧ mask' p = .fin v' ∧ v ≤ v' := by
  have hρ : r / s.radius ≤ r' / s.radius := by gcongr
  obtain ⟨a, ha, -⟩ := C02_area_partition s.grid hg
  obtain ⟨v, hv, v0, -, -, ve, vf, -⟩ := C63_transit_mask s hg hR.ne' a ha lat0 lon0 orbit r phase incl h0 mask plf h _ _ _ rfl rfl p
  obtain ⟨v', hv', v0', -, -, ve', vf', -⟩ := C63_transit_mask s hg hR.ne' a ha lat0 lon0 orbit r' phase incl h0 mask' plf' h' _ _ _ rfl rfl p
  refine ⟨v, v', hv, hv', ?_⟩
  by_cases h1 : 1 + 2 * (r / s.radius) < planetDist (planetPos s.radius orbit phase incl).1 (planetPos s.radius orbit phase incl).2 0 0
  · rw [vf h1]; exact v0'
  by_cases h2 : 0 < cos phase
  · rw [ve h2]; exact v0'
  rw [transitMask_eq s hg hR.ne' lat0 lon0 orbit r phase incl h0, if_neg h1, if_neg h2] at h
  rw [transitMask_eq s hg hR.ne' lat0 lon0 orbit r' phase incl h0, if_neg (by linarith), if_neg h2] at h'
  simp only [Except.ok.injEq, Prod.mk.injEq] at h h'
  obtain ⟨w, w', e1, e2, hle⟩ := coveredValue_mono s hg lat0 lon0 h0 (planetPos s.radius orbit phase incl).1
    (planetPos s.radius orbit phase incl).2 (r / s.radius) (r' / s.radius) hρ p
  rw [← h.1, e1, Fl.fin_inj] at hv
  rw [← h'.1, e2, Fl.fin_inj] at hv'
  rw [← hv, ← hv']; exact hle

/-- Two dictionaries whose entries compare still do so after the granulation step. -/
theorem granulate_mono {d e d' e' : Dict ℤ Fl} {kP kG : ℤ} {g : ℝ} (hg : g ∈ Set.Icc (0 : ℝ) 1)
    (hd : Star.granulate d kP kG g = .ok d') (he : Star.granulate e kP kG g = .ok e')
    (h : ∀ k v, Dict.get? d k = some v → ∃ x y : ℝ, v = .fin x ∧ Dict.get? e k = some (.fin y) ∧ x ≤ y) :
    ∀ k v, Dict.get? d' k = some v → ∃ x y : ℝ, v = .fin x ∧ Dict.get? e' k = some (.fin y) ∧ x ≤ y := by
  obtain ⟨P', old, hP', hold, -⟩ := granulate_ok.mp hd
  obtain ⟨P, p, rfl, hp, hPp⟩ := h _ _ hP'
  have hQ' : Dict.get? d kG ≠ none := by
    intro hn
    by_cases hk : kP = kG
    · rw [← hk, hP'] at hn; cases hn
    · rw [Dict.get?_set, if_neg hk, hn] at hold; cases hold
  obtain ⟨Q', hQ'⟩ := Option.ne_none_iff_exists'.mp hQ'
  obtain ⟨Q, q, rfl, hq, hQq⟩ := h _ _ hQ'
  have gt := granulate_get? hd hP' hQ'
  have gc := granulate_get? he hp hq
  obtain ⟨g0, g1⟩ := hg
  intro k v hk
  rw [gt] at hk
  rw [gc]
  split_ifs at hk ⊢ with h1 h2 h3
  · cases hk; exact ⟨_, _, rfl, rfl, hPp⟩
  · cases hk; exact ⟨_, _, rfl, rfl, by nlinarith⟩
  · cases hk; exact ⟨_, _, rfl, rfl, mul_le_mul_of_nonneg_right hPp (by linarith)⟩
  · exact h k v hk

/-- **C85** Enlarging the planet never lowers the covered fraction of any temperature, and does not change the
total fractions. -/
theorem C85_bigger_planet (s : Star) (hg : goodGrid s.grid) (hR : 0 < s.radius) (hld : PhysicalLD s.u1 s.u2)
    (lat0 lon0 : ℝ) (hv : Visible s lat0 lon0) (h0 : lat0 ∈ Set.Icc (-(π / 2)) (π / 2)) (gran : ℝ)
    (hgran : gran ∈ Set.Icc (0 : ℝ) 1) (orbit r r' phase incl : ℝ) (hr : r ≤ r') (total cov total' cov' : Dict ℤ Fl)
    (plf plf' : Fl) (h : s.calcCoverage lat0 lon0 gran orbit r phase incl = .ok (total, cov, plf))
    (h' : s.calcCoverage lat0 lon0 gran orbit r' phase incl = .ok (total', cov', plf')) :
    total' = total ∧ ∀ k v, Dict.get? cov k = some v →
      ∃ u u' : ℝ, v = .fin u ∧ Dict.get? cov' k = some (.fin u') ∧ u ≤ u' := by
  obtain ⟨m, mask, gr, hm, ht, hgr, h1, h2⟩ := calcCoverage_ok.mp h
  obtain ⟨m', mask', gr', hm', ht', hgr', h1', h2'⟩ := calcCoverage_ok.mp h'
  rw [hm, Except.ok.injEq] at hm'
  rw [hgr, Option.some.injEq] at hgr'
  subst hm' hgr'
  rw [h1, Except.ok.injEq] at h1'
  refine ⟨h1'.symm, granulate_mono hgran h2 h2' ?_⟩
  obtain ⟨a, ha, -⟩ := C02_area_partition s.grid hg
  obtain ⟨hnn, hW⟩ := visible_pos s hg hld ha hv
  have hmono := C85_bigger_planet_mask s hg hR lat0 lon0 orbit r r' phase incl h0 hr mask mask' plf plf' ht ht'
  choose c c' hc hc' hle using hmono
  obtain rfl : mask = fun p => .fin (c p) := funext hc
  obtain rfl : mask' = fun p => .fin (c' p) := funext hc'
  have hw : ∀ p, s.weight lat0 lon0 p = .fin (pixelWeight s a lat0 lon0 p) := weight_eq s a ha lat0 lon0
  intro k v hk
  rw [rawData_get? hw hW.ne'] at hk
  rw [rawData_get? hw hW.ne']
  obtain ⟨t, et, rfl⟩ := Option.map_eq_some_iff.mp hk
  classical
  unfold rawVal at et ⊢
  split_ifs at et with hk
  · rw [if_pos hk]; cases et; exact ⟨0, 0, rfl, rfl, le_rfl⟩
  · rw [if_neg hk]
    obtain ⟨T, hT, rfl⟩ := Option.map_eq_some_iff.mp et
    exact ⟨_, share (pixelWeight s a lat0 lon0) m c' T, rfl, by rw [hT]; rfl, share_mono hnn hle T⟩

/-! ## C86: without a transit nothing is covered -/

/-- **C86** If the planet is behind the star or too far from the disk, every covered fraction is 0; if it is too far
from the disk or in front of the star the planet is fully visible.  The total fractions do not depend on the planet
at all. -/
theorem C86_no_transit (s : Star) (hg : goodGrid s.grid) (hR : 0 < s.radius) (hld : PhysicalLD s.u1 s.u2)
    (lat0 lon0 : ℝ) (hv : Visible s lat0 lon0) (h0 : lat0 ∈ Set.Icc (-(π / 2)) (π / 2)) (gran orbit r phase incl : ℝ)
    (total cov : Dict ℤ Fl) (plf : Fl) (h : s.calcCoverage lat0 lon0 gran orbit r phase incl = .ok (total, cov, plf))
    (X Y : ℝ) (hXY : (X, Y) = planetPos s.radius orbit phase incl) :
    ((0 < cos phase ∨ 1 + 2 * (r / s.radius) < √(X ^ 2 + Y ^ 2)) → ∀ k ∈ Dict.keys total, Dict.get? cov k = some (.fin 0)) ∧
    ((cos phase ≤ 0 ∨ 1 + 2 * (r / s.radius) < √(X ^ 2 + Y ^ 2)) → plf = .fin 1) ∧
    ∀ orbit' r' phase' incl' total' cov' plf',
      s.calcCoverage lat0 lon0 gran orbit' r' phase' incl' = .ok (total', cov', plf') → total' = total := by
  obtain ⟨m, mask, gr, hm, ht, hgr, h1, h2⟩ := calcCoverage_ok.mp h
  obtain ⟨a, ha, -⟩ := C02_area_partition s.grid hg
  obtain ⟨hnn, hW⟩ := visible_pos s hg hld ha hv
  have hd : planetDist X Y 0 0 = √(X ^ 2 + Y ^ 2) := by unfold planetDist; congr 1; ring
  have hw : ∀ p, s.weight lat0 lon0 p = .fin (pixelWeight s a lat0 lon0 p) := weight_eq s a ha lat0 lon0
  refine ⟨fun hno => ?_, fun hno => ?_, ?_⟩
  · have hz : mask = fun p => .fin ((fun _ => 0 : s.grid.Pix → ℝ) p) := by
      funext p
      obtain ⟨v, hv', -, -, -, ve, vf, -⟩ :=
        C63_transit_mask s hg hR.ne' a ha lat0 lon0 orbit r phase incl h0 mask plf ht X Y _ hXY rfl p
      rw [hv']
      rcases hno with h' | h'
      · rw [ve h']
      · rw [vf (by rw [hd]; exact h')]
    rw [hz] at h2
    have rz : ∀ k v, Dict.get? (s.rawData lat0 lon0 m (fun p => .fin ((fun _ => 0 : s.grid.Pix → ℝ) p)) (s.teff - gr.dteff)) k = some v →
        v = .fin 0 := by
      intro k v hk
      rw [rawData_get? hw hW.ne'] at hk
      obtain ⟨t, et, rfl⟩ := Option.map_eq_some_iff.mp hk
      classical
      unfold rawVal at et
      split_ifs at et with hk
      · cases et; rfl
      · obtain ⟨T, hT, rfl⟩ := Option.map_eq_some_iff.mp et
        simp [share]
    obtain ⟨P, old, hP, hold, -⟩ := granulate_ok.mp h2
    have hQ : Dict.get? (s.rawData lat0 lon0 m (fun p => .fin ((fun _ => 0 : s.grid.Pix → ℝ) p)) (s.teff - gr.dteff))
        (Star.key (s.teff - gr.dteff)) ≠ none := by
      intro hn
      by_cases hk : Star.key s.teff = Star.key (s.teff - gr.dteff)
      · rw [← hk, hP] at hn; cases hn
      · rw [Dict.get?_set, if_neg hk, hn] at hold; cases hold
    obtain ⟨Q, hQ⟩ := Option.ne_none_iff_exists'.mp hQ
    obtain rfl := rz _ _ hP
    obtain rfl := rz _ _ hQ
    have gc := granulate_get? h2 hP hQ
    intro k hk
    have hk' : k ∈ Dict.keys (s.rawData lat0 lon0 m (fun p => .fin ((fun _ => 0 : s.grid.Pix → ℝ) p)) (s.teff - gr.dteff)) := by
      rw [granulate_keys h1] at hk
      rw [← (rawData_keys m _ _ _).1]; exact hk
    rw [gc]
    split_ifs
    · rfl
    · simp
    · simp
    · obtain ⟨v, hv⟩ := Option.ne_none_iff_exists'.mp (fun hn => (Dict.get?_eq_none.mp hn) hk')
      rw [hv, rz _ _ hv]
  · rw [transitMask_eq s hg hR.ne' lat0 lon0 orbit r phase incl h0, ← hXY] at ht
    simp only [hd] at ht
    by_cases hfar : 1 + 2 * (r / s.radius) < √(X ^ 2 + Y ^ 2)
    · rw [if_pos hfar] at ht
      simp only [Except.ok.injEq, Prod.mk.injEq] at ht
      exact ht.2.symm
    · rw [if_neg hfar, if_neg (not_lt.mpr (hno.resolve_right hfar))] at ht
      simp only [Except.ok.injEq, Prod.mk.injEq] at ht
      exact ht.2.symm
  · intro orbit' r' phase' incl' total' cov' plf' h'
    obtain ⟨m', mask', gr', hm', ht', hgr', h1', h2'⟩ := calcCoverage_ok.mp h'
    rw [hm, Except.ok.injEq] at hm'
    rw [hgr, Option.some.injEq] at hgr'
    subst hm' hgr'
    rw [h1, Except.ok.injEq] at h1'
    exact h1'.symm

/-! ## C87: adding spots -/

/-- What one facula does to the temperature map does not depend on the map. -/
theorem addFacula_form (s : Star) (lat0 lon0 : ℝ) (f : Facula) (hg : f.grid = s.grid) :
    (∃ e, ∀ cur, s.addFacula lat0 lon0 cur f = .error e) ∨
    ∃ v : s.grid.Pix → ℝ, ∀ cur, ∃ m, s.addFacula lat0 lon0 cur f = .ok m ∧
      (∀ p, inFacula f s.radius s.grid p → m p = v p) ∧ ∀ p, ¬ inFacula f s.radius s.grid p → m p = cur p := by
  classical
  unfold Star.addFacula
  by_cases hex : ∃ p, (f.inside s.radius).2 p
  · simp only [if_neg (not_not.mpr hex), inside_on hg]
    cases hfr : f.fractionalEffectiveArea (Helpers.angleBetween lat0 lon0 f.lat f.lon) with
    | error e => exact Or.inl ⟨e, fun _ => rfl⟩
    | ok fr =>
      simp only [bind, Except.bind]
      unfold Star.paintFacula
      split
      · rename_i dw fw df ff
        simp only [bind, Except.bind, pure, Except.pure]
        cases hp : Np.percentile ((Finset.univ.filter fun p => inFacula f s.radius s.grid p).val.map (s.mu lat0 lon0)) fw with
        | error e => exact Or.inl ⟨e, fun _ => rfl⟩
        | ok b =>
          refine Or.inr ⟨fun p => if b < s.mu lat0 lon0 p then Helpers.clipTeff (df + s.teff) else Helpers.clipTeff (dw + s.teff),
            fun cur => ⟨_, rfl, ?_, ?_⟩⟩
          · intro p hi
            by_cases hb : b < s.mu lat0 lon0 p
            · simp [hi, hb]
            · simp [hi, hb, not_lt.mp hb]
          · intro p hi
            simp [hi]
      · exact Or.inl ⟨_, fun _ => rfl⟩
  · simp only [if_pos hex]
    refine Or.inr ⟨fun _ => 0, fun cur => ⟨cur, rfl, ?_, fun _ _ => rfl⟩⟩
    intro p hi
    exact absurd ((inside_ex hg s.radius).mpr ⟨p, hi⟩) hex

/-- What all faculae do to the temperature map does not depend on the map. -/
theorem foldFaculae_form (s : Star) (lat0 lon0 : ℝ) (l : List Facula) (hg : ∀ f ∈ l, f.grid = s.grid) :
    (∃ e, ∀ cur, l.foldlM (fun cur f => s.addFacula lat0 lon0 cur f) cur = .error e) ∨
    ∃ v : s.grid.Pix → ℝ, ∀ cur, ∃ m, l.foldlM (fun cur f => s.addFacula lat0 lon0 cur f) cur = .ok m ∧
      (∀ p, (∃ f ∈ l, inFacula f s.radius s.grid p) → m p = v p) ∧
      ∀ p, (∀ f ∈ l, ¬ inFacula f s.radius s.grid p) → m p = cur p := by
  classical
  induction l with
  | nil => exact Or.inr ⟨fun _ => 0, fun cur => ⟨cur, rfl, by simp, fun _ _ => rfl⟩⟩
  | cons f l ih =>
    rcases addFacula_form s lat0 lon0 f (hg f (by simp)) with ⟨e, he⟩ | ⟨v, hv⟩
    · exact Or.inl ⟨e, fun cur => by rw [List.foldlM_cons, he]; rfl⟩
    rcases ih (fun f' hf' => hg f' (by simp [hf'])) with ⟨e, he⟩ | ⟨v', hv'⟩
    · refine Or.inl ⟨e, fun cur => ?_⟩
      obtain ⟨m, hm, -⟩ := hv cur
      rw [List.foldlM_cons, hm]
      exact he m
    · refine Or.inr ⟨fun p => if ∃ f' ∈ l, inFacula f' s.radius s.grid p then v' p else v p, fun cur => ?_⟩
      obtain ⟨m, hm, h1, h2⟩ := hv cur
      obtain ⟨m', hm', h1', h2'⟩ := hv' m
      refine ⟨m', by rw [List.foldlM_cons, hm]; exact hm', ?_, ?_⟩
      · rintro p ⟨f', hf', hi⟩
        beta_reduce
        by_cases hl : ∃ f' ∈ l, inFacula f' s.radius s.grid p
        · rw [if_pos hl]; exact h1' p hl
        · rw [if_neg hl, h2' p (by push Not at hl; exact hl)]
          rcases List.mem_cons.mp hf' with rfl | hf'
          · exact h1 p hi
          · exact absurd ⟨f', hf', hi⟩ hl
      · intro p hp
        rw [h2' p (fun f' hf' => hp f' (by simp [hf'])), h2 p (hp f (by simp))]

theorem addFaculaeToMap_eq (s : Star) (hs : Placed s) (lat0 lon0 : ℝ) :
    s.addFaculaeToMap lat0 lon0 = s.faculae.faculae.foldlM (fun cur f => s.addFacula lat0 lon0 cur f) (fun p =>
      s.spots.spots.foldl (fun c sp => SpotCollection.overlay id sp.teffUmbra sp.teffPenumbra
        (inUmbra sp s.grid s.radius p) (inSpot sp s.grid s.radius p) c) s.teff) := by
  have h := spotMap_on s hs
  unfold Star.addFaculaeToMap
  rw [← bind_assoc, h]
  rfl

theorem overlay_cases (tu tp : ℝ) (inU inP : Prop) (cur : ℝ) :
    SpotCollection.overlay id tu tp inU inP cur ≤ cur ∧ (SpotCollection.overlay id tu tp inU inP cur = cur ∨
      (SpotCollection.overlay id tu tp inU inP cur = tu ∧ inU) ∨ (SpotCollection.overlay id tu tp inU inP cur = tp ∧ inP)) := by
  unfold SpotCollection.overlay
  split_ifs with h1 h2
  · exact ⟨h1.2.le, Or.inr (Or.inl ⟨rfl, h1.1⟩)⟩
  · exact ⟨h2.2.le, Or.inr (Or.inr ⟨rfl, h2.1⟩)⟩
  · exact ⟨le_rfl, Or.inl rfl⟩

theorem foldl_overlay_cases (l : List StarSpot) (g : Grid) (R : ℝ) (p : g.Pix) (cur : ℝ) :
    l.foldl (fun c sp => SpotCollection.overlay id sp.teffUmbra sp.teffPenumbra (inUmbra sp g R p) (inSpot sp g R p) c) cur ≤ cur ∧
    (l.foldl (fun c sp => SpotCollection.overlay id sp.teffUmbra sp.teffPenumbra (inUmbra sp g R p) (inSpot sp g R p) c) cur ≠ cur →
      ∃ sp ∈ l, (l.foldl (fun c sp => SpotCollection.overlay id sp.teffUmbra sp.teffPenumbra (inUmbra sp g R p) (inSpot sp g R p) c) cur =
        sp.teffUmbra ∧ inUmbra sp g R p) ∨
      (l.foldl (fun c sp => SpotCollection.overlay id sp.teffUmbra sp.teffPenumbra (inUmbra sp g R p) (inSpot sp g R p) c) cur =
        sp.teffPenumbra ∧ inSpot sp g R p)) := by
  induction l generalizing cur with
  | nil => exact ⟨le_rfl, fun h => absurd rfl h⟩
  | cons sp l ih =>
    simp only [List.foldl_cons]
    obtain ⟨h1, h2⟩ := ih (SpotCollection.overlay id sp.teffUmbra sp.teffPenumbra (inUmbra sp g R p) (inSpot sp g R p) cur)
    obtain ⟨h3, h4⟩ := overlay_cases sp.teffUmbra sp.teffPenumbra (inUmbra sp g R p) (inSpot sp g R p) cur
    set c' := SpotCollection.overlay id sp.teffUmbra sp.teffPenumbra (inUmbra sp g R p) (inSpot sp g R p) cur
    refine ⟨h1.trans h3, fun hne => ?_⟩
    by_cases he : l.foldl (fun c sp => SpotCollection.overlay id sp.teffUmbra sp.teffPenumbra (inUmbra sp g R p) (inSpot sp g R p) c) c' = c'
    · rw [he] at hne ⊢
      exact ⟨sp, by simp, h4.resolve_left hne⟩
    · obtain ⟨sp', hsp', h⟩ := h2 he
      exact ⟨sp', by simp [hsp'], h⟩

/-- **C87** (map) Adding spots (measured on the star's grid) never warms a pixel of the surface map.  A pixel that
changes lies in no facula, and gets the umbra or penumbra temperature of one of the new spots, inside whose umbra or
outline it lies.  The map is available for the new star exactly if it was for the old one. -/
theorem C87_adding_spots_map (s : Star) (hs : Placed s) (new : List StarSpot)
    (hnew : ∀ sp ∈ new, sp.setGridmaker s.grid = sp) (lat0 lon0 : ℝ) :
    (∀ e, (s.addSpot new).addFaculaeToMap lat0 lon0 = .error e ↔ s.addFaculaeToMap lat0 lon0 = .error e) ∧
    ∀ m, s.addFaculaeToMap lat0 lon0 = .ok m → ∃ m', (s.addSpot new).addFaculaeToMap lat0 lon0 = .ok m' ∧
      ∀ p, m' p ≤ m p ∧ (m' p ≠ m p → (∀ f ∈ s.faculae.faculae, ¬ inFacula f s.radius s.grid p) ∧ m p ≤ s.teff ∧
        ∃ sp ∈ new, (m' p = sp.teffUmbra ∧ inUmbra sp s.grid s.radius p) ∨
          (m' p = sp.teffPenumbra ∧ inSpot sp s.grid s.radius p)) := by
  obtain ⟨hg, hm, hf⟩ := hs
  have hkeep : new.map (fun sp => { sp with grid := s.spots.grid }) = new := by
    rw [hg]
    refine (List.map_congr_left fun sp hsp => ?_).trans (List.map_id _)
    have := congrArg StarSpot.grid (hnew sp hsp)
    change s.grid = sp.grid at this
    rw [this]; rfl
  have hs' : Placed (s.addSpot new) := by
    refine ⟨hg, fun sp hsp => ?_, hf⟩
    change sp ∈ s.spots.spots ++ new.map (fun sp => { sp with grid := s.spots.grid }) at hsp
    rw [hkeep, List.mem_append] at hsp
    rcases hsp with h | h
    · exact hm sp h
    · have := hnew sp h
      rw [← hg] at this; exact this
  have e1 := addFaculaeToMap_eq s ⟨hg, hm, hf⟩ lat0 lon0
  have e2 := addFaculaeToMap_eq (s.addSpot new) hs' lat0 lon0
  have e3 : (s.addSpot new).spots.spots = s.spots.spots ++ new := congrArg (s.spots.spots ++ ·) hkeep
  rw [e3] at e2
  have e4 : (fun (cur : s.grid.Pix → ℝ) f => (s.addSpot new).addFacula lat0 lon0 cur f) = fun cur f => s.addFacula lat0 lon0 cur f := rfl
  have e5 : (s.addSpot new).addFaculaeToMap lat0 lon0 = s.faculae.faculae.foldlM (fun cur f => s.addFacula lat0 lon0 cur f)
      (fun p => (s.spots.spots ++ new).foldl (fun c sp => SpotCollection.overlay id sp.teffUmbra sp.teffPenumbra
        (inUmbra sp s.grid s.radius p) (inSpot sp s.grid s.radius p) c) s.teff) := e2
  rw [e1, e5]
  rcases foldFaculae_form s lat0 lon0 s.faculae.faculae hf with ⟨e, he⟩ | ⟨v, hv⟩
  · rw [he, he]
    exact ⟨fun _ => Iff.rfl, fun m hm => by cases hm⟩
  · obtain ⟨m₁, h1, h2, h3⟩ := hv (fun p => s.spots.spots.foldl (fun c sp => SpotCollection.overlay id sp.teffUmbra sp.teffPenumbra
        (inUmbra sp s.grid s.radius p) (inSpot sp s.grid s.radius p) c) s.teff)
    obtain ⟨m₂, h1', h2', h3'⟩ := hv (fun p => (s.spots.spots ++ new).foldl (fun c sp => SpotCollection.overlay id sp.teffUmbra sp.teffPenumbra
        (inUmbra sp s.grid s.radius p) (inSpot sp s.grid s.radius p) c) s.teff)
    rw [h1, h1']
    refine ⟨fun e => ⟨fun h => (by cases h), fun h => (by cases h)⟩, fun m hm => ?_⟩
    rw [Except.ok.injEq] at hm
    subst hm
    refine ⟨m₂, rfl, fun p => ?_⟩
    by_cases hp : ∃ f ∈ s.faculae.faculae, inFacula f s.radius s.grid p
    · rw [h2 p hp, h2' p hp]
      exact ⟨le_rfl, fun h => absurd rfl h⟩
    · push Not at hp
      rw [h3 p hp, h3' p hp, List.foldl_append]
      obtain ⟨k1, k2⟩ := foldl_overlay_cases new s.grid s.radius p (s.spots.spots.foldl (fun c sp =>
        SpotCollection.overlay id sp.teffUmbra sp.teffPenumbra (inUmbra sp s.grid s.radius p) (inSpot sp s.grid s.radius p) c) s.teff)
      exact ⟨k1, fun hne => ⟨hp, (foldl_overlay_cases s.spots.spots s.grid s.radius p s.teff).1, k2 hne⟩⟩


/-- **C87** Adding spots never increases the share of the photosphere temperature (the entry whose key is that
temperature rounded to 0.01 K), as long as different temperatures on the star differ by more than 0.01 K. -/
theorem C87_photosphere_share (s : Star) (hs : Placed s) (hg : goodGrid s.grid)
    (hld : PhysicalLD s.u1 s.u2) (new : List StarSpot) (hnew : ∀ sp ∈ new, sp.setGridmaker s.grid = sp)
    (lat0 lon0 : ℝ) (hv : Visible s lat0 lon0) (gran : ℝ)
    (hgran : gran ∈ Set.Icc (0 : ℝ) 1) (orbit r phase incl : ℝ) (total cov total' cov' : Dict ℤ Fl) (plf plf' : Fl)
    (h : s.calcCoverage lat0 lon0 gran orbit r phase incl = .ok (total, cov, plf))
    (h' : (s.addSpot new).calcCoverage lat0 lon0 gran orbit r phase incl = .ok (total', cov', plf'))
    (m m' : s.grid.Pix → ℝ) (hm : s.addFaculaeToMap lat0 lon0 = .ok m)
    (hm' : (s.addSpot new).addFaculaeToMap lat0 lon0 = .ok m') (G : ℝ)
    (hG : ∃ gr, s.granulation = some gr ∧ G = s.teff - gr.dteff)
    (hsep : ∀ T ∈ Set.range m ∪ Set.range m' ∪ {s.teff, G}, ∀ T' ∈ Set.range m ∪ Set.range m' ∪ {s.teff, G},
      T ≠ T' → 1 / 100 < |T - T'|) :
    ∃ (k : ℤ) (t t' : ℝ), |(k : ℝ) - 100 * s.teff| ≤ 1 / 2 ∧ Dict.get? total k = some (.fin t) ∧
      Dict.get? total' k = some (.fin t') ∧ t' ≤ t := by
  obtain ⟨m₁, mask, gr, hm₁, -, hgr, h1, -⟩ := calcCoverage_ok.mp h
  obtain ⟨m₂, mask', gr', hm₂, -, hgr', h2, -⟩ := calcCoverage_ok.mp h'
  rw [hm, Except.ok.injEq] at hm₁
  have hm₂ : m' = m₂ := Except.ok.inj (hm'.symm.trans hm₂)
  have hgr'' : s.granulation = some gr' := hgr'
  rw [hgr, Option.some.injEq] at hgr''
  subst hm₁ hm₂ hgr''
  obtain ⟨gr₁, hgr₁, rfl⟩ := hG
  rw [hgr, Option.some.injEq] at hgr₁
  subst hgr₁
  obtain ⟨a, ha, -⟩ := C02_area_partition s.grid hg
  obtain ⟨hnn, hW⟩ := visible_pos s hg hld ha hv
  have hw : ∀ p, s.weight lat0 lon0 p = .fin (pixelWeight s a lat0 lon0 p) := weight_eq s a ha lat0 lon0
  have hw' : ∀ p, (s.addSpot new).weight lat0 lon0 p = .fin (pixelWeight s a lat0 lon0 p) := hw
  have e1 := (entries_of_sep (c := fun _ => 1) hw hW.ne' h1 (fun T T' a1 a2 hk => key_inj_of_sep (hsep T (by
    simp only [Set.mem_union, Set.mem_insert_iff, Set.mem_singleton_iff]; tauto) T' (by
    simp only [Set.mem_union, Set.mem_insert_iff, Set.mem_singleton_iff]; tauto)) hk)).2.1 s.teff (by tauto)
  have e2 := (entries_of_sep (s := s.addSpot new) (m := m') (c := fun _ => 1) hw' hW.ne' h2 (fun T T' a1 a2 hk => key_inj_of_sep (hsep T (by
    simp only [Set.mem_union, Set.mem_insert_iff, Set.mem_singleton_iff]; tauto) T' (by
    simp only [Set.mem_union, Set.mem_insert_iff, Set.mem_singleton_iff]; tauto)) hk)).2.1 s.teff (Or.inr (Or.inl rfl))
  refine ⟨Star.key s.teff, _, _, key_near _, e1, e2, ?_⟩
  have hle : share (pixelWeight s a lat0 lon0) m' (fun _ => 1) s.teff ≤ share (pixelWeight s a lat0 lon0) m (fun _ => 1) s.teff := by
    unfold share
    refine div_le_div_of_nonneg_right (Finset.sum_le_sum fun p _ => ?_) hW.le
    obtain ⟨m₂, e, hp⟩ := (C87_adding_spots_map s hs new hnew lat0 lon0).2 m hm
    have e : m' = m₂ := Except.ok.inj (hm'.symm.trans e)
    subst e
    obtain ⟨q1, q2⟩ := hp p
    by_cases hT : m' p = s.teff
    · rw [if_pos hT]
      by_cases hT' : m p = s.teff
      · rw [if_pos hT']
      · exfalso
        have := q2 (by rw [hT]; exact Ne.symm hT')
        rw [hT] at q1
        exact hT' (le_antisymm this.2.1 q1)
    · rw [if_neg hT]
      split_ifs
      · exact mul_nonneg (hnn p) zero_le_one
      · exact le_rfl
  have ht : (s.addSpot new).teff = s.teff := rfl
  rw [ht]
  obtain ⟨g0, g1⟩ := hgran
  by_cases hG : s.teff = s.teff - gr.dteff
  · rw [if_pos hG, if_pos rfl, if_pos hG, if_pos rfl]
    have k1 : ∀ x y : ℝ, y ≤ x → y + gran * y - gran * y ≤ x + gran * x - gran * x := by intros; linarith
    exact k1 _ _ hle
  · rw [if_neg hG, if_pos rfl, if_neg hG, if_pos rfl]
    have k2 : ∀ x y : ℝ, y ≤ x → y + 0 - gran * y ≤ x + 0 - gran * x := by intros; nlinarith
    exact k2 _ _ hle

/-! ## C88: the order of the features does not matter -/

/-- The star with its spots listed in another order. -/
abbrev Spec.withSpots (s : Star) (l : List StarSpot) : Star := { s with spots := { s.spots with spots := l } }

/-- The star with its faculae listed in another order. -/
abbrev Spec.withFaculae (s : Star) (l : List Facula) : Star := { s with faculae := { s.faculae with faculae := l } }

theorem coverage_of_map {s s' : Star} (hg : s'.grid = s.grid) (lat0 lon0 gran orbit r phase incl : ℝ)
    (hm : HEq (s'.addFaculaeToMap lat0 lon0) (s.addFaculaeToMap lat0 lon0))
    (ht : HEq (s'.transitMask lat0 lon0 orbit r phase incl) (s.transitMask lat0 lon0 orbit r phase incl))
    (hc : HEq (covEnd s' lat0 lon0 gran) (covEnd s lat0 lon0 gran)) :
    s'.calcCoverage lat0 lon0 gran orbit r phase incl = s.calcCoverage lat0 lon0 gran orbit r phase incl := by
  rw [calcCoverage_bind, calcCoverage_bind]
  generalize s'.addFaculaeToMap lat0 lon0 = x at hm
  generalize s'.transitMask lat0 lon0 orbit r phase incl = y at ht
  generalize covEnd s' lat0 lon0 gran = z at hc
  generalize s'.grid = g at *
  subst hg
  cases hm; cases ht; cases hc
  rfl

/-- **C88** (spots) The answer of `calc_coverage` does not depend on the order in which the spots are listed (umbrae not
hotter than their penumbrae). -/
theorem C88_spot_order (s : Star) (hs : Placed s) (hup : ∀ sp ∈ s.spots.spots, sp.teffUmbra ≤ sp.teffPenumbra)
    (l : List StarSpot) (hl : l.Perm s.spots.spots) (lat0 lon0 gran orbit r phase incl : ℝ) :
    (withSpots s l).calcCoverage lat0 lon0 gran orbit r phase incl = s.calcCoverage lat0 lon0 gran orbit r phase incl := by
  have hs' : Placed (withSpots s l) := ⟨hs.1, fun sp hsp => hs.2.1 sp (hl.mem_iff.mp hsp), hs.2.2⟩
  have ht : (withSpots s l).transitMask lat0 lon0 orbit r phase incl = s.transitMask lat0 lon0 orbit r phase incl := rfl
  have hc : covEnd (withSpots s l) lat0 lon0 gran = covEnd s lat0 lon0 gran := rfl
  refine coverage_of_map (s := s) (s' := withSpots s l) rfl lat0 lon0 gran orbit r phase incl (heq_of_eq ?_) (heq_of_eq ht) (heq_of_eq hc)
  refine (addFaculaeToMap_eq (withSpots s l) hs' lat0 lon0).trans ((addFaculaeToMap_eq s hs lat0 lon0).trans ?_).symm
  refine congrArg (fun c => s.faculae.faculae.foldlM (fun cur f => s.addFacula lat0 lon0 cur f) c) (funext fun p => ?_)
  have h1 := foldl_overlay_least s.grid s.radius p l (fun sp hsp => hup sp (hl.mem_iff.mp hsp)) s.teff
  have h2 := foldl_overlay_least s.grid s.radius p s.spots.spots hup s.teff
  have hset : tempsAt l s.grid s.radius s.teff p = tempsAt s.spots.spots s.grid s.radius s.teff p := by
    simp only [tempsAt, hl.mem_iff]
  rw [hset] at h1
  exact h2.unique h1

theorem foldFaculae_ok (s : Star) (lat0 lon0 : ℝ) (l : List Facula) (hg : ∀ f ∈ l, f.grid = s.grid) (cur cur' : s.grid.Pix → ℝ) :
    (∃ m, l.foldlM (fun cur f => s.addFacula lat0 lon0 cur f) cur = .ok m) ↔ ∀ f ∈ l, ∃ m, s.addFacula lat0 lon0 cur' f = .ok m := by
  induction l generalizing cur with
  | nil => exact ⟨fun _ f hf => by simp at hf, fun _ => ⟨cur, rfl⟩⟩
  | cons f l ih =>
    rw [List.foldlM_cons]
    have ih' := ih (fun f' hf' => hg f' (by simp [hf']))
    rcases addFacula_form s lat0 lon0 f (hg f (by simp)) with ⟨e, he⟩ | ⟨v, hv⟩
    · rw [he]
      constructor
      · rintro ⟨m, hm⟩; cases hm
      · intro h
        obtain ⟨m, hm⟩ := h f (by simp)
        rw [he] at hm; cases hm
    · obtain ⟨m, hm, -⟩ := hv cur
      rw [hm]
      refine (ih' m).trans ⟨fun h f' hf' => ?_, fun h f' hf' => h f' (by simp [hf'])⟩
      rcases List.mem_cons.mp hf' with rfl | hf'
      · obtain ⟨m, hm, -⟩ := hv cur'; exact ⟨m, hm⟩
      · exact h f' hf'

theorem lastAt_perm {l l' : List Facula} (hp : l'.Perm l) (R : ℝ) (g : Grid) (p : g.Pix)
    (hd : l.Pairwise fun f f' => ∀ p, ¬ (inFacula f R g p ∧ inFacula f' R g p)) : lastAt l' R g p = lastAt l R g p := by
  classical
  unfold lastAt
  have h1 : (l'.filter fun f => decide (inFacula f R g p)).Perm (l.filter fun f => decide (inFacula f R g p)) := hp.filter _
  have h2 : (l.filter fun f => decide (inFacula f R g p)).length ≤ 1 := by
    by_contra hc
    push Not at hc
    have h3 := (hd.sublist List.filter_sublist : (l.filter fun f => decide (inFacula f R g p)).Pairwise _)
    have hm : ∀ f ∈ l.filter fun f => decide (inFacula f R g p), inFacula f R g p := by
      intro f hf; simpa using (List.mem_filter.mp hf).2
    match hx : l.filter fun f => decide (inFacula f R g p), hc, h3, hm with
    | [], hc, _, _ => simp at hc
    | [f], hc, _, _ => simp at hc
    | f :: f' :: t, _, h3, hm =>
      rw [List.pairwise_cons] at h3
      exact h3.1 f' (by simp) p ⟨hm f (by simp), hm f' (by simp)⟩
  match hx : l.filter fun f => decide (inFacula f R g p), h2 with
  | [], _ => rw [hx] at h1; rw [List.perm_nil.mp h1]
  | [f], _ => rw [hx] at h1; rw [List.perm_singleton.mp h1]
  | f :: f' :: t, h2 => simp at h2

/-- **C88** (faculae) If no pixel lies in two faculae, the answer of `calc_coverage` does not depend on the order in which the
faculae are listed. -/
theorem C88_facula_order (s : Star) (hs : Placed s)
    (hd : s.faculae.faculae.Pairwise fun f f' => ∀ p, ¬ (inFacula f s.radius s.grid p ∧ inFacula f' s.radius s.grid p))
    (l : List Facula) (hl : l.Perm s.faculae.faculae) (lat0 lon0 gran orbit r phase incl : ℝ) (d : Dict ℤ Fl × Dict ℤ Fl × Fl) :
    (withFaculae s l).calcCoverage lat0 lon0 gran orbit r phase incl = .ok d ↔
      s.calcCoverage lat0 lon0 gran orbit r phase incl = .ok d := by
  have hgl : ∀ f ∈ l, f.grid = s.grid := fun f hf => hs.2.2 f (hl.mem_iff.mp hf)
  have hs' : Placed (withFaculae s l) := ⟨hs.1, hs.2.1, hgl⟩
  have e1 := addFaculaeToMap_eq s hs lat0 lon0
  have e2 := addFaculaeToMap_eq (withFaculae s l) hs' lat0 lon0
  set c₀ : s.grid.Pix → ℝ := fun p => s.spots.spots.foldl (fun c sp => SpotCollection.overlay id sp.teffUmbra sp.teffPenumbra
        (inUmbra sp s.grid s.radius p) (inSpot sp s.grid s.radius p) c) s.teff
  have e3 : (withFaculae s l).addFaculaeToMap lat0 lon0 = l.foldlM (fun cur f => s.addFacula lat0 lon0 cur f) c₀ := e2
  have hmap : ∀ m, (withFaculae s l).addFaculaeToMap lat0 lon0 = .ok m ↔ s.addFaculaeToMap lat0 lon0 = .ok m := by
    have hex : (∃ m, l.foldlM (fun cur f => s.addFacula lat0 lon0 cur f) c₀ = .ok m) ↔
        ∃ m, s.faculae.faculae.foldlM (fun cur f => s.addFacula lat0 lon0 cur f) c₀ = .ok m := by
      rw [foldFaculae_ok s lat0 lon0 l hgl c₀ c₀, foldFaculae_ok s lat0 lon0 _ hs.2.2 c₀ c₀]
      simp only [hl.mem_iff]
    have huniq : ∀ m m', l.foldlM (fun cur f => s.addFacula lat0 lon0 cur f) c₀ = .ok m →
        s.faculae.faculae.foldlM (fun cur f => s.addFacula lat0 lon0 cur f) c₀ = .ok m' → m = m' := by
      intro m m' hm hm'
      funext p
      obtain ⟨a1, a2⟩ := foldlM_faculae s lat0 lon0 l hgl c₀ m hm p
      obtain ⟨b1, b2⟩ := foldlM_faculae s lat0 lon0 _ hs.2.2 c₀ m' hm' p
      rw [lastAt_perm hl s.radius s.grid p hd] at a1 a2
      cases hla : lastAt s.faculae.faculae s.radius s.grid p with
      | none => rw [a1 hla, b1 hla]
      | some f =>
        obtain ⟨kw, kf, hkw, hkf, hma⟩ := a2 f hla
        obtain ⟨kw', kf', hkw', hkf', hmb⟩ := b2 f hla
        rw [hkw, Except.ok.injEq] at hkw'
        rw [hkf, Except.ok.injEq] at hkf'
        rw [hma, hmb, hkw', hkf']
    intro m
    rw [e3, e1]
    constructor
    · intro h
      obtain ⟨m', hm'⟩ := hex.mp ⟨m, h⟩
      rw [hm', huniq m m' h hm']
    · intro h
      obtain ⟨m', hm'⟩ := hex.mpr ⟨m, h⟩
      rw [hm', huniq m' m hm' h]
  obtain ⟨total, cov, plf⟩ := d
  rw [calcCoverage_ok, calcCoverage_ok]
  constructor
  · rintro ⟨m, mask, gr, h1, h2, h3, h4, h5⟩
    exact ⟨m, mask, gr, (hmap m).mp h1, h2, h3, h4, h5⟩
  · rintro ⟨m, mask, gr, h1, h2, h3, h4, h5⟩
    exact ⟨m, mask, gr, (hmap m).mpr h1, h2, h3, h4, h5⟩


/-- Faculae whose outlines do not overlap have no pixel in common. -/
theorem apart_disjoint {f f' : Facula} {R r r' : ℝ} (hR : 0 < R) (hr : f.radius = .fin r) (hr' : f'.radius = .fin r')
    (h : r + r' < R * greatCircle f.lat f.lon f'.lat f'.lon) (g : Grid) (p : g.Pix) : ¬ (inFacula f R g p ∧ inFacula f' R g p) := by
  rintro ⟨h1, h2⟩
  unfold inFacula at h1 h2
  rw [hr, Fl.fin_div hR.ne', Fl.fin_le, haversine_eq, le_div_iff₀ hR] at h1
  rw [hr', Fl.fin_div hR.ne', Fl.fin_le, haversine_eq, le_div_iff₀ hR] at h2
  have h3 : greatCircle f.lat f.lon f'.lat f'.lon ≤ greatCircle f.lat f.lon (g.lat p) (g.lon p) +
      greatCircle f'.lat f'.lon (g.lat p) (g.lon p) := by
    unfold greatCircle
    rw [InnerProductGeometry.angle_comm (unitVec f'.lat f'.lon) (unitVec (g.lat p) (g.lon p))]
    exact InnerProductGeometry.angle_le_angle_add_angle _ _ _
  nlinarith

/-! ### Examples -/

/-- C85, C86 and C88 on the sample star with a transiting planet: a planet that has grown from 1/2 to 3/4 of the stellar
radius, and the same star with its (single) spot and facula listed anew. -/
example : ∃ total cov plf cov' plf', symStar.calcCoverage (π / 6) 0 0.2 10 (1 / 2) π (π / 2) = .ok (total, cov, plf) ∧
    symStar.calcCoverage (π / 6) 0 0.2 10 (3 / 4) π (π / 2) = .ok (total, cov', plf') ∧ plf = .fin 1 ∧
    ∀ k v, Dict.get? cov k = some v → ∃ u u' : ℝ, v = .fin u ∧ Dict.get? cov' k = some (.fin u') ∧ u ≤ u' := by
  have h0 : π / 6 ∈ Set.Icc (-(π / 2)) (π / 2) := ⟨by linarith [pi_pos], by linarith [pi_pos]⟩
  have hg : goodGrid symStar.grid := show goodGrid (.rect 4 3) from ⟨by omega, by omega⟩
  have hld : PhysicalLD symStar.u1 symStar.u2 := by simp [PhysicalLD, symStar, sampleStar]
  have hv : Visible symStar (π / 6) 0 := visible_rect symStar rfl (by omega) (by omega) (π / 6) 0
  obtain ⟨⟨total, cov, plf⟩, h⟩ := symStar_answers
  obtain ⟨m, mask, gr, hm, ht, hgr, h1, h2⟩ := calcCoverage_ok.mp h
  -- the second run differs only in the transit mask
  have ht' := transitMask_eq symStar hg one_ne_zero (π / 6) 0 10 (3 / 4) π (π / 2) h0
  have e : planetPos symStar.radius 10 π (π / 2) = (0, 0) := by simp [planetPos]
  rw [e, if_neg (by rw [show symStar.radius = 1 from rfl]; simp [planetDist]; norm_num), if_neg (by simp)] at ht'
  have hP : Dict.get? (symStar.rawData (π / 6) 0 m (fun _ => .fin 1) (symStar.teff - gr.dteff)) (Star.key symStar.teff) ≠ none ∧
      Dict.get? (symStar.rawData (π / 6) 0 m (fun _ => .fin 1) (symStar.teff - gr.dteff)) (Star.key (symStar.teff - gr.dteff)) ≠ none := by
    have hn : ∀ e, Star.granulate (symStar.rawData (π / 6) 0 m (fun _ => .fin 1) (symStar.teff - gr.dteff)) (Star.key symStar.teff)
        (Star.key (symStar.teff - gr.dteff)) 0.2 ≠ .error e := by intro e; rw [h1]; simp
    constructor
    · intro hc; exact hn .keyError (granulate_error.mpr ⟨rfl, Or.inl hc⟩)
    · intro hc; exact hn .keyError (granulate_error.mpr ⟨rfl, Or.inr hc⟩)
  have hk : ∀ c k, Dict.get? (symStar.rawData (π / 6) 0 m (fun _ => .fin 1) (symStar.teff - gr.dteff)) k ≠ none →
      Dict.get? (symStar.rawData (π / 6) 0 m c (symStar.teff - gr.dteff)) k ≠ none := by
    intro c k hk hn
    exact hk (Dict.get?_eq_none.mpr (by
      rw [(rawData_keys m (fun _ => .fin 1) c _).1]; exact Dict.get?_eq_none.mp hn))
  obtain ⟨cov', hcov'⟩ := granulate_total 0.2 (hk (symStar.coveredValue (π / 6) 0 (.fin 0) (.fin 0) (.fin (3 / 4 / symStar.radius))) _ hP.1)
    (hk (symStar.coveredValue (π / 6) 0 (.fin 0) (.fin 0) (.fin (3 / 4 / symStar.radius))) _ hP.2)
  have h' := calcCoverage_ok.mpr ⟨m, _, gr, hm, ht', hgr, h1, hcov'⟩
  refine ⟨total, cov, plf, cov', _, h, h', ?_, ?_⟩
  · exact (C86_no_transit symStar hg one_pos hld _ _ hv h0 _ _ _ _ _ total cov plf h 0 0 e.symm).2.1 (Or.inl (by simp))
  · exact (C85_bigger_planet symStar hg one_pos hld _ _ hv h0 _ (by norm_num) _ _ _ _ _ (by norm_num) _ _ _ _ _ _ h h').2

/-- C87 on that star: a second spot. -/
example (lat lon : ℝ) : ∃ m m', symStar.addFaculaeToMap (π / 6) 0 = .ok m ∧
    (symStar.addSpot [(StarSpot.new lat lon 1 (.fin 1) 2500 2700 (.fin 4) true 0 0 (.rect 4 3))]).addFaculaeToMap (π / 6) 0 = .ok m' ∧
    ∀ p, m' p ≤ m p := by
  obtain ⟨⟨total, cov, plf⟩, h⟩ := symStar_answers
  obtain ⟨m, mask, gr, hm, -⟩ := calcCoverage_ok.mp h
  obtain ⟨m', h', hp⟩ := (C87_adding_spots_map symStar (placed_of_unified symStar_unified).2
    [StarSpot.new lat lon 1 (.fin 1) 2500 2700 (.fin 4) true 0 0 (.rect 4 3)]
    (by intro sp hsp; rw [List.mem_singleton] at hsp; rw [hsp]; rfl) (π / 6) 0).2 m hm
  exact ⟨m, m', hm, h', fun p => (hp p).1⟩

/-- C88: two spots in either order. -/
example (lat lon : ℝ) :
    (sampleStar (.rect 4 3) [sampleSpot (.rect 4 3), StarSpot.new lat lon 1 (.fin 1) 2500 2700 (.fin 4) true 0 0 (.rect 4 3)] []).calcCoverage 0 0 0.2 10 1 π 0 =
    (sampleStar (.rect 4 3) [StarSpot.new lat lon 1 (.fin 1) 2500 2700 (.fin 4) true 0 0 (.rect 4 3), sampleSpot (.rect 4 3)] []).calcCoverage 0 0 0.2 10 1 π 0 := by
  refine C88_spot_order (sampleStar (.rect 4 3) [StarSpot.new lat lon 1 (.fin 1) 2500 2700 (.fin 4) true 0 0 (.rect 4 3), sampleSpot (.rect 4 3)] [])
    ⟨rfl, measured_new _ _, by intro f hf; simp [sampleStar] at hf⟩ ?_ _ (List.Perm.swap _ _ _) _ _ _ _ _ _ _
  intro sp hsp
  simp only [sampleStar, SpotCollection.new, SpotCollection.setGridmaker, List.map_cons, List.map_nil, List.mem_cons, List.not_mem_nil, or_false] at hsp
  rcases hsp with rfl | rfl
  · simp [StarSpot.setGridmaker, StarSpot.new]; norm_num
  · simp [StarSpot.setGridmaker, sampleSpot, StarSpot.new]; norm_num


/-- C88: two faculae on opposite sides of the star in either order. -/
example (d : Dict ℤ Fl × Dict ℤ Fl × Fl) :
    (sampleStar (.rect 4 3) [] [{ sampleFacula (.rect 4 3) with lon := π }, sampleFacula (.rect 4 3)]).calcCoverage 0 0 0.2 10 1 π 0 = .ok d ↔
    (sampleStar (.rect 4 3) [] [sampleFacula (.rect 4 3), { sampleFacula (.rect 4 3) with lon := π }]).calcCoverage 0 0 0.2 10 1 π 0 = .ok d := by
  refine C88_facula_order (sampleStar (.rect 4 3) [] [sampleFacula (.rect 4 3), { sampleFacula (.rect 4 3) with lon := π }])
    ⟨rfl, measured_new _ _, ?_⟩ ?_ _ (List.Perm.swap _ _ _) _ _ _ _ _ _ _ d
  · intro f hf
    simp only [sampleStar, List.mem_cons, List.not_mem_nil, or_false] at hf
    rcases hf with rfl | rfl <;> rfl
  · refine List.pairwise_pair.mpr fun p => ?_
    refine apart_disjoint (r := 1) (r' := 1) one_pos rfl rfl ?_ _ p
    simp only [sampleFacula]
    rw [greatCircle_eq]
    simp [cos_neg, arccos_neg_one]
    linarith [pi_gt_three]

end Vsm
