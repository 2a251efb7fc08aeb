import Verif.Props.StarShares

/-!
# C94, C95: facula index map, temperatures on the surface map
-/

noncomputable section

namespace Vsm

open Real Spec Np

/-! ## C94 -/

/-- The recursion of the deprecated `FaculaCollection.map_pixels` started at index `k`. -/
theorem mapPixels_fold (g : Grid) (pixmap : g.Pix → ℝ) (R T : ℝ) (l : List Facula) (hg : ∀ f ∈ l, f.grid = g) (k : ℕ)
    (cur : g.Pix → ℕ) (step : (g.Pix → ℕ) → Facula × ℕ → Py (g.Pix → ℕ))
    (hstep : ∀ cur f i, f.grid = g → ∃ m, step cur (f, i) = .ok m ∧
      ∀ p, (inFacula f R g p ∧ pixmap p = T → m p = i + 1) ∧ (¬ (inFacula f R g p ∧ pixmap p = T) → m p = cur p)) :
    ∃ m, (l.zipIdx k).foldlM step cur = .ok m ∧ ∀ p,
      ((pixmap p ≠ T ∨ ∀ f ∈ l, ¬ inFacula f R g p) → m p = cur p) ∧
      ∀ i (hi : i < l.length), pixmap p = T → inFacula l[i] R g p →
        (∀ j (hj : j < l.length), i < j → ¬ inFacula l[j] R g p) → m p = k + i + 1 := by
  induction l generalizing k cur with
  | nil => exact ⟨cur, rfl, fun p => ⟨fun _ => rfl, fun i hi => absurd hi (by simp)⟩⟩
  | cons f l ih =>
    obtain ⟨m₁, h1, h2⟩ := hstep cur f k (hg f (by simp))
    obtain ⟨m, h3, h4⟩ := ih (fun f' hf' => hg f' (by simp [hf'])) (k + 1) m₁
    refine ⟨m, ?_, fun p => ⟨?_, ?_⟩⟩
    · rw [List.zipIdx_cons, List.foldlM_cons, h1]
      exact h3
    · intro h
      rw [(h4 p).1, (h2 p).2]
      · rintro ⟨h5, h6⟩
        rcases h with h | h
        · exact h h6
        · exact h f (by simp) h5
      · rcases h with h | h
        · exact Or.inl h
        · exact Or.inr fun f' hf' => h f' (by simp [hf'])
    · intro i hi hT hin hlast
      cases i with
      | zero =>
        rw [(h4 p).1, (h2 p).1 ⟨hin, hT⟩]
        refine Or.inr fun f' hf' => ?_
        obtain ⟨j, hj, rfl⟩ := List.getElem_of_mem hf'
        exact hlast (j + 1) (by simpa using hj) (by omega)
      | succ i =>
        rw [(h4 p).2 i (by simpa using hi) hT hin fun j hj hij => hlast (j + 1) (by simpa using hj) (by omega)]
        ring

/-- **C94** The deprecated `FaculaCollection.map_pixels` returns, for faculae on the collection's grid, a map that
is `i + 1` at a photosphere pixel (`pixmap = star_teff`) whose last facula is number `i` (counted from 0), and 0 at
every other pixel. -/
theorem C94_facula_index (c : FaculaCollection) (hg : ∀ f ∈ c.faculae, f.grid = c.grid) (pixmap : c.grid.Pix → ℝ)
    (R T : ℝ) : ∃ m, c.mapPixels pixmap R T = .ok m ∧ ∀ p,
      (∀ i (hi : i < c.faculae.length), m p = i + 1 ↔ pixmap p = T ∧ inFacula c.faculae[i] R c.grid p ∧
        ∀ j (hj : j < c.faculae.length), i < j → ¬ inFacula c.faculae[j] R c.grid p) ∧
      (m p = 0 ↔ pixmap p ≠ T ∨ ∀ f ∈ c.faculae, ¬ inFacula f R c.grid p) := by
  classical
  obtain ⟨m, h1, h2⟩ := mapPixels_fold c.grid pixmap R T c.faculae hg 0 (fun _ => 0)
    (fun cur fi => do
      let ins ← (fi.1.inside R).on c.grid .valueError
      return fun p => if ins p ∧ pixmap p = T then fi.2 + 1 else cur p) (by
    intro cur f i hf
    simp only [inside_on hf, bind, Except.bind, pure, Except.pure]
    exact ⟨_, rfl, fun p => ⟨fun h => if_pos h, fun h => if_neg h⟩⟩)
  have hlast : ∀ p, pixmap p = T → (∃ f ∈ c.faculae, inFacula f R c.grid p) →
      ∃ i, ∃ hi : i < c.faculae.length, inFacula c.faculae[i] R c.grid p ∧
        ∀ j (hj : j < c.faculae.length), i < j → ¬ inFacula c.faculae[j] R c.grid p := by
    intro p _ hex
    set S := (Finset.univ : Finset (Fin c.faculae.length)).filter fun i => inFacula c.faculae[i] R c.grid p with hS
    have hne : S.Nonempty := by
      obtain ⟨f, hf, hin⟩ := hex
      obtain ⟨j, hj, rfl⟩ := List.getElem_of_mem hf
      exact ⟨⟨j, hj⟩, by simp [hS, hin]⟩
    refine ⟨S.max' hne, (S.max' hne).2, (Finset.mem_filter.mp (S.max'_mem hne)).2, fun j hj hij hin => ?_⟩
    have := S.le_max' ⟨j, hj⟩ (by simp [hS, hin])
    exact absurd (Fin.le_def.mp this) (not_le.mpr hij)
  refine ⟨m, ?_, fun p => ⟨fun i hi => ⟨fun h => ?_, fun h => ?_⟩, fun h => ?_, fun h => (h2 p).1 h⟩⟩
  · unfold FaculaCollection.mapPixels
    exact h1
  · by_cases hT : pixmap p = T
    · by_cases hex : ∃ f ∈ c.faculae, inFacula f R c.grid p
      · obtain ⟨j, hj, hin, hl⟩ := hlast p hT hex
        have := (h2 p).2 j hj hT hin hl
        have hij : i = j := by omega
        subst hij
        exact ⟨hT, hin, hl⟩
      · push Not at hex
        have := (h2 p).1 (Or.inr hex)
        omega
    · have := (h2 p).1 (Or.inl hT)
      omega
  · rw [(h2 p).2 i hi h.1 h.2.1 h.2.2]
    ring
  · by_contra hc
    push Not at hc
    obtain ⟨j, hj, hin, hl⟩ := hlast p hc.1 hc.2
    have := (h2 p).2 j hj hc.1 hin hl
    omega

/-- Non-trivial instance of C94: of two wide faculae the second one is recorded everywhere. -/
example : ∃ m, (FaculaCollection.mk [wideFacula (.rect 3 1), wideFacula (.rect 3 1)] (.rect 3 1)).mapPixels
    (fun _ => 3000) 1 3000 = .ok m ∧ ∀ p, m p = 2 := by
  obtain ⟨m, h1, h2⟩ := C94_facula_index (.mk [wideFacula (.rect 3 1), wideFacula (.rect 3 1)] (.rect 3 1))
    (by intro f hf; simp at hf; subst hf; rfl) (fun _ => 3000) 1 3000
  refine ⟨m, h1, fun p => ?_⟩
  refine ((h2 p).1 1 (by simp)).mpr ⟨rfl, wideFacula_inside p, fun j hj hij => ?_⟩
  simp at hj
  omega

/-! ## C95 -/

/-- **C95** Every temperature on the surface map is accounted for: it is the photosphere's, or that of the umbra
or penumbra of a spot covering the pixel (and then below the photosphere's), or, inside a facula, the rounded and
clipped wall or floor temperature of a facula covering the pixel, between 2300 K and 3900 K. -/
theorem C95_map_temperatures (s : Star) (hs : Placed s) (lat0 lon0 : ℝ) (m : s.grid.Pix → ℝ)
    (hm : s.addFaculaeToMap lat0 lon0 = .ok m) (p : s.grid.Pix) :
    (∃ f ∈ s.faculae.faculae, inFacula f s.radius s.grid p ∧ 2300 ≤ m p ∧ m p ≤ 3900 ∧
      ∃ k : ℤ, (Helpers.roundTeff f.wallDteff = .ok k ∨ Helpers.roundTeff f.floorDteff = .ok k) ∧
        m p = Helpers.clipTeff (k + s.teff)) ∨
    ((∀ f ∈ s.faculae.faculae, ¬ inFacula f s.radius s.grid p) ∧
      (m p = s.teff ∨ (m p < s.teff ∧ ∃ sp ∈ s.spots.spots,
        (m p = sp.teffUmbra ∧ inUmbra sp s.grid s.radius p) ∨ (m p = sp.teffPenumbra ∧ inSpot sp s.grid s.radius p)))) := by
  classical
  rw [addFaculaeToMap_eq s hs] at hm
  obtain ⟨h1, h2⟩ := foldlM_faculae s lat0 lon0 _ hs.2.2 _ m hm p
  cases hl : lastAt s.faculae.faculae s.radius s.grid p with
  | some f =>
    left
    have hf : f ∈ s.faculae.faculae.filter fun f => decide (inFacula f s.radius s.grid p) :=
      List.mem_of_getLast? hl
    rw [List.mem_filter, decide_eq_true_eq] at hf
    obtain ⟨kw, kf, h3, h4, h5⟩ := h2 f hl
    have hclip := C15_clip_teff.1
    refine ⟨f, hf.1, hf.2, ?_⟩
    split_ifs at h5 with h6
    · exact ⟨h5 ▸ (hclip _).1, h5 ▸ (hclip _).2, kw, Or.inl h3, h5⟩
    · exact ⟨h5 ▸ (hclip _).1, h5 ▸ (hclip _).2, kf, Or.inr h4, h5⟩
  | none =>
    right
    have hno : ∀ f ∈ s.faculae.faculae, ¬ inFacula f s.radius s.grid p := by
      intro f hf hin
      unfold lastAt at hl
      rw [List.getLast?_eq_none_iff] at hl
      have : f ∈ s.faculae.faculae.filter fun f => decide (inFacula f s.radius s.grid p) :=
        List.mem_filter.mpr ⟨hf, by simpa using hin⟩
      rw [hl] at this
      simp at this
    refine ⟨hno, ?_⟩
    have h3 := h1 hl
    obtain ⟨h4, h5⟩ := foldl_overlay_cases s.spots.spots s.grid s.radius p s.teff
    rw [← h3] at h4 h5
    rcases eq_or_lt_of_le h4 with h6 | h6
    · exact Or.inl h6
    · exact Or.inr ⟨h6, h5 h6.ne⟩

theorem mem_keys_foldl {τ : Type*} (key : τ → ℤ) (f : τ → Fl) (l : List τ) (d : Dict ℤ Fl) (k : ℤ) :
    k ∈ Dict.keys (l.foldl (fun d t => Dict.set d (key t) (f t)) d) ↔ k ∈ Dict.keys d ∨ ∃ t ∈ l, key t = k := by
  induction l generalizing d with
  | nil => simp
  | cons t l ih =>
    rw [List.foldl_cons, ih, Dict.keys_set]
    constructor
    · rintro (h | ⟨t', h1, h2⟩)
      · split_ifs at h
        · exact Or.inl h
        · rcases List.mem_append.mp h with h | h
          · exact Or.inl h
          · exact Or.inr ⟨t, by simp, by simpa using (List.mem_singleton.mp h).symm⟩
      · exact Or.inr ⟨t', by simp [h1], h2⟩
    · rintro (h | ⟨t', h1, h2⟩)
      · left
        split_ifs
        · exact h
        · exact List.mem_append_left _ h
      · rcases List.mem_cons.mp h1 with rfl | h1
        · left
          split_ifs with h3
          · exact h2 ▸ h3
          · exact List.mem_append_right _ (by simp [h2])
        · exact Or.inr ⟨t', h1, h2⟩

theorem mem_rawData_keys (s : Star) (lat0 lon0 : ℝ) (m : s.grid.Pix → ℝ) (c : s.grid.Pix → Fl) (G : ℝ) (k : ℤ) :
    k ∈ Dict.keys (s.rawData lat0 lon0 m c G) ↔ (∃ p, Star.key (m p) = k) ∨ k = Star.key G := by
  classical
  have hu : ∀ T, T ∈ Star.uniqueTeffs m ↔ ∃ p, m p = T := by
    intro T; simp [Star.uniqueTeffs]
  have hb : ∀ k, (k ∈ Dict.keys ((Star.uniqueTeffs m).foldl (fun d teff => Dict.set d (Star.key teff)
      (s.areaWithTeff lat0 lon0 m c teff / ∑ p, s.weight lat0 lon0 p)) [])) ↔ ∃ p, Star.key (m p) = k := by
    intro k
    rw [mem_keys_foldl Star.key (fun teff => s.areaWithTeff lat0 lon0 m c teff / ∑ p, s.weight lat0 lon0 p)
      (Star.uniqueTeffs m) [] k]
    constructor
    · rintro (h | ⟨T, h1, h2⟩)
      · simp [Dict.keys] at h
      · obtain ⟨p, rfl⟩ := (hu T).mp h1
        exact ⟨p, h2⟩
    · rintro ⟨p, hp⟩
      exact Or.inr ⟨m p, (hu _).mpr ⟨p, rfl⟩, hp⟩
  unfold Star.rawData
  simp only
  split_ifs with hG
  · rw [hb]
    refine ⟨Or.inl, ?_⟩
    rintro (h | h)
    · exact h
    · obtain ⟨p, hp⟩ := (hu _).mp hG
      exact ⟨p, by rw [hp, h]⟩
  · rw [Dict.keys_set]
    split_ifs with hk
    · rw [hb] at hk ⊢
      refine ⟨Or.inl, ?_⟩
      rintro (h | h)
      · exact h
      · exact h ▸ hk
    · rw [List.mem_append, hb, List.mem_singleton]

/-- **C95** The keys of both dictionaries returned by `calc_coverage` are exactly the temperatures (to 0.01 K) that
occur on the surface map, visible or not, and the granulation temperature. -/
theorem C95_keys (s : Star) (lat0 lon0 gran orbit r phase incl : ℝ) (total cov : Dict ℤ Fl) (plf : Fl)
    (h : s.calcCoverage lat0 lon0 gran orbit r phase incl = .ok (total, cov, plf)) :
    ∃ m gr, s.addFaculaeToMap lat0 lon0 = .ok m ∧ s.granulation = some gr ∧
      (∀ k, k ∈ Dict.keys total ↔ (∃ p, Star.key (m p) = k) ∨ k = Star.key (s.teff - gr.dteff)) ∧
      (∀ k, k ∈ Dict.keys cov ↔ (∃ p, Star.key (m p) = k) ∨ k = Star.key (s.teff - gr.dteff)) := by
  obtain ⟨m, mask, gr, h1, -, h3, h4, h5⟩ := calcCoverage_ok.mp h
  refine ⟨m, gr, h1, h3, fun k => ?_, fun k => ?_⟩
  · rw [granulate_keys h4, mem_rawData_keys]
  · rw [granulate_keys h5, mem_rawData_keys]

/-- **C95** Every key is the temperature of the photosphere, of the granules, of an umbra or penumbra, or lies in
the facula range 2300.00 to 3900.00. -/
theorem C95_key_origin (s : Star) (hs : Placed s) (lat0 lon0 gran orbit r phase incl : ℝ) (total cov : Dict ℤ Fl) (plf : Fl)
    (h : s.calcCoverage lat0 lon0 gran orbit r phase incl = .ok (total, cov, plf)) (gr : Granulation)
    (hgr : s.granulation = some gr) (k : ℤ) (hk : k ∈ Dict.keys total) :
    k = Star.key s.teff ∨ k = Star.key (s.teff - gr.dteff) ∨
      (∃ sp ∈ s.spots.spots, k = Star.key sp.teffUmbra ∨ k = Star.key sp.teffPenumbra) ∨
      (s.faculae.faculae ≠ [] ∧ 230000 ≤ k ∧ k ≤ 390000) := by
  obtain ⟨m, gr', hm, hgr', hk', -⟩ := C95_keys s lat0 lon0 gran orbit r phase incl total cov plf h
  rw [hgr, Option.some_inj] at hgr'
  subst hgr'
  rcases (hk' k).mp hk with ⟨p, rfl⟩ | h1
  · rcases C95_map_temperatures s hs lat0 lon0 m hm p with ⟨f, hf, -, h2, h3, -⟩ | ⟨-, h2 | ⟨-, sp, hsp, h3⟩⟩
    · refine Or.inr (Or.inr (Or.inr ⟨fun e => by rw [e] at hf; simp at hf, ?_, ?_⟩))
      · have := Np.roundHalfEven_mono (show (((230000 : ℤ) : ℝ)) ≤ 100 * m p by push_cast; linarith)
        rwa [Np.roundHalfEven_int] at this
      · have := Np.roundHalfEven_mono (show 100 * m p ≤ (((390000 : ℤ) : ℝ)) by push_cast; linarith)
        rwa [Np.roundHalfEven_int] at this
    · exact Or.inl (by rw [h2])
    · refine Or.inr (Or.inr (Or.inl ⟨sp, hsp, ?_⟩))
      rcases h3 with h3 | h3
      · exact Or.inl (by rw [h3.1])
      · exact Or.inr (by rw [h3.1])
  · exact Or.inr (Or.inl h1)

/-- Non-trivial instance of C95: the sample star with a spot and a facula; the granulation temperature is always
a key, and every key has one of the four origins. -/
example : ∃ total cov plf, symStar.calcCoverage (π / 6) 0 0.2 10 (1 / 2) π (π / 2) = .ok (total, cov, plf) ∧
    Star.key (symStar.teff - 0) ∈ Dict.keys total ∧ ∀ k ∈ Dict.keys total, k = Star.key symStar.teff ∨
      (∃ sp ∈ symStar.spots.spots, k = Star.key sp.teffUmbra ∨ k = Star.key sp.teffPenumbra) ∨
      (230000 ≤ k ∧ k ≤ 390000) := by
  obtain ⟨⟨total, cov, plf⟩, hd⟩ := symStar_answers
  have hgr : symStar.granulation = some .off := rfl
  refine ⟨total, cov, plf, hd, ?_, fun k hk => ?_⟩
  · obtain ⟨m, gr, -, h2, h3, -⟩ := C95_keys _ _ _ _ _ _ _ _ _ _ _ hd
    rw [hgr, Option.some_inj] at h2
    subst h2
    exact (h3 _).mpr (Or.inr rfl)
  · rcases C95_key_origin symStar (placed_of_unified symStar_unified).2 _ _ _ _ _ _ _ _ _ _ hd .off hgr k hk with h | h | h | h
    · exact Or.inl h
    · left; rw [h]; congr 1; simp [Granulation.off]
    · exact Or.inr (Or.inl h)
    · exact Or.inr (Or.inr h.2)

end Vsm
