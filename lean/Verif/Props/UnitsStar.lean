import Verif.Model.UnitsStar
import Verif.Props.StarCoverage2

/-!
# The report and the unit of the temperature: C128
-/

noncomputable section

namespace Vsm

open Real Np Spec

/-! ## Renaming keys -/

section rename

variable {κ κ' : Type*} [DecidableEq κ] [DecidableEq κ'] {f : κ → κ'} {S : Set κ}

/-- The dict with each key `k` replaced by `f k`. -/
def renameKeys (f : κ → κ') (d : Dict κ Fl) : Dict κ' Fl := d.map fun e => (f e.1, e.2)

omit [DecidableEq κ] [DecidableEq κ'] in
theorem values_rename (d : Dict κ Fl) : Dict.values (renameKeys f d) = Dict.values d := by
  simp [Dict.values, renameKeys]

theorem get?_rename (hf : S.InjOn f) {d : Dict κ Fl} (hd : ∀ k ∈ Dict.keys d, k ∈ S) {k : κ} (hk : k ∈ S) :
    Dict.get? (renameKeys f d) (f k) = Dict.get? d k := by
  induction d with
  | nil => rfl
  | cons e d ih =>
    obtain ⟨k', v⟩ := e
    have h' : k' ∈ S := hd k' (by simp [Dict.keys])
    have ih := ih fun x hx => hd x (by simp only [Dict.keys, List.map_cons, List.mem_cons]; exact Or.inr hx)
    by_cases h : k' = k
    · subst h; simp [renameKeys, Dict.get?]
    · have : f k' ≠ f k := fun e => h (hf h' hk e)
      simp only [renameKeys, List.map_cons, Dict.get?, if_neg h, if_neg this]
      exact ih

theorem set_rename (hf : S.InjOn f) {d : Dict κ Fl} (hd : ∀ k ∈ Dict.keys d, k ∈ S) {k : κ} (hk : k ∈ S) (v : Fl) :
    Dict.set (renameKeys f d) (f k) v = renameKeys f (Dict.set d k v) := by
  induction d with
  | nil => rfl
  | cons e d ih =>
    obtain ⟨k', v'⟩ := e
    have h' : k' ∈ S := hd k' (by simp [Dict.keys])
    have ih := ih fun x hx => hd x (by simp only [Dict.keys, List.map_cons, List.mem_cons]; exact Or.inr hx)
    by_cases h : k' = k
    · subst h; simp [renameKeys, Dict.set]
    · have : f k' ≠ f k := fun e => h (hf h' hk e)
      simp only [renameKeys, List.map_cons, Dict.set, if_neg h, if_neg this] at ih ⊢
      rw [ih]

theorem keys_set_sub {d : Dict κ Fl} (hd : ∀ k ∈ Dict.keys d, k ∈ S) {k : κ} (hk : k ∈ S) (v : Fl) :
    ∀ x ∈ Dict.keys (Dict.set d k v), x ∈ S := by
  induction d with
  | nil => intro x hx; simp [Dict.set, Dict.keys] at hx; rw [hx]; exact hk
  | cons e d ih =>
    obtain ⟨k', v'⟩ := e
    have h' : k' ∈ S := hd k' (by simp [Dict.keys])
    have hd' : ∀ x ∈ Dict.keys d, x ∈ S := fun x hx => hd x (by simp only [Dict.keys, List.map_cons, List.mem_cons]; exact Or.inr hx)
    intro x hx
    by_cases h : k' = k
    · simp only [Dict.set, if_pos h, Dict.keys, List.map_cons, List.mem_cons] at hx
      rcases hx with rfl | hx
      · exact h'
      · exact hd' x hx
    · simp only [Dict.set, if_neg h, Dict.keys, List.map_cons, List.mem_cons] at hx
      rcases hx with rfl | hx
      · exact h'
      · exact ih hd' x hx

theorem foldl_rename (hf : S.InjOn f) (v : κ → Fl) (l : List κ) (hl : ∀ k ∈ l, k ∈ S) (d : Dict κ Fl)
    (hd : ∀ k ∈ Dict.keys d, k ∈ S) :
    l.foldl (fun d k => Dict.set d (f k) (v k)) (renameKeys f d) = renameKeys f (l.foldl (fun d k => Dict.set d k (v k)) d) ∧
    ∀ k ∈ Dict.keys (l.foldl (fun d k => Dict.set d k (v k)) d), k ∈ S := by
  induction l generalizing d with
  | nil => exact ⟨rfl, hd⟩
  | cons k l ih =>
    have hk := hl k (by simp)
    rw [List.foldl_cons, List.foldl_cons, set_rename hf hd hk]
    exact ih (fun x hx => hl x (by simp [hx])) _ (keys_set_sub hd hk _)

end rename

section report

open Classical in
/-- The entries of a report before granulation, by temperature. -/
def byTemp (s : Star) (lat0 lon0 : ℝ) (m : s.grid.Pix → ℝ) (extra : s.grid.Pix → Fl) (G : ℝ) : Dict ℝ Fl :=
  let d := (Star.uniqueTeffs m).foldl
    (fun d teff => Dict.set d teff (s.areaWithTeff lat0 lon0 m extra teff / ∑ p, s.weight lat0 lon0 p)) []
  if G ∈ Star.uniqueTeffs m then d else Dict.set d G (.fin 0)

open Classical in
/-- Both dicts of the report are the entries by temperature under other names. -/
theorem raw_rename (s : Star) (lat0 lon0 : ℝ) (m : s.grid.Pix → ℝ) (extra : s.grid.Pix → Fl) (G : ℝ) (unit : ℝ) (S : Set ℝ)
    (hS : ∀ T, (∃ p, m p = T) ∨ T = G → T ∈ S) :
    (∀ k ∈ Dict.keys (byTemp s lat0 lon0 m extra G), k ∈ S) ∧
    (S.InjOn Star.key → s.rawData lat0 lon0 m extra G = renameKeys Star.key (byTemp s lat0 lon0 m extra G)) ∧
    (S.InjOn (Star.keyIn unit) →
      s.rawDataIn unit lat0 lon0 m extra G = renameKeys (Star.keyIn unit) (byTemp s lat0 lon0 m extra G)) := by
  have hl : ∀ k ∈ Star.uniqueTeffs m, k ∈ S := fun k hk => hS k (Or.inl (mem_uniqueTeffs.mp hk))
  have h0 : ∀ k ∈ Dict.keys ([] : Dict ℝ Fl), k ∈ S := by simp [Dict.keys]
  have hG := hS G (Or.inr rfl)
  refine ⟨?_, ?_, ?_⟩
  · have := (foldl_rename (f := id) (Set.injOn_id S) (fun T => s.areaWithTeff lat0 lon0 m extra T / ∑ p, s.weight lat0 lon0 p)
      _ hl [] h0).2
    unfold byTemp
    by_cases h : G ∈ Star.uniqueTeffs m
    · simp only [if_pos h]; exact this
    · simp only [if_neg h]; exact keys_set_sub this hG _
  · intro hf
    obtain ⟨h1, h2⟩ := foldl_rename hf (fun T => s.areaWithTeff lat0 lon0 m extra T / ∑ p, s.weight lat0 lon0 p) _ hl [] h0
    unfold byTemp Star.rawData
    simp only [renameKeys, List.map_nil] at h1
    by_cases h : G ∈ Star.uniqueTeffs m
    · simp only [if_pos h]; exact h1
    · simp only [if_neg h]; rw [h1]; exact set_rename hf h2 hG _
  · intro hf
    obtain ⟨h1, h2⟩ := foldl_rename hf (fun T => s.areaWithTeff lat0 lon0 m extra T / ∑ p, s.weight lat0 lon0 p) _ hl [] h0
    unfold byTemp Star.rawDataIn
    simp only [renameKeys, List.map_nil] at h1
    by_cases h : G ∈ Star.uniqueTeffs m
    · simp only [if_pos h]; exact h1
    · simp only [if_neg h]; rw [h1]; exact set_rename hf h2 hG _

/-- Granulation does not look at the names. -/
theorem granulate_rename {S : Set ℝ} {f : ℝ → ℤ} (hf : S.InjOn f) {f' : ℝ → ℤ} (hf' : S.InjOn f') {d : Dict ℝ Fl}
    (hd : ∀ k ∈ Dict.keys d, k ∈ S) {P G : ℝ} (hP : P ∈ S) (hG : G ∈ S) (g : ℝ) :
    (∃ e, Star.granulate (renameKeys f d) (f P) (f G) g = .error e ∧ Star.granulate (renameKeys f' d) (f' P) (f' G) g = .error e) ∨
    ∃ r : Dict ℝ Fl, (∀ k ∈ Dict.keys r, k ∈ S) ∧ Star.granulate (renameKeys f d) (f P) (f G) g = .ok (renameKeys f r) ∧
      Star.granulate (renameKeys f' d) (f' P) (f' G) g = .ok (renameKeys f' r) := by
  unfold Star.granulate Dict.get
  rw [get?_rename hf hd hP, get?_rename hf' hd hP]
  cases h1 : Dict.get? d P with
  | none => left; exact ⟨_, rfl, rfl⟩
  | some v =>
    simp only [bind, Except.bind, pure, Except.pure]
    have hd1 := keys_set_sub hd hP (v * .fin (1 - g))
    rw [set_rename hf hd hP, set_rename hf' hd hP, get?_rename hf hd1 hG, get?_rename hf' hd1 hG]
    cases h2 : Dict.get? (Dict.set d P (v * .fin (1 - g))) G with
    | none => left; exact ⟨_, rfl, rfl⟩
    | some w =>
      right
      exact ⟨_, keys_set_sub hd1 hG (w + v * .fin g), by simp only [set_rename hf hd1 hG], by simp only [set_rename hf' hd1 hG]⟩

end report

theorem keyIn_one (T : ℝ) : Star.keyIn 1 T = Star.key T := by simp [Star.keyIn, Star.key]

theorem keyIn_eq (unit T : ℝ) : Star.keyIn unit T = Star.key (T / unit) := rfl

/-- In kelvin this is the report of `Model/Star.lean`. -/
theorem calcCoverageIn_one (s : Star) (lat0 lon0 gran orbit r phase incl : ℝ) :
    s.calcCoverageIn 1 lat0 lon0 gran orbit r phase incl = s.calcCoverage lat0 lon0 gran orbit r phase incl := by
  have : Star.keyIn 1 = Star.key := funext keyIn_one
  unfold Star.calcCoverageIn Star.calcCoverage Star.rawDataIn Star.rawData
  rw [this]
  rfl

/-- **C128** (partial) In which unit the temperature of a star is given does not matter for its report, if any two different
temperatures occurring differ by more than 0.01 K and by more than 0.01 of that unit: both reports raise the same error, or both
list the same fractions in the same order, the same for each temperature, under its name in the respective unit.
Missing: temperatures less than 0.01 of the unit apart – refuted by `C128_counterexample`. -/
theorem C128_report_units_partial (unit : ℝ) (hu : 0 < unit) (s : Star) (lat0 lon0 gran orbit r phase incl : ℝ)
    (hsep : ∀ m, s.addFaculaeToMap lat0 lon0 = .ok m → ∀ gr, s.granulation = some gr →
      ∀ T ∈ Set.range m ∪ {s.teff, s.teff - gr.dteff}, ∀ T' ∈ Set.range m ∪ {s.teff, s.teff - gr.dteff},
        T ≠ T' → 1 / 100 < |T - T'| ∧ unit / 100 < |T - T'|) :
    (∃ e, s.calcCoverage lat0 lon0 gran orbit r phase incl = .error e ∧
      s.calcCoverageIn unit lat0 lon0 gran orbit r phase incl = .error e) ∨
    ∃ total cov total' cov' plf, s.calcCoverage lat0 lon0 gran orbit r phase incl = .ok (total, cov, plf) ∧
      s.calcCoverageIn unit lat0 lon0 gran orbit r phase incl = .ok (total', cov', plf) ∧
      Dict.values total' = Dict.values total ∧ Dict.values cov' = Dict.values cov ∧
      ∃ name name' : ℝ → ℤ, (∀ T, |(name T : ℝ) - 100 * T| ≤ 1 / 2) ∧ (∀ T, |(name' T : ℝ) - 100 * (T / unit)| ≤ 1 / 2) ∧
        (∀ m, s.addFaculaeToMap lat0 lon0 = .ok m → ∀ gr, s.granulation = some gr →
          ∀ T ∈ Set.range m ∪ {s.teff, s.teff - gr.dteff}, Dict.get? total' (name' T) = Dict.get? total (name T) ∧
            Dict.get? cov' (name' T) = Dict.get? cov (name T)) := by
  unfold Star.calcCoverage Star.calcCoverageIn
  cases hm : s.addFaculaeToMap lat0 lon0 with
  | error e => left; exact ⟨e, rfl, rfl⟩
  | ok m =>
  cases hk : s.transitMask lat0 lon0 orbit r phase incl with
  | error e => left; exact ⟨e, rfl, rfl⟩
  | ok mk =>
  obtain ⟨mask, plf⟩ := mk
  cases hgr : s.granulation with
  | none => left; exact ⟨_, rfl, rfl⟩
  | some gr =>
  have hsep := hsep m hm gr hgr
  set G := s.teff - gr.dteff with hG
  set S : Set ℝ := Set.range m ∪ {s.teff, G} with hS
  have i1 : S.InjOn Star.key := fun T hT T' hT' h => key_inj_of_sep (fun hne => (hsep T hT T' hT' hne).1) h
  have i2 : S.InjOn (Star.keyIn unit) := by
    intro T hT T' hT' h
    have h : Star.key (T / unit) = Star.key (T' / unit) := h
    have := key_inj_of_sep (fun hne => ?_) h
    · exact (div_left_inj' hu.ne').mp this
    · have h2 := (hsep T hT T' hT' fun e => hne (by rw [e])).2
      rw [← sub_div, abs_div, abs_of_pos hu, lt_div_iff₀ hu]
      linarith
  have hT : s.teff ∈ S := by simp [hS]
  have hGS : G ∈ S := by simp [hS]
  have hin : ∀ T, (∃ p, m p = T) ∨ T = G → T ∈ S := by
    rintro T (⟨p, rfl⟩ | rfl)
    · exact Or.inl ⟨p, rfl⟩
    · exact hGS
  obtain ⟨a1, a2, a3⟩ := raw_rename s lat0 lon0 m (fun _ => .fin 1) G unit S hin
  obtain ⟨b1, b2, b3⟩ := raw_rename s lat0 lon0 m mask G unit S hin
  simp only [bind, Except.bind, pure, Except.pure]
  rw [a2 i1, b2 i1, a3 i2, b3 i2]
  rcases granulate_rename i1 i2 a1 hT hGS gran with ⟨e, h1, h2⟩ | ⟨ra, ka, h1, h2⟩
  · left; exact ⟨e, by rw [h1], by rw [h2]⟩
  rcases granulate_rename i1 i2 b1 hT hGS gran with ⟨e, h3, h4⟩ | ⟨rb, kb, h3, h4⟩
  · left; exact ⟨e, by rw [h1, h3], by rw [h2, h4]⟩
  right
  refine ⟨_, _, _, _, plf, by rw [h1, h3], by rw [h2, h4], by rw [values_rename, values_rename], by rw [values_rename, values_rename],
    Star.key, Star.keyIn unit, key_near, fun T => key_near _, ?_⟩
  intro m' hm' gr' hgr' T hTS
  cases hm'
  cases hgr'
  exact ⟨by rw [get?_rename i1 ka hTS, get?_rename i2 ka hTS], by rw [get?_rename i1 kb hTS, get?_rename i2 kb hTS]⟩

/-- **C128** is false in general: granules 4 K cooler than the photosphere.  Given in kelvin the reported fractions add up to 1;
given in kilokelvin photosphere and granules are both called 3.00 kK, the entry of the photosphere is overwritten, and the
fractions add up to 0, for every observer of every such star without spots and faculae. -/
theorem C128_counterexample (nlat nlon : ℕ) (h1 : 4 ≤ nlat) (h2 : 3 ≤ nlon) (lat0 lon0 gran : ℝ)
    (h0 : lat0 ∈ Set.Icc (-(π / 2)) (π / 2)) :
    ∃ total cov total' cov' plf,
      (granStar (.rect nlat nlon) [] 4).calcCoverage lat0 lon0 gran 10 (1 / 2) (π / 2) 0 = .ok (total, cov, plf) ∧
      (granStar (.rect nlat nlon) [] 4).calcCoverageIn 1000 lat0 lon0 gran 10 (1 / 2) (π / 2) 0 = .ok (total', cov', plf) ∧
      (Dict.values total).sum = .fin 1 ∧ (Dict.values total').sum = .fin 0 := by
  set s := granStar (.rect nlat nlon) [] 4 with hs
  have hg : goodGrid s.grid := ⟨by omega, by omega⟩
  have hv : Visible s lat0 lon0 := visible_rect s rfl h1 h2 lat0 lon0
  obtain ⟨a, ha, -⟩ := C02_area_partition s.grid hg
  obtain ⟨-, hW⟩ := visible_pos s hg (granStar_phys _ _ _) ha hv
  have hm := quiet_map (.rect nlat nlon) 4 lat0 lon0
  have hT : s.teff = 3000 := rfl
  have hG : s.teff - 4 = 2996 := by rw [hT]; norm_num
  have hkT : Star.key s.teff = 300000 := by rw [hT]; simpa using key_int 3000
  have hkG : Star.key 2996 = 299600 := by simpa using key_int 2996
  have hk3 : Star.key 3000 = 300000 := hkT
  have near : ∀ x : ℝ, (2.996 : ℝ) ≤ x → x ≤ 3 → Star.key x = 300 := by
    intro x hx hx'
    obtain ⟨h, h'⟩ := abs_le.mp (key_near x)
    have e1 : (299 : ℝ) < Star.key x := by linarith
    have e2 : (Star.key x : ℝ) < 301 := by linarith
    have e1 : (299 : ℤ) < Star.key x := by exact_mod_cast e1
    have e2 : Star.key x < (301 : ℤ) := by exact_mod_cast e2
    omega
  have nT : Star.keyIn 1000 s.teff = 300 := near _ (by rw [hT]; norm_num) (by rw [hT]; norm_num)
  have n3 : Star.keyIn 1000 3000 = 300 := nT
  have nG : Star.keyIn 1000 2996 = 300 := near _ (by norm_num) (by norm_num)
  have : Nonempty s.grid.Pix := ⟨(⟨0, by omega⟩, ⟨0, by omega⟩)⟩
  have hne : ¬ ((2996 : ℝ) ∈ [(3000 : ℝ)]) := by simp
  have hraw : ∀ c : s.grid.Pix → Fl, s.rawDataIn 1000 lat0 lon0 (fun _ => 3000) c 2996 = [(300, .fin 0)] := by
    intro c
    unfold Star.rawDataIn
    rw [uniqueTeffs_const, if_neg hne, nG]
    simp [Dict.set, n3]
  have hgran : Star.granulate [(300, .fin 0)] 300 300 gran = .ok [(300, .fin 0)] := by
    simp [Star.granulate, Dict.get, Dict.get?, Dict.set, bind, Except.bind, pure, Except.pure]
  have hraw' : ∀ c : s.grid.Pix → Fl, ∃ v, s.rawData lat0 lon0 (fun _ => 3000) c 2996 = [(300000, v), (299600, .fin 0)] := by
    intro c
    refine ⟨s.areaWithTeff lat0 lon0 (fun _ => 3000) c 3000 / ∑ p, s.weight lat0 lon0 p, ?_⟩
    unfold Star.rawData
    rw [uniqueTeffs_const, if_neg hne, hkG]
    simp only [List.foldl_cons, List.foldl_nil, Dict.set, hk3]
    rfl
  have hgran' : ∀ v, ∃ d, Star.granulate [(300000, v), (299600, .fin 0)] 300000 299600 gran = .ok d := by
    intro v
    simp [Star.granulate, Dict.get, Dict.get?, Dict.set, bind, Except.bind, pure, Except.pure]
  obtain ⟨v1, e1⟩ := hraw' fun _ => .fin 1
  obtain ⟨v2, e2⟩ := hraw' fun _ => .fin 0
  obtain ⟨d1, g1⟩ := hgran' v1
  obtain ⟨d2, g2⟩ := hgran' v2
  have hb := beside s rfl hg lat0 lon0 h0
  have hc : s.calcCoverage lat0 lon0 gran 10 (1 / 2) (π / 2) 0 = .ok (d1, d2, .fin 1) := by
    refine calcCoverage_ok.mpr ⟨fun _ => 3000, fun _ => .fin 0, ⟨0.2, 1, 1, 4⟩, hm, hb, rfl, ?_, ?_⟩
    · simp only [hG, hkT, hkG, e1]; exact g1
    · simp only [hG, hkT, hkG, e2]; exact g2
  refine ⟨d1, d2, [(300, .fin 0)], [(300, .fin 0)], .fin 1, hc, ?_, ?_, ?_⟩
  · have hgr : s.granulation = some ⟨0.2, 1, 1, 4⟩ := rfl
    have hm' : s.addFaculaeToMap lat0 lon0 = .ok fun _ => 3000 := hm
    unfold Star.calcCoverageIn
    rw [hm', hb, hgr]
    simp only [bind, Except.bind, pure, Except.pure, hG, nT, nG, hraw, hgran]
  · refine (C57_shares_partial s hg one_ne_zero a ha lat0 lon0 h0 hW.ne' gran _ _ _ _ d1 d2 _ hc _ hm 2996
      ⟨_, rfl, hG.symm⟩ ?_).1
    intro T hT1 T' hT2 hne
    have hmem : ∀ x ∈ Set.range (fun _ : s.grid.Pix => (3000 : ℝ)) ∪ {s.teff, 2996}, x = 3000 ∨ x = 2996 := by
      rintro x (⟨p, rfl⟩ | rfl | rfl)
      · exact Or.inl rfl
      · exact Or.inl rfl
      · exact Or.inr rfl
    rcases hmem T hT1 with rfl | rfl <;> rcases hmem T' hT2 with rfl | rfl <;> first | exact absurd rfl hne | norm_num
  · simp [Dict.values]

/-- Non-trivial instance of C128: granules 100 K cooler than the photosphere (3000 K) are told apart in kilokelvin, and the
report is the one in kelvin (80 % photosphere and 20 % granules) under the names 3.00 kK and 2.90 kK. -/
example (lat0 lon0 : ℝ) (h0 : lat0 ∈ Set.Icc (-(π / 2)) (π / 2)) :
    ∃ total cov, (granStar (.rect 4 3) [] 100).calcCoverageIn 1000 lat0 lon0 0.2 10 (1 / 2) (π / 2) 0 = .ok (total, cov, .fin 1) ∧
      Dict.get? total 300 = some (.fin 0.8) ∧ Dict.get? total 290 = some (.fin 0.2) := by
  obtain ⟨total, cov, hc, q1, q2, -, -⟩ := quiet_example lat0 lon0 h0
  have hm := quiet_map (.rect 4 3) 100 lat0 lon0
  have hC := C128_report_units_partial 1000 (by norm_num) (granStar (.rect 4 3) [] 100) lat0 lon0 0.2 10 (1 / 2) (π / 2) 0 (by
    intro m hm' gr hgr T hT1 T' hT2 hne
    rw [hm] at hm'
    cases hm'
    cases hgr
    have hmem : ∀ x ∈ Set.range (fun _ : (granStar (.rect 4 3) [] 100).grid.Pix => (3000 : ℝ)) ∪
        {(granStar (.rect 4 3) [] 100).teff, (granStar (.rect 4 3) [] 100).teff - 100}, x = 3000 ∨ x = 2900 := by
      rintro x (⟨p, rfl⟩ | rfl | rfl)
      · exact Or.inl rfl
      · exact Or.inl rfl
      · right; norm_num [granStar, sampleStar]
    rcases hmem T hT1 with rfl | rfl <;> rcases hmem T' hT2 with rfl | rfl <;> first | exact absurd rfl hne | norm_num)
  rcases hC with
    ⟨e, he, -⟩ | ⟨t, c, t', c', plf, h1, h2, -, -, name, name', hn, hn', h3⟩
  · rw [hc] at he; simp at he
  · rw [hc] at h1
    simp only [Except.ok.injEq, Prod.mk.injEq] at h1
    obtain ⟨rfl, rfl, rfl⟩ := h1
    have h3 := h3 _ hm _ rfl
    have pin : ∀ (x : ℝ) (n k : ℤ), |(k : ℝ) - 100 * x| ≤ 1 / 2 → 100 * x = n → k = n := by
      intro x n k hk e
      rw [e] at hk
      have := abs_le.mp hk
      have e1 : (k : ℝ) < n + 1 := by linarith
      have e2 : (n : ℝ) < k + 1 := by linarith
      have e1 : k < n + 1 := by exact_mod_cast e1
      have e2 : n < k + 1 := by exact_mod_cast e2
      omega
    have a1 := (h3 3000 (Or.inr (Or.inl rfl))).1
    have a2 := (h3 2900 (Or.inr (Or.inr (by norm_num [granStar, sampleStar])))).1
    rw [pin _ 300 _ (hn' 3000) (by norm_num), pin _ 300000 _ (hn 3000) (by norm_num), q1] at a1
    rw [pin _ 290 _ (hn' 2900) (by norm_num), pin _ 290000 _ (hn 2900) (by norm_num), q2] at a2
    exact ⟨_, _, h2, a1, a2⟩

end Vsm
