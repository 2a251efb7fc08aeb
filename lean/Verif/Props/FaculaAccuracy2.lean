import Verif.Props.FaculaAccuracy

/-!
# C102: accuracy of the reported fractions for a star with faculae (continued)
-/

open Real MeasureTheory Vsm.Np Vsm.Spec

noncomputable section

namespace Vsm

/-- A point of the star lies in a facula. -/
def Spec.inAnyFacula (fs : List Facula) (R φ l : ℝ) : Prop :=
  ∃ f ∈ fs, ∃ r : ℝ, f.radius = .fin r ∧ greatCircle f.lat f.lon φ l ≤ r / R

open Classical in
/-- Share of the light of the disk that comes from the points satisfying `A`. -/
def Spec.lightShare (u1 u2 lat0 lon0 : ℝ) (A : ℝ → ℝ → Prop) : ℝ :=
  sphereInt (fun φ l => if A φ l then intensity u1 u2 lat0 lon0 φ l else 0) / sphereInt (intensity u1 u2 lat0 lon0)

/-- The points of temperature `T` outside all faculae. -/
def Spec.bare (spots : List StarSpot) (fs : List Facula) (R teff T φ l : ℝ) : Prop :=
  trueTemp spots R teff φ l = T ∧ ¬ inAnyFacula fs R φ l

/-- The outlines of the faculae. -/
def facOutlines (rad : Facula → ℝ) (fs : List Facula) (R : ℝ) : List (ℝ × ℝ × ℝ) :=
  fs.map fun f => (f.lat, f.lon, rad f / R)

theorem inAnyFacula_iff {fs : List Facula} {rad : Facula → ℝ} (hr : ∀ f ∈ fs, f.radius = .fin (rad f)) (R φ l : ℝ) :
    inAnyFacula fs R φ l ↔ ∃ f ∈ fs, greatCircle f.lat f.lon φ l ≤ rad f / R := by
  constructor
  · rintro ⟨f, hf, r, h1, h2⟩
    rw [hr f hf, Fl.fin_inj] at h1
    exact ⟨f, hf, h1 ▸ h2⟩
  · rintro ⟨f, hf, h⟩
    exact ⟨f, hf, _, hr f hf, h⟩

theorem inAnyFacula_const {fs : List Facula} {rad : Facula → ℝ} (hr : ∀ f ∈ fs, f.radius = .fin (rad f)) (R ρ φ l φ' l' : ℝ)
    (hd : greatCircle φ l φ' l' ≤ ρ) (hno : ∀ k ∈ facOutlines rad fs R, ρ < |greatCircle k.1 k.2.1 φ l - k.2.2|) :
    inAnyFacula fs R φ' l' ↔ inAnyFacula fs R φ l := by
  rw [inAnyFacula_iff hr, inAnyFacula_iff hr]
  have side : ∀ f ∈ fs, (greatCircle f.lat f.lon φ' l' ≤ rad f / R ↔ greatCircle f.lat f.lon φ l ≤ rad f / R) := by
    intro f hf
    have h1 := abs_le.mp ((abs_greatCircle_sub f.lat f.lon φ l φ' l').trans hd)
    rcases lt_abs.mp (hno (f.lat, f.lon, rad f / R) (List.mem_map.mpr ⟨f, hf, rfl⟩)) with h2 | h2 <;> simp only at h2
    · constructor <;> intro h3 <;> linarith [h1.1, h1.2]
    · constructor <;> intro h3 <;> linarith [h1.1, h1.2]
  constructor <;> rintro ⟨f, hf, h⟩
  · exact ⟨f, hf, (side f hf).mp h⟩
  · exact ⟨f, hf, (side f hf).mpr h⟩

theorem inAnyFacula_periodic (fs : List Facula) (R φ l : ℝ) : inAnyFacula fs R φ (l + 2 * π) ↔ inAnyFacula fs R φ l := by
  simp only [inAnyFacula, greatCircle_periodic]

theorem inAnyFacula_measurable {fs : List Facula} {rad : Facula → ℝ} (hr : ∀ f ∈ fs, f.radius = .fin (rad f)) (R : ℝ) :
    MeasurableSet {x : ℝ × ℝ | inAnyFacula fs R x.2 x.1} := by
  simp only [inAnyFacula_iff hr]
  have e : {x : ℝ × ℝ | ∃ f ∈ fs, greatCircle f.lat f.lon x.2 x.1 ≤ rad f / R} =
      ⋃ i : Fin fs.length, {x : ℝ × ℝ | greatCircle (fs.get i).lat (fs.get i).lon x.2 x.1 ≤ rad (fs.get i) / R} := by
    ext x
    simp only [Set.mem_ofPred_eq, Set.mem_iUnion]
    constructor
    · rintro ⟨f, hf, h⟩
      obtain ⟨i, rfl⟩ := List.get_of_mem hf
      exact ⟨i, h⟩
    · rintro ⟨i, h⟩
      exact ⟨_, List.get_mem _ _, h⟩
  rw [e]
  exact MeasurableSet.iUnion fun i => measurableSet_le (greatCircle_measurable _ _) measurable_const

theorem inFacula_pixel {f : Facula} {r R : ℝ} (hr : f.radius = .fin r) (hR : R ≠ 0) (g : Grid) (p : g.Pix) :
    inFacula f R g p ↔ greatCircle f.lat f.lon (g.lat p) (g.lon p) ≤ r / R := by
  rw [inFacula, hr, Fl.fin_div hR, Fl.fin_le, haversine_eq]

theorem inAnyFacula_pixel {fs : List Facula} {rad : Facula → ℝ} (hr : ∀ f ∈ fs, f.radius = .fin (rad f)) {R : ℝ} (hR : R ≠ 0)
    (g : Grid) (p : g.Pix) : inAnyFacula fs R (g.lat p) (g.lon p) ↔ ∃ f ∈ fs, inFacula f R g p := by
  rw [inAnyFacula_iff hr]
  constructor <;> rintro ⟨f, hf, h⟩
  · exact ⟨f, hf, (inFacula_pixel (hr f hf) hR g p).mpr h⟩
  · exact ⟨f, hf, (inFacula_pixel (hr f hf) hR g p).mp h⟩

/-- The bound on the error of the reported fractions with `n` spots and `k` faculae. -/
def Spec.featureError (n k nlat nlon : ℕ) (u1 u2 : ℝ) : ℝ :=
  (14 + 4 * n + 2 * k) * (π / (nlat - 1) + 2 * π / nlon) / (1 - u1 / 3 - u2 / 6)

/-- The same for any grid, with quadrature parameters `ρ` and `ε`. -/
def Spec.gridError (n k : ℕ) (ρ ε u1 u2 : ℝ) : ℝ :=
  ((24 + 8 * n + 4 * k) * ρ + 8 * ε) / (1 - u1 / 3 - u2 / 6)

/-- The additional bound for the outline of a planet of radius `rp`. -/
def Spec.ringError (ρ u1 u2 rp : ℝ) : ℝ :=
  4 * (3 * ρ + 0.0101) * max rp (3 * ρ + 0.0101) / (1 - u1 / 3 - u2 / 6)

/-- The additional bound for the outline of a planet of radius `rp`. -/
def Spec.outlineError (nlat nlon : ℕ) (u1 u2 rp : ℝ) : ℝ :=
  let η := 3 / 2 * (π / (nlat - 1) + 2 * π / nlon) + 0.0101
  4 * η * max rp η / (1 - u1 / 3 - u2 / 6)

open Classical in
/-- The light of the regions of the map, on the pixels and in truth, for any cover `c`, `P`. -/
theorem facula_shares (gd : Grid) {κ ρ ε b : ℝ} (hQd : Quad gd κ ρ ε b) (a : gd.Pix → ℝ)
    (ha : ∀ p, gd.area p = .fin (a p)) (u1 u2 lat0 lon0 : ℝ) (hld : PhysicalLD u1 u2)
    (w : gd.Pix → ℝ)
    (hw : ∀ p, w p = a p * intensity u1 u2 lat0 lon0 (gd.lat p) (gd.lon p))
    (hW : 0 < ∑ p, w p) (spots : List StarSpot) (fs : List Facula) (R teff : ℝ) (hR : 0 < R) (hs : ∀ s ∈ spots, GoodSpot s R)
    (rad : Facula → ℝ) (hr : ∀ f ∈ fs, f.radius = .fin (rad f)) (m₀ m : gd.Pix → ℝ)
    (hm₀ : ∀ p, IsLeast (tempsAt spots gd R teff p) (m₀ p))
    (hm : ∀ p, (∀ f ∈ fs, ¬ inFacula f R gd p) → m p = m₀ p)
    (P : ℝ → ℝ → Prop) (hPm : MeasurableSet {x : ℝ × ℝ | P x.2 x.1}) (hPp : ∀ φ l, P φ (l + 2 * π) ↔ P φ l)
    (q : ℝ → ℝ → ℝ) (hqi : Integrable (fun x : ℝ × ℝ => q x.2 x.1) (sphM b)) (hq0 : ∀ φ l, 0 ≤ q φ l) (Q : ℝ)
    (hQ : ∫ x, q x.2 x.1 ∂sphM b ≤ Q) (c : gd.Pix → ℝ) (hc01 : ∀ p, 0 ≤ c p ∧ c p ≤ 1)
    (hc : ∀ p φ l, greatCircle φ l (gd.lat p) (gd.lon p) ≤ ρ →
      |intensity u1 u2 lat0 lon0 (gd.lat p) (gd.lon p) * c p -
        if P φ l then intensity u1 u2 lat0 lon0 φ l else 0| ≤ 3 * ρ + q φ l) :
    (∀ T, (∀ p, (∃ f ∈ fs, inFacula f R gd p) → m p ≠ T) →
      |share w m c T - lightShare u1 u2 lat0 lon0 (fun φ l => bare spots fs R teff T φ l ∧ P φ l)| ≤
        gridError spots.length fs.length ρ ε u1 u2 + Q / π / (1 - u1 / 3 - u2 / 6)) ∧
    (∀ 𝒯 : Finset ℝ, (∀ p, m p ∈ 𝒯 ↔ ∃ f ∈ fs, inFacula f R gd p) →
      |∑ T ∈ 𝒯, share w m c T - lightShare u1 u2 lat0 lon0 (fun φ l => inAnyFacula fs R φ l ∧ P φ l)| ≤
        gridError spots.length fs.length ρ ε u1 u2 + Q / π / (1 - u1 / 3 - u2 / 6)) := by
  have hp := pi_pos
  have hden : 0 < 1 - u1 / 3 - u2 / 6 := by obtain ⟨x, y, z⟩ := hld; linarith
  set K := outlines spots R ++ facOutlines rad fs R with hK
  have hlen : K.length = 2 * spots.length + fs.length := by
    rw [hK, List.length_append, outlines_length, facOutlines, List.length_map]
  have hbound : ((24 + 4 * K.length) * ρ + 8 * ε + Q / π) / (1 - u1 / 3 - u2 / 6) =
      gridError spots.length fs.length ρ ε u1 u2 + Q / π / (1 - u1 / 3 - u2 / 6) := by
    rw [hlen, gridError, add_div _ (Q / π)]; push_cast; ring
  have hF := inAnyFacula_measurable hr R
  refine ⟨fun T hT => ?_, fun 𝒯 h𝒯 => ?_⟩
  · have key := region_accuracy gd hQd a ha u1 u2 lat0 lon0 hld w hw hW K (bare spots fs R teff T)
      (((trueTemp_measurable spots R teff hR hs) (measurableSet_singleton T)).inter hF.compl)
      (fun φ l => by simp only [bare, trueTemp_periodic, inAnyFacula_periodic])
      (fun ρ' φ l φ' l' hd hno => by
        unfold bare
        rw [trueTemp_const spots R teff hR hs φ l φ' l' ρ' hd (fun k hk => hno k (by rw [hK]; exact List.mem_append_left _ hk)),
          inAnyFacula_const hr R ρ' φ l φ' l' hd (fun k hk => hno k (by rw [hK]; exact List.mem_append_right _ hk))])
      P hPm hPp q hqi hq0 Q hQ c hc01 hc
    rw [hbound] at key
    convert key using 2
    unfold lightShare share
    refine congrArg₂ (· - ·) (congrArg (· / _) ?_) (congrArg (fun z => sphereInt z / _) ?_)
    swap
    · funext φ l; congr
    refine Finset.sum_congr rfl fun p _ => ?_
    have e : m p = T ↔ bare spots fs R teff T (gd.lat p) (gd.lon p) := by
      unfold bare
      rw [inAnyFacula_pixel hr hR.ne', trueTemp_pixel spots _ R teff hR hs p _ (hm₀ p)]
      constructor
      · intro h
        have hno : ¬ ∃ f ∈ fs, inFacula f R gd p := fun h' => hT p h' h
        refine ⟨?_, hno⟩
        rw [← hm p (fun f hf h' => hno ⟨f, hf, h'⟩), h]
      · rintro ⟨h1, h2⟩
        rw [hm p (fun f hf h' => h2 ⟨f, hf, h'⟩), h1]
    simp only [e]
  · have key := region_accuracy gd hQd a ha u1 u2 lat0 lon0 hld w hw hW K (inAnyFacula fs R) hF
      (fun φ l => inAnyFacula_periodic fs R φ l)
      (fun ρ' φ l φ' l' hd hno => inAnyFacula_const hr R ρ' φ l φ' l' hd
        (fun k hk => hno k (by rw [hK]; exact List.mem_append_right _ hk)))
      P hPm hPp q hqi hq0 Q hQ c hc01 hc
    rw [hbound] at key
    convert key using 2
    unfold lightShare share
    refine congrArg₂ (· - ·) ?_ (congrArg (fun z => sphereInt z / _) ?_)
    swap
    · funext φ l; congr
    rw [← Finset.sum_div, Finset.sum_comm]
    refine congrArg (· / _) ?_
    refine Finset.sum_congr rfl fun p _ => ?_
    rw [Finset.sum_ite_eq]
    have e : m p ∈ 𝒯 ↔ inAnyFacula fs R (gd.lat p) (gd.lon p) := by
      rw [inAnyFacula_pixel hr hR.ne', h𝒯]
    simp only [e]

/-- A pixel of the surface map outside all faculae has the temperature of the spots or of the photosphere. -/
theorem map_outside {s : Star} (hpl : Placed s) {lat0 lon0 : ℝ} {m : s.grid.Pix → ℝ} (hm : s.addFaculaeToMap lat0 lon0 = .ok m)
    (hs : ∀ sp ∈ s.spots.spots, sp.teffUmbra ≤ sp.teffPenumbra) :
    ∃ m₀ : s.grid.Pix → ℝ, (∀ p, IsLeast (tempsAt s.spots.spots s.grid s.radius s.teff p) (m₀ p)) ∧
      ∀ p, (∀ f ∈ s.faculae.faculae, ¬ inFacula f s.radius s.grid p) → m p = m₀ p := by
  refine ⟨_, fun p => foldl_overlay_least s.grid s.radius p s.spots.spots hs s.teff, ?_⟩
  rw [addFaculaeToMap_eq s hpl] at hm
  rcases foldFaculae_form s lat0 lon0 s.faculae.faculae hpl.2.2 with ⟨e, he⟩ | ⟨v, hv⟩
  · rw [he] at hm; cases hm
  · obtain ⟨m', h1, -, h2⟩ := hv (fun p =>
      s.spots.spots.foldl (fun c sp => SpotCollection.overlay id sp.teffUmbra sp.teffPenumbra
        (inUmbra sp s.grid s.radius p) (inSpot sp s.grid s.radius p) c) s.teff)
    rw [h1, Except.ok.injEq] at hm
    subst hm
    exact h2

/-- The shares on the pixels of a star with faculae, compared with the truth. -/
theorem star_facula_shares (s : Star) {κ ρ ε b : ℝ} (hQd : Quad s.grid κ ρ ε b)
    (hpl : Placed s) (hR : 0 < s.radius) (hld : PhysicalLD s.u1 s.u2) (hs : ∀ sp ∈ s.spots.spots, GoodSpot sp s.radius)
    (rad : Facula → ℝ) (hr : ∀ f ∈ s.faculae.faculae, f.radius = .fin (rad f)) (lat0 lon0 : ℝ) (hv : Visible s lat0 lon0) (a : s.grid.Pix → ℝ)
    (ha : ∀ p, s.grid.area p = .fin (a p)) (m : s.grid.Pix → ℝ) (hm : s.addFaculaeToMap lat0 lon0 = .ok m)
    (P : ℝ → ℝ → Prop) (hPm : MeasurableSet {x : ℝ × ℝ | P x.2 x.1}) (hPp : ∀ φ l, P φ (l + 2 * π) ↔ P φ l)
    (q : ℝ → ℝ → ℝ) (hqi : Integrable (fun x : ℝ × ℝ => q x.2 x.1) (sphM b)) (hq0 : ∀ φ l, 0 ≤ q φ l) (Q : ℝ)
    (hQ : ∫ x, q x.2 x.1 ∂sphM b ≤ Q) (c : s.grid.Pix → ℝ) (hc01 : ∀ p, 0 ≤ c p ∧ c p ≤ 1)
    (hc : ∀ p φ l, greatCircle φ l (s.grid.lat p) (s.grid.lon p) ≤ ρ →
      |intensity s.u1 s.u2 lat0 lon0 (s.grid.lat p) (s.grid.lon p) * c p -
        (open Classical in if P φ l then intensity s.u1 s.u2 lat0 lon0 φ l else 0)| ≤ 3 * ρ + q φ l) :
    (∀ T, (∀ p, inAnyFacula s.faculae.faculae s.radius (s.grid.lat p) (s.grid.lon p) → m p ≠ T) →
      |share (pixelWeight s a lat0 lon0) m c T -
        lightShare s.u1 s.u2 lat0 lon0 (fun φ l => bare s.spots.spots s.faculae.faculae s.radius s.teff T φ l ∧ P φ l)| ≤
        gridError s.spots.spots.length s.faculae.faculae.length ρ ε s.u1 s.u2 + Q / π / (1 - s.u1 / 3 - s.u2 / 6)) ∧
    (∀ 𝒯 : Finset ℝ, (∀ p, m p ∈ 𝒯 ↔ inAnyFacula s.faculae.faculae s.radius (s.grid.lat p) (s.grid.lon p)) →
      |∑ T ∈ 𝒯, share (pixelWeight s a lat0 lon0) m c T -
        lightShare s.u1 s.u2 lat0 lon0 (fun φ l => inAnyFacula s.faculae.faculae s.radius φ l ∧ P φ l)| ≤
        gridError s.spots.spots.length s.faculae.faculae.length ρ ε s.u1 s.u2 + Q / π / (1 - s.u1 / 3 - s.u2 / 6)) := by
  classical
  obtain ⟨-, hW⟩ := visible_pos s hQd.good hld ha hv
  obtain ⟨m₀, h1, h2⟩ := map_outside hpl hm (fun sp hsp => (hs sp hsp).2.2)
  simp only [inAnyFacula_pixel hr hR.ne']
  exact facula_shares s.grid hQd a ha s.u1 s.u2 lat0 lon0 hld (pixelWeight _ a lat0 lon0) (fun p => by
        unfold pixelWeight intensity
        rw [(C03_mu_inner _ lat0 lon0 p).2.2.2]
        ring) hW s.spots.spots s.faculae.faculae s.radius s.teff hR hs rad hr m₀ m h1 h2 P hPm hPp q hqi hq0 Q hQ c hc01 hc

/-- What should be reported, given the true shares `sh` of the temperatures: the fraction `g` of the photosphere is moved to the
granulation temperature `G`. -/
def Spec.granMoved (sh : ℝ → ℝ) (teff G g T : ℝ) : ℝ :=
  sh T + (open Classical in if T = G then g * sh teff else 0) - (open Classical in if T = teff then g * sh teff else 0)

/-- The fractions reported with the entries of C57 compared with true shares. -/
theorem moved_accuracy {ι : Type} [Fintype ι] (w m c : ι → ℝ) (tru : ℝ → ℝ) (teff G g E : ℝ) (hg0 : 0 ≤ g) (label : ℝ → ℤ)
    (d : Dict ℤ Fl) (rep : Set ℝ) (hl : ∀ T, |(label T : ℝ) - 100 * T| ≤ 1 / 2)
    (hrep : ∀ T ∈ ({teff, G} : Set ℝ), T ∈ rep)
    (hsep : ∀ T ∈ Set.range m ∪ rep, ∀ T' ∈ Set.range m ∪ rep, T ≠ T' → 1 / 100 < |T - T'|)
    (hkeys : ∀ k ∈ Dict.keys d, ∃ T ∈ Set.range m ∪ {teff, G}, k = label T)
    (hent : ∀ T ∈ Set.range m ∪ {teff, G}, Dict.get? d (label T) = some (.fin (share w m c T +
          (open Classical in if T = G then g * share w m c teff else 0) -
          (open Classical in if T = teff then g * share w m c teff else 0))))
    (hacc : ∀ T ∈ rep, |share w m c T - tru T| ≤ E) (T : ℝ) (hT : T ∈ rep) :
    ∃ v : ℝ, (Dict.get? d (label T)).getD (.fin 0) = .fin v ∧ |v - granMoved tru teff G g T| ≤ (1 + g) * E := by
  classical
  have hsh := hacc T hT
  have hsh' := hacc teff (hrep teff (Or.inl rfl))
  have hE0 : 0 ≤ E := (abs_nonneg _).trans hsh
  have h5 := mul_nonneg hg0 hE0
  by_cases hin : T ∈ Set.range m ∪ {teff, G}
  · refine ⟨_, by rw [hent T hin]; rfl, ?_⟩
    have h1 := abs_le.mp hsh
    have h2 := abs_le.mp hsh'
    unfold granMoved
    set A := share w m c T
    set B := share w m c teff
    set A' := tru T
    set B' := tru teff
    have h3 : g * (B - B') ≤ g * E := mul_le_mul_of_nonneg_left h2.2 hg0
    have h4 : g * (-E) ≤ g * (B - B') := mul_le_mul_of_nonneg_left h2.1 hg0
    rw [abs_le]
    split_ifs <;> constructor <;> linarith [h1.1, h1.2]
  · have hnone : Dict.get? d (label T) = none := by
      rw [Dict.get?_eq_none]
      intro hk
      obtain ⟨T', hT', he⟩ := hkeys _ hk
      have hne : T ≠ T' := fun e => hin (e ▸ hT')
      have hs' := hsep T (Or.inr hT) T' (hT'.imp id (hrep T')) hne
      have e1 := abs_le.mp (hl T)
      have e2 := abs_le.mp (hl T')
      rw [he] at e1
      have : |T - T'| ≤ 1 / 100 := abs_le.mpr ⟨by linarith [e1.1, e2.2], by linarith [e1.2, e2.1]⟩
      linarith
    refine ⟨0, by rw [hnone]; rfl, ?_⟩
    simp only [Set.mem_union, Set.mem_insert_iff, Set.mem_singleton_iff, not_or] at hin
    have hz : share w m c T = 0 := share_of_notMem fun p hp => hin.1 ⟨p, hp⟩
    rw [hz] at hsh
    unfold granMoved
    rw [if_neg hin.2.2, if_neg hin.2.1, add_zero, sub_zero]
    linarith

theorem behind_measurable (R orbit r phase incl lat0 lon0 : ℝ) :
    MeasurableSet {x : ℝ × ℝ | behindPlanet R orbit r phase incl lat0 lon0 x.2 x.1} := by
  have h : MeasurableSet {x : ℝ × ℝ | planetDist (planetPos R orbit phase incl).1 (planetPos R orbit phase incl).2
      (orthoX lat0 lon0 x.2 x.1) (orthoY lat0 lon0 x.2 x.1) < r / R} := by
    refine measurableSet_lt ?_ measurable_const
    unfold planetDist orthoX orthoY; fun_prop
  exact (MeasurableSet.const (cos phase ≤ 0)).inter h

theorem grid_mask_right (s : Star) {κ ρ ε b : ℝ} (hQd : Quad s.grid κ ρ ε b)
    (hR : s.radius ≠ 0) (lat0 lon0 : ℝ) (h0 : lat0 ∈ Set.Icc (-(π / 2)) (π / 2))
    (hpole : lat0 ∈ Set.Ioo (-(π / 2)) (π / 2) ∨ ∃ k : ℤ, lon0 = k * (2 * π)) (orbit r phase incl : ℝ)
    (c : s.grid.Pix → ℝ) (plf : Fl) (h : s.transitMask lat0 lon0 orbit r phase incl = .ok (fun p => .fin (c p), plf))
    (X Y : ℝ) (hXY : (X, Y) = planetPos s.radius orbit phase incl) (hph : cos phase ≤ 0)
    (hnear : planetDist X Y 0 0 ≤ 1 + 2 * (r / s.radius)) (p : s.grid.Pix)
    (hvis : 0 ≤ cosDist lat0 lon0 (s.grid.lat p) (s.grid.lon p)) :
    (r / s.radius + 2 * ρ + 0.0101 < planetDist X Y (orthoX lat0 lon0 (s.grid.lat p) (s.grid.lon p))
      (orthoY lat0 lon0 (s.grid.lat p) (s.grid.lon p)) → c p = 0) ∧
    (planetDist X Y (orthoX lat0 lon0 (s.grid.lat p) (s.grid.lon p)) (orthoY lat0 lon0 (s.grid.lat p) (s.grid.lon p)) +
      2 * ρ + 0.0101 < r / s.radius → c p = 1) := by
  have hg : goodGrid s.grid := hQd.good
  obtain ⟨a, ha, -⟩ := C02_area_partition s.grid hg
  obtain ⟨v, hv, -, -, -, -, -, hv'⟩ := C63_transit_mask s hg hR a ha lat0 lon0 orbit r phase incl h0 _ plf h X Y _ hXY rfl p
  rw [Fl.fin_inj] at hv
  rw [hv]
  obtain ⟨px, py, hproj, hd⟩ := projOrtho_dist lat0 lon0 (s.grid.lat p) (s.grid.lon p) h0 hpole
    (grid_lat_mem s.grid hg p) hvis
  have hd := abs_le.mp (hd X Y)
  obtain ⟨k1, k2⟩ := hv' px py hproj
  have hrad : 4 * √(a p) ≤ 2 * ρ := hQd.small a ha p
  have hmu : s.grid.mu lat0 lon0 p ≤ 1 := by
    rw [(C03_mu_inner _ lat0 lon0 p).2.2.2]; exact cos_le_one _
  have h5 : 2 * (2 * √(a p) * s.grid.mu lat0 lon0 p) ≤ 2 * ρ := by
    have := mul_le_mul_of_nonneg_left hmu (sqrt_nonneg (a p))
    linarith
  exact ⟨fun h => k1 (by linarith [hd.1]), fun h => k2 hph hnear (by linarith [hd.2])⟩

/-- The transit mask compared with the points behind the planet. -/
theorem mask_pointwise (s : Star) {κ ρ ε b : ℝ} (hQd : Quad s.grid κ ρ ε b)
    (hR : 0 < s.radius) (hld : PhysicalLD s.u1 s.u2) (lat0 lon0 : ℝ)
    (h0 : lat0 ∈ Set.Icc (-(π / 2)) (π / 2)) (hpole : lat0 ∈ Set.Ioo (-(π / 2)) (π / 2) ∨ ∃ k : ℤ, lon0 = k * (2 * π))
    (orbit r phase incl : ℝ) (c : s.grid.Pix → ℝ) (plf : Fl)
    (h : s.transitMask lat0 lon0 orbit r phase incl = .ok (fun p => .fin (c p), plf)) :
    (∀ p, 0 ≤ c p ∧ c p ≤ 1) ∧
    ∀ p φ l, greatCircle φ l (s.grid.lat p) (s.grid.lon p) ≤ ρ →
      |intensity s.u1 s.u2 lat0 lon0 (s.grid.lat p) (s.grid.lon p) * c p -
        (open Classical in if behindPlanet s.radius orbit r phase incl lat0 lon0 φ l then intensity s.u1 s.u2 lat0 lon0 φ l else 0)| ≤
        3 * ρ +
        planetRing lat0 lon0 (planetPos s.radius orbit phase incl).1 (planetPos s.radius orbit phase incl).2 (r / s.radius)
          (3 * ρ + 0.0101) φ l := by
  classical
  have hg : goodGrid s.grid := hQd.good
  obtain ⟨a, ha, -⟩ := C02_area_partition s.grid hg
  have hmask := C63_transit_mask s hg hR.ne' a ha lat0 lon0 orbit r phase incl h0 _ plf h _ _ _ rfl rfl
  have h01 : ∀ p, 0 ≤ c p ∧ c p ≤ 1 := by
    intro p
    obtain ⟨v, hv, h1, h2, -⟩ := hmask p
    rw [Fl.fin_inj] at hv
    rw [hv]; exact ⟨h1, h2⟩
  refine ⟨h01, fun p φ l hd => ?_⟩
  have hρ0 := hQd.near
  by_cases hno : 0 < cos phase ∨ 1 + 2 * (r / s.radius) <
      planetDist (planetPos s.radius orbit phase incl).1 (planetPos s.radius orbit phase incl).2 0 0
  · have hc : c p = 0 := by
      obtain ⟨v, hv, -, -, -, h1, h2, -⟩ := hmask p
      rw [Fl.fin_inj] at hv
      rw [hv]
      exact hno.elim h1 h2
    rw [hc, if_neg (not_behind s.radius orbit r phase incl lat0 lon0 _ _ hno), mul_zero, sub_zero, abs_zero]
    have := planetRing_nonneg lat0 lon0 (planetPos s.radius orbit phase incl).1 (planetPos s.radius orbit phase incl).2 (r / s.radius)
          (3 * ρ + 0.0101) φ l
    linarith
  · rw [not_or, not_lt, not_lt] at hno
    have hright := grid_mask_right s hQd hR.ne' lat0 lon0 h0 hpole orbit r phase incl c plf h _ _ rfl
      hno.1 hno.2 p
    have := cover_pointwise hld lat0 lon0 _ _ _ _ hρ0 φ l (s.grid.lat p) (s.grid.lon p) (c p) hd (h01 p) hright
    unfold behindPlanet
    simp only [hno.1, true_and]
    exact this

/-- The accuracy of the reported fractions on any grid with a quadrature rule. -/
theorem feature_accuracy (s : Star) {κ ρ ε b : ℝ} (hQd : Quad s.grid κ ρ ε b)
    (hpl : Placed s) (hR : 0 < s.radius) (hld : PhysicalLD s.u1 s.u2) (hs : ∀ sp ∈ s.spots.spots, GoodSpot sp s.radius)
    (hrad : ∀ f ∈ s.faculae.faculae, ∃ r, f.radius = .fin r) (lat0 lon0 : ℝ) (hv : Visible s lat0 lon0)
    (h0 : lat0 ∈ Set.Icc (-(π / 2)) (π / 2)) (hpole : lat0 ∈ Set.Ioo (-(π / 2)) (π / 2) ∨ ∃ k : ℤ, lon0 = k * (2 * π))
    (g orbit r phase incl : ℝ) (hg0 : 0 ≤ g) (total cov : Dict ℤ Fl)
    (plf : Fl) (h : s.calcCoverage lat0 lon0 g orbit r phase incl = .ok (total, cov, plf)) (gr : Granulation)
    (hgr : s.granulation = some gr) (m : s.grid.Pix → ℝ) (hm : s.addFaculaeToMap lat0 lon0 = .ok m)
    (hfac : ∀ p, inAnyFacula s.faculae.faculae s.radius (s.grid.lat p) (s.grid.lon p) →
      m p ∉ reportTemps s.spots.spots s.teff (s.teff - gr.dteff))
    (hsep : ∀ T ∈ Set.range m ∪ reportTemps s.spots.spots s.teff (s.teff - gr.dteff),
      ∀ T' ∈ Set.range m ∪ reportTemps s.spots.spots s.teff (s.teff - gr.dteff), T ≠ T' → 1 / 100 < |T - T'|) :
    ∃ label : ℝ → ℤ, (∀ T, |(label T : ℝ) - 100 * T| ≤ 1 / 2) ∧
      ∀ (d : Dict ℤ Fl) (P : ℝ → ℝ → Prop) (E : ℝ),
        (d = total ∧ P = (fun _ _ => True) ∧
          E = gridError s.spots.spots.length s.faculae.faculae.length ρ ε s.u1 s.u2) ∨
        (d = cov ∧ P = behindPlanet s.radius orbit r phase incl lat0 lon0 ∧
          E = gridError s.spots.spots.length s.faculae.faculae.length ρ ε s.u1 s.u2 +
            ringError ρ s.u1 s.u2 (r / s.radius)) →
        (∀ T ∈ reportTemps s.spots.spots s.teff (s.teff - gr.dteff), ∃ v : ℝ,
          (Dict.get? d (label T)).getD (.fin 0) = .fin v ∧
          |v - granMoved (fun T => lightShare s.u1 s.u2 lat0 lon0 (fun φ l =>
            bare s.spots.spots s.faculae.faculae s.radius s.teff T φ l ∧ P φ l)) s.teff (s.teff - gr.dteff) g T| ≤ (1 + g) * E) ∧
        ∀ 𝒯 : Finset ℝ, (∀ T, T ∈ 𝒯 ↔ ∃ p, inAnyFacula s.faculae.faculae s.radius (s.grid.lat p) (s.grid.lon p) ∧ m p = T) →
          ∃ v : ℝ → ℝ, (∀ T ∈ 𝒯, Dict.get? d (label T) = some (.fin (v T))) ∧
            |∑ T ∈ 𝒯, v T - lightShare s.u1 s.u2 lat0 lon0 (fun φ l => inAnyFacula s.faculae.faculae s.radius φ l ∧ P φ l)| ≤ E := by
  classical
  have hg : goodGrid s.grid := hQd.good
  obtain ⟨a, ha, -⟩ := C02_area_partition s.grid hg
  obtain ⟨-, hW⟩ := visible_pos s hg hld ha hv
  choose! rad hr using hrad
  have hp := pi_pos
  have hden : 0 < 1 - s.u1 / 3 - s.u2 / 6 := by obtain ⟨x, y, z⟩ := hld; linarith
  set rep := reportTemps s.spots.spots s.teff (s.teff - gr.dteff) with hrep
  have hrep2 : ∀ T ∈ ({s.teff, s.teff - gr.dteff} : Set ℝ), T ∈ rep := fun T hT => Or.inl hT
  have hsub : ∀ T ∈ Set.range m ∪ {s.teff, s.teff - gr.dteff}, T ∈ Set.range m ∪ rep :=
    fun T hT => hT.imp id (hrep2 T)
  obtain ⟨-, label, hl, hkeys, mask, hmk, hent⟩ := C57_shares_partial s hg hR.ne' a ha lat0 lon0 h0 hW.ne' g orbit r phase incl
    total cov plf h m hm (s.teff - gr.dteff) ⟨gr, hgr, rfl⟩ (fun T h1 T' h2 => hsep T (hsub T h1) T' (hsub T' h2))
  have hkeys' : ∀ k ∈ Dict.keys cov, ∃ T ∈ Set.range m ∪ {s.teff, s.teff - gr.dteff}, k = label T := by
    obtain ⟨m', gr', e1, e2, k1, k2⟩ := C95_keys s lat0 lon0 g orbit r phase incl total cov plf h
    exact fun k hk => hkeys k ((k1 k).mpr ((k2 k).mp hk))
  refine ⟨label, hl, ?_⟩
  -- everything follows from the shares on the pixels
  have main : ∀ (d : Dict ℤ Fl) (c : s.grid.Pix → ℝ) (P : ℝ → ℝ → Prop) (E : ℝ), (d = total ∧ c = fun _ => 1) ∨ (d = cov ∧ c = mask) →
      (∀ k ∈ Dict.keys d, ∃ T ∈ Set.range m ∪ {s.teff, s.teff - gr.dteff}, k = label T) →
      ((∀ T, (∀ p, inAnyFacula s.faculae.faculae s.radius (s.grid.lat p) (s.grid.lon p) → m p ≠ T) →
        |share (pixelWeight s a lat0 lon0) m c T -
        lightShare s.u1 s.u2 lat0 lon0 (fun φ l => bare s.spots.spots s.faculae.faculae s.radius s.teff T φ l ∧ P φ l)| ≤ E) ∧
      (∀ 𝒯 : Finset ℝ, (∀ p, m p ∈ 𝒯 ↔ inAnyFacula s.faculae.faculae s.radius (s.grid.lat p) (s.grid.lon p)) →
      |∑ T ∈ 𝒯, share (pixelWeight s a lat0 lon0) m c T -
        lightShare s.u1 s.u2 lat0 lon0 (fun φ l => inAnyFacula s.faculae.faculae s.radius φ l ∧ P φ l)| ≤ E)) →
      (∀ T ∈ rep, ∃ v : ℝ,
          (Dict.get? d (label T)).getD (.fin 0) = .fin v ∧
          |v - granMoved (fun T => lightShare s.u1 s.u2 lat0 lon0 (fun φ l =>
            bare s.spots.spots s.faculae.faculae s.radius s.teff T φ l ∧ P φ l)) s.teff (s.teff - gr.dteff) g T| ≤ (1 + g) * E) ∧
        ∀ 𝒯 : Finset ℝ, (∀ T, T ∈ 𝒯 ↔ ∃ p, inAnyFacula s.faculae.faculae s.radius (s.grid.lat p) (s.grid.lon p) ∧ m p = T) →
          ∃ v : ℝ → ℝ, (∀ T ∈ 𝒯, Dict.get? d (label T) = some (.fin (v T))) ∧
            |∑ T ∈ 𝒯, v T - lightShare s.u1 s.u2 lat0 lon0 (fun φ l => inAnyFacula s.faculae.faculae s.radius φ l ∧ P φ l)| ≤ E := by
    intro d c P E hdc hk ⟨acc1, acc2⟩
    have hent' := hent d c hdc
    refine ⟨fun T hT => moved_accuracy _ m c (fun T => lightShare s.u1 s.u2 lat0 lon0 (fun φ l =>
            bare s.spots.spots s.faculae.faculae s.radius s.teff T φ l ∧ P φ l)) s.teff (s.teff - gr.dteff) g E hg0 label d rep hl
            hrep2 hsep hk hent' (fun T hT => acc1 T fun p hp' e => hfac p hp' (e ▸ hT)) T hT, fun 𝒯 h𝒯 => ?_⟩
    refine ⟨share (pixelWeight s a lat0 lon0) m c, fun T hT => ?_, acc2 𝒯 fun p => ?_⟩
    · obtain ⟨p, hp', e⟩ := (h𝒯 T).mp hT
      have hno : T ∉ rep := e ▸ hfac p hp'
      rw [hent' T (Or.inl ⟨p, e⟩), if_neg (show ¬ T = s.teff - gr.dteff from fun e' => hno (hrep2 T (Or.inr e'))),
        if_neg (show ¬ T = s.teff from fun e' => hno (hrep2 T (Or.inl e'))),
        add_zero, sub_zero]
    · rw [h𝒯]
      constructor
      · rintro ⟨p', hp', e⟩
        by_contra hout
        -- a pixel outside all faculae shows one of the other temperatures
        rcases C95_map_temperatures s hpl lat0 lon0 m hm p with ⟨f, hf, hin, -⟩ | ⟨-, hh⟩
        · exact hout ((inAnyFacula_pixel hr hR.ne' s.grid p).mpr ⟨f, hf, hin⟩)
        · refine hfac p' hp' ?_
          rw [e]
          rcases hh with h1 | ⟨-, sp, hsp, h2⟩
          · exact Or.inl (Or.inl h1)
          · exact Or.inr ⟨sp, hsp, (h2.imp And.left And.left).symm⟩
      · exact fun hp' => ⟨p, hp', rfl⟩
  rintro d P E (⟨rfl, rfl, rfl⟩ | ⟨rfl, rfl, rfl⟩)
  · refine main _ (fun _ => 1) _ _ (Or.inl ⟨rfl, rfl⟩) hkeys ?_
    have := star_facula_shares s hQd hpl hR hld hs rad hr lat0 lon0 hv a ha m hm (fun _ _ => True)
      (by simp) (by simp) (fun _ _ => 0) (integrable_zero _ _ _) (fun _ _ => le_rfl) 0 (by simp) (fun _ => 1)
      (fun _ => ⟨zero_le_one, le_rfl⟩) (fun p φ l hd => by
        rw [mul_one, if_pos trivial, add_zero]
        exact intensity_lip hld lat0 lon0 _ _ _ _ _ hd)
    simpa only [zero_div, add_zero] using this
  · obtain ⟨h01, hpt⟩ := mask_pointwise s hQd hR hld lat0 lon0 h0 hpole orbit r phase incl mask plf hmk
    refine main _ mask _ _ (Or.inr ⟨rfl, rfl⟩) hkeys' ?_
    have hρ0 := hQd.near
    obtain ⟨pi1, pi2⟩ := planetRing_integral b lat0 lon0 (planetPos s.radius orbit phase incl).1
      (planetPos s.radius orbit phase incl).2 (r / s.radius) (3 * ρ + 0.0101) (by positivity)
    have := star_facula_shares s hQd hpl hR hld hs rad hr lat0 lon0 hv a ha m hm _
      (behind_measurable s.radius orbit r phase incl lat0 lon0)
      (fun φ l => by unfold behindPlanet; rw [orthoX_periodic, orthoY_periodic]) _ pi1
      (fun φ l => planetRing_nonneg _ _ _ _ _ _ φ l) _ pi2 mask h01 hpt
    have e : 4 * π * (3 * ρ + 0.0101) * max (r / s.radius) (3 * ρ + 0.0101) / π / (1 - s.u1 / 3 - s.u2 / 6) =
        ringError ρ s.u1 s.u2 (r / s.radius) := by
      unfold ringError
      congr 1
      rw [div_eq_iff hp.ne']; ring
    rwa [e] at this

/-- **C102** For a star with spots and faculae on a rectangular grid, seen from anywhere (from a pole: at longitude zero), whose
faculae show other temperatures than its spots, its photosphere and its granulation: both the total fractions reported by
`calc_coverage` (for all points of the disk, `P = True`) and the covered fractions (for the points behind the planet) are close
to the truth.  For the photosphere, the granulation and the spots, the reported fraction is that of the light from the
points of that temperature outside all faculae (a fraction `g` of the photosphere being moved to the granulation), and
the fractions of all temperatures that occur in faculae together are the fraction of the light from the faculae. -/
theorem C102_facula_accuracy (s : Star) (nlat nlon : ℕ) (hgrid : s.grid = .rect nlat nlon) (hlat : 4 ≤ nlat) (hlon : 3 ≤ nlon)
    (hpl : Placed s) (hR : 0 < s.radius) (hld : PhysicalLD s.u1 s.u2) (hs : ∀ sp ∈ s.spots.spots, GoodSpot sp s.radius)
    (hrad : ∀ f ∈ s.faculae.faculae, ∃ r, f.radius = .fin r) (lat0 lon0 : ℝ)
    (h0 : lat0 ∈ Set.Icc (-(π / 2)) (π / 2)) (hpole : lat0 ∈ Set.Ioo (-(π / 2)) (π / 2) ∨ ∃ k : ℤ, lon0 = k * (2 * π))
    (g orbit r phase incl : ℝ) (hg0 : 0 ≤ g) (total cov : Dict ℤ Fl)
    (plf : Fl) (h : s.calcCoverage lat0 lon0 g orbit r phase incl = .ok (total, cov, plf)) (gr : Granulation)
    (hgr : s.granulation = some gr) (m : s.grid.Pix → ℝ) (hm : s.addFaculaeToMap lat0 lon0 = .ok m)
    (hfac : ∀ p, inAnyFacula s.faculae.faculae s.radius (s.grid.lat p) (s.grid.lon p) →
      m p ∉ reportTemps s.spots.spots s.teff (s.teff - gr.dteff))
    (hsep : ∀ T ∈ Set.range m ∪ reportTemps s.spots.spots s.teff (s.teff - gr.dteff),
      ∀ T' ∈ Set.range m ∪ reportTemps s.spots.spots s.teff (s.teff - gr.dteff), T ≠ T' → 1 / 100 < |T - T'|) :
    ∃ label : ℝ → ℤ, (∀ T, |(label T : ℝ) - 100 * T| ≤ 1 / 2) ∧
      ∀ (d : Dict ℤ Fl) (P : ℝ → ℝ → Prop) (E : ℝ),
        (d = total ∧ P = (fun _ _ => True) ∧
          E = featureError s.spots.spots.length s.faculae.faculae.length nlat nlon s.u1 s.u2) ∨
        (d = cov ∧ P = behindPlanet s.radius orbit r phase incl lat0 lon0 ∧
          E = featureError s.spots.spots.length s.faculae.faculae.length nlat nlon s.u1 s.u2 +
            outlineError nlat nlon s.u1 s.u2 (r / s.radius)) →
        (∀ T ∈ reportTemps s.spots.spots s.teff (s.teff - gr.dteff), ∃ v : ℝ,
          (Dict.get? d (label T)).getD (.fin 0) = .fin v ∧
          |v - granMoved (fun T => lightShare s.u1 s.u2 lat0 lon0 (fun φ l =>
            bare s.spots.spots s.faculae.faculae s.radius s.teff T φ l ∧ P φ l)) s.teff (s.teff - gr.dteff) g T| ≤ (1 + g) * E) ∧
        ∀ 𝒯 : Finset ℝ, (∀ T, T ∈ 𝒯 ↔ ∃ p, inAnyFacula s.faculae.faculae s.radius (s.grid.lat p) (s.grid.lon p) ∧ m p = T) →
          ∃ v : ℝ → ℝ, (∀ T ∈ 𝒯, Dict.get? d (label T) = some (.fin (v T))) ∧
            |∑ T ∈ 𝒯, v T - lightShare s.u1 s.u2 lat0 lon0 (fun φ l => inAnyFacula s.faculae.faculae s.radius φ l ∧ P φ l)| ≤ E := by
  have hq := quad_rect nlat nlon (by omega) (by omega)
  obtain ⟨label, hl, key⟩ := feature_accuracy s (by rw [hgrid]; exact hq) hpl hR hld hs hrad lat0 lon0
    (visible_rect s hgrid hlat hlon lat0 lon0) h0 hpole g orbit r phase incl hg0 total cov plf h gr hgr m hm hfac hsep
  refine ⟨label, hl, ?_⟩
  have hp := pi_pos
  have hden : 0 < 1 - s.u1 / 3 - s.u2 / 6 := by obtain ⟨x, y, z⟩ := hld; linarith
  obtain ⟨hδ0, hδ2, hδ, hcc, -⟩ := rect_area_sin nlat nlon (by omega) (by omega)
  have e2 : 2 * π / (nlon : ℝ) = 2 * (π / nlon) := by ring
  have hnp : 0 < π / (nlon : ℝ) := div_pos hp (by exact_mod_cast (by omega : 0 < nlon))
  have b1 : gridError s.spots.spots.length s.faculae.faculae.length (π / (nlat - 1) / 2 + π / nlon)
      (1 - cos (π / (nlat - 1) / 2)) s.u1 s.u2 ≤ featureError s.spots.spots.length s.faculae.faculae.length nlat nlon s.u1 s.u2 := by
    unfold gridError featureError
    rw [div_le_div_iff_of_pos_right hden, e2]
    set δ : ℝ := π / (nlat - 1)
    have hcos := one_sub_sq_div_two_le_cos (x := δ / 2)
    have : δ ^ 2 / 8 ≤ δ / 4 := by nlinarith [pi_le_four]
    nlinarith
  have b2 : ringError (π / (nlat - 1) / 2 + π / nlon) s.u1 s.u2 (r / s.radius) = outlineError nlat nlon s.u1 s.u2 (r / s.radius) := by
    unfold ringError outlineError
    simp only
    rw [show 3 / 2 * (π / ((nlat : ℝ) - 1) + 2 * π / nlon) = 3 * (π / ((nlat : ℝ) - 1) / 2 + π / nlon) by ring]
  rintro d P E (⟨rfl, rfl, rfl⟩ | ⟨rfl, rfl, rfl⟩)
  · obtain ⟨k1, k2⟩ := key _ _ _ (Or.inl ⟨rfl, rfl, rfl⟩)
    refine ⟨fun T hT => ?_, fun 𝒯 h𝒯 => ?_⟩
    · obtain ⟨v, e, hv⟩ := k1 T hT
      exact ⟨v, e, hv.trans (mul_le_mul_of_nonneg_left b1 (by linarith))⟩
    · obtain ⟨v, e, hv⟩ := k2 𝒯 h𝒯
      exact ⟨v, e, hv.trans b1⟩
  · obtain ⟨k1, k2⟩ := key _ _ _ (Or.inr ⟨rfl, rfl, rfl⟩)
    rw [b2] at k1 k2
    have b3 := add_le_add_left b1 (outlineError nlat nlon s.u1 s.u2 (r / s.radius))
    refine ⟨fun T hT => ?_, fun 𝒯 h𝒯 => ?_⟩
    · obtain ⟨v, e, hv⟩ := k1 T hT
      exact ⟨v, e, hv.trans (mul_le_mul_of_nonneg_left b3 (by linarith))⟩
    · obtain ⟨v, e, hv⟩ := k2 𝒯 h𝒯
      exact ⟨v, e, hv.trans b3⟩

/-- A star with a spot, a facula and granules 50 K cooler than the photosphere, for the example. -/
def Spec.faculaStar (g : Grid) : Star :=
  { sampleStar g [sampleSpot g] [sampleFacula g] with granulation := some ⟨0.2, 1, 1, 50⟩ }

theorem sampleFacula_keyvals (g : Grid) : wallKey (sampleFacula g) 1 = 100 ∧ floorKey (sampleFacula g) 1 = -100 := by
  constructor
  · have := Np.roundHalfEven_int 100
    simpa [wallKey, sampleFacula] using this
  · have := Np.roundHalfEven_int (-100)
    simpa [floorKey, sampleFacula] using this

theorem sampleFacula_pole (gd : Grid) (p : gd.Pix) (h : gd.lat p = -(π / 2)) : ¬ inFacula (sampleFacula gd) 1 gd p := by
  rw [inFacula_pixel (r := 1) rfl one_ne_zero, greatCircle_eq, h]
  simp [sampleFacula]
  linarith [pi_gt_three]

/-- The facula shows 3100 K and 2900 K. -/
theorem faculaStar_temps (gd : Grid) (lat0 lon0 : ℝ) (m : gd.Pix → ℝ)
    (hm : (faculaStar gd).addFaculaeToMap lat0 lon0 = .ok m) (p : gd.Pix) :
    (inFacula (sampleFacula gd) 1 gd p ∧ (m p = 3100 ∨ m p = 2900)) ∨
    (¬ inFacula (sampleFacula gd) 1 gd p ∧ (m p = 3000 ∨ m p = 2700 ∨ m p = 2500)) := by
  have hpl : Placed (faculaStar gd) := ⟨rfl, measured_new _ _, by simp [faculaStar, sampleStar, sampleFacula]⟩
  have hkeys := sampleFacula_keyvals gd
  have hff : (faculaStar gd).faculae.faculae = [sampleFacula gd] := rfl
  have hss : (faculaStar gd).spots.spots = [sampleSpot gd] := rfl
  have ht : (faculaStar gd).teff = 3000 := rfl
  rcases C95_map_temperatures (faculaStar gd) hpl lat0 lon0 m hm p with ⟨f, hf, hin, -, -, k, hk, e⟩ | ⟨hout, hh⟩
  · rw [hff, List.mem_singleton] at hf
    subst hf
    refine Or.inl ⟨hin, ?_⟩
    rw [e, ht]
    rcases hk with hk | hk
    · rw [wallDteff_eq (r := 1) rfl] at hk
      simp only [Helpers.roundTeff, Except.ok.injEq] at hk
      have : k = 100 := by rw [← hk]; exact hkeys.1
      left; subst this; norm_num [Helpers.clipTeff, Helpers.teffHigh, Helpers.teffLow]
    · rw [floorDteff_eq (r := 1) rfl] at hk
      simp only [Helpers.roundTeff, Except.ok.injEq] at hk
      have : k = -100 := by rw [← hk]; exact hkeys.2
      right; subst this; norm_num [Helpers.clipTeff, Helpers.teffHigh, Helpers.teffLow]
  · refine Or.inr ⟨hout _ (by rw [hff]; simp), ?_⟩
    rcases hh with h1 | ⟨-, sp, hsp, h2⟩
    · exact Or.inl (h1.trans ht)
    · rw [hss, List.mem_singleton] at hsp
      subst hsp
      exact Or.inr (h2.imp And.left And.left).symm

theorem reportTemps_faculaStar (gd : Grid) : reportTemps (faculaStar gd).spots.spots (faculaStar gd).teff ((faculaStar gd).teff - 50) =
    {3000, 2950, 2700, 2500} := by
  have hss : (faculaStar gd).spots.spots = [sampleSpot gd] := rfl
  have ht : (faculaStar gd).teff = 3000 := rfl
  rw [hss, ht]
  ext t
  simp only [reportTemps, Set.mem_union, Set.mem_insert_iff, Set.mem_singleton_iff, Set.mem_ofPred_eq, List.mem_singleton,
    exists_eq_left, sampleSpot, StarSpot.new]
  norm_num
  tauto

/-- Non-trivial instance: a star with a spot, a facula of one radian and granules; a planet of half the radius of the star stands in the
middle of the disk.  The share of the facula is right to 0.01, that of its part behind the planet to 0.03. -/
example : ∃ total cov plf m, (faculaStar (.rect 20001 40000)).calcCoverage 0 1 0.2 10 (1 / 2) π (π / 2) = .ok (total, cov, plf) ∧
      (faculaStar (.rect 20001 40000)).addFaculaeToMap 0 1 = .ok m ∧
      ∃ label : ℝ → ℤ, (∀ T, |(label T : ℝ) - 100 * T| ≤ 1 / 2) ∧
      ∀ 𝒯 : Finset ℝ, (∀ T, T ∈ 𝒯 ↔ ∃ p : (Grid.rect 20001 40000).Pix, inAnyFacula [sampleFacula (.rect 20001 40000)] 1
          ((Grid.rect 20001 40000).lat p) ((Grid.rect 20001 40000).lon p) ∧ m p = T) → ∃ v v' : ℝ → ℝ,
        (∀ T ∈ 𝒯, Dict.get? total (label T) = some (.fin (v T)) ∧ Dict.get? cov (label T) = some (.fin (v' T))) ∧
        |∑ T ∈ 𝒯, v T - lightShare 0 0 0 1 (fun φ l => inAnyFacula [sampleFacula (.rect 20001 40000)] 1 φ l)| ≤ 0.01 ∧
        |∑ T ∈ 𝒯, v' T - lightShare 0 0 0 1 (fun φ l => inAnyFacula [sampleFacula (.rect 20001 40000)] 1 φ l ∧
          behindPlanet 1 10 (1 / 2) π (π / 2) 0 1 φ l)| ≤ 0.033 := by
  set gd : Grid := .rect 20001 40000 with hgd
  set s := faculaStar gd with hs
  have hp := pi_pos
  have h0 : (0 : ℝ) ∈ Set.Icc (-(π / 2)) (π / 2) := ⟨by linarith, by linarith⟩
  have hg : goodGrid s.grid := ⟨by omega, by omega⟩
  have hv : Visible s 0 1 := visible_rect s rfl (by omega) (by omega) 0 1
  obtain ⟨a, ha, -⟩ := C02_area_partition s.grid hg
  have hld : PhysicalLD s.u1 s.u2 := by simp [PhysicalLD, hs, faculaStar, sampleStar]
  obtain ⟨-, hW⟩ := visible_pos s hg hld ha hv
  have hw : ∀ p, s.weight 0 1 p = .fin (pixelWeight s a 0 1 p) := weight_eq s a ha 0 1
  have hpos : planetPos s.radius 10 π (π / 2) = ((planetPos s.radius 10 π (π / 2)).1, (planetPos s.radius 10 π (π / 2)).2) := rfl
  have hsp : s.spots.spots = [sampleSpot gd] := rfl
  have hff : s.faculae.faculae = [sampleFacula gd] := rfl
  have hR1 : s.radius = 1 := rfl
  have hpl : Placed s := ⟨rfl, measured_new _ _, by simp [hs, faculaStar, sampleStar, sampleFacula]⟩
  obtain ⟨l1, -⟩ := (C01_rect_layout 20001 40000 (by omega)).2.2 ⟨0, by omega⟩ ⟨0, by omega⟩
  obtain ⟨total, cov, plf, h, -⟩ := C59_answers_partial s hg one_pos 0 1 _ (by simp only [hw, Fl.sum_fin]) hW.ne' h0
    ⟨0.2, 1, 1, 50⟩ rfl rfl (measured_new _ _) (by
      intro f hf
      rw [hff, List.mem_singleton] at hf
      subst hf
      refine ⟨rfl, ?_, 1, rfl, one_pos, by rw [(sampleFacula_keyvals gd).1, (sampleFacula_keyvals gd).2]; norm_num⟩
      unfold cosDist
      rw [inner_unitVec]
      simp [sampleFacula]
      exact (cos_pos_of_mem_Ioo ⟨by linarith [pi_gt_three], by linarith [pi_gt_three]⟩).ne')
    (Or.inr ⟨(⟨0, by omega⟩, ⟨0, by omega⟩), by
      intro sp hsp'
      rw [hsp, List.mem_singleton] at hsp'
      rw [hsp']
      have := inSpot_cos (sampleSpot gd) gd 1 1 5 one_pos rfl zero_le_one (by nlinarith [pi_gt_three]) rfl (by norm_num)
        (⟨0, by omega⟩, ⟨0, by omega⟩)
      rw [← not_or]
      intro hin
      have hin := this.mp hin
      rw [show gd.lat (⟨0, by omega⟩, ⟨0, by omega⟩) = _ from l1] at hin
      simp [sampleSpot, StarSpot.new] at hin
      have h7 : (π⁻¹ * 2⁻¹ : ℝ) < 1 := by
        have : π⁻¹ ≤ 1 := inv_le_one_of_one_le₀ (by linarith [pi_gt_three])
        linarith
      linarith,
      by
        intro f hf
        rw [hff, List.mem_singleton] at hf
        subst hf
        exact sampleFacula_pole gd _ (l1.trans (by simp))⟩) 0.2 10 (1 / 2) π (π / 2) (by norm_num) _ _ hpos.symm (by simp)
  obtain ⟨m, gr', hm, -⟩ := C95_keys s 0 1 0.2 10 (1 / 2) π (π / 2) total cov _ h
  have htemps := faculaStar_temps gd 0 1 m hm
  have hrt : reportTemps s.spots.spots s.teff (s.teff - 50) = {3000, 2950, 2700, 2500} := reportTemps_faculaStar gd
  have hrad : ∀ f ∈ s.faculae.faculae, f.radius = .fin ((fun _ => 1 : Facula → ℝ) f) := by
    intro f hf
    rw [hff, List.mem_singleton] at hf
    subst hf; rfl
  refine ⟨total, cov, _, m, h, hm, ?_⟩
  obtain ⟨label, hl, hent⟩ := C102_facula_accuracy s 20001 40000 rfl (by omega) (by omega) hpl one_pos hld (by
      intro sp hsp'
      rw [hsp, List.mem_singleton] at hsp'
      subst hsp'
      exact ⟨⟨1, rfl, zero_le_one, by rw [hR1]; nlinarith [pi_gt_three]⟩, ⟨5, rfl, by norm_num⟩, by norm_num [sampleSpot, StarSpot.new]⟩)
    (fun f hf => ⟨1, hrad f hf⟩)
    0 1 h0 (Or.inl ⟨by linarith, by linarith⟩) 0.2 10 (1 / 2) π (π / 2) (by norm_num) total cov _ h ⟨0.2, 1, 1, 50⟩ rfl m hm
    (by
      intro p hp' hmem
      rw [hrt] at hmem
      simp only [Set.mem_insert_iff, Set.mem_singleton_iff] at hmem
      obtain ⟨f, hf, hin⟩ := (inAnyFacula_pixel hrad (by rw [hR1]; exact one_ne_zero) s.grid p).mp hp'
      rw [hff, List.mem_singleton] at hf
      subst hf
      rcases htemps p with ⟨-, h1⟩ | ⟨h1, -⟩
      · rcases h1 with h1 | h1 <;> rw [h1] at hmem <;> norm_num at hmem
      · exact h1 hin)
    (by
      have hall : ∀ T ∈ Set.range m ∪ reportTemps s.spots.spots s.teff (s.teff - 50),
          T = 3100 ∨ T = 2900 ∨ T = 3000 ∨ T = 2950 ∨ T = 2700 ∨ T = 2500 := by
        rintro T (⟨p, rfl⟩ | hT)
        · rcases htemps p with ⟨-, h1 | h1⟩ | ⟨-, h1 | h1 | h1⟩ <;> simp only [h1, true_or, or_true]
        · rw [hrt] at hT
          simp only [Set.mem_insert_iff, Set.mem_singleton_iff] at hT
          rcases hT with h1 | h1 | h1 | h1 <;> simp only [h1, true_or, or_true]
      intro T h1 T' h2 hne
      rcases hall T h1 with rfl | rfl | rfl | rfl | rfl | rfl <;> rcases hall T' h2 with rfl | rfl | rfl | rfl | rfl | rfl <;>
        first | exact absurd rfl hne | norm_num)
  refine ⟨label, hl, fun 𝒯 h𝒯 => ?_⟩
  obtain ⟨v, hv1, hv2⟩ := (hent total _ _ (Or.inl ⟨rfl, rfl, rfl⟩)).2 𝒯 h𝒯
  obtain ⟨v', hv1', hv2'⟩ := (hent cov _ _ (Or.inr ⟨rfl, rfl, rfl⟩)).2 𝒯 h𝒯
  have e4 : s.u1 = 0 := rfl
  have e5 : s.u2 = 0 := rfl
  simp only [and_true] at hv2
  rw [e4, e5, hsp, hR1, hff] at hv2 hv2'
  have hpi := pi_lt_d2
  refine ⟨v, v', fun T hT => ⟨hv1 T hT, hv1' T hT⟩, hv2.trans ?_, hv2'.trans ?_⟩
  · simp only [featureError, List.length_singleton]
    norm_num
    linarith
  · simp only [featureError, outlineError, List.length_singleton]
    rw [max_eq_left (by norm_num; linarith)]
    norm_num
    linarith

end Vsm
