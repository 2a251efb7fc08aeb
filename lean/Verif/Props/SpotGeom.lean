import Verif.Props.Grid
import Verif.Model.Spots
import Verif.Lemmas.Trapz

/-!
# C17 – C19, C24, C30: what spots cover
-/

noncomputable section

namespace Vsm

open Real Spec

/-! ## C17 -/

theorem angularRadius_fin (s : StarSpot) {a R : ℝ} (hR : 0 < R) (ha : s.area = .fin a) :
    s.angularRadius R = Fl.arccos (.fin (1 - a / (2 * π * R ^ 2))) := by
  have : 2 * π * R ^ 2 ≠ 0 := by positivity
  rw [StarSpot.angularRadius, ha, Fl.fin_div this, Fl.fin_sub]

theorem capArg_mem {a R : ℝ} (hR : 0 < R) :
    (-1 ≤ 1 - a / (2 * π * R ^ 2) ∧ 1 - a / (2 * π * R ^ 2) ≤ 1) ↔ (0 ≤ a ∧ a ≤ 4 * π * R ^ 2) := by
  have h : 0 < 2 * π * R ^ 2 := by positivity
  constructor
  · rintro ⟨h1, h2⟩
    have h3 : a / (2 * π * R ^ 2) ≤ 2 := by linarith
    have h4 : 0 ≤ a / (2 * π * R ^ 2) := by linarith
    rw [div_le_iff₀ h] at h3
    rw [le_div_iff₀ h] at h4
    constructor <;> linarith
  · rintro ⟨h1, h2⟩
    have h3 : a / (2 * π * R ^ 2) ≤ 2 := by rw [div_le_iff₀ h]; linarith
    have h4 : 0 ≤ a / (2 * π * R ^ 2) := by positivity
    constructor <;> linarith

theorem capArea_strictMono {R : ℝ} (hR : 0 < R) {θ θ' : ℝ} (h0 : 0 ≤ θ) (h : θ < θ') (h1 : θ' ≤ π) :
    capArea R θ < capArea R θ' := by
  have := Real.cos_lt_cos_of_nonneg_of_le_pi h0 h1 h
  unfold capArea
  have hp : 0 < 2 * π * R ^ 2 := by positivity
  nlinarith

/-- **C17** For a stellar radius `R > 0` and a finite area: if the area is between 0 and the area of the
star, `angular_radius` is the angle in `[0,π]` of the spherical cap of that area; otherwise it is NaN.
Non-finite areas give NaN. -/
theorem C17_angular_radius (s : StarSpot) (R : ℝ) (hR : 0 < R) :
    (∀ a, s.area = .fin a → 0 ≤ a → a ≤ 4 * π * R ^ 2 →
      ∃ θ, s.angularRadius R = .fin θ ∧ θ ∈ Set.Icc 0 π ∧ capArea R θ = a ∧
        ∀ θ' ∈ Set.Icc 0 π, capArea R θ' = a → θ' = θ) ∧
    (s.angularRadius R = .nan ↔ ¬ ∃ a, s.area = .fin a ∧ 0 ≤ a ∧ a ≤ 4 * π * R ^ 2) := by
  have hp : 2 * π * R ^ 2 ≠ 0 := by positivity
  have hpos : 0 < 2 * π * R ^ 2 := by positivity
  have main : ∀ a, s.area = .fin a → 0 ≤ a → a ≤ 4 * π * R ^ 2 →
      ∃ θ, s.angularRadius R = .fin θ ∧ θ ∈ Set.Icc 0 π ∧ capArea R θ = a ∧
        ∀ θ' ∈ Set.Icc 0 π, capArea R θ' = a → θ' = θ := by
    intro a ha h0 h1
    obtain ⟨m1, m2⟩ := (capArg_mem hR).mpr ⟨h0, h1⟩
    refine ⟨arccos (1 - a / (2 * π * R ^ 2)), by rw [angularRadius_fin s hR ha, Fl.arccos_fin m1 m2],
      ⟨arccos_nonneg _, arccos_le_pi _⟩, ?_, ?_⟩
    · rw [capArea, cos_arccos m1 m2]; field_simp; ring
    · intro θ' hθ hc
      rw [← hc, capArea, mul_div_cancel_left₀ _ hp, sub_sub_cancel, arccos_cos hθ.1 hθ.2]
  refine ⟨main, ?_⟩
  constructor
  · rintro hn ⟨a, ha, h0, h1⟩
    obtain ⟨θ, hθ, -⟩ := main a ha h0 h1
    rw [hn] at hθ; cases hθ
  · intro h
    rcases hs : s.area with _ | _ | a | _
    · simp [StarSpot.angularRadius, hs, Fl.sub_def, Fl.arccos]
    · have : Fl.ninf / Fl.fin (2 * π * R ^ 2) = .ninf := by
        change Fl.div _ _ = _
        simp [Fl.div, hpos.le]
      rw [StarSpot.angularRadius, hs, this]; rfl
    · rw [angularRadius_fin s hR hs, Fl.arccos_fin_nan]
      rw [capArg_mem hR]
      intro hc; exact h ⟨a, hs, hc⟩
    · have : Fl.pinf / Fl.fin (2 * π * R ^ 2) = .pinf := by
        change Fl.div _ _ = _
        simp [Fl.div, hpos.le]
      rw [StarSpot.angularRadius, hs, this]; rfl

/-- **C17** (monotone) a larger area has a larger angular radius. -/
theorem C17_angular_radius_mono (s t : StarSpot) (R a b θ η : ℝ) (hR : 0 < R) (hs : s.area = .fin a)
    (ht : t.area = .fin b) (hθ : s.angularRadius R = .fin θ) (hη : t.angularRadius R = .fin η) :
    a < b ↔ θ < η := by
  have key : ∀ (u : StarSpot) (c ζ : ℝ), u.area = .fin c → u.angularRadius R = .fin ζ →
      ζ ∈ Set.Icc 0 π ∧ capArea R ζ = c := by
    intro u c ζ hc hζ
    by_cases h : 0 ≤ c ∧ c ≤ 4 * π * R ^ 2
    · obtain ⟨ζ', h1, h2, h3, -⟩ := (C17_angular_radius u R hR).1 c hc h.1 h.2
      rw [hζ, Fl.fin_inj] at h1
      rw [h1]; exact ⟨h2, h3⟩
    · have := (C17_angular_radius u R hR).2.mpr (by rintro ⟨c', hc', h'⟩; rw [hc, Fl.fin_inj] at hc'; exact h (hc' ▸ h'))
      rw [hζ] at this; cases this
  obtain ⟨h1, rfl⟩ := key s a θ hs hθ
  obtain ⟨h2, rfl⟩ := key t b η ht hη
  constructor
  · intro h
    by_contra hc
    rcases eq_or_lt_of_le (not_lt.mp hc) with e | e
    · rw [e] at h; exact lt_irrefl _ h
    · exact lt_asymm h (capArea_strictMono hR h2.1 e h1.2)
  · intro h; exact capArea_strictMono hR h1.1 h h2.2

/-- Non-trivial instance: a spot covering half of the star has angular radius 90°. -/
example (s : StarSpot) (h : s.area = .fin (2 * π)) : s.angularRadius 1 = .fin (π / 2) := by
  have hp := pi_pos
  obtain ⟨θ, h1, -, -, h2⟩ := (C17_angular_radius s 1 one_pos).1 _ h (by positivity) (by linarith)
  rw [h1, h2 (π / 2) ⟨by linarith, by linarith⟩ (by simp [capArea])]

/-! ## C18 -/

/-- **C18** On any grid, for a spot of finite area and positive finite area ratio: a pixel is marked as
spot iff its great-circle distance from the centre is below the angular radius `θ` of the cap having the
spot's area, and (if the two temperatures differ, so that the result has two entries) as umbra iff it is
below `θ / √ratio`.  If the temperatures are equal both entries coincide.  For `ratio ≥ 1` umbra pixels
are spot pixels. -/
theorem C18_membership (s : StarSpot) (g : Grid) (R a q : ℝ) (hR : 0 < R) (ha : s.area = .fin a)
    (hq : s.ratio = .fin q) (hq0 : 0 < q) (p : g.Pix) :
    ((s.setGridmaker g).penumbraMask R p ↔
      ∃ θ ∈ Set.Icc 0 π, capArea R θ = a ∧ greatCircle s.lat s.lon (g.lat p) (g.lon p) < θ) ∧
    (s.teffUmbra ≠ s.teffPenumbra → ((s.setGridmaker g).umbraMask R p ↔
      ∃ θ ∈ Set.Icc 0 π, capArea R θ = a ∧ greatCircle s.lat s.lon (g.lat p) (g.lon p) < θ / √q)) ∧
    (s.teffUmbra = s.teffPenumbra →
      ((s.setGridmaker g).umbraMask R p ↔ (s.setGridmaker g).penumbraMask R p)) ∧
    (1 ≤ q → (s.setGridmaker g).umbraMask R p → (s.setGridmaker g).penumbraMask R p) := by
  have hd : (s.setGridmaker g).r.2 p = greatCircle s.lat s.lon (g.lat p) (g.lon p) :=
    haversine_eq _ _ _ _
  have hang : (s.setGridmaker g).angularRadius R = s.angularRadius R := rfl
  have hsq : 0 < √q := sqrt_pos.mpr hq0
  have hP : (s.setGridmaker g).penumbraMask R p ↔
      ∃ θ ∈ Set.Icc 0 π, capArea R θ = a ∧ greatCircle s.lat s.lon (g.lat p) (g.lon p) < θ := by
    unfold StarSpot.penumbraMask
    rw [hd, hang]
    by_cases h : 0 ≤ a ∧ a ≤ 4 * π * R ^ 2
    · obtain ⟨θ, h1, h2, h3, h4⟩ := (C17_angular_radius s R hR).1 a ha h.1 h.2
      rw [h1, Fl.fin_lt]
      constructor
      · intro hlt; exact ⟨θ, h2, h3, hlt⟩
      · rintro ⟨θ', h2', h3', hlt⟩; rw [← h4 θ' h2' h3']; exact hlt
    · have := (C17_angular_radius s R hR).2.mpr (by rintro ⟨c', hc', h'⟩; rw [ha, Fl.fin_inj] at hc'; exact h (hc' ▸ h'))
      rw [this]
      simp only [Fl.lt_nan, false_iff]
      rintro ⟨θ, h2, h3, -⟩
      apply h
      rw [← h3, capArea]
      have hc1 := neg_one_le_cos θ
      have hc2 := cos_le_one θ
      have hp : 0 < π * R ^ 2 := by positivity
      constructor <;> nlinarith
  have hU : s.teffUmbra ≠ s.teffPenumbra → ((s.setGridmaker g).umbraMask R p ↔
      ∃ θ ∈ Set.Icc 0 π, capArea R θ = a ∧ greatCircle s.lat s.lon (g.lat p) (g.lon p) < θ / √q) := by
    intro hne
    have hne' : (s.setGridmaker g).teffUmbra ≠ (s.setGridmaker g).teffPenumbra := hne
    unfold StarSpot.umbraMask
    rw [if_neg hne', hd]
    have hur : (s.setGridmaker g).umbraRadius R = s.angularRadius R / .fin (√q) := by
      change s.umbraRadius R = _
      rw [StarSpot.umbraRadius, hq, Fl.sqrt_fin hq0.le]
    rw [hur]
    by_cases h : 0 ≤ a ∧ a ≤ 4 * π * R ^ 2
    · obtain ⟨θ, h1, h2, h3, h4⟩ := (C17_angular_radius s R hR).1 a ha h.1 h.2
      rw [h1, Fl.fin_div hsq.ne', Fl.fin_lt]
      constructor
      · intro hlt; exact ⟨θ, h2, h3, hlt⟩
      · rintro ⟨θ', h2', h3', hlt⟩; rw [← h4 θ' h2' h3']; exact hlt
    · have := (C17_angular_radius s R hR).2.mpr (by rintro ⟨c', hc', h'⟩; rw [ha, Fl.fin_inj] at hc'; exact h (hc' ▸ h'))
      rw [this]
      simp only [Fl.nan_div, Fl.lt_nan, false_iff]
      rintro ⟨θ, h2, h3, -⟩
      apply h
      rw [← h3, capArea]
      have hc1 := neg_one_le_cos θ
      have hc2 := cos_le_one θ
      have hp : 0 < π * R ^ 2 := by positivity
      constructor <;> nlinarith
  have hE : s.teffUmbra = s.teffPenumbra →
      ((s.setGridmaker g).umbraMask R p ↔ (s.setGridmaker g).penumbraMask R p) := by
    intro he
    have he' : (s.setGridmaker g).teffUmbra = (s.setGridmaker g).teffPenumbra := he
    unfold StarSpot.umbraMask
    rw [if_pos he']
  refine ⟨hP, hU, hE, fun h1 hu => ?_⟩
  by_cases he : s.teffUmbra = s.teffPenumbra
  · exact (hE he).mp hu
  · obtain ⟨θ, h2, h3, h4⟩ := (hU he).mp hu
    refine hP.mpr ⟨θ, h2, h3, h4.trans_le (div_le_self h2.1 ?_)⟩
    rw [Real.one_le_sqrt]; exact h1

/-- **C18** (growth) both masks grow with the area. -/
theorem C18_mono (s : StarSpot) (g : Grid) (R a b q : ℝ) (hR : 0 < R) (hab : a ≤ b)
    (hb : b ≤ 4 * π * R ^ 2) (hq : s.ratio = .fin q) (hq0 : 0 < q) (p : g.Pix) :
    ((({ s with area := .fin a } : StarSpot).setGridmaker g).penumbraMask R p →
      (({ s with area := .fin b } : StarSpot).setGridmaker g).penumbraMask R p) ∧
    ((({ s with area := .fin a } : StarSpot).setGridmaker g).umbraMask R p →
      (({ s with area := .fin b } : StarSpot).setGridmaker g).umbraMask R p) := by
  obtain ⟨pa, ua, ea, -⟩ := C18_membership { s with area := .fin a } g R a q hR rfl hq hq0 p
  obtain ⟨pb, ub, eb, -⟩ := C18_membership { s with area := .fin b } g R b q hR rfl hq hq0 p
  have key : ∀ x : ℝ → ℝ, (∀ θ η, θ ≤ η → x θ ≤ x η) →
      ∀ d, (∃ θ ∈ Set.Icc 0 π, capArea R θ = a ∧ d < x θ) → ∃ θ ∈ Set.Icc 0 π, capArea R θ = b ∧ d < x θ := by
    rintro x hx d ⟨θ, h1, h2, h3⟩
    have h0 : 0 ≤ a := by
      rw [← h2, capArea]; have := cos_le_one θ
      have hp : 0 < π * R ^ 2 := by positivity
      nlinarith
    obtain ⟨η, -, g2, g3, -⟩ := (C17_angular_radius { s with area := .fin b } R hR).1 b rfl (h0.trans hab) hb
    refine ⟨η, g2, g3, h3.trans_le (hx _ _ ?_)⟩
    by_contra hc
    have := capArea_strictMono hR g2.1 (not_le.mp hc) h1.2
    linarith
  have hP : (({ s with area := .fin a } : StarSpot).setGridmaker g).penumbraMask R p →
      (({ s with area := .fin b } : StarSpot).setGridmaker g).penumbraMask R p := by
    intro h; exact pb.mpr (key id (fun _ _ h => h) _ (pa.mp h))
  refine ⟨hP, fun h => ?_⟩
  by_cases he : s.teffUmbra = s.teffPenumbra
  · exact (eb he).mpr (hP ((ea he).mp h))
  · exact (ub he).mpr (key (fun θ => θ / √q) (fun _ _ h => div_le_div_of_nonneg_right h (sqrt_nonneg _)) _ ((ua he).mp h))

/-! ## C19 -/

/-- Pixel `p` of grid `g` is in the mask of the whole spot returned by `StarSpot.map_pixels` (see C18). -/
def Spec.inSpot (s : StarSpot) (g : Grid) (R : ℝ) (p : g.Pix) : Prop := (s.setGridmaker g).penumbraMask R p

/-- Pixel `p` of grid `g` is in the umbra mask returned by `StarSpot.map_pixels` (see C18). -/
def Spec.inUmbra (s : StarSpot) (g : Grid) (R : ℝ) (p : g.Pix) : Prop := (s.setGridmaker g).umbraMask R p

/-- A spot collection whose spots carry the collection's grid and the distances of that grid (this is
what `SpotCollection(...)` and `set_gridmaker` establish). -/
def Spec.Measured (c : SpotCollection) : Prop := ∀ s ∈ c.spots, s.setGridmaker c.grid = s

theorem measured_new (spots : List StarSpot) (g : Grid) : Measured (SpotCollection.new spots g) := by
  intro s hs
  simp only [SpotCollection.new, SpotCollection.setGridmaker, List.mem_map] at hs
  obtain ⟨t, -, rfl⟩ := hs
  rfl

theorem mapStep_eq {T : Type} [LinearOrder T] (emb : ℝ → T) (R : ℝ) (g : Grid) (s : StarSpot)
    (hs : s.setGridmaker g = s) (cur : g.Pix → T) :
    SpotCollection.mapStep emb R g s cur = .ok fun p =>
      SpotCollection.overlay emb s.teffUmbra s.teffPenumbra (inUmbra s g R p)
        (inSpot s g R p) (cur p) := by
  conv_lhs => rw [← hs]
  exact dif_pos (rfl : (s.setGridmaker g).r.1 = g)

theorem mapFold_eq {T : Type} [LinearOrder T] (emb : ℝ → T) (R : ℝ) (g : Grid) (l : List StarSpot)
    (hl : ∀ s ∈ l, s.setGridmaker g = s) (cur : g.Pix → T) :
    l.foldlM (fun cur s => SpotCollection.mapStep emb R g s cur) cur = (.ok fun p =>
      l.foldl (fun c s => SpotCollection.overlay emb s.teffUmbra s.teffPenumbra
        (inUmbra s g R p) (inSpot s g R p) c) (cur p) : Py _) := by
  induction l generalizing cur with
  | nil => rfl
  | cons s l ih =>
    rw [List.foldlM_cons, mapStep_eq emb R g s (hl s (by simp))]
    exact ih (fun t ht => hl t (by simp [ht])) _

theorem overlay_least {tu tp : ℝ} (h : tu ≤ tp) (inU inP : Prop) (cur : ℝ) :
    IsLeast ({cur} ∪ {t | (t = tp ∧ inP) ∨ (t = tu ∧ inU)}) (SpotCollection.overlay id tu tp inU inP cur) := by
  unfold SpotCollection.overlay
  split_ifs with h1 h2
  · refine ⟨Or.inr (Or.inr ⟨rfl, h1.1⟩), ?_⟩
    rintro t (ht | ⟨rfl, -⟩ | ⟨rfl, -⟩)
    · rw [Set.mem_singleton_iff] at ht; rw [ht]; exact h1.2.le
    · exact h
    · exact le_rfl
  · refine ⟨Or.inr (Or.inl ⟨rfl, h2.1⟩), ?_⟩
    rintro t (ht | ⟨rfl, -⟩ | ⟨rfl, hu⟩)
    · rw [Set.mem_singleton_iff] at ht; rw [ht]; exact h2.2.le
    · exact le_rfl
    · exact h2.2.le.trans (not_lt.mp fun hc => h1 ⟨hu, hc⟩)
  · refine ⟨Or.inl rfl, ?_⟩
    rintro t (ht | ⟨rfl, hp⟩ | ⟨rfl, hu⟩)
    · rw [Set.mem_singleton_iff] at ht; exact ht.ge
    · exact not_lt.mp fun hc => h2 ⟨hp, hc⟩
    · exact not_lt.mp fun hc => h1 ⟨hu, hc⟩

/-- The set of temperatures present at pixel `p`: photosphere and the regions covering the pixel. -/
def Spec.tempsAt (spots : List StarSpot) (g : Grid) (R T : ℝ) (p : g.Pix) : Set ℝ :=
  {T} ∪ {t | ∃ s ∈ spots, (t = s.teffPenumbra ∧ inSpot s g R p) ∨
    (t = s.teffUmbra ∧ inUmbra s g R p)}

theorem foldl_overlay_least (g : Grid) (R : ℝ) (p : g.Pix) (l : List StarSpot)
    (hl : ∀ s ∈ l, s.teffUmbra ≤ s.teffPenumbra) (T : ℝ) :
    IsLeast (tempsAt l g R T p) (l.foldl (fun c s => SpotCollection.overlay id s.teffUmbra s.teffPenumbra
        (inUmbra s g R p) (inSpot s g R p) c) T) := by
  induction l generalizing T with
  | nil => simp [tempsAt]
  | cons s l ih =>
    have h1 := overlay_least (hl s (by simp)) (inUmbra s g R p)
      (inSpot s g R p) T
    have h2 := ih (fun t ht => hl t (by simp [ht])) (SpotCollection.overlay id s.teffUmbra s.teffPenumbra
        (inUmbra s g R p) (inSpot s g R p) T)
    rw [List.foldl_cons]
    set v := SpotCollection.overlay id s.teffUmbra s.teffPenumbra
        (inUmbra s g R p) (inSpot s g R p) T
    constructor
    · rcases h2.1 with h | ⟨t, ht, h⟩
      · rw [Set.mem_singleton_iff] at h
        rw [h]
        rcases h1.1 with h' | h'
        · exact Or.inl h'
        · exact Or.inr ⟨s, by simp, h'⟩
      · exact Or.inr ⟨t, by simp [ht], h⟩
    · have hv := h2.2 (Or.inl rfl : v ∈ tempsAt l g R v p)
      rintro x (hx | ⟨t, ht, hx⟩)
      · exact hv.trans (h1.2 (Or.inl hx))
      · rcases List.mem_cons.mp ht with rfl | ht
        · exact hv.trans (h1.2 (Or.inr hx))
        · exact h2.2 (Or.inr ⟨t, ht, hx⟩)

/-- **C19** (partial) For a collection whose umbrae are not hotter than their penumbrae, `map_pixels`
answers and gives at every pixel the smallest of the photosphere temperature and the temperatures of all
umbra/penumbra regions covering the pixel; the result does not depend on the order of the spots.
Missing: spots with an umbra hotter than its penumbra – refuted by `C19_counterexample`. -/
theorem C19_coolest_partial (c : SpotCollection) (hc : Measured c) (R T : ℝ)
    (ht : ∀ s ∈ c.spots, s.teffUmbra ≤ s.teffPenumbra) :
    ∃ m : c.grid.Pix → ℝ, SpotCollection.mapPixels id c R T = .ok m ∧
      (∀ p, IsLeast (tempsAt c.spots c.grid R T p) (m p)) ∧
      ∀ spots' : List StarSpot, spots'.Perm c.spots →
        SpotCollection.mapPixels id { spots := spots', grid := c.grid } R T = .ok m := by
  refine ⟨_, mapFold_eq id R c.grid c.spots hc _, fun p => foldl_overlay_least _ _ _ _ ht _, ?_⟩
  intro spots' hp
  have e : SpotCollection.mapPixels id { spots := spots', grid := c.grid } R T = _ :=
    mapFold_eq id R c.grid spots' (fun s hs => hc s (hp.mem_iff.mp hs)) _
  rw [e]
  congr 1
  funext p
  have h1 := foldl_overlay_least c.grid R p spots' (fun s hs => ht s (hp.mem_iff.mp hs)) T
  have h2 := foldl_overlay_least c.grid R p c.spots ht T
  have hset : tempsAt spots' c.grid R T p = tempsAt c.spots c.grid R T p := by
    simp only [tempsAt, hp.mem_iff]
  rw [hset] at h1
  exact h1.unique h2

/-- The full statement of C19 is false of the code: a pixel in the umbra of a spot whose penumbra is
cooler than its umbra gets the umbra temperature. -/
theorem C19_counterexample :
    ∃ (c : SpotCollection) (R T : ℝ) (m : c.grid.Pix → ℝ) (p : c.grid.Pix), Measured c ∧
      SpotCollection.mapPixels id c R T = .ok m ∧ ¬ IsLeast (tempsAt c.spots c.grid R T p) (m p) := by
  let s : StarSpot := StarSpot.new 0 0 (2 * π) (.fin (2 * π)) 2 1 (.fin 4) true 0 0 (.spiral 1)
  have hlat : (Grid.spiral 1).lat (0 : Fin 1) = 0 := by simp [Grid.lat]; norm_num
  have hlon : (Grid.spiral 1).lon (0 : Fin 1) = 0 := by simp [Grid.lon, Grid.mod2pi]
  have hp := pi_pos
  have hang : s.angularRadius 1 = .fin (π / 2) := by
    obtain ⟨θ, h1, -, -, h2⟩ := (C17_angular_radius s 1 one_pos).1 (2 * π) rfl (by positivity) (by linarith)
    rw [h1, h2 (π / 2) ⟨by linarith, by linarith⟩ (by simp [capArea])]
  have hgc : greatCircle 0 0 ((Grid.spiral 1).lat (0 : Fin 1)) ((Grid.spiral 1).lon (0 : Fin 1)) = 0 := by
    rw [hlat, hlon, greatCircle_eq_zero_iff]
  have hmem := C18_membership s (.spiral 1) 1 (2 * π) 4 one_pos rfl rfl (by norm_num) (0 : Fin 1)
  have hcap : capArea 1 (π / 2) = 2 * π := by simp [capArea]
  have hP : inSpot s (.spiral 1) 1 (0 : Fin 1) :=
    hmem.1.mpr ⟨π / 2, ⟨by linarith, by linarith⟩, hcap, by
      change greatCircle 0 0 _ _ < _
      rw [hgc]; linarith⟩
  have hU : inUmbra s (.spiral 1) 1 (0 : Fin 1) :=
    (hmem.2.1 (by norm_num [s, StarSpot.new])).mpr ⟨π / 2, ⟨by linarith, by linarith⟩, hcap, by
      change greatCircle 0 0 _ _ < _
      rw [hgc]; positivity⟩
  refine ⟨{ spots := [s], grid := .spiral 1 }, 1, 3, _, (0 : Fin 1), ?_, mapFold_eq id 1 _ [s] ?_ _, ?_⟩
  · intro t ht; simp at ht; rw [ht]; rfl
  · intro t ht; simp at ht; rw [ht]; rfl
  · intro h
    have h1 := h.2 (Or.inr ⟨s, by simp, Or.inl ⟨rfl, hP⟩⟩)
    have htu : s.teffUmbra = 2 := rfl
    have htp : s.teffPenumbra = 1 := rfl
    simp only [List.foldl_cons, List.foldl_nil, SpotCollection.overlay, hU, htu, htp, id, true_and] at h1
    norm_num at h1

/-- Non-trivial instance: a collection of a cool-umbra spot meets the hypotheses of C19. -/
example : ∃ m : (SpotCollection.new [StarSpot.new 0 0 1 (.fin 1) 2500 2700 (.fin 5) true 0.5 1 (.spiral 7)]
      (.spiral 7)).grid.Pix → ℝ,
    SpotCollection.mapPixels id (SpotCollection.new [StarSpot.new 0 0 1 (.fin 1) 2500 2700 (.fin 5) true 0.5 1
      (.spiral 7)] (.spiral 7)) 1 3300 = .ok m := by
  obtain ⟨m, h, -⟩ := C19_coolest_partial _ (measured_new
    [StarSpot.new 0 0 1 (.fin 1) 2500 2700 (.fin 5) true 0.5 1 (.spiral 7)] (.spiral 7)) 1 3300 (by
      intro s hs
      simp [SpotCollection.new, SpotCollection.setGridmaker, StarSpot.new, StarSpot.setGridmaker] at hs
      rw [hs]; norm_num)
  exact ⟨m, h⟩

/-! ## C24 -/

open Classical in
/-- Summed area of the pixels lying in at least one region of the spots (spec). -/
def Spec.coveredArea (spots : List StarSpot) (g : Grid) (R : ℝ) (a : g.Pix → ℝ) : ℝ :=
  ∑ p, if ∃ s ∈ spots, inSpot s g R p ∨ inUmbra s g R p then a p else 0

theorem overlay_top (tu tp : ℝ) (inU inP : Prop) (cur : WithTop ℝ) :
    SpotCollection.overlay (fun x => (x : WithTop ℝ)) tu tp inU inP cur ≠ ⊤ ↔ cur ≠ ⊤ ∨ inP ∨ inU := by
  unfold SpotCollection.overlay
  split_ifs with h1 h2
  · simp [h1.1]
  · simp [h2.1]
  · constructor
    · intro h; exact Or.inl h
    · rintro (h | h | h)
      · exact h
      · intro hc; apply h2; rw [hc]; exact ⟨h, WithTop.coe_lt_top _⟩
      · intro hc; apply h1; rw [hc]; exact ⟨h, WithTop.coe_lt_top _⟩

theorem foldl_overlay_top (g : Grid) (R : ℝ) (p : g.Pix) (l : List StarSpot) (cur : WithTop ℝ) :
    l.foldl (fun c s => SpotCollection.overlay (fun x => (x : WithTop ℝ)) s.teffUmbra s.teffPenumbra
        (inUmbra s g R p) (inSpot s g R p) c) cur ≠ ⊤ ↔
      cur ≠ ⊤ ∨ ∃ s ∈ l, inSpot s g R p ∨ inUmbra s g R p := by
  induction l generalizing cur with
  | nil => simp
  | cons s l ih =>
    rw [List.foldl_cons, ih, overlay_top]
    simp only [List.mem_cons, exists_eq_or_imp]
    rw [or_assoc]

/-- **C24** On every grid with well defined areas, `get_coverage` is the summed area of the pixels lying in
at least one spot. -/
theorem C24_coverage (c : SpotCollection) (hc : Measured c) (hg : goodGrid c.grid) (R : ℝ)
    (a : c.grid.Pix → ℝ) (ha : ∀ p, c.grid.area p = .fin (a p)) :
    c.coverage R = .ok (.fin (coveredArea c.spots c.grid R a)) := by
  classical
  obtain ⟨a', ha', -, hsum, -⟩ := C02_area_partition c.grid hg
  have haa : a' = a := by funext p; have := ha p; rw [ha' p, Fl.fin_inj] at this; exact this
  subst haa
  have hm : SpotCollection.mapPixels (T := WithTop ℝ) (fun x => (x : WithTop ℝ)) c R ⊤ = _ :=
    mapFold_eq (T := WithTop ℝ) (fun x => (x : WithTop ℝ)) R c.grid c.spots hc (fun _ => ⊤)
  rw [SpotCollection.coverage, hm]
  simp only [Except.map, foldl_overlay_top, ne_eq, not_true, false_or]
  have e : ∀ p, c.grid.area p * (if ∃ s ∈ c.spots, inSpot s c.grid R p ∨
      inUmbra s c.grid R p then Fl.fin 1 else Fl.fin 0) =
      .fin (if ∃ s ∈ c.spots, inSpot s c.grid R p ∨
      inUmbra s c.grid R p then a' p else 0) := by
    intro p
    rw [ha']
    split_ifs <;> simp
  simp only [e]
  simp only [ha', Fl.sum_fin, hsum]
  rw [Fl.fin_div one_ne_zero, div_one]
  rfl

/-- **C24** The covered fraction is in `[0,1]`, 0 without spots, monotone in the set of spots, and at most
the sum of the coverages of the single spots. -/
theorem C24_coverage_laws (g : Grid) (hg : goodGrid g) (R : ℝ) (spots spots' : List StarSpot)
    (h : ∀ s ∈ spots, s.setGridmaker g = s) (h' : ∀ s ∈ spots', s.setGridmaker g = s) :
    ∃ v v' : ℝ, SpotCollection.coverage ⟨spots, g⟩ R = .ok (.fin v) ∧
      SpotCollection.coverage ⟨spots', g⟩ R = .ok (.fin v') ∧ 0 ≤ v ∧ v ≤ 1 ∧
      (spots = [] → v = 0) ∧ ((∀ s ∈ spots, s ∈ spots') → v ≤ v') ∧
      (∃ w : StarSpot → ℝ, (∀ s ∈ spots, SpotCollection.coverage ⟨[s], g⟩ R = .ok (.fin (w s))) ∧
        v ≤ (spots.map w).sum) := by
  classical
  obtain ⟨a, ha, h0, hsum, -⟩ := C02_area_partition g hg
  have hcov : ∀ l : List StarSpot, (∀ s ∈ l, s.setGridmaker g = s) →
      SpotCollection.coverage ⟨l, g⟩ R = .ok (.fin (coveredArea l g R a)) :=
    fun l hl => C24_coverage ⟨l, g⟩ hl hg R a ha
  have hnn : ∀ l, 0 ≤ coveredArea l g R a := by
    intro l; apply Finset.sum_nonneg; intro p _; split_ifs; exacts [h0 p, le_rfl]
  refine ⟨_, _, hcov spots h, hcov spots' h', hnn _, ?_, ?_, ?_, fun s => coveredArea [s] g R a, ?_, ?_⟩
  · rw [← hsum]; apply Finset.sum_le_sum; intro p _; split_ifs; exacts [le_rfl, h0 p]
  · rintro rfl; simp [coveredArea]
  · intro hsub
    apply Finset.sum_le_sum
    intro p _
    by_cases hx : ∃ s ∈ spots, inSpot s g R p ∨ inUmbra s g R p
    · obtain ⟨s, hs, hx'⟩ := hx
      rw [if_pos ⟨s, hs, hx'⟩, if_pos ⟨s, hsub s hs, hx'⟩]
    · rw [if_neg hx]; split_ifs; exacts [h0 p, le_rfl]
  · intro s hs; exact hcov [s] (by simpa using h s hs)
  · clear hcov h
    induction spots with
    | nil => simp [coveredArea]
    | cons s l ih =>
      rw [List.map_cons, List.sum_cons]
      refine le_trans ?_ (add_le_add le_rfl ih)
      simp only [coveredArea]
      rw [← Finset.sum_add_distrib]
      apply Finset.sum_le_sum
      intro p _
      simp only [List.mem_cons, exists_eq_or_imp, List.not_mem_nil, or_false, exists_eq_left]
      have := h0 p
      split_ifs with hA hB hC hC
      · linarith
      · linarith
      · linarith
      · exact absurd hA (not_or.mpr ⟨hB, hC⟩)
      all_goals linarith

/-- Non-trivial instance: a collection on the default rectangular grid. -/
example : ∃ v : ℝ, SpotCollection.coverage (SpotCollection.new
    [StarSpot.new 0 0 1 (.fin 1) 2500 2700 (.fin 5) true 0.5 1 (.rect 500 1000)] (.rect 500 1000)) 1
      = .ok (.fin v) ∧ 0 ≤ v ∧ v ≤ 1 := by
  obtain ⟨v, -, hv, -, h0, h1, -⟩ := C24_coverage_laws (.rect 500 1000) (by simp [goodGrid]) 1 _ []
    (measured_new [StarSpot.new 0 0 1 (.fin 1) 2500 2700 (.fin 5) true 0.5 1 (.rect 500 1000)] (.rect 500 1000))
    (by simp)
  exact ⟨v, hv, h0, h1⟩

/-! ## C30 -/

/-- **C30** For every spot whose area fits on the star, every observer and every number of sample points,
`surface_fraction` is a finite non-negative number, and it is 0 when the whole spot is behind the limb
(angular distance of the centre from the sub-observer point minus angular radius at least 90°). -/
theorem C30_surface_fraction (s : StarSpot) (lat0 lon0 R θ : ℝ) (n : ℕ) (hθ : s.angularRadius R = .fin θ)
    (h0 : 0 ≤ θ) :
    ∃ v : ℝ, s.surfaceFraction lat0 lon0 R n = .fin v ∧ 0 ≤ v ∧
      (π / 2 ≤ greatCircle lat0 lon0 s.lat s.lon - θ → v = 0) := by
  have hp := pi_pos
  have hc0 : Fl.arccos (.fin (sin lat0 * sin s.lat + cos lat0 * cos s.lat * cos (lon0 - s.lon))) =
      .fin (greatCircle lat0 lon0 s.lat s.lon) := angleBetween_eq lat0 lon0 s.lat s.lon
  simp only [StarSpot.surfaceFraction, hc0, hθ]
  set c0 := greatCircle lat0 lon0 s.lat s.lon
  have e : (Np.linspace (-(π / 2)) (π / 2) n).map (fun ci =>
      Fl.fin (2 * cos ci) * Fl.sqrt (if Fl.fin θ * Fl.fin θ - (Fl.fin ci - Fl.fin c0) * (Fl.fin ci - Fl.fin c0) < .fin 0
        then .fin 0 else Fl.fin θ * Fl.fin θ - (Fl.fin ci - Fl.fin c0) * (Fl.fin ci - Fl.fin c0))) =
      ((Np.linspace (-(π / 2)) (π / 2) n).map fun ci => 2 * cos ci * √(max 0 (θ * θ - (ci - c0) * (ci - c0)))).map .fin := by
    rw [List.map_map]
    apply List.map_congr_left
    intro ci _
    simp only [Fl.fin_mul, Fl.fin_sub, Fl.fin_lt, Function.comp]
    split_ifs with h
    · rw [Fl.sqrt_fin le_rfl, max_eq_left h.le, Fl.fin_mul]
    · rw [Fl.sqrt_fin (not_lt.mp h), max_eq_right (not_lt.mp h), Fl.fin_mul]
  rw [e, trapz_fin, Fl.fin_div (by positivity)]
  refine ⟨_, rfl, div_nonneg (trapzR_nonneg ?_ (linspace_pairwise_le (by linarith) n)) (by positivity), ?_⟩
  · intro y hy
    rw [List.mem_map] at hy
    obtain ⟨ci, hci, rfl⟩ := hy
    have hm := linspace_mem (by linarith) hci
    have := cos_nonneg_of_mem_Icc hm
    positivity
  · intro hfar
    rw [trapzR_zero, zero_div]
    intro y hy
    rw [List.mem_map] at hy
    obtain ⟨ci, hci, rfl⟩ := hy
    have hm := linspace_mem (by linarith) hci
    rw [max_eq_left (by nlinarith), sqrt_zero, mul_zero]

/-- Non-trivial instance: a small spot on the far side. -/
example (s : StarSpot) (hl : s.lat = 0) (hn : s.lon = π) (ha : s.area = .fin (π / 2)) :
    s.surfaceFraction 0 0 1 1001 = .fin 0 := by
  have hp := pi_pos
  obtain ⟨θ, h1, h2, h3, -⟩ := (C17_angular_radius s 1 one_pos).1 _ ha (by positivity) (by linarith)
  have hθ : θ ≤ π / 2 := by
    by_contra hc
    have := capArea_strictMono one_pos (by linarith) (not_le.mp hc) h2.2
    rw [h3] at this
    simp [capArea] at this
    linarith
  obtain ⟨v, hv, -, hz⟩ := C30_surface_fraction s 0 0 1 θ 1001 h1 h2.1
  rw [hv, hz]
  rw [hl, hn, greatCircle_eq]
  simp
  linarith

end Vsm
