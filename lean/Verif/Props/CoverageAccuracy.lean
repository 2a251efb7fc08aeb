import Verif.Props.SpotGeom
import Verif.Props.GridSpacing
import Verif.Lemmas.CapSum
import Mathlib.Analysis.SpecificLimits.Basic
import Mathlib.Analysis.Real.Pi.Bounds

/-!
# C98: how accurate is the coverage measured on a grid
-/

noncomputable section

namespace Vsm

open Real Spec

/-- Pixel areas of a rectangular grid. -/
theorem rect_area_sin (nlat nlon : ℕ) (hlat : 3 ≤ nlat) (hlon : 1 ≤ nlon) :
    let δ : ℝ := π / (nlat - 1)
    0 < δ ∧ δ ≤ π / 2 ∧ ((nlat : ℝ) - 1) * δ = π ∧ 0 < cos (δ / 2) ∧
    ∀ (i : Fin nlon) (j : Fin nlat), (Grid.rect nlat nlon).area (i, j) =
      .fin (2 * sin (δ / 2) * cos (-(π / 2) + (j : ℕ) * δ) / (nlon * (2 * cos (δ / 2)))) := by
  intro δ
  have hp := pi_pos
  have hn : (2 : ℝ) ≤ (nlat : ℝ) - 1 := by
    have : (3 : ℝ) ≤ nlat := by exact_mod_cast hlat
    linarith
  have hn0 : (0 : ℝ) < (nlat : ℝ) - 1 := by linarith
  have hm : (0 : ℝ) < nlon := by exact_mod_cast hlon
  have h2 : δ ≤ π / 2 := div_le_div_of_nonneg_left hp.le (by norm_num) hn
  have h0 : 0 < δ := by positivity
  refine ⟨h0, h2, by simp only [δ]; field_simp, cos_pos_of_mem_Ioo ⟨by linarith, by linarith⟩, ?_⟩
  intro i j
  obtain ⟨a, ha, hc, he, -⟩ := C92_cell_area nlat nlon hlat hlon (i, j) δ (2 * π / nlon)
    (by rw [Grid.dlatDeg, Fl.fin_div hn0.ne', Fl.fin_inj]; simp only [δ]; field_simp)
    (by rw [Grid.dlonDeg, Fl.fin_div hm.ne', Fl.fin_inj]; field_simp; ring)
  obtain ⟨-, -, h⟩ := C01_rect_layout nlat nlon (by omega)
  rw [ha, Fl.fin_inj]
  rw [(h i j).1, integral_cos, ← row_weight, show π / ((nlat : ℝ) - 1) = δ from rfl] at he
  generalize cos (-(π / 2) + ((j : ℕ) : ℝ) * δ) = x at he ⊢
  field_simp at he ⊢
  linear_combination (1 / 4) * he

/-- The covered area of one spot: the area of the grid points in its cap. -/
theorem cap_pixels (nlat nlon : ℕ) (hlat : 3 ≤ nlat) (hlon : 1 ≤ nlon) (lat0 lon0 k : ℝ)
    (hl : lat0 ∈ Set.Icc (-(π / 2)) (π / 2)) (hk : k ∈ Set.Icc (-1) 1) (a : (Grid.rect nlat nlon).Pix → ℝ)
    (ha : ∀ p, (Grid.rect nlat nlon).area p = .fin (a p)) [DecidablePred fun p : (Grid.rect nlat nlon).Pix =>
      k < sin lat0 * sin ((Grid.rect nlat nlon).lat p) + cos lat0 * cos ((Grid.rect nlat nlon).lat p) *
        cos (lon0 - (Grid.rect nlat nlon).lon p)] :
    |(∑ p : (Grid.rect nlat nlon).Pix, if k < sin lat0 * sin ((Grid.rect nlat nlon).lat p) +
        cos lat0 * cos ((Grid.rect nlat nlon).lat p) * cos (lon0 - (Grid.rect nlat nlon).lon p) then a p else 0) -
      (1 - k) / 2| ≤ π / (nlat - 1) + 2 / nlon := by
  classical
  have hp := pi_pos
  obtain ⟨hδ0, hδ2, hδ, hc, harea⟩ := rect_area_sin nlat nlon hlat hlon
  set δ : ℝ := π / (nlat - 1) with hδdef
  have hm : (0 : ℝ) < nlon := by exact_mod_cast hlon
  have h0 : 0 ≤ cos lat0 := cos_nonneg_of_mem_Icc hl
  have key := cap_sum (n := nlat) (N := nlon) (by omega) hδ hδ0 hlon h0 hk (-lon0)
  obtain ⟨-, -, hlay⟩ := C01_rect_layout nlat nlon (by omega)
  set V := ∑ p : (Grid.rect nlat nlon).Pix, if k < sin lat0 * sin ((Grid.rect nlat nlon).lat p) +
        cos lat0 * cos ((Grid.rect nlat nlon).lat p) * cos (lon0 - (Grid.rect nlat nlon).lon p) then a p else 0 with hV
  have hsum : V * (nlon * (2 * cos (δ / 2))) = ∑ j ∈ Finset.range nlon,
      rowSum nlat δ (meridianSet (cos lat0 * cos (-lon0 + j * (2 * π / nlon))) (sin lat0) k) := by
    have e1 : V = ∑ i : Fin nlon, ∑ j : Fin nlat, if k < sin lat0 * sin ((Grid.rect nlat nlon).lat (i, j)) +
        cos lat0 * cos ((Grid.rect nlat nlon).lat (i, j)) * cos (lon0 - (Grid.rect nlat nlon).lon (i, j)) then a (i, j) else 0 :=
      Fintype.sum_prod_type (α₁ := Fin nlon) (α₂ := Fin nlat) _
    rw [e1, Finset.sum_mul, ← Fin.sum_univ_eq_sum_range (fun j : ℕ =>
      rowSum nlat δ (meridianSet (cos lat0 * cos (-lon0 + j * (2 * π / nlon))) (sin lat0) k))]
    refine Finset.sum_congr rfl fun i _ => ?_
    rw [rowSum, ← Fin.sum_univ_eq_sum_range (fun j : ℕ => Set.indicator
      (meridianSet (cos lat0 * cos (-lon0 + (i : ℕ) * (2 * π / nlon))) (sin lat0) k)
      (fun x => 2 * sin (δ / 2) * cos x) (-(π / 2) + j * δ)), Finset.sum_mul]
    refine Finset.sum_congr rfl fun j _ => ?_
    obtain ⟨l1, l2, l3, -⟩ := hlay i j
    have hak : a (i, j) = 2 * sin (δ / 2) * cos (-(π / 2) + (j : ℕ) * δ) / (nlon * (2 * cos (δ / 2))) := by
      have := ha (i, j)
      rw [harea i j, Fl.fin_inj] at this
      exact this.symm
    rw [l1] at l3
    have hiff : (k < sin lat0 * sin ((Grid.rect nlat nlon).lat (i, j)) + cos lat0 * cos ((Grid.rect nlat nlon).lat (i, j)) *
        cos (lon0 - (Grid.rect nlat nlon).lon (i, j))) ↔ -(π / 2) + ((j : ℕ) : ℝ) * δ ∈
          meridianSet (cos lat0 * cos (-lon0 + (i : ℕ) * (2 * π / nlon))) (sin lat0) k := by
      rw [l1, l2, ← cos_neg (lon0 - _), neg_sub]
      constructor
      · intro h
        refine ⟨l3, ?_⟩
        rw [show -lon0 + ((i : ℕ) : ℝ) * (2 * π / nlon) = ((i : ℕ) : ℝ) * (2 * π / nlon) - lon0 by ring]
        linarith
      · rintro ⟨-, h⟩
        rw [show -lon0 + ((i : ℕ) : ℝ) * (2 * π / nlon) = ((i : ℕ) : ℝ) * (2 * π / nlon) - lon0 by ring] at h
        linarith
    by_cases h : -(π / 2) + ((j : ℕ) : ℝ) * δ ∈
          meridianSet (cos lat0 * cos (-lon0 + (i : ℕ) * (2 * π / nlon))) (sin lat0) k
    · rw [if_pos (hiff.mpr h), Set.indicator_of_mem h, hak]
      field_simp
    · rw [if_neg (fun h' => h (hiff.mp h')), Set.indicator_of_notMem h, zero_mul]
  rw [← hsum] at key
  obtain ⟨a', ha', hnn, hone, -⟩ := C02_area_partition (.rect nlat nlon) ⟨hlat, hlon⟩
  have haa : a' = a := by funext p; have := ha p; rw [ha' p, Fl.fin_inj] at this; exact this
  subst haa
  have hV0 : 0 ≤ V := Finset.sum_nonneg fun p _ => by split_ifs; exacts [hnn p, le_rfl]
  have hV1 : V ≤ 1 := by
    rw [← hone]; exact Finset.sum_le_sum fun p _ => by split_ifs; exacts [le_rfl, hnn p]
  have e2 : 2 * π / nlon * (V * (nlon * (2 * cos (δ / 2)))) - 2 * π * (1 - k) =
      4 * π * (V * cos (δ / 2) - (1 - k) / 2) := by field_simp; ring
  have e3 : 2 * π * (δ + δ ^ 2 / 4) + 8 * π / nlon = 4 * π * (δ / 2 + δ ^ 2 / 8 + 2 / nlon) := by field_simp; ring
  rw [e2, e3, abs_mul, abs_of_pos (by positivity : 0 < 4 * π), mul_le_mul_iff_right₀ (by positivity)] at key
  have hcos := one_sub_sq_div_two_le_cos (x := δ / 2)
  have hcos1 := cos_le_one (δ / 2)
  have hd : δ ^ 2 / 4 ≤ δ / 2 := by nlinarith [pi_le_four]
  have p1 := mul_nonneg hV0 (sub_nonneg.mpr hcos1)
  have p2 := mul_le_mul_of_nonneg_right hV1 (sub_nonneg.mpr hcos1)
  rw [abs_le] at key ⊢
  constructor <;> nlinarith [key.1, key.2]

/-- Membership in a spot in terms of the cosine of the distance. -/
theorem inSpot_cos (s : StarSpot) (g : Grid) (R a q : ℝ) (hR : 0 < R) (ha : s.area = .fin a) (h0 : 0 ≤ a)
    (h1 : a ≤ 4 * π * R ^ 2) (hq : s.ratio = .fin q) (hq1 : 1 ≤ q) (p : g.Pix) :
    (inSpot s g R p ∨ inUmbra s g R p) ↔
      1 - a / (2 * π * R ^ 2) < sin s.lat * sin (g.lat p) + cos s.lat * cos (g.lat p) * cos (s.lon - g.lon p) := by
  obtain ⟨m1, -, -, m4⟩ := C18_membership s g R a q hR ha hq (by linarith) p
  have hmem := (capArg_mem (a := a) hR).mpr ⟨h0, h1⟩
  have hor : (inSpot s g R p ∨ inUmbra s g R p) ↔ inSpot s g R p :=
    ⟨fun h => h.elim id (m4 hq1), Or.inl⟩
  rw [hor]
  unfold inSpot StarSpot.penumbraMask
  have hd : (s.setGridmaker g).r.2 p = greatCircle s.lat s.lon (g.lat p) (g.lon p) := haversine_eq _ _ _ _
  have hang : (s.setGridmaker g).angularRadius R = s.angularRadius R := rfl
  rw [hd, hang, angularRadius_fin s hR ha, Fl.arccos_fin hmem.1 hmem.2, Fl.fin_lt, greatCircle_eq]
  have hx := cosExpr_mem s.lat s.lon (g.lat p) (g.lon p)
  constructor
  · intro h
    by_contra hc
    push Not at hc
    exact absurd h (not_lt.mpr (arccos_le_arccos hc))
  · intro h
    exact arccos_lt_arccos hmem.1 h hx.2

/-- **C98** On a rectangular grid the coverage reported for one spot – wherever it is – differs from the true
fraction `area / (4π R²)` of the stellar surface by at most `dlat + dlon/π` (in radians): `π/(nlat-1) + 2/nlon`. -/
theorem C98_coverage_accuracy (s : StarSpot) (nlat nlon : ℕ) (hlat : 3 ≤ nlat) (hlon : 1 ≤ nlon) (R a q : ℝ)
    (hR : 0 < R) (ha : s.area = .fin a) (h0 : 0 ≤ a) (h1 : a ≤ 4 * π * R ^ 2) (hq : s.ratio = .fin q) (hq1 : 1 ≤ q)
    (hl : s.lat ∈ Set.Icc (-(π / 2)) (π / 2)) :
    ∃ v : ℝ, (SpotCollection.new [s] (.rect nlat nlon)).coverage R = .ok (.fin v) ∧
      |v - a / (4 * π * R ^ 2)| ≤ π / (nlat - 1) + 2 / nlon := by
  classical
  obtain ⟨b, hb, -, -, -⟩ := C02_area_partition (.rect nlat nlon) ⟨hlat, hlon⟩
  refine ⟨_, C24_coverage (SpotCollection.new [s] (.rect nlat nlon)) (measured_new _ _) ⟨hlat, hlon⟩ R b hb, ?_⟩
  have hmem := (capArg_mem (a := a) hR).mpr ⟨h0, h1⟩
  have key := cap_pixels nlat nlon hlat hlon s.lat s.lon (1 - a / (2 * π * R ^ 2)) hl ⟨hmem.1, hmem.2⟩ b hb
  have e : (1 - (1 - a / (2 * π * R ^ 2))) / 2 = a / (4 * π * R ^ 2) := by
    have hp := pi_pos
    field_simp
    ring
  rw [e] at key
  refine le_trans (le_of_eq ?_) key
  congr 2
  unfold coveredArea
  refine Finset.sum_congr rfl fun p _ => ?_
  have hex : (∃ t ∈ (SpotCollection.new [s] (.rect nlat nlon)).spots, inSpot t (.rect nlat nlon) R p ∨
      inUmbra t (.rect nlat nlon) R p) ↔ (inSpot s (.rect nlat nlon) R p ∨ inUmbra s (.rect nlat nlon) R p) := by
    simp only [SpotCollection.new, SpotCollection.setGridmaker, List.map_cons, List.map_nil, List.mem_singleton,
      exists_eq_left]
    rfl
  have := inSpot_cos s (.rect nlat nlon) R a q hR ha h0 h1 hq hq1 p
  split_ifs with g1 g2 g2
  · rfl
  · exact absurd (this.mp (hex.mp g1)) g2
  · exact absurd (hex.mpr (this.mpr g2)) g1
  · rfl

/-- **C98** (many spots) For spots no two of which share a pixel – for example spots whose outlines do not overlap –
the reported coverage differs from the summed true fractions by at most that amount per spot; overlapping spots can
only lower it. -/
theorem C98_many_spots (spots : List StarSpot) (nlat nlon : ℕ) (hlat : 3 ≤ nlat) (hlon : 1 ≤ nlon) (R : ℝ)
    (hR : 0 < R) (area : StarSpot → ℝ) (hs : ∀ s ∈ spots, s.area = .fin (area s) ∧ 0 ≤ area s ∧
      area s ≤ 4 * π * R ^ 2 ∧ (∃ q, s.ratio = .fin q ∧ 1 ≤ q) ∧ s.lat ∈ Set.Icc (-(π / 2)) (π / 2)) :
    ∃ v : ℝ, (SpotCollection.new spots (.rect nlat nlon)).coverage R = .ok (.fin v) ∧
      v ≤ (spots.map area).sum / (4 * π * R ^ 2) + spots.length * (π / (nlat - 1) + 2 / nlon) ∧
      ((spots.Pairwise fun s t => ∀ θ η : ℝ, s.angularRadius R = .fin θ → t.angularRadius R = .fin η →
          θ + η ≤ greatCircle s.lat s.lon t.lat t.lon) →
        |v - (spots.map area).sum / (4 * π * R ^ 2)| ≤ spots.length * (π / (nlat - 1) + 2 / nlon)) := by
  classical
  obtain ⟨b, hb, hnn, -, -⟩ := C02_area_partition (.rect nlat nlon) ⟨hlat, hlon⟩
  refine ⟨_, C24_coverage (SpotCollection.new spots (.rect nlat nlon)) (measured_new _ _) ⟨hlat, hlon⟩ R b hb, ?_⟩
  set E : ℝ := π / (nlat - 1) + 2 / nlon with hE
  have hcov : ∀ l : List StarSpot, coveredArea (SpotCollection.new l (.rect nlat nlon)).spots (.rect nlat nlon) R b =
      coveredArea l (.rect nlat nlon) R b := by
    intro l
    unfold coveredArea
    refine Finset.sum_congr rfl fun p _ => ?_
    congr 1
    simp only [SpotCollection.new, SpotCollection.setGridmaker, List.mem_map, exists_exists_and_eq_and]
    rfl
  change coveredArea (SpotCollection.new spots (.rect nlat nlon)).spots (.rect nlat nlon) R b ≤ _ ∧ (_ →
    |coveredArea (SpotCollection.new spots (.rect nlat nlon)).spots (.rect nlat nlon) R b - _| ≤ _)
  rw [hcov]
  -- one spot
  have one : ∀ s ∈ spots, |coveredArea [s] (.rect nlat nlon) R b - area s / (4 * π * R ^ 2)| ≤ E := by
    intro s hsm
    obtain ⟨h1, h2, h3, ⟨q, h4, h5⟩, h6⟩ := hs s hsm
    obtain ⟨v, hv, hle⟩ := C98_coverage_accuracy s nlat nlon hlat hlon R (area s) q hR h1 h2 h3 h4 h5 h6
    have := C24_coverage (SpotCollection.new [s] (.rect nlat nlon)) (measured_new _ _) ⟨hlat, hlon⟩ R b hb
    rw [hv] at this
    have hv' : v = coveredArea [s] (.rect nlat nlon) R b := by
      rw [← hcov [s]]
      exact Fl.fin.inj (Except.ok.inj this)
    rw [← hv']
    exact hle
  have cons_le : ∀ (s : StarSpot) (l : List StarSpot), coveredArea (s :: l) (.rect nlat nlon) R b ≤
      coveredArea [s] (.rect nlat nlon) R b + coveredArea l (.rect nlat nlon) R b := by
    intro s l
    unfold coveredArea
    rw [← Finset.sum_add_distrib]
    refine Finset.sum_le_sum fun p _ => ?_
    have := hnn p
    by_cases h1 : inSpot s (.rect nlat nlon) R p ∨ inUmbra s (.rect nlat nlon) R p
    · rw [if_pos ⟨s, List.mem_cons_self, h1⟩, if_pos ⟨s, List.mem_cons_self, h1⟩]
      split_ifs <;> linarith
    · by_cases h2 : ∃ t ∈ l, inSpot t (.rect nlat nlon) R p ∨ inUmbra t (.rect nlat nlon) R p
      · obtain ⟨t, ht, h3⟩ := h2
        rw [if_pos ⟨t, List.mem_cons_of_mem _ ht, h3⟩, if_pos (c := ∃ t ∈ l, inSpot t (.rect nlat nlon) R p ∨
          inUmbra t (.rect nlat nlon) R p) ⟨t, ht, h3⟩]
        split_ifs <;> linarith
      · rw [if_neg]
        · split_ifs <;> linarith
        · rintro ⟨t, ht, h3⟩
          rcases List.mem_cons.mp ht with rfl | ht
          · exact h1 h3
          · exact h2 ⟨t, ht, h3⟩
  have cons_eq : ∀ (s : StarSpot) (l : List StarSpot),
      (∀ p : (Grid.rect nlat nlon).Pix, (inSpot s (.rect nlat nlon) R p ∨ inUmbra s (.rect nlat nlon) R p) →
        ¬ ∃ t ∈ l, inSpot t (.rect nlat nlon) R p ∨ inUmbra t (.rect nlat nlon) R p) →
      coveredArea (s :: l) (.rect nlat nlon) R b =
        coveredArea [s] (.rect nlat nlon) R b + coveredArea l (.rect nlat nlon) R b := by
    intro s l hdis
    unfold coveredArea
    rw [← Finset.sum_add_distrib]
    refine Finset.sum_congr rfl fun p _ => ?_
    by_cases h1 : inSpot s (.rect nlat nlon) R p ∨ inUmbra s (.rect nlat nlon) R p
    · rw [if_pos ⟨s, List.mem_cons_self, h1⟩, if_pos ⟨s, List.mem_cons_self, h1⟩, if_neg (hdis p h1), add_zero]
    · have e1 : ¬ ∃ t ∈ [s], inSpot t (.rect nlat nlon) R p ∨ inUmbra t (.rect nlat nlon) R p := by
        rintro ⟨t, ht, h3⟩
        rw [List.mem_singleton.mp ht] at h3
        exact h1 h3
      rw [if_neg e1, zero_add]
      congr 1
      rw [eq_iff_iff]
      constructor
      · rintro ⟨t, ht, h3⟩
        rcases List.mem_cons.mp ht with rfl | ht
        · exact absurd h3 h1
        · exact ⟨t, ht, h3⟩
      · rintro ⟨t, ht, h3⟩
        exact ⟨t, List.mem_cons_of_mem _ ht, h3⟩
  have hnil : coveredArea [] (.rect nlat nlon) R b = 0 := by simp [coveredArea]
  clear hb
  constructor
  · clear hcov
    induction spots with
    | nil => simp [hnil]
    | cons s l ih =>
      have h1 := (abs_le.mp (one s List.mem_cons_self)).2
      have h2 := ih (fun t ht => hs t (List.mem_cons_of_mem _ ht)) (fun t ht => one t (List.mem_cons_of_mem _ ht))
      have h3 := cons_le s l
      rw [List.map_cons, List.sum_cons, List.length_cons, add_div]
      push_cast
      linarith
  · clear hcov
    induction spots with
    | nil => intro _; simp [hnil]
    | cons s l ih =>
      intro hpw
      rw [List.pairwise_cons] at hpw
      have h1 := one s List.mem_cons_self
      have h2 := ih (fun t ht => hs t (List.mem_cons_of_mem _ ht)) (fun t ht => one t (List.mem_cons_of_mem _ ht)) hpw.2
      have inside : ∀ t ∈ s :: l, ∃ η, t.angularRadius R = .fin η ∧ ∀ p : (Grid.rect nlat nlon).Pix,
          (inSpot t (.rect nlat nlon) R p ∨ inUmbra t (.rect nlat nlon) R p) →
          greatCircle t.lat t.lon ((Grid.rect nlat nlon).lat p) ((Grid.rect nlat nlon).lon p) < η := by
        intro t ht
        obtain ⟨g1, g2, g3, ⟨q, g4, g5⟩, -⟩ := hs t ht
        obtain ⟨η, k1, k2, k3, k4⟩ := (C17_angular_radius t R hR).1 _ g1 g2 g3
        refine ⟨η, k1, fun p hp => ?_⟩
        obtain ⟨m1, -, -, m4⟩ := C18_membership t (.rect nlat nlon) R _ q hR g1 g4 (by linarith) p
        obtain ⟨η', k2', k3', k5⟩ := m1.mp (hp.elim id (m4 g5))
        rwa [k4 η' k2' k3'] at k5
      have h3 := cons_eq s l (by
        rintro p hp ⟨t, ht, htp⟩
        obtain ⟨θ, a1, a2⟩ := inside s List.mem_cons_self
        obtain ⟨η, b1, b2⟩ := inside t (List.mem_cons_of_mem _ ht)
        have hd := hpw.1 t ht θ η a1 b1
        have htri := InnerProductGeometry.angle_le_angle_add_angle (unitVec s.lat s.lon)
          (unitVec ((Grid.rect nlat nlon).lat p) ((Grid.rect nlat nlon).lon p)) (unitVec t.lat t.lon)
        rw [InnerProductGeometry.angle_comm (unitVec ((Grid.rect nlat nlon).lat p) _) (unitVec t.lat t.lon)] at htri
        have c1 := a2 p hp
        have c2 := b2 p htp
        unfold greatCircle at hd c1 c2
        linarith)
      rw [h3, List.map_cons, List.sum_cons, List.length_cons, add_div]
      push_cast
      rw [abs_le] at h1 h2 ⊢
      constructor <;> linarith [h1.1, h1.2, h2.1, h2.2]

/-- **C98** (convergence) The coverage reported for a spot tends to the true fraction of the surface as the grid gets
finer. -/
theorem C98_convergence (s : StarSpot) (R a q : ℝ) (hR : 0 < R) (ha : s.area = .fin a) (h0 : 0 ≤ a)
    (h1 : a ≤ 4 * π * R ^ 2) (hq : s.ratio = .fin q) (hq1 : 1 ≤ q) (hl : s.lat ∈ Set.Icc (-(π / 2)) (π / 2))
    (v : ℕ → ℝ) (hv : ∀ n, (SpotCollection.new [s] (.rect (n + 3) (n + 1))).coverage R = .ok (.fin (v n))) :
    Filter.Tendsto v Filter.atTop (nhds (a / (4 * π * R ^ 2))) := by
  rw [tendsto_iff_norm_sub_tendsto_zero]
  have hb : ∀ n : ℕ, ‖v n - a / (4 * π * R ^ 2)‖ ≤ (π + 2) * (1 / ((n : ℝ) + 1)) := by
    intro n
    obtain ⟨w, hw, hle⟩ := C98_coverage_accuracy s (n + 3) (n + 1) (by omega) (by omega) R a q hR ha h0 h1 hq hq1 hl
    have hwv : w = v n := Fl.fin.inj (Except.ok.inj (hw.symm.trans (hv n)))
    rw [hwv] at hle
    refine hle.trans ?_
    push_cast
    have hn : (0 : ℝ) < (n : ℝ) + 1 := by positivity
    have h2 : π / ((n : ℝ) + 3 - 1) ≤ π / ((n : ℝ) + 1) := div_le_div_of_nonneg_left pi_pos.le hn (by linarith)
    calc _ ≤ π / ((n : ℝ) + 1) + 2 / ((n : ℝ) + 1) := by linarith
      _ = _ := by ring
  refine squeeze_zero (fun n => norm_nonneg _) hb ?_
  have := tendsto_one_div_add_atTop_nhds_zero_nat (𝕜 := ℝ)
  simpa using this.const_mul (π + 2)

/-- Non-trivial instance of C98: on the default 500 × 1000 grid a spot covering a quarter of the star is measured
within 0.9 percent of the star, here for a spot at 30° latitude. -/
example : ∃ v : ℝ, (SpotCollection.new [StarSpot.new (π / 6) 2 9 (.fin π) 2500 2700 (.fin 5) true 0.5 1
    (.rect 500 1000)] (.rect 500 1000)).coverage 1 = .ok (.fin v) ∧ |v - 1 / 4| ≤ 0.009 := by
  have hp := pi_pos
  have hp4 := pi_lt_d2
  obtain ⟨v, hv, hle⟩ := C98_coverage_accuracy (StarSpot.new (π / 6) 2 9 (.fin π) 2500 2700 (.fin 5) true 0.5 1
    (.rect 500 1000)) 500 1000 (by norm_num) (by norm_num) 1 π 5 one_pos rfl hp.le (by linarith) rfl (by norm_num)
    ⟨by simp only [StarSpot.new]; linarith, by simp only [StarSpot.new]; linarith⟩
  refine ⟨v, hv, ?_⟩
  have e : π / (4 * π * 1 ^ 2) = 1 / 4 := by field_simp
  rw [e] at hle
  refine hle.trans ?_
  norm_num at hp4 ⊢
  linarith

end Vsm
