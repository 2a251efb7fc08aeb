import Verif.Model.FloatAll
import Verif.Props.FloatReport
import Verif.Props.FarSide
import Mathlib.Analysis.Real.Pi.Bounds

/-!
# C153: the report of a spotted star, computed in double and single precision from its attributes to the fractions
-/

noncomputable section
namespace Vsm
open Real Np Spec

theorem dbl_neg (x : ℝ) : dbl (-x) = - dbl x := by
  unfold dbl roundBits
  simp only [abs_neg, neg_div, roundHalfEven_neg]
  push_cast
  ring

theorem rad_90 : Libm.toRad 90 ≤ π / 2 := by
  have h1 := pi_gt_d20
  have h2 := pi_lt_d20
  have e1 : dbl (π / 180) = ((5030569068109113 : ℤ) : ℝ) * 2 ^ (-58 : ℤ) := by
    refine dbl_eq (by norm_num; linarith) (by norm_num; linarith) ?_
    rw [abs_lt]
    norm_num
    constructor <;> linarith
  have e2 : Libm.toRad 90 = ((7074237752028440 : ℤ) : ℝ) * 2 ^ (-52 : ℤ) := by
    unfold Libm.toRad
    rw [e1]
    refine dbl_eq (by norm_num) (by norm_num) ?_
    rw [abs_lt]
    constructor <;> norm_num
  rw [e2]
  norm_num
  linarith

theorem dbl_90 : dbl 90 = 90 := by
  have := dbl_eq (x := 90) (e := -46) (k := 90 * 2 ^ 46) (by norm_num) (by norm_num) (by norm_num)
  rw [this]
  norm_num

/-- Every computed latitude is one. -/
theorem gridLat_mem {M : Libm} (hM : Accurate M) (g : Grid) (hg : goodGrid g) (hn : (Fintype.card g.Pix : ℝ) ≤ 10 ^ 7) (p : g.Pix) :
    M.gridLat g p ∈ Set.Icc (-(π / 2)) (π / 2) := by
  have hu := ulp_pos
  have hs := ulp_small
  have hp := pi_gt_three
  norm_num at hs
  cases g with
  | rect a b =>
    obtain ⟨i, j⟩ := p
    have ha : 3 ≤ a := hg.1
    have near := abs_le.mp (rect_lat_near M ha (b := b) (i, j))
    obtain ⟨l1, -⟩ := (C01_rect_layout a b (by omega)).2.2 i j
    have hlt : (j : ℕ) < a := j.2
    have hr := rad_90
    by_cases h0 : (j : ℕ) = 0
    · have : M.gridLat (.rect a b) (i, j) = - Libm.toRad 90 := by
        change Libm.toRad (Libm.latDeg a j) = _
        unfold Libm.latDeg
        rw [if_neg (by omega), h0]
        simp only [Nat.cast_zero, zero_mul, dbl_zero, zero_add, dbl_neg, dbl_90]
        unfold Libm.toRad
        rw [neg_mul, dbl_neg]
      rw [this]
      have : 0 ≤ Libm.toRad 90 := dbl_nonneg (mul_nonneg (by norm_num) (dbl_nonneg (by positivity)))
      exact ⟨by linarith, by linarith⟩
    by_cases h1 : (j : ℕ) + 1 = a
    · have : M.gridLat (.rect a b) (i, j) = Libm.toRad 90 := by
        change Libm.toRad (Libm.latDeg a j) = _
        unfold Libm.latDeg
        rw [if_pos ⟨by omega, h1⟩]
      rw [this]
      have : 0 ≤ Libm.toRad 90 := dbl_nonneg (mul_nonneg (by norm_num) (dbl_nonneg (by positivity)))
      exact ⟨by linarith, by linarith⟩
    · rw [l1] at near
      have hb : 1 ≤ b := by have := i.2; omega
      have hab : (a : ℝ) ≤ 10 ^ 7 := by
        refine le_trans ?_ hn
        have : a ≤ Fintype.card (Grid.rect a b).Pix := by
          simp only [Grid.Pix, Fintype.card_prod, Fintype.card_fin]
          exact Nat.le_mul_of_pos_left a hb
        exact_mod_cast this
      have ha' : (3 : ℝ) ≤ a := by exact_mod_cast ha
      have hstep : 1 / 10 ^ 7 ≤ π / ((a : ℝ) - 1) := by
        rw [div_le_div_iff₀ (by norm_num) (by linarith)]
        rw [show (10 : ℝ) ^ 7 = 10000000 by norm_num] at hab ⊢
        linarith
      have hj1 : (1 : ℝ) ≤ j := by exact_mod_cast (by omega : 1 ≤ (j : ℕ))
      have hj2 : (j : ℝ) + 2 ≤ a := by exact_mod_cast (by omega : (j : ℕ) + 2 ≤ a)
      have e : (((a : ℝ) - 1)) * (π / ((a : ℝ) - 1)) = π := by field_simp [show (a : ℝ) - 1 ≠ 0 by linarith]
      have k1 : π / ((a : ℝ) - 1) ≤ j * (π / ((a : ℝ) - 1)) := le_mul_of_one_le_left (by norm_num at hstep; linarith) hj1
      have k2 : j * (π / ((a : ℝ) - 1)) ≤ ((a : ℝ) - 1) * (π / ((a : ℝ) - 1)) - π / ((a : ℝ) - 1) := by
        rw [← sub_one_mul]
        exact mul_le_mul_of_nonneg_right (by linarith) (by norm_num at hstep; linarith)
      rw [e] at k2
      norm_num at hstep
      exact ⟨by linarith [near.1], by linarith [near.2]⟩
  | spiral n =>
    have hn' : (n : ℝ) ≤ 10 ^ 7 := by simpa [Grid.Pix] using hn
    have near := abs_le.mp (spiral_lat_near hM hn' p)
    have hi : (((p : Fin n) : ℕ) : ℝ) + 1 ≤ n := by exact_mod_cast (p : Fin n).2
    have hi0 : (0 : ℝ) ≤ (((p : Fin n) : ℕ) : ℝ) := by positivity
    have hn0 : (0 : ℝ) < n := by linarith
    have e : (Grid.spiral n).lat p = π / 2 - arccos (1 - 2 * ((((p : Fin n) : ℕ) : ℝ) + 0.5) / n) := rfl
    rw [e] at near
    set z := 2 * ((((p : Fin n) : ℕ) : ℝ) + 0.5) / n with hz
    have hinv : 1 / 10 ^ 7 ≤ 1 / (n : ℝ) := one_div_le_one_div_of_le hn0 hn'
    have z1 : 1 / n ≤ z := by rw [hz]; gcongr; linarith
    have z2 : z ≤ 2 - 1 / n := by
      rw [hz, div_le_iff₀ hn0, sub_mul, one_div_mul_cancel hn0.ne']
      linarith
    have hc : 1 - (1 / 10 ^ 4) ^ 2 / 2 ≤ cos (1 / 10 ^ 4) := one_sub_sq_div_two_le_cos
    norm_num at hc hinv
    have k1 : 1 / 10 ^ 4 ≤ arccos (1 - z) := by
      rw [← arccos_cos (x := 1 / 10 ^ 4) (by norm_num) (by norm_num; linarith)]
      refine arccos_le_arccos ?_
      norm_num at z1 ⊢
      linarith
    have k2 : arccos (1 - z) ≤ π - 1 / 10 ^ 4 := by
      rw [← arccos_cos (x := π - 1 / 10 ^ 4) (by norm_num; linarith) (by norm_num)]
      refine arccos_le_arccos ?_
      rw [cos_pi_sub]
      norm_num at z2 ⊢
      linarith
    have hh : 200 * n * ulp ≤ 1 / 10 ^ 4 := by
      have : (n : ℝ) * ulp ≤ 10 ^ 7 * ulp := by gcongr
      norm_num at this ⊢
      nlinarith
    exact ⟨by linarith [near.1], by linarith [near.2]⟩

/-- **C153** (map) The surface map as computed — coordinates, distances, radii in double precision, temperatures in single precision — holds the exact
temperature at every pixel that is at least 1e-6 away from the edges of all spots and umbrae. -/
theorem C153_map {M : Libm} (hM : Accurate M) (s : Star) (hs : Placed s) (hf : s.faculae.faculae = []) (hg : goodGrid s.grid)
    (hn : (Fintype.card s.grid.Pix : ℝ) ≤ 10 ^ 7) (hc : coordErr s.grid ≤ 1 / 10 ^ 8) (hR : 0 < s.radius)
    (hpos : ∀ sp ∈ s.spots.spots, sp.lat ∈ Set.Icc (-(π / 2)) (π / 2) ∧ |sp.lon| ≤ 9)
    (ht : single s.teff = s.teff) (hsp : ∀ sp ∈ s.spots.spots, single sp.teffUmbra = sp.teffUmbra ∧ single sp.teffPenumbra = sp.teffPenumbra)
    (lat0 lon0 : ℝ) :
    ∃ m, s.addFaculaeToMap lat0 lon0 = .ok m ∧ ∀ p, (∀ sp ∈ s.spots.spots, OffEdges sp s.radius (s.grid.lat p) (s.grid.lon p)) → M.spotMap s p = m p := by
  have hm := addFaculaeToMap_eq s hs lat0 lon0
  rw [hf] at hm
  refine ⟨_, hm, fun p hoff => ?_⟩
  set c : SpotCollection := ⟨s.spots.spots, s.grid⟩ with hcdef
  have hmeas : Measured c := by
    intro sp hsp
    have := hs.2.1 sp hsp
    rw [hs.1] at this
    exact this
  obtain ⟨m, e, h⟩ := C144_map_partial M hM single c hmeas s.radius (single s.teff) hR fun sp hsp => (hpos sp hsp).1
  have e' := mapFold_eq single s.radius s.grid s.spots.spots hmeas fun _ => single s.teff
  have e'' := congrFun (Except.ok.inj (e.symm.trans e')) p
  obtain ⟨k1, ⟨k, k2⟩, k3, -⟩ := coord_near hM s.grid hg hn p
  have hclose : Close (s.grid.lat p) (s.grid.lon p - 2 * π * k) (M.gridLat s.grid p) (Libm.gridLon s.grid p) := by
    refine ⟨?_, ?_, gridLat_mem hM s.grid hg hn p⟩
    · rw [abs_sub_comm]; exact k1.trans hc
    · rw [abs_sub_comm, sub_sub_eq_add_sub]; exact k2.trans hc
  have := h p (M.gridLat s.grid p) (Libm.gridLon s.grid p) k hclose (fun sp hsp => by
    have := abs_le.mp (hpos sp hsp).2
    rw [abs_le]
    constructor <;> linarith [k3.1, k3.2]) hoff
  refine this.trans (e''.trans ?_)
  rw [ht]
  have fold : ∀ (l : List StarSpot) (T : ℝ), (∀ sp ∈ l, single sp.teffUmbra = sp.teffUmbra ∧ single sp.teffPenumbra = sp.teffPenumbra) →
      l.foldl (fun c sp => SpotCollection.overlay single sp.teffUmbra sp.teffPenumbra (inUmbra sp s.grid s.radius p) (inSpot sp s.grid s.radius p) c) T =
      l.foldl (fun c sp => SpotCollection.overlay id sp.teffUmbra sp.teffPenumbra (inUmbra sp s.grid s.radius p) (inSpot sp s.grid s.radius p) c) T := by
    intro l
    induction l with
    | nil => exact fun _ _ => rfl
    | cons sp l ih =>
      intro T h
      obtain ⟨a1, a2⟩ := h sp (by simp)
      rw [List.foldl_cons, List.foldl_cons, ih _ fun sp hsp => h sp (by simp [hsp])]
      congr 1
      unfold SpotCollection.overlay
      rw [a1, a2]
      rfl
  exact fold _ _ hsp

/-! ## The report -/

theorem light_le_one {s : Star} (hg : goodGrid s.grid) (hld : PhysicalLD s.u1 s.u2) {lat0 lon0 L : ℝ} (hL : ∑ p, s.weight lat0 lon0 p = .fin L) : L ≤ 1 := by
  obtain ⟨hj, hJ, hN, ha⟩ := jac_facts s.grid hg
  have hw := weight_eq s _ ha lat0 lon0
  simp only [hw] at hL
  rw [Fl.sum_fin, Fl.fin_inj] at hL
  rw [← hL]
  have hJ₀ : 0 < ∑ q, jac s.grid q := by linarith
  calc _ ≤ ∑ p, jac s.grid p / ∑ q, jac s.grid q := Finset.sum_le_sum fun p _ => by
        have hmu : s.grid.mu lat0 lon0 p ≤ 1 := by
          have : Grid.cosAngle lat0 lon0 (s.grid.lat p) (s.grid.lon p) = cos (greatCircle lat0 lon0 (s.grid.lat p) (s.grid.lon p)) := by
            rw [cos_greatCircle, cosDist, inner_unitVec]; rfl
          change Grid.cosAngle lat0 lon0 (s.grid.lat p) (s.grid.lon p) ≤ 1
          rw [this]
          exact cos_le_one _
        rw [mul_left_comm]
        exact mul_le_of_le_one_right (div_nonneg (hj p).1 hJ₀.le) (lightAt_range hld hmu).2
    _ = 1 := by rw [← Finset.sum_div, div_self hJ₀.ne']

theorem weights_real {s : Star} (hg : goodGrid s.grid) (hld : PhysicalLD s.u1 s.u2) (lat0 lon0 : ℝ) :
    ∃ w : s.grid.Pix → ℝ, (∀ p, s.weight lat0 lon0 p = .fin (w p)) ∧ ∀ p, 0 ≤ w p := by
  obtain ⟨hj, hJ, hN, ha⟩ := jac_facts s.grid hg
  refine ⟨_, weight_eq s _ ha lat0 lon0, fun p => ?_⟩
  have hm : s.grid.mu lat0 lon0 p ≤ 1 := by
    have : Grid.cosAngle lat0 lon0 (s.grid.lat p) (s.grid.lon p) = cos (greatCircle lat0 lon0 (s.grid.lat p) (s.grid.lon p)) := by
      rw [cos_greatCircle, cosDist, inner_unitVec]; rfl
    change Grid.cosAngle lat0 lon0 (s.grid.lat p) (s.grid.lon p) ≤ 1
    rw [this]
    exact cos_le_one _
  have := lightAt_range hld hm
  rw [mul_left_comm]
  exact mul_nonneg (div_nonneg (hj p).1 (by linarith)) this.1

theorem foldl_mem {f : ℝ → StarSpot → ℝ} (l : List StarSpot) (h : ∀ sp ∈ l, ∀ T, f T sp = T ∨ f T sp = sp.teffUmbra ∨ f T sp = sp.teffPenumbra) (T : ℝ) :
    l.foldl f T = T ∨ ∃ sp ∈ l, l.foldl f T = sp.teffUmbra ∨ l.foldl f T = sp.teffPenumbra := by
  induction l generalizing T with
  | nil => exact Or.inl rfl
  | cons sp l ih =>
    rw [List.foldl_cons]
    rcases ih (fun sp hsp => h sp (by simp [hsp])) (f T sp) with e | ⟨sp', h1, h2⟩
    · rcases h sp (by simp) T with h' | h' | h'
      · exact Or.inl (e.trans h')
      · exact Or.inr ⟨sp, by simp, Or.inl (e.trans h')⟩
      · exact Or.inr ⟨sp, by simp, Or.inr (e.trans h')⟩
    · exact Or.inr ⟨sp', by simp [h1], h2⟩

/-- Every temperature of the map as computed is that of the photosphere or of a spot. -/
theorem spotMap_mem (M : Libm) (s : Star) (ht : single s.teff = s.teff)
    (hsp : ∀ sp ∈ s.spots.spots, single sp.teffUmbra = sp.teffUmbra ∧ single sp.teffPenumbra = sp.teffPenumbra) (p : s.grid.Pix) :
    M.spotMap s p = s.teff ∨ ∃ sp ∈ s.spots.spots, M.spotMap s p = sp.teffUmbra ∨ M.spotMap s p = sp.teffPenumbra := by
  classical
  unfold Libm.spotMap Libm.mapPixel
  rw [ht]
  refine foldl_mem _ (fun sp h T => ?_) _
  obtain ⟨a1, a2⟩ := hsp sp h
  cases sp.area <;> cases sp.ratio <;> first | exact Or.inl rfl | skip
  dsimp only
  unfold SpotCollection.overlay
  rw [a1, a2]
  split_ifs <;> simp

/-- Granulation of shares succeeds if some pixel shows the photosphere. -/
theorem granulate_answers {s : Star} {lat0 lon0 : ℝ} {w m c : s.grid.Pix → ℝ} (hw : ∀ p, s.weight lat0 lon0 p = .fin (w p)) (hW : ∑ p, w p ≠ 0) {G : ℝ}
    (hsep : Apart (Set.range m ∪ {s.teff, G})) (hp : s.teff ∈ Set.range m) (g : ℝ) :
    ∃ d, Star.granulate (s.rawData lat0 lon0 m (fun p => .fin (c p)) G) (Star.key s.teff) (Star.key G) g = .ok d := by
  have hinj : ∀ T T', T ∈ Set.range m ∪ {s.teff, G} → T' ∈ Set.range m ∪ {s.teff, G} → Star.key T = Star.key T' → T = T' := fun T T' h1 h2 hk =>
    key_inj_of_sep (hsep T h1 T' h2) hk
  have hmem : ∀ T, (T ∈ Set.range m ∨ T = G) → T ∈ Set.range m ∪ {s.teff, G} := by
    rintro T (h | h)
    · exact Or.inl h
    · exact Or.inr (by simp [h])
  have get : ∀ T, (T ∈ Set.range m ∨ T = G) → Dict.get? (s.rawData lat0 lon0 m (fun p => .fin (c p)) G) (Star.key T) = some (.fin (share w m c T)) := fun T hT => by
    rw [rawData_get? hw hW, rawVal_of_mem (fun T' hT' hk => hinj _ _ (hmem _ hT') (hmem _ hT) hk) hT]
    rfl
  refine ⟨_, granulate_ok.mpr ⟨_, (if Star.key s.teff = Star.key G then Fl.fin (share w m c s.teff) * .fin (1 - g) else .fin (share w m c G)), get _ (Or.inl hp), ?_, rfl⟩⟩
  rw [Dict.get?_set]
  by_cases h : Star.key s.teff = Star.key G
  · simp only [h, if_true]
  · simp only [h, if_false]
    exact get _ (Or.inr rfl)

theorem rawDataSingle_eq {ι : Type} [Fintype ι] (m : ι → ℝ) (f : ℝ → ℝ) {G : ℝ} (hG : single G = G) : Libm.rawDataSingle m f G = Libm.rawData m f G := by
  unfold Libm.rawDataSingle Libm.rawData
  rw [hG]

/-- Labels of two maps that agree except at certain pixels: the entries differ by at most the share of these pixels. -/
theorem entry_maps {ι : Type} [Fintype ι] {w m m' c : ι → ℝ} {N : ι → Prop} [DecidablePred N] (hw : ∀ p, 0 ≤ w p) (hW : 0 < ∑ p, w p) (hc : ∀ p, c p ∈ Set.Icc (0 : ℝ) 1)
    (h : ∀ p, N p → m p = m' p) {g : ℝ} (hg : g ∈ Set.Icc (0 : ℝ) 1) (kP kG k : ℤ) (hk : kP ≠ kG) :
    |(labelShare w m c k + (if k = kG then g * labelShare w m c kP else 0) - (if k = kP then g * labelShare w m c kP else 0)) -
      (labelShare w m' c k + (if k = kG then g * labelShare w m' c kP else 0) - (if k = kP then g * labelShare w m' c kP else 0))| ≤
      (∑ p, if N p then 0 else w p) / ∑ p, w p := by
  let val : ℤ → ℝ := fun l => (if l = k then 1 else 0) + (if k = kG then g * (if l = kP then 1 else 0) else 0) - (if k = kP then g * (if l = kP then 1 else 0) else 0)
  have hval : ∀ l, val l ∈ Set.Icc (0 : ℝ) 1 := fun l => by
    obtain ⟨g0, g1⟩ := hg
    simp only [val]
    split_ifs <;> first | (exfalso; omega) | (constructor <;> linarith)
  have form : ∀ m : ι → ℝ, labelShare w m c k + (if k = kG then g * labelShare w m c kP else 0) - (if k = kP then g * labelShare w m c kP else 0) =
      (∑ p, w p * c p * val (Star.key (m p))) / ∑ p, w p := fun m => by
    have hl : ∀ k', labelShare w m c k' = (∑ p, w p * c p * (if Star.key (m p) = k' then 1 else 0)) / ∑ p, w p := fun k' => by
      unfold labelShare
      congr 1
      refine Finset.sum_congr rfl fun p _ => ?_
      by_cases e : Star.key (m p) = k'
      · rw [if_pos e, if_pos e, mul_one]
      · rw [if_neg e, if_neg e, mul_zero]
    rw [hl k, hl kP]
    simp only [val, mul_sub, mul_add, Finset.sum_sub_distrib, Finset.sum_add_distrib, sub_div, add_div]
    congr 1
    · congr 1
      by_cases e1 : k = kG
      · simp only [if_pos e1, ← mul_div_assoc, Finset.mul_sum]
        congr 1
        exact Finset.sum_congr rfl fun p _ => by ring
      · simp only [if_neg e1, mul_zero, Finset.sum_const_zero, zero_div]
    · by_cases e1 : k = kP
      · simp only [if_pos e1, ← mul_div_assoc, Finset.mul_sum]
        congr 1
        exact Finset.sum_congr rfl fun p _ => by ring
      · simp only [if_neg e1, mul_zero, Finset.sum_const_zero, zero_div]
  rw [form m, form m', ← sub_div, abs_div, abs_of_pos hW]
  gcongr
  rw [← Finset.sum_sub_distrib]
  refine (Finset.abs_sum_le_sum_abs _ _).trans (Finset.sum_le_sum fun p _ => ?_)
  by_cases e : N p
  · rw [if_pos e, h p e, sub_self, abs_zero]
  · rw [if_neg e, ← mul_sub, abs_mul, abs_of_nonneg (mul_nonneg (hw p) (hc p).1)]
    have h1 := hval (Star.key (m p))
    have h2 := hval (Star.key (m' p))
    have : |val (Star.key (m p)) - val (Star.key (m' p))| ≤ 1 := by
      rw [abs_le]
      constructor <;> linarith [h1.1, h1.2, h2.1, h2.2]
    calc _ ≤ w p * 1 * 1 := mul_le_mul (mul_le_mul_of_nonneg_left (hc p).2 (hw p)) this (abs_nonneg _) (by linarith [hw p])
      _ = w p := by ring

theorem near_entry {ε : ℝ} {d : Dict ℤ ℝ} {d' : Dict ℤ Fl} (h0 : 0 ≤ ε) (h : DictRel (fun x y => ∃ v, y = Fl.fin v ∧ |x - v| ≤ ε) d d') (k : ℤ) {x : ℝ} (hx : entry d' k = .fin x) :
    |(Dict.get? d k).getD 0 - x| ≤ ε := by
  unfold entry at hx
  rcases h.get? k with ⟨h1, h2⟩ | ⟨a, b, h1, h2, v, rfl, hv⟩
  · rw [h2, Option.getD_none, Fl.fin_inj] at hx
    rw [h1, ← hx]
    simpa using h0
  · rw [h2, Option.getD_some, Fl.fin_inj] at hx
    rw [h1, ← hx]
    exact hv

/-- The temperatures that a star without faculae can show. -/
def Spec.temperatures (s : Star) (G : ℝ) : Set ℝ := {T | T = s.teff ∨ T = G ∨ ∃ sp ∈ s.spots.spots, T = sp.teffUmbra ∨ T = sp.teffPenumbra}

/-- A pixel that is not within 1e-6 of the edge of a spot or of an umbra. -/
def Spec.Clear (s : Star) (p : s.grid.Pix) : Prop := ∀ sp ∈ s.spots.spots, OffEdges sp s.radius (s.grid.lat p) (s.grid.lon p)

/-- What is assumed of a spotted star: no faculae; masks measured on its own grid, whose coordinates come out to 1e-8; spots between the poles and at longitudes between -9 and 9 radians;
temperatures that single precision holds exactly, and that are more than 0.01 K apart if they differ. -/
structure Spec.SpottedStar (s : Star) (gr : Granulation) : Prop where
  placed : Placed s
  plain : s.faculae.faculae = []
  coords : coordErr s.grid ≤ 1 / 10 ^ 8
  radius : 0 < s.radius
  pos : ∀ sp ∈ s.spots.spots, sp.lat ∈ Set.Icc (-(π / 2)) (π / 2) ∧ |sp.lon| ≤ 9
  exact_teff : single s.teff = s.teff
  exact_spots : ∀ sp ∈ s.spots.spots, single sp.teffUmbra = sp.teffUmbra ∧ single sp.teffPenumbra = sp.teffPenumbra
  exact_gran : dbl (s.teff - gr.dteff) = s.teff - gr.dteff ∧ single (s.teff - gr.dteff) = s.teff - gr.dteff
  granules : gr.dteff ≠ 0
  apart : Apart (temperatures s (s.teff - gr.dteff))

open Classical in
/-- **C153** The whole report of a spotted star with everything rounded — grid, distances, radii, areas and fractions in double precision, the map in single precision.  Every entry
differs from the exact one by at most the allowance for the sums plus the share of the light from pixels within 1e-6 of an edge. -/
theorem C153_report {M : Libm} (hM : Accurate M) {s : Star} {gr : Granulation} (hgr : s.granulation = some gr) (hS : SpottedStar s gr) {lat0 lon0 : ℝ}
    (h0 : lat0 ∈ Set.Icc (-(π / 2)) (π / 2)) {T T₁ T₂ : SumTree s.grid.Pix} {D : ℕ} (H : FloatSetting s lon0 T T₁ T₂ D) {L : ℝ} (hL : ∑ p, s.weight lat0 lon0 p = .fin L)
    (hLe : allowance s.grid D ≤ L) {g orbit r phase incl : ℝ} (hg : g ∈ Set.Icc 0 1) {total cov : Dict ℤ Fl} {plf : Fl}
    (h : s.calcCoverage lat0 lon0 g orbit r phase incl = .ok (total, cov, plf)) {m : s.grid.Pix → ℝ} (hm : s.addFaculaeToMap lat0 lon0 = .ok m)
    (hp : ∃ p, Clear s p ∧ m p = s.teff) {E : ℝ} (hE : ∑ p, (if Clear s p then .fin 0 else s.weight lat0 lon0 p) = .fin E) :
    ∃ c total' cov', s.transitMask lat0 lon0 orbit r phase incl = .ok (fun p => .fin (c p), plf) ∧
      M.calcCoverageSpots s T T₁ T₂ lat0 lon0 g c = .ok (total', cov') ∧
      ∀ k, ∃ x y, entry total k = .fin x ∧ entry cov k = .fin y ∧
        |(Dict.get? total' k).getD 0 - x| ≤ (3 * allowance s.grid D + E) / L ∧ |(Dict.get? cov' k).getD 0 - y| ≤ (3 * allowance s.grid D + E) / L := by
  obtain ⟨m', mask, gr', hm', ht, hgr', h1, h2⟩ := calcCoverage_ok.mp h
  rw [hgr, Option.some.injEq] at hgr'
  subst hgr'
  rw [hm, Except.ok.injEq] at hm'
  subst hm'
  obtain ⟨c, rfl, hc0, hc1⟩ := mask_real H.grid hS.radius.ne' h0 ht
  have hc : ∀ p, c p ∈ Set.Icc (0 : ℝ) 1 := fun p => ⟨hc0 p, hc1 p⟩
  obtain ⟨w, hw, hw0⟩ := weights_real H.grid H.ld lat0 lon0
  have hLw : L = ∑ p, w p := by
    have := hL
    simp only [hw] at this
    rw [Fl.sum_fin, Fl.fin_inj] at this
    exact this.symm
  have hEw : E = ∑ p, if Clear s p then 0 else w p := by
    have e : ∀ p, (if Clear s p then Fl.fin 0 else s.weight lat0 lon0 p) = .fin (if Clear s p then 0 else w p) := fun p => by
      by_cases hq : Clear s p
      · rw [if_pos hq, if_pos hq]
      · rw [if_neg hq, if_neg hq, hw]
    simp only [e] at hE
    rw [Fl.sum_fin, Fl.fin_inj] at hE
    exact hE.symm
  have hu := ulp_pos
  have hδ := coordErr_nonneg s.grid
  have hal : 30000 * ulp ≤ allowance s.grid D := by
    have : 0 ≤ (D : ℝ) * ulp := by positivity
    have e : allowance s.grid D = 600 * coordErr s.grid + 30000 * ulp + 80 * (D * ulp) := by unfold allowance ulp; ring
    rw [e]
    linarith
  have hLpos : 0 < L := by linarith
  have hW : 0 < ∑ p, w p := hLw ▸ hLpos
  have hL1 : L ≤ 1 := light_le_one H.grid H.ld hL
  have hε1 : 100 * ulp ≤ allowance s.grid D / L := by
    rw [le_div_iff₀ hLpos]
    nlinarith
  have hε2 : allowance s.grid D / L ≤ 1 := by rw [div_le_one hLpos]; exact hLe
  have hε0 : 0 ≤ allowance s.grid D / L := by linarith
  obtain ⟨m', hm', hmap⟩ := C153_map hM s hS.placed hS.plain H.grid H.pixels hS.coords hS.radius hS.pos hS.exact_teff hS.exact_spots lat0 lon0
  rw [hm, Except.ok.injEq] at hm'
  subst hm'
  set G := s.teff - gr.dteff with hG
  set mf := M.spotMap s with hmf
  have hrange : ∀ p, mf p ∈ temperatures s G := fun p => by
    rcases spotMap_mem M s hS.exact_teff hS.exact_spots p with e | e
    · exact Or.inl e
    · exact Or.inr (Or.inr e)
  have sub : ∀ m : s.grid.Pix → ℝ, (∀ p, m p ∈ temperatures s G) → Apart (Set.range m ∪ {s.teff, G}) := fun m hm => by
    have : ∀ T ∈ Set.range m ∪ {s.teff, G}, T ∈ temperatures s G := by
      rintro T (⟨p, rfl⟩ | hT)
      · exact hm p
      · rcases hT with hT | hT
        · exact Or.inl hT
        · exact Or.inr (Or.inl hT)
    exact fun T hT T' hT' => hS.apart T (this T hT) T' (this T' hT')
  have hrange' : ∀ p, m p ∈ temperatures s G := by
    have hme := addFaculaeToMap_eq s hS.placed lat0 lon0
    rw [hS.plain] at hme
    intro p
    have e := congrFun (Except.ok.inj (hm.symm.trans hme)) p
    by_cases hq : m p = s.teff
    · exact Or.inl hq
    · rw [e] at hq ⊢
      obtain ⟨sp, h1, h2⟩ := (foldl_overlay_cases s.spots.spots s.grid s.radius p s.teff).2 hq
      rcases h2 with h2 | h2
      · exact Or.inr (Or.inr ⟨sp, h1, Or.inl h2.1⟩)
      · exact Or.inr (Or.inr ⟨sp, h1, Or.inr h2.1⟩)
  have hph : s.teff ∈ Set.range mf := by
    obtain ⟨p, hp1, hp2⟩ := hp
    exact ⟨p, (hmap p hp1).trans hp2⟩
  obtain ⟨d1, hd1⟩ := granulate_answers (c := fun _ => 1) hw hW.ne' (sub mf hrange) hph g
  obtain ⟨d2, hd2⟩ := granulate_answers (c := c) hw hW.ne' (sub mf hrange) hph g
  have z : ∃ v ∈ Set.Icc (0 : ℝ) 1, Fl.fin 0 = .fin v ∧ |(0 : ℝ) - v| ≤ allowance s.grid D / L := ⟨0, ⟨le_refl _, zero_le_one⟩, rfl, by simpa using hε0⟩
  obtain ⟨e1, he1, hr1⟩ := granulate_near hg hε1 hε2 (rawData_near (f := M.nominalShare s T T₁ T₂ lat0 lon0 mf) G (fun t => (shares_near hM H hL hLe mf hc t).1) z) hd1
  obtain ⟨e2, he2, hr2⟩ := granulate_near hg hε1 hε2 (rawData_near (f := M.coveredShare s T T₁ T₂ lat0 lon0 mf c) G (fun t => (shares_near hM H hL hLe mf hc t).2) z) hd2
  have hk : Star.key s.teff ≠ Star.key G := fun e => by
    have := key_inj_of_sep (hS.apart s.teff (Or.inl rfl) G (Or.inr (Or.inl rfl))) e
    rw [hG] at this
    exact hS.granules (by linarith)
  refine ⟨c, e1, e2, ht, ?_, fun k => ?_⟩
  · unfold Libm.calcCoverageSpots
    have eG : dbl G = G ∧ single G = G := hS.exact_gran
    simp only [hgr, ← hG, eG.1, rawDataSingle_eq _ _ eG.2, ← hmf, he1, he2, bind, Except.bind, pure, Except.pure]
  · have a1 := entry_of_apart hw hW.ne' h1 (sub m hrange') k
    have a2 := entry_of_apart hw hW.ne' h2 (sub m hrange') k
    have b1 := near_entry (by linarith) hr1 k (entry_of_apart hw hW.ne' hd1 (sub mf hrange) k)
    have b2 := near_entry (by linarith) hr2 k (entry_of_apart hw hW.ne' hd2 (sub mf hrange) k)
    refine ⟨_, _, a1, a2, (abs_sub_le _ _ _).trans (le_trans (add_le_add b1 (entry_maps hw0 hW (fun _ => ⟨zero_le_one, le_refl _⟩) (N := Clear s) hmap hg _ _ _ hk)) ?_),
      (abs_sub_le _ _ _).trans (le_trans (add_le_add b2 (entry_maps hw0 hW hc (N := Clear s) hmap hg _ _ _ hk)) ?_)⟩ <;>
    rw [← hLw, ← hEw, add_div, mul_div_assoc]

/-! ## A star of which half is covered -/

theorem cos_pixels (i : Fin 3) (j : Fin 4) (hj : (Grid.rect 4 3).mu 0 0 (i, j) ≠ 0) :
    (Grid.rect 4 3).mu 0 0 (i, j) = √3 / 2 ∨ (Grid.rect 4 3).mu 0 0 (i, j) = -(√3 / 4) := by
  rw [grid43_mu] at hj ⊢
  have h3 : cos (-(π / 2) + π / 3) = √3 / 2 := by
    rw [show -(π / 2) + π / 3 = -(π / 6) by ring, cos_neg, cos_pi_div_six]
  have h3' : cos (-(π / 2) + 2 * (π / 3)) = √3 / 2 := by
    rw [show -(π / 2) + 2 * (π / 3) = π / 6 by ring, cos_pi_div_six]
  have h4 : cos (2 * π / 3) = -(1 / 2) := by
    rw [show 2 * π / 3 = π - π / 3 by ring, cos_pi_sub, cos_pi_div_three]
  have h5 : cos (2 * (2 * π / 3)) = -(1 / 2) := by
    rw [show 2 * (2 * π / 3) = π / 3 + π by ring, cos_add_pi, cos_pi_div_three]
  have h6 : cos (-(π / 2) + 3 * (π / 3)) = 0 := by
    rw [show -(π / 2) + 3 * (π / 3) = π / 2 by ring, cos_pi_div_two]
  fin_cases j <;> fin_cases i <;> simp [h3, h3', h4, h5, h6] at hj ⊢
  all_goals exact Or.inr (by ring)

theorem halfStar_clear (p : (Grid.rect 4 3).Pix) (h : (Grid.rect 4 3).mu 0 0 p ≠ 0) : Clear (halfStar []) p := by
  intro sp hsp
  have hsp : sp ∈ [halfSpot (.rect 4 3) 0 2700].map (·.setGridmaker (.rect 4 3)) := hsp
  simp only [List.map_cons, List.map_nil, List.mem_singleton] at hsp
  subst hsp
  have hp := pi_gt_three
  have hp4 := pi_lt_four
  have e3 : 1.7 ≤ √3 := by rw [le_sqrt (by norm_num) (by norm_num)]; norm_num
  have e3' : √3 ≤ 1.8 := by rw [sqrt_le_left (by norm_num)]; norm_num
  have e2 : 1.4 ≤ √2 := by rw [le_sqrt (by norm_num) (by norm_num)]; norm_num
  have e2' : √2 ≤ 1.5 := by rw [sqrt_le_left (by norm_num)]; norm_num
  obtain ⟨i, j⟩ := p
  have hc := cos_pixels i j h
  rw [(C03_mu_inner (.rect 4 3) 0 0 (i, j)).2.2.2] at hc
  set d := greatCircle 0 0 ((Grid.rect 4 3).lat (i, j)) ((Grid.rect 4 3).lon (i, j)) with hd
  have far : ∀ ρ, 1 / 10 ≤ |cos d - cos ρ| → 1 / 10 ^ 6 ≤ |d - ρ| := fun ρ hρ => by
    have := abs_cos_sub_cos_le d ρ
    norm_num
    linarith
  refine ⟨2 * π, 4, π / 2, rfl, rfl, by norm_num, by linarith, by norm_num; linarith, ?_, far _ ?_, far _ ?_⟩
  · change capArea 1 (π / 2) = 2 * π
    simp [capArea]
  · rw [cos_pi_div_two, sub_zero]
    rcases hc with hc | hc
    · rw [hc, abs_of_nonneg (by positivity)]; linarith
    · rw [hc, abs_neg, abs_of_nonneg (by positivity)]; linarith
  · rw [show √(4 : ℝ) = 2 by rw [show (4 : ℝ) = 2 ^ 2 by norm_num]; exact sqrt_sq (by norm_num), show π / 2 / 2 = π / 4 by ring, cos_pi_div_four]
    rcases hc with hc | hc
    · rw [hc]
      refine le_trans ?_ (le_abs_self _)
      norm_num at e3 e2' ⊢
      linarith
    · rw [hc]
      refine le_trans ?_ (neg_le_abs _)
      norm_num at e3 e2 ⊢
      linarith

theorem halfStar_light : ∃ L, ∑ p, (halfStar []).weight 0 0 p = .fin L ∧ 1 / 100 ≤ L := by
  set s := halfStar [] with hs
  have hg : goodGrid s.grid := ⟨by show 3 ≤ 4; norm_num, by show 1 ≤ 3; norm_num⟩
  obtain ⟨hj, hJ, hN, ha⟩ := jac_facts s.grid hg
  obtain ⟨hnn, -⟩ := visible_pos s hg (granStar_phys _ _ _) ha (visible_rect s rfl (by omega) (by omega) 0 0)
  have hw : ∀ p, s.weight 0 0 p = .fin (pixelWeight s (fun p => jac s.grid p / ∑ q, jac s.grid q) 0 0 p) := weight_eq s _ ha 0 0
  refine ⟨∑ i, pixelWeight s (fun p => jac s.grid p / ∑ q, jac s.grid q) 0 0 i, by simp only [hw, Fl.sum_fin], ?_⟩
  let p : s.grid.Pix := ((⟨0, by norm_num⟩ : Fin 3), (⟨1, by norm_num⟩ : Fin 4))
  refine le_trans ?_ (Finset.single_le_sum (fun q _ => hnn q) (Finset.mem_univ p))
  obtain ⟨l1, l2, -⟩ := (C01_rect_layout 4 3 (by omega)).2.2 ⟨0, by norm_num⟩ ⟨1, by norm_num⟩
  have e1 : cos (s.grid.lat p) = √3 / 2 := by
    rw [← cos_pi_div_six, ← cos_neg (π / 6)]
    congr 1
    refine l1.trans ?_
    norm_num
    ring
  have e2 : s.grid.lon p = 0 := by
    refine l2.trans ?_
    norm_num
  have hmu : s.grid.mu 0 0 p = √3 / 2 := by
    change Grid.cosAngle 0 0 (s.grid.lat p) (s.grid.lon p) = _
    simp [Grid.cosAngle, e1, e2]
  have e3 : 1.7 ≤ √3 := by rw [le_sqrt (by norm_num) (by norm_num)]; norm_num
  have hjp : jac s.grid p = √3 / 2 := e1
  have hsum : ∑ q, jac s.grid q ≤ 12 := by
    refine (Finset.sum_le_sum fun q _ => (hj q).2).trans ?_
    rw [Finset.sum_const, nsmul_eq_mul, mul_one]
    have : (Finset.univ : Finset s.grid.Pix).card = 12 := by
      change (Finset.univ : Finset (Fin 3 × Fin 4)).card = 12
      simp
    rw [this]
    norm_num
  have hpos : 0 < ∑ q, jac s.grid q := by linarith
  unfold pixelWeight
  beta_reduce
  rw [hmu, hjp, max_eq_left (by positivity)]
  have hq : quadraticLaw s.u1 s.u2 (√3 / 2) = 1 := by simp [quadraticLaw, hs, halfStar, granStar, sampleStar]
  rw [hq, one_mul]
  generalize ∑ q, jac s.grid q = S at hsum hpos ⊢
  have : 1 / 12 ≤ 1 / S := one_div_le_one_div_of_le hpos hsum
  norm_num at e3
  rw [div_mul_eq_mul_div, le_div_iff₀ hpos]
  nlinarith

theorem halfStar_setting : ∃ T, FloatSetting (halfStar []) 0 T T T 12 := by
  have : Nonempty (halfStar []).grid.Pix := ⟨((⟨0, by norm_num⟩ : Fin 3), (⟨2, by norm_num⟩ : Fin 4))⟩
  have hcard : Fintype.card (halfStar []).grid.Pix = 12 := by
    change Fintype.card (Fin 3 × Fin 4) = 12
    simp
  obtain ⟨T, h1, h2⟩ := exists_tree (halfStar []).grid.Pix
  rw [hcard] at h2
  exact ⟨T, ⟨by show 3 ≤ 4; norm_num, by show 1 ≤ 3; norm_num⟩, by rw [hcard]; norm_num, granStar_phys _ _ _, by norm_num, ⟨h1, h1, h1⟩, ⟨h2, h2, h2⟩⟩

theorem halfStar_spotted : SpottedStar (halfStar []) ⟨0.2, 1, 1, 100⟩ := by
  have hp := pi_gt_three
  have one : ∀ sp ∈ (halfStar []).spots.spots, sp.lat = 0 ∧ sp.lon = 0 ∧ sp.teffUmbra = 2700 ∧ sp.teffPenumbra = 2700 := by
    intro sp hsp
    have hsp : sp ∈ [halfSpot (.rect 4 3) 0 2700].map (·.setGridmaker (.rect 4 3)) := hsp
    simp only [List.map_cons, List.map_nil, List.mem_singleton] at hsp
    subst hsp
    exact ⟨rfl, rfl, rfl, rfl⟩
  have e29 : (halfStar []).teff - (100 : ℝ) = 2900 := by change (3000 : ℝ) - 100 = 2900; norm_num
  refine ⟨halfStar_placed [], rfl, ?_, one_pos, fun sp hsp => ?_, ?_, fun sp hsp => ?_, ?_, by norm_num, ?_⟩
  · change 80 * ulp ≤ _
    unfold ulp
    norm_num
  · obtain ⟨h1, h2, -⟩ := one sp hsp
    rw [h1, h2]
    exact ⟨⟨by linarith, by linarith⟩, by norm_num⟩
  · change single 3000 = 3000
    exact single_exact (3000 * 256) (by norm_num) (by norm_num)
  · obtain ⟨-, -, h1, h2⟩ := one sp hsp
    rw [h1, h2, single_exact (2700 * 256) (by norm_num) (by norm_num)]
    exact ⟨rfl, rfl⟩
  · rw [e29]
    refine ⟨?_, single_exact (2900 * 256) (by norm_num) (by norm_num)⟩
    have := dbl_eq (x := 2900) (e := -41) (k := 2900 * 2 ^ 41) (by norm_num) (by norm_num) (by norm_num)
    rw [this]
    norm_num
  · have : ∀ T ∈ temperatures (halfStar []) ((halfStar []).teff - 100), T = 3000 ∨ T = 2900 ∨ T = 2700 := by
      rintro T (h | h | ⟨sp, hsp, h⟩)
      · exact Or.inl h
      · exact Or.inr (Or.inl (h.trans e29))
      · obtain ⟨-, -, h1, h2⟩ := one sp hsp
        rw [h1, h2, or_self] at h
        exact Or.inr (Or.inr h)
    intro T h T' h' hne
    rcases this T h with rfl | rfl | rfl <;> rcases this T' h' with rfl | rfl | rfl <;> first | exact absurd rfl hne | norm_num

/-- Non-trivial instance of C153: half of the star is covered by a spot.  The poles lie on the edge of the spot, but send no light to the observer; double precision gets all
values to eight digits. -/
example {M : Libm} (hM : Accurate M) : ∃ total cov plf c T total' cov', (halfStar []).calcCoverage 0 0 0.2 10 (1 / 2) (π / 2) 0 = .ok (total, cov, plf) ∧
    M.calcCoverageSpots (halfStar []) T T T 0 0 0.2 c = .ok (total', cov') ∧
    ∀ k, ∃ x y, entry total k = .fin x ∧ entry cov k = .fin y ∧ |(Dict.get? total' k).getD 0 - x| ≤ 1 / 10 ^ 8 ∧ |(Dict.get? cov' k).getD 0 - y| ≤ 1 / 10 ^ 8 := by
  classical
  have hp := pi_pos
  obtain ⟨total, cov, plf, h⟩ := halfStar_answers [] (by simp) 0
  obtain ⟨L, hL, hL1⟩ := halfStar_light
  obtain ⟨T, hT⟩ := halfStar_setting
  obtain ⟨-, -, p, hpix⟩ := halfStar_pixels
  have hal : allowance (halfStar []).grid 12 ≤ 1 / 10 ^ 11 := by
    change 600 * (80 * ulp) + (30000 + 80 * (12 : ℕ)) * (1 / 2 ^ 53 : ℝ) ≤ _
    unfold ulp
    norm_num
  have hE : ∑ p, (if Clear (halfStar []) p then .fin 0 else (halfStar []).weight 0 0 p) = .fin 0 := by
    refine (Finset.sum_congr rfl fun q _ => ?_ : _ = ∑ _ : (halfStar []).grid.Pix, Fl.fin 0).trans (by rw [Fl.sum_fin]; simp)
    by_cases hq : Clear (halfStar []) q
    · rw [if_pos hq]
    · rw [if_neg hq]
      obtain ⟨a, ha, -⟩ := C02_area_partition (halfStar []).grid ⟨by show 3 ≤ 4; norm_num, by show 1 ≤ 3; norm_num⟩
      have hz : (Grid.rect 4 3).mu 0 0 q = 0 := by
        by_contra hne
        exact hq (halfStar_clear q hne)
      have hz' : ¬ 0 < (halfStar []).mu 0 0 q := fun hlt => by
        change 0 < (Grid.rect 4 3).mu 0 0 q at hlt
        linarith
      rw [weight_eq _ a ha]
      exact congrArg Fl.fin (pixelWeight_back (halfStar []) ha hz')
  obtain ⟨c, total', cov', -, h1, h2⟩ := C153_report hM (s := halfStar []) rfl halfStar_spotted ⟨by linarith, by linarith⟩ hT hL (hal.trans (by norm_num; linarith)) (by constructor <;> norm_num) h
    halfStar_map ⟨p, halfStar_clear p hpix.ne, by rw [if_neg hpix.not_gt]; rfl⟩ hE
  refine ⟨total, cov, plf, c, T, total', cov', h, h1, fun k => ?_⟩
  obtain ⟨x, y, hx, hy, a1, a2⟩ := h2 k
  have hle : (3 * allowance (halfStar []).grid 12 + 0) / L ≤ 1 / 10 ^ 8 := by
    rw [div_le_iff₀ (by linarith)]
    calc _ ≤ 3 * (1 / 10 ^ 11 : ℝ) := by linarith
      _ ≤ 1 / 10 ^ 8 * (1 / 100) := by norm_num
      _ ≤ _ := by gcongr
  exact ⟨x, y, hx, hy, a1.trans hle, a2.trans hle⟩

end Vsm
