import Verif.Lemmas.SpiralCells

/-!
# C102: accuracy of the reported fractions for a star with faculae

Generalises C99 and C100: the light of any region bounded by circles, measured on the pixels of a grid that has a quadrature rule.
-/

open Real MeasureTheory Vsm.Np Vsm.Spec

noncomputable section

namespace Vsm

/-- A pixel within `ρ` of a point reports the light of a region bounded by the circles `K` with an error of at most `3ρ + q`,
unless the point is near one of the circles. -/
theorem region_pointwise (ρ : ℝ) (hρ : 0 ≤ ρ) (K : List (ℝ × ℝ × ℝ)) (φ l : ℝ) (A A' P : Prop) [Decidable A] [Decidable A'] [Decidable P]
    (hA : (∀ k ∈ K, ρ < |greatCircle k.1 k.2.1 φ l - k.2.2|) → (A' ↔ A)) (i j c q : ℝ) (hi : 0 ≤ i ∧ i ≤ 1) (hj : 0 ≤ j ∧ j ≤ 1)
    (hc : 0 ≤ c ∧ c ≤ 1) (hq : 0 ≤ q) (h : |i * c - if P then j else 0| ≤ 3 * ρ + q) :
    |(if A' then i * c else 0) - (if A ∧ P then j else 0)| ≤
      3 * ρ + (K.map fun k => nearRing k.1 k.2.1 k.2.2 ρ φ l).sum + q := by
  have hnn : ∀ y ∈ K.map fun k => nearRing k.1 k.2.1 k.2.2 ρ φ l, 0 ≤ y := by
    intro y hy
    obtain ⟨k, -, rfl⟩ := List.mem_map.mp hy
    exact nearRing_nonneg _ _ _ _ _ _
  have hsum := List.sum_nonneg hnn
  by_cases hno : ∀ k ∈ K, ρ < |greatCircle k.1 k.2.1 φ l - k.2.2|
  · have e := hA hno
    by_cases hA' : A'
    · rw [if_pos hA']
      simp only [e.mp hA', true_and]
      linarith
    · rw [if_neg hA', if_neg (fun h => hA' (e.mpr h.1)), sub_zero, abs_zero]
      positivity
  · push Not at hno
    obtain ⟨k, hk, hk'⟩ := hno
    have h1 : 1 ≤ (K.map fun k => nearRing k.1 k.2.1 k.2.2 ρ φ l).sum := by
      have h2 : (1 : ℝ) ∈ K.map fun k => nearRing k.1 k.2.1 k.2.2 ρ φ l :=
        List.mem_map.mpr ⟨k, hk, by unfold nearRing; rw [if_pos hk']⟩
      exact List.single_le_sum hnn _ h2
    have h3 : 0 ≤ i * c ∧ i * c ≤ 1 := ⟨mul_nonneg hi.1 hc.1, mul_le_one₀ hi.2 hc.1 hc.2⟩
    have : |(if A' then i * c else 0) - (if A ∧ P then j else 0)| ≤ 1 := by
      rw [abs_le]
      split_ifs <;> constructor <;> linarith [h3.1, h3.2, hj.1, hj.2]
    have := mul_nonneg (show (0 : ℝ) ≤ 3 by norm_num) hρ
    linarith

theorem region_num {E ρ Q ε : ℝ} {n : ℕ} (h : E ≤ 4 * π * (3 * ρ) + n * (4 * π * ρ) + Q) :
    E + 4 * π * 1 * ε + (4 * π * (3 * ρ) + 4 * π * 1 * ε) ≤ ((24 + 4 * (n : ℝ)) * ρ + 8 * ε + Q / π) * π := by
  rw [add_mul _ (Q / π), div_mul_cancel₀ _ pi_pos.ne']
  linarith

/-- The pixel sums of a grid approximate integrals over the sphere: every point but a fraction `ε` of the sphere is
assigned to a pixel within `ρ`, with areas in proportion to those of the pixels. -/
structure Quad (gd : Grid) (κ ρ ε b : ℝ) : Prop where
  good : goodGrid gd
  pos : 0 < κ
  near : 0 ≤ ρ
  few : 0 ≤ ε
  small : ∀ (a : gd.Pix → ℝ), (∀ p, gd.area p = .fin (a p)) → ∀ p, 4 * √(a p) ≤ 2 * ρ
  sum : ∀ (a : gd.Pix → ℝ), (∀ p, gd.area p = .fin (a p)) → ∀ g : ℝ → ℝ → ℝ, (Measurable fun x : ℝ × ℝ => g x.2 x.1) →
    (∀ φ l, g φ (l + 2 * π) = g φ l) → ∀ M : ℝ, (∀ φ l, |g φ l| ≤ M) → ∀ e : ℝ × ℝ → ℝ, Integrable e (sphM b) →
    (∀ x, 0 ≤ e x) → ∀ v : gd.Pix → ℝ, (∀ p, |v p| ≤ M) →
    (∀ p, ∀ x : ℝ × ℝ, greatCircle x.2 x.1 (gd.lat p) (gd.lon p) ≤ ρ → |v p - g x.2 x.1| ≤ e x) →
    |4 * π * κ * ∑ p, a p * v p - sphereInt g| ≤ ∫ x, e x ∂sphM b + 4 * π * M * ε

theorem quad_rect (nlat nlon : ℕ) (hlat : 3 ≤ nlat) (hlon : 1 ≤ nlon) :
    Quad (.rect nlat nlon) (cos (π / (nlat - 1) / 2)) (π / (nlat - 1) / 2 + π / nlon) (1 - cos (π / (nlat - 1) / 2))
      (-(π / nlon)) := by
  obtain ⟨hδ0, hδ2, hδ, hcc, harea⟩ := rect_area_sin nlat nlon hlat hlon
  have hp := pi_pos
  refine ⟨⟨hlat, hlon⟩, hcc, by positivity, by linarith [cos_le_one (π / ((nlat : ℝ) - 1) / 2)], fun a ha p => ?_, ?_⟩
  · have := pixel_radius_le nlat nlon hlat hlon a ha p
    linarith [show 2 * π / (nlon : ℝ) = 2 * (π / nlon) by ring]
  · exact fun a ha g hg hper M hM e he he0 v _ hv => pixel_sum nlat nlon hlat hlon a ha g hg hper M hM e he he0 v hv

theorem quad_spiral (n m : ℕ) (hn : 1 ≤ n) : Quad (.spiral n) 1 (spiralReach n m) (2 * Nat.fib (m + 1) / n) 0 := by
  have hp := pi_pos
  have hn' : (0 : ℝ) < n := by exact_mod_cast (by omega : 0 < n)
  have hF : (1 : ℝ) ≤ Nat.fib (m + 1) := by exact_mod_cast Nat.fib_pos.mpr (Nat.succ_pos m)
  refine ⟨Nat.le_trans (by norm_num) hn, one_pos, by unfold spiralReach; positivity, by positivity, fun a ha p => ?_, ?_⟩
  · have e : a p = 1 / n := by
      have := ha p
      rw [spiral_area_eq n (by omega), Fl.fin_inj] at this
      exact this.symm
    rw [e]
    unfold spiralReach
    have h1 : √(1 / (n : ℝ)) ≤ √(Nat.fib (m + 1) / n) := sqrt_le_sqrt (by gcongr)
    have h2 : 0 ≤ √(1 / (n : ℝ)) := sqrt_nonneg _
    have h3 : 0 ≤ 4 * π / (Nat.fib (m + 1) : ℝ) := by positivity
    have h4 : 3 * √(Nat.fib (m + 1) / (n : ℝ)) ≤ π * √(Nat.fib (m + 1) / (n : ℝ)) :=
      mul_le_mul_of_nonneg_right pi_gt_three.le (sqrt_nonneg _)
    linarith
  · intro a ha g hg hper M hM e he he0 v hvM hv
    have e1 : a = fun _ => 1 / (n : ℝ) := by
      funext p
      have := ha p
      rw [spiral_area_eq n (by omega), Fl.fin_inj] at this
      exact this.symm
    subst e1
    rw [mul_one]
    exact spiral_sum n m (by omega) g hg hper M hM e he he0 v hvM hv

open Classical in
/-- The light from the part `P` of a region `A` bounded by circles, measured on the pixels of a grid. -/
theorem region_accuracy (gd : Grid) {κ ρ ε b : ℝ} (hQd : Quad gd κ ρ ε b) (a : gd.Pix → ℝ)
    (ha : ∀ p, gd.area p = .fin (a p)) (u1 u2 lat0 lon0 : ℝ) (hld : PhysicalLD u1 u2)
    (w : gd.Pix → ℝ)
    (hw : ∀ p, w p = a p * intensity u1 u2 lat0 lon0 (gd.lat p) (gd.lon p))
    (hW : 0 < ∑ p, w p) (K : List (ℝ × ℝ × ℝ)) (A : ℝ → ℝ → Prop) (hAm : MeasurableSet {x : ℝ × ℝ | A x.2 x.1})
    (hAp : ∀ φ l, A φ (l + 2 * π) ↔ A φ l)
    (hAc : ∀ ρ φ l φ' l', greatCircle φ l φ' l' ≤ ρ → (∀ k ∈ K, ρ < |greatCircle k.1 k.2.1 φ l - k.2.2|) → (A φ' l' ↔ A φ l))
    (P : ℝ → ℝ → Prop) (hPm : MeasurableSet {x : ℝ × ℝ | P x.2 x.1}) (hPp : ∀ φ l, P φ (l + 2 * π) ↔ P φ l)
    (q : ℝ → ℝ → ℝ) (hqi : Integrable (fun x : ℝ × ℝ => q x.2 x.1) (sphM b)) (hq0 : ∀ φ l, 0 ≤ q φ l) (Q : ℝ)
    (hQ : ∫ x, q x.2 x.1 ∂sphM b ≤ Q) (c : gd.Pix → ℝ) (hc01 : ∀ p, 0 ≤ c p ∧ c p ≤ 1)
    (hc : ∀ p φ l, greatCircle φ l (gd.lat p) (gd.lon p) ≤ ρ →
      |intensity u1 u2 lat0 lon0 (gd.lat p) (gd.lon p) * c p -
        if P φ l then intensity u1 u2 lat0 lon0 φ l else 0| ≤ 3 * ρ + q φ l) :
    |(∑ p, if A (gd.lat p) (gd.lon p) then w p * c p else 0) / ∑ p, w p -
      sphereInt (fun φ l => if A φ l ∧ P φ l then intensity u1 u2 lat0 lon0 φ l else 0) / sphereInt (intensity u1 u2 lat0 lon0)| ≤
      ((24 + 4 * K.length) * ρ + 8 * ε + Q / π) / (1 - u1 / 3 - u2 / 6) := by
  have hp := pi_pos
  have hρ0 := hQd.near
  set I := intensity u1 u2 lat0 lon0 with hI
  have hrange : ∀ φ l, 0 ≤ I φ l ∧ I φ l ≤ 1 := fun φ l => lightAt_range hld (cos_le_one _)
  have hIm : Measurable fun x : ℝ × ℝ => I x.2 x.1 := by
    have := greatCircle_measurable lat0 lon0
    rw [hI]; unfold intensity quadraticLaw; fun_prop
  set G : ℝ → ℝ → ℝ := fun φ l => if A φ l ∧ P φ l then I φ l else 0 with hG
  have hGr : ∀ φ l, 0 ≤ G φ l ∧ G φ l ≤ 1 := by
    intro φ l; simp only [hG]; split_ifs
    · exact hrange φ l
    · exact ⟨le_rfl, zero_le_one⟩
  have hGm : Measurable fun x : ℝ × ℝ => G x.2 x.1 := Measurable.ite (hAm.inter hPm) hIm measurable_const
  have hIp : ∀ φ l, I φ (l + 2 * π) = I φ l := by
    intro φ l; simp only [hI, intensity, greatCircle_periodic]
  have hGp : ∀ φ l, G φ (l + 2 * π) = G φ l := by
    intro φ l; simp only [hG, hIp, hAp, hPp]
  set lat := gd.lat
  set lon := gd.lon
  have hvr : ∀ p, 0 ≤ (if A (lat p) (lon p) then I (lat p) (lon p) * c p else 0) ∧
      (if A (lat p) (lon p) then I (lat p) (lon p) * c p else 0) ≤ 1 := by
    intro p
    split_ifs
    · exact ⟨mul_nonneg (hrange _ _).1 (hc01 p).1, mul_le_one₀ (hrange _ _).2 (hc01 p).1 (hc01 p).2⟩
    · exact ⟨le_rfl, zero_le_one⟩
  set v : gd.Pix → ℝ := fun p => if A (lat p) (lon p) then I (lat p) (lon p) * c p else 0 with hv
  obtain ⟨ri1, ri2⟩ := rings_integral b ρ hρ0 K
  set e : ℝ × ℝ → ℝ := fun x => 3 * ρ + (K.map fun k => nearRing k.1 k.2.1 k.2.2 ρ x.2 x.1).sum + q x.2 x.1 with he
  have ci : Integrable (fun x : ℝ × ℝ => 3 * ρ + (K.map fun k => nearRing k.1 k.2.1 k.2.2 ρ x.2 x.1).sum)
      (sphM b) := (integrable_const _).add ri1
  have hei : Integrable e (sphM b) := ci.add hqi
  have he0 : ∀ x, 0 ≤ e x := fun x => by
    have h1 : 0 ≤ (K.map fun k => nearRing k.1 k.2.1 k.2.2 ρ x.2 x.1).sum := by
      refine List.sum_nonneg fun y hy => ?_
      obtain ⟨k, -, rfl⟩ := List.mem_map.mp hy
      exact nearRing_nonneg _ _ _ _ _ _
    have h2 := hq0 x.2 x.1
    simp only [he]; positivity
  have hpt : ∀ p, ∀ x : ℝ × ℝ, greatCircle x.2 x.1 (lat p) (lon p) ≤ ρ → |v p - G x.2 x.1| ≤ e x := fun p x hd =>
    region_pointwise ρ hρ0 K x.2 x.1 (A x.2 x.1) (A (lat p) (lon p)) (P x.2 x.1)
      (hAc ρ x.2 x.1 (lat p) (lon p) hd) _ _ (c p) (q x.2 x.1) (hrange _ _) (hrange _ _) (hc01 p) (hq0 _ _) (hc p x.2 x.1 hd)
  have kn := hQd.sum a ha G hGm hGp 1
    (fun φ l => abs_le.mpr ⟨by linarith [(hGr φ l).1], (hGr φ l).2⟩) e hei he0 v
    (fun p => abs_le.mpr ⟨by linarith [(hvr p).1], (hvr p).2⟩) hpt
  have heI : ∫ x, e x ∂sphM b ≤ 4 * π * (3 * ρ) + K.length * (4 * π * ρ) + Q := by
    simp only [he]
    rw [integral_add ci hqi, integral_add (integrable_const _) ri1, integral_const, sphM_real_univ, smul_eq_mul]
    linarith
  have kd := hQd.sum a ha I hIm hIp 1
    (fun φ l => abs_le.mpr ⟨by linarith [(hrange φ l).1], (hrange φ l).2⟩) (fun _ => 3 * ρ) (integrable_const _)
    (fun _ => by positivity) (fun p => I (lat p) (lon p))
    (fun p => abs_le.mpr ⟨by linarith [(hrange (lat p) (lon p)).1], (hrange _ _).2⟩) (fun p x hd => intensity_lip hld lat0 lon0 _ _ _ _ _ hd)
  rw [integral_const, sphM_real_univ, smul_eq_mul] at kd
  obtain ⟨hd1, hd2⟩ := intensity_total hld lat0 lon0
  have hcpos : 0 < 4 * π * κ := mul_pos (by positivity) hQd.pos
  have hsumG : ∑ p, a p * v p = ∑ p, if A (lat p) (lon p) then w p * c p else 0 := by
    refine Finset.sum_congr rfl fun p _ => ?_
    simp only [hv, hw p]
    split_ifs
    · ring
    · ring
  have hsumI : ∑ p, a p * I (lat p) (lon p) = ∑ p, w p := Finset.sum_congr rfl fun p _ => (hw p).symm
  rw [hsumG] at kn
  rw [hsumI] at kd
  obtain ⟨a', ha', hann, -, -⟩ := C02_area_partition gd hQd.good
  have haa : a' = a := by funext p; have := ha p; rw [ha' p, Fl.fin_inj] at this; exact this
  subst haa
  have hw0 : ∀ p, 0 ≤ w p := fun p => by rw [hw p]; exact mul_nonneg (hann p) (hrange _ _).1
  set N := ∑ p, (if A (lat p) (lon p) then w p * c p else 0) with hN
  have hN0 : 0 ≤ N := Finset.sum_nonneg fun p _ => by
    split_ifs; exacts [mul_nonneg (hw0 p) (hc01 p).1, le_rfl]
  have hND : N ≤ ∑ p, w p := Finset.sum_le_sum fun p _ => by
    split_ifs; exacts [mul_le_of_le_one_right (hw0 p) (hc01 p).2, hw0 p]
  have key := ratio_error (mul_pos hcpos hW) (by linarith : 0 < sphereInt I)
    (mul_nonneg hcpos.le hN0) (mul_le_mul_of_nonneg_left hND hcpos.le) kn kd
  rw [mul_div_mul_left _ _ hcpos.ne'] at key
  refine key.trans ?_
  rw [hd1]
  have hden : 0 < 1 - u1 / 3 - u2 / 6 := by
    obtain ⟨x, y, z⟩ := hld; linarith
  rw [div_le_div_iff₀ (by positivity) hden]
  calc _ ≤ ((24 + 4 * (K.length : ℝ)) * ρ + 8 * ε + Q / π) * π * (1 - u1 / 3 - u2 / 6) :=
        mul_le_mul_of_nonneg_right (region_num heI) hden.le
    _ = _ := by ring

end Vsm
