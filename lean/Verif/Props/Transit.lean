import Verif.Lemmas.Gauss
import Verif.Props.Circle
import Verif.Props.Projection
import Verif.Props.Grid
import Verif.Props.FaculaMap
import Verif.Props.StarDisk

/-!
# Transit mask and visible planet fraction (C63, C64)
-/

namespace Vsm

open Real Spec

theorem gaussX_eq (a : ℝ) (i : ℕ) : Star.gaussX (.fin a) i = .fin (-(3 * a) + i * (6 * a / 99)) := by
  unfold Star.gaussX Np.linspaceFlAt
  rw [Fl.fin_mul, Fl.fin_mul, Fl.fin_sub, Fl.fin_div (by norm_num), Fl.fin_mul, Fl.fin_add, Fl.fin_inj]
  push_cast
  ring

/-- Entry of the Gaussian table as a real number. -/
theorem gaussEntry_eq (rp d a b : ℝ) (ha : 0 < a) (hb : 0 < b) (i j : ℕ) :
    ∃ e : ℝ, Star.gaussEntry (.fin rp) (.fin d) (.fin a) (.fin b) i j = .fin e ∧ 0 ≤ e ∧
      e ≤ 1 / (2 * π * a * b) * phi ((-(3 * a) + i * (6 * a / 99)) / b) * phi ((-(3 * a) + j * (6 * a / 99)) / a) := by
  have hK : 0 < 2 * π * a * b := by positivity
  have hp := mul_pos (mul_pos (one_div_pos.mpr hK) (phi_pos ((-(3 * a) + i * (6 * a / 99)) / b)))
    (phi_pos ((-(3 * a) + j * (6 * a / 99)) / a))
  unfold Star.gaussEntry
  simp only [gaussX_eq]
  set x := -(3 * a) + (j : ℝ) * (6 * a / 99)
  set y := -(3 * a) + (i : ℝ) * (6 * a / 99)
  split_ifs with h
  · refine ⟨_, ?_, hp.le, le_rfl⟩
    rw [Fl.fin_mul, Fl.fin_mul, Fl.fin_div hK.ne', Fl.fin_div ha.ne', Fl.fin_div hb.ne', Fl.fin_mul, Fl.fin_mul,
      Fl.fin_mul, Fl.fin_mul, Fl.fin_sub, Fl.exp_fin, Fl.fin_mul, Fl.fin_inj]
    rw [phi, phi, mul_assoc _ (rexp _) (rexp _), ← exp_add]
    congr 2
    norm_num
    ring
  · exact ⟨0, rfl, le_rfl, hp.le⟩

theorem gaussOverlap_mem (rp d a b : ℝ) (ha : 0 < a) (hab : a ≤ b) :
    ∃ v : ℝ, Star.gaussOverlap (.fin rp) (.fin d) (.fin a) (.fin b) = .fin v ∧ 0 ≤ v ∧ v ≤ 1 := by
  have hb : 0 < b := ha.trans_le hab
  choose e he he0 he1 using gaussEntry_eq rp d a b ha hb
  set x : ℕ → ℝ := fun i => -(3 * a) + i * (6 * a / 99) with hx
  have hmono : ∀ i, x i ≤ x (i + 1) := by
    intro i; simp only [hx]; push_cast; have : 0 < 6 * a / 99 := by positivity
    linarith
  have hxs : (List.range 100).map (Star.gaussX (.fin a)) = ((List.range 100).map x).map .fin := by
    rw [List.map_map]; exact List.map_congr_left fun i _ => gaussX_eq a i
  have hin : ∀ i, Np.trapz ((List.range 100).map fun j => Star.gaussEntry (.fin rp) (.fin d) (.fin a) (.fin b) i j)
      (((List.range 100).map x).map .fin) = .fin (trapzR ((List.range 100).map (e i)) ((List.range 100).map x)) := by
    intro i
    rw [← trapz_fin, List.map_map]
    congr 1
    exact List.map_congr_left fun j _ => he i j
  unfold Star.gaussOverlap
  simp only [hxs, hin]
  have hout : (List.range 100).map (fun i => Fl.fin (trapzR ((List.range 100).map (e i)) ((List.range 100).map x))) =
      ((List.range 100).map fun i => trapzR ((List.range 100).map (e i)) ((List.range 100).map x)).map .fin := by
    rw [List.map_map]; rfl
  rw [hout, trapz_fin]
  refine ⟨_, rfl, trapzR_nonneg' _ _ 99 hmono fun i => trapzR_nonneg' _ _ 99 hmono fun j => he0 i j, ?_⟩
  set K := 1 / (2 * π * a * b) with hK
  have hK0 : 0 < K := by positivity
  have i1 : ∀ i, trapzR ((List.range 100).map (e i)) ((List.range 100).map x) ≤ K * (a * √(2 * π)) * phi (x i / b) := by
    intro i
    refine (trapzR_mono (e i) (fun j => K * phi (x i / b) * phi (x j / a)) x 99 hmono (fun j => he1 i j)).trans ?_
    rw [trapzR_smul (fun j => phi (x j / a))]
    have := gauss_trapz_le a a ha le_rfl
    calc K * phi (x i / b) * trapzR ((List.range 100).map fun j => phi (x j / a)) ((List.range 100).map x)
        ≤ K * phi (x i / b) * (a * √(2 * π)) := mul_le_mul_of_nonneg_left this (mul_pos hK0 (phi_pos _)).le
      _ = K * (a * √(2 * π)) * phi (x i / b) := by ring
  refine (trapzR_mono _ _ x 99 hmono i1).trans ?_
  rw [trapzR_smul (fun i => phi (x i / b))]
  have h2 := gauss_trapz_le a b ha hab
  have hs : √(2 * π) * √(2 * π) = 2 * π := mul_self_sqrt (by positivity)
  calc K * (a * √(2 * π)) * trapzR ((List.range 100).map fun i => phi (x i / b)) ((List.range 100).map x)
      ≤ K * (a * √(2 * π)) * (b * √(2 * π)) := mul_le_mul_of_nonneg_left h2 (by positivity)
    _ = K * (a * b * (√(2 * π) * √(2 * π))) := by ring
    _ = 1 := by rw [hs, hK]; field_simp

/-- A pixel without extent outside the planet has no overlap. -/
theorem gaussOverlap_zero (rp d : ℝ) (b : Fl) (hd : 0 ≤ d) (h : rp ≤ d) :
    Star.gaussOverlap (.fin rp) (.fin d) (.fin 0) b = .fin 0 := by
  have hx : ∀ i, Star.gaussX (.fin 0) i = .fin 0 := by intro i; rw [gaussX_eq]; simp
  have he : ∀ i j, Star.gaussEntry (.fin rp) (.fin d) (.fin 0) b i j = .fin 0 := by
    intro i j
    unfold Star.gaussEntry
    simp only [hx]
    rw [if_neg]
    rw [Fl.fin_sub, Fl.fin_mul, Fl.fin_mul, Fl.fin_add, Fl.sqrt_fin (by nlinarith), Fl.fin_lt, not_lt]
    rw [show (0 - d) * (0 - d) + 0 * 0 = d ^ 2 by ring, sqrt_sq hd]
    exact h
  have hz : ∀ l : List ℕ, Np.trapz (l.map fun _ => Fl.fin 0) (l.map fun _ => Fl.fin 0) = .fin 0 := by
    intro l
    have e : l.map (fun _ => Fl.fin 0) = (l.map fun _ => (0 : ℝ)).map .fin := by rw [List.map_map]; rfl
    rw [e, trapz_fin, trapzR_zero (by simp)]
  unfold Star.gaussOverlap
  have hx' : Star.gaussX (.fin 0) = fun _ => .fin 0 := funext hx
  simp only [he, hx', hz]

theorem grid_lat_mem (g : Grid) (hg : goodGrid g) (p : g.Pix) : g.lat p ∈ Set.Icc (-(π / 2)) (π / 2) := by
  cases g with
  | rect nlat nlon => exact rect_lat_mem nlat nlon (by have := hg.1; omega) p
  | spiral n =>
    have h1 := arccos_nonneg (1 - 2 * (((p : Fin n) : ℕ) + 0.5) / (n : ℝ))
    have h2 := arccos_le_pi (1 - 2 * (((p : Fin n) : ℕ) + 0.5) / (n : ℝ))
    change π / 2 - arccos (1 - 2 * (((p : Fin n) : ℕ) + 0.5) / (n : ℝ)) ∈ _
    exact ⟨by linarith, by linarith⟩

/-- Distance from the planet centre `(X, Y)` to a projected pixel `(x, y)`, in stellar radii. -/
noncomputable def Spec.planetDist (X Y x y : ℝ) : ℝ := √((x - X) ^ 2 + (y - Y) ^ 2)

/-- Position of the planet on the sky in stellar radii: `X` along the orbit, `Y` across. -/
noncomputable def Spec.planetPos (R orbit phase incl : ℝ) : ℝ × ℝ :=
  (orbit / R * sin (phase - π), orbit / R * cos (phase - π) * cos incl)

theorem planetX_eq (s : Star) (hR : s.radius ≠ 0) (orbit phase incl : ℝ) :
    s.planetX (phase - π) orbit = .fin (planetPos s.radius orbit phase incl).1 := by
  rw [Star.planetX, Fl.fin_div hR, Fl.fin_mul]; rfl

theorem planetY_eq (s : Star) (hR : s.radius ≠ 0) (orbit phase incl : ℝ) :
    s.planetY (phase - π) orbit incl = .fin (planetPos s.radius orbit phase incl).2 := by
  rw [Star.planetY, Fl.fin_div hR, Fl.fin_mul, Fl.fin_mul]; rfl

theorem mu_greatCircle (g : Grid) (lat0 lon0 : ℝ) (p : g.Pix) :
    (π / 2 < greatCircle lat0 lon0 (g.lat p) (g.lon p) ↔ g.mu lat0 lon0 p < 0) := by
  obtain ⟨-, -, -, h⟩ := C03_mu_inner g lat0 lon0 p
  have h0 : 0 ≤ greatCircle lat0 lon0 (g.lat p) (g.lon p) := InnerProductGeometry.angle_nonneg _ _
  have h1 : greatCircle lat0 lon0 (g.lat p) (g.lon p) ≤ π := InnerProductGeometry.angle_le_pi _ _
  rw [h]
  constructor
  · intro hl; exact cos_neg_of_pi_div_two_lt_of_lt hl (by linarith [pi_pos])
  · intro hl; by_contra hc
    exact absurd (cos_nonneg_of_mem_Icc ⟨by linarith [pi_pos], not_lt.mp hc⟩) (not_le.mpr hl)

theorem coveredValue_far (s : Star) (hg : goodGrid s.grid) (lat0 lon0 : ℝ) (h0 : lat0 ∈ Set.Icc (-(π / 2)) (π / 2))
    (x y rp : Fl) (p : s.grid.Pix) (hmu : s.grid.mu lat0 lon0 p < 0) : s.coveredValue lat0 lon0 x y rp p = .fin 0 := by
  have hf := (C11_ortho_radius lat0 lon0 (s.grid.lat p) (s.grid.lon p) h0 (grid_lat_mem s.grid hg p)).1
    ((mu_greatCircle s.grid lat0 lon0 p).mpr hmu)
  have hr : s.radMap lat0 lon0 x y p = .nan := by
    unfold Star.radMap
    rw [hf]
    cases x <;> cases y <;> rfl
  unfold Star.coveredValue
  simp only [hr]
  rw [if_pos (Or.inr (by simp [Fl.isNan]))]

theorem coveredValue_near (s : Star) (a : s.grid.Pix → ℝ) (ha : ∀ p, s.grid.area p = .fin (a p)) (ha0 : ∀ p, 0 ≤ a p)
    (lat0 lon0 X Y rp px py : ℝ) (p : s.grid.Pix)
    (hp : Helpers.projOrtho lat0 lon0 (s.grid.lat p) (s.grid.lon p) = (.fin px, .fin py))
    (hmu : 0 ≤ s.grid.mu lat0 lon0 p) :
    ∃ v : ℝ, s.coveredValue lat0 lon0 (.fin X) (.fin Y) (.fin rp) p = .fin v ∧ 0 ≤ v ∧ v ≤ 1 ∧
      (rp + 2 * (2 * √(a p) * s.grid.mu lat0 lon0 p) < planetDist X Y px py → v = 0) ∧
      (planetDist X Y px py + 2 * (2 * √(a p) * s.grid.mu lat0 lon0 p) < rp → v = 1) := by
  have hmu1 : s.grid.mu lat0 lon0 p ≤ 1 := (C03_mu_inner s.grid lat0 lon0 p).2.1.2
  have hpt : s.pointRadius p = .fin (2 * √(a p)) := by
    unfold Star.pointRadius; rw [ha, Fl.sqrt_fin (ha0 p), Fl.fin_mul]
  have hrad : s.radMap lat0 lon0 (.fin X) (.fin Y) p = .fin (planetDist X Y px py) := by
    unfold Star.radMap
    rw [hp]
    simp only [Fl.fin_sub, Fl.fin_mul, Fl.fin_add]
    rw [Fl.sqrt_fin (add_nonneg (mul_self_nonneg _) (mul_self_nonneg _)), planetDist, sq, sq]
  have hsq := sqrt_nonneg (a p)
  have hr0 : 0 ≤ 2 * √(a p) * s.grid.mu lat0 lon0 p := by positivity
  have hD : 0 ≤ planetDist X Y px py := sqrt_nonneg _
  unfold Star.coveredValue
  simp only [hpt, hrad, Star.mu, Fl.fin_mul, Fl.fin_add, Fl.fin_lt]
  set r := 2 * √(a p) * s.grid.mu lat0 lon0 p
  set D := planetDist X Y px py
  by_cases h1 : rp + 2 * r < D
  · rw [if_pos (Or.inl h1)]
    exact ⟨0, rfl, le_rfl, zero_le_one, fun _ => rfl, fun h => by linarith⟩
  rw [if_neg (by simp [Fl.isNan, h1])]
  by_cases h2 : D + 2 * r < rp
  · rw [if_pos h2]
    exact ⟨1, rfl, zero_le_one, le_rfl, fun h => absurd h h1, fun _ => rfl⟩
  rw [if_neg h2]
  rcases eq_or_lt_of_le hr0 with h | h
  · rw [← h, gaussOverlap_zero rp D _ hD (by rw [← h] at h2; linarith)]
    exact ⟨0, rfl, le_rfl, zero_le_one, fun _ => rfl, fun h' => absurd h' (by rw [← h] at h2; exact h2)⟩
  · obtain ⟨v, hv, hv0, hv1⟩ := gaussOverlap_mem rp D r (2 * √(a p)) h (by
      have : 2 * √(a p) * s.grid.mu lat0 lon0 p ≤ 2 * √(a p) * 1 := mul_le_mul_of_nonneg_left hmu1 (by positivity)
      linarith)
    exact ⟨v, hv, hv0, hv1, fun h => absurd h h1, fun h => absurd h h2⟩

theorem coveredValue_mem (s : Star) (hg : goodGrid s.grid) (a : s.grid.Pix → ℝ) (ha : ∀ p, s.grid.area p = .fin (a p))
    (lat0 lon0 : ℝ) (h0 : lat0 ∈ Set.Icc (-(π / 2)) (π / 2)) (X Y rp : ℝ) (p : s.grid.Pix) :
    ∃ v : ℝ, s.coveredValue lat0 lon0 (.fin X) (.fin Y) (.fin rp) p = .fin v ∧ 0 ≤ v ∧ v ≤ 1 ∧
      (s.grid.mu lat0 lon0 p < 0 → v = 0) ∧
      ∀ px py, Helpers.projOrtho lat0 lon0 (s.grid.lat p) (s.grid.lon p) = (.fin px, .fin py) →
        (rp + 2 * (2 * √(a p) * s.grid.mu lat0 lon0 p) < planetDist X Y px py → v = 0) ∧
        (planetDist X Y px py + 2 * (2 * √(a p) * s.grid.mu lat0 lon0 p) < rp → v = 1) := by
  obtain ⟨a', ha', ha0', -⟩ := C02_area_partition s.grid hg
  have ha0 : ∀ p, 0 ≤ a p := fun p => by
    have := ha p; rw [ha' p, Fl.fin_inj] at this; rw [← this]; exact ha0' p
  have hC := C11_ortho_radius lat0 lon0 (s.grid.lat p) (s.grid.lon p) h0 (grid_lat_mem s.grid hg p)
  rcases lt_or_ge (s.grid.mu lat0 lon0 p) 0 with hmu | hmu
  · refine ⟨0, coveredValue_far s hg lat0 lon0 h0 _ _ _ p hmu, le_rfl, zero_le_one, fun _ => rfl, ?_⟩
    intro px py hp
    rw [hC.1 ((mu_greatCircle s.grid lat0 lon0 p).mpr hmu)] at hp
    cases hp
  · obtain ⟨px, py, hp, -⟩ := hC.2 (not_lt.mp fun h => absurd ((mu_greatCircle s.grid lat0 lon0 p).mp h) (not_lt.mpr hmu))
    obtain ⟨v, h1, h2, h3, h4, h5⟩ := coveredValue_near s a ha ha0 lat0 lon0 X Y rp px py p hp hmu
    refine ⟨v, h1, h2, h3, fun h => absurd h (not_lt.mpr hmu), ?_⟩
    intro qx qy hq
    rw [hp] at hq
    simp only [Prod.mk.injEq, Fl.fin_inj] at hq
    obtain ⟨rfl, rfl⟩ := hq
    exact ⟨h4, h5⟩

/-- Closed form of `get_transit_mask` for a star of non-zero radius. -/
theorem transitMask_eq (s : Star) (hg : goodGrid s.grid) (hR : s.radius ≠ 0) (lat0 lon0 orbit r phase incl : ℝ)
    (h0 : lat0 ∈ Set.Icc (-(π / 2)) (π / 2)) :
    s.transitMask lat0 lon0 orbit r phase incl =
      if 1 + 2 * (r / s.radius) < planetDist (planetPos s.radius orbit phase incl).1 (planetPos s.radius orbit phase incl).2 0 0
      then .ok (fun _ => .fin 0, .fin 1)
      else if 0 < cos phase then
        (Helpers.circFraction (.fin (planetPos s.radius orbit phase incl).1) (.fin (planetPos s.radius orbit phase incl).2)
          (.fin (r / s.radius))).map fun f => (fun _ => .fin 0, .fin 1 - f)
      else .ok (s.coveredValue lat0 lon0 (.fin (planetPos s.radius orbit phase incl).1)
        (.fin (planetPos s.radius orbit phase incl).2) (.fin (r / s.radius)), .fin 1) := by
  have hx := planetX_eq s hR orbit phase incl
  have hy := planetY_eq s hR orbit phase incl
  unfold Star.transitMask
  simp only [hx, hy, Fl.fin_div hR, Star.plFrac, Fl.fin_mul, Fl.fin_add]
  generalize (planetPos s.radius orbit phase incl).1 = X
  generalize (planetPos s.radius orbit phase incl).2 = Y
  have hd : Fl.sqrt (.fin (X * X + Y * Y)) = .fin (planetDist X Y 0 0) := by
    rw [Fl.sqrt_fin (add_nonneg (mul_self_nonneg _) (mul_self_nonneg _)), planetDist]
    congr 2; ring
  rw [hd]
  simp only [Fl.fin_lt]
  by_cases h1 : 1 + 2 * (r / s.radius) < planetDist X Y 0 0
  · rw [if_pos h1, if_pos h1]
  rw [if_neg h1, if_neg h1]
  by_cases h2 : 0 < cos phase
  · rw [if_pos h2, if_pos h2]
    cases Helpers.circFraction (.fin X) (.fin Y) (.fin (r / s.radius)) <;> rfl
  rw [if_neg h2, if_neg h2, if_neg]
  rintro ⟨p, hp⟩
  obtain ⟨a, ha, -⟩ := C02_area_partition s.grid hg
  obtain ⟨v, hv, -⟩ := coveredValue_mem s hg a ha lat0 lon0 h0 X Y (r / s.radius) p
  rw [hv] at hp
  simp [Fl.isNan] at hp

/-- **C63** Every entry of the mask returned by `get_transit_mask` is a real number in `[0,1]`.  It is 0 for
pixels behind the star, whenever the planet is behind the star or too far from the disk, and for pixels
farther from the planet's centre (in the projection) than its radius plus two projected pixel radii; in
a transit it is 1 for pixels inside the planet's disk by more than two projected pixel radii.  (A pixel of
area `a` has radius `2 √a`, foreshortened by mu.) -/
theorem C63_transit_mask (s : Star) (hg : goodGrid s.grid) (hR : s.radius ≠ 0) (a : s.grid.Pix → ℝ)
    (ha : ∀ p, s.grid.area p = .fin (a p)) (lat0 lon0 orbit r phase incl : ℝ) (h0 : lat0 ∈ Set.Icc (-(π / 2)) (π / 2))
    (mask : s.grid.Pix → Fl) (plf : Fl) (h : s.transitMask lat0 lon0 orbit r phase incl = .ok (mask, plf))
    (X Y ρ : ℝ) (hXY : (X, Y) = planetPos s.radius orbit phase incl) (hρ : ρ = r / s.radius) (p : s.grid.Pix) :
    ∃ v : ℝ, mask p = .fin v ∧ 0 ≤ v ∧ v ≤ 1 ∧ (s.grid.mu lat0 lon0 p < 0 → v = 0) ∧ (0 < cos phase → v = 0) ∧
      (1 + 2 * ρ < planetDist X Y 0 0 → v = 0) ∧
      ∀ px py, Helpers.projOrtho lat0 lon0 (s.grid.lat p) (s.grid.lon p) = (.fin px, .fin py) →
        (ρ + 2 * (2 * √(a p) * s.grid.mu lat0 lon0 p) < planetDist X Y px py → v = 0) ∧
        (cos phase ≤ 0 → planetDist X Y 0 0 ≤ 1 + 2 * ρ →
          planetDist X Y px py + 2 * (2 * √(a p) * s.grid.mu lat0 lon0 p) < ρ → v = 1) := by
  rw [transitMask_eq s hg hR lat0 lon0 orbit r phase incl h0, ← hXY, ← hρ] at h
  simp only at h
  by_cases h1 : 1 + 2 * ρ < planetDist X Y 0 0
  · rw [if_pos h1] at h
    simp only [Except.ok.injEq, Prod.mk.injEq] at h
    refine ⟨0, by rw [← h.1], le_rfl, zero_le_one, fun _ => rfl, fun _ => rfl, fun _ => rfl,
      fun px py hp => ⟨fun _ => rfl, fun _ h' => absurd h1 (not_lt.mpr h')⟩⟩
  rw [if_neg h1] at h
  by_cases h2 : 0 < cos phase
  · rw [if_pos h2] at h
    cases hc : Helpers.circFraction (.fin X) (.fin Y) (.fin ρ) with
    | error e => rw [hc] at h; cases h
    | ok f =>
      rw [hc] at h
      simp only [Except.map, Except.ok.injEq, Prod.mk.injEq] at h
      refine ⟨0, by rw [← h.1], le_rfl, zero_le_one, fun _ => rfl, fun _ => rfl, fun _ => rfl,
        fun px py hp => ⟨fun _ => rfl, fun h' => absurd h2 (not_lt.mpr h')⟩⟩
  rw [if_neg h2] at h
  simp only [Except.ok.injEq, Prod.mk.injEq] at h
  obtain ⟨v, hv, v0, v1, v2, v3⟩ := coveredValue_mem s hg a ha lat0 lon0 h0 X Y ρ p
  rw [← h.1]
  exact ⟨v, hv, v0, v1, v2, fun h' => absurd h' h2, fun h' => absurd h' h1,
    fun px py hp => ⟨(v3 px py hp).1, fun _ _ => (v3 px py hp).2⟩⟩

/-- **C64** For a planet of positive radius: `get_transit_mask` raises only `ValueError`, and exactly when the
planet is behind the star, not clear of the disk and larger than the star.  Otherwise the visible planet fraction
is a real number in `[0,1]`; it is 1 unless the planet is behind the star and its disk meets the star's
disk, and for a planet behind the star it is one minus the share of the planet's disk (area in the plane)
hidden by the unit disk. -/
theorem C64_planet_fraction (s : Star) (hg : goodGrid s.grid) (hR : 0 < s.radius) (lat0 lon0 orbit r phase incl : ℝ)
    (hr : 0 < r) (h0 : lat0 ∈ Set.Icc (-(π / 2)) (π / 2)) (X Y ρ : ℝ)
    (hXY : (X, Y) = planetPos s.radius orbit phase incl) (hρ : ρ = r / s.radius) :
    (∀ e, s.transitMask lat0 lon0 orbit r phase incl = .error e ↔
      e = .valueError ∧ 0 < cos phase ∧ s.radius < r ∧ planetDist X Y 0 0 ≤ 1 + 2 * ρ) ∧
    (∀ mask plf, s.transitMask lat0 lon0 orbit r phase incl = .ok (mask, plf) →
      ∃ v : ℝ, plf = .fin v ∧ 0 ≤ v ∧ v ≤ 1 ∧ (cos phase ≤ 0 → v = 1) ∧ (1 + ρ ≤ planetDist X Y 0 0 → v = 1) ∧
        (0 < cos phase → v = 1 - overlap ⟨X, Y⟩ ρ / (π * ρ ^ 2))) := by
  rw [transitMask_eq s hg hR.ne' lat0 lon0 orbit r phase incl h0, ← hXY, ← hρ]
  have hρ0 : 0 < ρ := by rw [hρ]; exact div_pos hr hR
  have hd : planetDist X Y 0 0 = √(X ^ 2 + Y ^ 2) := by unfold planetDist; congr 1; ring
  have hn : ‖(⟨X, Y⟩ : ℂ)‖ = planetDist X Y 0 0 := by rw [norm_mk, hd]
  have hbig : s.radius < r ↔ 1 < ρ := by rw [hρ, lt_div_iff₀ hR, one_mul]
  simp only
  by_cases h1 : 1 + 2 * ρ < planetDist X Y 0 0
  · rw [if_pos h1]
    refine ⟨fun e => ⟨fun h => (by cases h), fun h => absurd h.2.2.2 (not_le.mpr h1)⟩, fun mask plf h => ?_⟩
    simp only [Except.ok.injEq, Prod.mk.injEq] at h
    refine ⟨1, h.2.symm, zero_le_one, le_rfl, fun _ => rfl, fun _ => rfl, fun _ => ?_⟩
    rw [overlap_disjoint (by rw [hn]; linarith), zero_div, sub_zero]
  rw [if_neg h1]
  by_cases h2 : 0 < cos phase
  · rw [if_pos h2]
    obtain ⟨c1, c2⟩ := C13_circ_fraction_total X Y ρ
    rcases lt_or_ge 1 ρ with h3 | h3
    · rw [c1 h3]
      refine ⟨fun e => ⟨fun h => ?_, fun h => ?_⟩, fun mask plf h => by cases h⟩
      · simp only [Except.map, Except.error.injEq] at h
        exact ⟨h.symm, h2, hbig.mpr h3, not_lt.mp h1⟩
      · rw [h.1]; rfl
    · rw [circFraction_eq X Y ρ hρ0 h3]
      refine ⟨fun e => ⟨fun h => (by cases h), fun h => absurd (hbig.mp h.2.2.1) (not_lt.mpr h3)⟩, fun mask plf h => ?_⟩
      simp only [Except.map, Except.ok.injEq, Prod.mk.injEq, Fl.fin_sub] at h
      have hA : 0 < π * ρ ^ 2 := by positivity
      have l1 : 0 ≤ overlap ⟨X, Y⟩ ρ / (π * ρ ^ 2) := div_nonneg (overlap_nonneg _ _) hA.le
      have l2 : overlap ⟨X, Y⟩ ρ / (π * ρ ^ 2) ≤ 1 := (div_le_one hA).mpr (overlap_le _ hρ0.le)
      refine ⟨_, h.2.symm, by linarith, by linarith, fun h' => absurd h2 (not_lt.mpr h'), fun h' => ?_, fun _ => rfl⟩
      rw [overlap_disjoint (by rw [hn]; exact h'), zero_div, sub_zero]
  · rw [if_neg h2]
    refine ⟨fun e => ⟨fun h => (by cases h), fun h => absurd h.2.1 h2⟩, fun mask plf h => ?_⟩
    simp only [Except.ok.injEq, Prod.mk.injEq] at h
    exact ⟨1, h.2.symm, zero_le_one, le_rfl, fun _ => rfl, fun _ => rfl, fun h' => absurd h' h2⟩

/-- Non-trivial instance: mid transit of a planet ten times larger than the star: the single pixel of a
one-point grid, seen at disk centre, is fully covered, and the visible planet fraction is 1. -/
example (s : Star) (hs : s.grid = .spiral 1) (hR : s.radius = 1) :
    ∃ mask, s.transitMask 0 0 20 10 π (π / 2) = .ok (mask, .fin 1) ∧ ∀ p, mask p = .fin 1 := by
  have hg : goodGrid s.grid := by rw [hs]; exact le_rfl
  have h0 : (0 : ℝ) ∈ Set.Icc (-(π / 2)) (π / 2) := ⟨by linarith [pi_pos], by linarith [pi_pos]⟩
  have hc : ¬ (0 < cos π) := by rw [cos_pi]; norm_num
  have hpos : (0, 0) = planetPos s.radius 20 π (π / 2) := by simp [planetPos]
  have hm : ∃ mask, s.transitMask 0 0 20 10 π (π / 2) = .ok (mask, .fin 1) := by
    rw [transitMask_eq s hg (by rw [hR]; norm_num) 0 0 20 10 π (π / 2) h0, hR, if_neg, if_neg hc]
    · exact ⟨_, rfl⟩
    · simp [planetPos, planetDist]; norm_num
  obtain ⟨mask, hm⟩ := hm
  refine ⟨mask, hm, fun p => ?_⟩
  obtain ⟨a, ha, -⟩ := C02_area_partition s.grid hg
  obtain ⟨v, hv, -, -, -, -, -, h⟩ := C63_transit_mask s hg (by rw [hR]; norm_num) a ha 0 0 20 10 π (π / 2) h0 mask _ hm
    0 0 10 hpos (by rw [hR]; norm_num) p
  have hl : s.grid.lat p = 0 ∧ s.grid.lon p = 0 ∧ a p = 1 := by
    have ha := ha p
    clear hm hv h
    obtain ⟨teff, radius, period, spots, faculae, grid, fg, sg, fcg, gr, u1, u2, fl⟩ := s
    simp only at hs
    subst hs
    have hp : p = (0 : Fin 1) := Subsingleton.elim (α := Fin 1) _ _
    subst hp
    refine ⟨by simp [Grid.lat]; norm_num, by simp [Grid.lon, Grid.mod2pi], ?_⟩
    rw [spiral_area_eq 1 le_rfl, Fl.fin_inj] at ha
    rw [← ha]; norm_num
  obtain ⟨px, py, hp, hpp, -⟩ := (C11_ortho_radius 0 0 (s.grid.lat p) (s.grid.lon p) h0
    (by rw [hl.1]; exact h0)).2 (by rw [hl.1, hl.2.1, greatCircle_eq]; simp; linarith [pi_pos])
  rw [hl.1, hl.2.1, greatCircle_eq] at hpp
  simp only [sin_zero, cos_zero, mul_one, sub_zero, zero_add, mul_zero, arccos_one, ne_eq, OfNat.ofNat_ne_zero,
    not_false_eq_true, zero_pow] at hpp
  have hx : px = 0 := by nlinarith [sq_nonneg px, sq_nonneg py]
  have hy : py = 0 := by nlinarith [sq_nonneg px, sq_nonneg py]
  rw [hv, (h px py hp).2 (by rw [cos_pi]; norm_num) (by simp [planetDist]; norm_num) (by
    rw [hx, hy, hl.2.2, Grid.mu, Grid.cosAngle, hl.1, hl.2.1]; simp [planetDist]; norm_num)]

/-- Non-trivial instance: at superior conjunction (behind the star) a small planet is hidden completely. -/
example (s : Star) (hs : s.grid = .spiral 7) (hR : s.radius = 1) :
    ∃ mask, s.transitMask 0 0 10 (1 / 2) 0 (π / 2) = .ok (mask, .fin 0) := by
  have hg : goodGrid s.grid := by rw [hs]; simp [goodGrid]
  have h0 : (0 : ℝ) ∈ Set.Icc (-(π / 2)) (π / 2) := ⟨by linarith [pi_pos], by linarith [pi_pos]⟩
  rw [transitMask_eq s hg (by rw [hR]; norm_num) 0 0 10 (1 / 2) 0 (π / 2) h0, hR, if_neg, if_pos (by simp)]
  · have e : planetPos 1 10 0 (π / 2) = (0, 0) := by simp [planetPos]
    obtain ⟨v, hv, -, -, -, -, h1⟩ := (C13_circ_fraction_total 0 0 (1 / 2)).2 (by norm_num)
    rw [h1 (by norm_num) (by norm_num)] at hv
    rw [e, div_one, hv]
    exact ⟨fun _ => .fin 0, by simp [Except.map]⟩
  · simp [planetPos, planetDist]

/-- Non-trivial instance: an eclipse of a planet larger than the star raises. -/
example (s : Star) (hs : s.grid = .spiral 7) (hR : s.radius = 1) :
    s.transitMask 0 0 10 2 0 (π / 2) = .error .valueError := by
  have hg : goodGrid s.grid := by rw [hs]; simp [goodGrid]
  have h0 : (0 : ℝ) ∈ Set.Icc (-(π / 2)) (π / 2) := ⟨by linarith [pi_pos], by linarith [pi_pos]⟩
  refine ((C64_planet_fraction s hg (by rw [hR]; norm_num) 0 0 10 2 0 (π / 2) two_pos h0 0 0 2 ?_ (by rw [hR]; norm_num)).1
    .valueError).mpr ⟨rfl, by simp, by rw [hR]; norm_num, by simp [planetDist]; norm_num⟩
  simp [planetPos]

end Vsm
