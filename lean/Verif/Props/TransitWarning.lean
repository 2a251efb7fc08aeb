import Verif.Props.Transit
import Verif.Props.StarCoverage

/-!
# C93: the low-resolution warning of `get_transit_mask`
-/

noncomputable section

namespace Vsm

open Real Spec

/-- Projected radius of a pixel of area `a` seen under `mu` (in stellar radii). -/
def Spec.pixelRadius (a mu : ℝ) : ℝ := 2 * √a * mu

open Classical in
/-- The visible pixels whose projection is within the planet's radius plus two pixel radii of its centre. -/
def Spec.nearPlanet (g : Grid) (a : g.Pix → ℝ) (lat0 lon0 X Y ρ : ℝ) : Finset g.Pix :=
  Finset.univ.filter fun p => ∃ px py, Helpers.projOrtho lat0 lon0 (g.lat p) (g.lon p) = (.fin px, .fin py) ∧
    planetDist X Y px py ≤ ρ + 2 * pixelRadius (a p) (g.mu lat0 lon0 p)

theorem relevant_eq (s : Star) (hg : goodGrid s.grid) (a : s.grid.Pix → ℝ) (ha : ∀ p, s.grid.area p = .fin (a p))
    (lat0 lon0 : ℝ) (h0 : lat0 ∈ Set.Icc (-(π / 2)) (π / 2)) (X Y ρ : ℝ) :
    s.relevant lat0 lon0 (.fin X) (.fin Y) (.fin ρ) = nearPlanet s.grid a lat0 lon0 X Y ρ := by
  classical
  obtain ⟨a', ha', ha0', -⟩ := C02_area_partition s.grid hg
  have ha0 : ∀ p, 0 ≤ a p := fun p => by
    have := ha p; rw [ha' p, Fl.fin_inj] at this; rw [← this]; exact ha0' p
  ext p
  have hC := C11_ortho_radius lat0 lon0 (s.grid.lat p) (s.grid.lon p) h0 (grid_lat_mem s.grid hg p)
  simp only [Star.relevant, nearPlanet, Finset.mem_filter, Finset.mem_univ, true_and]
  have hpt : s.pointRadius p = .fin (2 * √(a p)) := by
    unfold Star.pointRadius; rw [ha, Fl.sqrt_fin (ha0 p), Fl.fin_mul]
  rcases lt_or_ge (s.grid.mu lat0 lon0 p) 0 with hmu | hmu
  · have hf := hC.1 ((mu_greatCircle s.grid lat0 lon0 p).mpr hmu)
    have hr : s.radMap lat0 lon0 (.fin X) (.fin Y) p = .nan := by
      unfold Star.radMap; rw [hf]; rfl
    rw [hr, hf]
    simp [Fl.isNan]
  · obtain ⟨px, py, hp, -⟩ := hC.2 (not_lt.mp fun h => absurd ((mu_greatCircle s.grid lat0 lon0 p).mp h) (not_lt.mpr hmu))
    have hrad : s.radMap lat0 lon0 (.fin X) (.fin Y) p = .fin (planetDist X Y px py) := by
      unfold Star.radMap
      rw [hp]
      simp only [Fl.fin_sub, Fl.fin_mul, Fl.fin_add]
      rw [Fl.sqrt_fin (add_nonneg (mul_self_nonneg _) (mul_self_nonneg _)), planetDist, sq, sq]
    rw [hrad, hpt, Star.mu, Fl.fin_mul, Fl.fin_mul, Fl.fin_add, Fl.fin_lt, hp]
    simp only [Fl.isNan, or_false, not_lt, Prod.mk.injEq, Fl.fin_inj, pixelRadius]
    constructor
    · exact fun h => ⟨px, py, ⟨rfl, rfl⟩, h⟩
    · rintro ⟨qx, qy, ⟨rfl, rfl⟩, h⟩; exact h

/-- **C93** `get_transit_mask` warns exactly when the planet is in front of the star and not clear of the disk,
some pixel is near it, and the mean projected radius of those pixels exceeds half the planet's radius.  The
number in the warning is `(2·mean/ρ)²`, where `ρ` is the planet's radius in stellar radii, and exceeds 1. -/
theorem C93_warning (s : Star) (hg : goodGrid s.grid) (hR : 0 < s.radius) (a : s.grid.Pix → ℝ)
    (ha : ∀ p, s.grid.area p = .fin (a p)) (lat0 lon0 orbit r phase incl : ℝ) (hr : 0 < r)
    (h0 : lat0 ∈ Set.Icc (-(π / 2)) (π / 2)) (X Y ρ m : ℝ) (hXY : (X, Y) = planetPos s.radius orbit phase incl)
    (hρ : ρ = r / s.radius) (near : Finset s.grid.Pix) (hnear : near = nearPlanet s.grid a lat0 lon0 X Y ρ)
    (hm : m = (∑ p ∈ near, pixelRadius (a p) (s.grid.mu lat0 lon0 p)) / near.card) :
    (∀ f, s.transitWarning lat0 lon0 orbit r phase incl = some f ↔
      (cos phase ≤ 0 ∧ planetDist X Y 0 0 ≤ 1 + 2 * ρ ∧ near.Nonempty ∧ ρ / 2 < m) ∧ f = .fin ((2 * m / ρ) ^ 2)) ∧
    (ρ / 2 < m → 1 < (2 * m / ρ) ^ 2) := by
  classical
  have hρ0 : 0 < ρ := by rw [hρ]; exact div_pos hr hR
  have hx := planetX_eq s hR.ne' orbit phase incl
  have hy := planetY_eq s hR.ne' orbit phase incl
  obtain ⟨a', ha', ha0', -⟩ := C02_area_partition s.grid hg
  have ha0 : ∀ p, 0 ≤ a p := fun p => by
    have := ha p; rw [ha' p, Fl.fin_inj] at this; rw [← this]; exact ha0' p
  have hpt : ∀ p, s.pointRadius p * .fin (s.mu lat0 lon0 p) = .fin (pixelRadius (a p) (s.grid.mu lat0 lon0 p)) := by
    intro p
    unfold Star.pointRadius
    rw [ha, Fl.sqrt_fin (ha0 p), Fl.fin_mul, Fl.fin_mul]; rfl
  rw [← hXY] at hx hy
  have hd : Fl.sqrt (.fin (X * X + Y * Y)) = .fin (planetDist X Y 0 0) := by
    rw [Fl.sqrt_fin (add_nonneg (mul_self_nonneg _) (mul_self_nonneg _)), planetDist]
    congr 2; ring
  have hrel := relevant_eq s hg a ha lat0 lon0 h0 X Y ρ
  rw [← hnear] at hrel
  have hlow : s.lowResolution lat0 lon0 (.fin X) (.fin Y) (.fin ρ) =
      if near.Nonempty ∧ ρ / 2 < m then some (.fin ((2 * m / ρ) ^ 2)) else none := by
    unfold Star.lowResolution
    simp only [hrel, hpt, Fl.sum_fin]
    by_cases hc : 0 < near.card
    · have hne : near.Nonempty := Finset.card_pos.mp hc
      have hc' : (near.card : ℝ) ≠ 0 := by exact_mod_cast hc.ne'
      rw [if_pos hc, Fl.fin_div hc', ← hm, Fl.fin_mul, Fl.fin_mul, Fl.fin_mul, Fl.fin_mul, Fl.fin_mul,
        Fl.fin_div (by norm_num), Fl.fin_div (by positivity)]
      simp only [Fl.fin_lt]
      by_cases h2 : ρ / 2 < m
      · rw [if_pos (by linarith), if_pos ⟨hne, h2⟩]
        congr 2
        have := pi_pos
        field_simp
        ring
      · rw [if_neg (by intro h; apply h2; linarith), if_neg (fun h => h2 h.2)]
    · rw [if_neg hc, if_neg (fun h => hc (Finset.card_pos.mpr h.1))]
  refine ⟨fun f => ?_, fun h => ?_⟩
  · unfold Star.transitWarning
    simp only [hx, hy, Fl.fin_div hR.ne', ← hρ, Fl.fin_mul, Fl.fin_add, hd]
    simp only [Fl.fin_lt]
    rw [hlow]
    by_cases h1 : 1 + 2 * ρ < planetDist X Y 0 0
    · rw [if_pos h1]
      exact ⟨fun h => (by cases h), fun h => absurd h1 (not_lt.mpr h.1.2.1)⟩
    rw [if_neg h1]
    by_cases h2 : 0 < cos phase
    · rw [if_pos h2]
      exact ⟨fun h => (by cases h), fun h => absurd h2 (not_lt.mpr h.1.1)⟩
    rw [if_neg h2]
    by_cases h3 : near.Nonempty ∧ ρ / 2 < m
    · rw [if_pos h3, Option.some_inj]
      exact ⟨fun h => ⟨⟨not_lt.mp h2, not_lt.mp h1, h3⟩, h.symm⟩, fun h => h.2.symm⟩
    · rw [if_neg h3]
      exact ⟨fun h => (by cases h), fun h => absurd h.1.2.2 h3⟩
  · have h1 : 1 < 2 * m / ρ := by rw [lt_div_iff₀ hρ0]; linarith
    nlinarith

/-- **C93** On a spiral grid of `n` points the number in the warning is at most `16 (R/r)²/n`; a grid of at least
`16 (R/r)²` points never warns. -/
theorem C93_enough_points (s : Star) (n : ℕ) (hn : 1 ≤ n) (hg : s.grid = .spiral n) (hR : 0 < s.radius)
    (lat0 lon0 orbit r phase incl : ℝ) (hr : 0 < r) (h0 : lat0 ∈ Set.Icc (-(π / 2)) (π / 2)) :
    (∀ f, s.transitWarning lat0 lon0 orbit r phase incl = some f → ∃ x, f = .fin x ∧ x ≤ 16 * (s.radius / r) ^ 2 / n) ∧
    (16 * (s.radius / r) ^ 2 ≤ n → s.transitWarning lat0 lon0 orbit r phase incl = none) := by
  have hn0 : (0 : ℝ) < n := by exact_mod_cast hn
  have hgg : goodGrid s.grid := by rw [hg]; exact hn
  have harea : ∀ p : s.grid.Pix, s.grid.area p = .fin (1 / n) := by
    rw [hg]
    intro p
    change Fl.fin 0 + Fl.fin 1 / Fl.fin n = _
    rw [Fl.fin_div hn0.ne', Fl.fin_add, zero_add]
  set ρ := r / s.radius with hρ
  have hρ0 : 0 < ρ := div_pos hr hR
  obtain ⟨hw, hw1⟩ := C93_warning s hgg hR (fun _ => 1 / n) harea lat0 lon0 orbit r phase incl hr h0
    (planetPos s.radius orbit phase incl).1 (planetPos s.radius orbit phase incl).2 ρ _ rfl hρ _ rfl rfl
  set near := nearPlanet s.grid (fun _ => 1 / (n : ℝ)) lat0 lon0 (planetPos s.radius orbit phase incl).1
    (planetPos s.radius orbit phase incl).2 ρ
  set m := (∑ p ∈ near, pixelRadius (1 / (n : ℝ)) (s.grid.mu lat0 lon0 p)) / near.card with hm
  have hbound : near.Nonempty → m ≤ 2 * √(1 / n) := by
    intro hne
    have hc : (0 : ℝ) < near.card := by exact_mod_cast Finset.card_pos.mpr hne
    rw [hm, div_le_iff₀ hc, mul_comm, ← nsmul_eq_mul]
    apply Finset.sum_le_card_nsmul
    intro p _
    unfold pixelRadius
    have hmu := (C03_mu_inner s.grid lat0 lon0 p).2.1.2
    have := sqrt_nonneg (1 / (n : ℝ))
    nlinarith
  have hsq : √(1 / (n : ℝ)) ^ 2 = 1 / n := sq_sqrt (by positivity)
  have hfac : ∀ f, s.transitWarning lat0 lon0 orbit r phase incl = some f →
      f = .fin ((2 * m / ρ) ^ 2) ∧ ρ / 2 < m ∧ (2 * m / ρ) ^ 2 ≤ 16 * (s.radius / r) ^ 2 / n := by
    intro f hf
    obtain ⟨⟨-, -, hne, h3⟩, h4⟩ := (hw f).mp hf
    refine ⟨h4, h3, ?_⟩
    have hb := hbound hne
    have hm0 : 0 < m := by linarith
    have h5 : m ^ 2 ≤ 4 * (1 / n) := by
      rw [← hsq]
      nlinarith [sqrt_nonneg (1 / (n : ℝ))]
    have h6 : (2 * m / ρ) ^ 2 = 4 * m ^ 2 * (s.radius / r) ^ 2 := by rw [hρ]; field_simp; norm_num
    rw [h6]
    have h7 : 0 ≤ (s.radius / r) ^ 2 := by positivity
    calc 4 * m ^ 2 * (s.radius / r) ^ 2 ≤ 4 * (4 * (1 / n)) * (s.radius / r) ^ 2 := by
          apply mul_le_mul_of_nonneg_right _ h7; linarith
      _ = 16 * (s.radius / r) ^ 2 / n := by ring
  refine ⟨fun f hf => ⟨_, (hfac f hf).1, (hfac f hf).2.2⟩, fun hbig => ?_⟩
  cases hf : s.transitWarning lat0 lon0 orbit r phase incl with
  | none => rfl
  | some f =>
    obtain ⟨-, h1, h2⟩ := hfac f hf
    have h3 := hw1 h1
    have h4 : 16 * (s.radius / r) ^ 2 / n ≤ 1 := (div_le_one hn0).mpr hbig
    linarith

/-- Non-trivial instance of C93: a planet of a tenth of the stellar radius in mid-transit over a grid with a
single point warns with factor 1600; on any grid of 1600 points or more it does not. -/
example : (sampleStar (.spiral 1) [] []).transitWarning 0 0 10 0.1 π (π / 2) = some (.fin 1600) ∧
    (sampleStar (.spiral 1600) [] []).transitWarning 0 0 10 0.1 π (π / 2) = none := by
  have hp := pi_pos
  have hm : (0 : ℝ) ∈ Set.Icc (-(π / 2)) (π / 2) := ⟨by linarith, by linarith⟩
  refine ⟨?_, (C93_enough_points (sampleStar (.spiral 1600) [] []) 1600 (by norm_num) rfl one_pos 0 0 10 0.1 π (π / 2)
    (by norm_num) hm).2 (by simp only [sampleStar]; norm_num)⟩
  have hlat : ∀ p : (Grid.spiral 1).Pix, (Grid.spiral 1).lat p = 0 := by
    intro p
    have hp0 : ((p : Fin 1) : ℕ) = 0 := by have := (p : Fin 1).2; omega
    change π / 2 - arccos (1 - 2 * (((p : Fin 1) : ℕ) + 0.5) / ((1 : ℕ) : ℝ)) = 0
    rw [hp0]
    norm_num
  have hlon : ∀ p : (Grid.spiral 1).Pix, (Grid.spiral 1).lon p = 0 := by
    intro p
    have hp0 : ((p : Fin 1) : ℕ) = 0 := by have := (p : Fin 1).2; omega
    change Grid.mod2pi (2 * π * ((p : Fin 1) : ℕ) / (0.5 * (1 + √5))) = 0
    rw [hp0]
    simp [Grid.mod2pi]
  have hmu : ∀ p : (Grid.spiral 1).Pix, (Grid.spiral 1).mu 0 0 p = 1 := by
    intro p; simp [Grid.mu, Grid.cosAngle, hlat, hlon]
  have hproj : ∀ p : (Grid.spiral 1).Pix,
      Helpers.projOrtho 0 0 ((Grid.spiral 1).lat p) ((Grid.spiral 1).lon p) = (.fin 0, .fin 0) := by
    intro p
    rw [hlat, hlon]
    have hgc : greatCircle 0 0 0 0 = 0 := by rw [greatCircle_eq]; simp
    obtain ⟨x, y, h1, h2, -⟩ := (C11_ortho_radius 0 0 0 0 hm hm).2 (by rw [hgc]; linarith)
    rw [hgc, sin_zero] at h2
    have hx : x = 0 := by nlinarith
    have hy : y = 0 := by nlinarith
    rw [h1, hx, hy]
  have hgood : goodGrid (sampleStar (.spiral 1) [] []).grid := by change 1 ≤ 1; norm_num
  have harea : ∀ p : (Grid.spiral 1).Pix, (Grid.spiral 1).area p = .fin 1 := by
    intro p
    change Fl.fin 0 + Fl.fin 1 / Fl.fin ((1 : ℕ) : ℝ) = _
    rw [Fl.fin_div (by norm_num), Fl.fin_add]; norm_num
  have hpos : ((0 : ℝ), (0 : ℝ)) = planetPos (sampleStar (.spiral 1) [] []).radius 10 π (π / 2) := by
    simp [planetPos]
  have hnear : nearPlanet (Grid.spiral 1) (fun _ => 1) 0 0 0 0 0.1 = Finset.univ := by
    classical
    unfold nearPlanet
    rw [Finset.filter_true_of_mem]
    intro p _
    refine ⟨0, 0, hproj p, ?_⟩
    rw [hmu]
    simp only [planetDist, pixelRadius]
    norm_num
  refine ((C93_warning (sampleStar (.spiral 1) [] []) hgood one_pos (fun _ => 1) harea 0 0 10 0.1 π (π / 2)
    (by norm_num) hm 0 0 0.1 2 hpos (by simp only [sampleStar]; norm_num) Finset.univ hnear.symm ?_).1 _).mpr
    ⟨⟨by rw [cos_pi]; norm_num, ?_, ⟨(0 : Fin 1), Finset.mem_univ _⟩, by norm_num⟩, by norm_num⟩
  · have hsum : ∑ p : (Grid.spiral 1).Pix, pixelRadius 1 ((Grid.spiral 1).mu 0 0 p) = 2 := by
      simp only [hmu, pixelRadius]
      simp
    change 2 = (∑ p : (Grid.spiral 1).Pix, pixelRadius 1 ((Grid.spiral 1).mu 0 0 p)) / ((Finset.univ : Finset (Fin 1)).card : ℝ)
    rw [hsum]
    simp
  · simp [planetDist]; norm_num

end Vsm
