import Verif.Model.FloatDraws
import Verif.Props.FloatPeaks
import Verif.Props.FloatAge
import Verif.Props.SpotGen

/-!
# C179: generated spots and faculae in double precision
-/

noncomputable section

namespace Vsm

open Real Spec

theorem dbl_pos_iff (x : ℝ) : 0 < dbl x ↔ 0 < x := by
  have h := abs_le.mp (dbl_err x)
  have hu := ulp_pos
  have hs := ulp_small
  constructor
  · intro hx
    by_contra hn
    rw [abs_of_nonpos (not_lt.mp hn)] at h
    nlinarith [h.2]
  · intro hx
    rw [abs_of_pos hx] at h
    nlinarith [h.1]

/-- A power of ten (or of `e`) whose exponent is slightly off. -/
theorem exp_shift {δ y : ℝ} (hy : 0 < y) (hδ : |δ| ≤ 1 / 2) : |y * exp δ - y| ≤ 2 * |δ| * y ∧ exp δ ≤ 2 := by
  have h1 : |exp δ - 1| ≤ 2 * |δ| := abs_exp_sub_one_le (by linarith)
  refine ⟨?_, by have := (abs_le.mp h1).2; linarith⟩
  rw [show y * exp δ - y = (exp δ - 1) * y by ring, abs_mul, abs_of_pos hy]
  gcongr

theorem log_ten : 0 ≤ log 10 ∧ log 10 ≤ 2.5 := by
  refine ⟨log_nonneg (by norm_num), ?_⟩
  have h8 : log 10 = 3 * log 2 + log (5 / 4) := by
    rw [show (10 : ℝ) = 2 ^ 3 * (5 / 4) by norm_num, log_mul (by norm_num) (by norm_num), log_pow]; norm_num
  have h9 : log (5 / 4) ≤ 5 / 4 - 1 := log_le_sub_one_of_pos (by norm_num)
  have := log_two_lt_d9
  linarith

/-- `peak·10^(mu·sigma)` as computed. -/
theorem ten_power {L : RealPow} (hL : AccurateReal L) (peak mu σ : ℝ) (h : |mu * σ| ≤ 8) :
    Rel 60 (dbl (peak * L.pow 10 (dbl (mu * σ)))) (peak * 10 ^ (mu * σ)) := by
  have hu := ulp_pos
  have hs := ulp_small
  set x := mu * σ with hx
  have hp : (0 : ℝ) < 10 ^ x := by positivity
  have hd : |dbl x - x| ≤ 8 * ulp := (dbl_err x).trans (by gcongr)
  set δ := (dbl x - x) * log 10 with hδ
  have hδ1 : |δ| ≤ 20 * ulp := by
    rw [hδ, abs_mul, abs_of_nonneg log_ten.1]
    calc |dbl x - x| * log 10 ≤ (8 * ulp) * 2.5 := by have := log_ten.2; gcongr
      _ = _ := by ring
  have hpow : (10 : ℝ) ^ dbl x = 10 ^ x * exp δ := by
    rw [hδ, rpow_def_of_pos (by norm_num), rpow_def_of_pos (by norm_num), ← exp_add]
    congr 1; ring
  obtain ⟨h1, h2⟩ := exp_shift hp (δ := δ) (by linarith)
  have h10 := (hL 10 (dbl x) (by norm_num)).1
  rw [two_ulp, hpow] at h10
  have hr : Rel 44 (L.pow 10 (dbl x)) (10 ^ x) := by
    unfold Rel
    rw [abs_of_pos hp]
    calc |L.pow 10 (dbl x) - 10 ^ x| ≤ |L.pow 10 (dbl x) - 10 ^ x * exp δ| + |10 ^ x * exp δ - 10 ^ x| := abs_sub_le _ _ _
      _ ≤ (10 ^ x * 2) * (2 * ulp) + 2 * (20 * ulp) * 10 ^ x := by
          refine add_le_add (h10.trans (by gcongr)) (h1.trans (by gcongr))
      _ = 44 * ulp * 10 ^ x := by ring
  exact (((Rel.refl peak).mul hr (by norm_num) (by norm_num)).dbl (by norm_num)).mono (by norm_num)

/-! ## C179 -/

/-- The draws are doubles as numpy makes them: multiples of `2^-53` below 1 and double precision normals. -/
structure Spec.DoubleSpots {n : ℕ} (d : SpotDraws n) : Prop where
  lat : ∀ i, ∃ k : ℕ, k < 2 ^ 53 ∧ (d.uLat i : ℝ) = k / 2 ^ 53
  lon : ∀ i, ∃ k : ℕ, k < 2 ^ 53 ∧ (d.uLon i : ℝ) = k / 2 ^ 53
  ratio : ∀ k i, dbl (d.zRatio k i) = d.zRatio k i

/-- `f` computed agrees with the angle `φ` in radians up to rounding. -/
def Spec.SameAngle (f φ : ℝ) : Prop := |f * (π / 180) - φ| ≤ (2 + 14 * |φ|) / 2 ^ 53

theorem lat_close {M : Libm} (hM : Accurate M) {k : ℕ} (hk : k < 2 ^ 53) :
    SameAngle (M.randomLat (randomDouble k)) (Grid.deg (arcsin (2 * randomDouble k - 1) / π * 180)) := by
  have h := (C175_places M hM k hk).1
  unfold SameAngle Grid.deg
  set a := arcsin (2 * randomDouble k - 1) / π * 180 with ha
  have hp := pi_pos
  have e : M.randomLat (randomDouble k) * (π / 180) - a * (π / 180) = (M.randomLat (randomDouble k) - a) * (π / 180) := by ring
  have e2 : |a * (π / 180)| = |a| * (π / 180) := by rw [abs_mul, abs_of_pos (show 0 < π / 180 by positivity)]
  rw [e, abs_mul, abs_of_pos (show 0 < π / 180 by positivity), e2]
  calc _ ≤ |a| * (14 / 2 ^ 53) * (π / 180) := by gcongr
    _ ≤ _ := by
        rw [show |a| * (14 / 2 ^ 53) * (π / 180) = (0 + 14 * (|a| * (π / 180))) / 2 ^ 53 by ring]
        gcongr; norm_num

theorem lon_close {k : ℕ} (M : Libm) (hM : Accurate M) (hk : k < 2 ^ 53) : SameAngle (Libm.randomLon (randomDouble k)) (Grid.deg (randomDouble k * 360)) := by
  have h := (C175_places M hM k hk).2.1
  have h0 : 0 ≤ randomDouble k := by unfold randomDouble; positivity
  unfold SameAngle Grid.deg
  have hp := pi_pos
  have e : Libm.randomLon (randomDouble k) * (π / 180) - randomDouble k * 360 * (π / 180) = (Libm.randomLon (randomDouble k) - randomDouble k * 360) * (π / 180) := by ring
  rw [e, abs_mul, abs_of_pos (show 0 < π / 180 by positivity), abs_of_nonneg (show 0 ≤ randomDouble k * 360 * (π / 180) by positivity)]
  calc _ ≤ randomDouble k * 360 / 2 ^ 53 * (π / 180) := by gcongr
    _ = (1 * (randomDouble k * 360 * (π / 180))) / 2 ^ 53 := by ring
    _ ≤ _ := by
        have : 0 ≤ randomDouble k * 360 * (π / 180) := by positivity
        gcongr; linarith

theorem solar_close (z : ℝ) (b : Bool) : SameAngle (dbl (normalD 15 5 z * (if b then 1 else -1))) (Grid.deg ((15 + 5 * z) * (if b then 1 else -1))) := by
  have hp := pi_pos
  have hp2 := pi_lt_d2
  have hu := ulp_pos
  have hs := ulp_small
  have h1 := normal_err 15 5 z
  set σ : ℝ := if b then 1 else -1 with hσ
  have hσ1 : |σ| = 1 := by rw [hσ]; split_ifs <;> norm_num
  set x := 15 + 5 * z with hx
  have h5 : |5 * z| ≤ |x| + 15 := by
    have := abs_sub x 15
    rw [show x - 15 = 5 * z by rw [hx]; ring] at this
    simpa using this
  rw [abs_of_pos (by norm_num : (0 : ℝ) < 15)] at h1
  have h2 : |normalD 15 5 z - x| ≤ (60 + 3 * |x|) * ulp := h1.trans (by
    have : 15 + 3 * |5 * z| ≤ 60 + 3 * |x| := by linarith
    gcongr)
  have h3 : |normalD 15 5 z| ≤ 2 * |x| + 1 := by
    have h4 : |normalD 15 5 z| ≤ |normalD 15 5 z - x| + |x| := by
      have := abs_add_le (normalD 15 5 z - x) x; simpa using this
    nlinarith [abs_nonneg x]
  have h6 := dbl_err (normalD 15 5 z * σ)
  rw [abs_mul, hσ1, mul_one] at h6
  have h7 : |dbl (normalD 15 5 z * σ) - x * σ| ≤ (61 + 5 * |x|) * ulp := by
    calc _ ≤ |dbl (normalD 15 5 z * σ) - normalD 15 5 z * σ| + |normalD 15 5 z * σ - x * σ| := abs_sub_le _ _ _
      _ ≤ (2 * |x| + 1) * ulp + (60 + 3 * |x|) * ulp := by
          refine add_le_add (h6.trans (by gcongr)) ?_
          rw [← sub_mul, abs_mul, hσ1, mul_one]; exact h2
      _ = _ := by ring
  unfold SameAngle Grid.deg
  have e : dbl (normalD 15 5 z * σ) * (π / 180) - x * σ * (π / 180) = (dbl (normalD 15 5 z * σ) - x * σ) * (π / 180) := by ring
  have e2 : |x * σ * (π / 180)| = |x| * (π / 180) := by
    rw [abs_mul, abs_mul, hσ1, mul_one, abs_of_pos (show 0 < π / 180 by positivity)]
  rw [e, abs_mul, abs_of_pos (show 0 < π / 180 by positivity), e2]
  calc _ ≤ (61 + 5 * |x|) * ulp * (π / 180) := by gcongr
    _ = (61 * (π / 180) + 5 * (|x| * (π / 180))) / 2 ^ 53 := by unfold ulp; ring
    _ ≤ _ := by
        have h8 : 61 * (π / 180) ≤ 2 := by linarith
        have h9 : 0 ≤ |x| * (π / 180) := by positivity
        gcongr; norm_num

theorem ratio_eq {n : ℕ} {d : SpotDraws n} (hd : DoubleSpots d) (k : ℕ) (i : Fin n) : normalD 5 1 (d.zRatio k i) = dbl (d.ratios k i) := by
  unfold normalD SpotDraws.ratios
  rw [one_mul, hd.ratio]

theorem accept_same {n : ℕ} {d : SpotDraws n} (hd : DoubleSpots d) :
    SpotGenerator.acceptRatiosD d = (SpotGenerator.acceptRatios d).map fun q i => dbl (q i) := by
  classical
  have key : ∀ k, (∀ i, 0 < normalD 5 1 (d.zRatio k i)) ↔ ∀ i, 0 < d.ratios k i := fun k =>
    forall_congr' fun i => by rw [ratio_eq hd, dbl_pos_iff]
  unfold SpotGenerator.acceptRatiosD SpotGenerator.acceptRatios
  by_cases h : ∃ k, ∀ i, 0 < d.ratios k i
  · have h' : ∃ k, ∀ i, 0 < normalD 5 1 (d.zRatio k i) := by simpa only [key] using h
    rw [dif_pos h, dif_pos h', Option.map_some]
    have e : Nat.find h' = Nat.find h := Nat.find_congr' fun {k} => key k
    rw [e]
    congr 1
    funext i
    exact ratio_eq hd _ i
  · have h' : ¬ ∃ k, ∀ i, 0 < normalD 5 1 (d.zRatio k i) := by simpa only [key] using h
    rw [dif_neg h, dif_neg h', Option.map_none]

/-- The peak area as computed. -/
theorem area_close {E : ExpLog} (hE : AccurateExp E) {m σ z : ℝ} (hm : 0 < m) (h1 : |log m| ≤ 20) (h2 : |σ * z| ≤ 20) :
    |E.exp (normalD (E.log m) σ z) - m * exp (σ * z)| ≤ m * exp (σ * z) / 2 ^ 44 := by
  have hu := ulp_pos
  have hs := ulp_small
  set lg := E.log m with hlg
  have a1 := hE.2 m hm
  rw [two_ulp, ← hlg] at a1
  have a2 : |lg - log m| ≤ 40 * ulp := a1.trans (by nlinarith)
  have a3 : |lg| ≤ 21 := by
    have h3 : |lg| ≤ |lg - log m| + |log m| := by
      have := abs_add_le (lg - log m) (log m); simpa using this
    linarith
  have a4 := normal_err lg σ z
  set x' := normalD lg σ z with hx'
  set δ := x' - (log m + σ * z) with hδ
  have a5 : |δ| ≤ 121 * ulp := by
    calc |δ| ≤ |x' - (lg + σ * z)| + |(lg + σ * z) - (log m + σ * z)| := abs_sub_le _ _ _
      _ ≤ (21 + 3 * 20) * ulp + 40 * ulp := by
          refine add_le_add (a4.trans (by gcongr)) ?_
          rw [add_sub_add_right_eq_sub]; exact a2
      _ = _ := by ring
  set y := m * exp (σ * z) with hy
  have hy0 : 0 < y := by positivity
  have e : exp x' = y * exp δ := by
    rw [hy, hδ, ← exp_log hm, ← exp_add, ← exp_add, exp_log hm]
    congr 1; ring
  obtain ⟨h3, h4⟩ := exp_shift hy0 (δ := δ) (by linarith)
  have h5 := hE.1 x'
  rw [two_ulp, e] at h5
  calc _ ≤ |E.exp x' - y * exp δ| + |y * exp δ - y| := abs_sub_le _ _ _
    _ ≤ (y * 2) * (2 * ulp) + 2 * (121 * ulp) * y := add_le_add (h5.trans (by gcongr)) (h3.trans (by gcongr))
    _ = y * (246 * ulp) := by ring
    _ ≤ y / 2 ^ 44 := by
        rw [div_eq_mul_one_div]
        gcongr
        unfold ulp; norm_num

/-- **C179** (spots) With every operation rounded `generate_spots` accepts the same batch of area ratios, raises in the same cases and makes the same number of
spots.  Each has the peak area of exact arithmetic up to a relative error of `2^-44`, the ratio of areas up to `2^-53`, still positive, and the place up to
rounding; no longitude reaches 360 degrees. -/
theorem C179_spots (M : Libm) (hM : Accurate M) (E : ExpLog) (hE : AccurateExp E) (G : SpotGenerator) (hmean : 0 < G.distAreaMean)
    (hlog : |log (G.distAreaMean / MSH)| ≤ 20) (n : ℕ) (d : SpotDraws n) (hd : DoubleSpots d) (hz : ∀ i, |G.distAreaLogsigma * d.z i| ≤ 20) :
    (∀ e, G.generateD M E n d = .error e ↔ G.generate n d = .error e) ∧
    ∀ l, G.generate n d = .ok l → ∃ l', G.generateD M E n d = .ok l' ∧ l'.length = l.length ∧ l.length = n ∧
      ∀ (i : ℕ) (s' : NewSpot) (s : StarSpot), l'[i]? = some s' → l[i]? = some s →
        |s'.areaMax * MSH - s.areaMax| ≤ s.areaMax / 2 ^ 44 ∧
        (∃ q, s.ratio = .fin q ∧ 0 < q ∧ 0 < s'.ratio ∧ |s'.ratio - q| ≤ q / 2 ^ 53) ∧
        SameAngle s'.lat s.lat ∧ SameAngle s'.lon s.lon ∧ 0 ≤ s'.lon ∧ s'.lon < 360 := by
  have hMSH : 0 < MSH := by unfold MSH; positivity
  unfold SpotGenerator.generateD SpotGenerator.generate
  rw [accept_same hd]
  by_cases hσ : G.distAreaLogsigma < 0
  · rw [if_pos hσ, if_pos hσ]
    exact ⟨fun e => by constructor <;> (intro h; cases h; rfl), fun l h => by cases h⟩
  rw [if_neg hσ, if_neg hσ]
  cases ha : SpotGenerator.acceptRatios d with
  | none => exact ⟨fun e => by constructor <;> (intro h; cases h; rfl), fun l h => by cases h⟩
  | some q =>
    simp only [Option.map_some]
    by_cases ho : G.distribution = .other
    · rw [if_pos ho, if_pos ho]
      exact ⟨fun e => by constructor <;> (intro h; cases h; rfl), fun l h => by cases h⟩
    rw [if_neg ho, if_neg ho]
    refine ⟨fun e => by constructor <;> (intro h; cases h), fun l h => ?_⟩
    have h' := (Except.ok.inj h).symm
    subst h'
    refine ⟨_, rfl, by simp, by simp, fun i s' s h1 h2 => ?_⟩
    rw [List.getElem?_ofFn] at h1 h2
    split_ifs at h1 h2 with hi
    rw [Option.some.injEq] at h1 h2
    subst h1 h2
    set j : Fin n := ⟨i, hi⟩ with hj
    have hq := acceptRatios_pos ha j
    obtain ⟨k1, hk1, e1⟩ := hd.lat j
    obtain ⟨k2, hk2, e2⟩ := hd.lon j
    have e1' : (d.uLat j : ℝ) = randomDouble k1 := e1
    have e2' : (d.uLon j : ℝ) = randomDouble k2 := e2
    have hpl := (C175_places M hM k2 hk2).2.2
    refine ⟨?_, ⟨q j, rfl, hq, (dbl_pos_iff _).mpr hq, ?_⟩, ?_, ?_, ?_, ?_⟩
    · have h := area_close hE (div_pos hmean hMSH) hlog (hz j)
      have e3 : (StarSpot.new (G.drawLat d j) (G.drawLon d j) (exp (log (G.distAreaMean / MSH) + G.distAreaLogsigma * d.z j) * MSH) (.fin G.initArea)
          G.umbraTeff G.penumbraTeff (.fin (q j)) true G.growthRate G.decayRate G.grid).areaMax = G.distAreaMean / MSH * exp (G.distAreaLogsigma * d.z j) * MSH := by
        change exp (log (G.distAreaMean / MSH) + G.distAreaLogsigma * d.z j) * MSH = _
        rw [exp_add, exp_log (div_pos hmean hMSH)]
      rw [e3, ← sub_mul, abs_mul, abs_of_pos hMSH]
      calc _ ≤ G.distAreaMean / MSH * exp (G.distAreaLogsigma * d.z j) / 2 ^ 44 * MSH := by gcongr
        _ = _ := by ring
    · have := dbl_err (q j)
      rw [abs_of_pos hq] at this
      exact this.trans (le_of_eq (by unfold ulp; ring))
    · change SameAngle (G.drawLatD M d j) (G.drawLat d j)
      unfold SpotGenerator.drawLatD SpotGenerator.drawLat
      cases hdist : G.distribution with
      | solar => exact solar_close _ _
      | iso => simp only [e1']; exact lat_close hM hk1
      | other => exact absurd hdist ho
    · change SameAngle (Libm.randomLon (d.uLon j)) (G.drawLon d j)
      unfold SpotGenerator.drawLon
      rw [e2']; exact lon_close M hM hk2
    · change 0 ≤ Libm.randomLon (d.uLon j)
      rw [e2']; exact hpl.1
    · change Libm.randomLon (d.uLon j) < 360
      rw [e2']; exact hpl.2

/-- **C179** (faculae) With every operation rounded `generate_faculae` makes the same number of faculae.  Largest radius, first radius and lifetime of each have
a relative error of at most `2^-46`, and the place is that of exact arithmetic up to rounding; no longitude reaches 360 degrees. -/
theorem C179_faculae (M : Libm) (hM : Accurate M) (L : RealPow) (hL : AccurateReal L) (G : FaculaGenerator) (hr : 0 < G.distRPeak) (hl : 0 < G.distLifePeak)
    (n : ℕ) (d : FaculaDraws n) (hlat : ∀ i, ∃ k : ℕ, k < 2 ^ 53 ∧ (d.uLat i : ℝ) = k / 2 ^ 53) (hlon : ∀ i, ∃ k : ℕ, k < 2 ^ 53 ∧ (d.uLon i : ℝ) = k / 2 ^ 53)
    (h1 : ∀ i, |d.mu i * G.distRLogsigma| ≤ 8) (h2 : ∀ i, |d.mu i * G.distLifeLogsigma| ≤ 8) :
    (G.generateD M L n d).length = n ∧ (G.generate n d).length = n ∧
    ∀ (i : ℕ) (f' : NewFacula) (f : Facula), (G.generateD M L n d)[i]? = some f' → (G.generate n d)[i]? = some f →
      |f'.rMax - f.rMax| ≤ f.rMax / 2 ^ 46 ∧ (∃ r, f.radius = .fin r ∧ |f'.radius - r| ≤ r / 2 ^ 46) ∧
      |f'.lifetime - f.lifetime| ≤ f.lifetime / 2 ^ 46 ∧
      SameAngle f'.lat f.lat ∧ SameAngle f'.lon f.lon ∧ 0 ≤ f'.lon ∧ f'.lon < 360 := by
  unfold FaculaGenerator.generateD FaculaGenerator.generate
  refine ⟨by simp, by simp, fun i f' f g1 g2 => ?_⟩
  rw [List.getElem?_ofFn] at g1 g2
  split_ifs at g1 g2 with hi
  rw [Option.some.injEq] at g1 g2
  subst g1 g2
  set j : Fin n := ⟨i, hi⟩ with hj
  obtain ⟨k1, hk1, e1⟩ := hlat j
  obtain ⟨k2, hk2, e2⟩ := hlon j
  have e1' : (d.uLat j : ℝ) = randomDouble k1 := e1
  have e2' : (d.uLon j : ℝ) = randomDouble k2 := e2
  have hpl := (C175_places M hM k2 hk2).2.2
  have hu := ulp_pos
  have hle : ∀ {a b : ℝ}, Rel 100 a b → 0 < b → |a - b| ≤ b / 2 ^ 46 := by
    intro a b h hb
    unfold Rel at h
    rw [abs_of_pos hb] at h
    refine h.trans ?_
    rw [div_eq_mul_one_div, mul_comm]
    gcongr
    unfold ulp; norm_num
  have t1 := ten_power hL G.distRPeak (d.mu j) G.distRLogsigma (h1 j)
  have t2 := ten_power hL G.distLifePeak (d.mu j) G.distLifeLogsigma (h2 j)
  have p1 : 0 < G.distRPeak * (10 : ℝ) ^ (d.mu j * G.distRLogsigma) := by positivity
  have p2 : 0 < G.distLifePeak * (10 : ℝ) ^ (d.mu j * G.distLifeLogsigma) := by positivity
  have he : Rel 8 (L.pow (dbl (exp 1)) 2) (exp 1 ^ 2) := by
    have hpos : 0 < dbl (exp 1) := (dbl_pos_iff _).mpr (exp_pos 1)
    have a1 := (hL (dbl (exp 1)) 2 hpos).1
    rw [two_ulp, rpow_two] at a1
    have a2 : Rel 2 (L.pow (dbl (exp 1)) 2) (dbl (exp 1) ^ 2) := by
      unfold Rel
      rw [abs_of_pos (pow_pos hpos 2)]; linarith
    have a3 : Rel 5 (dbl (exp 1) ^ 2) (exp 1 ^ 2) := by
      rw [sq, sq]
      exact ((rel_dbl (exp 1)).mul (rel_dbl (exp 1)) (by norm_num) (by norm_num)).mono (by norm_num)
    exact (a2.trans a3 (by norm_num) (by norm_num) (by norm_num)).mono (by norm_num)
  refine ⟨hle (t1.mono (by norm_num)) p1, ⟨_, rfl, ?_⟩, hle (t2.mono (by norm_num)) p2, ?_, ?_, ?_, ?_⟩
  · exact hle (((t1.div he (by norm_num) (by norm_num) (by norm_num) (by norm_num) (by positivity)).dbl (by norm_num)).mono (by norm_num)) (by positivity)
  · change SameAngle (M.randomLat (d.uLat j)) (G.drawLat d j)
    unfold FaculaGenerator.drawLat
    rw [e1']; exact lat_close hM hk1
  · change SameAngle (Libm.randomLon (d.uLon j)) (G.drawLon d j)
    unfold FaculaGenerator.drawLon
    rw [e2']; exact lon_close M hM hk2
  · change 0 ≤ Libm.randomLon (d.uLon j)
    rw [e2']; exact hpl.1
  · change Libm.randomLon (d.uLon j) < 360
    rw [e2']; exact hpl.2

theorem dbl_minus_six : dbl (-6) = -6 := by
  have : dbl 6 = ((6 * 2 ^ 50 : ℤ) : ℝ) * 2 ^ (-50 : ℤ) := by refine dbl_eq ?_ ?_ ?_ <;> norm_num
  rw [dbl_neg, this]; norm_num

/-- Draws of two spots whose first batch of ratios is rejected. -/
def Spec.twoSpots : SpotDraws 2 :=
  ⟨fun _ => 2, fun k _ => if k = 0 then -6 else 1, fun i => i = 0, fun _ => 1, fun _ => ⟨1 / 2, by norm_num⟩, fun _ => ⟨3 / 4, by norm_num⟩⟩

theorem twoSpots_double : DoubleSpots twoSpots where
  lat i := ⟨3 * 2 ^ 51, by norm_num, by norm_num [twoSpots]⟩
  lon i := ⟨2 ^ 52, by norm_num, by norm_num [twoSpots]⟩
  ratio k i := by
    unfold twoSpots
    by_cases hk : k = 0
    · simp only [hk, if_true]; exact dbl_minus_six
    · simp only [hk, if_false]; exact dbl_one

theorem twoSpots_accept : SpotGenerator.acceptRatios twoSpots = some fun _ => 6 := by
  classical
  have h : ∃ k, ∀ i, 0 < twoSpots.ratios k i := ⟨1, fun i => by norm_num [SpotDraws.ratios, twoSpots]⟩
  have e : Nat.find h = 1 := by
    rw [Nat.find_eq_iff]
    refine ⟨fun i => by norm_num [SpotDraws.ratios, twoSpots], fun k hk hn => ?_⟩
    have := hn 0
    have k0 : k = 0 := by omega
    subst k0
    norm_num [SpotDraws.ratios, twoSpots] at this
  unfold SpotGenerator.acceptRatios
  rw [dif_pos h, e]
  congr 1
  funext i
  norm_num [SpotDraws.ratios, twoSpots]

/-- Instance of C179: after a rejected batch two spots with area ratios of 6 and peak areas of `200 e²` millionths at 20 and -20 degrees. -/
example (g : Grid) : ∃ s₁ s₂, (SpotGenerator.mk (200 * MSH) 1 2500 2700 1 1 2 .solar 0.5 g).generateD Libm.rounded ExpLog.rounded 2 twoSpots = .ok [s₁, s₂] ∧
    |s₁.areaMax * MSH - 200 * exp 2 * MSH| ≤ 200 * exp 2 * MSH / 2 ^ 44 ∧ |s₂.ratio - 6| ≤ 6 / 2 ^ 53 ∧
    SameAngle s₁.lat (π / 9) ∧ SameAngle s₂.lat (-(π / 9)) ∧ SameAngle s₂.lon π := by
  have hM : MSH ≠ 0 := MSH_pos.ne'
  have hlg : |log (200 * MSH / MSH)| ≤ 20 := by
    rw [mul_div_cancel_right₀ _ hM, abs_of_nonneg (log_nonneg (by norm_num))]
    have h1 : log 200 ≤ 2 * log 16 := by
      rw [← Nat.cast_ofNat (R := ℝ) (n := 2), ← log_pow]
      exact log_le_log (by norm_num) (by norm_num)
    have h2 : log 16 = 4 * log 2 := by rw [show (16 : ℝ) = 2 ^ 4 by norm_num, log_pow]; norm_num
    have := log_two_lt_d9
    linarith
  have hG : (SpotGenerator.mk (200 * MSH) 1 2500 2700 1 1 2 .solar 0.5 g).generate 2 twoSpots = .ok (List.ofFn fun i : Fin 2 =>
      StarSpot.new ((SpotGenerator.mk (200 * MSH) 1 2500 2700 1 1 2 .solar 0.5 g).drawLat twoSpots i) ((SpotGenerator.mk (200 * MSH) 1 2500 2700 1 1 2 .solar 0.5 g).drawLon twoSpots i)
        (exp (log (200 * MSH / MSH) + 1 * twoSpots.z i) * MSH) (.fin 2) 2500 2700 (.fin 6) true 1 1 g) := by
    unfold SpotGenerator.generate
    rw [twoSpots_accept, if_neg (by norm_num)]
    rfl
  obtain ⟨-, h⟩ := C179_spots Libm.rounded rounded_accurate ExpLog.rounded rounded_accurateExp (SpotGenerator.mk (200 * MSH) 1 2500 2700 1 1 2 .solar 0.5 g)
    (by have := MSH_pos; positivity) hlg 2 twoSpots twoSpots_double (fun i => by norm_num [twoSpots])
  obtain ⟨l', hl', hn, -, hs⟩ := h _ hG
  rw [List.length_ofFn] at hn
  obtain ⟨s₁, s₂, rfl⟩ := List.length_eq_two.mp hn
  have g1 := hs 0 s₁ _ rfl rfl
  have g2 := hs 1 s₂ _ rfl rfl
  have ea : exp (log (200 * MSH / MSH) + 1 * 2) * MSH = 200 * exp 2 * MSH := by
    rw [mul_div_cancel_right₀ _ hM, exp_add, exp_log (by norm_num), one_mul]
  refine ⟨s₁, s₂, hl', ?_, ?_, ?_, ?_, ?_⟩
  · have h1 := g1.1
    change |s₁.areaMax * MSH - exp (log (200 * MSH / MSH) + 1 * 2) * MSH| ≤ exp (log (200 * MSH / MSH) + 1 * 2) * MSH / 2 ^ 44 at h1
    rwa [ea] at h1
  · obtain ⟨q, hq, -, -, h1⟩ := g2.2.1
    rw [← Fl.fin.inj hq] at h1
    exact h1
  · have h1 := g1.2.2.1
    change SameAngle s₁.lat (Grid.deg ((15 + 5 * 1) * (if decide ((0 : Fin 2) = 0) = true then 1 else -1))) at h1
    convert h1 using 1
    norm_num [Grid.deg]; ring
  · have h1 := g2.2.2.1
    change SameAngle s₂.lat (Grid.deg ((15 + 5 * 1) * (if decide ((1 : Fin 2) = 0) = true then 1 else -1))) at h1
    convert h1 using 1
    norm_num [Grid.deg]; ring
  · have h1 := g2.2.2.2.1
    change SameAngle s₂.lon (Grid.deg (1 / 2 * 360)) at h1
    convert h1 using 1
    norm_num [Grid.deg]; ring

/-- Instance of C179: one facula with `mu = 1`, a tenth of a decade larger than the peak. -/
example (g : Grid) : ∃ f, (FaculaGenerator.off g).generateD Libm.rounded RealPow.rounded 1 ⟨fun _ => 1, fun _ => ⟨1 / 2, by norm_num⟩, fun _ => ⟨1 / 2, by norm_num⟩⟩ = [f] ∧
    |f.rMax - 100 * (10 : ℝ) ^ (0.1 : ℝ)| ≤ 100 * (10 : ℝ) ^ (0.1 : ℝ) / 2 ^ 46 ∧ SameAngle f.lon π := by
  obtain ⟨hn, -, hs⟩ := C179_faculae Libm.rounded rounded_accurate RealPow.rounded rounded_accurateReal (FaculaGenerator.off g) (by norm_num [FaculaGenerator.off])
    (by norm_num [FaculaGenerator.off]) 1 ⟨fun _ => 1, fun _ => ⟨1 / 2, by norm_num⟩, fun _ => ⟨1 / 2, by norm_num⟩⟩
    (fun i => ⟨2 ^ 52, by norm_num, by norm_num⟩) (fun i => ⟨2 ^ 52, by norm_num, by norm_num⟩)
    (fun i => by norm_num [FaculaGenerator.off, abs_of_pos]) (fun i => by norm_num [FaculaGenerator.off, abs_of_pos])
  obtain ⟨f, hf⟩ := List.length_eq_one_iff.mp hn
  have g1 := hs 0 f _ (by rw [hf]; rfl) rfl
  refine ⟨f, hf, ?_, ?_⟩
  · have h1 := g1.1
    change |f.rMax - 100 * (10 : ℝ) ^ (1 * (0.1 : ℝ))| ≤ 100 * (10 : ℝ) ^ (1 * (0.1 : ℝ)) / 2 ^ 46 at h1
    rwa [one_mul] at h1
  · have h1 := g1.2.2.2.2.1
    change SameAngle f.lon (Grid.deg (1 / 2 * 360)) at h1
    convert h1 using 1
    norm_num [Grid.deg]; ring

end Vsm
