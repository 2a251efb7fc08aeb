import Verif.Model.UnitsObs
import Verif.Props.FarSide

/-!
# C151: units of the observer's and the planet's coordinates
-/

noncomputable section
namespace Vsm
open Real Np Spec

/-- The argument is an angle or a plain number, `r` is its size in radians (a plain number counts as radians). -/
def Spec.InRadians (g : Given) (r : ℝ) : Prop := g = .number r ∨ ∃ x k, g = .quantity x k .angle ∧ r = x * k

/-- The argument is an angle of `r` radians with a unit. -/
def Spec.IsAngle (g : Given) (r : ℝ) : Prop := ∃ x k, g = .quantity x k .angle ∧ r = x * k

/-- The argument is a length of `l` km with a unit. -/
def Spec.IsLength (g : Given) (l : ℝ) : Prop := ∃ x k, g = .quantity x k .len ∧ l = x * k

/-- The planet is near or on the disk of the star, on the observer's side. -/
def Spec.InFront (R orbit r phase incl : ℝ) : Prop :=
  cos phase ≤ 0 ∧ √((orbit / R * sin (phase - π)) ^ 2 + (orbit / R * cos (phase - π) * cos incl) ^ 2) ≤ 1 + 2 * (r / R)

theorem radians_ok {g : Given} {r : ℝ} : g.radians = .ok r ↔ InRadians g r := by
  classical
  cases g with
  | number x => simp [Given.radians, InRadians]
  | quantity x k d =>
    simp only [Given.radians, InRadians, reduceCtorEq, false_or, Given.quantity.injEq]
    split_ifs with h
    · subst h
      simp only [Except.ok.injEq]
      constructor
      · rintro rfl; exact ⟨x, k, ⟨rfl, rfl, trivial⟩, rfl⟩
      · rintro ⟨_, _, ⟨rfl, rfl, -⟩, rfl⟩; rfl
    · constructor
      · intro h'; cases h'
      · rintro ⟨_, _, ⟨-, -, h'⟩, -⟩; exact absurd h' h

theorem minuend_ok {g : Given} {r : ℝ} : g.minuend = .ok r ↔ (g = .number 0 ∧ r = 0) ∨ IsAngle g r := by
  classical
  cases g with
  | number x =>
    simp only [Given.minuend, IsAngle, reduceCtorEq, false_and, exists_false, or_false, Given.number.injEq]
    split_ifs with h
    · simp [h, eq_comm]
    · simp [h]
  | quantity x k d =>
    simp only [Given.minuend, IsAngle, reduceCtorEq, false_and, false_or, Given.quantity.injEq]
    split_ifs with h
    · subst h
      simp only [Except.ok.injEq]
      constructor
      · rintro rfl; exact ⟨x, k, ⟨rfl, rfl, trivial⟩, rfl⟩
      · rintro ⟨_, _, ⟨rfl, rfl, -⟩, rfl⟩; rfl
    · constructor
      · intro h'; cases h'
      · rintro ⟨_, _, ⟨-, -, h'⟩, -⟩; exact absurd h' h

theorem checked_ok {g : Given} {r : ℝ} : g.checkedRadians = .ok r ↔ IsAngle g r := by
  classical
  cases g with
  | number x => simp [Given.checkedRadians, IsAngle]
  | quantity x k d =>
    simp only [Given.checkedRadians, IsAngle, Given.quantity.injEq]
    split_ifs with h
    · subst h
      simp only [Except.ok.injEq]
      constructor
      · rintro rfl; exact ⟨x, k, ⟨rfl, rfl, trivial⟩, rfl⟩
      · rintro ⟨_, _, ⟨rfl, rfl, -⟩, rfl⟩; rfl
    · constructor
      · intro h'; cases h'
      · rintro ⟨_, _, ⟨-, -, h'⟩, -⟩; exact absurd h' h

theorem ratio_ok {g : Given} {R k f : ℝ} (hR : R ≠ 0) (hk : k ≠ 0) {v : Fl} :
    g.ratio R k (.fin f) = .ok v ↔ ∃ l, IsLength g l ∧ v = .fin (l / R * f) := by
  classical
  cases g with
  | number x => simp [Given.ratio, IsLength]
  | quantity x j d =>
    simp only [Given.ratio, IsLength, Given.quantity.injEq]
    have e : Fl.fin x / Fl.fin (R / k) * Fl.fin f * Fl.fin (j / k) = .fin (x * j / R * f) := by
      rw [Fl.fin_div (div_ne_zero hR hk), Fl.fin_mul, Fl.fin_mul, Fl.fin_inj]
      field_simp
    split_ifs with h
    · subst h
      simp only [Except.ok.injEq]
      rw [e]
      constructor
      · rintro rfl; exact ⟨_, ⟨x, j, ⟨rfl, rfl, trivial⟩, rfl⟩, rfl⟩
      · rintro ⟨l, ⟨_, _, ⟨rfl, rfl, -⟩, rfl⟩, rfl⟩; rfl
    · constructor
      · intro h'; cases h'
      · rintro ⟨l, ⟨_, _, ⟨-, -, h'⟩, -⟩, -⟩; exact absurd h' h

/-- The argument is an angle of `r` radians with a unit, or the plain number zero. -/
def Spec.IsAngleOrZero (g : Given) (r : ℝ) : Prop := (g = .number 0 ∧ r = 0) ∨ IsAngle g r

theorem IsAngle.radians {g : Given} {r : ℝ} (h : IsAngle g r) : InRadians g r := Or.inr h

theorem IsAngleOrZero.radians {g : Given} {r : ℝ} (h : IsAngleOrZero g r) : InRadians g r := by
  rcases h with ⟨h1, rfl⟩ | h
  · exact Or.inl h1
  · exact Or.inr h

theorem planet_xy (s : Star) (hR : s.radius ≠ 0) (o angle i : ℝ) :
    s.planetX angle o = .fin (o / s.radius * sin angle) ∧ s.planetY angle o i = .fin (o / s.radius * (cos angle * cos i)) := by
  unfold Star.planetX Star.planetY
  rw [Fl.fin_div hR, Fl.fin_mul, Fl.fin_mul, Fl.fin_mul, Fl.fin_inj, Fl.fin_inj]
  exact ⟨rfl, by ring⟩

theorem front_iff {R o r ph i : ℝ} : (¬ (Fl.fin 1 + Fl.fin 2 * Fl.fin (r / R) < Fl.sqrt (Fl.fin (o / R * sin (ph - π)) * Fl.fin (o / R * sin (ph - π)) +
    Fl.fin (o / R * (cos (ph - π) * cos i)) * Fl.fin (o / R * (cos (ph - π) * cos i)))) ∧ ¬ 0 < cos ph) ↔ InFront R o r ph i := by
  rw [Fl.fin_mul, Fl.fin_mul, Fl.fin_mul, Fl.fin_add, Fl.fin_add, Fl.sqrt_fin (add_nonneg (mul_self_nonneg _) (mul_self_nonneg _)), Fl.fin_lt, not_lt, not_lt]
  unfold InFront
  rw [and_comm]
  have e : o / R * sin (ph - π) * (o / R * sin (ph - π)) + o / R * (cos (ph - π) * cos i) * (o / R * (cos (ph - π) * cos i)) =
    (o / R * sin (ph - π)) ^ 2 + (o / R * cos (ph - π) * cos i) ^ 2 := by ring
  rw [e]

theorem transitQ_eq (s : Star) (hR : s.radius ≠ 0) {unit : ℝ} (hu : unit ≠ 0) {lat0 lon0 orbit radius phase incl : Given} {la lo o r ph i : ℝ}
    (ho : IsLength orbit o) (hr : IsLength radius r) (hph : IsAngleOrZero phase ph) (hi : InRadians incl i)
    (hf : InFront s.radius o r ph i → IsAngle lat0 la ∧ IsAngle lon0 lo) :
    s.transitMaskQ unit lat0 lon0 orbit radius phase incl = s.transitMask la lo o r ph i := by
  classical
  have e1 := radians_ok.mpr (IsAngleOrZero.radians hph)
  have e2 := minuend_ok.mpr hph
  have e3 := radians_ok.mpr hi
  have e4 : ∀ f, orbit.ratio s.radius unit (.fin f) = .ok (.fin (o / s.radius * f)) := fun f => (ratio_ok hR hu).mpr ⟨o, ho, rfl⟩
  have e5 : radius.ratio s.radius unit (.fin 1) = .ok (.fin (r / s.radius)) := (ratio_ok hR hu).mpr ⟨r, hr, by rw [mul_one]⟩
  obtain ⟨e6, e7⟩ := planet_xy s hR o (ph - π) i
  unfold Star.transitMaskQ Star.transitMask Star.plFrac
  simp only [e1, e2, e3, e4, e5, e6, e7, bind, Except.bind, Fl.fin_div hR, Fl.fin_mul (cos (ph - π))]
  by_cases h1 : Fl.fin 1 + Fl.fin 2 * Fl.fin (r / s.radius) < Fl.sqrt (Fl.fin (o / s.radius * sin (ph - π)) * Fl.fin (o / s.radius * sin (ph - π)) +
    Fl.fin (o / s.radius * (cos (ph - π) * cos i)) * Fl.fin (o / s.radius * (cos (ph - π) * cos i)))
  · rw [if_pos h1, if_pos h1]; rfl
  rw [if_neg h1, if_neg h1]
  by_cases h2 : 0 < cos ph
  · rw [if_pos h2, if_pos h2]
    cases Helpers.circFraction (.fin (o / s.radius * sin (ph - π))) (.fin (o / s.radius * (cos (ph - π) * cos i))) (.fin (r / s.radius)) <;> rfl
  rw [if_neg h2, if_neg h2]
  obtain ⟨k1, k2⟩ := hf (front_iff.mp ⟨h1, h2⟩)
  simp only [checked_ok.mpr k1, checked_ok.mpr k2]
  rfl

theorem transitQ_ok (s : Star) (hR : s.radius ≠ 0) {unit : ℝ} (hu : unit ≠ 0) {lat0 lon0 orbit radius phase incl : Given} {v : (s.grid.Pix → Fl) × Fl}
    (h : s.transitMaskQ unit lat0 lon0 orbit radius phase incl = .ok v) :
    ∃ o r ph i, IsLength orbit o ∧ IsLength radius r ∧ IsAngleOrZero phase ph ∧ InRadians incl i ∧
      (InFront s.radius o r ph i → ∃ la lo, IsAngle lat0 la ∧ IsAngle lon0 lo) := by
  classical
  unfold Star.transitMaskQ at h
  simp only [bind, Except.bind] at h
  cases e1 : phase.radians with
  | error e => rw [e1] at h; cases h
  | ok ph' =>
  rw [e1] at h
  cases e2 : phase.minuend with
  | error e => rw [e2] at h; cases h
  | ok ph =>
  simp only [e2] at h
  have hph := minuend_ok.mp e2
  have : ph' = ph := by
    have := radians_ok.mpr (IsAngleOrZero.radians hph)
    rw [e1, Except.ok.injEq] at this
    exact this
  subst this
  cases e3 : orbit.ratio s.radius unit (.fin (sin (ph' - π))) with
  | error e => rw [e3] at h; cases h
  | ok x =>
  simp only [e3] at h
  obtain ⟨o, ho, rfl⟩ := (ratio_ok hR hu).mp e3
  cases e4 : incl.radians with
  | error e => rw [e4] at h; cases h
  | ok i =>
  simp only [e4, Fl.fin_mul, (ratio_ok (f := cos (ph' - π) * cos i) hR hu).mpr ⟨o, ho, rfl⟩] at h
  cases e5 : radius.ratio s.radius unit (.fin 1) with
  | error e => rw [e5] at h; cases h
  | ok rp =>
  simp only [e5] at h
  obtain ⟨r, hr, rfl⟩ := (ratio_ok hR hu).mp e5
  refine ⟨o, r, ph', i, ho, hr, hph, radians_ok.mp e4, fun hf => ?_⟩
  obtain ⟨h1, h2⟩ := front_iff.mpr hf
  simp only [Fl.fin_mul, mul_one] at h h1
  rw [if_neg h1, if_neg h2] at h
  cases e6 : lon0.checkedRadians with
  | error e => rw [e6] at h; cases h
  | ok lo =>
  cases e7 : lat0.checkedRadians with
  | error e => rw [e6, e7] at h; cases h
  | ok la => exact ⟨la, lo, checked_ok.mp e7, checked_ok.mp e6⟩

/-- **C151** Units do not matter: for observer angles, planet angles and lengths in any units, and a star's radius in any unit of length, `calc_coverage` gives the
report for their sizes in radians and kilometres.  Plain numbers that are accepted count as radians. -/
theorem C151_units (s : Star) (hR : s.radius ≠ 0) (unit : ℝ) (hu : unit ≠ 0) (lat0 lon0 orbit radius phase incl : Given) (g la lo o r ph i : ℝ)
    (hla : InRadians lat0 la) (hlo : IsAngleOrZero lon0 lo) (ho : IsLength orbit o) (hr : IsLength radius r) (hph : IsAngleOrZero phase ph)
    (hi : InRadians incl i) (hf : InFront s.radius o r ph i → IsAngle lat0 la ∧ IsAngle lon0 lo) :
    s.calcCoverageQ unit lat0 lon0 g orbit radius phase incl = s.calcCoverage la lo g o r ph i := by
  unfold Star.calcCoverageQ Star.calcCoverage
  simp only [radians_ok.mpr hla, minuend_ok.mpr hlo, transitQ_eq s hR hu ho hr hph hi hf, bind, Except.bind]
  rfl

/-- **C151** Whatever the arguments are: if there is a report, then the lengths have units of length, the longitude and the phase have units of angle or are the
plain number zero, the latitude and the inclination have units of angle or are plain numbers; latitude and longitude both have units if the planet is near the
disk on the observer's side; and the report is the one for these sizes. -/
theorem C151_answers (s : Star) (hR : s.radius ≠ 0) (unit : ℝ) (hu : unit ≠ 0) (lat0 lon0 orbit radius phase incl : Given) (g : ℝ)
    (rep : Dict ℤ Fl × Dict ℤ Fl × Fl) (h : s.calcCoverageQ unit lat0 lon0 g orbit radius phase incl = .ok rep) :
    ∃ la lo o r ph i, InRadians lat0 la ∧ IsAngleOrZero lon0 lo ∧ IsLength orbit o ∧ IsLength radius r ∧ IsAngleOrZero phase ph ∧ InRadians incl i ∧
      (InFront s.radius o r ph i → IsAngle lat0 la ∧ IsAngle lon0 lo) ∧ s.calcCoverage la lo g o r ph i = .ok rep := by
  have h' := h
  unfold Star.calcCoverageQ at h
  simp only [bind, Except.bind] at h
  cases e1 : lat0.radians with
  | error e => rw [e1] at h; cases h
  | ok la =>
  cases e2 : lon0.minuend with
  | error e => rw [e1, e2] at h; cases h
  | ok lo =>
  simp only [e1, e2] at h
  cases e3 : s.addFaculaeToMap la lo with
  | error e => rw [e3] at h; cases h
  | ok m =>
  simp only [e3] at h
  cases e4 : s.transitMaskQ unit lat0 lon0 orbit radius phase incl with
  | error e => rw [e4] at h; cases h
  | ok v =>
  obtain ⟨o, r, ph, i, ho, hr, hph, hi, hf⟩ := transitQ_ok s hR hu e4
  have hf' : InFront s.radius o r ph i → IsAngle lat0 la ∧ IsAngle lon0 lo := by
    intro k
    obtain ⟨la', lo', ha, ho'⟩ := hf k
    have k1 := radians_ok.mpr (IsAngle.radians ha)
    have k2 := minuend_ok.mpr (Or.inr ho')
    rw [e1, Except.ok.injEq] at k1
    rw [e2, Except.ok.injEq] at k2
    subst k1 k2
    exact ⟨ha, ho'⟩
  refine ⟨la, lo, o, r, ph, i, radians_ok.mp e1, minuend_ok.mp e2, ho, hr, hph, hi, hf', ?_⟩
  rw [← C151_units s hR unit hu lat0 lon0 orbit radius phase incl g la lo o r ph i (radians_ok.mp e1) (minuend_ok.mp e2) ho hr hph hi hf']
  exact h'

/-! ## Instances -/

/-- `x*u.deg`. -/
def Spec.degrees (x : ℝ) : Given := .quantity x (π / 180) .angle

/-- Non-trivial instance of C151: the default planet (1 AU, 1 Earth radius, phase 90°, inclination 0°) and an observer given in degrees, a star whose radius is
given in solar radii. -/
example (s : Star) (hR : s.radius ≠ 0) (g : ℝ) :
    s.calcCoverageQ 695700 (degrees 45) (degrees 180) g (.quantity 1 149597870.7 .len) (.quantity 1 6378.1 .len) (degrees 90) (degrees 0) =
      s.calcCoverage (π / 4) π g Star.defaultOrbit Star.defaultPlanetRadius (π / 2) 0 :=
  C151_units s hR 695700 (by norm_num) _ _ _ _ _ _ g _ _ _ _ _ _ (Or.inr ⟨_, _, rfl, by ring⟩) (Or.inr ⟨_, _, rfl, by ring⟩) ⟨_, _, rfl, by unfold Star.defaultOrbit; ring⟩
    ⟨_, _, rfl, by unfold Star.defaultPlanetRadius; ring⟩ (Or.inr ⟨_, _, rfl, by ring⟩) (Or.inr ⟨_, _, rfl, by ring⟩)
    (fun _ => ⟨⟨_, _, rfl, by ring⟩, ⟨_, _, rfl, by ring⟩⟩)

/-- Non-trivial instance of C151: a latitude of 45 given without unit is accepted and taken as 45 radians while no planet is in front of the star. -/
example (s : Star) (hR : s.radius = 1) (g : ℝ) :
    s.calcCoverageQ 1 (.number 45) (degrees 180) g (.quantity 10 1 .len) (.quantity 0.5 1 .len) (degrees 90) (.number 0) =
      s.calcCoverage 45 π g 10 0.5 (π / 2) 0 := by
  refine C151_units s (by rw [hR]; norm_num) 1 (by norm_num) _ _ _ _ _ _ g _ _ _ _ _ _ (Or.inl rfl) (Or.inr ⟨_, _, rfl, by ring⟩) ⟨_, _, rfl, by ring⟩
    ⟨_, _, rfl, by ring⟩ (Or.inr ⟨_, _, rfl, by ring⟩) (Or.inl rfl) (fun hf => ?_)
  exfalso
  have h := hf.2
  rw [hR, show π / 2 - π = -(π / 2) by ring, sin_neg, sin_pi_div_two, cos_neg, cos_pi_div_two] at h
  norm_num at h
  rw [Real.sqrt_le_left (by norm_num)] at h
  norm_num at h

/-- Non-trivial instance of C151: with a planet in front of the star the same latitude is refused, and a phase without unit always is. -/
example (s : Star) (hR : s.radius = 1) (g : ℝ) (rep : Dict ℤ Fl × Dict ℤ Fl × Fl) :
    s.calcCoverageQ 1 (.number 45) (degrees 180) g (.quantity 10 1 .len) (.quantity 0.5 1 .len) (degrees 180) (degrees 90) ≠ .ok rep ∧
    s.calcCoverageQ 1 (degrees 45) (degrees 180) g (.quantity 10 1 .len) (.quantity 0.5 1 .len) (.number 90) (degrees 90) ≠ .ok rep := by
  have hR0 : s.radius ≠ 0 := by rw [hR]; norm_num
  constructor
  · intro h
    obtain ⟨la, lo, o, r, ph, i, -, -, ⟨_, _, h1, rfl⟩, ⟨_, _, h2, rfl⟩, h3, h4, h5, -⟩ := C151_answers s hR0 1 (by norm_num) _ _ _ _ _ _ g rep h
    obtain ⟨rfl, rfl, -⟩ := Given.quantity.inj h1
    obtain ⟨rfl, rfl, -⟩ := Given.quantity.inj h2
    rcases h3 with ⟨h3, -⟩ | ⟨_, _, h3, rfl⟩
    · cases h3
    obtain ⟨rfl, rfl, -⟩ := Given.quantity.inj h3
    rcases h4 with h4 | ⟨_, _, h4, rfl⟩
    · cases h4
    obtain ⟨rfl, rfl, -⟩ := Given.quantity.inj h4
    obtain ⟨⟨_, _, h6, -⟩, -⟩ := h5 ⟨by rw [show 180 * (π / 180) = π by ring, cos_pi]; norm_num, by
      rw [show 180 * (π / 180) = π by ring, sub_self, show 90 * (π / 180) = π / 2 by ring, cos_pi_div_two, sin_zero, hR]
      norm_num⟩
    cases h6
  · intro h
    obtain ⟨la, lo, o, r, ph, i, -, -, -, -, h3, -⟩ := C151_answers s hR0 1 (by norm_num) _ _ _ _ _ _ g rep h
    rcases h3 with ⟨h3, -⟩ | ⟨_, _, h3, -⟩
    · rw [Given.number.injEq] at h3; norm_num at h3
    · cases h3

end Vsm
