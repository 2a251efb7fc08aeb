import Verif.Model.FloatAge
import Verif.Props.Float
import Verif.Props.SpotAge

/-!
# C159: aging of spots in double precision

A spot has a clock: the time that is left until its maximum, negative after that.  An exact step turns the clock back by the time of the
step.  A computed step does so up to a few units, and the clock tells the area.
-/

noncomputable section

namespace Vsm

open Real Spec

/-- An exponential and a logarithm with a relative error of at most `2^-52`. -/
def Spec.AccurateExp (E : ExpLog) : Prop :=
  (∀ x, |E.exp x - exp x| ≤ exp x * (1 / 2 ^ 52)) ∧ ∀ x, 0 < x → |E.log x - log x| ≤ |log x| * (1 / 2 ^ 52)

theorem rounded_accurateExp : AccurateExp ExpLog.rounded := by
  have h : ∀ x : ℝ, |dbl x - x| ≤ |x| * (1 / 2 ^ 52) := fun x => (dbl_err x).trans (by unfold ulp; gcongr <;> norm_num)
  exact ⟨fun x => (h _).trans (by rw [abs_of_pos (exp_pos x)]), fun x _ => h _⟩

theorem two_ulp : (1 : ℝ) / 2 ^ 52 = 2 * ulp := by unfold ulp; norm_num

theorem log_close {a b k : ℝ} (hb : 0 < b) (h : |a - b| ≤ k * b) (hk : k ≤ 1 / 2) : 0 < a ∧ |log a - log b| ≤ 2 * k := by
  have h1 := abs_le.mp h
  have ha : 0 < a := by nlinarith
  refine ⟨ha, abs_le.mpr ⟨?_, ?_⟩⟩
  · have h2 : log (b / a) ≤ b / a - 1 := log_le_sub_one_of_pos (by positivity)
    rw [log_div hb.ne' ha.ne'] at h2
    have h3 : b / a - 1 ≤ 2 * k := by
      rw [sub_le_iff_le_add, div_le_iff₀ ha]
      have : 0 ≤ k := by nlinarith [abs_nonneg (a - b)]
      nlinarith
    linarith
  · have h2 : log (a / b) ≤ a / b - 1 := log_le_sub_one_of_pos (by positivity)
    rw [log_div ha.ne' hb.ne'] at h2
    have h3 : a / b - 1 ≤ k := by
      rw [sub_le_iff_le_add, div_le_iff₀ hb]
      nlinarith
    have : 0 ≤ k := by nlinarith [abs_nonneg (a - b)]
    linarith

/-- What is known of a spot: largest area, rates, and the scale of the errors. -/
structure Clock (E : ExpLog) (A g w τ : ℝ) : Prop where
  acc : AccurateExp E
  top : 0 < A
  growth : 0 < g
  decay : 0 < w
  tau : τ = log (1 + g)
  slow : 1 / 10 ^ 6 ≤ τ

variable {E : ExpLog} {A g w τ : ℝ}

theorem Clock.pos (h : Clock E A g w τ) : 0 < τ := lt_of_lt_of_le (by norm_num) h.slow

/-- The unit of the relative errors. -/
def eps (τ : ℝ) : ℝ := ulp * (1 + 1 / τ)

theorem Clock.eps_pos (h : Clock E A g w τ) : 0 < eps τ := by
  have := h.pos
  have := ulp_pos
  unfold eps; positivity

theorem Clock.eps_small (h : Clock E A g w τ) : eps τ ≤ 2 / 10 ^ 9 := by
  have h1 : 1 / τ ≤ 10 ^ 6 := by
    rw [div_le_iff₀ h.pos]; linarith [h.slow]
  have h2 := ulp_small
  have h3 := ulp_pos
  unfold eps
  nlinarith

theorem Clock.eps_ulp (h : Clock E A g w τ) : ulp ≤ eps τ := by
  have := h.pos
  have h3 := ulp_pos
  have : 0 < 1 / τ := by positivity
  unfold eps
  nlinarith

theorem Clock.eps_tau (h : Clock E A g w τ) : eps τ * τ = ulp * (τ + 1) := by
  have := h.pos
  unfold eps
  field_simp

theorem Clock.tau_near (h : Clock E A g w τ) : |E.log (dbl (g + 1)) - τ| ≤ 5 * eps τ * τ := by
  have hu := ulp_pos
  have hs := ulp_small
  have hp := h.pos
  have h1 : |dbl (g + 1) - (1 + g)| ≤ ulp * (1 + g) := by
    have := dbl_err (g + 1)
    rw [abs_of_pos (show 0 < g + 1 by linarith [h.growth])] at this
    rw [add_comm 1 g]; linarith
  obtain ⟨h2, h3⟩ := log_close (by linarith [h.growth]) h1 (by linarith)
  rw [← h.tau] at h3
  have h4 := h.acc.2 _ h2
  rw [two_ulp] at h4
  have h5 : |log (dbl (g + 1))| ≤ τ + 2 * ulp := by
    have := abs_add_le (log (dbl (g + 1)) - τ) τ
    rw [sub_add_cancel, abs_of_pos hp] at this
    linarith
  have e : 5 * eps τ * τ = 5 * (ulp * (τ + 1)) := by rw [← h.eps_tau]; ring
  rw [e]
  calc |E.log (dbl (g + 1)) - τ| ≤ |E.log (dbl (g + 1)) - log (dbl (g + 1))| + |log (dbl (g + 1)) - τ| := abs_sub_le _ _ _
    _ ≤ (τ + 2 * ulp) * (2 * ulp) + 2 * ulp := add_le_add (h4.trans (by gcongr)) h3
    _ ≤ _ := by nlinarith

/-- The growth of one step. -/
theorem Clock.grow (h : Clock E A g w τ) {c t : ℝ} (ht : 0 ≤ t) {a : ℝ} (ha : a = A * exp (-(τ * c))) :
    ∃ c', dbl (a * E.exp (dbl (E.log (dbl (g + 1)) * t))) = A * exp (-(τ * c')) ∧ |c' - (c - t)| ≤ 20 * eps τ * (t + 1 / τ) := by
  have hu := ulp_pos
  have hs := ulp_small
  have hp := h.pos
  have he := h.eps_pos
  have hes := h.eps_small
  have ha0 : 0 < a := by rw [ha]; have := h.top; positivity
  set T := E.log (dbl (g + 1)) with hT
  have hT1 := h.tau_near
  rw [← hT] at hT1
  set y := dbl (T * t) with hy
  have hy1 : |y - τ * t| ≤ 7 * eps τ * τ * t := by
    have h1 := dbl_err (T * t)
    rw [abs_mul, abs_of_nonneg ht] at h1
    have h2 : |T| ≤ 2 * τ := by
      have := abs_add_le (T - τ) τ
      rw [sub_add_cancel, abs_of_pos hp] at this
      nlinarith
    calc |y - τ * t| ≤ |y - T * t| + |T * t - τ * t| := abs_sub_le _ _ _
      _ ≤ 2 * τ * t * ulp + 5 * eps τ * τ * t := by
          refine add_le_add (h1.trans (by gcongr)) ?_
          rw [← sub_mul, abs_mul, abs_of_nonneg ht]
          gcongr
      _ ≤ 2 * τ * t * eps τ + 5 * eps τ * τ * t := by have := h.eps_ulp; gcongr
      _ = _ := by ring
  have hx := h.acc.1 y
  rw [two_ulp] at hx
  obtain ⟨hx0, hx1⟩ := log_close (exp_pos y) (k := 2 * ulp) (by rw [mul_comm]; exact hx) (by linarith)
  rw [log_exp] at hx1
  set x := E.exp y with hxd
  have hb0 : 0 < a * x := by positivity
  have hb := dbl_err (a * x)
  rw [abs_of_pos hb0, mul_comm _ ulp] at hb
  obtain ⟨hd0, hd1⟩ := log_close hb0 hb (by linarith)
  rw [log_mul ha0.ne' hx0.ne'] at hd1
  set d := dbl (a * x) with hd
  refine ⟨(log A - log d) / τ, ?_, ?_⟩
  · rw [mul_div_cancel₀ _ hp.ne', neg_sub, exp_sub, exp_log hd0, exp_log h.top, mul_div_cancel₀ _ h.top.ne']
  · have hla : log a = log A - τ * c := by
      rw [ha, log_mul h.top.ne' (exp_pos _).ne', log_exp]; ring
    have e : (log A - log d) / τ - (c - t) = -((log d - (log a + log x)) + (log x - y) + (y - τ * t)) / τ := by
      rw [hla]; field_simp; ring
    rw [e, abs_div, abs_neg, abs_of_pos hp, div_le_iff₀ hp]
    calc _ ≤ |log d - (log a + log x)| + |log x - y| + |y - τ * t| := abs_add_three _ _ _
      _ ≤ 2 * ulp + 2 * (2 * ulp) + 7 * eps τ * τ * t := by gcongr
      _ ≤ 20 * eps τ * (1 + τ * t) := by
          have := h.eps_ulp
          have : 0 ≤ eps τ * τ * t := by positivity
          nlinarith
      _ = _ := by field_simp; ring

/-- The computed time to the maximum. -/
theorem Clock.ttm (h : Clock E A g w τ) {c : ℝ} {a : ℝ} (ha : a = A * exp (-(τ * c))) :
    |dbl (E.log (dbl (A / a)) / E.log (dbl (g + 1))) - c| ≤ 30 * eps τ * (|c| + 1 / τ) := by
  have hu := ulp_pos
  have hs := ulp_small
  have hp := h.pos
  have he := h.eps_pos
  have hes := h.eps_small
  have hue := h.eps_ulp
  have ha0 : 0 < a := by rw [ha]; have := h.top; positivity
  have hq : A / a = exp (τ * c) := by
    rw [ha, exp_neg]; have := h.top; field_simp
  have h1 := dbl_err (A / a)
  rw [hq, abs_of_pos (exp_pos _), mul_comm _ ulp] at h1
  obtain ⟨h2, h3⟩ := log_close (exp_pos _) h1 (by linarith)
  rw [log_exp] at h3
  rw [hq]
  set y := dbl (exp (τ * c)) with hy
  have h4 := h.acc.2 y h2
  rw [two_ulp] at h4
  have h5 : |log y| ≤ τ * |c| + 2 * ulp := by
    have := abs_add_le (log y - τ * c) (τ * c)
    rw [sub_add_cancel, abs_mul, abs_of_pos hp] at this
    linarith
  have h6 : |E.log y - τ * c| ≤ 3 * eps τ * (τ * |c| + 1) := by
    have h0 : 0 ≤ τ * |c| := by positivity
    calc _ ≤ |E.log y - log y| + |log y - τ * c| := abs_sub_le _ _ _
      _ ≤ (τ * |c| + 2 * ulp) * (2 * ulp) + 2 * ulp := add_le_add (h4.trans (by gcongr)) h3
      _ ≤ 3 * ulp * (τ * |c| + 1) := by nlinarith
      _ ≤ _ := by gcongr
  set T := E.log (dbl (g + 1)) with hT
  have hT1 := h.tau_near
  rw [← hT] at hT1
  have hT2 : τ * (1 - 5 * eps τ) ≤ T := by have := (abs_le.mp hT1).1; nlinarith
  have hT3 : 0.99 * τ ≤ T := by nlinarith
  have hT0 : 0 < T := by nlinarith
  have h7 : |E.log y / T - c| ≤ 10 * eps τ * (|c| + 1 / τ) := by
    have e : E.log y / T - c = ((E.log y - τ * c) - (T - τ) * c) / T := by field_simp; ring
    rw [e, abs_div, abs_of_pos hT0, div_le_iff₀ hT0]
    have h0 : 0 ≤ τ * |c| := by positivity
    calc _ ≤ |E.log y - τ * c| + |(T - τ) * c| := abs_sub _ _
      _ ≤ 3 * eps τ * (τ * |c| + 1) + 5 * eps τ * τ * |c| := by rw [abs_mul]; gcongr
      _ ≤ 9 * eps τ * (τ * |c| + 1) := by nlinarith [mul_nonneg he.le h0]
      _ = 9 * eps τ * (|c| + 1 / τ) * τ := by field_simp
      _ ≤ 10 * eps τ * (|c| + 1 / τ) * (0.99 * τ) := by
          have : 0 ≤ eps τ * (|c| + 1 / τ) * τ := by positivity
          nlinarith
      _ ≤ _ := by gcongr
  have h8 := dbl_err (E.log y / T)
  have h9 : |E.log y / T| ≤ 2 * (|c| + 1 / τ) := by
    have := abs_add_le (E.log y / T - c) c
    rw [sub_add_cancel] at this
    have h0 : 0 ≤ |c| + 1 / τ := by positivity
    have : 0 < 1 / τ := by positivity
    nlinarith
  calc _ ≤ |dbl (E.log y / T) - E.log y / T| + |E.log y / T - c| := abs_sub_le _ _ _
    _ ≤ 2 * (|c| + 1 / τ) * eps τ + 10 * eps τ * (|c| + 1 / τ) := add_le_add (h8.trans (by gcongr)) h7
    _ ≤ _ := by
        have : 0 ≤ eps τ * (|c| + 1 / τ) := by positivity
        nlinarith

/-- A bound on the error of one step. -/
def stepErr (A w τ t : ℝ) : ℝ := 200 * (eps τ * (t + 1 / τ) + ulp * (A / w))

/-- The state of a spot (growing, area; `none` once it has been removed) after the exact clock shows `c`. -/
def Shows (A w τ e c : ℝ) : Option (Bool × ℝ) → Prop
  | some (true, a) => ∃ c', a = A * exp (-(τ * c')) ∧ |c' - c| ≤ e ∧ -e ≤ c'
  | some (false, a) => 0 < a ∧ |(a - A) / w - c| ≤ e ∧ (a - A) / w ≤ e
  | none => c ≤ -(A / w) + 2 * e

theorem shows_mono {e e' c : ℝ} (h : e ≤ e') {st : Option (Bool × ℝ)} (hst : Shows A w τ e c st) : Shows A w τ e' c st := by
  match st, hst with
  | none, hst => exact le_trans hst (by linarith)
  | some (false, a), hst => exact ⟨hst.1, hst.2.1.trans h, hst.2.2.trans h⟩
  | some (true, a), hst =>
    obtain ⟨c', h1, h2, h3⟩ := hst
    exact ⟨c', h1, h2.trans h, by linarith⟩

open Classical in
/-- One step of aging and cleaning. -/
def ageState (E : ExpLog) (A g w : ℝ) (st : Option (Bool × ℝ)) (t : ℝ) : Option (Bool × ℝ) :=
  st.bind fun x => let y := E.ageArea A g w x.1 x.2 t; if y.2 ≤ 0 ∧ y.1 = false then none else some y

theorem dbl_keeps_pos {x : ℝ} (h : 0 < x) : 0 < dbl x := by
  have h1 := (abs_le.mp (dbl_err x)).1
  rw [abs_of_pos h] at h1
  nlinarith [ulp_small]

theorem dbl_nonpos {x : ℝ} (h : dbl x ≤ 0) : x ≤ 0 := by
  by_contra h'
  exact absurd (dbl_keeps_pos (not_le.mp h')) (not_lt.mpr h)

/-- The decay of a spot that has (in the clock's opinion) been decaying for `q`. -/
theorem Clock.settle (h : Clock E A g w τ) {q B e c s : ℝ} (hq : 0 ≤ q) (hB : 0 < B) (hB2 : B ≤ 2 * A) (hc : |(B - A) / w - q - c| ≤ e)
    (hBe : (B - A) / w ≤ e) (hs : 10 * ulp * (q + A / w) ≤ s) {y : Bool × ℝ}
    (hy : y = if A < dbl (q * w) then (false, 0) else (false, dbl (B - dbl (q * w)))) :
    Shows A w τ (e + s) c (if y.2 ≤ 0 ∧ y.1 = false then none else some y) := by
  have hu := ulp_pos
  have hsm := ulp_small
  have hA := h.top
  have hw := h.decay
  have hqw : 0 ≤ q * w := by positivity
  have hAw : 0 < A / w := by positivity
  have h1 := dbl_err (q * w)
  rw [abs_of_nonneg hqw] at h1
  have h1' := abs_le.mp h1
  have hdn : 0 ≤ dbl (q * w) := dbl_nonneg hqw
  set d := dbl (q * w) with hd
  have e1 : (B - A) / w = B / w - A / w := by field_simp
  have hc' := abs_le.mp hc
  have hs0 : 0 ≤ s := le_trans (by positivity) hs
  -- once the decay exceeds the area
  have dead : B ≤ d ∨ A < d → c ≤ -(A / w) + 2 * (e + s) := by
    intro hx
    have hdq : d / w ≤ q + q * ulp := by
      rw [div_le_iff₀ hw]; nlinarith
    rcases hx with hx | hx
    · have : B / w ≤ d / w := by gcongr
      nlinarith
    · have : A / w ≤ d / w := by gcongr
      nlinarith
  by_cases hAd : A < d
  · rw [if_pos hAd] at hy
    subst hy
    rw [if_pos ⟨le_rfl, rfl⟩]
    exact dead (Or.inr hAd)
  · rw [if_neg hAd] at hy
    subst hy
    simp only [and_true]
    by_cases h0 : dbl (B - d) ≤ 0
    · rw [if_pos h0]
      have := dbl_nonpos h0
      exact dead (Or.inl (by linarith))
    · rw [if_neg h0]
      have hbd : 0 < B - d := by
        by_contra hh
        rcases (not_lt.mp hh).lt_or_eq with h2 | h2
        · have := dbl_nonneg (x := -(B - d)) (by linarith)
          have h3 := (abs_le.mp (dbl_err (B - d))).2
          rw [abs_of_neg h2] at h3
          nlinarith
        · rw [h2, dbl_zero] at h0; exact h0 le_rfl
      have h2 := dbl_err (B - d)
      rw [abs_of_pos hbd] at h2
      have h2' := abs_le.mp h2
      refine ⟨not_le.mp h0, ?_, ?_⟩
      · have e2 : (dbl (B - d) - A) / w - c = ((B - A) / w - q - c) + ((dbl (B - d) - (B - d)) - (d - q * w)) / w := by field_simp; ring
        rw [e2]
        refine (abs_add_le _ _).trans (add_le_add hc ?_)
        rw [abs_div, abs_of_pos hw, div_le_iff₀ hw]
        calc _ ≤ |dbl (B - d) - (B - d)| + |d - q * w| := abs_sub _ _
          _ ≤ (2 * A) * ulp + q * w * ulp := by
              refine add_le_add (h2.trans ?_) h1
              gcongr; linarith
          _ ≤ 10 * ulp * (q + A / w) * w := by
              have : 10 * ulp * (q + A / w) * w = 10 * ulp * (q * w + A) := by field_simp
              rw [this]; nlinarith
          _ ≤ _ := by gcongr
      · have : (dbl (B - d) - A) / w ≤ (B - A) / w + (2 * A) * ulp / w := by
          rw [← add_div]
          gcongr
          nlinarith
        have e3 : (2 * A) * ulp / w = 2 * ulp * (A / w) := by ring
        nlinarith [mul_nonneg hu.le hq]

/-- One computed step. -/
theorem Clock.step (h : Clock E A g w τ) {e c t : ℝ} (ht : 0 ≤ t) (he0 : 0 ≤ e) (h1 : e ≤ 1 / τ) (h2 : e ≤ A / w) {st : Option (Bool × ℝ)}
    (hst : Shows A w τ e c st) : Shows A w τ (e + stepErr A w τ t) (c - t) (ageState E A g w st t) := by
  have hu := ulp_pos
  have hsm := ulp_small
  have hA := h.top
  have hw := h.decay
  have hp := h.pos
  have hep := h.eps_pos
  have hes := h.eps_small
  have hue := h.eps_ulp
  have hAw : 0 < A / w := by positivity
  have h1t : 0 < 1 / τ := by positivity
  have hse : 0 ≤ stepErr A w τ t := by unfold stepErr; positivity
  have hst1 : 200 * (eps τ * (t + 1 / τ)) + 200 * (ulp * (A / w)) = stepErr A w τ t := by unfold stepErr; ring
  have hk : 0 ≤ t + 1 / τ := by positivity
  have hk0 : 0 ≤ eps τ * (t + 1 / τ) := by positivity
  have hk1 : eps τ * (t + 1 / τ) ≤ 2 / 10 ^ 9 * (t + 1 / τ) := by gcongr
  have hk2 : 0 ≤ ulp * (A / w) := by positivity
  have hk3 : ulp * (t + 1 / τ) ≤ eps τ * (t + 1 / τ) := by gcongr
  match st, hst with
  | none, hst =>
    simp only [ageState, Option.bind_none, Shows] at hst ⊢
    linarith
  | some (false, a), hst =>
    obtain ⟨ha, hc, hce⟩ := hst
    have haA : a ≤ 2 * A := by
      rw [div_le_iff₀ hw] at hce
      have : e * w ≤ A / w * w := by gcongr
      rw [div_mul_cancel₀ _ hw.ne'] at this
      linarith
    refine h.settle (q := t) (B := a) ht ha haA (by rw [show (a - A) / w - t - (c - t) = (a - A) / w - c by ring]; exact hc) hce ?_ ?_
    · have : ulp * t ≤ eps τ * t := by gcongr
      have : 0 ≤ eps τ * (1 / τ) := by positivity
      nlinarith [mul_pos hu hAw]
    · simp only [ExpLog.ageArea, Bool.false_eq_true, if_false]
  | some (true, a), hst =>
    obtain ⟨c', ha, hc, hce⟩ := hst
    have htau : E.log (dbl (g + 1)) ≠ 0 := by
      intro h0
      have := h.tau_near
      rw [h0, zero_sub, abs_neg, abs_of_pos hp] at this
      nlinarith
    have httm := h.ttm ha
    set m := dbl (E.log (dbl (A / a)) / E.log (dbl (g + 1))) with hm
    have hc2 := abs_le.mp hc
    have httm' := abs_le.mp httm
    by_cases hlt : t < m
    · obtain ⟨c₁, e1, e2⟩ := h.grow ht ha
      have hres : ageState E A g w (some (true, a)) t = some (true, dbl (a * E.exp (dbl (E.log (dbl (g + 1)) * t)))) := by
        simp only [ageState, Option.bind_some, ExpLog.ageArea, if_true, ← hm, if_pos (Or.inr hlt : E.log (dbl (g + 1)) = 0 ∨ t < m)]
        rw [if_neg (by simp)]
      rw [hres, e1]
      have e2' := abs_le.mp e2
      refine ⟨c₁, rfl, ?_, ?_⟩
      · rw [show c₁ - (c - t) = (c₁ - (c' - t)) + (c' - c) by ring]
        refine (abs_add_le _ _).trans ?_
        linarith
      · -- not far beyond the maximum
        by_cases hbig : 2 * t + 1 / τ < c'
        · linarith
        · have hcb : |c'| ≤ 2 * t + 1 / τ := abs_le.mpr ⟨by linarith, by linarith⟩
          have : 30 * eps τ * (|c'| + 1 / τ) ≤ 60 * (eps τ * (t + 1 / τ)) := by
            calc _ ≤ 30 * eps τ * ((2 * t + 1 / τ) + 1 / τ) := by gcongr
              _ = _ := by ring
          linarith
    · have hle : m ≤ t := not_lt.mp hlt
      have hcb : |c'| ≤ 2 * t + 2 * (1 / τ) := by
        refine abs_le.mpr ⟨by linarith, ?_⟩
        by_contra hh
        have hc0 : 0 < c' := by linarith
        rw [abs_of_pos hc0] at httm'
        have hx : eps τ * (c' + 1 / τ) ≤ 2 / 10 ^ 9 * (c' + 1 / τ) := by gcongr
        linarith
      have herr : 30 * eps τ * (|c'| + 1 / τ) ≤ 90 * (eps τ * (t + 1 / τ)) := by
        calc _ ≤ 30 * eps τ * ((2 * t + 2 * (1 / τ)) + 1 / τ) := by gcongr
          _ = 60 * (eps τ * (t + 1 / τ)) + 30 * eps τ * (1 / τ) := by ring
          _ ≤ 60 * (eps τ * (t + 1 / τ)) + 30 * eps τ * (t + 1 / τ) := by gcongr; linarith
          _ = _ := by ring
      have hq0 : 0 ≤ dbl (t - m) := dbl_nonneg (by linarith)
      have hq1 := dbl_err (t - m)
      rw [abs_of_nonneg (by linarith : 0 ≤ t - m)] at hq1
      have hml : t - m ≤ 2 * (t + 1 / τ) := by
        have : m ≥ -(e + 90 * (eps τ * (t + 1 / τ))) := by linarith
        linarith
      have hq2 : |dbl (t - m) - (t - m)| ≤ 2 * (eps τ * (t + 1 / τ)) := by
        calc _ ≤ (2 * (t + 1 / τ)) * eps τ := hq1.trans (by gcongr)
          _ = _ := by ring
      have hq2' := abs_le.mp hq2
      have := h.settle (q := dbl (t - m)) (B := A) (e := e + 92 * (eps τ * (t + 1 / τ))) (c := c - t) (s := 10 * ulp * (dbl (t - m) + A / w)) hq0 hA (by linarith)
        (by
          rw [sub_self, zero_div, show (0 : ℝ) - dbl (t - m) - (c - t) = -(dbl (t - m) - (t - m)) + (m - c') + (c' - c) by ring]
          refine (abs_add_three _ _ _).trans ?_
          rw [abs_neg]
          linarith)
        (by rw [sub_self, zero_div]; positivity) le_rfl rfl
      have hres : ageState E A g w (some (true, a)) t = (let y : Bool × ℝ := if A < dbl (dbl (t - m) * w) then (false, 0) else (false, dbl (A - dbl (dbl (t - m) * w)))
          if y.2 ≤ 0 ∧ y.1 = false then none else some y) := by
        simp only [ageState, Option.bind_some, ExpLog.ageArea, if_true, ← hm, if_neg (not_or.mpr ⟨htau, hlt⟩ : ¬ (E.log (dbl (g + 1)) = 0 ∨ t < m))]
      rw [hres]
      have hfin : e + 92 * (eps τ * (t + 1 / τ)) + 10 * ulp * (dbl (t - m) + A / w) ≤ e + stepErr A w τ t := by
        have : ulp * dbl (t - m) ≤ ulp * (3 * (t + 1 / τ)) := by
          gcongr
          linarith
        linarith
      exact shows_mono hfin this

/-! ## Collections -/

theorem ageFloat_fin {s : StarSpot} {a : ℝ} (h : s.area = .fin a) (t : ℝ) : s.ageFloat E t =
    { s with isGrowing := (E.ageArea s.areaMax s.growthRate s.decayRate s.isGrowing a t).1, area := .fin (E.ageArea s.areaMax s.growthRate s.decayRate s.isGrowing a t).2 } := by
  unfold StarSpot.ageFloat
  rw [h]

/-- The spots of a collection are aged one by one. -/
theorem foldl_ageFloat (ts : List ℝ) (c : SpotCollection) : ts.foldl (SpotCollection.ageFloat E) c =
    ⟨c.spots.flatMap fun s => (ts.foldl (SpotCollection.ageFloat E) ⟨[s], c.grid⟩).spots, c.grid⟩ := by
  induction ts generalizing c with
  | nil => simp
  | cons t ts ih =>
    rw [List.foldl_cons, ih]
    have hg : (c.ageFloat E t).grid = c.grid := rfl
    rw [hg]
    congr 1
    have hs : (c.ageFloat E t).spots = c.spots.flatMap fun s => (SpotCollection.ageFloat E ⟨[s], c.grid⟩ t).spots := by
      simp only [SpotCollection.ageFloat, SpotCollection.clean]
      induction c.spots with
      | nil => rfl
      | cons s l ih =>
        rw [List.map_cons, List.filter_cons, List.flatMap_cons, ← ih, List.map_cons, List.map_nil, List.filter_cons, List.filter_nil]
        split_ifs <;> rfl
    rw [hs, List.flatMap_assoc]
    congr 1
    funext s
    rw [List.foldl_cons, ih]
    rfl

/-- The spot in a given state. -/
def spotIn (s : StarSpot) : Option (Bool × ℝ) → List StarSpot
  | none => []
  | some (b, a) => [{ s with isGrowing := b, area := .fin a }]

theorem foldl_nil (ts : List ℝ) (g : Grid) : (ts.foldl (SpotCollection.ageFloat E) ⟨[], g⟩).spots = [] := by
  rw [foldl_ageFloat]; rfl

theorem foldl_state (ts : List ℝ) (g : Grid) (s : StarSpot) (a : ℝ) (h : s.area = .fin a) : (ts.foldl (SpotCollection.ageFloat E) ⟨[s], g⟩).spots =
    spotIn s (ts.foldl (ageState E s.areaMax s.growthRate s.decayRate) (some (s.isGrowing, a))) := by
  induction ts generalizing s a with
  | nil =>
    simp only [List.foldl_nil, spotIn]
    rw [← h]
  | cons t ts ih =>
    rw [List.foldl_cons, List.foldl_cons]
    set y := E.ageArea s.areaMax s.growthRate s.decayRate s.isGrowing a t with hy
    have e1 : SpotCollection.ageFloat E ⟨[s], g⟩ t = if y.2 ≤ 0 ∧ y.1 = false then ⟨[], g⟩ else ⟨[{ s with isGrowing := y.1, area := .fin y.2 }], g⟩ := by
      simp only [SpotCollection.ageFloat, SpotCollection.clean, List.map_cons, List.map_nil, ageFloat_fin h, ← hy, List.filter_cons, List.filter_nil, Fl.fin_le]
      by_cases h1 : y.2 ≤ 0 <;> cases h2 : y.1 <;> simp [h1]
    have e2 : ageState E s.areaMax s.growthRate s.decayRate (some (s.isGrowing, a)) t = if y.2 ≤ 0 ∧ y.1 = false then none else some y := rfl
    rw [e1, e2]
    by_cases h1 : y.2 ≤ 0 ∧ y.1 = false
    · rw [if_pos h1, if_pos h1, foldl_nil]
      have : ∀ l : List ℝ, l.foldl (ageState E s.areaMax s.growthRate s.decayRate) none = none := fun l => by
        induction l with
        | nil => rfl
        | cons x l ih => rw [List.foldl_cons]; exact ih
      rw [this]
      rfl
    · rw [if_neg h1, if_neg h1, ih _ y.2 rfl]
      rcases ts.foldl (ageState E s.areaMax s.growthRate s.decayRate) (some y) with _ | ⟨b, a'⟩ <;> rfl

/-! ## C159 -/

/-- How far, in days, the life of a spot computed in `n` steps of total duration `T` can be ahead or behind. -/
def Spec.lag (A g w : ℝ) (n : ℕ) (T : ℝ) : ℝ :=
  200 / 2 ^ 53 * ((1 + 1 / log (1 + g)) * (T + n / log (1 + g)) + n * (A / w))

/-- The area at time `T` of a spot that has area `a0` at time 0 and grows by the factor `1 + g` a day up to `A`, then decays by `w` a day. -/
def Spec.grownArea (A g w a0 T : ℝ) : ℝ :=
  if T ≤ timeToMax A a0 g then a0 * (1 + g) ^ T else A - w * (T - timeToMax A a0 g)

theorem lag_zero (A g w : ℝ) : lag A g w 0 0 = 0 := by simp [lag]

theorem lag_succ (A g w : ℝ) (n : ℕ) (T t : ℝ) : lag A g w (n + 1) (T + t) = lag A g w n T + stepErr A w (log (1 + g)) t := by
  unfold lag stepErr eps ulp
  push_cast
  ring

theorem lag_nonneg {A g w : ℝ} (hA : 0 < A) (hg : 0 < log (1 + g)) (hw : 0 < w) (n : ℕ) {T : ℝ} (hT : 0 ≤ T) : 0 ≤ lag A g w n T := by
  unfold lag; positivity

theorem Clock.run (h : Clock E A g w τ) (ts : List ℝ) (hts : ∀ t ∈ ts, 0 ≤ t) (n : ℕ) (T c : ℝ) (hT : 0 ≤ T) (st : Option (Bool × ℝ))
    (h1 : lag A g w (n + ts.length) (T + ts.sum) ≤ 1 / τ) (h2 : lag A g w (n + ts.length) (T + ts.sum) ≤ A / w)
    (hst : Shows A w τ (lag A g w n T) c st) :
    Shows A w τ (lag A g w (n + ts.length) (T + ts.sum)) (c - ts.sum) (ts.foldl (ageState E A g w) st) := by
  induction ts generalizing n T c st with
  | nil => simpa using hst
  | cons t ts ih =>
    have ht : 0 ≤ t := hts t (by simp)
    have hτ : 0 < log (1 + g) := by rw [← h.tau]; exact h.pos
    have hsum : 0 ≤ ts.sum := List.sum_nonneg fun x hx => hts x (by simp [hx])
    have e1 : n + (t :: ts).length = n + 1 + ts.length := by simp; ring
    have e2 : T + (t :: ts).sum = T + t + ts.sum := by simp; ring
    rw [e1, e2] at h1 h2 ⊢
    have hmono : lag A g w n T ≤ lag A g w (n + 1 + ts.length) (T + t + ts.sum) := by
      have := h.top
      have := h.decay
      unfold lag
      gcongr
      · linarith
      · omega
      · omega
    have := h.step ht (lag_nonneg h.top hτ h.decay n hT) (hmono.trans h1) (hmono.trans h2) hst
    have hs : lag A g w n T + stepErr A w τ t = lag A g w (n + 1) (T + t) := by rw [lag_succ, h.tau]
    rw [hs] at this
    have := ih (fun x hx => hts x (by simp [hx])) (n + 1) (T + t) (c - t) (by linarith) _ h1 h2 this
    rw [List.foldl_cons, List.sum_cons, show c - (t + ts.sum) = c - t - ts.sum by ring]
    exact this

theorem exp_lip {x y : ℝ} (hx : x ≤ 1) (hy : y ≤ 1) : |exp x - exp y| ≤ 3 * |x - y| := by
  have he : exp 1 ≤ 3 := by linarith [exp_one_lt_d9]
  have key : ∀ x y : ℝ, x ≤ 1 → y ≤ x → exp x - exp y ≤ 3 * (x - y) := by
    intro x y hx hyx
    have h1 : 1 - exp (y - x) ≤ x - y := by linarith [add_one_le_exp (y - x)]
    have h2 : exp x - exp y = exp x * (1 - exp (y - x)) := by rw [mul_sub, ← exp_add]; ring_nf
    rw [h2]
    have h3 : exp x ≤ 3 := (exp_le_exp.mpr hx).trans he
    have h4 : 0 ≤ x - y := by linarith
    calc exp x * (1 - exp (y - x)) ≤ exp x * (x - y) := by gcongr
      _ ≤ _ := by gcongr
  rcases le_total y x with h | h
  · rw [abs_of_nonneg (by linarith [exp_le_exp.mpr h]), abs_of_nonneg (by linarith)]
    exact key x y hx h
  · rw [abs_of_nonpos (by linarith [exp_le_exp.mpr h]), abs_of_nonpos (by linarith)]
    linarith [key y x hy h]

/-- **C159** A growing spot, aged in double precision by any sequence of steps: it lives as long as the exact one up to the lag, and until
then its area is the exact one up to the lag times the rates of change. -/
theorem C159_life (E : ExpLog) (hE : AccurateExp E) (s : StarSpot) (a0 : ℝ) (g : Grid) (h : Phys s a0) (hg : s.isGrowing = true)
    (hslow : 1 / 10 ^ 6 ≤ log (1 + s.growthRate)) (hw : 0 < s.decayRate) (ts : List ℝ) (hts : ∀ t ∈ ts, 0 ≤ t) (e : ℝ)
    (he : e = lag s.areaMax s.growthRate s.decayRate ts.length ts.sum) (h1 : e ≤ 1 / log (1 + s.growthRate)) (h2 : e ≤ s.areaMax / s.decayRate) :
    let left := (ts.foldl (SpotCollection.ageFloat E) ⟨[s], g⟩).spots
    let life := timeToMax s.areaMax a0 s.growthRate + s.areaMax / s.decayRate
    (left = [] ∧ life - 2 * e ≤ ts.sum) ∨
    ∃ b a, left = [{ s with isGrowing := b, area := .fin a }] ∧ 0 < a ∧ ts.sum ≤ life + e ∧
      |a - grownArea s.areaMax s.growthRate s.decayRate a0 ts.sum| ≤ (3 * log (1 + s.growthRate) * s.areaMax + 2 * s.decayRate) * e ∧
      (b = true → ts.sum ≤ timeToMax s.areaMax a0 s.growthRate + 2 * e) ∧ (b = false → timeToMax s.areaMax a0 s.growthRate - 2 * e ≤ ts.sum) := by
  intro left life
  set A := s.areaMax with hA
  set w := s.decayRate with hwd
  set τ := log (1 + s.growthRate) with hτ
  have hτ0 : 0 < τ := lt_of_lt_of_le (by norm_num) hslow
  have hg0 : 0 < s.growthRate := by
    by_contra hh
    have : τ ≤ 0 := log_nonpos (by linarith [h.growth]) (by linarith)
    linarith
  have hA0 : 0 < A := h.pos.trans_le h.le
  have hclock : Clock E A s.growthRate w τ := ⟨hE, hA0, hg0, hw, rfl, hslow⟩
  set u := timeToMax A a0 s.growthRate with hu
  have hu' : τ * u = log (A / a0) := by rw [hu, timeToMax, ← hτ]; field_simp
  have ha0 : a0 = A * exp (-(τ * u)) := by
    rw [hu', exp_neg, exp_log (div_pos hA0 h.pos)]; field_simp
  have hu0 : 0 ≤ u := by
    rw [hu, timeToMax]
    exact div_nonneg (log_nonneg (by rw [le_div_iff₀ h.pos, one_mul]; exact h.le)) hτ0.le
  have hrun := hclock.run ts hts 0 0 u le_rfl (some (true, a0)) (by simpa [← he] using h1) (by simpa [← he] using h2)
    (by rw [lag_zero]; exact ⟨u, ha0, by simp, by simpa using hu0⟩)
  simp only [zero_add] at hrun
  rw [← he] at hrun
  have hleft : left = spotIn s (ts.foldl (ageState E A s.growthRate w) (some (true, a0))) := by
    have := foldl_state (E := E) ts g s a0 h.area
    rw [hg] at this
    exact this
  have he0 : 0 ≤ e := by rw [he]; exact lag_nonneg hA0 hτ0 hw _ (List.sum_nonneg hts)
  have hAw : 0 < A / w := by positivity
  set T := ts.sum with hT
  have hpow : a0 * (1 + s.growthRate) ^ T = A * exp (-(τ * (u - T))) := by
    rw [rpow_def_of_pos (by linarith), ← hτ, ha0, mul_assoc, ← exp_add]
    ring_nf
  have hlife : grownArea A s.growthRate w a0 T = if 0 ≤ u - T then A * exp (-(τ * (u - T))) else A + w * (u - T) := by
    unfold grownArea
    rw [← hu, hpow]
    by_cases hh : T ≤ u
    · rw [if_pos hh, if_pos (by linarith)]
    · rw [if_neg hh, if_neg (by linarith)]; ring
  rw [hlife]
  have hτe : τ * e ≤ 1 := by
    calc τ * e ≤ τ * (1 / τ) := by gcongr
      _ = 1 := by field_simp
  have hτA : 0 < τ * A := by positivity
  generalize ts.foldl (ageState E A s.growthRate w) (some (true, a0)) = st at hrun hleft
  match st, hrun with
  | none, hrun =>
    left
    refine ⟨hleft, ?_⟩
    have : u - T ≤ -(A / w) + 2 * e := hrun
    show u + A / w - 2 * e ≤ T
    linarith
  | some (true, a), ⟨c', k1, k2, k3⟩ =>
    right
    have k2' := abs_le.mp k2
    have hpos : 0 < a := by rw [k1]; positivity
    refine ⟨true, a, hleft, hpos, ?_, ?_, fun _ => by linarith, fun hh => absurd hh (by simp)⟩
    · show T ≤ u + A / w + e
      linarith
    · have hc1 : -(τ * c') ≤ 1 := by nlinarith
      by_cases hpos : 0 ≤ u - T
      · rw [if_pos hpos, k1, ← mul_sub, abs_mul, abs_of_pos hA0]
        have := exp_lip hc1 (y := -(τ * (u - T))) (by nlinarith)
        have e1 : |-(τ * c') - -(τ * (u - T))| = τ * |c' - (u - T)| := by
          rw [show -(τ * c') - -(τ * (u - T)) = -(τ * (c' - (u - T))) by ring, abs_neg, abs_mul, abs_of_pos hτ0]
        rw [e1] at this
        calc _ ≤ A * (3 * (τ * |c' - (u - T)|)) := by gcongr
          _ ≤ A * (3 * (τ * e)) := by gcongr
          _ = 3 * τ * A * e := by ring
          _ ≤ _ := by gcongr; linarith
      · rw [if_neg hpos, k1]
        have hpos := not_le.mp hpos
        have := exp_lip hc1 (y := 0) (by norm_num)
        rw [exp_zero, sub_zero, abs_neg, abs_mul, abs_of_pos hτ0] at this
        have hc : |c'| ≤ e := abs_le.mpr ⟨k3, by linarith⟩
        calc |A * exp (-(τ * c')) - (A + w * (u - T))| = |A * (exp (-(τ * c')) - 1) - w * (u - T)| := by ring_nf
          _ ≤ |A * (exp (-(τ * c')) - 1)| + |w * (u - T)| := abs_sub _ _
          _ = A * |exp (-(τ * c')) - 1| + w * |u - T| := by rw [abs_mul, abs_mul, abs_of_pos hA0, abs_of_pos hw]
          _ ≤ A * (3 * (τ * e)) + w * (2 * e) := by
              gcongr
              · exact this.trans (by gcongr)
              · rw [abs_of_neg hpos]; linarith
          _ = _ := by ring
  | some (false, a), ⟨k0, k1, k2⟩ =>
    right
    have k1' := abs_le.mp k1
    set c' := (a - A) / w with hc'
    have ha : a = A + w * c' := by rw [hc']; field_simp; ring
    have hc0 : -(A / w) < c' := by
      rw [hc', sub_div]
      have : 0 < a / w := by positivity
      linarith
    refine ⟨false, a, hleft, k0, ?_, ?_, fun hh => absurd hh (by simp), fun _ => by linarith⟩
    · show T ≤ u + A / w + e
      linarith
    · by_cases hpos : 0 ≤ u - T
      · rw [if_pos hpos, ha]
        have := exp_lip (x := 0) (y := -(τ * (u - T))) (by norm_num) (by nlinarith)
        rw [exp_zero, zero_sub, neg_neg, abs_of_nonneg (by positivity : 0 ≤ τ * (u - T))] at this
        have h3 : 1 - exp (-(τ * (u - T))) ≤ τ * (u - T) := by linarith [add_one_le_exp (-(τ * (u - T)))]
        have h4 : 0 ≤ 1 - exp (-(τ * (u - T))) := by
          have := exp_le_one_iff.mpr (show -(τ * (u - T)) ≤ 0 by linarith [mul_nonneg hτ0.le hpos])
          linarith
        have hc : |c'| ≤ e := abs_le.mpr ⟨by linarith, k2⟩
        calc |A + w * c' - A * exp (-(τ * (u - T)))| = |A * (1 - exp (-(τ * (u - T)))) + w * c'| := by ring_nf
          _ ≤ |A * (1 - exp (-(τ * (u - T))))| + |w * c'| := abs_add_le _ _
          _ = A * (1 - exp (-(τ * (u - T)))) + w * |c'| := by rw [abs_mul, abs_mul, abs_of_pos hA0, abs_of_pos hw, abs_of_nonneg h4]
          _ ≤ A * (τ * (2 * e)) + w * e := by
              gcongr
              refine h3.trans ?_
              gcongr
              linarith
          _ ≤ _ := by nlinarith [mul_nonneg hτA.le he0, mul_nonneg hw.le he0]
      · rw [if_neg hpos, ha]
        calc |A + w * c' - (A + w * (u - T))| = w * |c' - (u - T)| := by
              rw [show A + w * c' - (A + w * (u - T)) = w * (c' - (u - T)) by ring, abs_mul, abs_of_pos hw]
          _ ≤ w * e := by gcongr
          _ ≤ _ := by nlinarith [mul_nonneg hτA.le he0, mul_nonneg hw.le he0]

/-- The exact collection. -/
theorem exact_area (s : StarSpot) (a0 : ℝ) (g : Grid) (h : Phys s a0) (hg : s.isGrowing = true) (h0 : 0 < s.growthRate)
    (ts : List ℝ) (hts : ∀ t ∈ ts, 0 ≤ t) : ∀ x ∈ (ts.foldl SpotCollection.age ⟨[s], g⟩).spots,
      x.area = .fin (grownArea s.areaMax s.growthRate s.decayRate a0 ts.sum) := by
  have hT : 0 ≤ ts.sum := List.sum_nonneg hts
  have hL : 0 < log (1 + s.growthRate) := log_pos (by linarith)
  have hu0 : 0 ≤ timeToMax s.areaMax a0 s.growthRate := timeToMax_nonneg h
  have hpow : ∀ T : ℝ, a0 * (1 + s.growthRate) ^ T = a0 * exp (log (1 + s.growthRate) * T) := fun T => by rw [rpow_def_of_pos (by linarith)]
  by_cases hnil : ts = []
  · subst hnil
    intro x hx
    have hx' : x = s := by simpa using hx
    rw [hx', h.area, grownArea, List.sum_nil, if_pos hu0, rpow_zero, mul_one]
  · have e := C21_age_schedule ⟨[s], g⟩ (by intro s' hs'; simp at hs'; exact ⟨a0, hs' ▸ h.live⟩) ts [ts.sum] hnil (by simp) hts
      (by simpa using hT) (by simp)
    rw [e]
    simp only [List.foldl_cons, List.foldl_nil]
    rw [collection_age]
    simp only [List.filterMap_cons, List.filterMap_nil]
    rw [ageOpt_grow h.live hg h0]
    unfold grownArea
    intro x hx
    split_ifs at hx with k1 k2
    · rw [if_pos k1.le, hpow]
      rw [List.mem_singleton.mp hx]
    · rw [List.mem_singleton.mp hx]
      rcases (not_lt.mp k1).eq_or_lt with k3 | k3
      · rw [if_pos (by linarith), hpow, ← k3]
        simp only [sub_self, zero_mul, sub_zero]
        rw [show log (1 + s.growthRate) * timeToMax s.areaMax a0 s.growthRate = log (s.areaMax / a0) by rw [timeToMax]; field_simp,
          exp_log (div_pos (h.pos.trans_le h.le) h.pos), mul_div_cancel₀ _ h.pos.ne']
      · rw [if_neg (by linarith), mul_comm]
    · simp at hx

/-- **C159** The computed spot and the exact one: if the time is not within the lag of the end of the life, both exist or both are gone, and
their areas differ by at most the lag times the rates of change. -/
theorem C159_exact (E : ExpLog) (hE : AccurateExp E) (s : StarSpot) (a0 : ℝ) (g : Grid) (h : Phys s a0) (hg : s.isGrowing = true)
    (hslow : 1 / 10 ^ 6 ≤ log (1 + s.growthRate)) (hw : 0 < s.decayRate) (ts : List ℝ) (hts : ∀ t ∈ ts, 0 ≤ t) (e : ℝ)
    (he : e = lag s.areaMax s.growthRate s.decayRate ts.length ts.sum) (h1 : e ≤ 1 / log (1 + s.growthRate)) (h2 : e ≤ s.areaMax / s.decayRate) :
    let left := (ts.foldl (SpotCollection.ageFloat E) ⟨[s], g⟩).spots
    let left' := (ts.foldl SpotCollection.age ⟨[s], g⟩).spots
    (2 * e < |ts.sum - (timeToMax s.areaMax a0 s.growthRate + s.areaMax / s.decayRate)| → (left = [] ↔ left' = [])) ∧
    ∀ x ∈ left, ∀ y ∈ left', ∃ a b, x.area = .fin a ∧ y.area = .fin b ∧ |a - b| ≤ (3 * log (1 + s.growthRate) * s.areaMax + 2 * s.decayRate) * e := by
  intro left left'
  have hτ0 : 0 < log (1 + s.growthRate) := lt_of_lt_of_le (by norm_num) hslow
  have hg0 : 0 < s.growthRate := by
    by_contra hh
    have : log (1 + s.growthRate) ≤ 0 := log_nonpos (by linarith [h.growth]) (by linarith)
    linarith
  have he0 : 0 ≤ e := by rw [he]; exact lag_nonneg (h.pos.trans_le h.le) hτ0 hw _ (List.sum_nonneg hts)
  have hlife := C159_life E hE s a0 g h hg hslow hw ts hts e he h1 h2
  have hexact := exact_area s a0 g h hg hg0 ts hts
  have hsurv := C23_lifetime s a0 g h hg hg0 hw ts hts
  refine ⟨fun hfar => ?_, fun x hx y hy => ?_⟩
  · change left' ≠ [] ↔ ts.sum < timeToMax s.areaMax a0 s.growthRate + s.areaMax / s.decayRate at hsurv
    rcases hlife with ⟨k1, k2⟩ | ⟨b, a, k1, -, k2, -⟩
    · refine iff_of_true k1 ?_
      by_contra hh
      have := hsurv.mp hh
      rw [abs_of_neg (by linarith)] at hfar
      linarith
    · refine iff_of_false (by change left ≠ []; rw [show left = _ from k1]; simp) ?_
      rw [← ne_eq, hsurv]
      by_contra hh
      rw [abs_of_nonneg (by linarith)] at hfar
      linarith
  · rcases hlife with ⟨k1, -⟩ | ⟨b, a, k1, -, -, k2, -⟩
    · rw [show left = [] from k1] at hx
      simp at hx
    · rw [show left = _ from k1] at hx
      exact ⟨a, _, by rw [List.mem_singleton.mp hx], hexact y hy, k2⟩

/-- **C159** Any collection: the spots are aged one by one. -/
theorem C159_each (E : ExpLog) (c : SpotCollection) (ts : List ℝ) : (ts.foldl (SpotCollection.ageFloat E) c).grid = c.grid ∧
    (ts.foldl (SpotCollection.ageFloat E) c).spots = c.spots.flatMap fun s => (ts.foldl (SpotCollection.ageFloat E) ⟨[s], c.grid⟩).spots := by
  rw [foldl_ageFloat ts c]
  exact ⟨rfl, rfl⟩

/-- Non-trivial instance of C159: a spot of 10 MSH that grows by 52 percent a day up to 2000 MSH and then loses 20 MSH a day, aged fifty times by
half a day.  It still exists, and its area is accurate to `10^-4` MSH. -/
example (g : Grid) : let s := StarSpot.new 0 0 2000 (.fin 10) 2500 2700 (.fin 5) true 0.52 20 g
    ∃ b a, ((List.replicate 50 (1 / 2 : ℝ)).foldl (SpotCollection.ageFloat ExpLog.rounded) ⟨[s], g⟩).spots = [{ s with isGrowing := b, area := .fin a }] ∧
      |a - grownArea 2000 0.52 20 10 25| ≤ 1 / 10 ^ 4 := by
  intro s
  have hl1 : 1 / 3 ≤ log (1 + 0.52) := by
    have := one_sub_inv_le_log_of_pos (show (0 : ℝ) < 1 + 0.52 by norm_num)
    norm_num at this ⊢
    linarith
  have hl2 : log (1 + 0.52) ≤ 0.52 := by linarith [log_le_sub_one_of_pos (show (0 : ℝ) < 1 + 0.52 by norm_num)]
  have hinv : 1 / log (1 + 0.52) ≤ 3 := by
    rw [div_le_iff₀ (by linarith)]; linarith
  have hinv0 : 1 ≤ 1 / log (1 + 0.52) := by
    rw [le_div_iff₀ (by linarith)]; linarith
  have hlag : lag 2000 0.52 20 50 25 ≤ 1 / 10 ^ 8 := by
    unfold lag
    have e : ((50 : ℕ) : ℝ) / log (1 + 0.52) = 50 * (1 / log (1 + 0.52)) := by push_cast; ring
    rw [e]
    generalize 1 / log (1 + 0.52) = q at hinv hinv0
    norm_num
    nlinarith
  have hsum : (List.replicate 50 (1 / 2 : ℝ)).sum = 25 := by rw [List.sum_replicate]; norm_num
  have hph : Phys s 10 := ⟨rfl, by norm_num, by norm_num [s, StarSpot.new], by norm_num [s, StarSpot.new], by norm_num [s, StarSpot.new]⟩
  have e1 : s.areaMax = 2000 := rfl
  have e2 : s.growthRate = 0.52 := rfl
  have e3 : s.decayRate = 20 := rfl
  have key := C159_life ExpLog.rounded rounded_accurateExp s 10 g hph rfl (by rw [e2]; linarith) (by rw [e3]; norm_num)
    (List.replicate 50 (1 / 2 : ℝ)) (fun t ht => by rw [(List.mem_replicate.mp ht).2]; norm_num) (lag 2000 0.52 20 50 25)
    (by rw [hsum, List.length_replicate]; rfl) (by rw [e2]; linarith) (by rw [e1, e3]; norm_num at hlag ⊢; linarith)
  rw [hsum, e1, e2, e3] at key
  have hu0 := timeToMax_nonneg hph
  rw [e1, e2] at hu0
  rcases key with ⟨-, k⟩ | ⟨b, a, k1, -, -, k2, -⟩
  · exfalso; norm_num at k hlag; linarith
  · refine ⟨b, a, k1, k2.trans ?_⟩
    have h0 : 0 ≤ lag 2000 0.52 20 50 25 := lag_nonneg (by norm_num) (by linarith) (by norm_num) _ (by norm_num)
    have : 3 * log (1 + 0.52) * 2000 + 2 * 20 ≤ 4000 := by linarith
    calc (3 * log (1 + 0.52) * 2000 + 2 * 20) * lag 2000 0.52 20 50 25 ≤ 4000 * (1 / 10 ^ 8) := by gcongr
      _ ≤ 1 / 10 ^ 4 := by norm_num

end Vsm
