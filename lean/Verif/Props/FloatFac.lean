import Verif.Props.FloatAge
import Verif.Props.FaculaAge

/-!
# C160: aging of faculae in double precision

As for spots: the clock of a facula is the time that is left until its maximum, negative after that.
-/

noncomputable section

namespace Vsm

open Real Spec

variable {E : ExpLog} {R l : ℝ}

/-- Multiplying by a computed exponential. -/
theorem exp_step (hE : AccurateExp E) (hl : 0 < l) {r x : ℝ} (hr : 0 < r) :
    ∃ d, dbl (r * E.exp (dbl (2 * x / l))) = r * exp (2 * d / l) ∧ |d - x| ≤ 10 * ulp * (|x| + l) := by
  have hu := ulp_pos
  have hs := ulp_small
  set y := dbl (2 * x / l) with hy
  have hy1 : |y - 2 * x / l| ≤ 2 * |x| / l * ulp := by
    have := dbl_err (2 * x / l)
    rwa [abs_div, abs_mul, abs_of_pos hl, abs_two] at this
  have hx := hE.1 y
  rw [two_ulp] at hx
  obtain ⟨hx0, hx1⟩ := log_close (exp_pos y) (k := 2 * ulp) (by rw [mul_comm]; exact hx) (by linarith)
  rw [log_exp] at hx1
  set z := E.exp y with hz
  have hb0 : 0 < r * z := by positivity
  have hb := dbl_err (r * z)
  rw [abs_of_pos hb0, mul_comm _ ulp] at hb
  obtain ⟨hd0, hd1⟩ := log_close hb0 hb (by linarith)
  rw [log_mul hr.ne' hx0.ne'] at hd1
  set w := dbl (r * z) with hw
  refine ⟨(log w - log r) * l / 2, ?_, ?_⟩
  · rw [show 2 * ((log w - log r) * l / 2) / l = log w - log r by field_simp, exp_sub, exp_log hd0, exp_log hr, mul_div_cancel₀ _ hr.ne']
  · have e : (log w - log r) * l / 2 - x = ((log w - (log r + log z)) + (log z - y) + (y - 2 * x / l)) * (l / 2) := by field_simp; ring
    rw [e, abs_mul, abs_of_pos (by positivity : 0 < l / 2)]
    calc _ ≤ (|log w - (log r + log z)| + |log z - y| + |y - 2 * x / l|) * (l / 2) := by gcongr; exact abs_add_three _ _ _
      _ ≤ (2 * ulp + 2 * (2 * ulp) + 2 * |x| / l * ulp) * (l / 2) := by gcongr
      _ = 3 * ulp * l + |x| * ulp := by field_simp; ring
      _ ≤ _ := by
          have : 0 ≤ ulp * |x| := by positivity
          nlinarith

/-- The computed time to the maximum. -/
theorem peak_near (hE : AccurateExp E) (hl : 0 < l) (hR : 0 < R) {r c : ℝ} (hr : r = R * exp (2 * -c / l)) :
    |dbl (-1 * E.log (dbl (r / R)) * l) * 0.5 - c| ≤ 10 * ulp * (|c| + l) := by
  have hu := ulp_pos
  have hs := ulp_small
  have hq : r / R = exp (-(2 * c / l)) := by rw [hr, mul_div_cancel_left₀ _ hR.ne']; ring_nf
  have h1 := dbl_err (r / R)
  rw [hq, abs_of_pos (exp_pos _), mul_comm _ ulp] at h1
  obtain ⟨h2, h3⟩ := log_close (exp_pos _) h1 (by linarith)
  rw [log_exp] at h3
  rw [hq]
  set y := dbl (exp (-(2 * c / l))) with hy
  have h4 := hE.2 y h2
  rw [two_ulp] at h4
  have hc0 : 0 ≤ |c| / l := by positivity
  have hab : |-(2 * c / l)| = 2 * (|c| / l) := by rw [abs_neg, abs_div, abs_mul, abs_two, abs_of_pos hl]; ring
  have h5 : |log y| ≤ 2 * (|c| / l) + 2 * ulp := by
    have := abs_add_le (log y - -(2 * c / l)) (-(2 * c / l))
    rw [sub_add_cancel, hab] at this
    linarith
  have h6 : |E.log y + 2 * c / l| ≤ 3 * ulp * (2 * (|c| / l) + 1) := by
    have e : E.log y + 2 * c / l = (E.log y - log y) + (log y - -(2 * c / l)) := by ring
    rw [e]
    calc _ ≤ |E.log y - log y| + |log y - -(2 * c / l)| := abs_add_le _ _
      _ ≤ (2 * (|c| / l) + 2 * ulp) * (2 * ulp) + 2 * ulp := add_le_add (h4.trans (by gcongr)) h3
      _ ≤ _ := by nlinarith
  have h7 : |-1 * E.log y * l - 2 * c| ≤ 6 * ulp * (|c| + l) := by
    have e : -1 * E.log y * l - 2 * c = -(E.log y + 2 * c / l) * l := by field_simp; ring
    rw [e, abs_mul, abs_neg, abs_of_pos hl]
    calc _ ≤ 3 * ulp * (2 * (|c| / l) + 1) * l := by gcongr
      _ = 6 * ulp * |c| + 3 * ulp * l := by field_simp; ring
      _ ≤ _ := by nlinarith
  have h8 := dbl_err (-1 * E.log y * l)
  have h9 : |-1 * E.log y * l| ≤ 3 * (|c| + l) := by
    have := abs_add_le (-1 * E.log y * l - 2 * c) (2 * c)
    rw [sub_add_cancel, abs_mul 2 c, abs_two] at this
    have : 0 ≤ |c| + l := by positivity
    nlinarith [abs_nonneg c]
  have e : dbl (-1 * E.log y * l) * 0.5 - c = ((dbl (-1 * E.log y * l) - -1 * E.log y * l) + (-1 * E.log y * l - 2 * c)) * 0.5 := by ring
  rw [e, abs_mul, abs_of_pos (by norm_num : (0 : ℝ) < 0.5)]
  have h10 := abs_add_le (dbl (-1 * E.log y * l) - -1 * E.log y * l) (-1 * E.log y * l - 2 * c)
  have h11 : |-1 * E.log y * l| * ulp ≤ 3 * (|c| + l) * ulp := by gcongr
  have : 0 ≤ ulp * (|c| + l) := by positivity
  nlinarith

theorem faint_near (hR : 0 < R) : |faintRadius R - R * exp (-2)| ≤ 10 * ulp * (R * exp (-2)) := by
  have h0 : Rel 2 (dbl (exp 1)) (exp 1) := by simpa using (Rel.refl (exp 1)).dbl (by norm_num)
  have h1 : Rel 7 (dbl (dbl (exp 1) ^ 2)) (exp 2) := by
    have := (h0.mul h0 (by norm_num) (by norm_num)).dbl (by norm_num)
    rw [← pow_two, ← pow_two, ← exp_nat_mul] at this
    norm_num at this
    exact this
  have h2 := ((Rel.refl R).div h1 (by norm_num) (by norm_num) (by norm_num) (by norm_num) (exp_pos _).ne').dbl (by norm_num)
  unfold Rel at h2
  have e : R / exp 2 = R * exp (-2) := by rw [exp_neg]; rfl
  have hp : 0 < R * exp (-2) := by positivity
  rw [e, abs_of_pos hp] at h2
  unfold faintRadius
  refine h2.trans (le_of_eq ?_)
  norm_num

/-- A bound on the error of one step. -/
def fadeErr (l t : ℝ) : ℝ := 200 * ulp * (t + l)

/-- The state of a facula after the exact clock shows `c`. -/
def Displays (R l e c : ℝ) : Option (Bool × ℝ) → Prop
  | some (true, r) => ∃ c', r = R * exp (2 * -c' / l) ∧ |c' - c| ≤ e ∧ -e ≤ c'
  | some (false, r) => ∃ c', r = R * exp (2 * c' / l) ∧ |c' - c| ≤ e ∧ c' ≤ e ∧ -l - e ≤ c'
  | none => c ≤ -l + 2 * e

theorem displays_mono {e e' c : ℝ} (h : e ≤ e') {st : Option (Bool × ℝ)} (hst : Displays R l e c st) : Displays R l e' c st := by
  match st, hst with
  | none, hst => exact le_trans hst (by linarith)
  | some (false, a), hst =>
    obtain ⟨c', h1, h2, h3, h4⟩ := hst
    exact ⟨c', h1, h2.trans h, h3.trans h, by linarith⟩
  | some (true, a), hst =>
    obtain ⟨c', h1, h2, h3⟩ := hst
    exact ⟨c', h1, h2.trans h, by linarith⟩

open Classical in
/-- One step of aging and cleaning. -/
def fadeState (E : ExpLog) (R l : ℝ) (st : Option (Bool × ℝ)) (t : ℝ) : Option (Bool × ℝ) :=
  st.bind fun x => let y := E.ageRadius R l x.1 x.2 t; if y.2 ≤ faintRadius R ∧ y.1 = false then none else some y

/-- A facula past its maximum is kept or removed. -/
theorem fade_settle (hl : 0 < l) (hR : 0 < R) {c c' e r : ℝ} (hr : r = R * exp (2 * c' / l)) (hc : |c' - c| ≤ e) (hce : c' ≤ e) (he : 20 * ulp * l ≤ e) :
    Displays R l e c (if r ≤ faintRadius R ∧ false = false then none else some (false, r)) := by
  have hu := ulp_pos
  have hs := ulp_small
  have hc2 := abs_le.mp hc
  have hf := faint_near hR
  have hp : 0 < R * exp (-2) := by positivity
  obtain ⟨f0, f1⟩ := log_close hp hf (by linarith)
  have f1' := abs_le.mp f1
  have e1 : log (R * exp (-2)) = log R - 2 := by rw [log_mul hR.ne' (exp_pos _).ne', log_exp]; ring
  have e2 : log r = log R + 2 * c' / l := by rw [hr, log_mul hR.ne' (exp_pos _).ne', log_exp]
  have hr0 : 0 < r := by rw [hr]; positivity
  simp only [and_true]
  by_cases h : r ≤ faintRadius R
  · rw [if_pos h]
    have h1 : log r ≤ log (faintRadius R) := log_le_log hr0 h
    rw [e2] at h1
    have h2 : 2 * c' / l ≤ -2 + 20 * ulp := by linarith
    rw [div_le_iff₀ hl] at h2
    show c ≤ -l + 2 * e
    nlinarith
  · rw [if_neg h]
    refine ⟨c', hr, hc, hce, ?_⟩
    have h1 : log (faintRadius R) < log r := log_lt_log f0 (not_le.mp h)
    rw [e2] at h1
    have h2 : -2 - 20 * ulp ≤ 2 * c' / l := by linarith
    rw [le_div_iff₀ hl] at h2
    nlinarith

/-- One computed step. -/
theorem fade_step (hE : AccurateExp E) (hl : 0 < l) (hR : 0 < R) {e c t : ℝ} (ht : 0 ≤ t) (he0 : 0 ≤ e) (h1 : e ≤ l) {st : Option (Bool × ℝ)}
    (hst : Displays R l e c st) : Displays R l (e + fadeErr l t) (c - t) (fadeState E R l st t) := by
  have hu := ulp_pos
  have hs := ulp_small
  have hk : 0 ≤ ulp * (t + l) := by positivity
  have hk1 : ulp * (t + l) ≤ 1 / 10 ^ 15 * (t + l) := by gcongr
  have hk2 : 0 ≤ ulp * t := by positivity
  have hk3 : 0 ≤ ulp * l := by positivity
  have hfe : fadeErr l t = 200 * (ulp * t) + 200 * (ulp * l) := by unfold fadeErr; ring
  match st, hst with
  | none, hst =>
    simp only [fadeState, Option.bind_none, Displays] at hst ⊢
    linarith
  | some (false, r), hst =>
    obtain ⟨c', hr, hc, hce, -⟩ := hst
    have hr0 : 0 < r := by rw [hr]; positivity
    obtain ⟨d, e1, e2⟩ := exp_step hE hl (x := -t) hr0
    rw [abs_neg, abs_of_nonneg ht] at e2
    have e2' := abs_le.mp e2
    have hc2 := abs_le.mp hc
    have hres : fadeState E R l (some (false, r)) t = (if r * exp (2 * d / l) ≤ faintRadius R ∧ false = false then none else some (false, r * exp (2 * d / l))) := by
      simp only [fadeState, Option.bind_some, ExpLog.ageRadius, Bool.false_eq_true, if_false]
      rw [show -2 * t / l = 2 * -t / l by ring, e1]
    rw [hres]
    refine fade_settle hl hR (c' := c' + d) ?_ ?_ ?_ ?_
    · rw [hr, mul_assoc, ← exp_add]; congr 2; ring
    · rw [show c' + d - (c - t) = (c' - c) + (d - -t) by ring]
      refine (abs_add_le _ _).trans ?_
      linarith
    · linarith
    · linarith
  | some (true, r), hst =>
    obtain ⟨c', hr, hc, hce⟩ := hst
    have hr0 : 0 < r := by rw [hr]; positivity
    have hm := peak_near hE hl hR hr
    set m := dbl (-1 * E.log (dbl (r / R)) * l) * 0.5 with hmd
    have hc2 := abs_le.mp hc
    have hm' := abs_le.mp hm
    by_cases hlt : m ≤ t
    · have hcb : |c'| ≤ 2 * (t + l) := by
        refine abs_le.mpr ⟨by linarith, ?_⟩
        by_contra hh
        have hc0 : 0 < c' := by linarith
        rw [abs_of_pos hc0] at hm'
        have hx : ulp * (c' + l) ≤ 1 / 10 ^ 15 * (c' + l) := by gcongr
        linarith
      have herr : 10 * ulp * (|c'| + l) ≤ 30 * (ulp * (t + l)) := by
        calc _ ≤ 10 * ulp * (2 * (t + l) + l) := by gcongr
          _ ≤ _ := by nlinarith
      have hq0 : 0 ≤ dbl (t - m) := dbl_nonneg (by linarith)
      have hq1 := dbl_err (t - m)
      rw [abs_of_nonneg (by linarith : 0 ≤ t - m)] at hq1
      have hml : t - m ≤ 2 * (t + l) := by linarith
      have hq2 : |dbl (t - m) - (t - m)| ≤ 2 * (ulp * (t + l)) := by
        calc _ ≤ (2 * (t + l)) * ulp := hq1.trans (by gcongr)
          _ = _ := by ring
      have hq2' := abs_le.mp hq2
      obtain ⟨d, e1, e2⟩ := exp_step hE hl (x := -dbl (t - m)) hR
      rw [abs_neg, abs_of_nonneg hq0] at e2
      have hd : 10 * ulp * (dbl (t - m) + l) ≤ 40 * (ulp * (t + l)) := by
        calc _ ≤ 10 * ulp * (3 * (t + l) + l) := by gcongr; linarith
          _ ≤ _ := by nlinarith
      have e2' := abs_le.mp (e2.trans hd)
      have hres : fadeState E R l (some (true, r)) t = (if R * exp (2 * d / l) ≤ faintRadius R ∧ false = false then none else some (false, R * exp (2 * d / l))) := by
        simp only [fadeState, Option.bind_some, ExpLog.ageRadius, if_true, ← hmd, if_pos hlt]
        rw [show -2 * dbl (t - m) / l = 2 * -dbl (t - m) / l by ring, e1]
      rw [hres]
      refine fade_settle hl hR (c' := d) rfl (abs_le.mpr ⟨?_, ?_⟩) ?_ ?_
      all_goals linarith
    · have hlt := not_le.mp hlt
      obtain ⟨d, e1, e2⟩ := exp_step hE hl (x := t) hr0
      rw [abs_of_nonneg ht] at e2
      have e2' := abs_le.mp e2
      have hres : fadeState E R l (some (true, r)) t = some (true, r * exp (2 * d / l)) := by
        simp only [fadeState, Option.bind_some, ExpLog.ageRadius, if_true, ← hmd, if_neg (not_le.mpr hlt)]
        rw [if_neg (by simp), e1]
      rw [hres]
      refine ⟨c' - d, ?_, ?_, ?_⟩
      · rw [hr, mul_assoc, ← exp_add]; congr 2; ring
      · rw [show c' - d - (c - t) = (c' - c) - (d - t) by ring]
        refine (abs_sub _ _).trans ?_
        linarith
      · by_cases hbig : 2 * (t + l) < c'
        · linarith
        · have hcb : |c'| ≤ 2 * (t + l) := abs_le.mpr ⟨by linarith, by linarith⟩
          have : 10 * ulp * (|c'| + l) ≤ 30 * (ulp * (t + l)) := by
            calc _ ≤ 10 * ulp * (2 * (t + l) + l) := by gcongr
              _ ≤ _ := by nlinarith
          linarith

/-- The accumulated error of `n` steps of total time `T`, in days, for a facula of lifetime `l`. -/
def Spec.slip (l : ℝ) (n : ℕ) (T : ℝ) : ℝ := 200 / 2 ^ 53 * (T + n * l)

theorem slip_nonneg (hl : 0 < l) (n : ℕ) {T : ℝ} (hT : 0 ≤ T) : 0 ≤ slip l n T := by unfold slip; positivity

theorem slip_succ (l : ℝ) (n : ℕ) (T t : ℝ) : slip l n T + fadeErr l t = slip l (n + 1) (T + t) := by
  unfold slip fadeErr ulp; push_cast; ring

theorem fade_run (hE : AccurateExp E) (hl : 0 < l) (hR : 0 < R) (ts : List ℝ) (hts : ∀ t ∈ ts, 0 ≤ t) (n : ℕ) (T c : ℝ) (hT : 0 ≤ T) (st : Option (Bool × ℝ))
    (h1 : slip l (n + ts.length) (T + ts.sum) ≤ l) (hst : Displays R l (slip l n T) c st) :
    Displays R l (slip l (n + ts.length) (T + ts.sum)) (c - ts.sum) (ts.foldl (fadeState E R l) st) := by
  induction ts generalizing n T c st with
  | nil => simpa using hst
  | cons t ts ih =>
    have ht : 0 ≤ t := hts t (by simp)
    have hsum : 0 ≤ ts.sum := List.sum_nonneg fun x hx => hts x (by simp [hx])
    have e1 : n + (t :: ts).length = n + 1 + ts.length := by simp; ring
    have e2 : T + (t :: ts).sum = T + t + ts.sum := by simp; ring
    rw [e1, e2] at h1 ⊢
    have hmono : slip l n T ≤ slip l (n + 1 + ts.length) (T + t + ts.sum) := by
      unfold slip
      gcongr
      · linarith
      · omega
    have := fade_step hE hl hR ht (slip_nonneg hl n hT) (hmono.trans h1) hst
    rw [slip_succ] at this
    have := ih (fun x hx => hts x (by simp [hx])) (n + 1) (T + t) (c - t) (by linarith) _ h1 this
    rw [List.foldl_cons, List.sum_cons, show c - (t + ts.sum) = c - t - ts.sum by ring]
    exact this

theorem foldl_fade (ts : List ℝ) (c : FaculaCollection) : ts.foldl (FaculaCollection.ageFloat E) c =
    ⟨c.faculae.flatMap fun f => (ts.foldl (FaculaCollection.ageFloat E) ⟨[f], c.grid⟩).faculae, c.grid⟩ := by
  induction ts generalizing c with
  | nil => simp
  | cons t ts ih =>
    rw [List.foldl_cons, ih]
    have hg : (c.ageFloat E t).grid = c.grid := rfl
    rw [hg]
    congr 1
    have hs : (c.ageFloat E t).faculae = c.faculae.flatMap fun f => (FaculaCollection.ageFloat E ⟨[f], c.grid⟩ t).faculae := by
      simp only [FaculaCollection.ageFloat]
      induction c.faculae with
      | nil => rfl
      | cons s l ih =>
        rw [List.map_cons, List.filter_cons, List.flatMap_cons, ← ih, List.map_cons, List.map_nil, List.filter_cons, List.filter_nil]
        split_ifs <;> rfl
    rw [hs, List.flatMap_assoc]
    congr 1
    funext s
    rw [List.foldl_cons, ih]
    rfl

/-- The facula in a given state. -/
def faculaIn (f : Facula) : Option (Bool × ℝ) → List Facula
  | none => []
  | some (b, r) => [{ f with isGrowing := b, radius := .fin r }]

theorem fade_nil (ts : List ℝ) (g : Grid) : (ts.foldl (FaculaCollection.ageFloat E) ⟨[], g⟩).faculae = [] := by
  rw [foldl_fade]; rfl

theorem foldl_faculaIn (ts : List ℝ) (g : Grid) (f : Facula) (r : ℝ) (h : f.radius = .fin r) : (ts.foldl (FaculaCollection.ageFloat E) ⟨[f], g⟩).faculae =
    faculaIn f (ts.foldl (fadeState E f.rMax f.lifetime) (some (f.isGrowing, r))) := by
  induction ts generalizing f r with
  | nil =>
    simp only [List.foldl_nil, faculaIn]
    rw [← h]
  | cons t ts ih =>
    rw [List.foldl_cons, List.foldl_cons]
    set y := E.ageRadius f.rMax f.lifetime f.isGrowing r t with hy
    have e0 : f.ageFloat E t = { f with isGrowing := y.1, radius := .fin y.2 } := by rw [Facula.ageFloat, h]
    have e1 : FaculaCollection.ageFloat E ⟨[f], g⟩ t = if y.2 ≤ faintRadius f.rMax ∧ y.1 = false then ⟨[], g⟩ else ⟨[{ f with isGrowing := y.1, radius := .fin y.2 }], g⟩ := by
      simp only [FaculaCollection.ageFloat, List.map_cons, List.map_nil, e0, List.filter_cons, List.filter_nil, Fl.fin_le]
      by_cases h1 : y.2 ≤ faintRadius f.rMax <;> cases h2 : y.1 <;> simp [h1]
    have e2 : fadeState E f.rMax f.lifetime (some (f.isGrowing, r)) t = if y.2 ≤ faintRadius f.rMax ∧ y.1 = false then none else some y := rfl
    rw [e1, e2]
    by_cases h1 : y.2 ≤ faintRadius f.rMax ∧ y.1 = false
    · rw [if_pos h1, if_pos h1, fade_nil]
      have : ∀ l : List ℝ, l.foldl (fadeState E f.rMax f.lifetime) none = none := fun l => by
        induction l with
        | nil => rfl
        | cons x l ih => rw [List.foldl_cons]; exact ih
      rw [this]
      rfl
    · rw [if_neg h1, if_neg h1, ih _ y.2 rfl]
      rcases ts.foldl (fadeState E f.rMax f.lifetime) (some y) with _ | ⟨b, a'⟩ <;> rfl

/-! ## C160 -/

/-- When the facula is largest, counted from now; negative if that is past. -/
def Spec.peakTime (f : Facula) (r : ℝ) : ℝ := if f.isGrowing then timeLeft f.rMax r f.lifetime else -timeLeft f.rMax r f.lifetime

/-- The radius after the time `T` of a facula that is largest at the time `u`. -/
def Spec.radiusAt (R l u T : ℝ) : ℝ := R * exp (-2 * |T - u| / l)

theorem radius_slip {x c e : ℝ} (hl : 0 < l) (hR : 0 < R) (he : 0 ≤ e) (h1 : e ≤ l / 4) (hx : |x - c| ≤ e) (hx2 : -e ≤ x) :
    |R * exp (2 * -x / l) - R * exp (-2 * |c| / l)| ≤ 18 * R * e / l := by
  have hx' := abs_le.mp hx
  have e1 : |x - (|c|)| ≤ 3 * e := by
    rcases abs_cases c with ⟨h, -⟩ | ⟨h, h'⟩ <;> rw [h] <;> refine abs_le.mpr ⟨?_, ?_⟩ <;> linarith
  have e2 := exp_lip (x := 2 * -x / l) (y := -2 * |c| / l) (by rw [div_le_one hl]; linarith) (by
    rw [div_le_one hl]; have := abs_nonneg c; linarith)
  have e3 : |2 * -x / l - -2 * |c| / l| ≤ 6 * e / l := by
    rw [show 2 * -x / l - -2 * |c| / l = -(2 / l) * (x - |c|) by field_simp; ring, abs_mul, abs_neg, abs_of_pos (by positivity : 0 < 2 / l)]
    calc _ ≤ 2 / l * (3 * e) := by gcongr
      _ = _ := by ring
  rw [← mul_sub, abs_mul, abs_of_pos hR]
  calc _ ≤ R * (3 * (6 * e / l)) := by gcongr; linarith
    _ = _ := by ring

/-- **C160** Any facula that is aged by any sequence of times in double precision: whether it is removed is wrong by at most the accumulated error of
its clock, and its radius is close to the exact one. -/
theorem C160_life (E : ExpLog) (hE : AccurateExp E) (f : Facula) (r0 : ℝ) (g : Grid) (h : PhysF f r0)
    (hold : f.isGrowing = false → f.rMax * exp (-2) < r0) (ts : List ℝ) (hts : ∀ t ∈ ts, 0 ≤ t) (e : ℝ)
    (he : e = slip f.lifetime ts.length ts.sum) (h1 : e ≤ f.lifetime / 4) :
    let left := (ts.foldl (FaculaCollection.ageFloat E) ⟨[f], g⟩).faculae
    let u := peakTime f r0
    (left = [] ∧ u + f.lifetime - 2 * e ≤ ts.sum) ∨
    ∃ b r, left = [{ f with isGrowing := b, radius := .fin r }] ∧ 0 < r ∧ ts.sum ≤ u + f.lifetime + 2 * e ∧
      |r - radiusAt f.rMax f.lifetime u ts.sum| ≤ 18 * f.rMax * e / f.lifetime ∧
      (b = true → ts.sum ≤ u + 2 * e) ∧ (b = false → u - 2 * e ≤ ts.sum) := by
  intro left u
  have hl := h.life
  have hR : 0 < f.rMax := h.pos.trans_le h.le
  have hT : 0 ≤ ts.sum := List.sum_nonneg hts
  have he0 : 0 ≤ e := by rw [he]; exact slip_nonneg hl _ hT
  have htl := timeLeft_nonneg h
  have hr := radius_eq h
  have hstart : Displays f.rMax f.lifetime (slip f.lifetime 0 0) u (some (f.isGrowing, r0)) := by
    have h00 : slip f.lifetime 0 0 = 0 := by simp [slip]
    rw [h00]
    cases hb : f.isGrowing
    · have hu : u = -timeLeft f.rMax r0 f.lifetime := by simp [u, peakTime, hb]
      refine ⟨u, ?_, by simp, by linarith, ?_⟩
      · rw [hu]; convert hr using 3; ring
      · have h2 := hold hb
        rw [hr] at h2
        have h3 := exp_lt_exp.mp (lt_of_mul_lt_mul_left h2 hR.le)
        rw [lt_div_iff₀ hl] at h3
        linarith
    · have hu : u = timeLeft f.rMax r0 f.lifetime := by simp [u, peakTime, hb]
      refine ⟨u, ?_, by simp, by linarith⟩
      rw [hu]; convert hr using 3; ring
  have hrun := fade_run hE hl hR ts hts 0 0 u le_rfl _ (by rw [zero_add, zero_add, ← he]; linarith) hstart
  rw [zero_add, zero_add, ← he] at hrun
  have hleft : left = faculaIn f (ts.foldl (fadeState E f.rMax f.lifetime) (some (f.isGrowing, r0))) := foldl_faculaIn (E := E) ts g f r0 h.radius
  generalize ts.foldl (fadeState E f.rMax f.lifetime) (some (f.isGrowing, r0)) = st at hrun hleft
  have habs : |ts.sum - u| = |u - ts.sum| := abs_sub_comm _ _
  match st, hrun with
  | none, hrun =>
    have : u - ts.sum ≤ -f.lifetime + 2 * e := hrun
    exact Or.inl ⟨hleft, by linarith⟩
  | some (true, r), hrun =>
    obtain ⟨c', k1, k2, k3⟩ := hrun
    have k2' := abs_le.mp k2
    refine Or.inr ⟨true, r, hleft, by rw [k1]; positivity, by linarith, ?_, fun _ => by linarith, fun hf => by simp at hf⟩
    rw [k1, radiusAt, habs]
    exact radius_slip hl hR he0 h1 k2 k3
  | some (false, r), hrun =>
    obtain ⟨c', k1, k2, k3, k4⟩ := hrun
    have k2' := abs_le.mp k2
    refine Or.inr ⟨false, r, hleft, by rw [k1]; positivity, by linarith, ?_, fun hf => by simp at hf, fun _ => by linarith⟩
    rw [k1, radiusAt, habs, ← abs_neg (u - ts.sum)]
    have := radius_slip (x := -c') (c := -(u - ts.sum)) hl hR he0 h1 (by rw [← abs_neg]; convert k2 using 2; ring) (by linarith)
    rwa [neg_neg] at this

/-- The exact result for one facula. -/
theorem exact_radius (f : Facula) (r0 : ℝ) (h : PhysF f r0) (T : ℝ) (hT : 0 ≤ T) :
    (f.age T).radius = .fin (radiusAt f.rMax f.lifetime (peakTime f r0) T) ∧ ((f.age T).isGrowing = false ↔ peakTime f r0 ≤ T ∨ f.isGrowing = false) := by
  have hr := radius_eq h
  have hl := h.life
  have htl := timeLeft_nonneg h
  set u := timeLeft f.rMax r0 f.lifetime with hu
  unfold radiusAt peakTime
  cases hb : f.isGrowing
  · rw [facula_decay h hb]
    simp only [hb, Bool.false_eq_true, if_false, or_true, and_true, Fl.fin.injEq]
    rw [← hu, abs_of_nonneg (by linarith), hr, mul_assoc, ← exp_add]
    congr 2; ring
  · rw [facula_grow h hb, ← hu]
    simp only [if_true, Bool.true_eq_false, or_false]
    by_cases k : u ≤ T
    · rw [if_pos k, abs_of_nonneg (by linarith)]
      exact ⟨rfl, by simp [k]⟩
    · rw [if_neg k, abs_of_neg (by linarith)]
      refine ⟨?_, by simp [hb, k]⟩
      show Fl.fin _ = Fl.fin _
      rw [Fl.fin.injEq, hr, mul_assoc, ← exp_add]
      congr 2; ring

/-- **C160** The computed result against the exact one: away from the exact end of its life the facula is removed in double precision exactly if it
is removed in exact arithmetic, and the radii agree. -/
theorem C160_exact (E : ExpLog) (hE : AccurateExp E) (f : Facula) (r0 : ℝ) (g : Grid) (h : PhysF f r0)
    (hold : f.isGrowing = false → f.rMax * exp (-2) < r0) (ts : List ℝ) (hts : ∀ t ∈ ts, 0 ≤ t) (e : ℝ)
    (he : e = slip f.lifetime ts.length ts.sum) (h1 : e ≤ f.lifetime / 4) :
    let left := (ts.foldl (FaculaCollection.ageFloat E) ⟨[f], g⟩).faculae
    let left' := (ts.foldl FaculaCollection.age ⟨[f], g⟩).faculae
    (2 * e < |ts.sum - (peakTime f r0 + f.lifetime)| → (left = [] ↔ left' = [])) ∧
    ∀ x ∈ left, ∀ y ∈ left', ∃ a b, x.radius = .fin a ∧ y.radius = .fin b ∧ |a - b| ≤ 18 * f.rMax * e / f.lifetime := by
  intro left left'
  have hl := h.life
  have hR : 0 < f.rMax := h.pos.trans_le h.le
  have hT : 0 ≤ ts.sum := List.sum_nonneg hts
  have he0 : 0 ≤ e := by rw [he]; exact slip_nonneg hl _ hT
  have htl := timeLeft_nonneg h
  have hlife := C160_life E hE f r0 g h hold ts hts e he h1
  set u := peakTime f r0 with hu
  have hex := exact_radius f r0 h ts.sum hT
  rw [← hu] at hex
  have hpos : 0 < u + f.lifetime := by
    cases hb : f.isGrowing
    · have e1 : u = -timeLeft f.rMax r0 f.lifetime := by simp [hu, peakTime, hb]
      have h2 := hold hb
      rw [radius_eq h] at h2
      have h3 := exp_lt_exp.mp (lt_of_mul_lt_mul_left h2 hR.le)
      rw [lt_div_iff₀ hl] at h3
      linarith
    · have e1 : u = timeLeft f.rMax r0 f.lifetime := by simp [hu, peakTime, hb]
      linarith
  have hleft' : (left' = [] ↔ u + f.lifetime ≤ ts.sum) ∧ ∀ y ∈ left', y.radius = .fin (radiusAt f.rMax f.lifetime u ts.sum) := by
    by_cases hnil : ts = []
    · subst hnil
      have e1 : left' = [f] := rfl
      rw [e1]
      refine ⟨iff_of_false (by simp) (by simpa using hpos), fun y hy => ?_⟩
      rw [List.mem_singleton.mp hy, h.radius]
      have h0 := (exact_radius f r0 h 0 le_rfl).1
      rw [← hu] at h0
      have hz : (f.age 0).radius = f.radius := by
        cases hb : f.isGrowing
        · rw [facula_decay h hb, h.radius]; simp
        · rw [facula_grow h hb, h.radius]
          by_cases k : timeLeft f.rMax r0 f.lifetime ≤ 0
          · have k0 : timeLeft f.rMax r0 f.lifetime = 0 := le_antisymm k htl
            have := radius_eq h
            rw [k0] at this
            rw [if_pos k, k0]
            simp at this ⊢
            exact this.symm
          · rw [if_neg k]; simp
      rw [hz, h.radius] at h0
      simpa using h0
    · have e1 : left' = (([f].map (Facula.age · ts.sum)).filter fun f => @decide (¬ dead f) (Classical.dec _)) := by
        have e0 := C32_age_schedule ⟨[f], g⟩ (by intro f' hf'; simp at hf'; exact ⟨r0, hf' ▸ h⟩) ts [ts.sum] hnil (by simp) hts (by simpa using hT) (by simp)
        simp only [left', e0, List.foldl_cons, List.foldl_nil]
        rw [faculae_age]
        congr!
      have hdead : dead (f.age ts.sum) ↔ u + f.lifetime ≤ ts.sum := by
        unfold dead
        rw [(facula_frame f ts.sum).1, hex.1, hex.2, Fl.fin_le, radiusAt, mul_le_mul_iff_right₀ hR, exp_le_exp, div_le_iff₀ hl]
        have habs : u ≤ ts.sum ∨ f.isGrowing = false ↔ u ≤ ts.sum := by
          refine ⟨fun k => k.elim id fun k => ?_, Or.inl⟩
          have : u = -timeLeft f.rMax r0 f.lifetime := by simp [hu, peakTime, k]
          linarith
        rw [habs]
        constructor
        · rintro ⟨k1, k2⟩
          rw [abs_of_nonneg (by linarith)] at k1
          linarith
        · intro k
          rw [abs_of_nonneg (by linarith)]
          exact ⟨by linarith, by linarith⟩
      rw [e1]
      by_cases k : dead (f.age ts.sum)
      · have : (List.filter (fun f => @decide (¬ dead f) (Classical.dec _)) ([f].map (Facula.age · ts.sum))) = [] := by simp [k]
        rw [this]
        exact ⟨iff_of_true rfl (hdead.mp k), by simp⟩
      · have : (List.filter (fun f => @decide (¬ dead f) (Classical.dec _)) ([f].map (Facula.age · ts.sum))) = [f.age ts.sum] := by simp [k]
        rw [this]
        exact ⟨iff_of_false (by simp) (fun hh => k (hdead.mpr hh)), fun y hy => by rw [List.mem_singleton.mp hy]; exact hex.1⟩
  refine ⟨fun hfar => ?_, fun x hx y hy => ?_⟩
  · rw [hleft'.1]
    rcases hlife with ⟨k1, k2⟩ | ⟨b, a, k1, -, k2, -⟩
    · refine iff_of_true k1 ?_
      by_contra hh
      rw [abs_of_neg (by linarith)] at hfar
      linarith
    · refine iff_of_false (by change left ≠ []; rw [show left = _ from k1]; simp) ?_
      intro hh
      rw [abs_of_nonneg (by linarith)] at hfar
      linarith
  · rcases hlife with ⟨k1, -⟩ | ⟨b, a, k1, -, -, k2, -⟩
    · rw [show left = [] from k1] at hx
      simp at hx
    · rw [show left = _ from k1] at hx
      exact ⟨a, _, by rw [List.mem_singleton.mp hx], hleft'.2 y hy, k2⟩

/-- **C160** Any collection: the faculae are aged one by one. -/
theorem C160_each (E : ExpLog) (c : FaculaCollection) (ts : List ℝ) : (ts.foldl (FaculaCollection.ageFloat E) c).grid = c.grid ∧
    (ts.foldl (FaculaCollection.ageFloat E) c).faculae = c.faculae.flatMap fun f => (ts.foldl (FaculaCollection.ageFloat E) ⟨[f], c.grid⟩).faculae := by
  rw [foldl_fade ts c]
  exact ⟨rfl, rfl⟩

/-- Non-trivial instance of C160: the sample facula, aged four times by half a day, still exists, has passed its maximum and its radius is accurate to
a relative error of `10^-11`; after another two days it is gone. -/
example (g : Grid) : (∃ r, ((List.replicate 4 (1 / 2 : ℝ)).foldl (FaculaCollection.ageFloat ExpLog.rounded) ⟨[sampleFacula g], g⟩).faculae =
      [{ sampleFacula g with isGrowing := false, radius := .fin r }] ∧ |r - radiusAt 4 2 (peakTime (sampleFacula g) 1) 2| ≤ 4 / 10 ^ 11) ∧
    ((List.replicate 8 (1 / 2 : ℝ)).foldl (FaculaCollection.ageFloat ExpLog.rounded) ⟨[sampleFacula g], g⟩).faculae = [] := by
  have hu : peakTime (sampleFacula g) 1 = log 4 := by
    simp only [peakTime, sampleFacula, if_true, timeLeft]
    rw [one_div, log_inv]; ring
  have h4 : log 4 = 2 * log 2 := by rw [show (4 : ℝ) = 2 ^ 2 by norm_num, log_pow]; push_cast; ring
  have hlo := log_two_gt_d9
  have hhi := log_two_lt_d9
  have s4 : (List.replicate 4 (1 / 2 : ℝ)).sum = 2 := by rw [List.sum_replicate]; norm_num
  have s8 : (List.replicate 8 (1 / 2 : ℝ)).sum = 4 := by rw [List.sum_replicate]; norm_num
  have k4 := C160_life ExpLog.rounded rounded_accurateExp (sampleFacula g) 1 g (sampleFacula_phys g) (by simp [sampleFacula])
    (List.replicate 4 (1 / 2 : ℝ)) (fun t ht => by rw [(List.mem_replicate.mp ht).2]; norm_num) _ rfl (by rw [s4, List.length_replicate]; norm_num [slip, sampleFacula])
  have k8 := C160_life ExpLog.rounded rounded_accurateExp (sampleFacula g) 1 g (sampleFacula_phys g) (by simp [sampleFacula])
    (List.replicate 8 (1 / 2 : ℝ)) (fun t ht => by rw [(List.mem_replicate.mp ht).2]; norm_num) _ rfl (by rw [s8, List.length_replicate]; norm_num [slip, sampleFacula])
  have el : (sampleFacula g).lifetime = 2 := rfl
  have er : (sampleFacula g).rMax = 4 := rfl
  have e4 : slip 2 4 2 ≤ 1 / 10 ^ 12 := by norm_num [slip]
  have e8 : slip 2 8 4 ≤ 1 / 10 ^ 12 := by norm_num [slip]
  rw [s4, List.length_replicate, el, er, hu, h4] at k4
  rw [s8, List.length_replicate, el, er, hu, h4] at k8
  rw [hu, h4]
  norm_num at e4 e8
  refine ⟨?_, ?_⟩
  · rcases k4 with ⟨-, k⟩ | ⟨b, r, k1, -, -, k2, k3, -⟩
    · exfalso; linarith
    · cases b
      · exact ⟨r, k1, k2.trans (by norm_num; linarith)⟩
      · exfalso; have := k3 rfl; linarith
  · rcases k8 with ⟨k, -⟩ | ⟨b, r, -, -, k, -⟩
    · exact k
    · exfalso; linarith

end Vsm
