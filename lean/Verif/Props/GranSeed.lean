import Mathlib.LinearAlgebra.Matrix.PosDef
import Verif.Model.GranSeed
import Verif.Props.GranStats

/-!
# C149: granulation and its seed
-/

noncomputable section
namespace Vsm
open Real Spec

theorem cov_diff (g : Granulation) {n : ℕ} {t t' : Fin n → ℝ} (h : ∀ i j, |t' i - t' j| = |t i - t j|) : g.cov t' = g.cov t := by
  funext i j
  simp only [Granulation.cov, Granulation.kernel, h]

/-- **C149** (differences) The coverage depends on the times only through their differences: an observation that starts later, or that
runs backwards, gets the very same values. -/
theorem C149_shift (S : Sampler) (s : Star) (seed : ℕ) {n : ℕ} (t : Fin n → ℝ) (c : ℝ) :
    s.granulationAt S seed (fun i => t i + c) = s.granulationAt S seed t ∧
    s.granulationAt S seed (fun i => c - t i) = s.granulationAt S seed t := by
  have key : ∀ t' : Fin n → ℝ, (∀ i j, |t' i - t' j| = |t i - t j|) → s.granulationAt S seed t' = s.granulationAt S seed t := by
    intro t' h
    unfold Star.granulationAt
    cases s.granulation with
    | none => rfl
    | some g =>
      simp only
      congr 1
      funext i
      unfold Granulation.sample
      rw [cov_diff g h]
  refine ⟨key _ fun i j => by congr 1; ring, key _ fun i j => ?_⟩
  rw [show c - t i - (c - t j) = -(t i - t j) by ring, abs_neg]

/-- What is needed of a Cholesky factor `L` of `K`: lower triangular, no negative number on the diagonal, `L Lᵀ = K`. -/
def Spec.IsCholesky {n : ℕ} (K L : Matrix (Fin n) (Fin n) ℝ) : Prop :=
  (∀ i j, i < j → L i j = 0) ∧ (∀ i, 0 ≤ L i i) ∧ ∀ i j, ∑ k, L i k * L j k = K i j

/-- The part of a number between 0 and 1. -/
def Spec.asFraction (x : ℝ) : ℝ := max 0 (min x 1)

/-- Granulation of a star that is switched on. -/
structure Spec.Granulated (s : Star) (g : Granulation) : Prop where
  has : s.granulation = some g
  dteff : g.dteff ≠ 0
  mean : g.mean ≠ 0

theorem granulated_at {s : Star} {g : Granulation} (h : Granulated s g) (S : Sampler) (seed : ℕ) {n : ℕ} (t : Fin n → ℝ) :
    s.granulationAt S seed t = .ok fun i =>
      .fin (asFraction (g.mean + ∑ j, S.chol n (Matrix.of (g.cov t)) i j * S.normal seed n j)) := by
  obtain ⟨v, h1, h2⟩ := (C54_coverage_fraction s n (g.sample S seed t)).2 g h.has h.dteff h.mean
  unfold Star.granulationAt
  rw [h.has]
  simp only
  rw [h1]
  congr 1
  funext i
  exact (h2 i).1 _ rfl

/-- Root mean square deviation of the Gaussian process. -/
def Spec.granSigma (g : Granulation) : ℝ := √(g.scale / (√2 * g.period))

/-- **C149** (first value) The first value depends on nothing but the parameters, the seed and the number of times. -/
theorem C149_first (S : Sampler) (s : Star) (g : Granulation) (h : Granulated s g) (seed : ℕ) {n : ℕ}
    (t : Fin (n + 1) → ℝ) (hC : IsCholesky (Matrix.of (g.cov t)) (S.chol _ (Matrix.of (g.cov t)))) :
    ∃ v, s.granulationAt S seed t = .ok v ∧ v 0 = .fin (asFraction (g.mean + granSigma g * S.normal seed (n + 1) 0)) := by
  refine ⟨_, granulated_at h S seed t, ?_⟩
  obtain ⟨c1, c2, c3⟩ := hC
  set L := S.chol _ (Matrix.of (g.cov t)) with hL
  have e0 : ∀ f : Fin (n + 1) → ℝ, ∑ j, L 0 j * f j = L 0 0 * f 0 := by
    intro f
    rw [Fin.sum_univ_succ, Finset.sum_eq_zero fun j _ => by rw [c1 0 j.succ (Fin.succ_pos j), zero_mul], add_zero]
  have e1 : L 0 0 = granSigma g := by
    have h1 := c3 0 0
    rw [e0] at h1
    have h2 : Matrix.of (g.cov t) 0 0 = g.scale / (√2 * g.period) := kernel_zero_lag _ _ _
    rw [h2] at h1
    unfold granSigma
    rw [← h1, Real.sqrt_mul_self (c2 0)]
  change Fl.fin (asFraction (g.mean + ∑ j, L 0 j * S.normal seed (n + 1) j)) = _
  rw [e0, e1]

/-- **C149** (one at a time) Asked for one time after the other, a star gets the same value every time, however far apart the times are. -/
theorem C149_one_at_a_time (S : Sampler) (s : Star) (g : Granulation) (h : Granulated s g) (hs : 0 ≤ g.scale) (hp : 0 < g.period) (seed : ℕ)
    (hC : ∀ K, 0 ≤ K 0 0 → IsCholesky K (S.chol 1 K)) (t : ℝ) :
    s.granulationAt S seed (fun _ : Fin 1 => t) = .ok fun _ => .fin (asFraction (g.mean + granSigma g * S.normal seed 1 0)) := by
  obtain ⟨v, h1, h2⟩ := C149_first S s g h seed (fun _ : Fin 1 => t) (hC _ (by
    change 0 ≤ Granulation.kernel _ _ _ _
    rw [kernel_zero_lag]
    positivity))
  rw [h1]
  congr 1
  funext i
  have hi : i = (0 : Fin 1) := Subsingleton.elim (α := Fin 1) i 0
  rw [hi]
  exact h2

/-- **C149** (two times) The second of two values: with the correlation `ρ` of the two times it is built from both draws. So the value at a
time depends on the other times that are asked for, and on their order. -/
theorem C149_two (S : Sampler) (s : Star) (g : Granulation) (h : Granulated s g) (hs : 0 < g.scale) (hp : 0 < g.period) (seed : ℕ)
    (t t' ρ : ℝ) (hρ : ρ = √2 * exp (-(|t - t'| / (√2 * g.period))) * cos (|t - t'| / (√2 * g.period) - π / 4))
    (hC : IsCholesky (Matrix.of (g.cov ![t, t'])) (S.chol 2 (Matrix.of (g.cov ![t, t'])))) :
    s.granulationAt S seed ![t, t'] = .ok ![.fin (asFraction (g.mean + granSigma g * S.normal seed 2 0)),
      .fin (asFraction (g.mean + granSigma g * (ρ * S.normal seed 2 0 + √(1 - ρ ^ 2) * S.normal seed 2 1)))] := by
  obtain ⟨v, h1, h2⟩ := C149_first S s g h seed ![t, t'] hC
  have h3 := granulated_at h S seed ![t, t']
  obtain ⟨c1, c2, c3⟩ := hC
  set L := S.chol 2 (Matrix.of (g.cov ![t, t'])) with hL
  set σ := granSigma g with hσ
  have s0 : 0 < g.scale / (√2 * g.period) := by positivity
  have hσ2 : σ ^ 2 = g.scale / (√2 * g.period) := Real.sq_sqrt s0.le
  have hσ0 : 0 < σ := Real.sqrt_pos.mpr s0
  have k00 : Matrix.of (g.cov ![t, t']) 0 0 = σ ^ 2 := by rw [hσ2]; exact kernel_zero_lag _ _ _
  have k11 : Matrix.of (g.cov ![t, t']) 1 1 = σ ^ 2 := by rw [hσ2]; exact kernel_zero_lag _ _ _
  have k10 : Matrix.of (g.cov ![t, t']) 1 0 = σ ^ 2 * ρ := by
    rw [hσ2, hρ]
    change Granulation.kernel g.scale g.period t' t = _
    have h2' : √2 * √2 = 2 := Real.mul_self_sqrt (by norm_num)
    have e1 : 1 / g.period * |t' - t| / √2 = |t - t'| / (√2 * g.period) := by rw [abs_sub_comm]; field_simp
    simp only [Granulation.kernel]
    rw [show -(1 / g.period) * |t' - t| / √2 = -(1 / g.period * |t' - t| / √2) by ring, e1]
    field_simp
  have l01 : L 0 1 = 0 := c1 0 1 (by decide)
  have q00 := c3 0 0
  have q10 := c3 1 0
  have q11 := c3 1 1
  simp only [Fin.sum_univ_two, l01, k00, k10, k11] at q00 q10 q11
  have l00 : L 0 0 = σ := by
    have : (L 0 0) ^ 2 = σ ^ 2 := by linarith
    exact (pow_left_inj₀ (c2 0) hσ0.le (by norm_num)).mp this
  have l10 : L 1 0 = σ * ρ := by
    rw [l00] at q10
    have : (L 1 0 - σ * ρ) * σ = 0 := by linarith
    rcases mul_eq_zero.mp this with h | h
    · linarith
    · exact absurd h hσ0.ne'
  have l11 : L 1 1 = σ * √(1 - ρ ^ 2) := by
    rw [l10] at q11
    have e : (L 1 1) ^ 2 = σ ^ 2 * (1 - ρ ^ 2) := by linarith
    rw [← Real.sqrt_sq (c2 1), e, Real.sqrt_mul (by positivity), Real.sqrt_sq hσ0.le]
  rw [h3]
  congr 1
  funext i
  fin_cases i
  · have e := congrFun (Except.ok.inj (h1.symm.trans h3)) 0
    exact e.symm.trans h2
  · change Fl.fin (asFraction (g.mean + ∑ j, L 1 j * S.normal seed 2 j)) = _
    rw [Fin.sum_univ_two, l10, l11]
    change _ = Fl.fin _
    congr 2
    ring

/-- **C149** (two stars) Stars whose granulations have the same mean, amplitude, period and seed get the same values, whatever else they differ
in; so do all granulations for which no seed is given, as they share the one drawn when the module was imported. -/
theorem C149_stars (S : Sampler) (s s' : Star) (g g' : Granulation) (h : Granulated s g) (h' : Granulated s' g') (hm : g'.mean = g.mean)
    (ha : g'.scale = g.scale) (hp : g'.period = g.period) (seed : ℕ) {n : ℕ} (t : Fin n → ℝ) :
    (∀ atImport, s'.granulationAt S (Granulation.seedOf atImport (some seed)) t = s.granulationAt S seed t) ∧
    ∀ atImport, s'.granulationAt S (Granulation.seedOf atImport none) t = s.granulationAt S (Granulation.seedOf atImport none) t := by
  have key : ∀ seed, s'.granulationAt S seed t = s.granulationAt S seed t := by
    intro seed
    rw [granulated_at h, granulated_at h']
    have : g'.cov t = g.cov t := by
      funext i j
      simp only [Granulation.cov, ha, hp]
    rw [this, hm]
  exact ⟨fun _ => key seed, fun a => key _⟩

/-! ## Instances -/

/-- A sampler whose first draw is 1 and whose other draws are 0, with Cholesky factors for up to two times. -/
def Spec.plainSampler : Sampler where
  normal _ _ i := if (i : ℕ) = 0 then 1 else 0
  chol _ K := Matrix.of fun i j =>
    if (i : ℕ) = 0 ∧ (j : ℕ) = 0 then √(K i i)
    else if (i : ℕ) = 1 ∧ (j : ℕ) = 0 then K i j / √(K j j)
    else if (i : ℕ) = 1 ∧ (j : ℕ) = 1 then √(K j j - (K ⟨0, i.pos⟩ j / √(K ⟨0, i.pos⟩ ⟨0, i.pos⟩)) ^ 2) else 0

theorem plain_one (K : Matrix (Fin 1) (Fin 1) ℝ) (h : 0 ≤ K 0 0) : IsCholesky K (plainSampler.chol 1 K) := by
  refine ⟨fun i j hij => by omega, fun i => ?_, fun i j => ?_⟩
  · have : i = 0 := by omega
    subst this
    simp [plainSampler]
  · have h1 : i = 0 := by omega
    have h2 : j = 0 := by omega
    subst h1 h2
    simp [plainSampler, Real.mul_self_sqrt h]

theorem plain_two (K : Matrix (Fin 2) (Fin 2) ℝ) (h0 : 0 < K 0 0) (hs : K 0 1 = K 1 0) (h : (K 1 0) ^ 2 ≤ K 0 0 * K 1 1) :
    IsCholesky K (plainSampler.chol 2 K) := by
  have e : √(K 0 0) * √(K 0 0) = K 0 0 := Real.mul_self_sqrt h0.le
  have s0 : √(K 0 0) ≠ 0 := (Real.sqrt_pos.mpr h0).ne'
  have e2 : (K 1 0 / √(K 0 0)) ^ 2 = (K 1 0) ^ 2 / K 0 0 := by rw [div_pow, Real.sq_sqrt h0.le]
  have e3 : 0 ≤ K 1 1 - (K 1 0 / √(K 0 0)) ^ 2 := by
    rw [e2, sub_nonneg, div_le_iff₀ h0]
    linarith
  refine ⟨fun i j hij => ?_, fun i => ?_, fun i j => ?_⟩
  · fin_cases i <;> fin_cases j <;> simp_all [plainSampler]
  · fin_cases i <;> simp [plainSampler]
  · have e4 : √(K 1 1 - (K 1 0 / √(K 0 0)) ^ 2) * √(K 1 1 - (K 1 0 / √(K 0 0)) ^ 2) = K 1 1 - (K 1 0 / √(K 0 0)) ^ 2 := Real.mul_self_sqrt e3
    fin_cases i <;> fin_cases j <;> simp [plainSampler, Fin.sum_univ_two, e, hs]
    · field_simp
    · field_simp
    · rw [e4]; ring

/-- A granulation with mean 0.2. -/
def Spec.plainGran : Granulation := ⟨0.2, 0.01, 5, 100⟩

theorem plainGran_sigma : 0 < granSigma plainGran ∧ granSigma plainGran ≤ 0.1 := by
  have h : (1 : ℝ) ≤ √2 := by rw [Real.le_sqrt] <;> norm_num
  refine ⟨Real.sqrt_pos.mpr (by simp only [plainGran]; positivity), ?_⟩
  unfold granSigma
  rw [Real.sqrt_le_left (by norm_num)]
  simp only [plainGran]
  rw [div_le_iff₀ (by positivity)]
  nlinarith

/-- Non-trivial instance of C149: asked one at a time the star shows the same granulation at all times. -/
example (s : Star) (hs : s.granulation = some plainGran) (t : ℝ) :
    s.granulationAt plainSampler 7 (fun _ : Fin 1 => t) = .ok fun _ => .fin (asFraction (0.2 + granSigma plainGran)) := by
  refine (C149_one_at_a_time plainSampler s plainGran ⟨hs, by norm_num [plainGran], by norm_num [plainGran]⟩ (by norm_num [plainGran])
    (by norm_num [plainGran]) 7 plain_one t).trans ?_
  simp [plainSampler, plainGran]

/-- Non-trivial instance of C149: half a period of the process later the deviation has the opposite sign, but the value at time 0 depends on
which of the two times is asked for first. -/
example (s : Star) (hs : s.granulation = some plainGran) :
    let T := √2 * 5 * π
    ∃ v v', s.granulationAt plainSampler 7 ![0, T] = .ok v ∧ s.granulationAt plainSampler 7 ![T, 0] = .ok v' ∧ v 0 ≠ v' 1 ∧ v' 1 = v 1 := by
  intro T
  have hT : 0 < T := by positivity
  have hG : Granulated s plainGran := ⟨hs, by norm_num [plainGran], by norm_num [plainGran]⟩
  have hx : |(0 : ℝ) - T| / (√2 * plainGran.period) = π := by
    rw [zero_sub, abs_neg, abs_of_pos hT]
    simp only [plainGran, T]
    field_simp
  have h2 : √2 * √2 = 2 := Real.mul_self_sqrt (by norm_num)
  set ρ := √2 * exp (-(|(0 : ℝ) - T| / (√2 * plainGran.period))) * cos (|(0 : ℝ) - T| / (√2 * plainGran.period) - π / 4) with hρ
  have hρ' : ρ = - exp (-π) := by
    rw [hρ, hx, show π - π / 4 = π - (π / 4) by ring, cos_pi_sub, cos_pi_div_four]
    linear_combination -(exp (-π) / 2) * h2
  have hρ2 : ρ = √2 * exp (-(|T - 0| / (√2 * plainGran.period))) * cos (|T - 0| / (√2 * plainGran.period) - π / 4) := by
    rw [hρ, abs_sub_comm]
  have hneg : ρ < 0 := by rw [hρ']; simp [exp_pos]
  have hgt : -1 ≤ ρ := by
    rw [hρ']
    have : exp (-π) ≤ 1 := exp_le_one_iff.mpr (by linarith [pi_pos])
    linarith
  obtain ⟨s1, s2⟩ := plainGran_sigma
  have hcov : ∀ a b : ℝ, IsCholesky (Matrix.of (plainGran.cov ![a, b])) (plainSampler.chol 2 (Matrix.of (plainGran.cov ![a, b]))) := by
    intro a b
    have k0 : ∀ x, Granulation.kernel plainGran.scale plainGran.period x x = plainGran.scale / (√2 * plainGran.period) := kernel_zero_lag _ _
    have kp : 0 < plainGran.scale / (√2 * plainGran.period) := by simp only [plainGran]; positivity
    refine plain_two _ ?_ ?_ ?_
    · change 0 < Granulation.kernel _ _ _ _
      rw [k0]; exact kp
    · change Granulation.kernel _ _ a b = Granulation.kernel _ _ b a
      simp only [Granulation.kernel, abs_sub_comm]
    · change Granulation.kernel _ _ b a ^ 2 ≤ Granulation.kernel _ _ a a * Granulation.kernel _ _ b b
      have hb := (C55_kernel plainGran.scale plainGran.period (by norm_num [plainGran]) (by norm_num [plainGran])).2.2.1 b a
      rw [k0] at hb
      rw [k0, k0, ← sq, sq_le_sq, abs_of_pos kp]
      exact hb
  refine ⟨_, _, C149_two plainSampler s plainGran hG (by norm_num [plainGran]) (by norm_num [plainGran]) 7 0 T ρ hρ (hcov _ _),
    C149_two plainSampler s plainGran hG (by norm_num [plainGran]) (by norm_num [plainGran]) 7 T 0 ρ hρ2 (hcov _ _), ?_, rfl⟩
  simp only [Matrix.cons_val_zero, Matrix.cons_val_one, plainSampler]
  simp only [ne_eq, Fl.fin_inj, Fin.val_zero, if_true, Fin.val_one, one_ne_zero, if_false, mul_one, mul_zero, add_zero]
  have e1 : plainGran.mean = 0.2 := rfl
  rw [e1]
  unfold asFraction
  have a1 : 0 ≤ granSigma plainGran * (-ρ) := by nlinarith
  have a2 : granSigma plainGran * (-ρ) ≤ 0.1 := by nlinarith
  rw [min_eq_left (by linarith), min_eq_left (by linarith), max_eq_right (by linarith), max_eq_right (by linarith)]
  intro h
  nlinarith

end Vsm
