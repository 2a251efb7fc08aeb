import Verif.Np

/-! # The trapezoid rule and `linspace` -/

noncomputable section

namespace Vsm

/-- Real version of the trapezoid rule. -/
def trapzR : List ℝ → List ℝ → ℝ
  | y₀ :: y₁ :: ys, x₀ :: x₁ :: xs => (x₁ - x₀) * (y₀ + y₁) / 2 + trapzR (y₁ :: ys) (x₁ :: xs)
  | _, _ => 0

theorem trapz_fin (ys xs : List ℝ) : Np.trapz (ys.map .fin) (xs.map .fin) = .fin (trapzR ys xs) := by
  induction ys generalizing xs with
  | nil => simp [Np.trapz, trapzR]
  | cons y₀ ys ih =>
    cases ys with
    | nil => simp [Np.trapz, trapzR]
    | cons y₁ ys =>
      cases xs with
      | nil => simp [Np.trapz, trapzR]
      | cons x₀ xs =>
        cases xs with
        | nil => simp [Np.trapz, trapzR]
        | cons x₁ xs =>
          have := ih (x₁ :: xs)
          simp only [List.map_cons] at this ⊢
          rw [Np.trapz, trapzR, this]
          simp only [Fl.fin_sub, Fl.fin_add, Fl.fin_mul]
          rw [Fl.fin_div (by norm_num), Fl.fin_add]

theorem trapzR_nonneg {ys xs : List ℝ} (hy : ∀ y ∈ ys, 0 ≤ y) (hx : xs.Pairwise (· ≤ ·)) :
    0 ≤ trapzR ys xs := by
  induction ys generalizing xs with
  | nil => simp [trapzR]
  | cons y₀ ys ih =>
    match ys, xs with
    | [], _ => simp [trapzR]
    | y₁ :: ys, [] => simp [trapzR]
    | y₁ :: ys, [x₀] => simp [trapzR]
    | y₁ :: ys, x₀ :: x₁ :: xs =>
      rw [trapzR]
      have h1 : x₀ ≤ x₁ := (List.pairwise_cons.mp hx).1 x₁ (by simp)
      have h2 := ih (fun y hy' => hy y (by simp [List.mem_cons.mp hy'])) (List.pairwise_cons.mp hx).2
      have h3 := hy y₀ (by simp)
      have h4 := hy y₁ (by simp)
      have : 0 ≤ (x₁ - x₀) * (y₀ + y₁) := mul_nonneg (by linarith) (by linarith)
      linarith

theorem trapzR_pos {ys xs : List ℝ} (hlen : 2 ≤ ys.length) (hlen' : 2 ≤ xs.length) (hy : ∀ y ∈ ys, 0 < y)
    (hx : xs.Pairwise (· < ·)) : 0 < trapzR ys xs := by
  match ys, xs with
  | y₀ :: y₁ :: ys, x₀ :: x₁ :: xs =>
    rw [trapzR]
    have h1 : x₀ < x₁ := (List.pairwise_cons.mp hx).1 x₁ (by simp)
    have h2 : 0 ≤ trapzR (y₁ :: ys) (x₁ :: xs) :=
      trapzR_nonneg (fun y hy' => (hy y (by simp [List.mem_cons.mp hy'])).le)
        ((List.pairwise_cons.mp hx).2.imp fun h => h.le)
    have h3 := hy y₀ (by simp)
    have h4 := hy y₁ (by simp)
    have : 0 < (x₁ - x₀) * (y₀ + y₁) := mul_pos (by linarith) (by linarith)
    linarith
  | [], _ => simp at hlen
  | [_], _ => simp at hlen
  | _, [] => simp at hlen'
  | _, [_] => simp at hlen'

theorem trapzR_zero {ys xs : List ℝ} (hy : ∀ y ∈ ys, y = 0) : trapzR ys xs = 0 := by
  induction ys generalizing xs with
  | nil => simp [trapzR]
  | cons y₀ ys ih =>
    match ys, xs with
    | [], _ => simp [trapzR]
    | y₁ :: ys, [] => simp [trapzR]
    | y₁ :: ys, [x₀] => simp [trapzR]
    | y₁ :: ys, x₀ :: x₁ :: xs =>
      rw [trapzR, ih (fun y hy' => hy y (by simp [List.mem_cons.mp hy'])), hy y₀ (by simp), hy y₁ (by simp)]
      simp

theorem linspace_pairwise_le {a b : ℝ} (h : a ≤ b) (n : ℕ) : (Np.linspace a b n).Pairwise (· ≤ ·) := by
  rcases n.eq_zero_or_pos with rfl | hn
  · simp [Np.linspace]
  rw [Np.linspace, List.pairwise_map]
  apply List.pairwise_lt_range.imp
  intro i j hij
  unfold Np.linspaceAt
  split_ifs with h1
  · exact le_rfl
  · have hij' : (i : ℝ) ≤ j := by exact_mod_cast hij.le
    have : (0 : ℝ) ≤ n - 1 := by
      have : (1 : ℝ) ≤ n := by exact_mod_cast hn
      linarith
    have : 0 ≤ (b - a) / ((n : ℝ) - 1) := div_nonneg (by linarith) this
    nlinarith

theorem linspace_pairwise_lt {a b : ℝ} (h : a < b) {n : ℕ} (hn : 2 ≤ n) :
    (Np.linspace a b n).Pairwise (· < ·) := by
  rw [Np.linspace, List.pairwise_map]
  apply List.pairwise_lt_range.imp
  intro i j hij
  unfold Np.linspaceAt
  rw [if_neg (by omega), if_neg (by omega)]
  have hij' : (i : ℝ) < j := by exact_mod_cast hij
  have hn' : (0 : ℝ) < n - 1 := by
    have : (2 : ℝ) ≤ n := by exact_mod_cast hn
    linarith
  have : 0 < (b - a) / ((n : ℝ) - 1) := div_pos (by linarith) hn'
  nlinarith

theorem linspace_mem {a b : ℝ} (h : a ≤ b) {n : ℕ} {x : ℝ} (hx : x ∈ Np.linspace a b n) :
    a ≤ x ∧ x ≤ b := by
  rw [Np.linspace, List.mem_map] at hx
  obtain ⟨i, hi, rfl⟩ := hx
  rw [List.mem_range] at hi
  unfold Np.linspaceAt
  split_ifs with h1
  · exact ⟨le_rfl, h⟩
  · have hn : (1 : ℝ) < n := by exact_mod_cast (show 1 < n by omega)
    have hi' : (i : ℝ) ≤ n - 1 := by
      have : (i : ℝ) + 1 ≤ n := by exact_mod_cast hi
      linarith
    have h0 : (0 : ℝ) ≤ i := by positivity
    have hd : 0 ≤ (b - a) / ((n : ℝ) - 1) := div_nonneg (by linarith) (by linarith)
    constructor
    · nlinarith
    · have := mul_le_mul_of_nonneg_right hi' hd
      rw [mul_div_cancel₀ _ (by linarith)] at this
      linarith

theorem linspace_length (a b : ℝ) (n : ℕ) : (Np.linspace a b n).length = n := by simp [Np.linspace]

end Vsm
