import Verif.Lemmas.Trapz
import Mathlib.MeasureTheory.Integral.IntervalIntegral.Basic

/-!
# Error of the trapezoid rule
-/

noncomputable section

namespace Vsm

open MeasureTheory intervalIntegral

/-- Successive samples do not decrease and are at most `h` apart. -/
def Gaps (h : ℝ) : List ℝ → Prop
  | x :: y :: l => x ≤ y ∧ y - x ≤ h ∧ Gaps h (y :: l)
  | _ => True

theorem trapzR_add (f g : ℝ → ℝ) (c : ℝ) (l : List ℝ) :
    trapzR (l.map fun x => f x + g x - c) l = trapzR (l.map f) l + trapzR (l.map g) l - trapzR (l.map fun _ => c) l := by
  match l with
  | [] => simp [trapzR]
  | [x] => simp [trapzR]
  | x :: y :: l =>
    have := trapzR_add f g c (y :: l)
    simp only [List.map_cons, trapzR] at this ⊢
    rw [this]
    ring

theorem trapzR_mul (f : ℝ → ℝ) (c : ℝ) (l : List ℝ) :
    trapzR (l.map fun x => f x * c) l = trapzR (l.map f) l * c := by
  match l with
  | [] => simp [trapzR]
  | [x] => simp [trapzR]
  | x :: y :: l =>
    have := trapzR_mul f c (y :: l)
    simp only [List.map_cons, trapzR] at this ⊢
    rw [this]
    ring

theorem trapzR_const (c : ℝ) (x : ℝ) (l : List ℝ) :
    trapzR ((x :: l).map fun _ => c) (x :: l) = c * ((x :: l).getLast (by simp) - x) := by
  induction l generalizing x with
  | nil => simp [trapzR]
  | cons y l ih =>
    have := ih y
    simp only [List.map_cons, trapzR] at this ⊢
    rw [this, List.getLast_cons (a := x) (by simp)]
    ring

theorem trapz_monotone {f : ℝ → ℝ} (hf : Monotone f) {h : ℝ} (x : ℝ) (l : List ℝ) (hl : Gaps h (x :: l)) :
    x ≤ (x :: l).getLast (by simp) ∧
    |trapzR ((x :: l).map f) (x :: l) - ∫ t in x..(x :: l).getLast (by simp), f t| ≤
      h / 2 * (f ((x :: l).getLast (by simp)) - f x) := by
  induction l generalizing x with
  | nil => simp [trapzR]
  | cons y l ih =>
    obtain ⟨h1, h2, h3⟩ := hl
    obtain ⟨hle, ih⟩ := ih y h3
    rw [List.getLast_cons (by simp)]
    set z := (y :: l).getLast (by simp)
    refine ⟨h1.trans hle, ?_⟩
    simp only [List.map_cons, trapzR] at ih ⊢
    have hxy := hf h1
    have i1 : IntervalIntegrable f volume x y := hf.intervalIntegrable
    have i2 : IntervalIntegrable f volume y z := hf.intervalIntegrable
    rw [← integral_add_adjacent_intervals i1 i2]
    have lo : f x * (y - x) ≤ ∫ t in x..y, f t := by
      have := integral_mono_on h1 intervalIntegrable_const i1 (fun t ht => hf ht.1)
      rwa [intervalIntegral.integral_const, smul_eq_mul, mul_comm] at this
    have hi : ∫ t in x..y, f t ≤ f y * (y - x) := by
      have := integral_mono_on h1 i1 intervalIntegrable_const (fun t ht => hf ht.2)
      rwa [intervalIntegral.integral_const, smul_eq_mul, mul_comm] at this
    have hcell : (y - x) / 2 * (f y - f x) ≤ h / 2 * (f y - f x) :=
      mul_le_mul_of_nonneg_right (by linarith) (by linarith)
    rw [abs_le] at ih ⊢
    constructor <;> nlinarith [ih.1, ih.2]

theorem trapz_antitone {f : ℝ → ℝ} (hf : Antitone f) {h : ℝ} (x : ℝ) (l : List ℝ) (hl : Gaps h (x :: l)) :
    |trapzR ((x :: l).map f) (x :: l) - ∫ t in x..(x :: l).getLast (by simp), f t| ≤
      h / 2 * (f x - f ((x :: l).getLast (by simp))) := by
  have := (trapz_monotone (f := fun t => f t * (-1)) (fun a b hab => by simpa using hf hab) x l hl).2
  rw [trapzR_mul, intervalIntegral.integral_mul_const] at this
  rw [← abs_neg]
  calc _ = _ := by congr 1; ring
    _ ≤ _ := this
    _ = _ := by ring

/-- The trapezoid rule with spacing at most `h` for a function that rises to `f p` and falls afterwards. -/
theorem trapz_unimodal {f : ℝ → ℝ} {p : ℝ} (hup : MonotoneOn f (Set.Iic p)) (hdown : AntitoneOn f (Set.Ici p))
    (h0 : ∀ t, 0 ≤ f t) {h : ℝ} (hh : 0 ≤ h) (x : ℝ) (l : List ℝ) (hl : Gaps h (x :: l)) :
    |trapzR ((x :: l).map f) (x :: l) - ∫ t in x..(x :: l).getLast (by simp), f t| ≤ h * f p := by
  have hU : Monotone fun t => f (min t p) := fun a b hab =>
    hup (Set.mem_Iic.mpr (min_le_right _ _)) (Set.mem_Iic.mpr (min_le_right _ _)) (min_le_min_right _ hab)
  have hV : Antitone fun t => f (max t p) := fun a b hab =>
    hdown (Set.mem_Ici.mpr (le_max_right _ _)) (Set.mem_Ici.mpr (le_max_right _ _)) (max_le_max_right _ hab)
  have hf : f = fun t => f (min t p) + f (max t p) - f p := by
    funext t
    rcases le_total t p with ht | ht
    · rw [min_eq_left ht, max_eq_right ht]; ring
    · rw [min_eq_right ht, max_eq_left ht]; ring
  set z := (x :: l).getLast (by simp) with hz
  have e1 : trapzR ((x :: l).map f) (x :: l) = trapzR ((x :: l).map fun t => f (min t p)) (x :: l) +
      trapzR ((x :: l).map fun t => f (max t p)) (x :: l) - f p * (z - x) := by
    conv_lhs => rw [hf]
    rw [trapzR_add, trapzR_const]
  have e2 : ∫ t in x..z, f t = (∫ t in x..z, f (min t p)) + (∫ t in x..z, f (max t p)) - f p * (z - x) := by
    conv_lhs => rw [hf]
    rw [intervalIntegral.integral_sub (hU.intervalIntegrable.add hV.intervalIntegrable) intervalIntegrable_const,
      intervalIntegral.integral_add hU.intervalIntegrable hV.intervalIntegrable,
      intervalIntegral.integral_const, smul_eq_mul, mul_comm (z - x)]
  have b1 := (trapz_monotone hU x l hl).2
  have b2 := trapz_antitone hV x l hl
  rw [← hz] at b1 b2
  have c1 : f (min z p) - f (min x p) ≤ f p := by
    have := hup (Set.mem_Iic.mpr (min_le_right z p)) (Set.self_mem_Iic) (min_le_right z p)
    linarith [h0 (min x p)]
  have c2 : f (max x p) - f (max z p) ≤ f p := by
    have := hdown (Set.self_mem_Ici) (Set.mem_Ici.mpr (le_max_right x p)) (le_max_right x p)
    linarith [h0 (max z p)]
  rw [e1, e2]
  have d1 := mul_le_mul_of_nonneg_left c1 (by linarith : 0 ≤ h / 2)
  have d2 := mul_le_mul_of_nonneg_left c2 (by linarith : 0 ≤ h / 2)
  rw [abs_le] at b1 b2 ⊢
  constructor <;> linarith [b1.1, b1.2, b2.1, b2.2]

theorem gaps_range' {a d : ℝ} (hd : 0 ≤ d) (s n : ℕ) : Gaps d ((List.range' s n).map fun i : ℕ => a + i * d) := by
  induction n generalizing s with
  | zero => simp [Gaps]
  | succ n ih =>
    cases n with
    | zero => simp [Gaps]
    | succ n =>
      have := ih (s + 1)
      simp only [List.range'_succ, List.map_cons, Gaps] at this ⊢
      push_cast at this ⊢
      refine ⟨by nlinarith, by linarith, this⟩

theorem linspace_gaps {a b : ℝ} (hab : a ≤ b) {n : ℕ} (hn : 2 ≤ n) :
    Gaps ((b - a) / (n - 1)) (Np.linspace a b n) := by
  have h1 : (1 : ℝ) ≤ n - 1 := by
    have : (2 : ℝ) ≤ n := by exact_mod_cast hn
    linarith
  have e : Np.linspace a b n = (List.range' 0 n).map fun i : ℕ => a + i * ((b - a) / (n - 1)) := by
    rw [Np.linspace, List.range_eq_range']
    refine List.map_congr_left fun i _ => ?_
    rw [Np.linspaceAt, if_neg (by omega)]
  rw [e]
  exact gaps_range' (div_nonneg (by linarith) (by linarith)) 0 n

theorem linspace_ends {a b : ℝ} {n : ℕ} (hn : 2 ≤ n) :
    ∃ l, Np.linspace a b n = a :: l ∧ (a :: l).getLast (by simp) = b := by
  have h1 : (n : ℝ) - 1 ≠ 0 := by
    have : (2 : ℝ) ≤ n := by exact_mod_cast hn
    linarith
  obtain ⟨m, rfl⟩ : ∃ m, n = m + 1 := ⟨n - 1, by omega⟩
  have hm : m + 1 ≠ 1 := by omega
  refine ⟨((List.range m).map fun i => Np.linspaceAt a b (m + 1) (i + 1)), ?_, ?_⟩
  · rw [Np.linspace, List.range_succ_eq_map, List.map_cons, List.map_map]
    congr 1
    rw [Np.linspaceAt, if_neg hm]; simp
  · have hne : ((List.range m).map fun i => Np.linspaceAt a b (m + 1) (i + 1)) ≠ [] := by
      simp; omega
    rw [List.getLast_cons hne, List.getLast_map, List.getLast_range, Np.linspaceAt, if_neg hm]
    have : ((m - 1 + 1 : ℕ) : ℝ) = ((m + 1 : ℕ) : ℝ) - 1 := by
      rw [Nat.sub_add_cancel (by omega)]; push_cast; ring
    rw [this]
    field_simp
    ring

end Vsm
