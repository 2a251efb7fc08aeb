import Verif.Props.FloatFlare
import Verif.Props.FlareUse
import Verif.Props.FloatCircle

/-!
# C165: the time-area of a flare in double precision
-/

noncomputable section

namespace Vsm

open Real Spec

theorem trapzR_samples (g : ℝ → ℝ) : ∀ (n : ℕ) (t : ℕ → ℝ),
    trapzR (((List.range (n + 1)).map t).map g) ((List.range (n + 1)).map t) = ((List.range n).map fun i => (t (i + 1) - t i) * (g (t (i + 1)) + g (t i)) / 2).sum
  | 0, t => by simp [trapzR]
  | n + 1, t => by
    have ih := trapzR_samples g n fun i => t (i + 1)
    rw [List.range_succ_eq_map (n := n)]
    rw [show List.range (n + 1 + 1) = 0 :: 1 :: ((List.range n).map fun i => i + 2) by
      rw [List.range_succ_eq_map, List.range_succ_eq_map]; simp [Function.comp_def]]
    rw [show List.range (n + 1) = 0 :: ((List.range n).map fun i => i + 1) by rw [List.range_succ_eq_map]] at ih
    simp only [List.map_cons, List.map_map, List.sum_cons, trapzR, Function.comp_def, zero_add] at ih ⊢
    rw [ih, add_comm (g (t 0))]

theorem sum_diff (t : ℕ → ℝ) (n : ℕ) : ((List.range n).map fun i => t (i + 1) - t i).sum = t n - t 0 := by
  induction n with
  | zero => simp
  | succ n ih => rw [List.range_succ, List.map_append, List.sum_append, ih]; simp

theorem list_sum_le {ι : Type} (l : List ι) {f g : ι → ℝ} (h : ∀ i ∈ l, f i ≤ g i) : (l.map f).sum ≤ (l.map g).sum := by
  induction l with
  | nil => simp
  | cons a l ih =>
    simp only [List.map_cons, List.sum_cons]
    have := h a (by simp)
    have := ih fun i hi => h i (by simp [hi])
    linarith

theorem list_sum_abs {ι : Type} (l : List ι) {f g e : ι → ℝ} (h : ∀ i ∈ l, |f i - g i| ≤ e i) : |(l.map f).sum - (l.map g).sum| ≤ (l.map e).sum := by
  induction l with
  | nil => simp
  | cons a l ih =>
    simp only [List.map_cons, List.sum_cons]
    have h1 := abs_le.mp (h a (by simp))
    have h2 := abs_le.mp (ih fun i hi => h i (by simp [hi]))
    exact abs_le.mpr ⟨by linarith [h1.1, h2.1], by linarith [h1.2, h2.2]⟩

theorem pow_ulp {n : ℕ} (hn : n ≤ 2 ^ 50) : (1 + ulp) ^ n - 1 ≤ 2 * n * ulp := by
  have hu := ulp_pos
  have h1 : (1 + ulp) ^ n ≤ exp (n * ulp) := by
    rw [exp_nat_mul]
    gcongr
    linarith [add_one_le_exp ulp]
  have hn' : (n : ℝ) ≤ 2 ^ 50 := by exact_mod_cast hn
  have h2 : n * ulp ≤ 1 := by
    calc n * ulp ≤ 2 ^ 50 * ulp := by gcongr
      _ ≤ 1 := by unfold ulp; norm_num
  have h3 := abs_le.mp (abs_exp_sub_one_le (x := n * ulp) (by rw [abs_of_nonneg (by positivity)]; exact h2))
  rw [abs_of_nonneg (by positivity)] at h3
  linarith [h3.2]

/-- The sample taken at phase `x` is within rounding of one of the two ends of the flare. -/
def Spec.AtEnd (x : ℝ) : Prop := |x + 1| < 1 / 2 ^ 50 ∨ |x - 20| < 1 / 2 ^ 46

open Classical in
/-- **C165** The time-area of a flare in double precision.  For times `t 0 ≤ … ≤ t n` in days and any order of summation, the computed time-area is not negative
and differs from the exact one (24 times the value in km² days) by at most `24 P ((2⁻⁴² + 2⁻⁵⁰ depth) (t n - t 0) + 0.0055 Δ)`, where `P` is the peak area,
`depth` the largest number of additions an entry takes part in and `Δ` the total length of the intervals one of whose ends falls within rounding of an end of
the flare. -/
theorem C165_timearea_rounding (E : ExpPow) (hE : AccuratePow E) (c : ℝ) (hc : |c - km2Factor| ≤ km2Factor / 2 ^ 47) (f : StellarFlare) (e : ℝ) (he : f.energy = .fin e)
    (he0 : 0 ≤ e) (hw : 0 < f.fwhm) (hT : f.teff ≠ 0) (n : ℕ) (t : ℕ → ℝ) (ht : ∀ i < n, t i ≤ t (i + 1)) (T : SumTree ℕ) (hperm : T.leaves.Perm (List.range n))
    (hdepth : T.depth ≤ 2 ^ 40) :
    ∃ P X, f.peakArea = .fin P ∧ f.timearea ((List.range (n + 1)).map t) = .fin X ∧ 0 ≤ E.timearea c e f.teff f.fwhm f.tpeak t T ∧
      |E.timearea c e f.teff f.fwhm f.tpeak t T - 24 * X| ≤ 24 * P * ((1 / 2 ^ 42 + 1 / 2 ^ 50 * T.depth) * (t n - t 0) +
        0.0055 * ((List.range n).map fun i => if AtEnd ((t i - f.tpeak) / f.fwhm) ∨ AtEnd ((t (i + 1) - f.tpeak) / f.fwhm) then t (i + 1) - t i else 0).sum) := by
  have hu := ulp_pos
  have hs := ulp_small
  obtain ⟨P, hP, -, -, hcurve⟩ := C163_flare_rounding E hE c hc f e he he0 hw hT
  choose a ha hab using hcurve
  have hP0 : 0 ≤ P := by
    have h1 := peakArea_fin he hw hT
    rw [hP, Fl.fin_inj] at h1
    rw [h1]
    have := sigmaSB_pos
    have := unitIntegral_pos
    positivity
  have haP : ∀ s, 0 ≤ a s ∧ a s ≤ P := by
    intro s
    have h1 : f.areaAt s = .fin (template ((s - f.tpeak) / f.fwhm) * P) := by
      unfold StellarFlare.areaAt
      rw [hP]
      exact lightCurve_single hw _ _ _
    rw [ha, Fl.fin_inj] at h1
    have := template_bounds ((s - f.tpeak) / f.fwhm)
    rw [h1]
    exact ⟨mul_nonneg this.1 hP0, by nlinarith⟩
  refine ⟨P, _, hP, timearea_fin ha _, ?_⟩
  rw [trapzR_samples]
  unfold ExpPow.timearea
  simp only
  set y := fun s => E.areaAt c e f.teff f.fwhm f.tpeak s with hy
  set x : ℕ → ℝ := fun i => dbl (dbl (dbl (t (i + 1) - t i) * dbl (y (t (i + 1)) + y (t i))) / 2) with hx
  set L := t n - t 0 with hL
  have hy0 : ∀ s, 0 ≤ y s := fun s => (hab s).1
  have hy1 : ∀ s, y s ≤ 1.0055 * P := fun s => by
    have := (abs_le.mp (hab s).2.1).2
    have := (haP s).2
    change y s ≤ _
    linarith
  -- a single interval
  set z : ℕ → ℝ := fun i => (t (i + 1) - t i) * (y (t (i + 1)) + y (t i)) / 2 with hz
  have hzr : ∀ i, Rel 10 (x i) (z i) := by
    intro i
    have h1 := ((((rel_dbl (t (i + 1) - t i)).mul (rel_dbl (y (t (i + 1)) + y (t i))) (by norm_num) (by norm_num)).dbl (by norm_num)))
    have h2 := h1.div (Rel.refl (2 : ℝ)) (by norm_num) (by norm_num) (by norm_num) (by norm_num) two_ne_zero
    exact ((h2.dbl (by norm_num))).mono (by norm_num)
  have hx0 : ∀ i < n, 0 ≤ x i := fun i hi =>
    dbl_nonneg (div_nonneg (dbl_nonneg (mul_nonneg (dbl_nonneg (sub_nonneg.mpr (ht i hi))) (dbl_nonneg (add_nonneg (hy0 _) (hy0 _))))) (by norm_num))
  have hz1 : ∀ i < n, |z i| ≤ 1.0055 * P * (t (i + 1) - t i) := by
    intro i hi
    have h1 := sub_nonneg.mpr (ht i hi)
    have h2 := hy0 (t i)
    have h3 := hy0 (t (i + 1))
    rw [hz, abs_of_nonneg (by positivity)]
    have := hy1 (t i)
    have := hy1 (t (i + 1))
    have : (t (i + 1) - t i) * (y (t (i + 1)) + y (t i)) ≤ (t (i + 1) - t i) * (2 * (1.0055 * P)) := by gcongr; linarith
    simp only
    linarith
  have hxz : ∀ i ∈ List.range n, |x i - z i| ≤ 11 * ulp * P * (t (i + 1) - t i) := by
    intro i hi
    have hi := List.mem_range.mp hi
    have h1 := (hzr i).err (hz1 i hi) (by norm_num)
    have h2 := sub_nonneg.mpr (ht i hi)
    have : 0 ≤ ulp * P * (t (i + 1) - t i) := by positivity
    linarith
  set end' : ℕ → Prop := fun i => AtEnd ((t i - f.tpeak) / f.fwhm) ∨ AtEnd ((t (i + 1) - f.tpeak) / f.fwhm) with hend
  have hya : ∀ s, ¬ AtEnd ((s - f.tpeak) / f.fwhm) → |y s - a s| ≤ P / 2 ^ 43 := by
    intro s hs
    unfold AtEnd at hs
    push Not at hs
    exact ((hab s).2.2 hs.1 hs.2).1
  have n43 : P / 2 ^ 43 = 1024 * ulp * P := by unfold ulp; ring
  have hzz : ∀ i ∈ List.range n, |z i - (t (i + 1) - t i) * (a (t (i + 1)) + a (t i)) / 2| ≤
      1024 * ulp * P * (t (i + 1) - t i) + 0.0055 * P * (if end' i then t (i + 1) - t i else 0) := by
    intro i hi
    have hi := List.mem_range.mp hi
    have h1 := sub_nonneg.mpr (ht i hi)
    have e1 : z i - (t (i + 1) - t i) * (a (t (i + 1)) + a (t i)) / 2 = (t (i + 1) - t i) * (((y (t (i + 1)) - a (t (i + 1))) + (y (t i) - a (t i))) / 2) := by
      rw [hz]; ring
    rw [e1, abs_mul, abs_of_nonneg h1]
    have huP : 0 ≤ ulp * P * (t (i + 1) - t i) := by positivity
    by_cases h : end' i
    · rw [if_pos h]
      have b1 := abs_le.mp (hab (t i)).2.1
      have b2 := abs_le.mp (hab (t (i + 1))).2.1
      have : |((y (t (i + 1)) - a (t (i + 1))) + (y (t i) - a (t i))) / 2| ≤ 0.0055 * P := by
        change -(0.0055 * P) ≤ y (t i) - a (t i) ∧ y (t i) - a (t i) ≤ _ at b1
        change -(0.0055 * P) ≤ y (t (i + 1)) - a (t (i + 1)) ∧ y (t (i + 1)) - a (t (i + 1)) ≤ _ at b2
        exact abs_le.mpr ⟨by linarith [b1.1, b2.1], by linarith [b1.2, b2.2]⟩
      have := mul_le_mul_of_nonneg_left this h1
      linarith
    · rw [if_neg h]
      have h' := not_or.mp h
      have b1 := abs_le.mp (hya _ h'.1)
      have b2 := abs_le.mp (hya _ h'.2)
      rw [n43] at b1 b2
      have : |((y (t (i + 1)) - a (t (i + 1))) + (y (t i) - a (t i))) / 2| ≤ 1024 * ulp * P :=
        abs_le.mpr ⟨by linarith [b1.1, b2.1], by linarith [b1.2, b2.2]⟩
      have := mul_le_mul_of_nonneg_left this h1
      linarith
  -- the sums
  have hsum : ((List.range n).map fun i => t (i + 1) - t i).sum = L := sum_diff t n
  have hL0 : 0 ≤ L := by
    rw [← hsum]
    exact List.sum_nonneg (by
      intro v hv
      obtain ⟨i, hi, rfl⟩ := List.mem_map.mp hv
      exact sub_nonneg.mpr (ht i (List.mem_range.mp hi)))
  set Δ := ((List.range n).map fun i => if end' i then t (i + 1) - t i else 0).sum with hΔ
  set X := ((List.range n).map fun i => (t (i + 1) - t i) * (a (t (i + 1)) + a (t i)) / 2).sum with hX
  have k1 : |((List.range n).map x).sum - X| ≤ 1035 * ulp * P * L + 0.0055 * P * Δ := by
    refine (list_sum_abs (List.range n) (e := fun i => 1035 * ulp * P * (t (i + 1) - t i) + 0.0055 * P * (if end' i then t (i + 1) - t i else 0)) ?_).trans ?_
    · intro i hi
      refine (abs_sub_le _ (z i) _).trans ?_
      have := hxz i hi
      have := hzz i hi
      linarith
    · rw [List.sum_map_add, List.sum_map_mul_left, List.sum_map_mul_left, hsum]
  have k2 : ((List.range n).map fun i => |x i|).sum ≤ 1.01 * P * L := by
    refine (list_sum_le (List.range n) (g := fun i => 1.01 * P * (t (i + 1) - t i)) ?_).trans ?_
    · intro i hi
      have h1 := hxz i hi
      have hi' := List.mem_range.mp hi
      have h2 := hz1 i hi'
      have h3 := abs_sub_abs_le_abs_sub (x i) (z i)
      have h4 := sub_nonneg.mpr (ht i hi')
      have : ulp * (P * (t (i + 1) - t i)) ≤ 1 / 10 ^ 15 * (P * (t (i + 1) - t i)) := by gcongr
      have : 0 ≤ P * (t (i + 1) - t i) := by positivity
      linarith
    · rw [List.sum_map_mul_left, hsum]
  have k3 := tree_err x T
  rw [(hperm.map x).sum_eq, (hperm.map fun i => |x i|).sum_eq] at k3
  have k4 := pow_ulp (hdepth.trans (by norm_num))
  have hPL : 0 ≤ P * L := by positivity
  have hd0 : (0 : ℝ) ≤ T.depth := Nat.cast_nonneg _
  have hdb : (T.depth : ℝ) ≤ 2 ^ 40 := by exact_mod_cast hdepth
  have k5 : |T.sum x - ((List.range n).map x).sum| ≤ 2 * T.depth * ulp * (1.01 * P * L) := by
    refine k3.trans ?_
    have h0 : 0 ≤ ((List.range n).map fun i => |x i|).sum := List.sum_nonneg (by simp)
    gcongr
  have hS0 : 0 ≤ T.sum x := by
    have : ∀ T : SumTree ℕ, (∀ i ∈ T.leaves, 0 ≤ x i) → 0 ≤ T.sum x := by
      intro T
      induction T with
      | leaf i => intro h; exact h i (by simp [SumTree.leaves])
      | node l r hl hr =>
        intro h
        simp only [SumTree.leaves, List.mem_append] at h
        exact dbl_nonneg (add_nonneg (hl fun i hi => h i (Or.inl hi)) (hr fun i hi => h i (Or.inr hi)))
    exact this T fun i hi => hx0 i (List.mem_range.mp (hperm.mem_iff.mp hi))
  have k6 : T.sum x ≤ 1.1 * P * L := by
    have h1 : ((List.range n).map x).sum ≤ ((List.range n).map fun i => |x i|).sum := list_sum_le _ fun i _ => le_abs_self _
    have h2 := (abs_le.mp k5).2
    have h3 : T.depth * ulp ≤ 1 / 1000 := by
      calc T.depth * ulp ≤ 2 ^ 40 * ulp := by gcongr
        _ ≤ _ := by unfold ulp; norm_num
    have h4 : T.depth * ulp * (P * L) ≤ 1 / 1000 * (P * L) := by gcongr
    linarith
  refine ⟨dbl_nonneg (by positivity), ?_⟩
  have k7 : |24 * T.sum x - 24 * X| ≤ 24 * (1035 * ulp * P * L + 0.0055 * P * Δ + 2 * T.depth * ulp * (1.01 * P * L)) := by
    rw [← mul_sub, abs_mul, abs_of_pos (by norm_num : (0 : ℝ) < 24)]
    gcongr
    refine (abs_sub_le _ (((List.range n).map x).sum) _).trans ?_
    linarith
  have k8 := dbl_near (B := 24 * (1.1 * P * L)) k7 (by rw [abs_of_nonneg (by positivity)]; gcongr)
  refine k8.trans ?_
  have u42 : (1 : ℝ) / 2 ^ 42 = 2048 * ulp := by unfold ulp; norm_num
  have u50 : (1 : ℝ) / 2 ^ 50 = 8 * ulp := by unfold ulp; norm_num
  rw [u42, u50]
  have h1 : 0 ≤ ulp * (P * L) := by positivity
  have h2 : 0 ≤ T.depth * (ulp * (P * L)) := by positivity
  linarith

/-- Non-trivial instance of C165: three samples within a quarter of an hour after the peak of a flare. -/
example : ∃ P X, (⟨0.1, .fin 1e33, 0, 0, 9000, 3⟩ : StellarFlare).peakArea = .fin P ∧
    (⟨0.1, .fin 1e33, 0, 0, 9000, 3⟩ : StellarFlare).timearea [3, 3.005, 3.01] = .fin X ∧
    |ExpPow.rounded.timearea (dbl km2Factor) 1e33 9000 0.1 3 (fun i => 3 + i * 0.005) (.node (.leaf 0) (.leaf 1)) - 24 * X| ≤ P / 2 ^ 43 := by
  have hu := ulp_pos
  have hk : 0 < km2Factor := by unfold km2Factor; norm_num
  obtain ⟨P, X, h1, h2, -, h4⟩ := C165_timearea_rounding ExpPow.rounded rounded_accuratePow (dbl km2Factor) (by
    refine (dbl_err _).trans ?_
    rw [abs_of_pos hk, div_eq_mul_one_div]
    gcongr
    unfold ulp; norm_num) ⟨0.1, .fin 1e33, 0, 0, 9000, 3⟩ 1e33 rfl (by norm_num) (by norm_num) (by norm_num) 2 (fun i => 3 + i * 0.005)
    (fun i _ => by push_cast; linarith) (.node (.leaf 0) (.leaf 1)) (by simp [SumTree.leaves, List.range_succ]) (by simp [SumTree.depth])
  have hl : (List.range (2 + 1)).map (fun i : ℕ => (3 + i * 0.005 : ℝ)) = [3, 3.005, 3.01] := by simp [List.range_succ]; norm_num
  rw [hl] at h2
  refine ⟨P, X, h1, h2, h4.trans ?_⟩
  have hP0 : 0 ≤ P := by
    have h := peakArea_fin (f := ⟨0.1, .fin 1e33, 0, 0, 9000, 3⟩) (e := 1e33) rfl (by norm_num) (by norm_num)
    rw [h1, Fl.fin_inj] at h
    rw [h]
    have := sigmaSB_pos
    have := unitIntegral_pos
    positivity
  have he : ∀ x : ℝ, 0 ≤ x → x ≤ 1 → ¬ AtEnd x := by
    intro x hx hx1 h
    rcases h with h | h
    · have := (abs_lt.mp h).2
      norm_num at this
      linarith
    · have := (abs_lt.mp h).1
      norm_num at this
      linarith
  have e0 : ¬ AtEnd ((3 + ((0 : ℕ) : ℝ) * 0.005 - 3) / 0.1) := he _ (by norm_num) (by norm_num)
  have e1 : ¬ AtEnd ((3 + ((0 + 1 : ℕ) : ℝ) * 0.005 - 3) / 0.1) := he _ (by norm_num) (by norm_num)
  have e3 : ¬ AtEnd ((3 + ((1 + 1 : ℕ) : ℝ) * 0.005 - 3) / 0.1) := he _ (by norm_num) (by norm_num)
  simp only [List.range_succ, List.range_zero, List.nil_append, List.map_append, List.map_cons, List.map_nil, List.sum_append, List.sum_cons, List.sum_nil,
    e0, e1, e3, or_self, if_false, SumTree.depth]
  norm_num
  linarith

end Vsm
