import Verif.Model.FloatEnergy
import Verif.Props.FloatCircleGen
import Verif.Props.FloatFlare
import Verif.Props.Chance

/-!
# C175: random draws of flares in double precision
-/

noncomputable section

namespace Vsm

open Real Spec

/-- Powers with a relative error of at most `2^-52` that do not fall below 1 where the exact power does not. -/
def Spec.AccurateReal (L : RealPow) : Prop :=
  ∀ x y, 0 < x → |L.pow x y - x ^ y| ≤ x ^ y * (1 / 2 ^ 52) ∧ (1 ≤ x ^ y → 1 ≤ L.pow x y)

/-! ## Rounding is monotone -/

theorem dbl_range {x : ℝ} (hx : 0 < x) : (2 : ℝ) ^ Int.log 2 x ≤ dbl x ∧ dbl x ≤ 2 ^ (Int.log 2 x + 1) := by
  set e := Int.log 2 x with he
  have h1 : (2 : ℝ) ^ e ≤ x := by
    have := Int.zpow_log_le_self (b := 2) (by norm_num) hx
    push_cast at this; exact this
  have h2 : x < (2 : ℝ) ^ (e + 1) := by
    have := Int.lt_zpow_succ_log_self (b := 2) (by norm_num) x
    push_cast at this; exact this
  have hp : (0 : ℝ) < 2 ^ (e - 52) := by positivity
  have e0 : dbl x = Np.roundHalfEven (x / 2 ^ (e - 52)) * 2 ^ (e - 52) := by
    unfold dbl roundBits
    simp only
    rw [abs_of_pos hx, ← he, show e - (((53 : ℕ) : ℤ) - 1) = e - 52 by push_cast; ring]
  have a1 : ((2 ^ 52 : ℤ) : ℝ) ≤ x / 2 ^ (e - 52) := by
    rw [le_div_iff₀ hp]
    have : ((2 ^ 52 : ℤ) : ℝ) * 2 ^ (e - 52) = 2 ^ e := by
      rw [zpow_sub₀ (by norm_num)]; push_cast; norm_num; ring
    rw [this]; exact h1
  have a2 : x / 2 ^ (e - 52) ≤ ((2 ^ 53 : ℤ) : ℝ) := by
    rw [div_le_iff₀ hp]
    have : ((2 ^ 53 : ℤ) : ℝ) * 2 ^ (e - 52) = 2 ^ (e + 1) := by
      rw [zpow_sub₀ (by norm_num), zpow_add₀ (by norm_num)]; push_cast; norm_num; ring
    rw [this]; exact h2.le
  have k1 := Np.roundHalfEven_mono a1
  have k2 := Np.roundHalfEven_mono a2
  rw [Np.roundHalfEven_int] at k1 k2
  have k1' : ((2 ^ 52 : ℤ) : ℝ) ≤ Np.roundHalfEven (x / 2 ^ (e - 52)) := by exact_mod_cast k1
  have k2' : (Np.roundHalfEven (x / 2 ^ (e - 52)) : ℝ) ≤ ((2 ^ 53 : ℤ) : ℝ) := by exact_mod_cast k2
  rw [e0]
  constructor
  · calc (2 : ℝ) ^ e = ((2 ^ 52 : ℤ) : ℝ) * 2 ^ (e - 52) := by rw [zpow_sub₀ (by norm_num)]; push_cast; norm_num; ring
      _ ≤ _ := by gcongr
  · calc _ ≤ ((2 ^ 53 : ℤ) : ℝ) * 2 ^ (e - 52) := by gcongr
      _ = _ := by rw [zpow_sub₀ (by norm_num), zpow_add₀ (by norm_num)]; push_cast; norm_num; ring

theorem dbl_mono {x y : ℝ} (hx : 0 < x) (h : x ≤ y) : dbl x ≤ dbl y := by
  have hy : 0 < y := hx.trans_le h
  have hl : Int.log 2 x ≤ Int.log 2 y := Int.log_mono_right hx h
  rcases hl.eq_or_lt with he | hlt
  · unfold dbl roundBits
    simp only
    rw [abs_of_pos hx, abs_of_pos hy, he]
    have hp : (0 : ℝ) < 2 ^ (Int.log 2 y - (((53 : ℕ) : ℤ) - 1)) := by positivity
    have : Np.roundHalfEven (x / 2 ^ (Int.log 2 y - (((53 : ℕ) : ℤ) - 1))) ≤ Np.roundHalfEven (y / 2 ^ (Int.log 2 y - (((53 : ℕ) : ℤ) - 1))) :=
      Np.roundHalfEven_mono (by gcongr)
    have : (Np.roundHalfEven (x / 2 ^ (Int.log 2 y - (((53 : ℕ) : ℤ) - 1))) : ℝ) ≤ Np.roundHalfEven (y / 2 ^ (Int.log 2 y - (((53 : ℕ) : ℤ) - 1))) := by
      exact_mod_cast this
    gcongr
  · exact (dbl_range hx).2.trans ((zpow_le_zpow_right₀ (by norm_num) (by omega)).trans (dbl_range hy).1)

theorem rounded_accurateReal : AccurateReal RealPow.rounded := by
  intro x y hx
  have hp : 0 < x ^ y := rpow_pos_of_pos hx y
  refine ⟨(dbl_err _).trans ?_, fun h => ?_⟩
  · rw [abs_of_pos hp]
    unfold ulp; gcongr <;> norm_num
  · have := dbl_mono one_pos h
    rwa [dbl_one] at this

/-! ## Exact operations -/

/-- Multiples of `2^-53` up to 1 are doubles. -/
theorem dbl_unit (n : ℤ) (h : |n| ≤ 2 ^ 53) : dbl (n / 2 ^ 53) = n / 2 ^ 53 := by
  rcases eq_or_ne n 0 with rfl | hn
  · simp [dbl_zero]
  have hn' : (n : ℝ) ≠ 0 := by exact_mod_cast hn
  set x : ℝ := n / 2 ^ 53 with hx
  have hx0 : 0 < |x| := abs_pos.mpr (by rw [hx]; positivity)
  have hx1 : |x| ≤ 1 := by
    rw [hx, abs_div, abs_of_pos (show (0 : ℝ) < 2 ^ 53 by positivity), div_le_one (by positivity)]
    exact_mod_cast h
  have hl : Int.log 2 |x| ≤ 0 := by
    have := Int.log_mono_right (b := 2) hx0 hx1
    rwa [Int.log_one_right] at this
  have hint : ∃ k : ℤ, x / (2 : ℝ) ^ (Int.log 2 |x| - (((53 : ℕ) : ℤ) - 1)) = k := by
    rcases hl.eq_or_lt with h0 | hneg
    · have h1 : 1 ≤ |x| := by
        have := Int.zpow_log_le_self (b := 2) (by norm_num) hx0
        rw [h0] at this; simpa using this
      have : |x| = 1 := le_antisymm hx1 h1
      rw [h0]
      rcases eq_or_eq_neg_of_abs_eq this with h' | h'
      · exact ⟨2 ^ 52, by rw [h']; norm_num⟩
      · exact ⟨-2 ^ 52, by rw [h']; norm_num⟩
    · obtain ⟨j, hj⟩ := Int.eq_ofNat_of_zero_le (show 0 ≤ -1 - Int.log 2 |x| by omega)
      refine ⟨n * 2 ^ j, ?_⟩
      have : Int.log 2 |x| - (((53 : ℕ) : ℤ) - 1) = -(j : ℤ) - 53 := by push_cast; omega
      rw [this, hx, zpow_sub₀ (by norm_num), zpow_neg]
      push_cast
      field_simp
      norm_num
  obtain ⟨k, hk⟩ := hint
  unfold dbl roundBits
  simp only
  rw [hk, Np.roundHalfEven_int, ← hk]
  field_simp

theorem dbl_one_sub {k : ℕ} (h : k < 2 ^ 53) : dbl (1 - randomDouble k) = 1 - randomDouble k := by
  have e : 1 - randomDouble k = ((2 ^ 53 - k : ℤ) : ℝ) / 2 ^ 53 := by unfold randomDouble; push_cast; ring
  rw [e]
  refine dbl_unit _ ?_
  rw [abs_of_nonneg (by norm_num at h ⊢; omega)]
  omega

theorem dbl_centre {k : ℕ} (h : k < 2 ^ 53) : dbl (dbl (2 * randomDouble k) - 1) = 2 * randomDouble k - 1 := by
  have e : dbl (2 * randomDouble k) = 2 * randomDouble k := by
    have := dbl_unit k (by rw [abs_of_nonneg (by omega)]; norm_num at h ⊢; omega)
    rcases Nat.eq_zero_or_pos k with rfl | hk
    · simp [randomDouble, dbl_zero]
    rw [dbl_double (by unfold randomDouble; positivity), show randomDouble k = ((k : ℤ) : ℝ) / 2 ^ 53 by simp [randomDouble], this]
  rw [e]
  have e : 2 * randomDouble k - 1 = ((2 * k - 2 ^ 53 : ℤ) : ℝ) / 2 ^ 53 := by unfold randomDouble; push_cast; ring
  rw [e]
  refine dbl_unit _ ?_
  rw [abs_le]
  norm_num at h ⊢
  omega

/-! ## The energies -/

theorem unit_range {k : ℕ} (h : k < 2 ^ 53) : 1 / 2 ^ 53 ≤ 1 - randomDouble k ∧ 1 - randomDouble k ≤ 1 := by
  have h' : (k : ℝ) + 1 ≤ 2 ^ 53 := by exact_mod_cast h
  unfold randomDouble
  constructor
  · rw [le_sub_iff_add_le, ← add_div, div_le_one (by positivity)]; linarith
  · have : (0 : ℝ) ≤ (k : ℝ) / 2 ^ 53 := by positivity
    linarith

/-- A base between `2^-53` and 1 with the exponent rounded. -/
theorem exponent_rel {y a : ℝ} (h0 : 1 / 2 ^ 53 ≤ y) (h1 : y ≤ 1) (ha : a ≤ -1 / 10) : Rel (74 / |a|) (y ^ dbl (1 / a)) (y ^ (1 / a)) := by
  have hy : 0 < y := lt_of_lt_of_le (by positivity) h0
  have ha0 : 0 < |a| := abs_pos.mpr (by linarith)
  have ha1 : 1 / 10 ≤ |a| := by rw [abs_of_neg (by linarith)]; linarith
  have hu := ulp_pos
  have hs := ulp_small
  have hp : 0 < y ^ (1 / a) := rpow_pos_of_pos hy _
  have hlog : |log y| ≤ 36.8 := by
    rw [abs_of_nonpos (log_nonpos hy.le h1)]
    have := log_le_log (by positivity) h0
    rw [one_div, log_inv, log_pow] at this
    have := log_two_lt_d9
    push_cast at *
    linarith
  set d := (dbl (1 / a) - 1 / a) * log y with hd
  have hdabs : |d| ≤ 36.8 / |a| * ulp := by
    rw [hd, abs_mul]
    have h := dbl_err (1 / a)
    rw [abs_div, abs_one] at h
    calc _ ≤ (1 / |a| * ulp) * 36.8 := mul_le_mul h hlog (abs_nonneg _) (by positivity)
      _ = _ := by ring
  have hsmall : |d| ≤ 1 / 1000 := by
    refine hdabs.trans ?_
    have : 36.8 / |a| ≤ 368 := by rw [div_le_iff₀ ha0]; linarith
    calc _ ≤ 368 * (1 / 10 ^ 15 : ℝ) := by gcongr
      _ ≤ _ := by norm_num
  have e : y ^ dbl (1 / a) = y ^ (1 / a) * exp d := by
    rw [hd, rpow_def_of_pos hy, rpow_def_of_pos hy, ← exp_add]
    congr 1; ring
  unfold Rel
  rw [e, show y ^ (1 / a) * exp d - y ^ (1 / a) = (exp d - 1) * y ^ (1 / a) by ring, abs_mul]
  gcongr
  have h2 : |exp d - 1| ≤ 2 * |d| := abs_exp_sub_one_le (by linarith)
  calc _ ≤ 2 * (36.8 / |a| * ulp) := h2.trans (by gcongr)
    _ ≤ _ := by
        rw [← mul_assoc, ← mul_div_assoc]
        gcongr
        norm_num

theorem quantile_rel {L : RealPow} (hL : AccurateReal L) {m a : ℝ} (ha : a ≤ -1 / 10) {k : ℕ} (h : k < 2 ^ 53) :
    Rel (74 / |a| + 6) (L.quantile m a (randomDouble k)) (m * (1 - randomDouble k) ^ (1 / a)) := by
  obtain ⟨h0, h1⟩ := unit_range h
  have hy : 0 < 1 - randomDouble k := lt_of_lt_of_le (by positivity) h0
  have ha0 : 0 < |a| := abs_pos.mpr (by linarith)
  have ha1 : 1 / 10 ≤ |a| := by rw [abs_of_neg (by linarith)]; linarith
  have hk : 74 / |a| ≤ 740 := by rw [div_le_iff₀ ha0]; linarith
  have hk0 : 0 ≤ 74 / |a| := by positivity
  have hp : Rel 2 (L.pow (1 - randomDouble k) (dbl (1 / a))) ((1 - randomDouble k) ^ dbl (1 / a)) := by
    have := (hL _ (dbl (1 / a)) hy).1
    rw [two_ulp] at this
    unfold Rel
    rw [abs_of_pos (rpow_pos_of_pos hy (dbl (1 / a)))]
    linarith
  have h2 := hp.trans (exponent_rel h0 h1 ha) (by norm_num) (by norm_num) (by linarith)
  unfold RealPow.quantile
  rw [dbl_one_sub h]
  exact (((Rel.refl m).mul h2 (by norm_num) (by linarith)).dbl (by linarith)).mono (by linarith)

theorem nexp_rel {L : RealPow} (hL : AccurateReal L) (a b t : ℝ) {e : ℝ} (he : 0 < e) : Rel 10 (L.nexp a b e t) (10 ^ b * e ^ a * t) := by
  have hp : ∀ x y : ℝ, 0 < x → Rel 2 (L.pow x y) (x ^ y) := by
    intro x y hx
    have := (hL x y hx).1
    rw [two_ulp] at this
    unfold Rel
    rw [abs_of_pos (rpow_pos_of_pos hx y)]
    linarith
  have h1 := ((hp 10 b (by norm_num)).mul (hp e a he) (by norm_num) (by norm_num)).dbl (by norm_num)
  have h2 := ((h1.mul (Rel.refl t) (by norm_num) (by norm_num)).dbl (by norm_num))
  unfold RealPow.nexp RealPow.frequency
  exact h2.mono (by norm_num)

/-! ## Counting draws -/

/-- The number of draws for which `1 - x` is below `p`. -/
theorem draws_below {p : ℝ} (h0 : 0 ≤ p) (h1 : p ≤ 1) :
    (((Finset.range (2 ^ 53)).filter fun k => 1 - randomDouble k < p).card : ℝ) ≤ p * 2 ^ 53 ∧
    p * 2 ^ 53 - 1 ≤ ((Finset.range (2 ^ 53)).filter fun k => 1 - randomDouble k < p).card := by
  have key : ((Finset.range (2 ^ 53)).filter fun k => 1 - randomDouble k < p).card = ⌈p * 2 ^ 53⌉₊ - 1 := by
    have e : ((Finset.range (2 ^ 53)).filter fun k => 1 - randomDouble k < p) = (Finset.Ico 1 ⌈p * 2 ^ 53⌉₊).image fun j => 2 ^ 53 - j := by
      have hc : ⌈p * 2 ^ 53⌉₊ ≤ 2 ^ 53 := by
        rw [Nat.ceil_le]; push_cast
        have : (0 : ℝ) < 2 ^ 53 := by positivity
        nlinarith
      ext k
      simp only [Finset.mem_filter, Finset.mem_range, Finset.mem_image, Finset.mem_Ico, Nat.lt_ceil]
      have hlt : ∀ j : ℕ, j < 2 ^ 53 → (1 - randomDouble j < p ↔ ((2 ^ 53 - j : ℕ) : ℝ) < p * 2 ^ 53) := by
        intro j hj
        rw [Nat.cast_sub hj.le]
        unfold randomDouble
        rw [← div_lt_iff₀ (by positivity), sub_div, show ((2 ^ 53 : ℕ) : ℝ) / 2 ^ 53 = 1 by norm_num]
      constructor
      · rintro ⟨hk, hp⟩
        exact ⟨2 ^ 53 - k, ⟨by omega, (hlt k hk).mp hp⟩, by omega⟩
      · rintro ⟨j, ⟨hj1, hj⟩, rfl⟩
        have hj2 : j < 2 ^ 53 := lt_of_lt_of_le (Nat.lt_ceil.mpr hj) hc
        refine ⟨by omega, (hlt _ (by omega)).mpr ?_⟩
        rwa [show 2 ^ 53 - (2 ^ 53 - j) = j by omega]
    rw [e, Finset.card_image_of_injOn, Nat.card_Ico]
    intro i hi j hj hij
    have hc : ⌈p * 2 ^ 53⌉₊ ≤ 2 ^ 53 := by
      rw [Nat.ceil_le]; push_cast
      have : (0 : ℝ) < 2 ^ 53 := by positivity
      nlinarith
    simp only [Finset.coe_Ico, Set.mem_Ico] at hi hj
    simp only at hij
    omega
  rw [key]
  have hn : 0 ≤ p * 2 ^ 53 := by positivity
  have h2 := Nat.le_ceil (p * 2 ^ 53)
  have h3 := Nat.ceil_lt_add_one hn
  rcases Nat.eq_zero_or_pos ⌈p * 2 ^ 53⌉₊ with hz | hpos
  · rw [hz] at h2 ⊢
    push_cast at h2 ⊢
    constructor <;> linarith
  · rw [Nat.cast_sub hpos]
    push_cast
    constructor <;> linarith

/-- **C175** The energies of flares in double precision.  For every number that numpy's generator can return, `quantile_func` in double
precision differs from the exact quantile by at most the relative error stated, is not below the minimum energy, and the largest energy that
can ever be drawn is `min_energy·2^(53/|α|)` up to that error. -/
theorem C175_energies (L : RealPow) (hL : AccurateReal L) (G : FlareGenerator) (m : ℝ) (hm : G.minEnergy = .fin m) (hm0 : 0 < m) (hd : dbl m = m)
    (ha : G.alpha ≤ -1 / 10) (k : ℕ) (hk : k < 2 ^ 53) : ∃ e : ℝ, G.quantile [randomDouble k] = .ok [.fin e] ∧
      |L.quantile m G.alpha (randomDouble k) - e| ≤ e * ((74 / |G.alpha| + 6) / 2 ^ 53) ∧ m ≤ L.quantile m G.alpha (randomDouble k) ∧
      L.quantile m G.alpha (randomDouble k) ≤ m * 2 ^ (53 / |G.alpha|) * (1 + (74 / |G.alpha| + 6) / 2 ^ 53) := by
  obtain ⟨h0, h1⟩ := unit_range hk
  have hy : 0 < 1 - randomDouble k := lt_of_lt_of_le (by positivity) h0
  have hx0 : 0 ≤ randomDouble k := by unfold randomDouble; positivity
  have ha' : G.alpha < 0 := by linarith
  have hp : 0 < (1 - randomDouble k) ^ (1 / G.alpha) := rpow_pos_of_pos hy _
  set e := m * (1 - randomDouble k) ^ (1 / G.alpha) with he
  have he0 : 0 < e := by positivity
  have hrel := quantile_rel hL (m := m) ha hk
  unfold Rel at hrel
  rw [← he, abs_of_pos he0] at hrel
  have herr : |L.quantile m G.alpha (randomDouble k) - e| ≤ e * ((74 / |G.alpha| + 6) / 2 ^ 53) := by
    refine hrel.trans (le_of_eq ?_)
    unfold ulp; ring
  refine ⟨e, ?_, herr, ?_, ?_⟩
  · unfold FlareGenerator.quantile
    rw [if_neg (by simp; constructor <;> linarith), if_neg ha'.ne]
    simp only [List.map_cons, List.map_nil, hm, Fl.rpow_fin hy, Fl.fin_mul]
    rw [he]
  · unfold RealPow.quantile
    rw [dbl_one_sub hk]
    have hb : dbl (1 / G.alpha) ≤ 0 := by
      have := (abs_le.mp (dbl_err (1 / G.alpha))).2
      have hn : 1 / G.alpha < 0 := by rw [one_div]; exact inv_lt_zero.mpr ha'
      rw [abs_of_neg hn] at this
      nlinarith [ulp_small]
    have h3 := (hL _ (dbl (1 / G.alpha)) hy).2 (one_le_rpow_of_pos_of_le_one_of_nonpos hy h1 hb)
    calc m = dbl m := hd.symm
      _ ≤ _ := dbl_mono hm0 (le_mul_of_one_le_right hm0.le h3)
  · have h3 := (abs_le.mp herr).2
    have h4 : (1 - randomDouble k) ^ (1 / G.alpha) ≤ 2 ^ (53 / |G.alpha|) := by
      calc _ ≤ (1 / 2 ^ 53 : ℝ) ^ (1 / G.alpha) := rpow_le_rpow_of_nonpos (by positivity) h0 (by rw [one_div]; exact (inv_lt_zero.mpr ha').le)
        _ = _ := by
          rw [one_div, inv_rpow (by positivity), ← rpow_neg (by positivity), ← rpow_natCast, ← rpow_mul (by norm_num), abs_of_neg ha']
          congr 1
          push_cast
          ring
    have h5 : e ≤ m * 2 ^ (53 / |G.alpha|) := by rw [he]; gcongr
    have h6 : 0 ≤ (74 / |G.alpha| + 6) / 2 ^ 53 := by positivity
    calc _ ≤ e * (1 + (74 / |G.alpha| + 6) / 2 ^ 53) := by linarith
      _ ≤ _ := by gcongr

/-- **C175** Of the equally likely numbers that numpy's generator can return, the share for which the energy exceeds `E` agrees
with the ratio of `get_nexp_greater_than(E)` and `get_ntotal` within `(150 + 12 |α|)/2^53`. -/
theorem C175_distribution (L : RealPow) (hL : AccurateReal L) (G : FlareGenerator) (m : ℝ) (hm : G.minEnergy = .fin m) (hm0 : 0 < m)
    (ha : G.alpha ≤ -1 / 10) (ha2 : -1000 ≤ G.alpha) (E t : ℝ) (hE : m ≤ E) (ht : 0 < t) :
    ∃ above total : ℝ, G.nexpGreaterThan (.fin E) t = .fin above ∧ G.nTotal t = .fin total ∧ 0 < total ∧
      |(((Finset.range (2 ^ 53)).filter fun k => E < L.quantile m G.alpha (randomDouble k)).card : ℝ) / 2 ^ 53 - above / total| ≤
        (150 + 12 * |G.alpha|) / 2 ^ 53 := by
  have hE0 : 0 < E := hm0.trans_le hE
  have ha' : G.alpha < 0 := by linarith
  have hmp : 0 < m ^ G.alpha := rpow_pos_of_pos hm0 _
  refine ⟨10 ^ G.beta * E ^ G.alpha * t, 10 ^ G.beta * m ^ G.alpha * t, nexp_fin G hE0 t, by unfold FlareGenerator.nTotal; rw [hm, nexp_fin G hm0], by positivity, ?_⟩
  set a := |G.alpha| with haa
  have ea : G.alpha = -a := by rw [haa, abs_of_neg ha']; ring
  have a1 : 1 / 10 ≤ a := by linarith
  have a2 : a ≤ 1000 := by linarith
  have a0 : 0 < a := by linarith
  set p := (E / m) ^ G.alpha with hp
  have hr1 : 1 ≤ E / m := by rw [le_div_iff₀ hm0]; linarith
  have hr0 : 0 < E / m := by linarith
  have hp0 : 0 < p := rpow_pos_of_pos hr0 _
  have hp1 : p ≤ 1 := rpow_le_one_of_one_le_of_nonpos hr1 ha'.le
  have eq : 10 ^ G.beta * E ^ G.alpha * t / (10 ^ G.beta * m ^ G.alpha * t) = p := by
    rw [hp, div_rpow hE0.le hm0.le]
    have : (10 : ℝ) ^ G.beta ≠ 0 := by positivity
    field_simp
  rw [eq]
  set ε := (74 / a + 6) / 2 ^ 53 with hε
  have ε0 : 0 < ε := by positivity
  have ε1 : ε ≤ 1 / 10 ^ 12 := by
    have : 74 / a ≤ 740 := by rw [div_le_iff₀ a0]; linarith
    calc ε ≤ (740 + 6) / 2 ^ 53 := by rw [hε]; gcongr
      _ ≤ _ := by norm_num
  have aε : a * ε = (74 + 6 * a) / 2 ^ 53 := by rw [hε]; field_simp
  have aε1 : a * ε ≤ 1 / 1000 := by rw [aε]; calc _ ≤ (74 + 6 * 1000 : ℝ) / 2 ^ 53 := by gcongr
                                               _ ≤ _ := by norm_num
  have herr : ∀ k, k < 2 ^ 53 → |L.quantile m G.alpha (randomDouble k) - m * (1 - randomDouble k) ^ (1 / G.alpha)| ≤
      m * (1 - randomDouble k) ^ (1 / G.alpha) * ε := by
    intro k hk
    have h := quantile_rel hL (m := m) ha hk
    unfold Rel at h
    have hy : 0 < 1 - randomDouble k := lt_of_lt_of_le (by positivity) (unit_range hk).1
    rw [abs_of_pos (mul_pos hm0 (rpow_pos_of_pos hy (1 / G.alpha)))] at h
    refine h.trans (le_of_eq ?_)
    rw [hε, ← haa]; unfold ulp; ring
  have turn : ∀ k, k < 2 ^ 53 → ∀ c : ℝ, 0 < c → (c * E < m * (1 - randomDouble k) ^ (1 / G.alpha) ↔ 1 - randomDouble k < p * c ^ G.alpha) := by
    intro k hk c hc
    have hy : 0 < 1 - randomDouble k := lt_of_lt_of_le (by positivity) (unit_range hk).1
    have hz : 0 < (1 - randomDouble k) ^ (1 / G.alpha) := rpow_pos_of_pos hy _
    have e1 : ((1 - randomDouble k) ^ (1 / G.alpha)) ^ G.alpha = 1 - randomDouble k := by
      rw [← rpow_mul hy.le, one_div, inv_mul_cancel₀ ha'.ne, rpow_one]
    have e2 : p * c ^ G.alpha = (c * E / m) ^ G.alpha := by
      rw [hp, mul_comm, ← mul_rpow hc.le hr0.le, mul_div_assoc]
    rw [e2, ← e1, rpow_lt_rpow_iff_of_neg (by rw [e1] at *; positivity) (by positivity) ha', div_lt_iff₀ hm0, mul_comm m]
    rw [e1]
  -- upper side
  have up : (((Finset.range (2 ^ 53)).filter fun k => E < L.quantile m G.alpha (randomDouble k)).card : ℝ) ≤ (p + 2 * (a * ε)) * 2 ^ 53 := by
    set p₁ := p * (1 / (1 + ε)) ^ G.alpha with hp₁
    have hf : (1 / (1 + ε)) ^ G.alpha ≤ 1 + 2 * (a * ε) := by
      rw [ea, rpow_neg (by positivity), one_div, inv_rpow (by positivity), inv_inv, rpow_def_of_pos (by positivity)]
      have hl : log (1 + ε) ≤ ε := by have := log_le_sub_one_of_pos (show 0 < 1 + ε by positivity); linarith
      have hl0 : 0 ≤ log (1 + ε) := log_nonneg (by linarith)
      have hz : log (1 + ε) * a ≤ a * ε := by rw [mul_comm]; gcongr
      have hz0 : 0 ≤ log (1 + ε) * a := by positivity
      have := abs_exp_sub_one_le (x := log (1 + ε) * a) (by rw [abs_of_nonneg hz0]; linarith)
      rw [abs_of_nonneg hz0] at this
      linarith [(abs_le.mp this).2]
    have hle : p₁ ≤ p + 2 * (a * ε) := by
      have : p * (1 / (1 + ε)) ^ G.alpha ≤ p * (1 + 2 * (a * ε)) := by gcongr
      have h2 : p * (2 * (a * ε)) ≤ 1 * (2 * (a * ε)) := by gcongr
      rw [hp₁]; linarith
    rcases le_total p₁ 1 with hq | hq
    · have hsub : ((Finset.range (2 ^ 53)).filter fun k => E < L.quantile m G.alpha (randomDouble k)) ⊆
          (Finset.range (2 ^ 53)).filter fun k => 1 - randomDouble k < p₁ := by
        intro k
        simp only [Finset.mem_filter, Finset.mem_range]
        rintro ⟨hk, hlt⟩
        refine ⟨hk, (turn k hk _ (by positivity)).mp ?_⟩
        have := (abs_le.mp (herr k hk)).2
        rw [div_mul_eq_mul_div, one_mul, div_lt_iff₀ (by positivity)]
        linarith
      have h2 : (((Finset.range (2 ^ 53)).filter fun k => E < L.quantile m G.alpha (randomDouble k)).card : ℝ) ≤
          ((Finset.range (2 ^ 53)).filter fun k => 1 - randomDouble k < p₁).card := by exact_mod_cast Finset.card_le_card hsub
      calc _ ≤ p₁ * 2 ^ 53 := h2.trans (draws_below (by positivity) hq).1
        _ ≤ _ := by gcongr
    · have h2 : (((Finset.range (2 ^ 53)).filter fun k => E < L.quantile m G.alpha (randomDouble k)).card : ℝ) ≤ ((2 ^ 53 : ℕ) : ℝ) := by
        have := Finset.card_filter_le (Finset.range (2 ^ 53)) fun k => E < L.quantile m G.alpha (randomDouble k)
        rw [Finset.card_range] at this
        exact_mod_cast this
      rw [show ((2 ^ 53 : ℕ) : ℝ) = 2 ^ 53 by norm_num] at h2
      calc _ ≤ 1 * (2 : ℝ) ^ 53 := by linarith
        _ ≤ _ := by gcongr; linarith
  have low : (p - 2 * (a * ε)) * 2 ^ 53 - 1 ≤ (((Finset.range (2 ^ 53)).filter fun k => E < L.quantile m G.alpha (randomDouble k)).card : ℝ) := by
    have hpos : 0 < 1 - ε := by linarith
    set p₂ := p * (1 / (1 - ε)) ^ G.alpha with hp₂
    have hf : 1 - 2 * (a * ε) ≤ (1 / (1 - ε)) ^ G.alpha ∧ (1 / (1 - ε)) ^ G.alpha ≤ 1 := by
      have hge : 1 ≤ 1 / (1 - ε) := by rw [le_div_iff₀ hpos]; linarith
      refine ⟨?_, rpow_le_one_of_one_le_of_nonpos hge ha'.le⟩
      rw [ea, rpow_neg (by positivity), one_div, inv_rpow (by positivity), inv_inv, rpow_def_of_pos hpos]
      have hl : -(2 * ε) ≤ log (1 - ε) := by
        have := one_sub_inv_le_log_of_pos hpos
        have h2 : (1 - ε)⁻¹ ≤ 1 + 2 * ε := by
          rw [inv_le_comm₀ hpos (by positivity), inv_le_iff_one_le_mul₀ (by positivity)]
          nlinarith
        linarith
      have := add_one_le_exp (log (1 - ε) * a)
      have h3 : -(2 * ε) * a ≤ log (1 - ε) * a := by gcongr
      linarith
    have hle : p - 2 * (a * ε) ≤ p₂ := by
      have : p * (1 - 2 * (a * ε)) ≤ p * (1 / (1 - ε)) ^ G.alpha := by gcongr; exact hf.1
      have h2 : p * (2 * (a * ε)) ≤ 1 * (2 * (a * ε)) := by gcongr
      rw [hp₂]; linarith
    have hq : p₂ ≤ 1 := by
      calc p₂ ≤ 1 * 1 := by rw [hp₂]; gcongr; exact hf.2
        _ = 1 := one_mul 1
    have hsub : ((Finset.range (2 ^ 53)).filter fun k => 1 - randomDouble k < p₂) ⊆
        (Finset.range (2 ^ 53)).filter fun k => E < L.quantile m G.alpha (randomDouble k) := by
      intro k
      simp only [Finset.mem_filter, Finset.mem_range]
      rintro ⟨hk, hlt⟩
      refine ⟨hk, ?_⟩
      have h3 := (turn k hk _ (by positivity)).mpr hlt
      rw [div_mul_eq_mul_div, one_mul, div_lt_iff₀ hpos] at h3
      have := (abs_le.mp (herr k hk)).1
      linarith
    have h2 : (((Finset.range (2 ^ 53)).filter fun k => 1 - randomDouble k < p₂).card : ℝ) ≤
        ((Finset.range (2 ^ 53)).filter fun k => E < L.quantile m G.alpha (randomDouble k)).card := by exact_mod_cast Finset.card_le_card hsub
    have h3 := (draws_below (p := p₂) (by positivity) hq).2
    have h4 : (p - 2 * (a * ε)) * 2 ^ 53 ≤ p₂ * 2 ^ 53 := by gcongr
    linarith
  have e3 : 2 * (a * ε) * 2 ^ 53 = 148 + 12 * a := by rw [aε]; ring
  rw [show ∀ c : ℝ, c / 2 ^ 53 - p = (c - p * 2 ^ 53) / 2 ^ 53 from fun c => by rw [sub_div]; congr 1; field_simp, abs_div, abs_of_pos (show (0 : ℝ) < 2 ^ 53 by positivity)]
  gcongr
  rw [sub_mul, e3] at low
  rw [add_mul, e3] at up
  rw [abs_le]
  constructor <;> linarith

/-- **C175** The expected number of flares in double precision has a relative error of at most `10/2^53`. -/
theorem C175_expected (L : RealPow) (hL : AccurateReal L) (G : FlareGenerator) (e t : ℝ) (he : 0 < e) (ht : 0 < t) : ∃ n : ℝ,
    G.nexpGreaterThan (.fin e) t = .fin n ∧ 0 < n ∧ |L.nexp G.alpha G.beta e t - n| ≤ n * (10 / 2 ^ 53) := by
  have hp : 0 < 10 ^ G.beta * e ^ G.alpha * t := by positivity
  refine ⟨_, nexp_fin G he t, hp, ?_⟩
  have := nexp_rel hL G.alpha G.beta t he
  unfold Rel at this
  rw [abs_of_pos hp] at this
  refine this.trans (le_of_eq ?_)
  unfold ulp; ring

/-- **C175** The places of flares, faculae and isotropically placed spots in double precision: the latitude has a relative error of at most
`14/2^53`, the longitude of `1/2^53`; no longitude reaches 360 degrees. -/
theorem C175_places (M : Libm) (hM : Accurate M) (k : ℕ) (hk : k < 2 ^ 53) :
    |M.randomLat (randomDouble k) - arcsin (2 * randomDouble k - 1) / π * 180| ≤ |arcsin (2 * randomDouble k - 1) / π * 180| * (14 / 2 ^ 53) ∧
    |Libm.randomLon (randomDouble k) - randomDouble k * 360| ≤ randomDouble k * 360 / 2 ^ 53 ∧
    0 ≤ Libm.randomLon (randomDouble k) ∧ Libm.randomLon (randomDouble k) < 360 := by
  obtain ⟨h0, h1⟩ := unit_range hk
  have hx0 : 0 ≤ randomDouble k := by unfold randomDouble; positivity
  have herr := dbl_err (randomDouble k * 360)
  rw [abs_of_nonneg (show 0 ≤ randomDouble k * 360 by positivity)] at herr
  refine ⟨?_, herr.trans (le_of_eq (by unfold ulp; ring)), dbl_nonneg (by positivity), ?_⟩
  · have hr : |2 * randomDouble k - 1| ≤ 1 := by
      rw [abs_le]; constructor <;> linarith [show (0 : ℝ) < 1 / 2 ^ 53 by positivity]
    have hb := hM.2.2.1 _ hr
    rw [two_ulp] at hb
    have h2 : Rel 2 (M.arcsin (2 * randomDouble k - 1)) (arcsin (2 * randomDouble k - 1)) := by unfold Rel; linarith
    have h3 := ((h2.div (rel_dbl π) (by norm_num) (by norm_num) (by norm_num) (by norm_num) pi_ne_zero).dbl (by norm_num))
    have h4 := ((h3.mul (Rel.refl 180) (by norm_num) (by norm_num)).dbl (by norm_num)).mono (l := 14) (by norm_num)
    unfold Libm.randomLat
    rw [dbl_centre hk]
    unfold Rel at h4
    refine h4.trans (le_of_eq ?_)
    unfold ulp; ring
  · have h2 := (abs_le.mp herr).2
    unfold Libm.randomLon
    have h3 : randomDouble k ≤ 1 - ulp := by unfold ulp; linarith
    have hu := ulp_pos
    nlinarith

/-- Non-trivial instance of C175: with the exponent -0.829 of the default settings no flare is stronger than `2^64` times the minimum. -/
example (k : ℕ) (hk : k < 2 ^ 53) : RealPow.rounded.quantile 1 (-0.829) (randomDouble k) ≤ 2 ^ 64 := by
  obtain ⟨e, -, -, -, h⟩ := C175_energies RealPow.rounded rounded_accurateReal { sampleFlareGen with minEnergy := .fin 1, alpha := -0.829 } 1 rfl one_pos dbl_one
    (by norm_num) k hk
  refine h.trans ?_
  rw [one_mul, abs_of_neg (by norm_num)]
  have h1 : (2 : ℝ) ^ (53 / -(-0.829) : ℝ) ≤ 2 ^ (64 - 0.06 : ℝ) := rpow_le_rpow_of_exponent_le (by norm_num) (by norm_num)
  have h2 : (2 : ℝ) ^ (64 - 0.06 : ℝ) = 2 ^ 64 * 2 ^ (-0.06 : ℝ) := by
    rw [sub_eq_add_neg, rpow_add (by norm_num)]
    norm_num
  have h3 : (2 : ℝ) ^ (-0.06 : ℝ) * (1 + 1 / 100) ≤ 1 := by
    rw [rpow_neg (by norm_num), inv_mul_le_iff₀ (by positivity), mul_one, show (0.06 : ℝ) = (3 / 50 : ℝ) by norm_num]
    have : (1 + 0.06 * log 2 : ℝ) ≤ 2 ^ (3 / 50 : ℝ) := by
      rw [rpow_def_of_pos (by norm_num)]
      have := add_one_le_exp (log 2 * (3 / 50))
      linarith
    have := log_two_gt_d9
    linarith
  calc _ ≤ 2 ^ 64 * 2 ^ (-0.06 : ℝ) * (1 + 1 / 100 : ℝ) := by
        rw [← h2]
        refine mul_le_mul h1 ?_ (by positivity) (by positivity)
        norm_num
    _ = 2 ^ 64 * (2 ^ (-0.06 : ℝ) * (1 + 1 / 100)) := by ring
    _ ≤ 2 ^ 64 * 1 := by gcongr
    _ = _ := mul_one _

end Vsm
