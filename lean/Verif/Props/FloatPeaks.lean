import Verif.Model.FloatPeaks
import Verif.Props.FloatEnergy
import Verif.Props.FlareGen

/-!
# C178: times, widths and temperatures of generated flares in double precision
-/

noncomputable section

namespace Vsm

open Real Spec

theorem dbl_le {x y : ℝ} (hx : 0 ≤ x) (h : x ≤ y) : dbl x ≤ dbl y := by
  rcases hx.eq_or_lt with h0 | h0
  · rw [← h0, dbl_zero]; exact dbl_nonneg (hx.trans h)
  · exact dbl_mono h0 h

/-! ## Waiting times -/

theorem cluster_rel {ts ts' : ℝ} (h : Rel 2 ts' ts) (size : ℕ) (hs : 0 < size) (e : ℕ → Set.Ici (0 : ℝ)) :
    List.Forall₂ (fun a b => Rel 20 a b) (FlareGenerator.clusterTimesD ts' size e) (FlareGenerator.clusterTimes ts size e) := by
  unfold FlareGenerator.clusterTimesD FlareGenerator.clusterTimes
  rw [List.forall₂_map_left_iff, List.forall₂_map_right_iff]
  refine List.forall₂_same.mpr ?_
  intro i _
  by_cases hi : i = 0
  · rw [if_pos hi, if_pos hi]
    exact ((h.mul (Rel.refl _) (by norm_num) (by norm_num)).dbl (by norm_num)).mono (by norm_num)
  · rw [if_neg hi, if_neg hi]
    have hs' : (size : ℝ) ≠ 0 := by positivity
    have h1 := (h.div (Rel.refl (size : ℝ)) (by norm_num) (by norm_num) (by norm_num) (by norm_num) hs').dbl (by norm_num)
    have h2 := (h1.div (Rel.refl (2 : ℝ)) (by norm_num) (by norm_num) (by norm_num) (by norm_num) (by norm_num)).dbl (by norm_num)
    exact ((h2.mul (Rel.refl _) (by norm_num) (by norm_num)).dbl (by norm_num)).mono (by norm_num)

theorem waiting_rel {ts ts' : ℝ} (h : Rel 2 ts' ts) (sizes : List ℕ) (hs : ∀ c ∈ sizes, 0 < c) (e : ℕ → Set.Ici (0 : ℝ)) :
    List.Forall₂ (fun a b => Rel 20 a b) (FlareGenerator.waitingTimesD ts' sizes e) (FlareGenerator.waitingTimes ts sizes e) := by
  induction sizes generalizing e with
  | nil => exact .nil
  | cons c l ih =>
    exact List.rel_append (cluster_rel h c (hs c (by simp)) e) (ih (fun x hx => hs x (by simp [hx])) _)

theorem waiting_nonneg {ts : ℝ} (hts : 0 ≤ ts) (sizes : List ℕ) (e : ℕ → Set.Ici (0 : ℝ)) :
    ∀ w ∈ FlareGenerator.waitingTimesD ts sizes e, 0 ≤ w := by
  induction sizes generalizing e with
  | nil => simp [FlareGenerator.waitingTimesD]
  | cons c l ih =>
    intro w hw
    rw [FlareGenerator.waitingTimesD, List.mem_append] at hw
    rcases hw with hw | hw
    · simp only [FlareGenerator.clusterTimesD, List.mem_map] at hw
      obtain ⟨i, -, rfl⟩ := hw
      split_ifs
      · exact dbl_nonneg (mul_nonneg hts (e 0).2)
      · exact dbl_nonneg (mul_nonneg (dbl_nonneg (div_nonneg (dbl_nonneg (by positivity)) (by norm_num))) (e i).2)
    · exact ih _ w hw

/-! ## Running sums -/

/-- Sums of numbers that are not negative keep their relative error. -/
theorem add_step {k a a' x x' : ℝ} (ha : |a' - a| ≤ k * ulp * a) (hx : Rel 20 x' x) (ha0 : 0 ≤ a) (hx0 : 0 ≤ x) (hk : 20 ≤ k) (hk2 : k ≤ 2 ^ 50) :
    |dbl (a' + x') - (a + x)| ≤ (k + 2) * ulp * (a + x) := by
  have hu := ulp_pos
  unfold Rel at hx
  rw [abs_of_nonneg hx0] at hx
  have hku : k * ulp ≤ 1 := by
    calc k * ulp ≤ 2 ^ 50 * ulp := by gcongr
      _ ≤ 1 := by unfold ulp; norm_num
  have h1 : |(a' + x') - (a + x)| ≤ k * ulp * (a + x) := by
    calc _ = |(a' - a) + (x' - x)| := by ring_nf
      _ ≤ |a' - a| + |x' - x| := abs_add_le _ _
      _ ≤ k * ulp * a + k * ulp * x := add_le_add ha (hx.trans (by gcongr))
      _ = _ := by ring
  have h2 : |a' + x'| ≤ 2 * (a + x) := by
    have h3 : |a' + x'| ≤ |(a' + x') - (a + x)| + |a + x| := by
      have := abs_add_le ((a' + x') - (a + x)) (a + x); simpa using this
    rw [abs_of_nonneg (add_nonneg ha0 hx0)] at h3
    nlinarith [add_nonneg ha0 hx0]
  calc _ ≤ |dbl (a' + x') - (a' + x')| + |(a' + x') - (a + x)| := abs_sub_le _ _ _
    _ ≤ 2 * (a + x) * ulp + k * ulp * (a + x) := add_le_add ((dbl_err _).trans (by gcongr)) h1
    _ = _ := by ring

theorem cumsumD_rel {l' l : List ℝ} (h : List.Forall₂ (fun a b => Rel 20 a b) l' l) (h0 : ∀ x ∈ l, 0 ≤ x) {k a a' : ℝ} (ha : |a' - a| ≤ k * ulp * a) (ha0 : 0 ≤ a)
    (hk : 20 ≤ k) (hk2 : k + 2 * l.length ≤ 2 ^ 50) :
    ∀ (i : ℕ) (y' y : ℝ), (FlareGenerator.cumsumD a' l')[i]? = some y' → (Np.cumsumFrom a l)[i]? = some y → |y' - y| ≤ (k + 2 * (i + 1)) * ulp * y := by
  induction h generalizing k a a' with
  | nil => intro i y' y h; simp [FlareGenerator.cumsumD] at h
  | @cons x' x l' l hx hl ih =>
    rw [List.length_cons] at hk2
    push_cast at hk2
    have hx0 := h0 x (by simp)
    have hl0 : (0 : ℝ) ≤ l.length := by positivity
    have hst := add_step ha hx ha0 hx0 hk (by linarith)
    intro i y' y hy' hy
    rw [FlareGenerator.cumsumD] at hy'
    rw [Np.cumsumFrom] at hy
    cases i with
    | zero =>
      simp only [List.getElem?_cons_zero, Option.some.injEq] at hy' hy
      rw [← hy', ← hy]
      refine hst.trans (le_of_eq ?_)
      push_cast; ring
    | succ i =>
      rw [List.getElem?_cons_succ] at hy' hy
      refine (ih (fun z hz => h0 z (by simp [hz])) hst (add_nonneg ha0 hx0) (by linarith) (by linarith) i y' y hy' hy).trans (le_of_eq ?_)
      push_cast; ring

theorem cumsumD_sorted {a : ℝ} (ha0 : 0 ≤ a) (ha : dbl a = a) {l : List ℝ} (h : ∀ x ∈ l, 0 ≤ x) :
    (∀ y ∈ FlareGenerator.cumsumD a l, a ≤ y ∧ dbl y = y) ∧ (FlareGenerator.cumsumD a l).Pairwise (· ≤ ·) := by
  induction l generalizing a with
  | nil => simp [FlareGenerator.cumsumD]
  | cons x l ih =>
    have hx := h x (by simp)
    have h1 : a ≤ dbl (a + x) := by
      conv_lhs => rw [← ha]
      exact dbl_le ha0 (by linarith)
    obtain ⟨h2, h3⟩ := @ih (dbl (a + x)) (ha0.trans h1) (dbl_idem _) (fun y hy => h y (by simp [hy]))
    constructor
    · intro y hy
      rw [FlareGenerator.cumsumD] at hy
      rcases List.mem_cons.mp hy with rfl | hy
      · exact ⟨h1, dbl_idem _⟩
      · exact ⟨h1.trans (h2 y hy).1, (h2 y hy).2⟩
    · rw [FlareGenerator.cumsumD, List.pairwise_cons]
      exact ⟨fun y hy => (h2 y hy).1, h3⟩

theorem cumsumD_length (a : ℝ) (l : List ℝ) : (FlareGenerator.cumsumD a l).length = l.length := by
  induction l generalizing a with
  | nil => rfl
  | cons x l ih => simp [FlareGenerator.cumsumD, ih]

/-! ## C178 -/

/-- **C178** (times) With all operations rounded `get_peaks` still returns `n` times in order, the `i`-th of them with a relative error of at most
`(i + 12)·2^-52`; multiplied by the length of the observation they are still in order, with an error of at most `(i + 14)·2^-52`. -/
theorem C178_peaks (G : FlareGenerator) (c : ℝ) (hc : G.clusterSize = .fin c) (hc0 : 0 ≤ c) (n : ℕ) (hn : 1 ≤ n) (hn2 : n ≤ 2 ^ 40) (raw : Fin n → ℕ)
    (e : ℕ → Set.Ici (0 : ℝ)) (t : ℝ) (ht : 0 ≤ t) :
    ∃ l' l, G.getPeaksD n raw e = .ok l' ∧ G.getPeaks n raw e = .ok l ∧ l'.length = n ∧ l.length = n ∧
      l'.Pairwise (· ≤ ·) ∧ (FlareGenerator.peakTimesD l' t).Pairwise (· ≤ ·) ∧
      (FlareGenerator.peakTimesD l' t).length = n ∧
      ∀ (i : ℕ) (y' y z : ℝ), l'[i]? = some y' → l[i]? = some y → (FlareGenerator.peakTimesD l' t)[i]? = some z →
        0 ≤ y' ∧ |y' - y| ≤ (i + 12) / 2 ^ 52 * y ∧ 0 ≤ z ∧ |z - y * t| ≤ (i + 14) / 2 ^ 52 * (y * t) := by
  unfold FlareGenerator.getPeaks FlareGenerator.getPeaksD
  rw [hc]
  obtain ⟨draws, hd⟩ := mapM_poisson hc0 (List.ofFn raw)
  rw [hd]
  obtain ⟨h1, h2, h3⟩ := clusterSizes_spec hn draws
  simp only [bind, Except.bind]
  rw [if_neg (not_not.mpr h1), if_neg h3.ne', if_neg (not_not.mpr h1), if_neg h3.ne']
  set sizes := FlareGenerator.clusterSizes n draws with hsz
  obtain ⟨h4, h5⟩ := waitingTimes_spec (ts := 1 / (sizes.length : ℝ)) (by positivity) sizes h2 e
  have hr := waiting_rel (rel_dbl (1 / (sizes.length : ℝ))) sizes h2 e
  have hw := waiting_nonneg (ts := dbl (1 / (sizes.length : ℝ))) (dbl_nonneg (by positivity)) sizes e
  obtain ⟨s1, s2⟩ := cumsumD_sorted le_rfl dbl_zero hw
  have hlen : (FlareGenerator.cumsumD 0 (FlareGenerator.waitingTimesD (dbl (1 / (sizes.length : ℝ))) sizes e)).length = n := by
    rw [cumsumD_length, hr.length_eq, h4, h1]
  have hlen2 : (Np.cumsum (FlareGenerator.waitingTimes (1 / (sizes.length : ℝ)) sizes e)).length = n := by
    unfold Np.cumsum; rw [cumsumFrom_length, h4, h1]
  refine ⟨_, _, rfl, rfl, hlen, hlen2, s2, ?_, by unfold FlareGenerator.peakTimesD; rw [List.length_map, hlen], ?_⟩
  · unfold FlareGenerator.peakTimesD
    rw [List.pairwise_map]
    refine List.Pairwise.imp_of_mem ?_ s2
    intro a b ha hb hab
    exact dbl_le (mul_nonneg (s1 a ha).1 ht) (by gcongr)
  · intro i y' y z hy' hy hz
    have hz' : dbl (y' * t) = z := by
      unfold FlareGenerator.peakTimesD at hz
      rw [List.getElem?_map, hy', Option.map_some, Option.some.injEq] at hz
      exact hz
    subst hz'
    have hu := ulp_pos
    have hi : i < n := by
      rw [← hlen]
      exact (List.getElem?_eq_some_iff.mp hy').1
    have hin : (i : ℝ) ≤ 2 ^ 40 := by exact_mod_cast hi.le.trans hn2
    have hn3 : (n : ℝ) ≤ 2 ^ 40 := by exact_mod_cast hn2
    have hmem' : y' ∈ FlareGenerator.cumsumD 0 (FlareGenerator.waitingTimesD (dbl (1 / (sizes.length : ℝ))) sizes e) := List.mem_of_getElem? hy'
    have hmem : y ∈ Np.cumsum (FlareGenerator.waitingTimes (1 / (sizes.length : ℝ)) sizes e) := List.mem_of_getElem? hy
    have hy0' : 0 ≤ y' := (s1 y' hmem').1
    have hy0 : 0 ≤ y := (cumsumFrom_ge h5).1 y hmem
    have hb := cumsumD_rel hr h5 (k := 20) (a := 0) (a' := 0) (by simp) le_rfl le_rfl (by rw [h4, h1]; linarith) i y' y hy' hy
    have hiu : ((20 : ℝ) + 2 * (i + 1)) * ulp ≤ 1 / 2 := by
      calc ((20 : ℝ) + 2 * (i + 1)) * ulp ≤ (20 + 2 * (2 ^ 40 + 1)) * ulp := by gcongr
        _ ≤ 1 / 2 := by unfold ulp; norm_num
    have ei : ((20 : ℝ) + 2 * (i + 1)) * ulp ≤ (i + 12) / 2 ^ 52 := by
      unfold ulp
      have : ((2:ℝ) ^ 53) = 2 * 2 ^ 52 := by norm_num
      rw [this]; field_simp; linarith
    have hle : y' ≤ 2 * y := by
      have := (abs_le.mp hb).2
      nlinarith
    refine ⟨hy0', hb.trans (by gcongr), dbl_nonneg (mul_nonneg hy0' ht), ?_⟩
    have hyt : 0 ≤ y * t := mul_nonneg hy0 ht
    calc |dbl (y' * t) - y * t| ≤ |dbl (y' * t) - y' * t| + |y' * t - y * t| := abs_sub_le _ _ _
      _ ≤ y' * t * ulp + (i + 12) / 2 ^ 52 * y * t := by
          refine add_le_add ?_ ?_
          · have := dbl_err (y' * t)
            rwa [abs_of_nonneg (mul_nonneg hy0' ht)] at this
          · rw [← sub_mul, abs_mul, abs_of_nonneg ht]
            exact mul_le_mul_of_nonneg_right (hb.trans (by gcongr)) ht
      _ ≤ (2 * y) * t * ulp + (i + 12) / 2 ^ 52 * y * t := by gcongr
      _ ≤ (i + 14) / 2 ^ 52 * (y * t) := by
          have : ulp ≤ 1 / 2 ^ 52 := by unfold ulp; norm_num
          have h7 : 2 * y * t * ulp ≤ 2 * y * t * (1 / 2 ^ 52) := by gcongr
          refine (add_le_add_left h7 _).trans (le_of_eq ?_)
          ring

/-- A number `loc + scale·z` as computed is off by at most `|loc|·2^-53 + 3·|scale·z|·2^-53`. -/
theorem normal_err (loc scale z : ℝ) : |normalD loc scale z - (loc + scale * z)| ≤ (|loc| + 3 * |scale * z|) * ulp := by
  have hu := ulp_pos
  have hs := ulp_small
  unfold normalD
  have h1 := dbl_err (scale * z)
  have h2 := dbl_err (loc + dbl (scale * z))
  have h3 : |loc + dbl (scale * z)| ≤ |loc| + 2 * |scale * z| := by
    have h4 : |dbl (scale * z)| ≤ |dbl (scale * z) - scale * z| + |scale * z| := by
      have := abs_add_le (dbl (scale * z) - scale * z) (scale * z); simpa using this
    have := abs_add_le loc (dbl (scale * z))
    nlinarith [abs_nonneg (scale * z)]
  calc _ ≤ |dbl (loc + dbl (scale * z)) - (loc + dbl (scale * z))| + |(loc + dbl (scale * z)) - (loc + scale * z)| := abs_sub_le _ _ _
    _ ≤ (|loc| + 2 * |scale * z|) * ulp + |scale * z| * ulp := by
        refine add_le_add (h2.trans (by gcongr)) ?_
        rwa [add_sub_add_left_eq_sub]
    _ = _ := by ring

/-- **C178** (temperatures) A temperature drawn by `gen_teffs` as computed differs from the exact one by less than
`(mean + 3·|deviation|)·2^-53`. -/
theorem C178_teffs (G : FlareGenerator) (hs : 0 ≤ G.teffSigma) (n : ℕ) (z : Fin n → ℝ) :
    ∃ l, G.genTeffs z = .ok l ∧ l.length = n ∧ ∀ (i : Fin n) (y : ℝ), l[(i : ℕ)]? = some y →
      |normalD G.teffMean G.teffSigma (z i) - y| ≤ (|G.teffMean| + 3 * |y - G.teffMean|) / 2 ^ 53 := by
  refine ⟨_, if_neg (not_lt.mpr hs), List.length_ofFn, ?_⟩
  intro i y hy
  rw [List.getElem?_ofFn] at hy
  simp only [Fin.is_lt, dite_true, Fin.eta, Option.some.injEq] at hy
  have := normal_err G.teffMean G.teffSigma (z i)
  rw [← hy]
  unfold ulp at this
  rw [mul_one_div] at this
  simpa using this

/-- **C178** (widths) A width drawn by `gen_fwhm` as computed has a relative error below `2^-45` whenever the mean width and the drawn factor lie between
`10^-8` and `10^8`. -/
theorem C178_fwhm (L : RealPow) (hL : Spec.AccurateReal L) (G : FlareGenerator) (hs : 0 ≤ G.fwhmLogsigma) (lg : ℝ)
    (hlg : |lg - logb 10 G.fwhmMean| ≤ |logb 10 G.fwhmMean| / 2 ^ 52) (hm : |logb 10 G.fwhmMean| ≤ 8) (n : ℕ) (z : Fin n → ℝ)
    (hz : ∀ i, |G.fwhmLogsigma * z i| ≤ 8) :
    ∃ l, G.genFwhm z = .ok l ∧ l.length = n ∧ ∀ (i : Fin n) (y : ℝ), l[(i : ℕ)]? = some y →
      0 < y ∧ |L.fwhm lg G.fwhmLogsigma (z i) - y| ≤ y / 2 ^ 45 := by
  refine ⟨_, if_neg (not_lt.mpr hs), List.length_ofFn, ?_⟩
  intro i y hy
  rw [List.getElem?_ofFn] at hy
  simp only [Fin.is_lt, dite_true, Fin.eta, Option.some.injEq] at hy
  have hu := ulp_pos
  have hs' := ulp_small
  set x := logb 10 G.fwhmMean + G.fwhmLogsigma * z i with hx
  have hy0 : 0 < y := by rw [← hy]; positivity
  refine ⟨hy0, ?_⟩
  set x' := normalD lg G.fwhmLogsigma (z i) with hx'
  have h1 := normal_err lg G.fwhmLogsigma (z i)
  have e2 : (1 : ℝ) / 2 ^ 52 = 2 * ulp := by unfold ulp; norm_num
  have hlg' : |lg - logb 10 G.fwhmMean| ≤ 16 * ulp := by
    refine hlg.trans ?_
    rw [div_eq_mul_one_div, e2]
    nlinarith
  have hlg9 : |lg| ≤ 9 := by
    have h3 : |lg| ≤ |lg - logb 10 G.fwhmMean| + |logb 10 G.fwhmMean| := by
      have := abs_add_le (lg - logb 10 G.fwhmMean) (logb 10 G.fwhmMean); simpa using this
    linarith
  have hd : |x' - x| ≤ 49 * ulp := by
    calc |x' - x| ≤ |x' - (lg + G.fwhmLogsigma * z i)| + |(lg + G.fwhmLogsigma * z i) - x| := abs_sub_le _ _ _
      _ ≤ (9 + 3 * 8) * ulp + 16 * ulp := by
          refine add_le_add (h1.trans ?_) ?_
          · have := hz i
            gcongr
          · rw [hx, add_sub_add_right_eq_sub]; exact hlg'
      _ = _ := by ring
  set δ := (x' - x) * log 10 with hδ
  have hlog : log 10 ≤ 2.5 := by
    have h5 : log 10 = log 2 + log 5 := by rw [← log_mul (by norm_num) (by norm_num)]; norm_num
    have h6 : log 5 ≤ log 8 := log_le_log (by norm_num) (by norm_num)
    have h7 : log 8 = 3 * log 2 := by rw [show (8 : ℝ) = 2 ^ 3 by norm_num, log_pow]; norm_num
    have h8 : log 5 = 2 * log 2 + log (5 / 4) := by
      rw [show (5 : ℝ) = 2 ^ 2 * (5 / 4) by norm_num, log_mul (by norm_num) (by norm_num), log_pow]; norm_num
    have h9 : log (5 / 4) ≤ 5 / 4 - 1 := log_le_sub_one_of_pos (by norm_num)
    have := log_two_lt_d9
    linarith
  have hlog0 : 0 ≤ log 10 := log_nonneg (by norm_num)
  have hδ1 : |δ| ≤ 123 * ulp := by
    rw [hδ, abs_mul, abs_of_nonneg hlog0]
    calc |x' - x| * log 10 ≤ (49 * ulp) * 2.5 := by gcongr
      _ ≤ _ := by linarith
  have hpow : (10 : ℝ) ^ x' = y * exp δ := by
    rw [← hy, hδ, rpow_def_of_pos (by norm_num), rpow_def_of_pos (by norm_num), ← exp_add]
    congr 1; ring
  have hδs : |δ| ≤ 1 := by linarith
  have hexp : |exp δ - 1| ≤ 2 * |δ| := abs_exp_sub_one_le hδs
  have h10 := (hL 10 x' (by norm_num)).1
  have hE : |exp δ - 1| ≤ 246 * ulp := hexp.trans (by linarith)
  have hE2 : exp δ ≤ 2 := by have := (abs_le.mp hE).2; linarith
  unfold RealPow.fwhm
  calc |L.pow 10 x' - y| ≤ |L.pow 10 x' - 10 ^ x'| + |(10 : ℝ) ^ x' - y| := abs_sub_le _ _ _
    _ ≤ (y * 2) * (2 * ulp) + y * (246 * ulp) := by
        refine add_le_add (h10.trans ?_) ?_
        · rw [e2, hpow]; gcongr
        · rw [hpow, show y * exp δ - y = y * (exp δ - 1) by ring, abs_mul, abs_of_pos hy0]; gcongr
    _ = y * (250 * ulp) := by ring
    _ ≤ y / 2 ^ 45 := by
        rw [div_eq_mul_one_div]
        gcongr
        unfold ulp; norm_num

/-- Non-trivial instance of C178: three flares in clusters of 2 and 1, all waiting times equal to their means. -/
example : sampleFlareGen.getPeaksD 3 ![0, 2, 5] (fun _ => ⟨1, by norm_num⟩) = .ok [1 / 2, 5 / 8, 9 / 8] := by
  have d1 : dbl (1 / 2) = 1 / 2 := by
    have := dbl_unit (2 ^ 52) (by norm_num); norm_num at this ⊢; exact this
  have d2 : dbl (1 / 4) = 1 / 4 := by
    have := dbl_unit (2 ^ 51) (by norm_num); norm_num at this ⊢; exact this
  have d3 : dbl (1 / 8) = 1 / 8 := by
    have := dbl_unit (2 ^ 50) (by norm_num); norm_num at this ⊢; exact this
  have d4 : dbl (5 / 8) = 5 / 8 := by
    have := dbl_unit (5 * 2 ^ 50) (by norm_num); norm_num at this ⊢; exact this
  have d5 : dbl (9 / 8) = 9 / 8 := by
    have : dbl (9 / 8) = ((9 * 2 ^ 49 : ℤ) : ℝ) * 2 ^ (-52 : ℤ) := by refine dbl_eq ?_ ?_ ?_ <;> norm_num
    rw [this]; norm_num
  have hd : (List.ofFn ![0, 2, 5]).mapM (fun k => Np.poisson sampleFlareGen.clusterSize k) = .ok [0, 2, 5] := by
    have hp : ∀ k, Np.poisson sampleFlareGen.clusterSize k = .ok k := by
      intro k
      show Np.poisson (.fin 2) k = _
      unfold Np.poisson
      simp only
      rw [if_neg (by norm_num), if_neg (by norm_num)]
    simp [List.ofFn_succ, List.mapM_cons, hp]
    rfl
  have hs : FlareGenerator.clusterSizes 3 [0, 2, 5] = [2, 1] := by decide
  unfold FlareGenerator.getPeaksD
  rw [hd]
  simp only [bind, Except.bind]
  rw [hs, if_neg (by decide), if_neg (by decide)]
  have e1 : (1 : ℝ) / (([2, 1] : List ℕ).length : ℕ) = 1 / 2 := by norm_num
  rw [e1, d1]
  have e2 : FlareGenerator.waitingTimesD (1 / 2) [2, 1] (fun _ => ⟨1, by norm_num⟩) = [1 / 2, 1 / 8, 1 / 2] := by
    have r1 : (1 / 2 : ℝ) / 2 = 1 / 4 := by norm_num
    have r2 : (1 / 4 : ℝ) / 2 = 1 / 8 := by norm_num
    simp only [FlareGenerator.waitingTimesD, FlareGenerator.clusterTimesD, List.range_succ, List.range_zero]
    simp only [Nat.cast_ofNat, r1, d2, r2, d3, mul_one, d1]
    simp
  rw [e2]
  have r1 : (0 : ℝ) + 1 / 2 = 1 / 2 := by norm_num
  have r2 : (1 / 2 : ℝ) + 1 / 8 = 5 / 8 := by norm_num
  have r3 : (5 / 8 : ℝ) + 1 / 2 = 9 / 8 := by norm_num
  simp only [FlareGenerator.cumsumD, r1, d1, r2, d4, r3, d5]

end Vsm
