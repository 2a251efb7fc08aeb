import Verif.Props.Float
import Verif.Props.StarCoverage
import Verif.Props.Single

/-!
# C145: the report in double precision

The coordinates and areas of the pixels, their weights, the sums over the pixels, the quotients and the step for granulation are computed with rounding.
The order in which a sum is taken is arbitrary.  The surface map and the transit mask are the exact ones.
-/

noncomputable section
namespace Vsm
open Real Np Spec

/-! ## Sums -/

theorem tree_err {ι : Type} (x : ι → ℝ) (T : SumTree ι) :
    |T.sum x - (T.leaves.map x).sum| ≤ ((1 + ulp) ^ T.depth - 1) * (T.leaves.map fun i => |x i|).sum := by
  have hu := ulp_pos
  have hnn : ∀ T : SumTree ι, 0 ≤ (T.leaves.map fun i => |x i|).sum := fun T => List.sum_nonneg (by simp)
  have hab : ∀ T : SumTree ι, |(T.leaves.map x).sum| ≤ (T.leaves.map fun i => |x i|).sum := fun T => by
    induction T.leaves with
    | nil => simp
    | cons a l ih => simp only [List.map_cons, List.sum_cons]; exact (abs_add_le _ _).trans (by linarith)
  induction T with
  | leaf i => simp [SumTree.sum, SumTree.leaves, SumTree.depth]
  | node l r hl hr =>
    simp only [SumTree.sum, SumTree.leaves, SumTree.depth, List.map_append, List.sum_append]
    set d := max l.depth r.depth
    set L := (l.leaves.map fun i => |x i|).sum with hL
    set R := (r.leaves.map fun i => |x i|).sum with hR
    have h0 := hnn l
    have h1 := hnn r
    have hl' : |l.sum x - (l.leaves.map x).sum| ≤ ((1 + ulp) ^ d - 1) * L := hl.trans (by
      gcongr
      · linarith
      · exact le_max_left _ _)
    have hr' : |r.sum x - (r.leaves.map x).sum| ≤ ((1 + ulp) ^ d - 1) * R := hr.trans (by
      gcongr
      · linarith
      · exact le_max_right _ _)
    have e1 := dbl_err (l.sum x + r.sum x)
    have e2 : |l.sum x + r.sum x| ≤ (1 + ulp) ^ d * (L + R) := by
      have k1 : |l.sum x| ≤ (1 + ulp) ^ d * L := by
        have := abs_add_le (l.sum x - (l.leaves.map x).sum) (l.leaves.map x).sum
        rw [sub_add_cancel] at this
        linarith [hab l]
      have k2 : |r.sum x| ≤ (1 + ulp) ^ d * R := by
        have := abs_add_le (r.sum x - (r.leaves.map x).sum) (r.leaves.map x).sum
        rw [sub_add_cancel] at this
        linarith [hab r]
      exact (abs_add_le _ _).trans (by linarith)
    calc |dbl (l.sum x + r.sum x) - ((l.leaves.map x).sum + (r.leaves.map x).sum)|
        = |(dbl (l.sum x + r.sum x) - (l.sum x + r.sum x)) + ((l.sum x - (l.leaves.map x).sum) + (r.sum x - (r.leaves.map x).sum))| := by ring_nf
      _ ≤ |dbl (l.sum x + r.sum x) - (l.sum x + r.sum x)| + (|l.sum x - (l.leaves.map x).sum| + |r.sum x - (r.leaves.map x).sum|) :=
        (abs_add_le _ _).trans (by gcongr; exact abs_add_le _ _)
      _ ≤ (1 + ulp) ^ d * (L + R) * ulp + (((1 + ulp) ^ d - 1) * L + ((1 + ulp) ^ d - 1) * R) := by
        gcongr
        exact e1.trans (by gcongr)
      _ = _ := by ring

theorem pow_small {D : ℕ} (h : (D : ℝ) * ulp ≤ 1 / 2) : (1 + ulp) ^ D - 1 ≤ 2 * D * ulp := by
  have hu := ulp_pos
  have hs := ulp_small
  have h1 := one_add_mul_le_pow (a := -ulp) (by linarith) D
  have h2 : (1 + ulp) ^ D * (1 + -ulp) ^ D ≤ 1 := by
    rw [← mul_pow]
    apply pow_le_one₀ <;> nlinarith
  have h3 : (0 : ℝ) < (1 + ulp) ^ D := by positivity
  have h4 : (1 + ulp) ^ D * (1 - D * ulp) ≤ 1 := by
    refine le_trans ?_ h2
    gcongr
    linarith
  have h5 : (0 : ℝ) ≤ D * ulp := by positivity
  by_contra hc
  push Not at hc
  nlinarith

/-- The tree adds every entry of the array once. -/
def Spec.Adds {ι : Type} [Fintype ι] (T : SumTree ι) : Prop := (T.leaves : Multiset ι) = Finset.univ.val

theorem adds_sum {ι : Type} [Fintype ι] {T : SumTree ι} (h : Adds T) (x : ι → ℝ) : (T.leaves.map x).sum = ∑ i, x i := by
  rw [Finset.sum, ← h]
  simp

theorem tree_near {ι : Type} [Fintype ι] {T : SumTree ι} (h : Adds T) {D : ℕ} (hD : T.depth ≤ D) (hs : (D : ℝ) * ulp ≤ 1 / 2) (x : ι → ℝ) :
    |T.sum x - ∑ i, x i| ≤ 2 * D * ulp * ∑ i, |x i| := by
  have h1 := tree_err x T
  rw [adds_sum h, adds_sum h] at h1
  refine h1.trans ?_
  have hu := ulp_pos
  have : (1 + ulp) ^ T.depth - 1 ≤ 2 * D * ulp := le_trans (by gcongr; linarith) (pow_small hs)
  gcongr

/-- Sums of approximate entries, up to a common factor `J`. -/
theorem tree_scaled {ι : Type} [Fintype ι] {T : SumTree ι} (h : Adds T) {D : ℕ} (hD : T.depth ≤ D) (hs : (D : ℝ) * ulp ≤ 1 / 2) {J K : ℝ} (hJ : 0 < J) (hK : K ≤ 1 / 2)
    (x v : ι → ℝ) (hx : ∀ i, |J * x i - v i| ≤ K) (hv : ∀ i, |v i| ≤ 1) :
    |J * T.sum x - ∑ i, v i| ≤ Fintype.card ι * (K + 3 * D * ulp) := by
  have hu := ulp_pos
  have h1 := tree_near h hD hs x
  have h2 : |∑ i, J * x i - ∑ i, v i| ≤ Fintype.card ι * K := by
    rw [← Finset.sum_sub_distrib]
    refine (Finset.abs_sum_le_sum_abs _ _).trans ((Finset.sum_le_sum fun i _ => hx i).trans ?_)
    simp
  have h3 : J * ∑ i, |x i| ≤ Fintype.card ι * (3 / 2) := by
    rw [Finset.mul_sum]
    refine (Finset.sum_le_sum (g := fun _ => (3 / 2 : ℝ)) fun i _ => ?_).trans (by simp)
    have := abs_add_le (J * x i - v i) (v i)
    rw [sub_add_cancel, abs_mul, abs_of_pos hJ] at this
    linarith [hx i, hv i]
  rw [← Finset.mul_sum] at h2
  calc |J * T.sum x - ∑ i, v i| = |J * (T.sum x - ∑ i, x i) + (J * ∑ i, x i - ∑ i, v i)| := by ring_nf
    _ ≤ |J * (T.sum x - ∑ i, x i)| + |J * ∑ i, x i - ∑ i, v i| := abs_add_le _ _
    _ ≤ J * (2 * D * ulp * ∑ i, |x i|) + Fintype.card ι * K := by
      rw [abs_mul, abs_of_pos hJ]
      gcongr
    _ = 2 * D * ulp * (J * ∑ i, |x i|) + Fintype.card ι * K := by ring
    _ ≤ 2 * D * ulp * (Fintype.card ι * (3 / 2)) + Fintype.card ι * K := by gcongr
    _ = _ := by ring

/-- Quotients of approximate numbers. -/
theorem ratio_near {S W X V E J : ℝ} (hJ : 0 < J) (hV : 0 < V) (hX : 0 ≤ X) (hXV : X ≤ V) (hS : |J * S - X| ≤ E) (hW : |J * W - V| ≤ E) (hE : E ≤ V / 4) :
    |dbl (S / W) - X / V| ≤ 4 * E / V + 2 * ulp := by
  have hu := ulp_pos
  have hs := ulp_small
  have hW' := abs_le.mp hW
  have hE0 : 0 ≤ E := (abs_nonneg _).trans hW
  have hJW : 3 / 4 * V ≤ J * W := by linarith
  have hW0 : 0 < W := by
    by_contra hc
    have : J * W ≤ 0 := mul_nonpos_of_nonneg_of_nonpos hJ.le (not_lt.mp hc)
    linarith
  have h1 : |S / W - X / V| ≤ 8 / 3 * E / V := by
    have e : S / W - X / V = ((J * S - X) * V - X * (J * W - V)) / (J * W * V) := by field_simp; ring
    rw [e, abs_div, abs_of_pos (by positivity : 0 < J * W * V), div_le_div_iff₀ (by positivity) hV]
    have h2 : |(J * S - X) * V - X * (J * W - V)| ≤ 2 * E * V := by
      calc _ ≤ |(J * S - X) * V| + |X * (J * W - V)| := abs_sub _ _
        _ = |J * S - X| * V + X * |J * W - V| := by rw [abs_mul, abs_mul, abs_of_pos hV, abs_of_nonneg hX]
        _ ≤ E * V + V * E := by gcongr
        _ = _ := by ring
    calc _ ≤ 2 * E * V * V := by gcongr
      _ ≤ 8 / 3 * E * (J * W * V) := by
        have : 0 ≤ E * V := by positivity
        nlinarith
  have h3 := dbl_err (S / W)
  have hq : |X / V| ≤ 1 := by rw [abs_of_nonneg (by positivity), div_le_one hV]; exact hXV
  have hev : 0 ≤ E / V := by positivity
  have hev' : E / V ≤ 1 / 4 := by rw [div_le_iff₀ hV]; linarith
  have h4 : |S / W| ≤ 2 := by
    have := abs_add_le (S / W - X / V) (X / V)
    rw [sub_add_cancel] at this
    have : 8 / 3 * E / V = 8 / 3 * (E / V) := by ring
    linarith
  calc _ ≤ |dbl (S / W) - S / W| + |S / W - X / V| := abs_sub_le _ _ _
    _ ≤ 2 * ulp + 8 / 3 * E / V := add_le_add (h3.trans (by gcongr)) h1
    _ ≤ _ := by
      have e1 : 8 / 3 * E / V = 8 / 3 * (E / V) := by ring
      have e2 : 4 * E / V = 4 * (E / V) := by ring
      rw [e1, e2]; linarith

/-! ## Weights of pixels -/

/-- `a` differs from `a'`, a number of size at most `A`, by at most `k` times `η`. -/
def Nr (η k A a a' : ℝ) : Prop := |a - a'| ≤ k * η ∧ |a'| ≤ A

theorem Nr.refl {η A a : ℝ} (h : |a| ≤ A) : Nr η 0 A a a := ⟨by simp, h⟩

/-- Rounding, up to a factor `J`. -/
theorem Nr.scaled {η k A z a' J : ℝ} (h : Nr η k A (J * z) a') (h1 : 100 * ulp ≤ η) (h2 : η ≤ 1 / 10 ^ 5) (hk : k ≤ 100) (hJ : 0 < J) :
    Nr η (k + (A + 1) / 100) A (J * dbl z) a' := by
  refine ⟨?_, h.2⟩
  have hu := ulp_pos
  have h3 := dbl_err z
  have hA : |J * z| ≤ A + 1 := by
    have := abs_add_le (J * z - a') a'
    rw [sub_add_cancel] at this
    have : k * η ≤ 1 := by nlinarith
    linarith [h.1, h.2]
  have h4 : |J * dbl z - J * z| ≤ (A + 1) * ulp := by
    rw [← mul_sub, abs_mul, abs_of_pos hJ]
    calc J * |dbl z - z| ≤ J * (|z| * ulp) := by gcongr
      _ = |J * z| * ulp := by rw [abs_mul, abs_of_pos hJ]; ring
      _ ≤ _ := by gcongr
  have hA0 : 0 ≤ A := (abs_nonneg _).trans h.2
  calc _ ≤ |J * dbl z - J * z| + |J * z - a'| := abs_sub_le _ _ _
    _ ≤ (A + 1) * (η / 100) + k * η := add_le_add (h4.trans (by gcongr; linarith)) h.1
    _ = _ := by ring

theorem Nr.dbl {η k A a a' : ℝ} (h : Nr η k A a a') (h1 : 100 * ulp ≤ η) (h2 : η ≤ 1 / 10 ^ 5) (hk : k ≤ 100) :
    Nr η (k + (A + 1) / 100) A (dbl a) a' := by
  have := Nr.scaled (J := 1) (by rw [one_mul]; exact h) h1 h2 hk one_pos
  rwa [one_mul] at this

theorem Nr.mul {η i j A B a a' b b' : ℝ} (ha : Nr η i A a a') (hb : Nr η j B b b') (h0 : 0 ≤ η) (h2 : η ≤ 1 / 10 ^ 5) (hi : i ≤ 100) (hj : j ≤ 100) (hi0 : 0 ≤ i) (hj0 : 0 ≤ j) :
    Nr η (i * B + j * A + 1 / 10) (A * B) (a * b) (a' * b') := by
  have hA := (abs_nonneg _).trans ha.2
  have hB := (abs_nonneg _).trans hb.2
  refine ⟨?_, by rw [abs_mul]; exact mul_le_mul ha.2 hb.2 (abs_nonneg _) hA⟩
  have e : a * b - a' * b' = (a - a') * (b - b') + (a - a') * b' + a' * (b - b') := by ring
  rw [e]
  have k1 : |(a - a') * (b - b')| ≤ 1 / 10 * η := by
    rw [abs_mul]
    calc _ ≤ (i * η) * (j * η) := mul_le_mul ha.1 hb.1 (abs_nonneg _) (by positivity)
      _ = (i * j) * η * η := by ring
      _ ≤ (100 * 100) * (1 / 10 ^ 5) * η := by gcongr
      _ = _ := by ring
  have k2 : |(a - a') * b'| ≤ i * η * B := by
    rw [abs_mul]; exact mul_le_mul ha.1 hb.2 (abs_nonneg _) (by positivity)
  have k3 : |a' * (b - b')| ≤ A * (j * η) := by
    rw [abs_mul]; exact mul_le_mul ha.2 hb.1 (abs_nonneg _) hA
  calc _ ≤ _ := abs_add_three _ _ _
    _ ≤ 1 / 10 * η + i * η * B + A * (j * η) := by gcongr
    _ = _ := by ring

theorem Nr.sub {η i j A B a a' b b' : ℝ} (ha : Nr η i A a a') (hb : Nr η j B b b') : Nr η (i + j) (A + B) (a - b) (a' - b') := by
  constructor
  · rw [show a - b - (a' - b') = (a - a') - (b - b') by ring]
    exact (abs_sub _ _).trans (by linarith [ha.1, hb.1])
  · exact (abs_sub _ _).trans (add_le_add ha.2 hb.2)

theorem Nr.mono {η k l A a a' : ℝ} (h : Nr η k A a a') (h0 : 0 ≤ η) (hkl : k ≤ l) : Nr η l A a a' := ⟨h.1.trans (by gcongr), h.2⟩

theorem Nr.size {η k A B a a' : ℝ} (h : Nr η k A a a') (hB : |a'| ≤ B) : Nr η k B a a' := ⟨h.1, hB⟩

/-- The limb darkening factor. -/
theorem ld_near {η u1 u2 x y : ℝ} (hld : PhysicalLD u1 u2) (h1 : 100 * ulp ≤ η) (h2 : η ≤ 1 / 10 ^ 5) (hx : 0 ≤ x) (hy : y ∈ Set.Icc 0 1) (h : Nr η 1 1 x y) :
    Nr η 6 1 (Libm.ldMask u1 u2 x) (quadraticLaw u1 u2 y) := by
  have hu := ulp_pos
  have h0 : 0 ≤ η := by linarith
  obtain ⟨l1, l2, l3⟩ := hld
  have d := (((Nr.refl (η := η) (A := 1) (a := 1) (by norm_num)).sub h).size (B := 1) (by rw [abs_le]; constructor <;> linarith [hy.1, hy.2])).dbl h1 h2 (by norm_num)
  have e1 := ((Nr.refl (η := η) (A := 2) (a := u1) (by rw [abs_le]; constructor <;> linarith)).mul d h0 h2 (by norm_num) (by norm_num) (by norm_num) (by norm_num)).dbl h1 h2 (by norm_num)
  have e2 := (d.mul d h0 h2 (by norm_num) (by norm_num) (by norm_num) (by norm_num)).dbl h1 h2 (by norm_num)
  have e3 := ((Nr.refl (η := η) (A := 1) (a := u2) (by rw [abs_le]; constructor <;> linarith)).mul e2 h0 h2 (by norm_num) (by norm_num) (by norm_num) (by norm_num)).dbl h1 h2 (by norm_num)
  have e4 := ((Nr.refl (η := η) (A := 1) (a := 1) (by norm_num)).sub e1).dbl h1 h2 (by norm_num)
  have e5 := ((e4.sub e3).size (B := 1) (by
    have := ld_range ⟨l1, l2, l3⟩ hy.1 hy.2
    unfold quadraticLaw at this
    rw [abs_le]
    constructor <;> nlinarith [this.1, this.2])).dbl h1 h2 (by norm_num)
  unfold Libm.ldMask
  rw [if_neg (not_lt.mpr hx)]
  have e6 : 1 - u1 * (1 - y) - u2 * ((1 - y) * (1 - y)) = quadraticLaw u1 u2 y := by unfold quadraticLaw; ring
  rw [e6] at e5
  exact e5.mono h0 (by norm_num)

/-- The weight of a pixel up to the factor `J`. -/
theorem weight_near {η u1 u2 x μ a j J : ℝ} (hld : PhysicalLD u1 u2) (h1 : 100 * ulp ≤ η) (h2 : η ≤ 1 / 10 ^ 5) (hμ : |μ| ≤ 1) (hx : |x - μ| ≤ η) (hJ : 0 < J) (hj : j ∈ Set.Icc 0 1)
    (ha : Nr η 2 1 (J * a) j) :
    |J * dbl (Libm.ldMask u1 u2 x * dbl (a * Star.areaProjection x)) - j * lightAt u1 u2 μ| ≤ 10 * η := by
  have hu := ulp_pos
  have h0 : 0 ≤ η := by linarith
  have hμ' := abs_le.mp hμ
  have hx' := abs_le.mp hx
  have hl := lightAt_range hld hμ'.2
  by_cases hneg : x < 0
  · have hz : Libm.ldMask u1 u2 x = 0 := by unfold Libm.ldMask; exact if_pos hneg
    rw [hz, zero_mul, dbl_zero, mul_zero, zero_sub, abs_neg, abs_of_nonneg (mul_nonneg hj.1 hl.1)]
    have : lightAt u1 u2 μ ≤ η := by
      unfold lightAt
      rcases le_total μ 0 with hm | hm
      · rw [max_eq_right hm, mul_zero]; exact h0
      · rw [max_eq_left hm]
        have := ld_range hld hm hμ'.2
        nlinarith [this.1, this.2]
    nlinarith [hj.1, hj.2, hl.1]
  · push Not at hneg
    have hp : Star.areaProjection x = x := by
      unfold Star.areaProjection
      by_cases h : 0 < x
      · rw [if_pos h]
      · rw [if_neg h]; linarith
    set y := max μ 0 with hy
    have hy1 : y ∈ Set.Icc (0 : ℝ) 1 := ⟨le_max_right _ _, max_le hμ'.2 zero_le_one⟩
    have hxy : Nr η 1 1 x y := by
      refine ⟨?_, by rw [abs_of_nonneg hy1.1]; exact hy1.2⟩
      have := abs_max_sub_max_le_abs x μ 0
      rw [max_eq_left hneg] at this
      rw [one_mul]
      exact this.trans hx
    have e1 := ld_near hld h1 h2 hneg hy1 hxy
    have e2 : Nr η (2 * 1 + 1 * 1 + 1 / 10) (1 * 1) (J * (a * x)) (j * y) := by
      have := ha.mul hxy h0 h2 (by norm_num) (by norm_num) (by norm_num) (by norm_num)
      rwa [mul_assoc J a x] at this
    have e3 := e2.scaled h1 h2 (by norm_num) hJ
    have e4 := (e1.mul e3 h0 h2 (by norm_num) (by norm_num) (by norm_num) (by norm_num))
    rw [show Libm.ldMask u1 u2 x * (J * dbl (a * x)) = J * (Libm.ldMask u1 u2 x * dbl (a * x)) by ring] at e4
    have e5 := e4.scaled h1 h2 (by norm_num) hJ
    have e6 : quadraticLaw u1 u2 y * (j * y) = j * lightAt u1 u2 μ := by
      unfold lightAt
      rcases le_total μ 0 with hm | hm
      · rw [hy, max_eq_right hm]; ring
      · rw [hy, max_eq_left hm]; ring
    rw [e6] at e5
    rw [hp]
    refine e5.1.trans ?_
    gcongr
    norm_num

/-! ## Coordinates -/

theorem Rel.err {k a a' A : ℝ} (h : Rel k a a') (hA : |a'| ≤ A) (hk : 0 ≤ k) : |a - a'| ≤ k * A * ulp := by
  have hu := ulp_pos
  calc _ ≤ k * ulp * |a'| := h
    _ ≤ k * ulp * A := by gcongr
    _ = _ := by ring

/-- Rounding a number that is known up to `e`. -/
theorem dbl_abs {x y e B : ℝ} (h : |x - y| ≤ e) (hB : |y| ≤ B) (he : e ≤ 1) : |dbl x - y| ≤ e + (B + 1) * ulp := by
  have hu := ulp_pos
  have h1 := dbl_err x
  have h2 : |x| ≤ B + 1 := by
    have := abs_add_le (x - y) y
    rw [sub_add_cancel] at this
    linarith
  calc _ ≤ |dbl x - x| + |x - y| := abs_sub_le _ _ _
    _ ≤ (B + 1) * ulp + e := add_le_add (h1.trans (by gcongr)) h
    _ = _ := by ring

/-- Degrees to radians. -/
theorem toRad_abs {x y e B : ℝ} (h : |x - y| ≤ e) (hB : |y| ≤ B) (he : e ≤ 1) : |Libm.toRad x - y * (π / 180)| ≤ e / 50 + (B + 1) / 10 * ulp := by
  have hu := ulp_pos
  have hp := pi_gt_three
  have hp' := pi_lt_d2
  have h2 : |x| ≤ B + 1 := by
    have := abs_add_le (x - y) y
    rw [sub_add_cancel] at this
    linarith
  have r := ((Rel.refl x).mul ((Rel.refl (π / 180)).dbl (by norm_num)) (by norm_num) (by norm_num)).dbl (by norm_num)
  have r' : |Libm.toRad x - x * (π / 180)| ≤ (0 + (0 + 2) + 1 + 2) * ((B + 1) * (π / 180)) * ulp := r.err (by
    rw [abs_mul, abs_of_pos (by positivity : 0 < π / 180)]
    gcongr) (by norm_num)
  have h3 : |x * (π / 180) - y * (π / 180)| ≤ e / 50 := by
    rw [← sub_mul, abs_mul, abs_of_pos (by positivity : 0 < π / 180)]
    have he0 : 0 ≤ e := (abs_nonneg _).trans h
    calc _ ≤ e * (π / 180) := by gcongr
      _ ≤ e * (1 / 50) := mul_le_mul_of_nonneg_left (by linarith) he0
      _ = _ := by ring
  have hB0 : 0 ≤ B + 1 := (abs_nonneg _).trans h2
  calc _ ≤ |Libm.toRad x - x * (π / 180)| + |x * (π / 180) - y * (π / 180)| := abs_sub_le _ _ _
    _ ≤ (B + 1) / 10 * ulp + e / 50 := by
      refine add_le_add (r'.trans ?_) h3
      gcongr
      nlinarith
    _ = _ := by ring

theorem latDeg_near {a j : ℕ} (ha : 3 ≤ a) (hj : j < a) : |Libm.latDeg a j - (-90 + j * (180 / ((a : ℝ) - 1)))| ≤ 1100 * ulp ∧ |-90 + j * (180 / ((a : ℝ) - 1))| ≤ 90 := by
  have hu := ulp_pos
  have hs := ulp_small
  have h3 : (3 : ℝ) ≤ a := by exact_mod_cast ha
  have hm : (0 : ℝ) < (a : ℝ) - 1 := by linarith
  have hj1 : (j : ℝ) + 1 ≤ a := by exact_mod_cast hj
  have hx0 : 0 ≤ (j : ℝ) * (180 / ((a : ℝ) - 1)) := by positivity
  have hx1 : (j : ℝ) * (180 / ((a : ℝ) - 1)) ≤ 180 := by
    rw [mul_div_assoc', div_le_iff₀ hm]
    nlinarith
  have hb : |-90 + (j : ℝ) * (180 / ((a : ℝ) - 1))| ≤ 90 := abs_le.mpr ⟨by linarith, by linarith⟩
  refine ⟨?_, hb⟩
  unfold Libm.latDeg
  by_cases hl : 1 < a ∧ j + 1 = a
  · rw [if_pos hl]
    have e : (j : ℝ) = a - 1 := by
      rw [← hl.2]; push_cast; ring
    rw [e, mul_div_cancel₀ _ hm.ne']
    norm_num
    positivity
  · rw [if_neg hl]
    have r := ((Rel.refl (j : ℝ)).mul ((Rel.refl (180 / ((a : ℝ) - 1))).dbl (by norm_num)) (by norm_num) (by norm_num)).dbl (by norm_num)
    have e1 := r.err (A := 180) (by rw [abs_of_nonneg hx0]; exact hx1) (by norm_num)
    have e2 : |dbl ((j : ℝ) * dbl (180 / ((a : ℝ) - 1))) + -90 - (-90 + (j : ℝ) * (180 / ((a : ℝ) - 1)))| ≤ (0 + (0 + 2) + 1 + 2) * 180 * ulp := by
      rw [show dbl ((j : ℝ) * dbl (180 / ((a : ℝ) - 1))) + -90 - (-90 + (j : ℝ) * (180 / ((a : ℝ) - 1))) = dbl ((j : ℝ) * dbl (180 / ((a : ℝ) - 1))) - (j : ℝ) * (180 / ((a : ℝ) - 1)) by ring]
      exact e1
    refine (dbl_abs e2 hb (by norm_num at hs ⊢; linarith)).trans ?_
    linarith

theorem lonDeg_near {b i : ℕ} (hi : i < b) : |Libm.lonDeg b i - i * (360 / (b : ℝ))| ≤ 1800 * ulp ∧ |(i : ℝ) * (360 / (b : ℝ))| ≤ 360 := by
  have hu := ulp_pos
  have hb : (0 : ℝ) < b := by exact_mod_cast (by omega : 0 < b)
  have hi1 : (i : ℝ) ≤ b := by exact_mod_cast hi.le
  have hx : |(i : ℝ) * (360 / (b : ℝ))| ≤ 360 := by
    rw [abs_of_nonneg (by positivity), mul_div_assoc', div_le_iff₀ hb]
    nlinarith
  refine ⟨?_, hx⟩
  have r := ((Rel.refl (i : ℝ)).mul ((Rel.refl (360 / (b : ℝ))).dbl (by norm_num)) (by norm_num) (by norm_num)).dbl (by norm_num)
  refine (r.err hx (by norm_num)).trans ?_
  linarith

theorem jacobian_near {M : Libm} (hM : Accurate M) {a j : ℕ} (ha : 3 ≤ a) (hj : j < a) : |M.jacobian a j - cos (-(π / 2) + j * (π / ((a : ℝ) - 1)))| ≤ 60 * ulp := by
  have hu := ulp_pos
  have hs := ulp_small
  obtain ⟨h1, h2⟩ := latDeg_near ha hj
  set y := -90 + (j : ℝ) * (180 / ((a : ℝ) - 1)) with hy
  have h2' := abs_le.mp h2
  have h3 : |Libm.latDeg a j + 90 - (y + 90)| ≤ 1100 * ulp := by rw [add_sub_add_right_eq_sub]; exact h1
  have h4 := dbl_abs h3 (B := 180) (abs_le.mpr ⟨by linarith, by linarith⟩) (by norm_num at hs ⊢; linarith)
  have h5 := toRad_abs h4 (B := 180) (abs_le.mpr ⟨by linarith, by linarith⟩) (by norm_num at hs ⊢; linarith)
  have e : cos (-(π / 2) + j * (π / ((a : ℝ) - 1))) = sin ((y + 90) * (π / 180)) := by
    rw [← sin_add_pi_div_two]
    congr 1
    rw [hy]
    ring
  rw [e]
  have h6 := (near_sin hM (x := Libm.toRad (dbl (Libm.latDeg a j + 90))) (y := (y + 90) * (π / 180)) (k := 50) (h5.trans (by linarith))).1
  exact h6.trans (by linarith)

theorem rect_lat_near (M : Libm) {a b : ℕ} (ha : 3 ≤ a) (p : (Grid.rect a b).Pix) : |M.gridLat (.rect a b) p - (Grid.rect a b).lat p| ≤ 40 * ulp := by
  have hu := ulp_pos
  have hs := ulp_small
  obtain ⟨i, j⟩ := p
  obtain ⟨l1, -⟩ := (C01_rect_layout a b (by omega)).2.2 i j
  rw [l1]
  obtain ⟨h1, h2⟩ := latDeg_near ha j.2
  have h5 := toRad_abs h1 h2 (by norm_num at hs ⊢; linarith)
  rw [show -(π / 2) + ((j : ℕ) : ℝ) * (π / (a - 1)) = (-90 + ((j : ℕ) : ℝ) * (180 / ((a : ℝ) - 1))) * (π / 180) by ring]
  exact h5.trans (by linarith)

theorem rect_lon_near {a b : ℕ} (ha : 3 ≤ a) (p : (Grid.rect a b).Pix) : |Libm.gridLon (.rect a b) p - (Grid.rect a b).lon p| ≤ 80 * ulp := by
  have hu := ulp_pos
  have hs := ulp_small
  obtain ⟨i, j⟩ := p
  obtain ⟨-, l2, -⟩ := (C01_rect_layout a b (by omega)).2.2 i j
  rw [l2]
  obtain ⟨h1, h2⟩ := lonDeg_near i.2
  have h5 := toRad_abs h1 h2 (by norm_num at hs ⊢; linarith)
  rw [show ((i : ℕ) : ℝ) * (2 * π / b) = (((i : ℕ) : ℝ) * (360 / (b : ℝ))) * (π / 180) by ring]
  exact h5.trans (by linarith)

theorem two_pi_rel : Rel 5 (dbl (2 * dbl π)) (2 * π) :=
  (((Rel.refl 2).mul ((Rel.refl π).dbl (by norm_num)) (by norm_num) (by norm_num)).dbl (by norm_num)).mono (by norm_num)

theorem golden_rel : Rel 7 Libm.golden (0.5 * (1 + √5)) := by
  have hu := ulp_pos
  have r1 := (Rel.refl √5).dbl (by norm_num)
  have r2 : Rel 2 (1 + dbl √5) (1 + √5) := by
    unfold Rel at *
    rw [add_sub_add_left_eq_sub]
    refine r1.trans ?_
    rw [abs_of_nonneg (sqrt_nonneg 5), abs_of_nonneg (by positivity)]
    rw [zero_add]
    gcongr
    linarith
  exact (((Rel.refl (0.5 : ℝ)).mul (r2.dbl (by norm_num)) (by norm_num) (by norm_num)).dbl (by norm_num)).mono (by norm_num)

theorem golden_lower : (3 / 2 : ℝ) ≤ 0.5 * (1 + √5) := by
  have : (2 : ℝ) ≤ √5 := by rw [le_sqrt (by norm_num) (by norm_num)]; norm_num
  linarith

theorem spiral_lon_near {n : ℕ} (i : (Grid.spiral n).Pix) :
    (∃ k : ℤ, |Libm.gridLon (.spiral n) i + 2 * π * k - (Grid.spiral n).lon i| ≤ 200 * n * ulp) ∧ Libm.gridLon (.spiral n) i ∈ Set.Icc 0 7 := by
  have hu := ulp_pos
  have hs := ulp_small
  have hp := pi_gt_three
  have hp' := pi_lt_d2
  have hi : ((i : ℕ) : ℝ) + 1 ≤ n := by exact_mod_cast (i : Fin n).2
  have hi0 : (0 : ℝ) ≤ ((i : ℕ) : ℝ) := by positivity
  set P := dbl (2 * dbl π) with hP
  have hPr : Rel 5 P (2 * π) := two_pi_rel
  have hPe := hPr.err (A := 7) (by rw [abs_of_pos (by positivity)]; linarith) (by norm_num)
  have hPe' := abs_le.mp hPe
  norm_num at hs
  have hP6 : 5 ≤ P := by linarith
  have hP7 : P ≤ 7 := by linarith
  set x := dbl (dbl (P * (i : ℕ)) / Libm.golden) with hx
  set x₀ := 2 * π * (i : ℕ) / (0.5 * (1 + √5)) with hx₀
  have hxr : Rel 30 x x₀ := by
    have r := ((((hPr.mul (Rel.refl ((i : ℕ) : ℝ)) (by norm_num) (by norm_num)).dbl (by norm_num)).div golden_rel (by norm_num) (by norm_num) (by norm_num) (by norm_num)
      (by have := golden_lower; positivity)).dbl (by norm_num))
    exact r.mono (by norm_num)
  have hx₀0 : 0 ≤ x₀ := by positivity
  have hx₀5 : x₀ ≤ 5 * n := by
    rw [hx₀, div_le_iff₀ (by positivity)]
    have := golden_lower
    have h0n : (0 : ℝ) ≤ n := by linarith
    calc 2 * π * (i : ℕ) ≤ 7 * n := by nlinarith
      _ ≤ 5 * n * (3 / 2) := by nlinarith
      _ ≤ _ := by gcongr
  have hxe := hxr.err (A := 5 * n) (by rw [abs_of_nonneg hx₀0]; exact hx₀5) (by norm_num)
  have hxe' := abs_le.mp hxe
  have hx0 : 0 ≤ x := by
    refine dbl_nonneg (div_nonneg (dbl_nonneg (by positivity)) ?_)
    unfold Libm.golden
    exact dbl_nonneg (mul_nonneg (by norm_num) (dbl_nonneg (by have := dbl_nonneg (sqrt_nonneg (5 : ℝ)); linarith)))
  have hx6 : x ≤ 6 * n := by
    have : 30 * (5 * n) * ulp ≤ n := by nlinarith
    linarith
  set k := ⌊x / P⌋ with hk
  have hk1 : (k : ℝ) ≤ x / P := Int.floor_le _
  have hk2 : x / P < k + 1 := Int.lt_floor_add_one _
  have hk0 : (0 : ℝ) ≤ k := by
    have : 0 ≤ k := Int.floor_nonneg.mpr (by positivity)
    exact_mod_cast this
  have hkn : (k : ℝ) ≤ 6 / 5 * n := by
    refine hk1.trans ?_
    rw [div_le_iff₀ (by linarith)]
    nlinarith
  have h1 : P * k ≤ x := by rwa [le_div_iff₀ (by linarith), mul_comm] at hk1
  have h2 : x ≤ P * k + P := by rw [div_lt_iff₀ (by linarith)] at hk2; linarith
  change (∃ k' : ℤ, |x - P * k + 2 * π * k' - Grid.mod2pi x₀| ≤ _) ∧ x - P * k ∈ _
  refine ⟨⟨k - ⌊x₀ / (2 * π)⌋, ?_⟩, by linarith, by linarith⟩
  unfold Grid.mod2pi
  push_cast
  rw [show x - P * k + 2 * π * (k - ⌊x₀ / (2 * π)⌋) - (x₀ - 2 * π * ⌊x₀ / (2 * π)⌋) = (x - x₀) - k * (P - 2 * π) by ring]
  refine (abs_sub _ _).trans ?_
  rw [abs_mul, abs_of_nonneg hk0]
  calc _ ≤ 30 * (5 * n) * ulp + 6 / 5 * n * (5 * 7 * ulp) := by
        refine add_le_add hxe ?_
        gcongr
    _ ≤ _ := by nlinarith

theorem arccos_lip {x y : ℝ} (hx : |x| ≤ 1) (hy : |y| ≤ 1) {c : ℝ} (hc : 0 < c) (h : c ≤ sin (arccos x)) : |arccos y - arccos x| ≤ 4 / c * |y - x| := by
  have hp := pi_gt_three
  have hp' := pi_lt_d2
  have hx' := abs_le.mp hx
  have hy' := abs_le.mp hy
  set a := arccos x with ha
  set b := arccos y with hb
  have ea : cos a = x := cos_arccos hx'.1 hx'.2
  have eb : cos b = y := cos_arccos hy'.1 hy'.2
  have ha0 := arccos_nonneg x
  have hb0 := arccos_nonneg y
  have ha1 := arccos_le_pi x
  have hb1 := arccos_le_pi y
  have h1 : |y - x| = 2 * (|sin ((b + a) / 2)| * |sin ((b - a) / 2)|) := by
    rw [← ea, ← eb, cos_sub_cos, abs_mul, abs_mul]
    norm_num
    ring
  have h2 : c / 2 ≤ |sin ((b + a) / 2)| := by
    rw [abs_of_nonneg (sin_nonneg_of_nonneg_of_le_pi (by linarith) (by linarith))]
    have e : sin b + sin a = 2 * (sin ((b + a) / 2) * cos ((b - a) / 2)) := by rw [sin_add_sin]; ring
    have hsb : 0 ≤ sin b := sin_nonneg_of_nonneg_of_le_pi hb0 hb1
    have hs0 : 0 ≤ sin ((b + a) / 2) := sin_nonneg_of_nonneg_of_le_pi (by linarith) (by linarith)
    have := mul_le_of_le_one_right hs0 (cos_le_one ((b - a) / 2))
    linarith
  have h3 : |b - a| / π ≤ |sin ((b - a) / 2)| := by
    have hab : |b - a| ≤ π := abs_le.mpr ⟨by linarith, by linarith⟩
    have e : |sin ((b - a) / 2)| = sin (|b - a| / 2) := by
      rw [← abs_of_nonneg (sin_nonneg_of_nonneg_of_le_pi (x := |b - a| / 2) (by positivity) (by linarith))]
      rcases abs_cases (b - a) with ⟨h, -⟩ | ⟨h, -⟩ <;> rw [h]
      rw [neg_div, sin_neg, abs_neg]
    rw [e]
    have := mul_le_sin (x := |b - a| / 2) (by positivity) (by linarith)
    calc _ = 2 / π * (|b - a| / 2) := by ring
      _ ≤ _ := this
  have h4 : c * (|b - a| / π) ≤ |y - x| := by
    rw [h1]
    have : c / 2 * (|b - a| / π) ≤ |sin ((b + a) / 2)| * |sin ((b - a) / 2)| := by gcongr
    linarith
  rw [div_mul_eq_mul_div, le_div_iff₀ hc]
  rw [mul_div_assoc', div_le_iff₀ (by positivity)] at h4
  nlinarith [abs_nonneg (y - x)]

theorem spiral_lat_near {M : Libm} (hM : Accurate M) {n : ℕ} (hn : (n : ℝ) ≤ 10 ^ 7) (i : (Grid.spiral n).Pix) :
    |M.gridLat (.spiral n) i - (Grid.spiral n).lat i| ≤ 200 * n * ulp := by
  have hu := ulp_pos
  have hs := ulp_small
  have hp := pi_gt_three
  have hp' := pi_lt_d2
  have hi : ((i : ℕ) : ℝ) + 1 ≤ n := by exact_mod_cast (i : Fin n).2
  have hi0 : (0 : ℝ) ≤ ((i : ℕ) : ℝ) := by positivity
  have hn1 : (1 : ℝ) ≤ n := by linarith
  have hn0 : (0 : ℝ) < n := by linarith
  set y := 2 * (((i : ℕ) : ℝ) + 0.5) / n with hy
  set y' := dbl (dbl (2 * dbl (((i : ℕ) : ℝ) + 0.5)) / n) with hy'
  have hyr : Rel 12 y' y := by
    have r := ((((Rel.refl 2).mul ((Rel.refl (((i : ℕ) : ℝ) + 0.5)).dbl (by norm_num)) (by norm_num) (by norm_num)).dbl (by norm_num)).div (Rel.refl (n : ℝ)) (by norm_num) (by norm_num) (by norm_num) (by norm_num) hn0.ne').dbl (by norm_num)
    exact r.mono (by norm_num)
  have hy1 : 1 / n ≤ y := by rw [hy]; gcongr; linarith
  have hy2 : y ≤ 2 - 1 / n := by
    rw [hy, div_le_iff₀ hn0, sub_mul, one_div_mul_cancel hn0.ne']
    linarith
  have hin : 0 < 1 / (n : ℝ) := by positivity
  have hye := hyr.err (A := 2) (by rw [abs_of_nonneg (by linarith)]; linarith) (by norm_num)
  have hc1 : |1 - y' - (1 - y)| ≤ 12 * 2 * ulp := by rw [sub_sub_sub_cancel_left, abs_sub_comm]; exact hye
  norm_num at hs
  have hc : |dbl (1 - y') - (1 - y)| ≤ 26 * ulp := (dbl_abs hc1 (B := 1) (abs_le.mpr ⟨by linarith, by linarith⟩) (by linarith)).trans (by linarith)
  set c' := dbl (1 - y') with hc'
  have hcc := abs_le.mp hc
  have hin2 : 26 * ulp ≤ 1 / n := by
    rw [le_div_iff₀ hn0]
    nlinarith
  have hcb : |c'| ≤ 1 := abs_le.mpr ⟨by linarith, by linarith⟩
  have hsin : 1 / (n : ℝ) ≤ sin (arccos (1 - y)) := by
    rw [sin_arccos, le_sqrt (by positivity) (by nlinarith)]
    have h1n : 1 / (n : ℝ) ≤ 1 := by rw [div_le_one hn0]; exact hn1
    nlinarith
  have hl := arccos_lip (x := 1 - y) (y := c') (abs_le.mpr ⟨by linarith, by linarith⟩) hcb hin hsin
  have hl2 : |arccos c' - arccos (1 - y)| ≤ 104 * n * ulp := by
    refine hl.trans ?_
    rw [show 4 / (1 / (n : ℝ)) = 4 * n by field_simp]
    calc _ ≤ 4 * n * (26 * ulp) := by gcongr
      _ = _ := by ring
  have ha := (arccos_rel hM hcb).err (A := 4) (by rw [abs_of_nonneg (arccos_nonneg _)]; exact (arccos_le_pi _).trans (by linarith)) (by norm_num)
  have hq : |dbl (dbl π / 2) - π / 2| ≤ 9 * 2 * ulp := by
    have r := (((Rel.refl π).dbl (by norm_num)).div (Rel.refl 2) (by norm_num) (by norm_num) (by norm_num) (by norm_num) (by norm_num)).dbl (by norm_num)
    exact (r.mono (l := 9) (by norm_num)).err (by rw [abs_of_pos (by positivity)]; linarith) (by norm_num)
  have hd : |dbl (dbl π / 2) - M.arccos c' - (π / 2 - arccos (1 - y))| ≤ 104 * n * ulp + 26 * ulp := by
    rw [show dbl (dbl π / 2) - M.arccos c' - (π / 2 - arccos (1 - y)) = (dbl (dbl π / 2) - π / 2) - (M.arccos c' - arccos c') - (arccos c' - arccos (1 - y)) by ring]
    calc _ ≤ |(dbl (dbl π / 2) - π / 2) - (M.arccos c' - arccos c')| + |arccos c' - arccos (1 - y)| := abs_sub _ _
      _ ≤ (|dbl (dbl π / 2) - π / 2| + |M.arccos c' - arccos c'|) + |arccos c' - arccos (1 - y)| := by gcongr; exact abs_sub _ _
      _ ≤ _ := by linarith
  change |dbl (dbl (dbl π / 2) - M.arccos c') - (π / 2 - arccos (1 - y))| ≤ _
  refine (dbl_abs hd (B := 2) (abs_le.mpr ⟨by linarith [arccos_le_pi (1 - y)], by linarith [arccos_nonneg (1 - y)]⟩) (by nlinarith)).trans ?_
  nlinarith

/-! ## Areas -/

/-- The area of a pixel before the division by the sum. -/
def jac : (g : Grid) → g.Pix → ℝ
  | .rect a b, p => cos ((Grid.rect a b).lat p)
  | .spiral _, _ => 1

theorem two_t_le_sin {t : ℝ} (h0 : 0 ≤ t) (h1 : t ≤ 1) : 2 * t * (1 - t) ≤ sin (π * t) := by
  have hp := pi_pos
  rcases le_total t (1 / 2) with h | h
  · have h2 := mul_le_sin (x := π * t) (by positivity) (by nlinarith)
    have e : 2 / π * (π * t) = 2 * t := by field_simp
    rw [e] at h2
    nlinarith
  · have h2 := mul_le_sin (x := π * (1 - t)) (by apply mul_nonneg <;> linarith) (by nlinarith)
    have e : 2 / π * (π * (1 - t)) = 2 * (1 - t) := by field_simp
    rw [e, show π * (1 - t) = π - π * t by ring, sin_pi_sub] at h2
    nlinarith

theorem sum_quad (m : ℝ) (hm : m ≠ 0) (n : ℕ) : ∑ j ∈ Finset.range n, 2 * ((j : ℝ) / m) * (1 - j / m) =
    n * (n - 1) / m - n * (n - 1) * (2 * n - 1) / (3 * m ^ 2) := by
  induction n with
  | zero => simp
  | succ n ih =>
    rw [Finset.sum_range_succ, ih]
    push_cast
    field_simp
    ring

theorem jac_facts (g : Grid) (hg : goodGrid g) : (∀ p, jac g p ∈ Set.Icc 0 1) ∧ (Fintype.card g.Pix : ℝ) / 6 ≤ ∑ p, jac g p ∧ 0 < (Fintype.card g.Pix : ℝ) ∧
    ∀ p, g.area p = .fin (jac g p / ∑ q, jac g q) := by
  cases g with
  | spiral n =>
    have hn : 1 ≤ n := hg
    have h1 : ∑ p, jac (.spiral n) p = n := by simp [jac, Grid.Pix]
    refine ⟨fun p => by simp [jac], ?_, ?_, fun p => ?_⟩
    · rw [h1]
      simp only [Grid.Pix, Fintype.card_fin]
      have : (0 : ℝ) ≤ n := by positivity
      linarith
    · simp only [Grid.Pix, Fintype.card_fin]
      exact_mod_cast hn
    · rw [spiral_area_eq n hn, h1]
      rfl
  | rect a b =>
    obtain ⟨ha, hb⟩ := hg
    refine ⟨fun p => ⟨rect_cos_nonneg a b (by omega) p, cos_le_one _⟩, ?_, ?_, rect_area_eq a b ha hb⟩
    · have hm : (0 : ℝ) < (a : ℝ) - 1 := by
        have : (3 : ℝ) ≤ a := by exact_mod_cast ha
        linarith
      have h3 : (3 : ℝ) ≤ a := by exact_mod_cast ha
      have h1 : ∀ p : (Grid.rect a b).Pix, 2 * (((p.2 : ℕ) : ℝ) / (a - 1)) * (1 - ((p.2 : ℕ) : ℝ) / (a - 1)) ≤ jac (.rect a b) p := by
        rintro ⟨i, j⟩
        obtain ⟨l1, -⟩ := (C01_rect_layout a b (by omega)).2.2 i j
        have hj : ((j : ℕ) : ℝ) ≤ a - 1 := by
          have : (j : ℕ) + 1 ≤ a := j.2
          have : (((j : ℕ) + 1 : ℕ) : ℝ) ≤ a := by exact_mod_cast this
          push_cast at this
          linarith
        change _ ≤ cos ((Grid.rect a b).lat (i, j))
        rw [l1, show -(π / 2) + ((j : ℕ) : ℝ) * (π / (a - 1)) = π * (((j : ℕ) : ℝ) / (a - 1)) - π / 2 by ring, cos_sub_pi_div_two]
        exact two_t_le_sin (by positivity) (by rw [div_le_one hm]; exact hj)
      refine le_trans ?_ (Finset.sum_le_sum fun p _ => h1 p)
      simp only [Grid.Pix, Fintype.card_prod, Fintype.card_fin]
      rw [Fintype.sum_prod_type]
      simp only [Finset.sum_const, Finset.card_univ, Fintype.card_fin, nsmul_eq_mul]
      rw [Fin.sum_univ_eq_sum_range (fun j => 2 * ((j : ℝ) / (a - 1)) * (1 - (j : ℝ) / (a - 1))), sum_quad _ hm.ne']
      have e : (a : ℝ) * (a - 1) / (a - 1) - a * (a - 1) * (2 * a - 1) / (3 * (a - 1) ^ 2) = a * (a - 2) / (3 * (a - 1)) := by
        field_simp
        ring
      rw [e]
      push_cast
      rw [mul_div_assoc]
      have : (a : ℝ) / 6 ≤ a * (a - 2) / (3 * (a - 1)) := by
        rw [div_le_div_iff₀ (by norm_num) (by positivity)]
        nlinarith
      gcongr
    · simp only [Grid.Pix, Fintype.card_prod, Fintype.card_fin]
      push_cast
      have h1 : (0 : ℝ) < a := by exact_mod_cast (by omega : 0 < a)
      have h2 : (0 : ℝ) < b := by exact_mod_cast (by omega : 0 < b)
      positivity

theorem single_pos {x : ℝ} (h : 0 < x) : 0 < single x := by
  have := abs_le.mp (single_err x)
  rw [abs_of_pos h] at this
  have h2 : x / 2 ^ 24 ≤ x / 2 := by gcongr; norm_num
  linarith [this.1]

theorem dbl_pos {x : ℝ} (h : 0 < x) : 0 < dbl x := by
  have := abs_le.mp (dbl_err x)
  rw [abs_of_pos h] at this
  nlinarith [this.1, ulp_small]

/-- Error of the coordinates of the pixels. -/
def Spec.coordErr : Grid → ℝ
  | .rect _ _ => 80 * ulp
  | .spiral n => 200 * n * ulp

theorem coordErr_nonneg (g : Grid) : 0 ≤ coordErr g := by
  have := ulp_pos
  cases g <;> simp only [coordErr] <;> positivity

/-- The coordinates as computed. -/
theorem coord_near {M : Libm} (hM : Accurate M) (g : Grid) (hg : goodGrid g) (hn : (Fintype.card g.Pix : ℝ) ≤ 10 ^ 7) (p : g.Pix) :
    |M.gridLat g p - g.lat p| ≤ coordErr g ∧ (∃ k : ℤ, |Libm.gridLon g p + 2 * π * k - g.lon p| ≤ coordErr g) ∧ Libm.gridLon g p ∈ Set.Icc (-1) 7 ∧ coordErr g ≤ 1 / 10 ^ 5 / 4 := by
  have hu := ulp_pos
  have hs := ulp_small
  have hp := pi_lt_d2
  have hp0 := pi_gt_three
  norm_num at hs
  cases g with
  | rect a b =>
    have l := rect_lon_near hg.1 p
    refine ⟨(rect_lat_near M hg.1 p).trans (by simp only [coordErr]; linarith), ⟨0, by simpa [coordErr] using l⟩, ?_, by simp only [coordErr]; norm_num; linarith⟩
    have l' := abs_le.mp l
    obtain ⟨i, j⟩ := p
    obtain ⟨-, l2, -⟩ := (C01_rect_layout a b (by have := hg.1; omega)).2.2 i j
    have hb : (0 : ℝ) < b := by exact_mod_cast (by have := i.2; omega : 0 < b)
    have hi : ((i : ℕ) : ℝ) ≤ b := by exact_mod_cast i.2.le
    have h0 : 0 ≤ (Grid.rect a b).lon (i, j) := by rw [l2]; positivity
    have h1 : (Grid.rect a b).lon (i, j) ≤ 2 * π := by
      rw [l2, mul_div_assoc', div_le_iff₀ hb]
      nlinarith
    constructor <;> linarith [l'.1, l'.2]
  | spiral n =>
    simp only [Grid.Pix, Fintype.card_fin] at hn
    obtain ⟨h1, h2⟩ := spiral_lon_near p
    refine ⟨spiral_lat_near hM hn p, h1, ⟨by linarith [h2.1], h2.2⟩, ?_⟩
    simp only [coordErr, ulp]
    have hn' : (n : ℝ) ≤ 10000000 := by norm_num at hn; exact_mod_cast hn
    norm_num
    linarith

/-- The areas as computed are the exact ones up to a common factor and a small error. -/
theorem area_near {M : Libm} (hM : Accurate M) (g : Grid) (hg : goodGrid g) {η : ℝ} (h1 : 100 * ulp ≤ η) (h2 : η ≤ 1 / 10 ^ 5)
    {T : SumTree g.Pix} (hT : Adds T) {D : ℕ} (hD : T.depth ≤ D) (hDs : (D : ℝ) * ulp ≤ 1 / 40) :
    ∃ J, 0 < J ∧ ∀ p, Nr η 2 1 (J * M.area g T p) (jac g p) := by
  have hu := ulp_pos
  obtain ⟨hj, hJ, hN, -⟩ := jac_facts g hg
  cases g with
  | spiral n =>
    have hn : (0 : ℝ) < n := by
      have : 1 ≤ n := hg
      exact_mod_cast this
    have hc := single_pos (dbl_pos (one_div_pos.mpr hn))
    refine ⟨1 / single (dbl (1 / n)), by positivity, fun p => ?_⟩
    refine ⟨?_, by simp [jac]⟩
    change |1 / single (dbl (1 / n)) * single (dbl (1 / n)) - 1| ≤ _
    rw [one_div_mul_cancel hc.ne', sub_self, abs_zero]
    linarith
  | rect a b =>
    set x : (Grid.rect a b).Pix → ℝ := fun q => M.jacobian a q.2 with hx
    have hxn : ∀ p, |x p - jac (.rect a b) p| ≤ η := by
      rintro ⟨i, j⟩
      obtain ⟨l1, -⟩ := (C01_rect_layout a b (by have := hg.1; omega)).2.2 i j
      change |M.jacobian a j - cos ((Grid.rect a b).lat (i, j))| ≤ _
      rw [l1]
      exact (jacobian_near hM hg.1 j.2).trans (by linarith)
    have hsum := tree_scaled hT hD (by linarith) (J := 1) (K := η) one_pos (by norm_num at h2; linarith) x (jac (.rect a b)) (fun p => by rw [one_mul]; exact hxn p)
      (fun p => by rw [abs_of_nonneg (hj p).1]; exact (hj p).2)
    rw [one_mul] at hsum
    have hpos : 0 < T.sum x := by
      have := (abs_le.mp hsum).1
      have h3 : (Fintype.card (Grid.rect a b).Pix : ℝ) * (η + 3 * D * ulp) < Fintype.card (Grid.rect a b).Pix / 6 := by
        rw [div_eq_mul_inv]
        apply mul_lt_mul_of_pos_left _ hN
        norm_num at h2 ⊢
        linarith
      linarith
    refine ⟨T.sum x, hpos, fun p => ?_⟩
    have e : Nr η 1 1 (T.sum x * (x p / T.sum x)) (jac (.rect a b) p) := by
      rw [mul_div_cancel₀ _ hpos.ne']
      exact ⟨by rw [one_mul]; exact hxn p, by rw [abs_of_nonneg (hj p).1]; exact (hj p).2⟩
    exact (e.scaled (by linarith) h2 (by norm_num) hpos).mono (by linarith) (by norm_num)

theorem mu_moves {M : Libm} (hM : Accurate M) {lat0 lon0 lat lon lat' lon' δ : ℝ} {k : ℤ} (hδ : δ ≤ 1 / 10 ^ 5 / 4) (h1 : |lat' - lat| ≤ δ) (h2 : |lon' + 2 * π * k - lon| ≤ δ) (h3 : |lon0 - lon'| ≤ 16) :
    |M.mu lat0 lon0 lat' lon' - Grid.cosAngle lat0 lon0 lat lon| ≤ 2 * δ + 37 * ulp := by
  have hp := pi_gt_three
  have e1 := (mu_near hM lat0 lon0 lat' lon' h3).1
  have e2 : |(sin lat0 * sin lat' + cos lat0 * cos lat' * cos (lon0 - lon')) - Grid.cosAngle lat0 lon0 lat lon| ≤ 2 * δ := by
    have c1 : sin lat0 * sin lat' + cos lat0 * cos lat' * cos (lon0 - lon') = cos (greatCircle lat0 lon0 lat' (lon' + 2 * π * k)) := by
      rw [cos_greatCircle, cosDist, inner_unitVec, show lon0 - (lon' + 2 * π * k) = lon0 - lon' - k * (2 * π) by ring, cos_sub_int_mul_two_pi]
    have c2 : Grid.cosAngle lat0 lon0 lat lon = cos (greatCircle lat0 lon0 lat lon) := by
      rw [cos_greatCircle, cosDist, inner_unitVec]; rfl
    rw [c1, c2]
    norm_num at hδ
    refine (abs_cos_sub_cos_le _ _).trans ((abs_greatCircle_sub _ _ _ _ _ _).trans ((greatCircle_le_add _ _ _ _ (by linarith) (by linarith)).trans (by linarith)))
  calc _ ≤ _ := abs_sub_le _ _ _
    _ ≤ 37 * ulp + 2 * δ := add_le_add e1 e2
    _ = _ := by ring

/-- **C145** (coordinates) The coordinates of the pixels as computed are those of the grid up to `coordErr`, the longitude up to full turns. -/
theorem C145_coordinates {M : Libm} (hM : Accurate M) (g : Grid) (hg : goodGrid g) (hn : (Fintype.card g.Pix : ℝ) ≤ 10 ^ 7) (p : g.Pix) :
    |M.gridLat g p - g.lat p| ≤ coordErr g ∧ ∃ k : ℤ, |Libm.gridLon g p + 2 * π * k - g.lon p| ≤ coordErr g :=
  ⟨(coord_near hM g hg hn p).1, (coord_near hM g hg hn p).2.1⟩

/-- On a spiral of 1000 points all coordinates are good to ten digits. -/
example {M : Libm} (hM : Accurate M) (p : (Grid.spiral 1000).Pix) : |M.gridLat (.spiral 1000) p - (Grid.spiral 1000).lat p| ≤ 1 / 10 ^ 10 ∧
    ∃ k : ℤ, |Libm.gridLon (.spiral 1000) p + 2 * π * k - (Grid.spiral 1000).lon p| ≤ 1 / 10 ^ 10 := by
  have hc : Fintype.card (Grid.spiral 1000).Pix = 1000 := by simp [Grid.Pix]
  have he : coordErr (.spiral 1000) ≤ 1 / 10 ^ 10 := by norm_num [coordErr, ulp]
  obtain ⟨h1, k, h2⟩ := C145_coordinates hM (.spiral 1000) (by show 1 ≤ 1000; norm_num) (by rw [hc]; norm_num) p
  exact ⟨h1.trans he, k, h2.trans he⟩

/-! ## The report -/

/-- Allowance for rounding when no entry of a sum takes part in more than `D` additions. -/
def Spec.allowance (g : Grid) (D : ℕ) : ℝ := 600 * coordErr g + (30000 + 80 * D) * (1 / 2 ^ 53)

/-- A sum of parts of the weights divided by the sum of the weights. -/
theorem parts_near {M : Libm} (hM : Accurate M) (s : Star) (hg : goodGrid s.grid) (hld : PhysicalLD s.u1 s.u2) (hn : (Fintype.card s.grid.Pix : ℝ) ≤ 10 ^ 7) {lat0 lon0 : ℝ} (hlon0 : |lon0| ≤ 9)
    {T T₁ T₂ : SumTree s.grid.Pix} {D : ℕ} (hT : Adds T) (hT₁ : Adds T₁) (hT₂ : Adds T₂) (hD : T.depth ≤ D) (hD₁ : T₁.depth ≤ D) (hD₂ : T₂.depth ≤ D)
    {w : s.grid.Pix → ℝ} (hw : ∀ p, s.weight lat0 lon0 p = .fin (w p)) (hL : allowance s.grid D ≤ ∑ p, w p) {c : s.grid.Pix → ℝ} (hc : ∀ p, c p ∈ Set.Icc 0 1)
    {x : s.grid.Pix → ℝ} (hx : ∀ p, x p = M.weight s T lat0 lon0 p * c p ∨ x p = dbl (M.weight s T lat0 lon0 p * c p)) :
    |dbl (T₁.sum x / T₂.sum (M.weight s T lat0 lon0)) - (∑ p, w p * c p) / ∑ p, w p| ≤ allowance s.grid D / ∑ p, w p := by
  have hu := ulp_pos
  have hus : ulp = 1 / 2 ^ 53 := rfl
  obtain ⟨hj, hJ, hN, ha⟩ := jac_facts s.grid hg
  set N : ℝ := (Fintype.card s.grid.Pix : ℝ) with hNdef
  set J₀ := ∑ p, jac s.grid p with hJ₀
  have hJ₀pos : 0 < J₀ := by linarith
  have hmu : ∀ p, |s.grid.mu lat0 lon0 p| ≤ 1 := fun p => by
    change |Grid.cosAngle lat0 lon0 (s.grid.lat p) (s.grid.lon p)| ≤ 1
    have : Grid.cosAngle lat0 lon0 (s.grid.lat p) (s.grid.lon p) = cos (greatCircle lat0 lon0 (s.grid.lat p) (s.grid.lon p)) := by
      rw [cos_greatCircle, cosDist, inner_unitVec]; rfl
    rw [this]
    exact abs_cos_le_one _
  have hl : ∀ p, lightAt s.u1 s.u2 (s.grid.mu lat0 lon0 p) ∈ Set.Icc (0 : ℝ) 1 := fun p => lightAt_range hld (abs_le.mp (hmu p)).2
  set v : s.grid.Pix → ℝ := fun p => jac s.grid p * lightAt s.u1 s.u2 (s.grid.mu lat0 lon0 p) with hv
  have hv01 : ∀ p, v p ∈ Set.Icc (0 : ℝ) 1 := fun p => ⟨mul_nonneg (hj p).1 (hl p).1, mul_le_one₀ (hj p).2 (hl p).1 (hl p).2⟩
  have hwv : ∀ p, w p = v p / J₀ := fun p => by
    have := (hw p).symm.trans (weight_eq s _ ha lat0 lon0 p)
    rw [Fl.fin_inj] at this
    rw [this, hv]
    unfold lightAt
    ring
  have hsw : ∑ p, w p = (∑ p, v p) / J₀ := by rw [Finset.sum_div]; exact Finset.sum_congr rfl fun p _ => hwv p
  have hswc : (∑ p, w p * c p) / ∑ p, w p = (∑ p, v p * c p) / ∑ p, v p := by
    have : ∑ p, w p * c p = (∑ p, v p * c p) / J₀ := by
      rw [Finset.sum_div]
      exact Finset.sum_congr rfl fun p _ => by rw [hwv]; ring
    rw [this, hsw, div_div_div_cancel_right₀ hJ₀pos.ne']
  set L := ∑ p, w p with hLdef
  have hV : ∑ p, v p = L * J₀ := by rw [hsw]; field_simp
  have hL1 : L ≤ 1 := by
    rw [hsw, div_le_one hJ₀pos]
    exact Finset.sum_le_sum fun p _ => mul_le_of_le_one_right (hj p).1 (hl p).2
  have hD0 : (0 : ℝ) ≤ D := by positivity
  have hDu : 0 ≤ (D : ℝ) * ulp := by positivity
  set δ := coordErr s.grid with hδdef
  have hδ0 : 0 ≤ δ := coordErr_nonneg _
  have hδ : δ ≤ 1 / 10 ^ 5 / 4 := by
    have : Nonempty s.grid.Pix := Fintype.card_pos_iff.mp (Nat.cast_pos.mp hN)
    exact (coord_near hM s.grid hg hn (Classical.arbitrary _)).2.2.2
  have hLe : allowance s.grid D = 600 * δ + 30000 * ulp + 80 * (D * ulp) := by unfold allowance; rw [hus, hδdef]; ring
  have hpos : 0 < allowance s.grid D := by rw [hLe]; linarith
  have hLpos : 0 < L := hpos.trans_le hL
  set η := 2 * δ + 100 * ulp with hη
  have hη2 : η ≤ 1 / 10 ^ 5 := by
    have : ulp ≤ 1 / 10 ^ 10 := by rw [hus]; norm_num
    rw [hη]
    norm_num at hδ this ⊢
    linarith
  have hDs : (D : ℝ) * ulp ≤ 1 / 40 := by linarith
  obtain ⟨J, hJpos, hA⟩ := area_near hM s.grid hg (η := η) (by linarith) hη2 hT hD hDs
  have hW : ∀ p, |J * M.weight s T lat0 lon0 p - v p| ≤ 10 * η := fun p => by
    obtain ⟨hlat, ⟨k, hlon⟩, hr, -⟩ := coord_near hM s.grid hg hn p
    have hfar : |lon0 - Libm.gridLon s.grid p| ≤ 16 := by
      have := abs_le.mp hlon0
      rw [abs_le]
      constructor <;> linarith [hr.1, hr.2, this.1, this.2]
    exact weight_near hld (by linarith) hη2 (hmu p) ((mu_moves hM hδ hlat hlon hfar).trans (by linarith)) hJpos (hj p) (hA p)
  have hη0 : 0 ≤ η := by linarith
  have hxn : ∀ p, |J * x p - v p * c p| ≤ 11 * η := fun p => by
    have e1 : Nr η 10 1 (J * (M.weight s T lat0 lon0 p * c p)) (v p * c p) := by
      refine ⟨?_, ?_⟩
      · rw [show J * (M.weight s T lat0 lon0 p * c p) - v p * c p = (J * M.weight s T lat0 lon0 p - v p) * c p by ring, abs_mul, abs_of_nonneg (hc p).1]
        exact (mul_le_of_le_one_right (abs_nonneg _) (hc p).2).trans (hW p)
      · rw [abs_of_nonneg (mul_nonneg (hv01 p).1 (hc p).1)]
        exact mul_le_one₀ (hv01 p).2 (hc p).1 (hc p).2
    rcases hx p with h | h
    · rw [h]; exact e1.1.trans (by linarith)
    · rw [h]
      have e2 := e1.scaled (by linarith) hη2 (by norm_num) hJpos
      exact e2.1.trans (by gcongr; norm_num)
  have hK : 11 * η ≤ 1 / 2 := by norm_num at hη2; linarith
  have hS := tree_scaled hT₁ hD₁ (by linarith) hJpos hK x (fun p => v p * c p) hxn (fun p => by
    rw [abs_of_nonneg (mul_nonneg (hv01 p).1 (hc p).1)]
    exact mul_le_one₀ (hv01 p).2 (hc p).1 (hc p).2)
  have hWs := tree_scaled hT₂ hD₂ (by linarith) hJpos hK (M.weight s T lat0 lon0) v (fun p => (hW p).trans (by linarith)) (fun p => by
    rw [abs_of_nonneg (hv01 p).1]
    exact (hv01 p).2)
  have hNJ : N ≤ 6 * J₀ := by linarith
  have hE : N * (11 * η + 3 * D * ulp) ≤ 6 * J₀ * (11 * η + 3 * D * ulp) := by
    have : 0 ≤ 11 * η + 3 * D * ulp := by linarith
    gcongr
  have hVpos : 0 < ∑ p, v p := by rw [hV]; positivity
  have e := ratio_near hJpos hVpos (Finset.sum_nonneg fun p _ => mul_nonneg (hv01 p).1 (hc p).1)
    (Finset.sum_le_sum fun p _ => mul_le_of_le_one_right (hv01 p).1 (hc p).2) (hS.trans hE) (hWs.trans hE) (by
      rw [hV]
      have : 24 * (11 * η + 3 * D * ulp) ≤ L := by
        refine le_trans ?_ hL
        rw [hLe, hη]
        linarith
      have h24 := mul_le_mul_of_nonneg_right this hJ₀pos.le
      linarith)
  rw [hswc]
  refine e.trans ?_
  have e2 : 4 * (6 * J₀ * (11 * η + 3 * D * ulp)) / ∑ p, v p = 24 * (11 * η + 3 * D * ulp) / L := by
    rw [hV]
    field_simp
    ring
  rw [e2]
  have e3 : 2 * ulp ≤ 2 * ulp / L := by rw [le_div_iff₀ hLpos]; exact mul_le_of_le_one_right (by linarith) hL1
  have e4 : 24 * (11 * η + 3 * D * ulp) / L + 2 * ulp / L ≤ allowance s.grid D / L := by
    rw [← add_div]
    gcongr
    rw [hLe, hη]
    linarith
  linarith

/-- Two dictionaries have the same keys in the same order, and values that are in relation `R`. -/
def DictRel (R : ℝ → Fl → Prop) (d : Dict ℤ ℝ) (d' : Dict ℤ Fl) : Prop := List.Forall₂ (fun a b => a.1 = b.1 ∧ R a.2 b.2) d d'

namespace DictRel
variable {R Q : ℝ → Fl → Prop} {d : Dict ℤ ℝ} {d' : Dict ℤ Fl}

theorem set (h : DictRel R d d') (k : ℤ) {x : ℝ} {y : Fl} (hxy : R x y) : DictRel R (Dict.set d k x) (Dict.set d' k y) := by
  induction h with
  | nil => exact List.Forall₂.cons ⟨rfl, hxy⟩ List.Forall₂.nil
  | @cons a b l l' hab hl ih =>
    obtain ⟨ka, va⟩ := a
    obtain ⟨kb, vb⟩ := b
    obtain ⟨hk, hv⟩ := hab
    simp only at hk hv
    subst hk
    unfold Dict.set
    by_cases he : ka = k
    · rw [if_pos he, if_pos he]
      exact List.Forall₂.cons ⟨rfl, hxy⟩ hl
    · rw [if_neg he, if_neg he]
      exact List.Forall₂.cons ⟨rfl, hv⟩ ih

theorem get? (h : DictRel R d d') (k : ℤ) : (Dict.get? d k = none ∧ Dict.get? d' k = none) ∨ ∃ x y, Dict.get? d k = some x ∧ Dict.get? d' k = some y ∧ R x y := by
  induction h with
  | nil => exact Or.inl ⟨rfl, rfl⟩
  | @cons a b l l' hab hl ih =>
    obtain ⟨ka, va⟩ := a
    obtain ⟨kb, vb⟩ := b
    obtain ⟨hk, hv⟩ := hab
    simp only at hk hv
    subst hk
    unfold Dict.get?
    by_cases he : ka = k
    · rw [if_pos he, if_pos he]
      exact Or.inr ⟨va, vb, rfl, rfl, hv⟩
    · rw [if_neg he, if_neg he]
      exact ih

theorem imp (h : DictRel R d d') (hRQ : ∀ x y, R x y → Q x y) : DictRel Q d d' := List.Forall₂.imp (fun _ _ hab => ⟨hab.1, hRQ _ _ hab.2⟩) h

theorem foldl (f : ℝ → ℝ) (g : ℝ → Fl) (l : List ℝ) (hfg : ∀ t ∈ l, R (f t) (g t)) (h : DictRel R d d') :
    DictRel R (l.foldl (fun d t => Dict.set d (Star.key t) (f t)) d) (l.foldl (fun d t => Dict.set d (Star.key t) (g t)) d') := by
  induction l generalizing d d' with
  | nil => exact h
  | cons t l ih => exact ih (fun t' ht' => hfg t' (List.mem_cons_of_mem _ ht')) (h.set _ (hfg t List.mem_cons_self))

end DictRel

/-- Granulation keeps dictionaries close. -/
theorem granulate_near {d : Dict ℤ ℝ} {d' e' : Dict ℤ Fl} {ε g : ℝ} {kP kG : ℤ} (hg : g ∈ Set.Icc 0 1) (h1 : 100 * ulp ≤ ε) (h2 : ε ≤ 1)
    (h : DictRel (fun x y => ∃ v ∈ Set.Icc (0 : ℝ) 1, y = .fin v ∧ |x - v| ≤ ε) d d') (he : Star.granulate d' kP kG g = .ok e') :
    ∃ e, Libm.granulate d kP kG g = .ok e ∧ DictRel (fun x y => ∃ v, y = .fin v ∧ |x - v| ≤ 3 * ε) e e' := by
  have hu := ulp_pos
  have hs := ulp_small
  obtain ⟨P, old, hP, ho, rfl⟩ := granulate_ok.mp he
  rcases h.get? kP with ⟨-, hn⟩ | ⟨x, y, hx, hy, v, hv, rfl, hxv⟩
  · rw [hn] at hP; cases hP
  rw [hy, Option.some.injEq] at hP
  subst hP
  have hx2 : |x| ≤ 2 := by
    have := abs_le.mp hxv
    rw [abs_le]
    constructor <;> linarith [hv.1, hv.2, this.1, this.2]
  have hq : ∀ q ∈ Set.Icc (0 : ℝ) 1, ∀ q', |q' - q| ≤ ulp → |dbl (x * q') - v * q| ≤ ε + 8 * ulp := fun q hq q' hq' => by
    have a1 := dbl_err (x * q')
    have a2 : |q'| ≤ 2 := by
      have := abs_le.mp hq'
      rw [abs_le]
      constructor <;> linarith [hq.1, hq.2, this.1, this.2]
    have a3 : |x * q'| * ulp ≤ 4 * ulp := by
      rw [abs_mul]
      have : |x| * |q'| ≤ 2 * 2 := mul_le_mul hx2 a2 (abs_nonneg _) (by norm_num)
      nlinarith
    have a4 : |x * q' - v * q| ≤ 2 * ulp + ε := by
      rw [show x * q' - v * q = x * (q' - q) + (x - v) * q by ring]
      refine (abs_add_le _ _).trans ?_
      rw [abs_mul, abs_mul, abs_of_nonneg hq.1]
      exact add_le_add (mul_le_mul hx2 hq' (abs_nonneg _) (by norm_num)) ((mul_le_of_le_one_right (abs_nonneg _) hq.2).trans hxv)
    calc _ ≤ |dbl (x * q') - x * q'| + |x * q' - v * q| := abs_sub_le _ _ _
      _ ≤ 4 * ulp + (2 * ulp + ε) := add_le_add (a1.trans a3) a4
      _ ≤ _ := by linarith
  have h1g : |dbl (1 - g) - (1 - g)| ≤ ulp := by
    refine (dbl_err (1 - g)).trans ?_
    rw [abs_of_nonneg (by linarith [hg.2])]
    nlinarith [hg.1]
  have hA := hq (1 - g) ⟨by linarith [hg.2], by linarith [hg.1]⟩ _ h1g
  have hB := hq g hg g (by simpa using hu.le)
  set R2 : ℝ → Fl → Prop := fun x y => ∃ v ∈ Set.Icc (0 : ℝ) 1, y = .fin v ∧ |x - v| ≤ ε + 8 * ulp with hR2
  have hd1 : DictRel R2 (Dict.set d kP (dbl (x * dbl (1 - g)))) (Dict.set d' kP (Fl.fin v * .fin (1 - g))) := by
    refine (h.imp fun x y => ?_).set kP ⟨v * (1 - g), ⟨mul_nonneg hv.1 (by linarith [hg.2]), mul_le_one₀ hv.2 (by linarith [hg.2]) (by linarith [hg.1])⟩, by rw [Fl.fin_mul], hA⟩
    rintro ⟨v, hv, hy, hxv⟩
    exact ⟨v, hv, hy, by linarith⟩
  rcases hd1.get? kG with ⟨-, hn⟩ | ⟨o, o', hoo, hoo', z, hz, rfl, hoz⟩
  · rw [hn] at ho; cases ho
  rw [hoo', Option.some.injEq] at ho
  subst ho
  refine ⟨Dict.set (Dict.set d kP (dbl (x * dbl (1 - g)))) kG (dbl (o + dbl (x * g))), ?_, ?_⟩
  · unfold Libm.granulate Dict.get
    simp only [hx, bind, Except.bind, hoo, pure, Except.pure]
  · refine (hd1.imp fun x y => ?_).set kG ⟨z + v * g, by rw [Fl.fin_mul, Fl.fin_add], ?_⟩
    · rintro ⟨v, hv, hy, hxv⟩
      exact ⟨v, hy, by linarith⟩
    · have b1 := dbl_err (o + dbl (x * g))
      have b2 : |o + dbl (x * g) - (z + v * g)| ≤ 2 * ε + 16 * ulp := by
        rw [show o + dbl (x * g) - (z + v * g) = (o - z) + (dbl (x * g) - v * g) by ring]
        exact (abs_add_le _ _).trans (by linarith)
      have b3 : |o + dbl (x * g)| ≤ 10 := by
        have := abs_le.mp b2
        have hvg : v * g ∈ Set.Icc (0 : ℝ) 1 := ⟨mul_nonneg hv.1 hg.1, mul_le_one₀ hv.2 hg.1 hg.2⟩
        rw [abs_le]
        constructor <;> linarith [hz.1, hz.2, hvg.1, hvg.2, this.1, this.2]
      calc _ ≤ |dbl (o + dbl (x * g)) - (o + dbl (x * g))| + |o + dbl (x * g) - (z + v * g)| := abs_sub_le _ _ _
        _ ≤ 10 * ulp + (2 * ε + 16 * ulp) := add_le_add (b1.trans (by gcongr)) b2
        _ ≤ _ := by linarith

theorem rawData_near {s : Star} {lat0 lon0 : ℝ} {m : s.grid.Pix → ℝ} {f : ℝ → ℝ} {c : s.grid.Pix → Fl} {R : ℝ → Fl → Prop} (G : ℝ)
    (h : ∀ t, R (f t) (s.areaWithTeff lat0 lon0 m c t / ∑ p, s.weight lat0 lon0 p)) (h0 : R 0 (.fin 0)) :
    DictRel R (Libm.rawData m f G) (s.rawData lat0 lon0 m c G) := by
  classical
  unfold Libm.rawData Star.rawData
  have := DictRel.foldl (d := []) (d' := []) (R := R) f (fun t => s.areaWithTeff lat0 lon0 m c t / ∑ p, s.weight lat0 lon0 p) (Star.uniqueTeffs m) (fun t _ => h t) List.Forall₂.nil
  by_cases hG : G ∈ Star.uniqueTeffs m
  · simp only [if_pos hG]
    exact this
  · simp only [if_neg hG]
    exact this.set _ h0

/-- Same keys in the same order, and values that differ by at most `ε`. -/
def Spec.SameUpTo (ε : ℝ) (d : Dict ℤ ℝ) (d' : Dict ℤ Fl) : Prop :=
  List.Forall₂ (fun a b => a.1 = b.1 ∧ ∃ v, b.2 = Fl.fin v ∧ |a.2 - v| ≤ ε) d d'

/-- What is assumed of the settings of a report: a proper grid of at most 10 million pixels, physical limb darkening, an observer at a
longitude between -9 and 9 radians, and sums that add every pixel exactly once with at most `D` additions after each other. -/
structure Spec.FloatSetting (s : Star) (lon0 : ℝ) (T T₁ T₂ : SumTree s.grid.Pix) (D : ℕ) : Prop where
  grid : goodGrid s.grid
  pixels : (Fintype.card s.grid.Pix : ℝ) ≤ 10 ^ 7
  ld : PhysicalLD s.u1 s.u2
  lon0 : |lon0| ≤ 9
  adds : Adds T ∧ Adds T₁ ∧ Adds T₂
  depth : T.depth ≤ D ∧ T₁.depth ≤ D ∧ T₂.depth ≤ D

theorem shares_near {M : Libm} (hM : Accurate M) {s : Star} {lat0 lon0 : ℝ} {T T₁ T₂ : SumTree s.grid.Pix} {D : ℕ}
    (H : FloatSetting s lon0 T T₁ T₂ D) {L : ℝ} (hL : ∑ p, s.weight lat0 lon0 p = .fin L) (hLe : allowance s.grid D ≤ L) (m : s.grid.Pix → ℝ) {c : s.grid.Pix → ℝ}
    (hc : ∀ p, c p ∈ Set.Icc 0 1) (teff : ℝ) :
    (∃ f ∈ Set.Icc (0 : ℝ) 1, s.areaWithTeff lat0 lon0 m (fun _ => .fin 1) teff / ∑ p, s.weight lat0 lon0 p = .fin f ∧ |M.nominalShare s T T₁ T₂ lat0 lon0 m teff - f| ≤ allowance s.grid D / L) ∧
    (∃ f ∈ Set.Icc (0 : ℝ) 1, s.areaWithTeff lat0 lon0 m (fun p => .fin (c p)) teff / ∑ p, s.weight lat0 lon0 p = .fin f ∧ |M.coveredShare s T T₁ T₂ lat0 lon0 m c teff - f| ≤ allowance s.grid D / L) := by
  classical
  obtain ⟨a, ha, -⟩ := C02_area_partition s.grid H.grid
  obtain ⟨w, hw, hw0⟩ : ∃ w : s.grid.Pix → ℝ, (∀ p, s.weight lat0 lon0 p = .fin (w p)) ∧ ∀ p, 0 ≤ w p := by
    obtain ⟨hj, hJ, hN, ha⟩ := jac_facts s.grid H.grid
    refine ⟨_, weight_eq s _ ha lat0 lon0, fun p => ?_⟩
    have hm : s.grid.mu lat0 lon0 p ≤ 1 := by
      have : Grid.cosAngle lat0 lon0 (s.grid.lat p) (s.grid.lon p) = cos (greatCircle lat0 lon0 (s.grid.lat p) (s.grid.lon p)) := by
        rw [cos_greatCircle, cosDist, inner_unitVec]; rfl
      change Grid.cosAngle lat0 lon0 (s.grid.lat p) (s.grid.lon p) ≤ 1
      rw [this]
      exact cos_le_one _
    have := lightAt_range H.ld hm
    rw [mul_left_comm]
    exact mul_nonneg (div_nonneg (hj p).1 (by linarith)) this.1
  have hLw : L = ∑ p, w p := by
    simp only [hw] at hL
    rw [Fl.sum_fin, Fl.fin_inj] at hL
    exact hL.symm
  subst hLw
  have hu : 0 < allowance s.grid D := by
    have := coordErr_nonneg s.grid
    unfold allowance
    positivity
  have hW : 0 < ∑ p, w p := hu.trans_le hLe
  have share01 : ∀ c : s.grid.Pix → ℝ, (∀ p, c p ∈ Set.Icc 0 1) → share w m c teff ∈ Set.Icc (0 : ℝ) 1 := fun c hc => by
    unfold share
    refine ⟨div_nonneg (Finset.sum_nonneg fun p _ => ?_) hW.le, (div_le_one hW).mpr (Finset.sum_le_sum fun p _ => ?_)⟩
    · by_cases h : m p = teff
      · rw [if_pos h]; exact mul_nonneg (hw0 p) (hc p).1
      · rw [if_neg h]
    · by_cases h : m p = teff
      · rw [if_pos h]; exact mul_le_of_le_one_right (hw0 p) (hc p).2
      · rw [if_neg h]; exact hw0 p
  have hshare : ∀ c : s.grid.Pix → ℝ, share w m c teff = (∑ p, w p * (if m p = teff then c p else 0)) / ∑ p, w p := fun c => by
    unfold share
    congr 1
    refine Finset.sum_congr rfl fun p _ => ?_
    by_cases h : m p = teff
    · rw [if_pos h, if_pos h]
    · rw [if_neg h, if_neg h, mul_zero]
  have ind : ∀ c : s.grid.Pix → ℝ, (∀ p, c p ∈ Set.Icc 0 1) → ∀ p, (if m p = teff then c p else 0) ∈ Set.Icc (0 : ℝ) 1 := fun c hc p => by
    by_cases h : m p = teff
    · rw [if_pos h]; exact hc p
    · rw [if_neg h]; exact ⟨le_refl _, zero_le_one⟩
  have one01 : ∀ p : s.grid.Pix, (fun _ => 1 : s.grid.Pix → ℝ) p ∈ Set.Icc (0 : ℝ) 1 := fun p => ⟨zero_le_one, le_refl _⟩
  refine ⟨⟨_, share01 _ one01, areaWithTeff_eq hw m (fun _ => 1) teff hW.ne', ?_⟩, ⟨_, share01 c hc, areaWithTeff_eq hw m c teff hW.ne', ?_⟩⟩
  · rw [hshare]
    refine parts_near hM s H.grid H.ld H.pixels H.lon0 H.adds.1 H.adds.2.1 H.adds.2.2 H.depth.1 H.depth.2.1 H.depth.2.2 hw hLe (ind _ one01) (fun p => Or.inl ?_)
    by_cases h : m p = teff
    · rw [if_pos h, if_pos h, mul_one]
    · rw [if_neg h, if_neg h, mul_zero]
  · rw [hshare]
    refine parts_near hM s H.grid H.ld H.pixels H.lon0 H.adds.1 H.adds.2.1 H.adds.2.2 H.depth.1 H.depth.2.1 H.depth.2.2 hw hLe (ind c hc) (fun p => Or.inr ?_)
    by_cases h : m p = teff
    · rw [if_pos h, if_pos h]
    · rw [if_neg h, if_neg h, mul_zero, zero_mul]

/-- **C145** Take the surface map and the transit mask as they are and compute the report in double precision, in any order of the sums and with any
mathematical library that is accurate to two units in the last place.  Then the report has the same entries in the same order, and no value
differs from the exact one by more than `3 * allowance / L`, where `L` is the light that the visible pixels send. -/
theorem C145_report {M : Libm} (hM : Accurate M) {s : Star} (hR : s.radius ≠ 0) {lat0 lon0 : ℝ} (h0 : lat0 ∈ Set.Icc (-(π / 2)) (π / 2)) {T T₁ T₂ : SumTree s.grid.Pix} {D : ℕ}
    (H : FloatSetting s lon0 T T₁ T₂ D) {L : ℝ} (hL : ∑ p, s.weight lat0 lon0 p = .fin L) (hLe : allowance s.grid D ≤ L)
    {g orbit r phase incl : ℝ} (hg : g ∈ Set.Icc 0 1) {total cov : Dict ℤ Fl} {plf : Fl} (h : s.calcCoverage lat0 lon0 g orbit r phase incl = .ok (total, cov, plf)) :
    ∃ m c gr, s.addFaculaeToMap lat0 lon0 = .ok m ∧ s.transitMask lat0 lon0 orbit r phase incl = .ok (fun p => .fin (c p), plf) ∧ s.granulation = some gr ∧
      ∃ total' cov', M.report s T T₁ T₂ lat0 lon0 g m c (s.teff - gr.dteff) = .ok (total', cov') ∧
        SameUpTo (3 * allowance s.grid D / L) total' total ∧ SameUpTo (3 * allowance s.grid D / L) cov' cov := by
  obtain ⟨m, mask, gr, hm, ht, hgr, h1, h2⟩ := calcCoverage_ok.mp h
  obtain ⟨c, rfl, hc0, hc1⟩ := mask_real H.grid hR h0 ht
  have hc : ∀ p, c p ∈ Set.Icc (0 : ℝ) 1 := fun p => ⟨hc0 p, hc1 p⟩
  refine ⟨m, c, gr, hm, ht, hgr, ?_⟩
  have hu := ulp_pos
  have hδ := coordErr_nonneg s.grid
  have hal : 30000 * ulp ≤ allowance s.grid D := by
    have : 0 ≤ (D : ℝ) * ulp := by positivity
    have e : allowance s.grid D = 600 * coordErr s.grid + 30000 * ulp + 80 * (D * ulp) := by unfold allowance ulp; ring
    rw [e]
    linarith
  have hLpos : 0 < L := by linarith
  have hL1 : L ≤ 1 := by
    obtain ⟨f, -, hf, -⟩ := (shares_near hM H hL hLe m hc 0).1
    obtain ⟨hj, hJ, hN, ha⟩ := jac_facts s.grid H.grid
    have hw := weight_eq s _ ha lat0 lon0
    simp only [hw] at hL
    rw [Fl.sum_fin, Fl.fin_inj] at hL
    rw [← hL]
    have hJ₀ : 0 < ∑ q, jac s.grid q := by linarith
    calc _ ≤ ∑ p, jac s.grid p / ∑ q, jac s.grid q := Finset.sum_le_sum fun p _ => by
          have hmu : s.grid.mu lat0 lon0 p ≤ 1 := by
            have : Grid.cosAngle lat0 lon0 (s.grid.lat p) (s.grid.lon p) = cos (greatCircle lat0 lon0 (s.grid.lat p) (s.grid.lon p)) := by
              rw [cos_greatCircle, cosDist, inner_unitVec]; rfl
            change Grid.cosAngle lat0 lon0 (s.grid.lat p) (s.grid.lon p) ≤ 1
            rw [this]
            exact cos_le_one _
          rw [mul_left_comm]
          exact mul_le_of_le_one_right (div_nonneg (hj p).1 hJ₀.le) (lightAt_range H.ld hmu).2
      _ = 1 := by rw [← Finset.sum_div, div_self hJ₀.ne']
  have hε1 : 100 * ulp ≤ allowance s.grid D / L := by
    rw [le_div_iff₀ hLpos]
    nlinarith
  have hε2 : allowance s.grid D / L ≤ 1 := by rw [div_le_one hLpos]; exact hLe
  have hε0 : 0 ≤ allowance s.grid D / L := by linarith
  have z : ∃ v ∈ Set.Icc (0 : ℝ) 1, Fl.fin 0 = .fin v ∧ |(0 : ℝ) - v| ≤ allowance s.grid D / L := ⟨0, ⟨le_refl _, zero_le_one⟩, rfl, by simpa using hε0⟩
  obtain ⟨e1, he1, hd1⟩ := granulate_near hg hε1 hε2 (rawData_near (f := M.nominalShare s T T₁ T₂ lat0 lon0 m) (s.teff - gr.dteff) (fun t => (shares_near hM H hL hLe m hc t).1) z) h1
  obtain ⟨e2, he2, hd2⟩ := granulate_near hg hε1 hε2 (rawData_near (f := M.coveredShare s T T₁ T₂ lat0 lon0 m c) (s.teff - gr.dteff) (fun t => (shares_near hM H hL hLe m hc t).2) z) h2
  refine ⟨e1, e2, ?_, ?_, ?_⟩
  · unfold Libm.report
    simp only [he1, he2, bind, Except.bind, pure, Except.pure]
  · rw [mul_div_assoc]; exact hd1
  · rw [mul_div_assoc]; exact hd2

theorem sameUpTo_sum {ε : ℝ} {d : Dict ℤ ℝ} {d' : Dict ℤ Fl} (h : SameUpTo ε d d') :
    ∃ S, (Dict.values d').sum = .fin S ∧ |(Dict.values d).sum - S| ≤ d'.length * ε := by
  unfold SameUpTo at h
  induction h with
  | nil => exact ⟨0, rfl, by simp [Dict.values]⟩
  | @cons a b l l' hab hl ih =>
    obtain ⟨S, hS, he⟩ := ih
    obtain ⟨-, v, hv, hav⟩ := hab
    refine ⟨v + S, ?_, ?_⟩
    · change (b.2 :: Dict.values l').sum = _
      rw [List.sum_cons, hv, hS, Fl.fin_add]
    · change |(a.2 :: Dict.values l).sum - _| ≤ _
      rw [List.sum_cons, List.length_cons, show a.2 + (Dict.values l).sum - (v + S) = (a.2 - v) + ((Dict.values l).sum - S) by ring]
      refine (abs_add_le _ _).trans ?_
      push_cast
      linarith

/-- **C145** (sum) If different temperatures differ by more than a hundredth of a kelvin, the shares that double precision reports add up to one,
up to the allowance for each entry. -/
theorem C145_sum {M : Libm} (hM : Accurate M) {s : Star} (hR : s.radius ≠ 0) {lat0 lon0 : ℝ} (h0 : lat0 ∈ Set.Icc (-(π / 2)) (π / 2)) {T T₁ T₂ : SumTree s.grid.Pix} {D : ℕ}
    (H : FloatSetting s lon0 T T₁ T₂ D) {L : ℝ} (hL : ∑ p, s.weight lat0 lon0 p = .fin L) (hLe : allowance s.grid D ≤ L)
    {g orbit r phase incl : ℝ} (hg : g ∈ Set.Icc 0 1) {total cov : Dict ℤ Fl} {plf : Fl} (h : s.calcCoverage lat0 lon0 g orbit r phase incl = .ok (total, cov, plf))
    {m : s.grid.Pix → ℝ} (hm : s.addFaculaeToMap lat0 lon0 = .ok m) {gr : Granulation} (hgr : s.granulation = some gr)
    (hsep : ∀ T ∈ Set.range m ∪ {s.teff, s.teff - gr.dteff}, ∀ T' ∈ Set.range m ∪ {s.teff, s.teff - gr.dteff}, T ≠ T' → 1 / 100 < |T - T'|) :
    ∃ c total' cov', M.report s T T₁ T₂ lat0 lon0 g m c (s.teff - gr.dteff) = .ok (total', cov') ∧ s.transitMask lat0 lon0 orbit r phase incl = .ok (fun p => .fin (c p), plf) ∧
      |(Dict.values total').sum - 1| ≤ total'.length * (3 * allowance s.grid D / L) := by
  obtain ⟨a, ha, -⟩ := C02_area_partition s.grid H.grid
  have hw : ∀ p, s.weight lat0 lon0 p = .fin (pixelWeight s a lat0 lon0 p) := weight_eq s a ha lat0 lon0
  have hW : ∑ p, pixelWeight s a lat0 lon0 p ≠ 0 := by
    have hL' := hL
    simp only [hw] at hL'
    rw [Fl.sum_fin, Fl.fin_inj] at hL'
    rw [hL']
    have : 0 < allowance s.grid D := by
      have := coordErr_nonneg s.grid
      unfold allowance
      positivity
    linarith
  obtain ⟨m', c, gr', hm', hc, hgr', total', cov', hrep, h1, -⟩ := C145_report hM hR h0 H hL hLe hg h
  rw [hm, Except.ok.injEq] at hm'
  subst hm'
  rw [hgr, Option.some.injEq] at hgr'
  subst hgr'
  refine ⟨c, total', cov', hrep, hc, ?_⟩
  obtain ⟨hs1, -⟩ := C57_shares_partial s H.grid hR a ha lat0 lon0 h0 hW g orbit r phase incl total cov plf h m hm (s.teff - gr.dteff) ⟨gr, hgr, rfl⟩ hsep
  obtain ⟨S, hS, he⟩ := sameUpTo_sum h1
  rw [hs1, Fl.fin_inj] at hS
  subst hS
  rwa [List.Forall₂.length_eq h1]

/-! ## Examples -/

/-- Every grid can be summed from left to right. -/
theorem exists_tree (ι : Type) [Fintype ι] [Nonempty ι] : ∃ T : SumTree ι, Adds T ∧ T.depth ≤ Fintype.card ι := by
  have key : ∀ l : List ι, l ≠ [] → ∃ T : SumTree ι, T.leaves = l ∧ T.depth ≤ l.length := by
    intro l
    induction l with
    | nil => intro h; exact absurd rfl h
    | cons a l ih =>
      intro _
      by_cases hl : l = []
      · subst hl
        exact ⟨.leaf a, rfl, by simp [SumTree.depth]⟩
      · obtain ⟨T, h1, h2⟩ := ih hl
        exact ⟨.node (.leaf a) T, by simp [SumTree.leaves, h1], by simp [SumTree.depth]; exact h2⟩
  obtain ⟨T, h1, h2⟩ := key Finset.univ.toList (by simp [Finset.univ_eq_empty_iff])
  refine ⟨T, ?_, by simpa using h2⟩
  unfold Adds
  rw [h1, Finset.coe_toList]

theorem oneFacula_light (t : ℝ) : ∃ L, ∑ p, (oneFacula t).weight 0 1 p = .fin L ∧ 1 / 100 ≤ L := by
  set s := oneFacula t with hs
  have hg : goodGrid s.grid := ⟨by show 3 ≤ 5; norm_num, by show 1 ≤ 4; norm_num⟩
  have hld : PhysicalLD s.u1 s.u2 := by simp [PhysicalLD, hs, oneFacula, sampleStar]
  obtain ⟨hj, hJ, hN, ha⟩ := jac_facts s.grid hg
  have hv : Visible s 0 1 := visible_rect s rfl (by omega) (by omega) 0 1
  obtain ⟨hnn, -⟩ := visible_pos s hg hld ha hv
  have hw : ∀ p, s.weight 0 1 p = .fin (pixelWeight s (fun p => jac s.grid p / ∑ q, jac s.grid q) 0 1 p) := weight_eq s _ ha 0 1
  refine ⟨∑ i, pixelWeight s (fun p => jac s.grid p / ∑ q, jac s.grid q) 0 1 i, by simp only [hw, Fl.sum_fin], ?_⟩
  let p : s.grid.Pix := ((⟨0, by norm_num⟩ : Fin 4), (⟨2, by norm_num⟩ : Fin 5))
  refine le_trans ?_ (Finset.single_le_sum (fun q _ => hnn q) (Finset.mem_univ p))
  obtain ⟨l1, l2, -⟩ := (C01_rect_layout 5 4 (by omega)).2.2 ⟨0, by norm_num⟩ ⟨2, by norm_num⟩
  have e1 : s.grid.lat p = 0 := by
    refine l1.trans ?_
    norm_num
    ring
  have e2 : s.grid.lon p = 0 := by
    refine l2.trans ?_
    norm_num
  have hmu : s.grid.mu 0 1 p = cos 1 := by
    change Grid.cosAngle 0 1 (s.grid.lat p) (s.grid.lon p) = _
    rw [e1, e2]
    simp [Grid.cosAngle]
  have hc1 : (1 / 2 : ℝ) ≤ cos 1 := by
    have := one_sub_sq_div_two_le_cos (x := 1)
    linarith
  have hjp : jac s.grid p = 1 := by
    change cos (s.grid.lat p) = 1
    rw [e1, cos_zero]
  have hsum : ∑ q, jac s.grid q ≤ 20 := by
    refine (Finset.sum_le_sum fun q _ => (hj q).2).trans ?_
    rw [Finset.sum_const, nsmul_eq_mul, mul_one]
    have : (Finset.univ : Finset s.grid.Pix).card = 20 := by
      change (Finset.univ : Finset (Fin 4 × Fin 5)).card = 20
      simp
    rw [this]
    norm_num
  have hpos : 0 < ∑ q, jac s.grid q := by linarith
  unfold pixelWeight
  beta_reduce
  rw [hmu, hjp, max_eq_left (by linarith)]
  have hq : quadraticLaw s.u1 s.u2 (cos 1) = 1 := by simp [quadraticLaw, hs, oneFacula, sampleStar]
  rw [hq, one_mul]
  generalize ∑ q, jac s.grid q = S at hsum hpos ⊢
  have : 1 / 20 ≤ 1 / S := one_div_le_one_div_of_le hpos hsum
  calc (1 / 100 : ℝ) ≤ 1 / 20 * (1 / 2) := by norm_num
    _ ≤ _ := mul_le_mul this hc1 (by norm_num) (by positivity)

theorem oneFacula_setting (t : ℝ) : ∃ T, FloatSetting (oneFacula t) 1 T T T 20 := by
  have : Nonempty (oneFacula t).grid.Pix := ⟨((⟨0, by norm_num⟩ : Fin 4), (⟨2, by norm_num⟩ : Fin 5))⟩
  have hcard : Fintype.card (oneFacula t).grid.Pix = 20 := by
    change Fintype.card (Fin 4 × Fin 5) = 20
    simp
  obtain ⟨T, h1, h2⟩ := exists_tree (oneFacula t).grid.Pix
  rw [hcard] at h2
  exact ⟨T, ⟨by show 3 ≤ 5; norm_num, by show 1 ≤ 4; norm_num⟩, by rw [hcard]; norm_num, by simp [PhysicalLD, oneFacula, sampleStar], by norm_num, ⟨h1, h1, h1⟩, ⟨h2, h2, h2⟩⟩

/-- The report for a star with a facula and granules during a transit, summed from left to right: double precision gets all values to eight digits. -/
example {M : Libm} (hM : Accurate M) : let s := oneFacula 3300.5
    ∃ total cov plf m c T total' cov', s.calcCoverage 0 1 0.2 10 (1 / 2) π (π / 2) = .ok (total, cov, plf) ∧ s.addFaculaeToMap 0 1 = .ok m ∧
      M.report s T T T 0 1 0.2 m c (3300.5 - 50) = .ok (total', cov') ∧ SameUpTo (1 / 10 ^ 8) total' total ∧ SameUpTo (1 / 10 ^ 8) cov' cov := by
  intro s
  have hp := pi_pos
  obtain ⟨⟨total, cov, plf⟩, h⟩ := oneFacula_answers 3300.5
  obtain ⟨L, hL, hL1⟩ := oneFacula_light 3300.5
  obtain ⟨T, hT⟩ := oneFacula_setting 3300.5
  have hal : allowance s.grid 20 ≤ 1 / 10 ^ 11 := by
    change 600 * (80 * ulp) + (30000 + 80 * (20 : ℕ)) * (1 / 2 ^ 53 : ℝ) ≤ _
    unfold ulp
    norm_num
  obtain ⟨m, c, gr, hm, -, hgr, total', cov', hr, h1, h2⟩ := C145_report hM one_ne_zero ⟨by linarith, by linarith⟩ hT hL (hal.trans (by norm_num; linarith)) (by constructor <;> norm_num) h
  have hgr' : gr = ⟨0.2, 1, 1, 50⟩ := (Option.some.inj hgr).symm
  subst hgr'
  have hle : 3 * allowance s.grid 20 / L ≤ 1 / 10 ^ 8 := by
    rw [div_le_iff₀ (by linarith)]
    calc _ ≤ 3 * (1 / 10 ^ 11 : ℝ) := by linarith
      _ ≤ 1 / 10 ^ 8 * (1 / 100) := by norm_num
      _ ≤ _ := by gcongr
  have wk : ∀ {d : Dict ℤ ℝ} {d' : Dict ℤ Fl}, SameUpTo (3 * allowance s.grid 20 / L) d d' → SameUpTo (1 / 10 ^ 8) d d' := fun h =>
    List.Forall₂.imp (fun a b hab => ⟨hab.1, hab.2.imp fun v hv => ⟨hv.1, hv.2.trans hle⟩⟩) h
  exact ⟨total, cov, plf, m, c, T, total', cov', h, hm, hr, wk h1, wk h2⟩

/-- The shares of that star in double precision add up to one, to seven digits. -/
example {M : Libm} (hM : Accurate M) : let s := oneFacula 3300.5
    ∃ m c T total' cov', s.addFaculaeToMap 0 1 = .ok m ∧ M.report s T T T 0 1 0.2 m c (3300.5 - 50) = .ok (total', cov') ∧ |(Dict.values total').sum - 1| ≤ total'.length * (1 / 10 ^ 8) := by
  intro s
  have hp := pi_pos
  obtain ⟨⟨total, cov, plf⟩, h⟩ := oneFacula_answers 3300.5
  obtain ⟨L, hL, hL1⟩ := oneFacula_light 3300.5
  obtain ⟨T, hT'⟩ := oneFacula_setting 3300.5
  obtain ⟨m, -, -, hm, -⟩ := calcCoverage_ok.mp h
  have hT : s.teff = 3300.5 := rfl
  have hff : s.faculae.faculae = [sampleFacula (.rect 5 4)] := rfl
  have hpl : Placed s := ⟨rfl, measured_new _ _, by simp [s, oneFacula, sampleStar, sampleFacula]⟩
  have hkeys := sampleFacula_keyvals (.rect 5 4)
  have hmap : ∀ m, s.addFaculaeToMap 0 1 = .ok m → ∀ p, m p = 3300.5 ∨ m p = 3400.5 ∨ m p = 3200.5 := by
    intro m hm p
    rcases C95_map_temperatures s hpl 0 1 m hm p with ⟨f, hf, hin, -, -, k, hk, e⟩ | ⟨hout, hh⟩
    · rw [hff, List.mem_singleton] at hf
      subst hf
      right
      rw [e, hT]
      rcases hk with hk | hk
      · rw [wallDteff_eq (r := 1) rfl] at hk
        simp only [Helpers.roundTeff, Except.ok.injEq] at hk
        have : k = 100 := by rw [← hk]; exact hkeys.1
        left; subst this; norm_num [Helpers.clipTeff, Helpers.teffHigh, Helpers.teffLow]
      · rw [floorDteff_eq (r := 1) rfl] at hk
        simp only [Helpers.roundTeff, Except.ok.injEq] at hk
        have : k = -100 := by rw [← hk]; exact hkeys.2
        right; subst this; norm_num [Helpers.clipTeff, Helpers.teffHigh, Helpers.teffLow]
    · left
      rcases hh with h1 | ⟨-, sp, hsp, -⟩
      · exact h1
      · cases hsp
  have hall : ∀ t ∈ Set.range m ∪ {s.teff, s.teff - 50}, t = 3300.5 ∨ t = 3400.5 ∨ t = 3200.5 ∨ t = 3250.5 := by
    rintro t (⟨p, rfl⟩ | rfl | rfl)
    · rcases hmap m hm p with h | h | h <;> simp only [h, true_or, or_true]
    · exact Or.inl rfl
    · right; right; right; rw [hT]; norm_num
  have hal : allowance s.grid 20 ≤ 1 / 10 ^ 11 := by
    change 600 * (80 * ulp) + (30000 + 80 * (20 : ℕ)) * (1 / 2 ^ 53 : ℝ) ≤ _
    unfold ulp
    norm_num
  obtain ⟨c, total', cov', hr, -, he⟩ := C145_sum hM one_ne_zero ⟨by linarith, by linarith⟩ hT' hL (hal.trans (by norm_num; linarith)) (by constructor <;> norm_num) h hm
    (gr := ⟨0.2, 1, 1, 50⟩) rfl (by
      intro t h t' h' hne
      rcases hall t h with rfl | rfl | rfl | rfl <;> rcases hall t' h' with rfl | rfl | rfl | rfl <;> first | exact absurd rfl hne | norm_num)
  refine ⟨m, c, T, total', cov', hm, hr, he.trans (mul_le_mul_of_nonneg_left ?_ (by positivity))⟩
  change 3 * allowance s.grid 20 / L ≤ _
  rw [div_le_iff₀ (by linarith)]
  calc _ ≤ 3 * (1 / 10 ^ 11 : ℝ) := by linarith
    _ ≤ 1 / 10 ^ 8 * (1 / 100) := by norm_num
    _ ≤ _ := by gcongr

end Vsm
