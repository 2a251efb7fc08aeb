import Verif.Model.FloatMask
import Verif.Props.FloatAll
import Verif.Props.FloatTransit
import Verif.Props.Transit

/-!
# C180: the report in a transit with all rounding

The tests that find out whether the planet covers a pixel are made with rounded numbers.  Away from the planet's edge, from the limb and from the centre of the disk they come out as in exact
arithmetic, so the covered shares of the report are off by at most the rounding errors of C153 and the light of the pixels that are left.
-/

noncomputable section

namespace Vsm

open Real Spec Np

/-- Labels of one map under two masks: the entries differ by at most the mean difference of the masks. -/
theorem entry_masks {ι : Type} [Fintype ι] {w m c c' : ι → ℝ} (hw : ∀ p, 0 ≤ w p) (hW : 0 < ∑ p, w p)
    {g : ℝ} (hg : g ∈ Set.Icc (0 : ℝ) 1) (kP kG k : ℤ) (hk : kP ≠ kG) :
    |(labelShare w m c k + (if k = kG then g * labelShare w m c kP else 0) - (if k = kP then g * labelShare w m c kP else 0)) -
      (labelShare w m c' k + (if k = kG then g * labelShare w m c' kP else 0) - (if k = kP then g * labelShare w m c' kP else 0))| ≤
      (∑ p, w p * |c p - c' p|) / ∑ p, w p := by
  let val : ℤ → ℝ := fun l => (if l = k then 1 else 0) + (if k = kG then g * (if l = kP then 1 else 0) else 0) - (if k = kP then g * (if l = kP then 1 else 0) else 0)
  have hval : ∀ l, val l ∈ Set.Icc (0 : ℝ) 1 := fun l => by
    obtain ⟨g0, g1⟩ := hg
    simp only [val]
    split_ifs <;> first | (exfalso; omega) | (constructor <;> linarith)
  have form : ∀ c : ι → ℝ, labelShare w m c k + (if k = kG then g * labelShare w m c kP else 0) - (if k = kP then g * labelShare w m c kP else 0) =
      (∑ p, w p * c p * val (Star.key (m p))) / ∑ p, w p := fun c => by
    have hl : ∀ k', labelShare w m c k' = (∑ p, w p * c p * (if Star.key (m p) = k' then 1 else 0)) / ∑ p, w p := fun k' => by
      unfold labelShare
      congr 1
      refine Finset.sum_congr rfl fun p _ => ?_
      by_cases e : Star.key (m p) = k'
      · rw [if_pos e, if_pos e, mul_one]
      · rw [if_neg e, if_neg e, mul_zero]
    rw [hl k, hl kP]
    simp only [val, mul_sub, mul_add, Finset.sum_sub_distrib, Finset.sum_add_distrib, sub_div, add_div]
    congr 1
    · congr 1
      by_cases e1 : k = kG
      · simp only [if_pos e1, ← mul_div_assoc, Finset.mul_sum]
        congr 1
        exact Finset.sum_congr rfl fun p _ => by ring
      · simp only [if_neg e1, mul_zero, Finset.sum_const_zero, zero_div]
    · by_cases e1 : k = kP
      · simp only [if_pos e1, ← mul_div_assoc, Finset.mul_sum]
        congr 1
        exact Finset.sum_congr rfl fun p _ => by ring
      · simp only [if_neg e1, mul_zero, Finset.sum_const_zero, zero_div]
  rw [form c, form c', ← sub_div, abs_div, abs_of_pos hW]
  gcongr
  rw [← Finset.sum_sub_distrib]
  refine (Finset.abs_sum_le_sum_abs _ _).trans (Finset.sum_le_sum fun p _ => ?_)
  have h1 := hval (Star.key (m p))
  rw [← sub_mul, ← mul_sub, abs_mul, abs_mul, abs_of_nonneg (hw p), abs_of_nonneg h1.1]
  have h2 : 0 ≤ w p * |c p - c' p| := mul_nonneg (hw p) (abs_nonneg _)
  nlinarith [h1.2]

/-! ## The mask -/

theorem abs_hypot_sub (a b c d : ℝ) : |√(a ^ 2 + b ^ 2) - √(c ^ 2 + d ^ 2)| ≤ |a - c| + |b - d| := by
  have h := abs_norm_sub_norm_le (⟨a, b⟩ : ℂ) ⟨c, d⟩
  rw [Complex.norm_eq_sqrt_sq_add_sq, Complex.norm_eq_sqrt_sq_add_sq] at h
  exact h.trans (Complex.norm_le_abs_re_add_abs_im _)

/-- A pixel that is clearly behind the limb, clearly outside the planet's disk, or clearly inside it and neither at the limb nor at the centre of the disk. -/
def Spec.Decided (g : Grid) (lat0 lon0 X Y ρ : ℝ) (a : g.Pix → ℝ) (p : g.Pix) : Prop :=
  let μ := cos (greatCircle lat0 lon0 (g.lat p) (g.lon p))
  let x := orthoX lat0 lon0 (g.lat p) (g.lon p)
  let y := orthoY lat0 lon0 (g.lat p) (g.lon p)
  let d := √((x - X) ^ 2 + (y - Y) ^ 2)
  μ < -(1 / 10 ^ 5) ∨ ρ + 4 * √(a p) * μ + 0.0125 < d ∨ (1 / 10 ^ 5 < μ ∧ (2 / 10 ^ 4) ^ 2 ≤ x ^ 2 + y ^ 2 ∧ d + 4 * √(a p) * μ + 0.0125 < ρ)

/-- A pixel that is neither at the limb nor at the centre of the disk, and whose picture of two projected radii clearly contains a piece of the planet's edge. -/
def Spec.AtEdge (g : Grid) (lat0 lon0 X Y ρ : ℝ) (a : g.Pix → ℝ) (p : g.Pix) : Prop :=
  let μ := cos (greatCircle lat0 lon0 (g.lat p) (g.lon p))
  let x := orthoX lat0 lon0 (g.lat p) (g.lon p)
  let y := orthoY lat0 lon0 (g.lat p) (g.lon p)
  1 / 10 ^ 5 < μ ∧ (2 / 10 ^ 4) ^ 2 ≤ x ^ 2 + y ^ 2 ∧ |√((x - X) ^ 2 + (y - Y) ^ 2) - ρ| + 0.0125 < 4 * √(a p) * μ

/-- What is close to the coordinates of a pixel has nearly the same picture on the disk. -/
theorem ortho_near {lat0 lon0 lat lon lat' lon' δ : ℝ} {k : ℤ} (h1 : |lat' - lat| ≤ δ) (h2 : |lon' + 2 * π * k - lon| ≤ δ) :
    |orthoX lat0 lon0 lat' lon' - orthoX lat0 lon0 lat lon| ≤ 2 * δ ∧ |orthoY lat0 lon0 lat' lon' - orthoY lat0 lon0 lat lon| ≤ 3 * δ ∧
    |cos (greatCircle lat0 lon0 lat' lon') - cos (greatCircle lat0 lon0 lat lon)| ≤ 3 * δ := by
  have hs : |sin lat' - sin lat| ≤ δ := (abs_sin_sub_sin_le _ _).trans h1
  have hc : |cos lat' - cos lat| ≤ δ := (abs_cos_sub_cos_le _ _).trans h1
  have e1 : sin (lon' - lon0) = sin (lon' + 2 * π * k - lon0) := by
    rw [show lon' + 2 * π * k - lon0 = lon' - lon0 + k * (2 * π) by ring, sin_add_int_mul_two_pi]
  have e2 : cos (lon' - lon0) = cos (lon' + 2 * π * k - lon0) := by
    rw [show lon' + 2 * π * k - lon0 = lon' - lon0 + k * (2 * π) by ring, cos_add_int_mul_two_pi]
  have hz : |(lon' + 2 * π * k - lon0) - (lon - lon0)| ≤ δ := by rw [sub_sub_sub_cancel_right]; exact h2
  have hs' : |sin (lon' - lon0) - sin (lon - lon0)| ≤ δ := by rw [e1]; exact (abs_sin_sub_sin_le _ _).trans hz
  have hc' : |cos (lon' - lon0) - cos (lon - lon0)| ≤ δ := by rw [e2]; exact (abs_cos_sub_cos_le _ _).trans hz
  have hδ : 0 ≤ δ := (abs_nonneg _).trans h1
  have prod : ∀ {a b c d : ℝ}, |a - c| ≤ δ → |b - d| ≤ δ → |a| ≤ 1 → |d| ≤ 1 → |a * b - c * d| ≤ 2 * δ := by
    intro a b c d ha hb h3 h4
    rw [show a * b - c * d = a * (b - d) + (a - c) * d by ring]
    refine (abs_add_le _ _).trans ?_
    rw [abs_mul, abs_mul]
    nlinarith [abs_nonneg a, abs_nonneg (b - d), abs_nonneg (a - c), abs_nonneg d]
  have pc := prod hc hc' (abs_cos_le_one _) (abs_cos_le_one _)
  have unit : ∀ {u v : ℝ} {t : ℝ}, |u| ≤ 1 → |v| ≤ t → |u * v| ≤ t := fun {u v t} hu hv => by
    rw [abs_mul]; nlinarith [abs_nonneg u, abs_nonneg v]
  have gc : ∀ l z, cos (greatCircle lat0 lon0 l z) = sin lat0 * sin l + cos lat0 * (cos l * cos (z - lon0)) := fun l z => by
    rw [greatCircle_eq, cos_arccos (cosExpr_mem _ _ _ _).1 (cosExpr_mem _ _ _ _).2, ← cos_neg (z - lon0), neg_sub]; ring
  refine ⟨prod hc hs' (abs_cos_le_one _) (abs_sin_le_one _), ?_, ?_⟩
  · unfold orthoY
    rw [show cos lat0 * sin lat' - sin lat0 * cos lat' * cos (lon' - lon0) - (cos lat0 * sin lat - sin lat0 * cos lat * cos (lon - lon0)) =
      cos lat0 * (sin lat' - sin lat) - sin lat0 * (cos lat' * cos (lon' - lon0) - cos lat * cos (lon - lon0)) by ring]
    refine (abs_sub _ _).trans ?_
    linarith [unit (abs_cos_le_one lat0) hs, unit (abs_sin_le_one lat0) pc]
  · rw [gc, gc, show sin lat0 * sin lat' + cos lat0 * (cos lat' * cos (lon' - lon0)) - (sin lat0 * sin lat + cos lat0 * (cos lat * cos (lon - lon0))) =
      sin lat0 * (sin lat' - sin lat) + cos lat0 * (cos lat' * cos (lon' - lon0) - cos lat * cos (lon - lon0)) by ring]
    refine (abs_add_le _ _).trans ?_
    linarith [unit (abs_sin_le_one lat0) hs, unit (abs_cos_le_one lat0) pc]

/-- The picture of a visible point as the exact projection of the code gives it. -/
theorem exact_near {lat0 lon0 lat lon : ℝ} (h0 : lat0 ∈ Set.Ioo (-(π / 2)) (π / 2)) (hl : lat ∈ Set.Icc (-(π / 2)) (π / 2)) (hvis : 0 ≤ cos (greatCircle lat0 lon0 lat lon)) :
    ∃ x y : ℝ, Helpers.projOrtho lat0 lon0 lat lon = (.fin x, .fin y) ∧ |x - orthoX lat0 lon0 lat lon| ≤ 0.01 ∧ |y - orthoY lat0 lon0 lat lon| ≤ 5e-5 := by
  have hgc : greatCircle lat0 lon0 lat lon ≤ π / 2 := by
    by_contra hn
    have := cos_neg_of_pi_div_two_lt_of_lt (not_le.mp hn) (by have := InnerProductGeometry.angle_le_pi (unitVec lat0 lon0) (unitVec lat lon); unfold greatCircle; linarith [pi_pos])
    linarith
  obtain ⟨x, y, h, hy, hs, hx⟩ := C12_ortho_accuracy_partial lat0 lon0 lat lon ⟨h0.1.le, h0.2.le⟩ (Or.inl h0) hl hgc
  refine ⟨x, y, h, ?_, hy⟩
  unfold orthoX
  set X := cos lat * sin (lon - lon0) with hX
  have hx' := abs_le.mp hx
  refine abs_le_of_sq_le_sq (a := x - X) ?_ (by norm_num)
  norm_num at hx' ⊢
  rcases le_total (x ^ 2) (X ^ 2) with h3 | h3
  · have h4 : x ^ 2 ≤ x * X := by
      nlinarith
    nlinarith
  · have h4 : X ^ 2 ≤ x * X := by
      nlinarith
    nlinarith

set_option maxHeartbeats 1000000 in
/-- **C180** (mask) In a transit the mask as computed, whatever the Gaussian integrals give at the edge of the planet, is that of exact arithmetic at every pixel clearly behind
the limb, clearly outside the planet's disk or clearly inside it.  A pixel clearly at the edge gets what its Gaussian integral gives. -/
theorem C180_mask {M : Libm} (hM : Accurate M) {s : Star} (hgrid : goodGrid s.grid) (hn : (Fintype.card s.grid.Pix : ℝ) ≤ 10 ^ 7) (hR : s.radius ≠ 0) {a : s.grid.Pix → ℝ}
    (ha : ∀ p, s.grid.area p = .fin (a p)) {lat0 lon0 orbit r phase incl : ℝ} (h0 : |lat0| ≤ π / 2) (hκ : 1 / 10 ^ 4 ≤ cos lat0) (hlon0 : |lon0| ≤ 9)
    {c : s.grid.Pix → ℝ} {plf : Fl} (h : s.transitMask lat0 lon0 orbit r phase incl = .ok (fun p => .fin (c p), plf)) {X Y ρ : ℝ}
    (hXY : (X, Y) = planetPos s.radius orbit phase incl) (hρ : ρ = r / s.radius) (hph : cos phase ≤ 0) (hnear : √(X ^ 2 + Y ^ 2) ≤ 1 + 2 * ρ) (hbig : |ρ| ≤ 40)
    {X' Y' rp' : ℝ} (hX : |X' - X| ≤ 1 / 10 ^ 5) (hY : |Y' - Y| ≤ 1 / 10 ^ 5) (hrp : |rp' - ρ| ≤ 1 / 10 ^ 5) {ρ' mid : s.grid.Pix → ℝ}
    (hρ' : ∀ p, 0 ≤ ρ' p ∧ |ρ' p - 2 * √(a p)| ≤ 1 / 10 ^ 5) (p : s.grid.Pix) :
    (Decided s.grid lat0 lon0 X Y ρ a p → M.maskD s.grid lat0 lon0 X' Y' rp' ρ' mid p = c p) ∧
    (AtEdge s.grid lat0 lon0 X Y ρ a p → M.maskD s.grid lat0 lon0 X' Y' rp' ρ' mid p = mid p) := by
  have hpi := pi_pos
  obtain ⟨a', ha', hpos, hsum, -⟩ := C02_area_partition s.grid hgrid
  have haa : a' = a := funext fun q => Fl.fin.inj ((ha' q).symm.trans (ha q))
  subst haa
  have ha1 : √(a' p) ≤ 1 := by
    refine sqrt_le_one.mpr ?_
    exact (Finset.single_le_sum (fun q _ => hpos q) (Finset.mem_univ p)).trans hsum.le
  have ha0 : 0 ≤ √(a' p) := sqrt_nonneg _
  have hio : lat0 ∈ Set.Ioo (-(π / 2)) (π / 2) := by
    have hc : (0 : ℝ) < cos lat0 := lt_of_lt_of_le (by norm_num) hκ
    refine abs_lt.mp (lt_of_le_of_ne h0 fun e => ?_)
    rw [← cos_abs, e, cos_pi_div_two] at hc
    exact lt_irrefl _ hc
  have hmem := gridLat_mem hM s.grid hgrid hn p
  obtain ⟨k1, ⟨k, k2⟩, k3, k4⟩ := coord_near hM s.grid hgrid hn p
  obtain ⟨n1, n2, n3⟩ := ortho_near (lat0 := lat0) (lon0 := lon0) k1 k2
  have hδ0 := coordErr_nonneg s.grid
  have hδ : coordErr s.grid ≤ 2.5 / 10 ^ 6 := k4.trans (by norm_num)
  have hXb : |X| ≤ 81 ∧ |Y| ≤ 81 := by
    have hb := (abs_le.mp hbig).2
    exact ⟨(abs_le_sqrt (le_add_of_nonneg_right (sq_nonneg Y))).trans (by linarith), (abs_le_sqrt (le_add_of_nonneg_left (sq_nonneg X))).trans (by linarith)⟩
  have hlim : ∀ {u v t : ℝ}, |u - v| ≤ 1 / 10 ^ 5 → |v| ≤ t → |u| ≤ t + 1 := fun {u v t} h1 h2 => by
    have := abs_add_le (u - v) v
    rw [sub_add_cancel] at this
    norm_num at h1
    linarith
  have hρp := hρ' p
  have hρ2 : ρ' p ≤ 3 := by
    have := (abs_le.mp hρp.2).2
    norm_num at this
    linarith
  have hm := C156_mask hM lat0 lon0 (M.gridLat s.grid p) (Libm.gridLon s.grid p) (ρ' p) X' Y' rp' h0 (abs_le.mpr hmem) hκ
    (by rw [abs_le] at hlon0 ⊢; obtain ⟨u1, u2⟩ := k3; constructor <;> linarith) ((hlim hX hXb.1).trans (by norm_num)) ((hlim hY hXb.2).trans (by norm_num))
    ((hlim hrp hbig).trans (by norm_num)) hρp.1 (by linarith)
  obtain ⟨v, hv, -, -, e1, -, -, e2⟩ := C63_transit_mask s hgrid hR a' ha lat0 lon0 orbit r phase incl ⟨hio.1.le, hio.2.le⟩ _ plf h X Y ρ hXY hρ p
  have hvc : c p = v := Fl.fin.inj hv
  rw [hvc]
  have hmu := (C03_mu_inner s.grid lat0 lon0 p).2.2.2
  unfold Decided AtEdge
  dsimp only at hm ⊢
  rw [hmu] at e1 e2
  have hμ1 : |cos (greatCircle lat0 lon0 (s.grid.lat p) (s.grid.lon p))| ≤ 1 := abs_cos_le_one _
  have hμ1' : |cos (greatCircle lat0 lon0 (M.gridLat s.grid p) (Libm.gridLon s.grid p))| ≤ 1 := abs_cos_le_one _
  set μ := cos (greatCircle lat0 lon0 (s.grid.lat p) (s.grid.lon p)) with hμ
  set μ' := cos (greatCircle lat0 lon0 (M.gridLat s.grid p) (Libm.gridLon s.grid p)) with hμ'
  set x := orthoX lat0 lon0 (s.grid.lat p) (s.grid.lon p) with hx
  set y := orthoY lat0 lon0 (s.grid.lat p) (s.grid.lon p) with hy
  set x' := orthoX lat0 lon0 (M.gridLat s.grid p) (Libm.gridLon s.grid p) with hx'
  set y' := orthoY lat0 lon0 (M.gridLat s.grid p) (Libm.gridLon s.grid p) with hy'
  have hd := abs_le.mp (abs_hypot_sub (x' - X') (y' - Y') (x - X) (y - Y))
  have hd1 : |x' - X' - (x - X)| ≤ 2 / 10 ^ 5 := by
    have := abs_le.mp n1; have := abs_le.mp hX; norm_num at *
    rw [abs_le]; constructor <;> linarith
  have hd2 : |y' - Y' - (y - Y)| ≤ 2 / 10 ^ 5 := by
    have := abs_le.mp n2; have := abs_le.mp hY; norm_num at *
    rw [abs_le]; constructor <;> linarith
  have hsz : |2 * ρ' p * μ' - 4 * √(a' p) * μ| ≤ 6 / 10 ^ 5 := by
    rw [show 2 * ρ' p * μ' - 4 * √(a' p) * μ = 2 * ((ρ' p - 2 * √(a' p)) * μ') + 4 * (√(a' p) * (μ' - μ)) by ring]
    refine (abs_add_le _ _).trans ?_
    rw [abs_mul, abs_mul 4, abs_mul, abs_mul (√(a' p)), abs_of_nonneg ha0, abs_of_pos (by norm_num : (0 : ℝ) < 2), abs_of_pos (by norm_num : (0 : ℝ) < 4)]
    have t1 : |ρ' p - 2 * √(a' p)| * |μ'| ≤ 1 / 10 ^ 5 * 1 := mul_le_mul hρp.2 hμ1' (abs_nonneg _) (by norm_num)
    have t2 : √(a' p) * |μ' - μ| ≤ 1 * (3 * coordErr s.grid) := mul_le_mul ha1 n3 (abs_nonneg _) zero_le_one
    norm_num at *
    linarith
  have hsz' := abs_le.mp hsz
  have hrp' := abs_le.mp hrp
  have n3' := abs_le.mp n3
  -- the exact mask, for points on the near side
  have exact0 : ρ + 4 * √(a' p) * μ + 0.0125 < √((x - X) ^ 2 + (y - Y) ^ 2) → v = 0 := fun hf => by
    by_cases hneg : μ < 0
    · exact e1 hneg
    · obtain ⟨px, py, hpp, b1, b2⟩ := exact_near (lon0 := lon0) (lon := s.grid.lon p) hio (grid_lat_mem s.grid hgrid p) (not_lt.mp hneg)
      refine (e2 px py hpp).1 ?_
      have hq := abs_le.mp (abs_hypot_sub (px - X) (py - Y) (x - X) (y - Y))
      rw [sub_sub_sub_cancel_right, sub_sub_sub_cancel_right] at hq
      unfold planetDist
      norm_num at *
      linarith
  have away : (2 / 10 ^ 4) ^ 2 ≤ x ^ 2 + y ^ 2 → (1 / 10 ^ 4) ^ 2 ≤ x' ^ 2 + y' ^ 2 := fun hp2 => by
    by_contra hcon
    rw [not_le] at hcon
    have c1 : |x'| ≤ 1 / 10 ^ 4 := abs_le_of_sq_le_sq (by linarith [sq_nonneg y']) (by norm_num)
    have c2 : |y'| ≤ 1 / 10 ^ 4 := abs_le_of_sq_le_sq (by linarith [sq_nonneg x']) (by norm_num)
    have c3 : |x| ≤ 1.1 / 10 ^ 4 := by
      have := abs_le.mp c1; have := abs_le.mp n1; norm_num at *
      rw [abs_le]; constructor <;> linarith
    have c4 : |y| ≤ 1.1 / 10 ^ 4 := by
      have := abs_le.mp c2; have := abs_le.mp n2; norm_num at *
      rw [abs_le]; constructor <;> linarith
    have d1 := sq_le_sq' (abs_le.mp c3).1 (abs_le.mp c3).2
    have d2 := sq_le_sq' (abs_le.mp c4).1 (abs_le.mp c4).2
    norm_num at d1 d2 hp2
    linarith
  refine ⟨fun hp => ?_, fun ⟨hp1, hp2, hp3⟩ => ?_⟩
  swap
  · have hp4 := le_abs_self (√((x - X) ^ 2 + (y - Y) ^ 2) - ρ)
    have hp5 := neg_abs_le (√((x - X) ^ 2 + (y - Y) ^ 2) - ρ)
    unfold Libm.maskD
    rw [if_neg (hm.2.1 (by norm_num at *; linarith) (away hp2) (by norm_num at *; linarith)), if_neg (hm.2.2.2 (by norm_num at *; linarith))]
  rcases hp with hp | hp | ⟨hp1, hp2, hp3⟩
  · have ho := hm.1 (Or.inl (by norm_num at *; linarith))
    unfold Libm.maskD
    rw [if_pos ho, e1 (by norm_num at hp; linarith)]
  · have ho := hm.1 (Or.inr (by norm_num at *; linarith))
    unfold Libm.maskD
    rw [if_pos ho, exact0 hp]
  · have hb := hm.2.2.1 (by norm_num at *; linarith) (away hp2) (by norm_num at *; linarith)
    · unfold Libm.maskD
      rw [if_neg hb.1, if_pos hb]
      symm
      obtain ⟨px, py, hpp, b1, b2⟩ := exact_near (lon0 := lon0) (lon := s.grid.lon p) hio (grid_lat_mem s.grid hgrid p) (by norm_num at hp1; linarith)
      refine (e2 px py hpp).2 hph ?_ ?_
      · unfold planetDist
        simpa using hnear
      · have hq := abs_le.mp (abs_hypot_sub (px - X) (py - Y) (x - X) (y - Y))
        rw [sub_sub_sub_cancel_right, sub_sub_sub_cancel_right] at hq
        unfold planetDist
        norm_num at *
        linarith


open Classical in
/-- **C180** Compute the report of a spotted star with everything rounded, and with a transit mask `c'` that is itself inexact.  The temperatures' own shares are as good as
without a planet, and the covered shares are off, on top of what C153 allows, by at most the mean error of the mask over the light of the disk. -/
theorem C180_report {M : Libm} (hM : Accurate M) {s : Star} {gr : Granulation} (hgr : s.granulation = some gr) (hS : SpottedStar s gr) {lat0 lon0 : ℝ}
    {T T₁ T₂ : SumTree s.grid.Pix} {D : ℕ} (H : FloatSetting s lon0 T T₁ T₂ D) {L : ℝ} (hL : ∑ p, s.weight lat0 lon0 p = .fin L)
    (hLe : allowance s.grid D ≤ L) {g orbit r phase incl : ℝ} (hg : g ∈ Set.Icc 0 1) {total cov : Dict ℤ Fl} {plf : Fl}
    (h : s.calcCoverage lat0 lon0 g orbit r phase incl = .ok (total, cov, plf)) {m : s.grid.Pix → ℝ} (hm : s.addFaculaeToMap lat0 lon0 = .ok m)
    (hp : ∃ p, Clear s p ∧ m p = s.teff) {E : ℝ} (hE : ∑ p, (if Clear s p then .fin 0 else s.weight lat0 lon0 p) = .fin E) {c c' : s.grid.Pix → ℝ}
    (hmask : s.transitMask lat0 lon0 orbit r phase incl = .ok (fun p => .fin (c p), plf)) (hc' : ∀ p, c' p ∈ Set.Icc (0 : ℝ) 1) {B : ℝ}
    (hB : ∑ p, s.weight lat0 lon0 p * .fin |c' p - c p| = .fin B) :
    ∃ total' cov', M.calcCoverageSpots s T T₁ T₂ lat0 lon0 g c' = .ok (total', cov') ∧
      ∀ k, ∃ x y, entry total k = .fin x ∧ entry cov k = .fin y ∧
        |(Dict.get? total' k).getD 0 - x| ≤ (3 * allowance s.grid D + E) / L ∧ |(Dict.get? cov' k).getD 0 - y| ≤ (3 * allowance s.grid D + E + B) / L := by
  obtain ⟨m', mask, gr', hm', ht, hgr', h1, h2⟩ := calcCoverage_ok.mp h
  rw [hgr, Option.some.injEq] at hgr'
  subst hgr'
  rw [hm, Except.ok.injEq] at hm'
  subst hm'
  have hmk : mask = fun p => .fin (c p) := (Prod.ext_iff.mp (Except.ok.inj (ht.symm.trans hmask))).1
  subst hmk
  obtain ⟨w, hw, hw0⟩ := weights_real H.grid H.ld lat0 lon0
  have hLw : L = ∑ p, w p := by
    have := hL
    simp only [hw] at this
    rw [Fl.sum_fin, Fl.fin_inj] at this
    exact this.symm
  have hEw : E = ∑ p, if Clear s p then 0 else w p := by
    have e : ∀ p, (if Clear s p then Fl.fin 0 else s.weight lat0 lon0 p) = .fin (if Clear s p then 0 else w p) := fun p => by
      by_cases hq : Clear s p
      · rw [if_pos hq, if_pos hq]
      · rw [if_neg hq, if_neg hq, hw]
    simp only [e] at hE
    rw [Fl.sum_fin, Fl.fin_inj] at hE
    exact hE.symm
  have hBw : B = ∑ p, w p * |c' p - c p| := by
    simp only [hw, Fl.fin_mul] at hB
    rw [Fl.sum_fin, Fl.fin_inj] at hB
    exact hB.symm
  have hu := ulp_pos
  have hδ := coordErr_nonneg s.grid
  have hal : 30000 * ulp ≤ allowance s.grid D := by
    have : 0 ≤ (D : ℝ) * ulp := by positivity
    have e : allowance s.grid D = 600 * coordErr s.grid + 30000 * ulp + 80 * (D * ulp) := by unfold allowance ulp; ring
    rw [e]
    linarith
  have hLpos : 0 < L := by linarith
  have hW : 0 < ∑ p, w p := hLw ▸ hLpos
  have hL1 : L ≤ 1 := light_le_one H.grid H.ld hL
  have hε1 : 100 * ulp ≤ allowance s.grid D / L := by
    rw [le_div_iff₀ hLpos]
    nlinarith
  have hε2 : allowance s.grid D / L ≤ 1 := by rw [div_le_one hLpos]; exact hLe
  have hε0 : 0 ≤ allowance s.grid D / L := by linarith
  obtain ⟨m', hm', hmap⟩ := C153_map hM s hS.placed hS.plain H.grid H.pixels hS.coords hS.radius hS.pos hS.exact_teff hS.exact_spots lat0 lon0
  rw [hm, Except.ok.injEq] at hm'
  subst hm'
  set G := s.teff - gr.dteff with hG
  set mf := M.spotMap s with hmf
  have hrange : ∀ p, mf p ∈ temperatures s G := fun p => by
    rcases spotMap_mem M s hS.exact_teff hS.exact_spots p with e | e
    · exact Or.inl e
    · exact Or.inr (Or.inr e)
  have sub : ∀ m : s.grid.Pix → ℝ, (∀ p, m p ∈ temperatures s G) → Apart (Set.range m ∪ {s.teff, G}) := fun m hm => by
    have : ∀ T ∈ Set.range m ∪ {s.teff, G}, T ∈ temperatures s G := by
      rintro T (⟨p, rfl⟩ | hT)
      · exact hm p
      · rcases hT with hT | hT
        · exact Or.inl hT
        · exact Or.inr (Or.inl hT)
    exact fun T hT T' hT' => hS.apart T (this T hT) T' (this T' hT')
  have hrange' : ∀ p, m p ∈ temperatures s G := by
    have hme := addFaculaeToMap_eq s hS.placed lat0 lon0
    rw [hS.plain] at hme
    intro p
    have e := congrFun (Except.ok.inj (hm.symm.trans hme)) p
    by_cases hq : m p = s.teff
    · exact Or.inl hq
    · rw [e] at hq ⊢
      obtain ⟨sp, h1, h2⟩ := (foldl_overlay_cases s.spots.spots s.grid s.radius p s.teff).2 hq
      rcases h2 with h2 | h2
      · exact Or.inr (Or.inr ⟨sp, h1, Or.inl h2.1⟩)
      · exact Or.inr (Or.inr ⟨sp, h1, Or.inr h2.1⟩)
  have hph : s.teff ∈ Set.range mf := by
    obtain ⟨p, hp1, hp2⟩ := hp
    exact ⟨p, (hmap p hp1).trans hp2⟩
  obtain ⟨d1, hd1⟩ := granulate_answers (c := fun _ => 1) hw hW.ne' (sub mf hrange) hph g
  obtain ⟨d2, hd2⟩ := granulate_answers (c := c') hw hW.ne' (sub mf hrange) hph g
  have z : ∃ v ∈ Set.Icc (0 : ℝ) 1, Fl.fin 0 = .fin v ∧ |(0 : ℝ) - v| ≤ allowance s.grid D / L := ⟨0, ⟨le_refl _, zero_le_one⟩, rfl, by simpa using hε0⟩
  obtain ⟨e1, he1, hr1⟩ := granulate_near hg hε1 hε2 (rawData_near (f := M.nominalShare s T T₁ T₂ lat0 lon0 mf) G (fun t => (shares_near hM H hL hLe mf hc' t).1) z) hd1
  obtain ⟨e2, he2, hr2⟩ := granulate_near hg hε1 hε2 (rawData_near (f := M.coveredShare s T T₁ T₂ lat0 lon0 mf c') G (fun t => (shares_near hM H hL hLe mf hc' t).2) z) hd2
  have hk : Star.key s.teff ≠ Star.key G := fun e => by
    have := key_inj_of_sep (hS.apart s.teff (Or.inl rfl) G (Or.inr (Or.inl rfl))) e
    rw [hG] at this
    exact hS.granules (by linarith)
  refine ⟨e1, e2, ?_, fun k => ?_⟩
  · unfold Libm.calcCoverageSpots
    have eG : dbl G = G ∧ single G = G := hS.exact_gran
    simp only [hgr, ← hG, eG.1, rawDataSingle_eq _ _ eG.2, ← hmf, he1, he2, bind, Except.bind, pure, Except.pure]
  · have a1 := entry_of_apart hw hW.ne' h1 (sub m hrange') k
    have a2 := entry_of_apart hw hW.ne' h2 (sub m hrange') k
    have b1 := near_entry (by linarith) hr1 k (entry_of_apart hw hW.ne' hd1 (sub mf hrange) k)
    have b2 := near_entry (by linarith) hr2 k (entry_of_apart hw hW.ne' hd2 (sub mf hrange) k)
    have t1 := entry_maps hw0 hW (c := fun _ => 1) (fun _ => ⟨zero_le_one, le_refl _⟩) (N := Clear s) hmap hg _ _ k hk
    have t2 := entry_maps hw0 hW hc' (N := Clear s) hmap hg _ _ k hk
    have t3 := entry_masks (m := m) (c := c') (c' := c) hw0 hW hg _ _ k hk
    rw [← hLw, ← hEw] at t1 t2
    rw [← hLw, ← hBw] at t3
    refine ⟨_, _, a1, a2, ?_, ?_⟩
    · rw [add_div, mul_div_assoc]
      exact (abs_sub_le _ _ _).trans (add_le_add b1 t1)
    · rw [add_div, add_div, mul_div_assoc]
      exact (abs_sub_le _ _ _).trans (add_le_add ((abs_sub_le _ _ _).trans (add_le_add b2 t2)) t3)

open Classical in
/-- **C180** (transit) The report of a spotted star in a transit with everything rounded, the mask included.  What is reported of the whole disk is as good as without a planet (C153),
and what is reported of the covered part is off by at most that plus the share of the light from pixels at the edge of the planet, at the limb or at the centre of the disk. -/
theorem C180_transit {M : Libm} (hM : Accurate M) {s : Star} {gr : Granulation} (hgr : s.granulation = some gr) (hS : SpottedStar s gr) {lat0 lon0 : ℝ} (h0 : |lat0| ≤ π / 2)
    (hκ : 1 / 10 ^ 4 ≤ cos lat0) {T T₁ T₂ : SumTree s.grid.Pix} {D : ℕ} (H : FloatSetting s lon0 T T₁ T₂ D) {L : ℝ} (hL : ∑ p, s.weight lat0 lon0 p = .fin L)
    (hLe : allowance s.grid D ≤ L) {g orbit r phase incl : ℝ} (hg : g ∈ Set.Icc 0 1) {total cov : Dict ℤ Fl} {plf : Fl}
    (h : s.calcCoverage lat0 lon0 g orbit r phase incl = .ok (total, cov, plf)) {m : s.grid.Pix → ℝ} (hm : s.addFaculaeToMap lat0 lon0 = .ok m)
    (hp : ∃ p, Clear s p ∧ m p = s.teff) {E : ℝ} (hE : ∑ p, (if Clear s p then .fin 0 else s.weight lat0 lon0 p) = .fin E) {a : s.grid.Pix → ℝ}
    (ha : ∀ p, s.grid.area p = .fin (a p)) {X Y ρ : ℝ} (hXY : (X, Y) = planetPos s.radius orbit phase incl) (hρ : ρ = r / s.radius) (hph : cos phase ≤ 0)
    (hnear : √(X ^ 2 + Y ^ 2) ≤ 1 + 2 * ρ) (hbig : |ρ| ≤ 40) {X' Y' rp' : ℝ} (hX : |X' - X| ≤ 1 / 10 ^ 5) (hY : |Y' - Y| ≤ 1 / 10 ^ 5) (hrp : |rp' - ρ| ≤ 1 / 10 ^ 5)
    {ρ' mid : s.grid.Pix → ℝ} (hρ' : ∀ p, 0 ≤ ρ' p ∧ |ρ' p - 2 * √(a p)| ≤ 1 / 10 ^ 5) (hmid : ∀ p, mid p ∈ Set.Icc (0 : ℝ) 1) {B : ℝ}
    (hB : ∑ p, (if Decided s.grid lat0 lon0 X Y ρ a p then .fin 0 else s.weight lat0 lon0 p) = .fin B) :
    ∃ total' cov', M.calcCoverageSpots s T T₁ T₂ lat0 lon0 g (M.maskD s.grid lat0 lon0 X' Y' rp' ρ' mid) = .ok (total', cov') ∧
      ∀ k, ∃ x y, entry total k = .fin x ∧ entry cov k = .fin y ∧
        |(Dict.get? total' k).getD 0 - x| ≤ (3 * allowance s.grid D + E) / L ∧ |(Dict.get? cov' k).getD 0 - y| ≤ (3 * allowance s.grid D + E + B) / L := by
  obtain ⟨m', mask, gr', hm', ht, hgr', h1, h2⟩ := calcCoverage_ok.mp h
  obtain ⟨c, rfl, hc0, hc1⟩ := mask_real H.grid hS.radius.ne' (abs_le.mp h0) ht
  obtain ⟨w, hw, hw0⟩ := weights_real H.grid H.ld lat0 lon0
  set c' := M.maskD s.grid lat0 lon0 X' Y' rp' ρ' mid with hc'
  have hrange : ∀ p, c' p ∈ Set.Icc (0 : ℝ) 1 := fun p => by
    rw [hc']
    unfold Libm.maskD
    split_ifs
    · exact ⟨le_refl _, zero_le_one⟩
    · exact ⟨zero_le_one, le_refl _⟩
    · exact hmid p
  have hsum : ∑ p, s.weight lat0 lon0 p * .fin |c' p - c p| = .fin (∑ p, w p * |c' p - c p|) := by
    simp only [hw, Fl.fin_mul, Fl.sum_fin]
  have hBw : B = ∑ p, if Decided s.grid lat0 lon0 X Y ρ a p then 0 else w p := by
    have e : ∀ p, (if Decided s.grid lat0 lon0 X Y ρ a p then Fl.fin 0 else s.weight lat0 lon0 p) = .fin (if Decided s.grid lat0 lon0 X Y ρ a p then 0 else w p) := fun p => by
      by_cases hq : Decided s.grid lat0 lon0 X Y ρ a p
      · rw [if_pos hq, if_pos hq]
      · rw [if_neg hq, if_neg hq, hw]
    simp only [e] at hB
    rw [Fl.sum_fin, Fl.fin_inj] at hB
    exact hB.symm
  have hle : ∑ p, w p * |c' p - c p| ≤ B := by
    rw [hBw]
    refine Finset.sum_le_sum fun p _ => ?_
    by_cases hq : Decided s.grid lat0 lon0 X Y ρ a p
    · rw [if_pos hq, hc', (C180_mask hM H.grid H.pixels hS.radius.ne' ha h0 hκ H.lon0 ht hXY hρ hph hnear hbig hX hY hrp hρ' p).1 hq, sub_self, abs_zero, mul_zero]
    · rw [if_neg hq]
      have : |c' p - c p| ≤ 1 := by
        rw [abs_le]
        constructor <;> linarith [(hrange p).1, (hrange p).2, hc0 p, hc1 p]
      nlinarith [hw0 p]
  obtain ⟨t', v', e, he⟩ := C180_report hM hgr hS H hL hLe hg h hm hp hE ht hrange hsum
  refine ⟨t', v', e, fun k => ?_⟩
  obtain ⟨x, y, hx, hy, b1, b2⟩ := he k
  refine ⟨x, y, hx, hy, b1, b2.trans ?_⟩
  have hLpos : 0 < L := by
    have := coordErr_nonneg s.grid
    have : 0 < allowance s.grid D := by unfold allowance; positivity
    linarith
  gcongr

/-! ## A planet in front of everything -/

theorem halfStar_transit : ∃ total cov plf, (halfStar []).calcCoverage 0 0 0.2 30 20 π (π / 2) = .ok (total, cov, plf) := by
  set s := halfStar [] with hs
  have hg : goodGrid s.grid := ⟨by omega, by omega⟩
  have h0 : (0 : ℝ) ∈ Set.Icc (-(π / 2)) (π / 2) := ⟨by linarith [pi_pos], by linarith [pi_pos]⟩
  have hv : Visible s 0 0 := visible_rect s rfl (by omega) (by omega) 0 0
  obtain ⟨a, ha, -⟩ := C02_area_partition s.grid hg
  obtain ⟨-, hW⟩ := visible_pos s hg (granStar_phys _ _ _) ha hv
  have hw : ∀ p, s.weight 0 0 p = .fin (pixelWeight s a 0 0 p) := weight_eq s a ha 0 0
  obtain ⟨⟨p, hp⟩, -⟩ := halfStar_pixels
  obtain ⟨total, cov, plf, h, -⟩ := C59_answers_partial s hg one_pos 0 0 _ (by simp only [hw, Fl.sum_fin]) hW.ne' h0
    ⟨0.2, 1, 1, 100⟩ rfl rfl (measured_new _ _) (by simp [hs, halfStar, granStar, sampleStar])
    (Or.inr ⟨p, by
      intro sp hsp
      have hsp : sp ∈ [halfSpot (.rect 4 3) 0 2700].map (·.setGridmaker (.rect 4 3)) := hsp
      simp only [List.map_cons, List.map_nil, List.mem_singleton] at hsp
      subst hsp
      obtain ⟨h3, h4⟩ := halfSpot_in (.rect 4 3) 0 2700 p
      exact ⟨fun h => by linarith [h3.mp h], fun h => by linarith [h4.mp h]⟩,
      by simp [hs, halfStar, granStar, sampleStar]⟩) 0.2 30 20 π (π / 2) (by norm_num) _ _ rfl (by rw [cos_pi]; norm_num)
  exact ⟨total, cov, _, h⟩

theorem halfStar_decided {a : (Grid.rect 4 3).Pix → ℝ} (ha1 : ∀ p, √(a p) ≤ 1) (p : (Grid.rect 4 3).Pix) (h : (Grid.rect 4 3).mu 0 0 p ≠ 0) :
    Decided (.rect 4 3) 0 0 0 0 20 a p := by
  have e3 : 1.7 ≤ √3 := by rw [le_sqrt (by norm_num) (by norm_num)]; norm_num
  have e3' : √3 ≤ 1.8 := by rw [sqrt_le_left (by norm_num)]; norm_num
  have hc := cos_pixels p.1 p.2 h
  have hmu := (C03_mu_inner (.rect 4 3) 0 0 p).2.2.2
  have hsq := ortho_sq 0 0 ((Grid.rect 4 3).lat p) ((Grid.rect 4 3).lon p)
  have hcd : cosDist 0 0 ((Grid.rect 4 3).lat p) ((Grid.rect 4 3).lon p) = (Grid.rect 4 3).mu 0 0 p := (C03_mu_inner (.rect 4 3) 0 0 p).1.symm
  rw [hcd] at hsq
  unfold Decided
  dsimp only
  rw [← hmu, sub_zero, sub_zero, hsq]
  rcases hc with hc | hc
  · refine Or.inr (Or.inr ?_)
    have hc : (Grid.rect 4 3).mu 0 0 p = √3 / 2 := hc
    have h3 : (√3 / 2) ^ 2 = 3 / 4 := by rw [div_pow, sq_sqrt (by norm_num)]; norm_num
    rw [hc, h3]
    refine ⟨by norm_num at *; linarith, by norm_num, ?_⟩
    have hd : √(1 - 3 / 4 : ℝ) ≤ 1 := sqrt_le_one.mpr (by norm_num)
    have h4 : √(a p) * (√3 / 2) ≤ 1 * 1 := mul_le_mul (ha1 p) (by norm_num at *; linarith) (by positivity) zero_le_one
    norm_num at *
    linarith
  · left
    have hc : (Grid.rect 4 3).mu 0 0 p = -(√3 / 4) := hc
    rw [hc]
    norm_num at *
    linarith

/-- Non-trivial instance of C180: a planet of twenty stellar radii in front of a star half of which is covered by a spot.  Whatever the Gaussian integrals give, the report as computed agrees
with the exact one to eight digits, if the planet's place is known to five digits. -/
example {M : Libm} (hM : Accurate M) (mid : (halfStar []).grid.Pix → ℝ) (hmid : ∀ p, mid p ∈ Set.Icc (0 : ℝ) 1) : ∃ total cov plf T ρ' total' cov',
    (halfStar []).calcCoverage 0 0 0.2 30 20 π (π / 2) = .ok (total, cov, plf) ∧
    M.calcCoverageSpots (halfStar []) T T T 0 0 0.2 (M.maskD (halfStar []).grid 0 0 (1 / 10 ^ 6) 0 20 ρ' mid) = .ok (total', cov') ∧
    ∀ k, ∃ x y, entry total k = .fin x ∧ entry cov k = .fin y ∧ |(Dict.get? total' k).getD 0 - x| ≤ 1 / 10 ^ 8 ∧ |(Dict.get? cov' k).getD 0 - y| ≤ 1 / 10 ^ 8 := by
  classical
  have hp := pi_pos
  obtain ⟨total, cov, plf, h⟩ := halfStar_transit
  obtain ⟨L, hL, hL1⟩ := halfStar_light
  obtain ⟨T, hT⟩ := halfStar_setting
  obtain ⟨-, -, p, hpix⟩ := halfStar_pixels
  have hal : allowance (halfStar []).grid 12 ≤ 1 / 10 ^ 11 := by
    change 600 * (80 * ulp) + (30000 + 80 * (12 : ℕ)) * (1 / 2 ^ 53 : ℝ) ≤ _
    unfold ulp
    norm_num
  obtain ⟨a, ha, hpos, hsum, -⟩ := C02_area_partition (halfStar []).grid ⟨by show 3 ≤ 4; norm_num, by show 1 ≤ 3; norm_num⟩
  have ha1 : ∀ p, √(a p) ≤ 1 := fun p => sqrt_le_one.mpr ((Finset.single_le_sum (fun q _ => hpos q) (Finset.mem_univ p)).trans hsum.le)
  have dark : ∀ N : (halfStar []).grid.Pix → Prop, (∀ q, (Grid.rect 4 3).mu 0 0 q ≠ 0 → N q) →
      ∑ q, (if N q then .fin 0 else (halfStar []).weight 0 0 q) = .fin 0 := fun N hN => by
    refine (Finset.sum_congr rfl fun q _ => ?_ : _ = ∑ _ : (halfStar []).grid.Pix, Fl.fin 0).trans (by rw [Fl.sum_fin]; simp)
    by_cases hq : N q
    · rw [if_pos hq]
    · rw [if_neg hq]
      have hz : (Grid.rect 4 3).mu 0 0 q = 0 := by
        by_contra hne
        exact hq (hN q hne)
      have hz' : ¬ 0 < (halfStar []).mu 0 0 q := fun hlt => by
        change 0 < (Grid.rect 4 3).mu 0 0 q at hlt
        linarith
      rw [weight_eq _ a ha]
      exact congrArg Fl.fin (pixelWeight_back (halfStar []) ha hz')
  obtain ⟨total', cov', h1, h2⟩ := C180_transit hM (s := halfStar []) rfl halfStar_spotted (lat0 := 0) (by rw [abs_zero]; positivity) (by rw [cos_zero]; norm_num) hT hL
    (hal.trans (by norm_num; linarith)) (by constructor <;> norm_num) h halfStar_map ⟨p, halfStar_clear p hpix.ne, by rw [if_neg hpix.not_gt]; rfl⟩
    (dark _ halfStar_clear) ha (X := 0) (Y := 0) (ρ := 20) (by simp [planetPos]) (by change (20 : ℝ) = 20 / 1; norm_num) (by rw [cos_pi]; norm_num) (by norm_num)
    (by norm_num [abs_of_pos]) (X' := 1 / 10 ^ 6) (Y' := 0) (rp' := 20) (by norm_num [abs_of_pos]) (by norm_num) (by norm_num) (ρ' := fun p => 2 * √(a p))
    (fun p => ⟨by positivity, by norm_num⟩) hmid (dark _ (halfStar_decided ha1))
  refine ⟨total, cov, plf, T, _, total', cov', h, h1, fun k => ?_⟩
  obtain ⟨x, y, hx, hy, a1, a2⟩ := h2 k
  have hle : (3 * allowance (halfStar []).grid 12 + 0) / L ≤ 1 / 10 ^ 8 := by
    rw [div_le_iff₀ (by linarith)]
    calc _ ≤ 3 * (1 / 10 ^ 11 : ℝ) := by linarith
      _ ≤ 1 / 10 ^ 8 * (1 / 100) := by norm_num
      _ ≤ _ := by gcongr
  exact ⟨x, y, hx, hy, a1.trans hle, a2.trans (by rw [add_zero]; exact hle)⟩

end Vsm
