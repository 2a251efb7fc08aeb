import Verif.Model.Units
import Mathlib.Analysis.SpecialFunctions.Trigonometric.Bounds

/-!
# C125 – C127: units

The results of the methods of spots, faculae and their generators do not depend on the units of the attributes and arguments, and the rest of
the model, which computes in kilometres, days and kelvin, says the same.  One generator has a wrong unit: spots made by the default generator
cannot be aged.
-/

noncomputable section
namespace Vsm
open Real

namespace Fl

theorem pinf_mul {s : ℝ} (h : 0 < s) : pinf * fin s = pinf := infTimes_pos h
theorem ninf_mul {s : ℝ} (h : 0 < s) : ninf * fin s = ninf := infTimes_neg (by linarith)
theorem infTimes_mul (x : ℝ) {s : ℝ} (h : 0 < s) : infTimes x * fin s = infTimes x := by
  rcases lt_trichotomy x 0 with hx | rfl | hx
  · rw [infTimes_neg hx, ninf_mul h]
  · rw [infTimes_zero, nan_mul]
  · rw [infTimes_pos hx, pinf_mul h]
theorem infTimes_unit (x : ℝ) {s : ℝ} (h : 0 < s) : infTimes (x * s) = infTimes x := by
  rcases lt_trichotomy x 0 with hx | rfl | hx
  · rw [infTimes_neg hx, infTimes_neg (mul_neg_of_neg_of_pos hx h)]
  · rw [zero_mul]
  · rw [infTimes_pos hx, infTimes_pos (mul_pos hx h)]

/-- Units of a product. -/
theorem mul_scale (a b : Fl) {s t : ℝ} (hs : 0 < s) (ht : 0 < t) : a * b * fin (s * t) = a * fin s * (b * fin t) := by
  have hst := mul_pos hs ht
  cases a <;> cases b <;> simp only [nan_mul, mul_nan, pinf_mul hs, pinf_mul ht, ninf_mul hs, ninf_mul ht, fin_mul]
  · exact pinf_mul hst
  · rename_i x
    change infTimes (-x) * _ = infTimes (-(x * t))
    rw [infTimes_mul _ hst, ← neg_mul, infTimes_unit _ ht]
  · exact ninf_mul hst
  · rename_i x
    change infTimes (-x) * _ = infTimes (-(x * s))
    rw [infTimes_mul _ hst, ← neg_mul, infTimes_unit _ hs]
  · rw [fin_inj]; ring
  · rename_i x
    change infTimes x * _ = infTimes (x * s)
    rw [infTimes_mul _ hst, infTimes_unit _ hs]
  · exact ninf_mul hst
  · rename_i x
    change infTimes x * _ = infTimes (x * t)
    rw [infTimes_mul _ hst, infTimes_unit _ ht]
  · exact pinf_mul hst

/-- Units of a quotient. -/
theorem div_scale (a b : Fl) {s t : ℝ} (hs : 0 < s) (ht : 0 < t) : a / b * fin (s / t) = a * fin s / (b * fin t) := by
  have hst := div_pos hs ht
  cases a <;> cases b <;> simp only [nan_mul, nan_div, div_nan, pinf_mul hs, pinf_mul ht, ninf_mul hs, ninf_mul ht, fin_mul]
  · exact nan_mul _
  · rename_i x
    change (if x < 0 then pinf else ninf) * _ = (if x * t < 0 then pinf else ninf)
    have : x * t < 0 ↔ x < 0 := by constructor <;> intro h <;> nlinarith
    by_cases hx : x < 0
    · rw [if_pos hx, if_pos (this.mpr hx), pinf_mul hst]
    · rw [if_neg hx, if_neg (fun h => hx (this.mp h)), ninf_mul hst]
  · exact nan_mul _
  · change fin 0 * _ = fin 0; rw [fin_mul, zero_mul]
  · rename_i x y
    by_cases hy : y = 0
    · subst hy; rw [zero_mul, fin_div_zero, fin_div_zero, infTimes_mul _ hst, infTimes_unit _ hs]
    · rw [fin_div hy, fin_div (mul_ne_zero hy ht.ne'), fin_mul, fin_inj]; field_simp
  · change fin 0 * _ = fin 0; rw [fin_mul, zero_mul]
  · exact nan_mul _
  · rename_i x
    change (if x < 0 then ninf else pinf) * _ = (if x * t < 0 then ninf else pinf)
    have : x * t < 0 ↔ x < 0 := by constructor <;> intro h <;> nlinarith
    by_cases hx : x < 0
    · rw [if_pos hx, if_pos (this.mpr hx), ninf_mul hst]
    · rw [if_neg hx, if_neg (fun h => hx (this.mp h)), pinf_mul hst]
  · exact nan_mul _

theorem add_scale (a b : Fl) {s : ℝ} (hs : 0 < s) : (a + b) * fin s = a * fin s + b * fin s := by
  cases a <;> cases b <;> simp only [nan_mul, nan_add, add_nan, pinf_mul hs, ninf_mul hs, fin_mul, fin_add]
  · exact ninf_mul hs
  · exact ninf_mul hs
  · exact nan_mul _
  · exact ninf_mul hs
  · rw [fin_inj]; ring
  · exact pinf_mul hs
  · exact nan_mul _
  · exact pinf_mul hs
  · exact pinf_mul hs

theorem neg_scale (a : Fl) {s : ℝ} (hs : 0 < s) : (-a) * fin s = -(a * fin s) := by
  cases a <;> simp only [nan_mul, neg_nan, neg_pinf, neg_ninf, pinf_mul hs, ninf_mul hs, fin_mul, neg_fin, neg_mul]

theorem sub_scale (a b : Fl) {s : ℝ} (hs : 0 < s) : (a - b) * fin s = a * fin s - b * fin s := by
  rw [sub_def, sub_def, add_scale _ _ hs, neg_scale _ hs]

theorem lt_scale (a b : Fl) {s : ℝ} (hs : 0 < s) : a * fin s < b * fin s ↔ a < b := by
  cases a <;> cases b <;> simp only [nan_mul, pinf_mul hs, ninf_mul hs, fin_mul, nan_lt, lt_nan, pinf_lt, fin_lt, fin_lt_pinf, fin_lt_ninf, ninf_lt_fin]
  exact mul_lt_mul_iff_left₀ hs

theorem le_scale (a b : Fl) {s : ℝ} (hs : 0 < s) : a * fin s ≤ b * fin s ↔ a ≤ b := by
  cases a <;> cases b <;> simp only [nan_mul, pinf_mul hs, ninf_mul hs, fin_mul, nan_le, le_nan, pinf_le_fin, fin_le, fin_le_pinf, fin_le_ninf, ninf_le_fin]
  exact mul_le_mul_iff_left₀ hs

theorem mul_one (a : Fl) : a * fin 1 = a := by
  cases a <;> simp only [nan_mul, pinf_mul one_pos, ninf_mul one_pos, fin_mul, _root_.mul_one]

theorem conv_scale (a : Fl) {s t : ℝ} (hs : 0 < s) (ht : 0 < t) : a * fin (s / t) * fin t = a * fin s := by
  have hst := div_pos hs ht
  cases a <;> simp only [nan_mul, pinf_mul hs, ninf_mul hs, pinf_mul hst, ninf_mul hst, pinf_mul ht, ninf_mul ht, fin_mul]
  rw [fin_inj]; field_simp

theorem scale_inj {a b : Fl} {s : ℝ} (hs : 0 < s) : a * fin s = b * fin s ↔ a = b := by
  refine ⟨fun h => ?_, fun h => by rw [h]⟩
  have h2 := congrArg (fun x : Fl => x * fin (1 / s)) h
  have key : ∀ c : Fl, c * fin s * fin (1 / s) = c := fun c => by
    have := conv_scale c (s := 1) (t := 1 / s) one_pos (by positivity)
    rw [one_div_one_div, mul_one] at this
    exact this
  simpa only [key] using h2

theorem isNan_scale (a : Fl) {s : ℝ} (hs : 0 < s) : (a * fin s).isNan ↔ a.isNan := by
  cases a <;> simp only [nan_mul, pinf_mul hs, ninf_mul hs, fin_mul, isNan_nan, isNan_fin, isNan_pinf, isNan_ninf]

theorem sqrt_scale (a : Fl) {s : ℝ} (hs : 0 < s) : Fl.sqrt a * fin (Real.sqrt s) = Fl.sqrt (a * fin s) := by
  have h := Real.sqrt_pos.mpr hs
  cases a <;> simp only [nan_mul, pinf_mul hs, ninf_mul hs, fin_mul]
  · exact nan_mul _
  · exact nan_mul _
  · rename_i x
    change (if x < 0 then nan else fin (Real.sqrt x)) * _ = if x * s < 0 then nan else fin (Real.sqrt (x * s))
    have : x * s < 0 ↔ x < 0 := by constructor <;> intro h <;> nlinarith
    by_cases hx : x < 0
    · rw [if_pos hx, if_pos (this.mpr hx), nan_mul]
    · rw [if_neg hx, if_neg (fun h => hx (this.mp h)), fin_mul, Real.sqrt_mul (not_lt.mp hx)]
  · exact pinf_mul h

end Fl

namespace Spec

/-- The same physical quantity, possibly in different units. -/
structure SameQty (a b : Qty) : Prop where
  dim : a.dim = b.dim
  left : 0 < a.scale
  right : 0 < b.scale
  base : a.val * .fin a.scale = b.val * .fin b.scale

/-- The same outcome of two calls: the same exception, or results that `R` relates. -/
def SameOutcome {α β : Type} (R : α → β → Prop) : Py α → Py β → Prop
  | .ok a, .ok b => R a b
  | .error e, .error e' => e = e'
  | _, _ => False

/-- The same spot, possibly in different units. -/
structure SameSpot (s t : SpotQ) : Prop where
  areaMax : SameQty s.areaMax t.areaMax
  area : SameQty s.area t.area
  decayRate : SameQty s.decayRate t.decayRate
  growthRate : SameQty s.growthRate t.growthRate
  isGrowing : s.isGrowing = t.isGrowing

/-- The same spot generator, possibly in different units. -/
structure SameSpotGen (s t : SpotGeneratorQ) : Prop where
  distAreaMean : SameQty s.distAreaMean t.distAreaMean
  distAreaLogsigma : s.distAreaLogsigma = t.distAreaLogsigma
  growthRate : SameQty s.growthRate t.growthRate
  decayRate : SameQty s.decayRate t.decayRate
  initArea : SameQty s.initArea t.initArea
  coverage : s.coverage = t.coverage

/-- The same facula, possibly in different units. -/
structure SameFacula (s t : FaculaQ) : Prop where
  rMax : SameQty s.rMax t.rMax
  radius : SameQty s.radius t.radius
  depth : SameQty s.depth t.depth
  lifetime : SameQty s.lifetime t.lifetime
  floorSlope : SameQty s.floorSlope t.floorSlope
  floorMinRad : SameQty s.floorMinRad t.floorMinRad
  floorBase : SameQty s.floorBase t.floorBase
  wallSlope : SameQty s.wallSlope t.wallSlope
  wallIntercept : SameQty s.wallIntercept t.wallIntercept
  isGrowing : s.isGrowing = t.isGrowing

end Spec

open Spec

section
variable {α β γ δ : Type} {R : α → β → Prop} {S : γ → δ → Prop}

theorem same_bind {x : Py α} {y : Py β} {f : α → Py γ} {g : β → Py δ} (h : SameOutcome R x y)
    (hf : ∀ a b, R a b → SameOutcome S (f a) (g b)) : SameOutcome S (x.bind f) (y.bind g) := by
  cases x <;> cases y
  · exact h
  · exact h.elim
  · exact h.elim
  · exact hf _ _ h

theorem same_map {x : Py α} {y : Py β} {f : α → γ} {g : β → δ} (h : SameOutcome R x y)
    (hf : ∀ a b, R a b → S (f a) (g b)) : SameOutcome S (x.map f) (y.map g) := by
  cases x <;> cases y
  · exact h
  · exact h.elim
  · exact h.elim
  · exact hf _ _ h

theorem same_mapM {f : α → Py γ} {g : β → Py δ} (hf : ∀ a b, R a b → SameOutcome S (f a) (g b)) {l : List α} {m : List β}
    (h : List.Forall₂ R l m) : SameOutcome (List.Forall₂ S) (l.mapM f) (m.mapM g) := by
  induction h with
  | nil => exact List.Forall₂.nil
  | cons h1 _ ih =>
    rw [List.mapM_cons, List.mapM_cons]
    exact same_bind (hf _ _ h1) fun a b hab => same_bind ih fun c d hcd => List.Forall₂.cons hab hcd

end

theorem same_keepM {α β : Type} {R : α → β → Prop} {f : α → Py Bool} {g : β → Py Bool}
    (hf : ∀ a b, R a b → SameOutcome Eq (f a) (g b)) {l : List α} {m : List β}
    (h : List.Forall₂ R l m) : SameOutcome (List.Forall₂ R) (keepM l f) (keepM m g) := by
  induction h with
  | nil => exact List.Forall₂.nil
  | cons h1 _ ih =>
    refine same_bind (hf _ _ h1) fun a b hab => same_map ih fun c d hcd => ?_
    subst hab
    cases a
    · exact hcd
    · exact List.Forall₂.cons h1 hcd

/-! ### Every operation respects physical equality -/

section
variable {a b a' b' : Qty}

theorem same_refl (h : 0 < a.scale) : SameQty a a := ⟨rfl, h, h, rfl⟩

theorem same_mul (h : SameQty a a') (k : SameQty b b') : SameQty (a.mul b) (a'.mul b') :=
  ⟨by simp only [Qty.mul, h.dim, k.dim], mul_pos h.left k.left, mul_pos h.right k.right, by
    simp only [Qty.mul, Fl.mul_scale _ _ h.left k.left, Fl.mul_scale _ _ h.right k.right, h.base, k.base]⟩

theorem same_div (h : SameQty a a') (k : SameQty b b') : SameQty (a.div b) (a'.div b') :=
  ⟨by simp only [Qty.div, h.dim, k.dim], div_pos h.left k.left, div_pos h.right k.right, by
    simp only [Qty.div, Fl.div_scale _ _ h.left k.left, Fl.div_scale _ _ h.right k.right, h.base, k.base]⟩

theorem same_sqrt (h : SameQty a a') : SameQty a.sqrt a'.sqrt :=
  ⟨by simp only [Qty.sqrt, h.dim], Real.sqrt_pos.mpr h.left, Real.sqrt_pos.mpr h.right, by
    simp only [Qty.sqrt, Fl.sqrt_scale _ h.left, Fl.sqrt_scale _ h.right, h.base]⟩

/-- Converted to the same dimension with scales `s` and `t`, the numbers represent the same. -/
theorem same_toValue (h : SameQty a a') {s t : ℝ} (hs : 0 < s) (ht : 0 < t) (d : Dim) :
    SameOutcome (fun v w : Fl => v * .fin s = w * .fin t) (a.toValue s d) (a'.toValue t d) := by
  unfold Qty.toValue
  rw [h.dim]
  by_cases hd : a'.dim = d
  · rw [if_pos hd, if_pos hd]
    change _ * _ = _ * _
    rw [Fl.conv_scale _ h.left hs, Fl.conv_scale _ h.right ht, h.base]
  · rw [if_neg hd, if_neg hd]; rfl

/-- A number in a fixed unit does not depend on the units of the arguments. -/
theorem same_number (h : SameQty a a') {s : ℝ} (hs : 0 < s) (d : Dim) : SameOutcome Eq (a.toValue s d) (a'.toValue s d) := by
  have := same_toValue h hs hs d
  revert this
  cases a.toValue s d <;> cases a'.toValue s d <;> intro h
  · exact h
  · exact h.elim
  · exact h.elim
  · exact (Fl.scale_inj hs).mp h

theorem same_into (h : SameQty a a') {s : ℝ} (hs : 0 < s) (d : Dim) : SameOutcome SameQty (a.into s d) (a'.into s d) :=
  same_map (same_number h hs d) fun v w e => by subst e; exact ⟨rfl, hs, hs, rfl⟩

theorem same_second (h : SameQty a a') (k : SameQty b b') : SameOutcome (fun v w : Fl => v * .fin a.scale = w * .fin a'.scale)
    (b.toValue a.scale a.dim) (b'.toValue a'.scale a'.dim) := by
  rw [h.dim]; exact same_toValue k h.left h.right _

theorem same_add (h : SameQty a a') (k : SameQty b b') : SameOutcome SameQty (a.add b) (a'.add b') :=
  same_map (same_second h k) fun v w e => ⟨h.dim, h.left, h.right, by
    simp only [Fl.add_scale _ _ h.left, Fl.add_scale _ _ h.right, h.base, e]⟩

theorem same_sub (h : SameQty a a') (k : SameQty b b') : SameOutcome SameQty (a.sub b) (a'.sub b') :=
  same_map (same_second h k) fun v w e => ⟨h.dim, h.left, h.right, by
    simp only [Fl.sub_scale _ _ h.left, Fl.sub_scale _ _ h.right, h.base, e]⟩

theorem same_gt (h : SameQty a a') (k : SameQty b b') : SameOutcome Eq (a.gt b) (a'.gt b') :=
  same_map (same_second h k) fun v w e => by
    rw [decide_eq_decide, ← Fl.lt_scale _ _ h.left, e, h.base, Fl.lt_scale _ _ h.right]

theorem same_le (h : SameQty a a') (k : SameQty b b') : SameOutcome Eq (a.le b) (a'.le b') :=
  same_map (same_second h k) fun v w e => by
    rw [decide_eq_decide, ← Fl.le_scale _ _ h.left, e, h.base, Fl.le_scale _ _ h.right]

theorem same_eq (h : SameQty a a') (k : SameQty b b') : a.eq b = a'.eq b' := by
  have := same_second h k
  unfold Qty.eq
  revert this
  cases b.toValue a.scale a.dim <;> cases b'.toValue a'.scale a'.dim <;> intro e
  · rfl
  · exact e.elim
  · exact e.elim
  · simp only
    rw [decide_eq_decide]
    unfold Fl.feq
    change _ * _ = _ * _ at e
    rw [← Fl.scale_inj h.left, e, h.base, Fl.scale_inj h.right, ← Fl.isNan_scale _ h.left, h.base, Fl.isNan_scale _ h.right]

theorem same_num {x y : Fl} (h : x = y) : SameQty (.num x) (.num y) := by subst h; exact ⟨rfl, one_pos, one_pos, rfl⟩
theorem same_days (x : Fl) : SameQty (.days x) (.days x) := ⟨rfl, one_pos, one_pos, rfl⟩
theorem MSH_pos_unit : 0 < MSH := by unfold MSH; positivity
theorem same_msh (x : Fl) : SameQty (.msh x) (.msh x) := ⟨rfl, MSH_pos_unit, MSH_pos_unit, rfl⟩

theorem same_log (h : SameQty a a') : SameOutcome SameQty a.log a'.log :=
  same_map (same_number h one_pos 0) fun _ _ e => same_num (by rw [e])

theorem same_exp (h : SameQty a a') : SameOutcome SameQty a.exp a'.exp :=
  same_map (same_number h one_pos 0) fun _ _ e => same_num (by rw [e])

theorem same_arccos (h : SameQty a a') : SameOutcome SameQty a.arccos a'.arccos :=
  same_map (same_number h one_pos 0) fun _ _ e => by subst e; exact ⟨rfl, one_pos, one_pos, rfl⟩

end

/-! ### The methods -/

theorem same_radius {s t : SpotQ} (h : SameSpot s t) : SameOutcome SameQty s.radius t.radius :=
  same_into (same_sqrt (same_div h.area (same_num rfl))) one_pos _

theorem same_angularRadius {s t : SpotQ} (h : SameSpot s t) {r r' : Qty} (hr : SameQty r r') :
    SameOutcome SameQty (s.angularRadius r) (t.angularRadius r') :=
  same_bind (same_sub (same_num rfl) (same_div h.area (same_mul (same_num rfl) (same_mul hr hr)))) fun _ _ h1 =>
    same_bind (same_arccos h1) fun _ _ h2 => same_into h2 (by positivity) _

theorem same_decay {s t : SpotQ} (h : SameSpot s t) {a a' d d' : Qty} (ha : SameQty a a') (hd : SameQty d d') :
    SameOutcome SameSpot (s.decay a d) (t.decay a' d') := by
  refine same_bind (same_gt hd h.areaMax) fun g g' e => ?_
  subst e
  cases g
  · exact same_map (same_sub ha hd) fun x y e => ⟨h.areaMax, e, h.decayRate, h.growthRate, rfl⟩
  · exact ⟨h.areaMax, same_msh _, h.decayRate, h.growthRate, rfl⟩

theorem same_age {s t : SpotQ} (h : SameSpot s t) {x y : Qty} (hx : SameQty x y) : SameOutcome SameSpot (s.age x) (t.age y) := by
  unfold SpotQ.age
  rw [h.isGrowing]
  by_cases hg : t.isGrowing = true
  · rw [if_pos hg, if_pos hg]
    refine same_bind (same_into (same_mul h.growthRate (same_days _)) one_pos _) fun g g' e1 => ?_
    refine same_bind (same_add e1 (same_num rfl)) fun g1 g1' e2 => ?_
    refine same_bind (R := fun τ τ' => SameQty τ τ' ∧ τ.val = τ'.val)
      (same_map (same_number e2 one_pos 0) fun _ _ e => ⟨same_num (by rw [e]), by rw [e]⟩) fun τ τ' e3 => ?_
    rw [e3.2]
    refine same_bind (R := SameQty) ?_ fun m m' e4 => ?_
    · by_cases h0 : τ'.val = .fin 0
      · rw [if_pos h0, if_pos h0]; exact same_days _
      · rw [if_neg h0, if_neg h0]
        exact same_map (same_log (same_div h.areaMax h.area)) fun l l' e => same_mul (same_div e e3.1) (same_days _)
    refine same_bind (same_gt e4 hx) fun b b' e5 => ?_
    subst e5
    cases b
    · exact same_bind (same_sub hx e4) fun d d' e => same_decay h h.areaMax (same_mul e h.decayRate)
    · exact same_map (same_exp (same_div (same_mul e3.1 hx) (same_days _))) fun e e' k =>
        ⟨h.areaMax, same_mul h.area k, h.decayRate, h.growthRate, rfl⟩
  · rw [if_neg hg, if_neg hg]
    exact same_decay h h.area (same_mul hx h.decayRate)

theorem same_ageAll {l m : List SpotQ} (h : List.Forall₂ SameSpot l m) {x y : Qty} (hx : SameQty x y) :
    SameOutcome (List.Forall₂ SameSpot) (SpotQ.ageAll l x) (SpotQ.ageAll m y) :=
  same_bind (same_mapM (R := SameSpot) (S := SameSpot) (f := fun s => s.age x) (g := fun s => s.age y) (fun _ _ k => same_age k hx) h) fun _ _ k =>
    same_keepM (fun _ _ e => same_map (same_le e.area (same_msh _)) fun _ _ e' => by rw [e', e.isGrowing]) k

theorem same_isStatic {G H : SpotGeneratorQ} (h : SameSpotGen G H) : G.isStatic = H.isStatic :=
  same_eq h.decayRate (same_div (same_msh _) (same_days _))

theorem same_meanLifetime {G H : SpotGeneratorQ} (h : SameSpotGen G H) : SameOutcome SameQty G.meanLifetime H.meanLifetime := by
  unfold SpotGeneratorQ.meanLifetime
  rw [same_isStatic h]
  by_cases hs : H.isStatic = true
  · rw [if_pos hs, if_pos hs]; exact same_days _
  · rw [if_neg hs, if_neg hs]
    exact same_bind (same_log (same_div h.initArea h.distAreaMean)) fun _ _ e =>
      same_bind (same_sub (same_div h.distAreaMean h.decayRate) (same_div e h.growthRate)) fun _ _ e => same_into e one_pos _

theorem same_meanArea {G H : SpotGeneratorQ} (h : SameSpotGen G H) : SameOutcome SameQty G.meanArea H.meanArea := by
  unfold SpotGeneratorQ.meanArea
  rw [same_isStatic h]
  by_cases hs : H.isStatic = true
  · rw [if_pos hs, if_pos hs]; exact h.distAreaMean
  · rw [if_neg hs, if_neg hs]
    exact same_bind (same_add (same_div h.distAreaMean h.growthRate) (same_div h.initArea h.growthRate)) fun _ _ e =>
      same_bind (same_add e (same_div (same_div (same_mul h.distAreaMean h.distAreaMean) (same_num rfl)) h.decayRate)) fun _ _ e =>
        same_map (same_meanLifetime h) fun _ _ e' => same_div e e'

theorem same_nExpected {G H : SpotGeneratorQ} (h : SameSpotGen G H) {t t' r r' : Qty} (ht : SameQty t t') (hr : SameQty r r') :
    SameOutcome Eq (G.nExpected t r) (H.nExpected t' r') :=
  same_bind (same_meanArea h) fun _ _ e1 => same_bind (same_meanLifetime h) fun _ _ e2 =>
    same_number (same_div (same_mul (same_div (same_mul (same_num (by rw [h.coverage])) (same_mul hr hr)) e1) ht) e2) one_pos 0

theorem same_newSpot {G H : SpotGeneratorQ} (h : SameSpotGen G H) (z : ℝ) : SameOutcome SameSpot (G.newSpot z) (H.newSpot z) :=
  same_map (R := fun m m' => m.val = m'.val)
    (same_map (same_number (same_div h.distAreaMean (same_msh _)) one_pos 0) fun _ _ e => by rw [e]) fun m m' e =>
    ⟨by rw [e, h.distAreaLogsigma]; exact same_msh _, h.initArea, h.decayRate, h.growthRate, rfl⟩

theorem same_matureStep {G H : SpotGeneratorQ} (h : SameSpotGen G H) (z x : ℝ) :
    SameOutcome SameSpot (G.matureStep z x) (H.matureStep z x) := by
  refine same_bind (same_newSpot h z) fun s t e => ?_
  rw [same_isStatic h]
  by_cases hs : H.isStatic = true
  · rw [if_pos hs, if_pos hs]
    exact same_bind (same_sub e.areaMax h.initArea) fun _ _ e1 =>
      same_map (same_add (same_mul (same_num rfl) e1) h.initArea) fun _ _ e2 => ⟨e.areaMax, e2, e.decayRate, e.growthRate, e.isGrowing⟩
  · rw [if_neg hs, if_neg hs]
    exact same_bind (same_meanLifetime h) fun _ _ e1 => same_age e (same_mul (same_num rfl) e1)

theorem same_floorDteff {f g : FaculaQ} (h : SameFacula f g) : SameOutcome SameQty f.floorDteff g.floorDteff :=
  same_bind (same_sub h.radius h.floorMinRad) fun _ _ e => same_bind (same_add (same_mul e h.floorSlope) h.floorBase) fun _ _ e =>
    same_into e one_pos _

theorem same_wallDteff {f g : FaculaQ} (h : SameFacula f g) : SameOutcome SameQty f.wallDteff g.wallDteff :=
  same_bind (same_add (same_mul h.wallSlope h.radius) h.wallIntercept) fun _ _ e => same_into e one_pos _

theorem same_facAge {f g : FaculaQ} (h : SameFacula f g) {x y : Qty} (hx : SameQty x y) :
    SameOutcome SameFacula (f.age x) (g.age y) := by
  have new : ∀ {r r' : Qty}, SameQty r r' → ∀ b, SameFacula { f with radius := r, isGrowing := b } { g with radius := r', isGrowing := b } :=
    fun e b => ⟨h.rMax, e, h.depth, h.lifetime, h.floorSlope, h.floorMinRad, h.floorBase, h.wallSlope, h.wallIntercept, rfl⟩
  have new' : ∀ {r r' : Qty}, SameQty r r' → SameFacula { f with radius := r } { g with radius := r' } :=
    fun e => ⟨h.rMax, e, h.depth, h.lifetime, h.floorSlope, h.floorMinRad, h.floorBase, h.wallSlope, h.wallIntercept, h.isGrowing⟩
  unfold FaculaQ.age
  by_cases hg : g.isGrowing = true
  · rw [if_pos hg, if_pos (h.isGrowing.trans hg)]
    refine same_bind (same_log (same_div h.radius h.rMax)) fun l l' e => ?_
    have em := same_mul (same_mul (same_mul (same_num (x := .fin (-1)) rfl) e) h.lifetime) (same_num (x := .fin 0.5) rfl)
    refine same_bind (same_le em hx) fun b b' e1 => ?_
    subst e1
    cases b
    · exact same_map (same_exp (same_div (same_mul (same_num rfl) hx) h.lifetime)) fun _ _ e => new' (same_mul h.radius e)
    · exact same_bind (same_sub hx em) fun _ _ e2 =>
        same_map (same_exp (same_div (same_mul (same_num rfl) e2) h.lifetime)) fun _ _ e => new (same_mul h.rMax e) _
  · rw [if_neg hg, if_neg (fun k => hg (h.isGrowing.symm.trans k))]
    exact same_map (same_exp (same_div (same_mul (same_num rfl) hx) h.lifetime)) fun _ _ e => new' (same_mul h.radius e)

theorem same_facAgeAll {l m : List FaculaQ} (h : List.Forall₂ SameFacula l m) {x y : Qty} (hx : SameQty x y) :
    SameOutcome (List.Forall₂ SameFacula) (FaculaQ.ageAll l x) (FaculaQ.ageAll m y) :=
  same_bind (same_mapM (R := SameFacula) (S := SameFacula) (f := fun s => s.age x) (g := fun s => s.age y) (fun _ _ k => same_facAge k hx) h) fun _ _ k =>
    same_keepM (fun _ _ e => same_map (same_le e.radius (same_div e.rMax (same_num rfl))) fun _ _ e' => by rw [e', e.isGrowing]) k


/-- The same outcome of a loop. -/
def SameLoop (x y : Option (Py (List SpotQ))) : Prop := match x, y with
  | none, none => True
  | some a, some b => SameOutcome (List.Forall₂ SameSpot) a b
  | _, _ => False

theorem same_matureLoop {G H : SpotGeneratorQ} (h : SameSpotGen G H) {g g' r r' : Qty} (hg : SameQty g g') (hr : SameQty r r')
    (draws : ℕ → ℝ × ℝ) : ∀ (fuel k : ℕ) (o o' : Qty) (l m : List SpotQ), SameQty o o' → List.Forall₂ SameSpot l m →
      SameLoop (G.matureLoop g r draws fuel k o l) (H.matureLoop g' r' draws fuel k o' m) := by
  intro fuel
  induction fuel with
  | zero =>
    intro k o o' l m ho hl
    have e := same_gt hg ho
    unfold SpotGeneratorQ.matureLoop
    revert e
    cases g.gt o <;> cases g'.gt o' <;> intro e
    · exact e
    · exact e.elim
    · exact e.elim
    · rename_i a b
      have e' : a = b := e
      subst e'
      cases a
      · exact hl
      · trivial
  | succ n ih =>
    intro k o o' l m ho hl
    have e := same_gt hg ho
    have e2 : SameOutcome (fun p q : SpotQ × Qty => SameSpot p.1 q.1 ∧ SameQty p.2 q.2)
        ((G.matureStep (draws k).1 (draws k).2).bind fun sp => (sp.angularRadius r).bind fun a => (o.add ((a.mul a).mul (.num (.fin π)))).map fun o => (sp, o))
        ((H.matureStep (draws k).1 (draws k).2).bind fun sp => (sp.angularRadius r').bind fun a => (o'.add ((a.mul a).mul (.num (.fin π)))).map fun o => (sp, o)) :=
      same_bind (same_matureStep h _ _) fun s t e => same_bind (same_angularRadius e hr) fun _ _ e1 =>
        same_map (same_add ho (same_mul (same_mul e1 e1) (same_num rfl))) fun _ _ e2 => ⟨e, e2⟩
    unfold SpotGeneratorQ.matureLoop
    revert e e2
    generalize ((G.matureStep (draws k).1 (draws k).2).bind fun sp => (sp.angularRadius r).bind fun a => (o.add ((a.mul a).mul (.num (.fin π)))).map fun o => (sp, o)) = u
    generalize ((H.matureStep (draws k).1 (draws k).2).bind fun sp => (sp.angularRadius r').bind fun a => (o'.add ((a.mul a).mul (.num (.fin π)))).map fun o => (sp, o)) = v
    cases g.gt o <;> cases g'.gt o' <;> intro e e2
    · exact e
    · exact e.elim
    · exact e.elim
    · rename_i a b
      have e' : a = b := e
      subst e'
      cases a
      · exact hl
      · cases u <;> cases v
        · exact e2
        · exact e2.elim
        · exact e2.elim
        · exact ih _ _ _ _ _ e2.2 (List.rel_append hl (List.Forall₂.cons e2.1 .nil))

theorem same_maturesTo {G H : SpotGeneratorQ} (h : SameSpotGen G H) (c : ℝ) {r r' : Qty} (hr : SameQty r r')
    (draws : ℕ → ℝ × ℝ) (x : Py (List SpotQ)) (hx : G.maturesTo c r draws x) :
    ∃ y, H.maturesTo c r' draws y ∧ SameOutcome (List.Forall₂ SameSpot) x y := by
  unfold SpotGeneratorQ.maturesTo at hx ⊢
  by_cases hc : 1 < c ∨ c < 0
  · simp only [if_pos hc] at hx ⊢
    exact ⟨_, rfl, by rw [hx]; rfl⟩
  · simp only [if_neg hc] at hx ⊢
    obtain ⟨g, fuel, e1, e2⟩ := hx
    have hs : (0 : ℝ) < (π / 180) ^ 2 := by positivity
    have hg : SameQty g g := by
      have : SameOutcome SameQty (Except.ok (ε := PyErr) g) (.ok g) := by
        rw [← e1]
        exact same_into ⟨rfl, one_pos, one_pos, rfl⟩ hs _
      exact this
    have := same_matureLoop h hg hr draws fuel 0 ⟨.fin 0, (π / 180) ^ 2, .angle + .angle⟩ _ [] [] ⟨rfl, hs, hs, rfl⟩ .nil
    rw [e2] at this
    cases hy : H.matureLoop g r' draws fuel 0 ⟨.fin 0, (π / 180) ^ 2, .angle + .angle⟩ [] with
    | none => rw [hy] at this; exact this.elim
    | some y => rw [hy] at this; exact ⟨y, ⟨g, fuel, e1, hy⟩, this⟩

theorem same_facAngularRadius {f g : FaculaQ} (h : SameFacula f g) {r r' : Qty} (hr : SameQty r r') :
    SameQty (f.angularRadius r) (g.angularRadius r') :=
  same_mul (same_div (same_mul (same_div h.radius hr) (same_num rfl)) (same_num rfl)) ⟨rfl, by positivity, by positivity, rfl⟩

/-- The same facula generator, possibly in different units. -/
structure Spec.SameFacGen (s t : FaculaGeneratorQ) : Prop where
  distRPeak : SameQty s.distRPeak t.distRPeak
  distLifePeak : SameQty s.distLifePeak t.distLifePeak
  coverage : s.coverage = t.coverage

theorem same_facExpected {G H : FaculaGeneratorQ} (h : SameFacGen G H) {t t' r r' : Qty} (ht : SameQty t t') (hr : SameQty r r') :
    SameOutcome Eq (G.nExpected t r) (H.nExpected t' r') :=
  same_number (same_div (same_mul (same_div (same_mul (same_num (by rw [h.coverage])) (same_mul hr hr))
    (same_mul (same_num rfl) (same_mul h.distRPeak h.distRPeak))) ht) (same_mul (same_num rfl) h.distLifePeak)) one_pos 0

/-- **C125** Units do not matter, spots.  If the attributes and arguments are physically the same, in whatever units, then the methods of
spots and spot generators raise the same exception or return physically the same. -/
theorem C125_spots :
    (∀ s t : SpotQ, SameSpot s t →
      SameOutcome SameQty s.radius t.radius ∧
      (∀ r r', SameQty r r' → SameOutcome SameQty (s.angularRadius r) (t.angularRadius r')) ∧
      ∀ x y, SameQty x y → SameOutcome SameSpot (s.age x) (t.age y)) ∧
    (∀ l m : List SpotQ, List.Forall₂ SameSpot l m → ∀ x y, SameQty x y →
      SameOutcome (List.Forall₂ SameSpot) (SpotQ.ageAll l x) (SpotQ.ageAll m y)) ∧
    ∀ G H : SpotGeneratorQ, SameSpotGen G H →
      SameOutcome SameQty G.meanLifetime H.meanLifetime ∧ SameOutcome SameQty G.meanArea H.meanArea ∧
      (∀ t t' r r', SameQty t t' → SameQty r r' → SameOutcome Eq (G.nExpected t r) (H.nExpected t' r')) ∧
      (∀ z, SameOutcome SameSpot (G.newSpot z) (H.newSpot z)) ∧
      ∀ c r r' draws x, SameQty r r' → G.maturesTo c r draws x →
        ∃ y, H.maturesTo c r' draws y ∧ SameOutcome (List.Forall₂ SameSpot) x y :=
  ⟨fun _ _ h => ⟨same_radius h, fun _ _ hr => same_angularRadius h hr, fun _ _ hx => same_age h hx⟩,
    fun _ _ h _ _ hx => same_ageAll h hx,
    fun _ _ h => ⟨same_meanLifetime h, same_meanArea h, fun _ _ _ _ ht hr => same_nExpected h ht hr, same_newSpot h,
      fun c _ _ draws x hr hx => same_maturesTo h c hr draws x hx⟩⟩

/-- **C125** Units do not matter, faculae. -/
theorem C125_faculae :
    (∀ f g : FaculaQ, SameFacula f g →
      SameOutcome SameQty f.floorDteff g.floorDteff ∧ SameOutcome SameQty f.wallDteff g.wallDteff ∧
      (∀ r r', SameQty r r' → SameQty (f.angularRadius r) (g.angularRadius r')) ∧
      ∀ x y, SameQty x y → SameOutcome SameFacula (f.age x) (g.age y)) ∧
    (∀ l m : List FaculaQ, List.Forall₂ SameFacula l m → ∀ x y, SameQty x y →
      SameOutcome (List.Forall₂ SameFacula) (FaculaQ.ageAll l x) (FaculaQ.ageAll m y)) ∧
    ∀ G H : FaculaGeneratorQ, SameFacGen G H →
      ∀ t t' r r', SameQty t t' → SameQty r r' → SameOutcome Eq (G.nExpected t r) (H.nExpected t' r') :=
  ⟨fun _ _ h => ⟨same_floorDteff h, same_wallDteff h, fun _ _ hr => same_facAngularRadius h hr, fun _ _ hx => same_facAge h hx⟩,
    fun _ _ h _ _ hx => same_facAgeAll h hx, fun _ _ h _ _ _ _ ht hr => same_facExpected h ht hr⟩

/-! ### The other model files use kilometres, days and kelvin -/

namespace Spec

/-- A quantity that represents `x` in kilometres, days, kelvin and radians. -/
def unit (x : Fl) (d : Dim) : Qty := ⟨x, 1, d⟩

/-- A spot given in kilometres and days. -/
def spotIn (s : StarSpot) : SpotQ :=
  { areaMax := unit (.fin s.areaMax) .area, area := unit s.area .area, decayRate := unit (.fin s.decayRate) (.area - .time),
    growthRate := unit (.fin s.growthRate) (-.time), isGrowing := s.isGrowing }

/-- A generator given in kilometres and days. -/
def spotGenIn (G : SpotGenerator) : SpotGeneratorQ :=
  { distAreaMean := unit (.fin G.distAreaMean) .area, distAreaLogsigma := G.distAreaLogsigma,
    growthRate := unit (.fin G.growthRate) (-.time), decayRate := unit (.fin G.decayRate) (.area - .time),
    initArea := unit (.fin G.initArea) .area, coverage := G.coverage }

/-- A facula given in kilometres, days and kelvin. -/
def faculaIn (f : Facula) : FaculaQ :=
  { rMax := unit (.fin f.rMax) .len, radius := unit f.radius .len, depth := unit (.fin f.depth) .len,
    lifetime := unit (.fin f.lifetime) .time, floorSlope := unit (.fin f.floorSlope) (.temp - .len),
    floorMinRad := unit (.fin f.floorMinRad) .len, floorBase := unit (.fin f.floorBase) .temp,
    wallSlope := unit (.fin f.wallSlope) (.temp - .len), wallIntercept := unit (.fin f.wallIntercept) .temp,
    isGrowing := f.isGrowing }

/-- A facula generator given in kilometres and days. -/
def facGenIn (G : FaculaGenerator) : FaculaGeneratorQ :=
  { distRPeak := unit (.fin G.distRPeak) .len, distLifePeak := unit (.fin G.distLifePeak) .time, coverage := G.coverage }

end Spec

section
variable (x y : Fl) (d e : Dim)

theorem unit_mul : (unit x d).mul (unit y e) = unit (x * y) (d + e) := by simp [unit, Qty.mul]
theorem unit_div : (unit x d).div (unit y e) = unit (x / y) (d - e) := by simp [unit, Qty.div]
theorem unit_toValue : (unit x d).toValue 1 d = .ok x := by simp [unit, Qty.toValue, Fl.mul_one]
theorem unit_into : (unit x d).into 1 d = .ok (unit x d) := by rw [Qty.into, unit_toValue]; rfl
theorem unit_add : (unit x d).add (unit y d) = .ok (unit (x + y) d) := by
  rw [Qty.add, show (unit x d).scale = 1 from rfl, show (unit x d).dim = d from rfl, unit_toValue]; rfl
theorem unit_sub : (unit x d).sub (unit y d) = .ok (unit (x - y) d) := by
  rw [Qty.sub, show (unit x d).scale = 1 from rfl, show (unit x d).dim = d from rfl, unit_toValue]; rfl
open Classical in
theorem unit_gt : (unit x d).gt (unit y d) = .ok (decide (y < x)) := by
  rw [Qty.gt, show (unit x d).scale = 1 from rfl, show (unit x d).dim = d from rfl, unit_toValue]; rfl
open Classical in
theorem unit_le : (unit x d).le (unit y d) = .ok (decide (x ≤ y)) := by
  rw [Qty.le, show (unit x d).scale = 1 from rfl, show (unit x d).dim = d from rfl, unit_toValue]; rfl
theorem unit_log : (unit x 0).log = .ok (unit (Fl.log x) 0) := by rw [Qty.log, unit_toValue]; rfl
theorem unit_exp : (unit x 0).exp = .ok (unit (Fl.exp x) 0) := by rw [Qty.exp, unit_toValue]; rfl
theorem unit_num : Qty.num x = unit x 0 := rfl
theorem unit_days : Qty.days x = unit x .time := rfl
theorem unit_same : SameQty (unit x d) (unit x d) := ⟨rfl, one_pos, one_pos, rfl⟩

end

theorem Fl.div_one (a : Fl) : a / fin 1 = a := by
  cases a
  · rfl
  · change (if (1 : ℝ) < 0 then _ else _) = _; rw [if_neg (by norm_num)]
  · rw [Fl.fin_div one_ne_zero, _root_.div_one]
  · change (if (1 : ℝ) < 0 then _ else _) = _; rw [if_neg (by norm_num)]

theorem sameQty_symm {a b : Qty} (h : SameQty a b) : SameQty b a := ⟨h.dim.symm, h.right, h.left, h.base.symm⟩
theorem sameQty_trans {a b c : Qty} (h : SameQty a b) (k : SameQty b c) : SameQty a c :=
  ⟨h.dim.trans k.dim, h.left, k.right, h.base.trans k.base⟩

theorem decay_in (s : StarSpot) (a d : Fl) : ∃ q, (spotIn s).decay (unit a .area) (unit d .area) = .ok q ∧
    SameSpot q (spotIn { s with isGrowing := false, area := if .fin s.areaMax < d then .fin 0 else a - d }) := by
  have e : (unit d .area).gt (spotIn s).areaMax = .ok (decide (.fin s.areaMax < d)) := by
    rw [show (spotIn s).areaMax = unit (.fin s.areaMax) .area from rfl, unit_gt]
  unfold SpotQ.decay
  rw [e]
  by_cases h : Fl.fin s.areaMax < d
  · rw [if_pos h]
    simp only [h, decide_true, Except.bind, if_true]
    exact ⟨_, rfl, unit_same _ _, ⟨rfl, MSH_pos_unit, one_pos, by simp [Qty.msh, spotIn, unit]⟩, unit_same _ _, unit_same _ _, rfl⟩
  · rw [if_neg h]
    simp only [h, decide_false, Except.bind, Bool.false_eq_true, if_false, unit_sub, Except.map]
    exact ⟨_, rfl, unit_same _ _, unit_same _ _, unit_same _ _, unit_same _ _, rfl⟩

theorem age_in (s : StarSpot) (t : ℝ) : ∃ q, (spotIn s).age (.days (.fin t)) = .ok q ∧ SameSpot q (spotIn (s.age t)) := by
  unfold SpotQ.age
  by_cases hg : s.isGrowing = true
  · rw [if_pos (show (spotIn s).isGrowing = true from hg)]
    have e1 : ((spotIn s).growthRate.mul (.days (.fin 1))).into 1 0 = .ok (unit (.fin s.growthRate) 0) := by
      rw [unit_days, show (spotIn s).growthRate = unit (.fin s.growthRate) (-.time) from rfl, unit_mul, neg_add_cancel, unit_into, Fl.mul_one]
    have e2 : (spotIn s).areaMax.div (spotIn s).area = unit (.fin s.areaMax / s.area) 0 := by
      rw [show (spotIn s).areaMax = unit (.fin s.areaMax) .area from rfl, show (spotIn s).area = unit s.area .area from rfl, unit_div, sub_self]
    rw [e1, e2]
    simp only [Except.bind, unit_num, unit_add, unit_log, Except.map, Fl.fin_add]
    rw [show (unit (Fl.log (.fin (s.growthRate + 1))) 0).val = Fl.log (.fin (s.growthRate + 1)) from rfl]
    rw [StarSpot.age_eq]
    rw [if_pos hg]
    simp only []
    generalize Fl.log (.fin (s.growthRate + 1)) = tau
    have e3 : (if tau = .fin 0 then (Except.ok (ε := PyErr) (Qty.days .pinf))
        else .ok (((unit (Fl.log (.fin s.areaMax / s.area)) 0).div (unit tau 0)).mul (.days (.fin 1)))) =
        .ok (unit (if tau = .fin 0 then .pinf else Fl.log (.fin s.areaMax / s.area) / tau) .time) := by
      by_cases h0 : tau = .fin 0
      · rw [if_pos h0, if_pos h0]; rfl
      · rw [if_neg h0, if_neg h0, unit_div, unit_days, unit_mul, sub_self, zero_add, Fl.mul_one]
    rw [e3]
    simp only []
    generalize (if tau = .fin 0 then .pinf else Fl.log (.fin s.areaMax / s.area) / tau) = m
    rw [unit_days, unit_gt]
    simp only []
    by_cases h1 : Fl.fin t < m
    · simp only [h1, decide_true, if_true]
      rw [unit_mul, unit_days, unit_div, zero_add, sub_self, Fl.div_one, unit_exp]
      refine ⟨_, rfl, unit_same _ _, ?_, unit_same _ _, unit_same _ _, ?_⟩
      · change SameQty ((unit s.area .area).mul (unit _ 0)) _
        rw [unit_mul, add_zero]
        exact unit_same _ _
      · rfl
    · simp only [h1, decide_false, Bool.false_eq_true, if_false]
      rw [unit_sub]
      simp only []
      rw [show (spotIn s).decayRate = unit (.fin s.decayRate) (.area - .time) from rfl, unit_mul, add_sub_cancel,
        show (spotIn s).areaMax = unit (.fin s.areaMax) .area from rfl]
      obtain ⟨q, h2, h3⟩ := decay_in s (.fin s.areaMax) ((.fin t - m) * .fin s.decayRate)
      refine ⟨q, h2, ?_⟩
      convert h3 using 2
      split_ifs <;> rfl
  · rw [if_neg (show ¬ (spotIn s).isGrowing = true from hg)]
    rw [unit_days, show (spotIn s).decayRate = unit (.fin s.decayRate) (.area - .time) from rfl, unit_mul, add_sub_cancel,
      show (spotIn s).area = unit s.area .area from rfl, Fl.fin_mul]
    obtain ⟨q, h2, h3⟩ := decay_in s s.area (.fin (t * s.decayRate))
    refine ⟨q, h2, ?_⟩
    rw [StarSpot.age_eq]
    rw [if_neg hg]
    convert h3 using 2
    have : s.isGrowing = false := by simpa using hg
    simp only []
    by_cases h : Fl.fin s.areaMax < Fl.fin (t * s.decayRate)
    · rw [if_pos h, if_pos h, ← this]
    · rw [if_neg h, if_neg h, ← this]


theorem sameSpot_trans {a b c : SpotQ} (h : SameSpot a b) (k : SameSpot b c) : SameSpot a c :=
  ⟨sameQty_trans h.areaMax k.areaMax, sameQty_trans h.area k.area, sameQty_trans h.decayRate k.decayRate,
    sameQty_trans h.growthRate k.growthRate, h.isGrowing.trans k.isGrowing⟩

theorem outcome_ok {α β : Type} {R : α → β → Prop} {x : Py α} {y : Py β} {b : β} (h : SameOutcome R x y) (hy : y = .ok b) :
    ∃ a, x = .ok a ∧ R a b := by
  subst hy
  cases x with
  | error e => exact h.elim
  | ok a => exact ⟨a, rfl, h⟩

theorem clean_in (l : List SpotQ) (m : List StarSpot) (h : List.Forall₂ (fun q s => SameSpot q (spotIn s)) l m) :
    ∃ l', keepM l (fun s : SpotQ => (s.area.le (.msh (.fin 0))).map fun z => !(z && !s.isGrowing)) = .ok l' ∧
      List.Forall₂ (fun q s => SameSpot q (spotIn s)) l' (m.filter fun s => !(decide (s.area ≤ .fin 0) && !s.isGrowing)) := by
  induction h with
  | nil => exact ⟨[], rfl, .nil⟩
  | @cons q s l m h1 _ ih =>
    obtain ⟨l', e1, e2⟩ := ih
    have hz : SameQty (.msh (.fin 0)) (unit (.fin 0) .area) := ⟨rfl, MSH_pos_unit, one_pos, by simp [Qty.msh, unit]⟩
    obtain ⟨b, e3, e4⟩ := outcome_ok (same_le h1.area hz) (show (spotIn s).area.le (unit (.fin 0) .area) = .ok _ from unit_le _ _ _)
    subst e4
    have hk : (keepM (q :: l) fun s : SpotQ => (s.area.le (.msh (.fin 0))).map fun z => !(z && !s.isGrowing)) =
        .ok (if !(decide (s.area ≤ .fin 0) && !s.isGrowing) then q :: l' else l') := by
      rw [keepM, e1, e3, h1.isGrowing]; rfl
    refine ⟨_, hk, ?_⟩
    rw [List.filter_cons]
    split_ifs
    · exact .cons h1 e2
    · exact e2

theorem ages_in (t : ℝ) (l : List SpotQ) (m : List StarSpot) (h : List.Forall₂ (fun q s => SameSpot q (spotIn s)) l m) (x : Qty)
    (hx : SameQty x (.days (.fin t))) : ∃ l', (l.mapM fun s : SpotQ => s.age x) = .ok l' ∧
      List.Forall₂ (fun q s => SameSpot q (spotIn s)) l' (m.map fun s => s.age t) := by
  induction h with
  | nil => exact ⟨[], rfl, .nil⟩
  | @cons q s l m h1 _ ih =>
    obtain ⟨l', e1, e2⟩ := ih
    obtain ⟨r, e3, e4⟩ := age_in s t
    obtain ⟨r', e5, e6⟩ := outcome_ok (same_age h1 hx) e3
    refine ⟨r' :: l', ?_, .cons (sameSpot_trans e6 e4) e2⟩
    rw [List.mapM_cons, e5, e1]; rfl

theorem isStatic_in (G : SpotGenerator) : (spotGenIn G).isStatic = true ↔ G.isStatic := by
  have h : SameQty ((Qty.msh (.fin 0)).div (.days (.fin 1))) (unit (.fin 0) (.area - .time)) :=
    ⟨rfl, div_pos MSH_pos_unit one_pos, one_pos, by simp [Qty.div, Qty.msh, Qty.days, unit, Fl.div_one]⟩
  unfold SpotGeneratorQ.isStatic
  rw [show (spotGenIn G).decayRate = unit (.fin G.decayRate) (.area - .time) from rfl, same_eq (unit_same _ _) h]
  unfold Qty.eq
  rw [show (unit (Fl.fin G.decayRate) (Dim.area - Dim.time)).scale = 1 from rfl,
    show (unit (Fl.fin G.decayRate) (Dim.area - Dim.time)).dim = Dim.area - Dim.time from rfl, unit_toValue]
  simp only [decide_eq_true_eq]
  unfold Fl.feq SpotGenerator.isStatic
  rw [show (unit (Fl.fin G.decayRate) (Dim.area - Dim.time)).val = .fin G.decayRate from rfl, Fl.fin_inj]
  simp

theorem lifetime_dim : Dim.area - (Dim.area - Dim.time) = Dim.time := by abel

theorem meanLifetime_in (G : SpotGenerator) : (spotGenIn G).meanLifetime = .ok (unit G.meanLifetime .time) := by
  unfold SpotGeneratorQ.meanLifetime SpotGenerator.meanLifetime
  by_cases h : G.isStatic
  · rw [if_pos ((isStatic_in G).mpr h), if_pos h]; rfl
  · rw [if_neg (fun k => h ((isStatic_in G).mp k)), if_neg h]
    simp only [spotGenIn, unit_div, sub_self, unit_log, Except.bind, lifetime_dim]
    rw [show (0 : Dim) - -Dim.time = Dim.time by abel, unit_sub]
    simp only [unit_into]

theorem meanArea_in (G : SpotGenerator) : (spotGenIn G).meanArea = .ok (unit G.meanArea .area) := by
  unfold SpotGeneratorQ.meanArea SpotGenerator.meanArea
  by_cases h : G.isStatic
  · rw [if_pos ((isStatic_in G).mpr h), if_pos h]; rfl
  · rw [if_neg (fun k => h ((isStatic_in G).mp k)), if_neg h, meanLifetime_in]
    simp only [spotGenIn, unit_num, unit_div, unit_mul, unit_add, Except.bind]
    rw [show Dim.area + Dim.area - 0 - (Dim.area - Dim.time) = Dim.area - -Dim.time by abel, unit_add]
    simp only [Except.map, unit_div]
    rw [show Dim.area - -Dim.time - Dim.time = Dim.area by abel, Fl.fin_mul, Fl.fin_div two_ne_zero, ← pow_two]

theorem nExpected_in (G : SpotGenerator) (t R : ℝ) :
    (spotGenIn G).nExpected (.days (.fin t)) (unit (.fin R) .len) = .ok (G.nExpected t R) := by
  unfold SpotGeneratorQ.nExpected SpotGenerator.nExpected
  rw [meanArea_in, meanLifetime_in]
  simp only [Except.bind, unit_num, unit_days, unit_mul, unit_div]
  have hd : (0 : Dim) + (Dim.len + Dim.len) - Dim.area + Dim.time - Dim.time = 0 := by
    have : Dim.area = Dim.len + Dim.len := by
      unfold Dim.area Dim.len; rw [← Pi.single_add]; norm_num
    rw [this]; abel
  rw [hd, unit_toValue, Fl.fin_mul, Fl.fin_mul, ← pow_two, show (spotGenIn G).coverage = G.coverage from rfl]

theorem newSpot_in (G : SpotGenerator) (hG : 0 < G.distAreaMean) (n : ℕ) (d : SpotDraws n) (l : List StarSpot)
    (hl : G.generate n d = .ok l) (i : Fin n) : ∃ s q, l[(i : ℕ)]? = some s ∧ (spotGenIn G).newSpot (d.z i) = .ok q ∧ SameSpot q (spotIn s) := by
  unfold SpotGenerator.generate at hl
  by_cases h1 : G.distAreaLogsigma < 0
  · rw [if_pos h1] at hl; cases hl
  rw [if_neg h1] at hl
  cases hq : SpotGenerator.acceptRatios d with
  | none => rw [hq] at hl; cases hl
  | some q =>
    rw [hq] at hl
    simp only at hl
    by_cases h2 : G.distribution = .other
    · rw [if_pos h2] at hl; cases hl
    rw [if_neg h2] at hl
    obtain rfl := Except.ok.inj hl
    have e : SameQty ((spotGenIn G).distAreaMean.div (.msh (.fin 1))) (unit (.fin (G.distAreaMean / MSH)) 0) := by
      refine ⟨by simp [spotGenIn, unit, Qty.div, Qty.msh], div_pos one_pos MSH_pos_unit, one_pos, ?_⟩
      simp only [spotGenIn, unit, Qty.div, Qty.msh, Fl.div_one, Fl.fin_mul]
      rw [Fl.fin_inj]; ring
    have hp : 0 < G.distAreaMean / MSH := div_pos hG MSH_pos_unit
    obtain ⟨v, e1, e2⟩ := outcome_ok (same_number e one_pos 0) (unit_toValue _ _)
    subst e2
    have e3 : ((spotGenIn G).distAreaMean.div (.msh (.fin 1))).log = .ok (.num (Fl.log (.fin (G.distAreaMean / MSH)))) := by
      rw [Qty.log, e1]; rfl
    obtain ⟨w, hw⟩ : ∃ w, (spotGenIn G).newSpot (d.z i) = .ok w := ⟨_, by unfold SpotGeneratorQ.newSpot; rw [e3]; rfl⟩
    refine ⟨_, w, by simp; rfl, hw, ?_⟩
    unfold SpotGeneratorQ.newSpot at hw
    rw [e3] at hw
    obtain rfl := Except.ok.inj hw
    refine ⟨?_, unit_same _ _, unit_same _ _, unit_same _ _, rfl⟩
    refine ⟨rfl, MSH_pos_unit, one_pos, ?_⟩
    simp only [Qty.msh, Qty.num, spotIn, unit, StarSpot.new, spotGenIn]
    have e4 : Fl.log (.fin (G.distAreaMean / MSH)) = .fin (Real.log (G.distAreaMean / MSH)) := by
      unfold Fl.log; simp only; rw [if_neg (not_lt.mpr hp.le), if_neg hp.ne']
    rw [e4, Fl.fin_add, Fl.mul_one]
    rfl


theorem sameFacula_trans {a b c : FaculaQ} (h : SameFacula a b) (k : SameFacula b c) : SameFacula a c :=
  ⟨sameQty_trans h.rMax k.rMax, sameQty_trans h.radius k.radius, sameQty_trans h.depth k.depth, sameQty_trans h.lifetime k.lifetime,
    sameQty_trans h.floorSlope k.floorSlope, sameQty_trans h.floorMinRad k.floorMinRad, sameQty_trans h.floorBase k.floorBase,
    sameQty_trans h.wallSlope k.wallSlope, sameQty_trans h.wallIntercept k.wallIntercept, h.isGrowing.trans k.isGrowing⟩

theorem facula_same (f : Facula) : SameFacula (faculaIn f) (faculaIn f) :=
  ⟨unit_same _ _, unit_same _ _, unit_same _ _, unit_same _ _, unit_same _ _, unit_same _ _, unit_same _ _, unit_same _ _, unit_same _ _, rfl⟩

theorem facAge_in (f : Facula) (t : ℝ) : (faculaIn f).age (.days (.fin t)) = .ok (faculaIn (f.age t)) := by
  have hm : ∀ a x : Fl, (unit a Dim.len).mul (unit x 0) = unit (a * x) .len := fun a x => by rw [unit_mul, add_zero]
  unfold FaculaQ.age Facula.age
  by_cases hg : f.isGrowing = true
  · rw [if_pos (show (faculaIn f).isGrowing = true from hg), if_pos hg]
    simp only [faculaIn, unit_num, unit_days, unit_div, sub_self, unit_log, Except.bind, unit_mul, zero_add, add_zero, unit_le]
    generalize Fl.fin (-1) * Fl.log (f.radius / Fl.fin f.rMax) * Fl.fin f.lifetime * Fl.fin 0.5 = m
    by_cases h : m ≤ .fin t
    · simp only [h, decide_true, if_true, unit_sub, unit_mul, zero_add, unit_div, sub_self, unit_exp, Except.map, hm]
    · simp only [h, decide_false, Bool.false_eq_true, if_false, unit_exp, Except.map, hm, Fl.fin_mul]
  · rw [if_neg (show ¬ (faculaIn f).isGrowing = true from hg), if_neg hg]
    simp only [faculaIn, unit_num, unit_days, unit_mul, zero_add, unit_div, sub_self, unit_exp, Except.map, hm, Fl.fin_mul]

theorem facAges_in (t : ℝ) (l : List FaculaQ) (m : List Facula) (h : List.Forall₂ (fun q s => SameFacula q (faculaIn s)) l m) (x : Qty)
    (hx : SameQty x (.days (.fin t))) : ∃ l', (l.mapM fun s : FaculaQ => s.age x) = .ok l' ∧
      List.Forall₂ (fun q s => SameFacula q (faculaIn s)) l' (m.map fun s => s.age t) := by
  induction h with
  | nil => exact ⟨[], rfl, .nil⟩
  | @cons q s l m h1 _ ih =>
    obtain ⟨l', e1, e2⟩ := ih
    obtain ⟨r', e5, e6⟩ := outcome_ok (same_facAge h1 hx) (facAge_in s t)
    refine ⟨r' :: l', ?_, .cons e6 e2⟩
    rw [List.mapM_cons, e5, e1]; rfl

theorem facClean_in (l : List FaculaQ) (m : List Facula) (h : List.Forall₂ (fun q s => SameFacula q (faculaIn s)) l m) :
    ∃ l', keepM l (fun f : FaculaQ => (f.radius.le (f.rMax.div (.num (.fin (Real.exp 1 ^ 2))))).map fun z => !(z && !f.isGrowing)) = .ok l' ∧
      List.Forall₂ (fun q s => SameFacula q (faculaIn s)) l'
        (m.filter fun f => !(decide (f.radius ≤ .fin (f.rMax / Real.exp 1 ^ 2)) && !f.isGrowing)) := by
  induction h with
  | nil => exact ⟨[], rfl, .nil⟩
  | @cons q s l m h1 _ ih =>
    obtain ⟨l', e1, e2⟩ := ih
    have e0 : (faculaIn s).rMax.div (.num (.fin (Real.exp 1 ^ 2))) = unit (.fin (s.rMax / Real.exp 1 ^ 2)) .len := by
      rw [unit_num, show (faculaIn s).rMax = unit (.fin s.rMax) .len from rfl, unit_div, sub_zero, Fl.fin_div (by positivity)]
    obtain ⟨b, e3, e4⟩ := outcome_ok (same_le h1.radius (same_div h1.rMax (same_num (x := .fin (Real.exp 1 ^ 2)) rfl)))
      (by rw [e0]; exact unit_le _ _ _)
    subst e4
    have hk : keepM (q :: l) (fun f : FaculaQ => (f.radius.le (f.rMax.div (.num (.fin (Real.exp 1 ^ 2))))).map fun z => !(z && !f.isGrowing)) =
        .ok (if !(decide (s.radius ≤ .fin (s.rMax / Real.exp 1 ^ 2)) && !s.isGrowing) then q :: l' else l') := by
      rw [keepM, e1, e3, h1.isGrowing]; rfl
    refine ⟨_, hk, ?_⟩
    rw [List.filter_cons]
    split_ifs
    · exact .cons h1 e2
    · exact e2

theorem slope_dim : Dim.temp - Dim.len + Dim.len = Dim.temp := by abel
theorem slope_dim' : Dim.len + (Dim.temp - Dim.len) = Dim.temp := by abel

theorem floorDteff_in (f : Facula) : (faculaIn f).floorDteff = .ok (unit f.floorDteff .temp) := by
  simp only [FaculaQ.floorDteff, faculaIn, unit_sub, Except.bind, unit_mul, slope_dim', unit_add, unit_into, Facula.floorDteff]

theorem wallDteff_in (f : Facula) : (faculaIn f).wallDteff = .ok (unit f.wallDteff .temp) := by
  simp only [FaculaQ.wallDteff, faculaIn, Except.bind, unit_mul, slope_dim, unit_add, unit_into, Facula.wallDteff]

theorem facExpected_in (G : FaculaGenerator) (t R : ℝ) :
    (facGenIn G).nExpected (.days (.fin t)) (unit (.fin R) .len) = .ok (G.nExpected t R) := by
  unfold FaculaGeneratorQ.nExpected FaculaGenerator.nExpected FaculaGenerator.meanArea
  simp only [unit_num, unit_days, facGenIn, unit_mul, unit_div, Fl.fin_mul]
  rw [show (0 : Dim) + (Dim.len + Dim.len) - (0 + (Dim.len + Dim.len)) + Dim.time - (0 + Dim.time) = 0 by abel, unit_toValue,
    ← pow_two, ← pow_two]

theorem spotAngular_in (s : StarSpot) (R : ℝ) : ∃ q, (spotIn s).angularRadius (unit (.fin R) .len) = .ok q ∧
    SameQty q (unit (s.angularRadius R) .angle) := by
  have h1 : Dim.area = Dim.len + Dim.len := by unfold Dim.area Dim.len; rw [← Pi.single_add]; norm_num
  have e : (Qty.num (.fin 1)).sub ((spotIn s).area.div ((Qty.num (.fin (2 * π))).mul ((unit (.fin R) .len).mul (unit (.fin R) .len)))) =
      .ok (unit (.fin 1 - s.area / .fin (2 * π * R ^ 2)) 0) := by
    simp only [unit_num, spotIn, unit_mul, unit_div, Fl.fin_mul]
    rw [h1, zero_add, sub_self, unit_sub, pow_two]
  unfold SpotQ.angularRadius
  rw [e]
  simp only [Except.bind, Qty.arccos, unit_toValue, Except.map]
  have hs : (0 : ℝ) < π / 180 := by positivity
  have e2 : SameQty (unit (s.angularRadius R) .angle) (unit (s.angularRadius R) .angle) := unit_same _ _
  have e3 := same_toValue e2 hs one_pos .angle
  rw [unit_toValue] at e3
  obtain ⟨v, e4, e5⟩ := outcome_ok e3 rfl
  refine ⟨⟨v, π / 180, .angle⟩, ?_, rfl, hs, one_pos, ?_⟩
  · change Qty.into (unit (s.angularRadius R) .angle) _ _ = _
    rw [Qty.into, e4]; rfl
  · exact e5

/-- **C126** The rest of the model computes with numbers in kilometres, days and kelvin.  Spots: whatever the units, the methods do on
quantities what the model does on those numbers, and raise nothing. -/
theorem C126_spots :
    (∀ (q : SpotQ) (s : StarSpot), SameSpot q (spotIn s) →
      (∀ R r, SameQty r (unit (.fin R) .len) → ∃ a, q.angularRadius r = .ok a ∧ SameQty a (unit (s.angularRadius R) .angle)) ∧
      ∀ t x, SameQty x (.days (.fin t)) → ∃ q', q.age x = .ok q' ∧ SameSpot q' (spotIn (s.age t))) ∧
    (∀ (l : List SpotQ) (c : SpotCollection), List.Forall₂ (fun q s => SameSpot q (spotIn s)) l c.spots → ∀ t x, SameQty x (.days (.fin t)) →
      ∃ l', SpotQ.ageAll l x = .ok l' ∧ List.Forall₂ (fun q s => SameSpot q (spotIn s)) l' (c.age t).spots) ∧
    ∀ (Q : SpotGeneratorQ) (G : SpotGenerator), SameSpotGen Q (spotGenIn G) →
      (∃ a, Q.meanLifetime = .ok a ∧ SameQty a (unit G.meanLifetime .time)) ∧ (∃ a, Q.meanArea = .ok a ∧ SameQty a (unit G.meanArea .area)) ∧
      (∀ t R x r, SameQty x (.days (.fin t)) → SameQty r (unit (.fin R) .len) → Q.nExpected x r = .ok (G.nExpected t R)) ∧
      ∀ n d l, 0 < G.distAreaMean → G.generate n d = .ok l → ∀ i : Fin n, ∃ s q, l[(i : ℕ)]? = some s ∧ Q.newSpot (d.z i) = .ok q ∧
        SameSpot q (spotIn s) := by
  refine ⟨fun q s h => ⟨fun R r hr => ?_, fun t x hx => ?_⟩, fun l c h t x hx => ?_, fun Q G h => ⟨?_, ?_, fun t R x r hx hr => ?_,
    fun n d l hG hl i => ?_⟩⟩
  · obtain ⟨a, e1, e2⟩ := spotAngular_in s R
    obtain ⟨b, e3, e4⟩ := outcome_ok (same_angularRadius h hr) e1
    exact ⟨b, e3, sameQty_trans e4 e2⟩
  · obtain ⟨a, e1, e2⟩ := age_in s t
    obtain ⟨b, e3, e4⟩ := outcome_ok (same_age h hx) e1
    exact ⟨b, e3, sameSpot_trans e4 e2⟩
  · obtain ⟨a, e1, e2⟩ := ages_in t l _ h x hx
    obtain ⟨b, e3, e4⟩ := clean_in a _ e2
    exact ⟨b, by unfold SpotQ.ageAll; rw [e1]; exact e3, e4⟩
  · exact outcome_ok (same_meanLifetime h) (meanLifetime_in G)
  · exact outcome_ok (same_meanArea h) (meanArea_in G)
  · obtain ⟨b, e3, e4⟩ := outcome_ok (same_nExpected h hx hr) (nExpected_in G t R)
    rw [e3, e4]
  · obtain ⟨s, q, e1, e2, e3⟩ := newSpot_in G hG n d l hl i
    obtain ⟨b, e4, e5⟩ := outcome_ok (same_newSpot h (d.z i)) e2
    exact ⟨s, b, e1, e4, sameSpot_trans e5 e3⟩

/-- **C126** Faculae. -/
theorem C126_faculae :
    (∀ (q : FaculaQ) (f : Facula), SameFacula q (faculaIn f) →
      (∃ a, q.floorDteff = .ok a ∧ SameQty a (unit f.floorDteff .temp)) ∧ (∃ a, q.wallDteff = .ok a ∧ SameQty a (unit f.wallDteff .temp)) ∧
      ∀ t x, SameQty x (.days (.fin t)) → ∃ q', q.age x = .ok q' ∧ SameFacula q' (faculaIn (f.age t))) ∧
    (∀ (l : List FaculaQ) (c : FaculaCollection), List.Forall₂ (fun q s => SameFacula q (faculaIn s)) l c.faculae → ∀ t x,
      SameQty x (.days (.fin t)) →
      ∃ l', FaculaQ.ageAll l x = .ok l' ∧ List.Forall₂ (fun q s => SameFacula q (faculaIn s)) l' (c.age t).faculae) ∧
    ∀ (Q : FaculaGeneratorQ) (G : FaculaGenerator), SameFacGen Q (facGenIn G) →
      ∀ t R x r, SameQty x (.days (.fin t)) → SameQty r (unit (.fin R) .len) → Q.nExpected x r = .ok (G.nExpected t R) := by
  refine ⟨fun q f h => ⟨?_, ?_, fun t x hx => ?_⟩, fun l c h t x hx => ?_, fun Q G h t R x r hx hr => ?_⟩
  · exact outcome_ok (same_floorDteff h) (floorDteff_in f)
  · exact outcome_ok (same_wallDteff h) (wallDteff_in f)
  · exact outcome_ok (same_facAge h hx) (facAge_in f t)
  · obtain ⟨a, e1, e2⟩ := facAges_in t l _ h x hx
    obtain ⟨b, e3, e4⟩ := facClean_in a _ e2
    exact ⟨b, by unfold FaculaQ.ageAll; rw [e1]; exact e3, e4⟩
  · obtain ⟨b, e3, e4⟩ := outcome_ok (same_facExpected h hx hr) (facExpected_in G t R)
    rw [e3, e4]

/-! ### Spots of the default generator cannot be aged -/

/-- A growing spot whose growth rate is not a rate cannot be aged. -/
theorem age_wrong_unit (s : SpotQ) (hg : s.isGrowing = true) (hd : s.growthRate.dim ≠ -Dim.time) (x : Qty) :
    s.age x = .error .unitConversion := by
  have h : (s.growthRate.mul (.days (.fin 1))).dim ≠ 0 := by
    intro e
    exact hd (eq_neg_of_add_eq_zero_left e)
  unfold SpotQ.age
  rw [if_pos hg, Qty.into, Qty.toValue, if_neg h]
  rfl


namespace Spec

/-- The attributes of a spot have the dimensions they should. -/
structure RightDims (s : SpotQ) : Prop where
  areaMax : s.areaMax.dim = .area
  area : s.area.dim = .area
  decayRate : s.decayRate.dim = .area - .time
  growthRate : s.growthRate.dim = -.time

/-- The attributes of a generator have the dimensions they should. -/
structure RightGenDims (s : SpotGeneratorQ) : Prop where
  distAreaMean : s.distAreaMean.dim = .area
  growthRate : s.growthRate.dim = -.time
  decayRate : s.decayRate.dim = .area - .time
  initArea : s.initArea.dim = .area

end Spec

theorem toValue_ok {a : Qty} {d : Dim} (h : a.dim = d) (s : ℝ) : a.toValue s d = .ok (a.val * .fin (a.scale / s)) := by
  unfold Qty.toValue; rw [if_pos h]

theorem into_ok {a : Qty} {d : Dim} (h : a.dim = d) (s : ℝ) : ∃ b, a.into s d = .ok b ∧ b.dim = d := by
  unfold Qty.into; rw [toValue_ok h]; exact ⟨_, rfl, rfl⟩

theorem add_ok {a b : Qty} (h : b.dim = a.dim) : ∃ c, a.add b = .ok c ∧ c.dim = a.dim := by
  unfold Qty.add; rw [toValue_ok h]; exact ⟨_, rfl, rfl⟩

theorem sub_ok {a b : Qty} (h : b.dim = a.dim) : ∃ c, a.sub b = .ok c ∧ c.dim = a.dim := by
  unfold Qty.sub; rw [toValue_ok h]; exact ⟨_, rfl, rfl⟩

theorem gt_ok {a b : Qty} (h : b.dim = a.dim) : ∃ c, a.gt b = .ok c := by
  unfold Qty.gt; rw [toValue_ok h]; exact ⟨_, rfl⟩

theorem le_ok {a b : Qty} (h : b.dim = a.dim) : ∃ c, a.le b = .ok c := by
  unfold Qty.le; rw [toValue_ok h]; exact ⟨_, rfl⟩

theorem log_ok {a : Qty} (h : a.dim = 0) : ∃ c, a.log = .ok c ∧ c.dim = 0 := by
  unfold Qty.log; rw [toValue_ok h]; exact ⟨_, rfl, rfl⟩

theorem exp_ok {a : Qty} (h : a.dim = 0) : ∃ c, a.exp = .ok c ∧ c.dim = 0 := by
  unfold Qty.exp; rw [toValue_ok h]; exact ⟨_, rfl, rfl⟩

theorem decay_ok {s : SpotQ} (h : RightDims s) {a d : Qty} (ha : a.dim = .area) (hd : d.dim = .area) :
    ∃ q, s.decay a d = .ok q ∧ RightDims q := by
  obtain ⟨b, e1⟩ := gt_ok (a := d) (b := s.areaMax) (h.areaMax.trans hd.symm)
  obtain ⟨c, e2, e3⟩ := sub_ok (a := a) (b := d) (hd.trans ha.symm)
  unfold SpotQ.decay
  rw [e1, e2]
  cases b
  · exact ⟨_, rfl, h.areaMax, e3.trans ha, h.decayRate, h.growthRate⟩
  · exact ⟨_, rfl, h.areaMax, rfl, h.decayRate, h.growthRate⟩

theorem age_ok {s : SpotQ} (h : RightDims s) {x : Qty} (hx : x.dim = .time) : ∃ q, s.age x = .ok q ∧ RightDims q := by
  unfold SpotQ.age
  by_cases hg : s.isGrowing = true
  · rw [if_pos hg]
    obtain ⟨g, e1, d1⟩ := into_ok (a := s.growthRate.mul (.days (.fin 1))) (d := 0)
      (by change s.growthRate.dim + Dim.time = 0; rw [h.growthRate, neg_add_cancel]) 1
    obtain ⟨g1, e2, d2⟩ := add_ok (a := g) (b := .num (.fin 1)) d1.symm
    obtain ⟨tau, e3, d3⟩ := log_ok (d2.trans d1)
    rw [e1]
    simp only [Except.bind]
    rw [e2]
    simp only []
    rw [e3]
    simp only []
    obtain ⟨m, e4, d4⟩ : ∃ m, (if tau.val = .fin 0 then Except.ok (ε := PyErr) (Qty.days .pinf)
        else (s.areaMax.div s.area).log.map fun l => (l.div tau).mul (.days (.fin 1))) = .ok m ∧ m.dim = .time := by
      by_cases h0 : tau.val = .fin 0
      · rw [if_pos h0]; exact ⟨_, rfl, rfl⟩
      · rw [if_neg h0]
        obtain ⟨l, e5, d5⟩ := log_ok (a := s.areaMax.div s.area)
          (by change s.areaMax.dim - s.area.dim = 0; rw [h.areaMax, h.area, sub_self])
        rw [e5]
        exact ⟨_, rfl, by change l.dim - tau.dim + Dim.time = Dim.time; rw [d5, d3, sub_zero, zero_add]⟩
    rw [e4]
    simp only []
    obtain ⟨b, e6⟩ := gt_ok (a := m) (b := x) (hx.trans d4.symm)
    rw [e6]
    cases b
    · simp only [Bool.false_eq_true, if_false]
      obtain ⟨d, e7, d7⟩ := sub_ok (a := x) (b := m) (d4.trans hx.symm)
      rw [e7]
      exact decay_ok h h.areaMax (by change d.dim + s.decayRate.dim = Dim.area; rw [d7, hx, h.decayRate, add_sub_cancel])
    · simp only [if_true]
      obtain ⟨e, e8, d8⟩ := exp_ok (a := (tau.mul x).div (.days (.fin 1)))
        (by change tau.dim + x.dim - Dim.time = 0; rw [d3, hx, zero_add, sub_self])
      rw [e8]
      exact ⟨_, rfl, h.areaMax, by change s.area.dim + e.dim = Dim.area; rw [h.area, d8, add_zero], h.decayRate, h.growthRate⟩
  · rw [if_neg hg]
    exact decay_ok h h.area (by change x.dim + s.decayRate.dim = Dim.area; rw [hx, h.decayRate, add_sub_cancel])

theorem keep_ok {l : List SpotQ} (hl : ∀ s ∈ l, RightDims s) :
    ∃ l', keepM l (fun s : SpotQ => (s.area.le (.msh (.fin 0))).map fun z => !(z && !s.isGrowing)) = .ok l' ∧ ∀ s ∈ l', RightDims s := by
  induction l with
  | nil => exact ⟨[], rfl, by simp⟩
  | cons q l ih =>
    obtain ⟨l', e1, e2⟩ := ih fun s hs => hl s (List.mem_cons_of_mem _ hs)
    obtain ⟨b, e3⟩ := le_ok (a := q.area) (b := .msh (.fin 0)) ((hl q (by simp)).area.symm)
    refine ⟨if !(b && !q.isGrowing) then q :: l' else l', by rw [keepM, e1, e3]; rfl, fun s hs => ?_⟩
    split_ifs at hs
    · rcases List.mem_cons.mp hs with rfl | hs
      · exact hl _ (by simp)
      · exact e2 s hs
    · exact e2 s hs

theorem ageAll_ok {l : List SpotQ} (hl : ∀ s ∈ l, RightDims s) {x : Qty} (hx : x.dim = .time) :
    ∃ l', SpotQ.ageAll l x = .ok l' ∧ ∀ s ∈ l', RightDims s := by
  have hm : ∃ l', (l.mapM fun s : SpotQ => s.age x) = .ok l' ∧ ∀ s ∈ l', RightDims s := by
    induction l with
    | nil => exact ⟨[], rfl, by simp⟩
    | cons q l ih =>
      obtain ⟨l', e1, e2⟩ := ih fun s hs => hl s (List.mem_cons_of_mem _ hs)
      obtain ⟨r, e3, e4⟩ := age_ok (hl q (by simp)) hx
      refine ⟨r :: l', by rw [List.mapM_cons, e3, e1]; rfl, fun s hs => ?_⟩
      rcases List.mem_cons.mp hs with rfl | hs
      · exact e4
      · exact e2 s hs
  obtain ⟨a, e1, e2⟩ := hm
  obtain ⟨b, e3, e4⟩ := keep_ok e2
  exact ⟨b, by unfold SpotQ.ageAll; rw [e1]; exact e3, e4⟩

theorem newSpot_ok {G : SpotGeneratorQ} (h : G.distAreaMean.dim = .area) (z : ℝ) : ∃ q, G.newSpot z = .ok q ∧
    q.areaMax.dim = .area ∧ q.area = G.initArea ∧ q.decayRate = G.decayRate ∧ q.growthRate = G.growthRate ∧ q.isGrowing = true := by
  obtain ⟨m, e1, -⟩ := log_ok (a := G.distAreaMean.div (.msh (.fin 1))) (by change G.distAreaMean.dim - Dim.area = 0; rw [h, sub_self])
  unfold SpotGeneratorQ.newSpot
  rw [e1]
  exact ⟨_, rfl, rfl, rfl, rfl, rfl, rfl⟩

theorem meanLifetime_ok {G : SpotGeneratorQ} (h : RightGenDims G) : ∃ t, G.meanLifetime = .ok t ∧ t.dim = .time := by
  unfold SpotGeneratorQ.meanLifetime
  by_cases hs : G.isStatic = true
  · rw [if_pos hs]; exact ⟨_, rfl, rfl⟩
  · rw [if_neg hs]
    obtain ⟨l, e1, d1⟩ := log_ok (a := G.initArea.div G.distAreaMean)
      (by change G.initArea.dim - G.distAreaMean.dim = 0; rw [h.initArea, h.distAreaMean, sub_self])
    have d0 : (G.distAreaMean.div G.decayRate).dim = .time := by
      change G.distAreaMean.dim - G.decayRate.dim = Dim.time
      rw [h.distAreaMean, h.decayRate]; abel
    obtain ⟨t, e2, d2⟩ := sub_ok (a := G.distAreaMean.div G.decayRate) (b := l.div G.growthRate) (by
      rw [d0]
      change l.dim - G.growthRate.dim = Dim.time
      rw [d1, h.growthRate]; abel)
    rw [e1]
    simp only [Except.bind]
    rw [e2]
    exact into_ok (d2.trans d0) 1

/-- A spot of a static generator (one whose spots do not decay). -/
theorem static_ok {G : SpotGeneratorQ} (h1 : G.distAreaMean.dim = .area) (h2 : G.initArea.dim = .area) (hs : G.isStatic = true) (z x : ℝ) :
    ∃ q, G.matureStep z x = .ok q ∧ q.areaMax.dim = .area ∧ q.area.dim = .area ∧ q.decayRate = G.decayRate ∧
      q.growthRate = G.growthRate ∧ q.isGrowing = true := by
  obtain ⟨s, e1, d1, -, d3, d4, d5⟩ := newSpot_ok h1 z
  obtain ⟨r, e2, d6⟩ := sub_ok (a := s.areaMax) (b := G.initArea) (h2.trans d1.symm)
  have d7 : ((Qty.num (.fin x)).mul r).dim = .area := by
    change (0 : Dim) + r.dim = _
    rw [zero_add, d6, d1]
  obtain ⟨a, e3, d8⟩ := add_ok (a := (Qty.num (.fin x)).mul r) (b := G.initArea) (h2.trans d7.symm)
  unfold SpotGeneratorQ.matureStep
  rw [e1]
  simp only [Except.bind, hs, if_true]
  rw [e2]
  simp only []
  rw [e3]
  exact ⟨_, rfl, d1, d8.trans d7, d3, d4, d5⟩

theorem matureStep_dims {G : SpotGeneratorQ} (h : RightGenDims G) (z x : ℝ) : ∃ q, G.matureStep z x = .ok q ∧ RightDims q := by
  by_cases hs : G.isStatic = true
  · obtain ⟨q, e, d1, d2, d3, d4, -⟩ := static_ok h.distAreaMean h.initArea hs z x
    exact ⟨q, e, d1, d2, d3 ▸ h.decayRate, d4 ▸ h.growthRate⟩
  · obtain ⟨s, e1, d1, d2, d3, d4, d5⟩ := newSpot_ok h.distAreaMean z
    obtain ⟨t, e2, d6⟩ := meanLifetime_ok h
    obtain ⟨q, e3, d7⟩ := age_ok (s := s) ⟨d1, d2 ▸ h.initArea, d3 ▸ h.decayRate, d4 ▸ h.growthRate⟩ (x := (Qty.num (.fin x)).mul t)
      (by change (0 : Dim) + t.dim = _; rw [zero_add, d6])
    refine ⟨q, ?_, d7⟩
    unfold SpotGeneratorQ.matureStep
    rw [e1]
    simp only [Except.bind, hs, Bool.false_eq_true, if_false]
    rw [e2]
    exact e3

theorem angular_ok {s : SpotQ} (h : s.area.dim = .area) {r : Qty} (hr : r.dim = .len) :
    ∃ a, s.angularRadius r = .ok a ∧ a.dim = .angle := by
  have h1 : Dim.area = Dim.len + Dim.len := by unfold Dim.area Dim.len; rw [← Pi.single_add]; norm_num
  obtain ⟨c, e1, d1⟩ := sub_ok (a := .num (.fin 1)) (b := s.area.div ((Qty.num (.fin (2 * π))).mul (r.mul r))) (by
    change s.area.dim - ((0 : Dim) + (r.dim + r.dim)) = 0
    rw [h, hr, h1]; abel)
  unfold SpotQ.angularRadius
  rw [e1]
  simp only [Except.bind]
  unfold Qty.arccos
  rw [toValue_ok (show c.dim = 0 from d1)]
  exact into_ok rfl _

/-- The loop of `generate_mature_spots` for spots with an invariant `I`: it returns spots with the invariant, at least one if the
target is positive. -/
theorem loop_inv {G : SpotGeneratorQ} (I : SpotQ → Prop) (hI : ∀ z x, ∃ q, G.matureStep z x = .ok q ∧ I q)
    (ha : ∀ q, I q → q.area.dim = .area) {g r : Qty} (hg : g.dim = .angle + .angle) (hr : r.dim = .len) (draws : ℕ → ℝ × ℝ) :
    ∀ (fuel k : ℕ) (o : Qty) (l : List SpotQ) (y : Py (List SpotQ)), o.dim = .angle + .angle → (∀ s ∈ l, I s) →
      G.matureLoop g r draws fuel k o l = some y → ∃ l', y = .ok l' ∧ (∀ s ∈ l', I s) ∧ l <+: l' ∧ (g.gt o = .ok true → l' ≠ l) := by
  intro fuel
  induction fuel with
  | zero =>
    intro k o l y ho hl hy
    obtain ⟨b, e⟩ := gt_ok (a := g) (b := o) (ho.trans hg.symm)
    unfold SpotGeneratorQ.matureLoop at hy
    rw [e] at hy ⊢
    cases b
    · obtain rfl := Option.some.inj hy
      exact ⟨l, rfl, hl, List.prefix_rfl, by simp⟩
    · cases hy
  | succ n ih =>
    intro k o l y ho hl hy
    obtain ⟨b, e⟩ := gt_ok (a := g) (b := o) (ho.trans hg.symm)
    unfold SpotGeneratorQ.matureLoop at hy
    rw [e] at hy ⊢
    cases b
    · obtain rfl := Option.some.inj hy
      exact ⟨l, rfl, hl, List.prefix_rfl, by simp⟩
    · obtain ⟨q, e1, h1⟩ := hI (draws k).1 (draws k).2
      obtain ⟨a, e2, h2⟩ := angular_ok (ha q h1) hr
      obtain ⟨o', e3, h3⟩ := add_ok (a := o) (b := (a.mul a).mul (.num (.fin π))) (by
        change a.dim + a.dim + 0 = _
        rw [h2, ho, add_zero])
      have e4 : ((G.matureStep (draws k).1 (draws k).2).bind fun sp => (sp.angularRadius r).bind fun a =>
          (o.add ((a.mul a).mul (.num (.fin π)))).map fun o => (sp, o)) = .ok (q, o') := by
        rw [e1]
        simp only [Except.bind]
        rw [e2]
        simp only []
        rw [e3]
        rfl
      rw [e4] at hy
      simp only at hy
      obtain ⟨l', h4, h5, h6, -⟩ := ih (k + 1) o' (l ++ [q]) y (h3.trans ho) (by
        intro s hs
        rcases List.mem_append.mp hs with hs | hs
        · exact hl s hs
        · rw [List.mem_singleton.mp hs]; exact h1) hy
      refine ⟨l', h4, h5, (List.prefix_append l [q]).trans h6, fun _ e5 => ?_⟩
      have := h6.length_le
      rw [e5, List.length_append] at this
      simp at this

theorem target_pos {c : ℝ} (hc : 0 < c) {g : Qty} (hg : (Qty.mk (.fin (4 * π * c)) 1 (.angle + .angle)).into ((π / 180) ^ 2) (.angle + .angle) = .ok g) :
    g.dim = .angle + .angle ∧ g.gt ⟨.fin 0, (π / 180) ^ 2, .angle + .angle⟩ = .ok true := by
  unfold Qty.into at hg
  rw [toValue_ok rfl] at hg
  obtain rfl := Except.ok.inj hg
  refine ⟨rfl, ?_⟩
  unfold Qty.gt
  rw [toValue_ok rfl]
  have : 0 < π := pi_pos
  simp only [Except.map, Fl.fin_mul, Fl.fin_lt]
  rw [decide_eq_true (by rw [zero_mul]; positivity)]

/-- What is true of **C127**: with attributes of the right dimensions, in whatever units, spots made by `generate_mature_spots` can be aged
any number of times. -/
theorem C127_aging_partial (G : SpotGeneratorQ) (hG : RightGenDims G) (c : ℝ) (hc : 0 ≤ c) (hc1 : c ≤ 1) (r : Qty) (hr : r.dim = .len)
    (draws : ℕ → ℝ × ℝ) (y : Py (List SpotQ)) (hy : G.maturesTo c r draws y) (ts : List Qty) (ht : ∀ t ∈ ts, t.dim = .time) :
    ∃ l l', y = .ok l ∧ ts.foldlM SpotQ.ageAll l = .ok l' := by
  unfold SpotGeneratorQ.maturesTo at hy
  rw [if_neg (by rintro (h | h) <;> linarith)] at hy
  obtain ⟨g, fuel, e1, e2⟩ := hy
  have hg : g.dim = .angle + .angle := by
    unfold Qty.into at e1
    rw [toValue_ok rfl] at e1
    obtain rfl := Except.ok.inj e1
    rfl
  obtain ⟨l, rfl, h1, -, -⟩ := loop_inv RightDims (matureStep_dims hG) (fun _ h => h.area) hg hr draws fuel 0 _ [] y rfl (by simp) e2
  refine ⟨l, ?_⟩
  clear e2
  induction ts generalizing l with
  | nil => exact ⟨l, rfl, rfl⟩
  | cons t ts ih =>
    obtain ⟨l1, e3, h3⟩ := ageAll_ok h1 (ht t (by simp))
    obtain ⟨l', -, h4⟩ := ih (fun t h => ht t (List.mem_cons_of_mem _ h)) l1 h3
    refine ⟨l', rfl, ?_⟩
    rw [List.foldlM_cons, e3]
    exact h4

theorem off_static : SpotGeneratorQ.off.isStatic = true := by
  unfold SpotGeneratorQ.isStatic Qty.eq
  rw [show SpotGeneratorQ.off.decayRate = (Qty.msh (.fin 0)).div (.days (.fin 1)) from rfl, toValue_ok rfl]
  have := MSH_pos_unit.ne'
  simp [Qty.div, Qty.msh, Qty.days, Fl.div_one, Fl.feq, this]

/-- **C127** is false of the code.  `SpotGenerator.off()`, the generator of every star made without one, has a growth rate in days instead of
per day.  Whatever spots its `generate_mature_spots` returns for a positive coverage, aging them raises `UnitConversionError`, for any time. -/
theorem C127_counterexample (c : ℝ) (hc : 0 < c) (hc1 : c ≤ 1) (r : Qty) (hr : r.dim = .len) (draws : ℕ → ℝ × ℝ)
    (y : Py (List SpotQ)) (hy : SpotGeneratorQ.off.maturesTo c r draws y) :
    ∃ l, y = .ok l ∧ l ≠ [] ∧ ∀ t, SpotQ.ageAll l t = .error .unitConversion := by
  unfold SpotGeneratorQ.maturesTo at hy
  rw [if_neg (by rintro (h | h) <;> linarith)] at hy
  obtain ⟨g, fuel, e1, e2⟩ := hy
  obtain ⟨hg, hgt⟩ := target_pos hc e1
  obtain ⟨l, rfl, h1, -, h3⟩ := loop_inv (G := SpotGeneratorQ.off)
    (fun s => s.area.dim = .area ∧ s.isGrowing = true ∧ s.growthRate = .days (.fin 0))
    (fun z x => by
      obtain ⟨q, e, -, d2, -, d4, d5⟩ := static_ok (G := SpotGeneratorQ.off) rfl rfl off_static z x
      exact ⟨q, e, d2, d5, d4⟩) (fun _ h => h.1) hg hr draws fuel 0 _ [] y rfl (by simp) e2
  have hne := h3 hgt
  refine ⟨l, rfl, hne, fun t => ?_⟩
  obtain ⟨q, l', rfl⟩ := List.exists_cons_of_ne_nil hne
  have hq := h1 q (by simp)
  have e4 := age_wrong_unit q hq.2.1 (by
    rw [hq.2.2]
    intro h
    have := congrFun h .time
    simp [Qty.days, Dim.time] at this
    norm_num at this) t
  unfold SpotQ.ageAll
  rw [List.mapM_cons, e4]
  rfl


/-- Non-trivial instance of C125: a spot given in MSH and hours, and the same spot in km² and days; a growth rate of 0.5 per hour is one of
12 per day, and 6 hours are a quarter of a day. -/
example : let s : SpotQ := ⟨.msh (.fin 40), .msh (.fin 10), ⟨.fin 2, MSH * 24, .area - .time⟩, ⟨.fin 0.5, 24, -.time⟩, true⟩; let t : SpotQ := ⟨unit (.fin (40 * MSH)) .area, unit (.fin (10 * MSH)) .area, unit (.fin (48 * MSH)) (.area - .time), unit (.fin 12) (-.time), true⟩; SameOutcome SameSpot (s.age ⟨.fin 6, 1 / 24, .time⟩) (t.age (.days (.fin 0.25))) := by
  intro s t
  have hM := MSH_pos_unit
  have h : SameSpot s t := by
    refine ⟨⟨rfl, hM, one_pos, ?_⟩, ⟨rfl, hM, one_pos, ?_⟩, ⟨rfl, ?_, one_pos, ?_⟩, ⟨rfl, ?_, one_pos, ?_⟩, rfl⟩
    · simp only [s, t, unit, Qty.msh, Fl.fin_mul, Fl.fin_inj]; ring
    · simp only [s, t, unit, Qty.msh, Fl.fin_mul, Fl.fin_inj]; ring
    · simp only [s]; positivity
    · simp only [s, t, unit, Fl.fin_mul, Fl.fin_inj]; ring
    · simp only [s]; norm_num
    · simp only [s, t, unit, Fl.fin_mul, Fl.fin_inj]; norm_num
  have ht : SameQty ⟨.fin 6, 1 / 24, .time⟩ (.days (.fin 0.25)) :=
    ⟨rfl, by norm_num, one_pos, by simp only [Qty.days, Fl.fin_mul, Fl.fin_inj]; norm_num⟩
  exact (C125_spots.1 s t h).2.2 _ _ ht

/-- Non-trivial instance of C125: a facula with its radius in metres. -/
example (f : FaculaQ) (hf : SameFacula f f) (x : ℝ) (t : Qty) (ht : 0 < t.scale) :
    SameOutcome SameFacula ({ f with radius := ⟨.fin (1000 * x), 1 / 1000, .len⟩ }.age t) ({ f with radius := ⟨.fin x, 1, .len⟩ }.age t) := by
  have h : SameQty ⟨.fin (1000 * x), 1 / 1000, .len⟩ ⟨.fin x, 1, .len⟩ :=
    ⟨rfl, by norm_num, one_pos, by simp only [Fl.fin_mul, Fl.fin_inj]; ring⟩
  have h2 : SameFacula { f with radius := ⟨.fin (1000 * x), 1 / 1000, .len⟩ } { f with radius := ⟨.fin x, 1, .len⟩ } :=
    ⟨hf.rMax, h, hf.depth, hf.lifetime, hf.floorSlope, hf.floorMinRad, hf.floorBase, hf.wallSlope, hf.wallIntercept, rfl⟩
  exact (C125_faculae.1 _ _ h2).2.2.2 _ _ ⟨rfl, ht, ht, rfl⟩

/-- Non-trivial instance of C126: aging by 12 hours is aging by half a day. -/
example (s : StarSpot) : ∃ q, (spotIn s).age ⟨.fin 12, 1 / 24, .time⟩ = .ok q ∧ SameSpot q (spotIn (s.age (1 / 2))) :=
  (C126_spots.1 _ s ⟨unit_same _ _, unit_same _ _, unit_same _ _, unit_same _ _, rfl⟩).2 _ _
    ⟨rfl, by norm_num, one_pos, by simp only [Qty.days, Fl.fin_mul, Fl.fin_inj]; norm_num⟩

/-- Non-trivial instance of C126: the number of faculae expected in a year of 365.25 days. -/
example (G : FaculaGenerator) (R : ℝ) :
    (facGenIn G).nExpected ⟨.fin 1, 365.25, .time⟩ (unit (.fin R) .len) = .ok (G.nExpected 365.25 R) :=
  C126_faculae.2.2 _ G ⟨unit_same _ _, unit_same _ _, rfl⟩ _ _ _ _ ⟨rfl, by norm_num, one_pos, by simp only [Qty.days, Fl.fin_mul, Fl.fin_inj]; norm_num⟩
    (unit_same _ _)

/-- The first mature spot of the default generator, if the random number is zero. -/
theorem off_step (z : ℝ) : ∃ q, SpotGeneratorQ.off.matureStep z 0 = .ok q ∧ q.area = .msh (.fin 10) := by
  obtain ⟨s, e1, -, -, -, -, -⟩ := newSpot_ok (G := SpotGeneratorQ.off) rfl z
  have hM := MSH_pos_unit
  obtain ⟨a, ha⟩ : ∃ a, s.areaMax = .msh (.fin a) := by
    unfold SpotGeneratorQ.newSpot at e1
    have : SpotGeneratorQ.off.distAreaMean.div (.msh (.fin 1)) = ⟨.fin 10, 1, 0⟩ := by
      simp [SpotGeneratorQ.off, Qty.div, Qty.msh, Fl.div_one, hM.ne']
    rw [this, Qty.log, toValue_ok rfl] at e1
    obtain rfl := Except.ok.inj e1
    have h10 : Fl.log (.fin 10 * .fin (1 / 1)) = .fin (Real.log 10) := by
      rw [Fl.fin_mul, _root_.div_one, _root_.mul_one]
      unfold Fl.log
      simp only
      rw [if_neg (by norm_num), if_neg (by norm_num)]
    simp only [h10]
    exact ⟨_, rfl⟩
  refine ⟨{ s with area := .msh (.fin 10) }, ?_, rfl⟩
  unfold SpotGeneratorQ.matureStep
  rw [e1]
  simp only [Except.bind, off_static, if_true, ha]
  simp only [SpotGeneratorQ.off, Qty.msh, Qty.num, Qty.sub, Qty.add, Qty.mul]
  rw [toValue_ok rfl]
  simp only [Except.map]
  rw [toValue_ok (by simp)]
  simp [hM.ne']

/-- Non-trivial instance of C127 and its partial version: a star of the radius of the sun made with the default generator gets a spot if asked
for a coverage of 5e-6; it cannot be aged. -/
example : ∃ l, SpotGeneratorQ.off.maturesTo 5e-6 (unit (.fin 695700) .len) (fun _ => (0, 0)) (.ok l) ∧
    ∀ t, SpotQ.ageAll l t = .error .unitConversion := by
  suffices h : ∃ y, SpotGeneratorQ.off.maturesTo 5e-6 (unit (.fin 695700) .len) (fun _ => (0, 0)) y by
    obtain ⟨y, hy⟩ := h
    obtain ⟨l, rfl, -, h⟩ := C127_counterexample 5e-6 (by norm_num) (by norm_num) _ rfl _ y hy
    exact ⟨l, hy, h⟩
  obtain ⟨q, e1, e2⟩ := off_step 0
  have hM := MSH_pos_unit
  -- its angular radius
  obtain ⟨a, e3, e4⟩ := angular_ok (s := q) (r := unit (.fin 695700) .len) (by rw [e2]; rfl) rfl
  let sp : StarSpot := StarSpot.new 0 0 0 (.fin (10 * MSH)) 0 0 (.fin 1) true 0 0 (.rect 3 4)
  have hq : SameQty q.area (spotIn sp).area := by
    rw [e2]
    exact ⟨rfl, hM, one_pos, by simp [Qty.msh, spotIn, unit, sp, StarSpot.new]⟩
  obtain ⟨a', e5, e6⟩ := spotAngular_in sp 695700
  have h7 : SameOutcome SameQty (q.angularRadius (unit (.fin 695700) .len)) ((spotIn sp).angularRadius (unit (.fin 695700) .len)) :=
    same_bind (same_sub (same_num rfl) (same_div hq (same_mul (same_num rfl) (same_mul (unit_same _ _) (unit_same _ _))))) fun _ _ h1 =>
      same_bind (same_arccos h1) fun _ _ h2 => same_into h2 (by positivity) _
  rw [e3, e5] at h7
  have h8 : SameQty a (unit (sp.angularRadius 695700) .angle) := sameQty_trans h7 e6
  have hcos : sp.angularRadius 695700 = .fin (Real.arccos (1 - 1e-5)) := by
    unfold StarSpot.angularRadius
    have : (Fl.fin 1 - sp.area / .fin (2 * π * 695700 ^ 2)) = .fin (1 - 1e-5) := by
      have hp : (0 : ℝ) < 2 * π * 695700 ^ 2 := by positivity
      rw [show sp.area = .fin (10 * MSH) from rfl, Fl.fin_div hp.ne', Fl.fin_sub, Fl.fin_inj]
      unfold MSH
      have := pi_pos.ne'
      field_simp
      norm_num
    rw [this]
    unfold Fl.arccos
    simp only
    rw [if_pos (by norm_num)]
  rw [hcos] at h8
  set θ := Real.arccos (1 - 1e-5) with hθ
  have hθ2 : 2e-5 ≤ θ ^ 2 := by
    have := Real.one_sub_sq_div_two_le_cos (x := θ)
    rw [hθ, Real.cos_arccos (by norm_num) (by norm_num)] at this
    rw [← hθ] at this
    linarith
  obtain ⟨o, e9, e10⟩ := add_ok (a := ⟨.fin 0, (π / 180) ^ 2, .angle + .angle⟩) (b := (a.mul a).mul (.num (.fin π))) (by
    change a.dim + a.dim + 0 = _; rw [e4, add_zero])
  -- the counted solid angle
  have hs : (0 : ℝ) < (π / 180) ^ 2 := by positivity
  have h11 : SameQty o (unit (.fin (θ ^ 2 * π)) (.angle + .angle)) := by
    have h12 : SameQty ⟨.fin 0, (π / 180) ^ 2, .angle + .angle⟩ (unit (.fin 0) (.angle + .angle)) :=
      ⟨rfl, hs, one_pos, by simp [unit]⟩
    have h13 := same_add h12 (same_mul (same_mul h8 h8) (same_num (x := .fin π) rfl))
    rw [e9, unit_num, unit_mul, unit_mul, add_zero, unit_add] at h13
    have e : Fl.fin 0 + Fl.fin θ * Fl.fin θ * Fl.fin π = .fin (θ ^ 2 * π) := by
      simp only [Fl.fin_mul, Fl.fin_add, Fl.fin_inj]; ring
    rw [e] at h13
    exact h13
  obtain ⟨g, e14, h15⟩ : ∃ g, (Qty.mk (.fin (4 * π * 5e-6)) 1 (.angle + .angle)).into ((π / 180) ^ 2) (.angle + .angle) = .ok g ∧
      SameQty g (unit (.fin (4 * π * 5e-6)) (.angle + .angle)) := by
    unfold Qty.into
    rw [toValue_ok rfl]
    exact ⟨_, rfl, rfl, hs, one_pos, Fl.conv_scale _ one_pos hs⟩
  have h16 : g.gt ⟨.fin 0, (π / 180) ^ 2, .angle + .angle⟩ = .ok true := (target_pos (by norm_num) e14).2
  have h17 : g.gt o = .ok false := by
    have := same_gt h15 h11
    rw [unit_gt, decide_eq_false (by rw [Fl.fin_lt]; have := pi_pos; nlinarith)] at this
    obtain ⟨b, e, rfl⟩ := outcome_ok this rfl
    exact e
  refine ⟨.ok ([] ++ [q]), ?_⟩
  unfold SpotGeneratorQ.maturesTo
  rw [if_neg (by norm_num)]
  refine ⟨g, 1, e14, ?_⟩
  have e4 : ((SpotGeneratorQ.off.matureStep 0 0).bind fun sp => (sp.angularRadius (unit (.fin 695700) .len)).bind fun a =>
      (Qty.add ⟨.fin 0, (π / 180) ^ 2, .angle + .angle⟩ ((a.mul a).mul (.num (.fin π)))).map fun o => (sp, o)) = .ok (q, o) := by
    rw [e1]
    simp only [Except.bind]
    rw [e3]
    simp only []
    rw [e9]
    rfl
  unfold SpotGeneratorQ.matureLoop
  rw [h16]
  simp only
  rw [e4]
  simp only
  unfold SpotGeneratorQ.matureLoop
  rw [h17]

end Vsm
