import Verif.Model.UnitsFlares
import Verif.Props.Units
import Verif.Props.FlareGen

/-!
# C139, C140: units of flares

What the flare code returns does not depend on the units, and the rest of the model, which computes in days, kilometres, ergs and
kelvin, says the same.  The generator that is switched off has a width of the wrong dimension: once switched on it fails.
-/

noncomputable section
namespace Vsm
open Real Spec

namespace Spec

/-- The same flare, possibly in different units. -/
structure SameFlare (f g : FlareQ) : Prop where
  fwhm : SameQty f.fwhm g.fwhm
  energy : SameQty f.energy g.energy
  lat : SameQty f.lat g.lat
  lon : SameQty f.lon g.lon
  teff : SameQty f.teff g.teff
  tpeak : SameQty f.tpeak g.tpeak

/-- The same flare generator, possibly in different units. -/
structure SameFlareGen (G H : FlareGeneratorQ) : Prop where
  teffMean : SameQty G.teffMean H.teffMean
  teffSigma : SameQty G.teffSigma H.teffSigma
  fwhmMean : SameQty G.fwhmMean H.fwhmMean
  fwhmLogsigma : G.fwhmLogsigma = H.fwhmLogsigma
  alpha : G.alpha = H.alpha
  beta : G.beta = H.beta
  minEnergy : SameQty G.minEnergy H.minEnergy
  clusterSize : G.clusterSize = H.clusterSize

/-- The same array, possibly in different units. -/
structure SameArr (a b : ArrQ) : Prop where
  dim : a.dim = b.dim
  left : 0 < a.scale
  right : 0 < b.scale
  base : List.Forall₂ (fun x y => x * a.scale = y * b.scale) a.vals b.vals

/-- The same flares, and the same numbers of hours remembered with them. -/
structure SameFlares (c d : FlareCollectionQ) : Prop where
  flares : List.Forall₂ SameFlare c.flares d.flares
  peaks : c.peaks = d.peaks
  fwhms : c.fwhms = d.fwhms

end Spec

section
variable {a b a' b' : Qty}

theorem same_toReal (h : SameQty a a') {s t : ℝ} (hs : 0 < s) (ht : 0 < t) (d : Dim) :
    SameOutcome (fun v w : ℝ => v * s = w * t) (a.toReal s d) (a'.toReal t d) := by
  refine same_bind (same_toValue h hs ht d) fun v w e => ?_
  cases v <;> cases w <;> simp only [Fl.nan_mul, Fl.pinf_mul hs, Fl.ninf_mul hs, Fl.pinf_mul ht, Fl.ninf_mul ht, Fl.fin_mul] at e <;>
    first | rfl | exact Fl.fin_inj.mp e | cases e

theorem same_real (h : SameQty a a') {s : ℝ} (hs : 0 < s) (d : Dim) : SameOutcome Eq (a.toReal s d) (a'.toReal s d) :=
  same_bind (same_number h hs d) fun v w e => by subst e; cases v <;> rfl

theorem same_sigma : SameQty .sigma .sigma := same_refl (by norm_num [Qty.sigma])
theorem same_km2 (x : Fl) : SameQty (.km2 x) (.km2 x) := same_refl one_pos
theorem same_kelvin (x : Fl) : SameQty (.kelvin x) (.kelvin x) := same_refl one_pos
theorem same_hours (x : Fl) : SameQty (.hours x) (.hours x) := same_refl (by norm_num [Qty.hours])
theorem same_degrees (x : Fl) : SameQty (.degrees x) (.degrees x) := same_refl (by unfold Qty.degrees; positivity)

end

theorem same_peakArea {f g : FlareQ} (h : SameFlare f g) : SameOutcome SameQty f.peakArea g.peakArea := by
  have hT := same_mul (same_mul (same_mul h.teff h.teff) h.teff) h.teff
  exact same_into (same_mul (same_div (same_div (same_div h.energy same_sigma) hT)
    (same_mul (same_mul (same_num rfl) (same_km2 _)) h.fwhm)) (same_km2 _)) one_pos _

theorem same_areacurve {f g : FlareQ} (h : SameFlare f g) {x y : ArrQ} (hx : SameArr x y) :
    SameOutcome Eq (f.areacurve x) (g.areacurve y) := by
  refine same_bind (same_peakArea h) fun p q hp => ?_
  have ht : SameOutcome (List.Forall₂ Eq) (x.vals.mapM fun v => (x.entry v).toReal 1 .time)
      (y.vals.mapM fun v => (y.entry v).toReal 1 .time) := by
    refine same_mapM (fun v w e => same_real ⟨hx.dim, hx.left, hx.right, ?_⟩ one_pos _) hx.base
    change Fl.fin v * .fin x.scale = Fl.fin w * .fin y.scale
    rw [Fl.fin_mul, Fl.fin_mul, e]
  refine same_bind ht fun ts us e => ?_
  rw [List.forall₂_eq_eq_eq] at e
  subst e
  refine same_bind (same_real h.tpeak one_pos _) fun a b e => ?_
  subst e
  refine same_bind (same_real h.fwhm one_pos _) fun a b e => ?_
  subst e
  exact same_map (same_number hp one_pos _) fun a b e => by rw [e]

theorem trapz_scale (areas : List Fl) (xs : List ℝ) {s : ℝ} (hs : 0 < s) :
    Np.trapz areas (xs.map .fin) * .fin s = Np.trapz areas ((xs.map (· * s)).map .fin) := by
  induction areas generalizing xs with
  | nil => simp [Np.trapz]
  | cons a l ih =>
    cases l with
    | nil => cases xs <;> simp [Np.trapz]
    | cons b l =>
      cases xs with
      | nil => simp [Np.trapz]
      | cons x xs =>
        cases xs with
        | nil => simp [Np.trapz]
        | cons y ys =>
          have := ih (y :: ys)
          simp only [List.map_cons, Np.trapz] at this ⊢
          rw [Fl.add_scale _ _ hs, this]
          congr 1
          have h1 := Fl.div_scale ((Fl.fin y - .fin x) * (a + b)) (.fin 2) hs one_pos
          rw [div_one, Fl.mul_one] at h1
          rw [h1]
          have h2 := Fl.mul_scale (Fl.fin y - .fin x) (a + b) hs one_pos
          rw [_root_.mul_one, Fl.mul_one] at h2
          rw [h2, Fl.sub_scale _ _ hs, Fl.fin_mul, Fl.fin_mul]

theorem same_timearea {f g : FlareQ} (h : SameFlare f g) {x y : ArrQ} (hx : SameArr x y) :
    SameOutcome SameQty (f.timearea x) (g.timearea y) := by
  refine same_bind (same_areacurve h hx) fun a b e => ?_
  subst e
  refine same_into ⟨by simp only [hx.dim], by simpa using hx.left, by simpa using hx.right, ?_⟩ (by norm_num) _
  simp only [one_mul]
  rw [trapz_scale _ _ hx.left, trapz_scale _ _ hx.right]
  congr 2
  have := hx.base
  generalize x.vals = l at this
  generalize y.vals = m at this
  induction this with
  | nil => rfl
  | cons e _ ih => rw [List.map_cons, List.map_cons, e, ih]

theorem same_frequency {G H : FlareGeneratorQ} (h : SameFlareGen G H) {e e' : Qty} (he : SameQty e e') :
    SameOutcome SameQty (G.frequencyGreaterThan e) (H.frequencyGreaterThan e') := by
  refine same_map (same_number he one_pos _) fun v w q => ?_
  rw [q, h.alpha, h.beta]
  exact same_refl (by simp [Qty.div, Qty.num, Qty.days])

theorem same_nexp {G H : FlareGeneratorQ} (h : SameFlareGen G H) {e e' t t' : Qty} (he : SameQty e e') (ht : SameQty t t') :
    SameOutcome Eq (G.nexpGreaterThan e t) (H.nexpGreaterThan e' t') :=
  same_bind (same_frequency h he) fun _ _ q => same_number (same_mul q ht) one_pos _

theorem same_cdf {G H : FlareGeneratorQ} (h : SameFlareGen G H) {e e' : Qty} (he : SameQty e e') :
    SameOutcome Eq (G.cdf e) (H.cdf e') :=
  same_map (same_number (same_div he h.minEnergy) one_pos _) fun _ _ q => by rw [q, h.alpha]

theorem forall₂_map_self {α β γ : Type} {R : β → γ → Prop} {f : α → β} {g : α → γ} (l : List α) (h : ∀ a, R (f a) (g a)) :
    List.Forall₂ R (l.map f) (l.map g) := by
  induction l with
  | nil => exact List.Forall₂.nil
  | cons a l ih => exact List.Forall₂.cons (h a) ih

theorem same_quantile {G H : FlareGeneratorQ} (h : SameFlareGen G H) (X : List ℝ) :
    SameOutcome (List.Forall₂ SameQty) (G.quantile X) (H.quantile X) := by
  classical
  unfold FlareGeneratorQ.quantile
  rw [h.alpha]
  split_ifs
  · rfl
  · exact forall₂_map_self X fun x => same_mul h.minEnergy (same_num rfl)
  · rfl

theorem forall₂_ofFn {β γ : Type} {R : β → γ → Prop} {n : ℕ} {f : Fin n → β} {g : Fin n → γ} (h : ∀ i, R (f i) (g i)) :
    List.Forall₂ R (List.ofFn f) (List.ofFn g) := by
  rw [List.ofFn_eq_map, List.ofFn_eq_map]
  exact forall₂_map_self _ h

theorem same_genFwhm {G H : FlareGeneratorQ} (h : SameFlareGen G H) {n : ℕ} (z : Fin n → ℝ) :
    SameOutcome (List.Forall₂ SameQty) (G.genFwhm z) (H.genFwhm z) := by
  refine same_bind (same_real h.fwhmMean one_pos _) fun a b e => ?_
  subst e
  rw [h.fwhmLogsigma]
  split_ifs
  · rfl
  · exact forall₂_ofFn fun i => same_days _

theorem same_genTeffs {G H : FlareGeneratorQ} (h : SameFlareGen G H) {n : ℕ} (z : Fin n → ℝ) :
    SameOutcome (List.Forall₂ SameQty) (G.genTeffs z) (H.genTeffs z) := by
  refine same_bind (same_real h.teffMean one_pos _) fun a b e => ?_
  subst e
  refine same_bind (same_real h.teffSigma one_pos _) fun a b e => ?_
  subst e
  split_ifs
  · rfl
  · exact forall₂_ofFn fun i => same_kelvin _

theorem same_zip {f f' e e' la la' lo lo' te te' t t' : List Qty} (h1 : List.Forall₂ SameQty f f') (h2 : List.Forall₂ SameQty e e')
    (h3 : List.Forall₂ SameQty la la') (h4 : List.Forall₂ SameQty lo lo') (h5 : List.Forall₂ SameQty te te')
    (h6 : List.Forall₂ SameQty t t') :
    List.Forall₂ SameFlare (FlareGeneratorQ.zipFlares f e la lo te t) (FlareGeneratorQ.zipFlares f' e' la' lo' te' t') := by
  induction h1 generalizing e e' la la' lo lo' te te' t t' with
  | nil => simp [FlareGeneratorQ.zipFlares]
  | cons q1 _ ih =>
    cases h2 with
    | nil => simp [FlareGeneratorQ.zipFlares]
    | cons q2 r2 =>
    cases h3 with
    | nil => simp [FlareGeneratorQ.zipFlares]
    | cons q3 r3 =>
    cases h4 with
    | nil => simp [FlareGeneratorQ.zipFlares]
    | cons q4 r4 =>
    cases h5 with
    | nil => simp [FlareGeneratorQ.zipFlares]
    | cons q5 r5 =>
    cases h6 with
    | nil => simp [FlareGeneratorQ.zipFlares]
    | cons q6 r6 => exact List.Forall₂.cons ⟨q1, q2, q3, q4, q5, q6⟩ (ih r2 r3 r4 r5 r6)

theorem same_series {G H : FlareGeneratorQ} (h : SameFlareGen G H) {t t' : Qty} (ht : SameQty t t') (k : ℕ)
    (d : (n : ℕ) → FlareDraws n) : SameOutcome (List.Forall₂ SameFlare) (G.series t k d) (H.series t' k d) := by
  refine same_bind (same_nexp h h.minEnergy ht) fun x y e => ?_
  subst e
  cases Np.poisson x k with
  | error e => exact rfl
  | ok n =>
    simp only [Except.bind]
    by_cases hn : n = 0
    · rw [if_pos hn, if_pos hn]; exact List.Forall₂.nil
    rw [if_neg hn, if_neg hn]
    refine same_bind (same_quantile h _) fun E E' hE => ?_
    unfold FlareGeneratorQ.getPeaks
    rw [h.clusterSize]
    cases FlareGenerator.getPeaks { FlareGenerator.off with clusterSize := H.clusterSize } n (d n).clusters (d n).expo with
    | error e => exact rfl
    | ok peaks =>
      refine same_bind (same_genFwhm h _) fun F F' hF => same_map (same_genTeffs h _) fun T T' hT => ?_
      exact same_zip hF hE (forall₂_ofFn fun i => same_degrees _) (forall₂_ofFn fun i => same_degrees _) hT
        (forall₂_map_self _ fun p => same_mul (same_num rfl) ht)

theorem same_newFlares {l m : List FlareQ} (h : List.Forall₂ SameFlare l m) :
    SameOutcome SameFlares (FlareCollectionQ.new l) (FlareCollectionQ.new m) := by
  refine same_map (R := List.Forall₂ Eq) (same_mapM (R := SameFlare) (fun f g h => ?_) h) fun a b e => ?_
  · refine same_bind (same_real h.tpeak (by norm_num) _) fun a b e => ?_
    subst e
    exact same_map (same_real h.fwhm (by norm_num) _) fun a b e => by rw [e]
  · rw [List.forall₂_eq_eq_eq] at e
    subst e
    exact ⟨h, rfl, rfl⟩

theorem forall₂_maskSelect {l m : List FlareQ} (h : List.Forall₂ SameFlare l m) (b : List Bool) :
    List.Forall₂ SameFlare (Np.maskSelect l b) (Np.maskSelect m b) := by
  induction h generalizing b with
  | nil => cases b <;> simp [Np.maskSelect]
  | cons q _ ih =>
    cases b with
    | nil => simp [Np.maskSelect]
    | cons x b =>
      cases x
      · simpa [Np.maskSelect] using ih b
      · simpa [Np.maskSelect] using ⟨q, ih b⟩

theorem same_inPeriod {c c' : FlareCollectionQ} (h : SameFlares c c') {s s' t t' : Qty} (hs : SameQty s s') (ht : SameQty t t') :
    SameOutcome (List.Forall₂ SameFlare) (c.inPeriod s t) (c'.inPeriod s' t') := by
  have : SameOutcome (List.Forall₂ Eq) (c.mask s t) (c'.mask s' t') := by
    unfold FlareCollectionQ.mask
    rw [h.peaks, h.fwhms]
    refine same_mapM (R := Eq) (fun a b e => ?_) (by rw [List.forall₂_eq_eq_eq])
    subst e
    refine same_bind (same_gt (same_hours _) hs) fun a b e => ?_
    subst e
    exact same_map (same_gt ht (same_hours _)) fun a b e => by rw [e]
  refine same_map this fun a b e => ?_
  rw [List.forall₂_eq_eq_eq] at e
  subst e
  exact forall₂_maskSelect h.flares _

theorem same_visible {c c' : FlareCollectionQ} (h : SameFlares c c') {s s' t t' a a' b b' : Qty} (hs : SameQty s s')
    (ht : SameQty t t') (ha : SameQty a a') (hb : SameQty b b') :
    SameOutcome (List.Forall₂ SameFlare) (c.visible s t a b) (c'.visible s' t' a' b') := by
  refine same_bind (same_inPeriod h hs ht) fun l m hl => same_keepM (fun f g hf => ?_) hl
  refine same_bind (same_real ha one_pos _) fun x y e => ?_
  subst e
  refine same_bind (same_real hf.lat one_pos _) fun x y e => ?_
  subst e
  exact same_bind (same_sub hb hf.lon) fun x y e => same_map (same_real e one_pos _) fun x y e => by rw [e]

theorem same_times {s s' t t' : Qty} (hs : SameQty s s') (ht : SameQty t t') :
    SameOutcome SameArr (FlareCollectionQ.times s t) (FlareCollectionQ.times s' t') := by
  refine same_bind (same_sub ht hs) fun x y e => ?_
  refine same_bind (same_real (same_div e (same_refl (by norm_num))) one_pos _) fun x y e => ?_
  subst e
  rw [hs.dim]
  refine same_bind (same_toReal hs hs.left hs.right _) fun a a' ha => ?_
  refine same_bind (same_toReal ht hs.left hs.right _) fun b b' hb => ?_
  split_ifs
  · rfl
  · refine ⟨rfl, hs.left, hs.right, forall₂_map_self _ fun i => ?_⟩
    unfold Np.linspaceAt
    split_ifs
    · exact ha
    · generalize ((FlareCollection.pyInt x).toNat : ℝ) = n
      have : ∀ (u v w : ℝ), (u + i * ((v - u) / (n - 1))) * w = u * w + i * ((v * w - u * w) / (n - 1)) := by
        intro u v w; ring
      rw [this, this, ha, hb]

theorem same_integrals {c c' : FlareCollectionQ} (h : SameFlares c c') {s s' t t' a a' b b' : Qty} (hs : SameQty s s')
    (ht : SameQty t t') (ha : SameQty a a') (hb : SameQty b b') :
    SameOutcome (List.Forall₂ fun p q : Qty × Qty => SameQty p.1 q.1 ∧ SameQty p.2 q.2) (c.integrals s t a b) (c'.integrals s' t' a' b') := by
  unfold FlareCollectionQ.integrals
  refine same_bind (same_visible h hs ht ha hb) fun l m hl => ?_
  refine same_bind (same_times hs ht) fun x y hx => ?_
  refine same_mapM (fun f g hf => ?_) hl
  exact same_map (same_timearea hf hx) fun u v e => ⟨hf.teff, e⟩

/-! ### The other model files use days, kilometres, ergs, kelvin and radians -/

namespace Spec

/-- A flare given in days, ergs, radians and kelvin. -/
def flareIn (f : StellarFlare) : FlareQ :=
  { fwhm := unit (.fin f.fwhm) .time, energy := unit f.energy .energy, lat := unit (.fin f.lat) .angle, lon := unit (.fin f.lon) .angle,
    teff := unit (.fin f.teff) .temp, tpeak := unit (.fin f.tpeak) .time }

/-- A flare generator given in days, ergs and kelvin. -/
def flareGenIn (G : FlareGenerator) : FlareGeneratorQ :=
  { teffMean := unit (.fin G.teffMean) .temp, teffSigma := unit (.fin G.teffSigma) .temp, fwhmMean := unit (.fin G.fwhmMean) .time,
    fwhmLogsigma := G.fwhmLogsigma, alpha := G.alpha, beta := G.beta, minEnergy := unit G.minEnergy .energy, clusterSize := G.clusterSize }

/-- The flares of `c` in whatever units. -/
def FlaresIn (l : List FlareQ) (c : List StellarFlare) : Prop := List.Forall₂ (fun q f => SameFlare q (flareIn f)) l c

end Spec

theorem unit_real (x : ℝ) (d : Dim) : (unit (.fin x) d).toReal 1 d = .ok x := by
  unfold Qty.toReal; rw [unit_toValue]; rfl

theorem sigma_unit : SameQty .sigma (unit (.fin sigmaSB) (.energy - .time - .area - (.temp + .temp + .temp + .temp))) :=
  ⟨rfl, by norm_num [Qty.sigma], one_pos, by simp only [Qty.sigma, unit, sigmaSB, Fl.fin_mul, Fl.fin_inj]; ring⟩

theorem peakArea_in (f : StellarFlare) : ∃ a, (flareIn f).peakArea = .ok a ∧ SameQty a (unit f.peakArea .area) := by
  have hT : ((((flareIn f).teff.mul (flareIn f).teff).mul (flareIn f).teff).mul (flareIn f).teff) =
      unit (.fin (f.teff ^ 4)) (.temp + .temp + .temp + .temp) := by
    simp only [flareIn, unit_mul, Fl.fin_mul]
    congr 2; ring
  have hI : FlareQ.integral (flareIn f).fwhm (.km2 (.fin 1)) = unit (.fin (Xoflares.flareIntegral f.fwhm 1)) (0 + .area + .time) := by
    unfold FlareQ.integral
    rw [unit_num, show Qty.km2 (.fin 1) = unit (.fin 1) .area from rfl]
    simp only [flareIn, unit_mul, Fl.fin_mul]
    rfl
  have h : SameOutcome SameQty (flareIn f).peakArea ((((((flareIn f).energy.div (unit (.fin sigmaSB) (.energy - .time - .area -
      (.temp + .temp + .temp + .temp)))).div ((((flareIn f).teff.mul (flareIn f).teff).mul (flareIn f).teff).mul (flareIn f).teff)).div
      (FlareQ.integral (flareIn f).fwhm (.km2 (.fin 1)))).mul (.km2 (.fin 1))).into 1 .area) := by
    rw [hT, hI]
    unfold FlareQ.peakArea
    simp only
    rw [hT, hI]
    exact same_into (same_mul (same_div (same_div (same_div (unit_same _ _) sigma_unit) (unit_same _ _)) (unit_same _ _)) (same_km2 _)) one_pos _
  refine outcome_ok h ?_
  rw [hT, hI, show Qty.km2 (.fin 1) = unit (.fin 1) .area from rfl, show (flareIn f).energy = unit f.energy .energy from rfl, unit_div, unit_div,
    unit_div, unit_mul]
  have hd : Dim.energy - (.energy - .time - .area - (.temp + .temp + .temp + .temp)) - (.temp + .temp + .temp + .temp) -
      (0 + .area + .time) + .area = Dim.area := by
    abel
  rw [hd, unit_into]
  rfl

theorem mapM_ok {α β : Type} {f : α → Py β} {g : α → β} {l : List α} (h : ∀ x ∈ l, f x = .ok (g x)) : l.mapM f = .ok (l.map g) := by
  induction l with
  | nil => rfl
  | cons x l ih =>
    rw [List.mapM_cons, h x (by simp), ih fun y hy => h y (List.mem_cons_of_mem _ hy)]; rfl

theorem areacurve_in (f : StellarFlare) (ts : List ℝ) : (flareIn f).areacurve ⟨ts, 1, .time⟩ = .ok (ts.map f.areaAt) := by
  obtain ⟨a, e1, e2⟩ := peakArea_in f
  have e3 := same_number e2 one_pos .area
  rw [unit_toValue] at e3
  obtain ⟨b, e4, rfl⟩ := outcome_ok e3 rfl
  unfold FlareQ.areacurve
  rw [e1]
  simp only [Except.bind]
  have h : (ts.mapM fun x => ((⟨ts, 1, .time⟩ : ArrQ).entry x).toReal 1 .time) = .ok (ts.map id) := mapM_ok fun x _ => unit_real x .time
  rw [h]
  simp only [flareIn, unit_real, e4, Except.map, List.map_id]
  rfl

theorem into_same {a : Qty} {s : ℝ} (ha : 0 < a.scale) (hs : 0 < s) {d : Dim} (hd : a.dim = d) :
    ∃ b, a.into s d = .ok b ∧ SameQty b a := by
  unfold Qty.into
  rw [toValue_ok hd]
  refine ⟨_, rfl, hd.symm, hs, ha, ?_⟩
  simp only
  exact Fl.conv_scale _ ha hs

theorem timearea_in (f : StellarFlare) (ts : List ℝ) :
    ∃ a, (flareIn f).timearea ⟨ts, 1, .time⟩ = .ok a ∧ SameQty a (unit (f.timearea ts) (.time + .area)) := by
  unfold FlareQ.timearea
  rw [areacurve_in]
  simp only [Except.bind]
  obtain ⟨b, e1, e2⟩ := into_same (a := ⟨Np.trapz (ts.map f.areaAt) (ts.map .fin), 1 * 1, .area + .time⟩) (s := 1 / 24) (d := .time + .area)
    (by norm_num) (by norm_num) (add_comm _ _)
  exact ⟨b, e1, sameQty_trans e2 ⟨add_comm _ _, by norm_num, one_pos, by simp [unit, StellarFlare.timearea]⟩⟩

theorem nexp_in (G : FlareGenerator) (e : Fl) (t : ℝ) :
    (flareGenIn G).nexpGreaterThan (unit e .energy) (.days (.fin t)) = .ok (G.nexpGreaterThan e t) := by
  unfold FlareGeneratorQ.nexpGreaterThan FlareGeneratorQ.frequencyGreaterThan
  rw [unit_toValue]
  simp only [Except.map, Except.bind]
  rw [unit_num, unit_days, unit_days, unit_div, unit_mul, show (0 - Dim.time + Dim.time : Dim) = 0 by abel, unit_toValue, Fl.div_one]
  rfl

theorem cdf_in (G : FlareGenerator) (e : Fl) : (flareGenIn G).cdf (unit e .energy) = .ok (G.cdf e) := by
  unfold FlareGeneratorQ.cdf
  rw [show (flareGenIn G).minEnergy = unit G.minEnergy .energy from rfl, unit_div, sub_self, unit_toValue]
  rfl

theorem quantile_in (G : FlareGenerator) (X : List ℝ) :
    (flareGenIn G).quantile X = (G.quantile X).map fun l => l.map fun e => unit e .energy := by
  unfold FlareGeneratorQ.quantile FlareGenerator.quantile
  rw [show (flareGenIn G).alpha = G.alpha from rfl]
  split_ifs
  · rfl
  · simp only [Except.map, List.map_map]
    congr 2
    funext x
    simp only [Function.comp, flareGenIn, unit_num, unit_mul, add_zero]
  · rfl

theorem genFwhm_in (G : FlareGenerator) {n : ℕ} (z : Fin n → ℝ) :
    (flareGenIn G).genFwhm z = (G.genFwhm z).map fun l => l.map fun x => unit (.fin x) .time := by
  unfold FlareGeneratorQ.genFwhm FlareGenerator.genFwhm
  rw [show (flareGenIn G).fwhmMean = unit (.fin G.fwhmMean) .time from rfl, unit_real, show (flareGenIn G).fwhmLogsigma = G.fwhmLogsigma from rfl]
  simp only [Except.bind]
  split_ifs
  · rfl
  · simp only [Except.map, List.map_ofFn]
    rfl

theorem genTeffs_in (G : FlareGenerator) {n : ℕ} (z : Fin n → ℝ) :
    (flareGenIn G).genTeffs z = (G.genTeffs z).map fun l => l.map fun x => unit (.fin x) .temp := by
  unfold FlareGeneratorQ.genTeffs FlareGenerator.genTeffs
  rw [show (flareGenIn G).teffMean = unit (.fin G.teffMean) .temp from rfl, unit_real, show (flareGenIn G).teffSigma = unit (.fin G.teffSigma) .temp from rfl,
    unit_real]
  simp only [Except.bind]
  split_ifs
  · rfl
  · simp only [Except.map, List.map_ofFn]
    rfl

theorem zip_in (f : List ℝ) (e : List Fl) (la lo te t : List ℝ) : (FlareGenerator.zipFlares f e la lo te t).map flareIn =
    FlareGeneratorQ.zipFlares (f.map fun x => unit (.fin x) .time) (e.map fun x => unit x .energy) (la.map fun x => unit (.fin x) .angle)
      (lo.map fun x => unit (.fin x) .angle) (te.map fun x => unit (.fin x) .temp) (t.map fun x => unit (.fin x) .time) := by
  induction f generalizing e la lo te t with
  | nil => simp [FlareGenerator.zipFlares, FlareGeneratorQ.zipFlares]
  | cons x f ih =>
    rcases e with _ | ⟨e1, e⟩ <;> rcases la with _ | ⟨la1, la⟩ <;> rcases lo with _ | ⟨lo1, lo⟩ <;> rcases te with _ | ⟨te1, te⟩ <;>
      rcases t with _ | ⟨t1, t⟩ <;> simp only [FlareGenerator.zipFlares, FlareGeneratorQ.zipFlares, List.map_cons, List.map_nil, ih]
    rfl

theorem forall₂_unit {l : List Qty} {m : List Qty} (h : l = m) (hm : ∀ q ∈ m, 0 < q.scale) : List.Forall₂ SameQty l m := by
  subst h
  induction l with
  | nil => exact List.Forall₂.nil
  | cons q l ih => exact List.Forall₂.cons (same_refl (hm q (by simp))) (ih fun q h => hm q (List.mem_cons_of_mem _ h))

theorem series_in (G : FlareGenerator) (t : ℝ) (k : ℕ) (d : (n : ℕ) → FlareDraws n) :
    SameOutcome FlaresIn ((flareGenIn G).series (.days (.fin t)) k d) (G.series t k d) := by
  unfold FlareGeneratorQ.series FlareGenerator.series FlareGeneratorQ.nTotal FlareGenerator.nTotal
  rw [show (flareGenIn G).minEnergy = unit G.minEnergy .energy from rfl, nexp_in]
  simp only [bind, Except.bind]
  cases Np.poisson (G.nexpGreaterThan G.minEnergy t) k with
  | error e => exact rfl
  | ok n =>
    simp only
    by_cases hn : n = 0
    · rw [if_pos hn, if_pos hn]; exact List.Forall₂.nil
    rw [if_neg hn, if_neg hn, quantile_in]
    cases G.quantile (List.ofFn fun i => ((d n).uE i : ℝ)) with
    | error e => exact rfl
    | ok E =>
    simp only [Except.map]
    rw [show (flareGenIn G).getPeaks n (d n).clusters (d n).expo = G.getPeaks n (d n).clusters (d n).expo from rfl]
    cases G.getPeaks n (d n).clusters (d n).expo with
    | error e => exact rfl
    | ok peaks =>
    simp only
    rw [genFwhm_in]
    cases G.genFwhm (d n).zF with
    | error e => exact rfl
    | ok F =>
    simp only [Except.map]
    rw [genTeffs_in]
    cases G.genTeffs (d n).zT with
    | error e => exact rfl
    | ok T =>
    change List.Forall₂ (fun q f => SameFlare q (flareIn f)) _ _
    rw [← List.forall₂_map_right_iff, zip_in]
    have hu : ∀ (l : List ℝ) (d : Dim), ∀ q ∈ l.map fun x => unit (.fin x) d, 0 < q.scale := by
      intro l d q hq
      obtain ⟨x, -, rfl⟩ := List.mem_map.mp hq
      exact one_pos
    have hdeg : ∀ x : ℝ, SameQty (.degrees (.fin x)) (unit (.fin (Grid.deg x)) .angle) := fun x =>
      ⟨rfl, by unfold Qty.degrees; positivity, one_pos, by simp only [Qty.degrees, unit, Fl.fin_mul, Grid.deg, _root_.mul_one]⟩
    refine same_zip (forall₂_unit rfl (hu _ _)) (forall₂_unit rfl ?_) ?_ ?_ (forall₂_unit rfl (hu _ _)) ?_
    · intro q hq
      obtain ⟨x, -, rfl⟩ := List.mem_map.mp hq
      exact one_pos
    · rw [List.map_ofFn]
      exact forall₂_ofFn fun i => hdeg _
    · rw [List.map_ofFn]
      exact forall₂_ofFn fun i => hdeg _
    · rw [List.map_map]
      refine forall₂_map_self _ fun p => ?_
      rw [unit_num, unit_days, unit_mul, zero_add]
      exact unit_same _ _

theorem real_hours {q : Qty} {x : ℝ} (h : SameQty q (unit (.fin x) .time)) : q.toReal (1 / 24) .time = .ok (x * 24) := by
  have e := same_toReal h (s := 1 / 24) (t := 1) (by norm_num) one_pos .time
  rw [unit_real] at e
  obtain ⟨a, e1, e2⟩ := outcome_ok e rfl
  rw [e1]
  congr 1
  linarith

theorem new_in {l : List FlareQ} {c : List StellarFlare} (h : FlaresIn l c) :
    FlareCollectionQ.new l = .ok ⟨l, c.map fun f => f.tpeak * 24, c.map fun f => f.fwhm * 24⟩ := by
  unfold FlareCollectionQ.new
  have : (l.mapM fun f : FlareQ => (f.tpeak.toReal (1 / 24) .time).bind fun p => (f.fwhm.toReal (1 / 24) .time).map fun w => (p, w)) =
      .ok (c.map fun f => (f.tpeak * 24, f.fwhm * 24)) := by
    induction h with
    | nil => rfl
    | cons e _ ih =>
      rw [List.mapM_cons, ih, real_hours e.tpeak, real_hours e.fwhm]
      rfl
  rw [this]
  simp only [Except.map, List.map_map]
  rfl

theorem hours_unit (x : ℝ) : SameQty (.hours (.fin (x * 24))) (unit (.fin x) .time) :=
  ⟨rfl, by norm_num [Qty.hours], one_pos, by simp only [Qty.hours, unit, Fl.fin_mul, Fl.fin_inj]; ring⟩

theorem gt_in {p q : Qty} {x y : ℝ} {d : Dim} (hp : SameQty p (unit (.fin x) d)) (hq : SameQty q (unit (.fin y) d)) :
    p.gt q = .ok (decide (y < x)) := by
  have := same_gt hp hq
  rw [unit_gt] at this
  obtain ⟨b, e1, rfl⟩ := outcome_ok this rfl
  rw [e1]
  simp only [Fl.fin_lt]

theorem inPeriod_in {l : List FlareQ} {c : List StellarFlare} (h : FlaresIn l c) {s t : Qty} {a b : ℝ} (hs : SameQty s (unit (.fin a) .time))
    (ht : SameQty t (unit (.fin b) .time)) :
    ∃ m, (⟨l, c.map fun f => f.tpeak * 24, c.map fun f => f.fwhm * 24⟩ : FlareCollectionQ).inPeriod s t = .ok m ∧
      FlaresIn m ((FlareCollection.new c).inPeriod a b) := by
  have hm : (⟨l, c.map fun f => f.tpeak * 24, c.map fun f => f.fwhm * 24⟩ : FlareCollectionQ).mask s t =
      .ok ((FlareCollection.new c).mask a b) := by
    unfold FlareCollectionQ.mask FlareCollection.mask FlareCollection.new
    simp only [List.zip_map', List.map_map]
    generalize c = c'
    induction c' with
    | nil => rfl
    | cons f c' ih =>
      rw [List.map_cons, List.map_cons, List.mapM_cons, ih]
      have e1 := gt_in (hours_unit (f.tpeak + 20 * f.fwhm)) hs
      have e2 := gt_in ht (hours_unit (f.tpeak - 10 * f.fwhm))
      rw [show (f.tpeak + 20 * f.fwhm) * 24 = f.tpeak * 24 + 20 * (f.fwhm * 24) by ring] at e1
      rw [show (f.tpeak - 10 * f.fwhm) * 24 = f.tpeak * 24 - 10 * (f.fwhm * 24) by ring] at e2
      rw [e1, e2]
      rfl
  unfold FlareCollectionQ.inPeriod
  rw [hm]
  refine ⟨_, rfl, ?_⟩
  unfold FlaresIn FlareCollection.inPeriod
  simp only
  rw [show (FlareCollection.new c).flares = c from rfl]
  generalize (FlareCollection.new c).mask a b = m at hm
  clear hm
  induction h generalizing m with
  | nil => cases m <;> simp [Np.maskSelect]
  | cons q _ ih =>
    cases m with
    | nil => simp [Np.maskSelect]
    | cons x m =>
      cases x
      · simpa [Np.maskSelect] using ih m
      · simpa [Np.maskSelect] using ⟨q, ih m⟩

theorem real_in {q : Qty} {x : ℝ} {d : Dim} (h : SameQty q (unit (.fin x) d)) : q.toReal 1 d = .ok x := by
  have := same_real h one_pos d
  rw [unit_real] at this
  obtain ⟨a, e1, rfl⟩ := outcome_ok this rfl
  exact e1

theorem visible_in {l : List FlareQ} {c : List StellarFlare} (h : FlaresIn l c) {s t p q : Qty} {a b x y : ℝ} (hs : SameQty s (unit (.fin a) .time))
    (ht : SameQty t (unit (.fin b) .time)) (hp : SameQty p (unit (.fin x) .angle)) (hq : SameQty q (unit (.fin y) .angle)) :
    ∃ m, (⟨l, c.map fun f => f.tpeak * 24, c.map fun f => f.fwhm * 24⟩ : FlareCollectionQ).visible s t p q = .ok m ∧
      FlaresIn m ((FlareCollection.new c).visible a b x y) := by
  classical
  obtain ⟨m, e1, e2⟩ := inPeriod_in h hs ht
  unfold FlareCollectionQ.visible FlareCollection.visible
  rw [e1]
  simp only [Except.bind]
  generalize (FlareCollection.new c).inPeriod a b = c' at e2
  clear e1
  induction e2 with
  | nil => exact ⟨[], rfl, List.Forall₂.nil⟩
  | @cons g f m c' e _ ih =>
    obtain ⟨m', e1, e2⟩ := ih
    obtain ⟨dl, e3, e4⟩ := outcome_ok (same_sub hq e.lon) (unit_sub (.fin y) (.fin f.lon) .angle)
    rw [Fl.fin_sub] at e4
    simp only [keepM] at e1 ⊢
    rw [e1, real_in hp, real_in e.lat, e3]
    simp only [Except.bind, Except.map]
    rw [real_in e4]
    by_cases hv : 0 < sin x * sin f.lat + cos x * cos f.lat * cos (y - f.lon)
    · simp only [hv, decide_true, if_true, List.filter_cons_of_pos, Except.ok.injEq, exists_eq_left']
      exact List.Forall₂.cons e e2
    · simp only [hv, decide_false, Bool.false_eq_true, if_false, not_false_eq_true, List.filter_cons_of_neg, Except.ok.injEq, exists_eq_left']
      exact e2

theorem times_in {s t : Qty} {a b : ℝ} (hs : SameQty s (unit (.fin a) .time)) (ht : SameQty t (unit (.fin b) .time)) :
    SameOutcome SameArr (FlareCollectionQ.times s t) ((FlareCollection.times a b).map fun l => ⟨l, 1, .time⟩) := by
  have : FlareCollectionQ.times (unit (.fin a) .time) (unit (.fin b) .time) = (FlareCollection.times a b).map fun l => ⟨l, 1, .time⟩ := by
    unfold FlareCollectionQ.times FlareCollection.times
    rw [unit_sub, Fl.fin_sub]
    have h10 : SameQty ⟨.fin 10, 1 / 1440, .time⟩ (unit (.fin (1 / 144)) .time) :=
      ⟨rfl, by norm_num, one_pos, by simp only [unit, Fl.fin_mul, Fl.fin_inj]; norm_num⟩
    have h1 := same_div (unit_same (.fin (b - a)) .time) h10
    rw [unit_div, sub_self, Fl.fin_div (by norm_num)] at h1
    simp only [Except.bind]
    rw [real_in h1]
    simp only [show (unit (.fin a) .time).scale = 1 from rfl, show (unit (.fin a) .time).dim = .time from rfl, unit_real]
    split_ifs <;> rfl
  rw [← this]
  exact same_times hs ht

/-- The numbers reported for flares, in whatever units. -/
def Spec.ReportsIn (l : List (Qty × Qty)) (m : List (ℝ × Fl)) : Prop :=
  List.Forall₂ (fun p q => SameQty p.1 (unit (.fin q.1) .temp) ∧ SameQty p.2 (unit q.2 (.time + .area))) l m

theorem integrals_in {l : List FlareQ} {c : List StellarFlare} (h : FlaresIn l c) {s t p q : Qty} {a b x y : ℝ} (hs : SameQty s (unit (.fin a) .time))
    (ht : SameQty t (unit (.fin b) .time)) (hp : SameQty p (unit (.fin x) .angle)) (hq : SameQty q (unit (.fin y) .angle)) :
    SameOutcome ReportsIn
      ((⟨l, c.map fun f => f.tpeak * 24, c.map fun f => f.fwhm * 24⟩ : FlareCollectionQ).integrals s t p q)
      ((FlareCollection.new c).integrals a b x y) := by
  obtain ⟨m, e1, e2⟩ := visible_in h hs ht hp hq
  unfold FlareCollectionQ.integrals FlareCollection.integrals
  rw [e1]
  simp only [Except.bind]
  have ht := times_in hs ht
  revert ht
  cases FlareCollectionQ.times s t <;> cases FlareCollection.times a b <;> intro ht
  · exact ht
  · exact ht.elim
  · exact ht.elim
  rename_i X ts
  change SameOutcome ReportsIn (m.mapM fun f : FlareQ => (f.timearea X).map fun a => (f.teff, a)) (.ok _)
  generalize (FlareCollection.new c).visible a b x y = c' at e2
  clear e1 h
  suffices h : ∃ r, (m.mapM fun f : FlareQ => (f.timearea X).map fun a => (f.teff, a)) = .ok r ∧ ReportsIn r (c'.map fun f => (f.teff, f.timearea ts)) by
    obtain ⟨r, h1, h2⟩ := h
    rw [h1]
    exact h2
  induction e2 with
  | nil => exact ⟨[], rfl, List.Forall₂.nil⟩
  | @cons g f m c' e _ ih =>
    obtain ⟨r, h1, h2⟩ := ih
    obtain ⟨w, e3, e4⟩ := timearea_in f ts
    obtain ⟨v, e5, e6⟩ := outcome_ok (same_timearea e ht) e3
    rw [List.mapM_cons, h1, e5]
    exact ⟨_, rfl, List.Forall₂.cons ⟨e.teff, sameQty_trans e6 e4⟩ h2⟩

/-- **C139** Units do not matter, flares.  If the attributes and arguments are physically the same, in whatever units, then so is what the
methods return, and they raise the same exceptions. -/
theorem C139_units :
    (∀ G H : FlareGeneratorQ, SameFlareGen G H →
      (∀ e e' t t', SameQty e e' → SameQty t t' → SameOutcome Eq (G.nexpGreaterThan e t) (H.nexpGreaterThan e' t')) ∧
      (∀ e e', SameQty e e' → SameOutcome SameQty (G.frequencyGreaterThan e) (H.frequencyGreaterThan e') ∧
        SameOutcome Eq (G.cdf e) (H.cdf e')) ∧
      (∀ X, SameOutcome (List.Forall₂ SameQty) (G.quantile X) (H.quantile X)) ∧
      ∀ t t' k d, SameQty t t' → SameOutcome (List.Forall₂ SameFlare) (G.series t k d) (H.series t' k d)) ∧
    (∀ f g : FlareQ, SameFlare f g → SameOutcome SameQty f.peakArea g.peakArea ∧
      ∀ x y, SameArr x y → SameOutcome Eq (f.areacurve x) (g.areacurve y) ∧ SameOutcome SameQty (f.timearea x) (g.timearea y)) ∧
    (∀ l m : List FlareQ, List.Forall₂ SameFlare l m → SameOutcome SameFlares (FlareCollectionQ.new l) (FlareCollectionQ.new m)) ∧
    ∀ c c' : FlareCollectionQ, SameFlares c c' → ∀ s s' t t' a a' b b', SameQty s s' → SameQty t t' → SameQty a a' → SameQty b b' →
      SameOutcome (List.Forall₂ SameFlare) (c.inPeriod s t) (c'.inPeriod s' t') ∧
      SameOutcome (List.Forall₂ SameFlare) (c.visible s t a b) (c'.visible s' t' a' b') ∧
      SameOutcome (List.Forall₂ fun p q : Qty × Qty => SameQty p.1 q.1 ∧ SameQty p.2 q.2) (c.integrals s t a b) (c'.integrals s' t' a' b') :=
  ⟨fun _ _ h => ⟨fun _ _ _ _ he ht => same_nexp h he ht, fun _ _ he => ⟨same_frequency h he, same_cdf h he⟩, same_quantile h,
      fun _ _ k d ht => same_series h ht k d⟩,
    fun _ _ h => ⟨same_peakArea h, fun _ _ hx => ⟨same_areacurve h hx, same_timearea h hx⟩⟩,
    fun _ _ h => same_newFlares h,
    fun _ _ h _ _ _ _ _ _ _ _ hs ht ha hb => ⟨same_inPeriod h hs ht, same_visible h hs ht ha hb, same_integrals h hs ht ha hb⟩⟩

theorem outcome_trans {α β γ : Type} {R : α → β → Prop} {S : β → γ → Prop} {T : α → γ → Prop} {x : Py α} {y : Py β} {z : Py γ}
    (h : SameOutcome R x y) (k : SameOutcome S y z) (hT : ∀ a b c, R a b → S b c → T a c) : SameOutcome T x z := by
  cases x <;> cases y <;> cases z <;> first | exact h.elim | exact k.elim | skip
  · exact Eq.trans h k
  · exact hT _ _ _ h k

theorem sameFlare_trans {f g h : FlareQ} (a : SameFlare f g) (b : SameFlare g h) : SameFlare f h :=
  ⟨sameQty_trans a.fwhm b.fwhm, sameQty_trans a.energy b.energy, sameQty_trans a.lat b.lat, sameQty_trans a.lon b.lon,
    sameQty_trans a.teff b.teff, sameQty_trans a.tpeak b.tpeak⟩

theorem flaresIn_trans {l m : List FlareQ} {c : List StellarFlare} (h : List.Forall₂ SameFlare l m) (k : FlaresIn m c) : FlaresIn l c := by
  unfold FlaresIn at *
  induction h generalizing c with
  | nil => cases k; exact List.Forall₂.nil
  | cons a _ ih =>
    cases k with
    | cons b k => exact List.Forall₂.cons (sameFlare_trans a b) (ih k)

/-- **C139** The rest of the model computes with numbers in days, kilometres, ergs, kelvin and radians.  Whatever the units, the methods do
on quantities what the model does on those numbers, and raise what it raises. -/
theorem C139_flares :
    (∀ (Q : FlareGeneratorQ) (G : FlareGenerator), SameFlareGen Q (flareGenIn G) →
      (∀ e t q x, SameQty q (unit e .energy) → SameQty x (.days (.fin t)) → Q.nexpGreaterThan q x = .ok (G.nexpGreaterThan e t)) ∧
      (∀ e q, SameQty q (unit e .energy) → Q.cdf q = .ok (G.cdf e)) ∧
      ∀ t x k d, SameQty x (.days (.fin t)) → SameOutcome FlaresIn (Q.series x k d) (G.series t k d)) ∧
    (∀ (q : FlareQ) (f : StellarFlare), SameFlare q (flareIn f) → (∃ a, q.peakArea = .ok a ∧ SameQty a (unit f.peakArea .area)) ∧
      ∀ x ts, SameArr x ⟨ts, 1, .time⟩ → q.areacurve x = .ok (ts.map f.areaAt) ∧
        ∃ a, q.timearea x = .ok a ∧ SameQty a (unit (f.timearea ts) (.time + .area))) ∧
    ∀ (l : List FlareQ) (c : List StellarFlare), FlaresIn l c → ∃ C, FlareCollectionQ.new l = .ok C ∧
      ∀ s t p q a b x y, SameQty s (.days (.fin a)) → SameQty t (.days (.fin b)) → SameQty p (unit (.fin x) .angle) →
        SameQty q (unit (.fin y) .angle) → (∃ m, C.visible s t p q = .ok m ∧ FlaresIn m ((FlareCollection.new c).visible a b x y)) ∧
        SameOutcome ReportsIn (C.integrals s t p q) ((FlareCollection.new c).integrals a b x y) := by
  refine ⟨fun Q G h => ⟨fun e t q x hq hx => ?_, fun e q hq => ?_, fun t x k d hx => ?_⟩, fun q f h => ⟨?_, fun x ts hx => ⟨?_, ?_⟩⟩,
    fun l c h => ⟨_, new_in h, fun s t p q a b x y hs ht hp hq => ⟨visible_in h hs ht hp hq, integrals_in h hs ht hp hq⟩⟩⟩
  · obtain ⟨a, e1, rfl⟩ := outcome_ok (same_nexp h hq hx) (nexp_in G e t); exact e1
  · obtain ⟨a, e1, rfl⟩ := outcome_ok (same_cdf h hq) (cdf_in G e); exact e1
  · exact outcome_trans (same_series h hx k d) (series_in G t k d) fun _ _ _ h k => flaresIn_trans h k
  · obtain ⟨a, e1, e2⟩ := peakArea_in f
    obtain ⟨b, e3, e4⟩ := outcome_ok (same_peakArea h) e1
    exact ⟨b, e3, sameQty_trans e4 e2⟩
  · obtain ⟨a, e1, rfl⟩ := outcome_ok (same_areacurve h hx) (areacurve_in f ts); exact e1
  · obtain ⟨a, e1, e2⟩ := timearea_in f ts
    obtain ⟨b, e3, e4⟩ := outcome_ok (same_timearea h hx) e1
    exact ⟨b, e3, sameQty_trans e4 e2⟩

/-- Arguments of the wrong dimension are refused: an observation time that is not a time (for a generator whose minimum energy is an energy),
an energy that is not one. -/
theorem C139_refused (G : FlareGeneratorQ) :
    (∀ e t, e.dim ≠ .energy → G.nexpGreaterThan e t = .error .unitConversion ∧ G.frequencyGreaterThan e = .error .unitConversion) ∧
    (∀ e, e.dim ≠ G.minEnergy.dim → G.cdf e = .error .unitConversion) ∧
    ∀ t k d, t.dim ≠ .time → G.minEnergy.dim = .energy → G.series t k d = .error .unitConversion := by
  have h1 : ∀ e : Qty, e.dim ≠ .energy → G.frequencyGreaterThan e = .error .unitConversion := by
    intro e he
    unfold FlareGeneratorQ.frequencyGreaterThan Qty.toValue
    rw [if_neg he]; rfl
  refine ⟨fun e t he => ⟨?_, h1 e he⟩, fun e he => ?_, fun t k d ht hm => ?_⟩
  · unfold FlareGeneratorQ.nexpGreaterThan
    rw [h1 e he]; rfl
  · unfold FlareGeneratorQ.cdf Qty.toValue
    rw [if_neg]
    · rfl
    · exact fun h => he (sub_eq_zero.mp h)
  · unfold FlareGeneratorQ.series FlareGeneratorQ.nTotal FlareGeneratorQ.nexpGreaterThan FlareGeneratorQ.frequencyGreaterThan
    rw [toValue_ok hm]
    simp only [Except.map, Except.bind]
    unfold Qty.toValue
    rw [if_neg]
    intro h
    refine ht ?_
    have : (0 : Dim) - .time + t.dim = 0 := h
    rw [zero_sub, neg_add_eq_zero] at this
    exact this.symm

/-! ### The generator that is switched off -/

theorem off_nexp {t : Qty} {T : ℝ} (ht : SameQty t (.days (.fin T))) (m : Fl) {e : Qty} (he : SameQty e (unit m .energy)) :
    { FlareGeneratorQ.off with minEnergy := e }.nTotal t = .ok ({ FlareGenerator.off with minEnergy := m }.nTotal T) := by
  have h : SameFlareGen { FlareGeneratorQ.off with minEnergy := e, fwhmMean := .days (.fin 0) } (flareGenIn { FlareGenerator.off with minEnergy := m }) :=
    ⟨unit_same _ _, unit_same _ _, unit_same _ _, rfl, rfl, rfl, he, rfl⟩
  exact (C139_flares.1 _ _ h).1 m T e t he ht

/-- What is true of **C140**: the generator that is switched off draws no flares, for any time in whatever unit.  Given a minimum energy and
also a mean width, it draws as many flares as the Poisson draw says. -/
theorem C140_switch_on_partial (t : Qty) (T : ℝ) (ht : SameQty t (.days (.fin T))) (k : ℕ) (d : (n : ℕ) → FlareDraws n) :
    FlareGeneratorQ.off.series t k d = .ok [] ∧
    ∀ e w m W, SameQty e (.erg (.fin m)) → SameQty w (.days (.fin W)) → 0 < m → 0 < W → 0 < T →
      ∃ l, { FlareGeneratorQ.off with minEnergy := e, fwhmMean := w }.series t k d = .ok l ∧ l.length = k := by
  refine ⟨?_, fun e w m W he hw hm hW hT => ?_⟩
  · have h := off_nexp ht .pinf (e := .erg .pinf) (unit_same _ _)
    have h2 := off_series T k d
    unfold FlareGeneratorQ.series
    rw [show FlareGeneratorQ.off.nTotal t = _ from h]
    simp only [Except.bind]
    have h3 : Np.poisson ({ FlareGenerator.off with minEnergy := .pinf }.nTotal T) k = .ok 0 := by
      have : ({ FlareGenerator.off with minEnergy := .pinf } : FlareGenerator).nTotal T = .fin 0 := by
        have hr : Fl.rpow .pinf (-0.829) = .fin 0 := by
          unfold Fl.rpow; simp only; norm_num
        unfold FlareGenerator.nTotal FlareGenerator.nexpGreaterThan FlareGenerator.frequencyGreaterThan
        simp only [FlareGenerator.off]
        rw [hr, Fl.fin_mul, Fl.fin_mul, mul_zero, zero_mul]
      rw [this]
      simp [Np.poisson]
    rw [h3]
    simp
  · have h : SameFlareGen { FlareGeneratorQ.off with minEnergy := e, fwhmMean := w }
        (flareGenIn { FlareGenerator.off with minEnergy := .fin m, fwhmMean := W }) :=
      ⟨unit_same _ _, unit_same _ _, hw, rfl, rfl, rfl, he, rfl⟩
    obtain ⟨l, e1, e2, -⟩ := (C51_series.2 { FlareGenerator.off with minEnergy := .fin m, fwhmMean := W } m 2 T k d rfl hm
      (by norm_num [FlareGenerator.off]) rfl (by norm_num) hW (by simp [FlareGenerator.off]) (by simp [FlareGenerator.off])).2.2 hT
    obtain ⟨l', e3, e4⟩ := outcome_ok ((C139_flares.1 _ _ h).2.2 T t k d ht) e1
    exact ⟨l', e3, by rw [List.Forall₂.length_eq e4, e2]⟩

/-- **C140** is false of the code.  `FlareGenerator.off()`, the generator of every star made without one, has a mean width in ergs.  Once it is
given a finite minimum energy, drawing flares raises `UnitConversionError` whenever there is a flare to draw. -/
theorem C140_counterexample (t e : Qty) (T m : ℝ) (ht : SameQty t (.days (.fin T))) (he : SameQty e (.erg (.fin m))) (hm : 0 < m) (hT : 0 < T)
    (k : ℕ) (hk : 0 < k) (d : (n : ℕ) → FlareDraws n) :
    { FlareGeneratorQ.off with minEnergy := e }.series t k d = .error .unitConversion := by
  unfold FlareGeneratorQ.series
  rw [off_nexp ht (.fin m) he]
  have hp : Np.poisson ({ FlareGenerator.off with minEnergy := .fin m }.nTotal T) k = .ok k := by
    have : 0 < (10 : ℝ) ^ FlareGenerator.off.beta * m ^ FlareGenerator.off.alpha * T := by positivity
    unfold FlareGenerator.nTotal
    rw [nexp_fin _ hm]
    unfold Np.poisson
    simp only
    rw [if_neg (not_lt.mpr this.le), if_neg this.ne']
  simp only [Except.bind]
  rw [hp]
  simp only
  rw [if_neg hk.ne']
  have hq : ∃ E, ({ FlareGeneratorQ.off with minEnergy := e } : FlareGeneratorQ).quantile (List.ofFn fun i => ((d k).uE i : ℝ)) = .ok E := by
    unfold FlareGeneratorQ.quantile
    rw [if_neg, if_neg]
    · exact ⟨_, rfl⟩
    · norm_num [FlareGeneratorQ.off]
    · rw [not_not]
      constructor <;>
      · intro x hx
        rw [List.mem_ofFn] at hx
        obtain ⟨i, rfl⟩ := hx
        first | exact ((d k).uE i).2.1 | exact ((d k).uE i).2.2
  obtain ⟨E, hE⟩ := hq
  obtain ⟨pk, hp1, -⟩ := C46_peaks FlareGenerator.off 2 rfl (by norm_num) k hk (d k).clusters (d k).expo
  have hp2 : ({ FlareGeneratorQ.off with minEnergy := e } : FlareGeneratorQ).getPeaks k (d k).clusters (d k).expo = .ok pk := hp1
  rw [hE, hp2]
  simp only
  have hw : ({ FlareGeneratorQ.off with minEnergy := e } : FlareGeneratorQ).genFwhm (d k).zF = .error .unitConversion := by
    unfold FlareGeneratorQ.genFwhm Qty.toReal Qty.toValue
    rw [if_neg]
    · rfl
    · intro h
      have := congrFun h .mass
      simp [FlareGeneratorQ.off, Qty.erg, Dim.energy, Dim.time] at this
  rw [hw]

/-- Non-trivial instance of C139: a flare of 10²⁵ joules and three hours peaking after six hours, whose visible area is asked for at a time in
hours; the flare in ergs and days. -/
example (x y h : ℝ) :
    let f : FlareQ := ⟨⟨.fin 3, 1 / 24, .time⟩, ⟨.fin 1e25, 1e7, .energy⟩, .degrees (.fin x), .degrees (.fin y), .kelvin (.fin 9000), ⟨.fin 6, 1 / 24, .time⟩⟩
    f.areacurve ⟨[h], 1 / 24, .time⟩ = .ok [(⟨1 / 8, .fin 1e32, x * (π / 180), y * (π / 180), 9000, 1 / 4⟩ : StellarFlare).areaAt (h / 24)] := by
  intro f
  have hd : ∀ x : ℝ, SameQty (.degrees (.fin x)) (unit (.fin (x * (π / 180))) .angle) := fun x =>
    ⟨rfl, by unfold Qty.degrees; positivity, one_pos, by simp only [Qty.degrees, unit, Fl.fin_mul, _root_.mul_one]⟩
  refine ((C139_flares.2.1 f ⟨1 / 8, .fin 1e32, x * (π / 180), y * (π / 180), 9000, 1 / 4⟩
    ⟨?_, ?_, hd x, hd y, unit_same _ _, ?_⟩).2 ⟨[h], 1 / 24, .time⟩ [h / 24] ⟨rfl, by norm_num, one_pos, ?_⟩).1
  · exact ⟨rfl, by norm_num [f], one_pos, by simp only [f, flareIn, unit, Fl.fin_mul, Fl.fin_inj]; norm_num⟩
  · exact ⟨rfl, by norm_num [f], one_pos, by simp only [f, flareIn, unit, Fl.fin_mul, Fl.fin_inj]; norm_num⟩
  · exact ⟨rfl, by norm_num [f], one_pos, by simp only [f, flareIn, unit, Fl.fin_mul, Fl.fin_inj]; norm_num⟩
  · exact List.Forall₂.cons (by ring) List.Forall₂.nil

/-- Non-trivial instance of C140: 10³³ erg, one day, three flares. -/
example (d : (n : ℕ) → FlareDraws n) :
    { FlareGeneratorQ.off with minEnergy := .erg (.fin 1e33) }.series (.hours (.fin 24)) 3 d = .error .unitConversion :=
  C140_counterexample (.hours (.fin 24)) _ 1 1e33 ⟨rfl, by norm_num [Qty.hours], one_pos, by simp only [Qty.hours, Qty.days, Fl.fin_mul, Fl.fin_inj]; norm_num⟩
    (same_refl one_pos) (by norm_num) one_pos 3 (by norm_num) d

end Vsm
