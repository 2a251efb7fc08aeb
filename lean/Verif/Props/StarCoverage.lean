import Verif.Lemmas.Dict
import Verif.Lemmas.Round
import Verif.Props.Transit
import Verif.Props.StarDisk
import Verif.Props.StarState
import Verif.Props.FaculaMap

/-!
# Coverage fractions (C57–C60)
-/

noncomputable section

namespace Vsm

open Real Spec Np

/-! ## Shares of the disk -/

open Classical in
/-- Share of the disk (pixel weights `w`) at temperature `T`, counting each pixel with factor `c`. -/
def Spec.share {ι : Type} [Fintype ι] (w : ι → ℝ) (m : ι → ℝ) (c : ι → ℝ) (T : ℝ) : ℝ :=
  (∑ p, if m p = T then w p * c p else 0) / ∑ p, w p

section share
variable {ι : Type} [Fintype ι] {w m c : ι → ℝ}

theorem share_nonneg (hw : ∀ p, 0 ≤ w p) (hc : ∀ p, 0 ≤ c p) (T : ℝ) : 0 ≤ share w m c T := by
  refine div_nonneg (Finset.sum_nonneg fun p _ => ?_) (Finset.sum_nonneg fun p _ => hw p)
  split_ifs
  · exact mul_nonneg (hw p) (hc p)
  · exact le_rfl

theorem share_mono (hw : ∀ p, 0 ≤ w p) {c' : ι → ℝ} (hc : ∀ p, c p ≤ c' p) (T : ℝ) :
    share w m c T ≤ share w m c' T := by
  refine div_le_div_of_nonneg_right (Finset.sum_le_sum fun p _ => ?_) (Finset.sum_nonneg fun p _ => hw p)
  split_ifs
  · exact mul_le_mul_of_nonneg_left (hc p) (hw p)
  · exact le_rfl

theorem share_add_le (hw : ∀ p, 0 ≤ w p) (hW : 0 < ∑ p, w p) {T T' : ℝ} (h : T ≠ T') :
    share w m (fun _ => 1) T + share w m (fun _ => 1) T' ≤ 1 := by
  classical
  unfold share
  rw [← add_div, div_le_one hW, ← Finset.sum_add_distrib]
  refine Finset.sum_le_sum fun p _ => ?_
  have := hw p
  split_ifs with h1 h2 h2
  · exact absurd (h1.symm.trans h2) h
  · simp
  · simp
  · simpa using this

theorem share_le_one (hw : ∀ p, 0 ≤ w p) (hW : 0 < ∑ p, w p) (T : ℝ) : share w m (fun _ => 1) T ≤ 1 := by
  have h1 := share_add_le (m := m) hw hW (show T ≠ T + 1 by simp)
  have h2 := share_nonneg (m := m) hw (c := fun _ => 1) (fun _ => zero_le_one) (T + 1)
  linarith

open Classical in
theorem sum_share : ∑ T ∈ Finset.univ.image m, share w m c T = (∑ p, w p * c p) / ∑ p, w p := by
  unfold share
  rw [← Finset.sum_div, Finset.sum_comm]
  congr 1
  refine Finset.sum_congr rfl fun p _ => ?_
  rw [Finset.sum_ite_eq, if_pos (Finset.mem_image_of_mem m (Finset.mem_univ p))]

theorem share_of_notMem {T : ℝ} (h : ∀ p, m p ≠ T) : share w m c T = 0 := by
  unfold share
  simp [h]

end share

theorem mem_uniqueTeffs {ι : Type} [Fintype ι] {m : ι → ℝ} {T : ℝ} : T ∈ Star.uniqueTeffs m ↔ ∃ p, m p = T := by
  classical
  simp [Star.uniqueTeffs]

theorem uniqueTeffs_nodup {ι : Type} [Fintype ι] (m : ι → ℝ) : (Star.uniqueTeffs m).Nodup := by
  classical
  exact Finset.sort_nodup _ _

theorem uniqueTeffs_sum {ι : Type} [Fintype ι] (m : ι → ℝ) (f : ℝ → ℝ) :
    ((Star.uniqueTeffs m).map f).sum = ∑ T ∈ Finset.univ.image m, f T := by
  classical
  rw [Finset.sum, ← Finset.sort_eq (r := (· ≤ ·)) (Finset.univ.image m), Multiset.map_coe, Multiset.sum_coe]
  simp [Star.uniqueTeffs]

/-! ## The raw dictionaries -/

section raw
variable {s : Star} {lat0 lon0 : ℝ} {w : s.grid.Pix → ℝ}

theorem areaWithTeff_eq (hw : ∀ p, s.weight lat0 lon0 p = .fin (w p)) (m c : s.grid.Pix → ℝ) (T : ℝ) (hW : ∑ p, w p ≠ 0) :
    s.areaWithTeff lat0 lon0 m (fun p => .fin (c p)) T / ∑ p, s.weight lat0 lon0 p = .fin (share w m c T) := by
  unfold Star.areaWithTeff share
  simp only [hw]
  rw [Fl.sum_fin, ← Fl.fin_div hW]
  refine congrArg (· / Fl.fin (∑ p, w p)) ?_
  rw [← Fl.sum_fin]
  refine Finset.sum_congr rfl fun p _ => ?_
  by_cases h : m p = T <;> simp [h]

/-- Value stored under a key before granulation. -/
def rawVal (w m c : s.grid.Pix → ℝ) (granTeff : ℝ) (k : ℤ) : Option ℝ :=
  open Classical in
  if (∀ p, m p ≠ granTeff) ∧ Star.key granTeff = k then some 0
  else ((Star.uniqueTeffs m).reverse.find? fun T => decide (Star.key T = k)).map (share w m c)

theorem rawData_get? (hw : ∀ p, s.weight lat0 lon0 p = .fin (w p)) (hW : ∑ p, w p ≠ 0) (m c : s.grid.Pix → ℝ)
    (granTeff : ℝ) (k : ℤ) :
    Dict.get? (s.rawData lat0 lon0 m (fun p => .fin (c p)) granTeff) k = (rawVal w m c granTeff k).map .fin := by
  classical
  have e : ∀ d : Dict ℤ Fl, (Star.uniqueTeffs m).foldl (fun d teff => Dict.set d (Star.key teff)
      (s.areaWithTeff lat0 lon0 m (fun p => .fin (c p)) teff / ∑ p, s.weight lat0 lon0 p)) d =
      (Star.uniqueTeffs m).foldl (fun d teff => Dict.set d (Star.key teff) (.fin (share w m c teff))) d := by
    intro d; congr 1; funext d T; rw [areaWithTeff_eq hw m c T hW]
  unfold Star.rawData rawVal
  simp only [e, mem_uniqueTeffs]
  by_cases h : ∃ p, m p = granTeff
  · rw [if_pos h, if_neg (by rintro ⟨h', -⟩; obtain ⟨p, hp⟩ := h; exact h' p hp), Dict.get?_foldl]
    simp only [Dict.get?, Option.or_none, Option.map_map]
    rfl
  · rw [if_neg h, Dict.get?_set]
    push Not at h
    by_cases hk : Star.key granTeff = k
    · rw [if_pos hk, if_pos ⟨h, hk⟩]; rfl
    · rw [if_neg hk, if_neg (fun h' => hk h'.2), Dict.get?_foldl]
      simp only [Dict.get?, Option.or_none, Option.map_map]
      rfl

theorem rawData_keys (m : s.grid.Pix → ℝ) (c c' : s.grid.Pix → Fl) (granTeff : ℝ) :
    Dict.keys (s.rawData lat0 lon0 m c granTeff) = Dict.keys (s.rawData lat0 lon0 m c' granTeff) ∧
      (Dict.keys (s.rawData lat0 lon0 m c granTeff)).Nodup := by
  classical
  unfold Star.rawData
  have h1 := Dict.keys_foldl Star.key
    (fun teff => s.areaWithTeff lat0 lon0 m c teff / ∑ p, s.weight lat0 lon0 p)
    (fun teff => s.areaWithTeff lat0 lon0 m c' teff / ∑ p, s.weight lat0 lon0 p) (Star.uniqueTeffs m) [] [] rfl
  have h2 := Dict.nodup_foldl Star.key
    (fun teff => s.areaWithTeff lat0 lon0 m c teff / ∑ p, s.weight lat0 lon0 p) (Star.uniqueTeffs m) [] (by simp [Dict.keys])
  simp only
  split_ifs
  · exact ⟨h1, h2⟩
  · exact ⟨by rw [Dict.keys_set, Dict.keys_set, h1], Dict.nodup_set h2 _ _⟩

end raw

/-! ## The granulation step -/

theorem granulate_ok {d d' : Dict ℤ Fl} {kP kG : ℤ} {g : ℝ} : Star.granulate d kP kG g = .ok d' ↔
    ∃ P old, Dict.get? d kP = some P ∧ Dict.get? (Dict.set d kP (P * .fin (1 - g))) kG = some old ∧
      d' = Dict.set (Dict.set d kP (P * .fin (1 - g))) kG (old + P * .fin g) := by
  unfold Star.granulate Dict.get
  cases hP : Dict.get? d kP with
  | none => simp [bind, Except.bind]
  | some P =>
    simp only [bind, Except.bind, pure, Except.pure, Option.some.injEq]
    cases ho : Dict.get? (Dict.set d kP (P * .fin (1 - g))) kG with
    | none =>
      simp only [reduceCtorEq, false_iff]
      rintro ⟨P', old, rfl, h, -⟩
      rw [ho] at h; cases h
    | some old =>
      simp only [Except.ok.injEq]
      constructor
      · intro h; exact ⟨P, old, rfl, ho, h.symm⟩
      · rintro ⟨P', old', rfl, h, h'⟩
        rw [ho, Option.some.injEq] at h
        rw [h', h]

/-- The granulation step fails only with `KeyError`, and only if one of the two keys is missing. -/
theorem granulate_total {d : Dict ℤ Fl} {kP kG : ℤ} (g : ℝ) (hP : Dict.get? d kP ≠ none) (hG : Dict.get? d kG ≠ none) :
    ∃ d', Star.granulate d kP kG g = .ok d' := by
  obtain ⟨P, hP⟩ := Option.ne_none_iff_exists'.mp hP
  obtain ⟨G, hG⟩ := Option.ne_none_iff_exists'.mp hG
  by_cases h : kP = kG
  · exact ⟨_, granulate_ok.mpr ⟨P, P * .fin (1 - g), hP, by rw [Dict.get?_set, if_pos h], rfl⟩⟩
  · exact ⟨_, granulate_ok.mpr ⟨P, G, hP, by rw [Dict.get?_set, if_neg h, hG], rfl⟩⟩

theorem granulate_error {d : Dict ℤ Fl} {kP kG : ℤ} {g : ℝ} {e : PyErr} : Star.granulate d kP kG g = .error e ↔
    e = .keyError ∧ (Dict.get? d kP = none ∨ Dict.get? d kG = none) := by
  constructor
  · intro h
    by_cases hP : Dict.get? d kP = none
    · unfold Star.granulate Dict.get at h
      rw [hP] at h
      cases h
      exact ⟨rfl, Or.inl hP⟩
    · by_cases hG : Dict.get? d kG = none
      · obtain ⟨P, hP⟩ := Option.ne_none_iff_exists'.mp hP
        have hne : kP ≠ kG := by rintro rfl; rw [hP] at hG; cases hG
        unfold Star.granulate Dict.get at h
        rw [hP] at h
        simp only [bind, Except.bind] at h
        rw [Dict.get?_set, if_neg hne, hG] at h
        cases h
        exact ⟨rfl, Or.inr hG⟩
      · obtain ⟨d', hd'⟩ := granulate_total g hP hG
        rw [hd'] at h; cases h
  · rintro ⟨rfl, h⟩
    cases hd : Star.granulate d kP kG g with
    | ok d' =>
      obtain ⟨P, old, h1, h2, -⟩ := granulate_ok.mp hd
      rcases h with h | h
      · rw [h] at h1; cases h1
      · rw [Dict.get?_set] at h2
        split_ifs at h2 with hk
        · rw [hk, h] at h1; cases h1
        · rw [h] at h2; cases h2
    | error e =>
      unfold Star.granulate Dict.get at hd
      cases hP : Dict.get? d kP with
      | none => rw [hP] at hd; cases hd; rfl
      | some P =>
        rw [hP] at hd
        simp only [bind, Except.bind] at hd
        cases ho : Dict.get? (Dict.set d kP (P * .fin (1 - g))) kG with
        | none => rw [ho] at hd; cases hd; rfl
        | some o => rw [ho] at hd; cases hd

/-- Effect of the granulation step on a dictionary whose entries at the two keys are real numbers. -/
theorem granulate_get? {d d' : Dict ℤ Fl} {kP kG : ℤ} {g : ℝ} (h : Star.granulate d kP kG g = .ok d') {P Q : ℝ}
    (hP : Dict.get? d kP = some (.fin P)) (hQ : Dict.get? d kG = some (.fin Q)) (k : ℤ) :
    Dict.get? d' k = if k = kG then some (.fin (if kP = kG then P else Q + P * g))
      else if k = kP then some (.fin (P * (1 - g))) else Dict.get? d k := by
  obtain ⟨P', old, h1, h2, rfl⟩ := granulate_ok.mp h
  rw [hP, Option.some.injEq] at h1
  subst h1
  rw [Dict.get?_set] at h2
  rw [Dict.get?_set, Dict.get?_set]
  by_cases hk : kP = kG
  · subst hk
    rw [if_pos rfl, Option.some.injEq] at h2
    subst h2
    by_cases hkk : k = kP
    · subst hkk; simp; ring
    · rw [if_neg (Ne.symm hkk), if_neg (Ne.symm hkk), if_neg hkk, if_neg hkk]
  · rw [if_neg hk, hQ, Option.some.injEq] at h2
    subst h2
    by_cases hkk : k = kG
    · subst hkk; simp [hk]
    · rw [if_neg (Ne.symm hkk), if_neg hkk]
      by_cases h3 : k = kP
      · subst h3; simp
      · rw [if_neg (Ne.symm h3), if_neg h3]

theorem granulate_keys {d d' : Dict ℤ Fl} {kP kG : ℤ} {g : ℝ} (h : Star.granulate d kP kG g = .ok d') :
    Dict.keys d' = Dict.keys d := by
  obtain ⟨P', old, h1, h2, rfl⟩ := granulate_ok.mp h
  have k1 : kP ∈ Dict.keys d := by
    by_contra hc; rw [Dict.get?_eq_none.mpr hc] at h1; cases h1
  have e1 : Dict.keys (Dict.set d kP (P' * .fin (1 - g))) = Dict.keys d := by rw [Dict.keys_set, if_pos k1]
  have k2 : kG ∈ Dict.keys (Dict.set d kP (P' * .fin (1 - g))) := by
    by_contra hc; rw [Dict.get?_eq_none.mpr hc] at h2; cases h2
  rw [Dict.keys_set, if_pos k2, e1]

/-- All values of the dictionary are real numbers. -/
def AllFin (d : Dict ℤ Fl) : Prop := ∀ v ∈ Dict.values d, ∃ x : ℝ, v = .fin x

theorem allFin_sum {d : Dict ℤ Fl} (h : AllFin d) : ∃ S : ℝ, (Dict.values d).sum = .fin S := by
  unfold AllFin at h
  generalize Dict.values d = l at h
  induction l with
  | nil => exact ⟨0, rfl⟩
  | cons v l ih =>
    obtain ⟨S, hS⟩ := ih fun v hv => h v (by simp [hv])
    obtain ⟨x, hx⟩ := h v (by simp)
    exact ⟨x + S, by rw [List.sum_cons, hS, hx, Fl.fin_add]⟩

theorem allFin_set {d : Dict ℤ Fl} (h : AllFin d) (k : ℤ) (x : ℝ) : AllFin (Dict.set d k (.fin x)) := by
  intro v hv
  rcases Dict.mem_values_set hv with hv | hv
  · exact h v hv
  · exact ⟨x, hv⟩

theorem allFin_get? {d : Dict ℤ Fl} (h : AllFin d) {k : ℤ} {v : Fl} (hv : Dict.get? d k = some v) : ∃ x : ℝ, v = .fin x :=
  h v (List.mem_map.mpr ⟨_, Dict.get?_mem hv, rfl⟩)

theorem allFin_of_get? {d : Dict ℤ Fl} (hd : (Dict.keys d).Nodup)
    (h : ∀ k v, Dict.get? d k = some v → ∃ x : ℝ, v = .fin x) : AllFin d := by
  intro v hv
  obtain ⟨⟨k, v'⟩, hm, rfl⟩ := List.mem_map.mp hv
  exact h k v' (Dict.get?_of_mem hd hm)

/-- The granulation step keeps the sum of all values. -/
theorem granulate_sum {d d' : Dict ℤ Fl} {kP kG : ℤ} {g : ℝ} (hd : AllFin d) (h : Star.granulate d kP kG g = .ok d') :
    (Dict.values d').sum = (Dict.values d).sum ∧ AllFin d' := by
  obtain ⟨P, old, h1, h2, rfl⟩ := granulate_ok.mp h
  obtain ⟨p, rfl⟩ := allFin_get? hd h1
  simp only [Fl.fin_mul] at h2 ⊢
  have a1 := allFin_set hd kP (p * (1 - g))
  obtain ⟨o, rfl⟩ := allFin_get? a1 h2
  have a2 := allFin_set a1 kG (o + p * g)
  obtain ⟨S, hS⟩ := allFin_sum hd
  obtain ⟨S1, hS1⟩ := allFin_sum a1
  obtain ⟨S2, hS2⟩ := allFin_sum a2
  have e1 := Dict.sum_set h1 (.fin (p * (1 - g)))
  have e2 := Dict.sum_set h2 (.fin (o + p * g))
  rw [hS, hS1, Fl.fin_add, Fl.fin_add, Fl.fin_inj] at e1
  rw [hS1, hS2, Fl.fin_add, Fl.fin_add, Fl.fin_inj] at e2
  refine ⟨?_, by rw [Fl.fin_add]; exact a2⟩
  rw [Fl.fin_add, hS2, hS, Fl.fin_inj]
  linarith

/-! ## `calc_coverage` taken apart -/

theorem calcCoverage_ok {s : Star} {lat0 lon0 g orbit r phase incl : ℝ} {total cov : Dict ℤ Fl} {plf : Fl} :
    s.calcCoverage lat0 lon0 g orbit r phase incl = .ok (total, cov, plf) ↔
    ∃ m mask gr, s.addFaculaeToMap lat0 lon0 = .ok m ∧ s.transitMask lat0 lon0 orbit r phase incl = .ok (mask, plf) ∧
      s.granulation = some gr ∧
      Star.granulate (s.rawData lat0 lon0 m (fun _ => .fin 1) (s.teff - gr.dteff)) (Star.key s.teff)
        (Star.key (s.teff - gr.dteff)) g = .ok total ∧
      Star.granulate (s.rawData lat0 lon0 m mask (s.teff - gr.dteff)) (Star.key s.teff)
        (Star.key (s.teff - gr.dteff)) g = .ok cov := by
  unfold Star.calcCoverage
  cases hm : s.addFaculaeToMap lat0 lon0 with
  | error e => simp [bind, Except.bind]
  | ok m =>
    cases ht : s.transitMask lat0 lon0 orbit r phase incl with
    | error e => simp [bind, Except.bind]
    | ok mp =>
      obtain ⟨mask, f⟩ := mp
      cases hgr : s.granulation with
      | none => simp [bind, Except.bind]
      | some gr =>
        simp only [bind, Except.bind, pure, Except.pure, Except.ok.injEq, Prod.mk.injEq, Option.some.injEq]
        cases h1 : Star.granulate (s.rawData lat0 lon0 m (fun _ => .fin 1) (s.teff - gr.dteff)) (Star.key s.teff)
            (Star.key (s.teff - gr.dteff)) g with
        | error e =>
          simp only [reduceCtorEq, false_iff]
          rintro ⟨m', mask', gr', rfl, ⟨rfl, rfl⟩, rfl, h, -⟩
          rw [h1] at h; cases h
        | ok t =>
          cases h2 : Star.granulate (s.rawData lat0 lon0 m mask (s.teff - gr.dteff)) (Star.key s.teff)
              (Star.key (s.teff - gr.dteff)) g with
          | error e =>
            simp only [reduceCtorEq, false_iff]
            rintro ⟨m', mask', gr', rfl, ⟨rfl, rfl⟩, rfl, -, h⟩
            rw [h2] at h; cases h
          | ok c =>
            simp only [Except.ok.injEq, Prod.mk.injEq]
            constructor
            · rintro ⟨rfl, rfl, rfl⟩
              exact ⟨m, mask, gr, rfl, ⟨rfl, rfl⟩, rfl, h1, h2⟩
            · rintro ⟨m', mask', gr', rfl, ⟨rfl, rfl⟩, rfl, h3, h4⟩
              rw [h1] at h3; rw [h2] at h4
              exact ⟨Except.ok.inj h3, Except.ok.inj h4, rfl⟩

/-! ## Facts about the stored values -/

section vals
variable {s : Star} {w m c : s.grid.Pix → ℝ}

theorem rawVal_bounds (hw : ∀ p, 0 ≤ w p) (hW : 0 < ∑ p, w p) (hc0 : ∀ p, 0 ≤ c p) (hc1 : ∀ p, c p ≤ 1)
    {G : ℝ} {k : ℤ} {t : ℝ} (h : rawVal w m (fun _ => 1) G k = some t) :
    ∃ u, rawVal w m c G k = some u ∧ 0 ≤ u ∧ u ≤ t ∧ t ≤ 1 := by
  classical
  unfold rawVal at h ⊢
  split_ifs at h with hk
  · rw [if_pos hk]
    cases h
    exact ⟨0, rfl, le_rfl, le_rfl, zero_le_one⟩
  · rw [if_neg hk]
    obtain ⟨T, hT, rfl⟩ := Option.map_eq_some_iff.mp h
    exact ⟨share w m c T, by rw [hT]; rfl, share_nonneg hw hc0 T, share_mono hw hc1 T, share_le_one hw hW T⟩

theorem rawVal_isSome {G : ℝ} {k : ℤ} (c' : s.grid.Pix → ℝ) {t : ℝ} (h : rawVal w m c G k = some t) :
    ∃ u, rawVal w m c' G k = some u := by
  classical
  unfold rawVal at h ⊢
  split_ifs at h with hk
  · rw [if_pos hk]; exact ⟨0, rfl⟩
  · rw [if_neg hk]
    obtain ⟨T, hT, rfl⟩ := Option.map_eq_some_iff.mp h
    exact ⟨share w m c' T, by rw [hT]; rfl⟩

/-- Two different keys hold shares of different temperatures. -/
theorem rawVal_add_le (hw : ∀ p, 0 ≤ w p) (hW : 0 < ∑ p, w p) {G : ℝ} {k k' : ℤ} (hk : k ≠ k') {t t' : ℝ}
    (h : rawVal w m (fun _ => 1) G k = some t) (h' : rawVal w m (fun _ => 1) G k' = some t') : t + t' ≤ 1 := by
  classical
  have b := (rawVal_bounds (c := fun _ => 1) hw hW (fun _ => zero_le_one) (fun _ => le_rfl) h)
  have b' := (rawVal_bounds (c := fun _ => 1) hw hW (fun _ => zero_le_one) (fun _ => le_rfl) h')
  obtain ⟨-, -, -, -, b⟩ := b
  obtain ⟨-, -, -, -, b'⟩ := b'
  unfold rawVal at h h'
  split_ifs at h with h1
  · cases h; linarith
  · split_ifs at h' with h2
    · cases h'; linarith
    · obtain ⟨T, hT, rfl⟩ := Option.map_eq_some_iff.mp h
      obtain ⟨T', hT', rfl⟩ := Option.map_eq_some_iff.mp h'
      refine share_add_le hw hW ?_
      rintro rfl
      have e1 := List.find?_some hT
      have e2 := List.find?_some hT'
      simp only [decide_eq_true_eq] at e1 e2
      exact hk (e1.symm.trans e2)

theorem raw_allFin {lat0 lon0 : ℝ} (hw : ∀ p, s.weight lat0 lon0 p = .fin (w p)) (hW : ∑ p, w p ≠ 0)
    (m c : s.grid.Pix → ℝ) (G : ℝ) : AllFin (s.rawData lat0 lon0 m (fun p => .fin (c p)) G) := by
  refine allFin_of_get? (rawData_keys m _ (fun _ => .fin 1) G).2 fun k v hv => ?_
  rw [rawData_get? hw hW] at hv
  obtain ⟨x, -, rfl⟩ := Option.map_eq_some_iff.mp hv
  exact ⟨x, rfl⟩

end vals

/-- The observer sees at least one pixel that has an area. -/
def Spec.Visible (s : Star) (lat0 lon0 : ℝ) : Prop :=
  ∃ p, s.grid.area p ≠ .fin 0 ∧ 0 < s.grid.mu lat0 lon0 p

/-- Weight of each pixel in the disk average: limb darkening × area × projection. -/
def Spec.pixelWeight (s : Star) (a : s.grid.Pix → ℝ) (lat0 lon0 : ℝ) (p : s.grid.Pix) : ℝ :=
  quadraticLaw s.u1 s.u2 (s.grid.mu lat0 lon0 p) * (a p * max (s.grid.mu lat0 lon0 p) 0)

theorem visible_pos (s : Star) (hg : goodGrid s.grid) (hld : PhysicalLD s.u1 s.u2) {a : s.grid.Pix → ℝ}
    (ha : ∀ p, s.grid.area p = .fin (a p)) {lat0 lon0 : ℝ} (hv : Visible s lat0 lon0) :
    (∀ p, 0 ≤ pixelWeight s a lat0 lon0 p) ∧ 0 < ∑ p, pixelWeight s a lat0 lon0 p := by
  obtain ⟨a', ha', ha0', -⟩ := C02_area_partition s.grid hg
  have ha0 : ∀ p, 0 ≤ a p := fun p => by
    have := ha p; rw [ha' p, Fl.fin_inj] at this; rw [← this]; exact ha0' p
  have hnn := fun p => weight_nonneg s hld a ha0 lat0 lon0 p
  refine ⟨hnn, ?_⟩
  obtain ⟨p, h1, h2⟩ := hv
  refine Finset.sum_pos' (fun q _ => hnn q) ⟨p, Finset.mem_univ _, ?_⟩
  have hap : 0 < a p := by
    rcases eq_or_lt_of_le (ha0 p) with h | h
    · exact absurd (by rw [ha p, ← h]) h1
    · exact h
  unfold pixelWeight
  rw [max_eq_left h2.le]
  exact mul_pos (quadraticLaw_pos hld h2 (C03_mu_inner s.grid lat0 lon0 p).2.1.2) (mul_pos hap h2)

/-- Every observer of a rectangular grid with at least 4 latitudes and 3 longitudes sees something. -/
theorem visible_rect (s : Star) {nlat nlon : ℕ} (hg : s.grid = .rect nlat nlon) (h1 : 4 ≤ nlat) (h2 : 3 ≤ nlon)
    (lat0 lon0 : ℝ) : Visible s lat0 lon0 := by
  unfold Visible
  rw [hg]
  obtain ⟨p, hp, hm⟩ := exists_visible nlat nlon h1 h2 lat0 lon0
  refine ⟨p, ?_, hm⟩
  rw [rect_area_eq nlat nlon (by omega) (by omega), Ne, Fl.fin_inj]
  exact (div_pos hp (rect_cos_sum_pos nlat nlon (by omega) (by omega))).ne'

theorem mask_real {s : Star} (hg : goodGrid s.grid) (hR : s.radius ≠ 0) {lat0 lon0 orbit r phase incl : ℝ}
    (h0 : lat0 ∈ Set.Icc (-(π / 2)) (π / 2)) {mask : s.grid.Pix → Fl} {plf : Fl}
    (h : s.transitMask lat0 lon0 orbit r phase incl = .ok (mask, plf)) :
    ∃ c : s.grid.Pix → ℝ, mask = (fun p => .fin (c p)) ∧ (∀ p, 0 ≤ c p) ∧ ∀ p, c p ≤ 1 := by
  obtain ⟨a, ha, -⟩ := C02_area_partition s.grid hg
  choose c hc h1 h2 _ using C63_transit_mask s hg hR a ha lat0 lon0 orbit r phase incl h0 mask plf h _ _ _ rfl rfl
  exact ⟨c, funext hc, h1, h2⟩

/-! ## C58 -/

/-- **C58** With physical limb darkening, a granulation fraction in `[0,1]` and an observer who sees
something, every total fraction returned by `calc_coverage` is a real number in `[0,1]`, and the covered
fraction is reported for the same temperatures and lies between 0 and the total fraction. -/
theorem C58_fractions (s : Star) (hg : goodGrid s.grid) (hR : s.radius ≠ 0) (hld : PhysicalLD s.u1 s.u2)
    (lat0 lon0 : ℝ) (hv : Visible s lat0 lon0) (h0 : lat0 ∈ Set.Icc (-(π / 2)) (π / 2)) (gran : ℝ)
    (hgran : gran ∈ Set.Icc (0 : ℝ) 1) (orbit r phase incl : ℝ) (total cov : Dict ℤ Fl) (plf : Fl)
    (h : s.calcCoverage lat0 lon0 gran orbit r phase incl = .ok (total, cov, plf)) :
    Dict.keys total = Dict.keys cov ∧ (Dict.keys total).Nodup ∧
    ∀ k v, Dict.get? total k = some v →
      ∃ t u : ℝ, v = .fin t ∧ Dict.get? cov k = some (.fin u) ∧ 0 ≤ u ∧ u ≤ t ∧ t ≤ 1 := by
  obtain ⟨m, mask, gr, hm, ht, hgr, h1, h2⟩ := calcCoverage_ok.mp h
  obtain ⟨a, ha, -⟩ := C02_area_partition s.grid hg
  obtain ⟨hnn, hW⟩ := visible_pos s hg hld ha hv
  obtain ⟨c, rfl, hc0, hc1⟩ := mask_real hg hR h0 ht
  have hw : ∀ p, s.weight lat0 lon0 p = .fin (pixelWeight s a lat0 lon0 p) := weight_eq s a ha lat0 lon0
  set w := pixelWeight s a lat0 lon0
  set G := s.teff - gr.dteff
  have rk := rawData_keys (s := s) (lat0 := lat0) (lon0 := lon0) m (fun _ => .fin 1) (fun p => .fin (c p)) G
  have rt := rawData_get? hw hW.ne' m (fun _ => 1) G
  have rc := rawData_get? hw hW.ne' m c G
  refine ⟨by rw [granulate_keys h1, granulate_keys h2]; exact rk.1, by rw [granulate_keys h1]; exact rk.2, ?_⟩
  -- values at the photosphere and granulation keys
  obtain ⟨P', o', hP', ho', -⟩ := granulate_ok.mp h1
  have hQ' : Dict.get? (s.rawData lat0 lon0 m (fun _ => .fin 1) G) (Star.key G) ≠ none := by
    intro hn
    by_cases hk : Star.key s.teff = Star.key G
    · rw [← hk, hP'] at hn; cases hn
    · rw [Dict.get?_set, if_neg hk, hn] at ho'; cases ho'
  obtain ⟨Q', hQ'⟩ := Option.ne_none_iff_exists'.mp hQ'
  rw [rt] at hP' hQ'
  obtain ⟨P, eP, rfl⟩ := Option.map_eq_some_iff.mp hP'
  obtain ⟨Q, eQ, rfl⟩ := Option.map_eq_some_iff.mp hQ'
  obtain ⟨p, ep, p0, p1, p2⟩ := rawVal_bounds hnn hW hc0 hc1 eP
  obtain ⟨q, eq, q0, q1, q2⟩ := rawVal_bounds hnn hW hc0 hc1 eQ
  have gt := granulate_get? h1 (P := P) (Q := Q) (by rw [rt, eP]; rfl) (by rw [rt, eQ]; rfl)
  have gc := granulate_get? h2 (P := p) (Q := q) (by rw [rc, ep]; rfl) (by rw [rc, eq]; rfl)
  obtain ⟨g0, g1⟩ := hgran
  intro k v hk
  rw [gt] at hk
  rw [gc]
  by_cases hkG : k = Star.key G
  · rw [if_pos hkG, Option.some.injEq] at hk
    rw [if_pos hkG]
    by_cases hPG : Star.key s.teff = Star.key G
    · rw [if_pos hPG] at hk ⊢
      exact ⟨P, p, hk.symm, rfl, p0, p1, p2⟩
    · rw [if_neg hPG] at hk ⊢
      have hs := rawVal_add_le hnn hW hPG eP eQ
      refine ⟨_, _, hk.symm, rfl, by positivity, ?_, ?_⟩
      · nlinarith
      · nlinarith
  · rw [if_neg hkG] at hk ⊢
    by_cases hkP : k = Star.key s.teff
    · rw [if_pos hkP, Option.some.injEq] at hk
      rw [if_pos hkP]
      exact ⟨_, _, hk.symm, rfl, mul_nonneg p0 (by linarith), mul_le_mul_of_nonneg_right p1 (by linarith), by nlinarith⟩
    · rw [if_neg hkP, rt] at hk
      rw [if_neg hkP, rc]
      obtain ⟨t, et, rfl⟩ := Option.map_eq_some_iff.mp hk
      obtain ⟨u, eu, u0, u1, u2⟩ := rawVal_bounds hnn hW hc0 hc1 et
      exact ⟨t, u, rfl, by rw [eu]; rfl, u0, u1, u2⟩

/-! ## C60 -/

/-- `d` arises from `d₀` by moving the fraction `g` of the entry at `kP` to the entry at `kG`. -/
def Spec.Moved (kP kG : ℤ) (g : ℝ) (d₀ d : Dict ℤ Fl) : Prop :=
  Dict.keys d = Dict.keys d₀ ∧ (∀ k, k ≠ kP → k ≠ kG → Dict.get? d k = Dict.get? d₀ k) ∧
  ∃ P Q : ℝ, Dict.get? d₀ kP = some (.fin P) ∧ Dict.get? d₀ kG = some (.fin Q) ∧
    (kP ≠ kG → Dict.get? d kP = some (.fin ((1 - g) * P)) ∧ Dict.get? d kG = some (.fin (Q + g * P))) ∧
    (kP = kG → Dict.get? d kP = some (.fin P))

theorem granulate_moved {d d₀ d' : Dict ℤ Fl} {kP kG : ℤ} {g : ℝ} (hd : AllFin d)
    (h0 : Star.granulate d kP kG 0 = .ok d₀) (h : Star.granulate d kP kG g = .ok d') : Moved kP kG g d₀ d' := by
  obtain ⟨P', o', hP', ho', -⟩ := granulate_ok.mp h
  have hQ' : Dict.get? d kG ≠ none := by
    intro hn
    by_cases hk : kP = kG
    · rw [← hk, hP'] at hn; cases hn
    · rw [Dict.get?_set, if_neg hk, hn] at ho'; cases ho'
  obtain ⟨Q', hQ'⟩ := Option.ne_none_iff_exists'.mp hQ'
  obtain ⟨P, rfl⟩ := allFin_get? hd hP'
  obtain ⟨Q, rfl⟩ := allFin_get? hd hQ'
  have g0 := granulate_get? h0 hP' hQ'
  have g1 := granulate_get? h hP' hQ'
  refine ⟨by rw [granulate_keys h, granulate_keys h0], fun k k1 k2 => by rw [g0, g1, if_neg k2, if_neg k2, if_neg k1, if_neg k1],
    P, Q, ?_, ?_, fun hk => ⟨?_, ?_⟩, fun hk => ?_⟩
  · rw [g0]
    by_cases hk : kP = kG
    · rw [if_pos hk, if_pos hk]
    · rw [if_neg hk, if_pos rfl]; simp
  · rw [g0, if_pos rfl]
    by_cases hk : kP = kG
    · rw [if_pos hk]
      rw [hk, hQ'] at hP'
      rw [hP']
    · rw [if_neg hk]; simp
  · rw [g1, if_neg hk, if_pos rfl, mul_comm]
  · rw [g1, if_pos rfl, if_neg hk, mul_comm]
  · rw [g1, if_pos hk, if_pos hk]

/-- **C60** The granulation fraction only moves light from the photosphere entry to the granulation entry: for
any fraction `g`, `calc_coverage` fails exactly when it fails for fraction 0 and with the same
exception; otherwise both dictionaries have the entries of the fraction-0 result except that `g` times the photosphere
entry is taken from the photosphere and added to the granulation temperature. -/
theorem C60_granulation_moves (s : Star) (hg : goodGrid s.grid) (hR : s.radius ≠ 0) (lat0 lon0 W : ℝ)
    (hW : ∑ p, s.weight lat0 lon0 p = .fin W) (hW0 : W ≠ 0) (h0 : lat0 ∈ Set.Icc (-(π / 2)) (π / 2))
    (g orbit r phase incl : ℝ) :
    (∀ e, s.calcCoverage lat0 lon0 g orbit r phase incl = .error e ↔
      s.calcCoverage lat0 lon0 0 orbit r phase incl = .error e) ∧
    ∀ total₀ cov₀ plf gr, s.granulation = some gr →
      s.calcCoverage lat0 lon0 0 orbit r phase incl = .ok (total₀, cov₀, plf) →
      ∃ total cov, s.calcCoverage lat0 lon0 g orbit r phase incl = .ok (total, cov, plf) ∧
        Moved (Star.key s.teff) (Star.key (s.teff - gr.dteff)) g total₀ total ∧
        Moved (Star.key s.teff) (Star.key (s.teff - gr.dteff)) g cov₀ cov := by
  obtain ⟨a, ha, -⟩ := C02_area_partition s.grid hg
  have hw : ∀ p, s.weight lat0 lon0 p = .fin (pixelWeight s a lat0 lon0 p) := weight_eq s a ha lat0 lon0
  have hWw : ∑ p, pixelWeight s a lat0 lon0 p ≠ 0 := by
    simp only [hw, Fl.sum_fin, Fl.fin_inj] at hW
    rw [hW]; exact hW0
  -- success for one fraction implies success for any other
  have ok_ok : ∀ g g' : ℝ, ∀ t c f, s.calcCoverage lat0 lon0 g orbit r phase incl = .ok (t, c, f) →
      ∃ t' c', s.calcCoverage lat0 lon0 g' orbit r phase incl = .ok (t', c', f) := by
    intro g g' t c f h
    obtain ⟨m, mask, gr, hm, ht, hgr, h1, h2⟩ := calcCoverage_ok.mp h
    have key : ∀ d d' : Dict ℤ Fl, Star.granulate d (Star.key s.teff) (Star.key (s.teff - gr.dteff)) g = .ok d' →
        ∃ d'', Star.granulate d (Star.key s.teff) (Star.key (s.teff - gr.dteff)) g' = .ok d'' := by
      intro d d' hd
      cases hd' : Star.granulate d (Star.key s.teff) (Star.key (s.teff - gr.dteff)) g' with
      | ok d'' => exact ⟨d'', rfl⟩
      | error e =>
        rw [granulate_error.mpr ⟨rfl, (granulate_error.mp hd').2⟩] at hd
        cases hd
    obtain ⟨t', h1'⟩ := key _ _ h1
    obtain ⟨c', h2'⟩ := key _ _ h2
    exact ⟨t', c', calcCoverage_ok.mpr ⟨m, mask, gr, hm, ht, hgr, h1', h2'⟩⟩
  have err : ∀ g g' : ℝ, ∀ e, s.calcCoverage lat0 lon0 g orbit r phase incl = .error e →
      s.calcCoverage lat0 lon0 g' orbit r phase incl = .error e := by
    intro g g' e h
    unfold Star.calcCoverage at h ⊢
    cases hm : s.addFaculaeToMap lat0 lon0 with
    | error e' => rw [hm] at h; exact h
    | ok m =>
      rw [hm] at h
      cases ht : s.transitMask lat0 lon0 orbit r phase incl with
      | error e' => rw [ht] at h; exact h
      | ok mp =>
        rw [ht] at h
        cases hgr : s.granulation with
        | none => rw [hgr] at h; exact h
        | some gr =>
          rw [hgr] at h
          simp only [bind, Except.bind] at h ⊢
          cases h1 : Star.granulate (s.rawData lat0 lon0 m (fun _ => .fin 1) (s.teff - gr.dteff)) (Star.key s.teff)
              (Star.key (s.teff - gr.dteff)) g with
          | error e' =>
            rw [h1] at h
            obtain ⟨rfl, h1'⟩ := granulate_error.mp h1
            rw [granulate_error.mpr ⟨rfl, h1'⟩]
            exact h
          | ok t =>
            obtain ⟨t', ht'⟩ : ∃ t', Star.granulate (s.rawData lat0 lon0 m (fun _ => .fin 1) (s.teff - gr.dteff))
                (Star.key s.teff) (Star.key (s.teff - gr.dteff)) g' = .ok t' := by
              cases hd' : Star.granulate (s.rawData lat0 lon0 m (fun _ => .fin 1) (s.teff - gr.dteff))
                (Star.key s.teff) (Star.key (s.teff - gr.dteff)) g' with
              | ok d'' => exact ⟨d'', rfl⟩
              | error e =>
                rw [granulate_error.mpr ⟨rfl, (granulate_error.mp hd').2⟩] at h1
                cases h1
            rw [h1] at h
            rw [ht']
            simp only at h ⊢
            cases h2 : Star.granulate (s.rawData lat0 lon0 m mp.1 (s.teff - gr.dteff)) (Star.key s.teff)
                (Star.key (s.teff - gr.dteff)) g with
            | error e' =>
              rw [h2] at h
              obtain ⟨rfl, h2'⟩ := granulate_error.mp h2
              rw [granulate_error.mpr ⟨rfl, h2'⟩]
              exact h
            | ok c => rw [h2] at h; cases h
  refine ⟨fun e => ⟨err g 0 e, err 0 g e⟩, ?_⟩
  intro total₀ cov₀ plf gr hgr h
  obtain ⟨total, cov, h'⟩ := ok_ok 0 g _ _ _ h
  refine ⟨total, cov, h', ?_⟩
  obtain ⟨m, mask, gr', hm, ht, hgr', h1, h2⟩ := calcCoverage_ok.mp h
  obtain ⟨m₁, mask₁, gr₁, hm₁, ht₁, hgr₁, h3, h4⟩ := calcCoverage_ok.mp h'
  rw [hm, Except.ok.injEq] at hm₁
  rw [ht, Except.ok.injEq, Prod.mk.injEq] at ht₁
  rw [hgr, Option.some.injEq] at hgr' hgr₁
  obtain ⟨rfl, -⟩ := ht₁
  subst hm₁ hgr' hgr₁
  obtain ⟨c, rfl, -⟩ := mask_real hg hR h0 ht
  exact ⟨granulate_moved (raw_allFin hw hWw m (fun _ => 1) _) h1 h3, granulate_moved (raw_allFin hw hWw m c _) h2 h4⟩

/-! ## C57 -/

/-- Keys are the temperatures rounded to the nearest hundredth of a kelvin. -/
theorem key_near (T : ℝ) : |(Star.key T : ℝ) - 100 * T| ≤ 1 / 2 := abs_roundHalfEven_sub_le _

theorem key_inj_of_sep {T T' : ℝ} (h : T ≠ T' → 1 / 100 < |T - T'|) (hk : Star.key T = Star.key T') : T = T' := by
  by_contra hne
  have h1 := abs_le.mp (key_near T)
  have h2 := abs_le.mp (key_near T')
  rw [hk] at h1
  have : |T - T'| ≤ 1 / 100 := by rw [abs_le]; constructor <;> linarith
  linarith [h hne]

section entries
variable {s : Star} {lat0 lon0 : ℝ} {w m c : s.grid.Pix → ℝ}

theorem rawVal_of_mem {G T : ℝ} (hinj : ∀ T', (T' ∈ Set.range m ∨ T' = G) → Star.key T' = Star.key T → T' = T)
    (hT : T ∈ Set.range m ∨ T = G) : rawVal w m c G (Star.key T) = some (share w m c T) := by
  classical
  unfold rawVal
  by_cases hG : (∀ p, m p ≠ G) ∧ Star.key G = Star.key T
  · rw [if_pos hG]
    have := hinj G (Or.inr rfl) hG.2
    rw [← this, share_of_notMem hG.1]
  · rw [if_neg hG]
    have hmem : T ∈ Star.uniqueTeffs m := by
      rw [mem_uniqueTeffs]
      rcases hT with ⟨p, hp⟩ | rfl
      · exact ⟨p, hp⟩
      · by_contra hc; push Not at hc; exact hG ⟨hc, rfl⟩
    cases hf : (Star.uniqueTeffs m).reverse.find? fun T' => decide (Star.key T' = Star.key T) with
    | none =>
      rw [List.find?_eq_none] at hf
      exact absurd (hf T (by simpa using hmem)) (by simp)
    | some T' =>
      have h1 := List.find?_some hf
      have h2 := List.mem_of_find?_eq_some hf
      simp only [decide_eq_true_eq] at h1
      rw [List.mem_reverse, mem_uniqueTeffs] at h2
      rw [hinj T' (Or.inl h2) h1]
      rfl

theorem raw_sum (hw : ∀ p, s.weight lat0 lon0 p = .fin (w p)) (hW : ∑ p, w p ≠ 0) {G : ℝ}
    (hinj : ∀ T T', (T ∈ Set.range m ∨ T = G) → (T' ∈ Set.range m ∨ T' = G) → Star.key T = Star.key T' → T = T') :
    (Dict.values (s.rawData lat0 lon0 m (fun p => .fin (c p)) G)).sum = .fin ((∑ p, w p * c p) / ∑ p, w p) := by
  classical
  have e : ∀ d : Dict ℤ Fl, (Star.uniqueTeffs m).foldl (fun d teff => Dict.set d (Star.key teff)
      (s.areaWithTeff lat0 lon0 m (fun p => .fin (c p)) teff / ∑ p, s.weight lat0 lon0 p)) d =
      (Star.uniqueTeffs m).foldl (fun d teff => Dict.set d (Star.key teff) (.fin (share w m c teff))) d := by
    intro d; congr 1; funext d T; rw [areaWithTeff_eq hw m c T hW]
  have hmem : ∀ T ∈ Star.uniqueTeffs m, T ∈ Set.range m := fun T hT => mem_uniqueTeffs.mp hT
  have hnd : ((Star.uniqueTeffs m).map Star.key).Nodup :=
    List.Nodup.map_on (fun T hT T' hT' h => hinj T T' (Or.inl (hmem T hT)) (Or.inl (hmem T' hT')) h) (uniqueTeffs_nodup m)
  have hl := Dict.foldl_of_inj Star.key (fun T => Fl.fin (share w m c T)) (Star.uniqueTeffs m) [] hnd (by simp [Dict.keys])
  have hs : (Dict.values ((Star.uniqueTeffs m).map fun T => (Star.key T, Fl.fin (share w m c T)))).sum =
      .fin ((∑ p, w p * c p) / ∑ p, w p) := by
    rw [← sum_share (m := m), ← uniqueTeffs_sum m, ← Fl.list_sum_fin]
    simp only [Dict.values, List.map_map]
    rfl
  unfold Star.rawData
  simp only [e]
  rw [hl, List.nil_append]
  by_cases h : G ∈ Star.uniqueTeffs m
  · rw [if_pos h]; exact hs
  · rw [if_neg h, Dict.sum_set_new, hs]
    · simp
    · intro hk
      simp only [Dict.keys, List.map_map, List.mem_map, Function.comp] at hk
      obtain ⟨T, hT, hk⟩ := hk
      exact h (hinj T G (Or.inl (hmem T hT)) (Or.inr rfl) hk ▸ hT)

/-- Entries and sum of one of the two dictionaries when all temperatures have different keys. -/
theorem entries_of_sep (hw : ∀ p, s.weight lat0 lon0 p = .fin (w p)) (hW : ∑ p, w p ≠ 0) {G g : ℝ} {d : Dict ℤ Fl}
    (h : Star.granulate (s.rawData lat0 lon0 m (fun p => .fin (c p)) G) (Star.key s.teff) (Star.key G) g = .ok d)
    (hinj : ∀ T T', (T ∈ Set.range m ∨ T = s.teff ∨ T = G) → (T' ∈ Set.range m ∨ T' = s.teff ∨ T' = G) →
      Star.key T = Star.key T' → T = T') :
    (Dict.values d).sum = .fin ((∑ p, w p * c p) / ∑ p, w p) ∧
    (∀ T, (T ∈ Set.range m ∨ T = s.teff ∨ T = G) → Dict.get? d (Star.key T) = some (.fin (share w m c T +
      (if T = G then g * share w m c s.teff else 0) - (if T = s.teff then g * share w m c s.teff else 0)))) ∧
    (∀ k ∈ Dict.keys d, ∃ T, (T ∈ Set.range m ∨ T = G) ∧ k = Star.key T) := by
  classical
  have hinj' : ∀ T T', (T ∈ Set.range m ∨ T = G) → (T' ∈ Set.range m ∨ T' = G) → Star.key T = Star.key T' → T = T' :=
    fun T T' h1 h2 => hinj T T' (by tauto) (by tauto)
  have rg := rawData_get? hw hW m c G
  have hkeys : ∀ k, rawVal w m c G k ≠ none → ∃ T, (T ∈ Set.range m ∨ T = G) ∧ k = Star.key T := by
    intro k hk
    unfold rawVal at hk
    split_ifs at hk with h1
    · exact ⟨G, Or.inr rfl, h1.2.symm⟩
    · cases hf : (Star.uniqueTeffs m).reverse.find? fun T' => decide (Star.key T' = k) with
      | none => rw [hf] at hk; exact absurd rfl hk
      | some T =>
        have h1 := List.find?_some hf
        have h2 := List.mem_of_find?_eq_some hf
        simp only [decide_eq_true_eq] at h1
        rw [List.mem_reverse, mem_uniqueTeffs] at h2
        exact ⟨T, Or.inl h2, h1.symm⟩
  -- the photosphere temperature occurs, otherwise the lookup would have failed
  obtain ⟨P', o', hP', -, -⟩ := granulate_ok.mp h
  have hphot : s.teff ∈ Set.range m ∨ s.teff = G := by
    rw [rg] at hP'
    obtain ⟨x, hx, -⟩ := Option.map_eq_some_iff.mp hP'
    obtain ⟨T, hT, hk⟩ := hkeys (Star.key s.teff) (by rw [hx]; simp)
    have := hinj s.teff T (by tauto) (by tauto) hk
    rw [this]; exact hT
  have rv : ∀ T, (T ∈ Set.range m ∨ T = G) → Dict.get? (s.rawData lat0 lon0 m (fun p => .fin (c p)) G) (Star.key T) =
      some (.fin (share w m c T)) := by
    intro T hT
    rw [rg, rawVal_of_mem (fun T' h1 h2 => hinj' T' T h1 hT h2) hT]; rfl
  have hg := granulate_get? h (rv _ hphot) (rv G (Or.inr rfl))
  refine ⟨?_, ?_, ?_⟩
  · rw [(granulate_sum (raw_allFin hw hW m c G) h).1, raw_sum hw hW hinj']
  · intro T hT
    have hT' : T ∈ Set.range m ∨ T = G := by
      rcases hT with h1 | rfl | h1
      · exact Or.inl h1
      · exact hphot
      · exact Or.inr h1
    have k1 : Star.key T = Star.key G ↔ T = G := ⟨hinj' T G hT' (Or.inr rfl), fun h => by rw [h]⟩
    have k2 : Star.key T = Star.key s.teff ↔ T = s.teff := ⟨hinj' T s.teff hT' hphot, fun h => by rw [h]⟩
    have k3 : Star.key s.teff = Star.key G ↔ s.teff = G := ⟨hinj' s.teff G hphot (Or.inr rfl), fun h => by rw [h]⟩
    rw [hg]
    simp only [k1, k2, k3]
    by_cases h1 : T = G
    · by_cases h2 : s.teff = G
      · simp [h1, h2]
      · simp [h1, h2, Ne.symm h2]; ring
    · by_cases h2 : T = s.teff
      · rw [if_neg h1, if_pos h2, if_neg h1, if_pos h2, h2]
        congr 2; ring
      · rw [if_neg h1, if_neg h2, if_neg h1, if_neg h2, rv T hT']
        simp
  · intro k hk
    rw [granulate_keys h] at hk
    apply hkeys
    intro hn
    have := rg k
    rw [hn] at this
    exact Dict.get?_eq_none.mp this hk

end entries

/-- **C57** (partial) If any two different temperatures occurring (on the surface map, photosphere, granulation)
differ by more than 0.01 K and the disk has non-zero weight, the total fractions add up to exactly 1.  Moreover the
entry of each temperature is its share of the disk, with the granulation fraction moved; there are no other entries;
and the covered fractions are the same shares counted with the transit mask.
Missing: temperatures less than 0.01 K apart share a dict key and overwrite each other – refuted by
`C57_counterexample`. -/
theorem C57_shares_partial (s : Star) (hg : goodGrid s.grid) (hR : s.radius ≠ 0) (a : s.grid.Pix → ℝ)
    (ha : ∀ p, s.grid.area p = .fin (a p)) (lat0 lon0 : ℝ) (h0 : lat0 ∈ Set.Icc (-(π / 2)) (π / 2))
    (hW : ∑ p, pixelWeight s a lat0 lon0 p ≠ 0) (g orbit r phase incl : ℝ) (total cov : Dict ℤ Fl) (plf : Fl)
    (h : s.calcCoverage lat0 lon0 g orbit r phase incl = .ok (total, cov, plf)) (m : s.grid.Pix → ℝ)
    (hm : s.addFaculaeToMap lat0 lon0 = .ok m) (G : ℝ) (hG : ∃ gr, s.granulation = some gr ∧ G = s.teff - gr.dteff)
    (hsep : ∀ T ∈ Set.range m ∪ {s.teff, G}, ∀ T' ∈ Set.range m ∪ {s.teff, G}, T ≠ T' → 1 / 100 < |T - T'|) :
    (Dict.values total).sum = .fin 1 ∧
    ∃ label : ℝ → ℤ, (∀ T, |(label T : ℝ) - 100 * T| ≤ 1 / 2) ∧
      (∀ k ∈ Dict.keys total, ∃ T ∈ Set.range m ∪ {s.teff, G}, k = label T) ∧
      ∃ mask : s.grid.Pix → ℝ, s.transitMask lat0 lon0 orbit r phase incl = .ok (fun p => .fin (mask p), plf) ∧
      ∀ (d : Dict ℤ Fl) (c : s.grid.Pix → ℝ), (d = total ∧ c = fun _ => 1) ∨ (d = cov ∧ c = mask) →
        ∀ T ∈ Set.range m ∪ {s.teff, G}, Dict.get? d (label T) = some (.fin (share (pixelWeight s a lat0 lon0) m c T +
          (if T = G then g * share (pixelWeight s a lat0 lon0) m c s.teff else 0) -
          (if T = s.teff then g * share (pixelWeight s a lat0 lon0) m c s.teff else 0))) := by
  obtain ⟨m', mask, gr, hm', ht, hgr, h1, h2⟩ := calcCoverage_ok.mp h
  rw [hm, Except.ok.injEq] at hm'
  subst hm'
  obtain ⟨gr', hgr', rfl⟩ := hG
  rw [hgr, Option.some.injEq] at hgr'
  subst hgr'
  obtain ⟨c, rfl, -⟩ := mask_real hg hR h0 ht
  have hw : ∀ p, s.weight lat0 lon0 p = .fin (pixelWeight s a lat0 lon0 p) := weight_eq s a ha lat0 lon0
  have hmem : ∀ T, (T ∈ Set.range m ∨ T = s.teff ∨ T = s.teff - gr.dteff) ↔ T ∈ Set.range m ∪ {s.teff, s.teff - gr.dteff} := by
    intro T; simp only [Set.mem_union, Set.mem_insert_iff, Set.mem_singleton_iff]
  have hinj : ∀ T T', (T ∈ Set.range m ∨ T = s.teff ∨ T = s.teff - gr.dteff) →
      (T' ∈ Set.range m ∨ T' = s.teff ∨ T' = s.teff - gr.dteff) → Star.key T = Star.key T' → T = T' := by
    intro T T' h1 h2 hk
    exact key_inj_of_sep (hsep T ((hmem T).mp h1) T' ((hmem T').mp h2)) hk
  have e1 := entries_of_sep (c := fun _ => 1) hw hW h1 hinj
  have e2 := entries_of_sep hw hW h2 hinj
  refine ⟨?_, Star.key, key_near, ?_, c, ht, ?_⟩
  · rw [e1.1]; simp only [mul_one]; rw [div_self hW]
  · intro k hk
    obtain ⟨T, hT, hk⟩ := e1.2.2 k hk
    exact ⟨T, (hmem T).mp (by tauto), hk⟩
  · rintro d c' (⟨rfl, rfl⟩ | ⟨rfl, rfl⟩) T hT
    · exact e1.2.1 T ((hmem T).mpr hT)
    · exact e2.2.1 T ((hmem T).mpr hT)

end Vsm
