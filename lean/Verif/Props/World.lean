import Verif.Model.World
import Verif.Props.StarState

/-!
# C135: stars that share no objects

A program builds spots, collections, generators and stars and calls methods on them.  As long as no spot, facula or
collection is handed to two stars (and no generator to stars with different grids) every star behaves as the star value
of the other modules.
-/

namespace Vsm
open Spec World

/-- The statements that hand an object only to one star: objects given to a star, or changed by a constructor, are not
reachable from another star; new spots are given at most once. -/
def Spec.Unheld (W : World) (refs : List ℕ) : Prop :=
  ∀ s ∈ W.stars, ∀ a ∈ refs, a ∉ (W.spotColl s.spots).refs

/-- See `Unheld`. -/
def Spec.UnheldFac (W : World) (refs : List ℕ) : Prop :=
  ∀ s ∈ W.stars, ∀ a ∈ refs, a ∉ (W.faculaColl s.faculae).refs

/-- No object is reachable from two stars, or twice from one star (generators may be shared); all objects reachable
exist. -/
structure Spec.Separate (W : World) : Prop where
  exist : ∀ s ∈ W.stars, s.spots < W.next ∧ s.faculae < W.next ∧ s.spotGen < W.next ∧ s.facGen < W.next ∧
    (∀ a ∈ (W.spotColl s.spots).refs, a < W.next) ∧ ∀ a ∈ (W.faculaColl s.faculae).refs, a < W.next
  once : ∀ s ∈ W.stars, (W.spotColl s.spots).refs.Nodup ∧ (W.faculaColl s.faculae).refs.Nodup
  apart : ∀ (i j : ℕ) (s t : StarObj), i ≠ j → W.stars[i]? = some s → W.stars[j]? = some t →
    s.spots ≠ t.spots ∧ s.faculae ≠ t.faculae ∧
    (∀ a ∈ (W.spotColl s.spots).refs, a ∉ (W.spotColl t.spots).refs) ∧
    ∀ a ∈ (W.faculaColl s.faculae).refs, a ∉ (W.faculaColl t.faculae).refs

/-- A generator may be handed to a new star if no star holds it or if it has the grid of the new star already. -/
def Spec.Polite (W : World) : Cmd → Prop
  | .newSpotColl refs _ => Unheld W refs
  | .newFaculaColl refs _ => UnheldFac W refs
  | .newStar x =>
      (x.spots < W.next ∧ (∀ a ∈ (W.spotColl x.spots).refs, a < W.next) ∧ (∀ s ∈ W.stars, s.spots ≠ x.spots) ∧
        (W.spotColl x.spots).refs.Nodup ∧ Unheld W (W.spotColl x.spots).refs) ∧
      (x.faculae < W.next ∧ (∀ a ∈ (W.faculaColl x.faculae).refs, a < W.next) ∧ (∀ s ∈ W.stars, s.faculae ≠ x.faculae) ∧
        (W.faculaColl x.faculae).refs.Nodup ∧ UnheldFac W (W.faculaColl x.faculae).refs) ∧
      (∀ a, x.spotGen = some a → a < W.next ∧
        ∀ s ∈ W.stars, s.spotGen = a → ∀ o g, Grid.Obj.new x.gridParams = .ok o → Grid.ofObj o = .ok g → (W.spotGen a).grid = g) ∧
      (∀ a, x.facGen = some a → a < W.next ∧
        ∀ s ∈ W.stars, s.facGen = a → ∀ o g, Grid.Obj.new x.gridParams = .ok o → Grid.ofObj o = .ok g → (W.facGen a).grid = g)
  | .on _ (.addSpot refs) => refs.Nodup ∧ (∀ a ∈ refs, a < W.next) ∧ Unheld W refs
  | .on _ (.addFac refs) => refs.Nodup ∧ (∀ a ∈ refs, a < W.next) ∧ UnheldFac W refs
  | _ => True

/-- What a call means for the star alone: the references of its arguments are read. -/
def Spec.meaning (W : World) : Call → Op
  | .addSpot refs => .addSpot (refs.map W.spot)
  | .birthSpots t k d => .birthSpots t k d
  | .matureSpots c d => .matureSpots c d
  | .addFac refs => .addFac (refs.map W.facula)
  | .birthFaculae t k d => .birthFaculae t k d
  | .flares t k d => .flares t k d
  | .age t => .age t

/-- What `Star(...)` means for the new star alone. -/
noncomputable def Spec.starOf (W : World) (x : StarArgs) : Py Star :=
  Star.new x.teff x.radius x.period (W.spotsAt x.spots) (W.faculaeAt x.faculae) x.gridParams x.flareGen
    (x.spotGen.map W.spotGen) (x.facGen.map W.facGen) x.granulation x.u1 x.u2

/-! ## Heaps -/

section heap
variable {α : Type}

theorem ageAll_off (step : α → α) {refs : List ℕ} (h : Heap α) {a : ℕ} (ha : a ∉ refs) :
    Heap.ageAll step refs h a = h a := by
  rw [(C68_age_once_partial step refs h a).1, List.count_eq_zero_of_not_mem ha]; rfl

theorem ageAll_map_off (step : α → α) {refs l : List ℕ} (h : Heap α) (hd : ∀ a ∈ l, a ∉ refs) :
    l.map (Heap.ageAll step refs h) = l.map h :=
  List.map_congr_left fun a ha => ageAll_off step h (hd a ha)

theorem ageAll_map (step : α → α) {refs : List ℕ} (h : Heap α) (hn : refs.Nodup) :
    refs.map (Heap.ageAll step refs h) = (refs.map h).map step := by
  rw [List.map_map]
  exact List.map_congr_left fun a ha => ((C68_age_once_partial step refs h a).2 hn).1 ha

theorem alloc_off (h : Heap α) (n : ℕ) (l : List α) {a : ℕ} (ha : a < n) : h.alloc n l a = h a := by
  unfold Heap.alloc
  rw [if_neg (by omega)]

theorem alloc_map (h : Heap α) (n : ℕ) (l : List α) : (List.range' n l.length).map (h.alloc n l) = l := by
  apply List.ext_getElem?
  intro i
  rw [List.getElem?_map]
  by_cases hi : i < l.length
  · rw [List.getElem?_range' hi]
    simp [Heap.alloc, hi]
  · rw [List.getElem?_eq_none (by simpa using hi), List.getElem?_eq_none (by simpa using hi)]; rfl

theorem update_self (h : Heap α) (a : ℕ) (v : α) : h.update a v a = v := by simp [Heap.update]

theorem update_off (h : Heap α) {a b : ℕ} (v : α) (hb : b ≠ a) : h.update a v b = h b := by simp [Heap.update, hb]

theorem clean_map (keep : α → Bool) (refs : List ℕ) (h : Heap α) :
    (Heap.cleanRefs keep refs h).map h = (refs.map h).filter keep := by
  unfold Heap.cleanRefs
  rw [List.filter_map]; rfl

end heap

/-- One facula of `FaculaCollection.addFaculae`. -/
def adoptOne (g : Grid) (f : Facula) : Py Facula :=
  (Grid.eq f.grid g).map fun b => if !b then { f with grid := g } else f

theorem adopt_ok (g : Grid) (new : List ℕ) (hn : new.Nodup) : ∀ h : Heap Facula,
    (∀ h', adoptFaculae g new h = .ok h' → (∀ a, a ∉ new → h' a = h a) ∧
      (new.map h).mapM (adoptOne g) = .ok (new.map h')) ∧
    ∀ e, adoptFaculae g new h = .error e → (new.map h).mapM (adoptOne g) = .error e := by
  induction new with
  | nil =>
    intro h
    refine ⟨fun h' e => ?_, fun e h => ?_⟩
    · cases e; exact ⟨fun _ _ => rfl, rfl⟩
    · cases h
  | cons a l ih =>
    intro h
    have hal : a ∉ l := (List.nodup_cons.1 hn).1
    unfold adoptFaculae
    rw [List.foldlM_cons, List.map_cons, List.mapM_cons]
    cases hq : Grid.eq (h a).grid g with
    | error e =>
      refine ⟨fun h' e => ?_, fun e' he => ?_⟩
      · cases e
      · cases he
        have : adoptOne g (h a) = .error e := by unfold adoptOne; rw [hq]; rfl
        rw [this]; rfl
    | ok b =>
      set h₁ : Heap Facula := if !b then h.update a { h a with grid := g } else h with hh
      have k1 : adoptOne g (h a) = .ok (h₁ a) := by
        unfold adoptOne; rw [hq, hh]; cases b <;> simp [Heap.update, Except.map]
      have k2 : ∀ c, c ≠ a → h₁ c = h c := by
        intro c hc; rw [hh]; cases b <;> simp [Heap.update, hc]
      have k3 : l.map h₁ = l.map h := List.map_congr_left fun c hc => k2 c fun e => hal (e ▸ hc)
      obtain ⟨i1, i2⟩ := ih (List.nodup_cons.1 hn).2 h₁
      rw [k3] at i1 i2
      refine ⟨fun h' e => ?_, fun e he => ?_⟩
      · obtain ⟨j1, j2⟩ := i1 h' e
        refine ⟨fun c hc => ?_, ?_⟩
        · rw [List.mem_cons, not_or] at hc
          rw [j1 c hc.2, k2 c hc.1]
        · rw [k1, j2, List.map_cons, j1 a hal]; rfl
      · rw [k1, i2 e he]; rfl

/-! ## One call -/

/-- What a call on the `i`-th star `s` does when nothing is shared. -/
structure Step (W W' : World) (i : ℕ) (s : StarObj) (S : Star) : Prop where
  sep : Separate W'
  stars : W'.stars = W.stars
  self : W'.view s = S
  others : ∀ j t, j ≠ i → W.stars[j]? = some t → W'.view t = W.view t

theorem view_eq {W W' : World} {s : StarObj} (h1 : W'.spotsAt s.spots = W.spotsAt s.spots)
    (h2 : W'.faculaeAt s.faculae = W.faculaeAt s.faculae) (h3 : W'.spotGen s.spotGen = W.spotGen s.spotGen)
    (h4 : W'.facGen s.facGen = W.facGen s.facGen) : W'.view s = W.view s := by
  unfold World.view
  rw [h1, h2, h3, h4]

/-- Separation is kept when the references of one star change within what no other star holds. -/
theorem sep_change {W W' : World} (hW : Separate W) {i : ℕ} {s : StarObj} (hi : W.stars[i]? = some s)
    (hst : W'.stars = W.stars) (hn : W.next ≤ W'.next)
    (hc : ∀ c, c ≠ s.spots → W'.spotColl c = W.spotColl c)
    (hf : ∀ c, c ≠ s.faculae → W'.faculaColl c = W.faculaColl c)
    (r1 : (W'.spotColl s.spots).refs.Nodup) (r2 : ∀ a ∈ (W'.spotColl s.spots).refs, a < W'.next ∧
      (a ∈ (W.spotColl s.spots).refs ∨ ∀ t ∈ W.stars, a ∉ (W.spotColl t.spots).refs))
    (f1 : (W'.faculaColl s.faculae).refs.Nodup) (f2 : ∀ a ∈ (W'.faculaColl s.faculae).refs, a < W'.next ∧
      (a ∈ (W.faculaColl s.faculae).refs ∨ ∀ t ∈ W.stars, a ∉ (W.faculaColl t.faculae).refs)) : Separate W' := by
  have hs : s ∈ W.stars := List.mem_of_getElem? hi
  have off : ∀ j t, j ≠ i → W.stars[j]? = some t → W'.spotColl t.spots = W.spotColl t.spots ∧
      W'.faculaColl t.faculae = W.faculaColl t.faculae := fun j t hj ht =>
    ⟨hc _ (hW.apart j i t s hj ht hi).1, hf _ (hW.apart j i t s hj ht hi).2.1⟩
  refine ⟨fun t ht => ?_, fun t ht => ?_, fun j k t v hjk ht hv => ?_⟩
  · rw [hst] at ht
    obtain ⟨a1, a2, a3, a4, a5, a6⟩ := hW.exist t ht
    obtain ⟨j, hj⟩ := List.getElem?_of_mem ht
    refine ⟨a1.trans_le hn, a2.trans_le hn, a3.trans_le hn, a4.trans_le hn, ?_⟩
    by_cases e : j = i
    · subst e
      rw [hi] at hj; cases hj
      exact ⟨fun a ha => (r2 a ha).1, fun a ha => (f2 a ha).1⟩
    · rw [(off j t e hj).1, (off j t e hj).2]
      exact ⟨fun a ha => (a5 a ha).trans_le hn, fun a ha => (a6 a ha).trans_le hn⟩
  · rw [hst] at ht
    obtain ⟨j, hj⟩ := List.getElem?_of_mem ht
    by_cases e : j = i
    · subst e
      rw [hi] at hj; cases hj
      exact ⟨r1, f1⟩
    · rw [(off j t e hj).1, (off j t e hj).2]
      exact hW.once t ht
  · rw [hst] at ht hv
    obtain ⟨b1, b2, b3, b4⟩ := hW.apart j k t v hjk ht hv
    refine ⟨b1, b2, ?_⟩
    by_cases e : j = i
    · subst e
      rw [hi] at ht; cases ht
      rw [(off k v (Ne.symm hjk) hv).1, (off k v (Ne.symm hjk) hv).2]
      refine ⟨fun a ha => ?_, fun a ha => ?_⟩
      · rcases (r2 a ha).2 with h | h
        · exact b3 a h
        · exact h v (List.mem_of_getElem? hv)
      · rcases (f2 a ha).2 with h | h
        · exact b4 a h
        · exact h v (List.mem_of_getElem? hv)
    · by_cases e' : k = i
      · subst e'
        rw [hi] at hv; cases hv
        rw [(off j t e ht).1, (off j t e ht).2]
        refine ⟨fun a ha ha' => ?_, fun a ha ha' => ?_⟩
        · rcases (r2 a ha').2 with h | h
          · exact b3 a ha h
          · exact h t (List.mem_of_getElem? ht) ha
        · rcases (f2 a ha').2 with h | h
          · exact b4 a ha h
          · exact h t (List.mem_of_getElem? ht) ha
      · rw [(off j t e ht).1, (off j t e ht).2, (off k v e' hv).1, (off k v e' hv).2]
        exact ⟨b3, b4⟩

theorem addSpots_step {W : World} (hW : Separate W) {i : ℕ} {s : StarObj} (hi : W.stars[i]? = some s) {new : List ℕ}
    (hn : new.Nodup) (hl : ∀ a ∈ new, a < W.next) (hu : Unheld W new) :
    Step W (W.addSpots s.spots new) i s ((W.view s).addSpot (new.map W.spot)) := by
  have hs : s ∈ W.stars := List.mem_of_getElem? hi
  obtain ⟨-, -, -, -, a5, a6⟩ := hW.exist s hs
  obtain ⟨n1, n2⟩ := hW.once s hs
  have hd : ∀ a ∈ (W.spotColl s.spots).refs, a ∉ new := fun a ha ha' => hu s hs a ha' ha
  refine ⟨?_, rfl, ?_, ?_⟩
  · refine sep_change hW hi rfl le_rfl (fun c hc => update_off _ _ hc) (fun c _ => rfl) ?_ ?_ n2 (fun a ha => ⟨a6 a ha, .inl ha⟩)
    · change (Heap.update W.spotColl s.spots _ s.spots).refs.Nodup
      rw [update_self]
      exact List.nodup_append.2 ⟨n1, hn, fun a ha b hb e => hd a ha (e ▸ hb)⟩
    · intro a ha
      change a ∈ (Heap.update W.spotColl s.spots _ s.spots).refs at ha
      rw [update_self] at ha
      rcases List.mem_append.1 ha with h | h
      · exact ⟨a5 a h, .inl h⟩
      · exact ⟨hl a h, .inr fun t ht => hu t ht a h⟩
  · have e : (W.addSpots s.spots new).spotsAt s.spots = (W.spotsAt s.spots).addSpot (new.map W.spot) := by
      simp only [World.addSpots, World.spotsAt, update_self, SpotCollection.addSpot, List.map_append]
      rw [ageAll_map_off _ _ hd, ageAll_map _ _ hn]
    unfold World.view Star.addSpot
    rw [e]
    rfl
  · intro j t hj ht
    obtain ⟨b1, b2, b3, b4⟩ := hW.apart j i t s hj ht hi
    refine view_eq ?_ rfl rfl rfl
    simp only [World.addSpots, World.spotsAt]
    rw [update_off _ _ b1, ageAll_map_off _ _ fun a ha ha' => hu t (List.mem_of_getElem? ht) a ha' ha]

theorem ageSpots_step {W : World} (hW : Separate W) {i : ℕ} {s : StarObj} (hi : W.stars[i]? = some s) (x : ℝ) :
    Step W (W.ageSpots s.spots x) i s { W.view s with spots := (W.view s).spots.age x } := by
  have hs : s ∈ W.stars := List.mem_of_getElem? hi
  obtain ⟨-, -, -, -, a5, a6⟩ := hW.exist s hs
  obtain ⟨n1, n2⟩ := hW.once s hs
  refine ⟨?_, rfl, ?_, ?_⟩
  · refine sep_change hW hi rfl le_rfl (fun c hc => update_off _ _ hc) (fun c _ => rfl) ?_ ?_ n2 (fun a ha => ⟨a6 a ha, .inl ha⟩)
    · change (Heap.update W.spotColl s.spots _ s.spots).refs.Nodup
      rw [update_self]
      exact n1.filter _
    · intro a ha
      change a ∈ (Heap.update W.spotColl s.spots _ s.spots).refs at ha
      rw [update_self] at ha
      have h := (List.mem_filter.1 ha).1
      exact ⟨a5 a h, .inl h⟩
  · have e : (W.ageSpots s.spots x).spotsAt s.spots = (W.spotsAt s.spots).age x := by
      simp only [World.ageSpots, World.spotsAt, update_self, SpotCollection.age, SpotCollection.clean]
      rw [clean_map, ageAll_map _ _ n1]
    unfold World.view
    rw [e]
    rfl
  · intro j t hj ht
    obtain ⟨b1, b2, b3, b4⟩ := hW.apart j i t s hj ht hi
    refine view_eq ?_ rfl rfl rfl
    simp only [World.ageSpots, World.spotsAt]
    rw [update_off _ _ b1, ageAll_map_off _ _ b3]

theorem ageFaculae_step {W : World} (hW : Separate W) {i : ℕ} {s : StarObj} (hi : W.stars[i]? = some s) (x : ℝ) :
    Step W (W.ageFaculae s.faculae x) i s { W.view s with faculae := (W.view s).faculae.age x } := by
  have hs : s ∈ W.stars := List.mem_of_getElem? hi
  obtain ⟨-, -, -, -, a5, a6⟩ := hW.exist s hs
  obtain ⟨n1, n2⟩ := hW.once s hs
  refine ⟨?_, rfl, ?_, ?_⟩
  · refine sep_change hW hi rfl le_rfl (fun c _ => rfl) (fun c hc => update_off _ _ hc) n1 (fun a ha => ⟨a5 a ha, .inl ha⟩) ?_ ?_
    · change (Heap.update W.faculaColl s.faculae _ s.faculae).refs.Nodup
      rw [update_self]
      exact n2.filter _
    · intro a ha
      change a ∈ (Heap.update W.faculaColl s.faculae _ s.faculae).refs at ha
      rw [update_self] at ha
      have h := (List.mem_filter.1 ha).1
      exact ⟨a6 a h, .inl h⟩
  · have e : (W.ageFaculae s.faculae x).faculaeAt s.faculae = (W.faculaeAt s.faculae).age x := by
      simp only [World.ageFaculae, World.faculaeAt, update_self, FaculaCollection.age, FaculaCollection.clean]
      rw [clean_map, ageAll_map _ _ n2]
    unfold World.view
    rw [e]
    rfl
  · intro j t hj ht
    obtain ⟨b1, b2, b3, b4⟩ := hW.apart j i t s hj ht hi
    refine view_eq rfl ?_ rfl rfl
    simp only [World.ageFaculae, World.faculaeAt]
    rw [update_off _ _ b2, ageAll_map_off _ _ b4]

theorem addFaculae_step {W : World} (hW : Separate W) {i : ℕ} {s : StarObj} (hi : W.stars[i]? = some s) {new : List ℕ}
    (hn : new.Nodup) (hl : ∀ a ∈ new, a < W.next) (hu : UnheldFac W new) :
    (∀ W', W.addFaculae s.faculae new = .ok W' → ∃ S, (W.view s).addFac (new.map W.facula) = .ok S ∧ Step W W' i s S) ∧
    ∀ e, W.addFaculae s.faculae new = .error e → (W.view s).addFac (new.map W.facula) = .error e := by
  have hs : s ∈ W.stars := List.mem_of_getElem? hi
  obtain ⟨-, -, -, -, a5, a6⟩ := hW.exist s hs
  obtain ⟨n1, n2⟩ := hW.once s hs
  have hd : ∀ a ∈ (W.faculaColl s.faculae).refs, a ∉ new := fun a ha ha' => hu s hs a ha' ha
  obtain ⟨k1, k2⟩ := adopt_ok (W.faculaColl s.faculae).grid new hn W.facula
  unfold World.addFaculae
  cases hq : adoptFaculae (W.faculaColl s.faculae).grid new W.facula with
  | error e =>
    refine ⟨fun W' h => ?_, fun e' h => ?_⟩
    · cases h
    · cases h
      have := k2 e hq
      unfold Star.addFac FaculaCollection.addFaculae
      change Except.map _ (do let n ← (new.map W.facula).mapM (adoptOne (W.faculaColl s.faculae).grid); return _) = _
      rw [this]; rfl
  | ok h =>
    refine ⟨fun W' hW' => ?_, fun e' h => ?_⟩
    · obtain ⟨j1, j2⟩ := k1 h hq
      cases hW'
      refine ⟨_, ?_, ?_, rfl, rfl, ?_⟩
      · unfold Star.addFac FaculaCollection.addFaculae
        change Except.map _ (do let n ← (new.map W.facula).mapM (adoptOne (W.faculaColl s.faculae).grid); return _) = _
        rw [j2]
        change Except.ok _ = Except.ok _
        congr 1
        simp only [World.view, World.faculaeAt, update_self, List.map_append]
        rw [List.map_congr_left fun a ha => j1 a (hd a ha)]
        rfl
      · refine sep_change hW hi rfl le_rfl (fun c _ => rfl) (fun c hc => update_off _ _ hc) n1 (fun a ha => ⟨a5 a ha, .inl ha⟩) ?_ ?_
        · change (Heap.update W.faculaColl s.faculae _ s.faculae).refs.Nodup
          rw [update_self]
          exact List.nodup_append.2 ⟨n2, hn, fun a ha b hb e => hd a ha (e ▸ hb)⟩
        · intro a ha
          change a ∈ (Heap.update W.faculaColl s.faculae _ s.faculae).refs at ha
          rw [update_self] at ha
          rcases List.mem_append.1 ha with h | h
          · exact ⟨a6 a h, .inl h⟩
          · exact ⟨hl a h, .inr fun t ht => hu t ht a h⟩
      · intro j t hj ht
        obtain ⟨b1, b2, b3, b4⟩ := hW.apart j i t s hj ht hi
        refine view_eq rfl ?_ rfl rfl
        simp only [World.faculaeAt]
        rw [update_off _ _ b2, List.map_congr_left fun a ha => j1 a fun ha' => hu t (List.mem_of_getElem? ht) a ha' ha]
    · cases h

/-- Everything a star can reach is the same in both worlds. -/
structure Untouched (W W' : World) (t : StarObj) : Prop where
  coll : W'.spotColl t.spots = W.spotColl t.spots
  fcoll : W'.faculaColl t.faculae = W.faculaColl t.faculae
  spots : ∀ a ∈ (W.spotColl t.spots).refs, W'.spot a = W.spot a
  faculae : ∀ a ∈ (W.faculaColl t.faculae).refs, W'.facula a = W.facula a
  gen : W'.spotGen t.spotGen = W.spotGen t.spotGen
  fgen : W'.facGen t.facGen = W.facGen t.facGen

theorem Untouched.view_eq {W W' : World} {t : StarObj} (h : Untouched W W' t) : W'.view t = W.view t := by
  refine Vsm.view_eq ?_ ?_ h.gen h.fgen
  · unfold World.spotsAt
    rw [h.coll, List.map_congr_left h.spots]
  · unfold World.faculaeAt
    rw [h.fcoll, List.map_congr_left h.faculae]

theorem sep_frame {W W' : World} (hW : Separate W) (hst : W'.stars = W.stars) (hn : W.next ≤ W'.next)
    (h : ∀ t ∈ W.stars, Untouched W W' t) : Separate W' := by
  refine ⟨fun t ht => ?_, fun t ht => ?_, fun j k t v hjk ht hv => ?_⟩
  · rw [hst] at ht
    obtain ⟨a1, a2, a3, a4, a5, a6⟩ := hW.exist t ht
    rw [(h t ht).coll, (h t ht).fcoll]
    exact ⟨a1.trans_le hn, a2.trans_le hn, a3.trans_le hn, a4.trans_le hn, fun a ha => (a5 a ha).trans_le hn,
      fun a ha => (a6 a ha).trans_le hn⟩
  · rw [hst] at ht
    rw [(h t ht).coll, (h t ht).fcoll]
    exact hW.once t ht
  · rw [hst] at ht hv
    have ht' := h t (List.mem_of_getElem? ht)
    have hv' := h v (List.mem_of_getElem? hv)
    rw [ht'.coll, ht'.fcoll, hv'.coll, hv'.fcoll]
    exact hW.apart j k t v hjk ht hv

theorem look_frame {W W' : World} (hst : W'.stars = W.stars) (h : ∀ t ∈ W.stars, Untouched W W' t) (i : ℕ) :
    W'.look i = W.look i := by
  unfold World.look
  rw [hst]
  cases hi : W.stars[i]? with
  | none => rfl
  | some t => exact congrArg some (h t (List.mem_of_getElem? hi)).view_eq

theorem alloc_spots {W : World} (hW : Separate W) (l : List StarSpot) :
    let V : World := { W with spot := W.spot.alloc W.next l, next := W.next + l.length }
    Separate V ∧ ∀ t ∈ W.stars, Untouched W V t := by
  intro V
  have h : ∀ t ∈ W.stars, Untouched W V t := fun t ht =>
    ⟨rfl, rfl, fun a ha => alloc_off _ _ _ ((hW.exist t ht).2.2.2.2.1 a ha), fun _ _ => rfl, rfl, rfl⟩
  exact ⟨sep_frame hW rfl (Nat.le_add_right _ _) h, h⟩

theorem alloc_faculae {W : World} (hW : Separate W) (l : List Facula) :
    let V : World := { W with facula := W.facula.alloc W.next l, next := W.next + l.length }
    Separate V ∧ ∀ t ∈ W.stars, Untouched W V t := by
  intro V
  have h : ∀ t ∈ W.stars, Untouched W V t := fun t ht =>
    ⟨rfl, rfl, fun _ _ => rfl, fun a ha => alloc_off _ _ _ ((hW.exist t ht).2.2.2.2.2 a ha), rfl, rfl⟩
  exact ⟨sep_frame hW rfl (Nat.le_add_right _ _) h, h⟩

theorem addNewSpots_step {W : World} (hW : Separate W) {i : ℕ} {s : StarObj} (hi : W.stars[i]? = some s)
    (l : List StarSpot) : Step W (W.addNewSpots s.spots l) i s ((W.view s).addSpot l) := by
  obtain ⟨h1, h2⟩ := alloc_spots hW l
  set V : World := { W with spot := W.spot.alloc W.next l, next := W.next + l.length } with hV
  have hr : ∀ a ∈ List.range' W.next l.length, W.next ≤ a ∧ a < W.next + l.length := fun a ha =>
    List.mem_range'_1.1 ha
  have k := addSpots_step (W := V) h1 (i := i) (s := s) hi (new := List.range' W.next l.length) List.nodup_range'
    (fun a ha => (hr a ha).2) (fun t ht a ha ha' => absurd ((hW.exist t ht).2.2.2.2.1 a ha') (not_lt.2 (hr a ha).1))
  have e : (List.range' W.next l.length).map V.spot = l := alloc_map _ _ _
  rw [e, (h2 s (List.mem_of_getElem? hi)).view_eq] at k
  exact ⟨k.sep, k.stars, k.self, fun j t hj ht => (k.others j t hj ht).trans (h2 t (List.mem_of_getElem? ht)).view_eq⟩

theorem addNewFaculae_step {W : World} (hW : Separate W) {i : ℕ} {s : StarObj} (hi : W.stars[i]? = some s)
    (l : List Facula) :
    (∀ W', W.addNewFaculae s.faculae l = .ok W' → ∃ S, (W.view s).addFac l = .ok S ∧ Step W W' i s S) ∧
    ∀ e, W.addNewFaculae s.faculae l = .error e → (W.view s).addFac l = .error e := by
  obtain ⟨h1, h2⟩ := alloc_faculae hW l
  set V : World := { W with facula := W.facula.alloc W.next l, next := W.next + l.length } with hV
  have hr : ∀ a ∈ List.range' W.next l.length, W.next ≤ a ∧ a < W.next + l.length := fun a ha =>
    List.mem_range'_1.1 ha
  obtain ⟨k1, k2⟩ := addFaculae_step (W := V) h1 (i := i) (s := s) hi (new := List.range' W.next l.length) List.nodup_range'
    (fun a ha => (hr a ha).2) (fun t ht a ha ha' => absurd ((hW.exist t ht).2.2.2.2.2 a ha') (not_lt.2 (hr a ha).1))
  have e : (List.range' W.next l.length).map V.facula = l := alloc_map _ _ _
  rw [e, (h2 s (List.mem_of_getElem? hi)).view_eq] at k1 k2
  refine ⟨fun W' h => ?_, k2⟩
  obtain ⟨S, e1, k⟩ := k1 W' h
  exact ⟨S, e1, k.sep, k.stars, k.self, fun j t hj ht => (k.others j t hj ht).trans (h2 t (List.mem_of_getElem? ht)).view_eq⟩

/-- The outcome of a call on the `i`-th star: what the star alone would do; the other stars stay. -/
structure Alone (W W' : World) (i : ℕ) (S : Star) : Prop where
  sep : Separate W'
  count : W'.stars.length = W.stars.length
  self : W'.look i = some S
  others : ∀ j, j ≠ i → W'.look j = W.look j

theorem Step.alone {W W' : World} {i : ℕ} {s : StarObj} {S : Star} (h : Step W W' i s S) (hi : W.stars[i]? = some s) :
    Alone W W' i S := by
  refine ⟨h.sep, by rw [h.stars], ?_, fun j hj => ?_⟩
  · unfold World.look
    rw [h.stars, hi]
    exact congrArg some h.self
  · unfold World.look
    rw [h.stars]
    cases hj' : W.stars[j]? with
    | none => rfl
    | some t => exact congrArg some (h.others j t hj hj')

theorem flares_alone {W : World} (hW : Separate W) {i : ℕ} {s : StarObj} (hi : W.stars[i]? = some s)
    (f : Option FlareCollection) :
    Alone W { W with stars := W.stars.set i { s with flares := f } } i { W.view s with flares := f } := by
  have hlt : i < W.stars.length := (List.getElem?_eq_some_iff.1 hi).1
  have hs : s ∈ W.stars := List.mem_of_getElem? hi
  -- the references of the star objects are the same
  have key : ∀ (j : ℕ) (t : StarObj), (W.stars.set i { s with flares := f })[j]? = some t → ∃ t' : StarObj, W.stars[j]? = some t' ∧
      t.spots = t'.spots ∧ t.faculae = t'.faculae ∧ t.spotGen = t'.spotGen ∧ t.facGen = t'.facGen := by
    intro j t ht
    by_cases e : j = i
    · subst e
      rw [List.getElem?_set_self hlt] at ht
      cases ht
      exact ⟨s, hi, rfl, rfl, rfl, rfl⟩
    · rw [List.getElem?_set_ne (Ne.symm e)] at ht
      exact ⟨t, ht, rfl, rfl, rfl, rfl⟩
  have key' : ∀ t : StarObj, t ∈ W.stars.set i { s with flares := f } → ∃ t' : StarObj, t' ∈ W.stars ∧
      t.spots = t'.spots ∧ t.faculae = t'.faculae ∧ t.spotGen = t'.spotGen ∧ t.facGen = t'.facGen := by
    intro t ht
    obtain ⟨j, hj⟩ := List.getElem?_of_mem ht
    obtain ⟨t', h1, h2⟩ := key j t hj
    exact ⟨t', List.mem_of_getElem? h1, h2⟩
  refine ⟨⟨fun t ht => ?_, fun t ht => ?_, fun j k t v hjk ht hv => ?_⟩, by simp, ?_, fun j hj => ?_⟩
  · obtain ⟨t', h1, e1, e2, e3, e4⟩ := key' t ht
    rw [e1, e2, e3, e4]
    exact hW.exist t' h1
  · obtain ⟨t', h1, e1, e2, e3, e4⟩ := key' t ht
    rw [e1, e2]
    exact hW.once t' h1
  · obtain ⟨t', h1, e1, e2, e3, e4⟩ := key j t ht
    obtain ⟨v', h1', e1', e2', e3', e4'⟩ := key k v hv
    rw [e1, e2, e1', e2']
    exact hW.apart j k t' v' hjk h1 h1'
  · unfold World.look
    rw [List.getElem?_set_self hlt]
    rfl
  · unfold World.look
    rw [List.getElem?_set_ne (Ne.symm hj)]
    rfl

theorem call_alone {W : World} (hW : Separate W) {i : ℕ} {s : StarObj} (hi : W.stars[i]? = some s) {c : Call}
    (hp : Polite W (.on i c)) :
    (∀ W', W.call i s c = .ok W' → ∃ S, runOp (W.view s) (meaning W c) = .ok S ∧ Alone W W' i S) ∧
    ∀ e, W.call i s c = .error e → runOp (W.view s) (meaning W c) = .error e := by
  cases c with
  | addSpot refs =>
    refine ⟨fun W' h => ?_, fun e h => by cases h⟩
    cases h
    exact ⟨_, rfl, (addSpots_step hW hi hp.1 hp.2.1 hp.2.2).alone hi⟩
  | birthSpots t k d =>
    simp only [World.call, meaning, runOp, Star.birthSpots, World.view]
    cases hq : (W.spotGen s.spotGen).birth t s.radius k d with
    | error e =>
      refine ⟨fun W' h => (by cases h), fun e h => ?_⟩
      cases h; rfl
    | ok l =>
      refine ⟨fun W' h => ?_, fun e h => by cases h⟩
      cases h
      exact ⟨_, rfl, (addNewSpots_step hW hi l).alone hi⟩
  | matureSpots c d =>
    simp only [World.call, meaning, runOp, Star.generateMatureSpots, World.view]
    cases hq : (W.spotGen s.spotGen).generateMature c s.radius d with
    | error e =>
      refine ⟨fun W' h => (by cases h), fun e h => ?_⟩
      cases h; rfl
    | ok l =>
      refine ⟨fun W' h => ?_, fun e h => by cases h⟩
      cases h
      exact ⟨_, rfl, (addNewSpots_step hW hi l).alone hi⟩
  | addFac refs =>
    obtain ⟨k1, k2⟩ := addFaculae_step hW hi hp.1 hp.2.1 hp.2.2
    refine ⟨fun W' h => ?_, k2⟩
    obtain ⟨S, e, k⟩ := k1 W' h
    exact ⟨S, e, k.alone hi⟩
  | birthFaculae t k d =>
    simp only [World.call, meaning, runOp, Star.birthFaculae]
    change (∀ W', ((W.facGen s.facGen).birth t s.radius k d).bind _ = _ → _) ∧ _
    cases hq : (W.facGen s.facGen).birth t s.radius k d with
    | error e =>
      have hq' : (W.view s).facGen.birth t (W.view s).radius k d = .error e := hq
      refine ⟨fun W' h => (by cases h), fun e' h => ?_⟩
      cases h
      rw [hq']; rfl
    | ok l =>
      have hq' : (W.view s).facGen.birth t (W.view s).radius k d = .ok l := hq
      rw [hq']
      obtain ⟨k1, k2⟩ := addNewFaculae_step hW hi l
      refine ⟨fun W' h => ?_, k2⟩
      obtain ⟨S, e, k⟩ := k1 W' h
      exact ⟨S, e, k.alone hi⟩
  | flares t k d =>
    simp only [World.call, meaning, runOp, Star.getFlares]
    change (∀ W', (s.flareGen.series t k d).map _ = _ → _) ∧ _
    cases hq : s.flareGen.series t k d with
    | error e =>
      have hq' : (W.view s).flareGen.series t k d = .error e := hq
      refine ⟨fun W' h => (by cases h), fun e' h => ?_⟩
      cases h
      rw [hq']; rfl
    | ok l =>
      have hq' : (W.view s).flareGen.series t k d = .ok l := hq
      rw [hq']
      refine ⟨fun W' h => ?_, fun e h => by cases h⟩
      cases h
      exact ⟨_, rfl, flares_alone hW hi _⟩
  | age t =>
    refine ⟨fun W' h => ?_, fun e h => by cases h⟩
    cases h
    have k1 := ageSpots_step hW hi t
    have k2 := ageFaculae_step k1.sep (i := i) (s := s) hi t
    refine ⟨_, rfl, (⟨k2.sep, rfl, ?_, fun j v hj hv => (k2.others j v hj hv).trans (k1.others j v hj hv)⟩ :
      Step W _ i s _).alone hi⟩
    rw [k2.self, k1.self]
    rfl

/-! ## Building a star -/

theorem unify_same (g : Grid) : Star.unify g g = .ok g := by
  cases g <;> simp [Star.unify, Grid.ne, Grid.eq, Except.map]

/-- The generator a star ends up with. -/
noncomputable def takenS (G : Option SpotGenerator) (g : Grid) : Py SpotGenerator :=
  match G with
  | none => .ok (SpotGenerator.off g)
  | some sg => (Star.unify sg.grid g).map fun g' => { sg with grid := g' }

/-- See `takenS`. -/
noncomputable def takenF (G : Option FaculaGenerator) (g : Grid) : Py FaculaGenerator :=
  match G with
  | none => .ok (FaculaGenerator.off g)
  | some sg => (Star.unify sg.grid g).map fun g' => { sg with grid := g' }

theorem star_new_eq (teff radius period : ℝ) (spots : SpotCollection) (faculae : FaculaCollection) (p : Grid.PyVal)
    (flareGen : Option FlareGenerator) (sG : Option SpotGenerator) (fG : Option FaculaGenerator)
    (gr : Option Granulation) (u1 u2 : ℝ) {o : Grid.Obj} {g : Grid} (ho : Grid.Obj.new p = .ok o) (hg : Grid.ofObj o = .ok g) :
    Star.new teff radius period spots faculae p flareGen sG fG gr u1 u2 =
      (takenS sG g).bind fun a => (takenF fG g).bind fun b => .ok (Star.setFacGrid <| Star.setSpotGrid
        { teff, radius, period, spots := spots.setGridmaker g, faculae := faculae.setGridmaker g, grid := g,
          flareGen := flareGen.getD FlareGenerator.off, spotGen := a, facGen := b,
          granulation := some (gr.getD Granulation.off), u1, u2, flares := none }) := by
  unfold Star.new takenS takenF
  rw [ho]
  simp only [bind, Except.bind, hg]
  cases sG with
  | none =>
    cases fG with
    | none => rfl
    | some f => cases h : Star.unify f.grid g <;> simp only [h] <;> rfl
  | some s =>
    cases h : Star.unify s.grid g with
    | error e => simp only [h]; rfl
    | ok a =>
      cases fG with
      | none => simp only [h]; rfl
      | some f => cases h' : Star.unify f.grid g <;> simp only [h, h'] <;> rfl

theorem takeSpotGen_spec (W : World) (gen : Option ℕ) (g : Grid) (hg : ∀ a, gen = some a → a < W.next) :
    (∀ a V, W.takeSpotGen gen g = .ok (a, V) → ∃ H n, V = { W with spotGen := H, next := n } ∧ W.next ≤ n ∧ a < n ∧
      takenS (gen.map W.spotGen) g = Except.ok (ε := PyErr) (H a) ∧
      ∀ b < W.next, (gen = some b → (W.spotGen b).grid = g) → H b = W.spotGen b) ∧
    ∀ e, W.takeSpotGen gen g = .error e →
      takenS (gen.map W.spotGen) g = Except.error e := by
  cases gen with
  | none =>
    refine ⟨fun a V h => ?_, fun e h => by cases h⟩
    cases h
    refine ⟨_, _, rfl, Nat.le_succ _, Nat.lt_succ_self _, ?_, fun b hb _ => ?_⟩
    · change Except.ok _ = _
      rw [update_self]
    · exact update_off _ _ (Nat.ne_of_lt hb)
  | some a₀ =>
    have ha := hg a₀ rfl
    cases hu : Star.unify (W.spotGen a₀).grid g with
    | error e =>
      refine ⟨fun a V h => ?_, fun e' h => ?_⟩
      · simp only [World.takeSpotGen, hu, Except.map] at h; cases h
      · simp only [World.takeSpotGen, hu, Except.map] at h; cases h
        simp only [Option.map_some, takenS, hu]; rfl
    | ok g' =>
      refine ⟨fun a V h => ?_, fun e' h => ?_⟩
      · simp only [World.takeSpotGen, hu, Except.map, Except.ok.injEq, Prod.mk.injEq] at h
        obtain ⟨rfl, rfl⟩ := h
        refine ⟨_, _, rfl, le_rfl, ha, ?_, fun b hb he => ?_⟩
        · simp only [Option.map_some, takenS, hu, update_self]; rfl
        · by_cases e : b = a₀
          · subst e
            have := he rfl
            rw [update_self]
            rw [this, unify_same] at hu
            cases hu
            rw [← this]
          · exact update_off _ _ e
      · simp only [World.takeSpotGen, hu, Except.map] at h; cases h

theorem takeFacGen_spec (W : World) (gen : Option ℕ) (g : Grid) (hg : ∀ a, gen = some a → a < W.next) :
    (∀ a V, W.takeFacGen gen g = .ok (a, V) → ∃ H n, V = { W with facGen := H, next := n } ∧ W.next ≤ n ∧ a < n ∧
      takenF (gen.map W.facGen) g = Except.ok (ε := PyErr) (H a) ∧
      ∀ b < W.next, (gen = some b → (W.facGen b).grid = g) → H b = W.facGen b) ∧
    ∀ e, W.takeFacGen gen g = .error e →
      takenF (gen.map W.facGen) g = Except.error e := by
  cases gen with
  | none =>
    refine ⟨fun a V h => ?_, fun e h => by cases h⟩
    cases h
    refine ⟨_, _, rfl, Nat.le_succ _, Nat.lt_succ_self _, ?_, fun b hb _ => ?_⟩
    · change Except.ok _ = _
      rw [update_self]
    · exact update_off _ _ (Nat.ne_of_lt hb)
  | some a₀ =>
    have ha := hg a₀ rfl
    cases hu : Star.unify (W.facGen a₀).grid g with
    | error e =>
      refine ⟨fun a V h => ?_, fun e' h => ?_⟩
      · simp only [World.takeFacGen, hu, Except.map] at h; cases h
      · simp only [World.takeFacGen, hu, Except.map] at h; cases h
        simp only [Option.map_some, takenF, hu]; rfl
    | ok g' =>
      refine ⟨fun a V h => ?_, fun e' h => ?_⟩
      · simp only [World.takeFacGen, hu, Except.map, Except.ok.injEq, Prod.mk.injEq] at h
        obtain ⟨rfl, rfl⟩ := h
        refine ⟨_, _, rfl, le_rfl, ha, ?_, fun b hb he => ?_⟩
        · simp only [Option.map_some, takenF, hu, update_self]; rfl
        · by_cases e : b = a₀
          · subst e
            have := he rfl
            rw [update_self]
            rw [this, unify_same] at hu
            cases hu
            rw [← this]
          · exact update_off _ _ e
      · simp only [World.takeFacGen, hu, Except.map] at h; cases h

theorem sep_append {W : World} (hW : Separate W) {o : StarObj}
    (h1 : o.spots < W.next ∧ o.faculae < W.next ∧ o.spotGen < W.next ∧ o.facGen < W.next ∧
      (∀ a ∈ (W.spotColl o.spots).refs, a < W.next) ∧ ∀ a ∈ (W.faculaColl o.faculae).refs, a < W.next)
    (h2 : (W.spotColl o.spots).refs.Nodup ∧ (W.faculaColl o.faculae).refs.Nodup)
    (h3 : ∀ t ∈ W.stars, t.spots ≠ o.spots ∧ t.faculae ≠ o.faculae ∧
      (∀ a ∈ (W.spotColl o.spots).refs, a ∉ (W.spotColl t.spots).refs) ∧
      ∀ a ∈ (W.faculaColl o.faculae).refs, a ∉ (W.faculaColl t.faculae).refs) :
    Separate { W with stars := W.stars ++ [o] } := by
  have cs : ∀ (j : ℕ) (t : StarObj), (W.stars ++ [o])[j]? = some t → (W.stars[j]? = some t) ∨ (j = W.stars.length ∧ t = o) := by
    intro j t h
    by_cases hj : j < W.stars.length
    · rw [List.getElem?_append_left hj] at h
      exact .inl h
    · rw [List.getElem?_append_right (not_lt.1 hj)] at h
      by_cases e : j - W.stars.length = 0
      · rw [e] at h
        cases h
        exact .inr ⟨by omega, rfl⟩
      · rw [List.getElem?_eq_none (by simp; omega)] at h
        cases h
  refine ⟨fun t ht => ?_, fun t ht => ?_, fun j k t v hjk ht hv => ?_⟩
  · rcases List.mem_append.1 ht with h | h
    · exact hW.exist t h
    · rw [List.mem_singleton.1 h]; exact h1
  · rcases List.mem_append.1 ht with h | h
    · exact hW.once t h
    · rw [List.mem_singleton.1 h]; exact h2
  · rcases cs j t ht with h | ⟨h, rfl⟩
    · rcases cs k v hv with h' | ⟨h', rfl⟩
      · exact hW.apart j k t v hjk h h'
      · obtain ⟨a1, a2, a3, a4⟩ := h3 t (List.mem_of_getElem? h)
        exact ⟨a1, a2, fun a ha ha' => a3 a ha' ha, fun a ha ha' => a4 a ha' ha⟩
    · rcases cs k v hv with h' | ⟨h', rfl⟩
      · obtain ⟨a1, a2, a3, a4⟩ := h3 v (List.mem_of_getElem? h')
        exact ⟨a1.symm, a2.symm, a3, a4⟩
      · omega

/-- The outcome of `Star(...)`: one more star, as built alone; the other stars stay. -/
structure Born (W W' : World) (S : Star) : Prop where
  sep : Separate W'
  count : W'.stars.length = W.stars.length + 1
  self : W'.look W.stars.length = some S
  others : ∀ j < W.stars.length, W'.look j = W.look j

theorem newStar_born {W : World} (hW : Separate W) {x : StarArgs} (hp : Polite W (.newStar x)) :
    (∀ W', W.newStar x = .ok W' → ∃ S, starOf W x = .ok S ∧ Born W W' S) ∧
    ∀ e, W.newStar x = .error e → starOf W x = .error e := by
  obtain ⟨⟨p1, p2, p3, p4, p5⟩, ⟨q1, q2, q3, q4, q5⟩, hG, hF⟩ := hp
  unfold World.newStar starOf
  cases ho : Grid.Obj.new x.gridParams with
  | error e =>
    refine ⟨fun W' h => (by cases h), fun e' h => ?_⟩
    cases h
    unfold Star.new
    rw [ho]; rfl
  | ok o =>
  cases hg : Grid.ofObj o with
  | error e =>
    simp only [bind, Except.bind, hg]
    refine ⟨fun W' h => (by cases h), fun e' h => ?_⟩
    cases h
    unfold Star.new
    rw [ho]
    simp only [bind, Except.bind, hg]
  | ok g =>
  rw [star_new_eq _ _ _ _ _ _ _ _ _ _ _ _ ho hg]
  simp only [bind, Except.bind, hg]
  set W₁ := (W.setFaculaCollGrid x.faculae g).setSpotCollGrid x.spots g with hW₁
  obtain ⟨s1, s2⟩ := takeSpotGen_spec W₁ x.spotGen g fun a ha => (hG a ha).1
  change ∀ e, _ → takenS (x.spotGen.map W.spotGen) g = Except.error e at s2
  cases hs : W₁.takeSpotGen x.spotGen g with
  | error e =>
    rw [s2 e hs]
    refine ⟨fun W' h => (by cases h), fun e' h => ?_⟩
    cases h; rfl
  | ok r =>
  obtain ⟨sg, W₂⟩ := r
  obtain ⟨H, n, rfl, l1, l2, v1, v2⟩ := s1 sg W₂ hs
  change takenS (x.spotGen.map W.spotGen) g = Except.ok (H sg) at v1
  rw [v1]
  set W₂ : World := { W₁ with spotGen := H, next := n } with hW₂
  obtain ⟨f1, f2⟩ := takeFacGen_spec W₂ x.facGen g fun a ha => (hF a ha).1.trans_le l1
  change ∀ e, _ → takenF (x.facGen.map W.facGen) g = Except.error e at f2
  cases hf : W₂.takeFacGen x.facGen g with
  | error e =>
    simp only [f2 e hf, hf]
    refine ⟨fun W' h => (by cases h), fun e' h => ?_⟩
    cases h; rfl
  | ok r =>
  obtain ⟨fg, W₃⟩ := r
  obtain ⟨K, m, rfl, k1, k2, w1, w2⟩ := f1 fg W₃ hf
  change takenF (x.facGen.map W.facGen) g = Except.ok (K fg) at w1
  simp only [w1, hf]
  refine ⟨fun W' h => ?_, fun e h => by cases h⟩
  cases h
  refine ⟨_, rfl, ?_⟩
  have hm : W.next ≤ m := l1.trans k1
  -- the new world without the new star
  set V : World := ((({ W₂ with facGen := K, next := m } : World).setSpotGrid x.spots g).setFacGrid x.faculae g) with hV
  have c1 : ∀ c, c ≠ x.spots → V.spotColl c = W.spotColl c := fun c hc => update_off _ _ hc
  have c2 : ∀ c, c ≠ x.faculae → V.faculaColl c = W.faculaColl c := fun c hc => update_off _ _ hc
  have c3 : V.spotColl x.spots = { W.spotColl x.spots with grid := g } := update_self _ _ _
  have c4 : V.faculaColl x.faculae = { W.faculaColl x.faculae with grid := g } := update_self _ _ _
  have r3 : (V.spotColl x.spots).refs = (W.spotColl x.spots).refs := by rw [c3]
  have r4 : (V.faculaColl x.faculae).refs = (W.faculaColl x.faculae).refs := by rw [c4]
  have d1 : V.spot = Heap.ageAll (fun s => { s with grid := g }) (W.spotColl x.spots).refs
      (Heap.ageAll (·.setGridmaker g) (W.spotColl x.spots).refs W.spot) := by
    rw [← r3]
    nth_rewrite 2 [r3]
    rfl
  have d2 : V.facula = Heap.ageAll (fun s => { s with grid := g }) (W.faculaColl x.faculae).refs
      (Heap.ageAll (fun f => { f with grid := g }) (W.faculaColl x.faculae).refs W.facula) := by
    rw [← r4]
    nth_rewrite 2 [r4]
    rfl
  have hu : ∀ t ∈ W.stars, Untouched W V t := by
    intro t ht
    obtain ⟨a1, a2, a3, a4, a5, a6⟩ := hW.exist t ht
    refine ⟨c1 _ (p3 t ht), c2 _ (q3 t ht), fun a ha => ?_, fun a ha => ?_, ?_, ?_⟩
    · rw [d1, ageAll_off _ _ fun h => p5 t ht a h ha, ageAll_off _ _ fun h => p5 t ht a h ha]
    · rw [d2, ageAll_off _ _ fun h => q5 t ht a h ha, ageAll_off _ _ fun h => q5 t ht a h ha]
    · exact v2 _ a3 fun e => (hG _ e).2 t ht rfl o g ho hg
    · exact w2 _ (a4.trans_le l1) fun e => (hF _ e).2 t ht rfl o g ho hg
  have hVs : Separate V := sep_frame hW rfl hm hu
  refine ⟨?_, by simp [hV, World.setSpotGrid, World.setFacGrid, hW₂, hW₁, World.setSpotCollGrid, World.setFaculaCollGrid], ?_, fun j hj => ?_⟩
  · refine sep_append hVs ⟨p1.trans_le hm, q1.trans_le hm, l2.trans_le k1, k2, ?_, ?_⟩ ⟨?_, ?_⟩ fun t ht => ⟨p3 t ht, q3 t ht, ?_, ?_⟩
    · rw [r3]; exact fun a ha => (p2 a ha).trans_le hm
    · rw [r4]; exact fun a ha => (q2 a ha).trans_le hm
    · rw [r3]; exact p4
    · rw [r4]; exact q4
    · rw [r3, c1 _ (p3 t ht)]; exact p5 t ht
    · rw [r4, c2 _ (q3 t ht)]; exact q5 t ht
  · have e : (V.stars ++ [({ teff := x.teff, radius := x.radius, period := x.period, spots := x.spots, faculae := x.faculae, grid := g, flareGen := x.flareGen.getD FlareGenerator.off, spotGen := sg, facGen := fg, granulation := some (x.granulation.getD Granulation.off), u1 := x.u1, u2 := x.u2, flares := none } : StarObj)])[W.stars.length]? = some { teff := x.teff, radius := x.radius, period := x.period, spots := x.spots, faculae := x.faculae, grid := g, flareGen := x.flareGen.getD FlareGenerator.off, spotGen := sg, facGen := fg, granulation := some (x.granulation.getD Granulation.off), u1 := x.u1, u2 := x.u2, flares := none } :=
      List.getElem?_concat_length
    unfold World.look
    rw [e]
    change some _ = some _
    congr 1
    unfold World.view Star.setFacGrid Star.setSpotGrid
    have e1 : V.spotsAt x.spots = { (W.spotsAt x.spots).setGridmaker g with spots := ((W.spotsAt x.spots).setGridmaker g).spots.map fun sp => { sp with grid := g } } := by
      unfold World.spotsAt SpotCollection.setGridmaker
      rw [c3, d1]
      simp only
      rw [ageAll_map _ _ p4, ageAll_map _ _ p4]
    have e2 : V.faculaeAt x.faculae = { (W.faculaeAt x.faculae).setGridmaker g with faculae := ((W.faculaeAt x.faculae).setGridmaker g).faculae.map fun f => { f with grid := g } } := by
      unfold World.faculaeAt FaculaCollection.setGridmaker
      rw [c4, d2]
      simp only
      rw [ageAll_map _ _ q4, ageAll_map _ _ q4]
    simp only
    change Star.mk _ _ _ (V.spotsAt x.spots) (V.faculaeAt x.faculae) _ _ _ _ _ _ _ _ = _
    rw [e1, e2]
    rfl
  · unfold World.look
    have hj' : (V.stars ++ [({ teff := x.teff, radius := x.radius, period := x.period, spots := x.spots, faculae := x.faculae, grid := g, flareGen := x.flareGen.getD FlareGenerator.off, spotGen := sg, facGen := fg, granulation := some (x.granulation.getD Granulation.off), u1 := x.u1, u2 := x.u2, flares := none } : StarObj)])[j]? = W.stars[j]? :=
      List.getElem?_append_left hj
    rw [hj']
    cases hjj : W.stars[j]? with
    | none => rfl
    | some t => exact congrArg some (hu t (List.mem_of_getElem? hjj)).view_eq

/-! ## Other statements -/

theorem other_frame {W : World} (hW : Separate W) (c : Cmd) (hp : Polite W c) (h1 : ∀ x, c ≠ .newStar x)
    (h2 : ∀ i k, c ≠ .on i k) : ∃ W', W.run c = .ok W' ∧ Separate W' ∧ ∀ j, W'.look j = W.look j := by
  have fin : ∀ W' : World, W'.stars = W.stars → W.next ≤ W'.next → (∀ t ∈ W.stars, Untouched W W' t) →
      Separate W' ∧ ∀ j, W'.look j = W.look j := fun W' a b h => ⟨sep_frame hW a b h, look_frame a h⟩
  have lt : ∀ {a b : ℕ}, a < b → a ≠ b := fun h => Nat.ne_of_lt h
  cases c with
  | newStar x => exact absurd rfl (h1 x)
  | on i k => exact absurd rfl (h2 i k)
  | newSpot s =>
    refine ⟨_, rfl, fin _ rfl (Nat.le_succ _) fun t ht => ?_⟩
    obtain ⟨a1, a2, a3, a4, a5, a6⟩ := hW.exist t ht
    exact ⟨rfl, rfl, fun a ha => update_off _ _ (lt (a5 a ha)), fun _ _ => rfl, rfl, rfl⟩
  | newFacula f =>
    refine ⟨_, rfl, fin _ rfl (Nat.le_succ _) fun t ht => ?_⟩
    obtain ⟨a1, a2, a3, a4, a5, a6⟩ := hW.exist t ht
    exact ⟨rfl, rfl, fun _ _ => rfl, fun a ha => update_off _ _ (lt (a6 a ha)), rfl, rfl⟩
  | newSpotGen G =>
    refine ⟨_, rfl, fin _ rfl (Nat.le_succ _) fun t ht => ?_⟩
    obtain ⟨a1, a2, a3, a4, a5, a6⟩ := hW.exist t ht
    exact ⟨rfl, rfl, fun _ _ => rfl, fun _ _ => rfl, update_off _ _ (lt a3), rfl⟩
  | newFacGen G =>
    refine ⟨_, rfl, fin _ rfl (Nat.le_succ _) fun t ht => ?_⟩
    obtain ⟨a1, a2, a3, a4, a5, a6⟩ := hW.exist t ht
    exact ⟨rfl, rfl, fun _ _ => rfl, fun _ _ => rfl, rfl, update_off _ _ (lt a4)⟩
  | newSpotColl refs g =>
    refine ⟨_, rfl, fin _ rfl (Nat.le_succ _) fun t ht => ?_⟩
    obtain ⟨a1, a2, a3, a4, a5, a6⟩ := hW.exist t ht
    refine ⟨?_, rfl, fun a ha => ?_, fun _ _ => rfl, rfl, rfl⟩
    · exact (update_off _ _ (lt a1)).trans (update_off _ _ (lt a1))
    · simp only [World.newSpotColl, World.setSpotCollGrid, update_self]
      exact ageAll_off _ _ fun h => hp t ht a h ha
  | newFaculaColl refs g =>
    refine ⟨_, rfl, fin _ rfl (Nat.le_succ _) fun t ht => ?_⟩
    obtain ⟨a1, a2, a3, a4, a5, a6⟩ := hW.exist t ht
    refine ⟨rfl, ?_, fun _ _ => rfl, fun a ha => ?_, rfl, rfl⟩
    · exact (update_off _ _ (lt a2)).trans (update_off _ _ (lt a2))
    · simp only [World.newFaculaColl, World.setFaculaCollGrid, update_self]
      exact ageAll_off _ _ fun h => hp t ht a h ha

/-! ## C135 -/

/-- All statements of the program are polite when their turn comes. -/
def Spec.PoliteRun : World → List Cmd → Prop
  | _, [] => True
  | W, c :: cs => Polite W c ∧ ∀ W', W.run c = .ok W' → PoliteRun W' cs

/-- The calls of the program on the `i`-th star, with the references of their arguments read when their turn comes. -/
noncomputable def Spec.callsOn (i : ℕ) : World → List Cmd → List Op
  | _, [] => []
  | W, c :: cs => (match c with | .on j k => if j = i then [meaning W k] else [] | _ => []) ++
      match W.run c with | .ok W' => callsOn i W' cs | .error _ => []

/-- The world before the first statement. -/
noncomputable def Spec.noObjects (sp : StarSpot) (f : Facula) (G : SpotGenerator) (F : FaculaGenerator) : World :=
  { spot := fun _ => sp, facula := fun _ => f, spotColl := fun _ => ⟨[], .rect 0 0⟩, faculaColl := fun _ => ⟨[], .rect 0 0⟩
    spotGen := fun _ => G, facGen := fun _ => F, stars := [], next := 0 }

/-- **C135** Statements that hand no object to two stars keep the stars apart.  A call on a star then does to it what
it does to the star alone, value or exception, and does nothing to the other stars; `Star(...)` builds the star that
would be built alone. -/
theorem C135_apart (W : World) (hW : Separate W) :
    (∀ (i : ℕ) (k : Call), Polite W (.on i k) → ∀ s, W.look i = some s →
      (∀ W', W.run (.on i k) = .ok W' → Separate W' ∧ W'.stars.length = W.stars.length ∧
        (∃ S, runOp s (meaning W k) = .ok S ∧ W'.look i = some S) ∧ ∀ j, j ≠ i → W'.look j = W.look j) ∧
      ∀ e, W.run (.on i k) = .error e → runOp s (meaning W k) = .error e) ∧
    (∀ x, Polite W (.newStar x) →
      (∀ W', W.run (.newStar x) = .ok W' → Separate W' ∧ W'.stars.length = W.stars.length + 1 ∧
        (∃ S, starOf W x = .ok S ∧ W'.look W.stars.length = some S) ∧ ∀ j < W.stars.length, W'.look j = W.look j) ∧
      ∀ e, W.run (.newStar x) = .error e → starOf W x = .error e) ∧
    ∀ c, Polite W c → (∀ x, c ≠ .newStar x) → (∀ i k, c ≠ .on i k) →
      ∃ W', W.run c = .ok W' ∧ Separate W' ∧ ∀ j, W'.look j = W.look j := by
  refine ⟨fun i k hp s hs => ?_, fun x hp => ?_, fun c hp h1 h2 => other_frame hW c hp h1 h2⟩
  · unfold World.look at hs
    obtain ⟨o, ho, rfl⟩ := Option.map_eq_some_iff.1 hs
    obtain ⟨k1, k2⟩ := call_alone hW ho hp
    simp only [World.run, ho]
    refine ⟨fun W' h => ?_, k2⟩
    obtain ⟨S, e, a⟩ := k1 W' h
    exact ⟨a.sep, a.count, ⟨S, e, a.self⟩, a.others⟩
  · obtain ⟨k1, k2⟩ := newStar_born hW hp
    refine ⟨fun W' h => ?_, k2⟩
    obtain ⟨S, e, a⟩ := k1 W' h
    exact ⟨a.sep, a.count, ⟨S, e, a.self⟩, a.others⟩

theorem run_keeps {W W' : World} (hW : Separate W) {c : Cmd} (hp : Polite W c) (h : W.run c = .ok W') :
    Separate W' ∧ W.stars.length ≤ W'.stars.length ∧
    (∀ i s, W.look i = some s → ∃ S, (match c with | .on j k => if j = i then [meaning W k] else [] | _ => []).foldlM runOp s = .ok S ∧
      W'.look i = some S) ∧
    ∀ i S, W.stars.length ≤ i → W'.look i = some S → ∃ x, starOf W x = .ok S := by
  have nolook : ∀ i, W.stars.length ≤ i → W.look i = none := fun i hi => by
    unfold World.look; rw [List.getElem?_eq_none hi]; rfl
  by_cases h1 : ∃ x, c = .newStar x
  · obtain ⟨x, rfl⟩ := h1
    obtain ⟨a, b, ⟨S, e, f⟩, d⟩ := ((C135_apart W hW).2.1 x hp).1 W' h
    refine ⟨a, by omega, fun i s hs => ⟨s, rfl, ?_⟩, fun i T hi hT => ⟨x, ?_⟩⟩
    · rw [d i ?_]
      · exact hs
      · by_contra hc
        rw [nolook i (not_lt.1 hc)] at hs
        cases hs
    · by_cases ei : i = W.stars.length
      · subst ei
        rw [f] at hT
        cases hT
        exact e
      · unfold World.look at hT
        rw [List.getElem?_eq_none (by omega)] at hT
        cases hT
  · by_cases h2 : ∃ i k, c = .on i k
    · obtain ⟨i, k, rfl⟩ := h2
      cases hs : W.look i with
      | none =>
        have : W.stars[i]? = none := by
          unfold World.look at hs
          simpa using hs
        simp only [World.run, this] at h
        cases h
      | some s =>
        obtain ⟨a, b, ⟨S, e, f⟩, d⟩ := ((C135_apart W hW).1 i k hp s hs).1 W' h
        refine ⟨a, by omega, fun j v hv => ?_, fun j T hj hT => ?_⟩
        · by_cases ej : i = j
          · subst ej
            rw [hs] at hv
            cases hv
            refine ⟨S, ?_, f⟩
            change List.foldlM runOp s (if i = i then [meaning W k] else []) = _
            rw [if_pos rfl, List.foldlM_cons, e]
            rfl
          · refine ⟨v, ?_, by rw [d j (Ne.symm ej)]; exact hv⟩
            simp only [if_neg ej]
            rfl
        · unfold World.look at hT
          rw [List.getElem?_eq_none (by omega)] at hT
          cases hT
    · push Not at h1 h2
      obtain ⟨V, e, a, b⟩ := (C135_apart W hW).2.2 c hp h1 h2
      rw [h] at e
      cases e
      have hlen : W'.stars.length = W.stars.length := by
        cases c <;> first | exact absurd rfl (h1 _) | exact absurd rfl (h2 _ _) | (cases h; rfl)
      refine ⟨a, hlen.ge, fun i s hs => ⟨s, ?_, by rw [b]; exact hs⟩, fun i S hi hS => ?_⟩
      · cases c <;> first | exact absurd rfl (h2 _ _) | rfl
      · rw [b, nolook i hi] at hS
        cases hS

/-- **C135** (programs) After a whole program of such statements every star is what its own calls alone have made of
it. -/
theorem C135_program (cs : List Cmd) : ∀ (W W' : World), Separate W → PoliteRun W cs → cs.foldlM World.run W = .ok W' →
    Separate W' ∧ ∀ i s, W.look i = some s → ∃ S, (callsOn i W cs).foldlM runOp s = .ok S ∧ W'.look i = some S := by
  induction cs with
  | nil =>
    intro W W' hW _ h
    cases h
    exact ⟨hW, fun i s hs => ⟨s, rfl, hs⟩⟩
  | cons c cs ih =>
    intro W W' hW hp h
    rw [List.foldlM_cons] at h
    cases hc : W.run c with
    | error e => rw [hc] at h; cases h
    | ok V =>
      rw [hc] at h
      obtain ⟨a1, -, a2, -⟩ := run_keeps hW hp.1 hc
      obtain ⟨b1, b2⟩ := ih V W' a1 (hp.2 V hc) h
      refine ⟨b1, fun i s hs => ?_⟩
      obtain ⟨T, e1, e2⟩ := a2 i s hs
      obtain ⟨S, e3, e4⟩ := b2 i T e2
      refine ⟨S, ?_, e4⟩
      unfold callsOn
      rw [hc, List.foldlM_append]
      simp only
      rw [e1]
      exact e3

/-- **C135** (reachable stars) Every star of such a program that starts with nothing is a star made by `Star(...)` and
then changed by calls on that star: the star of the other properties. -/
theorem C135_reachable (cs : List Cmd) : ∀ (W W' : World), Separate W → PoliteRun W cs → cs.foldlM World.run W = .ok W' →
    ∀ i S, W'.look i = some S → W.stars.length ≤ i →
      ∃ (V : World) (x : StarArgs) (ops : List Op) (S₀ : Star), starOf V x = .ok S₀ ∧ ops.foldlM runOp S₀ = .ok S := by
  induction cs with
  | nil =>
    intro W W' _ _ h i S hS hi
    cases h
    unfold World.look at hS
    rw [List.getElem?_eq_none hi] at hS
    cases hS
  | cons c cs ih =>
    intro W W' hW hp h i S hS hi
    rw [List.foldlM_cons] at h
    cases hc : W.run c with
    | error e => rw [hc] at h; cases h
    | ok V =>
      rw [hc] at h
      obtain ⟨a1, a2, -, a3⟩ := run_keeps hW hp.1 hc
      by_cases hi' : V.stars.length ≤ i
      · exact ih V W' a1 (hp.2 V hc) h i S hS hi'
      · cases hV : V.look i with
        | none =>
          unfold World.look at hV
          rw [List.getElem?_eq_getElem (not_le.1 hi')] at hV
          cases hV
        | some T =>
          obtain ⟨x, hx⟩ := a3 i T hi hV
          obtain ⟨R, e1, e2⟩ := (C135_program cs V W' a1 (hp.2 V hc) h).2 i T hV
          rw [hS] at e2
          cases e2
          exact ⟨W, x, _, T, hx, e1⟩

theorem noObjects_separate (sp : StarSpot) (f : Facula) (G : SpotGenerator) (F : FaculaGenerator) :
    Separate (noObjects sp f G F) :=
  ⟨fun s hs => (by cases hs), fun s hs => (by cases hs), fun i j s t _ h => (by cases h)⟩

/-- A small program: a star with one spot, a star without, then a day passes on the first. -/
noncomputable def twoStars (sp : StarSpot) : List Cmd :=
  [.newSpot sp, .newSpotColl [0] (.rect 3 4), .newFaculaColl [] (.rect 3 4),
   .newStar ⟨3000, 1, 1, 1, 2, .int 9, none, none, none, none, 0, 0⟩,
   .newSpotColl [] (.rect 3 4), .newFaculaColl [] (.rect 3 4),
   .newStar ⟨4000, 1, 1, 5, 6, .tuple [.int 2, .int 3], none, none, none, none, 0, 0⟩,
   .on 0 (.age 1)]

/-- Non-trivial instance of C135: the program is polite, runs, and makes two stars; the second has no spots. -/
example (sp q : StarSpot) (f : Facula) (G : SpotGenerator) (F : FaculaGenerator) :
    ∃ W' S T, PoliteRun (noObjects q f G F) (twoStars sp) ∧
      (twoStars sp).foldlM World.run (noObjects q f G F) = .ok W' ∧ W'.look 0 = some S ∧ W'.look 1 = some T ∧
      S.spots.spots.length ≤ 1 ∧ T.spots.spots = [] ∧ Separate W' := by
  have n9 : Grid.Obj.new (.int 9) = .ok (.spiral 9) := rfl
  have o9 : Grid.ofObj (.spiral 9) = .ok (.spiral 9) := by simp [Grid.ofObj]
  have n23 : Grid.Obj.new (.tuple [.int 2, .int 3]) = .ok (.rect 2 3) := rfl
  have o23 : Grid.ofObj (.rect 2 3) = .ok (.rect 2 3) := by simp [Grid.ofObj]
  have hp : PoliteRun (noObjects q f G F) (twoStars sp) := by
    simp [twoStars, PoliteRun, World.run, noObjects, Polite, Unheld, UnheldFac, World.newSpot, World.newSpotColl, World.newFaculaColl,
      World.newStar, bind, Except.bind, n9, o9, n23, o23, World.setSpotCollGrid, World.setFaculaCollGrid, World.takeSpotGen,
      World.takeFacGen, World.newSpotGen, World.newFacGen, World.setSpotGrid, World.setFacGrid, Heap.update, pure, Except.pure]
  have hr : ∃ W' S T, (twoStars sp).foldlM World.run (noObjects q f G F) = .ok W' ∧
      W'.look 0 = some S ∧ W'.look 1 = some T ∧ S.spots.spots.length ≤ 1 ∧ T.spots.spots = [] := by
    refine ⟨_, _, _, rfl, rfl, rfl, ?_, rfl⟩
    rw [show (1 : ℕ) = ([0] : List ℕ).length from rfl]
    refine (List.length_map (f := _) ..).le.trans ?_
    exact List.length_filter_le _ _
  obtain ⟨W', S, T, h1, h2, h3, h4, h5⟩ := hr
  exact ⟨W', S, T, hp, h1, h2, h3, h4, h5, (C135_program _ _ _ (noObjects_separate q f G F) hp h1).1⟩

end Vsm
