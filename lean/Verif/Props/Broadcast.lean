import Verif.Model.Broadcast
import Verif.Props.FarSide
import Verif.Props.SpiralDisk

/-!
# C148: arrays of different grids
-/

noncomputable section
namespace Vsm
open Real Np Spec

/-! ## Arrays of one grid -/

theorem index_inj (g : Grid) : Function.Injective g.index := by
  cases g with
  | rect a b =>
    rintro ⟨i, j⟩ ⟨i', j'⟩ h
    simp only [Grid.index, List.cons.injEq, and_true] at h
    exact Prod.ext (Fin.ext h.1) (Fin.ext h.2)
  | spiral n =>
    intro i i' h
    simp only [Grid.index, List.cons.injEq, and_true] at h
    exact Fin.ext h

/-- The array holds the values of a function on the pixels of a grid. -/
def Arr.Is {α : Type} (a : Arr α) (g : Grid) (f : g.Pix → α) : Prop := a.shape = g.shape ∧ ∀ p, a.val (g.index p) = f p

theorem ofGrid_is {α : Type} [Inhabited α] (g : Grid) (f : g.Pix → α) : (Arr.ofGrid g f).Is g f := by
  classical
  refine ⟨rfl, fun p => ?_⟩
  have h : ∃ q, g.index q = g.index p := ⟨p, rfl⟩
  refine (dif_pos h).trans ?_
  rw [index_inj g h.choose_spec]

theorem broadRev_self (s : List ℕ) : Arr.broadRev s s = some s := by
  induction s with
  | nil => rfl
  | cons a s ih => simp [Arr.broadRev, Arr.pairDim, ih]

theorem broad_self (s : List ℕ) : Arr.broad s s = some s := by
  simp [Arr.broad, broadRev_self]

theorem at_is {α : Type} {a : Arr α} {g : Grid} {f : g.Pix → α} (h : a.Is g f) (p : g.Pix) : a.at' (g.index p) = f p := by
  rw [← h.2 p]
  unfold Arr.at'
  rw [h.1]
  congr 1
  cases g with
  | rect x y =>
    obtain ⟨i, j⟩ := p
    have h1 := i.2
    have h2 := j.2
    simp only [Grid.shape, Grid.index, List.length_cons, List.length_nil, Nat.sub_self, List.drop_zero, List.zipWith_cons_cons, List.zipWith_nil_right]
    congr 1
    · split_ifs <;> omega
    · congr 1; split_ifs <;> omega
  | spiral n =>
    have h1 := p.2
    simp only [Grid.shape, Grid.index, List.length_cons, List.length_nil, Nat.sub_self, List.drop_zero, List.zipWith_cons_cons, List.zipWith_nil_right]
    congr 1
    split_ifs <;> omega

theorem map_is {α β : Type} {a : Arr α} {g : Grid} {v : g.Pix → α} (h : a.Is g v) (f : α → β) : (a.map f).Is g (fun p => f (v p)) :=
  ⟨h.1, fun p => congrArg f (h.2 p)⟩

theorem map₂_is {α β γ : Type} {a : Arr α} {b : Arr β} {g : Grid} {v : g.Pix → α} {w : g.Pix → β} (ha : a.Is g v) (hb : b.Is g w)
    (f : α → β → γ) : ∃ c, Arr.map₂ f a b = .ok c ∧ c.Is g (fun p => f (v p) (w p)) := by
  refine ⟨⟨g.shape, fun i => f (a.at' i) (b.at' i)⟩, ?_, rfl, fun p => ?_⟩
  · unfold Arr.map₂
    rw [ha.1, hb.1, broad_self]
  · change f _ _ = _
    rw [at_is ha, at_is hb]

/-- Broadcasting makes the array into the values of a function on the pixels of a grid. -/
def Arr.Seen {α : Type} (a : Arr α) (g : Grid) (f : g.Pix → α) : Prop :=
  Arr.broad a.shape g.shape = some g.shape ∧ Arr.broad g.shape a.shape = some g.shape ∧ ∀ p, a.at' (g.index p) = f p

theorem Arr.Is.seen {α : Type} {a : Arr α} {g : Grid} {f : g.Pix → α} (h : a.Is g f) : a.Seen g f :=
  ⟨by rw [h.1, broad_self], by rw [h.1, broad_self], at_is h⟩

theorem map₂_is_seen {α β γ : Type} {a : Arr α} {b : Arr β} {g : Grid} {v : g.Pix → α} {w : g.Pix → β} (ha : a.Is g v) (hb : b.Seen g w)
    (f : α → β → γ) : ∃ c, Arr.map₂ f a b = .ok c ∧ c.Is g (fun p => f (v p) (w p)) := by
  refine ⟨⟨g.shape, fun i => f (a.at' i) (b.at' i)⟩, ?_, rfl, fun p => ?_⟩
  · unfold Arr.map₂
    rw [ha.1, hb.2.1]
  · change f _ _ = _
    rw [at_is ha, hb.2.2]

theorem map₂_seen_is {α β γ : Type} {a : Arr α} {b : Arr β} {g : Grid} {v : g.Pix → α} {w : g.Pix → β} (ha : a.Seen g v) (hb : b.Is g w)
    (f : α → β → γ) : ∃ c, Arr.map₂ f a b = .ok c ∧ c.Is g (fun p => f (v p) (w p)) := by
  refine ⟨⟨g.shape, fun i => f (a.at' i) (b.at' i)⟩, ?_, rfl, fun p => ?_⟩
  · unfold Arr.map₂
    rw [hb.1, ha.1]
  · change f _ _ = _
    rw [at_is hb, ha.2.2]

theorem map_seen {α β : Type} {a : Arr α} {g : Grid} {v : g.Pix → α} (h : a.Seen g v) (f : α → β) : (a.map f).Seen g (fun p => f (v p)) :=
  ⟨h.1, h.2.1, fun p => congrArg f (h.2.2 p)⟩

/-- An array of a spiral of `n` points, broadcast to a rectangular grid with `n` parallels, repeats along the parallels. -/
theorem row_seen {α : Type} {a : Arr α} {n : ℕ} {v : (Grid.spiral n).Pix → α} (h : a.Is (.spiral n) v) (k : ℕ) :
    a.Seen (.rect n k) fun p => v p.2 := by
  have h1 : a.shape = [n] := h.1
  refine ⟨?_, ?_, ?_⟩
  · rw [h1]; simp [Arr.broad, Arr.broadRev, Grid.shape, Arr.pairDim]
  · rw [h1]; simp [Arr.broad, Arr.broadRev, Grid.shape, Arr.pairDim]
  · rintro ⟨i, j⟩
    refine Eq.trans ?_ (h.2 j)
    unfold Arr.at'
    rw [h1]
    congr 1
    have h2 := j.2
    simp only [Grid.index, List.length_cons, List.length_nil, List.drop_succ_cons, List.drop_zero, List.zipWith_cons_cons, List.zipWith_nil_right]
    change [if n = 1 then 0 else (j : ℕ)] = [(j : ℕ)]
    congr 1
    split_ifs <;> omega

theorem mem_indices_cons {n : ℕ} {s l : List ℕ} : l ∈ Arr.indices (n :: s) ↔ ∃ k t, l = k :: t ∧ k < n ∧ t ∈ Arr.indices s := by
  simp only [Arr.indices, Finset.mem_biUnion, Finset.mem_range, Finset.mem_image]
  constructor
  · rintro ⟨k, hk, t, ht, rfl⟩; exact ⟨k, t, rfl, hk, ht⟩
  · rintro ⟨k, t, rfl, hk, ht⟩; exact ⟨k, hk, t, ht, rfl⟩

theorem mem_indices_nil {l : List ℕ} : l ∈ Arr.indices [] ↔ l = [] := by simp [Arr.indices]

theorem indices_grid (g : Grid) : Arr.indices g.shape = Finset.univ.image g.index := by
  ext l
  rw [Finset.mem_image]
  cases g with
  | rect x y =>
    simp only [Grid.shape, mem_indices_cons, mem_indices_nil]
    constructor
    · rintro ⟨i, t, rfl, hi, j, t', rfl, hj, rfl⟩
      exact ⟨(⟨i, hi⟩, ⟨j, hj⟩), Finset.mem_univ _, rfl⟩
    · rintro ⟨⟨i, j⟩, -, rfl⟩
      exact ⟨i, _, rfl, i.2, j, _, rfl, j.2, rfl⟩
  | spiral n =>
    simp only [Grid.shape, mem_indices_cons, mem_indices_nil]
    constructor
    · rintro ⟨i, t, rfl, hi, rfl⟩
      exact ⟨⟨i, hi⟩, Finset.mem_univ _, rfl⟩
    · rintro ⟨i, -, rfl⟩
      exact ⟨i, _, rfl, i.2, rfl⟩

theorem sum_is {a : Arr Fl} {g : Grid} {v : g.Pix → Fl} (h : a.Is g v) : a.sum = ∑ p, v p := by
  unfold Arr.sum
  rw [h.1, indices_grid, Finset.sum_image fun p _ q _ e => index_inj g e]
  exact Finset.sum_congr rfl fun p _ => h.2 p

theorem unique_is {a : Arr ℝ} {g : Grid} {v : g.Pix → ℝ} (h : a.Is g v) : a.unique = Star.uniqueTeffs v := by
  unfold Arr.unique Star.uniqueTeffs
  rw [h.1, indices_grid, Finset.image_image]
  congr 1
  exact Finset.image_congr fun p _ => h.2 p

theorem index_length (g : Grid) (p : g.Pix) : (g.index p).length = g.shape.length := by
  cases g <;> rfl

theorem select_is {α : Type} {a : Arr α} {mask : Arr Prop} {g : Grid} {v : g.Pix → α} {b : g.Pix → Prop} (ha : a.Is g v) (hm : mask.Is g b) :
    a.select mask = .ok ((open Classical in Finset.univ.filter b).val.map v) := by
  classical
  unfold Arr.select
  rw [if_pos (by rw [ha.1, hm.1]), ha.1, hm.1, indices_grid]
  congr 1
  have e : (Finset.univ.image g.index).filter (fun i => mask.val (i.take g.shape.length)) = (Finset.univ.filter b).image g.index := by
    ext l
    simp only [Finset.mem_filter, Finset.mem_image, Finset.mem_univ, true_and]
    constructor
    · rintro ⟨⟨p, rfl⟩, h⟩
      rw [← index_length g p, List.take_length, hm.2] at h
      exact ⟨p, h, rfl⟩
    · rintro ⟨p, h, rfl⟩
      refine ⟨⟨p, rfl⟩, ?_⟩
      rw [← index_length g p, List.take_length, hm.2]
      exact h
  have e2 := congrArg (fun s : Finset (List ℕ) => s.val.map a.val) e
  refine Eq.trans e2 ?_
  · rw [Finset.image_val_of_injOn (index_inj g).injOn, Multiset.map_map]
    exact Multiset.map_congr rfl fun p _ => ha.2 p

theorem assign_is {α : Type} {a : Arr α} {mask : Arr Prop} {g : Grid} {v : g.Pix → α} {b : g.Pix → Prop} (ha : a.Is g v) (hm : mask.Is g b)
    (x : α) : ∃ c, a.assign mask x = .ok c ∧ c.Is g (fun p => open Classical in if b p then x else v p) := by
  classical
  refine ⟨⟨a.shape, fun i => if mask.val (i.take mask.shape.length) then x else a.val i⟩, ?_, ?_⟩
  · unfold Arr.assign
    exact if_pos (by rw [ha.1, hm.1])
  · refine ⟨ha.1, fun p => ?_⟩
    change (if mask.val ((g.index p).take mask.shape.length) then x else a.val (g.index p)) = if b p then x else v p
    rw [hm.1, ← index_length g p, List.take_length, ha.2]
    by_cases h : b p
    · rw [if_pos h, if_pos (by rw [hm.2]; exact h)]
    · rw [if_neg h, if_neg (by rw [hm.2]; exact h)]

theorem on_is {α : Type} [Inhabited α] {F : Field α} {g : Grid} {e : PyErr} {v : g.Pix → α} (h : F.on g e = .ok v) : (Arr.ofGrid F.1 F.2).Is g v := by
  obtain ⟨g', f⟩ := F
  unfold Field.on at h
  split_ifs at h with e
  subst e
  cases h
  exact ofGrid_is _ _

/-! ## The map and the report of a star whose arrays are all of its grid -/

theorem overlay_ite {tu tp : ℝ} {U P : Prop} {c : ℝ} : (open Classical in if U ∧ tu < c then tu else if P ∧ tp < c then tp else c) =
    SpotCollection.overlay id tu tp U P c := by
  classical
  unfold SpotCollection.overlay
  congr

theorem mapStepB_is {R : ℝ} {s : StarSpot} {g : Grid} {cur : Arr ℝ} {dP dU : g.Pix → Prop} {m : g.Pix → ℝ} (hc : cur.Is g m)
    (hP : (Arr.ofGrid s.r.1 (s.penumbraMask R)).Seen g dP) (hU : (Arr.ofGrid s.r.1 (s.umbraMask R)).Seen g dU) :
    ∃ c, SpotCollection.mapStepB R s cur = .ok c ∧
      c.Is g fun p => SpotCollection.overlay id s.teffUmbra s.teffPenumbra (dU p) (dP p) (m p) := by
  classical
  obtain ⟨a, e1, h1⟩ := map₂_seen_is hP (map_is hc (s.teffPenumbra < ·)) (fun b b' : Prop => b ∧ b')
  obtain ⟨b, e2, h2⟩ := map₂_seen_is hU (map_is hc (s.teffUmbra < ·)) (fun b b' : Prop => b ∧ b')
  obtain ⟨c, e3, h3⟩ := map₂_is h1 hc (fun (b : Prop) (t : ℝ) => if b then s.teffPenumbra else t)
  obtain ⟨d, e4, h4⟩ := map₂_is h2 h3 (fun (b : Prop) (t : ℝ) => if b then s.teffUmbra else t)
  refine ⟨d, ?_, h4.1, fun p => ?_⟩
  · unfold SpotCollection.mapStepB
    simp only [e1, e2, bind, Except.bind]
    rw [e3]
    exact e4
  · refine (h4.2 p).trans (Eq.trans ?_ overlay_ite)
    simp only
    congr

theorem mapStepB_seen {R : ℝ} {s : StarSpot} {g : Grid} {cur : Arr ℝ} {dP dU : g.Pix → Prop} {m : g.Pix → ℝ} (hc : cur.Seen g m)
    (hP : (Arr.ofGrid s.r.1 (s.penumbraMask R)).Is g dP) (hU : (Arr.ofGrid s.r.1 (s.umbraMask R)).Is g dU) :
    ∃ c, SpotCollection.mapStepB R s cur = .ok c ∧
      c.Is g fun p => SpotCollection.overlay id s.teffUmbra s.teffPenumbra (dU p) (dP p) (m p) := by
  classical
  obtain ⟨a, e1, h1⟩ := map₂_is_seen hP (map_seen hc (s.teffPenumbra < ·)) (fun b b' : Prop => b ∧ b')
  obtain ⟨b, e2, h2⟩ := map₂_is_seen hU (map_seen hc (s.teffUmbra < ·)) (fun b b' : Prop => b ∧ b')
  obtain ⟨c, e3, h3⟩ := map₂_is_seen h1 hc (fun (b : Prop) (t : ℝ) => if b then s.teffPenumbra else t)
  obtain ⟨d, e4, h4⟩ := map₂_is h2 h3 (fun (b : Prop) (t : ℝ) => if b then s.teffUmbra else t)
  refine ⟨d, ?_, h4.1, fun p => ?_⟩
  · unfold SpotCollection.mapStepB
    simp only [e1, e2, bind, Except.bind]
    rw [e3]
    exact e4
  · refine (h4.2 p).trans (Eq.trans ?_ overlay_ite)
    simp only
    congr

theorem mapB_is {c : SpotCollection} {R T : ℝ} {m : c.grid.Pix → ℝ} (h : c.mapPixels id R T = .ok m) :
    ∃ a, c.mapPixelsB R T = .ok a ∧ a.Is c.grid m := by
  unfold SpotCollection.mapPixels at h
  unfold SpotCollection.mapPixelsB
  have h0 := ofGrid_is c.grid fun _ => T
  revert h h0
  generalize (fun _ => T : c.grid.Pix → ℝ) = m0
  generalize Arr.ofGrid c.grid m0 = a0
  induction c.spots generalizing m0 a0 with
  | nil =>
    intro h h0
    cases h
    exact ⟨a0, rfl, h0⟩
  | cons s l ih =>
    intro h h0
    rw [List.foldlM_cons] at h ⊢
    unfold SpotCollection.mapStep at h
    by_cases hg : s.r.1 = c.grid
    · rw [dif_pos hg] at h
      have hP : (Arr.ofGrid s.r.1 (s.penumbraMask R)).Is c.grid fun p => s.penumbraMask R (hg ▸ p) := by
        have : Field.on ⟨s.r.1, s.penumbraMask R⟩ c.grid .indexError = .ok fun p => s.penumbraMask R (hg ▸ p) := dif_pos hg
        exact on_is this
      have hU : (Arr.ofGrid s.r.1 (s.umbraMask R)).Is c.grid fun p => s.umbraMask R (hg ▸ p) := by
        have : Field.on ⟨s.r.1, s.umbraMask R⟩ c.grid .indexError = .ok fun p => s.umbraMask R (hg ▸ p) := dif_pos hg
        exact on_is this
      obtain ⟨a1, e1, h1⟩ := mapStepB_is h0 hP.seen hU.seen
      rw [e1]
      exact ih _ a1 h h1
    · rw [dif_neg hg] at h
      cases h

theorem addFaculaB_is {s : Star} {lat0 lon0 : ℝ} {cur : Arr ℝ} {m m' : s.grid.Pix → ℝ} {f : Facula} (hc : cur.Is s.grid m)
    (h : s.addFacula lat0 lon0 m f = .ok m') : ∃ a, s.addFaculaB lat0 lon0 cur f = .ok a ∧ a.Is s.grid m' := by
  classical
  unfold Star.addFacula at h
  unfold Star.addFaculaB
  by_cases hany : ¬ ∃ p, (f.inside s.radius).2 p
  · simp only [if_pos hany] at h
    cases h
    exact ⟨cur, if_pos hany, hc⟩
  · simp only [if_neg hany] at h
    rw [if_neg hany]
    cases hf : f.fractionalEffectiveArea (Helpers.angleBetween lat0 lon0 f.lat f.lon) with
    | error e => rw [hf] at h; cases h
    | ok fracs =>
      rw [hf] at h
      simp only [bind, Except.bind] at h ⊢
      cases hi : (f.inside s.radius).on s.grid .indexError with
      | error e => rw [hi] at h; cases h
      | ok ins =>
        rw [hi] at h
        simp only at h
        have his := on_is hi
        unfold Star.paintFacula at h
        unfold Star.paintFaculaB
        match fracs, h with
        | [(tw, fr), (tf, _)], h =>
          simp only [bind, Except.bind] at h ⊢
          have hmu := ofGrid_is s.grid (s.mu lat0 lon0)
          rw [select_is hmu his]
          simp only
          cases hp : Np.percentile ((Finset.univ.filter ins).val.map (s.mu lat0 lon0)) fr with
          | error e => rw [hp] at h; cases h
          | ok B =>
            rw [hp] at h
            simp only [pure, Except.pure] at h
            obtain ⟨a1, e1, h1⟩ := map₂_is his (map_is hmu (· ≤ B)) (fun b b' : Prop => b ∧ b')
            obtain ⟨a2, e2, h2⟩ := map₂_is his (map_is hmu (B < ·)) (fun b b' : Prop => b ∧ b')
            obtain ⟨c1, e3, h3⟩ := assign_is hc h1 (Helpers.clipTeff (tw + s.teff))
            obtain ⟨c2, e4, h4⟩ := assign_is h3 h2 (Helpers.clipTeff (tf + s.teff))
            simp only [e1, e2, e3, e4]
            refine ⟨c2, rfl, h4.1, fun p => ?_⟩
            rw [h4.2 p, ← Except.ok.inj h]
            simp only
            split_ifs <;> rfl

theorem faculaeB_is {s : Star} {lat0 lon0 : ℝ} {l : List Facula} {a0 : Arr ℝ} {m0 m : s.grid.Pix → ℝ} (i0 : a0.Is s.grid m0)
    (h : l.foldlM (fun cur f => s.addFacula lat0 lon0 cur f) m0 = .ok m) :
    ∃ a, l.foldlM (fun cur f => s.addFaculaB lat0 lon0 cur f) a0 = .ok a ∧ a.Is s.grid m := by
  induction l generalizing a0 m0 with
  | nil => cases h; exact ⟨a0, rfl, i0⟩
  | cons f l ih =>
    rw [List.foldlM_cons] at h ⊢
    cases hf : s.addFacula lat0 lon0 m0 f with
    | error e => rw [hf] at h; cases h
    | ok m2 =>
      rw [hf] at h
      obtain ⟨a2, e2, i2⟩ := addFaculaB_is i0 hf
      rw [e2]
      exact ih i2 h

/-- The spot map of the model without broadcasting, moved to the grid of the star. -/
theorem faculae_start {s : Star} {lat0 lon0 : ℝ} {m : s.grid.Pix → ℝ} (h : s.addFaculaeToMap lat0 lon0 = .ok m) :
    ∃ (m0 : s.spots.grid.Pix → ℝ) (m1 : s.grid.Pix → ℝ), s.spots.mapPixels id s.radius s.teff = .ok m0 ∧
      (∀ a : Arr ℝ, a.Is s.spots.grid m0 → a.Is s.grid m1) ∧ s.faculae.faculae.foldlM (fun cur f => s.addFacula lat0 lon0 cur f) m1 = .ok m := by
  unfold Star.addFaculaeToMap at h
  cases h1 : s.map with
  | error e => rw [h1] at h; cases h
  | ok m0 =>
    rw [h1] at h
    simp only [bind, Except.bind] at h
    cases h2 : Field.on ⟨s.spots.grid, m0⟩ s.grid .indexError with
    | error e => rw [h2] at h; cases h
    | ok m1 =>
      rw [h2] at h
      simp only at h
      refine ⟨m0, m1, h1, fun a i0 => ?_, h⟩
      unfold Field.on at h2
      split_ifs at h2 with e
      have e : s.spots.grid = s.grid := e
      have key : ∀ g, ∀ (e : s.spots.grid = g) (v : g.Pix → ℝ), (Except.ok fun p => m0 (e ▸ p) : Py (g.Pix → ℝ)) = .ok v → a.Is g v := by
        rintro g rfl v hv
        cases hv
        exact i0
      exact key _ e _ h2

theorem addFaculaeB_is {s : Star} {lat0 lon0 : ℝ} {m : s.grid.Pix → ℝ} (h : s.addFaculaeToMap lat0 lon0 = .ok m) :
    ∃ a, s.addFaculaeToMapB lat0 lon0 = .ok a ∧ a.Is s.grid m := by
  obtain ⟨m0, m1, h1, h2, h3⟩ := faculae_start h
  obtain ⟨a0, e0, i0⟩ := mapB_is h1
  obtain ⟨a, e, i⟩ := faculaeB_is (h2 a0 i0) h3
  refine ⟨a, ?_, i⟩
  unfold Star.addFaculaeToMapB
  rw [e0]
  exact e

theorem areaB_is {s : Star} {lat0 lon0 : ℝ} {a : Arr ℝ} {m : s.grid.Pix → ℝ} (h : a.Is s.grid m) (extra : s.grid.Pix → Fl) (T : ℝ) :
    s.areaWithTeffB lat0 lon0 a extra T = .ok (s.areaWithTeff lat0 lon0 m extra T) := by
  classical
  obtain ⟨x, e1, h1⟩ := map₂_is (map_is h fun t => if t = T then Fl.fin 1 else Fl.fin 0) (ofGrid_is s.grid (s.weight lat0 lon0)) (· * ·)
  obtain ⟨y, e2, h2⟩ := map₂_is h1 (ofGrid_is s.grid extra) (· * ·)
  unfold Star.areaWithTeffB
  simp only [e1, e2, bind, Except.bind, pure, Except.pure]
  rw [sum_is h2]
  rfl

theorem foldlM_ok {α β : Type} (f : α → β → Py α) (g : α → β → α) (h : ∀ a b, f a b = .ok (g a b)) (l : List β) (a : α) :
    l.foldlM f a = .ok (l.foldl g a) := by
  induction l generalizing a with
  | nil => rfl
  | cons b l ih => rw [List.foldlM_cons, h]; exact ih _

theorem rawB_is {s : Star} {lat0 lon0 : ℝ} {a : Arr ℝ} {m : s.grid.Pix → ℝ} (h : a.Is s.grid m) (extra : s.grid.Pix → Fl) (G : ℝ) :
    s.rawDataB lat0 lon0 a extra G = .ok (s.rawData lat0 lon0 m extra G) := by
  classical
  unfold Star.rawDataB Star.rawData
  simp only [areaB_is h, bind, Except.bind, pure, Except.pure, unique_is h, sum_is (ofGrid_is s.grid (s.weight lat0 lon0))]
  rw [foldlM_ok _ (fun d teff => Dict.set d (Star.key teff) (s.areaWithTeff lat0 lon0 m extra teff / ∑ p, s.weight lat0 lon0 p)) (fun _ _ => rfl)]

/-- **C148** (same grids) Whenever the model without broadcasting gives a report, so does the one with numpy's broadcasting, and it
is the same. -/
theorem C148_same (s : Star) (lat0 lon0 g orbit r phase incl : ℝ) (x : Dict ℤ Fl × Dict ℤ Fl × Fl)
    (h : s.calcCoverage lat0 lon0 g orbit r phase incl = .ok x) : s.calcCoverageB lat0 lon0 g orbit r phase incl = .ok x := by
  obtain ⟨total, cov, plf⟩ := x
  obtain ⟨m, mask, gr, hm, ht, hgr, h1, h2⟩ := calcCoverage_ok.mp h
  obtain ⟨a, e, i⟩ := addFaculaeB_is hm
  unfold Star.calcCoverageB
  rw [e, ht, hgr]
  simp only [bind, Except.bind, rawB_is i, h1, h2]
  rfl

/-! ## Shapes that numpy refuses -/

/-- Two grids whose arrays numpy combines. -/
def Spec.Fit : Grid → Grid → Prop
  | .rect a b, .rect a' b' => (a = a' ∨ a = 1 ∨ a' = 1) ∧ (b = b' ∨ b = 1 ∨ b' = 1)
  | .rect a _, .spiral n => a = n ∨ a = 1 ∨ n = 1
  | .spiral n, .rect a _ => n = a ∨ n = 1 ∨ a = 1
  | .spiral n, .spiral n' => n = n' ∨ n = 1 ∨ n' = 1

theorem pairDim_none {a b : ℕ} : Arr.pairDim a b ≠ none ↔ a = b ∨ a = 1 ∨ b = 1 := by
  unfold Arr.pairDim
  split_ifs <;> simp_all

theorem fit_iff (g g' : Grid) : Arr.broad g.shape g'.shape ≠ none ↔ Fit g g' := by
  cases g with
  | rect a b =>
    cases g' with
    | rect a' b' =>
      change _ ↔ (a = a' ∨ a = 1 ∨ a' = 1) ∧ (b = b' ∨ b = 1 ∨ b' = 1)
      rw [← @pairDim_none a a', ← @pairDim_none b b']
      unfold Arr.broad
      simp only [Grid.shape, List.reverse_cons, List.reverse_nil, List.nil_append, List.cons_append, Arr.broadRev]
      cases Arr.pairDim a a' <;> cases Arr.pairDim b b' <;> simp [bind, Option.bind, pure]
    | spiral n =>
      change _ ↔ (a = n ∨ a = 1 ∨ n = 1)
      rw [← @pairDim_none a n]
      unfold Arr.broad
      simp only [Grid.shape, List.reverse_cons, List.reverse_nil, List.nil_append, List.cons_append, Arr.broadRev]
      cases Arr.pairDim a n <;> simp [bind, Option.bind, pure]
  | spiral n =>
    cases g' with
    | rect a b =>
      change _ ↔ (n = a ∨ n = 1 ∨ a = 1)
      rw [← @pairDim_none n a]
      unfold Arr.broad
      simp only [Grid.shape, List.reverse_cons, List.reverse_nil, List.nil_append, List.cons_append, Arr.broadRev]
      cases Arr.pairDim n a <;> simp [bind, Option.bind, pure]
    | spiral n' =>
      change _ ↔ (n = n' ∨ n = 1 ∨ n' = 1)
      rw [← @pairDim_none n n']
      unfold Arr.broad
      simp only [Grid.shape, List.reverse_cons, List.reverse_nil, List.nil_append, Arr.broadRev]
      cases Arr.pairDim n n' <;> simp [bind, Option.bind, pure]

/-- Shapes (last axis first) of which the first is repeated to give the second. -/
def Sub : List ℕ → List ℕ → Prop
  | [], _ => True
  | _ :: _, [] => False
  | a :: s, b :: t => (a = b ∨ a = 1) ∧ Sub s t

theorem sub_refl (s : List ℕ) : Sub s s := by
  induction s with
  | nil => trivial
  | cons a s ih => exact ⟨Or.inl rfl, ih⟩

theorem sub_trans {s t u : List ℕ} (h : Sub s t) (h' : Sub t u) : Sub s u := by
  induction s generalizing t u with
  | nil => trivial
  | cons a s ih =>
    cases t with
    | nil => exact h.elim
    | cons b t =>
      cases u with
      | nil => exact h'.elim
      | cons c u =>
        refine ⟨?_, ih h.2 h'.2⟩
        have h1 := h.1
        have h2 := h'.1
        omega

theorem broadRev_sub {s t r : List ℕ} (h : Arr.broadRev s t = some r) :
    Sub s r ∧ Sub t r ∧ ((∀ x ∈ s, 0 < x) → (∀ x ∈ t, 0 < x) → ∀ x ∈ r, 0 < x) := by
  induction s generalizing t r with
  | nil =>
    have e : t = r := by
      cases t <;> simpa [Arr.broadRev] using h
    subst e
    exact ⟨trivial, sub_refl _, fun _ h => h⟩
  | cons a s ih =>
    cases t with
    | nil =>
      have e : a :: s = r := by simpa [Arr.broadRev] using h
      subst e
      exact ⟨sub_refl _, trivial, fun h _ => h⟩
    | cons b t =>
      unfold Arr.broadRev at h
      cases hd : Arr.pairDim a b with
      | none => rw [hd] at h; cases h
      | some d =>
        cases hr : Arr.broadRev s t with
        | none => rw [hd, hr] at h; cases h
        | some r' =>
          rw [hd, hr] at h
          cases h
          obtain ⟨h1, h2, h3⟩ := ih hr
          have e : (a = d ∨ a = 1) ∧ (b = d ∨ b = 1) ∧ (d = a ∨ d = b) := by
            unfold Arr.pairDim at hd
            split_ifs at hd <;> simp_all
          refine ⟨⟨e.1, h1⟩, ⟨e.2.1, h2⟩, fun ps pt x hx => ?_⟩
          rcases List.mem_cons.mp hx with rfl | hx
          · rcases e.2.2 with h | h
            · rw [h]; exact ps a List.mem_cons_self
            · rw [h]; exact pt b List.mem_cons_self
          · exact h3 (fun x hx => ps x (List.mem_cons_of_mem _ hx)) (fun x hx => pt x (List.mem_cons_of_mem _ hx)) x hx

theorem sub_fit {s t r : List ℕ} (h : Sub s r) (h' : Sub t r) : Arr.broadRev s t ≠ none := by
  induction s generalizing t r with
  | nil => cases t <;> simp [Arr.broadRev]
  | cons a s ih =>
    cases t with
    | nil => simp [Arr.broadRev]
    | cons b t =>
      cases r with
      | nil => exact h.elim
      | cons d r =>
        have e := ih h.2 h'.2
        have e' : Arr.pairDim a b ≠ none := by
          rw [pairDim_none]
          have h1 := h.1
          have h2 := h'.1
          omega
        unfold Arr.broadRev
        obtain ⟨x, hx⟩ := Option.ne_none_iff_exists'.mp e
        obtain ⟨y, hy⟩ := Option.ne_none_iff_exists'.mp e'
        rw [hx, hy]
        simp [bind, Option.bind, pure]

/-- The shape `r` arises from `s` by broadcasting. -/
def Grows (s r : List ℕ) : Prop := Sub s.reverse r.reverse

theorem map₂_grows {α β γ : Type} {f : α → β → γ} {a : Arr α} {b : Arr β} {c : Arr γ} (h : Arr.map₂ f a b = .ok c) :
    Grows a.shape c.shape ∧ Grows b.shape c.shape ∧ ((∀ x ∈ a.shape, 0 < x) → (∀ x ∈ b.shape, 0 < x) → ∀ x ∈ c.shape, 0 < x) := by
  unfold Arr.map₂ Arr.broad at h
  cases hr : Arr.broadRev a.shape.reverse b.shape.reverse with
  | none => rw [hr] at h; cases h
  | some r =>
    rw [hr] at h
    cases h
    obtain ⟨h1, h2, h3⟩ := broadRev_sub hr
    unfold Grows
    refine ⟨by simpa using h1, by simpa using h2, fun p q x hx => ?_⟩
    exact h3 (by simpa using p) (by simpa using q) x (by simpa using hx)

theorem grows_fit {g g' : Grid} {r : List ℕ} (h : Grows g.shape r) (h' : Grows g'.shape r) : Fit g g' := by
  rw [← fit_iff]
  have := sub_fit h h'
  unfold Arr.broad
  rw [ne_eq, Option.map_eq_none_iff]
  exact this

theorem grid_pos {g : Grid} (h : Nonempty g.Pix) : ∀ x ∈ g.shape, 0 < x := by
  obtain ⟨p⟩ := h
  cases g with
  | rect a b =>
    have h1 := p.1.pos
    have h2 := p.2.pos
    intro x hx
    simp only [Grid.shape, List.mem_cons, List.not_mem_nil, or_false] at hx
    rcases hx with rfl | rfl <;> assumption
  | spiral n =>
    have h1 := Fin.pos p
    intro x hx
    simp only [Grid.shape, List.mem_cons, List.not_mem_nil, or_false] at hx
    rw [hx]; exact h1

theorem mapStepB_grows {R : ℝ} {s : StarSpot} {cur c : Arr ℝ} (h : SpotCollection.mapStepB R s cur = .ok c) :
    Grows cur.shape c.shape ∧ Grows s.r.1.shape c.shape ∧
      ((∀ x ∈ cur.shape, 0 < x) → (∀ x ∈ s.r.1.shape, 0 < x) → ∀ x ∈ c.shape, 0 < x) := by
  unfold SpotCollection.mapStepB at h
  simp only [bind, Except.bind] at h
  split at h
  · cases h
  rename_i a e1
  split at h
  · cases h
  rename_i b e2
  split at h
  · cases h
  rename_i d e3
  obtain ⟨a1, a2, a3⟩ := map₂_grows e1
  obtain ⟨b1, b2, b3⟩ := map₂_grows e2
  obtain ⟨d1, d2, d3⟩ := map₂_grows e3
  obtain ⟨c1, c2, c3⟩ := map₂_grows h
  exact ⟨sub_trans b2 c1, sub_trans b1 c1, fun p q => c3 (b3 q p) (d3 (a3 q p) p)⟩

theorem foldB_grows {R : ℝ} {a a0 : Arr ℝ} {l : List StarSpot} (h : l.foldlM (fun cur s => SpotCollection.mapStepB R s cur) a0 = .ok a) :
    Grows a0.shape a.shape ∧ (∀ sp ∈ l, Grows sp.r.1.shape a.shape) ∧
      ((∀ x ∈ a0.shape, 0 < x) → (∀ sp ∈ l, ∀ x ∈ sp.r.1.shape, 0 < x) → ∀ x ∈ a.shape, 0 < x) := by
  induction l generalizing a0 with
  | nil =>
    cases h
    exact ⟨sub_refl _, by simp, fun h _ => h⟩
  | cons s l ih =>
    rw [List.foldlM_cons] at h
    cases hs : SpotCollection.mapStepB R s a0 with
    | error e => rw [hs] at h; cases h
    | ok a1 =>
      rw [hs] at h
      obtain ⟨g1, g2, g3⟩ := mapStepB_grows hs
      obtain ⟨i1, i2, i3⟩ := ih h
      refine ⟨sub_trans g1 i1, ?_, fun p q => i3 (g3 p (q s List.mem_cons_self)) fun sp hsp => q sp (List.mem_cons_of_mem _ hsp)⟩
      intro sp hsp
      rcases List.mem_cons.mp hsp with rfl | hsp
      · exact sub_trans g2 i1
      · exact i2 sp hsp

theorem assign_shape {a c : Arr ℝ} {m : Arr Prop} {v : ℝ} (h : a.assign m v = .ok c) : c.shape = a.shape := by
  unfold Arr.assign at h
  split_ifs at h
  cases h
  rfl

theorem addFaculaB_shape {s : Star} {lat0 lon0 : ℝ} {cur c : Arr ℝ} {f : Facula} (h : s.addFaculaB lat0 lon0 cur f = .ok c) :
    c.shape = cur.shape := by
  unfold Star.addFaculaB at h
  split_ifs at h
  · simp only [bind, Except.bind] at h
    split at h
    · cases h
    · unfold Star.paintFaculaB at h
      split at h
      · simp only [bind, Except.bind] at h
        split at h
        · cases h
        split at h
        · cases h
        split at h
        · cases h
        split at h
        · cases h
        split at h
        · cases h
        rename_i c' e
        rw [assign_shape h, assign_shape e]
      · cases h
  · cases h; rfl

theorem faculaeB_shape {s : Star} {lat0 lon0 : ℝ} {a0 a : Arr ℝ} {l : List Facula}
    (h : l.foldlM (fun cur f => s.addFaculaB lat0 lon0 cur f) a0 = .ok a) : a.shape = a0.shape := by
  induction l generalizing a0 with
  | nil => cases h; rfl
  | cons f l ih =>
    rw [List.foldlM_cons] at h
    cases hs : s.addFaculaB lat0 lon0 a0 f with
    | error e => rw [hs] at h; cases h
    | ok a1 =>
      rw [hs] at h
      rw [ih h, addFaculaB_shape hs]

theorem indices_nonempty {s : List ℕ} (h : ∀ x ∈ s, 0 < x) : ∃ i, i ∈ Arr.indices s := by
  induction s with
  | nil => exact ⟨[], mem_indices_nil.mpr rfl⟩
  | cons a s ih =>
    obtain ⟨i, hi⟩ := ih fun x hx => h x (List.mem_cons_of_mem _ hx)
    exact ⟨0 :: i, mem_indices_cons.mpr ⟨0, i, rfl, h a List.mem_cons_self, hi⟩⟩

theorem foldlM_each {α β : Type} {f : α → β → Py α} {l : List β} {a a' : α} (h : l.foldlM f a = .ok a') {b : β} (hb : b ∈ l) :
    ∃ x y, f x b = .ok y := by
  induction l generalizing a with
  | nil => cases hb
  | cons c l ih =>
    rw [List.foldlM_cons] at h
    cases hc : f a c with
    | error e => rw [hc] at h; cases h
    | ok a1 =>
      rw [hc] at h
      rcases List.mem_cons.mp hb with rfl | hb
      · exact ⟨a, a1, hc⟩
      · exact ih h hb

/-- The grids whose arrays meet in a report. -/
def Spec.arrayGrids (s : Star) : List Grid := s.grid :: s.spots.grid :: s.spots.spots.map (·.r.1)

/-- **C148** (refused) If a report is given at all, any two of the grids of the star, of its spot collection and of the distances of
its spots fit together. -/
theorem C148_refused (s : Star) (lat0 lon0 g orbit r phase incl : ℝ) (x : Dict ℤ Fl × Dict ℤ Fl × Fl)
    (hne : ∀ G ∈ arrayGrids s, Nonempty G.Pix) (h : s.calcCoverageB lat0 lon0 g orbit r phase incl = .ok x) :
    ∀ G ∈ arrayGrids s, ∀ G' ∈ arrayGrids s, Fit G G' := by
  unfold Star.calcCoverageB at h
  cases hm : s.addFaculaeToMapB lat0 lon0 with
  | error e => rw [hm] at h; cases h
  | ok m =>
    rw [hm] at h
    simp only [bind, Except.bind] at h
    split at h
    · cases h
    split at h
    · cases h
    split at h
    · cases h
    rename_i raw hraw
    clear h
    unfold Star.addFaculaeToMapB at hm
    cases h0 : s.spots.mapPixelsB s.radius s.teff with
    | error e => rw [h0] at hm; cases hm
    | ok a =>
      rw [h0] at hm
      have hsh := faculaeB_shape hm
      unfold SpotCollection.mapPixelsB at h0
      obtain ⟨g1, g2, g3⟩ := foldB_grows h0
      have hpos := g3 (grid_pos (hne s.spots.grid (by simp [arrayGrids])))
        fun sp hsp => grid_pos (hne sp.r.1 (by simp only [arrayGrids, List.mem_cons, List.mem_map]; exact Or.inr (Or.inr ⟨sp, hsp, rfl⟩)))
      rw [← hsh] at g1 g2 hpos
      obtain ⟨i, hi⟩ := indices_nonempty hpos
      unfold Star.rawDataB at hraw
      simp only [bind, Except.bind] at hraw
      split at hraw
      · cases hraw
      rename_i d hd
      have hT : m.val i ∈ m.unique := by
        unfold Arr.unique
        rw [Finset.mem_sort]
        exact Finset.mem_image_of_mem _ hi
      obtain ⟨u, v, huv⟩ := foldlM_each hd hT
      split at huv
      · cases huv
      rename_i area harea
      unfold Star.areaWithTeffB at harea
      simp only [bind, Except.bind] at harea
      split at harea
      · cases harea
      rename_i X hX
      obtain ⟨k1, k2, -⟩ := map₂_grows hX
      have all : ∀ G ∈ arrayGrids s, Grows G.shape X.shape := by
        intro G hG
        simp only [arrayGrids, List.mem_cons, List.mem_map] at hG
        rcases hG with rfl | rfl | ⟨sp, hsp, rfl⟩
        · exact k2
        · exact sub_trans g1 k1
        · exact sub_trans (g2 sp hsp) k1
      exact fun G hG G' hG' => grows_fit (all G hG) (all G' hG')

/-- A grid with at least two points in each direction. -/
def Spec.Wide : Grid → Prop
  | .rect a b => 2 ≤ a ∧ 2 ≤ b
  | .spiral n => 2 ≤ n

/-- **C148** (which fit) Different grids with at least two points in each direction fit exactly if one is a spiral with as many points
as the other has parallels. -/
theorem C148_fit (g g' : Grid) (h : Wide g) (h' : Wide g') :
    Fit g g' ↔ g = g' ∨ ∃ n k, (g = .rect n k ∧ g' = .spiral n) ∨ (g = .spiral n ∧ g' = .rect n k) := by
  cases g <;> cases g' <;> simp only [Fit, Wide] at * <;> simp <;> omega

/-! ## Shapes that numpy combines -/

/-- Distances on a spiral of `n` points, read as distances on a rectangular grid with `n` parallels and `k` meridians: the pixels of the
`j`-th parallel get the distance of the `j`-th point. -/
def Spec.spread (k : ℕ) : Field ℝ → Field ℝ
  | ⟨.spiral n, f⟩ => ⟨.rect n k, fun p => f p.2⟩
  | f => f

/-- The same spots with distances on a rectangular grid with `k` meridians. -/
def Spec.spreadSpots (k : ℕ) (l : List StarSpot) : List StarSpot := l.map fun sp => { sp with r := spread k sp.r }

theorem spread_seen {n k : ℕ} {R : ℝ} (sp : StarSpot) (h : sp.r.1 = .rect n k ∨ sp.r.1 = .spiral n) :
    ∃ e : (spread k sp.r).1 = .rect n k,
      (Arr.ofGrid sp.r.1 (sp.penumbraMask R)).Seen (.rect n k) (fun p => ({ sp with r := spread k sp.r } : StarSpot).penumbraMask R (e ▸ p)) ∧
      (Arr.ofGrid sp.r.1 (sp.umbraMask R)).Seen (.rect n k) (fun p => ({ sp with r := spread k sp.r } : StarSpot).umbraMask R (e ▸ p)) := by
  obtain ⟨lat, lon, areaMax, area, tu, tp, dr, ratio, ig, gr, grid, ⟨g', f⟩⟩ := sp
  rcases h with h | h
  · simp only at h
    subst h
    exact ⟨rfl, (ofGrid_is _ _).seen, (ofGrid_is _ _).seen⟩
  · simp only at h
    subst h
    exact ⟨rfl, row_seen (ofGrid_is _ _) k, row_seen (ofGrid_is _ _) k⟩

theorem spread_is {n k : ℕ} {R : ℝ} (sp : StarSpot) (h : sp.r.1 = .rect n k) :
    ∃ e : (spread k sp.r).1 = .rect n k,
      (Arr.ofGrid sp.r.1 (sp.penumbraMask R)).Is (.rect n k) (fun p => ({ sp with r := spread k sp.r } : StarSpot).penumbraMask R (e ▸ p)) ∧
      (Arr.ofGrid sp.r.1 (sp.umbraMask R)).Is (.rect n k) (fun p => ({ sp with r := spread k sp.r } : StarSpot).umbraMask R (e ▸ p)) := by
  obtain ⟨lat, lon, areaMax, area, tu, tp, dr, ratio, ig, gr, grid, ⟨g', f⟩⟩ := sp
  simp only at h
  subst h
  exact ⟨rfl, ofGrid_is _ _, ofGrid_is _ _⟩

theorem spread_row {n k : ℕ} {R : ℝ} (sp : StarSpot) (h : sp.r.1 = .spiral n) :
    ∃ (e : (spread k sp.r).1 = .rect n k) (dP dU : Fin n → Prop),
      (Arr.ofGrid sp.r.1 (sp.penumbraMask R)).Is (.spiral n) dP ∧ (Arr.ofGrid sp.r.1 (sp.umbraMask R)).Is (.spiral n) dU ∧
      ∀ p : (Grid.rect n k).Pix, (({ sp with r := spread k sp.r } : StarSpot).penumbraMask R (e ▸ p) ↔ dP p.2) ∧
        (({ sp with r := spread k sp.r } : StarSpot).umbraMask R (e ▸ p) ↔ dU p.2) := by
  obtain ⟨lat, lon, areaMax, area, tu, tp, dr, ratio, ig, gr, grid, ⟨g', f⟩⟩ := sp
  simp only at h
  subst h
  exact ⟨rfl, _, _, ofGrid_is _ _, ofGrid_is _ _, fun p => ⟨Iff.rfl, Iff.rfl⟩⟩

theorem mapStep_spread {n k : ℕ} {R : ℝ} (sp : StarSpot) (e : (spread k sp.r).1 = .rect n k) (cur : (Grid.rect n k).Pix → ℝ) :
    SpotCollection.mapStep id R (.rect n k) { sp with r := spread k sp.r } cur = .ok fun p =>
      SpotCollection.overlay id sp.teffUmbra sp.teffPenumbra (({ sp with r := spread k sp.r } : StarSpot).umbraMask R (e ▸ p))
        (({ sp with r := spread k sp.r } : StarSpot).penumbraMask R (e ▸ p)) (cur p) := dif_pos e

theorem fold_spread {n k : ℕ} {R : ℝ} {l : List StarSpot} (hl : ∀ sp ∈ l, sp.r.1 = .rect n k ∨ sp.r.1 = .spiral n) {a : Arr ℝ}
    {m0 : (Grid.rect n k).Pix → ℝ} (h0 : a.Is (.rect n k) m0) :
    ∃ m b, (spreadSpots k l).foldlM (fun cur s => SpotCollection.mapStep id R (.rect n k) s cur) m0 = .ok m ∧
      l.foldlM (fun cur s => SpotCollection.mapStepB R s cur) a = .ok b ∧ b.Is (.rect n k) m := by
  induction l generalizing a m0 with
  | nil => exact ⟨m0, a, rfl, rfl, h0⟩
  | cons sp l ih =>
    obtain ⟨e, hP, hU⟩ := spread_seen (R := R) sp (hl sp List.mem_cons_self)
    obtain ⟨c, e1, h1⟩ := mapStepB_is h0 hP hU
    obtain ⟨m, b, i1, i2, i3⟩ := ih (fun x hx => hl x (List.mem_cons_of_mem _ hx)) h1
    refine ⟨m, b, ?_, ?_, i3⟩
    · change List.foldlM _ m0 (({ sp with r := spread k sp.r } : StarSpot) :: spreadSpots k l) = _
      rw [List.foldlM_cons, mapStep_spread sp e]
      exact i1
    · rw [List.foldlM_cons, e1]
      exact i2

/-- **C148** (stripes) A spot measured on a spiral of `n` points is accepted without complaint by a star on a rectangular grid with `n`
parallels: the report is that of a star on which the distance of the `j`-th point of the spiral holds for the whole `j`-th parallel. -/
theorem C148_stripes (s : Star) (n k : ℕ) (hgrid : s.spots.grid = .rect n k)
    (hsp : ∀ sp ∈ s.spots.spots, sp.r.1 = .rect n k ∨ sp.r.1 = .spiral n) (lat0 lon0 g orbit r phase incl : ℝ) (x : Dict ℤ Fl × Dict ℤ Fl × Fl)
    (h : { s with spots := { spots := spreadSpots k s.spots.spots, grid := .rect n k } }.calcCoverage lat0 lon0 g orbit r phase incl = .ok x) :
    s.calcCoverageB lat0 lon0 g orbit r phase incl = .ok x := by
  obtain ⟨total, cov, plf⟩ := x
  set s' : Star := { s with spots := { spots := spreadSpots k s.spots.spots, grid := .rect n k } } with hs'
  obtain ⟨m, mask, gr, hm, ht, hgr, h1, h2⟩ := calcCoverage_ok.mp h
  obtain ⟨m0, m1, e1, e2, e3⟩ := faculae_start hm
  have i0 : (Arr.ofGrid s.spots.grid fun _ => s.teff).Is (.rect n k) fun _ => s.teff := by
    rw [hgrid]
    exact ofGrid_is _ _
  obtain ⟨m', b, f1, f2, f3⟩ := fold_spread (R := s.radius) hsp i0
  have e : m' = m0 := Except.ok.inj (f1.symm.trans e1)
  subst e
  obtain ⟨a, q1, q2⟩ := faculaeB_is (s := s') (e2 b f3) e3
  have q : s.addFaculaeToMapB lat0 lon0 = .ok a := by
    unfold Star.addFaculaeToMapB
    have : s.spots.mapPixelsB s.radius s.teff = .ok b := f2
    rw [this]
    exact q1
  have r1 : s.rawDataB lat0 lon0 a (fun _ => .fin 1) (s.teff - gr.dteff) = .ok (s'.rawData lat0 lon0 m (fun _ => .fin 1) (s.teff - gr.dteff)) :=
    rawB_is (s := s') q2 (fun _ => .fin 1) _
  have r2 : s.rawDataB lat0 lon0 a mask (s.teff - gr.dteff) = .ok (s'.rawData lat0 lon0 m mask (s.teff - gr.dteff)) :=
    rawB_is (s := s') q2 mask _
  have ht' : s.transitMask lat0 lon0 orbit r phase incl = .ok (mask, plf) := ht
  have hgr' : s.granulation = some gr := hgr
  unfold Star.calcCoverageB
  rw [q, ht', hgr']
  simp only [bind, Except.bind, r1, r2]
  change Except.bind (Star.granulate _ (Star.key s'.teff) (Star.key (s'.teff - gr.dteff)) g) _ = _
  rw [h1]
  change Except.bind (Star.granulate _ (Star.key s'.teff) (Star.key (s'.teff - gr.dteff)) g) _ = _
  rw [h2]
  rfl

theorem fold_rows {n k : ℕ} {R : ℝ} {l : List StarSpot} (hl : ∀ sp ∈ l, sp.r.1 = .rect n k ∨ sp.r.1 = .spiral n)
    (hone : ∃ sp ∈ l, sp.r.1 = .rect n k) {a : Arr ℝ} {v : (Grid.spiral n).Pix → ℝ} (h0 : a.Is (.spiral n) v) :
    ∃ m b, (spreadSpots k l).foldlM (fun cur s => SpotCollection.mapStep id R (.rect n k) s cur) (fun p => v p.2) = .ok m ∧
      l.foldlM (fun cur s => SpotCollection.mapStepB R s cur) a = .ok b ∧ b.Is (.rect n k) m := by
  induction l generalizing a v with
  | nil => obtain ⟨sp, h, -⟩ := hone; cases h
  | cons sp l ih =>
    have hl' : ∀ sp ∈ l, sp.r.1 = .rect n k ∨ sp.r.1 = .spiral n := fun x hx => hl x (List.mem_cons_of_mem _ hx)
    rcases hl sp List.mem_cons_self with hr | hr
    · obtain ⟨e, hP, hU⟩ := spread_is (R := R) sp hr
      obtain ⟨c, e1, h1⟩ := mapStepB_seen (row_seen h0 k) hP hU
      obtain ⟨m, b, i1, i2, i3⟩ := fold_spread (R := R) hl' h1
      refine ⟨m, b, ?_, ?_, i3⟩
      · change List.foldlM _ _ (({ sp with r := spread k sp.r } : StarSpot) :: spreadSpots k l) = _
        rw [List.foldlM_cons, mapStep_spread sp e]
        exact i1
      · rw [List.foldlM_cons, e1]
        exact i2
    · obtain ⟨e, dP, dU, hP, hU, hmask⟩ := spread_row (k := k) (R := R) sp hr
      obtain ⟨c, e1, h1⟩ := mapStepB_is h0 hP.seen hU.seen
      have hone' : ∃ sp ∈ l, sp.r.1 = .rect n k := by
        obtain ⟨x, hx, hx'⟩ := hone
        rcases List.mem_cons.mp hx with rfl | hx
        · rw [hr] at hx'; cases hx'
        · exact ⟨x, hx, hx'⟩
      obtain ⟨m, b, i1, i2, i3⟩ := ih hl' hone' h1
      refine ⟨m, b, ?_, ?_, i3⟩
      · change List.foldlM _ _ (({ sp with r := spread k sp.r } : StarSpot) :: spreadSpots k l) = _
        rw [List.foldlM_cons, mapStep_spread sp e]
        refine Eq.trans ?_ i1
        change List.foldlM _ _ _ = _
        congr 1
        funext p
        rw [propext (hmask p).1, propext (hmask p).2]
      · rw [List.foldlM_cons, e1]
        exact i2

theorem cast_is {α : Type} [Inhabited α] {G : Grid} {n : ℕ} (hG : G = .spiral n) (f : G.Pix → α) :
    (Arr.ofGrid G f).Is (.spiral n) fun j => f (hG ▸ j) := by
  subst hG
  exact ofGrid_is _ _

theorem cast_sum {G : Grid} {n : ℕ} (hG : G = .spiral n) (f : G.Pix → ℝ) : ∑ j : (Grid.spiral n).Pix, f (hG ▸ j) = ∑ p, f p := by
  subst hG
  rfl

theorem areaB_copies {s : Star} {n k : ℕ} (hG : s.grid = .spiral n) {lat0 lon0 : ℝ} {b : Arr ℝ} {M : (Grid.rect n k).Pix → ℝ}
    (hb : b.Is (.rect n k) M) (extra : s.grid.Pix → Fl) (T : ℝ) :
    s.areaWithTeffB lat0 lon0 b extra T = .ok (∑ p : (Grid.rect n k).Pix,
      (open Classical in if M p = T then Fl.fin 1 else Fl.fin 0) * s.weight lat0 lon0 (hG ▸ p.2) * extra (hG ▸ p.2)) := by
  classical
  obtain ⟨x, e1, h1⟩ := map₂_is_seen (map_is hb fun t => if t = T then Fl.fin 1 else Fl.fin 0)
    (row_seen (cast_is hG (s.weight lat0 lon0)) k) (· * ·)
  obtain ⟨y, e2, h2⟩ := map₂_is_seen h1 (row_seen (cast_is hG extra) k) (· * ·)
  unfold Star.areaWithTeffB
  simp only [e1, e2, bind, Except.bind, pure, Except.pure]
  rw [sum_is h2]

/-- A dictionary of numbers by temperature, completed by an entry for the granules. -/
def rawOf {ι : Type} [Fintype ι] (M : ι → ℝ) (f : ℝ → Fl) (G : ℝ) : Dict ℤ Fl :=
  open Classical in
  if G ∈ Star.uniqueTeffs M then (Star.uniqueTeffs M).foldl (fun d T => Dict.set d (Star.key T) (f T)) []
  else Dict.set ((Star.uniqueTeffs M).foldl (fun d T => Dict.set d (Star.key T) (f T)) []) (Star.key G) (.fin 0)

section
variable {ι : Type} [Fintype ι] {M : ι → ℝ} {G : ℝ}

theorem rawOf_eq (hinj : ∀ T T', (T ∈ Set.range M ∨ T = G) → (T' ∈ Set.range M ∨ T' = G) → Star.key T = Star.key T' → T = T') (f : ℝ → Fl) :
    rawOf M f G = open Classical in (Star.uniqueTeffs M).map (fun T => (Star.key T, f T)) ++ if G ∈ Star.uniqueTeffs M then [] else [(Star.key G, .fin 0)] := by
  classical
  have hmem : ∀ T ∈ Star.uniqueTeffs M, T ∈ Set.range M := fun T hT => mem_uniqueTeffs.mp hT
  have hnd : ((Star.uniqueTeffs M).map Star.key).Nodup :=
    List.Nodup.map_on (fun T hT T' hT' h => hinj T T' (Or.inl (hmem T hT)) (Or.inl (hmem T' hT')) h) (uniqueTeffs_nodup M)
  have hl := Dict.foldl_of_inj Star.key f (Star.uniqueTeffs M) [] hnd (by simp [Dict.keys])
  unfold rawOf
  rw [hl, List.nil_append]
  by_cases h : G ∈ Star.uniqueTeffs M
  · rw [if_pos h, if_pos h, List.append_nil]
  · rw [if_neg h, if_neg h, Dict.set_new]
    intro hk
    simp only [Dict.keys, List.map_map, List.mem_map, Function.comp] at hk
    obtain ⟨T, hT, hk⟩ := hk
    exact h (hinj T G (Or.inl (hmem T hT)) (Or.inr rfl) hk ▸ hT)

theorem rawOf_get (hinj : ∀ T T', (T ∈ Set.range M ∨ T = G) → (T' ∈ Set.range M ∨ T' = G) → Star.key T = Star.key T' → T = T') (f : ℝ → Fl)
    {T : ℝ} (hT : T ∈ Set.range M ∨ T = G) : Dict.get? (rawOf M f G) (Star.key T) ≠ none := by
  classical
  rw [ne_eq, Dict.get?_eq_none, not_not, rawOf_eq hinj]
  simp only [Dict.keys, List.map_append, List.map_map, List.mem_append, List.mem_map, Function.comp]
  by_cases h : T ∈ Star.uniqueTeffs M
  · exact Or.inl ⟨T, h, rfl⟩
  · right
    have e : T = G := hT.resolve_left fun h' => h (mem_uniqueTeffs.mpr h')
    subst e
    rw [if_neg h]
    exact ⟨_, List.mem_singleton.mpr rfl, rfl⟩

theorem rawOf_sum (hinj : ∀ T T', (T ∈ Set.range M ∨ T = G) → (T' ∈ Set.range M ∨ T' = G) → Star.key T = Star.key T' → T = T') (f : ℝ → ℝ) :
    AllFin (rawOf M (fun T => .fin (f T)) G) ∧
      (Dict.values (rawOf M (fun T => .fin (f T)) G)).sum = .fin (open Classical in ∑ T ∈ Finset.univ.image M, f T) := by
  classical
  rw [rawOf_eq hinj]
  constructor
  · intro v hv
    simp only [Dict.values, List.map_append, List.map_map, List.mem_append, List.mem_map, Function.comp] at hv
    rcases hv with ⟨T, -, rfl⟩ | hv
    · exact ⟨_, rfl⟩
    · split_ifs at hv
      · simp at hv
      · simp at hv; exact ⟨0, hv.symm⟩
  · have e : (Dict.values ((Star.uniqueTeffs M).map fun T => (Star.key T, Fl.fin (f T)))).sum = .fin (∑ T ∈ Finset.univ.image M, f T) := by
      rw [← uniqueTeffs_sum M, ← Fl.list_sum_fin]
      simp only [Dict.values, List.map_map]
      rfl
    simp only [Dict.values, List.map_append, List.sum_append] at e ⊢
    rw [e]
    split_ifs <;> simp
end

theorem rawB_copies {s : Star} {n k : ℕ} (hG : s.grid = .spiral n) {lat0 lon0 : ℝ} {b : Arr ℝ} {M : (Grid.rect n k).Pix → ℝ}
    (hb : b.Is (.rect n k) M) (extra : s.grid.Pix → Fl) (G : ℝ) :
    s.rawDataB lat0 lon0 b extra G = .ok (rawOf M (fun T => (∑ p : (Grid.rect n k).Pix,
      (open Classical in if M p = T then Fl.fin 1 else Fl.fin 0) * s.weight lat0 lon0 (hG ▸ p.2) * extra (hG ▸ p.2)) / ∑ p, s.weight lat0 lon0 p) G) := by
  classical
  unfold Star.rawDataB rawOf
  simp only [areaB_copies hG hb, bind, Except.bind, pure, Except.pure, unique_is hb, sum_is (ofGrid_is s.grid (s.weight lat0 lon0))]
  rw [foldlM_ok _ (fun d T => Dict.set d (Star.key T) ((∑ p : (Grid.rect n k).Pix,
      (if M p = T then Fl.fin 1 else Fl.fin 0) * s.weight lat0 lon0 (hG ▸ p.2) * extra (hG ▸ p.2)) / ∑ p, s.weight lat0 lon0 p)) (fun _ _ => rfl)]

/-- **C148** (copies) A star on a spiral of `n` points whose spot collection, or one of whose spots, carries arrays of a rectangular grid
with `n` parallels and `k` meridians gets a report without complaint, but its fractions add up to `k` instead of 1. -/
theorem C148_copies (s : Star) (n k : ℕ) (hG : s.grid = .spiral n) (hf : s.faculae.faculae = [])
    (hc : s.spots.grid = .rect n k ∨ s.spots.grid = .spiral n ∧ ∃ sp ∈ s.spots.spots, sp.r.1 = .rect n k)
    (hsp : ∀ sp ∈ s.spots.spots, sp.r.1 = .rect n k ∨ sp.r.1 = .spiral n) (a : s.grid.Pix → ℝ) (ha : ∀ p, s.grid.area p = .fin (a p))
    (lat0 lon0 g orbit r phase incl : ℝ) (hW : ∑ p, pixelWeight s a lat0 lon0 p ≠ 0) (mask : s.grid.Pix → Fl) (plf : Fl)
    (ht : s.transitMask lat0 lon0 orbit r phase incl = .ok (mask, plf)) (gr : Granulation) (hgr : s.granulation = some gr)
    (M : Fin k × Fin n → ℝ)
    (hM : ({ spots := spreadSpots k s.spots.spots, grid := .rect n k } : SpotCollection).mapPixels id s.radius s.teff = .ok M)
    (hphot : ∃ p, M p = s.teff) (hsep : Apart (Set.range M ∪ {s.teff, s.teff - gr.dteff})) :
    ∃ total cov, s.calcCoverageB lat0 lon0 g orbit r phase incl = .ok (total, cov, plf) ∧ (Dict.values total).sum = .fin k := by
  classical
  obtain ⟨b, hb, hbM⟩ : ∃ b, s.spots.mapPixelsB s.radius s.teff = .ok b ∧ b.Is (.rect n k) M := by
    rcases hc with hc | ⟨hc, hone⟩
    · have i0 : (Arr.ofGrid s.spots.grid fun _ => s.teff).Is (.rect n k) fun _ => s.teff := by
        rw [hc]
        exact ofGrid_is _ _
      obtain ⟨m, b, f1, f2, f3⟩ := fold_spread (R := s.radius) hsp i0
      have e : m = M := Except.ok.inj (f1.symm.trans hM)
      subst e
      exact ⟨b, f2, f3⟩
    · have i0 : (Arr.ofGrid s.spots.grid fun _ => s.teff).Is (.spiral n) fun _ => s.teff := by
        rw [hc]
        exact ofGrid_is _ _
      obtain ⟨m, b, f1, f2, f3⟩ := fold_rows (R := s.radius) hsp hone i0
      have e : m = M := Except.ok.inj (f1.symm.trans hM)
      subst e
      exact ⟨b, f2, f3⟩
  have hmap : s.addFaculaeToMapB lat0 lon0 = .ok b := by
    unfold Star.addFaculaeToMapB
    rw [hb, hf]
    rfl
  set G := s.teff - gr.dteff with hGd
  have hinj : ∀ T T', (T ∈ Set.range M ∨ T = G) → (T' ∈ Set.range M ∨ T' = G) → Star.key T = Star.key T' → T = T' := by
    have : ∀ T, (T ∈ Set.range M ∨ T = G) → T ∈ Set.range M ∪ {s.teff, G} := by
      rintro T (h | rfl)
      · exact Or.inl h
      · exact Or.inr (Or.inr rfl)
    exact fun T T' h h' => key_inj_of_sep (hsep T (this T h) T' (this T' h'))
  have hp : s.teff ∈ Set.range M ∨ s.teff = G := Or.inl hphot
  have r1 := rawB_copies hG (lat0 := lat0) (lon0 := lon0) hbM (fun _ => .fin 1) G
  have r2 := rawB_copies hG (lat0 := lat0) (lon0 := lon0) hbM mask G
  obtain ⟨cov, hcov⟩ := granulate_total g (rawOf_get hinj (fun T => (∑ p : (Grid.rect n k).Pix,
      (if M p = T then Fl.fin 1 else Fl.fin 0) * s.weight lat0 lon0 (hG ▸ p.2) * mask (hG ▸ p.2)) / ∑ p, s.weight lat0 lon0 p) hp)
    (rawOf_get hinj _ (Or.inr rfl))
  obtain ⟨total, htot⟩ := granulate_total g (rawOf_get hinj (fun T => (∑ p : (Grid.rect n k).Pix,
      (if M p = T then Fl.fin 1 else Fl.fin 0) * s.weight lat0 lon0 (hG ▸ p.2) * .fin 1) / ∑ p, s.weight lat0 lon0 p) hp)
    (rawOf_get hinj _ (Or.inr rfl))
  refine ⟨total, cov, ?_, ?_⟩
  · unfold Star.calcCoverageB
    rw [hmap, ht, hgr]
    simp only [bind, Except.bind]
    rw [← hGd, r1]
    simp only
    rw [r2]
    simp only
    rw [htot]
    simp only
    rw [hcov]
    rfl
  · set w := pixelWeight s a lat0 lon0
    have hw : ∀ p, s.weight lat0 lon0 p = .fin (w p) := weight_eq s a ha lat0 lon0
    have ev : (fun T => (∑ p : (Grid.rect n k).Pix, (if M p = T then Fl.fin 1 else Fl.fin 0) * s.weight lat0 lon0 (hG ▸ p.2) * .fin 1) /
        ∑ p, s.weight lat0 lon0 p) = fun T => Fl.fin ((∑ p : (Grid.rect n k).Pix, if M p = T then w (hG ▸ p.2) else 0) / ∑ p, w p) := by
      funext T
      have e1 : ∀ p : (Grid.rect n k).Pix, (if M p = T then Fl.fin 1 else Fl.fin 0) * s.weight lat0 lon0 (hG ▸ p.2) * .fin 1 =
          .fin (if M p = T then w (hG ▸ p.2) else 0) := by
        intro p
        rw [hw]
        split_ifs <;> simp
      rw [Finset.sum_congr rfl fun p _ => e1 p]
      simp only [hw, Fl.sum_fin]
      exact Fl.fin_div hW
    rw [ev] at htot
    obtain ⟨f1, f2⟩ := rawOf_sum hinj (fun T => (∑ p : (Grid.rect n k).Pix, if M p = T then w (hG ▸ p.2) else 0) / ∑ p, w p)
    rw [(granulate_sum f1 htot).1, f2]
    congr 1
    rw [← Finset.sum_div, Finset.sum_comm]
    have e2 : ∀ p : (Grid.rect n k).Pix, (∑ T ∈ Finset.univ.image M, if M p = T then w (hG ▸ p.2) else 0) = w (hG ▸ p.2) := by
      intro p
      rw [Finset.sum_ite_eq, if_pos (Finset.mem_image_of_mem M (Finset.mem_univ p))]
    simp only [e2]
    have e3 : ∑ p : (Grid.rect n k).Pix, w (hG ▸ p.2) = k * ∑ p, w p := by
      rw [← cast_sum hG]
      refine (Fintype.sum_prod_type (fun p : Fin k × Fin n => w (hG ▸ p.2))).trans ?_
      change ∑ _x : Fin k, ∑ y : Fin n, w (hG ▸ y) = _
      rw [Finset.sum_const, Finset.card_univ, Fintype.card_fin, nsmul_eq_mul]
    rw [e3]
    exact mul_div_cancel_right₀ _ hW

/-! ## Instances -/

/-- A star gets a report if its map is there, the planet can be placed and the granules are as warm as the photosphere. -/
theorem answers_zero {s : Star} (hg : goodGrid s.grid) (hld : PhysicalLD s.u1 s.u2) {lat0 lon0 : ℝ} (hv : Visible s lat0 lon0)
    {m : s.grid.Pix → ℝ} (hm : s.addFaculaeToMap lat0 lon0 = .ok m) {orbit r phase incl : ℝ} {c : s.grid.Pix → ℝ} {plf : Fl}
    (ht : s.transitMask lat0 lon0 orbit r phase incl = .ok (fun p => .fin (c p), plf)) {gr : Granulation} (hgr : s.granulation = some gr)
    (h0 : gr.dteff = 0) (g : ℝ) : ∃ total cov, s.calcCoverage lat0 lon0 g orbit r phase incl = .ok (total, cov, plf) := by
  obtain ⟨a, ha, -⟩ := C02_area_partition s.grid hg
  obtain ⟨-, hW⟩ := visible_pos s hg hld ha hv
  have hw : ∀ p, s.weight lat0 lon0 p = .fin (pixelWeight s a lat0 lon0 p) := weight_eq s a ha lat0 lon0
  have hkey : ∀ c : s.grid.Pix → ℝ,
      Dict.get? (s.rawData lat0 lon0 m (fun p => .fin (c p)) (s.teff - gr.dteff)) (Star.key (s.teff - gr.dteff)) ≠ none := by
    classical
    intro c
    rw [rawData_get? hw hW.ne']
    unfold rawVal
    split_ifs with hk
    · simp
    · have hmem : ∃ p, m p = s.teff - gr.dteff := by
        by_contra hc; push Not at hc; exact hk ⟨hc, rfl⟩
      have hmem := mem_uniqueTeffs.mpr hmem
      cases hfd : (Star.uniqueTeffs m).reverse.find? fun T' => decide (Star.key T' = Star.key (s.teff - gr.dteff)) with
      | none =>
        rw [List.find?_eq_none] at hfd
        exact absurd (hfd _ (by simpa using hmem)) (by simp)
      | some T' => simp
  have hkey' : ∀ c : s.grid.Pix → ℝ, Dict.get? (s.rawData lat0 lon0 m (fun p => .fin (c p)) (s.teff - gr.dteff)) (Star.key s.teff) ≠ none := by
    intro c
    have := hkey c
    rw [h0, sub_zero] at this ⊢
    exact this
  obtain ⟨total, h1⟩ := granulate_total g (hkey' fun _ => 1) (hkey fun _ => 1)
  obtain ⟨cov, h2⟩ := granulate_total g (hkey' c) (hkey c)
  exact ⟨total, cov, calcCoverage_ok.mpr ⟨m, _, gr, hm, ht, hgr, h1, h2⟩⟩

theorem icc_zero : (0 : ℝ) ∈ Set.Icc (-(π / 2)) (π / 2) := ⟨by linarith [pi_pos], by linarith [pi_pos]⟩

/-- A star on a rectangular grid with six parallels that carries a spot measured on a spiral of six points. -/
def Spec.stripedStar : Star :=
  { granStar (.rect 6 3) [] 0 with spots := { spots := [halfSpot (.spiral 6) 0 2700], grid := .rect 6 3 } }

/-- Non-trivial instance of C148 (stripes): the spot, which covers one half of the star, darkens a whole parallel, and the report is given. -/
example : ∃ x M, stripedStar.calcCoverageB 0 0 0.2 10 (1 / 2) (π / 2) 0 = .ok x ∧ stripedStar.spots.mapPixelsB 1 3000 = .ok M ∧
    M.shape = [3, 6] ∧ ∃ j : Fin 6, ∀ i : Fin 3, M.val [i, j] = 2700 := by
  have hr : (halfSpot (.spiral 6) 0 2700).r.1 = .spiral 6 := rfl
  obtain ⟨e, -, -⟩ := spread_seen (k := 3) (R := 1) (halfSpot (.spiral 6) 0 2700) (Or.inr hr)
  have hm := mapStep_spread (R := 1) (halfSpot (.spiral 6) 0 2700) e fun _ => 3000
  set m : (Grid.rect 6 3).Pix → ℝ := fun p => SpotCollection.overlay id (halfSpot (.spiral 6) 0 2700).teffUmbra
    (halfSpot (.spiral 6) 0 2700).teffPenumbra (({ (halfSpot (.spiral 6) 0 2700) with r := spread 3 (halfSpot (.spiral 6) 0 2700).r } : StarSpot).umbraMask 1 (e ▸ p))
    (({ (halfSpot (.spiral 6) 0 2700) with r := spread 3 (halfSpot (.spiral 6) 0 2700).r } : StarSpot).penumbraMask 1 (e ▸ p)) 3000 with hmd
  have hM : ({ spots := spreadSpots 3 stripedStar.spots.spots, grid := .rect 6 3 } : SpotCollection).mapPixels id 1 3000 = .ok m := by
    change List.foldlM _ _ [_] = _
    rw [List.foldlM_cons]
    change Except.bind (SpotCollection.mapStep id 1 (.rect 6 3) _ _) _ = _
    rw [hm]
    rfl
  obtain ⟨m', b, f1, f2, f3⟩ := fold_spread (R := 1) (n := 6) (k := 3) (l := [halfSpot (.spiral 6) 0 2700])
    (fun sp h => by rw [List.mem_singleton.mp h]; exact Or.inr rfl) (ofGrid_is (.rect 6 3) fun _ => (3000 : ℝ))
  have em : m' = m := Except.ok.inj (f1.symm.trans hM)
  rw [em] at f3
  set s' : Star := { stripedStar with spots := { spots := spreadSpots 3 stripedStar.spots.spots, grid := .rect 6 3 } } with hs'
  have hgood : goodGrid s'.grid := ⟨by omega, by omega⟩
  have hmap : s'.map = .ok m := hM
  have hf : s'.addFaculaeToMap 0 0 = .ok m := noFac_map rfl hmap rfl 0 0
  obtain ⟨total, cov, hx⟩ := answers_zero (s := s') hgood (granStar_phys (.rect 6 3) [] 0) (visible_rect s' rfl (by omega) (by omega) 0 0) hf
    (beside s' rfl hgood 0 0 icc_zero) (gr := ⟨0.2, 1, 1, 0⟩) rfl rfl 0.2
  refine ⟨_, b, C148_stripes stripedStar 6 3 rfl (fun sp h => by rw [List.mem_singleton.mp h]; exact Or.inr rfl) 0 0 0.2 10 (1 / 2) (π / 2) 0 _ hx,
    f2, f3.1, ?_⟩
  obtain ⟨j, hj⟩ := spiral_visible 6 (by norm_num) 0 0
  refine ⟨j, fun i => (f3.2 (i, j)).trans ?_⟩
  have hin := (halfSpot_in (.spiral 6) 0 2700 j).2.mpr hj
  have : ({ (halfSpot (.spiral 6) 0 2700) with r := spread 3 (halfSpot (.spiral 6) 0 2700).r } : StarSpot).umbraMask 1 (e ▸ (i, j)) := hin
  exact overlay_hit this (by change (2700 : ℝ) < 3000; norm_num)

/-- A star on a spiral of six points whose spot collection has been moved to a rectangular grid with six parallels. -/
def Spec.copiedStar : Star := { granStar (.spiral 6) [] 100 with spots := { spots := [], grid := .rect 6 3 } }

/-- Non-trivial instance of C148 (copies): the fractions of a spotless star add up to 3. -/
theorem copiedStar_sum : ∃ total cov, copiedStar.calcCoverageB 0 0 0.2 10 (1 / 2) (π / 2) 0 = .ok (total, cov, .fin 1) ∧
    (Dict.values total).sum = .fin 3 := by
  have hgood : goodGrid copiedStar.grid := by change 1 ≤ 6; omega
  obtain ⟨-, hv, -⟩ := C71_spiral_disk copiedStar 6 rfl (by norm_num) (granStar_phys (.spiral 6) [] 100) 0 0
  obtain ⟨a, ha, -⟩ := C02_area_partition copiedStar.grid hgood
  obtain ⟨-, hW⟩ := visible_pos copiedStar hgood (granStar_phys (.spiral 6) [] 100) ha hv
  refine C148_copies copiedStar 6 3 rfl rfl (Or.inl rfl) (fun sp h => by cases h) a ha 0 0 0.2 10 (1 / 2) (π / 2) 0 hW.ne' _ _
    (beside copiedStar rfl hgood 0 0 icc_zero) ⟨0.2, 1, 1, 100⟩ rfl (fun _ => 3000) rfl ⟨((0 : Fin 3), (0 : Fin 6)), rfl⟩ ?_
  have hmem : ∀ x ∈ Set.range (fun _ : Fin 3 × Fin 6 => (3000 : ℝ)) ∪ {copiedStar.teff, copiedStar.teff - 100}, x = 3000 ∨ x = 2900 := by
    rintro x (⟨p, rfl⟩ | rfl | rfl)
    · exact Or.inl rfl
    · exact Or.inl rfl
    · right; change (3000 : ℝ) - 100 = 2900; norm_num
  intro x hx y hy
  rcases hmem x hx with rfl | rfl <;> rcases hmem y hy with rfl | rfl <;> norm_num

/-- Non-trivial instance of C148 (same report): a star half covered by a spot. -/
example : ∃ x, (halfStar []).calcCoverage 0 0 0.2 10 (1 / 2) (π / 2) 0 = .ok x ∧ (halfStar []).calcCoverageB 0 0 0.2 10 (1 / 2) (π / 2) 0 = .ok x := by
  obtain ⟨total, cov, plf, h⟩ := halfStar_answers [] (fun sp h => by cases h) 0
  exact ⟨_, h, C148_same _ _ _ _ _ _ _ _ _ h⟩

/-- If two of the grids do not fit, every report is refused. -/
theorem refused {s : Star} (hne : ∀ G ∈ arrayGrids s, Nonempty G.Pix) {G G' : Grid} (hG : G ∈ arrayGrids s) (hG' : G' ∈ arrayGrids s)
    (h : ¬ Fit G G') (lat0 lon0 g orbit r phase incl : ℝ) : ∃ e, s.calcCoverageB lat0 lon0 g orbit r phase incl = .error e := by
  cases hx : s.calcCoverageB lat0 lon0 g orbit r phase incl with
  | error e => exact ⟨e, rfl⟩
  | ok x => exact absurd (C148_refused s lat0 lon0 g orbit r phase incl x hne hx G hG G' hG') h

/-- Non-trivial instance of C148 (refused): a star on a spiral of nine points with a spot measured on six parallels. -/
example (sp : StarSpot) (hsp : sp.r.1 = .rect 6 3) : ∃ e, { granStar (.spiral 9) [] 0 with spots := { spots := [sp], grid := .spiral 9 } }.calcCoverageB
    0 0 0.2 10 (1 / 2) (π / 2) 0 = .error e := by
  refine refused (G := .spiral 9) (G' := .rect 6 3) ?_ (by simp [arrayGrids]) (by simp [arrayGrids, hsp]) (by simp [Fit]) _ _ _ _ _ _ _
  intro G hG
  simp only [arrayGrids, List.map_cons, List.map_nil, List.mem_cons, List.not_mem_nil, or_false, hsp] at hG
  rcases hG with rfl | rfl | rfl
  · exact ⟨(0 : Fin 9)⟩
  · exact ⟨(0 : Fin 9)⟩
  · exact ⟨((0 : Fin 3), (0 : Fin 6))⟩

end Vsm
