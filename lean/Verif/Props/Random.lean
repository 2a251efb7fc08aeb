import Verif.Model.Random
import Verif.Props.StarState

/-!
# C158: random number generators as objects

Every program whose random numbers come from generator objects does what the model with random numbers as arguments allows; what a star
becomes depends only on its own calls and its own generators; which generators these are when arguments are left out.
-/

noncomputable section

namespace Vsm

open Real Spec

variable {L : RngLib}

/-! ## The numbers behind a call -/

/-- A uniform number that is not used. -/
def noDraw : Set.Ico (0 : ℝ) 1 := ⟨0, by norm_num⟩

open Classical in
/-- The state after the ratios have been drawn. -/
def afterRatios (L : RngLib) (n : ℕ) (r : L.St) : L.St :=
  if h : ∃ k, ∀ i, 0 < 5 + 1 * L.batch n r k i then L.afterNormals n r (Nat.find h + 1) else r

/-- The numbers that `generate_spots(n)` draws. -/
def spotDrawsR (L : RngLib) (G : SpotGenerator) (n : ℕ) (r : L.St) : SpotDraws n :=
  let r₁ := (L.normal n r).2
  let r₂ := afterRatios L n r₁
  match G.distribution with
  | .solar =>
    { z := (L.normal n r).1, zRatio := L.batch n r₁, north := (L.sign n r₂).1, zLat := (L.normal n (L.sign n r₂).2).1
      uLon := (L.uniform n (L.normal n (L.sign n r₂).2).2).1, uLat := fun _ => noDraw }
  | _ =>
    { z := (L.normal n r).1, zRatio := L.batch n r₁, north := fun _ => true, zLat := fun _ => 0
      uLon := (L.uniform n r₂).1, uLat := (L.uniform n (L.uniform n r₂).2).1 }

theorem find_same {p q : ℕ → Prop} [DecidablePred p] [DecidablePred q] (hp : ∃ n, p n) (hq : ∃ n, q n) (h : ∀ n, p n ↔ q n) :
    Nat.find hp = Nat.find hq :=
  le_antisymm (Nat.find_min' hp ((h _).2 (Nat.find_spec hq))) (Nat.find_min' hq ((h _).1 (Nat.find_spec hp)))

theorem drawRatios_eq (n : ℕ) (r : L.St) (d : SpotDraws n) (hd : d.zRatio = L.batch n r) :
    L.drawRatios n r = match SpotGenerator.acceptRatios d with
      | none => .error .diverges
      | some q => .ok (q, afterRatios L n r) := by
  have hr : ∀ k i, d.ratios k i = 5 + 1 * L.batch n r k i := fun k i => by unfold SpotDraws.ratios; rw [hd]
  unfold RngLib.drawRatios SpotGenerator.acceptRatios afterRatios
  have hiff : ∀ k, (∀ i, 0 < 5 + 1 * L.batch n r k i) ↔ ∀ i, 0 < d.ratios k i := fun k => by simp only [hr]
  by_cases h : ∃ k, ∀ i, 0 < 5 + 1 * L.batch n r k i
  · have h' : ∃ k, ∀ i, 0 < d.ratios k i := h.imp fun k => (hiff k).mp
    rw [dif_pos h, dif_pos h, dif_pos h', find_same h h' hiff]
    simp only
    congr 2
    funext i
    exact (hr _ i).symm
  · have h' : ¬ ∃ k, ∀ i, 0 < d.ratios k i := fun hh => h (hh.imp fun k => (hiff k).mpr)
    rw [dif_neg h, dif_neg h']

theorem generateR_eq (G : SpotGenerator) (n : ℕ) (r : L.St) :
    (G.generateR n r).map Prod.fst = G.generate n (spotDrawsR L G n r) := by
  unfold SpotGenerator.generateR SpotGenerator.generate
  by_cases hs : G.distAreaLogsigma < 0
  · rw [if_pos hs, if_pos hs]; rfl
  rw [if_neg hs, if_neg hs]
  have hd : (spotDrawsR L G n r).zRatio = L.batch n (L.normal n r).2 := by
    unfold spotDrawsR; cases G.distribution <;> rfl
  simp only [drawRatios_eq n (L.normal n r).2 _ hd]
  cases SpotGenerator.acceptRatios (spotDrawsR L G n r) with
  | none => rfl
  | some q =>
    simp only
    cases hdist : G.distribution with
    | other =>
      rw [if_pos rfl]
      simp only [SpotGenerator.coordinatesR, hdist]
      rfl
    | solar =>
      rw [if_neg (by simp)]
      simp only [SpotGenerator.coordinatesR, hdist, spotDrawsR, SpotGenerator.drawLat, SpotGenerator.drawLon, SpotDraws.latDeg]
      rfl
    | iso =>
      rw [if_neg (by simp)]
      simp only [SpotGenerator.coordinatesR, hdist, spotDrawsR, SpotGenerator.drawLat, SpotGenerator.drawLon]
      rfl

theorem drawPoisson_eq (lam : Fl) (r : L.St) : ∃ k, (L.drawPoisson lam r).map Prod.fst = Np.poisson lam k := by
  cases lam with
  | fin x =>
    refine ⟨(L.poisson x r).1, ?_⟩
    unfold RngLib.drawPoisson Np.poisson
    simp only
    split_ifs <;> rfl
  | _ => exact ⟨0, rfl⟩

theorem birthR_eq (G : SpotGenerator) (t R : ℝ) (r : L.St) : ∃ k d, (G.birthR t R r).map Prod.fst = G.birth t R k d := by
  obtain ⟨k, hk⟩ := drawPoisson_eq (L := L) (G.nExpected t R) r
  unfold SpotGenerator.birthR SpotGenerator.birth
  cases h : L.drawPoisson (G.nExpected t R) r with
  | error e =>
    rw [h] at hk
    refine ⟨k, fun n => spotDrawsR L G n r, ?_⟩
    rw [← hk]; rfl
  | ok x =>
    rw [h] at hk
    refine ⟨k, fun n => spotDrawsR L G n x.2, ?_⟩
    rw [← hk]
    exact generateR_eq G x.1 x.2

theorem facBirthR_eq (G : FaculaGenerator) (t R : ℝ) (r : L.St) : ∃ k d, (G.birthR t R r).map Prod.fst = G.birth t R k d := by
  obtain ⟨k, hk⟩ := drawPoisson_eq (L := L) (G.nExpected t R) r
  unfold FaculaGenerator.birthR FaculaGenerator.birth
  cases h : L.drawPoisson (G.nExpected t R) r with
  | error e =>
    rw [h] at hk
    refine ⟨k, fun n => ⟨fun _ => 0, fun _ => noDraw, fun _ => noDraw⟩, ?_⟩
    rw [← hk]; rfl
  | ok x =>
    rw [h] at hk
    refine ⟨k, fun n => ⟨(L.normal n x.2).1, (L.uniform n (L.normal n x.2).2).1, (L.uniform n (L.uniform n (L.normal n x.2).2).2).1⟩, ?_⟩
    rw [← hk]
    rfl

/-! ### Mature spots -/

/-- The state before the uniform number of a pass is drawn. -/
def afterGenerate (L : RngLib) (G : SpotGenerator) (r : L.St) : L.St :=
  match G.generateR 1 r with
  | .ok x => x.2
  | .error _ => r

theorem matureStepR_eq (G : SpotGenerator) (r : L.St) :
    (G.matureStepR r).map Prod.fst = G.matureStep (spotDrawsR L G 1 r) ((L.uniform 1 (afterGenerate L G r)).1 0) := by
  unfold SpotGenerator.matureStepR SpotGenerator.matureStep
  rw [← generateR_eq]
  unfold afterGenerate
  cases h : G.generateR 1 r with
  | error e => rfl
  | ok x =>
    obtain ⟨l, r'⟩ := x
    cases l with
    | nil => rfl
    | cons sp l =>
      by_cases hs : G.isStatic
      · simp only [bind, Except.bind, Except.map, if_pos hs, pure, Except.pure]
      · simp only [bind, Except.bind, Except.map, if_neg hs, pure, Except.pure]

/-- The states before the passes of the loop. -/
def passState (L : RngLib) (G : SpotGenerator) (r : L.St) : ℕ → L.St
  | 0 => r
  | k + 1 => match G.matureStepR (passState L G r k) with
    | .ok x => x.2
    | .error _ => passState L G r k

/-- The numbers drawn in the passes of the loop. -/
def passDraws (L : RngLib) (G : SpotGenerator) (r : L.St) (k : ℕ) : SpotDraws 1 × Set.Ico (0 : ℝ) 1 :=
  (spotDrawsR L G 1 (passState L G r k), (L.uniform 1 (afterGenerate L G (passState L G r k))).1 0)

theorem matureLoopR_eq (G : SpotGenerator) (target R : ℝ) (r : L.St) (fuel k : ℕ) (omega : Fl) (acc : List StarSpot) :
    (G.matureLoopR target R fuel (passState L G r k) omega acc).map (Except.map Prod.fst) =
      G.matureLoop target R (passDraws L G r) fuel k omega acc := by
  induction fuel generalizing k omega acc with
  | zero =>
    simp only [SpotGenerator.matureLoopR, SpotGenerator.matureLoop]
    split_ifs <;> rfl
  | succ fuel ih =>
    simp only [SpotGenerator.matureLoopR, SpotGenerator.matureLoop]
    by_cases h : omega < .fin target
    · rw [if_pos h, if_pos h]
      have e : G.matureStep (passDraws L G r k).1 (passDraws L G r k).2 = (G.matureStepR (passState L G r k)).map Prod.fst :=
        (matureStepR_eq G _).symm
      rw [e]
      cases hm : G.matureStepR (passState L G r k) with
      | error e => rfl
      | ok x =>
        have hp : passState L G r (k + 1) = x.2 := by simp only [passState, hm]
        have := ih (k + 1) (omega + SpotGenerator.solidAngle x.1 R) (acc ++ [x.1])
        rw [hp] at this
        exact this
    · rw [if_neg h, if_neg h]
      rfl

theorem matureR_eq (G : SpotGenerator) (c R : ℝ) (r : L.St) :
    (G.generateMatureR c R r).map Prod.fst = G.generateMature c R (passDraws L G r) := by
  unfold SpotGenerator.generateMatureR SpotGenerator.generateMature
  by_cases hc : 1 < c ∨ c < 0
  · rw [if_pos hc, if_pos hc]; rfl
  rw [if_neg hc, if_neg hc]
  have key : ∀ fuel, G.matureLoop (4 * π * c) R (passDraws L G r) fuel 0 (.fin 0) [] =
      (G.matureLoopR (4 * π * c) R fuel r (.fin 0) []).map (Except.map Prod.fst) :=
    fun fuel => (matureLoopR_eq G (4 * π * c) R r fuel 0 (.fin 0) []).symm
  have some_iff : ∀ fuel, (G.matureLoop (4 * π * c) R (passDraws L G r) fuel 0 (.fin 0) []).isSome =
      (G.matureLoopR (4 * π * c) R fuel r (.fin 0) []).isSome := fun fuel => by rw [key, Option.isSome_map]
  by_cases h : ∃ fuel, (G.matureLoopR (4 * π * c) R fuel r (.fin 0) []).isSome
  · have h' : ∃ fuel, (G.matureLoop (4 * π * c) R (passDraws L G r) fuel 0 (.fin 0) []).isSome := h.imp fun k hk => (some_iff k).trans hk
    rw [dif_pos h, dif_pos h', key, find_same h' h fun k => by rw [some_iff]]
    obtain ⟨x, hx⟩ := Option.isSome_iff_exists.mp (Nat.find_spec h)
    rw [hx]
    rfl
  · rw [dif_neg h, dif_neg fun hh => h (hh.imp fun k hk => (some_iff k).symm.trans hk)]
    rfl

/-! ### Flares -/

/-- The states between exponential draws. -/
def expoState (L : RngLib) (r : L.St) : ℕ → L.St
  | 0 => r
  | j + 1 => (L.expo (expoState L r j)).2

/-- The exponential draws. -/
def expoDraws (L : RngLib) (r : L.St) (j : ℕ) : Set.Ici (0 : ℝ) := (L.expo (expoState L r j)).1

theorem expoState_add (r : L.St) (m j : ℕ) : expoState L (expoState L r m) j = expoState L r (j + m) := by
  induction j with
  | zero => simp [expoState]
  | succ j ih => rw [show j + 1 + m = j + m + 1 by ring]; simp only [expoState, ih]

theorem expoDraws_add (r : L.St) (m j : ℕ) : expoDraws L (expoState L r m) j = expoDraws L r (j + m) := by
  unfold expoDraws; rw [expoState_add]

theorem drawExpos_eq (scale : ℝ) (m : ℕ) (r : L.St) :
    L.drawExpos scale m r = ((List.range m).map fun j => scale * (expoDraws L r j : ℝ), expoState L r m) := by
  induction m generalizing r with
  | zero => rfl
  | succ m ih =>
    simp only [RngLib.drawExpos]
    rw [ih, List.range_succ_eq_map, List.map_cons, List.map_map]
    have h1 : (L.expo r).2 = expoState L r 1 := rfl
    rw [h1, expoState_add]
    simp only [expoDraws_add]
    rfl

theorem drawClusters_eq (ts : ℝ) (sizes : List ℕ) (r : L.St) :
    ∃ r', L.drawClusters ts sizes r = (FlareGenerator.waitingTimes ts sizes (expoDraws L r), r') := by
  induction sizes generalizing r with
  | nil => exact ⟨r, rfl⟩
  | cons size rest ih =>
    obtain ⟨r', h⟩ := ih (expoState L r (size - 1 + 1))
    refine ⟨r', ?_⟩
    simp only [RngLib.drawClusters, FlareGenerator.waitingTimes]
    rw [drawExpos_eq]
    have h1 : (L.expo r).2 = expoState L r 1 := rfl
    rw [h1, expoState_add, h]
    have h2 : FlareGenerator.clusterTimes ts size (expoDraws L r) =
        ts * ((L.expo r).1 : ℝ) :: (List.range (size - 1)).map fun j => ts / size / 2 * (expoDraws L (expoState L r 1) j : ℝ) := by
      unfold FlareGenerator.clusterTimes
      rw [add_comm 1, List.range_succ_eq_map, List.map_cons, List.map_map, if_pos rfl]
      simp only [expoDraws_add]
      rfl
    have h3 : (fun i => expoDraws L r (i + (1 + (size - 1)))) = expoDraws L (expoState L r (size - 1 + 1)) := by
      funext i
      rw [expoDraws_add, add_comm 1]
    rw [h2, h3]

theorem mapM_drawn {x : ℝ} (h0 : ¬ x < 0) (l : List ℕ) :
    l.mapM (fun k => Np.poisson (.fin x) k) = (.ok (if x = 0 then l.map fun _ => 0 else l) : Py (List ℕ)) := by
  have h : ∀ k, Np.poisson (.fin x) k = .ok (if x = 0 then 0 else k) := fun k => by
    unfold Np.poisson
    simp only [if_neg h0]
    split_ifs <;> rfl
  simp only [h]
  induction l with
  | nil => split_ifs <;> rfl
  | cons a l ih =>
    rw [List.mapM_cons, ih]
    split_ifs <;> rfl

theorem peaksR_eq (G : FlareGenerator) {n : ℕ} (hn : n ≠ 0) (r : L.St) :
    ∃ raw e, (G.peaksR n r).map Prod.fst = G.getPeaks n raw e := by
  unfold FlareGenerator.peaksR FlareGenerator.getPeaks
  obtain ⟨m, rfl⟩ := Nat.exists_eq_succ_of_ne_zero hn
  have bad : ∀ lam, (∀ k, Np.poisson lam k = .error .valueError) →
      (List.ofFn fun _ : Fin (m + 1) => (0 : ℕ)).mapM (fun k => Np.poisson lam k) = (.error .valueError : Py (List ℕ)) := by
    intro lam h
    rw [List.ofFn_succ, List.mapM_cons, h]
    rfl
  cases hl : G.clusterSize with
  | fin x =>
    by_cases h0 : x < 0
    · refine ⟨fun _ => 0, expoDraws L r, ?_⟩
      rw [bad (.fin x) fun k => by unfold Np.poisson; simp only [if_pos h0]]
      simp only [RngLib.drawPoissons, if_pos h0]
      rfl
    · set st := if x = 0 then ((fun _ => 0 : Fin (m + 1) → ℕ), r) else L.poissons x (m + 1) r with hst
      refine ⟨st.1, expoDraws L st.2, ?_⟩
      rw [mapM_drawn h0]
      have h1 : (if x = 0 then (List.ofFn st.1).map fun _ => 0 else List.ofFn st.1) = List.ofFn st.1 := by
        split_ifs with hx
        · rw [hst, if_pos hx]; simp
        · rfl
      rw [h1]
      simp only [RngLib.drawPoissons, if_neg h0, ← hst]
      show Except.map Prod.fst (if (FlareGenerator.clusterSizes (m + 1) (List.ofFn st.1)).sum ≠ m + 1 then Except.error PyErr.valueError else _) =
        if (FlareGenerator.clusterSizes (m + 1) (List.ofFn st.1)).sum ≠ m + 1 then Except.error PyErr.valueError else _
      split_ifs with a b
      · rfl
      · rfl
      · obtain ⟨r', hr'⟩ := drawClusters_eq (L := L) (1 / ((FlareGenerator.clusterSizes (m + 1) (List.ofFn st.1)).length : ℝ))
          (FlareGenerator.clusterSizes (m + 1) (List.ofFn st.1)) st.2
        rw [hr']
        rfl
  | _ => exact ⟨fun _ => 0, expoDraws L r, by rw [bad _ fun k => rfl]; rfl⟩

theorem seriesR_eq (G : FlareGenerator) (time : ℝ) (r : L.St) : ∃ k d, (G.seriesR time r).map Prod.fst = G.series time k d := by
  obtain ⟨k, hk⟩ := drawPoisson_eq (L := L) (G.nTotal time) r
  refine ⟨k, ?_⟩
  unfold FlareGenerator.seriesR FlareGenerator.series
  rw [← hk]
  cases h : L.drawPoisson (G.nTotal time) r with
  | error e => exact ⟨fun n => ⟨fun _ => noDraw, fun _ => 0, fun _ => ⟨0, Set.mem_Ici.mpr le_rfl⟩, fun _ => 0, fun _ => 0, fun _ => noDraw, fun _ => noDraw⟩, rfl⟩
  | ok x =>
    obtain ⟨n, r₁⟩ := x
    by_cases hn : n = 0
    · subst hn
      exact ⟨fun n => ⟨fun _ => noDraw, fun _ => 0, fun _ => ⟨0, Set.mem_Ici.mpr le_rfl⟩, fun _ => 0, fun _ => 0, fun _ => noDraw, fun _ => noDraw⟩, rfl⟩
    have peaks := fun r : L.St => peaksR_eq G hn r
    choose raw e hpe using peaks
    set r₂ := (L.uniform n r₁).2 with hr₂
    set r₃ := (match G.peaksR n r₂ with | .ok y => y.2 | .error _ => r₂) with hr₃
    set r₄ := (L.normal n r₃).2 with hr₄
    set r₅ := (L.normal n r₄).2 with hr₅
    set r₆ := (L.uniform n r₅).2 with hr₆
    refine ⟨fun m => if hm : m = n then hm ▸ ⟨(L.uniform n r₁).1, raw r₂, e r₂, (L.normal n r₃).1, (L.normal n r₄).1, (L.uniform n r₅).1, (L.uniform n r₆).1⟩
      else ⟨fun _ => noDraw, fun _ => 0, fun _ => ⟨0, Set.mem_Ici.mpr le_rfl⟩, fun _ => 0, fun _ => 0, fun _ => noDraw, fun _ => noDraw⟩, ?_⟩
    simp only [bind, Except.bind, Except.map, if_neg hn, dif_pos, pure, Except.pure]
    cases hq : G.quantile (List.ofFn fun i => ((L.uniform n r₁).1 i : ℝ)) with
    | error e => rfl
    | ok energies =>
      simp only
      rw [← hpe r₂]
      cases hp : G.peaksR n r₂ with
      | error e => rfl
      | ok y =>
        rw [hp] at hr₃
        simp only at hr₃
        simp only [Except.map, FlareGenerator.genFwhm, FlareGenerator.genTeffs]
        by_cases h1 : G.fwhmLogsigma < 0
        · simp only [if_pos h1]
        by_cases h2 : G.teffSigma < 0
        · simp only [if_neg h1, if_pos h2]
        simp only [if_neg h1, if_neg h2]
        rw [hr₆, hr₅, hr₄, hr₃]
        rfl

/-! ## Programs -/

/-- The call is this operation with some random numbers. -/
def Spec.Outcome : Call → Op → Prop
  | .addSpot l, .addSpot l' => l = l'
  | .birthSpots t, .birthSpots t' _ _ => t = t'
  | .matureSpots c, .matureSpots c' _ => c = c'
  | .addFac l, .addFac l' => l = l'
  | .birthFaculae t, .birthFaculae t' _ _ => t = t'
  | .flares t, .flares t' _ _ => t = t'
  | .age t, .age t' => t = t'
  | _, _ => False

theorem call_outcome (c : Call) (s : Star) (r : Role → L.St) : ∃ op, Outcome c op ∧ (c.run s r).map Prod.fst = runOp s op := by
  cases c with
  | addSpot l => exact ⟨.addSpot l, rfl, rfl⟩
  | age t => exact ⟨.age t, rfl, rfl⟩
  | addFac l =>
    refine ⟨.addFac l, rfl, ?_⟩
    simp only [Call.run, runOp]
    cases s.addFac l <;> rfl
  | birthSpots t =>
    obtain ⟨k, d, h⟩ := birthR_eq s.spotGen t s.radius (r .spots)
    refine ⟨.birthSpots t k d, rfl, ?_⟩
    simp only [Call.run, runOp, Star.birthSpots]
    rw [← h]
    cases s.spotGen.birthR t s.radius (r .spots) <;> rfl
  | matureSpots c =>
    refine ⟨.matureSpots c (passDraws L s.spotGen (r .spots)), rfl, ?_⟩
    simp only [Call.run, runOp, Star.generateMatureSpots]
    rw [← matureR_eq]
    cases s.spotGen.generateMatureR c s.radius (r .spots) <;> rfl
  | birthFaculae t =>
    obtain ⟨k, d, h⟩ := facBirthR_eq s.facGen t s.radius (r .faculae)
    refine ⟨.birthFaculae t k d, rfl, ?_⟩
    simp only [Call.run, runOp, Star.birthFaculae]
    rw [← h]
    cases hb : s.facGen.birthR t s.radius (r .faculae) with
    | error e => rfl
    | ok x =>
      simp only [Except.map, Except.bind, bind]
      cases s.addFac x.1 <;> rfl
  | flares t =>
    obtain ⟨k, d, h⟩ := seriesR_eq s.flareGen t (r .flares)
    refine ⟨.flares t k d, rfl, ?_⟩
    simp only [Call.run, runOp, Star.getFlares]
    rw [← h]
    cases s.flareGen.seriesR t (r .flares) <;> rfl

/-- The calls on star `i`. -/
def Spec.callsTo (i : ℕ) (p : List (ℕ × Call)) : List Call := (p.filter fun x => x.1 = i).map Prod.snd

theorem step_ok {W W' : Machine L} {i : ℕ} {c : Call} (h : W.step i c = .ok W') :
    ∃ s x, W.stars[i]? = some s ∧ c.run s.star (fun a => W.rng (s.ref a)) = .ok x ∧
      W'.stars = W.stars.set i { s with star := x.1 } ∧
      W'.rng = match x.2 with | none => W.rng | some (a, r) => fun b => if b = s.ref a then r else W.rng b := by
  unfold Machine.step at h
  cases hs : W.stars[i]? with
  | none => rw [hs] at h; cases h
  | some s =>
    rw [hs] at h
    simp only at h
    cases hx : c.run s.star (fun a => W.rng (s.ref a)) with
    | error e => rw [hx] at h; cases h
    | ok x =>
      rw [hx] at h
      have := Except.ok.inj h
      subst this
      exact ⟨s, x, rfl, hx, rfl, rfl⟩

/-- **C158** After every program whose random numbers come from generator objects, each star is what its own calls make of it, with some
random numbers: every statement about all random numbers applies. -/
theorem C158_outcomes (W W' : Machine L) (p : List (ℕ × Call)) (h : W.run p = .ok W') (i : ℕ) (s : RStar) (hs : W.stars[i]? = some s) :
    ∃ ops s', W'.stars[i]? = some s' ∧ s'.ref = s.ref ∧ List.Forall₂ Outcome (callsTo i p) ops ∧ ops.foldlM runOp s.star = .ok s'.star := by
  induction p generalizing W s with
  | nil =>
    have := Except.ok.inj h
    subst this
    exact ⟨[], s, hs, rfl, List.Forall₂.nil, rfl⟩
  | cons x p ih =>
    obtain ⟨j, c⟩ := x
    simp only [Machine.run] at h
    cases h1 : W.step j c with
    | error e => rw [h1] at h; cases h
    | ok W₁ =>
      rw [h1] at h
      obtain ⟨sj, y, e1, e2, e3, -⟩ := step_ok h1
      by_cases hij : j = i
      · subst hij
        rw [hs] at e1
        have := Option.some.inj e1
        subst this
        obtain ⟨op, ho, hr⟩ := call_outcome c s.star (fun a => W.rng (s.ref a))
        rw [e2] at hr
        have hlt : j < W.stars.length := (List.getElem?_eq_some_iff.mp hs).1
        obtain ⟨ops, s', a1, a2, a3, a4⟩ := ih W₁ h { s with star := y.1 } (by rw [e3, List.getElem?_set_self hlt])
        refine ⟨op :: ops, s', a1, a2, ?_, ?_⟩
        · simp only [callsTo, List.filter_cons, decide_true, if_true, List.map_cons]
          exact List.Forall₂.cons ho a3
        · rw [List.foldlM_cons, ← hr]
          exact a4
      · obtain ⟨ops, s', a1, a2, a3, a4⟩ := ih W₁ h s (by rw [e3, List.getElem?_set_ne hij, hs])
        refine ⟨ops, s', a1, a2, ?_, a4⟩
        simpa [callsTo, List.filter_cons, hij] using a3

/-- Star `i` of the first program and star `j` of the second are equal and their random number generators are in the same states, and the
same of them are identical. -/
structure Spec.Twin {L : RngLib} (W₁ : Machine L) (i : ℕ) (W₂ : Machine L) (j : ℕ) (s₁ s₂ : RStar) : Prop where
  first : W₁.stars[i]? = some s₁
  second : W₂.stars[j]? = some s₂
  star : s₁.star = s₂.star
  state : ∀ a, W₁.rng (s₁.ref a) = W₂.rng (s₂.ref a)
  shared : ∀ a b, s₁.ref a = s₁.ref b ↔ s₂.ref a = s₂.ref b

/-- No other star uses the random number generators of star `i`. -/
def Spec.OwnRng {L : RngLib} (W : Machine L) (i : ℕ) : Prop :=
  ∀ (k : ℕ) (s s' : RStar), k ≠ i → W.stars[i]? = some s → W.stars[k]? = some s' → ∀ a b, s.ref a ≠ s'.ref b

theorem own_step {W W' : Machine L} {i k : ℕ} {c : Call} (h : OwnRng W i) (hs : W.step k c = .ok W') : OwnRng W' i := by
  obtain ⟨s, x, e1, -, e3, -⟩ := step_ok hs
  have hlt : k < W.stars.length := (List.getElem?_eq_some_iff.mp e1).1
  have old : ∀ (m : ℕ) (t : RStar), W'.stars[m]? = some t → ∃ t' : RStar, W.stars[m]? = some t' ∧ t'.ref = t.ref := by
    intro m t ht
    rw [e3] at ht
    by_cases hm : k = m
    · subst hm
      rw [List.getElem?_set_self hlt] at ht
      have := Option.some.inj ht
      subst this
      exact ⟨s, e1, rfl⟩
    · rw [List.getElem?_set_ne hm] at ht
      exact ⟨t, ht, rfl⟩
  intro m t t' hm ht ht' a b
  obtain ⟨u, hu, eu⟩ := old i t ht
  obtain ⟨u', hu', eu'⟩ := old m t' ht'
  rw [← eu, ← eu']
  exact h m u u' hm hu hu' a b

theorem twin_step {W₁ W₂ W₁' : Machine L} {i j : ℕ} {s₁ s₂ : RStar} (h : Twin W₁ i W₂ j s₁ s₂) {c : Call} (hc : W₁.step i c = .ok W₁') :
    ∃ W₂' t₁ t₂, W₂.step j c = .ok W₂' ∧ Twin W₁' i W₂' j t₁ t₂ := by
  obtain ⟨s, x, e1, e2, e3, e4⟩ := step_ok hc
  rw [h.first] at e1
  have := Option.some.inj e1
  subst this
  have hst : (fun a => W₁.rng (s₁.ref a)) = fun a => W₂.rng (s₂.ref a) := funext h.state
  have hlt : i < W₁.stars.length := (List.getElem?_eq_some_iff.mp h.first).1
  have hlt2 : j < W₂.stars.length := (List.getElem?_eq_some_iff.mp h.second).1
  rw [hst, h.star] at e2
  refine ⟨{ rng := match x.2 with | none => W₂.rng | some (a, r) => fun b => if b = s₂.ref a then r else W₂.rng b, stars := W₂.stars.set j { s₂ with star := x.1 } },
    { s₁ with star := x.1 }, { s₂ with star := x.1 }, ?_, ?_⟩
  · unfold Machine.step
    rw [h.second]
    simp only [e2]
    rfl
  · refine ⟨by rw [e3, List.getElem?_set_self hlt], List.getElem?_set_self hlt2, rfl, fun a => ?_, h.shared⟩
    rw [e4]
    rcases x with ⟨st, _ | ⟨b, r⟩⟩
    · exact h.state a
    · simp only [h.shared a b]
      split_ifs
      · rfl
      · exact h.state a

/-- A call on another star. -/
theorem twin_other {W₁ W₂ W₁' : Machine L} {i j k : ℕ} {s₁ s₂ : RStar} (h : Twin W₁ i W₂ j s₁ s₂) (ho : OwnRng W₁ i) (hk : k ≠ i) {c : Call}
    (hc : W₁.step k c = .ok W₁') : Twin W₁' i W₂ j s₁ s₂ := by
  obtain ⟨s, x, e1, -, e3, e4⟩ := step_ok hc
  refine ⟨by rw [e3, List.getElem?_set_ne hk, h.first], h.second, h.star, fun a => ?_, h.shared⟩
  rw [e4, ← h.state a]
  rcases x with ⟨st, _ | ⟨b, r⟩⟩
  · rfl
  · simp only [if_neg (ho k s₁ s hk h.first e1 a b)]

/-- **C158** A star whose random number generators no other star uses: had only its own calls been made, on a star and generators in the
same states anywhere in another program, they would have succeeded and led to the same star and the same states. -/
theorem C158_alone (W₁ W₂ W₁' : Machine L) (i j : ℕ) (s₁ s₂ : RStar) (h : Twin W₁ i W₂ j s₁ s₂) (ho : OwnRng W₁ i) (p : List (ℕ × Call))
    (hp : W₁.run p = .ok W₁') :
    ∃ W₂' t₁ t₂, W₂.run ((callsTo i p).map fun c => (j, c)) = .ok W₂' ∧ Twin W₁' i W₂' j t₁ t₂ := by
  induction p generalizing W₁ W₂ s₁ s₂ with
  | nil =>
    have := Except.ok.inj hp
    subst this
    exact ⟨W₂, s₁, s₂, rfl, h⟩
  | cons x p ih =>
    obtain ⟨k, c⟩ := x
    simp only [Machine.run] at hp
    cases h1 : W₁.step k c with
    | error e => rw [h1] at hp; cases hp
    | ok V =>
      rw [h1] at hp
      by_cases hk : k = i
      · subst hk
        obtain ⟨V₂, t₁, t₂, e1, e2⟩ := twin_step h h1
        obtain ⟨W₂', u₁, u₂, e3, e4⟩ := ih V V₂ t₁ t₂ e2 (own_step ho h1) hp
        refine ⟨W₂', u₁, u₂, ?_, e4⟩
        simp only [callsTo, List.filter_cons, decide_true, if_true, List.map_cons, Machine.run, e1]
        exact e3
      · obtain ⟨W₂', u₁, u₂, e3, e4⟩ := ih V W₂ s₁ s₂ (twin_other h ho hk h1) (own_step ho h1) hp
        refine ⟨W₂', u₁, u₂, ?_, e4⟩
        simpa [callsTo, List.filter_cons, hk] using e3

theorem twin_self {W₁ W₂ : Machine L} {i j : ℕ} {s₁ s₂ : RStar} (h : Twin W₁ i W₂ j s₁ s₂) : Twin W₂ j W₂ j s₂ s₂ :=
  ⟨h.second, h.second, rfl, fun _ => rfl, fun _ _ => Iff.rfl⟩

/-- **C158** Reproducible: in two programs that make the same calls on equal stars with equally seeded generators of their own, the stars
end up equal, whatever else the programs do. -/
theorem C158_reproducible (W₁ W₂ W₁' W₂' : Machine L) (i j : ℕ) (s₁ s₂ : RStar) (h : Twin W₁ i W₂ j s₁ s₂) (ho₁ : OwnRng W₁ i) (ho₂ : OwnRng W₂ j)
    (p₁ p₂ : List (ℕ × Call)) (hcalls : callsTo i p₁ = callsTo j p₂) (h₁ : W₁.run p₁ = .ok W₁') (h₂ : W₂.run p₂ = .ok W₂') :
    ∃ t₁ t₂, W₁'.stars[i]? = some t₁ ∧ W₂'.stars[j]? = some t₂ ∧ t₁.star = t₂.star ∧ ∀ a, W₁'.rng (t₁.ref a) = W₂'.rng (t₂.ref a) := by
  obtain ⟨V, t₁, u₁, e1, e2⟩ := C158_alone W₁ W₂ W₁' i j s₁ s₂ h ho₁ p₁ h₁
  obtain ⟨V', t₂, u₂, e3, e4⟩ := C158_alone W₂ W₂ W₂' j j s₂ s₂ (twin_self h) ho₂ p₂ h₂
  rw [hcalls, e3] at e1
  have := Except.ok.inj e1
  subst this
  have hu : u₁ = u₂ := Option.some.inj (e2.second.symm.trans e4.second)
  subst hu
  exact ⟨t₁, t₂, e2.first, e4.first, e2.star.trans e4.star.symm, fun a => (e2.state a).trans (e4.state a).symm⟩

/-! ## Default arguments -/

/-- **C158** Which random number generators a star draws from: those given to the constructors of its generators; those of the star where
no generator was given; the default object of the constructor where no `rng` was given, so that all stars made without one share it.  The
`rng` argument of the star has no influence on generators that were given to it. -/
theorem C158_defaults (home : Maker → ℕ) :
    (∀ rng gens a r, gens a = some (some r) → Star.refs home rng gens a = r) ∧
    (∀ r gens a, gens a = none → Star.refs home (some r) gens a = r) ∧
    (∀ gens a, gens a = none → Star.refs home none gens a = home .star) ∧
    (∀ rng rng' gens gens' a, gens a = some none → gens' a = some none → Star.refs home rng gens a = Star.refs home rng' gens' a) := by
  refine ⟨fun rng gens a r h => ?_, fun r gens a h => ?_, fun gens a h => ?_, fun rng rng' gens gens' a h h' => ?_⟩
  · unfold Star.refs; rw [h]; cases a <;> rfl
  · unfold Star.refs; rw [h]; rfl
  · unfold Star.refs; rw [h]; rfl
  · unfold Star.refs; rw [h, h']

/-! ## Shared generators -/

/-- A library whose only state is the number of calls so far; the number of births is that state. -/
def Spec.counter : RngLib where
  St := ℕ
  seed := id
  normal _ r := (fun _ => 0, r + 1)
  uniform _ r := (fun _ => noDraw, r + 1)
  sign _ r := (fun _ => true, r + 1)
  poisson _ r := (r, r + 1)
  poissons _ _ r := (fun _ => r, r + 1)
  expo r := (⟨0, Set.mem_Ici.mpr le_rfl⟩, r + 1)

theorem counter_ratios (n : ℕ) (r : counter.St) : counter.drawRatios n r = .ok (fun _ => 5, (show ℕ from r) + 1) := by
  have h0 : ∀ k, ∀ i, 0 < 5 + 1 * counter.batch n r k i := fun k i => by
    show (0 : ℝ) < 5 + 1 * 0
    norm_num
  have h : ∃ k, ∀ i, 0 < 5 + 1 * counter.batch n r k i := ⟨0, h0 0⟩
  unfold RngLib.drawRatios
  rw [dif_pos h]
  have : Nat.find h = 0 := (Nat.find_eq_zero h).mpr (h0 0)
  rw [this]
  have e : ∀ i, (5 : ℝ) + 1 * counter.batch n r 0 i = 5 := fun i => by
    show (5 : ℝ) + 1 * 0 = 5
    norm_num
  simp only [e]
  rfl

theorem counter_birth (G : SpotGenerator) (t R x : ℝ) (hx : G.nExpected t R = .fin x) (h0 : 0 < x) (hs : 0 ≤ G.distAreaLogsigma)
    (hd : G.distribution = .iso) (r : ℕ) : ∃ l, G.birthR (L := counter) t R r = .ok (l, r + 5) ∧ l.length = r := by
  have hp : counter.drawPoisson (G.nExpected t R) r = .ok (r, r + 1) := by
    rw [hx]
    simp only [RngLib.drawPoisson, if_neg (not_lt.mpr h0.le), if_neg h0.ne']
    rfl
  have hc : ∀ q : ℕ, G.coordinatesR (L := counter) r q = .ok (fun _ => Grid.deg (Real.arcsin (2 * (noDraw : ℝ) - 1) / π * 180),
      fun _ => Grid.deg ((noDraw : ℝ) * 360), q + 2) := fun q => by
    unfold SpotGenerator.coordinatesR
    rw [hd]
    rfl
  unfold SpotGenerator.birthR SpotGenerator.generateR
  rw [hp]
  simp only [bind, Except.bind, if_neg (not_lt.mpr hs)]
  rw [counter_ratios]
  simp only
  erw [hc]
  exact ⟨_, rfl, List.length_ofFn⟩

/-- **C158** Two stars made without `rng`, with generators made without `rng`, share their generators: the spots that one of them gets
depend on what happens to the other. -/
theorem C158_shared (home : Maker → ℕ) (s : Star) (hs : s.spots.spots = []) (t x : ℝ) (hx : s.spotGen.nExpected t s.radius = .fin x) (h0 : 0 < x)
    (hsig : 0 ≤ s.spotGen.distAreaLogsigma) (hd : s.spotGen.distribution = .iso) :
    ∃ W W₁ W₂ : Machine counter, W.stars = [⟨s, Star.refs home none fun _ => some none⟩, ⟨s, Star.refs home none fun _ => some none⟩] ∧
      W.run [(1, .birthSpots t)] = .ok W₁ ∧ W.run [(0, .birthSpots t), (1, .birthSpots t)] = .ok W₂ ∧
      (W₁.stars[1]?.map fun a => a.star.spots.spots.length) = some 0 ∧ (W₂.stars[1]?.map fun a => a.star.spots.spots.length) = some 5 := by
  set a : RStar := ⟨s, Star.refs home none fun _ => some none⟩ with ha
  have hb : ∀ r : ℕ, ∃ l, s.spotGen.birthR (L := counter) t s.radius r = .ok (l, r + 5) ∧ l.length = r :=
    counter_birth s.spotGen t s.radius x hx h0 hsig hd
  choose l hl hn using hb
  have hlen : ∀ r, (s.addSpot (l r)).spots.spots.length = r := fun r => by
    simp only [Star.addSpot, SpotCollection.addSpot, hs, List.nil_append, List.length_map, hn]
  set W : Machine counter := ⟨fun _ => (0 : ℕ), [a, a]⟩ with hW
  have s1 : W.step 1 (.birthSpots t) = .ok ⟨fun b => if b = a.ref .spots then (5 : ℕ) else (0 : ℕ), [a, { a with star := s.addSpot (l 0) }]⟩ := by
    simp only [Machine.step, hW, List.getElem?_cons_succ, List.getElem?_cons_zero, Call.run]
    erw [hl 0]
    rfl
  have s2 : W.step 0 (.birthSpots t) = .ok ⟨fun b => if b = a.ref .spots then (5 : ℕ) else (0 : ℕ), [{ a with star := s.addSpot (l 0) }, a]⟩ := by
    simp only [Machine.step, hW, List.getElem?_cons_zero, Call.run]
    erw [hl 0]
    rfl
  have s3 : ∃ V, Machine.step (L := counter) ⟨fun b => if b = a.ref .spots then (5 : ℕ) else (0 : ℕ), [{ a with star := s.addSpot (l 0) }, a]⟩ 1 (.birthSpots t) = .ok V ∧
      V.stars = [{ a with star := s.addSpot (l 0) }, { a with star := s.addSpot (l 5) }] := by
    simp only [Machine.step, List.getElem?_cons_succ, List.getElem?_cons_zero, Call.run]
    have e : (if True then (5 : ℕ) else 0) = 5 := if_pos trivial
    erw [e, hl 5]
    exact ⟨_, rfl, rfl⟩
  obtain ⟨V, e1, e2⟩ := s3
  refine ⟨W, ⟨fun b => if b = a.ref .spots then (5 : ℕ) else (0 : ℕ), [a, { a with star := s.addSpot (l 0) }]⟩, V, rfl, ?_, ?_, ?_, ?_⟩
  · simp only [Machine.run, s1, Except.bind]
  · simp only [Machine.run, s2, Except.bind, e1]
  · simp only [List.getElem?_cons_succ, List.getElem?_cons_zero, Option.map_some, hlen]
  · simp only [e2, List.getElem?_cons_succ, List.getElem?_cons_zero, Option.map_some, hlen]

/-- A star that gets spots. -/
def Spec.birthStar : Star := { sampleStar (.rect 3 4) [] [] with spotGen := SpotGenerator.mk 4 1 2500 2700 1 1 2 .iso 0.5 (.rect 3 4) }

theorem birthStar_expects : ∃ x, birthStar.spotGen.nExpected 3 birthStar.radius = .fin x ∧ 0 < x := by
  obtain ⟨T, A, n, -, -, h, hb, h', -⟩ := C26_births_balance birthStar.spotGen
    (by norm_num [birthStar]) (by norm_num [birthStar]) (by norm_num [birthStar]) (by norm_num [birthStar]) (by norm_num [birthStar]) birthStar.radius
  refine ⟨n 3, h 3, lt_of_le_of_ne (h' 3 (by norm_num)) fun h0 => ?_⟩
  have := hb 3
  rw [← h0] at this
  have hp := pi_pos
  have : (0 : ℝ) < 0 := by
    calc (0 : ℝ) < birthStar.spotGen.coverage * (4 * π * birthStar.radius ^ 2) * 3 := by
          show (0 : ℝ) < 0.5 * (4 * π * 1 ^ 2) * 3
          positivity
      _ = 0 := by rw [← this]; ring
  exact lt_irrefl _ this

/-- Non-trivial instance of C158_shared and C158_outcomes: a star that is left alone by the program is unchanged, one whose spots are
counted has those of its own calls. -/
example (home : Maker → ℕ) : ∃ W W₁ W₂ : Machine counter, W.run [(1, .birthSpots 3)] = .ok W₁ ∧ W.run [(0, .birthSpots 3), (1, .birthSpots 3)] = .ok W₂ ∧
    (∃ k d s', birthStar.birthSpots 3 k d = .ok s' ∧ W₂.stars[1]? = some ⟨s', Star.refs home none fun _ => some none⟩ ∧ s'.spots.spots.length = 5) ∧
    (W₁.stars[1]?.map fun a => a.star.spots.spots.length) = some 0 := by
  obtain ⟨x, hx, h0⟩ := birthStar_expects
  obtain ⟨W, W₁, W₂, e0, e1, e2, e3, e4⟩ := C158_shared home birthStar rfl 3 x hx h0 (by norm_num [birthStar]) rfl
  refine ⟨W, W₁, W₂, e1, e2, ?_, e3⟩
  obtain ⟨ops, s', a1, a2, a3, a4⟩ := C158_outcomes W W₂ _ e2 1 _ (by rw [e0]; rfl)
  have hc : callsTo 1 [((0 : ℕ), Call.birthSpots 3), (1, Call.birthSpots 3)] = [.birthSpots 3] := rfl
  rw [hc] at a3
  cases a3 with
  | cons ho hr =>
    cases hr
    rename_i op
    cases op with
    | birthSpots t k d =>
      have ht : (3 : ℝ) = t := ho
      subst ht
      refine ⟨k, d, s'.star, ?_, ?_, ?_⟩
      · simp only [List.foldlM_cons, List.foldlM_nil, runOp, bind_pure] at a4
        exact a4
      · rw [a1]
        obtain ⟨u, v⟩ := s'
        have : v = Star.refs home none fun _ => some none := a2
        rw [this]
      · rw [a1] at e4
        exact Option.some.inj e4
    | _ => exact ho.elim

/-- Non-trivial instance of C158_alone: with generators of its own, the second star has no more spots because the first one got some. -/
example : ∃ W W' : Machine counter, W.run [(0, .birthSpots 3), (1, .birthSpots 3), (0, .age 1)] = .ok W' ∧
    W.rng = (fun _ => (0 : ℕ)) ∧ (W.stars.map RStar.star) = [birthStar, birthStar] ∧ OwnRng W 1 ∧
    (W'.stars[1]?.map fun a => a.star.spots.spots.length) = some 0 := by
  obtain ⟨x, hx, h0⟩ := birthStar_expects
  obtain ⟨l, hl, hn⟩ := counter_birth birthStar.spotGen 3 birthStar.radius x hx h0 (by norm_num [birthStar]) rfl 0
  set W : Machine counter := ⟨fun _ => (0 : ℕ), [⟨birthStar, fun _ => 0⟩, ⟨birthStar, fun _ => 1⟩]⟩ with hW
  have hown : OwnRng W 1 := by
    intro k s s' hk hs hs' a b
    rw [hW] at hs hs'
    have e := (Option.some.inj hs).symm
    subst e
    match k, hk with
    | 0, _ =>
      have e := (Option.some.inj hs').symm
      subst e
      exact one_ne_zero
    | k + 2, _ => simp at hs'
  have s1 : ∃ W', W.run [(0, .birthSpots 3), (1, .birthSpots 3), (0, .age 1)] = .ok W' := by
    have e1 : W.step 0 (.birthSpots 3) = .ok ⟨fun b => if b = 0 then (5 : ℕ) else (0 : ℕ), [⟨birthStar.addSpot l, fun _ => 0⟩, ⟨birthStar, fun _ => 1⟩]⟩ := by
      simp only [Machine.step, hW, List.getElem?_cons_zero, Call.run]
      erw [hl]
      rfl
    have e2 : ∃ V, Machine.step (L := counter) ⟨fun b => if b = 0 then (5 : ℕ) else (0 : ℕ), [⟨birthStar.addSpot l, fun _ => 0⟩, ⟨birthStar, fun _ => 1⟩]⟩ 1 (.birthSpots 3) = .ok V ∧
        V.stars = [⟨birthStar.addSpot l, fun _ => 0⟩, ⟨birthStar.addSpot l, fun _ => 1⟩] := by
      simp only [Machine.step, List.getElem?_cons_succ, List.getElem?_cons_zero, Call.run]
      have e : (if (1 : ℕ) = 0 then (5 : ℕ) else 0) = 0 := if_neg one_ne_zero
      erw [e, hl]
      exact ⟨_, rfl, rfl⟩
    obtain ⟨V, e2, e3⟩ := e2
    have e4 : ∃ V', V.step 0 (.age 1) = .ok V' := by
      simp only [Machine.step, e3, List.getElem?_cons_zero, Call.run]
      exact ⟨_, rfl⟩
    obtain ⟨V', e4⟩ := e4
    exact ⟨V', by simp only [Machine.run, e1, e2, e4, Except.bind]⟩
  obtain ⟨W', hW'⟩ := s1
  refine ⟨W, W', hW', rfl, rfl, hown, ?_⟩
  obtain ⟨V, t₁, t₂, a1, a2⟩ := C158_alone W W W' 1 1 _ _ ⟨rfl, rfl, rfl, fun _ => rfl, fun _ _ => Iff.rfl⟩ hown _ hW'
  have hc : ((callsTo 1 [((0 : ℕ), Call.birthSpots 3), (1, Call.birthSpots 3), (0, Call.age 1)]).map fun c => ((1 : ℕ), c)) = [(1, .birthSpots 3)] := rfl
  rw [hc] at a1
  have e1 : ∃ V', W.run [(1, .birthSpots 3)] = .ok V' ∧ V'.stars = [⟨birthStar, fun _ => 0⟩, ⟨birthStar.addSpot l, fun _ => 1⟩] := by
    simp only [Machine.run, Machine.step, hW, List.getElem?_cons_succ, List.getElem?_cons_zero, Call.run]
    erw [hl]
    exact ⟨_, rfl, rfl⟩
  obtain ⟨V', e1, e2⟩ := e1
  rw [e1] at a1
  have := Except.ok.inj a1
  subst this
  have ht := a2.second
  rw [e2] at ht
  have := (Option.some.inj ht).symm
  subst this
  rw [a2.first]
  simp only [Option.map_some, a2.star]
  simp only [Star.addSpot, SpotCollection.addSpot, List.length_append, List.length_map, hn]
  rfl

end Vsm
