import Verif.Lemmas.ObserverGr
import Verif.Model.LeapfrogUniverse

/-! An evaluation of the effects and a step of LeapFrog for another observer. -/

namespace Posidonius.Univ
open Gravity (Ignore Body)
open Evolution (Evolver)

section
variable {n : Nat} (o : Observer)

/-! ### Spin and evolution -/

theorem calculateSpin_seen (p : Particle ℝ) : calculateSpin (o.sees p) = (calculateSpin p).map o.sees := by
  unfold calculateSpin
  show (if eqb p.momentOfInertia (lit 0) then _ else _) = _
  split
  · rfl
  · rw [Option.map_some]
    congr 1
    turn_simp

theorem spinAndEvolving_seen (k : Consts ℝ) (time : ℝ) (evolve : Bool) (p : Particle ℝ) (e : Evolver ℝ) :
    spinAndEvolving k time evolve (o.sees p) e
      = (spinAndEvolving k time evolve p e).map fun r => (o.sees r.1, r.2) := by
  have e1 : ∀ q : Particle ℝ, evolutionPart (o.sees q) = evolutionPart q := fun _ => rfl
  have e2 : ∀ (q : Particle ℝ) x, withEvolution (o.sees q) x = o.sees (withEvolution q x) := fun _ _ => rfl
  unfold spinAndEvolving
  cases evolve
  · simp only [calculateSpin_seen, Bool.false_eq_true, if_false]
    cases calculateSpin p <;> rfl
  · simp only [e1, if_true]
    cases Evolution.nonSpinDependent time (evolutionPart p) e with
    | none => rfl
    | some r =>
      obtain ⟨q, x⟩ := r
      simp only [e2, calculateSpin_seen]
      cases calculateSpin (withEvolution p q) with
      | none => rfl
      | some p1 =>
        simp only [Option.map_some, e1]
        cases Evolution.spinDependent k.sunDynFreq2 time (evolutionPart p1) x with
        | none => rfl
        | some r => rfl

theorem traverse_seen {A B : Type} (f : Fin n → Option A) (g : A → B) :
    traverse (fun i => (f i).map g) = (traverse f).map fun r i => g (r i) := by
  unfold traverse
  by_cases h : ∀ i, (f i).isSome
  · rw [dif_pos h, dif_pos (fun i => by rw [Option.isSome_map]; exact h i), Option.map_some]
    congr 1
    funext i
    rw [Option.get_map]
  · rw [dif_neg h, dif_neg (fun h' => h fun i => by have := h' i; rwa [Option.isSome_map] at this)]
    rfl

theorem calculateSpinAndEvolving_seen (k : Consts ℝ) (time : ℝ) (evolution : Bool) (u : Universe ℝ n) :
    calculateSpinAndEvolving k time evolution (o.describes u)
      = (calculateSpinAndEvolving k time evolution u).map o.describes := by
  unfold calculateSpinAndEvolving
  have e : (fun i => spinAndEvolving k time (evolution && (o.describes u).consider.evolution)
      ((o.describes u).particles i) ((o.describes u).evolvers i))
      = fun i => (spinAndEvolving k time (evolution && u.consider.evolution) (u.particles i) (u.evolvers i)).map
          fun r => (o.sees r.1, r.2) := funext fun i => spinAndEvolving_seen o k time _ _ _
  rw [e, traverse_seen]
  cases traverse (fun i => spinAndEvolving k time (evolution && u.consider.evolution) (u.particles i) (u.evolvers i))
    <;> rfl

/-! ### Coordinates -/

theorem toHeliocentric_seen (host q : Particle ℝ) :
    toHeliocentric (o.sees host) (o.sees q) = o.sees (toHeliocentric host q) := by
  unfold toHeliocentric
  turn_simp

theorem inertialToHeliocentric_seen (u : Universe ℝ n) :
    inertialToHeliocentric (o.describes u) = o.describes (inertialToHeliocentric u) := by
  have key : mapHost u.hosts.mostMassive zeroHeliocentric
      (mapOthers u.hosts.mostMassive toHeliocentric fun i => o.sees (u.particles i))
      = fun i => o.sees (mapHost u.hosts.mostMassive zeroHeliocentric
        (mapOthers u.hosts.mostMassive toHeliocentric u.particles) i) := by
    rw [mapOthers_seen _ (T := o.sees) fun i _ => toHeliocentric_seen o _ _]
    refine mapHost_seen _ ?_
    unfold zeroHeliocentric
    turn_simp
  unfold inertialToHeliocentric
  show Universe.mk _ _ _ _ _ _ = Universe.mk _ _ _ _ _ _
  congr 1

/-! ### Initialisation -/

theorem initializeEffect_seen {active isMostMassive all : Bool} {mostMassive : Fin n} {host : Option (Fin n)}
    {copy convert init : Fin n → (Fin n → Particle ℝ) → (Fin n → Particle ℝ)}
    (h1 : ∀ h p, copy h (fun i => o.sees (p i)) = fun i => o.sees (copy h p i))
    (h2 : ∀ h p, convert h (fun i => o.sees (p i)) = fun i => o.sees (convert h p i))
    (h3 : ∀ h p, init h (fun i => o.sees (p i)) = fun i => o.sees (init h p i)) (p : Fin n → Particle ℝ) :
    initializeEffect active isMostMassive all mostMassive host copy convert init (fun i => o.sees (p i))
      = (initializeEffect active isMostMassive all mostMassive host copy convert init p).map
        fun q i => o.sees (q i) := by
  unfold initializeEffect withHost
  cases active <;> cases isMostMassive <;> cases all <;> cases host <;> simp [h1, h2, h3]

theorem initializeAll_seen (dL acc : Bool) (u : Universe ℝ n) :
    initializeAll dL acc (o.describes u) = (initializeAll dL acc u).map o.describes := by
  have e0 : (if dL && u.consider.wind then fun i => windInitialize (o.sees (u.particles i)) else fun i => o.sees (u.particles i))
      = fun i => o.sees ((if dL && u.consider.wind then fun i => windInitialize (u.particles i) else u.particles) i) := by
    split
    · funext i; rw [windInitialize_seen]
    · rfl
  unfold initializeAll
  dsimp only [Observer.describes]
  rw [e0]
  simp only [initializeEffect_seen o (tidesCopyHeliocentric_seen o) (tidesInertialToHeliocentric_seen o) (tidesInitialize_seen o)]
  generalize (if dL && u.consider.wind then fun i => windInitialize (u.particles i) else u.particles) = p0
  generalize initializeEffect _ _ _ _ _ tidesCopyHeliocentric _ _ p0 = x
  rcases x with _ | p1
  · rfl
  simp only [Option.map_some, initializeEffect_seen o (flatteningCopyHeliocentric_seen o)
    (flatteningInertialToHeliocentric_seen o) (flatteningInitialize_seen o)]
  generalize initializeEffect _ _ _ _ _ flatteningCopyHeliocentric _ _ p1 = x
  rcases x with _ | p2
  · rfl
  simp only [Option.map_some, initializeEffect_seen o (grCopyHeliocentric_seen o)
    (grInertialToHeliocentric_seen o) (grInitialize_seen o)]
  generalize initializeEffect _ _ _ _ _ grCopyHeliocentric _ _ p2 = x
  rcases x with _ | p3
  · rfl
  simp only [Option.map_some, initializeEffect_seen o (diskCopyHeliocentric_seen o)
    (diskInertialToHeliocentric_seen o) (diskInitialize_seen o)]
  generalize initializeEffect _ _ _ _ _ diskCopyHeliocentric _ _ p3 = x
  rcases x with _ | p4
  · rfl
  simp only [Option.map_some, Option.some.injEq]
  congr 1
  cases acc
  · rfl
  · simp only [if_true]
    funext i
    turn_simp

/-! ### The effects -/

/-- What the observer needs for the effects of the universe to look the same. -/
structure Fits (m : Models ℝ) (ignore : Ignore) (u : Universe ℝ n) : Prop where
  tides : TidesFit o m u.particles
  flattening : FlatteningFit o m u.particles
  gr : u.consider.gr = true → ∀ h, u.hosts.gr = some h → GrFits o ignore u.particles h
  disk : u.consider.disk = true → o.turn.Upright

theorem Fits.same {m : Models ℝ} {ignore : Ignore} {u v : Universe ℝ n} (hf : Fits o m ignore u)
    (hs : Same settings v.particles u.particles) (hc : v.consider = u.consider) (hh : v.hosts = u.hosts) :
    Fits o m ignore v where
  tides := hf.tides.same o hs
  flattening := hf.flattening.same o hs
  gr := by rw [hc, hh]; exact fun h1 h h2 => (hf.gr h1 h h2).same o hs
  disk := by rw [hc]; exact hf.disk

theorem tidesAndFlattening_seen (k : Consts ℝ) {m : Models ℝ} (dL acc : Bool) (c : Consider) (h : Fin n)
    {p : Fin n → Particle ℝ} (t : Table ℝ) (ht : TidesFit o m p) (hf : FlatteningFit o m p) :
    tidesAndFlattening k m dL acc c h (fun i => o.sees (p i)) t
      = ((fun i => o.sees ((tidesAndFlattening k m dL acc c h p t).1 i)), (tidesAndFlattening k m dL acc c h p t).2) := by
  unfold tidesAndFlattening
  split <;> [skip; rfl]
  dsimp only
  rw [pairFactors_seen]
  generalize pairFactors k h p t = t1
  refine Prod.ext ?_ rfl
  dsimp only
  -- each stage in turn
  have stage : ∀ (b : Bool) (f : (Fin n → Particle ℝ) → Fin n → Particle ℝ) (q : Fin n → Particle ℝ),
      (f (fun i => o.sees (q i)) = fun i => o.sees (f q i)) →
      (if b then f (fun i => o.sees (q i)) else fun i => o.sees (q i)) = fun i => o.sees ((if b then f q else q) i) := by
    intro b f q hq
    cases b
    · rfl
    · exact hq
  have keep : ∀ (b : Bool) (f : (Fin n → Particle ℝ) → Fin n → Particle ℝ) (q : Fin n → Particle ℝ),
      Same settings (f q) q → Same settings (if b then f q else q) q := by
    intro b f q hq
    cases b
    · exact Same.refl _
    · exact hq
  have s1 := keep c.tides (fun p => tidesShapes m h (orthogonalComponent t1 h p)) p
    ((tidesShapes_settings m h _).trans (orthogonalComponent_settings t1 h p))
  rw [stage c.tides (fun p => tidesShapes m h (orthogonalComponent t1 h p)) p (by
    show _ = _
    rw [orthogonalComponent_seen, tidesShapes_seen o (ht.same o (orthogonalComponent_settings t1 h p))])]
  generalize (if c.tides then tidesShapes m h (orthogonalComponent t1 h p) else p) = p1 at s1 ⊢
  have s2 := (keep c.flattening (fun p => flatteningShapes m h (flatteningOrthogonal h p)) p1
    ((flatteningShapes_settings m h _).trans (flatteningOrthogonal_settings h p1))).trans s1
  rw [stage c.flattening (fun p => flatteningShapes m h (flatteningOrthogonal h p)) p1 (by
    show _ = _
    rw [flatteningOrthogonal_seen, flatteningShapes_seen o (hf.same o ((flatteningOrthogonal_settings h p1).trans s1))])]
  generalize (if c.flattening then flatteningShapes m h (flatteningOrthogonal h p1) else p1) = p2 at s2 ⊢
  have s3 := (keep (acc && c.tides) (fun p => tidalAcceleration m.tides h (radialComponent k t1 h p)) p2
    ((tidalAcceleration_settings m.tides h _).trans (radialComponent_settings k t1 h p2))).trans s2
  rw [stage (acc && c.tides) (fun p => tidalAcceleration m.tides h (radialComponent k t1 h p)) p2 (by
    show _ = _
    rw [radialComponent_seen, tidalAcceleration_seen o (ht.same o ((radialComponent_settings k t1 h p2).trans s2))])]
  generalize (if acc && c.tides then tidalAcceleration m.tides h (radialComponent k t1 h p2) else p2) = p3 at s3 ⊢
  have s4 := (keep (acc && c.flattening) (fun p => flatteningAcceleration m.flattening h (flatteningRadial h p)) p3
    ((flatteningAcceleration_settings m.flattening h _).trans (flatteningRadial_settings h p3))).trans s3
  rw [stage (acc && c.flattening) (fun p => flatteningAcceleration m.flattening h (flatteningRadial h p)) p3 (by
    show _ = _
    rw [flatteningRadial_seen, flatteningAcceleration_seen o (hf.same o ((flatteningRadial_settings h p3).trans s3))])]
  generalize (if acc && c.flattening then flatteningAcceleration m.flattening h (flatteningRadial h p3) else p3) = p4 at s4 ⊢
  have s5 := (keep (dL && c.tides) (fun p => tidalDL m.tides h p) p4 (tidalDL_settings m.tides h p4)).trans s4
  rw [stage (dL && c.tides) (fun p => tidalDL m.tides h p) p4 (tidalDL_seen o (ht.same o s4))]
  generalize (if dL && c.tides then tidalDL m.tides h p4 else p4) = p5 at s5 ⊢
  rw [stage (dL && c.flattening) (fun p => flatteningDL m.flattening h p) p5 (flatteningDL_seen o (hf.same o s5))]

theorem totalDL_seen (q : Particle ℝ) : totalDL (o.sees q) = o.sees (totalDL q) := by
  unfold totalDL
  turn_simp

theorem addAccelerations_seen (c : Consider) (q : Particle ℝ) :
    addAccelerations c (o.sees q) = o.sees (addAccelerations c q) := by
  unfold addAccelerations
  dsimp only
  cases c.tides <;> cases c.disk <;> cases c.flattening <;> cases c.gr <;> turn_simp

theorem applyAccelerations_seen (q : Particle ℝ) : applyAccelerations (o.sees q) = o.sees (applyAccelerations q) := by
  unfold applyAccelerations
  turn_simp

theorem effects_seen (k : Consts ℝ) {m : Models ℝ} (eps2 time : ℝ) (dL acc : Bool) {ignore : Ignore} {u : Universe ℝ n}
    (hf : Fits o m ignore u) :
    effects k m eps2 time dL acc ignore (o.describes u) = (effects k m eps2 time dL acc ignore u).map o.describes := by
  unfold effects
  have e0 : (if dL && u.consider.wind then fun i => windFactor k (o.sees (u.particles i)) else fun i => o.sees (u.particles i))
      = fun i => o.sees ((if dL && u.consider.wind then fun i => windFactor k (u.particles i) else u.particles) i) := by
    split
    · funext i; rw [windFactor_seen]
    · rfl
  have s0 : Same settings (if dL && u.consider.wind then fun i => windFactor k (u.particles i) else u.particles) u.particles := by
    split
    · exact windFactor_settings k _
    · exact Same.refl _
  dsimp only [Observer.describes]
  rw [e0]
  generalize (if dL && u.consider.wind then fun i => windFactor k (u.particles i) else u.particles) = p0 at s0 ⊢
  have e1 : (if (u.consider.tides || u.consider.flattening) = true then
      withHost u.hosts.tides (fun h => tidesAndFlattening k m dL acc u.consider h (fun i => o.sees (p0 i)) u.table)
      else some ((fun i => o.sees (p0 i)), u.table))
      = (if (u.consider.tides || u.consider.flattening) = true then
      withHost u.hosts.tides (fun h => tidesAndFlattening k m dL acc u.consider h p0 u.table)
      else some (p0, u.table)).map fun r => ((fun i => o.sees (r.1 i)), r.2) := by
    simp only [tidesAndFlattening_seen o k dL acc u.consider _ u.table (hf.tides.same o s0) (hf.flattening.same o s0)]
    split
    · unfold withHost
      cases u.hosts.tides <;> rfl
    · rfl
  have s1 : ∀ r, (if (u.consider.tides || u.consider.flattening) = true then
      withHost u.hosts.tides (fun h => tidesAndFlattening k m dL acc u.consider h p0 u.table)
      else some (p0, u.table)) = some r → Same settings r.1 u.particles := by
    intro r hr
    split at hr
    · unfold withHost at hr
      split at hr
      · cases hr
      · cases hr
        exact (tidesAndFlattening_settings k m dL acc u.consider _ p0 u.table).trans s0
    · cases hr
      exact s0
  rw [e1]
  generalize (if (u.consider.tides || u.consider.flattening) = true then
      withHost u.hosts.tides (fun h => tidesAndFlattening k m dL acc u.consider h p0 u.table)
      else some (p0, u.table)) = x at s1 ⊢
  rcases x with _ | ⟨p1, t1⟩
  · rfl
  have s1 := s1 _ rfl
  simp only [Option.map_some]
  have e2 : (if (acc && u.consider.gr) = true then
      withHost u.hosts.gr (fun h => generalRelativity k eps2 ignore h (fun i => o.sees (p1 i)))
      else some (fun i => o.sees (p1 i)))
      = (if (acc && u.consider.gr) = true then
      withHost u.hosts.gr (fun h => generalRelativity k eps2 ignore h p1) else some p1).map fun r i => o.sees (r i) := by
    split
    · rename_i hc
      unfold withHost
      cases hh : u.hosts.gr with
      | none => rfl
      | some h =>
        dsimp only
        rw [generalRelativity_seen o k eps2 ((hf.gr (by simp at hc; exact hc.2) h hh).same o s1)]
        rfl
    · rfl
  rw [e2]
  generalize (if (acc && u.consider.gr) = true then
      withHost u.hosts.gr (fun h => generalRelativity k eps2 ignore h p1) else some p1) = x
  rcases x with _ | p2
  · rfl
  simp only [Option.map_some]
  have e3 : (if (acc && u.consider.disk) = true then
      withHost u.hosts.disk (fun h => diskAcceleration k time h (fun i => o.sees (p2 i)))
      else some (fun i => o.sees (p2 i)))
      = (if (acc && u.consider.disk) = true then
      withHost u.hosts.disk (fun h => diskAcceleration k time h p2) else some p2).map fun r i => o.sees (r i) := by
    split
    · rename_i hc
      unfold withHost
      cases hh : u.hosts.disk with
      | none => rfl
      | some h =>
        dsimp only
        rw [diskAcceleration_seen o (hf.disk (by simp at hc; exact hc.2))]
        rfl
    · rfl
  rw [e3]
  generalize (if (acc && u.consider.disk) = true then
      withHost u.hosts.disk (fun h => diskAcceleration k time h p2) else some p2) = x
  rcases x with _ | p3
  · rfl
  simp only [Option.map_some, Option.some.injEq]
  congr 1
  funext i
  have t4 : ∀ b : Bool, (if b then fun i => totalDL (o.sees (p3 i)) else fun i => o.sees (p3 i))
      = fun i => o.sees ((if b then fun i => totalDL (p3 i) else p3) i) := by
    intro b
    cases b
    · rfl
    · funext i; exact totalDL_seen o _
  rw [t4]
  cases acc
  · rfl
  · exact addAccelerations_seen o _ _

/-- An evaluation for another observer. -/
theorem evaluation_seen (k : Consts ℝ) {m : Models ℝ} (eps2 time : ℝ) (evolution dL acc : Bool) {ignore : Ignore}
    {u : Universe ℝ n} (hf : Fits o m ignore u) :
    calculateAdditionalEffects k m eps2 time evolution dL acc ignore (o.describes u)
      = (calculateAdditionalEffects k m eps2 time evolution dL acc ignore u).map o.describes := by
  unfold calculateAdditionalEffects
  rw [initializeAll_seen]
  cases h1 : initializeAll dL acc u with
  | none => rfl
  | some u1 =>
    simp only [Option.map_some]
    rw [calculateSpinAndEvolving_seen]
    have s1 := initializeAll_settings h1
    obtain ⟨c1, -, d1, -⟩ := initializeAll_totals h1
    cases h2 : calculateSpinAndEvolving k time evolution u1 with
    | none => rfl
    | some u2 =>
      simp only [Option.map_some]
      obtain ⟨b2, c2, -, d2, -⟩ := calculateSpinAndEvolving_step h2
      have s2 : Same settings u2.particles u1.particles := fun i => by
        have := congrArg settings (spinAndEvolving_noSpin (b2 i))
        exact this
      exact effects_seen o k eps2 time dL acc (hf.same o (s2.trans s1) (c2.trans c1) (d2.trans d1))

/-! ### Gravity -/

theorem gravity_seen (k : Consts ℝ) (roche : Fin n → Fin n → ℝ) (ignore : Ignore) (u : Universe ℝ n) :
    universeGravity k roche ignore (o.describes u) = (universeGravity k roche ignore u).map o.describes := by
  have ed : ∀ i j, (bodyOf (o.sees (u.particles i))).position - (bodyOf (o.sees (u.particles j))).position
      = o.turn.on ((bodyOf (u.particles i)).position - (bodyOf (u.particles j)).position) := by
    intro i j
    show o.turn.on _ + o.place - (o.turn.on _ + o.place) = _
    rw [add_sub_add_right_eq_sub, Turn.on_sub]
    rfl
  have e1 : Gravity.firstStop (fun i => bodyOf (o.sees (u.particles i))) roche u.hosts.mostMassive
      = Gravity.firstStop (fun i => bodyOf (u.particles i)) roche u.hosts.mostMassive := by
    unfold Gravity.firstStop Gravity.check Gravity.distance2
    simp only [ed, Turn.on_norm2]
    rfl
  have e2 : ∀ i, Gravity.acceleration k.g (fun i => bodyOf (o.sees (u.particles i))) ignore u.hosts.mostMassive i
      = o.turn.on (Gravity.acceleration k.g (fun i => bodyOf (u.particles i)) ignore u.hosts.mostMassive i) := by
    intro i
    unfold Gravity.acceleration
    have : ∀ (l : List (Fin n)) (s : Axes ℝ), l.foldl (fun acc j => if i = j then acc
          else if Gravity.ignored ignore u.hosts.mostMassive i j then acc
          else acc + Gravity.pairAcceleration k.g (bodyOf (o.sees (u.particles i))) (bodyOf (o.sees (u.particles j)))) (o.turn.on s)
        = o.turn.on (l.foldl (fun acc j => if i = j then acc
          else if Gravity.ignored ignore u.hosts.mostMassive i j then acc
          else acc + Gravity.pairAcceleration k.g (bodyOf (u.particles i)) (bodyOf (u.particles j))) s) := by
      intro l
      induction l with
      | nil => intro s; rfl
      | cons j l ih =>
        intro s
        simp only [List.foldl_cons]
        rw [← ih]
        congr 1
        split
        · rfl
        · split
          · rfl
          · rw [← Turn.on_add]
            congr 1
            unfold Gravity.pairAcceleration
            dsimp only
            rw [ed, Turn.on_norm2, Turn.on_smul]
            rfl
    rw [← this, Turn.on_zero']
  unfold universeGravity Gravity.gravity
  dsimp only [Observer.describes]
  rw [e1]
  generalize Gravity.firstStop (fun i => bodyOf (u.particles i)) roche u.hosts.mostMassive = x
  rcases x with _ | x
  · simp only [Option.map_some, Option.some.injEq]
    congr 1
    funext i
    simp only [e2]
    rfl
  · rfl

/-! ### A step -/

theorem drift_seen (half : ℝ) (u : Universe ℝ n) : drift half (o.describes u) = (o.later half).describes (drift half u) := by
  unfold drift driftParticle
  dsimp only [Observer.describes]
  congr 1
  funext i
  dsimp only [Observer.sees, Observer.later]
  simp only [← Turn.on_add, ← Turn.on_smul, ← Turn.on_smulRight, smul_add]
  congr 1
  abel

theorem kickDrift_seen (dt half : ℝ) (u : Universe ℝ n) :
    kickDrift dt half (o.describes u) = (o.later half).describes (kickDrift dt half u) := by
  unfold kickDrift kickDriftParticle
  dsimp only [Observer.describes]
  congr 1
  funext i
  dsimp only [Observer.sees, Observer.later]
  simp only [← Turn.on_add, ← Turn.on_smul, ← Turn.on_smulRight, smul_add]
  congr 1
  · abel
  · abel

/-! ### A record -/

theorem calculateDenergyDt_seen (h : Fin n) (p : Fin n → Particle ℝ) :
    calculateDenergyDt h (fun i => o.sees (p i)) = fun i => o.sees (calculateDenergyDt h p i) := by
  have e : ∀ q, denergyDt (o.sees q) = denergyDt q := by
    intro q
    unfold denergyDt
    turn_simp
  unfold calculateDenergyDt
  refine mapOthers_seen h fun i _ => ?_
  show (if (p i).tides.effect.isOrbiting then _ else _) = _
  rw [e]
  split <;> rfl

theorem observe_seen (k : Consts ℝ) (time : ℝ) (u : Universe ℝ n) :
    Univ.observe k time (o.describes u) = (Univ.observe k time u).map o.describes := by
  unfold Univ.observe
  rw [inertialToHeliocentric_seen, calculateSpinAndEvolving_seen]
  cases calculateSpinAndEvolving k time true (inertialToHeliocentric u) with
  | none => rfl
  | some u1 =>
    simp only [Option.map_some]
    show (if u1.consider.tides then _ else _) = _
    split
    · unfold universeDenergyDt withHost
      show (match u1.hosts.tides with | none => _ | some i => _) = _
      cases u1.hosts.tides with
      | none => rfl
      | some h =>
        simp only [Option.map_some, Observer.describes, calculateDenergyDt_seen]
    · rfl

/-! ### Runs -/

/-- The configuration of the universe. -/
structure Kept {F : Type} [FOps F] (u v : Universe F n) : Prop where
  particles : Same settings v.particles u.particles
  consider : v.consider = u.consider
  hosts : v.hosts = u.hosts

theorem Kept.refl (u : Universe ℝ n) : Kept u u := ⟨Same.refl _, rfl, rfl⟩

theorem Kept.trans {u v w : Universe ℝ n} (a : Kept u v) (b : Kept v w) : Kept u w :=
  ⟨b.particles.trans a.particles, b.consider.trans a.consider, b.hosts.trans a.hosts⟩

theorem kept_evaluation {k : Consts ℝ} {m : Models ℝ} {eps2 time : ℝ} {evolution dL acc : Bool}
    {ignore : Ignore} {u v : Universe ℝ n}
    (h : calculateAdditionalEffects k m eps2 time evolution dL acc ignore u = some v) : Kept u v :=
  ⟨evaluation_settings h, (evaluation_totals h).1, (evaluation_totals h).2.2.1⟩

theorem kept_heliocentric (u : Universe ℝ n) : Kept u (inertialToHeliocentric u) :=
  ⟨inertialToHeliocentric_settings u, rfl, rfl⟩

theorem kept_gravity {k : Consts ℝ} {roche : Fin n → Fin n → ℝ} {ignore : Ignore} {u v : Universe ℝ n}
    (h : universeGravity k roche ignore u = some v) : Kept u v := by
  unfold universeGravity at h
  split at h
  · cases h
  · cases h
    exact ⟨fun _ => rfl, rfl, rfl⟩

theorem kept_drift (half : ℝ) (u : Universe ℝ n) : Kept u (drift half u) := ⟨fun _ => rfl, rfl, rfl⟩

theorem kept_step {k : Consts ℝ} {m : Models ℝ} {eps2 : ℝ} {roche : Fin n → Fin n → ℝ} {dt half time : ℝ}
    {u v : Universe ℝ n} (h : leapfrogStep k m eps2 roche dt half time u = some v) : Kept u v := by
  unfold leapfrogStep at h
  split at h
  · cases h
  rename_i u1 h1
  split at h
  · cases h
  rename_i u2 h2
  split at h
  · cases h
  rename_i u3 h3
  cases h
  refine ((kept_heliocentric u).trans (kept_evaluation h1)).trans (((kept_drift half u1).trans (kept_gravity h2)).trans
    (((kept_heliocentric u2).trans (kept_evaluation h3)).trans ⟨fun _ => rfl, rfl, rfl⟩))

theorem kept_observe {k : Consts ℝ} {time : ℝ} {u v : Universe ℝ n} (h : Univ.observe k time u = some v) : Kept u v := by
  unfold Univ.observe at h
  split at h
  · cases h
  rename_i u1 h1
  obtain ⟨b, c, -, d, -⟩ := calculateSpinAndEvolving_step h1
  have k1 : Kept u u1 := (kept_heliocentric u).trans ⟨fun i => by
    have := congrArg settings (spinAndEvolving_noSpin (b i))
    exact this, c, d⟩
  split at h
  · unfold universeDenergyDt withHost at h
    split at h
    · cases h
    · cases h
      exact k1.trans ⟨calculateDenergyDt_settings _ _, rfl, rfl⟩
  · cases h
    exact k1

theorem kept_iterate {k : Consts ℝ} {m : Models ℝ} {eps2 : ℝ} {roche : Fin n → Fin n → ℝ} {dt half time : ℝ}
    {record : Bool} {u v : Universe ℝ n} (h : leapfrogIterate k m eps2 roche dt half time record u = some v) : Kept u v := by
  unfold leapfrogIterate at h
  split at h
  · cases h
  rename_i u1 h1
  refine Kept.trans ?_ (kept_step h)
  split at h1
  · exact kept_observe h1
  · cases h1
    exact Kept.refl _

theorem Fits.kept {o : Observer} {m : Models ℝ} {ignore : Ignore} {u v : Universe ℝ n} (hf : Fits o m ignore u)
    (h : Kept u v) : Fits o m ignore v := hf.same o h.particles h.consider h.hosts

theorem Fits.congr {o o' : Observer} {m : Models ℝ} {ignore : Ignore} {u : Universe ℝ n} (hf : Fits o m ignore u)
    (h : o = o') : Fits o' m ignore u := h ▸ hf

theorem later_later (s t : ℝ) : (o.later s).later t = o.later (s + t) := by
  unfold Observer.later
  dsimp only
  congr 1
  module

theorem later_zero : o.later 0 = o := by
  unfold Observer.later
  rw [zero_smul, add_zero]

theorem leapfrogStep_seen (k : Consts ℝ) {m : Models ℝ} (eps2 : ℝ) (roche : Fin n → Fin n → ℝ) (dt half time : ℝ)
    {u : Universe ℝ n} (h0 : Fits o m .none u) (h1 : Fits (o.later half) m .none u) :
    leapfrogStep k m eps2 roche dt half time (o.describes u)
      = (leapfrogStep k m eps2 roche dt half time u).map (o.later (half + half)).describes := by
  unfold leapfrogStep
  rw [inertialToHeliocentric_seen, evaluation_seen o k eps2 time true true false (h0.kept (kept_heliocentric u))]
  cases e1 : calculateAdditionalEffects k m eps2 time true true false .none (inertialToHeliocentric u) with
  | none => rfl
  | some u1 =>
    simp only [Option.map_some]
    rw [drift_seen, gravity_seen]
    cases e2 : universeGravity k roche .none (drift half u1) with
    | none => rfl
    | some u2 =>
      simp only [Option.map_some]
      have kp : Kept u u2 := ((kept_heliocentric u).trans (kept_evaluation e1)).trans
        ((kept_drift half u1).trans (kept_gravity e2))
      rw [inertialToHeliocentric_seen, evaluation_seen (o.later half) k eps2 (time + half) true true true
        (h1.kept (kp.trans (kept_heliocentric u2)))]
      cases e3 : calculateAdditionalEffects k m eps2 (time + half) true true true .none (inertialToHeliocentric u2) with
      | none => rfl
      | some u3 =>
        simp only [Option.map_some, Option.some.injEq]
        rw [← later_later, ← kickDrift_seen]
        congr 1
        show Universe.mk _ _ _ _ _ _ = Universe.mk _ _ _ _ _ _
        congr 1
        funext i
        exact applyAccelerations_seen _ _

theorem leapfrogIterate_seen (k : Consts ℝ) {m : Models ℝ} (eps2 : ℝ) (roche : Fin n → Fin n → ℝ) (dt half time : ℝ)
    (record : Bool) {u : Universe ℝ n} (h0 : Fits o m .none u) (h1 : Fits (o.later half) m .none u) :
    leapfrogIterate k m eps2 roche dt half time record (o.describes u)
      = (leapfrogIterate k m eps2 roche dt half time record u).map (o.later (half + half)).describes := by
  unfold leapfrogIterate
  cases record
  · exact leapfrogStep_seen o k eps2 roche dt half time h0 h1
  · simp only [if_true]
    rw [observe_seen]
    cases e : Univ.observe k time u with
    | none => rfl
    | some u1 => exact leapfrogStep_seen o k eps2 roche dt half time (h0.kept (kept_observe e)) (h1.kept (kept_observe e))

end
end Posidonius.Univ
