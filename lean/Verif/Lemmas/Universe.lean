import Verif.Lemmas.Frame

/-! What the parts of `calculate_additional_effects` leave alone. -/

namespace Posidonius.Univ
open Gravity (Ignore)
open Evolution (Evolver)

section
variable {F : Type} [Add F] [Sub F] [Mul F] [Div F] [Neg F] [FOps F] {n : Nat}

set_option linter.unusedSectionVars false

/-- Forget the tidal forces and torques, keep the geometry. -/
def geo (p : Particle F) : Particle F :=
  { p with tides := { p.tides with
      orthogonalStellar := lit 0, orthogonalPlanetary := lit 0, radial := lit 0,
      radialDissipativePlanet := lit 0, shape := Axes.zero, denergyDt := lit 0,
      acceleration := Axes.zero, dAngularMomentumDt := Axes.zero } }

theorem orthogonalComponent_geo (t : Table F) (h : Fin n) (p : Fin n → Particle F) :
    Same geo (orthogonalComponent t h p) p := by
  unfold orthogonalComponent
  refine mapOthers_frame _ (fun a b => ?_) (mapOthers_frame _ (fun a b => ?_) (Same.refl _))
  · unfold orthogonalPlanetaryStep; split <;> rfl
  · unfold orthogonalStellarStep; split <;> rfl

theorem radialComponent_geo (k : Consts F) (t : Table F) (h : Fin n) (p : Fin n → Particle F) :
    Same geo (radialComponent k t h p) p := by
  unfold radialComponent
  refine mapOthers_frame _ (fun a b => ?_) (Same.refl _)
  unfold radialStep; split <;> rfl

theorem tidesShapes_geo (m : Models F) (h : Fin n) (p : Fin n → Particle F) :
    Same geo (tidesShapes m h p) p := by
  unfold tidesShapes
  refine mapOthers_frame _ (fun a b => ?_) (Same.refl _)
  dsimp only; split <;> rfl

theorem tidalDL_geo (m : OtherModels F) (h : Fin n) (p : Fin n → Particle F) :
    Same geo (tidalDL m h p) p := by
  unfold tidalDL
  refine mapHost_frame _ (fun a => rfl) (mapOthers_frame _ (fun a b => ?_) (Same.refl _))
  unfold companionTidalDL; split <;> rfl

theorem tidalAcceleration_geo (m : OtherModels F) (h : Fin n) (p : Fin n → Particle F) :
    Same geo (tidalAcceleration m h p) p := by
  have e : ∀ (f : Particle F → Particle F) (hf : ∀ a, geo (f a) = geo a),
      Same geo (mapHost h f (mapOthers h (companionTidalAcceleration m) p)) p := by
    intro f hf
    refine mapHost_frame _ hf (mapOthers_frame _ (fun a b => ?_) (Same.refl _))
    unfold companionTidalAcceleration; split <;> rfl
  unfold tidalAcceleration
  dsimp only
  split
  · refine foldl_frame _ _ ?_ (e _ (fun a => rfl))
    intro q j i
    dsimp only
    split
    · rename_i h1; subst h1; rfl
    · split
      · rename_i h1; subst h1; rfl
      · rfl
  · exact e _ (fun a => rfl)

/-- Forget all effects and the additional accelerations and torques. -/
def core (p : Particle F) : Particle F :=
  { p with tides := (blank F).tides, flattening := (blank F).flattening, gr := (blank F).gr,
           wind := (blank F).wind, disk := (blank F).disk, dAngularMomentumDt := Axes.zero,
           inertialAdditionalAcceleration := Axes.zero }

theorem Same.core_tides {p q : Fin n → Particle F} (h : Same noTides q p) : Same core q p := fun i => by
  have e := congrArg core (h i)
  exact e

theorem Same.core_flattening {p q : Fin n → Particle F} (h : Same noFlattening q p) : Same core q p := fun i => by
  have e := congrArg core (h i)
  exact e

theorem Same.core_gr {p q : Fin n → Particle F} (h : Same noGr q p) : Same core q p := fun i => by
  have e := congrArg core (h i)
  exact e

theorem Same.core_wind {p q : Fin n → Particle F} (h : Same noWind q p) : Same core q p := fun i => by
  have e := congrArg core (h i)
  exact e

theorem Same.core_disk {p q : Fin n → Particle F} (h : Same noDisk q p) : Same core q p := fun i => by
  have e := congrArg core (h i)
  exact e

theorem Same.tides_of_flattening {p q : Fin n → Particle F} (h : Same noFlattening q p) (i : Fin n) :
    (q i).tides = (p i).tides := by
  have e := congrArg Particle.tides (h i)
  exact e

theorem Same.tides_of_gr {p q : Fin n → Particle F} (h : Same noGr q p) (i : Fin n) :
    (q i).tides = (p i).tides := by
  have e := congrArg Particle.tides (h i)
  exact e

theorem Same.tides_of_wind {p q : Fin n → Particle F} (h : Same noWind q p) (i : Fin n) :
    (q i).tides = (p i).tides := by
  have e := congrArg Particle.tides (h i)
  exact e

theorem Same.tides_of_disk {p q : Fin n → Particle F} (h : Same noDisk q p) (i : Fin n) :
    (q i).tides = (p i).tides := by
  have e := congrArg Particle.tides (h i)
  exact e

theorem Same.flattening_of_tides {p q : Fin n → Particle F} (h : Same noTides q p) (i : Fin n) :
    (q i).flattening = (p i).flattening := by
  have e := congrArg Particle.flattening (h i)
  exact e

theorem Same.flattening_of_gr {p q : Fin n → Particle F} (h : Same noGr q p) (i : Fin n) :
    (q i).flattening = (p i).flattening := by
  have e := congrArg Particle.flattening (h i)
  exact e

theorem Same.flattening_of_wind {p q : Fin n → Particle F} (h : Same noWind q p) (i : Fin n) :
    (q i).flattening = (p i).flattening := by
  have e := congrArg Particle.flattening (h i)
  exact e

theorem Same.flattening_of_disk {p q : Fin n → Particle F} (h : Same noDisk q p) (i : Fin n) :
    (q i).flattening = (p i).flattening := by
  have e := congrArg Particle.flattening (h i)
  exact e

theorem Same.gr_of_tides {p q : Fin n → Particle F} (h : Same noTides q p) (i : Fin n) :
    (q i).gr = (p i).gr := by
  have e := congrArg Particle.gr (h i)
  exact e

theorem Same.gr_of_flattening {p q : Fin n → Particle F} (h : Same noFlattening q p) (i : Fin n) :
    (q i).gr = (p i).gr := by
  have e := congrArg Particle.gr (h i)
  exact e

theorem Same.gr_of_wind {p q : Fin n → Particle F} (h : Same noWind q p) (i : Fin n) :
    (q i).gr = (p i).gr := by
  have e := congrArg Particle.gr (h i)
  exact e

theorem Same.gr_of_disk {p q : Fin n → Particle F} (h : Same noDisk q p) (i : Fin n) :
    (q i).gr = (p i).gr := by
  have e := congrArg Particle.gr (h i)
  exact e

theorem Same.wind_of_tides {p q : Fin n → Particle F} (h : Same noTides q p) (i : Fin n) :
    (q i).wind = (p i).wind := by
  have e := congrArg Particle.wind (h i)
  exact e

theorem Same.wind_of_flattening {p q : Fin n → Particle F} (h : Same noFlattening q p) (i : Fin n) :
    (q i).wind = (p i).wind := by
  have e := congrArg Particle.wind (h i)
  exact e

theorem Same.wind_of_gr {p q : Fin n → Particle F} (h : Same noGr q p) (i : Fin n) :
    (q i).wind = (p i).wind := by
  have e := congrArg Particle.wind (h i)
  exact e

theorem Same.wind_of_disk {p q : Fin n → Particle F} (h : Same noDisk q p) (i : Fin n) :
    (q i).wind = (p i).wind := by
  have e := congrArg Particle.wind (h i)
  exact e

theorem Same.disk_of_tides {p q : Fin n → Particle F} (h : Same noTides q p) (i : Fin n) :
    (q i).disk = (p i).disk := by
  have e := congrArg Particle.disk (h i)
  exact e

theorem Same.disk_of_flattening {p q : Fin n → Particle F} (h : Same noFlattening q p) (i : Fin n) :
    (q i).disk = (p i).disk := by
  have e := congrArg Particle.disk (h i)
  exact e

theorem Same.disk_of_gr {p q : Fin n → Particle F} (h : Same noGr q p) (i : Fin n) :
    (q i).disk = (p i).disk := by
  have e := congrArg Particle.disk (h i)
  exact e

theorem Same.disk_of_wind {p q : Fin n → Particle F} (h : Same noWind q p) (i : Fin n) :
    (q i).disk = (p i).disk := by
  have e := congrArg Particle.disk (h i)
  exact e

theorem initializeEffect_frame {E : Particle F → Particle F} {active isMm all : Bool} {mm : Fin n}
    {host : Option (Fin n)} {copy convert init : Fin n → (Fin n → Particle F) → (Fin n → Particle F)}
    (hc : ∀ h p, Same E (copy h p) p) (hv : ∀ h p, Same E (convert h p) p) (hi : ∀ h p, Same E (init h p) p)
    {p q : Fin n → Particle F}
    (hq : initializeEffect active isMm all mm host copy convert init p = some q) : Same E q p := by
  unfold initializeEffect at hq
  split at hq
  · split at hq
    · injection hq with hq
      subst hq
      exact (hi _ _).trans (hc _ _)
    · split at hq
      · injection hq with hq
        subst hq
        exact Same.refl _
      · unfold withHost at hq
        split at hq
        · simp at hq
        · injection hq with hq
          subst hq
          exact (hi _ _).trans (hv _ _)
  · injection hq with hq
    subst hq
    exact Same.refl _

/-- The stages of `initialize`. -/
theorem initializeAll_stages {dL acc : Bool} {u u1 : Universe F n} (hu : initializeAll dL acc u = some u1) :
    ∃ pw pt pf pg pd : Fin n → Particle F,
      Same noWind pw u.particles
      ∧ initializeEffect ((dL && u.consider.tides) || (acc && u.consider.tides)) u.hosts.mostMassiveTides
          u.hosts.all u.hosts.mostMassive u.hosts.tides tidesCopyHeliocentric tidesInertialToHeliocentric
          tidesInitialize pw = some pt
      ∧ initializeEffect ((dL && u.consider.flattening) || (acc && u.consider.flattening))
          u.hosts.mostMassiveFlattening u.hosts.all u.hosts.mostMassive u.hosts.flattening
          flatteningCopyHeliocentric flatteningInertialToHeliocentric flatteningInitialize pt = some pf
      ∧ Same noGr pg pf ∧ Same noDisk pd pg
      ∧ u1.consider = u.consider ∧ u1.grImplementation = u.grImplementation ∧ u1.hosts = u.hosts
      ∧ u1.table = u.table ∧ u1.evolvers = u.evolvers
      ∧ (∀ i, u1.particles i
          = if acc then { pd i with inertialAdditionalAcceleration := Axes.zero } else pd i) := by
  unfold initializeAll at hu
  dsimp only at hu
  split at hu
  · simp at hu
  rename_i pt ht
  split at hu
  · simp at hu
  rename_i pf hf
  split at hu
  · simp at hu
  rename_i pg hg
  split at hu
  · simp at hu
  rename_i pd hd
  injection hu with hu
  subst hu
  refine ⟨_, pt, pf, pg, pd, ?_, ht, hf,
    initializeEffect_frame grCopyHeliocentric_frame grInertialToHeliocentric_frame grInitialize_frame hg,
    initializeEffect_frame diskCopyHeliocentric_frame diskInertialToHeliocentric_frame diskInitialize_frame hd,
    rfl, rfl, rfl, rfl, rfl, fun i => ?_⟩
  · exact Same.ite (windInitialize_frame _) (Same.refl _)
  · dsimp only
    split <;> rfl

theorem initializeAll_core {dL acc : Bool} {u u1 : Universe F n} (hu : initializeAll dL acc u = some u1) :
    Same core u1.particles u.particles := by
  obtain ⟨pw, pt, pf, pg, pd, hw, ht, hf, hg, hd, -, -, -, -, -, he⟩ := initializeAll_stages hu
  have h1 : Same core pd u.particles :=
    hd.core_disk.trans (hg.core_gr.trans
      ((initializeEffect_frame flatteningCopyHeliocentric_frame flatteningInertialToHeliocentric_frame
        flatteningInitialize_frame hf).core_flattening.trans
      ((initializeEffect_frame tidesCopyHeliocentric_frame tidesInertialToHeliocentric_frame
        tidesInitialize_frame ht).core_tides.trans hw.core_wind)))
  intro i
  rw [he i, ← h1 i]
  split <;> rfl

/-- Forget what spin and evolution change. -/
def noSpin (p : Particle F) : Particle F :=
  { p with spin := Axes.zero, normSpin2 := lit 0, radius := lit 0, radiusOfGyration2 := lit 0,
           momentOfInertia := lit 0, tides := { p.tides with lagAngle := lit 0 } }

theorem calculateSpin_noSpin {p q : Particle F} (h : calculateSpin p = some q) : noSpin q = noSpin p := by
  unfold calculateSpin at h
  split at h
  · simp at h
  · injection h with h; subst h; rfl

theorem withEvolution_noSpin (p : Particle F) (e : Evolution.Part F) : noSpin (withEvolution p e) = noSpin p :=
  rfl

theorem spinAndEvolving_noSpin [FPow F] [FTrig F] {k : Consts F} {time : F} {evolve : Bool} {p q : Particle F}
    {e e' : Evolver F} (h : spinAndEvolving k time evolve p e = some (q, e')) : noSpin q = noSpin p := by
  unfold spinAndEvolving at h
  split at h
  · split at h
    · simp at h
    · split at h
      · simp at h
      · rename_i p1 h1
        split at h
        · simp at h
        · simp only [Option.some.injEq, Prod.mk.injEq] at h
          rw [← h.1, withEvolution_noSpin, calculateSpin_noSpin h1, withEvolution_noSpin]
  · split at h
    · simp at h
    · rename_i p1 h1
      simp only [Option.some.injEq, Prod.mk.injEq] at h
      rw [← h.1, calculateSpin_noSpin h1]

/-- The spin after the refresh is the angular momentum divided by the moment of inertia. -/
theorem spinAndEvolving_spin [FPow F] [FTrig F] {k : Consts F} {time : F} {evolve : Bool} {p q : Particle F}
    {e e' : Evolver F} (h : spinAndEvolving k time evolve p e = some (q, e')) :
    ∃ inertia : F, q.spin = p.angularMomentum.sdiv inertia ∧ eqb inertia (lit 0) = false
      ∧ (evolve = false → inertia = p.momentOfInertia ∧ q.momentOfInertia = p.momentOfInertia
          ∧ q.radius = p.radius)
      ∧ q.normSpin2 = q.spin.norm2 := by
  have hs : ∀ {a b : Particle F}, calculateSpin a = some b →
      b.spin = a.angularMomentum.sdiv a.momentOfInertia ∧ eqb a.momentOfInertia (lit 0) = false
        ∧ b.normSpin2 = b.spin.norm2 ∧ b.momentOfInertia = a.momentOfInertia ∧ b.radius = a.radius := by
    intro a b hab
    unfold calculateSpin at hab
    split at hab
    · simp at hab
    · rename_i hz
      injection hab with hab
      subst hab
      exact ⟨rfl, by simpa using hz, rfl, rfl, rfl⟩
  unfold spinAndEvolving at h
  split at h
  · rename_i he
    split at h
    · simp at h
    · split at h
      · simp at h
      · rename_i p1 h1
        split at h
        · simp at h
        · simp only [Option.some.injEq, Prod.mk.injEq] at h
          obtain ⟨s1, s2, s3, s4⟩ := hs h1
          refine ⟨_, ?_, s2, by simp [he], ?_⟩
          · rw [← h.1]; exact s1
          · rw [← h.1]; exact s3
  · split at h
    · simp at h
    · rename_i p1 h1
      simp only [Option.some.injEq, Prod.mk.injEq] at h
      obtain ⟨s1, s2, s3, s4⟩ := hs h1
      rw [← h.1]
      exact ⟨_, s1, s2, fun _ => ⟨rfl, s4.1, s4.2⟩, s3⟩

theorem traverse_some {α : Type} {f : Fin n → Option α} {r : Fin n → α} (h : traverse f = some r) (i : Fin n) :
    f i = some (r i) := by
  unfold traverse at h
  split at h
  · injection h with h; subst h; simp
  · simp at h

theorem calculateSpinAndEvolving_step [FPow F] [FTrig F] {k : Consts F} {time : F} {evolution : Bool}
    {u u1 : Universe F n} (h : calculateSpinAndEvolving k time evolution u = some u1) :
    (∀ i, spinAndEvolving k time (evolution && u.consider.evolution) (u.particles i) (u.evolvers i)
        = some (u1.particles i, u1.evolvers i))
      ∧ u1.consider = u.consider ∧ u1.grImplementation = u.grImplementation ∧ u1.hosts = u.hosts
      ∧ u1.table = u.table := by
  unfold calculateSpinAndEvolving at h
  split at h
  · simp at h
  · rename_i r hr
    injection h with h
    subst h
    exact ⟨fun i => traverse_some hr i, rfl, rfl, rfl, rfl⟩

/-- The stages of the effects after `initialize` and the refresh of the spins. -/
theorem effects_stages [FPow F] [FTrig F] {k : Consts F} {m : Models F} {eps2 time : F} {dL acc : Bool}
    {ignore : Ignore} {u u1 : Universe F n} (h : effects k m eps2 time dL acc ignore u = some u1) :
    ∃ pw pt pg pd : Fin n → Particle F,
      Same noWind pw u.particles
      ∧ ((u.consider.tides || u.consider.flattening) = true
          → (∃ hst, u.hosts.tides = some hst
              ∧ pt = (tidesAndFlattening k m dL acc u.consider hst pw u.table).1))
      ∧ ((u.consider.tides || u.consider.flattening) = false → pt = pw)
      ∧ Same noGr pg pt ∧ Same noDisk pd pg
      ∧ u1.consider = u.consider ∧ u1.grImplementation = u.grImplementation ∧ u1.hosts = u.hosts
      ∧ ∀ i, u1.particles i
          = (let a := if dL && (u.consider.tides || u.consider.flattening
                || (u.consider.gr && (u.grImplementation == .kidder1995)) || u.consider.wind)
              then totalDL (pd i) else pd i
            if acc then addAccelerations u.consider a else a) := by
  unfold effects at h
  dsimp only at h
  split at h
  · simp at h
  rename_i pt t1 ht
  split at h
  · simp at h
  rename_i pg hg
  split at h
  · simp at h
  rename_i pd hd
  injection h with h
  subst h
  refine ⟨if dL && u.consider.wind then fun i => windFactor k (u.particles i) else u.particles,
    pt, pg, pd, ?_, ?_, ?_, ?_, ?_, rfl, rfl, rfl, fun i => ?_⟩
  · exact Same.ite (windFactor_frame _ _) (Same.refl _)
  · intro hc
    rw [if_pos hc] at ht
    unfold withHost at ht
    split at ht
    · simp at ht
    · rename_i hst hh
      refine ⟨hst, hh, ?_⟩
      injection ht with ht
      exact (congrArg Prod.fst ht).symm
  · intro hc
    rw [hc] at ht
    simp only [Bool.false_eq_true, if_false, Option.some.injEq, Prod.mk.injEq] at ht
    exact ht.1.symm
  · split at hg
    · unfold withHost at hg
      split at hg
      · simp at hg
      · injection hg with hg
        subst hg
        exact generalRelativity_frame k eps2 ignore _ pt
    · injection hg with hg
      subst hg
      exact Same.refl _
  · split at hd
    · unfold withHost at hd
      split at hd
      · simp at hd
      · injection hd with hd
        subst hd
        exact diskAcceleration_frame k time _ pg
    · injection hd with hd
      subst hd
      exact Same.refl _
  · dsimp only
    split <;> split <;> rfl

/-! ### Panics -/

/-- A host is known for every effect that is considered. -/
structure HasHosts (u : Universe F n) : Prop where
  tides : u.consider.tides = true → u.hosts.tides.isSome
  flattening : u.consider.flattening = true → u.hosts.flattening.isSome ∧ u.hosts.tides.isSome
  gr : u.consider.gr = true → u.hosts.gr.isSome
  disk : u.consider.disk = true → u.hosts.disk.isSome

theorem withHost_some {α : Type} {h : Option (Fin n)} (hs : h.isSome) (f : Fin n → α) :
    ∃ a, withHost h f = some a := by
  obtain ⟨i, rfl⟩ := Option.isSome_iff_exists.1 hs
  exact ⟨_, rfl⟩

theorem initializeEffect_some {active isMm all : Bool} {mm : Fin n}
    {host : Option (Fin n)} {copy convert init : Fin n → (Fin n → Particle F) → (Fin n → Particle F)}
    (p : Fin n → Particle F) (hh : active = true → host.isSome) :
    ∃ q, initializeEffect active isMm all mm host copy convert init p = some q := by
  unfold initializeEffect
  split
  · rename_i ha
    split
    · exact ⟨_, rfl⟩
    · split
      · exact ⟨_, rfl⟩
      · exact withHost_some (hh ha) _
  · exact ⟨_, rfl⟩

theorem initializeAll_some {dL acc : Bool} {u : Universe F n} (hh : HasHosts u) :
    ∃ u1, initializeAll dL acc u = some u1 := by
  unfold initializeAll
  dsimp only
  obtain ⟨p1, h1⟩ := initializeEffect_some (active := (dL && u.consider.tides) || (acc && u.consider.tides))
    (isMm := u.hosts.mostMassiveTides) (all := u.hosts.all) (mm := u.hosts.mostMassive)
    (host := u.hosts.tides) (copy := tidesCopyHeliocentric) (convert := tidesInertialToHeliocentric)
    (init := tidesInitialize) (if dL && u.consider.wind then fun i => windInitialize (u.particles i) else u.particles)
    (fun ha => hh.tides (by revert ha; cases u.consider.tides <;> simp))
  rw [h1]
  dsimp only
  obtain ⟨p2, h2⟩ := initializeEffect_some
    (active := (dL && u.consider.flattening) || (acc && u.consider.flattening))
    (isMm := u.hosts.mostMassiveFlattening) (all := u.hosts.all) (mm := u.hosts.mostMassive)
    (host := u.hosts.flattening) (copy := flatteningCopyHeliocentric)
    (convert := flatteningInertialToHeliocentric) (init := flatteningInitialize) p1
    (fun ha => (hh.flattening (by revert ha; cases u.consider.flattening <;> simp)).1)
  rw [h2]
  dsimp only
  obtain ⟨p3, h3⟩ := initializeEffect_some
    (active := (dL && u.consider.gr && (u.grImplementation == .kidder1995)) || (acc && u.consider.gr))
    (isMm := u.hosts.mostMassiveGr) (all := u.hosts.all) (mm := u.hosts.mostMassive)
    (host := u.hosts.gr) (copy := grCopyHeliocentric) (convert := grInertialToHeliocentric)
    (init := grInitialize) p2
    (fun ha => hh.gr (by revert ha; cases u.consider.gr <;> simp))
  rw [h3]
  dsimp only
  obtain ⟨p4, h4⟩ := initializeEffect_some (active := acc && u.consider.disk)
    (isMm := u.hosts.mostMassiveDisk) (all := u.hosts.all) (mm := u.hosts.mostMassive)
    (host := u.hosts.disk) (copy := diskCopyHeliocentric) (convert := diskInertialToHeliocentric)
    (init := diskInitialize) p3
    (fun ha => hh.disk (by revert ha; cases u.consider.disk <;> simp))
  rw [h4]
  exact ⟨_, rfl⟩

theorem effects_some [FPow F] [FTrig F] {k : Consts F} {m : Models F} {eps2 time : F} {dL acc : Bool}
    {ignore : Ignore} {u : Universe F n} (hh : HasHosts u) :
    ∃ u1, effects k m eps2 time dL acc ignore u = some u1 := by
  unfold effects
  dsimp only
  obtain ⟨⟨p1, t1⟩, h1⟩ : ∃ r, (if u.consider.tides || u.consider.flattening then
      withHost u.hosts.tides (fun h => tidesAndFlattening k m dL acc u.consider h
        (if dL && u.consider.wind then fun i => windFactor k (u.particles i) else u.particles) u.table)
    else some ((if dL && u.consider.wind then fun i => windFactor k (u.particles i) else u.particles),
      u.table)) = some r := by
    split
    · rename_i hc
      refine withHost_some ?_ _
      by_cases ht : u.consider.tides = true
      · exact hh.tides ht
      · exact (hh.flattening (by simpa [ht] using hc)).2
    · exact ⟨_, rfl⟩
  rw [h1]
  dsimp only
  obtain ⟨p2, h2⟩ : ∃ r, (if acc && u.consider.gr then
      withHost u.hosts.gr (fun h => generalRelativity k eps2 ignore h p1) else some p1) = some r := by
    split
    · rename_i hc
      exact withHost_some (hh.gr (by revert hc; cases u.consider.gr <;> simp)) _
    · exact ⟨_, rfl⟩
  rw [h2]
  dsimp only
  obtain ⟨p3, h3⟩ : ∃ r, (if acc && u.consider.disk then
      withHost u.hosts.disk (fun h => diskAcceleration k time h p2) else some p2) = some r := by
    split
    · rename_i hc
      exact withHost_some (hh.disk (by revert hc; cases u.consider.disk <;> simp)) _
    · exact ⟨_, rfl⟩
  rw [h3]
  exact ⟨_, rfl⟩

theorem calculateSpin_none {p : Particle F} : calculateSpin p = none ↔ eqb p.momentOfInertia (lit 0) = true := by
  unfold calculateSpin
  split
  · simp_all
  · simp_all

theorem traverse_none {α : Type} {f : Fin n → Option α} : traverse f = none ↔ ∃ i, f i = none := by
  unfold traverse
  split
  · rename_i h
    simp only [reduceCtorEq, false_iff, not_exists]
    intro i hi
    have := h i
    rw [hi] at this
    simp at this
  · rename_i h
    simp only [not_forall, Option.not_isSome_iff_eq_none] at h
    simpa using h

/-- Without evolution, the evaluation of the additional effects panics exactly if a moment of inertia is
zero. -/
theorem additionalEffects_none [FPow F] [FTrig F] {k : Consts F} {m : Models F} {eps2 time : F}
    {evolution dL acc : Bool} {ignore : Ignore} {u : Universe F n} (hh : HasHosts u)
    (he : (evolution && u.consider.evolution) = false) :
    calculateAdditionalEffects k m eps2 time evolution dL acc ignore u = none
      ↔ ∃ i, eqb (u.particles i).momentOfInertia (lit 0) = true := by
  unfold calculateAdditionalEffects
  obtain ⟨u1, h1⟩ := initializeAll_some (dL := dL) (acc := acc) hh
  rw [h1]
  dsimp only
  obtain ⟨pw, pt, pf, pg, pd, -, -, -, -, -, uc, ug, uh, -, -, -⟩ := initializeAll_stages h1
  have hI : ∀ i, (u1.particles i).momentOfInertia = (u.particles i).momentOfInertia := fun i => by
    have e := congrArg Particle.momentOfInertia (initializeAll_core h1 i)
    exact e
  have e1 : calculateSpinAndEvolving k time evolution u1 = none
      ↔ ∃ i, eqb (u.particles i).momentOfInertia (lit 0) = true := by
    unfold calculateSpinAndEvolving
    rw [uc, he]
    have e2 : traverse (fun i => spinAndEvolving k time false (u1.particles i) (u1.evolvers i)) = none
        ↔ ∃ i, eqb (u.particles i).momentOfInertia (lit 0) = true := by
      rw [traverse_none]
      refine exists_congr fun i => ?_
      rw [← hI i, ← calculateSpin_none]
      unfold spinAndEvolving
      simp only [Bool.false_eq_true, if_false]
      split <;> simp_all
    rw [← e2]
    split <;> simp_all
  rw [← e1]
  split
  · simp_all
  · rename_i u2 h2
    obtain ⟨-, c1, c2, c3, -⟩ := calculateSpinAndEvolving_step h2
    have hh2 : HasHosts u2 := by
      constructor
      · rw [c1, c3, uc, uh]; exact hh.tides
      · rw [c1, c3, uc, uh]; exact hh.flattening
      · rw [c1, c3, uc, uh]; exact hh.gr
      · rw [c1, c3, uc, uh]; exact hh.disk
    obtain ⟨u3, h3⟩ := effects_some (k := k) (m := m) (eps2 := eps2) (time := time) (dL := dL) (acc := acc)
      (ignore := ignore) hh2
    rw [h3, h2]
    simp

end
end Posidonius.Univ
