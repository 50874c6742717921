import Verif.Lemmas.Tides
import Verif.Lemmas.Universe
import Verif.Model.RealTrig

/-! The tidal balance of angular momentum for a whole evaluation of the additional effects. -/

namespace Posidonius.Univ
open Finset
open Gravity (Ignore)

variable {n : Nat}

/-- What `find_indices` (universe.rs 900-1006) establishes about the flags of the hosts. -/
structure HostsOk {F : Type} (u : Universe F n) : Prop where
  tides : u.consider.tides = true → (u.hosts.mostMassiveTides = true ↔ u.hosts.tides = some u.hosts.mostMassive)
  flattening : u.consider.flattening = true →
    (u.hosts.mostMassiveFlattening = true ↔ u.hosts.flattening = some u.hosts.mostMassive)
  same : u.consider.flattening = true → u.hosts.tides = u.hosts.flattening
  allTides : u.hosts.all = true → u.consider.tides = true → u.hosts.mostMassiveTides = true
  allFlattening : u.hosts.all = true → u.consider.flattening = true → u.hosts.mostMassiveFlattening = true

/-- The heliocentric coordinates are those of the inertial ones. -/
def Helio (mm : Fin n) (p : Fin n → Particle ℝ) : Prop :=
  ∀ i, i ≠ mm → (p i).heliocentricPosition = (p i).inertialPosition - (p mm).inertialPosition
    ∧ (p i).heliocentricVelocity = (p i).inertialVelocity - (p mm).inertialVelocity
    ∧ (p i).heliocentricDistance = Real.sqrt (p i).heliocentricPosition.norm2
    ∧ (p i).heliocentricRadialVelocity
        = (p i).heliocentricPosition.dot (p i).heliocentricVelocity / (p i).heliocentricDistance

theorem inertialToHeliocentric_helio (u : Universe ℝ n) :
    Helio u.hosts.mostMassive (inertialToHeliocentric u).particles := by
  intro i hi
  unfold inertialToHeliocentric
  dsimp only
  rw [mapHost_other hi, mapHost_host, mapOthers_other hi, mapOthers_host]
  exact ⟨rfl, rfl, rfl, rfl⟩

/-- The tidal geometry of a companion: host centred coordinates and products with given spins. -/
structure TidalGeometry (r v wh wi : Axes ℝ) (t : Tides ℝ) : Prop where
  position : t.position = r
  velocity : t.velocity = v
  distance : t.distance = Real.sqrt r.norm2
  radialVelocity : t.radialVelocity = r.dot v / Real.sqrt r.norm2
  stellar : t.rDotStellarSpin = r.dot wh
  planetary : t.rDotPlanetarySpin = r.dot wi

theorem tidesInitialize_geometry {h i : Fin n} (hi : i ≠ h) (p : Fin n → Particle ℝ)
    (hc : (p h).tides.effect.isCentral = true) (ho : (p i).tides.effect.isOrbiting = true)
    (hs : Helio h p) :
    TidalGeometry ((p i).inertialPosition - (p h).inertialPosition)
      ((p i).inertialVelocity - (p h).inertialVelocity) (p h).spin (p i).spin
      (tidesInitialize h (tidesCopyHeliocentric h p) i).tides := by
  obtain ⟨h1, h2, h3, h4⟩ := hs i hi
  have e0 : (tidesCopyHeliocentric h p h) = { p h with tides := { (p h).tides with
      position := (p h).heliocentricPosition, velocity := (p h).heliocentricVelocity,
      distance := (p h).heliocentricDistance, radialVelocity := (p h).heliocentricRadialVelocity } } := by
    simp [tidesCopyHeliocentric, hc]
  have e1 : (tidesCopyHeliocentric h p i) = { p i with tides := { (p i).tides with
      position := (p i).heliocentricPosition, velocity := (p i).heliocentricVelocity,
      distance := (p i).heliocentricDistance, radialVelocity := (p i).heliocentricRadialVelocity } } := by
    simp [tidesCopyHeliocentric, hc, mapOthers_other hi, mapHost_other hi, ho]
  have hc' : (tidesCopyHeliocentric h p h).tides.effect.isCentral = true := by rw [e0]; exact hc
  unfold tidesInitialize
  rw [if_pos hc', mapOthers_other hi, mapHost_host, mapHost_other hi, e0, e1]
  dsimp only
  rw [if_pos ho]
  constructor
  · exact h1
  · exact h2
  · rw [← h1]; exact h3
  · dsimp only; rw [h4, h3, h1, h2]
  · dsimp only; rw [h1]
  · dsimp only; rw [h1]

theorem tidesConvert_geometry {h i : Fin n} (hi : i ≠ h) (p : Fin n → Particle ℝ)
    (hc : (p h).tides.effect.isCentral = true) (ho : (p i).tides.effect.isOrbiting = true) :
    TidalGeometry ((p i).inertialPosition - (p h).inertialPosition)
      ((p i).inertialVelocity - (p h).inertialVelocity) (p h).spin (p i).spin
      (tidesInitialize h (tidesInertialToHeliocentric h p) i).tides := by
  have e0 : (tidesInertialToHeliocentric h p h) = { p h with tides := { (p h).tides with
      position := Axes.zero, velocity := Axes.zero, distance := lit 0, radialVelocity := lit 0 } } := by
    simp [tidesInertialToHeliocentric, hc]
  have e1 : ∃ t, tidesInertialToHeliocentric h p i = { p i with tides := t }
      ∧ t.effect = (p i).tides.effect
      ∧ t.position = (p i).inertialPosition - (p h).inertialPosition
      ∧ t.velocity = (p i).inertialVelocity - (p h).inertialVelocity
      ∧ t.distance = Real.sqrt ((p i).inertialPosition - (p h).inertialPosition).norm2
      ∧ t.radialVelocity = ((p i).inertialPosition - (p h).inertialPosition).dot
          ((p i).inertialVelocity - (p h).inertialVelocity)
          / Real.sqrt ((p i).inertialPosition - (p h).inertialPosition).norm2 := by
    unfold tidesInertialToHeliocentric
    rw [if_pos hc, mapOthers_other hi, mapHost_host, mapHost_other hi]
    dsimp only
    rw [if_pos ho]
    exact ⟨_, rfl, rfl, rfl, rfl, rfl, rfl⟩
  obtain ⟨t, e1, t0, t1, t2, t3, t4⟩ := e1
  have hc' : (tidesInertialToHeliocentric h p h).tides.effect.isCentral = true := by rw [e0]; exact hc
  unfold tidesInitialize
  rw [if_pos hc', mapOthers_other hi, mapHost_host, mapHost_other hi, e0, e1]
  dsimp only
  rw [t0, if_pos ho]
  exact ⟨t1, t2, t3, t4, by dsimp only; rw [t1], by dsimp only; rw [t1]⟩

/-- The parameters chosen by the user. -/
def Tides.chosen (t : Tides ℝ) : TidesEffect ℝ × ℝ := (t.effect, t.scaledDissipationFactor)

/-- The effects chosen for the bodies do not change. -/
theorem tidesInit_effect (f : Fin n → (Fin n → Particle ℝ) → (Fin n → Particle ℝ)) (h : Fin n)
    (p : Fin n → Particle ℝ) (hf : ∀ i, (f h p i).tides.chosen = (p i).tides.chosen) (i : Fin n) :
    (tidesInitialize h (f h p) i).tides.chosen = (p i).tides.chosen := by
  unfold tidesInitialize
  split
  · by_cases hi : i = h
    · subst hi; rw [mapOthers_host, mapHost_host]; exact hf i
    · rw [mapOthers_other hi, mapHost_other hi]
      dsimp only
      split <;> exact hf i
  · exact hf i

theorem tidesCopy_effect (h : Fin n) (p : Fin n → Particle ℝ) (i : Fin n) :
    (tidesCopyHeliocentric h p i).tides.chosen = (p i).tides.chosen := by
  unfold tidesCopyHeliocentric
  dsimp only
  split
  · by_cases hi : i = h
    · subst hi; rw [mapOthers_host, mapHost_host]; rfl
    · rw [mapOthers_other hi, mapHost_other hi]
      split <;> rfl
  · rfl

theorem tidesConvert_effect (h : Fin n) (p : Fin n → Particle ℝ) (i : Fin n) :
    (tidesInertialToHeliocentric h p i).tides.chosen = (p i).tides.chosen := by
  unfold tidesInertialToHeliocentric
  split
  · by_cases hi : i = h
    · subst hi; rw [mapOthers_host, mapHost_host]; rfl
    · rw [mapOthers_other hi, mapHost_other hi]
      dsimp only
      split <;> rfl
  · rfl

/-- The state of the tides after `initialize` and the refresh of the spins. -/
theorem prepared {k : Consts ℝ} {time : ℝ} {evolution dL acc : Bool} {u0 u1 u2 : Universe ℝ n} {h : Fin n}
    (hok : HostsOk u0) (hh : u0.hosts.tides = some h) (ct : u0.consider.tides = true)
    (hda : (dL || acc) = true)
    (h1 : initializeAll dL acc (inertialToHeliocentric u0) = some u1)
    (h2 : calculateSpinAndEvolving k time evolution u1 = some u2) :
    (∀ i, (u2.particles i).mass = (u0.particles i).mass
        ∧ (u2.particles i).inertialPosition = (u0.particles i).inertialPosition
        ∧ (u2.particles i).inertialVelocity = (u0.particles i).inertialVelocity
        ∧ (u2.particles i).angularMomentum = (u0.particles i).angularMomentum
        ∧ (u2.particles i).tides.effect = (u0.particles i).tides.effect
        ∧ (u2.particles i).id = (u0.particles i).id
        ∧ (u2.particles i).evolution = (u0.particles i).evolution
        ∧ (u2.particles i).tides.scaledDissipationFactor = (u0.particles i).tides.scaledDissipationFactor)
      ∧ u2.consider = u0.consider ∧ u2.hosts = u0.hosts
      ∧ ((u0.particles h).tides.effect.isCentral = true → ∀ i, i ≠ h →
          (u0.particles i).tides.effect.isOrbiting = true →
          TidalGeometry ((u0.particles i).inertialPosition - (u0.particles h).inertialPosition)
            ((u0.particles i).inertialVelocity - (u0.particles h).inertialVelocity)
            (u0.particles h).spin (u0.particles i).spin (u2.particles i).tides)
      ∧ (∀ i, ∃ inertia : ℝ, (u2.particles i).spin = (u0.particles i).angularMomentum.sdiv inertia
          ∧ inertia ≠ 0
          ∧ ((evolution && u0.consider.evolution) = false → inertia = (u0.particles i).momentOfInertia
            ∧ (u2.particles i).radius = (u0.particles i).radius)) := by
  set u := inertialToHeliocentric u0 with hu
  have hup : ∀ i, (u.particles i).mass = (u0.particles i).mass
      ∧ (u.particles i).inertialPosition = (u0.particles i).inertialPosition
      ∧ (u.particles i).inertialVelocity = (u0.particles i).inertialVelocity
      ∧ (u.particles i).angularMomentum = (u0.particles i).angularMomentum
      ∧ (u.particles i).tides = (u0.particles i).tides
      ∧ (u.particles i).spin = (u0.particles i).spin
      ∧ (u.particles i).momentOfInertia = (u0.particles i).momentOfInertia
      ∧ (u.particles i).id = (u0.particles i).id
      ∧ (u.particles i).evolution = (u0.particles i).evolution
      ∧ (u.particles i).radius = (u0.particles i).radius := by
    intro i
    rw [hu]
    unfold inertialToHeliocentric
    dsimp only
    by_cases hi : i = u0.hosts.mostMassive
    · subst hi
      rw [mapHost_host, mapOthers_host]
      exact ⟨rfl, rfl, rfl, rfl, rfl, rfl, rfl, rfl, rfl, rfl⟩
    · rw [mapHost_other hi, mapOthers_other hi]
      exact ⟨rfl, rfl, rfl, rfl, rfl, rfl, rfl, rfl, rfl, rfl⟩
  have hcore := initializeAll_core h1
  obtain ⟨pw, pt, pf, pg, pd, hw, ht, hf, hg, hd, uc, -, uh, -, -, he⟩ := initializeAll_stages h1
  obtain ⟨hsp, uc2, -, uh2, -⟩ := calculateSpinAndEvolving_step h2
  have hcons : u.consider = u0.consider := rfl
  have hhost : u.hosts = u0.hosts := rfl
  have htd : ∀ i, (u1.particles i).tides = (pt i).tides := by
    intro i
    have e : (pd i).tides = (pt i).tides := by
      rw [hd.tides_of_disk, hg.tides_of_gr,
        (initializeEffect_frame flatteningCopyHeliocentric_frame flatteningInertialToHeliocentric_frame
        flatteningInitialize_frame hf).tides_of_flattening]
    rw [he i, ← e]
    split <;> rfl
  have hact : ((dL && u.consider.tides) || (acc && u.consider.tides)) = true := by
    rw [hcons, ct]; simpa using hda
  unfold initializeEffect at ht
  rw [if_pos hact, hhost] at ht
  have hw' : ∀ i, (pw i).tides = (u0.particles i).tides := fun i => by
    rw [hw.tides_of_wind, (hup i).2.2.2.2.1]
  have key : (∀ i, (pt i).tides.chosen = (pw i).tides.chosen) ∧
      ((pw h).tides.effect.isCentral = true → ∀ i, i ≠ h → (pw i).tides.effect.isOrbiting = true →
        TidalGeometry ((pw i).inertialPosition - (pw h).inertialPosition)
          ((pw i).inertialVelocity - (pw h).inertialVelocity) (pw h).spin (pw i).spin (pt i).tides) := by
    split at ht
    · rename_i hm
      have hmm := (hok.tides ct).1 hm
      rw [hh] at hmm
      injection hmm with hmm
      injection ht with ht
      subst ht
      rw [← hmm]
      refine ⟨tidesInit_effect _ _ _ (tidesCopy_effect h pw), fun hc i hi ho => ?_⟩
      refine tidesInitialize_geometry hi pw hc ho ?_
      have hel := inertialToHeliocentric_helio u0
      rw [← hmm, ← hu] at hel
      intro j hj
      obtain ⟨a, b, c, d⟩ := hel j hj
      have w1 := congrArg Particle.inertialPosition (hw j)
      have w2 := congrArg Particle.inertialPosition (hw h)
      have w3 := congrArg Particle.inertialVelocity (hw j)
      have w4 := congrArg Particle.inertialVelocity (hw h)
      have w5 := congrArg Particle.heliocentricPosition (hw j)
      have w6 := congrArg Particle.heliocentricVelocity (hw j)
      have w7 := congrArg Particle.heliocentricDistance (hw j)
      have w8 := congrArg Particle.heliocentricRadialVelocity (hw j)
      simp only [noWind] at w1 w2 w3 w4 w5 w6 w7 w8
      rw [w1, w2, w3, w4, w5, w6, w7, w8]
      exact ⟨a, b, c, d⟩
    · rename_i hm
      split at ht
      · rename_i hall
        exact absurd (hok.allTides hall ct) hm
      · rw [hh] at ht
        simp only [withHost, Option.some.injEq] at ht
        subst ht
        exact ⟨tidesInit_effect _ _ _ (tidesConvert_effect h pw),
          fun hc i hi ho => tidesConvert_geometry hi pw hc ho⟩
  have cr : ∀ {A : Type} (f : Particle ℝ → A), (∀ q, f q = f (core q)) →
      ∀ i, f (u1.particles i) = f (u.particles i) := by
    intro A f hf' i
    rw [hf', hcore i, ← hf']
  have sp : ∀ {A : Type} (f : Particle ℝ → A), (∀ q, f q = f (noSpin q)) →
      ∀ i, f (u2.particles i) = f (u1.particles i) := by
    intro A f hf' i
    rw [hf', spinAndEvolving_noSpin (hsp i), ← hf']
  refine ⟨fun i => ?_, uc2.trans uc, uh2.trans uh, ?_, fun i => ?_⟩
  · obtain ⟨a1, a2, a3, a4, a5, -, -, a6, a7, -⟩ := hup i
    have ch : (u2.particles i).tides.chosen = (u0.particles i).tides.chosen := by
      rw [sp (fun q => q.tides.chosen) (fun _ => rfl), htd, key.1, hw']
    refine ⟨?_, ?_, ?_, ?_, congrArg Prod.fst ch, ?_, ?_, congrArg Prod.snd ch⟩
    · rw [sp Particle.mass (fun _ => rfl), cr Particle.mass (fun _ => rfl), a1]
    · rw [sp Particle.inertialPosition (fun _ => rfl), cr Particle.inertialPosition (fun _ => rfl), a2]
    · rw [sp Particle.inertialVelocity (fun _ => rfl), cr Particle.inertialVelocity (fun _ => rfl), a3]
    · rw [sp Particle.angularMomentum (fun _ => rfl), cr Particle.angularMomentum (fun _ => rfl), a4]
    · rw [sp Particle.id (fun _ => rfl), cr Particle.id (fun _ => rfl), a6]
    · rw [sp Particle.evolution (fun _ => rfl), cr Particle.evolution (fun _ => rfl), a7]
  · intro hc i hi ho
    have g := key.2 (by rw [hw']; exact hc) i hi (by rw [hw']; exact ho)
    have wv : ∀ {A : Type} (f : Particle ℝ → A), (∀ q, f q = f (noWind q)) →
        ∀ i, f (pw i) = f (u.particles i) := by
      intro A f hf' i
      rw [hf', hw i, ← hf']
    rw [wv Particle.inertialPosition (fun _ => rfl), wv Particle.inertialPosition (fun _ => rfl),
      wv Particle.inertialVelocity (fun _ => rfl), wv Particle.inertialVelocity (fun _ => rfl),
      wv Particle.spin (fun _ => rfl), wv Particle.spin (fun _ => rfl),
      (hup i).2.1, (hup h).2.1, (hup i).2.2.1, (hup h).2.2.1, (hup i).2.2.2.2.2.1, (hup h).2.2.2.2.2.1,
      ← htd i] at g
    obtain ⟨g1, g2, g3, g4, g5, g6⟩ := g
    exact ⟨by rw [sp (fun q => q.tides.position) (fun _ => rfl), g1],
      by rw [sp (fun q => q.tides.velocity) (fun _ => rfl), g2],
      by rw [sp (fun q => q.tides.distance) (fun _ => rfl), g3],
      by rw [sp (fun q => q.tides.radialVelocity) (fun _ => rfl), g4],
      by rw [sp (fun q => q.tides.rDotStellarSpin) (fun _ => rfl), g5],
      by rw [sp (fun q => q.tides.rDotPlanetarySpin) (fun _ => rfl), g6]⟩
  · obtain ⟨inertia, s1, s2, s3, s4⟩ := spinAndEvolving_spin (hsp i)
    refine ⟨inertia, ?_, ?_, fun hev => ?_⟩
    · rw [s1, cr Particle.angularMomentum (fun _ => rfl), (hup i).2.2.2.1]
    · simpa using s2
    · rw [uc] at s3
      rw [(s3 hev).1, (s3 hev).2.2, cr Particle.momentOfInertia (fun _ => rfl), (hup i).2.2.2.2.2.2.1,
        cr Particle.radius (fun _ => rfl), (hup i).2.2.2.2.2.2.2.2.2]
      exact ⟨rfl, rfl⟩

/-- The balance through `tidesAndFlattening`. -/
theorem tidesAndFlattening_balance (k : Consts ℝ) (m : Models ℝ) (c : Consider) (ct : c.tides = true)
    (h : Fin n) (p : Fin n → Particle ℝ) (t : Table ℝ) (x : Fin n → Axes ℝ) (hc : AllCtl h p)
    (hm : ∀ i, (p i).mass ≠ 0)
    (hx : ∀ i, i ≠ h → (p i).tides.position = x i - x h)
    (hd : ∀ i, i ≠ h → (p i).tides.distance ≠ 0)
    (hr : ∀ i, i ≠ h → (p i).tides.distance ^ 2 = (p i).tides.position.norm2) :
    let q := (tidesAndFlattening k m true true c h p t).1
    ∑ i, ((p i).mass • (x i).cross (q i).tides.acceleration + (q i).tides.dAngularMomentumDt)
        = ∑ i ∈ univ.erase h, pairDefect (q h) (q i)
      ∧ Same core q p ∧ (∀ i, (geo (q i)).tides = (geo (p i)).tides)
      ∧ ∑ i, (p i).mass • (q i).tides.acceleration = 0
      ∧ ∀ i, i ≠ h → Amplitudes k (pairFactors k h p t) (p h) (p i) (q i).tides
        ∧ (q i).tides.radialDissipativePlanet
          = -27 / 2 * (p i).tides.radialVelocity / (p i).tides.distance ^ 8
            * ((p h).mass ^ 2 * (p i).radius ^ 10 * particleSigma (pairFactors k h p t) (p h) (p i))
        ∧ (q i).tides.dAngularMomentumDt = -ctlTorque (q h) (q i) false := by
  intro q
  set t1 := pairFactors k h p t with ht1
  set p1 := tidesShapes m h (orthogonalComponent t1 h p) with hp1
  set p2 := (if c.flattening then flatteningShapes m h (flatteningOrthogonal h p1) else p1) with hp2
  set pr := radialComponent k t1 h p2 with hpr
  set p3 := tidalAcceleration m.tides h pr with hp3
  set p4 := (if c.flattening then flatteningAcceleration m.flattening h (flatteningRadial h p3) else p3) with hp4
  set p5 := tidalDL m.tides h p4 with hp5
  have hq : q = (if c.flattening then flatteningDL m.flattening h p5 else p5) := by
    simp only [q, tidesAndFlattening, ct, Bool.true_or, Bool.or_true, Bool.true_and, if_true]
    rfl
  have f2 : Same noFlattening p2 p1 :=
    Same.ite ((flatteningShapes_frame m h _).trans (flatteningOrthogonal_frame h p1)) (Same.refl _)
  have f4 : Same noFlattening p4 p3 :=
    Same.ite ((flatteningAcceleration_frame _ h _).trans (flatteningRadial_frame h p3)) (Same.refl _)
  have f6 : Same noFlattening q p5 := by
    rw [hq]; exact Same.ite (flatteningDL_frame _ h p5) (Same.refl _)
  have g1 : Same geo p1 p := (tidesShapes_geo m h _).trans (orthogonalComponent_geo t1 h p)
  have gr : Same geo pr p2 := radialComponent_geo k t1 h p2
  have g3 : Same geo p3 pr := tidalAcceleration_geo m.tides h pr
  have g5 : Same geo p5 p4 := tidalDL_geo m.tides h p4
  have c1 : Same core p1 p :=
    ((tidesShapes_frame m h _).trans (orthogonalComponent_frame t1 h p)).core_tides
  have cr : Same core pr p :=
    ((radialComponent_frame k t1 h p2).core_tides.trans f2.core_flattening).trans c1
  have c4 : Same core p4 pr := f4.core_flattening.trans (tidalAcceleration_frame m.tides h pr).core_tides
  have c6 : Same core q p :=
    (f6.core_flattening.trans (tidalDL_frame m.tides h p4).core_tides).trans (c4.trans cr)
  have gt : ∀ i, (geo (pr i)).tides = (geo (p i)).tides := by
    intro i
    rw [gr i]
    have e : (geo (p2 i)).tides = (geo (p1 i)).tides := by
      simp only [geo, f2.tides_of_flattening i]
    rw [e, g1 i]
  have gq : ∀ i, (geo (q i)).tides = (geo (p i)).tides := by
    intro i
    have e6 : (geo (q i)).tides = (geo (p5 i)).tides := by simp only [geo, f6.tides_of_flattening i]
    have e4 : (geo (p4 i)).tides = (geo (p3 i)).tides := by simp only [geo, f4.tides_of_flattening i]
    rw [e6, g5 i, e4, g3 i, gt i]
  have gf : ∀ {A : Type} (f : Tides ℝ → A), (∀ q : Particle ℝ, f q.tides = f (geo q).tides) →
      ∀ i, f (pr i).tides = f (p i).tides := by
    intro A f hf i
    rw [hf, gt i, ← hf]
  have cf : ∀ {A : Type} (f : Particle ℝ → A), (∀ q, f q = f (core q)) →
      ∀ i, f (pr i) = f (p i) := by
    intro A f hf i
    rw [hf, cr i, ← hf]
  have hcr : AllCtl h pr := hc.congr (gf (fun t => t.effect) (fun _ => rfl))
  have hmr : ∀ i, (pr i).mass = (p i).mass := cf Particle.mass (fun _ => rfl)
  have hs4 : ∀ i, (p4 i).spin = (pr i).spin := fun i => by
    have e : ∀ q : Particle ℝ, q.spin = (core q).spin := fun _ => rfl
    rw [e, c4 i, ← e]
  have key := ctl_balance m.tides h pr p4 x hcr (fun i => by rw [hmr]; exact hm i)
    (fun i => f4.tides_of_flattening i) hs4
    (fun i hi => by rw [gf (fun t => t.position) (fun _ => rfl), hx i hi])
    (fun i hi => by rw [gf (fun t => t.distance) (fun _ => rfl)]; exact hd i hi)
    (fun i hi => by
      rw [gf (fun t => t.distance) (fun _ => rfl), gf (fun t => t.position) (fun _ => rfl)]
      exact hr i hi)
  have e6 : ∀ i, (q i).tides = (p5 i).tides := f6.tides_of_flattening
  have o : ∀ i, (q i).tides.orthogonalStellar = (pr i).tides.orthogonalStellar
      ∧ (q i).tides.orthogonalPlanetary = (pr i).tides.orthogonalPlanetary
      ∧ (q i).tides.radialDissipativePlanet = (pr i).tides.radialDissipativePlanet
      ∧ (q i).tides.acceleration = (p3 i).tides.acceleration := by
    intro i
    have a1 := dl_tides m.tides i (p := p4) (h := h)
    have a2 := ctl_acceleration_tides m.tides hcr i
    have b1 := congrArg Tides.orthogonalStellar a1
    have b2 := congrArg Tides.orthogonalStellar a2
    have b3 := congrArg Tides.orthogonalPlanetary a1
    have b4 := congrArg Tides.orthogonalPlanetary a2
    have b5 := congrArg Tides.radialDissipativePlanet a1
    have b6 := congrArg Tides.radialDissipativePlanet a2
    have b7 := congrArg Tides.acceleration a1
    rw [f4.tides_of_flattening i] at b1 b3 b5 b7
    dsimp only at b1 b2 b3 b4 b5 b6 b7
    rw [e6]
    exact ⟨b1.trans b2, b3.trans b4, b5.trans b6, b7⟩
  have gqr : ∀ {A : Type} (f : Tides ℝ → A), (∀ q : Particle ℝ, f q.tides = f (geo q).tides) →
      ∀ i, f (q i).tides = f (pr i).tides := by
    intro A f hf i
    rw [hf, gq i, ← gt i, ← hf]
  have cq : ∀ i, (q i).spin = (pr i).spin := fun i => by
    have e : ∀ q : Particle ℝ, q.spin = (core q).spin := fun _ => rfl
    rw [e, c6 i, ← cr i, ← e]
  have pd : ∀ i, pairDefect (q h) (q i) = pairDefect (pr h) (pr i) := by
    intro i
    unfold pairDefect
    rw [(o i).1, (o i).2.1, cq, cq, gqr (fun t => t.position) (fun _ => rfl),
      gqr (fun t => t.distance) (fun _ => rfl), gqr (fun t => t.rDotStellarSpin) (fun _ => rfl),
      gqr (fun t => t.rDotPlanetarySpin) (fun _ => rfl)]
  refine ⟨?_, c6, gq, ?_, fun i hi => ?_⟩
  · simp only [pd, e6]
    rw [← key]
    simp only [hmr]
    rfl
  · obtain ⟨a1, a2⟩ := ctl_acceleration m.tides hcr (fun i => by rw [hmr]; exact hm i)
    have := momentum_of_recoil h (fun i => (pr i).mass) (fun i => (p3 i).tides.acceleration) _
      (fun i => by rw [hmr]; exact hm i) a1 a2
    simp only [hmr] at this
    rw [← this]
    exact sum_congr rfl fun i _ => by rw [(o i).2.2.2]
  · have hc2 : AllCtl h p2 := hc.congr fun i => by
      rw [f2.tides_of_flattening i]
      have e := congrArg (fun q : Particle ℝ => q.tides.effect) (g1 i)
      exact e
    obtain ⟨r1, r2, r3⟩ := ctl_radial k t1 hi hc2
    obtain ⟨s1, s2⟩ := ctl_orthogonal k t1 hi hc
    have sh : ∀ i, (tidesShapes m h (orthogonalComponent t1 h p) i).tides.orthogonalStellar
          = (orthogonalComponent t1 h p i).tides.orthogonalStellar
        ∧ (tidesShapes m h (orthogonalComponent t1 h p) i).tides.orthogonalPlanetary
          = (orthogonalComponent t1 h p i).tides.orthogonalPlanetary := by
      intro i
      unfold tidesShapes mapOthers
      dsimp only
      split
      · exact ⟨rfl, rfl⟩
      · split <;> exact ⟨rfl, rfl⟩
    have c2 : Same core p2 p := f2.core_flattening.trans c1
    have cf2 : ∀ {A : Type} (f : Particle ℝ → A), (∀ q, f q = f (core q)) →
        ∀ i, f (p2 i) = f (p i) := by
      intro A f hf i
      rw [hf, c2 i, ← hf]
    have gt2 : ∀ i, (geo (p2 i)).tides = (geo (p i)).tides := by
      intro i
      have e : (geo (p2 i)).tides = (geo (p1 i)).tides := by
        simp only [geo, f2.tides_of_flattening i]
      rw [e, g1 i]
    have gf2 : ∀ {A : Type} (f : Tides ℝ → A), (∀ q : Particle ℝ, f q.tides = f (geo q).tides) →
        ∀ i, f (p2 i).tides = f (p i).tides := by
      intro A f hf i
      rw [hf, gt2 i, ← hf]
    refine ⟨⟨?_, ?_⟩, ?_, ?_⟩
    · rw [(o i).1, ← s1, ← (sh i).1]
      refine r1.trans ?_
      rw [f2.tides_of_flattening i]
    · rw [(o i).2.1, ← s2, ← (sh i).2]
      refine r2.trans ?_
      rw [f2.tides_of_flattening i]
    · rw [(o i).2.2.1]
      refine r3.trans ?_
      have ps : particleSigma t1 (p2 h) (p2 i) = particleSigma t1 (p h) (p i) := by
        unfold particleSigma
        rw [cf2 Particle.id (fun _ => rfl), cf2 Particle.id (fun _ => rfl),
          cf2 Particle.evolution (fun _ => rfl), gf2 (fun t => t.scaledDissipationFactor) (fun _ => rfl)]
      rw [ps, cf2 Particle.mass (fun _ => rfl), cf2 Particle.radius (fun _ => rfl),
        gf2 (fun t => t.radialVelocity) (fun _ => rfl), gf2 (fun t => t.distance) (fun _ => rfl)]
    · have hc4 : AllCtl h p4 := hcr.congr fun i => by
        rw [f4.tides_of_flattening i]
        have e := congrArg (fun q : Particle ℝ => q.tides.effect) (g3 i)
        exact e
      have d1 := (ctl_dl m.tides hc4).1 i hi
      rw [e6]
      refine d1.trans ?_
      have b1 := congrArg Tides.orthogonalPlanetary (dl_tides m.tides i (p := p4) (h := h))
      dsimp only at b1
      have gq4 : ∀ {A : Type} (f : Tides ℝ → A), (∀ q : Particle ℝ, f q.tides = f (geo q).tides) →
          ∀ i, f (q i).tides = f (p4 i).tides := by
        intro A f hf i
        rw [e6, hf, g5 i, ← hf]
      unfold ctlTorque
      simp only [Bool.false_eq_true, if_false]
      rw [cq, ← hs4, gq4 (fun t => t.position) (fun _ => rfl), gq4 (fun t => t.velocity) (fun _ => rfl),
        gq4 (fun t => t.distance) (fun _ => rfl), gq4 (fun t => t.rDotPlanetarySpin) (fun _ => rfl), e6 i, b1]

/-- Everything about the tides of an evaluation of the additional effects. -/
theorem effects_balance {k : Consts ℝ} {m : Models ℝ} {eps2 time : ℝ} {evolution : Bool} {ignore : Ignore}
    {u0 u' : Universe ℝ n} {h : Fin n}
    (hok : HostsOk u0) (hh : u0.hosts.tides = some h) (ct : u0.consider.tides = true)
    (hc : AllCtl h u0.particles) (hm : ∀ i, (u0.particles i).mass ≠ 0)
    (hsep : ∀ i, i ≠ h → (u0.particles i).inertialPosition ≠ (u0.particles h).inertialPosition)
    (hu : calculateAdditionalEffects k m eps2 time evolution true true ignore (inertialToHeliocentric u0)
      = some u') :
    ∑ i, ((u0.particles i).mass • (u0.particles i).inertialPosition.cross (u'.particles i).tides.acceleration
          + (u'.particles i).tides.dAngularMomentumDt)
        = ∑ i ∈ univ.erase h, pairDefect (u'.particles h) (u'.particles i)
      ∧ (∀ i, i ≠ h →
          TidalGeometry ((u0.particles i).inertialPosition - (u0.particles h).inertialPosition)
            ((u0.particles i).inertialVelocity - (u0.particles h).inertialVelocity)
            (u0.particles h).spin (u0.particles i).spin (u'.particles i).tides)
      ∧ (∀ i, ∃ inertia : ℝ, (u'.particles i).spin = (u0.particles i).angularMomentum.sdiv inertia
          ∧ inertia ≠ 0
          ∧ ((evolution && u0.consider.evolution) = false → inertia = (u0.particles i).momentOfInertia
            ∧ (u'.particles i).radius = (u0.particles i).radius))
      ∧ ∑ i, (u0.particles i).mass • (u'.particles i).tides.acceleration = 0
      ∧ (∀ i, i ≠ h → ∃ sh sp : ℝ, (∃ t : Table ℝ, sh = hostSigma t (u0.particles h) (u0.particles i)
            ∧ sp = particleSigma t (u0.particles h) (u0.particles i))
          ∧ (u'.particles i).tides.orthogonalStellar = 9 / 2 * (u0.particles i).mass ^ 2
              * (u'.particles h).radius ^ 10 * sh / (u'.particles i).tides.distance ^ 7
          ∧ (u'.particles i).tides.orthogonalPlanetary = 9 / 2 * (u0.particles h).mass ^ 2
              * (u'.particles i).radius ^ 10 * sp / (u'.particles i).tides.distance ^ 7
          ∧ (u'.particles i).tides.radialDissipativePlanet
            = -27 / 2 * (u'.particles i).tides.radialVelocity / (u'.particles i).tides.distance ^ 8
              * ((u0.particles h).mass ^ 2 * (u'.particles i).radius ^ 10 * sp)
          ∧ (u'.particles i).tides.dAngularMomentumDt = -ctlTorque (u'.particles h) (u'.particles i) false) := by
  unfold calculateAdditionalEffects at hu
  split at hu
  · simp at hu
  rename_i u1 h1
  split at hu
  · simp at hu
  rename_i u2 h2
  obtain ⟨a, b, c, d, e⟩ := prepared hok hh ct rfl h1 h2
  obtain ⟨pw, pt, pg, pd, hw, ht, -, hg, hd, -, -, -, he⟩ := effects_stages hu
  obtain ⟨h', hh', ht⟩ := ht (by rw [b, ct]; rfl)
  rw [c, hh] at hh'
  injection hh' with hh'
  subst hh'
  have wc : ∀ {A : Type} (f : Particle ℝ → A), (∀ q, f q = f (noWind q)) →
      ∀ i, f (pw i) = f (u2.particles i) := by
    intro A f hf i
    rw [hf, hw i, ← hf]
  have hcw : AllCtl h pw := hc.congr fun i => by
    rw [hw.tides_of_wind, (a i).2.2.2.2.1]
  have geom : ∀ i, i ≠ h → TidalGeometry ((u0.particles i).inertialPosition - (u0.particles h).inertialPosition)
      ((u0.particles i).inertialVelocity - (u0.particles h).inertialVelocity)
      (u0.particles h).spin (u0.particles i).spin (pw i).tides := by
    intro i hi
    rw [hw.tides_of_wind]
    obtain ⟨_, _, _, e1⟩ := hc.1
    obtain ⟨_, _, _, e2⟩ := hc.2 i hi
    exact d (by rw [e1]; rfl) i hi (by rw [e2]; rfl)
  have npos : ∀ i, i ≠ h →
      0 < ((u0.particles i).inertialPosition - (u0.particles h).inertialPosition).norm2 := by
    intro i hi
    refine lt_of_le_of_ne (Axes.dot_self_nonneg _) (fun e0 => hsep i hi ?_)
    exact sub_eq_zero.1 (Axes.dot_self_eq_zero e0.symm)
  obtain ⟨b1, b2, b3, b4, b5⟩ := tidesAndFlattening_balance k m u2.consider (by rw [b, ct]) h pw u2.table
    (fun i => (u0.particles i).inertialPosition) hcw
    (fun i => by rw [wc Particle.mass (fun _ => rfl), (a i).1]; exact hm i)
    (fun i hi => (geom i hi).position)
    (fun i hi => by rw [(geom i hi).distance]; exact (Real.sqrt_pos.2 (npos i hi)).ne')
    (fun i hi => by rw [(geom i hi).distance, (geom i hi).position, Real.sq_sqrt (npos i hi).le])
  rw [← ht] at b1 b2 b3 b4 b5
  have ft : ∀ i, (u'.particles i).tides = (pt i).tides := by
    intro i
    have e1 : (pd i).tides = (pt i).tides := by rw [hd.tides_of_disk, hg.tides_of_gr]
    rw [he i, ← e1]
    dsimp only
    split <;> split <;> rfl
  have fs : ∀ i, (u'.particles i).spin = (pt i).spin := by
    intro i
    have e1 : (pd i).spin = (pt i).spin := by
      have := congrArg Particle.spin ((hd.core_disk.trans hg.core_gr) i)
      exact this
    rw [he i, ← e1]
    dsimp only
    split <;> split <;> rfl
  have mw : ∀ i, (pw i).mass = (u0.particles i).mass := fun i => by
    rw [wc Particle.mass (fun _ => rfl), (a i).1]
  have gf : ∀ {A : Type} (f : Tides ℝ → A), (∀ q : Particle ℝ, f q.tides = f (geo q).tides) →
      ∀ i, f (pt i).tides = f (pw i).tides := by
    intro A f hf i
    rw [hf, b3 i, ← hf]
  have fr : ∀ i, (u'.particles i).radius = (pw i).radius := by
    intro i
    have e1 : (pd i).radius = (pw i).radius := by
      have := congrArg Particle.radius ((hd.core_disk.trans (hg.core_gr.trans b2)) i)
      exact this
    rw [he i, ← e1]
    dsimp only
    split <;> split <;> rfl
  refine ⟨?_, fun i hi => ?_, fun i => ?_, ?_, fun i hi => ?_⟩
  · simp only [ft]
    simp only [mw] at b1
    rw [b1]
    refine sum_congr rfl fun i _ => ?_
    unfold pairDefect
    rw [ft, fs, fs]
  · have g := geom i hi
    rw [ft]
    exact ⟨by rw [gf (fun t => t.position) (fun _ => rfl), g.position],
      by rw [gf (fun t => t.velocity) (fun _ => rfl), g.velocity],
      by rw [gf (fun t => t.distance) (fun _ => rfl), g.distance],
      by rw [gf (fun t => t.radialVelocity) (fun _ => rfl), g.radialVelocity],
      by rw [gf (fun t => t.rDotStellarSpin) (fun _ => rfl), g.stellar],
      by rw [gf (fun t => t.rDotPlanetarySpin) (fun _ => rfl), g.planetary]⟩
  · have e1 : (pt i).spin = (pw i).spin := by
      have := congrArg Particle.spin (b2 i)
      exact this
    rw [fs, e1, wc Particle.spin (fun _ => rfl), fr, wc Particle.radius (fun _ => rfl)]
    exact e i
  · simp only [mw] at b4
    simp only [ft]
    exact b4
  · obtain ⟨⟨s1, s2⟩, s3, s4⟩ := b5 i hi
    have fe : ∀ i, (pw i).id = (u0.particles i).id ∧ (pw i).evolution = (u0.particles i).evolution
        ∧ (pw i).tides.scaledDissipationFactor = (u0.particles i).tides.scaledDissipationFactor := by
      intro i
      obtain ⟨x1, x2, x3⟩ := (a i).2.2.2.2.2
      refine ⟨?_, ?_, ?_⟩
      · rw [wc Particle.id (fun _ => rfl), x1]
      · rw [wc Particle.evolution (fun _ => rfl), x2]
      · rw [hw.tides_of_wind, x3]
    refine ⟨hostSigma (pairFactors k h pw u2.table) (u0.particles h) (u0.particles i),
      particleSigma (pairFactors k h pw u2.table) (u0.particles h) (u0.particles i),
      ⟨pairFactors k h pw u2.table, rfl, rfl⟩, ?_, ?_, ?_, ?_⟩
    · rw [ft, s1, fr, mw, gf (fun t => t.distance) (fun _ => rfl)]
      unfold hostSigma
      rw [(fe h).1, (fe i).1, (fe h).2.1, (fe h).2.2]
    · rw [ft, s2, fr, mw, gf (fun t => t.distance) (fun _ => rfl)]
      unfold particleSigma
      rw [(fe h).1, (fe i).1, (fe i).2.1, (fe i).2.2]
    · rw [ft, s3, fr, mw, gf (fun t => t.distance) (fun _ => rfl),
        gf (fun t => t.radialVelocity) (fun _ => rfl)]
      unfold particleSigma
      rw [(fe h).1, (fe i).1, (fe i).2.1, (fe i).2.2]
    · rw [ft, s4]
      unfold ctlTorque
      simp only [Bool.false_eq_true, if_false]
      rw [ft, fs]

end Posidonius.Univ
