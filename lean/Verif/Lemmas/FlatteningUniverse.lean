import Verif.Lemmas.TidesUniverse

/-! Rotational flattening in a whole evaluation of the additional effects. -/

namespace Posidonius.Univ
open Finset
open Gravity (Ignore)

variable {n : Nat}

/-- All bodies are oblate spheroids, `h` is the host. -/
def AllOblate (h : Fin n) (love : Fin n → ℝ) (p : Fin n → Particle ℝ) : Prop :=
  (p h).flattening.effect = .central (.oblateSpheroid (love h))
    ∧ ∀ i, i ≠ h → (p i).flattening.effect = .orbiting (.oblateSpheroid (love i))

theorem AllOblate.congr {h : Fin n} {love : Fin n → ℝ} {p q : Fin n → Particle ℝ} (hc : AllOblate h love p)
    (hq : ∀ i, (q i).flattening.effect = (p i).flattening.effect) : AllOblate h love q := by
  refine ⟨?_, fun i hi => ?_⟩
  · rw [hq]; exact hc.1
  · rw [hq]; exact hc.2 i hi

/-- What `calculate_orthogonal_component_...` and `calculate_radial_component_...` store for a companion. -/
noncomputable def oblateValues (hostLove love : ℝ) (host p : Particle ℝ) : Flattening ℝ :=
  let f := p.flattening
  let fs := p.mass * hostLove * host.normSpin2 * host.radius ^ 5 / 6
  let fp := host.mass * love * p.normSpin2 * p.radius ^ 5 / 6
  { f with
    factorStar := fs, factorPlanet := fp,
    orthogonalStar := -6 * fs * f.rDotStellarSpin / (host.normSpin2 * f.distance ^ 5),
    orthogonalPlanet := -6 * fp * f.rDotPlanetarySpin / (p.normSpin2 * f.distance ^ 5),
    radial := -3 / f.distance ^ 5 * (fp + fs) + 15 / f.distance ^ 7
      * (fs * f.rDotStellarSpin * f.rDotStellarSpin / host.normSpin2
        + fp * f.rDotPlanetarySpin * f.rDotPlanetarySpin / p.normSpin2) }

/-- The force (Bolmont et al. 2015, equation 15). -/
noncomputable def oblateForceOf (hostLove love : ℝ) (host p : Particle ℝ) : Axes ℝ :=
  let f := oblateValues hostLove love host p
  f.radial • f.position + f.orthogonalPlanet • p.spin + f.orthogonalStar • host.spin

theorem flatteningOrthogonal_values {h i : Fin n} (hi : i ≠ h) {love : Fin n → ℝ} {p : Fin n → Particle ℝ}
    (hc : AllOblate h love p) :
    (flatteningOrthogonal h p i).flattening
      = { oblateValues (love h) (love i) (p h) (p i) with radial := (p i).flattening.radial } := by
  have e1 : oblateStarStep (p h) (p i) = { p i with flattening := { (p i).flattening with
      factorStar := (oblateValues (love h) (love i) (p h) (p i)).factorStar,
      orthogonalStar := (oblateValues (love h) (love i) (p h) (p i)).orthogonalStar } } := by
    unfold oblateStarStep
    rw [hc.2 i hi, hc.1]
    simp [oblateValues, FlatteningEffect.hostLoveNumber]
  unfold flatteningOrthogonal
  rw [mapOthers_other hi, mapOthers_other hi, mapOthers_host, e1]
  unfold oblatePlanetStep
  dsimp only
  rw [hc.2 i hi]
  simp [oblateValues, hc.2 i hi]

theorem flatteningOrthogonal_host {h : Fin n} {p : Fin n → Particle ℝ} : flatteningOrthogonal h p h = p h := by
  unfold flatteningOrthogonal
  rw [mapOthers_host, mapOthers_host]

theorem flatteningShapes_oblate (m : Models ℝ) {h : Fin n} {love : Fin n → ℝ} {p : Fin n → Particle ℝ}
    (hc : AllOblate h love p) : flatteningShapes m h p = p := by
  funext i
  unfold flatteningShapes
  by_cases hi : i = h
  · subst hi; rw [mapOthers_host]
  · rw [mapOthers_other hi, hc.2 i hi]
    simp [FlatteningEffect.viscosity]

theorem oblate_acceleration (m : FlatteningModels ℝ) {h : Fin n} {love : Fin n → ℝ} {p : Fin n → Particle ℝ}
    (hc : AllOblate h love p) :
    (∀ i, i ≠ h → (flatteningAcceleration m h p i).flattening = { (p i).flattening with
        acceleration := (1 / (p i).mass) • oblateForce (p h) (p i) })
      ∧ (flatteningAcceleration m h p h).flattening = { (p h).flattening with
        acceleration := (-(1 / (p h).mass)) • ∑ i ∈ univ.erase h, oblateForce (p h) (p i) } := by
  constructor
  · intro i hi
    unfold flatteningAcceleration
    dsimp only
    rw [mapHost_other hi, mapOthers_other hi]
    unfold companionFlatteningAcceleration
    rw [hc.2 i hi]
    simp [flatteningForce, hc.2 i hi]
  · unfold flatteningAcceleration
    dsimp only
    rw [mapHost_host, mapOthers_host, sumOthers_real]
    have : ∑ i ∈ univ.erase h, companionFlatteningForce m (p h) (p i)
        = ∑ i ∈ univ.erase h, oblateForce (p h) (p i) := by
      refine sum_congr rfl fun i hi => ?_
      simp [companionFlatteningForce, hc.2 i (ne_of_mem_erase hi), flatteningForce]
    rw [this]
    simp

theorem oblate_dl (m : FlatteningModels ℝ) {h : Fin n} {love : Fin n → ℝ} {p : Fin n → Particle ℝ}
    (hc : AllOblate h love p) :
    (∀ i, i ≠ h → (flatteningDL m h p i).flattening = { (p i).flattening with
        dAngularMomentumDt := -oblateTorque (p h) (p i) false })
      ∧ (flatteningDL m h p h).flattening = { (p h).flattening with
        dAngularMomentumDt := -∑ i ∈ univ.erase h, oblateTorque (p h) (p i) true } := by
  have e1 : ∀ i, i ≠ h → companionFlatteningDL m (p h) (p i) = { p i with flattening := { (p i).flattening with
      dAngularMomentumDt := -oblateTorque (p h) (p i) false } } := by
    intro i hi
    unfold companionFlatteningDL
    rw [hc.2 i hi]
    simp [flatteningTorque]
  constructor
  · intro i hi
    unfold flatteningDL
    dsimp only
    rw [mapHost_other hi, mapOthers_other hi, e1 i hi]
  · unfold flatteningDL
    dsimp only
    rw [mapHost_host, sumOthers_real, mapOthers_host]
    have : ∑ i ∈ univ.erase h, hostFlatteningDLTerm m (p h) (mapOthers h (companionFlatteningDL m) p i)
        = -∑ i ∈ univ.erase h, oblateTorque (p h) (p i) true := by
      rw [← sum_neg_distrib]
      refine sum_congr rfl fun i hi => ?_
      have hi' := ne_of_mem_erase hi
      rw [mapOthers_other hi', e1 i hi']
      simp [hostFlatteningDLTerm, hc.1, flatteningTorque, oblateTorque]
    rw [this]

/-- The result of `tidesAndFlattening` for the flattening. -/
theorem tidesAndFlattening_flattening (k : Consts ℝ) (m : Models ℝ) (c : Consider) (cf : c.flattening = true)
    (h : Fin n) (p : Fin n → Particle ℝ) (t : Table ℝ) {love : Fin n → ℝ} (hc : AllOblate h love p) :
    let q := (tidesAndFlattening k m true true c h p t).1
    let force := fun i => oblateForceOf (love h) (love i) (p h) (p i)
    let v := fun i => oblateValues (love h) (love i) (p h) (p i)
    (∀ i, i ≠ h → (q i).flattening = { v i with
        acceleration := (1 / (p i).mass) • force i,
        dAngularMomentumDt := -((v i).orthogonalPlanet • (p i).flattening.position.cross (p i).spin) })
      ∧ (q h).flattening.acceleration = (-(1 / (p h).mass)) • ∑ i ∈ univ.erase h, force i
      ∧ (q h).flattening.dAngularMomentumDt
        = -∑ i ∈ univ.erase h, (v i).orthogonalStar • (p i).flattening.position.cross (p h).spin
      ∧ Same core q p := by
  intro q force v
  set t1 := pairFactors k h p t with ht1
  set p1 := (if c.tides then tidesShapes m h (orthogonalComponent t1 h p) else p) with hp1
  set po := flatteningOrthogonal h p1 with hpo
  set p3 := (if c.tides then tidalAcceleration m.tides h (radialComponent k t1 h po) else po) with hp3
  set pr := flatteningRadial h p3 with hpr
  set p4 := flatteningAcceleration m.flattening h pr with hp4
  set p5 := (if c.tides then tidalDL m.tides h p4 else p4) with hp5
  have t1' : Same noTides p1 p :=
    Same.ite ((tidesShapes_frame m h _).trans (orthogonalComponent_frame t1 h p)) (Same.refl _)
  have t3 : Same noTides p3 po :=
    Same.ite ((tidalAcceleration_frame _ h _).trans (radialComponent_frame k t1 h po)) (Same.refl _)
  have t5 : Same noTides p5 p4 := Same.ite (tidalDL_frame _ h _) (Same.refl _)
  have c1 : AllOblate h love p1 := hc.congr fun i => by rw [t1'.flattening_of_tides]
  have hs : flatteningShapes m h po = po := by
    refine flatteningShapes_oblate m (love := love) (c1.congr fun i => ?_)
    by_cases hi : i = h
    · subst hi; rw [hpo, flatteningOrthogonal_host]
    · rw [hpo, flatteningOrthogonal_values hi c1]; rfl
  have hq : q = flatteningDL m.flattening h p5 := by
    simp only [q, tidesAndFlattening, cf, Bool.or_true, Bool.true_or, Bool.true_and, if_true]
    rw [← ht1, ← hp1, ← hpo, hs]
  have k1 : ∀ {A : Type} (f : Particle ℝ → A), (∀ q, f q = f (core q)) → ∀ i, f (p1 i) = f (p i) := by
    intro A f hf i
    rw [hf, t1'.core_tides i, ← hf]
  have ko : Same core po p1 := (flatteningOrthogonal_frame h p1).core_flattening
  have kr : Same core pr p := (flatteningRadial_frame h p3).core_flattening.trans
    (t3.core_tides.trans (ko.trans t1'.core_tides))
  have k4 : Same core p4 p := (flatteningAcceleration_frame _ h pr).core_flattening.trans kr
  have k5 : Same core p5 p := t5.core_tides.trans k4
  have kq : Same core q p := by rw [hq]; exact (flatteningDL_frame _ h p5).core_flattening.trans k5
  have cf' : ∀ {r : Fin n → Particle ℝ}, Same core r p → ∀ {A : Type} (f : Particle ℝ → A),
      (∀ q, f q = f (core q)) → ∀ i, f (r i) = f (p i) := by
    intro r hr A f hf i
    rw [hf, hr i, ← hf]
  have v1 : ∀ i, oblateValues (love h) (love i) (p1 h) (p1 i) = v i := by
    intro i
    simp only [v, oblateValues]
    rw [k1 Particle.mass (fun _ => rfl), k1 Particle.mass (fun _ => rfl), k1 Particle.radius (fun _ => rfl),
      k1 Particle.radius (fun _ => rfl), k1 Particle.normSpin2 (fun _ => rfl),
      k1 Particle.normSpin2 (fun _ => rfl), t1'.flattening_of_tides]
  have vo : ∀ i, i ≠ h → (p3 i).flattening = { v i with radial := (p i).flattening.radial } := by
    intro i hi
    rw [t3.flattening_of_tides, hpo, flatteningOrthogonal_values hi c1, v1, t1'.flattening_of_tides]
  have eh3 : (p3 h).flattening = (p h).flattening := by
    rw [t3.flattening_of_tides, hpo, flatteningOrthogonal_host, t1'.flattening_of_tides]
  have k3 : Same core p3 p := t3.core_tides.trans (ko.trans t1'.core_tides)
  have vr : ∀ i, i ≠ h → (pr i).flattening = v i := by
    intro i hi
    rw [hpr]
    unfold flatteningRadial
    rw [mapOthers_other hi]
    unfold flatteningRadialStep
    have ho : (p3 i).flattening.effect.isOrbiting = true := by
      rw [vo i hi]
      show (p i).flattening.effect.isOrbiting = true
      rw [hc.2 i hi]; rfl
    rw [if_pos ho, vo i hi, cf' k3 Particle.normSpin2 (fun _ => rfl), cf' k3 Particle.normSpin2 (fun _ => rfl)]
    simp [v, oblateValues]
  have ehr : (pr h).flattening = (p h).flattening := by
    rw [hpr]
    unfold flatteningRadial
    rw [mapOthers_host, eh3]
  have cr : AllOblate h love pr := by
    refine hc.congr fun i => ?_
    by_cases hi : i = h
    · subst hi; rw [ehr]
    · rw [vr i hi]; rfl
  obtain ⟨a1, a2⟩ := oblate_acceleration m.flattening cr
  have f1 : ∀ i, i ≠ h → oblateForce (pr h) (pr i) = force i := by
    intro i hi
    unfold oblateForce
    rw [vr i hi, cf' kr Particle.spin (fun _ => rfl), cf' kr Particle.spin (fun _ => rfl)]
    rfl
  have c5 : AllOblate h love p5 := by
    refine cr.congr fun i => ?_
    rw [t5.flattening_of_tides]
    by_cases hi : i = h
    · subst hi; rw [a2]
    · rw [a1 i hi]
  obtain ⟨d1, d2⟩ := oblate_dl m.flattening c5
  refine ⟨fun i hi => ?_, ?_, ?_, kq⟩
  · rw [hq, d1 i hi, t5.flattening_of_tides, a1 i hi, vr i hi, f1 i hi, cf' kr Particle.mass (fun _ => rfl)]
    unfold oblateTorque
    simp only [Bool.false_eq_true, if_false]
    rw [t5.flattening_of_tides, a1 i hi, vr i hi, cf' k5 Particle.spin (fun _ => rfl)]
    rfl
  · rw [hq, d2]
    dsimp only
    rw [t5.flattening_of_tides, a2]
    dsimp only
    rw [cf' kr Particle.mass (fun _ => rfl), sum_congr rfl (fun i hi => f1 i (ne_of_mem_erase hi))]
  · rw [hq, d2]
    dsimp only
    congr 1
    refine sum_congr rfl fun i hi => ?_
    have hi' := ne_of_mem_erase hi
    unfold oblateTorque
    simp only [if_true]
    rw [t5.flattening_of_tides, a1 i hi', vr i hi', cf' k5 Particle.spin (fun _ => rfl)]
    rfl

/-- The geometry of a companion: host centred coordinates and products with given spins. -/
structure FlatteningGeometry (r wh wi : Axes ℝ) (f : Flattening ℝ) : Prop where
  position : f.position = r
  distance : f.distance = Real.sqrt r.norm2
  stellar : f.rDotStellarSpin = r.dot wh
  planetary : f.rDotPlanetarySpin = r.dot wi

theorem flatteningCopy_geometry {h i : Fin n} (hi : i ≠ h) (p : Fin n → Particle ℝ)
    (hc : (p h).flattening.effect.isCentral = true) (ho : (p i).flattening.effect.isOrbiting = true)
    (hs : Helio h p) :
    FlatteningGeometry ((p i).inertialPosition - (p h).inertialPosition) (p h).spin (p i).spin
      (flatteningInitialize h (flatteningCopyHeliocentric h p) i).flattening := by
  obtain ⟨h1, h2, h3, h4⟩ := hs i hi
  have e0 : (flatteningCopyHeliocentric h p h) = { p h with flattening := { (p h).flattening with
      position := (p h).heliocentricPosition, velocity := (p h).heliocentricVelocity,
      distance := (p h).heliocentricDistance } } := by
    simp [flatteningCopyHeliocentric, hc]
  have e1 : (flatteningCopyHeliocentric h p i) = { p i with flattening := { (p i).flattening with
      position := (p i).heliocentricPosition, velocity := (p i).heliocentricVelocity,
      distance := (p i).heliocentricDistance } } := by
    simp [flatteningCopyHeliocentric, hc, mapOthers_other hi, mapHost_other hi, ho]
  have hc' : (flatteningCopyHeliocentric h p h).flattening.effect.isCentral = true := by rw [e0]; exact hc
  unfold flatteningInitialize
  rw [if_pos hc', mapOthers_other hi, mapHost_host, mapHost_other hi, e0, e1]
  dsimp only
  rw [if_pos ho]
  constructor
  · exact h1
  · rw [← h1]; exact h3
  · dsimp only; rw [h1]
  · dsimp only; rw [h1]

theorem flatteningConvert_geometry {h i : Fin n} (hi : i ≠ h) (p : Fin n → Particle ℝ)
    (hc : (p h).flattening.effect.isCentral = true) (ho : (p i).flattening.effect.isOrbiting = true) :
    FlatteningGeometry ((p i).inertialPosition - (p h).inertialPosition) (p h).spin (p i).spin
      (flatteningInitialize h (flatteningInertialToHeliocentric h p) i).flattening := by
  have e0 : (flatteningInertialToHeliocentric h p h) = { p h with flattening := { (p h).flattening with
      position := Axes.zero, velocity := Axes.zero, distance := lit 0 } } := by
    simp [flatteningInertialToHeliocentric, hc]
  have e1 : ∃ t, flatteningInertialToHeliocentric h p i = { p i with flattening := t }
      ∧ t.effect = (p i).flattening.effect
      ∧ t.position = (p i).inertialPosition - (p h).inertialPosition
      ∧ t.distance = Real.sqrt ((p i).inertialPosition - (p h).inertialPosition).norm2 := by
    unfold flatteningInertialToHeliocentric
    rw [if_pos hc, mapOthers_other hi, mapHost_host, mapHost_other hi]
    dsimp only
    rw [if_pos ho]
    exact ⟨_, rfl, rfl, rfl, rfl⟩
  obtain ⟨t, e1, t0, t1, t3⟩ := e1
  have hc' : (flatteningInertialToHeliocentric h p h).flattening.effect.isCentral = true := by rw [e0]; exact hc
  unfold flatteningInitialize
  rw [if_pos hc', mapOthers_other hi, mapHost_host, mapHost_other hi, e0, e1]
  dsimp only
  rw [t0, if_pos ho]
  exact ⟨t1, t3, by dsimp only; rw [t1], by dsimp only; rw [t1]⟩

theorem flatteningInit_effect (f : Fin n → (Fin n → Particle ℝ) → (Fin n → Particle ℝ)) (h : Fin n)
    (p : Fin n → Particle ℝ) (hf : ∀ i, (f h p i).flattening.effect = (p i).flattening.effect) (i : Fin n) :
    (flatteningInitialize h (f h p) i).flattening.effect = (p i).flattening.effect := by
  unfold flatteningInitialize
  split
  · by_cases hi : i = h
    · subst hi; rw [mapOthers_host, mapHost_host]; exact hf i
    · rw [mapOthers_other hi, mapHost_other hi]
      dsimp only
      split <;> exact hf i
  · exact hf i

theorem flatteningCopy_effect (h : Fin n) (p : Fin n → Particle ℝ) (i : Fin n) :
    (flatteningCopyHeliocentric h p i).flattening.effect = (p i).flattening.effect := by
  unfold flatteningCopyHeliocentric
  dsimp only
  split
  · by_cases hi : i = h
    · subst hi; rw [mapOthers_host, mapHost_host]
    · rw [mapOthers_other hi, mapHost_other hi]
      split <;> rfl
  · rfl

theorem flatteningConvert_effect (h : Fin n) (p : Fin n → Particle ℝ) (i : Fin n) :
    (flatteningInertialToHeliocentric h p i).flattening.effect = (p i).flattening.effect := by
  unfold flatteningInertialToHeliocentric
  split
  · by_cases hi : i = h
    · subst hi; rw [mapOthers_host, mapHost_host]
    · rw [mapOthers_other hi, mapHost_other hi]
      dsimp only
      split <;> rfl
  · rfl

/-- The state of the flattening after `initialize` and the refresh of the spins. -/
theorem preparedFlattening {k : Consts ℝ} {time : ℝ} {evolution dL acc : Bool} {u0 u1 u2 : Universe ℝ n}
    {h : Fin n} (hok : HostsOk u0) (hh : u0.hosts.flattening = some h) (ct : u0.consider.flattening = true)
    (hda : (dL || acc) = true)
    (h1 : initializeAll dL acc (inertialToHeliocentric u0) = some u1)
    (h2 : calculateSpinAndEvolving k time evolution u1 = some u2) :
    (∀ i, (u2.particles i).mass = (u0.particles i).mass
        ∧ (u2.particles i).inertialPosition = (u0.particles i).inertialPosition
        ∧ (u2.particles i).flattening.effect = (u0.particles i).flattening.effect
        ∧ (u2.particles i).normSpin2 = (u2.particles i).spin.norm2)
      ∧ u2.consider = u0.consider ∧ u2.hosts = u0.hosts
      ∧ ((u0.particles h).flattening.effect.isCentral = true → ∀ i, i ≠ h →
          (u0.particles i).flattening.effect.isOrbiting = true →
          FlatteningGeometry ((u0.particles i).inertialPosition - (u0.particles h).inertialPosition)
            (u0.particles h).spin (u0.particles i).spin (u2.particles i).flattening)
      ∧ (∀ i, ∃ inertia : ℝ, (u2.particles i).spin = (u0.particles i).angularMomentum.sdiv inertia
          ∧ inertia ≠ 0
          ∧ ((evolution && u0.consider.evolution) = false → inertia = (u0.particles i).momentOfInertia
            ∧ (u2.particles i).radius = (u0.particles i).radius)) := by
  set u := inertialToHeliocentric u0 with hu
  have hup : ∀ i, (u.particles i).mass = (u0.particles i).mass
      ∧ (u.particles i).inertialPosition = (u0.particles i).inertialPosition
      ∧ (u.particles i).angularMomentum = (u0.particles i).angularMomentum
      ∧ (u.particles i).flattening = (u0.particles i).flattening
      ∧ (u.particles i).spin = (u0.particles i).spin
      ∧ (u.particles i).momentOfInertia = (u0.particles i).momentOfInertia
      ∧ (u.particles i).radius = (u0.particles i).radius := by
    intro i
    rw [hu]
    unfold inertialToHeliocentric
    dsimp only
    by_cases hi : i = u0.hosts.mostMassive
    · subst hi
      rw [mapHost_host, mapOthers_host]
      exact ⟨rfl, rfl, rfl, rfl, rfl, rfl, rfl⟩
    · rw [mapHost_other hi, mapOthers_other hi]
      exact ⟨rfl, rfl, rfl, rfl, rfl, rfl, rfl⟩
  have hcore := initializeAll_core h1
  obtain ⟨pw, pt, pf, pg, pd, hw, ht, hf, hg, hd, uc, -, uh, -, -, he⟩ := initializeAll_stages h1
  obtain ⟨hsp, uc2, -, uh2, -⟩ := calculateSpinAndEvolving_step h2
  have hcons : u.consider = u0.consider := rfl
  have hhost : u.hosts = u0.hosts := rfl
  have hpt := initializeEffect_frame tidesCopyHeliocentric_frame tidesInertialToHeliocentric_frame
        tidesInitialize_frame ht
  have cpt : Same core pt u.particles := hpt.core_tides.trans hw.core_wind
  have fpt : ∀ i, (pt i).flattening = (u0.particles i).flattening := fun i => by
    rw [hpt.flattening_of_tides, hw.flattening_of_wind, (hup i).2.2.2.1]
  have ce : ∀ {A : Type} (f : Particle ℝ → A), (∀ q, f q = f (core q)) →
      ∀ i, f (pt i) = f (u.particles i) := by
    intro A f hf' i
    rw [hf', cpt i, ← hf']
  have htd : ∀ i, (u1.particles i).flattening = (pf i).flattening := by
    intro i
    have e : (pd i).flattening = (pf i).flattening := by
      rw [hd.flattening_of_disk, hg.flattening_of_gr]
    rw [he i, ← e]
    split <;> rfl
  have hact : ((dL && u.consider.flattening) || (acc && u.consider.flattening)) = true := by
    rw [hcons, ct]; simpa using hda
  unfold initializeEffect at hf
  rw [if_pos hact, hhost] at hf
  have key : (∀ i, (pf i).flattening.effect = (pt i).flattening.effect) ∧
      ((pt h).flattening.effect.isCentral = true → ∀ i, i ≠ h → (pt i).flattening.effect.isOrbiting = true →
        FlatteningGeometry ((pt i).inertialPosition - (pt h).inertialPosition)
          (pt h).spin (pt i).spin (pf i).flattening) := by
    split at hf
    · rename_i hm
      have hmm := (hok.flattening ct).1 hm
      rw [hh] at hmm
      injection hmm with hmm
      injection hf with hf
      subst hf
      rw [← hmm]
      refine ⟨flatteningInit_effect _ _ _ (flatteningCopy_effect h pt), fun hc i hi ho => ?_⟩
      refine flatteningCopy_geometry hi pt hc ho ?_
      have hel := inertialToHeliocentric_helio u0
      rw [← hmm, ← hu] at hel
      intro j hj
      obtain ⟨a, b, c, d⟩ := hel j hj
      rw [ce Particle.inertialPosition (fun _ => rfl), ce Particle.inertialPosition (fun _ => rfl),
        ce Particle.inertialVelocity (fun _ => rfl), ce Particle.inertialVelocity (fun _ => rfl),
        ce Particle.heliocentricPosition (fun _ => rfl), ce Particle.heliocentricVelocity (fun _ => rfl),
        ce Particle.heliocentricDistance (fun _ => rfl), ce Particle.heliocentricRadialVelocity (fun _ => rfl)]
      exact ⟨a, b, c, d⟩
    · rename_i hm
      split at hf
      · rename_i hall
        exact absurd (hok.allFlattening hall ct) hm
      · rw [hh] at hf
        simp only [withHost, Option.some.injEq] at hf
        subst hf
        exact ⟨flatteningInit_effect _ _ _ (flatteningConvert_effect h pt),
          fun hc i hi ho => flatteningConvert_geometry hi pt hc ho⟩
  have cr : ∀ {A : Type} (f : Particle ℝ → A), (∀ q, f q = f (core q)) →
      ∀ i, f (u1.particles i) = f (u.particles i) := by
    intro A f hf' i
    rw [hf', hcore i, ← hf']
  have sp : ∀ {A : Type} (f : Particle ℝ → A), (∀ q, f q = f (noSpin q)) →
      ∀ i, f (u2.particles i) = f (u1.particles i) := by
    intro A f hf' i
    rw [hf', spinAndEvolving_noSpin (hsp i), ← hf']
  refine ⟨fun i => ?_, uc2.trans uc, uh2.trans uh, ?_, fun i => ?_⟩
  · obtain ⟨a1, a2, a3, a4, -⟩ := hup i
    refine ⟨?_, ?_, ?_, ?_⟩
    · rw [sp Particle.mass (fun _ => rfl), cr Particle.mass (fun _ => rfl), a1]
    · rw [sp Particle.inertialPosition (fun _ => rfl), cr Particle.inertialPosition (fun _ => rfl), a2]
    · rw [sp (fun q => q.flattening.effect) (fun _ => rfl), htd, key.1, fpt]
    · obtain ⟨inertia, s1, s2, s3, s4⟩ := spinAndEvolving_spin (hsp i)
      exact s4
  · intro hc i hi ho
    have g := key.2 (by rw [fpt]; exact hc) i hi (by rw [fpt]; exact ho)
    rw [ce Particle.inertialPosition (fun _ => rfl), ce Particle.inertialPosition (fun _ => rfl),
      ce Particle.spin (fun _ => rfl), ce Particle.spin (fun _ => rfl),
      (hup i).2.1, (hup h).2.1, (hup i).2.2.2.2.1, (hup h).2.2.2.2.1, ← htd i] at g
    rw [sp (fun q => q.flattening) (fun _ => rfl)]
    exact g
  · obtain ⟨inertia, s1, s2, s3, s4⟩ := spinAndEvolving_spin (hsp i)
    refine ⟨inertia, ?_, ?_, fun hev => ?_⟩
    · rw [s1, cr Particle.angularMomentum (fun _ => rfl), (hup i).2.2.1]
    · simpa using s2
    · rw [uc] at s3
      rw [(s3 hev).1, (s3 hev).2.2, cr Particle.momentOfInertia (fun _ => rfl), (hup i).2.2.2.2.2.1,
        cr Particle.radius (fun _ => rfl), (hup i).2.2.2.2.2.2]
      exact ⟨rfl, rfl⟩

/-- Everything about the flattening of an evaluation of the additional effects: `P` is the state in which
the forces are computed. -/
theorem flattening_evaluation {k : Consts ℝ} {m : Models ℝ} {eps2 time : ℝ} {evolution : Bool}
    {ignore : Ignore} {u0 u' : Universe ℝ n} {h : Fin n} {love : Fin n → ℝ}
    (hok : HostsOk u0) (hh : u0.hosts.flattening = some h) (ct : u0.consider.flattening = true)
    (hc : AllOblate h love u0.particles)
    (hu : calculateAdditionalEffects k m eps2 time evolution true true ignore (inertialToHeliocentric u0)
      = some u') :
    ∃ P : Fin n → Particle ℝ,
      (∀ i, (P i).mass = (u0.particles i).mass ∧ (P i).normSpin2 = (P i).spin.norm2
        ∧ (P i).spin = (u'.particles i).spin ∧ (P i).radius = (u'.particles i).radius)
      ∧ (∀ i, i ≠ h → FlatteningGeometry ((u0.particles i).inertialPosition - (u0.particles h).inertialPosition)
            (u0.particles h).spin (u0.particles i).spin (P i).flattening)
      ∧ (∀ i, ∃ inertia : ℝ, (P i).spin = (u0.particles i).angularMomentum.sdiv inertia
          ∧ inertia ≠ 0
          ∧ ((evolution && u0.consider.evolution) = false → inertia = (u0.particles i).momentOfInertia
            ∧ (P i).radius = (u0.particles i).radius))
      ∧ (∀ i, i ≠ h → (u'.particles i).flattening.acceleration
            = (1 / (P i).mass) • oblateForceOf (love h) (love i) (P h) (P i)
          ∧ (u'.particles i).flattening.dAngularMomentumDt
            = -((oblateValues (love h) (love i) (P h) (P i)).orthogonalPlanet
              • (P i).flattening.position.cross (P i).spin))
      ∧ (u'.particles h).flattening.acceleration
          = (-(1 / (P h).mass)) • ∑ i ∈ univ.erase h, oblateForceOf (love h) (love i) (P h) (P i)
      ∧ (u'.particles h).flattening.dAngularMomentumDt
        = -∑ i ∈ univ.erase h, (oblateValues (love h) (love i) (P h) (P i)).orthogonalStar
            • (P i).flattening.position.cross (P h).spin := by
  unfold calculateAdditionalEffects at hu
  split at hu
  · simp at hu
  rename_i u1 h1
  split at hu
  · simp at hu
  rename_i u2 h2
  obtain ⟨a, b, c, d, e⟩ := preparedFlattening hok hh ct rfl h1 h2
  obtain ⟨pw, pt, pg, pd, hw, ht, -, hg, hd, -, -, -, he⟩ := effects_stages hu
  obtain ⟨h', hh', ht⟩ := ht (by rw [b, ct]; simp)
  rw [c, hok.same ct, hh] at hh'
  injection hh' with hh'
  subst hh'
  have wc : ∀ {A : Type} (f : Particle ℝ → A), (∀ q, f q = f (noWind q)) →
      ∀ i, f (pw i) = f (u2.particles i) := by
    intro A f hf i
    rw [hf, hw i, ← hf]
  have hcw : AllOblate h love pw := hc.congr fun i => by
    rw [hw.flattening_of_wind, (a i).2.2.1]
  obtain ⟨b1, b2, b3, b4⟩ := tidesAndFlattening_flattening k m u2.consider (by rw [b, ct]) h pw u2.table hcw
  rw [← ht] at b1 b2 b3 b4
  have ft : ∀ i, (u'.particles i).flattening = (pt i).flattening := by
    intro i
    have e1 : (pd i).flattening = (pt i).flattening := by rw [hd.flattening_of_disk, hg.flattening_of_gr]
    rw [he i, ← e1]
    dsimp only
    split <;> split <;> rfl
  have cpd : Same core pd pw := hd.core_disk.trans (hg.core_gr.trans b4)
  have fs : ∀ i, (u'.particles i).spin = (pw i).spin := by
    intro i
    have e1 : (pd i).spin = (pw i).spin := by
      have := congrArg Particle.spin (cpd i)
      exact this
    rw [he i, ← e1]
    dsimp only
    split <;> split <;> rfl
  have fr : ∀ i, (u'.particles i).radius = (pw i).radius := by
    intro i
    have e1 : (pd i).radius = (pw i).radius := by
      have := congrArg Particle.radius (cpd i)
      exact this
    rw [he i, ← e1]
    dsimp only
    split <;> split <;> rfl
  refine ⟨pw, fun i => ⟨?_, ?_, (fs i).symm, (fr i).symm⟩, fun i hi => ?_, fun i => ?_, fun i hi => ?_, ?_, ?_⟩
  · rw [wc Particle.mass (fun _ => rfl), (a i).1]
  · rw [wc Particle.normSpin2 (fun _ => rfl), (a i).2.2.2, wc Particle.spin (fun _ => rfl)]
  · rw [hw.flattening_of_wind]
    exact d (by rw [hc.1]; rfl) i hi (by rw [hc.2 i hi]; rfl)
  · rw [wc Particle.spin (fun _ => rfl), wc Particle.radius (fun _ => rfl)]
    exact e i
  · rw [ft, b1 i hi]
    exact ⟨rfl, rfl⟩
  · rw [ft]; exact b2
  · rw [ft]; exact b3

end Posidonius.Univ
