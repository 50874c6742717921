import Verif.Props.Builder
import Verif.Props.Config
import Verif.Props.WindBraking

/-! Property C101: a simulation of a closed system, from the particles to any number of iterations. -/

namespace Posidonius.Univ
open Finset
open Evolution (Evolver)

variable {n : Nat}

/-- The bodies of a closed system: positive masses, no disk, and if there is a host of tides, flattening or relativity
all bodies take part in it, with constant time lags, as oblate spheroids, and with the corrections by Kidder. -/
structure ClosedBodies (p : Fin n → Particle ℝ) : Prop where
  mass : ∀ i, 0 < (p i).mass
  disk : ∀ i, ¬ DiskHost (p i)
  tides : (∃ i, TidalHost (p i)) → ∀ i, ∃ a b c,
    (p i).tides.effect = .central (.constantTimeLag a b c) ∨ (p i).tides.effect = .orbiting (.constantTimeLag a b c)
  flattening : (∃ i, FlatteningHost (p i)) → ∀ i, ∃ a,
    (p i).flattening.effect = .central (.oblateSpheroid a) ∨ (p i).flattening.effect = .orbiting (.oblateSpheroid a)
  gr : (∃ i g, RelativityHost g (p i)) → ∀ i,
    (p i).gr.effect = .central .kidder1995 ∨ (p i).gr.effect = .orbiting

section
variable {c0 : Consider} {make : Fin n → Option (Evolver ℝ)} {p0 : Fin n → Particle ℝ} {u : Universe ℝ n}

theorem newUniverse_closed (hc : ClosedBodies p0) (hu : newUniverse c0 make p0 = some u) : Closed u := by
  obtain ⟨h1, h2, -⟩ := C43_consistent hu
  obtain ⟨a, b, c, d⟩ := C43_hosts hu
  obtain ⟨-, -, e⟩ := C42_bodies hu
  refine ⟨h1, h2, ?_, fun i => ?_, fun x => ?_, fun x => ?_, fun x => ?_⟩
  · by_contra x
    obtain ⟨h, dd, e1, -⟩ := d (by simpa using x)
    exact hc.disk h ⟨dd, e1⟩
  · rw [(e i).2.1]
    exact (hc.mass i).ne'
  · obtain ⟨h, e1, e2, e3⟩ := a x
    refine ⟨h, e1, ?_, fun i hi => ?_⟩
    · obtain ⟨x, y, z, w⟩ := hc.tides ⟨h, e2⟩ h
      refine ⟨x, y, z, ?_⟩
      rw [(e h).2.2.2.1]
      rcases w with w | w
      · exact w
      · obtain ⟨_, e2⟩ := e2
        rw [w] at e2
        cases e2
    · obtain ⟨x, y, z, w⟩ := hc.tides ⟨h, e2⟩ i
      refine ⟨x, y, z, ?_⟩
      rw [(e i).2.2.2.1]
      rcases w with w | w
      · exact absurd (e3 i ⟨_, w⟩) hi
      · exact w
  · obtain ⟨h, e1, -, e2, e3⟩ := b x
    refine ⟨h, fun i => (hc.flattening ⟨h, e2⟩ i).choose, e1, ?_, fun i hi => ?_⟩
    · have w := (hc.flattening ⟨h, e2⟩ h).choose_spec
      rw [(e h).2.2.2.2.1]
      rcases w with w | w
      · exact w
      · obtain ⟨_, e2⟩ := e2
        rw [w] at e2
        cases e2
    · have w := (hc.flattening ⟨h, e2⟩ i).choose_spec
      rw [(e i).2.2.2.2.1]
      rcases w with w | w
      · exact absurd (e3 i ⟨_, w⟩) hi
      · exact w
  · obtain ⟨e1, e2, e3⟩ := c x
    refine ⟨_, e1, ?_, fun i hi => ?_⟩
    · rw [(e _).2.2.2.2.2.2.2]
      rcases hc.gr ⟨_, _, e2⟩ u.hosts.mostMassive with w | w
      · exact w
      · rw [e2.2] at w
        cases w
    · rw [(e _).2.2.2.2.2.2.2]
      rcases hc.gr ⟨_, _, e2⟩ i with w | w
      · exact absurd (e3 i _ ⟨by simp, w⟩) hi
      · exact w

theorem newUniverse_centred (hu : newUniverse c0 make p0 = some u)
    (hv : (p0 u.hosts.mostMassive).heliocentricVelocity = 0) : Centred u := by
  obtain ⟨_, -, e⟩ := newUniverse_fields hu
  unfold Centred
  rw [(e _).2.2.2.2.1, hv]

/-- No torque is left over in a universe of newly made particles. -/
theorem C101_torques {k : Consts ℝ} (hu : newUniverse c0 make p0 = some u)
    (hb : ∀ i, ∃ mass radius rg x v w l, configure (Particle.new k mass radius rg x v w) l = some (p0 i)) :
    NoOffTorque u := by
  obtain ⟨_, -, e⟩ := newUniverse_fields hu
  have g : ∀ i, (u.particles i).gr.dAngularMomentumDt = (p0 i).gr.dAngularMomentumDt := by
    intro i
    obtain ⟨ev, -, -, -, -, -, s⟩ := newUniverse_stages hu
    have s := s i
    have e := grSetup_fields u.consider u.hosts.gr p0 i
    dsimp only at s
    generalize centerOfMass (grSetup u.consider u.hosts.gr p0).2 = c at s
    generalize (grSetup u.consider u.hosts.gr p0).2 i = q at e s
    have f : ∃ p, (u.particles i).setRotation p = { toInertial c.1 c.2 q with id := i.val } := by
      split at s
      · exact ⟨_, matchEvolution_fields s⟩
      · exact ⟨u.particles i, s.1⟩
    obtain ⟨r, f⟩ := f
    have f1 := congrArg (fun p => p.gr.dAngularMomentumDt) f
    have f2 := congrArg (fun p => p.gr.dAngularMomentumDt) e
    exact f1.trans f2
  have z : ∀ i, (p0 i).tides.dAngularMomentumDt = 0 ∧ (p0 i).flattening.dAngularMomentumDt = 0
      ∧ (p0 i).gr.dAngularMomentumDt = 0 ∧ (p0 i).wind.dAngularMomentumDt = 0 := by
    intro i
    obtain ⟨mass, radius, rg, x, v, w, l, h⟩ := hb i
    obtain ⟨-, -, -, -, -, -, -, -, -, h1, h2, h3, h4⟩ := C100_body h
    exact ⟨h1, h2, h3, h4⟩
  constructor <;> intro _ i <;> obtain ⟨z1, z2, z3, z4⟩ := z i <;>
    obtain ⟨-, -, -, -, -, -, -, -, e1, e2, -, e3, -⟩ := e i
  · rw [e1, z1]
  · rw [e2, z2]
  · rw [g, z3]
  · rw [e3, z4]

variable {k : Consts ℝ} {m : Models ℝ} {eps2 dt : ℝ} {roche : Fin n → Fin n → ℝ}

theorem leapfrog_center {a b : Universe ℝ n} {time : ℝ} (hc : Closed a)
    (h : leapfrogStep k m eps2 roche dt (dt / 2) time a = some b) :
    massSum b Particle.inertialPosition = massSum a Particle.inertialPosition
      + dt • massSum a Particle.inertialVelocity := by
  obtain ⟨-, mm, mv⟩ := momentum_step hc h
  obtain ⟨_, -, e⟩ := C96_step h
  have : massSum b Particle.inertialPosition = massSum a Particle.inertialPosition
      + (dt / 2) • (massSum a Particle.inertialVelocity + massSum b Particle.inertialVelocity) := by
    unfold massSum
    rw [← sum_add_distrib, smul_sum, ← sum_add_distrib]
    refine sum_congr rfl fun i _ => ?_
    rw [(e i).2.2.1, mm i]
    module
  rw [this]
  unfold massSum
  rw [mv]
  module

/-- LeapFrog: the centre of mass remains at rest at the origin. -/
theorem C101_leapfrog (hc : ClosedBodies p0) (hu : newUniverse c0 make p0 = some u) {u' : Universe ℝ n}
    (h : Steps k m eps2 roche dt u u') :
    massSum u' Particle.inertialVelocity = 0 ∧ massSum u' Particle.inertialPosition = 0 := by
  have c := newUniverse_closed hc hu
  obtain ⟨z1, z2⟩ := C42_center (fun i => (hc.mass i).le) hu
  have key : Closed u' ∧ massSum u' Particle.inertialVelocity = 0 ∧ massSum u' Particle.inertialPosition = 0 := by
    induction h with
    | refl => exact ⟨c, z2, z1⟩
    | step time _ hs ih =>
      obtain ⟨i1, i2, i3⟩ := ih
      obtain ⟨j1, j2, j3⟩ := momentum_step i1 hs
      refine ⟨j1, j3.trans i2, ?_⟩
      rw [leapfrog_center i1 hs, i2, i3, smul_zero, add_zero]
  exact key.2

/-- IAS15: the same, for a star given at rest. -/
theorem C101_ias15 [Ias15.FNormal ℝ] (hc : ClosedBodies p0) (hu : newUniverse c0 make p0 = some u)
    (hv : (p0 u.hosts.mostMassive).heliocentricVelocity = 0) {r : Ias15Run ℝ n}
    (h : Relation.ReflTransGen (Ias15Step k m eps2 roche) (ias15New dt u) r) :
    massSum r.world Particle.inertialVelocity = 0 ∧ massSum r.world Particle.inertialPosition = 0 := by
  obtain ⟨z1, z2⟩ := C42_center (fun i => (hc.mass i).le) hu
  have fr : Fresh (ias15Zero : Ias15.Comp ℝ) :=
    ⟨rfl, rfl, rfl, rfl, by simp [ias15Zero], by simp [ias15Zero]⟩
  obtain ⟨a, b⟩ := C97_momentum (r := ias15New dt u) (newUniverse_closed hc hu) (newUniverse_centred hu hv)
    (fun _ => ⟨fr, fr, fr⟩) h
  refine ⟨a.trans z2, b.trans ?_⟩
  have e : ∑ i, ((ias15New dt u).world.particles i).mass • ((ias15New dt u).world.particles i).inertialVelocity = 0 := z2
  rw [e, smul_zero, add_zero]
  exact z1

/-- WHFast with any coordinates: the same, as long as no two bodies meet. -/
theorem C101_whfast {c : WHFast.Coordinates} (hc : ClosedBodies p0) (hu : newUniverse c0 make p0 = some u)
    (hv : (p0 u.hosts.mostMassive).heliocentricVelocity = 0)
    (ha : ∀ i j, i ≠ j → (p0 i).heliocentricPosition ≠ (p0 j).heliocentricPosition) {r : WHFastRun ℝ n}
    (h : Relation.ReflTransGen (fun a b => WHFastStep k m eps2 roche c dt (dt / 2) a b ∧ Apart b.world)
      (whfastNew u) r) :
    massSum r.world Particle.inertialVelocity = 0 ∧ massSum r.world Particle.inertialPosition = 0 := by
  obtain ⟨z1, z2⟩ := C42_center (fun i => (hc.mass i).le) hu
  obtain ⟨-, rel, e⟩ := C42_bodies hu
  obtain ⟨a, b⟩ := C98_momentum (r := whfastNew u) (by ring) (newUniverse_closed hc hu)
    (fun i => by show 0 < (u.particles i).mass; rw [(e i).2.1]; exact hc.mass i) (newUniverse_centred hu hv)
    (by simp [whfastNew]) (fun x hx => by
      rw [(List.mem_replicate.1 hx).2]
      rfl) (fun i j hij hx => ha i j hij (by
      have := (rel i j).1
      have hx : (u.particles i).inertialPosition = (u.particles j).inertialPosition := hx
      rw [hx, sub_self] at this
      exact (sub_eq_zero.1 this.symm))) h
  refine ⟨a.trans z2, b.trans ?_⟩
  have e : massSum (whfastNew u).world Particle.inertialVelocity = 0 := z2
  rw [e, smul_zero, add_zero]
  exact z1

/-- The run of IAS15 begins at time zero with the step that was asked for and without history. -/
theorem C101_start_ias15 (dt : ℝ) (u : Universe ℝ n) :
    (ias15New dt u).time = 0 ∧ (ias15New dt u).last = 0 ∧ (ias15New dt u).dt = dt ∧ (ias15New dt u).world = u
      ∧ ∀ i, Fresh ((ias15New dt u).arrays i).x ∧ Fresh ((ias15New dt u).arrays i).y ∧ Fresh ((ias15New dt u).arrays i).z := by
  have fr : Fresh (ias15Zero : Ias15.Comp ℝ) :=
    ⟨rfl, rfl, rfl, rfl, by simp [ias15Zero], by simp [ias15Zero]⟩
  exact ⟨by simp [ias15New], by simp [ias15New], rfl, rfl, fun _ => ⟨fr, fr, fr⟩⟩

/-- The clock of WHFast shows the number of iterations times the step. -/
theorem C101_clock_whfast {c : WHFast.Coordinates} {half : ℝ} {r : WHFastRun ℝ n}
    (h : Relation.ReflTransGen (WHFastStep k m eps2 roche c dt half) (whfastNew u) r) :
    ∃ steps : ℕ, r.time = steps * dt := by
  induction h with
  | refl => exact ⟨0, by simp [whfastNew]⟩
  | tail _ hs ih =>
    obtain ⟨steps, ih⟩ := ih
    obtain ⟨fuel, record, hs⟩ := hs
    obtain ⟨_, _, _, _, -, -, -, -, rfl⟩ := whfastStep_parts hs
    exact ⟨steps + 1, by simp only [ih]; push_cast; ring⟩

end

/-! ## A star and a planet with tides, flattening and relativity -/

/-- The calls of the setters for the star. -/
def starSettings : List (Setting ℝ) :=
  [.tides (.central (.constantTimeLag 1 1 1)), .flattening (.central (.oblateSpheroid 1)), .gr (.central .kidder1995)]

/-- The calls of the setters for the planet. -/
def planetSettings : List (Setting ℝ) :=
  [.tides (.orbiting (.constantTimeLag 1 1 1)), .flattening (.orbiting (.oblateSpheroid 1)), .gr .orbiting]

/-- The star and the planet. -/
noncomputable def closedPair (k : Consts ℝ) : Fin 2 → Particle ℝ := fun i =>
  if i = 0 then assigned (Particle.new k 3 1 1 0 0 ⟨0, 0, 1⟩) starSettings
  else assigned (Particle.new k 1 1 1 ⟨1, 2, 3⟩ ⟨0, 1, 0⟩ ⟨0, 1, 1⟩) planetSettings

theorem closedPair_configured (k : Consts ℝ) (i : Fin 2) :
    ∃ mass radius rg x v w l, configure (Particle.new k mass radius rg x v w) l = some (closedPair k i) := by
  by_cases hi : i = 0
  · refine ⟨3, 1, 1, 0, 0, ⟨0, 0, 1⟩, starSettings, ?_⟩
    simp [closedPair, hi, starSettings, assigned, configure, Setting.apply, Setting.assign, viscosityOk,
      TidesEffect.creep, FlatteningEffect.creep, Particle.new, Tides.new, Flattening.new]
  · refine ⟨1, 1, 1, ⟨1, 2, 3⟩, ⟨0, 1, 0⟩, ⟨0, 1, 1⟩, planetSettings, ?_⟩
    simp [closedPair, hi, planetSettings, assigned, configure, Setting.apply, Setting.assign, viscosityOk,
      TidesEffect.creep, FlatteningEffect.creep, Particle.new, Tides.new, Flattening.new]

theorem closedPair_effects (k : Consts ℝ) (i : Fin 2) :
    (closedPair k i).tides.effect
        = (if i = 0 then .central (.constantTimeLag 1 1 1) else .orbiting (.constantTimeLag 1 1 1))
      ∧ (closedPair k i).flattening.effect
        = (if i = 0 then .central (.oblateSpheroid 1) else .orbiting (.oblateSpheroid 1))
      ∧ (closedPair k i).gr.effect = (if i = 0 then .central .kidder1995 else .orbiting)
      ∧ (closedPair k i).disk.effect = .disabled ∧ (closedPair k i).wind.interaction = false
      ∧ (closedPair k i).evolution = .nonEvolving ∧ (closedPair k i).mass = if i = 0 then 3 else 1 := by
  by_cases hi : i = 0 <;>
    simp [closedPair, hi, starSettings, planetSettings, assigned, Setting.assign, Particle.new, Tides.new,
      Flattening.new, Gr.new, Wind.new, Disk.new]

theorem closedPair_closed (k : Consts ℝ) : ClosedBodies (closedPair k) := by
  refine ⟨fun i => ?_, fun i => ?_, fun _ i => ⟨1, 1, 1, ?_⟩, fun _ i => ⟨1, ?_⟩, fun _ i => ?_⟩ <;>
    obtain ⟨h1, h2, h3, h4, -, -, h5⟩ := closedPair_effects k i <;> by_cases hi : i = 0 <;>
    simp only [h1, h2, h3, h4, h5, DiskHost] <;> simp [hi]

theorem closedPair_defined (k : Consts ℝ) : ∃ u, newUniverse askAll noEvolver (closedPair k) = some u
    ∧ u.consider.tides = true ∧ u.consider.flattening = true ∧ u.consider.gr = true ∧ u.hosts.mostMassive = 0 := by
  have eff := closedPair_effects k
  have ht : findHost (fun i => (closedPair k i).tides.effect.isCentral) = some (some 0) := by
    rw [findHost_of (h := 0)]
    · rw [(eff 0).1]; rfl
    · intro j hj
      rw [(eff j).1] at hj
      by_contra h
      simp [h, TidesEffect.isCentral] at hj
  have hf : findHost (fun i => (closedPair k i).flattening.effect.isCentral) = some (some 0) := by
    rw [findHost_of (h := 0)]
    · rw [(eff 0).2.1]; rfl
    · intro j hj
      rw [(eff j).2.1] at hj
      by_contra h
      simp [h, FlatteningEffect.isCentral] at hj
  have hg : findHost (fun i => (closedPair k i).gr.effect.isCentral) = some (some 0) := by
    rw [findHost_of (h := 0)]
    · rw [(eff 0).2.2.1]; rfl
    · intro j hj
      rw [(eff j).2.2.1] at hj
      by_contra h
      simp [h, GrEffect.isCentral] at hj
  have hc : disableUnnecessary askAll (closedPair k) = some ⟨true, true, true, false, false, false⟩ := by
    unfold disableUnnecessary
    have ht' : foundOnce (fun i => (closedPair k i).tides.effect.isCentral) = some true := by
      rw [foundOnce_eq, ht]; rfl
    have hf' : foundOnce (fun i => (closedPair k i).flattening.effect.isCentral) = some true := by
      rw [foundOnce_eq, hf]; rfl
    have hg' : foundOnce (fun i => (closedPair k i).gr.effect.isCentral) = some true := by
      rw [foundOnce_eq, hg]; rfl
    have hd' : foundOnce (fun i => (closedPair k i).disk.effect.isCentral) = some false := by
      rw [foundOnce_eq, findHost_empty.2 fun j => by rw [(eff j).2.2.2.1]; rfl]; rfl
    have hw : foundAny (fun i => (closedPair k i).wind.interaction) = false := by
      rw [← Bool.not_eq_true, foundAny_eq]
      rintro ⟨j, hj⟩
      rw [(eff j).2.2.2.2.1] at hj
      exact absurd hj (by decide)
    have he : foundAny (fun i => (closedPair k i).evolution != .nonEvolving) = false := by
      rw [← Bool.not_eq_true, foundAny_eq]
      rintro ⟨j, hj⟩
      rw [(eff j).2.2.2.2.2.1] at hj
      exact absurd hj (by simp)
    rw [ht', hf', hg', hd', hw, he]
    rfl
  have hm : mostMassive (closedPair k) = some 0 := by
    rw [mostMassive_some]
    refine ⟨by rw [(eff 0).2.2.2.2.2.2]; norm_num, fun j => ?_, fun j hj => absurd hj (by simp)⟩
    rw [(eff 0).2.2.2.2.2.2, (eff j).2.2.2.2.2.2]
    by_cases hj : j = 0 <;> simp [hj]
  have hi : ∃ hosts, findIndices (closedPair k) ⟨true, true, true, false, false, false⟩ = some hosts := by
    unfold findIndices
    simp only [hm, findIf, ht, hf, hg, if_true]
    simp
  obtain ⟨hosts, hi⟩ := hi
  have key : ∃ u, newUniverse askAll noEvolver (closedPair k) = some u := by
    unfold newUniverse
    rw [hc]
    dsimp only
    rw [hi]
    dsimp only
    rw [if_neg (by decide)]
    rw [show traverse (noEvolver (n := 2)) = some fun _ => ⟨.nonEvolving, [], [], [], [], [], 0⟩ by
      unfold traverse noEvolver; simp]
    dsimp only
    simp only [Bool.false_eq_true, if_false]
    unfold traverse
    simp
  obtain ⟨u, hu⟩ := key
  obtain ⟨ev, s1, s2, -⟩ := newUniverse_stages hu
  rw [hc] at s1
  have s1 := Option.some.inj s1
  have s3 := (findIndices_some s2).1
  rw [hm] at s3
  exact ⟨u, hu, by rw [← s1], by rw [← s1], by rw [← s1], (Option.some.inj s3).symm⟩

/-- The pair meets all hypotheses of the theorems. -/
example (m : Models ℝ) (k : Consts ℝ) : ∃ u, newUniverse askAll noEvolver (closedPair k) = some u ∧ ClosedBodies (closedPair k)
    ∧ NoOffTorque u ∧ (closedPair k u.hosts.mostMassive).heliocentricVelocity = 0
    ∧ massSum u Particle.inertialVelocity = 0 := by
  obtain ⟨u, hu, -, -, -, hm⟩ := closedPair_defined k
  refine ⟨u, hu, closedPair_closed k, C101_torques hu (closedPair_configured k), ?_,
    (C101_leapfrog (m := m) (closedPair_closed k) hu (.refl (k := k) (eps2 := 0) (roche := fun _ _ => 0) (dt := 1) u)).1⟩
  rw [hm]
  rfl

end Posidonius.Univ
